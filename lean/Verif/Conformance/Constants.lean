import Verif.Model.AddrText
import Verif.Model.AddrName
import Verif.Model.Iface
import Verif.Model.Parser
import Verif.Model.Socket
import Verif.Model.Unix

/-!
# The numbers of the headers

The specifications use some of these numbers by name; here they are all compared with what the headers give.
-/

namespace Verif

/-- The values on Linux of the constants of `sys/socket.h`, `netinet/in.h`, `net/if.h` and `netdb.h` which the model uses. -/
theorem system_constants :
    AF_UNIX = 1 ∧ AF_INET = 2 ∧ AF_INET6 = 10 ∧ IPPROTO_IP = 0 ∧ IPPROTO_TCP = 6 ∧ IPPROTO_UDP = 17 ∧ sizeofIn = 16 ∧ sizeofIn6 = 28
      ∧ SOCK_STREAM = 1 ∧ SOCK_DGRAM = 2 ∧ SOCK_NONBLOCK = 2048 ∧ SOCK_CLOEXEC = 524288 ∧ IFF_BROADCAST = 2 ∧ IFF_POINTOPOINT = 16
      ∧ NI_NUMERICHOST = 1 ∧ NI_NUMERICSERV = 2 ∧ NI_NOFQDN = 4 ∧ NI_NAMEREQD = 8 ∧ NI_DGRAM = 16 := by decide

/-- The constants of addr.h:115-133 and addr_parser.h:72-77. -/
theorem library_constants :
    [STRING_IP_ADDRESS, STRING_IP_BRACKET_ADDRESS, STRING_IP_PORT, STRING_IP_PORT_NAME, STRING_IP_MASK, STRING_IP_BRACKET_MASK,
      STRING_IP_MASK_AS_ADDRESS, STRING_IP_MASK_IF_NEEDED, STRING_IP_DEFAULT_AS_ASTERISK, STRING_IP_DEFAULT_AS_IPV4]
        = (List.range 10).map (fun n => (1 : BitVec 32) <<< n)
      ∧ [SORT_IPV6_FIRST, SORT_IPV4_FIRST, SORT_FULL, SORT_MERGE, SORT_NO_EMPTY] = (List.range 5).map (fun n => (1 : BitVec 64) <<< n) := by
  decide

end Verif
