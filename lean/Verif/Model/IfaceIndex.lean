import Verif.Model.Iface

/-!
# Model of `get_interface_index_by_name()`: `libaddr/iface.cpp`
-/

namespace Verif.Iface

/-- `get_interface_index_by_name()`, iface.cpp:228-231. `indexOf` is `if_nametoindex()`, which gets a C string; 0 is "no such
interface". -/
def indexByName (indexOf : Str → Nat) (name : Str) : Nat := indexOf (cstr name)

end Verif.Iface
