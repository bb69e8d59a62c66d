import Verif.LibLaws
import Verif.LibOpt
import Verif.LibLoad

set_option autoImplicit false

/-!
# The library can be loaded with C functions that satisfy the laws (C108)
-/

namespace Minim.Fix

open Minim.Sx Minim.Core Minim.Jit Minim.Lib

theorem lawP_loads : (loadAll lawP 42 library startV).isSome = true := by decide +kernel

end Minim.Fix
