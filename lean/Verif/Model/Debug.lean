import Verif.Model.Write

/-!
# `Debug`
-/

namespace I256

variable {w : Nat}

/-- `Debug::fmt`, src/shared/traits.rs L119-124, for the unsigned types. -/
def U.fmtDebug (oc : Bool) (f : Write.Flags) (x : Limbs w) : Res (List Byte) := U.fmtDisplay oc f x

/-- `Debug::fmt`, src/shared/traits.rs L119-124, for the signed types. -/
def I.fmtDebug (oc : Bool) (f : Write.Flags) (x : Limbs w) : Res (List Byte) := I.fmtDisplay oc f x

end I256
