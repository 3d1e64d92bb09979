import Verif.Model.DivApi

/-!
# Quotient and remainder by a scalar: the `.0`/`.1` projections of the `div_rem` functions
-/

namespace I256

variable {w : Nat}

namespace U

/-- `div_ulimb`, src/shared/limb.rs L81-83. -/
def divULimb (oc : Bool) (x : Limbs w) (n : BitVec w) : Res (Limbs w) := (divRemULimb oc x n).map (·.1)
/-- `wrapping_div_ulimb`, src/shared/limb.rs L481-483. -/
def wrappingDivULimb (x : Limbs w) (n : BitVec w) : Res (Limbs w) :=
  (wrappingDivRemULimb x n).map (·.1)
/-- `overflowing_div_rem_ulimb`, src/shared/limb.rs L602-604. -/
def overflowingDivRemULimb (x : Limbs w) (n : BitVec w) : Res ((Limbs w × BitVec w) × Bool) :=
  (wrappingDivRemULimb x n).map (·, false)
/-- `overflowing_div_ulimb`, src/shared/limb.rs L613-616. -/
def overflowingDivULimb (x : Limbs w) (n : BitVec w) : Res (Limbs w × Bool) :=
  (overflowingDivRemULimb x n).map fun (value, overflowed) => (value.1, overflowed)
/-- `checked_div_ulimb`, src/shared/limb.rs L850-852. -/
def checkedDivULimb (x : Limbs w) (n : BitVec w) : Res (Option (Limbs w)) :=
  (checkedDivRemULimb x n).map fun o => o.map (·.1)
/-- `rem_ulimb`, src/shared/limb.rs L90-92. -/
def remULimb (oc : Bool) (x : Limbs w) (n : BitVec w) : Res (BitVec w) := (divRemULimb oc x n).map (·.2)
/-- `wrapping_rem_ulimb`, src/shared/limb.rs L491-493. -/
def wrappingRemULimb (x : Limbs w) (n : BitVec w) : Res (BitVec w) :=
  (wrappingDivRemULimb x n).map (·.2)
/-- `overflowing_rem_ulimb`, src/shared/limb.rs L625-628. -/
def overflowingRemULimb (x : Limbs w) (n : BitVec w) : Res (BitVec w × Bool) :=
  (overflowingDivRemULimb x n).map fun (value, overflowed) => (value.2, overflowed)
/-- `checked_rem_ulimb`, src/shared/limb.rs L860-862. -/
def checkedRemULimb (x : Limbs w) (n : BitVec w) : Res (Option (BitVec w)) :=
  (checkedDivRemULimb x n).map fun o => o.map (·.2)

/-- `div_uwide`, src/shared/limb.rs L170-172. -/
def divUWide (oc : Bool) (x : Limbs w) (n : BitVec (w + w)) : Res (Limbs w) := (divRemUWide oc x n).map (·.1)
/-- `wrapping_div_uwide`, src/shared/limb.rs L503-505. -/
def wrappingDivUWide (x : Limbs w) (n : BitVec (w + w)) : Res (Limbs w) :=
  (wrappingDivRemUWide x n).map (·.1)
/-- `overflowing_div_rem_uwide`, src/shared/limb.rs L638-640. -/
def overflowingDivRemUWide (x : Limbs w) (n : BitVec (w + w)) : Res ((Limbs w × BitVec (w + w)) × Bool) :=
  (wrappingDivRemUWide x n).map (·, false)
/-- `overflowing_div_uwide`, src/shared/limb.rs L649-652. -/
def overflowingDivUWide (x : Limbs w) (n : BitVec (w + w)) : Res (Limbs w × Bool) :=
  (overflowingDivRemUWide x n).map fun (value, overflowed) => (value.1, overflowed)
/-- `checked_div_uwide`, src/shared/limb.rs L927-929. -/
def checkedDivUWide (x : Limbs w) (n : BitVec (w + w)) : Res (Option (Limbs w)) :=
  (checkedDivRemUWide x n).map fun o => o.map (·.1)
/-- `rem_uwide`, src/shared/limb.rs L179-181. -/
def remUWide (oc : Bool) (x : Limbs w) (n : BitVec (w + w)) : Res (BitVec (w + w)) := (divRemUWide oc x n).map (·.2)
/-- `wrapping_rem_uwide`, src/shared/limb.rs L513-515. -/
def wrappingRemUWide (x : Limbs w) (n : BitVec (w + w)) : Res (BitVec (w + w)) :=
  (wrappingDivRemUWide x n).map (·.2)
/-- `overflowing_rem_uwide`, src/shared/limb.rs L661-664. -/
def overflowingRemUWide (x : Limbs w) (n : BitVec (w + w)) : Res (BitVec (w + w) × Bool) :=
  (overflowingDivRemUWide x n).map fun (value, overflowed) => (value.2, overflowed)
/-- `checked_rem_uwide`, src/shared/limb.rs L937-939. -/
def checkedRemUWide (x : Limbs w) (n : BitVec (w + w)) : Res (Option (BitVec (w + w))) :=
  (checkedDivRemUWide x n).map fun o => o.map (·.2)

end U

namespace I

/-- `div_ulimb`, src/shared/limb.rs L81-83. -/
def divULimb (oc : Bool) (x : Limbs w) (n : BitVec w) : Res (Limbs w) := (divRemULimb oc x n).map (·.1)
/-- `wrapping_div_ulimb`, src/shared/limb.rs L481-483. -/
def wrappingDivULimb (oc : Bool) (x : Limbs w) (n : BitVec w) : Res (Limbs w) :=
  (wrappingDivRemULimb oc x n).map (·.1)
/-- `overflowing_div_rem_ulimb`, src/shared/limb.rs L602-604. -/
def overflowingDivRemULimb (oc : Bool) (x : Limbs w) (n : BitVec w) : Res ((Limbs w × BitVec w) × Bool) :=
  (wrappingDivRemULimb oc x n).map (·, false)
/-- `overflowing_div_ulimb`, src/shared/limb.rs L613-616. -/
def overflowingDivULimb (oc : Bool) (x : Limbs w) (n : BitVec w) : Res (Limbs w × Bool) :=
  (overflowingDivRemULimb oc x n).map fun (value, overflowed) => (value.1, overflowed)
/-- `checked_div_ulimb`, src/shared/limb.rs L850-852. -/
def checkedDivULimb (oc : Bool) (x : Limbs w) (n : BitVec w) : Res (Option (Limbs w)) :=
  (checkedDivRemULimb oc x n).map fun o => o.map (·.1)
/-- `rem_ulimb`, src/shared/limb.rs L90-92. -/
def remULimb (oc : Bool) (x : Limbs w) (n : BitVec w) : Res (BitVec w) := (divRemULimb oc x n).map (·.2)
/-- `wrapping_rem_ulimb`, src/shared/limb.rs L491-493. -/
def wrappingRemULimb (oc : Bool) (x : Limbs w) (n : BitVec w) : Res (BitVec w) :=
  (wrappingDivRemULimb oc x n).map (·.2)
/-- `overflowing_rem_ulimb`, src/shared/limb.rs L625-628. -/
def overflowingRemULimb (oc : Bool) (x : Limbs w) (n : BitVec w) : Res (BitVec w × Bool) :=
  (overflowingDivRemULimb oc x n).map fun (value, overflowed) => (value.2, overflowed)
/-- `checked_rem_ulimb`, src/shared/limb.rs L860-862. -/
def checkedRemULimb (oc : Bool) (x : Limbs w) (n : BitVec w) : Res (Option (BitVec w)) :=
  (checkedDivRemULimb oc x n).map fun o => o.map (·.2)

/-- `div_uwide`, src/shared/limb.rs L170-172. -/
def divUWide (oc : Bool) (x : Limbs w) (n : BitVec (w + w)) : Res (Limbs w) := (divRemUWide oc x n).map (·.1)
/-- `wrapping_div_uwide`, src/shared/limb.rs L503-505. -/
def wrappingDivUWide (oc : Bool) (x : Limbs w) (n : BitVec (w + w)) : Res (Limbs w) :=
  (wrappingDivRemUWide oc x n).map (·.1)
/-- `overflowing_div_rem_uwide`, src/shared/limb.rs L638-640. -/
def overflowingDivRemUWide (oc : Bool) (x : Limbs w) (n : BitVec (w + w)) : Res ((Limbs w × BitVec (w + w)) × Bool) :=
  (wrappingDivRemUWide oc x n).map (·, false)
/-- `overflowing_div_uwide`, src/shared/limb.rs L649-652. -/
def overflowingDivUWide (oc : Bool) (x : Limbs w) (n : BitVec (w + w)) : Res (Limbs w × Bool) :=
  (overflowingDivRemUWide oc x n).map fun (value, overflowed) => (value.1, overflowed)
/-- `checked_div_uwide`, src/shared/limb.rs L927-929. -/
def checkedDivUWide (oc : Bool) (x : Limbs w) (n : BitVec (w + w)) : Res (Option (Limbs w)) :=
  (checkedDivRemUWide oc x n).map fun o => o.map (·.1)
/-- `rem_uwide`, src/shared/limb.rs L179-181. -/
def remUWide (oc : Bool) (x : Limbs w) (n : BitVec (w + w)) : Res (BitVec (w + w)) := (divRemUWide oc x n).map (·.2)
/-- `wrapping_rem_uwide`, src/shared/limb.rs L513-515. -/
def wrappingRemUWide (oc : Bool) (x : Limbs w) (n : BitVec (w + w)) : Res (BitVec (w + w)) :=
  (wrappingDivRemUWide oc x n).map (·.2)
/-- `overflowing_rem_uwide`, src/shared/limb.rs L661-664. -/
def overflowingRemUWide (oc : Bool) (x : Limbs w) (n : BitVec (w + w)) : Res (BitVec (w + w) × Bool) :=
  (overflowingDivRemUWide oc x n).map fun (value, overflowed) => (value.2, overflowed)
/-- `checked_rem_uwide`, src/shared/limb.rs L937-939. -/
def checkedRemUWide (oc : Bool) (x : Limbs w) (n : BitVec (w + w)) : Res (Option (BitVec (w + w))) :=
  (checkedDivRemUWide oc x n).map fun o => o.map (·.2)

/-- `div_ilimb`, src/int/limb.rs L79-81. -/
def divILimb (oc : Bool) (x : Limbs w) (n : BitVec w) : Res (Limbs w) := (divRemILimb oc x n).map (·.1)
/-- `wrapping_div_ilimb`, src/int/limb.rs L590-592. -/
def wrappingDivILimb (x : Limbs w) (n : BitVec w) : Res (Limbs w) :=
  (wrappingDivRemILimb x n).map (·.1)
/-- `overflowing_div_ilimb`, src/int/limb.rs L1300-1303. -/
def overflowingDivILimb (x : Limbs w) (n : BitVec w) : Res (Limbs w × Bool) :=
  (overflowingDivRemILimb x n).map fun (value, overflowed) => (value.1, overflowed)
/-- `checked_div_ilimb`, src/int/limb.rs L1883-1885. -/
def checkedDivILimb (x : Limbs w) (n : BitVec w) : Res (Option (Limbs w)) :=
  (checkedDivRemILimb x n).map fun o => o.map (·.1)
/-- `rem_ilimb`, src/int/limb.rs L88-90. -/
def remILimb (oc : Bool) (x : Limbs w) (n : BitVec w) : Res (BitVec w) := (divRemILimb oc x n).map (·.2)
/-- `wrapping_rem_ilimb`, src/int/limb.rs L600-602. -/
def wrappingRemILimb (x : Limbs w) (n : BitVec w) : Res (BitVec w) :=
  (wrappingDivRemILimb x n).map (·.2)
/-- `overflowing_rem_ilimb`, src/int/limb.rs L1312-1315. -/
def overflowingRemILimb (x : Limbs w) (n : BitVec w) : Res (BitVec w × Bool) :=
  (overflowingDivRemILimb x n).map fun (value, overflowed) => (value.2, overflowed)
/-- `checked_rem_ilimb`, src/int/limb.rs L1893-1895. -/
def checkedRemILimb (x : Limbs w) (n : BitVec w) : Res (Option (BitVec w)) :=
  (checkedDivRemILimb x n).map fun o => o.map (·.2)

/-- `div_iwide`, src/int/limb.rs L164-166. -/
def divIWide (oc : Bool) (x : Limbs w) (n : BitVec (w + w)) : Res (Limbs w) := (divRemIWide oc x n).map (·.1)
/-- `wrapping_div_iwide`, src/int/limb.rs L720-722. -/
def wrappingDivIWide (x : Limbs w) (n : BitVec (w + w)) : Res (Limbs w) :=
  (wrappingDivRemIWide x n).map (·.1)
/-- `overflowing_div_iwide`, src/int/limb.rs L1411-1414. -/
def overflowingDivIWide (x : Limbs w) (n : BitVec (w + w)) : Res (Limbs w × Bool) :=
  (overflowingDivRemIWide x n).map fun (value, overflowed) => (value.1, overflowed)
/-- `checked_div_iwide`, src/int/limb.rs L1964-1966. -/
def checkedDivIWide (x : Limbs w) (n : BitVec (w + w)) : Res (Option (Limbs w)) :=
  (checkedDivRemIWide x n).map fun o => o.map (·.1)
/-- `rem_iwide`, src/int/limb.rs L173-175. -/
def remIWide (oc : Bool) (x : Limbs w) (n : BitVec (w + w)) : Res (BitVec (w + w)) := (divRemIWide oc x n).map (·.2)
/-- `wrapping_rem_iwide`, src/int/limb.rs L730-732. -/
def wrappingRemIWide (x : Limbs w) (n : BitVec (w + w)) : Res (BitVec (w + w)) :=
  (wrappingDivRemIWide x n).map (·.2)
/-- `overflowing_rem_iwide`, src/int/limb.rs L1423-1426. -/
def overflowingRemIWide (x : Limbs w) (n : BitVec (w + w)) : Res (BitVec (w + w) × Bool) :=
  (overflowingDivRemIWide x n).map fun (value, overflowed) => (value.2, overflowed)
/-- `checked_rem_iwide`, src/int/limb.rs L1974-1976. -/
def checkedRemIWide (x : Limbs w) (n : BitVec (w + w)) : Res (Option (BitVec (w + w))) :=
  (checkedDivRemIWide x n).map fun o => o.map (·.2)

end I

end I256
