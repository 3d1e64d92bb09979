import Verif.Model.RawForms
import Verif.Model.RawDivForms

/-!
# Literal model of addition, subtraction and multiplication with a scalar

The methods with a scalar of one or two limbs above the kernels, on arrays in memory order.  See `Raw.lean`
for the vocabulary; `cf` is the kind of build.
-/

namespace I256

variable {w : Nat}

namespace Raw

open _root_.I256.Raw.Div (Cfg)

namespace U

/-! `ulimb` -/

/-- `checked_add_ulimb`, src/shared/limb.rs L794-801. -/
def checkedAddULimb (be : Bool) (x : Limbs w) (n : BitVec w) : Res (Option (Limbs w)) :=
  Pow.checked (overflowingAddULimb be x n)
/-- `wrapping_sub_ulimb`, src/uint/limb.rs L34-37. -/
def wrappingSubULimb (be : Bool) (x : Limbs w) (n : BitVec w) : Res (Limbs w) :=
  wrappingOf (Sub.wrappingLimb be x n)
/-- `checked_sub_ulimb`, src/shared/limb.rs L808-815. -/
def checkedSubULimb (be : Bool) (x : Limbs w) (n : BitVec w) : Res (Option (Limbs w)) :=
  Pow.checked (overflowingSubULimb be x n)
/-- `sub_ulimb`, src/shared/limb.rs L28-37. -/
def subULimb (cf : Cfg) (be : Bool) (x : Limbs w) (n : BitVec w) : Res (Limbs w) :=
  opOf cf (wrappingSubULimb be x n) (checkedSubULimb be x n)
/-- `wrapping_mul_ulimb`, src/uint/limb.rs L63-94. -/
def wrappingMulULimb (be : Bool) (x : Limbs w) (n : BitVec w) : Res (Limbs w) :=
  wrappingOf (Mul.wrappingLimb be x n)
/-- `overflowing_mul_ulimb`, src/uint/limb.rs L432-435. -/
def overflowingMulULimb (be : Bool) (x : Limbs w) (n : BitVec w) : Res (Limbs w × Bool) :=
  overflowingOf (Mul.overflowingLimb be x n)
/-- `checked_mul_ulimb`, src/shared/limb.rs L822-829. -/
def checkedMulULimb (be : Bool) (x : Limbs w) (n : BitVec w) : Res (Option (Limbs w)) :=
  Pow.checked (overflowingMulULimb be x n)
/-- `mul_ulimb`, src/shared/limb.rs L44-53. -/
def mulULimb (cf : Cfg) (be : Bool) (x : Limbs w) (n : BitVec w) : Res (Limbs w) :=
  opOf cf (wrappingMulULimb be x n) (checkedMulULimb be x n)

/-! `uwide` -/

/-- `wrapping_add_uwide`, src/uint/limb.rs L117-120. -/
def wrappingAddUWide (be : Bool) (x : Limbs w) (n : BitVec (w + w)) : Res (Limbs w) :=
  wrappingOf (Add.wrappingWide be x n)
/-- `overflowing_add_uwide`, src/uint/limb.rs L446-449. -/
def overflowingAddUWide (be : Bool) (x : Limbs w) (n : BitVec (w + w)) : Res (Limbs w × Bool) :=
  overflowingOf (Add.overflowingWide be x n)
/-- `checked_add_uwide`, src/shared/limb.rs L871-878. -/
def checkedAddUWide (be : Bool) (x : Limbs w) (n : BitVec (w + w)) : Res (Option (Limbs w)) :=
  Pow.checked (overflowingAddUWide be x n)
/-- `add_uwide`, src/shared/limb.rs L101-110. -/
def addUWide (cf : Cfg) (be : Bool) (x : Limbs w) (n : BitVec (w + w)) : Res (Limbs w) :=
  opOf cf (wrappingAddUWide be x n) (checkedAddUWide be x n)
/-- `wrapping_sub_uwide`, src/uint/limb.rs L128-131. -/
def wrappingSubUWide (be : Bool) (x : Limbs w) (n : BitVec (w + w)) : Res (Limbs w) :=
  wrappingOf (Sub.wrappingWide be x n)
/-- `overflowing_sub_uwide`, src/uint/limb.rs L458-461. -/
def overflowingSubUWide (be : Bool) (x : Limbs w) (n : BitVec (w + w)) : Res (Limbs w × Bool) :=
  overflowingOf (Sub.overflowingWide be x n)
/-- `checked_sub_uwide`, src/shared/limb.rs L885-892. -/
def checkedSubUWide (be : Bool) (x : Limbs w) (n : BitVec (w + w)) : Res (Option (Limbs w)) :=
  Pow.checked (overflowingSubUWide be x n)
/-- `sub_uwide`, src/shared/limb.rs L117-126. -/
def subUWide (cf : Cfg) (be : Bool) (x : Limbs w) (n : BitVec (w + w)) : Res (Limbs w) :=
  opOf cf (wrappingSubUWide be x n) (checkedSubUWide be x n)
/-- `wrapping_mul_uwide`, src/uint/limb.rs L157-160. -/
def wrappingMulUWide (be : Bool) (x : Limbs w) (n : BitVec (w + w)) : Res (Limbs w) :=
  wrappingOf (Mul.wrappingWide be x n)
/-- `overflowing_mul_uwide`, src/uint/limb.rs L489-492. -/
def overflowingMulUWide (be : Bool) (x : Limbs w) (n : BitVec (w + w)) : Res (Limbs w × Bool) :=
  overflowingOf (Mul.overflowingWide be x n)
/-- `checked_mul_uwide`, src/shared/limb.rs L899-906. -/
def checkedMulUWide (be : Bool) (x : Limbs w) (n : BitVec (w + w)) : Res (Option (Limbs w)) :=
  Pow.checked (overflowingMulUWide be x n)
/-- `mul_uwide`, src/shared/limb.rs L133-142. -/
def mulUWide (cf : Cfg) (be : Bool) (x : Limbs w) (n : BitVec (w + w)) : Res (Limbs w) :=
  opOf cf (wrappingMulUWide be x n) (checkedMulUWide be x n)

end U

namespace I

/-! `ulimb` -/

/-- `checked_add_ulimb`, src/shared/limb.rs L794-801. -/
def checkedAddULimb (be : Bool) (x : Limbs w) (n : BitVec w) : Res (Option (Limbs w)) :=
  Pow.checked (overflowingAddULimb be x n)
/-- `add_ulimb`, src/shared/limb.rs L12-21. -/
def addULimb (cf : Cfg) (be : Bool) (x : Limbs w) (n : BitVec w) : Res (Limbs w) :=
  opOf cf (wrappingAddULimb be x n) (checkedAddULimb be x n)
/-- `checked_sub_ulimb`, src/shared/limb.rs L808-815. -/
def checkedSubULimb (be : Bool) (x : Limbs w) (n : BitVec w) : Res (Option (Limbs w)) :=
  Pow.checked (overflowingSubULimb be x n)
/-- `sub_ulimb`, src/shared/limb.rs L28-37. -/
def subULimb (cf : Cfg) (be : Bool) (x : Limbs w) (n : BitVec w) : Res (Limbs w) :=
  opOf cf (wrappingSubULimb be x n) (checkedSubULimb be x n)
/-- `wrapping_mul_ulimb`, src/int/limb.rs L512-515. -/
def wrappingMulULimb (be : Bool) (x : Limbs w) (n : BitVec w) : Res (Limbs w) :=
  wrappingOf (Mul.wrappingLimb be x n)
/-- `overflowing_mul_ulimb`, src/int/limb.rs L1260-1263. -/
def overflowingMulULimb (be : Bool) (x : Limbs w) (n : BitVec w) : Res (Limbs w × Bool) :=
  overflowingOf (Mul.overflowingULimbS be x n)
/-- `checked_mul_ulimb`, src/shared/limb.rs L822-829. -/
def checkedMulULimb (be : Bool) (x : Limbs w) (n : BitVec w) : Res (Option (Limbs w)) :=
  Pow.checked (overflowingMulULimb be x n)
/-- `mul_ulimb`, src/shared/limb.rs L44-53. -/
def mulULimb (cf : Cfg) (be : Bool) (x : Limbs w) (n : BitVec w) : Res (Limbs w) :=
  opOf cf (wrappingMulULimb be x n) (checkedMulULimb be x n)

/-! `ilimb` -/

/-- `wrapping_add_ilimb`, src/int/limb.rs L475-478. -/
def wrappingAddILimb (be : Bool) (x : Limbs w) (n : BitVec w) : Res (Limbs w) :=
  wrappingOf (Add.sWrappingILimb be x n)
/-- `overflowing_add_ilimb`, src/int/limb.rs L1225-1228. -/
def overflowingAddILimb (be : Bool) (x : Limbs w) (n : BitVec w) : Res (Limbs w × Bool) :=
  overflowingOf (Add.sOverflowingILimb be x n)
/-- `checked_add_ilimb`, src/int/limb.rs L1823-1830. -/
def checkedAddILimb (be : Bool) (x : Limbs w) (n : BitVec w) : Res (Option (Limbs w)) :=
  Pow.checked (overflowingAddILimb be x n)
/-- `add_ilimb`, src/int/limb.rs L14-23. -/
def addILimb (cf : Cfg) (be : Bool) (x : Limbs w) (n : BitVec w) : Res (Limbs w) :=
  opOf cf (wrappingAddILimb be x n) (checkedAddILimb be x n)
/-- `wrapping_sub_ilimb`, src/int/limb.rs L497-500. -/
def wrappingSubILimb (be : Bool) (x : Limbs w) (n : BitVec w) : Res (Limbs w) :=
  wrappingOf (Sub.sWrappingILimb be x n)
/-- `overflowing_sub_ilimb`, src/int/limb.rs L1247-1250. -/
def overflowingSubILimb (be : Bool) (x : Limbs w) (n : BitVec w) : Res (Limbs w × Bool) :=
  overflowingOf (Sub.sOverflowingILimb be x n)
/-- `checked_sub_ilimb`, src/int/limb.rs L1837-1844. -/
def checkedSubILimb (be : Bool) (x : Limbs w) (n : BitVec w) : Res (Option (Limbs w)) :=
  Pow.checked (overflowingSubILimb be x n)
/-- `sub_ilimb`, src/int/limb.rs L30-39. -/
def subILimb (cf : Cfg) (be : Bool) (x : Limbs w) (n : BitVec w) : Res (Limbs w) :=
  opOf cf (wrappingSubILimb be x n) (checkedSubILimb be x n)
/-- `wrapping_mul_ilimb`, src/int/limb.rs L525-528. -/
def wrappingMulILimb (be : Bool) (x : Limbs w) (n : BitVec w) : Res (Limbs w) :=
  wrappingOf (Mul.wrappingILimb be x n)
/-- `overflowing_mul_ilimb`, src/int/limb.rs L1273-1276. -/
def overflowingMulILimb (be : Bool) (x : Limbs w) (n : BitVec w) : Res (Limbs w × Bool) :=
  overflowingOf (Mul.overflowingILimbS be x n)
/-- `checked_mul_ilimb`, src/int/limb.rs L1851-1858. -/
def checkedMulILimb (be : Bool) (x : Limbs w) (n : BitVec w) : Res (Option (Limbs w)) :=
  Pow.checked (overflowingMulILimb be x n)
/-- `mul_ilimb`, src/int/limb.rs L46-55. -/
def mulILimb (cf : Cfg) (be : Bool) (x : Limbs w) (n : BitVec w) : Res (Limbs w) :=
  opOf cf (wrappingMulILimb be x n) (checkedMulILimb be x n)

/-! `uwide` -/

/-- `wrapping_add_uwide`, src/int/limb.rs L611-614. -/
def wrappingAddUWide (be : Bool) (x : Limbs w) (n : BitVec (w + w)) : Res (Limbs w) :=
  wrappingOf (Add.sWrappingUWide be x n)
/-- `overflowing_add_uwide`, src/int/limb.rs L1325-1328. -/
def overflowingAddUWide (be : Bool) (x : Limbs w) (n : BitVec (w + w)) : Res (Limbs w × Bool) :=
  overflowingOf (Add.sOverflowingUWide be x n)
/-- `checked_add_uwide`, src/shared/limb.rs L871-878. -/
def checkedAddUWide (be : Bool) (x : Limbs w) (n : BitVec (w + w)) : Res (Option (Limbs w)) :=
  Pow.checked (overflowingAddUWide be x n)
/-- `add_uwide`, src/shared/limb.rs L101-110. -/
def addUWide (cf : Cfg) (be : Bool) (x : Limbs w) (n : BitVec (w + w)) : Res (Limbs w) :=
  opOf cf (wrappingAddUWide be x n) (checkedAddUWide be x n)
/-- `wrapping_sub_uwide`, src/int/limb.rs L632-635. -/
def wrappingSubUWide (be : Bool) (x : Limbs w) (n : BitVec (w + w)) : Res (Limbs w) :=
  wrappingOf (Sub.sWrappingUWide be x n)
/-- `overflowing_sub_uwide`, src/int/limb.rs L1347-1350. -/
def overflowingSubUWide (be : Bool) (x : Limbs w) (n : BitVec (w + w)) : Res (Limbs w × Bool) :=
  overflowingOf (Sub.sOverflowingUWide be x n)
/-- `checked_sub_uwide`, src/shared/limb.rs L885-892. -/
def checkedSubUWide (be : Bool) (x : Limbs w) (n : BitVec (w + w)) : Res (Option (Limbs w)) :=
  Pow.checked (overflowingSubUWide be x n)
/-- `sub_uwide`, src/shared/limb.rs L117-126. -/
def subUWide (cf : Cfg) (be : Bool) (x : Limbs w) (n : BitVec (w + w)) : Res (Limbs w) :=
  opOf cf (wrappingSubUWide be x n) (checkedSubUWide be x n)
/-- `wrapping_mul_uwide`, src/int/limb.rs L653-656. -/
def wrappingMulUWide (be : Bool) (x : Limbs w) (n : BitVec (w + w)) : Res (Limbs w) :=
  wrappingOf (Mul.wrappingWide be x n)
/-- `overflowing_mul_uwide`, src/int/limb.rs L1371-1374. -/
def overflowingMulUWide (be : Bool) (x : Limbs w) (n : BitVec (w + w)) : Res (Limbs w × Bool) :=
  overflowingOf (Mul.overflowingUWideS be x n)
/-- `checked_mul_uwide`, src/shared/limb.rs L899-906. -/
def checkedMulUWide (be : Bool) (x : Limbs w) (n : BitVec (w + w)) : Res (Option (Limbs w)) :=
  Pow.checked (overflowingMulUWide be x n)
/-- `mul_uwide`, src/shared/limb.rs L133-142. -/
def mulUWide (cf : Cfg) (be : Bool) (x : Limbs w) (n : BitVec (w + w)) : Res (Limbs w) :=
  opOf cf (wrappingMulUWide be x n) (checkedMulUWide be x n)

/-! `iwide` -/

/-- `wrapping_add_iwide`, src/int/limb.rs L621-624. -/
def wrappingAddIWide (be : Bool) (x : Limbs w) (n : BitVec (w + w)) : Res (Limbs w) :=
  wrappingOf (Add.sWrappingIWide be x n)
/-- `overflowing_add_iwide`, src/int/limb.rs L1336-1339. -/
def overflowingAddIWide (be : Bool) (x : Limbs w) (n : BitVec (w + w)) : Res (Limbs w × Bool) :=
  overflowingOf (Add.sOverflowingIWide be x n)
/-- `checked_add_iwide`, src/int/limb.rs L1904-1911. -/
def checkedAddIWide (be : Bool) (x : Limbs w) (n : BitVec (w + w)) : Res (Option (Limbs w)) :=
  Pow.checked (overflowingAddIWide be x n)
/-- `add_iwide`, src/int/limb.rs L99-108. -/
def addIWide (cf : Cfg) (be : Bool) (x : Limbs w) (n : BitVec (w + w)) : Res (Limbs w) :=
  opOf cf (wrappingAddIWide be x n) (checkedAddIWide be x n)
/-- `wrapping_sub_iwide`, src/int/limb.rs L643-646. -/
def wrappingSubIWide (be : Bool) (x : Limbs w) (n : BitVec (w + w)) : Res (Limbs w) :=
  wrappingOf (Sub.sWrappingIWide be x n)
/-- `overflowing_sub_iwide`, src/int/limb.rs L1358-1361. -/
def overflowingSubIWide (be : Bool) (x : Limbs w) (n : BitVec (w + w)) : Res (Limbs w × Bool) :=
  overflowingOf (Sub.sOverflowingIWide be x n)
/-- `checked_sub_iwide`, src/int/limb.rs L1918-1925. -/
def checkedSubIWide (be : Bool) (x : Limbs w) (n : BitVec (w + w)) : Res (Option (Limbs w)) :=
  Pow.checked (overflowingSubIWide be x n)
/-- `sub_iwide`, src/int/limb.rs L115-124. -/
def subIWide (cf : Cfg) (be : Bool) (x : Limbs w) (n : BitVec (w + w)) : Res (Limbs w) :=
  opOf cf (wrappingSubIWide be x n) (checkedSubIWide be x n)
/-- `wrapping_mul_iwide`, src/int/limb.rs L663-666. -/
def wrappingMulIWide (be : Bool) (x : Limbs w) (n : BitVec (w + w)) : Res (Limbs w) :=
  wrappingOf (Mul.wrappingIWide be x n)
/-- `overflowing_mul_iwide`, src/int/limb.rs L1384-1387. -/
def overflowingMulIWide (be : Bool) (x : Limbs w) (n : BitVec (w + w)) : Res (Limbs w × Bool) :=
  overflowingOf (Mul.overflowingIWideS be x n)
/-- `checked_mul_iwide`, src/int/limb.rs L1932-1939. -/
def checkedMulIWide (be : Bool) (x : Limbs w) (n : BitVec (w + w)) : Res (Option (Limbs w)) :=
  Pow.checked (overflowingMulIWide be x n)
/-- `mul_iwide`, src/int/limb.rs L131-140. -/
def mulIWide (cf : Cfg) (be : Bool) (x : Limbs w) (n : BitVec (w + w)) : Res (Limbs w) :=
  opOf cf (wrappingMulIWide be x n) (checkedMulIWide be x n)

end I

end Raw

end I256
