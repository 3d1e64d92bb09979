import Verif.Model.Limb

/-!
# The signed helpers of `src/math/bigint.rs`

They are public but not used by the crate itself, whose signed kernels write the same steps out.
-/

namespace I256

variable {w : Nat}

/-- `carrying_add_i32/i64`, src/math/bigint.rs L58-62. -/
def carryingAddI (lhs rhs : BitVec w) (carry : Bool) : BitVec w × Bool :=
  let (v, c0) := sAddO lhs rhs
  let (v, c1) := sAddO v (boolLimb w carry)
  (v, c0 ^^ c1)

/-- `borrowing_sub_i32/i64`, src/math/bigint.rs L68-72. -/
def borrowingSubI (lhs rhs : BitVec w) (borrow : Bool) : BitVec w × Bool :=
  let (v, b0) := sSubO lhs rhs
  let (v, b1) := sSubO v (boolLimb w borrow)
  (v, b0 ^^ b1)

end I256
