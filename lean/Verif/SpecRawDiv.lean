import Verif.SpecRawForms
import Verif.SpecDiv

/-!
# What the four forms of a division by a scalar have to do
-/

namespace I256

/-- The four forms of a division by a nonzero scalar.  `P` says when long division panics, `ov` when the
quotient does not fit and `G` what the result has to be: the wrapping form returns it, the overflowing form
returns it with the flag `ov`, the checked form returns it or, if `ov`, `None`, and the operator panics if `ov`
in a build with overflow checks. -/
def ScalarForms {α : Type} (oc : Bool) (P ov : Prop) (G : α → Prop) (wrapping : Res α)
    (over : Res (α × Bool)) (checked : Res (Option α)) (op : Res α) : Prop :=
  Yields P G wrapping ∧
  Yields P (fun p => G p.1 ∧ (p.2 = true ↔ ov)) over ∧
  Yields P (fun o => (o = none ↔ ov) ∧ ∀ v, o = some v → G v) checked ∧
  Yields (P ∨ (oc = true ∧ ov)) G op

/-- The four forms of a division by a zero scalar.  `Z` says when the kernel panics and `G` what it returns
otherwise: the checked form returns `None` and the operator panics in a build with overflow checks. -/
def ZeroForms {α : Type} (oc : Bool) (Z : Prop) (G : α → Prop) (wrapping : Res α)
    (over : Res (α × Bool)) (checked : Res (Option α)) (op : Res α) : Prop :=
  Yields Z G wrapping ∧
  Yields Z (fun p => G p.1 ∧ p.2 = false) over ∧
  checked = .ok none ∧
  Yields (oc = true ∨ Z) G op

end I256
