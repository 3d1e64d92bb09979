import Verif.Spec

/-!
# Specification vocabulary for long division

Integer functions only, used to say exactly when Knuth's algorithm D has to correct an estimated
quotient digit.  In the first three definitions `B` is the limb base, `n` the number of limbs of the
divisor, `u` and `v` the numerator and the divisor after normalisation (`v` has its top bit set).
-/

namespace I256

/-- The quotient digit that Knuth's algorithm D estimates from the leading limbs: `U` is the current
partial remainder (`n + 1` limbs), `v` the normalised divisor (`n` limbs). -/
def digitEst (B n U v : Nat) : Nat :=
  if U / B ^ n < v / B ^ (n - 1) then U / B ^ (n - 2) / (v / B ^ (n - 2)) else B - 1

/-- The partial remainder of `u` divided by `v` before quotient digit `j` is computed. -/
def partRem (B u v j : Nat) : Nat := u / B ^ j % (v * B)

/-- The estimate of quotient digit `j` is wrong, so the algorithm has to correct it ("add back"). -/
def overEst (B n u v j : Nat) : Bool := digitEst B n (partRem B u v j) v != partRem B u v j / v

/-- The number of binary digits of `y`. -/
def bitLen (y : Nat) : Nat := if y = 0 then 0 else y.log2 + 1

/-- The number of significant limbs of `w` bits. -/
def nLimbs (w y : Nat) : Nat := (bitLen y + w - 1) / w

/-- The number of bits by which the divisor is shifted to set the top bit of its top limb. -/
def normShift (w y : Nat) : Nat := w * nLimbs w y - bitLen y

/-- Long division of `x` by `y` with limbs of `w` bits has to correct its estimate of quotient digit
`j`. Divisors of one limb and numerators `x ≤ y` do not use estimates. -/
def addBack (w x y j : Nat) : Bool :=
  decide (2 ≤ nLimbs w y) && decide (y < x) && decide (j + nLimbs w y ≤ nLimbs w x) &&
    overEst (2 ^ w) (nLimbs w y) (x * 2 ^ normShift w y) (y * 2 ^ normShift w y) j

/-- The number with limb `j` equal to 1 if `f j` and 0 otherwise, for `j < k`. -/
def flagNum (w : Nat) (f : Nat → Bool) : Nat → Nat
  | 0 => 0
  | k + 1 => flagNum w f k + if f k then 2 ^ (w * k) else 0

/-- What long division leaves in the remainder in addition to `x % y` when it corrects an estimate
(`N` limbs, `y` with fewer than `N` significant limbs): a 1 in limb `j`, counted above the highest
bit of `y`, for every corrected digit `j`. -/
def strayRem (w N x y : Nat) : Nat := 2 ^ bitLen y * flagNum w (addBack w x y) (N - nLimbs w y)

/-- Long division of `x` by an `N`-limb `y` panics: `y` has no leading zero limb and some estimate has
to be corrected. -/
def DivPanics (w N x y : Nat) : Prop := nLimbs w y = N ∧ ∃ j, addBack w x y j = true

/-- No estimate has to be corrected. -/
def Clean (w x y : Nat) : Prop := ∀ j, addBack w x y j = false

/-- Long division of `x` by `y` on `N` limbs returns, with nothing left over in the remainder. -/
def DivExact (w N x y : Nat) : Prop := ¬ DivPanics w N x y ∧ strayRem w N x y = 0

instance (w N x y : Nat) : Decidable (DivPanics w N x y) :=
  decidable_of_iff (nLimbs w y = N ∧ ∃ j, j < nLimbs w x + 1 ∧ addBack w x y j = true) <| by
    refine and_congr_right fun _ => ⟨fun ⟨j, _, h⟩ => ⟨j, h⟩, fun ⟨j, h⟩ => ⟨j, ?_, h⟩⟩
    simp only [addBack, Bool.and_eq_true, decide_eq_true_eq] at h
    omega

instance (w N x y : Nat) : Decidable (DivExact w N x y) := by unfold DivExact; infer_instance

/-- `r` panics iff `P`, and otherwise returns a value that satisfies `Q`. -/
def Yields {α : Type} (P : Prop) (Q : α → Prop) (r : Res α) : Prop :=
  (P → r = .panic) ∧ (¬ P → ∃ v, r = .ok v ∧ Q v)

end I256
