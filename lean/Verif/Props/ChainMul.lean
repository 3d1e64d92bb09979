import Verif.Props.Mul
import Verif.Props.Sign

/-!
# C09: multiplying a number of any number of words by one word, by chaining `carrying_mul`
-/

namespace I256

open Sample

variable {w : Nat} {y : Limbs w}

/-- The product of a word sequence and the word `y`, by chaining `carrying_mul`. -/
def chainMul (oc : Bool) (y : Limbs w) : List (Limbs w) → Limbs w → Res (List (Limbs w) × Limbs w)
  | [], c => .ok ([], c)
  | x :: rest, c => do
    let (p, c) ← U.carryingMul oc x y c
    let (r, c) ← chainMul oc y rest c
    .ok (p :: r, c)

/-- C09: chaining `carrying_mul` over any number of words multiplies exactly and never panics. -/
theorem C09_chain_mul (hw : 0 < w) (hy : y ≠ []) (oc : Bool) (l : List (Limbs w)) (c : Limbs w)
    (hl : ∀ x ∈ l, x.length = y.length) (hc : c.length = y.length) :
    ∃ r out, chainMul oc y l c = .ok (r, out) ∧ r.length = l.length ∧
      (∀ p ∈ r, p.length = y.length) ∧ out.length = y.length ∧
      wordsNat r + 2 ^ wordsBits l * toNat out = wordsNat l * toNat y + toNat c := by
  induction l generalizing c with
  | nil => exact ⟨[], c, rfl, rfl, by simp, hc, by simp [wordsNat, wordsBits]⟩
  | cons x l ih =>
    have hx : x.length = y.length := hl x (by simp)
    have hxne : x ≠ [] := by
      intro h
      rw [h] at hx
      exact hy (List.length_eq_zero_iff.1 hx.symm)
    obtain ⟨lo, hi, e, h1, h2, h3⟩ := C09_carrying_mul hw hxne hx (hx.trans hc.symm) oc
    obtain ⟨r, out, e', r1, r2, r3, r4⟩ := ih hi (fun z hz => hl z (by simp [hz])) (h2.trans hx)
    refine ⟨lo :: r, out, ?_, by simp [r1], ?_, r3, ?_⟩
    · simp only [chainMul, e, e', Res.mbind_ok]
    · intro p hp
      rcases List.mem_cons.1 hp with rfl | hp
      · exact h1.trans hx
      · exact r2 p hp
    · simp only [wordsNat, wordsBits]
      rw [bits_eq_of_length h1, pow_add]
      linear_combination h3 + 2 ^ bits x * r4

example := C09_chain_mul (y := Sample.a) (by decide) (by decide) true [ones, Sample.a, m2] ones
  (by decide) (by decide)
example : chainMul true ones [ones, ones] ones = .ok ([zero, zero], ones) := by decide +kernel

end I256
