import Verif.Lemmas.BadDivisor
import Verif.Lemmas.RareMul
import Verif.Lemmas.Div

/-!
# Which double-limb divisors need a corrected estimate
-/

namespace I256

variable {w N : Nat}

/-- Some `N`-limb numerator makes long division on two limbs correct an estimate. -/
theorem divPanics_two_iff (hw : 1 < w) (h3 : 3 ≤ N) {y : Nat} (hy0 : y ≠ 0) (hy : y < 2 ^ (w + w)) :
    (∃ x, x < 2 ^ (w * N) ∧ DivPanics w 2 x y) ↔
      y * 2 ^ (2 * w) / 2 ^ bitLen y / 2 ^ w < y * 2 ^ (2 * w) / 2 ^ bitLen y % 2 ^ w := by
  rw [← half_iff (Nat.mod_lt _ (show 0 < 2 ^ w by positivity))]
  have hL := bitLen_le_of_lt hy
  have hd : 2 ^ (bitLen y - 2 * w) ∣ y := by rw [show bitLen y - 2 * w = 0 by omega]; simp
  have hwN : w * 3 ≤ w * N := Nat.mul_le_mul_left _ h3
  have hyN : y < 2 ^ (w * N) := Nat.lt_of_lt_of_le hy (Nat.pow_le_pow_right (by omega) (by omega))
  constructor
  · rintro ⟨x, hx, -, j, hj⟩
    by_contra hc
    have := clean_of (by omega) hx hyN (fun _ => hd) (fun _ => Nat.not_lt.1 hc) j
    rw [hj] at this
    cases this
  · intro h
    refine ⟨_, ?_, ?_, 0, addBack_top (by omega) hd h⟩
    · obtain ⟨b1, b2, b3⟩ := bitLen_spec hy0
      have hz : y * 2 ^ (2 * w) / 2 ^ bitLen y / 2 ^ w < 2 ^ w := by
        rw [Nat.div_div_eq_div_mul]
        apply Nat.div_lt_of_lt_mul
        calc y * 2 ^ (2 * w) < 2 ^ bitLen y * 2 ^ (2 * w) := Nat.mul_lt_mul_of_pos_right b3 (by positivity)
          _ = _ := by rw [show 2 * w = w + w by omega, Nat.pow_add]; ring
      calc _ < 2 ^ w * 2 ^ bitLen y := Nat.mul_lt_mul_of_pos_right hz (by positivity)
        _ ≤ 2 ^ (w * N) := by rw [← Nat.pow_add]; exact Nat.pow_le_pow_right (by omega) (by omega)
    · have := two_limbs (w := w) (y := y) (by omega) (by intro h0; rw [h0] at h; omega)
      have := nLimbs_le_of_lt (w := w) (N := 2) (y := y) (by omega) (by rwa [Nat.mul_comm, Nat.two_mul])
      omega

theorem panics_of_yields {α : Type} {f : Limbs w → Res α} {y : Nat} {G : Limbs w → α → Prop}
    (h : ∀ x, x.length = N → Yields (DivPanics w 2 (toNat x) y) (G x) (f x)) :
    (∃ x : Limbs w, x.length = N ∧ f x = .panic) ↔ ∃ X, X < 2 ^ (w * N) ∧ DivPanics w 2 X y := by
  constructor
  · rintro ⟨x, hx, e⟩
    have hb := toNat_lt x
    rw [bits, hx] at hb
    refine ⟨_, hb, ?_⟩
    by_contra hc
    obtain ⟨v, e2, -⟩ := (h x hx).2 hc
    rw [e] at e2
    cases e2
  · rintro ⟨X, hX, hp⟩
    obtain ⟨x, hx, rfl⟩ := exists_toNat w N X hX
    exact ⟨x, hx, (h x hx).1 hp⟩

/-- The same with the absolute value of a signed numerator. -/
theorem panics_of_yieldsS {α : Type} (hw : 1 < w) (h4 : 4 ≤ N) {f : Limbs w → Res α} {y : Nat} (hy0 : y ≠ 0)
    (hy : y < 2 ^ (w + w)) {G : Limbs w → α → Prop}
    (h : ∀ x, x.length = N → Yields (DivPanics w 2 (toInt x).natAbs y) (G x) (f x)) :
    (∃ x : Limbs w, x.length = N ∧ f x = .panic) ↔
      y * 2 ^ (2 * w) / 2 ^ bitLen y / 2 ^ w < y * 2 ^ (2 * w) / 2 ^ bitLen y % 2 ^ w := by
  have hE : ((2 ^ (w * N) : Nat) : Int) = 2 ^ (w * N) := by push_cast; rfl
  constructor
  · rintro ⟨x, hx, e⟩
    rw [← divPanics_two_iff hw (show 3 ≤ N by omega) hy0 hy]
    have hi := toInt_InS x
    unfold InS at hi
    rw [bits, hx, ← hE] at hi
    refine ⟨(toInt x).natAbs, by omega, ?_⟩
    by_contra hc
    obtain ⟨v, e2, -⟩ := (h x hx).2 hc
    rw [e] at e2
    cases e2
  · rw [← divPanics_two_iff hw (show 3 ≤ 3 by omega) hy0 hy]
    rintro ⟨X, hX, hp⟩
    have h1 : w * 3 + 1 ≤ w * N := by
      have := Nat.mul_le_mul_left w h4
      omega
    have h2 : 2 * 2 ^ (w * 3) ≤ 2 ^ (w * N) := by
      rw [← Nat.pow_succ']
      exact Nat.pow_le_pow_right (by omega) h1
    obtain ⟨x, hx, e⟩ := exists_toInt (w := w) (N := N) (z := (X : Int)) (by
      unfold InS
      rw [← hE]
      omega)
    refine ⟨x, hx, (h x hx).1 ?_⟩
    rw [e]
    exact hp

/-- The leading digits of a number of at most `2 * w` digits. -/
theorem lead_digits {y : Nat} (h : bitLen y ≤ 2 * w) :
    y * 2 ^ (2 * w) / 2 ^ bitLen y = y * 2 ^ (2 * w - bitLen y) := by
  rw [show 2 ^ (2 * w) = 2 ^ (2 * w - bitLen y) * 2 ^ bitLen y by
    rw [← Nat.pow_add, Nat.sub_add_cancel h], ← Nat.mul_assoc, Nat.mul_div_cancel _ (by positivity)]

end I256
