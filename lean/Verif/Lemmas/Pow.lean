import Verif.Model.MulApi
import Verif.Lemmas.Mul
import Verif.Lemmas.NegAbs
import Verif.Lemmas.Bitops
import Mathlib.Tactic.LinearCombination
import Mathlib.Algebra.Order.Ring.Abs
import Mathlib.Tactic.Positivity

/-! Exponentiation by squaring. -/

namespace I256

variable {w : Nat}

theorem half_lt {fuel exp : Nat} (h : exp < 2 ^ (fuel + 1)) : exp / 2 < 2 ^ fuel := by
  rw [Nat.pow_succ] at h; omega

theorem pow_odd {R : Type*} [CommMonoid R] (a b : R) {e : Nat} (h : e % 2 = 1) :
    a * b ^ e = a * b * (b * b) ^ (e / 2) := by
  rw [mul_assoc, ← pow_two, ← pow_mul, ← pow_succ', show 2 * (e / 2) + 1 = e by omega]

theorem pow_even {R : Type*} [CommMonoid R] (a b : R) {e : Nat} (h : e % 2 ≠ 1) :
    a * b ^ e = a * (b * b) ^ (e / 2) := by
  rw [← pow_two, ← pow_mul, show 2 * (e / 2) = e by omega]

/-! ### value -/

theorem powLoop_wrap {N : Nat} (hN : 0 < N) (fuel exp : Nat) (base acc : Limbs w)
    (h0 : 0 < exp) (h1 : exp < 2 ^ fuel) (hb : base.length = N) (ha : acc.length = N) :
    WrapU N ((toNat acc : Int) * (toNat base : Int) ^ exp)
      (wrappingPowLoop Mul.wrappingFull fuel exp base acc) := by
  induction fuel generalizing exp base acc with
  | zero => simp at h1; omega
  | succ fuel ih =>
    have hab := Mul.wrapU acc base (by omega)
    have hbb := Mul.wrapU base base (by omega)
    rw [ha] at hab
    rw [hb] at hbb
    have e1 : (toNat (Mul.wrappingFull acc base) : Int) ≡ toNat acc * toNat base [ZMOD 2 ^ (w * N)] := by
      rw [hab.2]; exact Int.mod_modEq _ _
    have e2 : (toNat (Mul.wrappingFull base base) : Int) ≡ toNat base * toNat base [ZMOD 2 ^ (w * N)] := by
      rw [hbb.2]; exact Int.mod_modEq _ _
    have hand : exp &&& 1 = exp % 2 := Nat.and_one_is_mod exp
    unfold wrappingPowLoop
    simp only [hand, beq_iff_eq]
    by_cases ho : exp % 2 = 1
    · rw [if_pos ho]
      by_cases h2 : exp = 1
      · rw [if_pos h2, h2, pow_one]
        exact hab
      · rw [if_neg h2]
        refine (ih (exp / 2) _ _ (by omega) (half_lt h1) hbb.1 hab.1).congr ?_
        rw [pow_odd _ _ ho]
        exact e1.mul (e2.pow _)
    · rw [if_neg ho]
      refine (ih (exp / 2) _ _ (by omega) (half_lt h1) hbb.1 ha).congr ?_
      rw [pow_even _ _ ho]
      exact (Int.ModEq.refl _).mul (e2.pow _)

theorem powWrapU (hw : 0 < w) {x : Limbs w} (hx : x ≠ []) {e : Nat} (he : e < 2 ^ 32) :
    WrapU x.length ((toNat x : Int) ^ e) (U.wrappingPow x e) := by
  have hN := List.length_pos_iff.2 hx
  have h1 := ofU8U (w := w) (N := x.length) (v := 1) hN (Nat.one_lt_two_pow (by omega))
  unfold U.wrappingPow wrappingPow U.wrappingMul
  by_cases h0 : e = 0
  · simp only [h0, beq_self_eq_true, if_true, pow_zero]
    exact h1.wrap
  · rw [if_neg (by simpa using h0)]
    have := powLoop_wrap hN 32 e x (ofU8 x.length 1) (by omega) he rfl h1.1
    rw [h1.2] at this
    simpa using this

theorem powWrapS (hw : 0 < w) {x : Limbs w} (hx : x ≠ []) {e : Nat} (he : e < 2 ^ 32) :
    WrapS x.length (toInt x ^ e) (I.wrappingPow x e) := by
  refine ((powWrapU hw hx he).congr ?_).wrapS
  exact ((toInt_modEq x).pow e).symm

theorem overflowingPowLoop_fst (mulO : Limbs w → Limbs w → Limbs w × Bool)
    (mul : Limbs w → Limbs w → Limbs w) {N : Nat}
    (h : ∀ a b, a.length = N → b.length = N → (mulO a b).1 = mul a b)
    (hm : ∀ a b, a.length = N → b.length = N → (mul a b).length = N)
    (fuel exp : Nat) (base acc : Limbs w) (o : Bool) (hb : base.length = N) (ha : acc.length = N) :
    (overflowingPowLoop mulO fuel exp base acc o).1 = wrappingPowLoop mul fuel exp base acc := by
  induction fuel generalizing exp base acc o with
  | zero => rfl
  | succ fuel ih =>
    unfold overflowingPowLoop wrappingPowLoop
    have h1 := h acc base ha hb
    have h2 := h base base hb hb
    have h3 := hm acc base ha hb
    have h4 := hm base base hb hb
    simp only [h1, h2]
    split
    · split
      · rfl
      · exact ih _ _ _ _ h4 h3
    · exact ih _ _ _ _ h4 ha

theorem U.overflowingPow_fst {x : Limbs w} {e : Nat} (hx : x ≠ []) :
    (U.overflowingPow x e).1 = U.wrappingPow x e := by
  unfold U.overflowingPow I256.overflowingPow U.wrappingPow I256.wrappingPow
  have hN := List.length_pos_iff.2 hx
  split
  · rfl
  · exact overflowingPowLoop_fst _ _ (N := x.length) (fun a b _ _ => Mul.overflowingFull_fst a b)
      (fun a b ha hb => ((Mul.wrapU a b (by omega)).1).trans ha) _ _ _ _ _ rfl
      (extU_length hN _)

theorem I.overflowingPow_fst (hw : 0 < w) {x : Limbs w} {e : Nat} (hx : x ≠ []) :
    (I.overflowingPow x e).1 = I.wrappingPow x e := by
  unfold I.overflowingPow I256.overflowingPow I.wrappingPow I256.wrappingPow
  have hN := List.length_pos_iff.2 hx
  split
  · rfl
  · refine overflowingPowLoop_fst _ _ (N := x.length) (fun a b ha hb => ?_)
      (fun a b ha hb => ((Mul.wrapU a b (by omega)).1).trans ha) _ _ _ _ _ rfl
      (extU_length hN _)
    have h1 := (Mul.overflowingFullS_spec hw (x := a) (y := b)
      (List.length_pos_iff.1 (by omega)) (by omega)).1
    have h2 := Mul.wrapS a b (by omega) (by omega)
    exact toInt_inj (h1.1.trans h2.1.symm) (h1.2.trans h2.2.symm)

/-! ### overflow flag -/

theorem overflowingPowLoop_true (mul : Limbs w → Limbs w → Limbs w × Bool)
    (fuel exp : Nat) (base acc : Limbs w) :
    (overflowingPowLoop mul fuel exp base acc true).2 = true := by
  induction fuel generalizing exp base acc with
  | zero => rfl
  | succ fuel ih =>
    unfold overflowingPowLoop
    simp only [Bool.true_or, Bool.or_true]
    split
    · split
      · rfl
      · exact ih _ _ _
    · exact ih _ _ _

theorem powLoop_flagU {N : Nat} (hN : 0 < N) (fuel exp : Nat) (base acc : Limbs w)
    (h0 : 0 < exp) (h1 : exp < 2 ^ fuel) (hb : base.length = N) (ha : acc.length = N)
    (hz : 0 < toNat acc ∨ toNat base = 0) :
    (overflowingPowLoop Mul.overflowingFull fuel exp base acc false).2 = true ↔
      2 ^ (w * N) ≤ toNat acc * toNat base ^ exp := by
  induction fuel generalizing exp base acc with
  | zero => simp at h1; omega
  | succ fuel ih =>
    have hab := Mul.overU acc base (by omega)
    have hbb := Mul.overU base base (by omega)
    rw [ha] at hab
    rw [hb] at hbb
    have natify : ∀ m n : Nat, ¬ InU (w * N) ((m : Int) * n) ↔ 2 ^ (w * N) ≤ m * n := by
      intro m n
      unfold InU
      rw [← natCast_two_pow, ← Int.natCast_mul]
      omega
    -- exact products while no flag is raised
    have exact : ∀ {m n : Nat} {r : Limbs w × Bool}, OverU N ((m : Int) * n) r → r.2 = false →
        r.1.length = N ∧ toNat r.1 = m * n := by
      intro m n r h hf
      have hi : InU (w * N) ((m : Int) * n) := by
        by_contra hc
        rw [h.2.2 hc] at hf
        simp at hf
      have := h.1.exact hi
      exact ⟨this.1, by exact_mod_cast this.2⟩
    have f1 : (Mul.overflowingFull acc base).2 = true ↔ 2 ^ (w * N) ≤ toNat acc * toNat base :=
      hab.2.trans (natify _ _)
    have f2 : (Mul.overflowingFull base base).2 = true ↔ 2 ^ (w * N) ≤ toNat base * toNat base :=
      hbb.2.trans (natify _ _)
    have hand : exp &&& 1 = exp % 2 := Nat.and_one_is_mod exp
    have hP : 0 < 2 ^ (w * N) := Nat.two_pow_pos _
    unfold overflowingPowLoop
    simp only [hand, beq_iff_eq, Bool.false_or, Bool.or_false]
    -- the squaring step followed by the rest of the loop
    have sq : ∀ acc' : Limbs w, acc'.length = N → (0 < toNat acc' ∨ toNat base = 0) → 0 < exp / 2 →
        ((overflowingPowLoop Mul.overflowingFull fuel (exp / 2) (Mul.overflowingFull base base).1
          acc' (Mul.overflowingFull base base).2).2 = true ↔
        2 ^ (w * N) ≤ toNat acc' * (toNat base * toNat base) ^ (exp / 2)) := by
      intro acc' ha' hz' he
      by_cases hf : (Mul.overflowingFull base base).2 = true
      · rw [hf]
        simp only [overflowingPowLoop_true, true_iff]
        have h3 := f2.1 hf
        have hb0 : toNat base ≠ 0 := by rintro h; rw [h] at h3; omega
        have hb1 : toNat base * toNat base ≤ (toNat base * toNat base) ^ (exp / 2) :=
          Nat.le_self_pow (by omega) _
        calc _ ≤ (toNat base * toNat base) ^ (exp / 2) := le_trans h3 hb1
          _ ≤ _ := Nat.le_mul_of_pos_left _ (by omega)
      · have hf' : (Mul.overflowingFull base base).2 = false := by simpa using hf
        rw [hf']
        obtain ⟨l2, v2⟩ := exact hbb hf'
        rw [ih _ _ _ he (half_lt h1) l2 ha' (by rw [v2]; rcases hz' with h | h <;> simp [h]), v2]
    by_cases ho : exp % 2 = 1
    · rw [if_pos ho]
      by_cases h2 : exp = 1
      · rw [if_pos h2, h2, pow_one]
        exact f1
      · rw [if_neg h2, pow_odd _ _ ho]
        by_cases hf : (Mul.overflowingFull acc base).2 = true
        · rw [hf, Bool.true_or]
          simp only [overflowingPowLoop_true, true_iff]
          have h3 := f1.1 hf
          have hb0 : toNat base ≠ 0 := by rintro h; rw [h] at h3; omega
          exact le_trans h3 (Nat.le_mul_of_pos_right _ (Nat.pow_pos (by positivity)))
        · have hf' : (Mul.overflowingFull acc base).2 = false := by simpa using hf
          rw [hf', Bool.false_or]
          obtain ⟨l2, v2⟩ := exact hab hf'
          rw [sq _ l2 ?_ (by omega), v2]
          rw [v2]
          rcases Nat.eq_zero_or_pos (toNat base) with h | h
          · exact Or.inr h
          · rcases hz with h3 | h3
            · exact Or.inl (Nat.mul_pos h3 h)
            · omega
    · rw [if_neg ho, pow_even _ _ ho]
      exact sq acc ha hz (by omega)

theorem powOverU (hw : 0 < w) {x : Limbs w} (hx : x ≠ []) {e : Nat} (he : e < 2 ^ 32) :
    OverU x.length ((toNat x : Int) ^ e) (U.overflowingPow x e) := by
  have hN := List.length_pos_iff.2 hx
  have h1 := ofU8U (w := w) (N := x.length) (v := 1) hN (Nat.one_lt_two_pow (by omega))
  have hP : 1 < 2 ^ (w * x.length) := Nat.one_lt_two_pow (by positivity)
  constructor
  · rw [U.overflowingPow_fst hx]; exact powWrapU hw hx he
  · have hnat : ¬ InU (w * x.length) ((toNat x : Int) ^ e) ↔ 2 ^ (w * x.length) ≤ toNat x ^ e := by
      unfold InU
      rw [← natCast_two_pow, ← Int.natCast_pow]
      omega
    rw [hnat]
    unfold U.overflowingPow overflowingPow U.overflowingMul
    by_cases h0 : e = 0
    · simp only [h0, beq_self_eq_true, if_true, pow_zero]
      simp only [Bool.false_eq_true, false_iff]; omega
    · rw [if_neg (by simpa using h0)]
      have h1v : toNat (ofU8 x.length 1 : Limbs w) = 1 := by exact_mod_cast h1.2
      have := powLoop_flagU hN 32 e x (ofU8 x.length 1) (by omega) he rfl h1.1 (by omega)
      rwa [h1v, one_mul] at this

/-! ### signed overflow flag -/

namespace Mul

theorem not_ok_of_ge {N : Nat} (hw : 0 < w) (hN : 0 < N) {z : Int} (h : (2 : Int) ^ (w * N - 1) ≤ z) :
    ¬ InS (w * N) z ∧ ¬ Gap w N z := by
  have hpos : 0 < w * N := Nat.mul_pos hw hN
  have h2 : (2 : Int) ^ (w * N) = 2 * 2 ^ (w * N - 1) := by
    rw [← pow_succ', show w * N - 1 + 1 = w * N by omega]
  have hP : (0 : Int) < 2 ^ (w * N - 1) := by positivity
  unfold InS Gap
  omega

theorem not_ok_of_abs {N : Nat} (hw : 0 < w) (hN : 0 < N) {z : Int}
    (h : 2 * (2 : Int) ^ (w * N - 1) ≤ |z|) : ¬ InS (w * N) z ∧ ¬ Gap w N z := by
  have hpos : 0 < w * N := Nat.mul_pos hw hN
  have h2 : (2 : Int) ^ (w * N) = 2 * 2 ^ (w * N - 1) := by
    rw [← pow_succ', show w * N - 1 + 1 = w * N by omega]
  have hP : (0 : Int) < 2 ^ (w * N - 1) := by positivity
  have h3 : (2 : Int) ^ (w * (N - 1)) ≤ 2 ^ (w * N - 1) := by
    rw [pow_pred_mul hw hN]
    exact pow_le_pow_right₀ (by omega) (by omega)
  unfold InS Gap
  rcases abs_cases z with ⟨h4, h5⟩ | ⟨h4, h5⟩ <;> rw [h4] at h <;> omega

theorem abs_of_not_ok {N : Nat} (hw : 0 < w) (hN : 0 < N) {z : Int} (h : ¬ InS (w * N) z) :
    (2 : Int) ^ (w * N - 1) ≤ |z| := by
  have hpos : 0 < w * N := Nat.mul_pos hw hN
  have h2 : (2 : Int) ^ (w * N) = 2 * 2 ^ (w * N - 1) := by
    rw [← pow_succ', show w * N - 1 + 1 = w * N by omega]
  unfold InS at h
  rcases abs_cases z with ⟨h4, h5⟩ | ⟨h4, h5⟩ <;> rw [h4] <;> omega

end Mul

/-- The invariant of the loop: the base has outgrown the accumulator, unless both are trivial. -/
def PowInv (acc base : Int) : Prop :=
  (|acc| ≤ 1 ∧ |base| ≤ 1) ∨ ((acc = 1 ∨ 2 ≤ |acc|) ∧ 2 * |acc| ≤ |base|)

theorem powLoop_flagS {N : Nat} (hw : 1 < w) (hN : 0 < N) (fuel exp : Nat) (base acc : Limbs w)
    (h0 : 0 < exp) (h1 : exp < 2 ^ fuel) (hb : base.length = N) (ha : acc.length = N)
    (hz : PowInv (toInt acc) (toInt base)) :
    (overflowingPowLoop Mul.overflowingFullS fuel exp base acc false).2 = true ↔
      ¬ InS (w * N) (toInt acc * toInt base ^ exp) ∧
        ¬ Mul.Gap w N (toInt acc * toInt base ^ exp) := by
  induction fuel generalizing exp base acc with
  | zero => simp at h1; omega
  | succ fuel ih =>
    have hab := Mul.overflowingFullS_spec (by omega) (x := acc) (y := base)
      (List.length_pos_iff.1 (by omega)) (by omega)
    have hbb := Mul.overflowingFullS_spec (by omega) (x := base) (y := base)
      (List.length_pos_iff.1 (by omega)) (by omega)
    rw [ha] at hab
    rw [hb] at hbb
    obtain ⟨wab, fab⟩ := hab
    obtain ⟨wbb, fbb⟩ := hbb
    have hpos : 0 < w * N := Nat.mul_pos (by omega) hN
    have h2 : (2 : Int) ^ (w * N) = 2 * 2 ^ (w * N - 1) := by
      rw [← pow_succ', show w * N - 1 + 1 = w * N by omega]
    have hP : (0 : Int) < 2 ^ (w * N - 1) := by positivity
    have hP2 : (2 : Int) ≤ 2 ^ (w * N - 1) := by
      have : 1 ≤ w * N - 1 := by
        have := Nat.mul_le_mul hw hN
        omega
      calc (2 : Int) = 2 ^ 1 := by norm_num
        _ ≤ _ := pow_le_pow_right₀ (by omega) this
    have hand : exp &&& 1 = exp % 2 := Nat.and_one_is_mod exp
    set A := toInt acc with hA
    set B := toInt base with hB
    generalize hH : (2 : Int) ^ (w * N - 1) = H at *
    have small : ∀ z : Int, |z| ≤ 1 → InS (w * N) z := by
      intro z h
      unfold InS
      rw [h2]
      rcases abs_cases z with ⟨h4, h5⟩ | ⟨h4, h5⟩ <;> rw [h4] at h <;> omega
    have hBB : (0 : Int) ≤ B * B := mul_self_nonneg B
    have nogap : ∀ z : Int, 0 ≤ z → ¬ Mul.Gap w N z := by
      intro z h hc
      unfold Mul.Gap at hc
      rw [hH] at hc
      omega
    -- the squaring step followed by the rest of the loop
    have sq : ∀ acc' : Limbs w, acc'.length = N →
        ((|toInt acc'| ≤ 1 ∧ |B| ≤ 1) ∨
          ((toInt acc' = 1 ∨ 2 ≤ |toInt acc'|) ∧ 2 * |toInt acc'| ≤ B * B)) → 0 < exp / 2 →
        ((overflowingPowLoop Mul.overflowingFullS fuel (exp / 2) (Mul.overflowingFullS base base).1
          acc' (Mul.overflowingFullS base base).2).2 = true ↔
        ¬ InS (w * N) (toInt acc' * (B * B) ^ (exp / 2)) ∧
          ¬ Mul.Gap w N (toInt acc' * (B * B) ^ (exp / 2))) := by
      intro acc' ha' hz' he
      by_cases hf : (Mul.overflowingFullS base base).2 = true
      · rw [hf]
        simp only [overflowingPowLoop_true, true_iff]
        have h3 := Mul.abs_of_not_ok (by omega) hN (fbb.1 hf).1
        rw [abs_of_nonneg hBB, hH] at h3
        have h4 : B * B ≤ (B * B) ^ (exp / 2) := le_self_pow₀ (by omega) (by omega)
        rcases hz' with ⟨-, h5⟩ | ⟨h5, -⟩
        · exfalso
          have : B * B ≤ 1 := by
            rw [← abs_mul_abs_self]
            nlinarith [abs_nonneg B]
          omega
        · rcases h5 with h5 | h5
          · refine Mul.not_ok_of_ge (by omega) hN ?_
            rw [h5, one_mul, hH]; omega
          · refine Mul.not_ok_of_abs (by omega) hN ?_
            rw [abs_mul, abs_of_nonneg (by positivity : (0 : Int) ≤ (B * B) ^ (exp / 2)), hH]
            nlinarith
      · have hf' : (Mul.overflowingFullS base base).2 = false := by simpa using hf
        rw [hf']
        have hi : InS (w * N) (B * B) := by
          by_contra hc
          exact hf (fbb.2 ⟨hc, nogap _ hBB⟩)
        obtain ⟨l2, v2⟩ := wbb.exact hi
        rw [ih _ _ _ he (half_lt h1) l2 ha' ?_, v2]
        rw [v2]
        unfold PowInv
        rw [abs_of_nonneg hBB]
        rcases hz' with ⟨h5, h6⟩ | h5
        · left
          refine ⟨h5, ?_⟩
          rw [← abs_mul_abs_self]
          nlinarith [abs_nonneg B]
        · exact Or.inr h5
    unfold overflowingPowLoop
    simp only [hand, beq_iff_eq, Bool.false_or, Bool.or_false]
    by_cases ho : exp % 2 = 1
    · rw [if_pos ho]
      by_cases h3 : exp = 1
      · rw [if_pos h3, h3, pow_one]
        exact fab
      · rw [if_neg h3, pow_odd _ _ ho]
        have hABs : |B| * |B| = B * B := abs_mul_abs_self B
        by_cases hi : InS (w * N) (A * B)
        · -- no overflow so far
          have hf' : (Mul.overflowingFullS acc base).2 = false := by
            by_contra hc
            exact (fab.1 (by simpa using hc)).1 hi
          rw [hf', Bool.false_or]
          obtain ⟨l2, v2⟩ := wab.exact hi
          rw [sq _ l2 ?_ (by omega), v2]
          rw [v2, abs_mul]
          rcases hz with ⟨h5, h6⟩ | ⟨h5, h6⟩
          · left
            exact ⟨by nlinarith [abs_nonneg A, abs_nonneg B], h6⟩
          · right
            have h7 : 1 ≤ |A| := by rcases h5 with h5 | h5; · rw [h5]; simp
                                    · omega
            refine ⟨Or.inr (by nlinarith), ?_⟩
            rw [← hABs]
            nlinarith
        · -- `A * B` is out of range: the result is flagged in any case, since the square is
          have h3a := Mul.abs_of_not_ok (by omega) hN hi
          rw [hH, abs_mul] at h3a
          rcases hz with ⟨h5, h6⟩ | ⟨h5, h6⟩
          · exfalso; nlinarith [abs_nonneg A, abs_nonneg B]
          have h7 : 1 ≤ |A| := by rcases h5 with h5 | h5; · rw [h5]; simp
                                  · omega
          have h8 : 2 * H ≤ B * B := by rw [← hABs]; nlinarith
          have hf2 : (Mul.overflowingFullS base base).2 = true :=
            fbb.2 (Mul.not_ok_of_ge (by omega) hN (by rw [hH]; omega))
          rw [hf2, Bool.or_true]
          simp only [overflowingPowLoop_true, true_iff]
          refine Mul.not_ok_of_abs (by omega) hN ?_
          have h9 : B * B ≤ (B * B) ^ (exp / 2) := le_self_pow₀ (by omega) (by omega)
          rw [abs_mul, abs_mul, abs_of_nonneg (by positivity : (0 : Int) ≤ (B * B) ^ (exp / 2)), hH]
          nlinarith
    · rw [if_neg ho, pow_even _ _ ho]
      refine sq acc ha ?_ (by omega)
      rcases hz with h5 | ⟨h5, h6⟩
      · exact Or.inl h5
      · refine Or.inr ⟨h5, ?_⟩
        have h7 : 1 ≤ |A| := by rcases h5 with h5 | h5; · rw [h5]; simp
                                · omega
        rw [← abs_mul_abs_self B]
        nlinarith

theorem powOverS (hw : 1 < w) {x : Limbs w} (hx : 2 ≤ x.length) {e : Nat} (he : e < 2 ^ 32) :
    WrapS x.length (toInt x ^ e) (I.overflowingPow x e).1 ∧
      ((I.overflowingPow x e).2 = true ↔
        ¬ InS (w * x.length) (toInt x ^ e) ∧ ¬ Mul.Gap w x.length (toInt x ^ e)) := by
  have hx0 : x ≠ [] := List.length_pos_iff.1 (by omega)
  have h1 := ofU8S (w := w) (N := x.length) (v := 1) (by omega) hx (Nat.one_lt_two_pow (by omega))
  constructor
  · rw [I.overflowingPow_fst (by omega) hx0]; exact powWrapS (by omega) hx0 he
  · unfold I.overflowingPow overflowingPow I.overflowingMul
    by_cases h0 : e = 0
    · simp only [h0, beq_self_eq_true, if_true, pow_zero]
      simp only [Bool.false_eq_true, false_iff, not_and, not_not]
      intro hc
      exact absurd (by exact_mod_cast h1.inS) hc
    · rw [if_neg (by simpa using h0)]
      have h1v : toInt (ofU8 x.length 1 : Limbs w) = 1 := by exact_mod_cast h1.2
      have := powLoop_flagS hw (N := x.length) (by omega) 32 e x (ofU8 x.length 1) (by omega) he
        rfl h1.1 ?_
      · rwa [h1v, one_mul] at this
      · rw [h1v]
        unfold PowInv
        rcases Int.lt_or_le (|toInt x|) 2 with h | h
        · left; constructor
          · simp
          · omega
        · right; exact ⟨Or.inl rfl, by simpa using h⟩

end I256
