import Verif.Model.Common
import Verif.Lemmas.Sub
import Verif.Lemmas.Ord

/-! Lemmas about the result contracts of `Spec.lean`, the constants and the sign tests. -/

namespace I256

variable {w : Nat} {N : Nat} {z : Int}

theorem toInt_emod_toNat (x : Limbs w) : (toNat x : Int) = toInt x % 2 ^ bits x := by
  have h := toInt_emod x
  have := toNat_lt_int x
  rw [Int.emod_eq_of_lt (by omega) this] at h
  exact h.symm

theorem InU_toNat (x : Limbs w) : InU (bits x) (toNat x) := ⟨by omega, toNat_lt_int x⟩

theorem emod_of_InU {n : Nat} (h : InU n z) : z % 2 ^ n = z := Int.emod_eq_of_lt h.1 h.2

theorem WrapU.wrapS {v : Limbs w} (h : WrapU N z v) : WrapS N z v := by
  obtain ⟨hl, hv⟩ := h
  refine ⟨hl, ?_⟩
  have hb : bits v = w * N := by simp [bits, hl]
  rw [toInt_eq_bmod, hb, hv]
  have : ((2 ^ (w * N) : Nat) : Int) = 2 ^ (w * N) := natCast_two_pow _
  rw [← this, Int.emod_bmod]

theorem WrapS.wrapU {v : Limbs w} (h : WrapS N z v) : WrapU N z v := by
  obtain ⟨hl, hv⟩ := h
  refine ⟨hl, ?_⟩
  have hb : bits v = w * N := by simp [bits, hl]
  rw [toInt_emod_toNat, hb, hv, ← natCast_two_pow, Int.bmod_emod]

theorem WrapU.congr {z' : Int} {v : Limbs w} (h : WrapU N z v)
    (hz : z % 2 ^ (w * N) = z' % 2 ^ (w * N)) : WrapU N z' v := ⟨h.1, h.2.trans hz⟩

theorem WrapU.add_mul {v : Limbs w} (k : Int) (h : WrapU N z v) :
    WrapU N (z + 2 ^ (w * N) * k) v := h.congr (by simp)

theorem WrapU.exact {v : Limbs w} (h : WrapU N z v) (hz : InU (w * N) z) : ExactU N z v :=
  ⟨h.1, h.2.trans (emod_of_InU hz)⟩

theorem WrapS.exact {v : Limbs w} (h : WrapS N z v) (hz : InS (w * N) z) : ExactS N z v :=
  ⟨h.1, h.2.trans (bmod_of_InS hz)⟩

theorem ExactU.wrap {v : Limbs w} (h : ExactU N z v) : WrapU N z v := by
  refine ⟨h.1, ?_⟩
  have := InU_toNat v
  rw [h.2] at this
  rw [h.2, emod_of_InU]
  simpa [bits, h.1] using this

theorem ExactS.wrap {v : Limbs w} (h : ExactS N z v) : WrapS N z v := by
  refine ⟨h.1, ?_⟩
  have := toInt_InS v
  rw [h.2] at this
  rw [h.2, bmod_of_InS]
  simpa [bits, h.1] using this

theorem ExactU.inU {v : Limbs w} (h : ExactU N z v) : InU (w * N) z := by
  have := InU_toNat v
  rw [h.2] at this
  simpa [bits, h.1] using this

theorem ExactS.inS {v : Limbs w} (h : ExactS N z v) : InS (w * N) z := by
  have := toInt_InS v
  rw [h.2] at this
  simpa [bits, h.1] using this

theorem OverU.check {r : Limbs w × Bool} (h : OverU N z r) : CheckU N z (mkChecked r) := by
  obtain ⟨v, f⟩ := r
  obtain ⟨hw, hf⟩ := h
  constructor
  · intro hz
    have : f = false := by
      cases f
      · rfl
      · exact absurd hz (hf.1 rfl)
    exact ⟨v, by simp [mkChecked, this], hw.exact hz⟩
  · intro hz
    have := hf.2 hz
    simp at this
    simp [mkChecked, this]

theorem OverS.check {r : Limbs w × Bool} (h : OverS N z r) : CheckS N z (mkChecked r) := by
  obtain ⟨v, f⟩ := r
  obtain ⟨hw, hf⟩ := h
  constructor
  · intro hz
    have : f = false := by
      cases f
      · rfl
      · exact absurd hz (hf.1 rfl)
    exact ⟨v, by simp [mkChecked, this], hw.exact hz⟩
  · intro hz
    have := hf.2 hz
    simp at this
    simp [mkChecked, this]

theorem CheckU.strict {o : Option (Limbs w)} (h : CheckU N z o) :
    StrictU N z (unwrapOrPanic o) := by
  constructor
  · intro hz
    obtain ⟨v, rfl, hv⟩ := h.1 hz
    exact ⟨v, rfl, hv⟩
  · intro hz
    rw [h.2 hz]
    rfl

theorem CheckS.strict {o : Option (Limbs w)} (h : CheckS N z o) :
    StrictS N z (unwrapOrPanic o) := by
  constructor
  · intro hz
    obtain ⟨v, rfl, hv⟩ := h.1 hz
    exact ⟨v, rfl, hv⟩
  · intro hz
    rw [h.2 hz]
    rfl

theorem CheckU.op {o : Option (Limbs w)} {v : Limbs w} (h : CheckU N z o) (hv : WrapU N z v)
    (oc : Bool) : OpU oc N z (opOf oc v o) := by
  cases oc
  · exact ⟨v, rfl, hv⟩
  · exact h.strict

theorem CheckS.op {o : Option (Limbs w)} {v : Limbs w} (h : CheckS N z o) (hv : WrapS N z v)
    (oc : Bool) : OpS oc N z (opOf oc v o) := by
  cases oc
  · exact ⟨v, rfl, hv⟩
  · exact h.strict

/-! ### Constants -/

theorem minValueU (w N : Nat) : ExactU N 0 (U.minValue w N) := by
  constructor
  · simp [U.minValue]
  · rw [U.minValue, toNat_replicate_zero]; rfl

theorem toNat_allOnes (w N : Nat) :
    toNat (List.replicate N (BitVec.allOnes w)) + 1 = 2 ^ (w * N) := by
  induction N with
  | zero => simp
  | succ n ih =>
    rw [List.replicate_succ, toNat_cons, BitVec.toNat_allOnes, Nat.mul_succ, Nat.pow_add, ← ih]
    have : 0 < 2 ^ w := Nat.two_pow_pos w
    generalize 2 ^ w = B at *
    rw [Nat.add_mul, Nat.mul_comm B]
    omega

theorem maxValueU (w N : Nat) : ExactU N (2 ^ (w * N) - 1) (U.maxValue w N) := by
  constructor
  · simp [U.maxValue]
  · have := toNat_allOnes w N
    rw [← natCast_two_pow, U.maxValue]
    omega

theorem pow_pred_mul (hw : 0 < w) (hN : 0 < N) : w * N - 1 = w * (N - 1) + (w - 1) := by
  obtain ⟨k, rfl⟩ : ∃ k, N = k + 1 := ⟨N - 1, by omega⟩
  rw [Nat.mul_succ]
  simp
  omega

theorem minValueS (hw : 0 < w) (hN : 0 < N) : ExactS N (-2 ^ (w * N - 1)) (I.minValue w N) := by
  constructor
  · simp [I.minValue]; omega
  · rw [I.minValue, toInt_concat hw, toNat_replicate_zero, bits_replicate, pow_pred_mul hw hN,
      Int.pow_add, BitVec.toInt_intMin]
    have h1 : ((2 ^ (w - 1) : Nat) : Int) = 2 ^ (w - 1) := natCast_two_pow _
    have h2 : (2 ^ (w - 1) % 2 ^ w : Nat) = 2 ^ (w - 1) :=
      Nat.mod_eq_of_lt (Nat.pow_lt_pow_right (by omega) (by omega))
    rw [h2, h1]
    simp

theorem maxValueS (hw : 0 < w) (hN : 0 < N) :
    ExactS N (2 ^ (w * N - 1) - 1) (I.maxValue w N) := by
  constructor
  · simp [I.maxValue]; omega
  · have h1 : ((2 ^ (w - 1) : Nat) : Int) = 2 ^ (w - 1) := natCast_two_pow _
    have h2 := toNat_allOnes w (N - 1)
    have h3 : (BitVec.intMax w).toInt = 2 ^ (w - 1) - 1 := by
      rw [BitVec.toInt_intMax]
    rw [I.maxValue, toInt_concat hw, bits_replicate, pow_pred_mul hw hN, Int.pow_add, h3]
    have h4 : (toNat (List.replicate (N - 1) (BitVec.allOnes w)) : Int)
        = 2 ^ (w * (N - 1)) - 1 := by
      rw [← natCast_two_pow]; omega
    rw [h4]
    generalize (2 : Int) ^ (w * (N - 1)) = A
    generalize (2 : Int) ^ (w - 1) = B
    ring

theorem ofU8U {v : Nat} (hN : 1 ≤ N) (hv : v < 2 ^ w) : ExactU N v (ofU8 N v : Limbs w) := by
  constructor
  · exact extU_length hN _
  · rw [ofU8, extU_toNat, BitVec.toNat_ofNat, Nat.mod_eq_of_lt hv]

theorem ofU8S {v : Nat} (hw : 0 < w) (hN : 2 ≤ N) (hv : v < 2 ^ w) :
    ExactS N v (ofU8 N v : Limbs w) := by
  constructor
  · exact extU_length (by omega) _
  · rw [ofU8, extU_toInt hw hN, BitVec.toNat_ofNat, Nat.mod_eq_of_lt hv]

theorem ofI8S {v : Int} (hN : 1 ≤ N) (hv : InS w v) : ExactS N v (ofI8 N v : Limbs w) := by
  constructor
  · exact extI_length hN _
  · rw [ofI8, extI_toInt hN, BitVec.toInt_ofInt, bmod_of_InS hv]

/-! ### Sign tests -/

theorem isNegative_iff (hw : 0 < w) {x : Limbs w} (h : x ≠ []) :
    I.isNegative x = true ↔ toInt x < 0 := by
  rw [I.isNegative, ← msLimb_msb hw x h]
  rw [BitVec.ofNat_eq_ofNat, BitVec.slt_zero_iff_msb_cond]

theorem isNegative_eq (hw : 0 < w) {x : Limbs w} (h : x ≠ []) :
    I.isNegative x = decide (toInt x < 0) := by
  rw [Bool.eq_iff_iff, isNegative_iff hw h]
  simp

theorem toInt_cases (x : Limbs w) :
    (0 ≤ toInt x ∧ (toNat x : Int) = toInt x) ∨
      (toInt x < 0 ∧ (toNat x : Int) = toInt x + 2 ^ bits x) := by
  have := toNat_lt_int x
  unfold toInt
  split <;> omega

/-- The signed value from the unsigned one and the sign test. -/
theorem toInt_eq_sub (hw : 0 < w) {x : Limbs w} (h : x ≠ []) :
    toInt x = (toNat x : Int) - if I.isNegative x then 2 ^ bits x else 0 := by
  rw [isNegative_eq hw h]
  rcases toInt_cases x with ⟨h1, h2⟩ | ⟨h1, h2⟩
  · simp [not_lt.2 h1, h2]
  · simp [h1, h2]

theorem isPositiveLoop_iff (l : Limbs w) :
    I.isPositiveLoop l = true ↔ ∃ a ∈ l, a ≠ 0 := by
  induction l with
  | nil => simp [I.isPositiveLoop]
  | cons a l ih =>
    rw [I.isPositiveLoop]
    by_cases h : (0 : BitVec w).ult a = true
    · rw [if_pos h]
      simp only [true_iff]
      refine ⟨a, by simp, ?_⟩
      rintro rfl
      simp [BitVec.ult] at h
    · rw [if_neg h, ih]
      have : a = 0 := by
        apply BitVec.eq_of_toNat_eq
        simp [BitVec.ult] at h
        simp [h]
      simp [this]

theorem toNat_eq_zero_iff (l : Limbs w) : toNat l = 0 ↔ ∀ a ∈ l, a = 0 := by
  induction l with
  | nil => simp
  | cons a l ih =>
    have : 0 < 2 ^ w := Nat.two_pow_pos w
    simp only [toNat_cons, List.mem_cons, forall_eq_or_imp, ← ih, Nat.add_eq_zero_iff,
      Nat.mul_eq_zero]
    constructor
    · rintro ⟨h1, h2 | h2⟩
      · omega
      · exact ⟨BitVec.eq_of_toNat_eq (by simp [h1]), h2⟩
    · rintro ⟨rfl, h2⟩
      exact ⟨by simp, Or.inr h2⟩

theorem isPositive_iff (hw : 0 < w) {x : Limbs w} (h : x ≠ []) :
    I.isPositive x = true ↔ 0 < toInt x := by
  obtain ⟨l, a, rfl⟩ := exists_concat h
  rw [I.isPositive, msLimb_concat, toInt_concat hw]
  have hl := toNat_lt_int l
  have hP : (0 : Int) < 2 ^ bits l := by positivity
  simp only [BitVec.ofNat_eq_ofNat, BitVec.slt_iff_toInt_lt, BitVec.toInt_zero,
    List.dropLast_concat]
  split
  · next h1 =>
    have : (a.toInt : Int) * 2 ^ bits l ≤ -1 * 2 ^ bits l :=
      Int.mul_le_mul_of_nonneg_right (by omega) (by omega)
    constructor
    · intro h; simp at h
    · intro h
      rw [mul_comm] at h
      omega
  · next h1 =>
    split
    · next h2 =>
      have : 0 < (2 : Int) ^ bits l * a.toInt := Int.mul_pos hP h2
      simp
      omega
    · next h2 =>
      have : a.toInt = 0 := by omega
      rw [isPositiveLoop_iff, this]
      have h3 := toNat_eq_zero_iff l
      constructor
      · rintro ⟨b, hb, hb0⟩
        have : toNat l ≠ 0 := fun h => hb0 (h3.1 h b (by simpa using hb))
        omega
      · intro h4
        by_contra h5
        push_neg at h5
        have := h3.2 (fun b hb => h5 b (by simpa using hb))
        omega

end I256
