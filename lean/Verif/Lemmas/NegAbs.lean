import Verif.Lemmas.Scalar

/-! Carry chains, negation, absolute value. -/

namespace I256

variable {w : Nat}

theorem length_ne {x : Limbs w} {n : Nat} (h : n < x.length) : x ≠ [] := by
  rintro rfl; simp at h

theorem carryingAddU (hw : 0 < w) {x y : Limbs w} (hx : x ≠ []) (hl : x.length = y.length)
    (c : Bool) :
    OverU x.length ((toNat x : Int) + toNat y + c.toNat) (U.carryingAdd x y c) := by
  have h1 := Add.overU hw hl
  unfold U.carryingAdd U.overflowingAdd
  generalize Add.overflowingFull x y = r at *
  obtain ⟨a, b⟩ := r
  have hne : a ≠ [] := by
    rintro rfl
    exact hx (List.length_eq_zero_iff.1 (by simpa using h1.1.1.symm))
  have h2 := Add.limbOverU hw hne (boolLimb w c)
  rw [boolLimb_toNat hw] at h2
  unfold U.overflowingAddULimb
  simp only
  generalize Add.overflowingLimb a (boolLimb w c) = r at *
  obtain ⟨v, d⟩ := r
  obtain ⟨⟨l1, e1⟩, f1⟩ := h1
  obtain ⟨⟨l2, e2⟩, f2⟩ := h2
  simp only at *
  rw [l1] at *
  have hxl := InU_toNat x
  have hyl := InU_toNat y
  rw [show bits y = w * x.length by simp [bits, hl]] at hyl
  rw [show bits x = w * x.length from rfl] at hxl
  refine ⟨⟨l2, ?_⟩, ?_⟩
  · simp only
    rw [e2, e1, Int.emod_add_emod]
  · simp only
    unfold InU at *
    have hv : (0 : Int) ≤ toNat v ∧ (toNat v : Int) < 2 ^ (w * x.length) := by
      have := InU_toNat v
      rw [show bits v = w * x.length by simp [bits, l2]] at this
      exact this
    generalize (2 : Int) ^ (w * x.length) = P at *
    have hc : (c.toNat : Int) = 0 ∨ (c.toNat : Int) = 1 := by cases c <;> simp
    have e1' : (toNat a : Int) = toNat x + toNat y ∨ (toNat a : Int) = toNat x + toNat y - P := by
      by_cases hlt : (toNat x : Int) + toNat y < P
      · left; rw [e1, Int.emod_eq_of_lt (by omega) hlt]
      · right; rw [e1, ← Int.sub_emod_right, Int.emod_eq_of_lt (by omega) (by omega)]
    have e1b : (0 : Int) ≤ toNat a ∧ (toNat a : Int) < P := by
      rw [e1]; exact ⟨Int.emod_nonneg _ (by omega), Int.emod_lt_of_pos _ (by omega)⟩
    cases b <;> cases d <;> simp at * <;> omega

theorem borrowingSubU (hw : 0 < w) {x y : Limbs w} (hx : x ≠ []) (hl : x.length = y.length)
    (c : Bool) :
    OverU x.length ((toNat x : Int) - toNat y - c.toNat) (U.borrowingSub x y c) := by
  have h1 := Sub.overU hw hl
  unfold U.borrowingSub U.overflowingSub
  generalize Sub.overflowingFull x y = r at *
  obtain ⟨a, b⟩ := r
  have hne : a ≠ [] := by
    rintro rfl
    exact hx (List.length_eq_zero_iff.1 (by simpa using h1.1.1.symm))
  have h2 := Sub.limbOverU hw hne (boolLimb w c)
  rw [boolLimb_toNat hw] at h2
  unfold U.overflowingSubULimb
  simp only
  generalize Sub.overflowingLimb a (boolLimb w c) = r at *
  obtain ⟨v, d⟩ := r
  obtain ⟨⟨l1, e1⟩, f1⟩ := h1
  obtain ⟨⟨l2, e2⟩, f2⟩ := h2
  simp only at *
  rw [l1] at *
  have hxl := InU_toNat x
  have hyl := InU_toNat y
  rw [show bits y = w * x.length by simp [bits, hl]] at hyl
  rw [show bits x = w * x.length from rfl] at hxl
  refine ⟨⟨l2, ?_⟩, ?_⟩
  · simp only
    rw [e2, e1, Int.emod_sub_emod]
  · simp only
    unfold InU at *
    generalize (2 : Int) ^ (w * x.length) = P at *
    have hc : (c.toNat : Int) = 0 ∨ (c.toNat : Int) = 1 := by cases c <;> simp
    have e1' : (toNat a : Int) = toNat x - toNat y ∨ (toNat a : Int) = toNat x - toNat y + P := by
      by_cases hlt : (0 : Int) ≤ toNat x - toNat y
      · left; rw [e1, Int.emod_eq_of_lt (by omega) (by omega)]
      · right; rw [e1, ← Int.add_emod_right, Int.emod_eq_of_lt (by omega) (by omega)]
    have e1b : (0 : Int) ≤ toNat a ∧ (toNat a : Int) < P := by
      rw [e1]; exact ⟨Int.emod_nonneg _ (by omega), Int.emod_lt_of_pos _ (by omega)⟩
    cases b <;> cases d <;> simp at * <;> omega

theorem bmod_two {n : Nat} {z : Int} (h1 : -2 ^ n ≤ z) (h2 : z < 2 ^ n) :
    (InS n z ∧ Int.bmod z (2 ^ n) = z) ∨ (0 ≤ z ∧ ¬ InS n z ∧ Int.bmod z (2 ^ n) = z - 2 ^ n) ∨
      (z < 0 ∧ ¬ InS n z ∧ Int.bmod z (2 ^ n) = z + 2 ^ n) := by
  by_cases h : InS n z
  · exact Or.inl ⟨h, bmod_of_InS h⟩
  · right
    by_cases h0 : 0 ≤ z
    · left
      refine ⟨h0, h, ?_⟩
      have e : Int.bmod (z - 2 ^ n) (2 ^ n) = z - 2 ^ n := by
        apply bmod_of_InS
        unfold InS at *
        generalize (2 : Int) ^ n = P at *
        omega
      rw [← e]
      have := natCast_two_pow n
      rw [← this, Int.sub_bmod_right]
    · right
      refine ⟨by omega, h, ?_⟩
      have e : Int.bmod (z + 2 ^ n) (2 ^ n) = z + 2 ^ n := by
        apply bmod_of_InS
        unfold InS at *
        generalize (2 : Int) ^ n = P at *
        omega
      rw [← e]
      have := natCast_two_pow n
      rw [← this, Int.add_bmod_right]

/-- Signed `carrying_add`: the value is right, the flag is set iff one of the two additions
overflows. -/
theorem carryingAddS (hw : 1 < w) {x y : Limbs w} (hx : 2 ≤ x.length) (hl : x.length = y.length)
    (c : Bool) :
    WrapS x.length (toInt x + toInt y + c.toNat) (I.carryingAdd x y c).1 ∧
      ((I.carryingAdd x y c).2 = true ↔
        ¬ InS (bits x) (toInt x + toInt y) ∨ ¬ InS (bits x) (toInt x + toInt y + c.toNat)) := by
  have h1 := Add.overS hw (length_ne (n := 0) (by omega)) hl
  unfold I.carryingAdd I.overflowingAdd
  generalize Add.sOverflowingFull x y = r at *
  obtain ⟨a, b⟩ := r
  obtain ⟨⟨l1, e1⟩, f1⟩ := h1
  simp only at l1 e1 f1
  have h2 := Add.uLimbOverS hw (x := a) (by omega) (boolLimb w c)
  rw [boolLimb_toNat (by omega)] at h2
  unfold I.overflowingAddULimb
  simp only
  generalize Add.sOverflowingULimb a (boolLimb w c) = r at *
  obtain ⟨v, d⟩ := r
  obtain ⟨⟨l2, e2⟩, f2⟩ := h2
  simp only at *
  rw [l1] at *
  have hxl := toInt_InS x
  have hyl := toInt_InS y
  rw [show bits y = w * x.length by simp [bits, hl]] at hyl
  rw [show bits x = w * x.length from rfl] at *
  refine ⟨⟨l2, ?_⟩, ?_⟩
  · rw [e2, e1, Int.bmod_add_bmod]
  · have hb := bmod_two (n := w * x.length) (z := toInt x + toInt y)
      (by unfold InS at hxl hyl; omega) (by unfold InS at hxl hyl; omega)
    rw [← e1] at hb
    unfold InS at *
    generalize (2 : Int) ^ (w * x.length) = P at *
    have hc : (c.toNat : Int) = 0 ∨ (c.toNat : Int) = 1 := by cases c <;> simp
    cases b <;> cases d <;> simp at * <;> omega

/-- Signed `borrowing_sub`. -/
theorem borrowingSubS (hw : 1 < w) {x y : Limbs w} (hx : 2 ≤ x.length) (hl : x.length = y.length)
    (c : Bool) :
    WrapS x.length (toInt x - toInt y - c.toNat) (I.borrowingSub x y c).1 ∧
      ((I.borrowingSub x y c).2 = true ↔
        ¬ InS (bits x) (toInt x - toInt y) ∨ ¬ InS (bits x) (toInt x - toInt y - c.toNat)) := by
  have h1 := Sub.overS hw (length_ne (n := 0) (by omega)) hl
  unfold I.borrowingSub I.overflowingSub
  generalize Sub.sOverflowingFull x y = r at *
  obtain ⟨a, b⟩ := r
  obtain ⟨⟨l1, e1⟩, f1⟩ := h1
  simp only at l1 e1 f1
  have h2 := Sub.uLimbOverS hw (x := a) (by omega) (boolLimb w c)
  rw [boolLimb_toNat (by omega)] at h2
  unfold I.overflowingSubULimb
  simp only
  generalize Sub.sOverflowingULimb a (boolLimb w c) = r at *
  obtain ⟨v, d⟩ := r
  obtain ⟨⟨l2, e2⟩, f2⟩ := h2
  simp only at *
  rw [l1] at *
  have hxl := toInt_InS x
  have hyl := toInt_InS y
  rw [show bits y = w * x.length by simp [bits, hl]] at hyl
  rw [show bits x = w * x.length from rfl] at *
  refine ⟨⟨l2, ?_⟩, ?_⟩
  · rw [e2, e1, Int.bmod_sub_bmod]
  · have hb := bmod_two (n := w * x.length) (z := toInt x - toInt y)
      (by unfold InS at hxl hyl; omega) (by unfold InS at hxl hyl; omega)
    rw [← e1] at hb
    unfold InS at *
    generalize (2 : Int) ^ (w * x.length) = P at *
    have hc : (c.toNat : Int) = 0 ∨ (c.toNat : Int) = 1 := by cases c <;> simp
    cases b <;> cases d <;> simp at * <;> omega

/-! ### Negation and absolute value -/

theorem toInt_inj {x y : Limbs w} (hl : x.length = y.length) (h : toInt x = toInt y) : x = y := by
  apply toNat_inj hl
  have h1 := toInt_emod_toNat x
  have h2 := toInt_emod_toNat y
  rw [h, bits_eq_of_length hl, ← h2] at h1
  exact_mod_cast h1

theorem eqMin_iff (hw : 0 < w) {x : Limbs w} (hx : x ≠ []) (h2 : x.length % 2 = 0) :
    Ord.eqConst x (I.minValue w x.length) = true ↔ toInt x = -2 ^ (w * x.length - 1) := by
  have hm := minValueS hw (List.length_pos_iff.2 hx)
  rw [Ord.eqConst_iff hm.1.symm h2]
  constructor
  · intro h; rw [← hm.2, ← h]
  · intro h; exact toInt_inj hm.1.symm (h.trans hm.2.symm)

theorem wrappingNegS (hw : 0 < w) {x : Limbs w} (hx : 2 ≤ x.length) :
    WrapS x.length (-toInt x) (I.wrappingNeg x) := by
  have h0 := ofU8S (N := x.length) (v := 0) hw hx (by positivity)
  have := Sub.wrapS hw (x := ofU8 x.length 0) (y := x) h0.1
  rw [h0.1, h0.2, Nat.cast_zero, zero_sub] at this
  exact this

theorem overflowingNegS (hw : 0 < w) {x : Limbs w} (hx : 2 ≤ x.length) (h2 : x.length % 2 = 0) :
    OverS x.length (-toInt x) (I.overflowingNeg x) := by
  have hne : x ≠ [] := length_ne (n := 0) (by omega)
  have hm := eqMin_iff hw hne h2
  have hS := toInt_InS x
  rw [show bits x = w * x.length from rfl] at hS
  have hP := two_pow_half (w := w) (N := x.length) hw (by omega)
  unfold I.overflowingNeg
  by_cases h : toInt x = -2 ^ (w * x.length - 1)
  · rw [if_pos (hm.2 h)]
    have hv := minValueS (w := w) (N := x.length) hw (by omega)
    refine ⟨⟨hv.1, ?_⟩, ?_⟩
    · simp only
      rw [hv.2, h, neg_neg]
      have := hv.wrap.2
      rw [hv.2] at this
      rw [this]
      have e : (2 : Int) ^ (w * x.length - 1) = -2 ^ (w * x.length - 1) + 2 ^ (w * x.length) := by
        rw [hP]; ring
      rw [e, ← natCast_two_pow (w * x.length), Int.add_bmod_right]
      congr 1
      rw [natCast_two_pow, hP]
      ring
    · simp only [true_iff]
      rw [h]
      unfold InS at *
      omega
  · rw [if_neg (fun hc => h (hm.1 hc))]
    refine ⟨wrappingNegS hw hx, ?_⟩
    simp only [Bool.false_eq_true, false_iff, not_not]
    unfold InS at *
    omega

theorem overflowingAbsS (hw : 0 < w) {x : Limbs w} (hx : 2 ≤ x.length) (h2 : x.length % 2 = 0) :
    OverS x.length |toInt x| (I.overflowingAbs x) := by
  have hne : x ≠ [] := length_ne (n := 0) (by omega)
  unfold I.overflowingAbs
  rw [isNegative_eq hw hne]
  by_cases h : toInt x < 0
  · simp only [h, decide_true, if_true]
    rw [abs_of_neg h]
    exact overflowingNegS hw hx h2
  · simp only [h, decide_false, Bool.false_eq_true, if_false]
    rw [abs_of_nonneg (by omega)]
    refine ⟨ExactS.wrap ⟨rfl, rfl⟩, ?_⟩
    simp only [Bool.false_eq_true, false_iff, not_not]
    exact toInt_InS x

theorem unsignedAbsU (hw : 0 < w) {x : Limbs w} (hx : 2 ≤ x.length) (h2 : x.length % 2 = 0) :
    ExactU x.length |toInt x| (I.unsignedAbs x) := by
  have h := (overflowingAbsS hw hx h2).1.wrapU
  refine h.exact ?_
  have hS := toInt_InS x
  rw [show bits x = w * x.length from rfl] at hS
  have hP := two_pow_half (w := w) (N := x.length) hw (by omega)
  have h0 : (0 : Int) < 2 ^ (w * x.length - 1) := by positivity
  unfold InU InS at *
  refine ⟨abs_nonneg _, ?_⟩
  rw [abs_lt]
  constructor <;> omega

end I256
