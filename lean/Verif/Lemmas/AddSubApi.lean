import Verif.Model.AddSubApi
import Verif.Lemmas.Contract
import Mathlib.Data.Int.ModEq

/-! Contracts of the addition and subtraction kernels. -/

namespace I256

variable {w : Nat} {N : Nat} {z : Int}

theorem toInt_modEq (x : Limbs w) : toInt x ≡ (toNat x : Int) [ZMOD 2 ^ (w * x.length)] :=
  toInt_emod x

theorem InS_of_toInt {x : Limbs w} (h : x.length = N) : InS (w * N) (toInt x) := by
  subst h; exact toInt_InS x

theorem WrapU.of_eq {v : Limbs w} {k : Int} (hl : v.length = N)
    (h : (toNat v : Int) = z + 2 ^ (w * N) * k) : WrapU N z v := by
  refine ⟨hl, ?_⟩
  have h1 := toNat_lt_int v
  have hb : bits v = w * N := by simp [bits, hl]
  rw [hb] at h1
  have : z % 2 ^ (w * N) = (toNat v : Int) % 2 ^ (w * N) := by rw [h]; simp
  rw [this, Int.emod_eq_of_lt (by omega) h1]

theorem toInt_pair (hw : 0 < w) {x y : Limbs w} (hx : x ≠ []) (hl : x.length = y.length) :
    bits x = w * x.length ∧ bits y = w * x.length ∧ y ≠ [] := by
  refine ⟨rfl, by simp [bits, hl], ?_⟩
  rintro rfl
  exact hx (List.length_eq_zero_iff.1 (by simpa using hl))

/-! ### Addition -/

theorem Add.overU (hw : 0 < w) {x y : Limbs w} (hl : x.length = y.length) :
    OverU x.length ((toNat x : Int) + toNat y) (Add.overflowingFull x y) := by
  have h := Add.overflowingLoop_spec hw x y false hl
  have hlen := Add.overflowingLoop_length x y false hl
  rw [← Add.overflowingFull] at h hlen
  generalize Add.overflowingFull x y = r at *
  obtain ⟨v, c⟩ := r
  have hv := toNat_lt v
  have hb : bits v = bits x := by simp only [bits, hlen]
  have hP : (2 : Int) ^ (w * x.length) = ((2 ^ bits x : Nat) : Int) := (natCast_two_pow _).symm
  rw [hb] at hv
  constructor
  · refine WrapU.of_eq (k := -(c.toNat : Int)) hlen ?_
    rw [hP]
    simp only [Bool.toNat_false] at h
    zify at h ⊢
    linarith
  · rw [InU, hP]
    generalize 2 ^ bits x = P at *
    cases c <;> simp at * <;> omega

theorem Add.wrapU (hw : 0 < w) {x y : Limbs w} (hl : x.length = y.length) :
    WrapU x.length ((toNat x : Int) + toNat y) (Add.wrappingFull x y) := by
  rw [Add.wrappingFull, Add.wrappingLoop_eq _ _ _ hl]
  exact (Add.overU hw hl).1

theorem Add.wrapS (hw : 0 < w) {x y : Limbs w} (hl : x.length = y.length) :
    WrapS x.length (toInt x + toInt y) (Add.wrappingFull x y) := by
  refine ((Add.wrapU hw hl).congr ?_).wrapS
  have h2 := toInt_modEq y
  rw [← hl] at h2
  exact ((toInt_modEq x).add h2).symm

theorem Add.overS (hw : 1 < w) {x y : Limbs w} (hx : x ≠ []) (hl : x.length = y.length) :
    OverS x.length (toInt x + toInt y) (Add.sOverflowingFull x y) := by
  constructor
  · rw [Add.sOverflowingFull, Add.sOverflowingLoop_fst _ _ _ hl]
    exact Add.wrapS (by omega) hl
  · have := Add.sOverflowingLoop_snd hw x y false hl hx
    simp only [Bool.toNat_false, Nat.cast_zero, add_zero] at this
    exact this

/-! ### Subtraction -/

theorem Sub.overU (hw : 0 < w) {x y : Limbs w} (hl : x.length = y.length) :
    OverU x.length ((toNat x : Int) - toNat y) (Sub.overflowingFull x y) := by
  have h := Sub.overflowingLoop_spec hw x y false hl
  have hlen := Sub.overflowingLoop_length x y false hl
  rw [← Sub.overflowingFull] at h hlen
  generalize Sub.overflowingFull x y = r at *
  obtain ⟨v, c⟩ := r
  have hv := toNat_lt v
  have hx := toNat_lt x
  have hb : bits v = bits x := by simp only [bits, hlen]
  have hP : (2 : Int) ^ (w * x.length) = ((2 ^ bits x : Nat) : Int) := (natCast_two_pow _).symm
  rw [hb] at hv
  constructor
  · refine WrapU.of_eq (k := (c.toNat : Int)) hlen ?_
    rw [hP]
    simp only [Bool.toNat_false] at h
    zify at h ⊢
    linarith
  · rw [InU, hP]
    generalize 2 ^ bits x = P at *
    cases c <;> simp at * <;> omega

theorem Sub.wrapU (hw : 0 < w) {x y : Limbs w} (hl : x.length = y.length) :
    WrapU x.length ((toNat x : Int) - toNat y) (Sub.wrappingFull x y) := by
  rw [Sub.wrappingFull, Sub.wrappingLoop_eq _ _ _ hl]
  exact (Sub.overU hw hl).1

theorem Sub.wrapS (hw : 0 < w) {x y : Limbs w} (hl : x.length = y.length) :
    WrapS x.length (toInt x - toInt y) (Sub.wrappingFull x y) := by
  refine ((Sub.wrapU hw hl).congr ?_).wrapS
  have h2 := toInt_modEq y
  rw [← hl] at h2
  exact ((toInt_modEq x).sub h2).symm

theorem Sub.overS (hw : 1 < w) {x y : Limbs w} (hx : x ≠ []) (hl : x.length = y.length) :
    OverS x.length (toInt x - toInt y) (Sub.sOverflowingFull x y) := by
  constructor
  · rw [Sub.sOverflowingFull, Sub.sOverflowingLoop_fst _ _ _ hl]
    exact Sub.wrapS (by omega) hl
  · have := Sub.sOverflowingLoop_snd hw x y false hl hx
    simp only [Bool.toNat_false, Nat.cast_zero, sub_zero] at this
    exact this

/-! ### Saturation -/

theorem CheckU.satMax {o : Option (Limbs w)} (h : CheckU N z o) (hz : 0 ≤ z) :
    SatU N z (unwrapOr o (U.maxValue w N)) := by
  by_cases hi : InU (w * N) z
  · obtain ⟨v, rfl, h1, h2⟩ := h.1 hi
    refine ⟨h1, ?_⟩
    unfold InU at hi
    simp only [unwrapOr]
    rw [h2]
    omega
  · rw [h.2 hi]
    have := maxValueU w N
    refine ⟨this.1, ?_⟩
    simp only [unwrapOr]
    rw [this.2]
    unfold InU at hi
    have : (0 : Int) < 2 ^ (w * N) := by positivity
    omega

theorem CheckU.satMin {o : Option (Limbs w)} (h : CheckU N z o) (hz : z < 2 ^ (w * N)) :
    SatU N z (unwrapOr o (U.minValue w N)) := by
  by_cases hi : InU (w * N) z
  · obtain ⟨v, rfl, h1, h2⟩ := h.1 hi
    refine ⟨h1, ?_⟩
    unfold InU at hi
    simp only [unwrapOr]
    rw [h2]
    omega
  · rw [h.2 hi]
    have := minValueU w N
    refine ⟨this.1, ?_⟩
    simp only [unwrapOr]
    rw [this.2]
    unfold InU at hi
    have : (0 : Int) < 2 ^ (w * N) := by positivity
    omega

theorem two_pow_half (hw : 0 < w) (hN : 0 < N) : (2 : Int) ^ (w * N) = 2 * 2 ^ (w * N - 1) := by
  have : 0 < w * N := Nat.mul_pos hw hN
  rw [← pow_succ']
  congr 1
  omega

theorem SatS.some {v : Limbs w} (hw : 0 < w) (hN : 0 < N) (hi : InS (w * N) z)
    (h : ExactS N z v) : SatS N z v := by
  refine ⟨h.1, ?_⟩
  unfold InS at hi
  rw [two_pow_half hw hN] at hi
  rw [h.2]
  omega

theorem SatS.max (hw : 0 < w) (hN : 0 < N) (hi : ¬ InS (w * N) z) (h0 : 0 ≤ z) :
    SatS N z (I.maxValue w N) := by
  have := maxValueS hw hN
  refine ⟨this.1, ?_⟩
  unfold InS at hi
  have h1 : (0 : Int) < 2 ^ (w * N - 1) := by positivity
  rw [two_pow_half hw hN] at hi
  rw [this.2]
  omega

theorem SatS.min (hw : 0 < w) (hN : 0 < N) (hi : ¬ InS (w * N) z) (h0 : z ≤ 0) :
    SatS N z (I.minValue w N) := by
  have := minValueS hw hN
  refine ⟨this.1, ?_⟩
  unfold InS at hi
  have h1 : (0 : Int) < 2 ^ (w * N - 1) := by positivity
  rw [two_pow_half hw hN] at hi
  rw [this.2]
  omega

/-- The `saturate` pattern: on `None` the sign of `x` decides the bound. -/
theorem CheckS.saturate (hw : 0 < w) {x : Limbs w} (hx : x ≠ []) {o : Option (Limbs w)}
    (h : CheckS x.length z o) (hs : ¬ InS (w * x.length) z → (toInt x < 0 ↔ z < 0)) :
    SatS x.length z (I.saturate x o) := by
  have hN : 0 < x.length := List.length_pos_iff.2 hx
  by_cases hi : InS (w * x.length) z
  · obtain ⟨v, rfl, hv⟩ := h.1 hi
    exact SatS.some hw hN hi hv
  · rw [h.2 hi, I.saturate, isNegative_eq hw hx]
    have := hs hi
    by_cases hn : toInt x < 0
    · simp only [hn, decide_true, if_true]
      exact SatS.min hw hN hi (by omega)
    · simp only [hn, decide_false, Bool.false_eq_true, if_false]
      exact SatS.max hw hN hi (by omega)

/-! ### Mixed signedness -/

theorem addSigned_over (hw : 0 < w) {x y : Limbs w} (hx : x ≠ []) (hl : x.length = y.length) :
    OverU x.length ((toNat x : Int) + toInt y) (U.overflowingAddSigned x y) := by
  have ho := Add.overU hw hl
  obtain ⟨_, hby, hy⟩ := toInt_pair hw hx hl
  have hlx := toNat_lt_int x
  have hly := toNat_lt_int y
  have hy2 := toInt_cases y
  have hyS := toInt_InS y
  rw [hby] at hy2 hyS hly
  rw [show bits x = w * x.length from rfl] at hlx
  unfold U.overflowingAddSigned U.overflowingAdd
  simp only
  rw [isNegative_eq hw hy]
  refine ⟨ho.1.congr ?_, ?_⟩
  · have h2 := toInt_modEq y
    rw [← hl] at h2
    exact ((Int.ModEq.refl _).add h2).symm
  · have := ho.2
    unfold InU InS at *
    generalize (2 : Int) ^ (w * x.length) = P at *
    rcases hy2 with ⟨h1, h2⟩ | ⟨h1, h2⟩ <;>
      generalize (Add.overflowingFull x y).2 = f at * <;> cases f <;> simp at * <;> omega

theorem subSigned_over (hw : 0 < w) {x y : Limbs w} (hx : x ≠ []) (hl : x.length = y.length) :
    OverU x.length ((toNat x : Int) - toInt y) (U.overflowingSubSigned x y) := by
  have ho := Sub.overU hw hl
  obtain ⟨_, hby, hy⟩ := toInt_pair hw hx hl
  have hlx := toNat_lt_int x
  have hly := toNat_lt_int y
  have hy2 := toInt_cases y
  have hyS := toInt_InS y
  rw [hby] at hy2 hyS hly
  rw [show bits x = w * x.length from rfl] at hlx
  unfold U.overflowingSubSigned U.overflowingSub
  simp only
  rw [isNegative_eq hw hy]
  refine ⟨ho.1.congr ?_, ?_⟩
  · have h2 := toInt_modEq y
    rw [← hl] at h2
    exact ((Int.ModEq.refl _).sub h2).symm
  · have := ho.2
    unfold InU InS at *
    generalize (2 : Int) ^ (w * x.length) = P at *
    rcases hy2 with ⟨h1, h2⟩ | ⟨h1, h2⟩ <;>
      generalize (Sub.overflowingFull x y).2 = f at * <;> cases f <;> simp at * <;> omega

theorem addUnsigned_over (hw : 1 < w) {x y : Limbs w} (hx : x ≠ []) (hl : x.length = y.length) :
    OverS x.length (toInt x + (toNat y : Int)) (I.overflowingAddUnsigned x y) := by
  have ho := Add.overS hw hx hl
  obtain ⟨_, hby, hy⟩ := toInt_pair (by omega) hx hl
  have hxS := toInt_InS x
  have hy2 := toInt_cases y
  have hyS := toInt_InS y
  rw [hby] at hy2 hyS
  rw [show bits x = w * x.length from rfl] at hxS
  unfold I.overflowingAddUnsigned I.overflowingAdd
  simp only
  rw [isNegative_eq (by omega) hy]
  refine ⟨(ho.1.wrapU.congr ?_).wrapS, ?_⟩
  · have h2 := toInt_modEq y
    rw [← hl] at h2
    exact ((Int.ModEq.refl _).add h2)
  · have := ho.2
    unfold InS at *
    generalize (2 : Int) ^ (w * x.length) = P at *
    rcases hy2 with ⟨h1, h2⟩ | ⟨h1, h2⟩ <;>
      generalize (Add.sOverflowingFull x y).2 = f at * <;> cases f <;> simp at * <;> omega

theorem subUnsigned_over (hw : 1 < w) {x y : Limbs w} (hx : x ≠ []) (hl : x.length = y.length) :
    OverS x.length (toInt x - (toNat y : Int)) (I.overflowingSubUnsigned x y) := by
  have ho := Sub.overS hw hx hl
  obtain ⟨_, hby, hy⟩ := toInt_pair (by omega) hx hl
  have hxS := toInt_InS x
  have hy2 := toInt_cases y
  have hyS := toInt_InS y
  rw [hby] at hy2 hyS
  rw [show bits x = w * x.length from rfl] at hxS
  unfold I.overflowingSubUnsigned I.overflowingSub
  simp only
  rw [isNegative_eq (by omega) hy]
  refine ⟨(ho.1.wrapU.congr ?_).wrapS, ?_⟩
  · have h2 := toInt_modEq y
    rw [← hl] at h2
    exact ((Int.ModEq.refl _).sub h2)
  · have := ho.2
    unfold InS at *
    generalize (2 : Int) ^ (w * x.length) = P at *
    rcases hy2 with ⟨h1, h2⟩ | ⟨h1, h2⟩ <;>
      generalize (Sub.sOverflowingFull x y).2 = f at * <;> cases f <;> simp at * <;> omega

end I256
