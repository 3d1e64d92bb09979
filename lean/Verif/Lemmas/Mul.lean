import Verif.Model.Mul
import Verif.Lemmas.NegAbs
import Mathlib.Tactic.Ring
import Mathlib.Tactic.LinearCombination

namespace I256

variable {w : Nat}

/-! ### `negate!` -/

theorem bv_not_toNat (x : BitVec w) : (~~~x).toNat = 2 ^ w - 1 - x.toNat := by
  rw [BitVec.toNat_not]

theorem negateLoop_length (x : Limbs w) (c : Bool) : (negateLoop x c).length = x.length := by
  fun_induction negateLoop x c <;> simp_all

theorem negateLoop_spec (hw : 0 < w) (x : Limbs w) (c : Bool) :
    ∃ k : Nat, toNat (negateLoop x c) + 2 ^ bits x * k + toNat x + 1 = 2 ^ bits x + c.toNat := by
  fun_induction negateLoop x c with
  | case1 x c =>
    have h := uAddO_spec (~~~x) (boolLimb w c)
    have hx := x.isLt
    refine ⟨(uAddO (~~~x) (boolLimb w c)).2.toNat, ?_⟩
    rw [boolLimb_toNat hw, bv_not_toNat] at h
    simp only [toNat_cons, toNat_nil, bits_cons, bits_nil, Nat.add_zero, Nat.mul_zero]
    rw [show ~~~x + boolLimb w c = (uAddO (~~~x) (boolLimb w c)).1 from rfl]
    omega
  | case2 x xs c hne v c' heq ih =>
    obtain ⟨k, hk⟩ := ih
    have h := uAddO_spec (~~~x) (boolLimb w c)
    rw [boolLimb_toNat hw, bv_not_toNat, heq] at h
    simp only at h
    have hx := x.isLt
    refine ⟨k, ?_⟩
    rw [toNat_cons, toNat_cons, pow_bits_cons]
    have h2 : v.toNat + x.toNat + 1 + 2 ^ w * c'.toNat = 2 ^ w + c.toNat := by omega
    have h3 : 2 ^ w * toNat (negateLoop xs c') + 2 ^ w * 2 ^ bits xs * k + 2 ^ w * toNat xs + 2 ^ w
        = 2 ^ w * 2 ^ bits xs + 2 ^ w * c'.toNat := by
      have := congrArg (2 ^ w * ·) hk
      simp only [Nat.mul_add, Nat.mul_one, ← Nat.mul_assoc] at this
      exact this
    omega
  | case3 c => exact ⟨c.toNat, by simp; omega⟩

theorem negate_length (x : Limbs w) : (negate x).length = x.length := by
  unfold negate
  split
  · simp [negateLoop_length]
  · rfl

/-- `negate!` is negation modulo `2^BITS`. -/
theorem negateU (hw : 0 < w) (x : Limbs w) : WrapU x.length (-(toNat x : Int)) (negate x) := by
  cases x with
  | nil => exact ⟨rfl, by simp [negate]⟩
  | cons x xs =>
    have h := uAddO_spec (~~~x) (1 : BitVec w)
    have h1 : (1 : BitVec w).toNat = 1 := by
      rw [BitVec.ofNat_eq_ofNat, BitVec.toNat_ofNat]
      exact Nat.mod_eq_of_lt (one_lt_two_pow' hw)
    rw [h1, bv_not_toNat] at h
    have hx := x.isLt
    obtain ⟨k, hk⟩ := negateLoop_spec hw xs (uAddO (~~~x) (1 : BitVec w)).2
    refine WrapU.of_eq (negate_length _) (k := 1 - k) ?_
    simp only [negate, toNat_cons, List.length_cons]
    rw [Nat.mul_add, Nat.mul_one, Nat.add_comm, pow_add,
      show w * xs.length = bits xs from rfl]
    have h2 : (uAddO (~~~x) (1 : BitVec w)).1.toNat + x.toNat
        + 2 ^ w * (uAddO (~~~x) (1 : BitVec w)).2.toNat = 2 ^ w := by omega
    generalize (uAddO (~~~x) (1 : BitVec w)).1 = v at *
    generalize (uAddO (~~~x) (1 : BitVec w)).2 = c at *
    zify at hk h2
    push_cast
    linear_combination h2 + 2 ^ w * hk

namespace Mul

theorem row_length (xi : BitVec w) (ys rs : Limbs w) (c : BitVec w) :
    (row xi ys rs c).length = rs.length := by
  fun_induction row xi ys rs c <;> simp_all

/-- The limbs beyond the one that receives the carry are not touched. -/
theorem row_drop (xi : BitVec w) (ys rs : Limbs w) (c : BitVec w) :
    (row xi ys rs c).drop (ys.length + 1) = rs.drop (ys.length + 1) := by
  fun_induction row xi ys rs c <;> simp_all

theorem rowO_fst (xi : BitVec w) (ys rs : Limbs w) (c : BitVec w) :
    (rowO xi ys rs c).1 = row xi ys rs c := by
  fun_induction rowO xi ys rs c <;> simp_all [row]

theorem dropped_iff (xi : BitVec w) (ys : Limbs w) :
    dropped xi ys = true ↔ xi.toNat * toNat ys ≠ 0 := by
  fun_induction dropped xi ys with
  | case1 y ys h =>
    have h1 : xi.toNat ≠ 0 := fun h0 => h.1 (BitVec.eq_of_toNat_eq (by simpa using h0))
    have h2 : y.toNat ≠ 0 := fun h0 => h.2 (BitVec.eq_of_toNat_eq (by simpa using h0))
    simp only [true_iff, toNat_cons]
    exact Nat.mul_ne_zero h1 (by omega)
  | case2 y ys h ih =>
    rw [ih, toNat_cons]
    have : xi.toNat = 0 ∨ y.toNat = 0 := by
      by_contra hc
      push Not at hc
      apply h
      exact ⟨fun h0 => hc.1 (by rw [h0]; simp), fun h0 => hc.2 (by rw [h0]; simp)⟩
    rcases this with h | h <;> simp [h]
  | case3 => simp

/-- One row adds `xi * y + carry`; `H` is what does not fit, and the flag says whether it is zero. -/
theorem rowO_spec (xi : BitVec w) (ys rs : Limbs w) (c : BitVec w)
    (h0 : ∀ a ∈ rs.drop ys.length, a = 0) :
    ∃ H : Nat, toNat rs + xi.toNat * toNat ys + c.toNat
        = toNat (row xi ys rs c) + 2 ^ bits rs * H ∧
      ((rowO xi ys rs c).2 = true ↔ H ≠ 0) := by
  fun_induction rowO xi ys rs c with
  | case1 y ys r rs c v c' heq rs' o heq2 ih =>
    obtain ⟨H, h1, h2⟩ := ih (by simpa using h0)
    refine ⟨H, ?_, ?_⟩
    · have h := mac_spec r xi y c
      rw [heq] at h
      simp only [row, heq, toNat_cons, pow_bits_cons] at h ⊢
      have := congrArg (2 ^ w * ·) h1
      zify at *
      linear_combination this - h
    · rw [heq2] at h2
      exact h2
  | case2 r rs c =>
    refine ⟨0, ?_, by simp⟩
    have hr : r = 0 := h0 r (by simp)
    simp [row, hr]
    omega
  | case3 ys c =>
    cases ys with
    | nil =>
      refine ⟨c.toNat, by simp [row], ?_⟩
      simp [dropped, BitVec.toNat_eq]
    | cons y ys =>
      refine ⟨xi.toNat * toNat (y :: ys) + c.toNat, by simp [row], ?_⟩
      rw [Bool.or_eq_true, dropped_iff, decide_eq_true_iff]
      have : c ≠ 0 ↔ c.toNat ≠ 0 := by simp [BitVec.toNat_eq]
      rw [this]
      omega

theorem rows_length (xs ys rs : Limbs w) (hl : xs.length ≤ rs.length) :
    (rows xs ys rs).length = rs.length := by
  induction xs generalizing rs with
  | nil => rfl
  | cons xi xs ih =>
    have h := row_length xi ys rs 0
    unfold rows
    split
    · next r rs' heq =>
      rw [heq] at h
      simp at h hl
      simp [ih rs' (by omega), h]
    · next heq =>
      rw [heq] at h
      simp at h hl
      omega

theorem rowsO_fst (xs ys rs : Limbs w) : (rowsO xs ys rs).1 = rows xs ys rs := by
  induction xs generalizing rs with
  | nil => rfl
  | cons xi xs ih =>
    have h := rowO_fst xi ys rs 0
    unfold rowsO rows
    rw [← h]
    generalize rowO xi ys rs 0 = p
    obtain ⟨l, o⟩ := p
    cases l with
    | nil => rfl
    | cons r rs' => simp [ih]

/-- The whole product, with the part that does not fit. -/
theorem rowsO_spec (xs ys rs : Limbs w) (hl : xs.length ≤ rs.length) (hy : 0 < ys.length)
    (h0 : ∀ a ∈ rs.drop ys.length, a = 0) :
    ∃ H : Nat, toNat rs + toNat xs * toNat ys = toNat (rows xs ys rs) + 2 ^ bits rs * H ∧
      ((rowsO xs ys rs).2 = true ↔ H ≠ 0) := by
  induction xs generalizing rs with
  | nil => exact ⟨0, by simp [rows], by simp [rowsO]⟩
  | cons xi xs ih =>
    obtain ⟨H0, h1, h2⟩ := rowO_spec xi ys rs 0 h0
    have hlen := row_length xi ys rs 0
    have hdrop := row_drop xi ys rs 0
    have hfst := rowO_fst xi ys rs 0
    unfold rowsO rows
    rw [← hfst] at h1 hlen hdrop ⊢
    clear hfst
    generalize rowO xi ys rs 0 = p at *
    obtain ⟨l, o⟩ := p
    simp only at *
    cases l with
    | nil => simp at hlen hl; omega
    | cons r rs' =>
      obtain ⟨H1, h3, h4⟩ := ih rs' (by simp at hlen hl; omega) (by
        intro a ha
        have : a ∈ (r :: rs').drop (ys.length + 1) := by simpa using ha
        rw [hdrop] at this
        apply h0
        rw [Nat.add_comm, ← List.drop_drop] at this
        exact List.mem_of_mem_drop (by rw [List.drop_drop, Nat.add_comm, ← List.drop_drop] at this; exact this))
      have hb : bits rs = w + bits rs' := by
        rw [← bits_cons r rs']; exact bits_eq_of_length hlen.symm
      refine ⟨H0 + H1, ?_, ?_⟩
      · simp only [toNat_cons] at *
        rw [hb, Nat.pow_add] at h1 ⊢
        have h5 := congrArg (2 ^ w * ·) h3
        have h00 : BitVec.toNat (0 : BitVec w) = 0 := by simp
        rw [h00] at h1
        zify at *
        linear_combination h1 + h5
      · rw [Bool.or_eq_true, h2, h4]
        omega

theorem overflowingFull_fst (x y : Limbs w) : (overflowingFull x y).1 = wrappingFull x y :=
  rowsO_fst _ _ _

/-- Unsigned multiplication of arrays of any lengths. -/
theorem overU (x y : Limbs w) (hy : 0 < y.length) :
    OverU x.length ((toNat x : Int) * toNat y) (overflowingFull x y) := by
  obtain ⟨H, h1, h2⟩ := rowsO_spec x y (List.replicate x.length 0) (by simp) hy
    (by intro a ha; exact List.eq_of_mem_replicate (List.mem_of_mem_drop ha))
  rw [toNat_replicate_zero, bits_replicate, Nat.zero_add] at h1
  have hlen : (wrappingFull x y).length = x.length := by
    rw [wrappingFull, rows_length _ _ _ (by simp)]; simp
  have hlt := toNat_lt (wrappingFull x y)
  rw [bits, hlen] at hlt
  rw [show rows x y (List.replicate x.length 0) = wrappingFull x y from rfl] at h1
  refine ⟨WrapU.of_eq (k := -H) (by rw [overflowingFull_fst]; exact hlen) ?_, ?_⟩
  · rw [overflowingFull_fst]
    zify at h1
    linear_combination -h1
  · rw [overflowingFull, h2]
    unfold InU
    rw [← natCast_two_pow]
    norm_cast
    rw [h1]
    have h3 : 0 < 2 ^ (w * x.length) := by positivity
    constructor
    · intro h4 hc
      have : 2 ^ (w * x.length) * 1 ≤ 2 ^ (w * x.length) * H := Nat.mul_le_mul_left _ (by omega)
      omega
    · intro hc h4
      apply hc
      rw [h4]
      omega

theorem wrapU (x y : Limbs w) (hy : 0 < y.length) :
    WrapU x.length ((toNat x : Int) * toNat y) (wrappingFull x y) := by
  have := (overU x y hy).1
  rwa [overflowingFull_fst] at this

theorem wrapS (x y : Limbs w) (hy : 0 < y.length) (hl : x.length = y.length) :
    WrapS x.length (toInt x * toInt y) (wrappingFull x y) := by
  refine ((wrapU x y hy).congr ?_).wrapS
  have h := toInt_modEq y
  rw [← hl] at h
  exact ((toInt_modEq x).mul h).symm

/-- The product of a signed array with an unsigned one of any length. -/
theorem wrapSU (x y : Limbs w) (hy : 0 < y.length) :
    WrapS x.length (toInt x * toNat y) (wrappingFull x y) :=
  ((wrapU x y hy).congr (((toInt_modEq x).mul_right _).symm)).wrapS

theorem absLimbs (hw : 0 < w) {x : Limbs w} (hx : x ≠ []) :
    ExactU x.length |toInt x| (if (msLimb x).slt 0 then negate x else x) := by
  have h := isNegative_iff hw hx
  have hi := toInt_InS x
  rw [show bits x = w * x.length from rfl] at hi
  unfold InS at hi
  have hP : (0 : Int) < 2 ^ (w * x.length) := by positivity
  rw [I.isNegative] at h
  by_cases hn : (msLimb x).slt 0 = true
  · rw [if_pos hn]
    have h1 := h.1 hn
    rw [abs_of_neg h1]
    refine ((negateU hw x).congr ((toInt_modEq x).neg.symm)).exact ⟨by omega, by omega⟩
  · rw [if_neg hn]
    have h1 : ¬ toInt x < 0 := fun hc => hn (h.2 hc)
    rw [abs_of_nonneg (by omega)]
    refine ⟨rfl, ?_⟩
    have := toInt_emod_toNat x
    rw [this, Int.emod_eq_of_lt (by omega) (by rw [show bits x = w * x.length from rfl]; omega)]

theorem digit_le {P L T Q : Int} (h0 : 0 ≤ L) (h1 : L < P) : P * Q ≤ L + P * T ↔ Q ≤ T := by
  constructor
  · intro h
    by_contra hc
    have : P * (T + 1) ≤ P * Q := mul_le_mul_of_nonneg_left (by omega) (by omega)
    rw [mul_add] at this
    omega
  · intro h
    have : P * Q ≤ P * T := mul_le_mul_of_nonneg_left h (by omega)
    omega

theorem slt_zero_iff (hw : 0 < w) (t : BitVec w) :
    t.slt 0 = true ↔ (2 : Int) ^ (w - 1) ≤ t.toNat := by
  have h := isNegative_iff hw (x := [t]) (by simp)
  rw [I.isNegative, show msLimb [t] = t from rfl, toInt_singleton] at h
  rw [h, BitVec.toInt_eq_toNat_cond]
  have h2 := bv_lt_int t
  have hw2 := two_pow_pred hw
  have h3 : (2 * t.toNat < 2 ^ w) ↔ (2 * (t.toNat : Int) < 2 ^ w) := by
    rw [← natCast_two_pow]; norm_cast
  rw [natCast_two_pow]
  split <;> omega

theorem eq_intMin_iff (hw : 0 < w) (t : BitVec w) :
    (t == BitVec.intMin w) = true ↔ (t.toNat : Int) = 2 ^ (w - 1) := by
  rw [beq_iff_eq, ← BitVec.toNat_inj, BitVec.toNat_intMin, ← natCast_two_pow]
  have : 2 ^ (w - 1) % 2 ^ w = 2 ^ (w - 1) :=
    Nat.mod_eq_of_lt (Nat.pow_lt_pow_right (by omega) (by omega))
  rw [this]
  norm_cast

/-- The lengths may differ. -/
theorem overflowingFullS_gen (hw : 0 < w) {x y : Limbs w} (hx : x ≠ []) (hy : y ≠ []) :
    WrapS x.length (toInt x * toInt y) (overflowingFullS x y).1 ∧
      ((overflowingFullS x y).2 = true ↔
        ¬ InS (w * x.length) (toInt x * toInt y) ∧ ¬ Gap w x.length (toInt x * toInt y)) := by
  have hN : 0 < x.length := List.length_pos_iff.2 hx
  have hM : 0 < y.length := List.length_pos_iff.2 hy
  have ax := absLimbs hw hx
  have ay := absLimbs hw hy
  have nx := isNegative_iff hw hx
  have ny := isNegative_iff hw hy
  rw [I.isNegative] at nx ny
  unfold overflowingFullS
  simp only
  generalize (if (msLimb x).slt 0 then negate x else x) = x' at *
  generalize (if (msLimb y).slt 0 then negate y else y) = y' at *
  have ho := overU x' y' (by rw [ay.1]; omega)
  rw [ax.1, ax.2, ay.2] at ho
  generalize overflowingFull x' y' = p at *
  obtain ⟨r, o⟩ := p
  obtain ⟨hr, hf⟩ := ho
  simp only at hr hf ⊢
  have hrl := hr.1
  have hrne : r ≠ [] := length_ne (n := 0) (by omega)
  obtain ⟨l, t, rfl⟩ := exists_concat hrne
  rw [msLimb_concat]
  simp at hrl
  have hlt := toNat_lt_int l
  have htl := bv_lt_int t
  have hN1 : x.length - 1 = l.length := by omega
  have hb : bits l = w * (x.length - 1) := by rw [hN1]; rfl
  have hpw : (2 : Int) ^ (w * x.length) = 2 ^ (w * (x.length - 1)) * 2 ^ w := by
    rw [← pow_add]
    congr 1
    rw [← hrl, Nat.mul_add]
    simp
  have hph : (2 : Int) ^ (w * x.length - 1) = 2 ^ (w * (x.length - 1)) * 2 ^ (w - 1) := by
    rw [← pow_add, pow_pred_mul hw hN]
  have hw2 := two_pow_pred hw
  have hslt := slt_zero_iff hw t
  have hmin := eq_intMin_iff hw t
  have hval := hr.2
  rw [toNat_concat, hb] at hval
  rw [hb] at hlt
  push_cast at hval
  have hz0 : 0 ≤ |toInt x| * |toInt y| := by positivity
  have hd := @digit_le (2 ^ (w * (x.length - 1))) (toNat l) t.toNat (2 ^ (w - 1)) (by omega) hlt
  have hd1 := @digit_le (2 ^ (w * (x.length - 1))) (toNat l) t.toNat (2 ^ (w - 1) + 1) (by omega) hlt
  rw [mul_add, mul_one] at hd1
  have hgap : ∀ z, Gap w x.length z ↔ z < -(2 ^ (w * (x.length - 1)) * 2 ^ (w - 1)) ∧
      -(2 ^ (w * (x.length - 1)) * 2 ^ (w - 1)) - 2 ^ (w * (x.length - 1)) < z := by
    intro z; unfold Gap; rw [hph]
  have hS : ∀ z, InS (w * x.length) z ↔ -(2 ^ (w * (x.length - 1)) * 2 ^ (w - 1)) ≤ z ∧
      z < 2 ^ (w * (x.length - 1)) * 2 ^ (w - 1) := by
    intro z
    unfold InS
    rw [hpw, hw2, mul_left_comm]
    omega
  have hU : ∀ z, InU (w * x.length) z ↔ 0 ≤ z ∧ z < 2 * (2 ^ (w * (x.length - 1)) * 2 ^ (w - 1)) := by
    intro z
    unfold InU
    rw [hpw, hw2, mul_left_comm]
  have hPle : (2 : Int) ^ (w * (x.length - 1)) ≤ 2 ^ (w * (x.length - 1)) * 2 ^ (w - 1) :=
    le_mul_of_one_le_right (by positivity) (one_le_pow₀ (by norm_num))
  have hval2 : o = false →
      (toNat l : Int) + 2 ^ (w * (x.length - 1)) * t.toNat = |toInt x| * |toInt y| := by
    intro h
    rw [hval, emod_of_InU]
    by_contra hc
    rw [hf.2 hc] at h
    simp at h
  rw [hU] at hf
  by_cases hs : ((msLimb x).slt 0 ^^ (msLimb y).slt 0) = true
  · have hz : toInt x * toInt y = -(|toInt x| * |toInt y|) := by
      by_cases h1 : (msLimb x).slt 0 = true
      · have h2 : ¬ (msLimb y).slt 0 = true := by rw [h1] at hs; simpa using hs
        have h4 : 0 ≤ toInt y := by by_contra hc; exact h2 (ny.2 (by omega))
        rw [abs_of_neg (nx.1 h1), abs_of_nonneg h4]
        ring
      · have h2 : (msLimb y).slt 0 = true := by
          rw [Bool.not_eq_true] at h1
          rw [h1] at hs; simpa using hs
        have h4 : 0 ≤ toInt x := by by_contra hc; exact h1 (nx.2 (by omega))
        rw [abs_of_neg (ny.1 h2), abs_of_nonneg h4]
        ring
    rw [hs]
    simp only [Bool.not_true, Bool.false_eq_true, if_false]
    rw [hz, hgap, hS]
    constructor
    · have hneg := negateU hw (l ++ [t])
      have hrl' : (l ++ [t]).length = x.length := by simpa using hrl
      rw [hrl'] at hneg
      refine (hneg.congr (Int.ModEq.neg ?_)).wrapS
      rw [hr.2]
      exact Int.mod_modEq _ _
    · generalize |toInt x| * |toInt y| = m at *
      generalize (2 : Int) ^ (w * (x.length - 1)) * t.toNat = PT at *
      generalize (2 : Int) ^ (w * (x.length - 1)) * 2 ^ (w - 1) = PQ at *
      generalize (2 : Int) ^ (w * (x.length - 1)) = P at *
      generalize (2 : Int) ^ (w - 1) = Q at *
      generalize t.slt 0 = b1 at *
      generalize (t == BitVec.intMin w) = b2 at *
      cases o <;> cases b1 <;> cases b2 <;> simp at * <;> omega
  · have hz : toInt x * toInt y = |toInt x| * |toInt y| := by
      by_cases h1 : (msLimb x).slt 0 = true
      · have h2 : (msLimb y).slt 0 = true := by rw [h1] at hs; simpa using hs
        rw [abs_of_neg (nx.1 h1), abs_of_neg (ny.1 h2)]
        ring
      · have h2 : ¬ (msLimb y).slt 0 = true := by
          rw [Bool.not_eq_true] at h1
          rw [h1] at hs; simpa using hs
        have h4 : 0 ≤ toInt x := by by_contra hc; exact h1 (nx.2 (by omega))
        have h5 : 0 ≤ toInt y := by by_contra hc; exact h2 (ny.2 (by omega))
        rw [abs_of_nonneg h4, abs_of_nonneg h5]
    rw [Bool.not_eq_true] at hs
    rw [hs]
    simp only [Bool.not_false, if_true]
    rw [hz, hgap, hS]
    refine ⟨hr.wrapS, ?_⟩
    generalize |toInt x| * |toInt y| = m at *
    generalize (2 : Int) ^ (w * (x.length - 1)) * t.toNat = PT at *
    generalize (2 : Int) ^ (w * (x.length - 1)) * 2 ^ (w - 1) = PQ at *
    generalize (2 : Int) ^ (w * (x.length - 1)) = P at *
    generalize (2 : Int) ^ (w - 1) = Q at *
    generalize t.slt 0 = b1 at *
    cases o <;> cases b1 <;> simp at * <;> omega

theorem overflowingFullS_spec (hw : 0 < w) {x y : Limbs w} (hx : x ≠ [])
    (hl : x.length = y.length) :
    WrapS x.length (toInt x * toInt y) (overflowingFullS x y).1 ∧
      ((overflowingFullS x y).2 = true ↔
        ¬ InS (w * x.length) (toInt x * toInt y) ∧ ¬ Gap w x.length (toInt x * toInt y)) :=
  overflowingFullS_gen hw hx (by intro h; rw [h] at hl; exact hx (List.length_eq_zero_iff.1 hl))

/-- The widening product is complete. -/
theorem widening_spec (x y : Limbs w) (hl : x.length = y.length) (hx : 0 < x.length) :
    (widening x y).1.length = x.length ∧ (widening x y).2.length = x.length ∧
      toNat (widening x y).1 + 2 ^ bits x * toNat (widening x y).2 = toNat x * toNat y := by
  obtain ⟨H, h1, -⟩ := rowsO_spec x y (List.replicate (x.length + x.length) 0) (by simp) (by omega)
    (by intro a ha; exact List.eq_of_mem_replicate (List.mem_of_mem_drop ha))
  have hlen := rows_length x y (List.replicate (x.length + x.length) 0) (by simp)
  rw [List.length_replicate] at hlen
  rw [toNat_replicate_zero, bits_replicate, Nat.zero_add] at h1
  unfold widening
  simp only
  generalize rows x y (List.replicate (x.length + x.length) 0) = r at *
  have ht : (r.take x.length).length = x.length := by rw [List.length_take]; omega
  have hd : (r.drop x.length).length = x.length := by rw [List.length_drop]; omega
  refine ⟨ht, hd, ?_⟩
  have h2 := toNat_append (r.take x.length) (r.drop x.length)
  rw [List.take_append_drop, bits_eq_of_length ht] at h2
  rw [← h2]
  have hxl := toNat_lt x
  have hyl := toNat_lt y
  rw [bits_eq_of_length hl.symm] at hyl
  have hH : H = 0 := by
    by_contra hc
    have h3 : toNat x * toNat y < 2 ^ bits x * 2 ^ bits x :=
      Nat.mul_lt_mul'' hxl hyl
    have h4 : 2 ^ (w * (x.length + x.length)) = 2 ^ bits x * 2 ^ bits x := by
      rw [← Nat.pow_add, Nat.mul_add]; rfl
    rw [h4] at h1
    have : 2 ^ bits x * 2 ^ bits x * 1 ≤ 2 ^ bits x * 2 ^ bits x * H :=
      Nat.mul_le_mul_left _ (by omega)
    omega
  rw [h1, hH]
  omega

end Mul

end I256
