import Verif.Model.Bitops
import Verif.Lemmas.NegAbs
import Mathlib.Data.Nat.Bitwise
import Mathlib.Tactic.Ring

namespace I256

variable {w : Nat}

/-! ### bits of a limb array -/

theorem testBit_cons (x : BitVec w) (xs : Limbs w) (i : Nat) :
    (toNat (x :: xs)).testBit i = if i < w then x.getLsbD i else (toNat xs).testBit (i - w) := by
  rw [toNat_cons, Nat.add_comm, Nat.testBit_two_pow_mul_add _ x.isLt]
  rfl

theorem testBit_of_le {x : Limbs w} {i : Nat} (h : bits x ≤ i) : (toNat x).testBit i = false :=
  Nat.testBit_lt_two_pow (lt_of_lt_of_le (toNat_lt x) (Nat.pow_le_pow_right (by omega) h))

/-- Bit `i` of the value is bit `i % w` of limb `i / w`. -/
theorem testBit_limb (hw : 0 < w) (x : Limbs w) (i : Nat) :
    (toNat x).testBit i = (x.getD (i / w) 0).getLsbD (i % w) := by
  induction x generalizing i with
  | nil => simp
  | cons a x ih =>
    rw [testBit_cons]
    by_cases h : i < w
    · rw [if_pos h, Nat.div_eq_of_lt h, Nat.mod_eq_of_lt h]; rfl
    · rw [if_neg h, ih]
      have h1 : i / w = (i - w) / w + 1 := Nat.div_eq_sub_div hw (by omega)
      have h2 : i % w = (i - w) % w := Nat.mod_eq_sub_mod (by omega)
      rw [h1, h2]
      rfl

theorem testBit_zipWith (f : BitVec w → BitVec w → BitVec w) (g : Bool → Bool → Bool)
    (hg : g false false = false)
    (hf : ∀ a b i, i < w → (f a b).getLsbD i = g (a.getLsbD i) (b.getLsbD i))
    (x y : Limbs w) (hl : x.length = y.length) (i : Nat) :
    (toNat (List.zipWith f x y)).testBit i = g ((toNat x).testBit i) ((toNat y).testBit i) := by
  induction x generalizing y i with
  | nil =>
    have : y = [] := List.length_eq_zero_iff.1 hl.symm
    subst this
    simp [hg]
  | cons a x ih =>
    cases y with
    | nil => simp at hl
    | cons b y =>
      rw [List.zipWith_cons_cons, testBit_cons, testBit_cons, testBit_cons]
      split
      · next h => exact hf a b i h
      · exact ih y (by simpa using hl) _

theorem testBit_not (x : Limbs w) (i : Nat) (hi : i < bits x) :
    (toNat (Bits.not x)).testBit i = !(toNat x).testBit i := by
  unfold Bits.not
  induction x generalizing i with
  | nil => simp at hi
  | cons a x ih =>
    rw [List.map_cons, testBit_cons, testBit_cons]
    split
    · next h => simp [h]
    · next h => rw [bits_cons] at hi; exact ih _ (by omega)

theorem not_length (x : Limbs w) : (Bits.not x).length = x.length := by simp [Bits.not]

theorem not_toNat (x : Limbs w) : toNat (Bits.not x) + toNat x + 1 = 2 ^ bits x := by
  induction x with
  | nil => simp [Bits.not]
  | cons a x ih =>
    have h := BitVec.toNat_not (x := a)
    have ha := a.isLt
    rw [pow_bits_cons, ← ih]
    simp only [Bits.not, List.map_cons, toNat_cons]
    rw [h]
    simp only [Nat.mul_add]
    omega

/-! ### counting -/

/-- `k` is the number of leading zeros of `v` as a number of `B` bits. -/
def IsLz (B v k : Nat) : Prop := k ≤ B ∧ v < 2 ^ (B - k) ∧ (k < B → 2 ^ (B - 1 - k) ≤ v)
/-- `k` is the number of trailing zeros of `v` as a number of `B` bits. -/
def IsTz (B v k : Nat) : Prop := k ≤ B ∧ 2 ^ k ∣ v ∧ (k < B → v.testBit k = true)

theorem clz_spec (x : BitVec w) : IsLz w x.toNat (clz x) := by
  unfold clz IsLz
  by_cases h : x = 0
  · rw [if_pos h, h]; simp
  · rw [if_neg h]
    have h0 : x.toNat ≠ 0 := fun h1 => h (BitVec.eq_of_toNat_eq (by simpa using h1))
    have hx := x.isLt
    have h1 : x.toNat.log2 < w := (Nat.log2_lt h0).2 hx
    refine ⟨by omega, ?_, ?_⟩
    · rw [← Nat.log2_lt h0]; omega
    · intro _
      rw [← Nat.le_log2 h0]; omega

theorem ctz_spec (x : BitVec w) : IsTz w x.toNat (ctz x) := by
  unfold ctz IsTz
  have hle := List.findIdx_le_length (p := fun i => x.getLsbD i) (xs := List.range w)
  rw [List.length_range] at hle
  refine ⟨hle, ?_, ?_⟩
  · rw [Nat.dvd_iff_mod_eq_zero]
    apply Nat.eq_of_testBit_eq
    intro i
    rw [Nat.testBit_mod_two_pow, Nat.zero_testBit]
    by_cases hi : i < (List.range w).findIdx (fun i => x.getLsbD i)
    · have := List.not_of_lt_findIdx hi
      simp at this
      have h2 : x.toNat.testBit i = false := this
      simp [h2]
    · simp [hi]
  · intro h
    have := List.findIdx_getElem (p := fun i => x.getLsbD i) (xs := List.range w) (w := by simpa using h)
    rw [List.getElem_range] at this
    exact this

theorem zerosLoop_of_ne (f : BitVec w → Nat) (l : Limbs w) (i c : Nat) (h : c ≠ i * w) :
    Bits.zerosLoop f l i c = c := by
  cases l with
  | nil => rfl
  | cons a l => simp [Bits.zerosLoop, h]

theorem lzLoop_spec (l : Limbs w) (i : Nat) : ∃ k,
    Bits.zerosLoop clz l i (i * w) = i * w + k ∧ IsLz (bits l) (toNat l.reverse) k := by
  induction l generalizing i with
  | nil => exact ⟨0, rfl, by simp [IsLz]⟩
  | cons a l ih =>
    obtain ⟨h1, h2, h3⟩ := clz_spec a
    have hv : toNat (a :: l).reverse = toNat l.reverse + 2 ^ bits l * a.toNat := by
        rw [List.reverse_cons, toNat_concat, bits, bits, List.length_reverse]
    have hr := toNat_lt l.reverse
    rw [show bits l.reverse = bits l by simp [bits]] at hr
    rw [hv]
    simp only [Bits.zerosLoop, if_true]
    by_cases hk : clz a = w
    · obtain ⟨k, e, q1, q2, q3⟩ := ih (i + 1)
      refine ⟨w + k, ?_, ?_⟩
      · rw [hk, ← Nat.add_one_mul, e]; ring
      · rw [hk, Nat.sub_self] at h2
        have ha : a.toNat = 0 := by omega
        rw [ha, bits_cons]
        refine ⟨by omega, ?_, ?_⟩
        · rw [show w + bits l - (w + k) = bits l - k by omega]; omega
        · intro h
          rw [show w + bits l - 1 - (w + k) = bits l - 1 - k by omega]
          have := q3 (by omega)
          omega
    · refine ⟨clz a, ?_, ?_⟩
      · apply zerosLoop_of_ne
        rw [Nat.add_one_mul]; omega
      · rw [bits_cons]
        refine ⟨by omega, ?_, ?_⟩
        · rw [show w + bits l - clz a = bits l + (w - clz a) by omega, Nat.pow_add]
          calc _ < 2 ^ bits l + 2 ^ bits l * a.toNat := by omega
            _ = 2 ^ bits l * (a.toNat + 1) := by ring
            _ ≤ _ := Nat.mul_le_mul_left _ h2
        · intro _
          rw [show w + bits l - 1 - clz a = bits l + (w - 1 - clz a) by omega, Nat.pow_add]
          calc _ ≤ 2 ^ bits l * a.toNat := Nat.mul_le_mul_left _ (h3 (by omega))
            _ ≤ _ := by omega

theorem leadingZeros_spec (x : Limbs w) : IsLz (bits x) (toNat x) (Bits.leadingZeros x) := by
  obtain ⟨k, e, h⟩ := lzLoop_spec x.reverse 0
  rw [Nat.zero_mul, Nat.zero_add] at e
  rw [Bits.leadingZeros, e]
  simpa [bits] using h

theorem tzLoop_spec (l : Limbs w) (i : Nat) : ∃ k,
    Bits.zerosLoop ctz l i (i * w) = i * w + k ∧ IsTz (bits l) (toNat l) k := by
  induction l generalizing i with
  | nil => exact ⟨0, rfl, by simp [IsTz]⟩
  | cons a l ih =>
    obtain ⟨h1, h2, h3⟩ := ctz_spec a
    simp only [Bits.zerosLoop, if_true]
    by_cases hk : ctz a = w
    · obtain ⟨k, e, q1, q2, q3⟩ := ih (i + 1)
      refine ⟨w + k, ?_, ?_⟩
      · rw [hk, ← Nat.add_one_mul, e]; ring
      · have ha : a.toNat = 0 := by
          rw [hk] at h2
          exact Nat.eq_zero_of_dvd_of_lt h2 a.isLt
        refine ⟨by rw [bits_cons]; omega, ?_, ?_⟩
        · rw [toNat_cons, ha, Nat.zero_add, Nat.pow_add]
          exact Nat.mul_dvd_mul_left _ q2
        · intro h
          rw [bits_cons] at h
          rw [testBit_cons, if_neg (by omega), show w + k - w = k by omega]
          exact q3 (by omega)
    · refine ⟨ctz a, ?_, ?_⟩
      · apply zerosLoop_of_ne
        rw [Nat.add_one_mul]; omega
      · refine ⟨by rw [bits_cons]; omega, ?_, ?_⟩
        · rw [toNat_cons]
          exact Nat.dvd_add h2 (Dvd.dvd.mul_right (Nat.pow_dvd_pow 2 h1) _)
        · intro _
          rw [testBit_cons, if_pos (by omega)]
          exact h3 (by omega)

theorem trailingZeros_spec (x : Limbs w) : IsTz (bits x) (toNat x) (Bits.trailingZeros x) := by
  obtain ⟨k, e, h⟩ := tzLoop_spec x 0
  rw [Nat.zero_mul, Nat.zero_add] at e
  rw [Bits.trailingZeros, e]
  exact h

theorem countOnes_aux (x : Limbs w) (c : Nat) :
    x.foldl (fun count a => count + popcount a) c =
      c + (List.range (bits x)).countP (fun i => (toNat x).testBit i) := by
  induction x generalizing c with
  | nil => simp
  | cons a x ih =>
    rw [List.foldl_cons, ih, bits_cons, List.range_add, List.countP_append, List.countP_map,
      popcount]
    have h1 : (List.range w).countP (fun i => (toNat (a :: x)).testBit i)
        = (List.range w).countP (fun i => a.getLsbD i) := by
      apply List.countP_congr
      intro i hi
      rw [testBit_cons, if_pos (List.mem_range.1 hi)]
    have h2 : (List.range (bits x)).countP ((fun i => (toNat (a :: x)).testBit i) ∘ (w + ·))
        = (List.range (bits x)).countP (fun i => (toNat x).testBit i) := by
      apply List.countP_congr
      intro i _
      rw [Function.comp_apply, testBit_cons, if_neg (by omega), show w + i - w = i by omega]
    rw [h1, h2]
    omega

theorem countOnes_spec (x : Limbs w) : Bits.countOnes x =
    (List.range (bits x)).countP (fun i => (toNat x).testBit i) := by
  rw [Bits.countOnes, countOnes_aux, Nat.zero_add]

theorem countZeros_spec (x : Limbs w) : Bits.countZeros x =
    (List.range (bits x)).countP (fun i => !(toNat x).testBit i) := by
  rw [Bits.countZeros, countOnes_spec]
  rw [show bits (Bits.not x) = bits x by simp [bits, not_length]]
  apply List.countP_congr
  intro i hi
  rw [testBit_not x i (List.mem_range.1 hi)]

theorem IsLz.unique {B v k k' : Nat} (h : IsLz B v k) (h' : IsLz B v k') : k = k' := by
  obtain ⟨a1, a2, a3⟩ := h
  obtain ⟨b1, b2, b3⟩ := h'
  by_contra hne
  rcases Nat.lt_or_gt_of_ne hne with hlt | hlt
  · have h1 := a3 (by omega)
    have h2 : 2 ^ (B - k') ≤ 2 ^ (B - 1 - k) := Nat.pow_le_pow_right (by omega) (by omega)
    omega
  · have h1 := b3 (by omega)
    have h2 : 2 ^ (B - k) ≤ 2 ^ (B - 1 - k') := Nat.pow_le_pow_right (by omega) (by omega)
    omega

/-- `ilog2` agrees with the logarithm of the value. -/
theorem IsLz.log2 {B v k : Nat} (h : IsLz B v k) (hv : v ≠ 0) : B - 1 - k = v.log2 := by
  obtain ⟨a1, a2, a3⟩ := h
  have hk : k < B := by
    by_contra hk
    have : B - k = 0 := by omega
    rw [this] at a2
    omega
  have h1 := (Nat.le_log2 hv).2 (a3 hk)
  have h2 := (Nat.log2_lt hv).2 a2
  omega

theorem checkedIlog2_spec (hw : 0 < w) (signed : Bool) {x : Limbs w}
    (h2 : x.length % 2 = 0) (h4 : 4 ≤ x.length) :
    checkedIlog2 signed x =
      if Ord.val signed x ≤ 0 then none else some (toNat x).log2 := by
  unfold checkedIlog2
  have hp : 1 < 2 ^ w := Nat.one_lt_two_pow (by omega)
  have hz : Ord.val signed (ofU8 x.length 0 : Limbs w) = 0 := by
    cases signed
    · have := (ofU8U (w := w) (N := x.length) (v := 0) (by omega) (by omega)).2
      simpa [Ord.val] using this
    · have := (ofU8S (w := w) (N := x.length) (v := 0) hw (by omega) (by omega)).2
      simpa [Ord.val] using this
  have hlen : (ofU8 x.length 0 : Limbs w).length = x.length := extU_length (by omega) _
  have hle := Ord.le_iff hw signed hlen.symm h2 h4
  rw [hz] at hle
  by_cases h : Ord.val signed x ≤ 0
  · rw [if_pos (hle.2 h), if_pos h]
  · rw [if_neg (fun hc => h (hle.1 hc)), if_neg h]
    have h0 : toNat x ≠ 0 := by
      intro h0
      apply h
      cases signed
      · simp [Ord.val, h0]
      · simp [Ord.val, toInt, h0]
    rw [← (leadingZeros_spec x).log2 h0]

end I256
