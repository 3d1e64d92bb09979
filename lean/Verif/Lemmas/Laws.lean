import Verif.Lemmas.Misc
import Verif.Lemmas.ShiftApi
import Verif.Lemmas.Endian
import Verif.Lemmas.Pow

/-! Helper lemmas for the algebraic laws. -/

namespace I256

variable {w k : Nat} {x y : Limbs w}

theorem or_add_and (a b : Nat) : (a ||| b) + (a &&& b) = a + b := by
  induction a using Nat.div2Induction generalizing b with
  | ind a ih =>
    rcases Nat.eq_zero_or_pos a with rfl | ha
    · simp
    have h := ih ha (b / 2)
    have e1 : (a ||| b) = 2 * (a / 2 ||| b / 2) + (a ||| b) % 2 := by
      have := Nat.div_add_mod (a ||| b) 2
      rw [Nat.or_div_two] at this; omega
    have e2 : (a &&& b) = 2 * (a / 2 &&& b / 2) + (a &&& b) % 2 := by
      have := Nat.div_add_mod (a &&& b) 2
      rw [Nat.and_div_two] at this; omega
    have m1 : (a ||| b) % 2 = 1 ↔ a % 2 = 1 ∨ b % 2 = 1 := Nat.or_mod_two_eq_one
    have m2 : (a &&& b) % 2 = 1 ↔ a % 2 = 1 ∧ b % 2 = 1 := Nat.and_mod_two_eq_one
    have := Nat.div_add_mod a 2
    have := Nat.div_add_mod b 2
    omega

theorem or_length (hl : x.length = y.length) : (Bits.or x y).length = x.length := by
  simp [Bits.or, hl]

theorem or_toNat (hl : x.length = y.length) : toNat (Bits.or x y) = toNat x ||| toNat y := by
  apply Nat.eq_of_testBit_eq
  intro i
  rw [Nat.testBit_or, Bits.or, testBit_zipWith _ (· || ·) rfl (by simp) x y hl i]

/-- Numbers with the same bits are equal. -/
theorem ext_testBit (hl : x.length = y.length)
    (h : ∀ i < bits x, (toNat x).testBit i = (toNat y).testBit i) : x = y := by
  apply toNat_inj hl
  apply Nat.eq_of_testBit_eq
  intro i
  by_cases hi : i < bits x
  · exact h i hi
  · rw [testBit_of_le (by omega), testBit_of_le (by rw [← bits_eq_of_length hl]; omega)]

theorem testBit_shl (hk : w = 2 ^ k) (h2 : x.length % 2 = 0) (hx : x ≠ []) {s : Nat}
    (hs : s < bits x) (i : Nat) (hi : i < bits x) :
    (toNat (wrappingShl x s)).testBit i = (decide (s ≤ i) && (toNat x).testBit (i - s)) := by
  have h := (wrappingShlU hk h2 hx s).2
  rw [Nat.mod_eq_of_lt hs] at h
  have h' : toNat (wrappingShl x s) = (toNat x * 2 ^ s) % 2 ^ (w * x.length) := by exact_mod_cast h
  rw [h', Nat.testBit_mod_two_pow, Nat.testBit_mul_two_pow]
  have hi' : i < w * x.length := hi
  simp [hi']

theorem testBit_shr (hk : w = 2 ^ k) (h2 : x.length % 2 = 0) (hx : x ≠ []) {s : Nat}
    (hs : s < bits x) (i : Nat) :
    (toNat (wrappingShr false x s)).testBit i = (toNat x).testBit (i + s) := by
  have h := (wrappingShrU hk h2 hx s).2
  rw [Nat.mod_eq_of_lt hs] at h
  have h' : toNat (wrappingShr false x s) = toNat x / 2 ^ s := by exact_mod_cast h
  rw [h', Nat.testBit_div_two_pow, Nat.add_comm]

theorem shl_length (hk : w = 2 ^ k) (h2 : x.length % 2 = 0) (hx : x ≠ []) (s : Nat) :
    (wrappingShl x s).length = x.length := (wrappingShlU hk h2 hx s).1

theorem shr_length (hk : w = 2 ^ k) (h2 : x.length % 2 = 0) (hx : x ≠ []) (s : Nat) :
    (wrappingShr false x s).length = x.length := (wrappingShrU hk h2 hx s).1

/-- Bit `i` of a rotated number. -/
theorem testBit_rotl (hk : w = 2 ^ k) (h2 : x.length % 2 = 0) (h4 : 4 ≤ x.length) {n : Nat}
    (hn : n ≤ bits x) (i : Nat) (hi : i < bits x) :
    (toNat (rotateLeft x n)).testBit i = (toNat x).testBit ((i + (bits x - n)) % bits x) := by
  have hB : 0 < bits x := by omega
  have h := rotateLeft_spec hk h2 h4 n (i := (i + (bits x - n)) % bits x) (Nat.mod_lt _ hB)
  rw [Nat.mod_add_mod, show i + (bits x - n) + n = i + bits x by omega, Nat.add_mod_right,
    Nat.mod_eq_of_lt hi] at h
  exact h

/-- A count over a range does not change under a bijection of the range. -/
theorem countP_range_bij {n : Nat} {p q : Nat → Bool} (f : Nat → Nat)
    (hf : ∀ i < n, f i < n) (hinj : ∀ i < n, ∀ j < n, f i = f j → i = j)
    (h : ∀ i < n, q (f i) = p i) :
    (List.range n).countP p = (List.range n).countP q := by
  have h1 : (List.range n).countP p = ((List.range n).map f).countP q := by
    rw [List.countP_map]
    apply List.countP_congr
    intro i hi
    simp [h i (List.mem_range.1 hi)]
  rw [h1]
  apply List.Perm.countP_eq
  have hnd : ((List.range n).map f).Nodup := by
    rw [List.nodup_map_iff_inj_on List.nodup_range]
    intro i hi j hj hij
    exact hinj i (List.mem_range.1 hi) j (List.mem_range.1 hj) hij
  have hsub : ((List.range n).map f) ⊆ List.range n := by
    intro i hi
    obtain ⟨j, hj, rfl⟩ := List.mem_map.1 hi
    exact List.mem_range.2 (hf j (List.mem_range.1 hj))
  exact (List.subperm_of_subset hnd hsub).perm_of_length_le (by simp)

end I256
