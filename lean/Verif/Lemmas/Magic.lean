import Verif.Model.Magic
import Verif.Lemmas.BenchRest

/-! Lemmas for the model of `etc/magic.py`. -/

namespace I256

namespace Magic

/-- What makes `M` with the shift `s` a factor for `d`, for numbers below `2^p`. -/
def Good (M d s p : Nat) : Prop := 2 ^ s < M * d ∧ M * d * 2 ^ p ≤ 2 ^ s * 2 ^ p + 2 ^ s

theorem reduce_good {d p b : Nat} (hd : 0 < d) : ∀ (sh lo hi : Nat),
    lo = 2 ^ (b + sh) / d → lo < hi → hi * d * 2 ^ p ≤ 2 ^ (b + sh) * 2 ^ p + 2 ^ (b + sh) →
    Good (reduce lo hi sh).1 d (b + (reduce lo hi sh).2) p ∧ (reduce lo hi sh).2 ≤ sh := by
  have good : ∀ sh lo hi : Nat, lo = 2 ^ (b + sh) / d → lo < hi →
      hi * d * 2 ^ p ≤ 2 ^ (b + sh) * 2 ^ p + 2 ^ (b + sh) → Good hi d (b + sh) p := by
    intro sh lo hi e h h2
    refine ⟨?_, h2⟩
    rw [e] at h
    exact (Nat.div_lt_iff_lt_mul hd).1 h
  intro sh
  induction sh with
  | zero => intro lo hi e h h2; exact ⟨good 0 lo hi e h h2, le_refl _⟩
  | succ sh ih =>
    intro lo hi e h h2
    rw [reduce]
    by_cases hc : lo / 2 < hi / 2
    · rw [if_pos hc]
      have e1 : 2 ^ (b + (sh + 1)) = 2 ^ (b + sh) * 2 := by rw [← Nat.add_assoc, Nat.pow_succ]
      have a1 : lo / 2 = 2 ^ (b + sh) / d := by
        rw [e, Nat.div_div_eq_div_mul, e1, Nat.mul_div_mul_right _ _ (by decide)]
      have a2 : hi / 2 * d * 2 ^ p ≤ 2 ^ (b + sh) * 2 ^ p + 2 ^ (b + sh) := by
        rw [e1] at h2
        have h3 : hi / 2 * 2 ≤ hi := Nat.div_mul_le_self _ _
        have h4 : hi / 2 * 2 * (d * 2 ^ p) ≤ hi * (d * 2 ^ p) := Nat.mul_le_mul_right _ h3
        nlinarith
      obtain ⟨g1, g2⟩ := ih (lo / 2) (hi / 2) a1 hc a2
      exact ⟨g1, by omega⟩
    · rw [if_neg hc]
      exact ⟨good _ lo hi e h h2, le_refl _⟩

theorem good_div {M d s p n : Nat} (h : Good M d s p) (hd : 0 < d) (hn : n < 2 ^ p) :
    M * n / 2 ^ s = n / d := by
  refine Bench.magic_div (N := 2 ^ p) h.1.le ?_ hn hd
  rw [Nat.sub_mul]
  exact Nat.sub_le_iff_le_add'.2 h.2

theorem choose_good {d bits l : Nat} (sg : Bool) (hd : 0 < d) (hl : d ≤ 2 ^ l)
    (hb : 0 < bits ∨ sg = false) :
    Good (chooseMultiplier d bits l sg).1 d (bits + (chooseMultiplier d bits l sg).2.1)
        (if sg then bits - 1 else bits) ∧ (chooseMultiplier d bits l sg).2.1 ≤ l := by
  rw [chooseMultiplier]
  generalize hp : (if sg then bits - 1 else bits) = p
  have hp1 : p ≤ bits := by cases sg <;> simp at hp <;> omega
  refine reduce_good hd l _ _ rfl ?_ ?_
  · have h1 : d ≤ 2 ^ (bits + l - p) := hl.trans (Nat.pow_le_pow_right (by decide) (by omega))
    have h2 : (2 ^ (bits + l) + d) / d ≤ (2 ^ (bits + l) + 2 ^ (bits + l - p)) / d :=
      Nat.div_le_div_right (by omega)
    rw [Nat.add_div_right _ hd] at h2
    omega
  · have h1 := Nat.div_mul_le_self (2 ^ (bits + l) + 2 ^ (bits + l - p)) d
    have h2 : 2 ^ (bits + l - p) * 2 ^ p = 2 ^ (bits + l) := by
      rw [← Nat.pow_add]; congr 1; omega
    have h3 := Nat.mul_le_mul_right (2 ^ p) h1
    rw [Nat.add_mul, h2] at h3
    exact h3

theorem fastShiftLoop_spec {d : Nat} (hd : 0 < d) : ∀ fuel n, d < 2 ^ (n + fuel) → 2 ^ n ∣ d →
    2 ^ (fastShiftLoop d fuel n) ∣ d ∧ ¬ 2 ^ (fastShiftLoop d fuel n + 1) ∣ d := by
  intro fuel
  induction fuel with
  | zero =>
    intro n h1 h2
    have := Nat.le_of_dvd hd h2
    rw [Nat.add_zero] at h1
    omega
  | succ fuel ih =>
    intro n h1 h2
    rw [fastShiftLoop]
    by_cases hc : d % 2 ^ (n + 1) = 0
    · rw [if_pos hc]
      exact ih (n + 1) (by rw [show n + 1 + fuel = n + (fuel + 1) by omega]; exact h1)
        (Nat.dvd_of_mod_eq_zero hc)
    · rw [if_neg hc]
      exact ⟨h2, fun h => hc (Nat.mod_eq_zero_of_dvd h)⟩

theorem fastShift_spec {d : Nat} (hd : 0 < d) :
    2 ^ fastShift d ∣ d ∧ ¬ 2 ^ (fastShift d + 1) ∣ d :=
  fastShiftLoop_spec hd d 0 (by rw [Nat.zero_add]; exact Nat.lt_two_pow_self) (by simp)

theorem fastShift_unique {d s : Nat} (hd : 0 < d) (h1 : 2 ^ s ∣ d) (h2 : ¬ 2 ^ (s + 1) ∣ d) :
    fastShift d = s := by
  obtain ⟨g1, g2⟩ := fastShift_spec hd
  rcases Nat.lt_trichotomy (fastShift d) s with h | h | h
  · exact absurd ((Nat.pow_dvd_pow 2 h).trans h1) g2
  · exact h
  · exact absurd ((Nat.pow_dvd_pow 2 h).trans g1) h2

theorem mulhi_eq (x y h : Nat) : mulhi x y h =
    (x / 2 ^ h % 2 ^ h * (y / 2 ^ h % 2 ^ h) +
      (x / 2 ^ h % 2 ^ h * (y % 2 ^ h) + x % 2 ^ h * (y / 2 ^ h % 2 ^ h) % 2 ^ h) / 2 ^ h) % 2 ^ h := by
  have hB := Nat.two_pow_pos h
  simp only [mulhi, Nat.and_two_pow_sub_one_eq_mod, Nat.shiftRight_eq_div_pow, Nat.mod_mod]
  generalize 2 ^ h = B at *
  simp only [Nat.div_eq_of_lt (Nat.mod_lt _ hB), Nat.add_zero, Nat.mod_mod, Nat.zero_mod]
  rw [← Nat.add_mod]

theorem mulhiFix_eq (x y h : Nat) : mulhiFix x y h = x * y / 2 ^ (2 * h) := by
  have hB := Nat.two_pow_pos h
  rw [Nat.two_mul, Nat.pow_add]
  simp only [mulhiFix, Nat.and_two_pow_sub_one_eq_mod, Nat.shiftRight_eq_div_pow]
  generalize 2 ^ h = B at *
  have ex := Nat.div_add_mod x B
  have ey := Nat.div_add_mod y B
  generalize x / B = x1 at *
  generalize x % B = x0 at *
  generalize y / B = y1 at *
  generalize y % B = y0 at *
  have em := Nat.div_add_mod (x0 * y1 + x0 * y0 / B) B
  have e0 := Nat.div_add_mod (x0 * y0) B
  have r0 := Nat.mod_lt (x0 * y0) hB
  have rm := Nat.mod_lt (x0 * y1 + x0 * y0 / B) hB
  generalize x0 * y0 % B = r at *
  generalize x0 * y0 / B = c at *
  generalize (x0 * y1 + c) % B = m0 at *
  generalize (x0 * y1 + c) / B = m1 at *
  have e : x * y = r + B * ((x1 * y0 + m0) + B * (x1 * y1 + m1)) := by
    rw [← ex, ← ey]
    linear_combination e0.symm + B * em.symm
  rw [e, ← Nat.div_div_eq_div_mul, Nat.add_mul_div_left _ _ hB, Nat.div_eq_of_lt r0, Nat.zero_add,
    Nat.add_mul_div_left _ _ hB, Nat.add_comm]

/-- The quotient by an even divisor after both are shifted. -/
theorem shifted_div {d n s : Nat} (h : 2 ^ s ∣ d) : n / 2 ^ s / (d / 2 ^ s) = n / d := by
  rw [Nat.div_div_eq_div_mul, Nat.mul_div_cancel' h]

theorem rem_eq {n d q h N : Nat} (hd : 0 < d) (h1 : d ≤ 2 ^ h) (hn : n < 2 ^ N) (hq : q = n / d) :
    (((n : Int) - ((q * d) &&& (2 ^ N - 1) : Nat)) % 2 ^ h).toNat = n % d := by
  have e := Nat.div_add_mod n d
  have h2 : q * d < 2 ^ N := by
    have := Nat.div_mul_le_self n d
    rw [hq]
    omega
  rw [Nat.and_two_pow_sub_one_eq_mod, Nat.mod_eq_of_lt h2, hq]
  rw [Nat.mul_comm] at e
  have e3 : (n : Int) - ((n / d * d : Nat) : Int) = ((n % d : Nat) : Int) := by omega
  rw [e3, show ((2 : Int) ^ h) = ((2 ^ h : Nat) : Int) by push_cast; rfl, ← Int.natCast_mod,
    Int.toNat_natCast]
  exact Nat.mod_eq_of_lt ((Nat.mod_lt n hd).trans_le h1)

end Magic

end I256
