import Verif.Lemmas.Rare
import Verif.Lemmas.DivTop

/-!
# Which divisors need a corrected estimate
-/

namespace I256

variable {w : Nat}

/-- The normalised divisor `v`, with `P` the value of a unit of its third limb from the top. -/
structure Normal (w y n s v P : Nat) : Prop where
  hy : y ≠ 0
  hn : nLimbs w y = n
  hs : normShift w y = s
  hv : v = y * 2 ^ s
  hP : P = 2 ^ (w * (n - 2))
  n2 : 2 ≤ n
  sw : s < w
  len : w * n = bitLen y + s
  top : 2 ^ w * 2 ^ w * P = 2 ^ (w * n)
  top1 : 2 ^ w * P = 2 ^ (w * (n - 1))
  lo : 2 ^ w * 2 ^ w * P ≤ 2 * v
  hi : v < 2 ^ w * 2 ^ w * P
  v0 : 0 < v
  P0 : 0 < P

theorem normal (hw : 0 < w) {y : Nat} (hn : 2 ≤ nLimbs w y) :
    Normal w y (nLimbs w y) (normShift w y) (y * 2 ^ normShift w y) (2 ^ (w * (nLimbs w y - 2))) := by
  have hy0 : y ≠ 0 := by intro h; rw [h, nLimbs_zero hw] at hn; omega
  obtain ⟨b1, b2, b3⟩ := bitLen_spec hy0
  obtain ⟨n1, n2⟩ := nLimbs_bound hw y
  have hs : normShift w y = w * nLimbs w y - bitLen y := rfl
  generalize hgn : nLimbs w y = n at *
  have hlen : w * n = bitLen y + normShift w y := by omega
  have ht : 2 ^ w * 2 ^ w * 2 ^ (w * (n - 2)) = 2 ^ (w * n) := by
    rw [← Nat.pow_add, ← Nat.pow_add]
    congr 1
    obtain ⟨k, rfl⟩ : ∃ k, n = k + 2 := ⟨n - 2, by omega⟩
    simp only [Nat.add_sub_cancel]; ring
  have ht1 : 2 ^ w * 2 ^ (w * (n - 2)) = 2 ^ (w * (n - 1)) := by
    rw [← Nat.pow_add]
    congr 1
    obtain ⟨k, rfl⟩ : ∃ k, n = k + 2 := ⟨n - 2, by omega⟩
    simp only [Nat.add_sub_cancel, show k + 2 - 1 = k + 1 by omega]; ring
  refine ⟨hy0, hgn, rfl, rfl, rfl, hn, by omega, hlen, ht, ht1, ?_, ?_, by positivity, by positivity⟩
  · rw [ht]
    calc 2 ^ (w * n) = 2 * (2 ^ (bitLen y - 1) * 2 ^ normShift w y) := by
          rw [← Nat.pow_add, ← pow_succ']; congr 1; omega
      _ ≤ 2 * (y * 2 ^ normShift w y) := by
          have := Nat.mul_le_mul_right (2 ^ normShift w y) b2
          omega
  · rw [ht, hlen, Nat.pow_add]
    exact Nat.mul_lt_mul_of_pos_right b3 (by positivity)

/-- When a digit is corrected. -/
theorem addBack_iff {x y n s v P j : Nat} (hN : Normal w y n s v P) :
    addBack w x y j = true ↔ y < x ∧ j + n ≤ nLimbs w x ∧
      (if x * 2 ^ s / 2 ^ (w * j) % (v * 2 ^ w) / (2 ^ w * 2 ^ w * P) < v / (2 ^ w * P) then
        x * 2 ^ s / 2 ^ (w * j) % (v * 2 ^ w) / P / (v / P) else 2 ^ w - 1) ≠
        x * 2 ^ s / 2 ^ (w * j) % (v * 2 ^ w) / v := by
  obtain ⟨hy, hn, hs, hv, hP, n2, sw, len, top, top1, lo, hi, v0, P0⟩ := hN
  simp only [addBack, Bool.and_eq_true, decide_eq_true_eq, hn, hs, overEst, bne_iff_ne, ne_eq, digitEst, partRem,
    ← Nat.pow_mul, ← hv, ← hP, top, top1]
  constructor
  · rintro ⟨⟨⟨-, h1⟩, h2⟩, h3⟩; exact ⟨h1, h2, h3⟩
  · rintro ⟨h1, h2, h3⟩; exact ⟨⟨⟨n2, h1⟩, h2⟩, h3⟩

/-- The top two limbs of the normalised divisor are the top `2 * w` bits of the divisor. -/
theorem Normal.two {y n s v P : Nat} (hN : Normal w y n s v P) : v / P = y * 2 ^ (2 * w) / 2 ^ bitLen y := by
  rw [← Nat.mul_div_mul_right (y * 2 ^ (2 * w)) (2 ^ bitLen y) (show 0 < 2 ^ s by positivity), ← Nat.pow_add, ← hN.len,
    ← hN.top, ← Nat.mul_div_mul_right v P (show 0 < 2 ^ w * 2 ^ w by positivity), hN.hv]
  congr 1
  · rw [show 2 * w = w + w by omega, Nat.pow_add]; ring
  · ring

/-- The normalised divisor has other limbs iff the divisor has bits below the top `2 * w`. -/
theorem Normal.dvd {y n s v P : Nat} (hN : Normal w y n s v P) : P ∣ v ↔ 2 ^ (bitLen y - 2 * w) ∣ y := by
  obtain ⟨hy, hn, hs, hv, hP, n2, sw, len, top, top1, lo, hi, v0, P0⟩ := hN
  have h2 : w * (n - 2) + 2 * w = w * n := by
    obtain ⟨k, rfl⟩ : ∃ k, n = k + 2 := ⟨n - 2, by omega⟩
    simp only [Nat.add_sub_cancel]; ring
  rcases Nat.lt_or_ge (bitLen y) (2 * w) with h | h
  · have hn2 : n - 2 = 0 := by
      by_contra hc
      have : w ≤ w * (n - 2) := Nat.le_mul_of_pos_right _ (by omega)
      omega
    rw [hP, hn2, show bitLen y - 2 * w = 0 by omega]
    simp
  · rw [hP, hv, show w * (n - 2) = bitLen y - 2 * w + s by omega, Nat.pow_add]
    exact Nat.mul_dvd_mul_iff_right (by positivity)

theorem Normal.half {y n s v P : Nat} (hw : 0 < w) (hN : Normal w y n s v P) : 2 ^ (w - 1) ≤ v / (2 ^ w * P) := by
  have h0 : 0 < 2 ^ w * P := Nat.mul_pos (by positivity) hN.P0
  rw [Nat.le_div_iff_mul_le h0]
  have h1 : 2 * (2 ^ (w - 1) * (2 ^ w * P)) = 2 ^ w * 2 ^ w * P := by
    rw [← Nat.mul_assoc, ← Nat.pow_succ', Nat.succ_eq_add_one, Nat.sub_add_cancel hw, Nat.mul_assoc]
  have := hN.lo
  omega

/-- A divisor with bits below its top two limbs: the multiples of the divisor, less a little. -/
theorem addBack_multiple (hw : 1 < w) {y q k : Nat} (hd : ¬ 2 ^ (bitLen y - 2 * w) ∣ y) (hq : 2 ≤ q)
    (hq' : q ≤ 2 ^ (w - 1)) (hk : 1 ≤ k) (hk' : k ≤ q) : addBack w (q * y - k) y 0 = true := by
  have hL : 2 * w < bitLen y := by
    by_contra hc
    rw [show bitLen y - 2 * w = 0 by omega] at hd
    simp at hd
  have hn : 2 ≤ nLimbs w y := by
    obtain ⟨n1, -⟩ := nLimbs_bound (w := w) (by omega) y
    by_contra hc
    have : w * nLimbs w y ≤ w * 1 := Nat.mul_le_mul_left _ (by omega)
    omega
  obtain ⟨n, s, v, P, hN⟩ : ∃ n s v P, Normal w y n s v P := ⟨_, _, _, _, normal (by omega) hn⟩
  rw [addBack_iff hN]
  have hdv := mt hN.dvd.1 hd
  have hhalf := hN.half (by omega)
  obtain ⟨hy, hgn, -, hv, hP, n2, sw, len, top, top1, lo, hi, v0, P0⟩ := hN
  have hgv := hv.symm
  obtain ⟨b1, b2, b3⟩ := bitLen_spec hy
  have hw2 : 2 ^ w = 2 * 2 ^ (w - 1) := by rw [← Nat.pow_succ', Nat.succ_eq_add_one, Nat.sub_add_cancel (by omega)]
  have hyB : 2 ^ w ≤ y := (Nat.pow_le_pow_right (by omega) (by omega)).trans b2
  have hw1 : 2 ≤ 2 ^ (w - 1) := by
    calc 2 = 2 ^ 1 := rfl
      _ ≤ _ := Nat.pow_le_pow_right (by omega) (by omega)
  have hqy : q * y = (q - 2) * y + 2 * y := by rw [← Nat.add_mul, Nat.sub_add_cancel hq]
  have hqk : q - 2 ≤ (q - 2) * y := Nat.le_mul_of_pos_right _ (by omega)
  have hyx : y < q * y - k := by omega
  refine ⟨hyx, ?_, ?_⟩
  · rw [Nat.zero_add, ← hgn]
    exact nLimbs_mono (by omega) hyx.le hy
  have hU : (q * y - k) * 2 ^ s = q * v - k * 2 ^ s := by
    rw [Nat.sub_mul, Nat.mul_assoc, hgv]
  have hkv : k * 2 ^ s ≤ v := by
    rw [← hgv]
    exact Nat.mul_le_mul_right _ (by omega)
  have hqv : q * v = (q - 1) * v + v := by
    rw [← Nat.succ_mul, Nat.succ_eq_add_one, Nat.sub_add_cancel (by omega)]
  have hks : 0 < k * 2 ^ s := Nat.mul_pos hk (by positivity)
  have hqB : q * v ≤ 2 ^ (w - 1) * v := Nat.mul_le_mul_right _ hq'
  have hBv : v * 2 ^ w = 2 * (2 ^ (w - 1) * v) := by rw [hw2]; ring
  have hpv : 0 < 2 ^ (w - 1) * v := by positivity
  rw [Nat.mul_zero, Nat.pow_zero, Nat.div_one, hU, Nat.mod_eq_of_lt (by omega)]
  -- the digit
  have hdig : (q * v - k * 2 ^ s) / v = q - 1 := by
    rw [show q * v - k * 2 ^ s = (v - k * 2 ^ s) + v * (q - 1) by rw [Nat.mul_comm v]; omega,
      Nat.add_mul_div_left _ _ v0, Nat.div_eq_of_lt (by omega), Nat.zero_add]
  rw [hdig, if_pos]
  · have hsP : 2 ^ s ∣ P := by
      rw [hP]
      apply Nat.pow_dvd_pow
      have : w * (n - 2) + 2 * w = w * n := by
        obtain ⟨m, rfl⟩ : ∃ m, n = m + 2 := ⟨n - 2, by omega⟩
        simp only [Nat.add_sub_cancel]; ring
      omega
    have hsv : 2 ^ s ∣ v := ⟨y, by rw [← hgv]; ring⟩
    have hm : 2 ^ s ≤ v % P := Nat.le_of_dvd (Nat.pos_of_ne_zero fun h => hdv (Nat.dvd_of_mod_eq_zero h))
      ((Nat.dvd_mod_iff hsP).2 hsv)
    have hP2 : P ≤ v := by
      have : P ≤ 2 ^ w * P := Nat.le_mul_of_pos_left _ (by positivity)
      have h4 : 2 * (2 ^ w * P) ≤ 2 ^ w * (2 ^ w * P) := Nat.mul_le_mul_right _ (by omega)
      rw [Nat.mul_assoc] at lo
      omega
    have hge : q ≤ (q * v - k * 2 ^ s) / P / (v / P) := by
      rw [Nat.le_div_iff_mul_le (Nat.div_pos hP2 P0), Nat.le_div_iff_mul_le P0]
      have h1 : q * v = q * (v / P) * P + q * (v % P) := by
        rw [Nat.mul_assoc, Nat.mul_comm (v / P), ← Nat.mul_add, Nat.div_add_mod]
      have h2 : k * 2 ^ s ≤ q * (v % P) := Nat.mul_le_mul hk' hm
      omega
    omega
  · refine Nat.lt_of_lt_of_le ?_ hhalf
    apply Nat.div_lt_of_lt_mul
    have : 2 ^ (w - 1) * v ≤ 2 ^ (w - 1) * (2 ^ w * 2 ^ w * P) := Nat.mul_le_mul_left _ hi.le
    rw [Nat.mul_comm (2 ^ w * 2 ^ w * P)]
    omega

theorem two_limbs (hw : 0 < w) {y : Nat} (h : y * 2 ^ (2 * w) / 2 ^ bitLen y % 2 ^ w ≠ 0) : 2 ≤ nLimbs w y := by
  obtain ⟨n1, -⟩ := nLimbs_bound hw y
  by_contra hc
  have h1 : w * nLimbs w y ≤ w * 1 := Nat.mul_le_mul_left _ (by omega)
  apply h
  obtain ⟨k, hk⟩ : ∃ k, w = bitLen y + k := ⟨w - bitLen y, by omega⟩
  rw [show 2 ^ (2 * w) = 2 ^ bitLen y * (2 ^ k * 2 ^ w) by rw [← Nat.pow_add, ← Nat.pow_add]; congr 1; omega,
    Nat.mul_left_comm, Nat.mul_div_cancel_left _ (by positivity), ← Nat.mul_assoc, Nat.mul_mod_left]

/-- A divisor whose top limb is smaller than its second: the top limb as a numerator. -/
theorem addBack_top (hw : 0 < w) {y : Nat} (hd : 2 ^ (bitLen y - 2 * w) ∣ y)
    (h : y * 2 ^ (2 * w) / 2 ^ bitLen y / 2 ^ w * 2 ^ w < y * 2 ^ (2 * w) / 2 ^ bitLen y % 2 ^ w * (2 ^ w - 1)) :
    addBack w (y * 2 ^ (2 * w) / 2 ^ bitLen y / 2 ^ w * 2 ^ bitLen y) y 0 = true := by
  have hn := two_limbs (w := w) (y := y) hw (by intro h0; rw [h0] at h; omega)
  obtain ⟨n, s, v, P, hN⟩ : ∃ n s v P, Normal w y n s v P := ⟨_, _, _, _, normal hw hn⟩
  have hdv := hN.dvd.2 hd
  rw [addBack_iff hN]
  rw [← hN.two] at h ⊢
  have hhalf := hN.half hw
  rw [Nat.mul_comm (2 ^ w) P, ← Nat.div_div_eq_div_mul] at hhalf
  obtain ⟨hy, hgn, -, hv, hP, n2, sw, len, top, top1, lo, hi, v0, P0⟩ := hN
  obtain ⟨b1, b2, b3⟩ := bitLen_spec hy
  obtain ⟨z, rfl⟩ := hdv
  rw [Nat.mul_div_cancel_left _ P0] at *
  have hz := Nat.div_add_mod z (2 ^ w)
  have hl := Nat.mod_lt z (show 0 < 2 ^ w by positivity)
  have hw1 : 0 < 2 ^ (w - 1) := by positivity
  have hB2 : 2 ≤ 2 ^ w := one_lt_two_pow' hw
  have hyx : y < z / 2 ^ w * 2 ^ bitLen y :=
    Nat.lt_of_lt_of_le b3 (Nat.le_mul_of_pos_left _ (by omega))
  refine ⟨hyx, ?_, ?_⟩
  · rw [Nat.zero_add, ← hgn]
    exact nLimbs_mono hw hyx.le hy
  have hU : z / 2 ^ w * 2 ^ bitLen y * 2 ^ s = z / 2 ^ w * (2 ^ w * 2 ^ w * P) := by
    rw [Nat.mul_assoc, ← Nat.pow_add, ← len, top]
  have hBB : 0 < 2 ^ w * 2 ^ w * P := by positivity
  generalize hH : z / 2 ^ w = H at *
  generalize hL : z % 2 ^ w = l at *
  generalize hB : 2 ^ w = B at *
  have key : H * (B * B * P) < (B - 1) * (P * z) := by
    have h1 : H * (B * B) < (B - 1) * z := by
      rw [← hz, Nat.mul_add]
      obtain ⟨b, rfl⟩ : ∃ b, B = b + 1 := ⟨B - 1, by omega⟩
      simp only [Nat.add_sub_cancel] at h ⊢
      have e1 : H * ((b + 1) * (b + 1)) = b * ((b + 1) * H) + H * (b + 1) := by ring
      rw [e1, Nat.mul_comm b l]
      omega
    calc H * (B * B * P) = H * (B * B) * P := by ring
      _ < (B - 1) * z * P := Nat.mul_lt_mul_of_pos_right h1 P0
      _ = _ := by ring
  have hlt : (B - 1) * (P * z) ≤ P * z * B := by
    rw [Nat.mul_comm]; exact Nat.mul_le_mul_left _ (by omega)
  rw [Nat.mul_zero, Nat.pow_zero, Nat.div_one, hU, Nat.mod_eq_of_lt (by omega), if_neg]
  · have h2 : H * (B * B * P) / (P * z) < B - 1 := Nat.div_lt_of_lt_mul (by rw [Nat.mul_comm (P * z)]; exact key)
    omega
  · rw [Nat.mul_div_cancel _ hBB, Nat.mul_comm B P, Nat.mul_div_mul_left _ _ P0, hH]
    exact Nat.lt_irrefl _

/-- The condition of `addBack_top`, for halves below `B`. -/
theorem half_iff {u l B : Nat} (h : l < B) : u * B < l * (B - 1) ↔ u < l := by
  obtain ⟨b, rfl⟩ : ∃ b, B = b + 1 := ⟨B - 1, by omega⟩
  rw [Nat.add_sub_cancel, Nat.mul_succ]
  constructor
  · intro h1
    by_contra hc
    have := Nat.mul_le_mul_right b (show l ≤ u by omega)
    omega
  · intro h1
    have := Nat.mul_le_mul_right b (show u + 1 ≤ l by omega)
    rw [Nat.succ_mul] at this
    omega

/-- All other divisors need no corrections. -/
theorem clean_of (hw : 0 < w) {N x y : Nat} (hx : x < 2 ^ (w * N)) (hyN : y < 2 ^ (w * N))
    (h1 : y < 2 ^ (w * N - 1) → 2 ^ (bitLen y - 2 * w) ∣ y)
    (h2 : y < 2 ^ (w * (N - 1)) → y * 2 ^ (2 * w) / 2 ^ bitLen y % 2 ^ w * (2 ^ w - 1) ≤
      y * 2 ^ (2 * w) / 2 ^ bitLen y / 2 ^ w * 2 ^ w) : Clean w x y := by
  intro j
  rw [← Bool.not_eq_true]
  intro hc
  have hn : 2 ≤ nLimbs w y := by
    simp only [addBack, Bool.and_eq_true, decide_eq_true_eq] at hc
    exact hc.1.1.1
  obtain ⟨n, s, v, P, hN⟩ : ∃ n s v P, Normal w y n s v P := ⟨_, _, _, _, normal hw hn⟩
  rw [addBack_iff hN] at hc
  obtain ⟨hyx, hjn, hc⟩ := hc
  have hhalf := hN.half hw
  have hnx : nLimbs w x ≤ N := by
    have b := bitLen_le_of_lt hx
    unfold nLimbs
    apply Nat.le_of_lt_succ
    rw [Nat.div_lt_iff_lt_mul hw, Nat.succ_mul, Nat.mul_comm]
    omega
  have hdvd := hN.dvd
  have htwo := hN.two
  obtain ⟨hy, hgn, -, hv, hP, n2, sw, len, top, top1, lo, hi, v0, P0⟩ := hN
  obtain ⟨b1, b2, b3⟩ := bitLen_spec hy
  have hw2 : 2 ^ w = 2 * 2 ^ (w - 1) := by rw [← Nat.pow_succ', Nat.succ_eq_add_one, Nat.sub_add_cancel (by omega)]
  have hs : 2 ^ s ≤ 2 ^ (w - 1) := Nat.pow_le_pow_right (by omega) (by omega)
  by_cases hd : P ∣ v
  · obtain ⟨z, rfl⟩ := hd
    split at hc
    · apply hc
      rw [Nat.mul_div_cancel_left _ P0, Nat.div_div_eq_div_mul]
    · rename_i hb
      rcases Nat.lt_or_ge y (2 ^ (w * (N - 1))) with hlt | hge
      · have h3 := h2 hlt
        rw [← htwo, Nat.mul_div_cancel_left _ P0] at h3
        rw [Nat.mul_comm (2 ^ w) P, Nat.mul_div_mul_left _ _ P0] at hb
        have hz := Nat.div_add_mod z (2 ^ w)
        have hU : x * 2 ^ s / 2 ^ (w * j) % (P * z * 2 ^ w) < P * z * 2 ^ w := Nat.mod_lt _ (by positivity)
        have hB1 : 1 ≤ 2 ^ w := Nat.one_le_two_pow
        generalize x * 2 ^ s / 2 ^ (w * j) % (P * z * 2 ^ w) = U at *
        generalize z / 2 ^ w = H at *
        generalize z % 2 ^ w = l at *
        generalize 2 ^ w = B at *
        have h4 : H * (B * B * P) ≤ U := by
          rw [Nat.not_lt] at hb
          rwa [Nat.le_div_iff_mul_le (by positivity)] at hb
        have h5 : (B - 1) * z ≤ H * (B * B) := by
          rw [← hz, Nat.mul_add]
          obtain ⟨b, rfl⟩ : ∃ b, B = b + 1 := ⟨B - 1, by omega⟩
          simp only [Nat.add_sub_cancel] at h3 ⊢
          have e1 : H * ((b + 1) * (b + 1)) = b * ((b + 1) * H) + H * (b + 1) := by ring
          rw [e1, Nat.mul_comm b l]
          omega
        have h6 : (B - 1) * (P * z) ≤ U := by
          calc (B - 1) * (P * z) = (B - 1) * z * P := by ring
            _ ≤ H * (B * B) * P := Nat.mul_le_mul_right _ h5
            _ = H * (B * B * P) := by ring
            _ ≤ U := h4
        apply hc
        have h7 : B - 1 ≤ U / (P * z) := (Nat.le_div_iff_mul_le v0).2 h6
        have h8 : U / (P * z) < B := Nat.div_lt_of_lt_mul hU
        omega
      · have hnN : n = N := by
          have h4 := (Nat.pow_lt_pow_iff_right (a := 2) (by omega)).1 (Nat.lt_of_le_of_lt hge b3)
          have h5 : w * (N - 1) < w * n := by omega
          have h6 := Nat.lt_of_mul_lt_mul_left h5
          omega
        have hj : j = 0 := by omega
        subst hj hnN
        apply hb
        refine Nat.lt_of_lt_of_le ?_ (hs.trans hhalf)
        apply Nat.div_lt_of_lt_mul
        rw [Nat.mul_zero, Nat.pow_zero, Nat.div_one, top]
        exact Nat.lt_of_le_of_lt (Nat.mod_le _ _) (Nat.mul_lt_mul_of_pos_right hx (by positivity))
  · have hge : 2 ^ (w * N - 1) ≤ y := by
      by_contra hlt
      exact hd (hdvd.2 (h1 (by omega)))
    have hL : w * N ≤ bitLen y := by
      have := (Nat.pow_lt_pow_iff_right (a := 2) (by omega)).1 (Nat.lt_of_le_of_lt hge b3)
      omega
    have hnN : n = N := by
      have h5 : w * N ≤ w * n := by omega
      have h6 := Nat.le_of_mul_le_mul_left h5 hw
      omega
    have hj : j = 0 := by omega
    subst hj hnN
    have hs0 : s = 0 := by omega
    subst hs0
    rw [Nat.mul_zero, Nat.pow_zero, Nat.div_one, Nat.mul_one] at hc
    rw [Nat.pow_zero, Nat.mul_one] at hv
    subst hv
    have hB2 : 2 ≤ 2 ^ w := one_lt_two_pow' hw
    rw [← top] at hx
    have hxv : x < v * 2 ^ w := by
      have := Nat.mul_le_mul_left v hB2
      omega
    rw [Nat.mod_eq_of_lt hxv] at hc
    have hq : x / v = 1 := by
      apply Nat.div_eq_of_lt_le <;> omega
    have hP2 : P ≤ v := by
      have : P ≤ 2 ^ w * P := Nat.le_mul_of_pos_left _ (by positivity)
      have h4 : 2 * (2 ^ w * P) ≤ 2 ^ w * (2 ^ w * P) := Nat.mul_le_mul_right _ (by omega)
      rw [Nat.mul_assoc] at lo
      omega
    rw [hq, if_pos] at hc
    · apply hc
      have h5 : 0 < v / P := Nat.div_pos hP2 P0
      have h6 : v / P ≤ x / P := Nat.div_le_div_right hyx.le
      have h7 : x / P < 2 ^ w * 2 ^ w := Nat.div_lt_of_lt_mul (by rwa [Nat.mul_comm P])
      have h8 : 2 ^ (w - 1) * 2 ^ w ≤ v / P := by
        rw [Nat.le_div_iff_mul_le P0]
        have : 2 * (2 ^ (w - 1) * 2 ^ w * P) = 2 ^ w * 2 ^ w * P := by
          conv_rhs => rw [Nat.mul_assoc]
          conv_rhs => lhs; rw [hw2]
          ring
        omega
      have h9 : 2 ^ w * 2 ^ w = 2 * (2 ^ (w - 1) * 2 ^ w) := by
        conv_lhs => lhs; rw [hw2]
        ring
      apply Nat.div_eq_of_lt_le <;> omega
    · rw [Nat.div_eq_of_lt hx]
      exact Nat.lt_of_lt_of_le (by positivity) hhalf

/-- A correction of the last digit spoils the remainder, or the division panics. -/
theorem not_exact_of {N x y : Nat} (hN : nLimbs w y ≤ N) (h : addBack w x y 0 = true) : ¬ DivExact w N x y := by
  rintro ⟨hp, h0⟩
  rcases Nat.lt_or_ge (nLimbs w y) N with hlt | hge
  · unfold strayRem at h0
    have : 1 ≤ flagNum w (addBack w x y) (N - nLimbs w y) := by
      obtain ⟨k, hk⟩ : ∃ k, N - nLimbs w y = k + 1 := ⟨N - nLimbs w y - 1, by omega⟩
      rw [hk]
      clear hk
      induction k with
      | zero => simp [flagNum, h]
      | succ k ih => rw [flagNum]; omega
    have h2 : 0 < 2 ^ bitLen y * flagNum w (addBack w x y) (N - nLimbs w y) := by positivity
    omega
  · exact hp ⟨by omega, 0, h⟩

theorem nLimbs_le_of_lt (hw : 0 < w) {N y : Nat} (h : y < 2 ^ (w * N)) : nLimbs w y ≤ N := by
  have b := bitLen_le_of_lt h
  unfold nLimbs
  apply Nat.le_of_lt_succ
  rw [Nat.div_lt_iff_lt_mul hw, Nat.succ_mul, Nat.mul_comm]
  omega

theorem tmod_sign (a b : Int) : a.tmod b = a.sign * ((a.natAbs % b.natAbs : Nat) : Int) := by
  have hn : ∀ m n : Nat, ((m : Int).tmod n) = (m : Int).sign * ((m % n : Nat) : Int) := by
    intro m n
    rcases Nat.eq_zero_or_pos m with rfl | hm
    · simp
    · rw [Int.sign_eq_one_of_pos (by omega), Int.one_mul, Int.ofNat_tmod]
  obtain ⟨m, rfl | rfl⟩ := Int.eq_nat_or_neg a <;> obtain ⟨n, rfl | rfl⟩ := Int.eq_nat_or_neg b <;>
    simp only [Int.neg_tmod, Int.tmod_neg, Int.natAbs_neg, Int.natAbs_natCast, Int.sign_neg, Int.neg_mul, hn]

/-- Twice the divisor less one: the last digit alone is corrected. -/
theorem strayRem_twice (hw : 2 < w) {N y : Nat} (hd : ¬ 2 ^ (bitLen y - 2 * w) ∣ y) (hN : nLimbs w y < N) :
    strayRem w N (2 * y - 1) y = 2 ^ bitLen y := by
  have h0 := addBack_multiple (w := w) (by omega) (y := y) (q := 2) (k := 1) hd (by omega)
    (by calc 2 = 2 ^ 1 := rfl
          _ ≤ _ := Nat.pow_le_pow_right (by omega) (by omega)) (by omega) (by omega)
  have hy0 : y ≠ 0 := by rintro rfl; exact hd ⟨0, by simp⟩
  have hj : ∀ j, 1 ≤ j → addBack w (2 * y - 1) y j = false := by
    intro j hj
    rw [← Bool.not_eq_true]
    intro hc
    have hB : 8 ≤ 2 ^ w := by
      calc 8 = 2 ^ 3 := rfl
        _ ≤ _ := Nat.pow_le_pow_right (by omega) (by omega)
    have ht : (2 * y - 1) / 2 ^ (w * j) * 4 ≤ y := by
      have h1 : 2 ^ w ≤ 2 ^ (w * j) := Nat.pow_le_pow_right (by omega) (Nat.le_mul_of_pos_right _ (by omega))
      have h2 := Nat.div_mul_le_self (2 * y - 1) (2 ^ (w * j))
      have h3 : (2 * y - 1) / 2 ^ (w * j) * 8 ≤ (2 * y - 1) / 2 ^ (w * j) * 2 ^ (w * j) :=
        Nat.mul_le_mul_left _ (by omega)
      omega
    have hlt : (2 * y - 1) / 2 ^ (w * j) < y := by omega
    rcases addBack_near (w := w) (by omega) hc with h | h
    · rw [Nat.div_eq_of_lt hlt, Nat.zero_mod] at h
      omega
    · rw [Nat.mod_eq_of_lt hlt] at h
      have : 8 * (y - (2 * y - 1) / 2 ^ (w * j)) ≤ 2 ^ w * (y - (2 * y - 1) / 2 ^ (w * j)) :=
        Nat.mul_le_mul_right _ hB
      omega
  unfold strayRem
  have hf : ∀ k, flagNum w (addBack w (2 * y - 1) y) (k + 1) = 1 := by
    intro k
    induction k with
    | zero => simp [flagNum, h0]
    | succ k ih => rw [flagNum, ih, hj _ (by omega)]; simp
  obtain ⟨k, hk⟩ : ∃ k, N - nLimbs w y = k + 1 := ⟨N - nLimbs w y - 1, by omega⟩
  rw [hk, hf, Nat.mul_one]

end I256
