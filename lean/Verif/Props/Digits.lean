import Verif.Lemmas.DivStep
import Verif.Props.Samples

/-!
# C111: the digits of the long division

The comments of `div_rem_knuth`, src/math/div.rs L302-425, about one round of its loop: `win` are the `n + 1` limbs of the
numerator that the round works on, `d` is the divisor, shifted so that the highest bit of its limb `n - 1` is set.
-/

namespace I256

variable {w : Nat}

/-- "The first estimate is [a1, a0] / b0, it may be too large by at most 2" (L348). -/
theorem C111_first (hw : 0 < w) {d win : Limbs w} {n : Nat} (hn : 1 ≤ n) (hv : toNat d < 2 ^ (w * n))
    (hv2 : 2 ^ (w * n) ≤ 2 * toNat d) (hl : win.length = n + 1) (hU : toNat win < toNat d * 2 ^ w)
    (h : (getLimb win n).toNat < (getLimb d (n - 1)).toNat) :
    ∃ q r, Div.divRemWord (getLimb win n) (getLimb win (n - 1)) (getLimb d (n - 1)) = .ok (q, r) ∧
      toNat win / toNat d ≤ q.toNat ∧ q.toNat ≤ toNat win / toNat d + 2 := by
  obtain ⟨q, r, e, hq, -⟩ := Div.divRemWord_ok (lo := getLimb win (n - 1)) h
  refine ⟨q, r, e, ?_⟩
  obtain ⟨m, rfl⟩ : ∃ m, n = m + 1 := ⟨n - 1, by omega⟩
  simp only [Nat.add_sub_cancel] at hq
  have hP : 0 < 2 ^ (w * m) := by positivity
  have pn : 2 ^ (w * (m + 1)) = 2 ^ w * 2 ^ (w * m) := by rw [Nat.mul_succ, Nat.pow_add, Nat.mul_comm]
  have hlt := toNat_lt win
  rw [bits, hl, Nat.mul_succ, Nat.pow_add] at hlt
  have h0 : (getLimb win (m + 1)).toNat = toNat win / 2 ^ (w * (m + 1)) := by
    rw [getLimb_toNat]; exact Nat.mod_eq_of_lt (Nat.div_lt_of_lt_mul hlt)
  have hb : (getLimb d m).toNat = toNat d / 2 ^ (w * m) := by
    rw [getLimb_toNat]
    exact Nat.mod_eq_of_lt (Nat.div_lt_of_lt_mul (by rw [Nat.mul_comm, ← pn]; exact hv))
  have ha : (getLimb win (m + 1)).toNat * 2 ^ w + (getLimb win m).toNat = toNat win / 2 ^ (w * m) := by
    have h1 := Nat.div_add_mod (toNat win / 2 ^ (w * m)) (2 ^ w)
    rw [Nat.div_div_eq_div_mul, Nat.mul_comm (2 ^ (w * m)), ← pn, ← h0, ← getLimb_toNat] at h1
    rw [Nat.mul_comm]; exact h1
  rw [ha, hb] at hq
  have hB := one_lt_two_pow' hw
  rw [pn] at hv hv2
  rw [hq]
  have hev : 2 ^ w = 2 * 2 ^ (w - 1) := by rw [← pow_succ']; congr 1; omega
  generalize hBe : 2 ^ w = B at *
  generalize hPe : 2 ^ (w * m) = P at *
  generalize toNat win = U at *
  generalize toNat d = v at *
  generalize 2 ^ (w - 1) = H at *
  have hv0 : 0 < v := by
    have : 0 < B * P := Nat.mul_pos (by omega) hP
    omega
  have d1 := Nat.div_add_mod v P
  have d2 := Nat.mod_lt v hP
  have d3 := Nat.div_add_mod U v
  have d4 := Nat.mod_lt U hv0
  have d5 := Nat.div_mul_le_self U P
  have ht : U / v < B := Nat.div_lt_of_lt_mul hU
  have hbB : B ≤ 2 * (v / P) := by
    have : B * P < (2 * (v / P) + 2) * P := by
      have e1 : (2 * (v / P) + 2) * P = 2 * (P * (v / P)) + 2 * P := by ring
      omega
    have := Nat.lt_of_mul_lt_mul_right this
    omega
  have hb0 : 0 < v / P := by omega
  constructor
  · rw [Nat.le_div_iff_mul_le hb0, Nat.le_div_iff_mul_le hP]
    have : U / v * (v / P) * P ≤ U / v * v := by
      rw [Nat.mul_assoc]; exact Nat.mul_le_mul_left _ (Nat.div_mul_le_self v P)
    exact this.trans (Nat.div_mul_le_self U v)
  · by_contra hc
    have h3 : (U / v + 3) * (v / P) ≤ U / P :=
      (Nat.mul_le_mul_right _ (by omega)).trans (Nat.div_mul_le_self (U / P) (v / P))
    have h4 : (U / v + 3) * (v / P) * P ≤ U := (Nat.mul_le_mul_right _ h3).trans d5
    have h5 : U < (U / v + 1) * ((v / P + 1) * P) := by
      have h6 : v ≤ (v / P + 1) * P := by
        have e1 : (v / P + 1) * P = P * (v / P) + P := by ring
        omega
      have h7 : U < (U / v + 1) * v := by
        have e1 : (U / v + 1) * v = v * (U / v) + v := by ring
        omega
      exact h7.trans_le (Nat.mul_le_mul_left _ h6)
    rw [← Nat.mul_assoc] at h5
    have h8 := Nat.lt_of_mul_lt_mul_right (h4.trans_lt h5)
    generalize U / v = t at *
    generalize v / P = b at *
    nlinarith

example := C111_first (w := 64) (by decide) (d := [0xffffffffffffffff, 0x8000000000000000])
  (win := [0, 0, 0x7fffffffffffffff]) (n := 2) (by decide) (by decide +kernel) (by decide +kernel) rfl
  (by decide +kernel) (by decide +kernel)

/-- The first estimate can be too large by 2. -/
theorem C111_first_tight :
    let d : Limbs 64 := [0xffffffffffffffff, 0x8000000000000000]
    let win : Limbs 64 := [0, 0, 0x7fffffffffffffff]
    Div.divRemWord (getLimb win 2) (getLimb win 1) (getLimb d 1) = .ok (0xfffffffffffffffe, 0) ∧
      toNat win / toNat d + 2 = 0xfffffffffffffffe := by decide +kernel

/-- "q_hat is now either the correct quotient digit, or in rare cases 1 too large" (L380); if `a0 < b0` it is
`[a2,a1,a0] / [b1,b0]` (L353). -/
theorem C111_refined (hw : 0 < w) {d win : Limbs w} {n : Nat} (hn : 2 ≤ n) (hd : n ≤ d.length)
    (hv : toNat d < 2 ^ (w * n)) (hv2 : 2 ^ (w * n) ≤ 2 * toNat d) (hl : win.length = n + 1)
    (hU : toNat win < toNat d * 2 ^ w) :
    ∃ q, Div.estimate (getLimb win n) (getLimb win (n - 1)) (getLimb win (n - 2)) (getLimb d (n - 1))
        (getLimb d (n - 2)) = .ok q ∧
      (q.toNat = toNat win / toNat d ∨ q.toNat = toNat win / toNat d + 1) ∧
      ((getLimb win n).toNat < (getLimb d (n - 1)).toNat →
        q.toNat = toNat [getLimb win (n - 2), getLimb win (n - 1), getLimb win n] /
          toNat [getLimb d (n - 2), getLimb d (n - 1)]) := by
  obtain ⟨q, zs, c, e, -, -, h0, h1⟩ := Div.knuthSub_spec hw (lo := []) (rest := []) hn hd hv hv2 hl hU
  simp only [List.nil_append, List.append_nil, List.length_nil, Nat.zero_add] at e
  refine ⟨q, e, ?_, fun h => ?_⟩
  · cases c
    · exact .inl (h0 rfl).2.1
    · exact .inr (h1 rfl).2.1
  · have hb : 2 ^ w ≤ 2 * (getLimb d (n - 1)).toNat := by
      obtain ⟨m, rfl⟩ : ∃ m, n = m + 1 := ⟨n - 1, by omega⟩
      have pn : 2 ^ (w * (m + 1)) = 2 ^ w * 2 ^ (w * m) := by rw [Nat.mul_succ, Nat.pow_add, Nat.mul_comm]
      have hP : 0 < 2 ^ (w * m) := by positivity
      have hev : 2 ^ w = 2 * 2 ^ (w - 1) := by rw [← pow_succ']; congr 1; omega
      rw [pn] at hv hv2
      rw [Nat.add_sub_cancel, getLimb_toNat, Nat.mod_eq_of_lt (Nat.div_lt_of_lt_mul (by rw [Nat.mul_comm]; exact hv))]
      have d1 := Nat.div_add_mod (toNat d) (2 ^ (w * m))
      have d2 := Nat.mod_lt (toNat d) hP
      have : 2 ^ w * 2 ^ (w * m) < (2 * (toNat d / 2 ^ (w * m)) + 2) * 2 ^ (w * m) := by
        have e1 : (2 * (toNat d / 2 ^ (w * m)) + 2) * 2 ^ (w * m) =
          2 * (2 ^ (w * m) * (toNat d / 2 ^ (w * m))) + 2 * 2 ^ (w * m) := by ring
        omega
      have := Nat.lt_of_mul_lt_mul_right this
      omega
    obtain ⟨q', e', hq⟩ := Div.estimate_ok hw (a0 := getLimb win n) (a1 := getLimb win (n - 1))
      (a2 := getLimb win (n - 2)) (b0 := getLimb d (n - 1)) (b1 := getLimb d (n - 2)) hb
    rw [e] at e'
    cases e'
    rw [hq, if_pos h]
    simp only [toNat_cons, toNat_nil, Nat.mul_zero, Nat.add_zero]
    congr 1 <;> ring

example := C111_refined (w := 64) (by decide) (d := [0xffffffffffffffff, 0x8000000000000000])
  (win := [0, 0, 0x7fffffffffffffff]) (n := 2) (by decide) (by decide) (by decide +kernel) (by decide +kernel) rfl
  (by decide +kernel)

/-- The more precise estimate "can only be less or equal" to the first one (L354). -/
theorem C111_refined_le (hw : 0 < w) {a0 a1 a2 b0 b1 q r p : BitVec w} (hb : 2 ^ w ≤ 2 * b0.toNat)
    (h : a0.toNat < b0.toNat) (e : Div.divRemWord a0 a1 b0 = .ok (q, r)) (e' : Div.estimate a0 a1 a2 b0 b1 = .ok p) :
    p.toNat ≤ q.toNat := by
  obtain ⟨q', r', f, hq, -⟩ := Div.divRemWord_ok (lo := a1) h
  obtain ⟨p', f', hp⟩ := Div.estimate_ok hw (a0 := a0) (a1 := a1) (a2 := a2) (b0 := b0) (b1 := b1) hb
  rw [e] at f
  rw [e'] at f'
  cases f
  cases f'
  rw [if_pos h] at hp
  rw [hp, hq, Nat.le_div_iff_mul_le (by omega)]
  have h1 := Nat.div_mul_le_self (a0.toNat * 2 ^ w * 2 ^ w + a1.toNat * 2 ^ w + a2.toNat) (b0.toNat * 2 ^ w + b1.toNat)
  have h2 := a2.isLt
  generalize (a0.toNat * 2 ^ w * 2 ^ w + a1.toNat * 2 ^ w + a2.toNat) / (b0.toNat * 2 ^ w + b1.toNat) = t at *
  have h3 : t * b0.toNat * 2 ^ w < (a0.toNat * 2 ^ w + a1.toNat + 1) * 2 ^ w := by nlinarith
  have := Nat.lt_of_mul_lt_mul_right h3
  omega

example := C111_refined_le (w := 64) (by decide) (a0 := 0x7fffffffffffffff) (a1 := 0) (a2 := 0)
  (b0 := 0x8000000000000000) (b1 := 0xffffffffffffffff) (q := 0xfffffffffffffffe) (r := 0)
  (p := 0xfffffffffffffffc) (by decide +kernel) (by decide +kernel) (by decide +kernel) (by decide +kernel)

/-- The refined estimate can be too large by 1. -/
theorem C111_refined_tight :
    let d : Limbs 64 := [3, 0, 0x8000000000000000]
    let win : Limbs 64 := [0, 0, 0x8000000000000000, 0]
    Div.estimate (getLimb win 3) (getLimb win 2) (getLimb win 1) (getLimb d 2) (getLimb d 1) = .ok 1 ∧
      toNat win / toNat d = 0 := by decide +kernel

/-- "q_hat is the correct value for q[j]" (L417): if the round ends, the digit is exact.  It ends unless the estimate has
to be corrected for a divisor that fills its array.  The limbs of the numerator become the remainder if the estimate is
right; otherwise there is a 1 above it. -/
theorem C111_digit (hw : 0 < w) {d lo win rest : Limbs w} {n : Nat} (hn : 2 ≤ n)
    (hd : n ≤ d.length) (hv : toNat d < 2 ^ (w * n)) (hv2 : 2 ^ (w * n) ≤ 2 * toNat d)
    (hl : win.length = n + 1) (hU : toNat win < toNat d * 2 ^ w) :
    (∃ q win', Div.knuthStep d n lo.length (lo ++ win ++ rest) = .ok (q, lo ++ win' ++ rest) ∧
        q.toNat = toNat win / toNat d ∧ win'.length = n + 1 ∧
        toNat win' = toNat win % toNat d +
          if digitEst (2 ^ w) n (toNat win) (toNat d) = toNat win / toNat d then 0 else 2 ^ (w * n)) ∨
      (d.length = n ∧ digitEst (2 ^ w) n (toNat win) (toNat d) ≠ toNat win / toNat d ∧
        Div.knuthStep d n lo.length (lo ++ win ++ rest) = .panic) := by
  have h := Div.knuthStep_spec hw (lo := lo) (rest := rest) hn hd hv hv2 hl hU
  by_cases hc : digitEst (2 ^ w) n (toNat win) (toNat d) = toNat win / toNat d
  · rw [if_pos hc] at h
    simp only [if_pos hc, Nat.add_zero]
    exact .inl h
  · rw [if_neg hc] at h
    by_cases hN : d.length = n
    · rw [if_pos hN] at h
      exact .inr ⟨hN, hc, h⟩
    · rw [if_neg hN] at h
      simp only [if_neg hc]
      exact .inl h

example := C111_digit (w := 64) (by decide) (d := [3, 0, 0x8000000000000000]) (lo := [7])
  (win := [0, 0, 0x8000000000000000, 0]) (rest := [9]) (n := 3) (by decide) (by decide) (by decide +kernel)
  (by decide +kernel) rfl (by decide +kernel)

/-- "If underflow, q_hat was too large by 1" (L396), and only then. -/
theorem C111_underflow (hw : 0 < w) {d win rest : Limbs w} {n : Nat} (hn : 2 ≤ n) (hd : n ≤ d.length)
    (hv : toNat d < 2 ^ (w * n)) (hv2 : 2 ^ (w * n) ≤ 2 * toNat d) (hl : win.length = n + 1)
    (hU : toNat win < toNat d * 2 ^ w) :
    ∃ q, Div.estimate (getLimb win n) (getLimb win (n - 1)) (getLimb win (n - 2)) (getLimb d (n - 1))
        (getLimb d (n - 2)) = .ok q ∧
      ((Div.subLoop (n + 1) (win ++ rest) (Div.fullMul d q) false).2 = true ↔
        q.toNat = toNat win / toNat d + 1) := by
  obtain ⟨q, zs, c, e, es, -, h0, h1⟩ := Div.knuthSub_spec hw (lo := []) (rest := rest) hn hd hv hv2 hl hU
  simp only [List.nil_append, List.length_nil, Nat.zero_add, List.drop_zero] at e es
  rw [getLimb_append_left (by omega), getLimb_append_left (by omega), getLimb_append_left (by omega)] at e
  refine ⟨q, e, ?_⟩
  rw [es]
  cases c
  · have := (h0 rfl).2.1
    simp only [Bool.false_eq_true, false_iff]
    omega
  · exact ⟨fun _ => (h1 rfl).2.1, fun _ => rfl⟩

example := C111_underflow (w := 64) (by decide) (d := [3, 0, 0x8000000000000000]) (rest := [])
  (win := [0, 0, 0x8000000000000000, 0]) (n := 3) (by decide) (by decide) (by decide +kernel)
  (by decide +kernel) rfl (by decide +kernel)

end I256
