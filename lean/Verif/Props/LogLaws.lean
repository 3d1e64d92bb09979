import Verif.Lemmas.LogLaws
import Verif.Props.SignView

/-!
# Laws of logarithms (C81)

`checked_ilog`, `checked_ilog2`, `checked_pow`, `checked_mul`, division and comparisons, in terms of
one another.  `rounds` bounds the number of rounds of the loop of `checked_ilog`
(Verif/Model/Ilog.lean); `BITS` rounds are enough.
-/

namespace I256

open Sample

variable {w : Nat} {x y z p : Limbs w} {oc : Bool} {rounds k m : Nat}

/-- C81: if `checked_ilog` returns `k`, then `base^k` does not overflow and is at most `x`, and
`base^(k+1)` overflows or is greater than `x`. -/
theorem C81_uint_sandwich (hw : 0 < w) (hl : x.length = y.length) (he : x.length % 2 = 0)
    (h4 : 4 ≤ x.length) (hbits : bits x < 2 ^ 32) (hr : bits x ≤ rounds)
    (h : U.checkedIlog oc rounds x y = some (.ok (some k))) :
    1 ≤ k ∧ k < bits x ∧ (∃ p, U.checkedPow y k = some p ∧ Ord.le false p x = true) ∧
      ∀ q, U.checkedPow y (k + 1) = some q → Ord.lt false x q = true := by
  obtain ⟨hy, hyx, rfl, -⟩ := checkedIlog_some hw hl he h4 hbits hr h
  have hy0 : y ≠ [] := List.length_pos_iff.1 (by omega)
  have hlt := toNat_lt x
  have hk : Nat.log (toNat y) (toNat x) < bits x :=
    Nat.log_lt_of_lt_pow (by omega) (hlt.trans_le (Nat.pow_le_pow_left hy _))
  have hle := Nat.pow_log_le_self (toNat y) (x := toNat x) (by omega)
  have hgt := Nat.lt_pow_succ_log_self (b := toNat y) (by omega) (toNat x)
  refine ⟨Nat.log_pos (by omega) hyx, hk, ?_, fun q hq => ?_⟩
  · have hc := (C11_uint_pow hw hy0 (e := Nat.log (toNat y) (toNat x)) (by omega)).1
    obtain ⟨p, e, hp⟩ := hc.1 ⟨by positivity, by rw [← hl]; exact_mod_cast hle.trans_lt hlt⟩
    refine ⟨p, e, ?_⟩
    rw [Ord.le_iff hw false (by rw [hp.1, hl]) (by rw [hp.1]; omega) (by rw [hp.1]; omega)]
    simp only [Ord.val, Bool.false_eq_true, if_false]
    rw [hp.2]
    exact_mod_cast hle
  · have hc := (C11_uint_pow hw hy0 (e := Nat.log (toNat y) (toNat x) + 1) (by omega)).1
    rw [hq] at hc
    have hv := hc.some
    rw [Ord.lt_iff hw false (by rw [hv.1, hl]) he (by omega)]
    simp only [Ord.val, Bool.false_eq_true, if_false]
    rw [hv.2]
    exact_mod_cast hgt

example := C81_uint_sandwich (x := ones) (y := ([10, 0, 0, 0] : Limbs 64)) (oc := true) (rounds := 256)
  (k := 77) (by decide) (by decide) (by decide) (by decide) (by decide) (by decide) (by decide +kernel)

/-- C81: the logarithm of a power that does not overflow is the exponent. No such call panics. -/
theorem C81_uint_log_pow (hw : 0 < w) (he : y.length % 2 = 0) (h4 : 4 ≤ y.length)
    (hbits : bits y < 2 ^ 32) (hr : bits y ≤ rounds) (hy : 2 ≤ toNat y) (hk : 1 ≤ k) (hk' : k < 2 ^ 32)
    (h : U.checkedPow y k = some p) : U.checkedIlog oc rounds p y = some (.ok (some k)) := by
  have hy0 : y ≠ [] := List.length_pos_iff.1 (by omega)
  have hc := (C11_uint_pow hw hy0 hk').1
  rw [h] at hc
  obtain ⟨hpl, hpv⟩ := hc.some
  have hpv : toNat p = toNat y ^ k := by exact_mod_cast hpv
  have hb : bits p = bits y := by rw [bits, bits, hpl]
  have hyp : toNat y ≤ toNat p := by rw [hpv]; exact Nat.le_self_pow (by omega) _
  have hnp : ¬ DivPanics w p.length (toNat p) (toNat y) := by
    rcases Nat.lt_or_ge (toNat y) (2 ^ (w * (p.length - 1))) with c | c
    · exact C14_no_panic hw (by omega) c
    · rcases Nat.lt_or_ge 1 k with c1 | c1
      · exfalso
        have h1 := toNat_lt p
        have h2 : toNat y ^ 2 ≤ toNat p := by rw [hpv]; exact Nat.pow_le_pow_right (by omega) c1
        have h3 : 2 ^ bits p ≤ (2 ^ (w * (p.length - 1))) ^ 2 := by
          rw [← pow_mul]
          refine Nat.pow_le_pow_right (by omega) ?_
          rw [bits, Nat.mul_assoc]
          exact Nat.mul_le_mul_left _ (by omega)
        have h4 := Nat.pow_le_pow_left c 2
        omega
      · have : k = 1 := by omega
        subst this
        exact (C13_exact_cases hw p.length (.inr (.inr (.inr (by rw [hpv, pow_one]))))).1
  rw [C32_uint_checked_ilog_partial hw (by omega) (by omega) (by omega) (by omega) oc (by omega) rounds
    (by omega), if_neg (by omega), if_neg hnp, hpv, Nat.log_pow (by omega)]

example := C81_uint_log_pow (y := ([10, 0, 0, 0] : Limbs 64)) (k := 3) (p := [1000, 0, 0, 0]) (oc := true)
  (rounds := 256) (by decide) (by decide) (by decide) (by decide) (by decide) (by decide) (by decide)
  (by decide) (by decide +kernel)

/-- C81: the logarithm does not decrease with the number and does not increase with the base. -/
theorem C81_uint_mono (hw : 0 < w) (hl : x.length = y.length) (hz : x.length = z.length)
    (he : x.length % 2 = 0) (h4 : 4 ≤ x.length) (hbits : bits x < 2 ^ 32) (hr : bits x ≤ rounds) :
    (U.checkedIlog oc rounds x y = some (.ok (some k)) → U.checkedIlog oc rounds z y = some (.ok (some m)) →
      Ord.le false x z = true → k ≤ m) ∧
    (U.checkedIlog oc rounds x y = some (.ok (some k)) → U.checkedIlog oc rounds x z = some (.ok (some m)) →
      Ord.le false y z = true → m ≤ k) := by
  have hb : bits z = bits x := by rw [bits, bits, hz]
  constructor
  · intro h h' hle
    obtain ⟨hy, -, rfl, -⟩ := checkedIlog_some hw hl he h4 hbits hr h
    obtain ⟨-, -, rfl, -⟩ := checkedIlog_some hw (by omega) (by omega) (by omega) (by omega) (by omega) h'
    rw [Ord.le_iff hw false hz he (by omega)] at hle
    simp only [Ord.val, Bool.false_eq_true, if_false] at hle
    exact Nat.log_mono_right (by exact_mod_cast hle)
  · intro h h' hle
    obtain ⟨hy, -, rfl, -⟩ := checkedIlog_some hw hl he h4 hbits hr h
    obtain ⟨-, -, rfl, -⟩ := checkedIlog_some hw hz he h4 hbits hr h'
    rw [Ord.le_iff hw false (by omega) (by omega) (by omega)] at hle
    simp only [Ord.val, Bool.false_eq_true, if_false] at hle
    exact Nat.log_anti_left hy (by exact_mod_cast hle)

example := (C81_uint_mono (x := a) (y := ([10, 0, 0, 0] : Limbs 64)) (z := ones) (oc := true) (rounds := 256)
  (k := 39) (m := 77) (by decide) (by decide) (by decide) (by decide) (by decide) (by decide) (by decide)).1
  (by decide +kernel) (by decide +kernel) (by decide)
example := (C81_uint_mono (x := ones) (y := ([10, 0, 0, 0] : Limbs 64)) (z := [16, 0, 0, 0]) (oc := true)
  (rounds := 256) (k := 77) (m := 63) (by decide) (by decide) (by decide) (by decide) (by decide) (by decide)
  (by decide)).2 (by decide +kernel) (by decide +kernel) (by decide)

/-- C81: dividing by the base takes one off the logarithm. -/
theorem C81_uint_div (hw : 0 < w) (hl : x.length = y.length) (he : x.length % 2 = 0)
    (h4 : 4 ≤ x.length) (hbits : bits x < 2 ^ 32) (hr : bits x ≤ rounds)
    (h : U.checkedIlog oc rounds x y = some (.ok (some k))) (hd : U.wrappingDiv x y = .ok z)
    (hz : U.checkedIlog oc rounds z y = some (.ok (some m))) : k = m + 1 := by
  obtain ⟨hy, hxy, rfl, hp⟩ := checkedIlog_some hw hl he h4 hbits hr h
  obtain ⟨v, e, hv⟩ := ((C12_uint_div hw hl (by omega) he (by omega) oc) _ (List.mem_cons_self ..)).2 hp
  rw [e] at hd
  cases hd
  have hb : bits z = bits x := by rw [bits, bits, hv.1]
  have hzl : z.length = x.length := hv.1
  obtain ⟨-, -, rfl, -⟩ := checkedIlog_some hw (by omega) (by omega) (by omega) (by omega) (by omega) hz
  have hzv : toNat z = toNat x / toNat y := by exact_mod_cast hv.2
  rw [hzv, Nat.log_div_base]
  have := Nat.log_pos (b := toNat y) (by omega) hxy
  omega

example := C81_uint_div (x := ones) (y := ([16, 0, 0, 0] : Limbs 64)) (oc := true) (rounds := 256)
  (z := [0xffffffffffffffff, 0xffffffffffffffff, 0xffffffffffffffff, 0x0fffffffffffffff]) (k := 63) (m := 62)
  (by decide) (by decide) (by decide) (by decide) (by decide) (by decide) (by decide +kernel)
  (by decide +kernel) (by decide +kernel)

/-- C81: to base 2 the two logarithms agree. -/
theorem C81_uint_base_two (hw : 0 < w) (hl : x.length = y.length) (he : x.length % 2 = 0)
    (h4 : 4 ≤ x.length) (hbits : bits x < 2 ^ 32) (hr : bits x ≤ rounds) (hy : toNat y = 2)
    (hx : 2 ≤ toNat x) : U.checkedIlog oc rounds x y = some (.ok (checkedIlog2 false x)) := by
  have hnp : ¬ DivPanics w x.length (toNat x) (toNat y) := by
    refine C14_no_panic hw (by omega) ?_
    calc toNat y = 2 ^ 1 := hy
      _ < 2 ^ (w * (x.length - 1)) := Nat.pow_lt_pow_right (by omega) (by
        calc 1 < 1 * (x.length - 1) := by omega
          _ ≤ w * (x.length - 1) := Nat.mul_le_mul_right _ hw)
  rw [C32_uint_checked_ilog_partial hw hl he h4 hbits oc (by omega) rounds hr, if_neg (by omega),
    if_neg hnp, (C22_uint_ilog2 hw he h4).1, if_neg (by omega), hy, Nat.log2_eq_log_two]

example := C81_uint_base_two (x := a) (y := ([2, 0, 0, 0] : Limbs 64)) (oc := true) (rounds := 256) (by decide)
  (by decide) (by decide) (by decide) (by decide) (by decide) (by decide) (by decide)

/-- C81: the binary logarithm of a product is the sum of the logarithms or one more. -/
theorem C81_uint_log2_mul (hw : 0 < w) (hl : x.length = y.length) (he : x.length % 2 = 0)
    (h4 : 4 ≤ x.length) (hp : U.checkedMul x y = some p) (hx : checkedIlog2 false x = some k)
    (hy : checkedIlog2 false y = some m) :
    checkedIlog2 false p = some (k + m) ∨ checkedIlog2 false p = some (k + m + 1) := by
  have hc := C07_uint_checked_mul hw hl he h4
  rw [hp] at hc
  obtain ⟨hpl, hpv⟩ := hc.some
  have hpv : toNat p = toNat x * toNat y := by exact_mod_cast hpv
  rw [(C22_uint_ilog2 hw he h4).1] at hx
  rw [(C22_uint_ilog2 hw (by omega) (by omega)).1] at hy
  rw [(C22_uint_ilog2 hw (by omega) (by omega)).1]
  split at hx
  · simp at hx
  · next cx =>
    split at hy
    · simp at hy
    · next cy =>
      simp only [Option.some.injEq] at hx hy
      subst hx hy
      have h0 : toNat x * toNat y ≠ 0 := Nat.mul_ne_zero cx cy
      rw [hpv, if_neg h0]
      have x1 := Nat.log2_self_le cx
      have x2 := Nat.lt_log2_self (n := toNat x)
      have y1 := Nat.log2_self_le cy
      have y2 := Nat.lt_log2_self (n := toNat y)
      have l1 : (toNat x).log2 + (toNat y).log2 ≤ (toNat x * toNat y).log2 := by
        rw [Nat.le_log2 h0, pow_add]
        exact Nat.mul_le_mul x1 y1
      have l2 : (toNat x * toNat y).log2 < (toNat x).log2 + (toNat y).log2 + 2 := by
        rw [Nat.log2_lt h0]
        calc _ < 2 ^ ((toNat x).log2 + 1) * 2 ^ ((toNat y).log2 + 1) := Nat.mul_lt_mul'' x2 y2
          _ = _ := by rw [← pow_add]; congr 1; omega
      rcases Nat.lt_or_ge (toNat x).log2 ((toNat x * toNat y).log2 - (toNat y).log2) with c | c
      · right; congr 1; omega
      · left; congr 1; omega

example := C81_uint_log2_mul (x := ([3, 0, 0, 0] : Limbs 64)) (y := [7, 0, 0, 0]) (p := [21, 0, 0, 0]) (k := 1)
  (m := 2) (by decide) (by decide) (by decide) (by decide) (by decide +kernel) (by decide) (by decide)

/-- C81: the same bounds for the signed type. Positive powers are not affected by B1. -/
theorem C81_int_sandwich (hw : 1 < w) (hl : x.length = y.length) (he : x.length % 2 = 0)
    (h4 : 4 ≤ x.length) (hbits : bits x < 2 ^ 32) (hr : bits x ≤ rounds)
    (h : I.checkedIlog oc rounds x y = some (.ok (some k))) :
    1 ≤ k ∧ k < bits x ∧ (∃ p, I.checkedPow y k = some p ∧ Ord.le true p x = true) ∧
      ∀ q, I.checkedPow y (k + 1) = some q → Ord.lt true x q = true := by
  rw [C32_int_checked_ilog_partial (by omega) hl he h4 hbits oc rounds hr] at h
  split at h
  · simp at h
  next c =>
  split at h
  · simp at h
  next d =>
  simp only [Option.some.injEq, Res.ok.injEq] at h
  subst h
  have hxv := toInt_cases x
  have hyv := toInt_cases y
  have hx1 : (toNat x : Int) = toInt x := by omega
  have hy1 : (toNat y : Int) = toInt y := by omega
  have hy : 2 ≤ toNat y := by omega
  have hyx : toNat y ≤ toNat x := by
    have : ¬ toInt x < toInt y := fun t => d (.inl t)
    omega
  have hlt := toNat_lt x
  have hS := toInt_InS x
  have hk : Nat.log (toNat y) (toNat x) < bits x :=
    Nat.log_lt_of_lt_pow (by omega) (hlt.trans_le (Nat.pow_le_pow_left hy _))
  have hle := Nat.pow_log_le_self (toNat y) (x := toNat x) (by omega)
  have hgt := Nat.lt_pow_succ_log_self (b := toNat y) (by omega) (toNat x)
  have hpos : ∀ e, 0 ≤ toInt y ^ e := fun e => pow_nonneg (by omega) e
  have hng : ∀ e, ¬ Mul.Gap w y.length (toInt y ^ e) := fun e g => by
    have := g.1
    have h2 : (0:Int) < 2 ^ (w * y.length - 1) := by positivity
    have := hpos e
    omega
  refine ⟨Nat.log_pos (by omega) hyx, hk, ?_, fun q hq => ?_⟩
  · have hc := (C11_int_pow_partial hw (x := y) (by omega) (by omega)
      (e := Nat.log (toNat y) (toNat x)) (by omega) (hng _)).2.1
    have hle' : toInt y ^ Nat.log (toNat y) (toNat x) ≤ toInt x := by
      rw [← hx1, ← hy1]
      exact_mod_cast hle
    obtain ⟨p, e, hp⟩ := hc.1 (by
      have h1 := hS.2
      have h2 := hpos (Nat.log (toNat y) (toNat x))
      rw [bits] at h1
      rw [← hl]
      have h3 : (0:Int) < 2 ^ (w * x.length) := by positivity
      exact ⟨by omega, by omega⟩)
    refine ⟨p, e, ?_⟩
    rw [Ord.le_iff (by omega) true (by rw [hp.1, hl]) (by rw [hp.1]; omega) (by rw [hp.1]; omega)]
    simp only [Ord.val, if_true]
    rw [hp.2]
    exact hle'
  · have hc := (C11_int_pow_partial hw (x := y) (by omega) (by omega)
      (e := Nat.log (toNat y) (toNat x) + 1) (by omega) (hng _)).2.1
    rw [hq] at hc
    have hv := hc.some
    rw [Ord.lt_iff (by omega) true (by rw [hv.1, hl]) he (by omega)]
    simp only [Ord.val, if_true]
    rw [hv.2, ← hx1, ← hy1]
    exact_mod_cast hgt

example := C81_int_sandwich (x := maxS) (y := ([10, 0, 0, 0] : Limbs 64)) (oc := true) (rounds := 256)
  (k := 76) (by decide) (by decide) (by decide) (by decide) (by decide) (by decide) (by decide +kernel)

end I256
