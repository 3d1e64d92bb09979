import Verif.Lemmas.Div

/-! # One round of the division loop -/

namespace I256

variable {w : Nat}

theorem getLimb_toNat (x : Limbs w) (i : Nat) :
    (getLimb x i).toNat = toNat x / 2 ^ (w * i) % 2 ^ w := by
  induction x generalizing i with
  | nil => simp [getLimb]
  | cons a x ih =>
    have ha := a.isLt
    cases i with
    | zero =>
      simp only [getLimb, List.getD_cons_zero, Nat.mul_zero, pow_zero, Nat.div_one, toNat_cons,
        Nat.add_mul_mod_self_left]
      exact (Nat.mod_eq_of_lt ha).symm
    | succ i =>
      have h := ih i
      simp only [getLimb, List.getD_cons_succ] at h ⊢
      rw [h, toNat_cons, show w * (i + 1) = w + w * i by ring, Nat.pow_add, ← Nat.div_div_eq_div_mul,
        Nat.add_mul_div_left _ _ (by positivity), Nat.div_eq_of_lt ha, Nat.zero_add]

theorem toNat_set (x : Limbs w) (i : Nat) (a : BitVec w) (h : i < x.length) :
    toNat (x.set i a) + 2 ^ (w * i) * (getLimb x i).toNat
      = toNat x + 2 ^ (w * i) * a.toNat := by
  induction x generalizing i with
  | nil => simp at h
  | cons b x ih =>
    cases i with
    | zero => simp [getLimb]; ring
    | succ i =>
      have h := ih i (by simpa using h)
      simp only [getLimb, List.getD_cons_succ, List.set_cons_succ, toNat_cons] at h ⊢
      rw [show w * (i + 1) = w + w * i by ring, Nat.pow_add]
      linear_combination 2 ^ w * h

theorem getLimb_append_right (x y : Limbs w) (i : Nat) :
    getLimb (x ++ y) (x.length + i) = getLimb y i := by
  simp only [getLimb, List.getD_eq_getElem?_getD]
  rw [List.getElem?_append_right (by omega), Nat.add_sub_cancel_left]

theorem getLimb_append_left {x y : Limbs w} {i : Nat} (h : i < x.length) :
    getLimb (x ++ y) i = getLimb x i := by
  simp only [getLimb, List.getD_eq_getElem?_getD]
  rw [List.getElem?_append_left h]

namespace Div

/-- The first half of a round: the estimate `q` and the difference `zs`. Without a borrow the digit is
exact and `zs` the remainder; with a borrow the digit is one too large. -/
theorem knuthSub_spec (hw : 0 < w) {d lo win rest : Limbs w} {n : Nat} (hn : 2 ≤ n)
    (hd : n ≤ d.length) (hv : toNat d < 2 ^ (w * n)) (hv2 : 2 ^ (w * n) ≤ 2 * toNat d)
    (hl : win.length = n + 1) (hU : toNat win < toNat d * 2 ^ w) :
    ∃ q zs c, estimate (getLimb (lo ++ win ++ rest) (lo.length + n))
        (getLimb (lo ++ win ++ rest) (lo.length + n - 1))
        (getLimb (lo ++ win ++ rest) (lo.length + n - 2)) (getLimb d (n - 1)) (getLimb d (n - 2))
        = .ok q ∧
      subLoop (n + 1) ((lo ++ win ++ rest).drop lo.length) (fullMul d q) false = (zs ++ rest, c) ∧
      zs.length = n + 1 ∧
      (c = false → digitEst (2 ^ w) n (toNat win) (toNat d) = toNat win / toNat d ∧
        q.toNat = toNat win / toNat d ∧ toNat zs = toNat win % toNat d) ∧
      (c = true → digitEst (2 ^ w) n (toNat win) (toNat d) ≠ toNat win / toNat d ∧
        q.toNat = toNat win / toNat d + 1 ∧
        toNat zs + toNat d = toNat win % toNat d + 2 ^ (w * (n + 1))) := by
  have hB2 : 2 ≤ 2 ^ w := one_lt_two_pow' hw
  set B := 2 ^ w with hB
  set P := B ^ (n - 2) with hP
  set U := toNat win with hUdef
  set v := toNat d with hvdef
  have hP0 : 0 < P := by positivity
  have pn : 2 ^ (w * n) = B * B * P := by
    rw [Nat.pow_mul, ← hB, hP, ← pow_two, ← Nat.pow_add]; congr 1; omega
  have pn1 : 2 ^ (w * (n - 1)) = B * P := by
    rw [Nat.pow_mul, ← hB, hP, ← pow_succ']; congr 1; omega
  have pn2 : 2 ^ (w * (n - 2)) = P := by rw [Nat.pow_mul]
  have ps : 2 ^ (w * (n + 1)) = B * (B * B * P) := by
    rw [← pn, Nat.mul_succ, Nat.pow_add, Nat.mul_comm]
  rw [pn] at hv hv2
  have hv0 : 0 < v := by
    have : 0 < B * B * P := by positivity
    omega
  have hest : digitEst B n U v =
      if U / (B * B * P) < v / (B * P) then U / P / (v / P) else B - 1 := by
    unfold digitEst
    rw [← pn, ← pn1, hB, ← Nat.pow_mul, ← Nat.pow_mul, hP, ← hB]
  obtain ⟨e1, e2, e3⟩ := DivNat.est_bounds hB2 hP0 hv2 hU
  rw [← hest] at e1 e2 e3
  -- the limbs read
  have hUB : U < B * (B * B * P) := lt_of_lt_of_le hU (by
    rw [Nat.mul_comm]; exact Nat.mul_le_mul_left _ hv.le)
  have ga : ∀ i, i < n + 1 → getLimb (lo ++ win ++ rest) (lo.length + i) = getLimb win i := by
    intro i hi
    rw [List.append_assoc, getLimb_append_right, getLimb_append_left (by omega)]
  have ha0 : (getLimb win n).toNat = U / (B * B * P) := by
    rw [getLimb_toNat, pn]
    apply Nat.mod_eq_of_lt
    apply Nat.div_lt_of_lt_mul
    rw [Nat.mul_comm]; exact hUB
  have ha1 : (getLimb win (n - 1)).toNat = U / (B * P) % B := by rw [getLimb_toNat, pn1]
  have ha2 : (getLimb win (n - 2)).toNat = U / P % B := by rw [getLimb_toNat, pn2]
  have hb0 : (getLimb d (n - 1)).toNat = v / (B * P) := by
    rw [getLimb_toNat, pn1]
    apply Nat.mod_eq_of_lt
    apply Nat.div_lt_of_lt_mul
    calc v < B * B * P := hv
      _ = B * P * B := by ring
  have hb1 : (getLimb d (n - 2)).toNat = v / P % B := by rw [getLimb_toNat, pn2]
  have hb : B ≤ 2 * (getLimb d (n - 1)).toNat := by
    rw [hb0]
    have h1 := Nat.div_add_mod v (B * P)
    have h2 := Nat.mod_lt v (show 0 < B * P by positivity)
    set b := v / (B * P)
    have hlt : B * (B * P) < (2 * b + 2) * (B * P) := by
      have e : (2 * b + 2) * (B * P) = 2 * (B * P * b) + 2 * (B * P) := by ring
      have e2 : B * (B * P) = B * B * P := by ring
      omega
    have := Nat.lt_of_mul_lt_mul_right hlt
    have hev : B = 2 * 2 ^ (w - 1) := by rw [hB, ← pow_succ']; congr 1; omega
    omega
  obtain ⟨q, eq, hq⟩ := estimate_ok hw (a0 := getLimb win n) (a1 := getLimb win (n - 1))
    (a2 := getLimb win (n - 2)) (b0 := getLimb d (n - 1)) (b1 := getLimb d (n - 2)) hb
  have hT : (getLimb win n).toNat * B * B + (getLimb win (n - 1)).toNat * B
      + (getLimb win (n - 2)).toNat = U / P := by
    have h1 := Nat.div_add_mod (U / P) B
    have h2 := Nat.div_add_mod (U / (B * P)) B
    rw [Nat.div_div_eq_div_mul, Nat.mul_comm P] at h1
    rw [Nat.div_div_eq_div_mul, show B * P * B = B * B * P by ring] at h2
    rw [ha0, ha1, ha2]
    linear_combination h1 + B * h2
  have hD : (getLimb d (n - 1)).toNat * B + (getLimb d (n - 2)).toNat = v / P := by
    have h1 := Nat.div_add_mod (v / P) B
    rw [Nat.div_div_eq_div_mul, Nat.mul_comm P] at h1
    rw [hb0, hb1]
    linear_combination h1
  rw [← hB, hT, hD, ha0, hb0, ← hest] at hq
  -- the multiple of the divisor
  obtain ⟨fl, fv⟩ := fullMul_spec d q
  have hsplit : fullMul d q = (fullMul d q).take (n + 1) ++ (fullMul d q).drop (n + 1) :=
    (List.take_append_drop _ _).symm
  have hqv : v * q.toNat < B * (B * B * P) := by
    calc v * q.toNat ≤ v * B := Nat.mul_le_mul_left _ (by omega)
      _ < B * B * P * B := Nat.mul_lt_mul_of_pos_right hv (by omega)
      _ = B * (B * B * P) := by ring
  have htv : toNat ((fullMul d q).take (n + 1)) = v * q.toNat := by
    rw [toNat_take _ _ (by omega), fv, ps]
    exact Nat.mod_eq_of_lt hqv
  obtain ⟨zs, c, es, zl, zv⟩ := subLoop_spec hw win ((fullMul d q).take (n + 1)) rest
    ((fullMul d q).drop (n + 1)) false (by rw [List.length_take]; omega)
  rw [htv, hl, ps] at zv
  rw [← hsplit, hl] at es
  simp only [Bool.toNat_false, Nat.add_zero] at zv
  have i1 : lo.length + n - 1 = lo.length + (n - 1) := by omega
  have i2 : lo.length + n - 2 = lo.length + (n - 2) := by omega
  have hzs : toNat zs < B * (B * B * P) := by
    have := toNat_lt zs
    rw [bits, zl, hl, ps] at this; exact this
  have hdm := Nat.div_add_mod U v
  have hml := Nat.mod_lt U hv0
  refine ⟨q, zs, c, ?_, ?_, by omega, ?_, ?_⟩
  · rw [i1, i2, ga n (by omega), ga (n - 1) (by omega), ga (n - 2) (by omega), eq]
  · rw [List.append_assoc, List.drop_left, es]
  · rintro rfl
    simp only [Bool.toNat_false, Nat.mul_zero, Nat.add_zero] at zv
    have hle : q.toNat ≤ U / v := by
      rw [Nat.le_div_iff_mul_le hv0, Nat.mul_comm]; omega
    have heq : digitEst B n U v = U / v := by omega
    have : q.toNat = U / v := by omega
    rw [this] at zv
    exact ⟨heq, this, by omega⟩
  · rintro rfl
    simp only [Bool.toNat_true, Nat.mul_one] at zv
    have hgt : U / v < q.toNat := by
      by_contra hcon
      have : v * q.toNat ≤ v * (U / v) := Nat.mul_le_mul_left _ (by omega)
      omega
    have hq1 : q.toNat = U / v + 1 := by omega
    have hqm : v * q.toNat = v * (U / v) + v := by rw [hq1]; ring
    exact ⟨by omega, hq1, by rw [ps]; omega⟩

/-- One round: the digit is exact; a corrected estimate leaves a stray 1 above the remainder, or
panics if the divisor has no limb beyond `n`. -/
theorem knuthStep_spec (hw : 0 < w) {d lo win rest : Limbs w} {n : Nat} (hn : 2 ≤ n)
    (hd : n ≤ d.length) (hv : toNat d < 2 ^ (w * n)) (hv2 : 2 ^ (w * n) ≤ 2 * toNat d)
    (hl : win.length = n + 1) (hU : toNat win < toNat d * 2 ^ w) :
    if digitEst (2 ^ w) n (toNat win) (toNat d) = toNat win / toNat d then
      ∃ q win', knuthStep d n lo.length (lo ++ win ++ rest) = .ok (q, lo ++ win' ++ rest) ∧
        q.toNat = toNat win / toNat d ∧ win'.length = n + 1 ∧ toNat win' = toNat win % toNat d
    else
      if d.length = n then knuthStep d n lo.length (lo ++ win ++ rest) = .panic
      else ∃ q win', knuthStep d n lo.length (lo ++ win ++ rest) = .ok (q, lo ++ win' ++ rest) ∧
        q.toNat = toNat win / toNat d ∧ win'.length = n + 1 ∧
        toNat win' = toNat win % toNat d + 2 ^ (w * n) := by
  obtain ⟨q, zs, c, he, es, zl, hc0, hc1⟩ := knuthSub_spec hw (lo := lo) (rest := rest) hn hd hv hv2
    hl hU
  have hstep : knuthStep d n lo.length (lo ++ win ++ rest) =
      if c then
        (addLoop (n + 1) (zs ++ rest) d false).bind fun (win', c') =>
          .ok (q - 1, lo ++ win'.set n (getLimb win' n + boolLimb w c'))
      else .ok (q, lo ++ (zs ++ rest)) := by
    unfold knuthStep
    rw [he, Res.bind_ok, es, List.append_assoc, List.take_left]
  rw [hstep]
  cases c
  · obtain ⟨h1, h2, h3⟩ := hc0 rfl
    rw [if_pos h1]
    exact ⟨q, zs, by simp, h2, zl, h3⟩
  · obtain ⟨h1, hq1, h3⟩ := hc1 rfl
    rw [if_neg h1]
    simp only [if_true]
    by_cases hN : d.length = n
    · rw [if_pos hN, addLoop_panic _ _ _ _ (by omega), Res.bind_panic]
    · rw [if_neg hN]
      obtain ⟨ys, c2, ea, yl, yv⟩ := addLoop_spec hw zs (d.take (n + 1)) rest (d.drop (n + 1)) false
        (by rw [List.length_take]; omega)
      rw [zl, List.take_append_drop] at ea
      have hpp : 2 ^ (w * n) ≤ 2 ^ (w * (n + 1)) :=
        Nat.pow_le_pow_right (by omega) (Nat.mul_le_mul_left _ (by omega))
      have hdt : toNat (d.take (n + 1)) = toNat d := by
        rw [toNat_take _ _ (by omega)]
        exact Nat.mod_eq_of_lt (by omega)
      rw [hdt, zl] at yv
      simp only [Bool.toNat_false, Nat.add_zero] at yv
      have hys := toNat_lt ys
      rw [bits, yl, zl] at hys
      have hml := Nat.mod_lt (toNat win) (show 0 < toNat d by
        have : 0 < 2 ^ (w * n) := by positivity
        omega)
      have hc2 : c2 = true := by
        cases c2
        · exfalso; simp only [Bool.toNat_false, Nat.mul_zero] at yv; omega
        · rfl
      subst hc2
      simp only [Bool.toNat_true, Nat.mul_one] at yv
      have hyU : toNat ys = toNat win % toNat d := by omega
      rw [ea, Res.bind_ok]
      have hyl : ys.length = n + 1 := by omega
      have hset : (ys ++ rest).set n (getLimb (ys ++ rest) n + boolLimb w true)
          = ys.set n (getLimb ys n + boolLimb w true) ++ rest := by
        rw [getLimb_append_left (by omega), List.set_append_left _ _ (by omega)]
      have hgl : (getLimb ys n).toNat = 0 := by
        rw [getLimb_toNat, hyU, Nat.div_eq_of_lt (by omega), Nat.zero_mod]
      have hadd : (getLimb ys n + boolLimb w true).toNat = 1 := by
        rw [BitVec.toNat_add, hgl, boolLimb_toNat hw]
        exact Nat.mod_eq_of_lt (by simpa using one_lt_two_pow' hw)
      have hs := toNat_set ys n (getLimb ys n + boolLimb w true) (by omega)
      rw [hgl, hadd, Nat.mul_zero, Nat.mul_one, Nat.add_zero, hyU] at hs
      refine ⟨q - 1, ys.set n (getLimb ys n + boolLimb w true), ?_, ?_, by simp [hyl], hs⟩
      · simp only [hset, List.append_assoc]
      · rw [sub_one_toNat hw (by rw [hq1]; exact Nat.le_add_left _ _), hq1, Nat.add_sub_cancel]

end Div

end I256
