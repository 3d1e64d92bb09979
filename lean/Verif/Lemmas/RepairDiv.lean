import Verif.Repair.Div
import Verif.Lemmas.DivTop

/-! # The repaired long division is exact -/

namespace I256

variable {w : Nat}

namespace Repair

open _root_.I256.Div

theorem knuthStep_spec (hw : 0 < w) {d lo win rest : Limbs w} {n : Nat} (hn : 2 ≤ n)
    (hd : n ≤ d.length) (hv : toNat d < 2 ^ (w * n)) (hv2 : 2 ^ (w * n) ≤ 2 * toNat d)
    (hl : win.length = n + 1) (hU : toNat win < toNat d * 2 ^ w) :
    ∃ q win', knuthStep d n lo.length (lo ++ win ++ rest) = .ok (q, lo ++ win' ++ rest) ∧
      q.toNat = toNat win / toNat d ∧ win'.length = n + 1 ∧ toNat win' = toNat win % toNat d := by
  obtain ⟨q, zs, c, he, es, zl, hc0, hc1⟩ := knuthSub_spec hw (lo := lo) (rest := rest) hn hd hv hv2
    hl hU
  have hstep : knuthStep d n lo.length (lo ++ win ++ rest) =
      if c then
        (addLoop n (zs ++ rest) d false).bind fun (win', c') =>
          .ok (q - 1, lo ++ win'.set n (getLimb win' n + boolLimb w c'))
      else .ok (q, lo ++ (zs ++ rest)) := by
    unfold knuthStep
    rw [he, Res.bind_ok, es, List.append_assoc, List.take_left]
  rw [hstep]
  cases c
  · obtain ⟨_, h2, h3⟩ := hc0 rfl
    exact ⟨q, zs, by simp, h2, zl, h3⟩
  · obtain ⟨_, hq1, h3⟩ := hc1 rfl
    simp only [if_true]
    obtain ⟨l, t, rfl⟩ := exists_concat (x := zs) (by intro h; rw [h] at zl; simp at zl)
    have hll : l.length = n := by simpa using zl
    obtain ⟨ys, c2, ea, yl, yv⟩ := addLoop_spec hw l (d.take n) ([t] ++ rest) (d.drop n) false
      (by rw [List.length_take]; omega)
    rw [hll, List.take_append_drop, ← List.append_assoc] at ea
    have hdt : toNat (d.take n) = toNat d := by
      rw [toNat_take _ _ (by omega)]
      exact Nat.mod_eq_of_lt hv
    rw [hdt, hll] at yv
    simp only [Bool.toNat_false, Nat.add_zero] at yv
    have hys := toNat_lt ys
    rw [bits, yl, hll] at hys
    have hlt := toNat_lt l
    rw [bits, hll] at hlt
    rw [toNat_append, bits, hll, toNat_cons, toNat_nil, Nat.mul_zero, Nat.add_zero] at h3
    have ht := t.isLt
    have hps : 2 ^ (w * (n + 1)) = 2 ^ (w * n) * 2 ^ w := by rw [← Nat.pow_add]; rfl
    have hml := Nat.mod_lt (toNat win) (show 0 < toNat d by
      have : 0 < 2 ^ (w * n) := by positivity
      omega)
    have hset : (ys ++ ([t] ++ rest)).set n (getLimb (ys ++ ([t] ++ rest)) n + boolLimb w c2)
        = ys ++ [t + boolLimb w c2] ++ rest := by
      have hg : getLimb (ys ++ ([t] ++ rest)) n = t := by
        have := getLimb_append_right ys ([t] ++ rest) 0
        rw [show ys.length + 0 = n by omega] at this
        rw [this]; rfl
      rw [hg, List.set_append_right _ _ (by omega), show n - ys.length = 0 by omega]
      simp
    -- the top limb becomes zero
    have hkey : toNat ys = toNat win % toNat d ∧ (t + boolLimb w c2).toNat = 0 := by
      rw [hps] at h3
      set P := 2 ^ (w * n) with hP
      have hP0 : 0 < P := by positivity
      have e : toNat ys + P * (t.toNat + c2.toNat) = toNat win % toNat d + P * 2 ^ w := by
        rw [Nat.mul_add]; omega
      have h4 := congrArg (· % P) e
      simp only [Nat.add_mul_mod_self_left] at h4
      rw [Nat.mod_eq_of_lt hys, Nat.mod_eq_of_lt (by omega)] at h4
      rw [h4] at e
      have h5 := Nat.eq_of_mul_eq_mul_left hP0 (Nat.add_left_cancel e)
      refine ⟨h4, ?_⟩
      rw [BitVec.toNat_add, boolLimb_toNat hw, h5, Nat.mod_self]
    refine ⟨q - 1, ys ++ [t + boolLimb w c2], ?_, ?_, by simp [yl, hll], ?_⟩
    · rw [ea, Res.bind_ok]
      simp only [List.append_assoc] at hset ⊢
      rw [hset]
    · rw [sub_one_toNat hw (by rw [hq1]; exact Nat.le_add_left _ _), hq1, Nat.add_sub_cancel]
    · rw [toNat_append, toNat_cons, toNat_nil, hkey.1, hkey.2]; simp

theorem knuthLoop_spec (hw : 0 < w) {d : Limbs w} {n : Nat} (hn : 2 ≤ n)
    (hd : n ≤ d.length) (hv : toNat d < 2 ^ (w * n)) (hv2 : 2 ^ (w * n) ≤ 2 * toNat d) (u : Nat)
    (j : Nat) : ∀ (lo hr ht acc : Limbs w), lo.length = j → toNat lo = u % (2 ^ w) ^ j →
    hr.length = n → toNat hr = u / (2 ^ w) ^ j % toNat d →
    ∃ q r, knuthLoop d n j (lo ++ hr ++ ht) acc =
        .ok (q ++ acc, r ++ (List.replicate j 0 ++ ht)) ∧
        q.length = j ∧
        toNat q = (u / (2 ^ w) ^ j % toNat d * (2 ^ w) ^ j + u % (2 ^ w) ^ j) / toNat d ∧
        r.length = n ∧ toNat r = u % toNat d := by
  have hB0 : 0 < 2 ^ w := by positivity
  have hv0 : 0 < toNat d := by
    have : 0 < 2 ^ (w * n) := by positivity
    omega
  induction j with
  | zero =>
    intro lo hr ht acc hlo _ hrl hrv
    refine ⟨[], hr, ?_, rfl, ?_, hrl, ?_⟩
    · have : lo = [] := List.length_eq_zero_iff.1 hlo
      simp [knuthLoop, this]
    · simp only [pow_zero, Nat.mod_one, Nat.mul_one, Nat.add_zero, Nat.div_one, toNat_nil]
      exact (Nat.div_eq_of_lt (Nat.mod_lt _ hv0)).symm
    · rw [hrv]; simp
  | succ j ih =>
    intro lo hr ht acc hlo hlov hrl hrv
    obtain ⟨lo', a, rfl⟩ := exists_concat (x := lo) (by intro h; rw [h] at hlo; simp at hlo)
    have hlo' : lo'.length = j := by simpa using hlo
    have hap := toNat_append lo' [a]
    have hlt := toNat_lt lo'
    rw [bits, hlo', Nat.pow_mul] at hap hlt
    have hloj : toNat lo' = u % (2 ^ w) ^ j := by
      have : toNat (lo' ++ [a]) % (2 ^ w) ^ j = u % (2 ^ w) ^ j := by
        rw [hlov, pow_succ]; exact Nat.mod_mod_of_dvd _ (Nat.dvd_mul_right _ _)
      rw [hap, Nat.add_mul_mod_self_left, Nat.mod_eq_of_lt hlt] at this
      exact this
    have ha : a.toNat = u / (2 ^ w) ^ j % 2 ^ w := by
      have h1 : toNat (lo' ++ [a]) / (2 ^ w) ^ j = u / (2 ^ w) ^ j % 2 ^ w := by
        rw [hlov, pow_succ, Nat.mod_mul_right_div_self]
      rw [hap, Nat.add_mul_div_left _ _ (by positivity), Nat.div_eq_of_lt hlt] at h1
      simpa using h1
    have hwin : toNat (a :: hr) = partRem (2 ^ w) u (toNat d) j := by
      rw [toNat_cons, ha, hrv, partRem_succ hB0]
    have hU := partRem_lt (B := 2 ^ w) (u := u) hB0 hv0 j
    obtain ⟨q0, win', hs, hq0, hwl, hwv⟩ := knuthStep_spec hw (d := d) (lo := lo') (win := a :: hr)
      (rest := ht) hn hd hv hv2 (by simp [hrl]) (by rw [hwin]; exact hU)
    rw [hwin] at hq0 hwv
    set U := partRem (2 ^ w) u (toNat d) j with hUdef
    have hUm : U % toNat d = u / (2 ^ w) ^ j % toNat d := partRem_mod j
    have hml := Nat.mod_lt U hv0
    have hnum : lo' ++ [a] ++ hr ++ ht = lo' ++ (a :: hr) ++ ht := by simp
    obtain ⟨hr', t, rfl⟩ := exists_concat (x := win') (by intro h; rw [h] at hwl; simp at hwl)
    have hrl' : hr'.length = n := by simpa using hwl
    have hap' := toNat_append hr' [t]
    have hlt' := toNat_lt hr'
    rw [bits, hrl'] at hap' hlt'
    rw [hwv] at hap'
    have hrv' : toNat hr' = U % toNat d := by
      have := congrArg (· % 2 ^ (w * n)) hap'
      simp only [Nat.add_mul_mod_self_left] at this
      rw [Nat.mod_eq_of_lt hlt', Nat.mod_eq_of_lt (by omega)] at this
      exact this.symm
    have htv : t = 0 := by
      apply BitVec.eq_of_toNat_eq
      rw [hrv'] at hap'
      have h1 : 2 ^ (w * n) * toNat [t] = 0 := by omega
      have h2 := (Nat.mul_eq_zero.1 h1).resolve_left (by positivity)
      simpa using h2
    have hlooped : knuthLoop d n (j + 1) (lo' ++ [a] ++ hr ++ ht) acc =
        knuthLoop d n j (lo' ++ hr' ++ (t :: ht)) (q0 :: acc) := by
      rw [hnum, knuthLoop]
      rw [hlo'] at hs
      rw [hs, Res.bind_ok]
      simp
    rw [hlooped]
    obtain ⟨q, r, h3, h4, h5, h6, h7⟩ := ih lo' hr' (t :: ht) (q0 :: acc) hlo' hloj hrl'
      (by rw [hrv', hUm])
    refine ⟨q ++ [q0], r, ?_, by simp [h4], ?_, h6, h7⟩
    · rw [h3, htv, List.replicate_succ']; simp
    · rw [toNat_append, bits, h4, h5, Nat.pow_mul, toNat_cons, toNat_nil, hq0, Nat.mul_zero,
        Nat.add_zero]
      have e : u / (2 ^ w) ^ (j + 1) % toNat d * (2 ^ w) ^ (j + 1) + u % (2 ^ w) ^ (j + 1) =
          (u / (2 ^ w) ^ j % toNat d * (2 ^ w) ^ j + u % (2 ^ w) ^ j) +
            toNat d * ((2 ^ w) ^ j * (U / toNat d)) := by
        have e1 : u % (2 ^ w) ^ (j + 1) =
            u % (2 ^ w) ^ j + (2 ^ w) ^ j * (u / (2 ^ w) ^ j % 2 ^ w) := by
          rw [pow_succ, Nat.mod_mul]
        have e2 := partRem_succ (B := 2 ^ w) (u := u) (v := toNat d) hB0 j
        have e3 := Nat.div_add_mod U (toNat d)
        rw [← hUdef] at e2
        rw [hUm] at e3
        rw [e1]
        generalize u / (2 ^ w) ^ (j + 1) % toNat d = X at *
        generalize u / (2 ^ w) ^ j % 2 ^ w = Y at *
        generalize u / (2 ^ w) ^ j % toNat d = Z at *
        generalize U / toNat d = D at *
        rw [pow_succ]
        zify at e2 e3 ⊢
        linear_combination -(2 ^ w) ^ j * e2 - (2 ^ w) ^ j * e3
      rw [e, Nat.add_mul_div_left _ _ hv0]

theorem divRemKnuth_spec (hw : 0 < w) {x y : Limbs w} (hy : toNat y ≠ 0)
    (hn : 2 ≤ nLimbs w (toNat y)) (hle : toNat y ≤ toNat x) (hl : y.length ≤ x.length) :
    let n := nLimbs w (toNat y)
    let m := nLimbs w (toNat x) - n
    ∃ q r, divRemKnuth x y n m = .ok (q, r) ∧ q.length = x.length ∧ r.length = y.length ∧
      toNat q = toNat x / toNat y ∧ toNat r = toNat x % toNat y := by
  intro n m
  obtain ⟨hs, hsw, hv, hv2⟩ := clz_norm hw hy
  have hx0 : toNat x ≠ 0 := by omega
  obtain ⟨y1, y2, y3⟩ := nLimbs_spec hw hy
  obtain ⟨x1, x2, x3⟩ := nLimbs_spec hw hx0
  have hnm := nLimbs_mono hw hle hy
  have hnx := nLimbs_le hw x
  have hny := nLimbs_le hw y
  have hs0 : 0 < 2 ^ normShift w (toNat y) := by positivity
  simp only [hs] at hv hv2
  rw [hs] at hsw
  -- the shifted divisor and numerator
  obtain ⟨dl, dv⟩ := fullShl_spec hsw y
  have hdl : (shlWord y (normShift w (toNat y))).length = y.length := by
    rw [shlWord, List.length_take]; omega
  have hdv : toNat (shlWord y (normShift w (toNat y))) = toNat y * 2 ^ normShift w (toNat y) := by
    rw [shlWord, toNat_take _ _ (by omega), dv]
    exact Nat.mod_eq_of_lt (lt_of_lt_of_le hv
      (Nat.pow_le_pow_right (by omega) (Nat.mul_le_mul_left _ hny)))
  obtain ⟨ul, uv⟩ := fullShl_spec hsw x
  set s := normShift w (toNat y) with hsdef
  set num := fullShl x s with hnum
  set d := shlWord y s with hd
  have hmn : m + n = nLimbs w (toNat x) := by omega
  have h1 := toNat_split num (i := m + 1) (by omega)
  have h2 := toNat_split (num.drop (m + 1)) (i := n) (by rw [List.length_drop]; omega)
  have hlo : (num.take (m + 1)).length = m + 1 := by rw [List.length_take]; omega
  have hhr : ((num.drop (m + 1)).take n).length = n := by
    rw [List.length_take, List.length_drop]; omega
  have hlov : toNat (num.take (m + 1)) = toNat x * 2 ^ s % (2 ^ w) ^ (m + 1) := by
    rw [toNat_take _ _ (by omega), uv, Nat.pow_mul]
  have hlolt := toNat_lt (num.take (m + 1))
  rw [bits, hlo] at hlolt
  have hrest : toNat (num.drop (m + 1)) = toNat x * 2 ^ s / 2 ^ (w * (m + 1)) := by
    rw [← uv, h1, Nat.add_mul_div_left _ _ (by positivity), Nat.div_eq_of_lt hlolt, Nat.zero_add]
  -- the top part is below the divisor
  have htop : toNat x * 2 ^ s / 2 ^ (w * (m + 1)) < toNat y * 2 ^ s := by
    apply Nat.div_lt_of_lt_mul
    calc toNat x * 2 ^ s < 2 ^ (w * nLimbs w (toNat x)) * 2 ^ s :=
          Nat.mul_lt_mul_of_pos_right x3 hs0
      _ = 2 ^ (w * (m + 1)) * (2 ^ (w * (n - 1)) * 2 ^ s) := by
          rw [← Nat.mul_assoc, ← Nat.pow_add (n := w * (n - 1)), ← Nat.mul_add,
            show m + 1 + (n - 1) = nLimbs w (toNat x) by omega]
      _ ≤ 2 ^ (w * (m + 1)) * (toNat y * 2 ^ s) :=
          Nat.mul_le_mul_left _ (Nat.mul_le_mul_right _ y2)
  have hhrv : toNat ((num.drop (m + 1)).take n) = toNat x * 2 ^ s / 2 ^ (w * (m + 1)) := by
    rw [toNat_take _ _ (by rw [List.length_drop]; omega), hrest]
    exact Nat.mod_eq_of_lt (lt_trans htop hv)
  have hht : toNat ((num.drop (m + 1)).drop n) = 0 := by
    rw [hrest, hhrv] at h2
    have : 2 ^ (w * n) * toNat ((num.drop (m + 1)).drop n) = 0 := by omega
    exact (Nat.mul_eq_zero.1 this).resolve_left (by positivity)
  obtain ⟨q, r, h4, h5, h6, h7, h8⟩ := knuthLoop_spec hw (d := d) (n := n) hn (by omega)
    (by rw [hdv]; exact hv)
    (by rw [hdv]; exact hv2) (toNat x * 2 ^ s) (m + 1) (num.take (m + 1))
    ((num.drop (m + 1)).take n) ((num.drop (m + 1)).drop n) [] hlo hlov hhr
    (by rw [hhrv, hdv, ← Nat.pow_mul, Nat.mod_eq_of_lt htop])
  rw [List.append_assoc, List.take_append_drop, List.take_append_drop] at h4
  rw [hdv] at h6 h8
  have hunf : divRemKnuth x y n m = (knuthLoop d n (m + 1) num []).bind fun (q, num) =>
      .ok (q ++ List.replicate (x.length - (m + 1)) 0, (fullShr num s).take y.length) := by
    rw [divRemKnuth, if_pos (by omega)]
    simp only [show clz (getLimb y (n - 1)) = s from hs]
    rfl
  set fin := r ++ (List.replicate (m + 1) 0 ++ (num.drop (m + 1)).drop n) with hfin
  have hflen : fin.length = x.length + 1 := by
    simp only [hfin, List.length_append, List.length_replicate, List.length_drop]
    omega
  have hfv : toNat fin = toNat x * 2 ^ s % (toNat y * 2 ^ s) := by
    rw [hfin, toNat_append, toNat_append, hht, toNat_replicate_zero, h8]; simp
  have hym : toNat x % toNat y < toNat y := Nat.mod_lt _ (by omega)
  obtain ⟨sl, sv⟩ := fullShr_spec hsw fin
  rw [hflen, Nat.add_sub_cancel] at sl sv
  have hbig : toNat x * 2 ^ s % (toNat y * 2 ^ s) < 2 ^ (w * x.length) := by
    refine lt_of_lt_of_le (Nat.mod_lt _ (by positivity)) (hv.le.trans ?_)
    exact Nat.pow_le_pow_right (by omega) (Nat.mul_le_mul_left _ (by omega))
  have hval : toNat (fullShr fin s) = toNat x % toNat y := by
    rw [sv, toNat_take _ _ (by omega), hfv, Nat.mod_eq_of_lt hbig, Nat.mul_mod_mul_right,
      Nat.mul_div_cancel _ hs0]
  have hqv : toNat q = toNat x / toNat y := by
    rw [h6, ← Nat.pow_mul, Nat.mod_eq_of_lt htop, Nat.mul_comm _ (2 ^ (w * (m + 1))),
      Nat.div_add_mod, Nat.mul_div_mul_right _ _ hs0]
  refine ⟨q ++ List.replicate (x.length - (m + 1)) 0, (fullShr fin s).take y.length, ?_, ?_, ?_,
    ?_, ?_⟩
  · rw [hunf, h4, Res.bind_ok, List.append_nil]
  · simp [h5]; omega
  · rw [List.length_take, sl]; omega
  · rw [toNat_append, toNat_replicate_zero, hqv]; simp
  · rw [toNat_take _ _ (by omega), hval]
    exact Nat.mod_eq_of_lt (lt_trans hym (toNat_lt y))

/-- The repaired `full_gt`. -/
theorem fullGt_spec (hw : 0 < w) {x y : Limbs w} (hy : toNat y ≠ 0) (hlt : toNat y < toNat x)
    (h1 : 1 ≤ y.length) (hl : y.length ≤ x.length) :
    ∃ q r, fullGt x y = .ok (q, r) ∧ q.length = x.length ∧ r.length = y.length ∧
      toNat q = toNat x / toNat y ∧ toNat r = toNat x % toNat y := by
  have hly := lastIndex_spec hw hy
  have hlx := lastIndex_spec hw (show toNat x ≠ 0 by omega)
  unfold fullGt
  by_cases h0 : lastIndex y = 0
  · have hy1 : (getLimb y 0).toNat = toNat y := by
      have := (nLimbs_spec hw hy).2.2
      rw [← hly, h0, Nat.zero_add, Nat.mul_one] at this
      rw [getLimb_toNat, Nat.mul_zero, Nat.pow_zero, Nat.div_one, Nat.mod_eq_of_lt this]
    obtain ⟨q, r, e, ql, rl, qv, rv⟩ := limbPadded_spec (N := y.length) (by omega)
      (d := getLimb y 0) (by intro h; rw [h] at hy1; simp at hy1; omega) x
    simp only [h0, if_true]
    exact ⟨q, r, e, ql, rl, by rw [qv, hy1], by rw [rv, hy1]⟩
  · simp only [h0, if_false]
    have hk := divRemKnuth_spec hw hy (by omega) (le_of_lt hlt) hl
    have hmono := nLimbs_mono hw (le_of_lt hlt) hy
    simp only at hk
    rw [show lastIndex y + 1 = nLimbs w (toNat y) from hly,
      show lastIndex x - lastIndex y = nLimbs w (toNat x) - nLimbs w (toNat y) by omega]
    exact hk

/-- The repaired `full`. -/
theorem full_spec (hw : 0 < w) {x y : Limbs w} (hl : x.length = y.length) (h2 : 2 ≤ x.length) :
    Yields (toNat y = 0)
      (fun r => (r.1.length = x.length ∧ toNat r.1 = toNat x / toNat y) ∧
        (r.2.length = x.length ∧ toNat r.2 = toNat x % toNat y)) (full x y) := by
  have hzy : isZero y 0 = true ↔ toNat y = 0 := by rw [isZero_iff, List.drop_zero]
  rw [full, if_neg (by omega), cmp_spec (by omega)]
  refine ⟨fun h => by rw [if_pos (hzy.2 h)], fun hy => ?_⟩
  rw [if_neg (fun h => hy (hzy.1 h))]
  rcases Nat.lt_trichotomy (toNat x) (toNat y) with h | h | h
  · rw [Nat.compare_eq_lt.2 h]
    refine ⟨_, rfl, ⟨by simp, ?_⟩, by simp [hl], ?_⟩
    · rw [toNat_replicate_zero, Nat.div_eq_of_lt h]
    · rw [List.take_of_length_le (by omega), Nat.mod_eq_of_lt h]
  · rw [Nat.compare_eq_eq.2 h]
    obtain ⟨a1, a2⟩ := scalar1_spec (N := x.length) (by omega) (1 : BitVec w)
    obtain ⟨b1, b2⟩ := scalar1_spec (N := y.length) (by omega) (0 : BitVec w)
    refine ⟨_, rfl, ⟨a1, ?_⟩, by rw [b1, hl], ?_⟩
    · rw [a2, h, Nat.div_self (by omega)]
      simpa using Nat.mod_eq_of_lt (one_lt_two_pow' hw)
    · rw [b2, h, Nat.mod_self]; simp
  · rw [Nat.compare_eq_gt.2 h]
    have hz : isZero x 0 = false := by
      by_contra hc
      have := (isZero_iff x 0).1 (by simpa using hc)
      rw [List.drop_zero] at this
      omega
    simp only [hz, Bool.false_eq_true, if_false]
    obtain ⟨q, r, e, ql, rl, qv, rv⟩ := fullGt_spec hw hy h (by omega) (by omega)
    exact ⟨(q, r), e, ⟨ql, qv⟩, by rw [rl, hl], rv⟩

/-- The repaired `wide`. -/
theorem wideDiv_spec (hw : 0 < w) {x : Limbs w} (h2 : 2 ≤ x.length) (d : BitVec (w + w)) :
    Yields (d.toNat = 0)
      (fun r => (r.1.length = x.length ∧ toNat r.1 = toNat x / d.toNat) ∧
        r.2.toNat = toNat x % d.toNat) (wideDiv x d) := by
  have hd00 : d = 0 ↔ d.toNat = 0 := by rw [BitVec.toNat_eq]; simp
  unfold wideDiv
  refine ⟨fun h => by rw [if_pos (hd00.2 h)], fun hd0 => ?_⟩
  have hd : d ≠ 0 := fun h => hd0 (hd00.1 h)
  rw [if_neg hd]
  have hsp := toNat_split x h2
  obtain ⟨yl, yv⟩ := scalar2_spec (N := 2) (le_refl _) d
  by_cases hz : 2 ≤ x.length ∧ isZero x 2 = true
  · rw [if_pos hz]
    have hz' := (isZero_iff _ _).1 hz.2
    have hx : toNat x = toNat (x.take 2) := by rw [hsp, hz', Nat.mul_zero, Nat.add_zero]
    have hlow : (low2 x).toNat = toNat x := by rw [low2_toNat x h2, hx]
    by_cases h0 : getLimb x 0 = 0 ∧ getLimb x 1 = 0
    · rw [if_pos h0]
      have hx0 : toNat x = 0 := by
        rw [← hlow, low2, h0.1, h0.2]; simp [wide]
      obtain ⟨a1, a2⟩ := scalar1_spec (N := x.length) (by omega) (0 : BitVec w)
      exact ⟨_, rfl, ⟨a1, by rw [a2, hx0]; simp⟩, by rw [hx0]; simp⟩
    · rw [if_neg h0, nativeDivRem, if_neg hd, Res.bind_ok]
      obtain ⟨a1, a2⟩ := scalar2_spec (N := x.length) h2 (low2 x / d)
      exact ⟨_, rfl, ⟨a1, by rw [a2, BitVec.toNat_udiv, hlow]⟩, by rw [BitVec.toNat_umod, hlow]⟩
  · rw [if_neg hz]
    simp only []
    have h : d.toNat < toNat x := by
      have : toNat (x.drop 2) ≠ 0 := fun e => hz ⟨h2, (isZero_iff _ _).2 e⟩
      have h3 : d.toNat < 2 ^ (w * 2) := by
        have := d.isLt
        have e : 2 ^ (w * 2) = 2 ^ (w + w) := by congr 1; ring
        omega
      have h4 : 2 ^ (w * 2) * 1 ≤ 2 ^ (w * 2) * toNat (x.drop 2) :=
        Nat.mul_le_mul_left _ (by omega)
      omega
    rw [cmp_spec (by omega), yv, Nat.compare_eq_gt.2 h]
    obtain ⟨q, r, e, ql, rl, qv, rv⟩ := fullGt_spec hw (x := x) (y := scalar2 2 d)
      (by rw [yv]; exact hd0) (by rw [yv]; exact h) (by omega) (by omega)
    rw [e]
    refine ⟨_, rfl, ⟨ql, by rw [qv, yv]⟩, ?_⟩
    rw [low2_toNat r (by omega), List.take_of_length_le (by omega), rv, yv]

end Repair

end I256
