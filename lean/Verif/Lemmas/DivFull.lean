import Verif.Lemmas.DivLoop

/-! # Long division: the complete kernels -/

namespace I256

variable {w : Nat}

/-! ### Sizes -/

theorem bitLen_spec {y : Nat} (hy : y ≠ 0) : 1 ≤ bitLen y ∧ 2 ^ (bitLen y - 1) ≤ y ∧
    y < 2 ^ bitLen y := by
  unfold bitLen
  rw [if_neg hy]
  exact ⟨by omega, Nat.log2_self_le hy, Nat.lt_log2_self⟩

theorem bitLen_unique {y k : Nat} (h1 : 2 ^ k ≤ y) (h2 : y < 2 ^ (k + 1)) : bitLen y = k + 1 := by
  have hy : y ≠ 0 := by
    have : 0 < 2 ^ k := by positivity
    omega
  obtain ⟨b1, b2, b3⟩ := bitLen_spec hy
  have h3 := (Nat.pow_lt_pow_iff_right (a := 2) (by omega)).1 (lt_of_le_of_lt b2 h2)
  have h4 := (Nat.pow_lt_pow_iff_right (a := 2) (by omega)).1 (lt_of_le_of_lt h1 b3)
  omega

theorem nLimbs_bound (hw : 0 < w) (y : Nat) :
    bitLen y ≤ w * nLimbs w y ∧ w * nLimbs w y < bitLen y + w := by
  unfold nLimbs
  have h1 := Nat.div_add_mod (bitLen y + w - 1) w
  have h2 := Nat.mod_lt (bitLen y + w - 1) hw
  generalize w * ((bitLen y + w - 1) / w) = q at *
  omega

theorem nLimbs_spec (hw : 0 < w) {y : Nat} (hy : y ≠ 0) :
    1 ≤ nLimbs w y ∧ 2 ^ (w * (nLimbs w y - 1)) ≤ y ∧ y < 2 ^ (w * nLimbs w y) := by
  obtain ⟨b1, b2, b3⟩ := bitLen_spec hy
  obtain ⟨h1, h2⟩ := nLimbs_bound hw y
  have h0 : 1 ≤ nLimbs w y := by
    by_contra h
    have : nLimbs w y = 0 := by omega
    rw [this] at h1; omega
  refine ⟨h0, le_trans (Nat.pow_le_pow_right (by omega) ?_) b2,
    lt_of_lt_of_le b3 (Nat.pow_le_pow_right (by omega) h1)⟩
  rw [Nat.mul_sub]; omega

theorem nLimbs_unique (hw : 0 < w) {y k : Nat} (h1 : 2 ^ (w * k) ≤ y) (h2 : y < 2 ^ (w * (k + 1))) :
    nLimbs w y = k + 1 := by
  have hy : y ≠ 0 := by
    have : 0 < 2 ^ (w * k) := by positivity
    omega
  obtain ⟨b1, b2, b3⟩ := nLimbs_spec hw hy
  have h3 := (Nat.pow_lt_pow_iff_right (a := 2) (by omega)).1 (lt_of_le_of_lt b2 h2)
  have h4 := (Nat.pow_lt_pow_iff_right (a := 2) (by omega)).1 (lt_of_le_of_lt h1 b3)
  have h5 := Nat.lt_of_mul_lt_mul_left h3
  have h6 := Nat.lt_of_mul_lt_mul_left h4
  omega

theorem nLimbs_le (hw : 0 < w) (x : Limbs w) : nLimbs w (toNat x) ≤ x.length := by
  by_cases h : toNat x = 0
  · rw [h]
    simp only [nLimbs, bitLen, if_true, Nat.zero_add]
    rw [Nat.div_eq_of_lt (by omega)]; omega
  · obtain ⟨b1, b2, b3⟩ := nLimbs_spec hw h
    have h1 := toNat_lt x
    have h3 := (Nat.pow_lt_pow_iff_right (a := 2) (by omega)).1 (lt_of_le_of_lt b2 h1)
    have := Nat.lt_of_mul_lt_mul_left (show w * (nLimbs w (toNat x) - 1) < w * x.length from h3)
    omega

theorem nLimbs_mono (hw : 0 < w) {x y : Nat} (h : x ≤ y) (hx : x ≠ 0) :
    nLimbs w x ≤ nLimbs w y := by
  obtain ⟨a1, a2, a3⟩ := nLimbs_spec hw hx
  obtain ⟨b1, b2, b3⟩ := nLimbs_spec hw (show y ≠ 0 by omega)
  have h3 := (Nat.pow_lt_pow_iff_right (a := 2) (by omega)).1 (lt_of_le_of_lt (a2.trans h) b3)
  have := Nat.lt_of_mul_lt_mul_left h3
  omega

theorem toNat_take_succ (x : Limbs w) {i : Nat} (h : i < x.length) :
    toNat (x.take (i + 1)) = toNat (x.take i) + 2 ^ (w * i) * (getLimb x i).toNat := by
  rw [toNat_take _ _ (by omega), toNat_take _ _ (by omega), getLimb_toNat,
    show w * (i + 1) = w * i + w by ring, Nat.pow_add, Nat.mod_mul]

namespace Div

/-! ### The small helpers -/

theorem scalar1_spec {N : Nat} (hN : 1 ≤ N) (v : BitVec w) :
    (scalar1 N v).length = N ∧ toNat (scalar1 N v) = v.toNat := by
  refine ⟨by simp [scalar1]; omega, ?_⟩
  rw [scalar1, toNat_cons, toNat_replicate_zero]; simp

theorem scalar2_spec {N : Nat} (hN : 2 ≤ N) (v : BitVec (w + w)) :
    (scalar2 N v).length = N ∧ toNat (scalar2 N v) = v.toNat := by
  refine ⟨by simp [scalar2]; omega, ?_⟩
  rw [scalar2, toNat_cons, toNat_cons, toNat_replicate_zero, Nat.mul_zero, Nat.add_zero, lo_hi]

theorem all_zero_iff (x : Limbs w) : x.all (· == 0) = true ↔ toNat x = 0 := by
  induction x with
  | nil => simp
  | cons a x ih =>
    rw [List.all_cons, Bool.and_eq_true, ih, toNat_cons]
    have : (a == 0) = true ↔ a.toNat = 0 := by simp [BitVec.toNat_eq]
    rw [this]
    have hB : 0 < 2 ^ w := by positivity
    constructor
    · rintro ⟨h1, h2⟩; rw [h1, h2]; simp
    · intro h
      have h1 := (Nat.add_eq_zero_iff.1 h)
      exact ⟨h1.1, (Nat.mul_eq_zero.1 h1.2).resolve_left (by omega)⟩

theorem isZero_iff (x : Limbs w) (i : Nat) : isZero x i = true ↔ toNat (x.drop i) = 0 :=
  all_zero_iff _

theorem toNat_split (x : Limbs w) {i : Nat} (h : i ≤ x.length) :
    toNat x = toNat (x.take i) + 2 ^ (w * i) * toNat (x.drop i) := by
  conv_lhs => rw [← List.take_append_drop i x, toNat_append]
  rw [bits, List.length_take, Nat.min_eq_left h]

theorem low2_toNat (x : Limbs w) (h : 2 ≤ x.length) : (low2 x).toNat = toNat (x.take 2) := by
  match x, h with
  | a :: b :: x, _ =>
    simp only [low2, getLimb, List.getD_cons_zero, List.getD_cons_succ, List.take_succ_cons,
      List.take_zero, toNat_cons, toNat_nil, Nat.mul_zero, Nat.add_zero]
    have hb : (wide b <<< w).toNat = 2 ^ w * b.toNat := by
      rw [BitVec.toNat_shiftLeft, wide_toNat, Nat.shiftLeft_eq, Nat.pow_add, Nat.mul_mod_mul_right,
        Nat.mod_eq_of_lt b.isLt, Nat.mul_comm]
    rw [BitVec.toNat_or, wide_toNat, hb, Nat.or_comm, ← Nat.two_pow_add_eq_or_of_lt a.isLt,
      Nat.add_comm]

theorem lastLoop_spec (x : Limbs w) : ∀ i, i ≤ x.length →
    (toNat (x.take i) = 0 → lastLoop x i = 0) ∧
    (toNat (x.take i) ≠ 0 → 2 ^ (w * lastLoop x i) ≤ toNat (x.take i) ∧
      toNat (x.take i) < 2 ^ (w * (lastLoop x i + 1)))
  | 0, _ => by simp [lastLoop]
  | i + 1, h => by
    obtain ⟨h1, h2⟩ := lastLoop_spec x i (by omega)
    have e := toNat_take_succ x (i := i) (by omega)
    have hlt : toNat (x.take (i + 1)) < 2 ^ (w * (i + 1)) := by
      have := toNat_lt (x.take (i + 1))
      rw [bits, List.length_take, Nat.min_eq_left (by omega)] at this
      exact this
    have hp : 0 < 2 ^ (w * i) := by positivity
    unfold lastLoop
    by_cases hz : getLimb x i = 0
    · have hz' : (getLimb x i).toNat = 0 := by rw [hz]; rfl
      rw [hz', Nat.mul_zero, Nat.add_zero] at e
      rw [if_neg (by simp [hz]), e]
      exact ⟨h1, h2⟩
    · have hz' : 1 ≤ (getLimb x i).toNat := by
        rcases Nat.eq_zero_or_pos (getLimb x i).toNat with h0 | h0
        · exact absurd (BitVec.eq_of_toNat_eq (by simpa using h0)) hz
        · exact h0
      have hge : 2 ^ (w * i) ≤ toNat (x.take (i + 1)) := by
        rw [e]; exact le_trans (Nat.le_mul_of_pos_right _ hz') (Nat.le_add_left _ _)
      rw [if_pos (by simpa using hz)]
      exact ⟨fun h => by omega, fun _ => ⟨hge, hlt⟩⟩

theorem lastIndex_zero {x : Limbs w} (h : toNat x = 0) : lastIndex x = 0 := by
  have := (lastLoop_spec x x.length (le_refl _)).1
  rw [List.take_length] at this
  exact this h

theorem lastIndex_spec (hw : 0 < w) {x : Limbs w} (h : toNat x ≠ 0) :
    lastIndex x + 1 = nLimbs w (toNat x) := by
  have := (lastLoop_spec x x.length (le_refl _)).2
  rw [List.take_length] at this
  obtain ⟨h1, h2⟩ := this h
  exact (nLimbs_unique hw h1 h2).symm

theorem cmpLoop_spec (x y : Limbs w) : ∀ i, i ≤ x.length → i ≤ y.length →
    cmpLoop x y i = compare (toNat (x.take i)) (toNat (y.take i))
  | 0, _, _ => by simp [cmpLoop]
  | i + 1, hx, hy => by
    have ex := toNat_take_succ x (i := i) (by omega)
    have ey := toNat_take_succ y (i := i) (by omega)
    have lx : toNat (x.take i) < 2 ^ (w * i) := by
      have := toNat_lt (x.take i)
      rw [bits, List.length_take, Nat.min_eq_left (by omega)] at this
      exact this
    have ly : toNat (y.take i) < 2 ^ (w * i) := by
      have := toNat_lt (y.take i)
      rw [bits, List.length_take, Nat.min_eq_left (by omega)] at this
      exact this
    rw [cmpLoop, ex, ey, cmpLoop_spec x y i (by omega) (by omega)]
    simp only [BitVec.ult, decide_eq_true_iff]
    generalize toNat (x.take i) = X at *
    generalize toNat (y.take i) = Y at *
    generalize (getLimb x i).toNat = a at *
    generalize (getLimb y i).toNat = b at *
    generalize 2 ^ (w * i) = P at *
    rcases Nat.lt_trichotomy a b with h | h | h
    · rw [if_neg (by omega), if_pos h]
      have : P * (a + 1) ≤ P * b := Nat.mul_le_mul_left _ h
      rw [Nat.mul_add, Nat.mul_one] at this
      exact (Nat.compare_eq_lt.2 (by omega)).symm
    · subst h
      rw [if_neg (by omega), if_neg (by omega)]
      rcases Nat.lt_trichotomy X Y with h | h | h
      · rw [Nat.compare_eq_lt.2 h, Nat.compare_eq_lt.2 (by omega)]
      · rw [Nat.compare_eq_eq.2 h, Nat.compare_eq_eq.2 (by omega)]
      · rw [Nat.compare_eq_gt.2 h, Nat.compare_eq_gt.2 (by omega)]
    · rw [if_pos h]
      have : P * (b + 1) ≤ P * a := Nat.mul_le_mul_left _ h
      rw [Nat.mul_add, Nat.mul_one] at this
      exact (Nat.compare_eq_gt.2 (by omega)).symm

theorem cmp_spec {x y : Limbs w} (h : y.length ≤ x.length) :
    cmp x y = compare (toNat x) (toNat y) := by
  have hs := toNat_split x h
  have hy := toNat_lt y
  rw [cmp, if_neg (by omega), cmpGe]
  by_cases hz : isZero x y.length = true
  · rw [if_pos hz, cmpLoop_spec _ _ _ h (le_refl _), List.take_length]
    rw [isZero_iff] at hz
    rw [hz, Nat.mul_zero, Nat.add_zero] at hs
    rw [hs]
  · rw [if_neg hz]
    rw [isZero_iff] at hz
    have : 2 ^ (w * y.length) ≤ 2 ^ (w * y.length) * toNat (x.drop y.length) :=
      Nat.le_mul_of_pos_right _ (by omega)
    have hy' : toNat y < 2 ^ (w * y.length) := hy
    exact (Nat.compare_eq_gt.2 (by omega)).symm

/-! ### Division by one limb -/

theorem limbLoop_spec {d : BitVec w} (hd : d ≠ 0) (x : Limbs w) :
    ∃ q r, limbLoop d x = .ok (q, r) ∧ q.length = x.length ∧
      toNat q = toNat x / d.toNat ∧ r.toNat = toNat x % d.toNat := by
  have hd0 : 0 < d.toNat := by
    rcases Nat.eq_zero_or_pos d.toNat with h | h
    · exact absurd (BitVec.eq_of_toNat_eq (by simpa using h)) hd
    · exact h
  induction x with
  | nil => exact ⟨[], 0, rfl, rfl, by simp, by simp⟩
  | cons a x ih =>
    obtain ⟨q, r, e, ql, qv, rv⟩ := ih
    have hr : r.toNat < d.toNat := by rw [rv]; exact Nat.mod_lt _ hd0
    obtain ⟨q', r', e', qv', rv'⟩ := divRemWord_ok (lo := a) hr
    refine ⟨q' :: q, r', by simp only [limbLoop, e, Res.bind_ok, e'], by simp [ql], ?_, ?_⟩
    · rw [toNat_cons, toNat_cons, qv', qv, rv]
      have h1 := Nat.div_add_mod (toNat x) d.toNat
      conv_rhs => rw [← h1]
      rw [show a.toNat + 2 ^ w * (d.toNat * (toNat x / d.toNat) + toNat x % d.toNat) =
        toNat x % d.toNat * 2 ^ w + a.toNat + d.toNat * (2 ^ w * (toNat x / d.toNat)) by ring,
        Nat.add_mul_div_left _ _ hd0]
    · rw [toNat_cons, rv', rv]
      have h1 := Nat.div_add_mod (toNat x) d.toNat
      conv_rhs => rw [← h1]
      rw [show a.toNat + 2 ^ w * (d.toNat * (toNat x / d.toNat) + toNat x % d.toNat) =
        toNat x % d.toNat * 2 ^ w + a.toNat + d.toNat * (2 ^ w * (toNat x / d.toNat)) by ring,
        Nat.add_mul_mod_self_left]

theorem limbLoop_zero : ∀ {x : Limbs w}, x ≠ [] → limbLoop 0 x = .panic
  | [a], _ => by simp only [limbLoop, Res.bind_ok, divRemWord_zero, Res.bind_panic]
  | a :: b :: x, _ => by
    rw [limbLoop, limbLoop_zero (x := b :: x) (by simp), Res.bind_panic]

theorem limb_spec {d : BitVec w} (hd : d ≠ 0) (x : Limbs w) :
    ∃ q r, limb x d = .ok (q, r) ∧ q.length = x.length ∧
      toNat q = toNat x / d.toNat ∧ r.toNat = toNat x % d.toNat := by
  unfold limb
  by_cases h : 2 ≤ x.length ∧ isZero x 2 = true
  · rw [if_pos h]
    have hz := (isZero_iff _ _).1 h.2
    have hs := toNat_split x h.1
    rw [hz, Nat.mul_zero, Nat.add_zero] at hs
    have hl := low2_toNat x h.1
    have hne : wide d ≠ 0 := by
      intro h0
      apply hd
      apply BitVec.eq_of_toNat_eq
      have := congrArg BitVec.toNat h0
      rw [wide_toNat] at this
      simpa using this
    rw [nativeDivRem, if_neg hne, Res.bind_ok]
    obtain ⟨s1, s2⟩ := scalar2_spec h.1 (low2 x / wide d)
    refine ⟨_, _, rfl, s1, ?_, ?_⟩
    · rw [s2, BitVec.toNat_udiv, hl, wide_toNat, hs]
    · rw [loLimb_toNat, BitVec.toNat_umod, hl, wide_toNat, hs]
      apply Nat.mod_eq_of_lt
      have hd0 : 0 < d.toNat := by
        rcases Nat.eq_zero_or_pos d.toNat with h | h
        · exact absurd (BitVec.eq_of_toNat_eq (by simpa using h)) hd
        · exact h
      exact lt_trans (Nat.mod_lt _ hd0) d.isLt
  · rw [if_neg h]
    exact limbLoop_spec hd x

theorem limb_zero {x : Limbs w} (hx : x ≠ []) : limb x 0 = .panic := by
  unfold limb
  split
  · rw [nativeDivRem, if_pos (by simp [wide]), Res.bind_panic]
  · exact limbLoop_zero hx

theorem limbPadded_spec {N : Nat} (hN : 1 ≤ N) {d : BitVec w} (hd : d ≠ 0) (x : Limbs w) :
    ∃ q r, limbPadded N x d = .ok (q, r) ∧ q.length = x.length ∧ r.length = N ∧
      toNat q = toNat x / d.toNat ∧ toNat r = toNat x % d.toNat := by
  obtain ⟨q, r, e, ql, qv, rv⟩ := limb_spec hd x
  obtain ⟨s1, s2⟩ := scalar1_spec hN r
  exact ⟨q, scalar1 N r, by rw [limbPadded, e, Res.bind_ok], ql, s1, qv, by rw [s2, rv]⟩

/-! ### Knuth division -/

theorem clz_norm (hw : 0 < w) {y : Limbs w} (hy : toNat y ≠ 0) :
    let n := nLimbs w (toNat y)
    let s := clz (getLimb y (n - 1))
    s = normShift w (toNat y) ∧ s < w ∧ toNat y * 2 ^ s < 2 ^ (w * n) ∧
      2 ^ (w * n) ≤ 2 * (toNat y * 2 ^ s) := by
  intro n s
  obtain ⟨n1, n2, n3⟩ := nLimbs_spec hw hy
  have ht : (getLimb y (n - 1)).toNat = toNat y / 2 ^ (w * (n - 1)) := by
    rw [getLimb_toNat]
    apply Nat.mod_eq_of_lt
    apply Nat.div_lt_of_lt_mul
    rw [← Nat.pow_add, ← Nat.mul_succ, show (n - 1).succ = n by omega]
    exact n3
  have hpos : 1 ≤ toNat y / 2 ^ (w * (n - 1)) := by
    rw [Nat.le_div_iff_mul_le (by positivity), Nat.one_mul]; exact n2
  obtain ⟨c1, c2, c3⟩ := clz_spec (getLimb y (n - 1))
  rw [ht] at c2 c3
  have hsw : s < w := by
    by_contra h
    have h1 : w - clz (getLimb y (n - 1)) = 0 := by omega
    rw [h1] at c2
    omega
  have hup : toNat y < 2 ^ (w * (n - 1)) * 2 ^ (w - s) := by
    rw [Nat.mul_comm]; exact (Nat.div_lt_iff_lt_mul (by positivity)).1 c2
  have hdn : 2 ^ (w - 1 - s) * 2 ^ (w * (n - 1)) ≤ toNat y :=
    (Nat.le_div_iff_mul_le (by positivity)).1 (c3 hsw)
  rw [← Nat.pow_add] at hup hdn
  have hwn : w * n = w * (n - 1) + w := by
    rw [← Nat.mul_succ, show (n - 1).succ = n by omega]
  have hb := bitLen_unique (k := w - 1 - s + w * (n - 1)) hdn
    (by rw [show w - 1 - s + w * (n - 1) + 1 = w * (n - 1) + (w - s) by omega]; exact hup)
  refine ⟨?_, hsw, ?_, ?_⟩
  · unfold normShift
    rw [hb, show w * nLimbs w (toNat y) = w * n from rfl]
    omega
  · rw [hwn]
    calc toNat y * 2 ^ s < 2 ^ (w * (n - 1) + (w - s)) * 2 ^ s :=
          Nat.mul_lt_mul_of_pos_right hup (by positivity)
      _ = 2 ^ (w * (n - 1) + w) := by rw [← Nat.pow_add]; congr 1; omega
  · rw [hwn]
    calc 2 ^ (w * (n - 1) + w) = 2 * (2 ^ (w - 1 - s + w * (n - 1)) * 2 ^ s) := by
          rw [← Nat.pow_add, ← pow_succ']; congr 1; omega
      _ ≤ 2 * (toNat y * 2 ^ s) := Nat.mul_le_mul_left _ (Nat.mul_le_mul_right _ hdn)

theorem divRemKnuth_gen (hw : 0 < w) {x y : Limbs w} (hy : toNat y ≠ 0)
    (hn : 2 ≤ nLimbs w (toNat y)) (hle : toNat y ≤ toNat x) (hl : y.length ≤ x.length) :
    let n := nLimbs w (toNat y)
    let m := nLimbs w (toNat x) - n
    let f := overEst (2 ^ w) n (toNat x * 2 ^ normShift w (toNat y))
      (toNat y * 2 ^ normShift w (toNat y))
    (y.length = n ∧ (∃ i, i < m + 1 ∧ f i = true) ∧ divRemKnuth x y n m = .panic) ∨
    (¬ (y.length = n ∧ ∃ i, i < m + 1 ∧ f i = true) ∧
      ∃ q r, divRemKnuth x y n m = .ok (q, r) ∧ q.length = x.length ∧ r.length = y.length ∧
        toNat q = toNat x / toNat y ∧
        toNat r = (toNat x % toNat y +
          2 ^ bitLen (toNat y) * flagNum w f (min (x.length - n) (m + 1))) % 2 ^ (w * y.length) ∧
        toNat x % toNat y + 2 ^ bitLen (toNat y) * flagNum w f (min (x.length - n) (m + 1)) <
          2 ^ (w * x.length)) := by
  intro n m f
  obtain ⟨hs, hsw, hv, hv2⟩ := clz_norm hw hy
  have hx0 : toNat x ≠ 0 := by omega
  obtain ⟨y1, y2, y3⟩ := nLimbs_spec hw hy
  obtain ⟨x1, x2, x3⟩ := nLimbs_spec hw hx0
  have hnm := nLimbs_mono hw hle hy
  have hnx := nLimbs_le hw x
  have hny := nLimbs_le hw y
  have hs0 : 0 < 2 ^ normShift w (toNat y) := by positivity
  simp only [hs] at hv hv2
  rw [hs] at hsw
  -- the shifted divisor and numerator
  obtain ⟨dl, dv⟩ := fullShl_spec hsw y
  have hdl : (shlWord y (normShift w (toNat y))).length = y.length := by
    rw [shlWord, List.length_take]; omega
  have hdv : toNat (shlWord y (normShift w (toNat y))) = toNat y * 2 ^ normShift w (toNat y) := by
    rw [shlWord, toNat_take _ _ (by omega), dv]
    exact Nat.mod_eq_of_lt (lt_of_lt_of_le hv
      (Nat.pow_le_pow_right (by omega) (Nat.mul_le_mul_left _ hny)))
  obtain ⟨ul, uv⟩ := fullShl_spec hsw x
  set s := normShift w (toNat y) with hsdef
  set num := fullShl x s with hnum
  set d := shlWord y s with hd
  have hmn : m + n = nLimbs w (toNat x) := by omega
  have h1 := toNat_split num (i := m + 1) (by omega)
  have h2 := toNat_split (num.drop (m + 1)) (i := n) (by rw [List.length_drop]; omega)
  have hlo : (num.take (m + 1)).length = m + 1 := by rw [List.length_take]; omega
  have hhr : ((num.drop (m + 1)).take n).length = n := by
    rw [List.length_take, List.length_drop]; omega
  have hlov : toNat (num.take (m + 1)) = toNat x * 2 ^ s % (2 ^ w) ^ (m + 1) := by
    rw [toNat_take _ _ (by omega), uv, Nat.pow_mul]
  have hlolt := toNat_lt (num.take (m + 1))
  rw [bits, hlo] at hlolt
  have hrest : toNat (num.drop (m + 1)) = toNat x * 2 ^ s / 2 ^ (w * (m + 1)) := by
    rw [← uv, h1, Nat.add_mul_div_left _ _ (by positivity), Nat.div_eq_of_lt hlolt, Nat.zero_add]
  -- the top part is below the divisor
  have htop : toNat x * 2 ^ s / 2 ^ (w * (m + 1)) < toNat y * 2 ^ s := by
    apply Nat.div_lt_of_lt_mul
    calc toNat x * 2 ^ s < 2 ^ (w * nLimbs w (toNat x)) * 2 ^ s :=
          Nat.mul_lt_mul_of_pos_right x3 hs0
      _ = 2 ^ (w * (m + 1)) * (2 ^ (w * (n - 1)) * 2 ^ s) := by
          rw [← Nat.mul_assoc, ← Nat.pow_add (n := w * (n - 1)), ← Nat.mul_add,
            show m + 1 + (n - 1) = nLimbs w (toNat x) by omega]
      _ ≤ 2 ^ (w * (m + 1)) * (toNat y * 2 ^ s) :=
          Nat.mul_le_mul_left _ (Nat.mul_le_mul_right _ y2)
  have hhrv : toNat ((num.drop (m + 1)).take n) = toNat x * 2 ^ s / 2 ^ (w * (m + 1)) := by
    rw [toNat_take _ _ (by rw [List.length_drop]; omega), hrest]
    exact Nat.mod_eq_of_lt (lt_trans htop hv)
  have hht : toNat ((num.drop (m + 1)).drop n) = 0 := by
    rw [hrest, hhrv] at h2
    have : 2 ^ (w * n) * toNat ((num.drop (m + 1)).drop n) = 0 := by omega
    exact (Nat.mul_eq_zero.1 this).resolve_left (by positivity)
  have hloop := knuthLoop_spec hw (d := d) (n := n) hn (by omega) (by rw [hdv]; exact hv)
    (by rw [hdv]; exact hv2) (toNat x * 2 ^ s) (m + 1) (num.take (m + 1))
    ((num.drop (m + 1)).take n) ((num.drop (m + 1)).drop n) [] hlo hlov hhr
    (by rw [hhrv, hdv, ← Nat.pow_mul, Nat.mod_eq_of_lt htop])
  rw [List.append_assoc, List.take_append_drop, List.take_append_drop, hdl, hdv] at hloop
  have hunf : divRemKnuth x y n m = (knuthLoop d n (m + 1) num []).bind fun (q, num) =>
      .ok (q ++ List.replicate (x.length - (m + 1)) 0, (fullShr num s).take y.length) := by
    rw [divRemKnuth, if_pos (by omega)]
    simp only [show clz (getLimb y (n - 1)) = s from hs]
    rfl
  rcases hloop with ⟨h3, h4, h5⟩ | ⟨h3, q, r, h4, h5, h6, h7, h8⟩
  · exact .inl ⟨h3, h4, by rw [hunf, h5, Res.bind_panic]⟩
  · refine .inr ⟨h3, ?_⟩
    set fin := r ++ (strayLimbs w f (m + 1) ++ (num.drop (m + 1)).drop n) with hfin
    have hflen : fin.length = x.length + 1 := by
      simp only [hfin, List.length_append, strayLimbs_length, List.length_drop]
      omega
    obtain ⟨sl, sv⟩ := fullShr_spec hsw fin
    rw [hflen, Nat.add_sub_cancel] at sl sv
    -- the value of the final numerator
    have htake : toNat (fin.take x.length) = toNat x * 2 ^ s % (toNat y * 2 ^ s) +
        2 ^ (w * n) * flagNum w f (min (x.length - n) (m + 1)) := by
      rw [hfin, List.take_append, List.take_of_length_le (by omega), h7, toNat_append, bits, h7, h8,
        List.take_append, toNat_append, strayLimbs_take, strayLimbs_toNat hw]
      have hz : toNat (((num.drop (m + 1)).drop n).take
          (x.length - n - (strayLimbs w f (m + 1)).length)) = 0 := by
        by_cases hc : x.length - n - (strayLimbs w f (m + 1)).length
            ≤ ((num.drop (m + 1)).drop n).length
        · rw [toNat_take _ _ hc, hht, Nat.zero_mod]
        · rw [List.take_of_length_le (by omega), hht]
      rw [hz, Nat.mul_zero, Nat.add_zero]
    have hbl : 2 ^ (w * n) = 2 ^ s * 2 ^ bitLen (toNat y) := by
      rw [← Nat.pow_add]; congr 1
      have hb : bitLen (toNat y) ≤ w * n := (nLimbs_bound hw (toNat y)).1
      have : s = w * n - bitLen (toNat y) := rfl
      omega
    have hval : toNat (fullShr fin s) = toNat x % toNat y +
        2 ^ bitLen (toNat y) * flagNum w f (min (x.length - n) (m + 1)) := by
      rw [sv, htake, Nat.mul_mod_mul_right, hbl, Nat.mul_comm _ (2 ^ s), Nat.mul_assoc,
        ← Nat.mul_add, Nat.mul_div_cancel_left _ hs0]
    have hqv : toNat q = toNat x / toNat y := by
      rw [h6, ← Nat.pow_mul, Nat.mod_eq_of_lt htop, Nat.mul_comm _ (2 ^ (w * (m + 1))),
        Nat.div_add_mod, Nat.mul_div_mul_right _ _ hs0]
    refine ⟨q ++ List.replicate (x.length - (m + 1)) 0, (fullShr fin s).take y.length, ?_, ?_, ?_,
      ?_, ?_, ?_⟩
    · rw [hunf, h4, Res.bind_ok, List.append_nil]
    · simp [h5]; omega
    · rw [List.length_take, sl]; omega
    · rw [toNat_append, toNat_replicate_zero, hqv]; simp
    · rw [toNat_take _ _ (by omega), hval]
    · rw [← hval, ← sl]; exact toNat_lt _

theorem divRemKnuth_spec (hw : 0 < w) {x y : Limbs w} (hy : toNat y ≠ 0)
    (hn : 2 ≤ nLimbs w (toNat y)) (hle : toNat y ≤ toNat x) (hl : y.length ≤ x.length)
    (hN : y.length = x.length ∨ y.length = nLimbs w (toNat y)) :
    let n := nLimbs w (toNat y)
    let m := nLimbs w (toNat x) - n
    let f := overEst (2 ^ w) n (toNat x * 2 ^ normShift w (toNat y))
      (toNat y * 2 ^ normShift w (toNat y))
    (y.length = n ∧ (∃ i, i < m + 1 ∧ f i = true) ∧ divRemKnuth x y n m = .panic) ∨
    (¬ (y.length = n ∧ ∃ i, i < m + 1 ∧ f i = true) ∧
      ∃ q r, divRemKnuth x y n m = .ok (q, r) ∧ q.length = x.length ∧ r.length = y.length ∧
        toNat q = toNat x / toNat y ∧
        toNat r = toNat x % toNat y +
          2 ^ bitLen (toNat y) * flagNum w f (min (y.length - n) (m + 1))) := by
  intro n m f
  rcases divRemKnuth_gen hw hy hn hle hl with h | ⟨h3, q, r, e, ql, rl, qv, rv, rlt⟩
  · exact .inl h
  refine .inr ⟨h3, q, r, e, ql, rl, qv, ?_⟩
  rw [rv]
  rcases hN with hN | hN
  · rw [hN]; exact Nat.mod_eq_of_lt rlt
  · have hno : ∀ i < m + 1, f i = false := by
      intro i hi
      by_contra hc
      exact h3 ⟨hN, i, hi, by simpa using hc⟩
    have e1 : flagNum w f (min (x.length - n) (m + 1)) = 0 :=
      flagNum_eq_zero (fun i hi => hno i (by omega))
    have e2 : flagNum w f (min (y.length - n) (m + 1)) = 0 :=
      flagNum_eq_zero (fun i hi => hno i (by omega))
    rw [e2]
    refine (congrArg (fun k => (toNat x % toNat y + 2 ^ bitLen (toNat y) * k) % _) e1).trans ?_
    rw [Nat.mul_zero, Nat.add_zero]
    apply Nat.mod_eq_of_lt
    rw [hN]
    exact lt_trans (Nat.mod_lt _ (by omega)) (nLimbs_spec hw hy).2.2

end Div

end I256
