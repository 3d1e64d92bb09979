import Verif.Lemmas.DivFull
import Verif.Lemmas.Casts

/-!
# The entry points of `src/math/div.rs`
-/

namespace I256

variable {w : Nat}

theorem Yields.mono {α : Type} {P : Prop} {Q Q' : α → Prop} {r : Res α} (h : Yields P Q r)
    (hq : ∀ v, Q v → Q' v) : Yields P Q' r :=
  ⟨h.1, fun hp => let ⟨v, e, hv⟩ := h.2 hp; ⟨v, e, hq v hv⟩⟩

theorem Yields.congr {α : Type} {P P' : Prop} {Q : α → Prop} {r : Res α} (h : Yields P Q r)
    (hp : P ↔ P') : Yields P' Q r :=
  ⟨fun p => h.1 (hp.2 p), fun p => h.2 (fun q => p (hp.1 q))⟩

theorem Yields.bind {α β : Type} {P : Prop} {Q : α → Prop} {Q' : β → Prop} {r : Res α}
    {f : α → Res β} (h : Yields P Q r) (hf : ∀ v, Q v → ∃ v', f v = .ok v' ∧ Q' v') :
    Yields P Q' (r.bind f) := by
  refine ⟨fun p => by rw [h.1 p, Res.bind_panic], fun p => ?_⟩
  obtain ⟨v, e, hv⟩ := h.2 p
  rw [e, Res.bind_ok]
  exact hf v hv

theorem Yields.map {α β : Type} {P : Prop} {Q : α → Prop} {Q' : β → Prop} {r : Res α}
    {f : α → β} (h : Yields P Q r) (hf : ∀ v, Q v → Q' (f v)) : Yields P Q' (r.map f) := by
  refine ⟨fun p => by rw [h.1 p, Res.map_panic], fun p => ?_⟩
  obtain ⟨v, e, hv⟩ := h.2 p
  rw [e, Res.map_ok]
  exact ⟨_, rfl, hf v hv⟩

theorem Yields.ok {α : Type} {P : Prop} {Q : α → Prop} {v : α} (hp : ¬ P) (hv : Q v) :
    Yields P Q (.ok v) := ⟨fun p => absurd p hp, fun _ => ⟨v, rfl, hv⟩⟩

theorem Yields.panic_iff {α : Type} {P : Prop} {Q : α → Prop} {r : Res α} (h : Yields P Q r) :
    r = .panic ↔ P := by
  refine ⟨fun e => ?_, h.1⟩
  by_contra hp
  obtain ⟨v, e', _⟩ := h.2 hp
  rw [e] at e'
  exact absurd e' (by simp)

theorem flagNum_min {f g : Nat → Bool} {m : Nat} (a : Nat) (h : ∀ j < m, f j = g j)
    (h' : ∀ j, m ≤ j → g j = false) : flagNum w f (min a m) = flagNum w g a := by
  induction a with
  | zero => simp [flagNum]
  | succ a ih =>
    by_cases c : a < m
    · rw [Nat.min_eq_left (by omega)] at ih ⊢
      rw [flagNum, flagNum, ih, h _ c]
    · rw [Nat.min_eq_right (by omega)] at ih ⊢
      rw [flagNum, ← ih, h' _ (by omega)]
      simp

theorem addBack_clean_of_small {x y : Nat} (h : nLimbs w y < 2 ∨ x ≤ y) : Clean w x y := by
  intro j
  unfold addBack
  rcases h with h | h
  · simp [show ¬ 2 ≤ nLimbs w y by omega]
  · simp [show ¬ y < x by omega]

theorem Clean.stray {N x y : Nat} (h : Clean w x y) : strayRem w N x y = 0 := by
  rw [strayRem, flagNum_eq_zero (fun i _ => h i), Nat.mul_zero]

theorem Clean.noPanic {N x y : Nat} (h : Clean w x y) : ¬ DivPanics w N x y := by
  rintro ⟨_, j, hj⟩
  rw [h j] at hj
  exact absurd hj (by simp)

theorem nLimbs_zero (hw : 0 < w) : nLimbs w 0 = 0 := by
  simp only [nLimbs, bitLen, if_true, Nat.zero_add]
  exact Nat.div_eq_of_lt (by omega)

/-- Nothing is left over iff no digit that shows in the `N` limbs had to be corrected. -/
theorem stray_eq_zero_iff {N : Nat} {x y : Nat} :
    strayRem w N x y = 0 ↔ ∀ j < N - nLimbs w y, addBack w x y j = false := by
  constructor
  · intro h j hj
    by_contra hc
    have h1 := (Nat.mul_eq_zero.1 h).resolve_left (by positivity)
    have := flagNum_pos (w := w) hj (by simpa using hc)
    omega
  · intro h
    rw [strayRem, flagNum_eq_zero h, Nat.mul_zero]

namespace Div

/-- `full_gt` on arrays of equal length, or with a divisor of two limbs. -/
theorem fullGt_spec (hw : 0 < w) {x y : Limbs w} (hy : toNat y ≠ 0) (hlt : toNat y < toNat x)
    (h2 : 2 ≤ y.length) (hl : y.length ≤ x.length) (hN : y.length = x.length ∨ y.length = 2) :
    Yields (DivPanics w y.length (toNat x) (toNat y))
      (fun r => (r.1.length = x.length ∧ toNat r.1 = toNat x / toNat y) ∧
        (r.2.length = y.length ∧
          toNat r.2 = toNat x % toNat y + strayRem w y.length (toNat x) (toNat y)))
      (fullGt x y) := by
  have hly := lastIndex_spec hw hy
  have hlx := lastIndex_spec hw (show toNat x ≠ 0 by omega)
  unfold fullGt
  by_cases h1 : lastIndex y = 0
  · have hc : Clean w (toNat x) (toNat y) := addBack_clean_of_small (.inl (by omega))
    have hy1 : (getLimb y 0).toNat = toNat y := by
      have := (nLimbs_spec hw hy).2.2
      rw [← hly, h1, Nat.zero_add, Nat.mul_one] at this
      rw [getLimb_toNat, Nat.mul_zero, Nat.pow_zero, Nat.div_one, Nat.mod_eq_of_lt this]
    obtain ⟨q, r, e, ql, rl, qv, rv⟩ := limbPadded_spec (N := y.length) (by omega)
      (d := getLimb y 0) (by intro h; rw [h] at hy1; simp at hy1; omega) x
    simp only [h1, if_true, e]
    exact Yields.ok hc.noPanic ⟨⟨ql, by rw [qv, hy1]⟩, rl, by rw [rv, hy1, hc.stray, Nat.add_zero]⟩
  · simp only [h1, if_false]
    have hn2 : 2 ≤ nLimbs w (toNat y) := by omega
    have hny := nLimbs_le hw y
    have hk := divRemKnuth_spec hw hy hn2 (le_of_lt hlt) hl (by omega)
    have hmono := nLimbs_mono hw (le_of_lt hlt) hy
    simp only at hk
    rw [show lastIndex y + 1 = nLimbs w (toNat y) from hly,
      show lastIndex x - lastIndex y = nLimbs w (toNat x) - nLimbs w (toNat y) by omega]
    have hab : ∀ j, addBack w (toNat x) (toNat y) j = true ↔
        j < nLimbs w (toNat x) - nLimbs w (toNat y) + 1 ∧
        overEst (2 ^ w) (nLimbs w (toNat y)) (toNat x * 2 ^ normShift w (toNat y))
          (toNat y * 2 ^ normShift w (toNat y)) j = true := by
      intro j
      simp only [addBack, Bool.and_eq_true, decide_eq_true_eq, hn2, hlt, true_and]
      constructor
      · rintro ⟨a, b⟩; exact ⟨by omega, b⟩
      · rintro ⟨a, b⟩; exact ⟨by omega, b⟩
    have hP : DivPanics w y.length (toNat x) (toNat y) ↔
        (y.length = nLimbs w (toNat y) ∧ ∃ i, i < nLimbs w (toNat x) - nLimbs w (toNat y) + 1 ∧
          overEst (2 ^ w) (nLimbs w (toNat y)) (toNat x * 2 ^ normShift w (toNat y))
          (toNat y * 2 ^ normShift w (toNat y)) i = true) := by
      unfold DivPanics
      simp only [hab, eq_comm]
    rcases hk with ⟨a, b, c⟩ | ⟨a, q, r, e, ql, rl, qv, rv⟩
    · exact ⟨fun _ => c, fun h => absurd (hP.2 ⟨a, b⟩) h⟩
    · rw [e]
      refine Yields.ok (fun h => a (hP.1 h)) ⟨⟨ql, qv⟩, rl, ?_⟩
      rw [rv, strayRem]
      congr 2
      apply flagNum_min
      · intro j hj
        rw [Bool.eq_iff_iff, hab j]
        simp [hj]
      · intro j hj
        by_contra hc
        have := (hab j).1 (by simpa using hc)
        omega

/-- `full` with a non-zero divisor. -/
theorem full_spec (hw : 0 < w) {x y : Limbs w} (hl : x.length = y.length) (h2 : 2 ≤ x.length)
    (hy : toNat y ≠ 0) :
    Yields (DivPanics w x.length (toNat x) (toNat y))
      (fun r => (r.1.length = x.length ∧ toNat r.1 = toNat x / toNat y) ∧
        (r.2.length = x.length ∧
          toNat r.2 = toNat x % toNat y + strayRem w x.length (toNat x) (toNat y)))
      (full x y) := by
  rw [full, if_neg (by omega), cmp_spec (by omega)]
  rcases Nat.lt_trichotomy (toNat x) (toNat y) with h | h | h
  · have hc : Clean w (toNat x) (toNat y) := addBack_clean_of_small (.inr (by omega))
    rw [Nat.compare_eq_lt.2 h]
    refine Yields.ok hc.noPanic ⟨⟨by simp, ?_⟩, ?_, ?_⟩
    · rw [toNat_replicate_zero, Nat.div_eq_of_lt h]
    · simp [hl]
    · rw [List.take_of_length_le (by omega), hc.stray, Nat.mod_eq_of_lt h, Nat.add_zero]
  · have hc : Clean w (toNat x) (toNat y) := addBack_clean_of_small (.inr (by omega))
    rw [Nat.compare_eq_eq.2 h]
    obtain ⟨a1, a2⟩ := scalar1_spec (N := x.length) (by omega) (1 : BitVec w)
    obtain ⟨b1, b2⟩ := scalar1_spec (N := y.length) (by omega) (0 : BitVec w)
    refine Yields.ok hc.noPanic ⟨⟨a1, ?_⟩, by rw [b1, hl], ?_⟩
    · rw [a2, h, Nat.div_self (by omega)]
      simpa using Nat.mod_eq_of_lt (one_lt_two_pow' hw)
    · rw [b2, hc.stray, h, Nat.mod_self]; simp
  · rw [Nat.compare_eq_gt.2 h]
    have hz : isZero x 0 = false := by
      by_contra hc
      have := (isZero_iff x 0).1 (by simpa using hc)
      rw [List.drop_zero] at this
      omega
    simp only [hz, Bool.false_eq_true, if_false]
    have := fullGt_spec hw hy h (by omega) (by omega) (.inl hl.symm)
    rw [← hl] at this
    exact this

/-- `full` with a zero divisor: a panic, except for `0 / 0`. -/
theorem full_zero (hw : 0 < w) {x y : Limbs w} (hl : x.length = y.length) (h2 : 2 ≤ x.length)
    (hy : toNat y = 0) :
    (toNat x ≠ 0 → full x y = .panic) ∧
    (toNat x = 0 → full x y = .ok (scalar1 x.length 1, scalar1 y.length 0)) := by
  rw [full, if_neg (by omega), cmp_spec (by omega), hy]
  constructor
  · intro h
    rw [Nat.compare_eq_gt.2 (by omega)]
    have hz : isZero x 0 = false := by
      by_contra hc
      have := (isZero_iff x 0).1 (by simpa using hc)
      rw [List.drop_zero] at this
      omega
    have h0 : getLimb y 0 = 0 := by
      apply BitVec.eq_of_toNat_eq
      rw [getLimb_toNat, hy]; simp
    simp only [hz, Bool.false_eq_true, if_false, fullGt, lastIndex_zero hy, if_true, h0, limbPadded]
    rw [limb_zero (by intro h; rw [h] at h2; simp at h2), Res.bind_panic]
  · intro h
    rw [h, Nat.compare_eq_eq.2 rfl]

/-- Numerators of at most two limbs never need a correction. -/
theorem clean_two (hw : 0 < w) {x y : Nat} (hx : x < 2 ^ (w * 2)) : Clean w x y := by
  intro j
  by_contra hc
  have hj : addBack w x y j = true := by simpa using hc
  simp only [addBack, Bool.and_eq_true, decide_eq_true_eq] at hj
  obtain ⟨⟨⟨h2, hlt⟩, hjn⟩, ho⟩ := hj
  have hx0 : x ≠ 0 := by omega
  have hxn : nLimbs w x ≤ 2 := by
    obtain ⟨a1, a2, a3⟩ := nLimbs_spec hw hx0
    have h3 := (Nat.pow_lt_pow_iff_right (a := 2) (by omega)).1 (lt_of_le_of_lt a2 hx)
    have := Nat.lt_of_mul_lt_mul_left h3
    omega
  have hj0 : j = 0 := by omega
  have hn : nLimbs w y = 2 := by omega
  have hy0 : y ≠ 0 := by intro h; rw [h, nLimbs_zero hw] at hn; omega
  subst hj0
  obtain ⟨b1, b2, b3⟩ := bitLen_spec hy0
  obtain ⟨n1, n2⟩ := nLimbs_bound hw y
  rw [hn] at n1 n2 ho
  have hs : normShift w y = w * 2 - bitLen y := by rw [normShift, hn]
  rw [hs] at ho
  set s := w * 2 - bitLen y with hsd
  have hsw : s < w := by omega
  have hv : 2 ^ (w * 2 - 1) ≤ y * 2 ^ s := by
    calc 2 ^ (w * 2 - 1) = 2 ^ (bitLen y - 1) * 2 ^ s := by rw [← Nat.pow_add]; congr 1; omega
      _ ≤ y * 2 ^ s := Nat.mul_le_mul_right _ b2
  have hu : x * 2 ^ s < 2 ^ (w * 2) * 2 ^ s := Nat.mul_lt_mul_of_pos_right hx (by positivity)
  have hB : (2 ^ w) ^ 2 = 2 ^ (w * 2) := by rw [Nat.pow_mul]
  have hsle : 2 ^ s ≤ 2 ^ (w - 1) := Nat.pow_le_pow_right (by omega) (by omega)
  have htop : x * 2 ^ s / 2 ^ (w * 2) < 2 ^ (w - 1) :=
    lt_of_lt_of_le (Nat.div_lt_of_lt_mul hu) hsle
  have hvt : 2 ^ (w - 1) ≤ y * 2 ^ s / 2 ^ w := by
    rw [Nat.le_div_iff_mul_le (by positivity), ← Nat.pow_add,
      show w - 1 + w = w * 2 - 1 by omega]
    exact hv
  have hpr : partRem (2 ^ w) (x * 2 ^ s) (y * 2 ^ s) 0 = x * 2 ^ s := by
    rw [partRem, Nat.pow_zero, Nat.div_one]
    apply Nat.mod_eq_of_lt
    calc x * 2 ^ s < 2 ^ (w * 2) * 2 ^ s := hu
      _ ≤ 2 ^ (w * 2) * 2 ^ (w - 1) := Nat.mul_le_mul_left _ hsle
      _ = 2 ^ (w * 2 - 1) * 2 ^ w := by rw [← Nat.pow_add, ← Nat.pow_add]; congr 1; omega
      _ ≤ y * 2 ^ s * 2 ^ w := Nat.mul_le_mul_right _ hv
  rw [overEst, hpr, digitEst, hB, show (2:Nat) - 1 = 1 from rfl, Nat.pow_one,
    if_pos (lt_of_lt_of_le htop hvt)] at ho
  simp at ho

/-- `wide` with a non-zero divisor. -/
theorem wideDiv_spec (hw : 0 < w) {x : Limbs w} (h2 : 2 ≤ x.length) {d : BitVec (w + w)}
    (hd : d ≠ 0) :
    Yields (DivPanics w 2 (toNat x) d.toNat)
      (fun r => (r.1.length = x.length ∧ toNat r.1 = toNat x / d.toNat) ∧
        r.2.toNat = toNat x % d.toNat)
      (wideDiv x d) := by
  have hd0 : d.toNat ≠ 0 := fun h => hd (BitVec.eq_of_toNat_eq (by simpa using h))
  have hsp := toNat_split x h2
  obtain ⟨yl, yv⟩ := scalar2_spec (N := 2) (le_refl _) d
  unfold wideDiv
  by_cases hz : 2 ≤ x.length ∧ isZero x 2 = true
  · rw [if_pos hz]
    have hz' := (isZero_iff _ _).1 hz.2
    have hx : toNat x = toNat (x.take 2) := by rw [hsp, hz', Nat.mul_zero, Nat.add_zero]
    have hlow : (low2 x).toNat = toNat x := by rw [low2_toNat x h2, hx]
    have hlt : toNat x < 2 ^ (w * 2) := by
      rw [← hlow, show w * 2 = w + w by ring]; exact (low2 x).isLt
    have hc : Clean w (toNat x) d.toNat := clean_two hw hlt
    by_cases h0 : getLimb x 0 = 0 ∧ getLimb x 1 = 0
    · rw [if_pos h0]
      have hx0 : toNat x = 0 := by
        rw [← hlow, low2, h0.1, h0.2]; simp [wide]
      obtain ⟨a1, a2⟩ := scalar1_spec (N := x.length) (by omega) (0 : BitVec w)
      exact Yields.ok hc.noPanic ⟨⟨a1, by rw [a2, hx0]; simp⟩, by rw [hx0]; simp⟩
    · rw [if_neg h0, nativeDivRem, if_neg hd, Res.bind_ok]
      obtain ⟨a1, a2⟩ := scalar2_spec (N := x.length) h2 (low2 x / d)
      exact Yields.ok hc.noPanic ⟨⟨a1, by rw [a2, BitVec.toNat_udiv, hlow]⟩,
        by rw [BitVec.toNat_umod, hlow]⟩
  · rw [if_neg hz]
    simp only []
    rw [cmp_spec (by omega), yv]
    rcases Nat.lt_trichotomy (toNat x) d.toNat with h | h | h
    · -- impossible: the numerator has more than two significant limbs
      exfalso
      have : toNat (x.drop 2) ≠ 0 := fun e => hz ⟨h2, (isZero_iff _ _).2 e⟩
      have h3 : d.toNat < 2 ^ (w * 2) := by
        have := d.isLt
        have e : 2 ^ (w * 2) = 2 ^ (w + w) := by congr 1; ring
        omega
      have h4 : 2 ^ (w * 2) * 1 ≤ 2 ^ (w * 2) * toNat (x.drop 2) :=
        Nat.mul_le_mul_left _ (by omega)
      omega
    · exfalso
      have : toNat (x.drop 2) ≠ 0 := fun e => hz ⟨h2, (isZero_iff _ _).2 e⟩
      have h3 : d.toNat < 2 ^ (w * 2) := by
        have := d.isLt
        have e : 2 ^ (w * 2) = 2 ^ (w + w) := by congr 1; ring
        omega
      have h4 : 2 ^ (w * 2) * 1 ≤ 2 ^ (w * 2) * toNat (x.drop 2) :=
        Nat.mul_le_mul_left _ (by omega)
      omega
    · rw [Nat.compare_eq_gt.2 h]
      have hf := fullGt_spec hw (x := x) (y := scalar2 2 d) (by rw [yv]; exact hd0)
        (by rw [yv]; exact h) (by omega) (by omega) (.inr yl)
      rw [yl, yv] at hf
      have hst : strayRem w 2 (toNat x) d.toNat = 0 := by
        by_cases hn : nLimbs w d.toNat < 2
        · exact (addBack_clean_of_small (.inl hn)).stray
        · rw [strayRem, show 2 - nLimbs w d.toNat = 0 by omega, flagNum, Nat.mul_zero]
      refine hf.bind ?_
      rintro ⟨q, r⟩ ⟨⟨ql, qv⟩, rl, rv⟩
      simp only at ql qv rl rv
      refine ⟨_, rfl, ⟨ql, qv⟩, ?_⟩
      rw [low2_toNat r (by omega), List.take_of_length_le (by omega), rv, hst, Nat.add_zero]

/-- `wide` with a zero divisor: a panic, except that `0 / 0` gives `(0, 0)`. -/
theorem wideDiv_zero (hw : 0 < w) {x : Limbs w} (h2 : 2 ≤ x.length) :
    (toNat x ≠ 0 → wideDiv x 0 = .panic) ∧
    (toNat x = 0 → wideDiv x 0 = .ok (scalar1 x.length 0, 0)) := by
  have hsp := toNat_split x h2
  obtain ⟨yl, yv⟩ := scalar2_spec (N := 2) (le_refl _) (0 : BitVec (w + w))
  have hlow := low2_toNat x h2
  have hyv : toNat (scalar2 2 (0 : BitVec (w + w))) = 0 := by rw [yv]; simp
  constructor
  · intro hx
    unfold wideDiv
    by_cases hz : 2 ≤ x.length ∧ isZero x 2 = true
    · have hz' := (isZero_iff _ _).1 hz.2
      have h0 : ¬ (getLimb x 0 = 0 ∧ getLimb x 1 = 0) := by
        intro h0
        rw [low2, h0.1, h0.2] at hlow
        simp [wide] at hlow
        rw [hsp, hz', Nat.mul_zero, Nat.add_zero] at hx
        omega
      rw [if_pos hz, if_neg h0, nativeDivRem, if_pos rfl, Res.bind_panic]
    · rw [if_neg hz]
      simp only []
      rw [cmp_spec (by omega), hyv, Nat.compare_eq_gt.2 (by omega)]
      have h0 : getLimb (scalar2 2 (0 : BitVec (w + w))) 0 = 0 := by
        apply BitVec.eq_of_toNat_eq
        rw [getLimb_toNat, hyv]; simp
      simp only [fullGt, lastIndex_zero hyv, if_true, h0, limbPadded]
      rw [limb_zero (by intro h; rw [h] at h2; simp at h2), Res.bind_panic, Res.bind_panic]
  · intro hx
    have h1 : toNat (x.drop 2) = 0 := by
      rw [hx] at hsp
      exact (Nat.mul_eq_zero.1 (show 2 ^ (w * 2) * toNat (x.drop 2) = 0 by omega)).resolve_left
        (by positivity)
    have h3 : ∀ i, getLimb x i = 0 := by
      intro i
      apply BitVec.eq_of_toNat_eq
      rw [getLimb_toNat, hx]; simp
    rw [wideDiv, if_pos ⟨h2, (isZero_iff _ _).2 h1⟩, if_pos ⟨h3 0, h3 1⟩]

theorem u128Scalar_toNat {x : Limbs 32} (h4 : 4 ≤ x.length) :
    (u128Scalar x).toNat = toNat x % 2 ^ 128 := by
  rw [← asU128_toNat (.inl rfl) h4]; rfl

theorem scalarU128_spec {N : Nat} (h4 : 4 ≤ N) (v : BitVec 128) :
    (scalarU128 N v : Limbs 32).length = N ∧ toNat (scalarU128 N v : Limbs 32) = v.toNat := by
  refine ⟨by simp [scalarU128]; omega, ?_⟩
  rw [← split32_4 v]
  simp only [scalarU128, toNat_cons, toNat_replicate_zero, toNat_nil]

/-- `from_u128` with a non-zero divisor (only called with 32-bit limbs): the remainder is cut to 128
bits, so what long division leaves above bit 128 does not show. -/
theorem fromU128_gen {x : Limbs 32} (h4 : 4 ≤ x.length) {d : BitVec 128} (hd : d ≠ 0) :
    Yields (DivPanics 32 x.length (toNat x) d.toNat)
      (fun r => (r.1.length = x.length ∧ toNat r.1 = toNat x / d.toNat) ∧
        r.2.toNat = (toNat x % d.toNat + strayRem 32 x.length (toNat x) d.toNat) % 2 ^ 128)
      (fromU128 x d) := by
  have hw : 0 < 32 := by decide
  have hd0 : d.toNat ≠ 0 := fun h => hd (BitVec.eq_of_toNat_eq (by simpa using h))
  have hsp := toNat_split x (i := 2) (by omega)
  obtain ⟨yl, yv⟩ := scalarU128_spec (N := x.length) (by omega) d
  have hdl := d.isLt
  have hmod : toNat x % d.toNat < 2 ^ 128 := lt_trans (Nat.mod_lt _ (by omega)) hdl
  unfold fromU128
  rw [if_pos rfl]
  by_cases hz : 2 ≤ x.length ∧ isZero x 2 = true
  · rw [if_pos hz]
    have hz' := (isZero_iff _ _).1 hz.2
    have hx : toNat x = toNat (x.take 2) := by rw [hsp, hz', Nat.mul_zero, Nat.add_zero]
    have hlow : (low2 x).toNat = toNat x := by rw [low2_toNat x (by omega), hx]
    have hlt : toNat x < 2 ^ (32 * 2) := by
      rw [← hlow]; exact (low2 x).isLt
    have hc : Clean 32 (toNat x) d.toNat := clean_two hw hlt
    have hu : (u128Scalar x).toNat = toNat x := by
      rw [u128Scalar_toNat (by omega)]
      exact Nat.mod_eq_of_lt (lt_trans hlt (by decide))
    rw [hc.stray, Nat.add_zero, Nat.mod_eq_of_lt hmod]
    by_cases h0 : getLimb x 0 = 0 ∧ getLimb x 1 = 0
    · rw [if_pos h0]
      have hx0 : toNat x = 0 := by
        rw [← hlow, low2, h0.1, h0.2]; simp [wide]
      obtain ⟨a1, a2⟩ := scalar1_spec (N := x.length) (by omega) (0 : BitVec 32)
      exact Yields.ok hc.noPanic ⟨⟨a1, by rw [a2, hx0]; simp⟩, by rw [hx0]; simp⟩
    · rw [if_neg h0, nativeDivRem, if_neg hd, Res.bind_ok]
      obtain ⟨a1, a2⟩ := scalarU128_spec (N := x.length) (by omega) (u128Scalar x / d)
      exact Yields.ok hc.noPanic ⟨⟨a1, by rw [a2, BitVec.toNat_udiv, hu]⟩, by rw [BitVec.toNat_umod, hu]⟩
  · rw [if_neg hz]
    simp only []
    rw [cmp_spec (by omega), yv]
    rcases Nat.lt_trichotomy (toNat x) d.toNat with h | h | h
    · have hc : Clean 32 (toNat x) d.toNat := addBack_clean_of_small (.inr (by omega))
      rw [Nat.compare_eq_lt.2 h]
      refine Yields.ok hc.noPanic ⟨⟨by simp, ?_⟩, ?_⟩
      · rw [toNat_replicate_zero, Nat.div_eq_of_lt h]
      · rw [List.take_of_length_le (le_refl _), hc.stray, Nat.mod_eq_of_lt h, Nat.add_zero,
          u128Scalar_toNat (by omega)]
    · have hc : Clean 32 (toNat x) d.toNat := addBack_clean_of_small (.inr (by omega))
      rw [Nat.compare_eq_eq.2 h]
      obtain ⟨a1, a2⟩ := scalar1_spec (N := x.length) (by omega) (1 : BitVec 32)
      refine Yields.ok hc.noPanic ⟨⟨a1, ?_⟩, ?_⟩
      · rw [a2, h, Nat.div_self (by omega)]; rfl
      · rw [hc.stray, h, Nat.mod_self]; rfl
    · rw [Nat.compare_eq_gt.2 h]
      have hf := fullGt_spec hw (x := x) (y := scalarU128 x.length d) (by rw [yv]; exact hd0)
        (by rw [yv]; exact h) (by omega) (by omega) (.inl yl)
      rw [yl, yv] at hf
      refine hf.bind fun R hR => ⟨_, rfl, hR.1, ?_⟩
      rw [u128Scalar_toNat (by omega), hR.2.2]

theorem fromU128_spec {x : Limbs 32} (h4 : 4 < x.length) {d : BitVec 128} (hd : d ≠ 0) :
    ∃ q r, fromU128 x d = .ok (q, r) ∧ (q.length = x.length ∧ toNat q = toNat x / d.toNat) ∧
      r.toNat = (toNat x % d.toNat + strayRem 32 x.length (toNat x) d.toNat) % 2 ^ 128 := by
  have hd0 : d.toNat ≠ 0 := fun h => hd (BitVec.eq_of_toNat_eq (by simpa using h))
  obtain ⟨⟨q, r⟩, e, h⟩ := (fromU128_gen (x := x) (by omega) hd).2 (by
    rintro ⟨e, _⟩
    obtain ⟨n1, n2, n3⟩ := nLimbs_spec (w := 32) (by decide) hd0
    have h3 := (Nat.pow_lt_pow_iff_right (a := 2) (by omega)).1 (lt_of_le_of_lt n2 d.isLt)
    omega)
  exact ⟨q, r, e, h⟩

/-- `from_u128` with a zero divisor: a panic, except that `0 / 0` gives `(0, 0)`. -/
theorem fromU128_zero {x : Limbs 32} (h4 : 4 ≤ x.length) :
    (toNat x ≠ 0 → fromU128 x 0 = .panic) ∧
    (toNat x = 0 → fromU128 x 0 = .ok (scalar1 x.length 0, 0)) := by
  have h2 : 2 ≤ x.length := by omega
  have hsp := toNat_split x h2
  obtain ⟨yl, yv⟩ := scalarU128_spec (N := x.length) (by omega) (0 : BitVec 128)
  have hyv : toNat (scalarU128 x.length (0 : BitVec 128) : Limbs 32) = 0 := by rw [yv]; simp
  have hlow := low2_toNat x h2
  constructor
  · intro hx
    unfold fromU128
    rw [if_pos rfl]
    by_cases hz : 2 ≤ x.length ∧ isZero x 2 = true
    · have hz' := (isZero_iff _ _).1 hz.2
      have h0 : ¬ (getLimb x 0 = 0 ∧ getLimb x 1 = 0) := by
        intro h0
        rw [low2, h0.1, h0.2] at hlow
        simp [wide] at hlow
        rw [hsp, hz', Nat.mul_zero, Nat.add_zero] at hx
        omega
      rw [if_pos hz, if_neg h0, nativeDivRem, if_pos rfl, Res.bind_panic]
    · rw [if_neg hz]
      simp only []
      rw [cmp_spec (by omega), hyv, Nat.compare_eq_gt.2 (by omega)]
      have h0 : getLimb (scalarU128 x.length (0 : BitVec 128) : Limbs 32) 0 = 0 := by
        apply BitVec.eq_of_toNat_eq
        rw [getLimb_toNat, hyv]; simp
      simp only [fullGt, lastIndex_zero hyv, if_true, h0, limbPadded]
      rw [limb_zero (by intro h; rw [h] at h2; simp at h2), Res.bind_panic, Res.bind_panic]
  · intro hx
    have h1 : toNat (x.drop 2) = 0 := by
      rw [hx] at hsp
      exact (Nat.mul_eq_zero.1 (show 2 ^ (32 * 2) * toNat (x.drop 2) = 0 by omega)).resolve_left
        (by positivity)
    have h3 : ∀ i, getLimb x i = 0 := by
      intro i
      apply BitVec.eq_of_toNat_eq
      rw [getLimb_toNat, hx]; simp
    rw [fromU128, if_pos rfl, if_pos ⟨h2, (isZero_iff _ _).2 h1⟩, if_pos ⟨h3 0, h3 1⟩]

end Div

end I256
