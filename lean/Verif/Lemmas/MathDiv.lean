import Verif.SpecMath
import Verif.Lemmas.RawDivApi

/-!
# Division of arrays of any lengths
-/

namespace I256

variable {w : Nat}

/-- A contract that determines the value determines the result. -/
theorem Yields.unique {α : Type} {P : Prop} {Q : α → Prop} {r r' : Res α} (h : Yields P Q r)
    (h' : Yields P Q r') (hq : ∀ a b, Q a → Q b → a = b) : r = r' := by
  by_cases p : P
  · rw [h.1 p, h'.1 p]
  · obtain ⟨a, e, ha⟩ := h.2 p
    obtain ⟨b, e', hb⟩ := h'.2 p
    rw [e, e', hq a b ha hb]

namespace Div

/-- `full_gt` with at least as many limbs in the numerator. -/
theorem fullGt_gen (hw : 0 < w) {x y : Limbs w} (hy : toNat y ≠ 0) (hlt : toNat y < toNat x)
    (h2 : 2 ≤ y.length) (hl : y.length ≤ x.length) :
    Yields (DivPanics w y.length (toNat x) (toNat y))
      (fun r => (r.1.length = x.length ∧ toNat r.1 = toNat x / toNat y) ∧
        (r.2.length = y.length ∧
          toNat r.2 = (toNat x % toNat y + strayRem w x.length (toNat x) (toNat y)) %
            2 ^ (w * y.length)))
      (fullGt x y) := by
  have hly := lastIndex_spec hw hy
  have hlx := lastIndex_spec hw (show toNat x ≠ 0 by omega)
  unfold fullGt
  by_cases h1 : lastIndex y = 0
  · have hc : Clean w (toNat x) (toNat y) := addBack_clean_of_small (.inl (by omega))
    have hy1 : (getLimb y 0).toNat = toNat y := by
      have := (nLimbs_spec hw hy).2.2
      rw [← hly, h1, Nat.zero_add, Nat.mul_one] at this
      rw [getLimb_toNat, Nat.mul_zero, Nat.pow_zero, Nat.div_one, Nat.mod_eq_of_lt this]
    obtain ⟨q, r, e, ql, rl, qv, rv⟩ := limbPadded_spec (N := y.length) (by omega)
      (d := getLimb y 0) (by intro h; rw [h] at hy1; simp at hy1; omega) x
    simp only [h1, if_true, e]
    have := toNat_lt r
    rw [bits, rl, rv, hy1] at this
    exact Yields.ok hc.noPanic ⟨⟨ql, by rw [qv, hy1]⟩, rl, by
      rw [rv, hy1, hc.stray, Nat.add_zero, Nat.mod_eq_of_lt this]⟩
  · simp only [h1, if_false]
    have hn2 : 2 ≤ nLimbs w (toNat y) := by omega
    have hny := nLimbs_le hw y
    have hk := divRemKnuth_gen hw hy hn2 (le_of_lt hlt) hl
    have hmono := nLimbs_mono hw (le_of_lt hlt) hy
    simp only at hk
    rw [show lastIndex y + 1 = nLimbs w (toNat y) from hly,
      show lastIndex x - lastIndex y = nLimbs w (toNat x) - nLimbs w (toNat y) by omega]
    have hab : ∀ j, addBack w (toNat x) (toNat y) j = true ↔
        j < nLimbs w (toNat x) - nLimbs w (toNat y) + 1 ∧
        overEst (2 ^ w) (nLimbs w (toNat y)) (toNat x * 2 ^ normShift w (toNat y))
          (toNat y * 2 ^ normShift w (toNat y)) j = true := by
      intro j
      simp only [addBack, Bool.and_eq_true, decide_eq_true_eq, hn2, hlt, true_and]
      constructor
      · rintro ⟨a, b⟩; exact ⟨by omega, b⟩
      · rintro ⟨a, b⟩; exact ⟨by omega, b⟩
    have hP : DivPanics w y.length (toNat x) (toNat y) ↔
        (y.length = nLimbs w (toNat y) ∧ ∃ i, i < nLimbs w (toNat x) - nLimbs w (toNat y) + 1 ∧
          overEst (2 ^ w) (nLimbs w (toNat y)) (toNat x * 2 ^ normShift w (toNat y))
          (toNat y * 2 ^ normShift w (toNat y)) i = true) := by
      unfold DivPanics
      simp only [hab, eq_comm]
    rcases hk with ⟨a, b, c⟩ | ⟨a, q, r, e, ql, rl, qv, rv, -⟩
    · exact ⟨fun _ => c, fun h => absurd (hP.2 ⟨a, b⟩) h⟩
    · rw [e]
      refine Yields.ok (fun h => a (hP.1 h)) ⟨⟨ql, qv⟩, rl, ?_⟩
      rw [rv, strayRem]
      congr 3
      apply flagNum_min
      · intro j hj
        rw [Bool.eq_iff_iff, hab j]
        simp [hj]
      · intro j hj
        by_contra hc
        have := (hab j).1 (by simpa using hc)
        omega

/-- `full_gt` with a divisor of one significant limb. -/
theorem fullGt_one (hw : 0 < w) {x y : Limbs w} (hy : toNat y ≠ 0) (h1 : toNat y < 2 ^ w)
    (h2 : y ≠ []) :
    ∃ q r, fullGt x y = .ok (q, r) ∧ q.length = x.length ∧ r.length = y.length ∧
      toNat q = toNat x / toNat y ∧ toNat r = toNat x % toNat y := by
  have hly := lastIndex_spec hw hy
  have hn : nLimbs w (toNat y) = 1 := by
    obtain ⟨n1, n2, -⟩ := nLimbs_spec hw hy
    by_contra hc
    have : 2 ^ w ≤ 2 ^ (w * (nLimbs w (toNat y) - 1)) :=
      Nat.pow_le_pow_right (by omega) (Nat.le_mul_of_pos_right _ (by omega))
    omega
  have hl := List.length_pos_iff.2 h2
  have hy1 : (getLimb y 0).toNat = toNat y := by
    rw [getLimb_toNat, Nat.mul_zero, Nat.pow_zero, Nat.div_one, Nat.mod_eq_of_lt h1]
  obtain ⟨q, r, e, ql, rl, qv, rv⟩ := limbPadded_spec (N := y.length) (by omega)
    (d := getLimb y 0) (by intro h; rw [h] at hy1; simp at hy1; omega) x
  refine ⟨q, r, ?_, ql, rl, by rw [qv, hy1], by rw [rv, hy1]⟩
  rw [fullGt]
  simp only [show lastIndex y = 0 by omega, if_true, e]

theorem cmp_gen (x y : Limbs w) : cmp x y = compare (toNat x) (toNat y) := by
  by_cases h : y.length ≤ x.length
  · exact cmp_spec h
  · have := cmp_spec (x := y) (y := x) (by omega)
    rw [cmp, if_neg (by omega)] at this
    rw [cmp, if_pos (by omega), this, Nat.compare_swap]

end Div

namespace Raw

theorem mbind_eq_ok {α β : Type} {r : Res α} {f : α → Res β} {v : β} (h : (r >>= f) = .ok v) :
    ∃ a, r = .ok a ∧ f a = .ok v := by
  cases r with
  | panic => exact absurd h (by simp [Bind.bind])
  | ok a => exact ⟨a, rfl, h⟩

theorem loop_inv {σ : Type} {P : σ → Prop} {cond : σ → Bool} {body : σ → Res σ}
    (hb : ∀ s t, P s → body s = .ok t → P t) :
    ∀ (fuel : Nat) (s t : σ), P s → loop fuel cond body s = .ok t → P t
  | 0, s, t, hs, h => by
    unfold loop at h
    split at h
    · exact absurd h (by simp)
    · injection h with h; exact h ▸ hs
  | fuel + 1, s, t, hs, h => by
    unfold loop at h
    split at h
    · obtain ⟨a, h1, h2⟩ := mbind_eq_ok h
      exact loop_inv hb fuel a t (hb s a hs h1) h2
    · injection h with h; exact h ▸ hs

theorem set_length {α : Type} {a b : List α} {k : Nat} {v : α} (h : set_ a k v = .ok b) :
    b.length = a.length := by
  unfold set_ at h
  split at h
  · injection h with h; rw [← h, List.length_set]
  · exact absurd h (by simp)

namespace Div

theorem setPlus_length {a b : Limbs w × BitVec w} {k : Nat} {v : BitVec w} (h : set a k v = .ok b) :
    b.1.length = a.1.length := by
  unfold set at h
  split at h
  · injection h with h; rw [← h]
  · obtain ⟨l, h1, h2⟩ := mbind_eq_ok h
    injection h2 with h2
    rw [← h2]
    exact set_length h1

theorem fullShl_length {cf : Cfg} {v : Limbs w} {s : Nat} {r : Limbs w × BitVec w}
    (h : fullShl cf v s = .ok r) : r.1.length = v.length := by
  unfold fullShl at h
  obtain ⟨_, _, h⟩ := mbind_eq_ok h
  split at h
  · injection h with h; rw [← h]
  obtain ⟨_, _, h⟩ := mbind_eq_ok h
  obtain ⟨_, _, h⟩ := mbind_eq_ok h
  obtain ⟨out, h0, h⟩ := mbind_eq_ok h
  obtain ⟨S, hS, h⟩ := mbind_eq_ok h
  obtain ⟨_, _, h⟩ := mbind_eq_ok h
  obtain ⟨_, _, h⟩ := mbind_eq_ok h
  obtain ⟨_, _, h⟩ := mbind_eq_ok h
  obtain ⟨_, _, h⟩ := mbind_eq_ok h
  injection h with h
  rw [← h]
  refine loop_inv (P := fun s => s.2.length = v.length) ?_ _ _ _ ?_ hS
  · intro s t hs ht
    obtain ⟨_, _, ht⟩ := mbind_eq_ok ht
    obtain ⟨_, _, ht⟩ := mbind_eq_ok ht
    obtain ⟨_, _, ht⟩ := mbind_eq_ok ht
    obtain ⟨_, _, ht⟩ := mbind_eq_ok ht
    obtain ⟨_, _, ht⟩ := mbind_eq_ok ht
    obtain ⟨_, _, ht⟩ := mbind_eq_ok ht
    obtain ⟨o, ho, ht⟩ := mbind_eq_ok ht
    injection ht with ht
    rw [← ht]
    exact (set_length ho).trans hs
  · exact (set_length h0).trans (by simp)

theorem fullShr_length {cf : Cfg} {a : Limbs w × BitVec w} {s : Nat} {r : Limbs w}
    (h : fullShr cf a s = .ok r) : r.length = a.1.length := by
  unfold fullShr at h
  obtain ⟨_, _, h⟩ := mbind_eq_ok h
  split at h
  · injection h with h; rw [← h]
  obtain ⟨_, _, h⟩ := mbind_eq_ok h
  obtain ⟨S, hS, h⟩ := mbind_eq_ok h
  obtain ⟨_, _, h⟩ := mbind_eq_ok h
  obtain ⟨_, _, h⟩ := mbind_eq_ok h
  obtain ⟨_, _, h⟩ := mbind_eq_ok h
  rw [set_length h]
  refine loop_inv (P := fun s => s.2.length = a.1.length) ?_ _ _ _ (by simp) hS
  intro s t hs ht
  obtain ⟨_, _, ht⟩ := mbind_eq_ok ht
  obtain ⟨_, _, ht⟩ := mbind_eq_ok ht
  obtain ⟨_, _, ht⟩ := mbind_eq_ok ht
  obtain ⟨_, _, ht⟩ := mbind_eq_ok ht
  obtain ⟨_, _, ht⟩ := mbind_eq_ok ht
  obtain ⟨o, ho, ht⟩ := mbind_eq_ok ht
  injection ht with ht
  rw [← ht]
  exact (set_length ho).trans hs

theorem knuthBody_length {cf : Cfg} {d : Limbs w} {n : Nat} {b0 b1 : BitVec w}
    {s t : Nat × (Limbs w × BitVec w) × Limbs w} (h : knuthBody cf d n b0 b1 s = .ok t) :
    t.2.1.1.length = s.2.1.1.length := by
  obtain ⟨j, num, q⟩ := s
  unfold knuthBody at h
  obtain ⟨_, _, h⟩ := mbind_eq_ok h
  obtain ⟨_, _, h⟩ := mbind_eq_ok h
  obtain ⟨_, _, h⟩ := mbind_eq_ok h
  obtain ⟨_, _, h⟩ := mbind_eq_ok h
  obtain ⟨_, _, h⟩ := mbind_eq_ok h
  obtain ⟨_, _, h⟩ := mbind_eq_ok h
  obtain ⟨S, hS, h⟩ := mbind_eq_ok h
  have hSl : S.2.1.1.length = num.1.length := by
    refine loop_inv (P := fun s => s.2.1.1.length = num.1.length) ?_ _ _ _ rfl hS
    intro s t hs ht
    obtain ⟨_, _, ht⟩ := mbind_eq_ok ht
    obtain ⟨_, _, ht⟩ := mbind_eq_ok ht
    obtain ⟨o, ho, ht⟩ := mbind_eq_ok ht
    injection ht with ht
    rw [← ht]
    exact (setPlus_length ho).trans hs
  obtain ⟨i1, num1, c1⟩ := S
  simp only at h hSl
  split at h
  · obtain ⟨_, _, h⟩ := mbind_eq_ok h
    obtain ⟨T, hT, h⟩ := mbind_eq_ok h
    obtain ⟨_, _, h⟩ := mbind_eq_ok h
    obtain ⟨u, hu, h⟩ := mbind_eq_ok h
    obtain ⟨_, _, h⟩ := mbind_eq_ok h
    injection h with h
    rw [← h]
    refine (setPlus_length hu).trans ?_
    refine loop_inv (P := fun s => s.2.1.1.length = num.1.length) ?_ _ _ _ hSl hT
    intro s t hs ht
    obtain ⟨_, _, ht⟩ := mbind_eq_ok ht
    obtain ⟨_, _, ht⟩ := mbind_eq_ok ht
    obtain ⟨o, ho, ht⟩ := mbind_eq_ok ht
    injection ht with ht
    rw [← ht]
    exact (setPlus_length ho).trans hs
  · obtain ⟨_, _, h⟩ := mbind_eq_ok h
    injection h with h
    rw [← h]
    exact hSl

theorem truncate_panic {N : Nat} {v : Limbs w} (h : v.length < N) : truncate N v = .panic := by
  unfold truncate
  rw [show assert (decide (v.length ≥ N)) = .panic by simp [assert]; omega]
  rfl

theorem scalar1_panic (v : BitVec w) : scalar1 0 v = .panic := rfl

/-- The remainder does not fit: `truncate` panics if nothing has before. -/
theorem divRemKnuth_narrow (cf : Cfg) {x y : Limbs w} (n m : Nat) (h : x.length < y.length) :
    divRemKnuth cf x y n m = .panic := by
  cases e : divRemKnuth cf x y n m with
  | panic => rfl
  | ok R =>
    exfalso
    unfold divRemKnuth at e
    obtain ⟨_, _, e⟩ := mbind_eq_ok e
    obtain ⟨_, _, e⟩ := mbind_eq_ok e
    obtain ⟨_, _, e⟩ := mbind_eq_ok e
    obtain ⟨_, _, e⟩ := mbind_eq_ok e
    obtain ⟨num, hn, e⟩ := mbind_eq_ok e
    obtain ⟨_, _, e⟩ := mbind_eq_ok e
    obtain ⟨_, _, e⟩ := mbind_eq_ok e
    obtain ⟨_, _, e⟩ := mbind_eq_ok e
    obtain ⟨_, _, e⟩ := mbind_eq_ok e
    obtain ⟨S, hS, e⟩ := mbind_eq_ok e
    obtain ⟨r, hr, e⟩ := mbind_eq_ok e
    have hSl : S.2.1.1.length = x.length := by
      refine loop_inv (P := fun s => s.2.1.1.length = x.length) ?_ _ _ _ ?_ hS
      · intro s t hs ht
        exact (knuthBody_length ht).trans hs
      · exact fullShl_length hn
    have hrl := fullShr_length hr
    obtain ⟨u, hu, -⟩ := mbind_eq_ok e
    rw [truncate_panic (by rw [hrl]; exact lt_of_eq_of_lt hSl h)] at hu
    exact absurd hu (by simp)

theorem limb_nil (cf : Cfg) (d : BitVec w) : limb cf [] d = .ok ([], 0) := rfl

theorem scalar_ok {N : Nat} (hN : 0 < N) (v : BitVec w) :
    ∃ r, scalar1 N v = .ok r ∧ r.length = N ∧ toNat r = v.toNat := by
  obtain ⟨l, e⟩ := I256.Div.scalar1_spec (N := N) hN v
  exact ⟨_, scalar1_lit hN v, l, e⟩

theorem limb_all (cf : Cfg) (hw : 0 < w) (x : Limbs w) (d : BitVec w) :
    Yields (x ≠ [] ∧ d = 0)
      (fun r => (r.1.length = x.length ∧ toNat r.1 = toNat x / d.toNat) ∧
        r.2.toNat = toNat x % d.toNat)
      (limb cf x d) := by
  by_cases hx : x = []
  · subst hx
    rw [limb_nil]
    exact Yields.ok (by simp) ⟨⟨rfl, by simp⟩, by simp⟩
  · rw [limb_lit cf hw hx]
    refine ⟨fun h => by rw [h.2, I256.Div.limb_zero hx], fun h => ?_⟩
    obtain ⟨q, r, e, hq, vq, vr⟩ := I256.Div.limb_spec (d := d) (fun hd => h ⟨hx, hd⟩) x
    exact ⟨_, e, ⟨hq, vq⟩, vr⟩

theorem limbPadded_all (cf : Cfg) (hw : 0 < w) {N : Nat} (x : Limbs w) (d : BitVec w) :
    Yields (N = 0 ∨ x ≠ [] ∧ d = 0)
      (fun r => (r.1.length = x.length ∧ toNat r.1 = toNat x / d.toNat) ∧
        r.2.length = N ∧ toNat r.2 = toNat x % d.toNat)
      (limbPadded cf N x d) := by
  obtain ⟨h1, h2⟩ := limb_all cf hw x d
  unfold limbPadded
  by_cases hp : x ≠ [] ∧ d = 0
  · rw [h1 hp]
    exact ⟨fun _ => rfl, fun h => absurd (.inr hp) h⟩
  · obtain ⟨⟨q, r⟩, e, hq, hr⟩ := h2 hp
    rw [e]
    simp only [Res.mbind_ok]
    by_cases hN : N = 0
    · subst hN
      exact ⟨fun _ => rfl, fun h => absurd (.inl rfl) h⟩
    · obtain ⟨s, es, sl, sv⟩ := scalar_ok (N := N) (by omega) r
      rw [es]
      exact Yields.ok (by simp [hN]; simpa using hp) ⟨hq, sl, sv.trans hr⟩

theorem isZero_ne {x : Limbs w} (h : toNat x ≠ 0) : isZero x 0 = .ok false := by
  rw [isZero_lit]
  congr 1
  by_contra hc
  have := (I256.Div.isZero_iff x 0).1 (by simpa using hc)
  rw [List.drop_zero] at this
  exact h this

theorem toNat_empty {x : Limbs w} (h : x.length = 0) : toNat x = 0 := by
  rw [List.length_eq_zero_iff.1 h]; rfl

theorem low_limb {y : Limbs w} (h : toNat y < 2 ^ w) : (getLimb y 0).toNat = toNat y := by
  rw [getLimb_toNat, Nat.mul_zero, Nat.pow_zero, Nat.div_one, Nat.mod_eq_of_lt h]

/-- `full_gt` with fewer limbs in the numerator. -/
theorem fullGt_narrow (cf : Cfg) (hw : 0 < w) {x y : Limbs w} (hl : x.length < y.length)
    (hx : x ≠ []) :
    Yields (toNat y = 0 ∨ 2 ^ w ≤ toNat y)
      (fun r => (r.1.length = x.length ∧ toNat r.1 = toNat x / toNat y) ∧
        r.2.length = y.length ∧ toNat r.2 = toNat x % toNat y)
      (fullGt cf x y) := by
  unfold fullGt
  rw [lastIndex_lit]
  simp only [Res.mbind_ok]
  by_cases h0 : I256.Div.lastIndex y = 0
  · rw [if_pos h0, Bits.at_limb (by omega)]
    simp only [Res.mbind_ok]
    have hlt : toNat y < 2 ^ w := by
      by_cases hy : toNat y = 0
      · rw [hy]; positivity
      · have e := I256.Div.lastIndex_spec hw hy
        have := (nLimbs_spec hw hy).2.2
        rwa [← e, h0, Nat.zero_add, Nat.mul_one] at this
    have := limbPadded_all cf hw (N := y.length) x (getLimb y 0)
    rw [low_limb hlt] at this
    refine this.congr ?_
    have e : getLimb y 0 = 0 ↔ toNat y = 0 := by
      rw [← low_limb hlt]
      exact ⟨fun h => by rw [h]; simp, fun h => BitVec.eq_of_toNat_eq (by simpa using h)⟩
    simp only [hx, ne_eq, not_false_eq_true, true_and, e]
    omega
  · rw [if_neg h0, lastIndex_lit]
    simp only [Res.mbind_ok]
    have hy : toNat y ≠ 0 := fun h => h0 (I256.Div.lastIndex_zero h)
    have e := I256.Div.lastIndex_spec hw hy
    have hge : 2 ^ w ≤ toNat y := by
      refine le_trans ?_ (nLimbs_spec hw hy).2.1
      exact Nat.pow_le_pow_right (by omega) (Nat.le_mul_of_pos_right _ (by omega))
    refine ⟨fun _ => ?_, fun h => absurd (.inr hge) h⟩
    unfold usub
    split
    · simp only [Res.mbind_ok]
      exact divRemKnuth_narrow cf _ _ hl
    · rfl

/-- `full` for arrays of any lengths. -/
theorem full_all (cf : Cfg) (hw : 0 < w) (x y : Limbs w) :
    Yields (FullPanics w x.length y.length (toNat x) (toNat y))
      (fun r => (r.1.length = x.length ∧ toNat r.1 = fullQuo y.length (toNat x) (toNat y)) ∧
        (r.2.length = y.length ∧
          toNat r.2 = (toNat x % toNat y + strayRem w x.length (toNat x) (toNat y)) %
            2 ^ (w * y.length)))
      (full cf x y) := by
  have hp1 : 0 < 2 ^ (w * y.length) := by positivity
  by_cases h1 : y.length = 1
  · -- one limb
    rw [full, if_pos h1, Bits.at_limb (by omega)]
    simp only [Res.mbind_ok]
    have hlt : toNat y < 2 ^ w := by have := toNat_lt y; rwa [bits, h1, Nat.mul_one] at this
    have e : getLimb y 0 = 0 ↔ toNat y = 0 := by
      rw [← low_limb hlt]
      exact ⟨fun h => by rw [h]; simp, fun h => BitVec.eq_of_toNat_eq (by simpa using h)⟩
    have hc : Clean w (toNat x) (toNat y) := by
      apply addBack_clean_of_small
      left
      have := nLimbs_le hw y
      omega
    have := limbPadded_all cf hw (N := y.length) x (getLimb y 0)
    rw [low_limb hlt] at this
    refine (this.congr ?_).mono fun r hr => ⟨⟨hr.1.1, ?_⟩, hr.2.1, ?_⟩
    · rw [e, FullPanics, h1]
      have : x ≠ [] ↔ x.length ≠ 0 := by simp
      rw [this]
      omega
    · rw [hr.1.2, fullQuo, if_neg (by omega)]
    · rw [hc.stray, Nat.add_zero, ← hr.2.2, Nat.mod_eq_of_lt]
      have := toNat_lt r.2
      rwa [bits, hr.2.1] at this
  · rw [full, if_neg h1, cmp_lit, I256.Div.cmp_gen]
    simp only [Res.mbind_ok]
    rcases Nat.lt_trichotomy (toNat x) (toNat y) with h | h | h
    · -- the numerator is smaller
      rw [Nat.compare_eq_lt.2 h]
      have hc : Clean w (toNat x) (toNat y) := addBack_clean_of_small (.inr (by omega))
      by_cases hl : x.length < y.length
      · simp only
        rw [truncate_panic hl]
        refine ⟨fun _ => rfl, fun hn => absurd ?_ hn⟩
        unfold FullPanics
        omega
      · simp only
        rw [truncate_lit (by omega)]
        have hy0 : y.length ≠ 0 := fun h0 => by rw [toNat_empty h0] at h; omega
        refine Yields.ok ?_ ⟨⟨by simp, ?_⟩, by simp; omega, ?_⟩
        · rintro (hp | hp | ⟨-, hp | hp | hp | ⟨-, hp⟩⟩)
          · omega
          · omega
          · omega
          · omega
          · omega
          · exact hc.noPanic hp
        · rw [toNat_replicate_zero, fullQuo, if_neg (by omega), Nat.div_eq_of_lt h]
        · rw [toNat_take _ _ (by omega), hc.stray, Nat.add_zero, Nat.mod_eq_of_lt h]
    · -- equal
      rw [Nat.compare_eq_eq.2 h]
      simp only
      have hc : Clean w (toNat x) (toNat y) := addBack_clean_of_small (.inr (by omega))
      by_cases hM : x.length = 0
      · rw [hM, scalar1_panic]
        refine ⟨fun _ => rfl, fun hn => absurd ?_ hn⟩
        unfold FullPanics
        omega
      · obtain ⟨q, eq, ql, qv⟩ := scalar_ok (N := x.length) (by omega) (1 : BitVec w)
        rw [eq]
        simp only [Res.mbind_ok]
        by_cases hN : y.length = 0
        · rw [hN, scalar1_panic]
          refine ⟨fun _ => rfl, fun hn => absurd ?_ hn⟩
          unfold FullPanics
          omega
        · obtain ⟨r, er, rl, rv⟩ := scalar_ok (N := y.length) (by omega) (0 : BitVec w)
          rw [er]
          refine Yields.ok ?_ ⟨⟨ql, ?_⟩, rl, ?_⟩
          · rintro (hp | hp | ⟨-, hp | hp | hp | ⟨-, hp⟩⟩)
            · omega
            · omega
            · omega
            · omega
            · omega
            · exact hc.noPanic hp
          · rw [qv, fullQuo]
            have e1 : (1 : BitVec w).toNat = 1 := by
              simpa using Nat.mod_eq_of_lt (one_lt_two_pow' hw)
            rw [e1]
            split
            · rfl
            · rw [h, Nat.div_self (by omega)]
          · rw [rv, hc.stray, h, Nat.mod_self]; simp
    · -- the numerator is larger
      rw [Nat.compare_eq_gt.2 h]
      simp only
      rw [isZero_ne (by omega)]
      simp only [Res.mbind_ok, Bool.false_eq_true, if_false]
      have hM : x.length ≠ 0 := fun h0 => by rw [toNat_empty h0] at h; omega
      have hx : x ≠ [] := fun h0 => hM (by rw [h0]; rfl)
      by_cases hN : y.length = 0
      · have hy : y = [] := List.length_eq_zero_iff.1 hN
        refine ⟨fun _ => ?_, fun hn => absurd (.inl hN) hn⟩
        subst hy
        rfl
      by_cases hl : x.length < y.length
      · have hn := fullGt_narrow cf hw hl hx
        by_cases hb : toNat y = 0 ∨ 2 ^ w ≤ toNat y
        · refine ⟨fun _ => hn.1 hb, fun hp => absurd ?_ hp⟩
          unfold FullPanics
          omega
        · obtain ⟨R, e, ⟨ql, qv⟩, rl, rv⟩ := hn.2 hb
          have hc : Clean w (toNat x) (toNat y) := by
            apply addBack_clean_of_small
            left
            obtain ⟨n1, n2, -⟩ := nLimbs_spec hw (y := toNat y) (by omega)
            by_contra hcc
            have : 2 ^ w ≤ 2 ^ (w * (nLimbs w (toNat y) - 1)) :=
              Nat.pow_le_pow_right (by omega) (Nat.le_mul_of_pos_right _ (by omega))
            omega
          rw [e]
          refine Yields.ok ?_ ⟨⟨ql, ?_⟩, rl, ?_⟩
          · rintro (hp | hp | ⟨-, hp | hp | hp | ⟨-, hp⟩⟩)
            · omega
            · omega
            · omega
            · omega
            · omega
            · exact hc.noPanic hp
          · rw [qv, fullQuo, if_neg (by omega)]
          · rw [hc.stray, Nat.add_zero, ← rv, Nat.mod_eq_of_lt]
            have := toNat_lt R.2
            rwa [bits, rl] at this
      · by_cases hy : toNat y = 0
        · refine ⟨fun _ => ?_, fun hp => absurd ?_ hp⟩
          · have h0 : getLimb y 0 = 0 := by
              apply BitVec.eq_of_toNat_eq
              rw [getLimb_toNat, hy]; simp
            unfold fullGt
            rw [lastIndex_lit, I256.Div.lastIndex_zero hy]
            simp only [Res.mbind_ok, if_true]
            rw [Bits.at_limb (by omega)]
            simp only [Res.mbind_ok]
            rw [h0]
            exact (limbPadded_all cf hw x 0).1 (.inr ⟨hx, rfl⟩)
          · unfold FullPanics
            omega
        · rw [fullGt_lit cf hw (by intro h0; rw [h0] at hN; simp at hN) (by omega) (by omega)]
          refine ((I256.Div.fullGt_gen hw hy h (by omega) (by omega)).congr ?_).mono
            fun r hr => ⟨⟨hr.1.1, ?_⟩, hr.2⟩
          · unfold FullPanics
            constructor
            · intro hp; exact .inr (.inr ⟨by omega, .inr (.inr (.inr ⟨by omega, hp⟩))⟩)
            · rintro (hp | hp | ⟨-, hp | hp | hp | ⟨-, hp⟩⟩)
              · omega
              · omega
              · omega
              · omega
              · omega
              · exact hp
          · rw [hr.1.2, fullQuo, if_neg (by omega)]

/-- `wide` for a numerator of any length. -/
theorem wideDiv_all (cf : Cfg) (hw : 0 < w) (x : Limbs w) (d : BitVec (w + w)) :
    Yields (WidePanics w x.length (toNat x) d.toNat)
      (fun r => (r.1.length = x.length ∧ toNat r.1 = wideQuo x.length (toNat x) d.toNat) ∧
        r.2.toNat = toNat x % d.toNat)
      (wideDiv cf x d) := by
  have hd0 : d = 0 ↔ d.toNat = 0 :=
    ⟨fun h => by rw [h]; simp, fun h => BitVec.eq_of_toNat_eq (by simpa using h)⟩
  by_cases h2 : 2 ≤ x.length
  · rw [wideDiv_lit cf hw h2]
    by_cases hd : d = 0
    · obtain ⟨h1, h0⟩ := I256.Div.wideDiv_zero hw h2
      have hdn := hd0.1 hd
      obtain ⟨l0, v0⟩ := I256.Div.scalar1_spec (N := x.length) (by omega) (0 : BitVec w)
      by_cases hx : toNat x = 0
      · rw [hd, h0 hx]
        refine Yields.ok ?_ ⟨⟨l0, ?_⟩, ?_⟩
        · rintro (hp | hp | ⟨-, hp | hp⟩)
          · omega
          · omega
          · omega
          · exact (addBack_clean_of_small (.inr (by omega))).noPanic hp
        · rw [v0, wideQuo, if_neg (by omega), hx]; simp
        · rw [hx]; simp
      · rw [hd, h1 hx]
        refine ⟨fun _ => rfl, fun hp => absurd ?_ hp⟩
        exact .inr (.inr ⟨h2, .inl ⟨by simp, hx⟩⟩)
    · refine ((I256.Div.wideDiv_spec hw h2 hd).congr ?_).mono fun r hr => ⟨⟨hr.1.1, ?_⟩, hr.2⟩
      · unfold WidePanics
        rw [hd0] at hd
        constructor
        · intro hp; exact .inr (.inr ⟨h2, .inr hp⟩)
        · rintro (hp | hp | ⟨-, hp | hp⟩)
          · omega
          · omega
          · omega
          · exact hp
      · rw [hr.1.2, wideQuo, if_neg (by omega)]
  · unfold wideDiv
    obtain ⟨yl, yv⟩ := I256.Div.scalar2_spec (N := 2) (Nat.le_refl 2) d
    rw [isZero_lit]
    simp only [Res.mbind_ok, decide_eq_false h2, Bool.false_and, Bool.false_eq_true, if_false, ge_iff_le]
    rw [scalar2_lit cf hw (Nat.le_refl 2)]
    simp only [Res.mbind_ok]
    rw [cmp_lit, I256.Div.cmp_gen, yv]
    simp only [Res.mbind_ok]
    rcases Nat.lt_trichotomy (toNat x) d.toNat with h | h | h
    · rw [Nat.compare_eq_lt.2 h]
      simp only
      rw [truncate_panic (by omega)]
      refine ⟨fun _ => rfl, fun hp => absurd ?_ hp⟩
      unfold WidePanics
      omega
    · rw [Nat.compare_eq_eq.2 h]
      simp only
      by_cases hM : x.length = 0
      · rw [hM, scalar1_panic]
        exact ⟨fun _ => rfl, fun hp => absurd (.inl rfl) hp⟩
      · obtain ⟨q, eq, ql, qv⟩ := scalar_ok (N := x.length) (by omega) (1 : BitVec w)
        rw [eq]
        refine Yields.ok ?_ ⟨⟨ql, ?_⟩, ?_⟩
        · unfold WidePanics
          omega
        · rw [qv, wideQuo]
          have e1 : (1 : BitVec w).toNat = 1 := by
            simpa using Nat.mod_eq_of_lt (one_lt_two_pow' hw)
          rw [e1]
          split
          · rfl
          · rw [h, Nat.div_self (by omega)]
        · rw [h, Nat.mod_self]; simp
    · rw [Nat.compare_eq_gt.2 h]
      simp only
      have hM : x.length ≠ 0 := fun h0 => by rw [toNat_empty h0] at h; omega
      have hx : x ≠ [] := fun h0 => hM (by rw [h0]; rfl)
      have hlt : toNat x < 2 ^ w := by
        have := toNat_lt x
        rwa [bits, show x.length = 1 by omega, Nat.mul_one] at this
      have hn := fullGt_narrow cf hw (x := x) (y := I256.Div.scalar2 2 d) (by omega) hx
      rw [yv] at hn
      by_cases hd : d.toNat = 0
      · rw [hn.1 (.inl hd)]
        refine ⟨fun _ => rfl, fun hp => absurd ?_ hp⟩
        unfold WidePanics
        omega
      · obtain ⟨⟨q, r⟩, e, ⟨ql, qv⟩, rl, rv⟩ := hn.2 (by omega)
        simp only at ql qv rl rv
        rw [e]
        simp only [Res.mbind_ok]
        rw [low2_lit cf hw (by omega)]
        refine Yields.ok ?_ ⟨⟨ql, ?_⟩, ?_⟩
        · unfold WidePanics
          omega
        · simp only
          rw [qv, wideQuo, if_neg (by omega)]
        · simp only
          rw [I256.Div.low2_toNat r (by omega), List.take_of_length_le (by omega), rv]

/-- `from_u128` for a numerator of any length, with limbs of 32 bits. -/
theorem fromU128_all (cf : Cfg) (x : Limbs 32) (d : BitVec 128) :
    Yields (U128Panics x.length (toNat x) d.toNat)
      (fun r => (r.1.length = x.length ∧ toNat r.1 = toNat x / d.toNat) ∧
        r.2.toNat = (toNat x % d.toNat + strayRem 32 x.length (toNat x) d.toNat) % 2 ^ 128)
      (fromU128 cf x d) := by
  have hw : 0 < 32 := by decide
  have hd0 : d = 0 ↔ d.toNat = 0 :=
    ⟨fun h => by rw [h]; simp, fun h => BitVec.eq_of_toNat_eq (by simpa using h)⟩
  by_cases h4 : 4 ≤ x.length
  · rw [fromU128_lit cf h4]
    by_cases hd : d = 0
    · obtain ⟨h1, h0⟩ := I256.Div.fromU128_zero h4
      have hdn := hd0.1 hd
      obtain ⟨l0, v0⟩ := I256.Div.scalar1_spec (N := x.length) (by omega) (0 : BitVec 32)
      by_cases hx : toNat x = 0
      · have hc : Clean 32 (toNat x) d.toNat := addBack_clean_of_small (.inr (by omega))
        rw [hc.stray, hd, h0 hx, hx]
        refine Yields.ok ?_ ⟨⟨l0, by rw [v0]; simp⟩, by simp⟩
        rintro (hp | hp | hp | ⟨-, hp⟩)
        · exact hp.2 rfl
        · omega
        · exact hp.2 rfl
        · exact (addBack_clean_of_small (.inr (by simp))).noPanic hp
      · rw [hd, h1 hx]
        refine ⟨fun _ => rfl, fun hp => absurd ?_ hp⟩
        exact .inl ⟨by simp, hx⟩
    · refine (I256.Div.fromU128_gen h4 hd).congr ?_
      have hdn : d.toNat ≠ 0 := fun h => hd (hd0.2 h)
      unfold U128Panics
      constructor
      · intro hp
        have hM : x.length = 4 := by
          obtain ⟨n1, n2, n3⟩ := nLimbs_spec hw hdn
          have h3 := (Nat.pow_lt_pow_iff_right (a := 2) (by omega)).1 (lt_of_le_of_lt n2 d.isLt)
          have := hp.1
          omega
        rw [hM] at hp
        exact .inr (.inr (.inr ⟨hM, hp⟩))
      · rintro (hp | hp | hp | ⟨hM, hp⟩)
        · omega
        · omega
        · omega
        · rwa [hM]
  · unfold fromU128
    rw [assert_ok (by decide), isZero_lit]
    simp only [Res.mbind_ok]
    have hs : ∀ v, scalarU128 (w := 32) cf x.length v = .panic := by
      intro v
      unfold scalarU128
      rw [show assert (decide (x.length ≥ 4)) = .panic by simp [assert]; omega]
      rfl
    have hu : u128Scalar cf x = .panic := by
      unfold u128Scalar
      rw [show assert (decide (x.length ≥ 4)) = .panic by simp [assert]; omega]
      rfl
    by_cases h : 2 ≤ x.length ∧ I256.Div.isZero x 2 = true
    · rw [if_pos (by simp [h]), Bits.at_limb (by omega), Bits.at_limb (by omega)]
      simp only [Res.mbind_ok]
      have hsp := I256.Div.toNat_split x (i := 2) h.1
      have hz' := (I256.Div.isZero_iff _ _).1 h.2
      have hlow := I256.Div.low2_toNat x h.1
      rw [hz', Nat.mul_zero, Nat.add_zero, ← hlow] at hsp
      by_cases hz : getLimb x 0 = 0 ∧ getLimb x 1 = 0
      · have hx0 : toNat x = 0 := by rw [hsp, I256.Div.low2, hz.1, hz.2]; simp [wide]
        obtain ⟨q, eq, ql, qv⟩ := scalar_ok (N := x.length) (by omega) (0 : BitVec 32)
        rw [if_pos (by simp [hz]), eq]
        have hc : Clean 32 (toNat x) d.toNat := addBack_clean_of_small (.inr (by omega))
        rw [hc.stray]
        refine Yields.ok ?_ ⟨⟨ql, ?_⟩, ?_⟩
        · unfold U128Panics
          omega
        · simp only
          rw [qv, hx0]; simp
        · simp [hx0]
      · rw [if_neg (by simpa using hz), hu]
        refine ⟨fun _ => rfl, fun hp => absurd (.inr (.inr (.inl ⟨by omega, ?_⟩))) hp⟩
        intro hx0
        apply hz
        have : ∀ k, getLimb x k = 0 := fun k => by
          apply BitVec.eq_of_toNat_eq
          rw [getLimb_toNat, hx0]; simp
        exact ⟨this 0, this 1⟩
    · rw [if_neg (by simpa using h), hs]
      refine ⟨fun _ => rfl, fun hp => absurd ?_ hp⟩
      by_cases h2 : 2 ≤ x.length
      · right; right; left
        refine ⟨by omega, fun hx0 => h ⟨h2, (I256.Div.isZero_iff _ _).2 ?_⟩⟩
        have hsp := I256.Div.toNat_split x (i := 2) h2
        rw [hx0] at hsp
        have : 2 ^ (32 * 2) * toNat (x.drop 2) = 0 := by omega
        exact (Nat.mul_eq_zero.1 this).resolve_left (by positivity)
      · exact .inr (.inl (by omega))

end Div

end Raw

end I256
