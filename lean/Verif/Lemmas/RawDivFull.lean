import Verif.Lemmas.RawKnuth

/-!
# The literal division functions compute what the functional model computes
-/

namespace I256

variable {w : Nat}

namespace Raw

namespace Div

theorem isZeroLoop_lit (x : Limbs w) : ∀ (k i fuel : Nat) (z : Bool), x.length - i = k → k ≤ fuel →
    ∃ i', loop fuel (fun s => decide (s.1 < x.length)) (fun (i, zero) => do
        let a ← at_ x i
        .ok (i + 1, zero && a == 0)) (i, z) = .ok (i', z && I256.Div.isZero x i)
  | 0, i, fuel, z, hk, _ => by
    refine ⟨i, ?_⟩
    rw [loop_done (by simp; omega), I256.Div.isZero, List.drop_eq_nil_of_le (by omega)]
    simp
  | k + 1, i, fuel, z, hk, hf => by
    obtain ⟨fuel, rfl⟩ : ∃ m, fuel = m + 1 := ⟨fuel - 1, by omega⟩
    obtain ⟨i', h⟩ := isZeroLoop_lit x k (i + 1) fuel (z && x[i]'(by omega) == 0) (by omega) (by omega)
    refine ⟨i', ?_⟩
    rw [loop_step (t := (i + 1, z && x[i]'(by omega) == 0)) (by simp; omega), h]
    · congr 2
      rw [I256.Div.isZero, I256.Div.isZero, List.drop_eq_getElem_cons (i := i) (by omega),
        List.all_cons, Bool.and_assoc]
    · simp only
      rw [at_ok (by omega)]
      rfl

theorem isZero_lit (x : Limbs w) (i : Nat) : isZero x i = .ok (I256.Div.isZero x i) := by
  obtain ⟨i', h⟩ := isZeroLoop_lit x (x.length - i) i x.length true rfl (by omega)
  unfold isZero
  refine (congrArg (fun r => Res.bind r _) h).trans ?_
  simp

theorem isZero_all (x : Limbs w) (i : Nat) :
    I256.Div.isZero x i = true ↔ ∀ k, i ≤ k → k < x.length → getLimb x k = 0 := by
  unfold I256.Div.isZero
  rw [List.all_eq_true]
  constructor
  · intro h k h1 h2
    have := h x[k] (List.mem_drop_iff_getElem.2 ⟨k - i, by omega, by congr 1; omega⟩)
    simpa [getLimb, h2] using this
  · intro h a ha
    obtain ⟨k, hk, rfl⟩ := List.mem_drop_iff_getElem.1 ha
    have := h (i + k) (by omega) (by omega)
    have hl : i + k < x.length := by omega
    simpa [getLimb, hl] using this

theorem lastLoop_lit (x : Limbs w) : ∀ (i fuel : Nat), i ≤ x.length → i ≤ fuel →
    ∃ i' ret, loop fuel (fun s => decide (s.1 > 0) && s.2.isNone) (fun (i, _) => do
        let i ← usub i 1
        let a ← at_ x i
        .ok (i, if a != 0 then some i else none)) (i, (none : Option Nat)) = .ok (i', ret) ∧
      ret.getD 0 = I256.Div.lastLoop x i
  | 0, fuel, _, _ => ⟨0, none, loop_done (by simp), rfl⟩
  | i + 1, fuel, hi, hf => by
    obtain ⟨fuel, rfl⟩ : ∃ m, fuel = m + 1 := ⟨fuel - 1, by omega⟩
    rw [loop_step (t := (i, if getLimb x i != 0 then some i else none)) (by simp)]
    · rw [I256.Div.lastLoop]
      by_cases h : (getLimb x i != 0) = true
      · rw [if_pos h, if_pos h]
        exact ⟨i, some i, loop_done (by simp), rfl⟩
      · rw [if_neg h, if_neg h]
        exact lastLoop_lit x i fuel (by omega) (by omega)
    · simp only
      rw [usub_ok (by omega)]
      simp only [Res.mbind_ok, Nat.add_sub_cancel]
      rw [Bits.at_limb (by omega)]
      rfl

theorem lastIndex_lit (x : Limbs w) : lastIndex x = .ok (I256.Div.lastIndex x) := by
  obtain ⟨i', ret, h, hr⟩ := lastLoop_lit x x.length x.length (Nat.le_refl _) (Nat.le_refl _)
  unfold lastIndex
  refine (congrArg (fun r => Res.bind r _) h).trans ?_
  simp only [Res.bind_ok, hr, I256.Div.lastIndex]

theorem cmpUpper_lit (x : Limbs w) (N : Nat) : ∀ (i fuel : Nat), N ≤ i → i ≤ x.length → i ≤ fuel →
    ∃ i' ret, loop fuel (fun s => decide (s.1 > N) && s.2.isNone) (fun (i, _) => do
        let i ← usub i 1
        let a ← at_ x i
        .ok (i, if (0 : BitVec w).ult a then some Ordering.gt else none))
        (i, (none : Option Ordering)) = .ok (i', ret) ∧
      ((ret = none ∧ i' = N ∧ ∀ k, N ≤ k → k < i → getLimb x k = 0) ∨
        (ret = some .gt ∧ ∃ k, N ≤ k ∧ k < i ∧ getLimb x k ≠ 0)) := by
  intro i
  induction i with
  | zero =>
    intro fuel h1 _ _
    exact ⟨0, none, loop_done (by simp), Or.inl ⟨rfl, by omega, by omega⟩⟩
  | succ i ih =>
    intro fuel h1 h2 hf
    by_cases hN : N = i + 1
    · exact ⟨i + 1, none, loop_done (by simp [hN]), Or.inl ⟨rfl, hN.symm, by omega⟩⟩
    · obtain ⟨fuel, rfl⟩ : ∃ m, fuel = m + 1 := ⟨fuel - 1, by omega⟩
      rw [loop_step (t := (i, if (0 : BitVec w).ult (getLimb x i) then some .gt else none))
        (by simp; omega)]
      · by_cases hz : getLimb x i = 0
        · have : (0 : BitVec w).ult (getLimb x i) = false := by rw [hz]; simp [BitVec.ult]
          rw [if_neg (by rw [this]; simp)]
          obtain ⟨i', ret, h, hr⟩ := ih fuel (by omega) (by omega) (by omega)
          refine ⟨i', ret, h, ?_⟩
          rcases hr with ⟨r1, r2, r3⟩ | ⟨r1, k, r2, r3, r4⟩
          · refine Or.inl ⟨r1, r2, fun k k1 k2 => ?_⟩
            by_cases hk : k = i
            · rw [hk, hz]
            · exact r3 k k1 (by omega)
          · exact Or.inr ⟨r1, k, r2, by omega, r4⟩
        · have : (0 : BitVec w).ult (getLimb x i) = true := by
            have : (getLimb x i).toNat ≠ 0 := fun h => hz (BitVec.eq_of_toNat_eq (by simpa using h))
            simp [BitVec.ult]
            omega
          rw [if_pos this]
          exact ⟨i, some .gt, loop_done (by simp), Or.inr ⟨rfl, i, by omega, by omega, hz⟩⟩
      · simp only
        rw [usub_ok (by omega)]
        simp only [Res.mbind_ok, Nat.add_sub_cancel]
        rw [Bits.at_limb (by omega)]
        rfl

theorem cmpLoop_lit (x y : Limbs w) : ∀ (i fuel : Nat), i ≤ x.length → i ≤ y.length → i ≤ fuel →
    ∃ i' ret, loop fuel (fun s => decide (s.1 > 0) && s.2.isNone) (fun (i, _) => do
        let i ← usub i 1
        let a ← at_ x i
        let b ← at_ y i
        .ok (i, if b.ult a then some Ordering.gt else if a.ult b then some .lt else none))
        (i, (none : Option Ordering)) = .ok (i', ret) ∧
      ret.getD Ordering.eq = I256.Div.cmpLoop x y i
  | 0, fuel, _, _, _ => ⟨0, none, loop_done (by simp), rfl⟩
  | i + 1, fuel, hx, hy, hf => by
    obtain ⟨fuel, rfl⟩ : ∃ m, fuel = m + 1 := ⟨fuel - 1, by omega⟩
    rw [loop_step (t := (i, if (getLimb y i).ult (getLimb x i) then some Ordering.gt
      else if (getLimb x i).ult (getLimb y i) then some .lt else none)) (by simp)]
    · rw [I256.Div.cmpLoop]
      by_cases h1 : (getLimb y i).ult (getLimb x i) = true
      · rw [if_pos h1, if_pos h1]
        exact ⟨i, some .gt, loop_done (by simp), rfl⟩
      · rw [if_neg h1, if_neg h1]
        by_cases h2 : (getLimb x i).ult (getLimb y i) = true
        · rw [if_pos h2, if_pos h2]
          exact ⟨i, some .lt, loop_done (by simp), rfl⟩
        · rw [if_neg h2, if_neg h2]
          exact cmpLoop_lit x y i fuel (by omega) (by omega) (by omega)
    · simp only
      rw [usub_ok (by omega)]
      simp only [Res.mbind_ok, Nat.add_sub_cancel]
      rw [Bits.at_limb (by omega), Bits.at_limb (by omega)]
      rfl

theorem cmpGe_lit {x y : Limbs w} (h : y.length ≤ x.length) :
    cmpGe x y = .ok (I256.Div.cmpGe x y) := by
  obtain ⟨i', ret, h1, hr⟩ := cmpUpper_lit x y.length x.length x.length h (Nat.le_refl _)
    (Nat.le_refl _)
  unfold cmpGe I256.Div.cmpGe
  refine (congrArg (fun r => Res.bind r _) h1).trans ?_
  simp only [Res.bind_ok]
  rcases hr with ⟨rfl, rfl, hz⟩ | ⟨rfl, k, k1, k2, k3⟩
  · rw [if_pos ((isZero_all x _).2 hz)]
    obtain ⟨i', ret, h2, hr⟩ := cmpLoop_lit x y y.length x.length h (Nat.le_refl _) h
    refine (congrArg (fun r => Res.bind r _) h2).trans ?_
    simp only [Res.bind_ok, hr]
  · rw [if_neg (fun hz => k3 ((isZero_all x _).1 hz k k1 k2))]

theorem cmp_lit (x y : Limbs w) : cmp x y = .ok (I256.Div.cmp x y) := by
  unfold cmp I256.Div.cmp
  split
  · rw [cmpGe_lit (by omega)]; rfl
  · rw [cmpGe_lit (by omega)]

theorem scalar1_lit {N : Nat} (hN : 0 < N) (v : BitVec w) :
    scalar1 N v = .ok (I256.Div.scalar1 N v) := by
  unfold scalar1
  rw [assert_ok (decide_eq_true hN)]
  simp only [Res.mbind_ok]
  rw [Raw.set_ok (by simpa using hN)]
  obtain ⟨n, rfl⟩ : ∃ n, N = n + 1 := ⟨N - 1, by omega⟩
  simp [I256.Div.scalar1, List.replicate_succ]

theorem scalar2_lit (cf : Cfg) (hw : 0 < w) {N : Nat} (hN : 2 ≤ N) (v : BitVec (w + w)) :
    scalar2 cf N v = .ok (I256.Div.scalar2 N v) := by
  unfold scalar2
  rw [assert_ok (decide_eq_true (by omega))]
  simp only [Res.mbind_ok]
  rw [Raw.set_ok (by simp; omega), shr_ok cf _ (by omega)]
  simp only [Res.mbind_ok]
  rw [Raw.set_ok (by simp; omega)]
  obtain ⟨n, rfl⟩ : ∃ n, N = n + 2 := ⟨N - 2, by omega⟩
  simp [I256.Div.scalar2, List.replicate_succ, loLimb, hiLimb]

theorem low2_lit (cf : Cfg) (hw : 0 < w) {x : Limbs w} (h : 2 ≤ x.length) :
    low2 cf x = .ok (I256.Div.low2 x) := by
  unfold low2
  rw [Bits.at_limb (by omega), Bits.at_limb (by omega)]
  simp only [Res.mbind_ok]
  rw [shl_ok cf _ (by omega)]
  rfl

theorem divRem_lit {n : Nat} (a b : BitVec n) : divRem a b = I256.Div.nativeDivRem a b := rfl

/-! ### Division by one limb -/

theorem limbLoop_lit (cf : Cfg) (hw : 0 < w) {d : BitVec w} (hd : d ≠ 0) (x : Limbs w) :
    ∀ (i fuel : Nat) (qs : Limbs w) (r : BitVec w), i ≤ x.length → i ≤ fuel →
    I256.Div.limbLoop d (x.drop i) = .ok (qs, r) →
    loop fuel (fun s => decide (s.1 > 0)) (fun (i, num, r) => do
        let i ← usub i 1
        let a ← at_ num i
        let (q, r) ← divRemWord cf r a d
        let num ← set_ num i q
        .ok (i, num, r)) (i, x.take i ++ qs, r) =
      (I256.Div.limbLoop d x).map fun r => (0, r.1, r.2)
  | 0, fuel, qs, r, _, _, h => by
    rw [loop_done (by simp)]
    rw [List.drop_zero] at h
    rw [h]
    simp
  | i + 1, fuel, qs, r, hi, hf, h => by
    obtain ⟨fuel, rfl⟩ : ∃ m, fuel = m + 1 := ⟨fuel - 1, by omega⟩
    obtain ⟨q', r', e1, -, -, hr⟩ := I256.Div.limbLoop_spec hd (x.drop (i + 1))
    rw [h] at e1
    injection e1 with e1
    injection e1 with _ e1
    have hd0 : 0 < d.toNat := by
      rcases Nat.eq_zero_or_pos d.toNat with h | h
      · exact absurd (BitVec.eq_of_toNat_eq (by simpa using h)) hd
      · exact h
    have hlt : r.toNat < d.toNat := by rw [e1, hr]; exact Nat.mod_lt _ hd0
    obtain ⟨q, r2, e2, -, -⟩ := I256.Div.divRemWord_ok (lo := getLimb x i) hlt
    have hdrop : I256.Div.limbLoop d (x.drop i) = .ok (q :: qs, r2) := by
      rw [List.drop_eq_getElem_cons (i := i) (by omega), I256.Div.limbLoop, h]
      simp only [Res.bind_ok]
      have : x[i]'(by omega) = getLimb x i := by simp [getLimb, show i < x.length by omega]
      rw [this, e2]
      rfl
    have htk : x.take (i + 1) = x.take i ++ [getLimb x i] := by
      rw [List.take_succ_eq_append_getElem (by omega)]
      simp [getLimb, show i < x.length by omega]
    have hil : (x.take i).length = i := by simp; omega
    rw [loop_step (t := (i, x.take i ++ q :: qs, r2)) (by simp),
      limbLoop_lit cf hw hd x i fuel (q :: qs) r2 (by omega) (by omega) hdrop]
    simp only
    rw [usub_ok (by omega)]
    simp only [Res.mbind_ok, Nat.add_sub_cancel]
    rw [htk, List.append_assoc, List.singleton_append, Bits.at_limb (by simp; omega),
      getLimb_append_right hil]
    simp only [Res.mbind_ok]
    rw [divRemWord_eq hw cf _ (Or.inl hlt), e2]
    simp only [Res.mbind_ok]
    rw [Raw.set_ok (by simp; omega), List.set_append_right _ _ (by omega), hil]
    simp

theorem limb_lit (cf : Cfg) (hw : 0 < w) {x : Limbs w} (hx : x ≠ []) (d : BitVec w) :
    limb cf x d = I256.Div.limb x d := by
  unfold limb I256.Div.limb
  simp only
  rw [isZero_lit]
  simp only [Res.mbind_ok]
  by_cases h : 2 ≤ x.length ∧ I256.Div.isZero x 2 = true
  · rw [if_pos (by simp [h]), if_pos h, low2_lit cf hw h.1]
    simp only [Res.mbind_ok]
    rw [divRem_lit]
    cases I256.Div.nativeDivRem (I256.Div.low2 x) (wide d) with
    | panic => rfl
    | ok R =>
      obtain ⟨q, r⟩ := R
      simp only [Res.mbind_ok, Res.bind_ok]
      rw [scalar2_lit cf hw h.1]
      rfl
  · rw [if_neg (by simpa using h), if_neg h]
    have hpos : 0 < x.length := List.length_pos_iff.2 hx
    by_cases hd : d = 0
    · subst hd
      rw [I256.Div.limbLoop_zero hx]
      rw [loop_panic (by simp; omega)]
      · rfl
      · simp only
        rw [usub_ok (by omega)]
        simp only [Res.mbind_ok]
        rw [Bits.at_limb (by omega)]
        simp only [Res.mbind_ok]
        rw [divRemWord_eq hw cf _ (Or.inr rfl), I256.Div.divRemWord_zero]
        rfl
    · have := limbLoop_lit cf hw hd x x.length x.length [] 0 (Nat.le_refl _) (Nat.le_refl _)
        (by rw [List.drop_length]; rfl)
      rw [List.take_length, List.append_nil] at this
      refine (congrArg (fun r => Res.bind r _) this).trans ?_
      cases I256.Div.limbLoop d x <;> rfl

theorem limbPadded_lit (cf : Cfg) (hw : 0 < w) {N : Nat} (hN : 0 < N) {x : Limbs w} (hx : x ≠ [])
    (d : BitVec w) : limbPadded cf N x d = I256.Div.limbPadded N x d := by
  unfold limbPadded I256.Div.limbPadded
  rw [limb_lit cf hw hx]
  cases I256.Div.limb x d with
  | panic => rfl
  | ok R =>
    obtain ⟨q, r⟩ := R
    simp only [Res.mbind_ok, Res.bind_ok]
    rw [scalar1_lit hN]
    rfl

/-! ### Full division -/

theorem fullGt_lit (cf : Cfg) (hw : 0 < w) {x y : Limbs w} (hy : y ≠ []) (hl : y.length ≤ x.length)
    (hgt : toNat y ≤ toNat x) : fullGt cf x y = I256.Div.fullGt x y := by
  have hyp : 0 < y.length := List.length_pos_iff.2 hy
  have hx : x ≠ [] := by
    rintro rfl
    rw [List.length_nil] at hl
    omega
  unfold fullGt I256.Div.fullGt
  rw [lastIndex_lit]
  simp only [Res.mbind_ok]
  by_cases h0 : I256.Div.lastIndex y = 0
  · rw [if_pos h0, if_pos h0, Bits.at_limb hyp]
    simp only [Res.mbind_ok]
    exact limbPadded_lit cf hw hyp hx _
  · rw [if_neg h0, if_neg h0, lastIndex_lit]
    simp only [Res.mbind_ok]
    have hy0 : toNat y ≠ 0 := fun h => h0 (I256.Div.lastIndex_zero h)
    have e1 := I256.Div.lastIndex_spec hw hy0
    have e2 := I256.Div.lastIndex_spec hw (x := x) (by omega)
    have e3 := nLimbs_mono hw hgt hy0
    have e4 := nLimbs_le hw y
    rw [usub_ok (by omega)]
    simp only [Res.mbind_ok]
    obtain ⟨-, hc, -⟩ := I256.Div.clz_norm hw hy0
    rw [← e1] at hc
    exact divRemKnuth_lit cf hw (by omega) (by omega) hl hc

theorem fullGt_rem_length (hw : 0 < w) {x y q r : Limbs w} (hy : y ≠ [])
    (hl : y.length ≤ x.length) (hgt : toNat y ≤ toNat x) (h : I256.Div.fullGt x y = .ok (q, r)) :
    r.length = y.length := by
  have hyp : 0 < y.length := List.length_pos_iff.2 hy
  unfold I256.Div.fullGt at h
  simp only at h
  split at h
  · unfold I256.Div.limbPadded at h
    cases hL : I256.Div.limb x (getLimb y 0) with
    | panic => rw [hL] at h; simp at h
    | ok R =>
      rw [hL] at h
      simp only [Res.bind_ok] at h
      injection h with h
      injection h with _ h
      rw [← h]
      simp [I256.Div.scalar1]
      omega
  · rename_i h0
    have hy0 : toNat y ≠ 0 := fun h => h0 (I256.Div.lastIndex_zero h)
    have e1 := I256.Div.lastIndex_spec hw hy0
    obtain ⟨-, hc, -⟩ := I256.Div.clz_norm hw hy0
    rw [← e1] at hc
    unfold I256.Div.divRemKnuth at h
    split at h
    · rename_i hm
      simp only at h
      set s := clz (getLimb y (I256.Div.lastIndex y + 1 - 1)) with hs
      have hnl := (I256.Div.fullShl_spec hc x).1
      cases hK : I256.Div.knuthLoop (I256.Div.shlWord y s) (I256.Div.lastIndex y + 1)
          (I256.Div.lastIndex x - I256.Div.lastIndex y + 1) (I256.Div.fullShl x s) [] with
      | panic => rw [hK] at h; simp at h
      | ok R =>
        have hk := knuthLoop_length _ _ _ (by omega) hK
        rw [hK] at h
        simp only [Res.bind_ok] at h
        injection h with h
        injection h with _ h
        rw [← h, List.length_take, (I256.Div.fullShr_spec hc R.2).1]
        omega
    · simp at h

theorem full_lit (cf : Cfg) (hw : 0 < w) {x y : Limbs w} (hy : y ≠ []) (hl : y.length ≤ x.length) :
    full cf x y = I256.Div.full x y := by
  have hyp : 0 < y.length := List.length_pos_iff.2 hy
  have hx : x ≠ [] := by
    rintro rfl
    rw [List.length_nil] at hl
    omega
  unfold full I256.Div.full
  by_cases h1 : y.length = 1
  · rw [if_pos h1, if_pos h1, Bits.at_limb hyp]
    simp only [Res.mbind_ok]
    exact limbPadded_lit cf hw hyp hx _
  · rw [if_neg h1, if_neg h1, cmp_lit]
    simp only [Res.mbind_ok]
    have hc := I256.Div.cmp_spec hl
    cases h : I256.Div.cmp x y with
    | lt =>
      simp only
      rw [truncate_lit hl]
      rfl
    | eq =>
      simp only
      rw [scalar1_lit (by omega), scalar1_lit hyp]
      rfl
    | gt =>
      simp only
      rw [isZero_lit]
      simp only [Res.mbind_ok]
      rw [h] at hc
      have hgt := Nat.compare_eq_gt.1 hc.symm
      split
      · rw [scalar1_lit (by omega), scalar1_lit hyp]
        rfl
      · exact fullGt_lit cf hw hy hl (by omega)

theorem wideDiv_lit (cf : Cfg) (hw : 0 < w) {x : Limbs w} (hx : 2 ≤ x.length)
    (d : BitVec (w + w)) : wideDiv cf x d = I256.Div.wideDiv x d := by
  unfold wideDiv I256.Div.wideDiv
  simp only
  rw [isZero_lit]
  simp only [Res.mbind_ok]
  by_cases h : 2 ≤ x.length ∧ I256.Div.isZero x 2 = true
  · rw [if_pos (by simp [h]), if_pos h, Bits.at_limb (by omega), Bits.at_limb (by omega)]
    simp only [Res.mbind_ok]
    by_cases hz : getLimb x 0 = 0 ∧ getLimb x 1 = 0
    · rw [if_pos (by simp [hz]), if_pos hz, scalar1_lit (by omega)]
      rfl
    · rw [if_neg (by simpa using hz), if_neg hz, low2_lit cf hw hx]
      simp only [Res.mbind_ok]
      rw [divRem_lit]
      cases I256.Div.nativeDivRem (I256.Div.low2 x) d with
      | panic => rfl
      | ok R =>
        obtain ⟨q, r⟩ := R
        simp only [Res.mbind_ok, Res.bind_ok]
        rw [scalar2_lit cf hw hx]
        rfl
  · rw [if_neg (by simpa using h), if_neg h, scalar2_lit cf hw (Nat.le_refl 2)]
    simp only [Res.mbind_ok]
    rw [cmp_lit]
    simp only [Res.mbind_ok]
    have hc := I256.Div.cmp_spec (x := x) (y := I256.Div.scalar2 2 d) (by simpa [I256.Div.scalar2] using hx)
    cases h : I256.Div.cmp x (I256.Div.scalar2 2 d) with
    | lt =>
      simp only
      rw [truncate_lit hx]
      simp only [Res.mbind_ok]
      rw [low2_lit cf hw (by simp; omega)]
      rfl
    | eq =>
      simp only
      rw [scalar1_lit (by omega)]
      rfl
    | gt =>
      simp only
      rw [h] at hc
      have hgt := Nat.compare_eq_gt.1 hc.symm
      have hf := fullGt_lit cf hw (x := x) (y := I256.Div.scalar2 2 d) (by simp [I256.Div.scalar2])
        (by simpa [I256.Div.scalar2] using hx) (by omega)
      rw [hf]
      cases hF : I256.Div.fullGt x (I256.Div.scalar2 2 d) with
      | panic => rfl
      | ok R =>
        obtain ⟨q, r⟩ := R
        simp only [Res.mbind_ok, Res.bind_ok]
        have hrl : r.length = 2 := by
          have := fullGt_rem_length hw (by simp [I256.Div.scalar2])
            (by simpa [I256.Div.scalar2] using hx) (by omega) hF
          simpa [I256.Div.scalar2] using this
        rw [low2_lit cf hw (by omega)]
        rfl

/-! ### Division by a 128-bit number (32-bit limbs) -/

theorem scalarU128_lit (cf : Cfg) {N : Nat} (hN : 4 ≤ N) (v : BitVec 128) :
    scalarU128 cf N v = .ok (I256.Div.scalarU128 (w := 32) N v) := by
  unfold scalarU128
  rw [assert_ok (decide_eq_true hN), assert_ok (by decide)]
  simp only [Res.mbind_ok]
  rw [Raw.set_ok (by simp; omega), shr_ok cf _ (by omega), shr_ok cf _ (by omega),
    shr_ok cf _ (by omega)]
  simp only [Res.mbind_ok]
  rw [Raw.set_ok (by simp; omega)]
  simp only [Res.mbind_ok]
  rw [Raw.set_ok (by simp; omega)]
  simp only [Res.mbind_ok]
  rw [Raw.set_ok (by simp; omega)]
  obtain ⟨n, rfl⟩ : ∃ n, N = n + 4 := ⟨N - 4, by omega⟩
  simp [I256.Div.scalarU128, List.replicate_succ]

theorem u128Scalar_lit (cf : Cfg) {x : Limbs 32} (h : 4 ≤ x.length) :
    u128Scalar cf x = .ok (I256.Div.u128Scalar x) := by
  unfold u128Scalar
  rw [assert_ok (decide_eq_true h), assert_ok (by decide), Bits.at_limb (by omega),
    Bits.at_limb (by omega), Bits.at_limb (by omega), Bits.at_limb (by omega)]
  simp only [Res.mbind_ok]
  rw [shl_ok cf _ (by omega), shl_ok cf _ (by omega), shl_ok cf _ (by omega)]
  rfl

theorem fromU128_lit (cf : Cfg) {x : Limbs 32} (hx : 4 ≤ x.length) (d : BitVec 128) :
    fromU128 cf x d = I256.Div.fromU128 x d := by
  unfold fromU128 I256.Div.fromU128
  simp only
  rw [assert_ok (by decide), isZero_lit, if_pos trivial]
  simp only [Res.mbind_ok]
  by_cases h : 2 ≤ x.length ∧ I256.Div.isZero x 2 = true
  · rw [if_pos (by simp [h]), if_pos h, Bits.at_limb (by omega), Bits.at_limb (by omega)]
    simp only [Res.mbind_ok]
    by_cases hz : getLimb x 0 = 0 ∧ getLimb x 1 = 0
    · rw [if_pos (by simp [hz]), if_pos hz, scalar1_lit (by omega)]
      rfl
    · rw [if_neg (by simpa using hz), if_neg hz, u128Scalar_lit cf hx]
      simp only [Res.mbind_ok]
      rw [divRem_lit]
      cases I256.Div.nativeDivRem (I256.Div.u128Scalar x) d with
      | panic => rfl
      | ok R =>
        obtain ⟨q, r⟩ := R
        simp only [Res.mbind_ok, Res.bind_ok]
        rw [scalarU128_lit cf hx]
        rfl
  · rw [if_neg (by simpa using h), if_neg h, scalarU128_lit cf hx]
    simp only [Res.mbind_ok]
    rw [cmp_lit]
    simp only [Res.mbind_ok]
    have hsl : (I256.Div.scalarU128 (w := 32) x.length d).length = x.length := by
      simp [I256.Div.scalarU128]; omega
    have hc := I256.Div.cmp_spec (x := x) (y := I256.Div.scalarU128 x.length d) (by omega)
    cases h : I256.Div.cmp x (I256.Div.scalarU128 x.length d) with
    | lt =>
      simp only
      rw [truncate_lit (Nat.le_refl _)]
      simp only [Res.mbind_ok]
      rw [u128Scalar_lit cf (by simpa using hx)]
      rfl
    | eq =>
      simp only
      rw [scalar1_lit (by omega)]
      rfl
    | gt =>
      simp only
      rw [h] at hc
      have hgt := Nat.compare_eq_gt.1 hc.symm
      have hf := fullGt_lit cf (by omega) (x := x) (y := I256.Div.scalarU128 x.length d)
        (by simp [I256.Div.scalarU128]) (by omega) (by omega)
      rw [hf]
      cases hF : I256.Div.fullGt x (I256.Div.scalarU128 x.length d) with
      | panic => rfl
      | ok R =>
        obtain ⟨q, r⟩ := R
        simp only [Res.mbind_ok, Res.bind_ok]
        have hrl := fullGt_rem_length (by omega) (by simp [I256.Div.scalarU128]) (by omega)
          (by omega) hF
        rw [u128Scalar_lit cf (by omega)]
        rfl

end Div

end Raw

end I256
