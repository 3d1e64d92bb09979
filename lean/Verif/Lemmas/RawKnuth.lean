import Verif.Lemmas.RawDiv

/-!
# The literal Knuth division computes what the functional model computes
-/

namespace I256

variable {w : Nat}

namespace Raw

namespace Div

open I256.Div (gtPair gtPair_iff)

theorem estimate_lit (cf : Cfg) (hw : 0 < w) {num : Limbs w} {jn : Nat} (h2 : 2 ≤ jn)
    (hl : jn < num.length + 1) (a0 a1 b0 b1 : BitVec w) :
    estimate cf (apo num) jn a0 a1 b0 b1 =
      I256.Div.estimate a0 a1 (getLimb num (jn - 2)) b0 b1 := by
  unfold estimate I256.Div.estimate
  by_cases hu : a0.ult b0 = true
  · have hlt : a0.toNat < b0.toNat := by simpa [BitVec.ult] using hu
    rw [if_pos hu, if_pos hu, divRemWord_eq hw cf a1 (Or.inl hlt)]
    obtain ⟨q, r, e, -, -⟩ := I256.Div.divRemWord_ok (lo := a1) hlt
    rw [e]
    simp only [Res.mbind_ok, Res.bind_ok]
    rw [usub_ok h2]
    simp only [Res.mbind_ok]
    rw [apo_at (by omega), mul_ok cf (wide_mul_lt q b1)]
    simp only [Res.mbind_ok]
    rw [shr_ok cf _ (by omega)]
    simp only [Res.mbind_ok]
    generalize getLimb num (jn - 2) = a2
    have key : ∀ (q r : BitVec w), gtPair (hiLimb (wide q * wide b1)) (loLimb (wide q * wide b1)) r a2
        = true → sub cf q 1 = .ok (q - 1) := by
      intro q r h
      rw [gtPair_iff, I256.Div.wide_mul_toNat] at h
      have h1 : q.toNat ≠ 0 := by
        intro h0
        rw [h0, Nat.zero_mul] at h
        omega
      apply sub_ok
      have : (1 : BitVec w).toNat ≤ 1 := by
        simp [BitVec.toNat_ofNat]
        exact Nat.mod_le _ _
      omega
    by_cases hg : gtPair (hiLimb (wide q * wide b1)) (loLimb (wide q * wide b1)) r a2 = true
    · have hg' := hg
      unfold I256.Div.gtPair hiLimb loLimb at hg'
      rw [if_pos hg', if_pos hg, key q r hg]
      simp only [Res.mbind_ok]
      by_cases ho : (uAddO r b0).2 = true
      · rw [if_neg (by simp [ho]), if_neg (by simp [ho])]
      · rw [if_pos (by simp [ho]), if_pos (by simp [ho]), mul_ok cf (wide_mul_lt (q - 1) b1)]
        simp only [Res.mbind_ok]
        rw [shr_ok cf _ (by omega)]
        simp only [Res.mbind_ok]
        by_cases hh : gtPair (hiLimb (wide (q - 1) * wide b1)) (loLimb (wide (q - 1) * wide b1))
            (uAddO r b0).1 a2 = true
        · have hh' := hh
          unfold I256.Div.gtPair hiLimb loLimb at hh'
          rw [if_pos hh', if_pos hh, key _ _ hh]
        · have hh' := hh
          unfold I256.Div.gtPair hiLimb loLimb at hh'
          rw [if_neg hh', if_neg hh]
    · have hg' := hg
      unfold I256.Div.gtPair hiLimb loLimb at hg'
      rw [if_neg hg', if_neg hg]
  · rw [if_neg hu, if_neg hu]

theorem subLoop_lit {n j : Nat} {qv : Limbs w} :
    ∀ (xs ys px py : Limbs w) (c : Bool) (k fuel : Nat), py.length + k = n + 1 → k ≤ fuel →
    px.length = py.length + j → k ≤ xs.length → k ≤ ys.length → qv = py ++ ys →
    loop fuel (fun s => decide (s.1 < n + 1)) (fun (i, num, c) => do
        let x ← get num (i + j)
        let y ← get (apo qv) i
        let (res1, overflow1) := uAddO y (boolLimb w c)
        let (res2, overflow2) := uSubO x res1
        let num ← set num (i + j) res2
        .ok (i + 1, num, overflow1 || overflow2)) (py.length, apo (px ++ xs), c) =
      .ok (n + 1, apo (px ++ (I256.Div.subLoop k xs ys c).1), (I256.Div.subLoop k xs ys c).2)
  | xs, ys, px, py, c, 0, fuel, hk, _, _, _, _, _ => by
    rw [loop_done (by simp; omega)]
    have : I256.Div.subLoop 0 xs ys c = (xs, c) := by cases xs <;> rfl
    rw [this, show py.length = n + 1 by omega]
  | [], ys, px, py, c, k + 1, fuel, _, _, _, h, _, _ => by simp at h
  | x :: xs, [], px, py, c, k + 1, fuel, _, _, _, _, h, _ => by simp at h
  | x :: xs, y :: ys, px, py, c, k + 1, fuel, hk, hf, hp, hx, hy, hq => by
    simp only [List.length_cons] at hx hy
    obtain ⟨fuel, rfl⟩ : ∃ m, fuel = m + 1 := ⟨fuel - 1, by omega⟩
    have ih := subLoop_lit (n := n) (j := j) (qv := qv) xs ys
      (px ++ [(uSubO x (uAddO y (boolLimb w c)).1).1]) (py ++ [y])
      ((uAddO y (boolLimb w c)).2 || (uSubO x (uAddO y (boolLimb w c)).1).2) k fuel
      (by simp; omega) (by omega) (by simp; omega) (by omega) (by omega) (by simp [hq])
    simp only [List.append_assoc, List.singleton_append, List.length_append, List.length_cons,
      List.length_nil] at ih
    rw [I256.Div.subLoop, ← ih, loop_step (by simp; omega)]
    simp only
    rw [get_ok (by simp; omega), get_ok (by simp [hq]), getLimb_append_right hp, hq,
      getLimb_append_right rfl]
    simp only [Res.mbind_ok]
    rw [set_ok (by simp; omega), List.set_append_right _ _ (by omega), ← hp]
    simp

theorem addLoop_lit {n j : Nat} {d : Limbs w} :
    ∀ (xs ys px py : Limbs w) (c : Bool) (k fuel : Nat), py.length + k = n + 1 → k ≤ fuel →
    px.length = py.length + j → k ≤ xs.length → d = py ++ ys →
    loop fuel (fun s => decide (s.1 < n + 1)) (fun (i, num, c) => do
        let x ← get num (i + j)
        let y ← at_ d i
        let (res1, overflow1) := uAddO y (boolLimb w c)
        let (res2, overflow2) := uAddO x res1
        let num ← set num (i + j) res2
        .ok (i + 1, num, overflow1 || overflow2)) (py.length, apo (px ++ xs), c) =
      (I256.Div.addLoop k xs ys c).map fun r => (n + 1, apo (px ++ r.1), r.2)
  | xs, ys, px, py, c, 0, fuel, hk, _, _, _, _ => by
    rw [loop_done (by simp; omega)]
    have : I256.Div.addLoop 0 xs ys c = .ok (xs, c) := by cases xs <;> rfl
    rw [this, Res.map_ok, show py.length = n + 1 by omega]
  | [], ys, px, py, c, k + 1, fuel, _, _, _, h, _ => by simp at h
  | x :: xs, [], px, py, c, k + 1, fuel, hk, _, hp, hx, hd => by
    rw [loop_panic (by simp; omega)]
    · rfl
    · simp only
      rw [get_ok (by simp; omega), at_panic (by simp [hd])]
      rfl
  | x :: xs, y :: ys, px, py, c, k + 1, fuel, hk, hf, hp, hx, hq => by
    simp only [List.length_cons] at hx
    obtain ⟨fuel, rfl⟩ : ∃ m, fuel = m + 1 := ⟨fuel - 1, by omega⟩
    have ih := addLoop_lit (n := n) (j := j) (d := d) xs ys
      (px ++ [(uAddO x (uAddO y (boolLimb w c)).1).1]) (py ++ [y])
      ((uAddO y (boolLimb w c)).2 || (uAddO x (uAddO y (boolLimb w c)).1).2) k fuel
      (by simp; omega) (by omega) (by simp; omega) (by omega) (by simp [hq])
    simp only [List.append_assoc, List.singleton_append, List.length_append, List.length_cons,
      List.length_nil] at ih
    have e : (I256.Div.addLoop (k + 1) (x :: xs) (y :: ys) c).map
          (fun r => (n + 1, apo (px ++ r.1), r.2)) =
        (I256.Div.addLoop k xs ys
          ((uAddO y (boolLimb w c)).2 || (uAddO x (uAddO y (boolLimb w c)).1).2)).map
          fun r => (n + 1, apo (px ++ (uAddO x (uAddO y (boolLimb w c)).1).1 :: r.1), r.2) := by
      simp only [I256.Div.addLoop]
      generalize I256.Div.addLoop k xs ys _ = R
      cases R <;> rfl
    rw [e, ← ih, loop_step (by simp; omega)]
    simp only
    rw [get_ok (by simp; omega), Bits.at_limb (by simp [hq]), getLimb_append_right hp, hq,
      getLimb_append_right rfl]
    simp only [Res.mbind_ok]
    rw [set_ok (by simp; omega), List.set_append_right _ _ (by omega), ← hp]
    simp

theorem subLoop_length : ∀ (k : Nat) (xs ys : Limbs w) (c : Bool),
    (I256.Div.subLoop k xs ys c).1.length = xs.length
  | 0, xs, _, _ => by cases xs <;> rfl
  | _ + 1, [], _, _ => rfl
  | _ + 1, _ :: _, [], _ => rfl
  | k + 1, x :: xs, y :: ys, c => by
    simp [I256.Div.subLoop, subLoop_length k xs ys]

theorem addLoop_length : ∀ (k : Nat) (xs ys : Limbs w) (c : Bool) {r : Limbs w × Bool},
    I256.Div.addLoop k xs ys c = .ok r → r.1.length = xs.length
  | 0, xs, ys, c, r, h => by
    have : I256.Div.addLoop 0 xs ys c = .ok (xs, c) := by cases xs <;> rfl
    rw [this] at h
    injection h with h
    rw [← h]
  | _ + 1, [], _, _, _, h => by simp [I256.Div.addLoop] at h
  | _ + 1, _ :: _, [], _, _, h => by simp [I256.Div.addLoop] at h
  | k + 1, x :: xs, y :: ys, c, r, h => by
    rw [I256.Div.addLoop] at h
    simp only at h
    cases hR : I256.Div.addLoop k xs ys
        ((uAddO y (boolLimb w c)).2 || (uAddO x (uAddO y (boolLimb w c)).1).2) with
    | panic => rw [hR] at h; simp at h
    | ok R =>
      rw [hR] at h
      simp only [Res.bind_ok] at h
      injection h with h
      rw [← h]
      simp [addLoop_length k xs ys _ hR]

theorem subLoop_zero (hw : 0 < w) : ∀ (k : Nat) (xs ys : Limbs w), (∀ y ∈ ys, y = 0) →
    (I256.Div.subLoop k xs ys false).2 = false
  | 0, xs, _, _ => by cases xs <;> rfl
  | _ + 1, [], _, _ => rfl
  | _ + 1, _ :: _, [], _ => rfl
  | k + 1, x :: xs, y :: ys, h => by
    have hy : y = 0 := h y (by simp)
    have e1 : uAddO y (boolLimb w false) = (0, false) := by
      subst hy
      simp [uAddO, boolLimb, BitVec.uaddOverflow]
    have e2 : (uSubO x 0).2 = false := by
      simp [uSubO, BitVec.usubOverflow]
    simp only [I256.Div.subLoop, e1, e2, Bool.or_false]
    exact subLoop_zero hw k xs ys fun z hz => h z (by simp [hz])

theorem fullMul_zero (d : Limbs w) : ∀ y ∈ I256.Div.fullMul d (0 : BitVec w), y = 0 := by
  have key : ∀ (v : Limbs w), ∀ y ∈ I256.Div.fullMulLoop (0 : BitVec w) v 0, y = 0 := by
    intro v
    induction v with
    | nil => simp [I256.Div.fullMulLoop]
    | cons a v ih =>
      have h0 : wide a * wide (0 : BitVec w) + wide (0 : BitVec w) = 0 := by
        rw [wide_eq_zero.2 rfl]; simp
      simp only [I256.Div.fullMulLoop, h0]
      have h1 : hiLimb (0 : BitVec (w + w)) = 0 := by simp [hiLimb]
      have h2 : loLimb (0 : BitVec (w + w)) = 0 := by simp [loLimb]
      rw [h1, h2]
      intro y hy
      rcases List.mem_cons.1 hy with h | h
      · exact h
      · exact ih y h
  exact key d

theorem knuthStep_length {d num num' : Limbs w} {n j : Nat} {q : BitVec w}
    (hj : j ≤ num.length) (h : I256.Div.knuthStep d n j num = .ok (q, num')) :
    num'.length = num.length := by
  unfold I256.Div.knuthStep at h
  cases hE : I256.Div.estimate (getLimb num (j + n)) (getLimb num (j + n - 1))
      (getLimb num (j + n - 2)) (getLimb d (n - 1)) (getLimb d (n - 2)) with
  | panic => rw [hE] at h; simp at h
  | ok qHat =>
    rw [hE] at h
    simp only [Res.bind_ok] at h
    have hs := subLoop_length (n + 1) (num.drop j) (I256.Div.fullMul d qHat) false
    generalize I256.Div.subLoop (n + 1) (num.drop j) (I256.Div.fullMul d qHat) false = S at h hs
    obtain ⟨win, c⟩ := S
    simp only at h hs
    split at h
    · cases hA : I256.Div.addLoop (n + 1) win d false with
      | panic => rw [hA] at h; simp at h
      | ok R =>
        have ha := addLoop_length _ _ _ _ hA
        rw [hA] at h
        simp only [Res.bind_ok] at h
        injection h with h
        injection h with _ h
        rw [← h]
        simp [ha, hs]
        omega
    · injection h with h
      injection h with _ h
      rw [← h]
      simp [hs]
      omega

theorem getLimb_append_add (p x : Limbs w) (i : Nat) : getLimb (p ++ x) (p.length + i) = getLimb x i := by
  simp only [getLimb, List.getD_eq_getElem?_getD]
  rw [List.getElem?_append_right (by omega), Nat.add_sub_cancel_left]

theorem knuthBody_lit (cf : Cfg) (hw : 0 < w) {d num q : Limbs w} {n j : Nat} (hn : 2 ≤ n)
    (hd : n ≤ d.length) (hj : j + n < num.length) (hq : j < q.length) :
    knuthBody cf d n (getLimb d (n - 1)) (getLimb d (n - 2)) (j + 1, apo num, q) =
      (I256.Div.knuthStep d n j num).map fun r => (j, apo r.2, q.set j r.1) := by
  unfold knuthBody I256.Div.knuthStep
  simp only
  rw [usub_ok (by omega)]
  simp only [Res.mbind_ok, Nat.add_sub_cancel]
  rw [get_ok hj, usub_ok (by omega)]
  simp only [Res.mbind_ok]
  rw [apo_at (by omega)]
  simp only [Res.mbind_ok]
  rw [estimate_lit cf hw (by omega) (by omega)]
  cases hE : I256.Div.estimate (getLimb num (j + n)) (getLimb num (j + n - 1))
      (getLimb num (j + n - 2)) (getLimb d (n - 1)) (getLimb d (n - 2)) with
  | panic => rfl
  | ok qHat =>
    simp only [Res.mbind_ok, Res.bind_ok]
    rw [fullMul_lit cf hw]
    simp only [Res.mbind_ok]
    have hml := (I256.Div.fullMul_spec d qHat).1
    have hjl : (num.take j).length = j := by simp; omega
    have hsub := subLoop_lit (n := n) (j := j) (qv := I256.Div.fullMul d qHat) (num.drop j)
      (I256.Div.fullMul d qHat) (num.take j) [] false (n + 1) (n + 1) (by simp) (Nat.le_refl _)
      (by simp; omega) (by simp; omega) (by omega) rfl
    rw [List.take_append_drop] at hsub
    have hsl := subLoop_length (n + 1) (num.drop j) (I256.Div.fullMul d qHat) false
    have hsz : (I256.Div.subLoop (n + 1) (num.drop j) (I256.Div.fullMul d qHat) false).2 = true →
        qHat ≠ 0 := by
      rintro h rfl
      rw [subLoop_zero hw _ _ _ (fullMul_zero d)] at h
      simp at h
    refine (congrArg (fun r => Res.bind r _) hsub).trans ?_
    simp only [Res.bind_ok]
    generalize I256.Div.subLoop (n + 1) (num.drop j) (I256.Div.fullMul d qHat) false = S at hsl hsz
    obtain ⟨win, c⟩ := S
    simp only [List.length_drop] at hsl hsz
    simp only
    cases c with
    | false =>
      simp only [Bool.false_eq_true, if_false]
      rw [Raw.set_ok hq]
      rfl
    | true =>
      simp only [if_true]
      have hq1 : (1 : BitVec w).toNat ≤ qHat.toNat := by
        have h0 := hsz rfl
        have h1 : qHat.toNat ≠ 0 := fun h => h0 (BitVec.eq_of_toNat_eq (by simpa using h))
        have : (1 : BitVec w).toNat ≤ 1 := by
          simp [BitVec.toNat_ofNat]
          exact Nat.mod_le _ _
        omega
      rw [sub_ok cf hq1]
      simp only [Res.mbind_ok]
      have hadd := addLoop_lit (n := n) (j := j) (d := d) win d (num.take j) [] false (n + 1) (n + 1)
        (by simp) (Nat.le_refl _) (by simp; omega) (by omega) rfl
      refine (congrArg (fun r => Res.bind r _) hadd).trans ?_
      cases hA : I256.Div.addLoop (n + 1) win d false with
      | panic => rfl
      | ok R =>
        have hal := addLoop_length _ _ _ _ hA
        obtain ⟨win', c'⟩ := R
        simp only at hal
        simp only [Res.map_ok, Res.bind_ok]
        rw [get_ok (by simp; omega)]
        simp only [Res.mbind_ok]
        rw [set_ok (by simp; omega), Raw.set_ok hq]
        simp only [Res.mbind_ok]
        have e1 : getLimb (num.take j ++ win') (j + n) = getLimb win' n := by
          conv_lhs => rw [show j + n = (num.take j).length + n by rw [hjl]]
          exact getLimb_append_add _ _ _
        rw [e1, List.set_append_right _ _ (by omega), hjl, Nat.add_sub_cancel_left]

theorem knuthLoop_lit (cf : Cfg) (hw : 0 < w) {d : Limbs w} {n : Nat} (hn : 2 ≤ n)
    (hd : n ≤ d.length) : ∀ (j fuel : Nat) (num acc tail : Limbs w), j ≤ fuel →
    (0 < j → j + n ≤ num.length) →
    loop fuel (fun s => decide (s.1 > 0)) (knuthBody cf d n (getLimb d (n - 1)) (getLimb d (n - 2)))
        (j, apo num, List.replicate j 0 ++ acc ++ tail) =
      (I256.Div.knuthLoop d n j num acc).map fun r => (0, apo r.2, r.1 ++ tail)
  | 0, fuel, num, acc, tail, _, _ => by
    rw [loop_done (by simp)]
    simp [I256.Div.knuthLoop]
  | j + 1, fuel, num, acc, tail, hf, hl => by
    have hl := hl (by omega)
    obtain ⟨fuel, rfl⟩ : ∃ m, fuel = m + 1 := ⟨fuel - 1, by omega⟩
    have hb := knuthBody_lit cf hw (d := d) (num := num) (n := n) (j := j)
      (q := List.replicate (j + 1) 0 ++ acc ++ tail) hn hd (by omega) (by simp; omega)
    rw [I256.Div.knuthLoop]
    cases hS : I256.Div.knuthStep d n j num with
    | panic =>
      rw [hS] at hb
      rw [loop_panic (by simp) hb]
      rfl
    | ok R =>
      obtain ⟨q0, num'⟩ := R
      rw [hS, Res.map_ok] at hb
      rw [loop_step (by simp) hb]
      simp only [Res.bind_ok]
      have e : (List.replicate (j + 1) (0 : BitVec w) ++ acc ++ tail).set j q0 =
          List.replicate j 0 ++ (q0 :: acc) ++ tail := by
        rw [List.replicate_succ', List.append_assoc, List.append_assoc,
          List.set_append_right _ _ (by simp)]
        simp
      rw [e]
      exact knuthLoop_lit cf hw hn hd j fuel num' (q0 :: acc) tail (by omega)
        (fun _ => by rw [knuthStep_length (by omega) hS]; omega)

theorem knuthLoop_length {d : Limbs w} {n : Nat} : ∀ (j : Nat) (num acc : Limbs w)
    {r : Limbs w × Limbs w}, j ≤ num.length → I256.Div.knuthLoop d n j num acc = .ok r →
    r.2.length = num.length
  | 0, num, acc, r, _, h => by
    rw [I256.Div.knuthLoop] at h
    injection h with h
    rw [← h]
  | j + 1, num, acc, r, hj, h => by
    rw [I256.Div.knuthLoop] at h
    cases hS : I256.Div.knuthStep d n j num with
    | panic => rw [hS] at h; simp at h
    | ok R =>
      obtain ⟨q0, num'⟩ := R
      rw [hS] at h
      simp only [Res.bind_ok] at h
      have hl := knuthStep_length (by omega) hS
      rw [knuthLoop_length j num' _ (by omega) h, hl]

theorem divRemKnuth_lit (cf : Cfg) (hw : 0 < w) {x y : Limbs w} {n m : Nat} (hn : 2 ≤ n)
    (hy : n ≤ y.length) (hl : y.length ≤ x.length) (hc : clz (getLimb y (n - 1)) < w) :
    divRemKnuth cf x y n m = I256.Div.divRemKnuth x y n m := by
  unfold divRemKnuth I256.Div.divRemKnuth
  simp only
  by_cases hm : n + m ≤ x.length
  · rw [assert_ok (decide_eq_true hm), if_pos hm]
    simp only [Res.mbind_ok]
    rw [usub_ok (by omega)]
    simp only [Res.mbind_ok]
    rw [Bits.at_limb (by omega)]
    simp only [Res.mbind_ok]
    have hyn : y ≠ [] := by rintro rfl; simp at hy; omega
    have hxn : x ≠ [] := by rintro rfl; simp at hm; omega
    rw [shlWord_lit cf hc hyn, fullShl_lit cf hc hxn]
    simp only [Res.mbind_ok]
    set s := clz (getLimb y (n - 1)) with hs
    have hdl : (I256.Div.shlWord y s).length = y.length := by
      rw [I256.Div.shlWord, List.length_take, (I256.Div.fullShl_spec hc y).1]; omega
    have hnl := (I256.Div.fullShl_spec hc x).1
    rw [usub_ok (by omega), Bits.at_limb (by omega)]
    simp only [Res.mbind_ok]
    rw [Bits.at_limb (by omega)]
    simp only [Res.mbind_ok]
    have hloop := knuthLoop_lit cf hw (d := I256.Div.shlWord y s) hn (by omega) (m + 1) (m + 1)
      (I256.Div.fullShl x s) [] (List.replicate (x.length - (m + 1)) 0) (Nat.le_refl _)
      (fun _ => by omega)
    rw [List.append_nil, List.replicate_append_replicate, show m + 1 + (x.length - (m + 1)) = x.length by omega] at hloop
    refine (congrArg (fun r => Res.bind r _) hloop).trans ?_
    cases hK : I256.Div.knuthLoop (I256.Div.shlWord y s) n (m + 1) (I256.Div.fullShl x s) [] with
    | panic => rfl
    | ok R =>
      obtain ⟨q, num⟩ := R
      have hnl' := knuthLoop_length _ _ _ (by omega) hK
      simp only at hnl'
      simp only [Res.map_ok, Res.bind_ok]
      rw [fullShr_lit cf hc (by omega)]
      simp only [Res.mbind_ok]
      have hfl := (I256.Div.fullShr_spec hc num).1
      rw [truncate_lit (by omega)]
      rfl
  · rw [if_neg hm]
    simp [assert, hm]

end Div

end Raw

end I256
