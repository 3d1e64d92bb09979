import Verif.Model.WorkText
import Verif.Lemmas.Work
import Verif.Lemmas.Write
import Verif.Lemmas.Ilog

/-! Lemmas about the counters of `Verif.Model.WorkText` and the rounds of `checked_ilog`. -/

namespace I256.Count

variable {w : Nat}

/-! ### Writing -/

theorem limb_work {x : Limbs w} {d : BitVec w} (h2 : 2 ≤ x.length) {a : Limbs w × BitVec w} {k : Work}
    (e : limb x d = .ok (a, k)) : k = ⟨0, if toNat x < 2 ^ (w * 2) then 1 else x.length⟩ := by
  have hs := Div.toNat_split x h2
  have ht := toNat_lt (x.take 2)
  rw [bits, List.length_take, Nat.min_eq_left h2] at ht
  unfold limb at e
  by_cases hz : Div.isZero x 2 = true
  · rw [if_pos ⟨h2, hz⟩] at e
    have h3 := (Div.isZero_iff x 2).1 hz
    rw [h3, Nat.mul_zero, Nat.add_zero] at hs
    rw [if_pos (by omega)]
    revert e
    cases Div.nativeDivRem (Div.low2 x) (wide d) with
    | panic => intro e; cases e
    | ok p => intro e; cases e; rfl
  · rw [if_neg (fun h => hz h.2)] at e
    have h3 : toNat (x.drop 2) ≠ 0 := fun h => hz ((Div.isZero_iff x 2).2 h)
    rw [if_neg]
    · exact limbLoop_work e
    · rw [hs, Nat.not_lt]
      have := Nat.mul_le_mul_left (2 ^ (w * 2)) (Nat.pos_of_ne_zero h3)
      omega

theorem divRemULimb_fst (oc : Bool) (x : Limbs w) (n : BitVec w) :
    (divRemULimb oc x n).map (·.1) = U.divRemULimb oc x n := by
  unfold divRemULimb U.divRemULimb U.checkedDivRemULimb U.wrappingDivRemULimb opOfR checkedBy
  rw [← limb_fst]
  cases oc
  · rfl
  · cases isZeroScalar n
    · cases limb x n <;> rfl
    · rfl

theorem divRemULimb_work (oc : Bool) {x : Limbs w} {n : BitVec w} (h2 : 2 ≤ x.length) {a : Limbs w × BitVec w}
    {k : Work} (e : divRemULimb oc x n = .ok (a, k)) : k = ⟨0, if toNat x < 2 ^ (w * 2) then 1 else x.length⟩ := by
  apply limb_work (d := n) (a := a) h2
  revert e
  unfold divRemULimb opOfR checkedBy
  cases oc
  · exact id
  · cases isZeroScalar n
    · cases limb x n with
      | panic => intro e; cases e
      | ok p => intro e; cases e; rfl
    · intro e; cases e

theorem writeLoop_fst (oc signed : Bool) (dr : Limbs w → BitVec w → Res ((Limbs w × BitVec w) × Work))
    (limit : Limbs w) (radix : BitVec 32) (start index : Nat) (x : Limbs w) (out : List Byte) :
    (writeLoop oc signed dr limit radix start index x out).map (·.1) =
      Write.loop oc signed (fun x n => (dr x n).map (·.1)) limit radix start index x out := by
  induction index generalizing x out with
  | zero => rfl
  | succ i ih =>
    unfold writeLoop Write.loop
    by_cases hc : (Ord.ge signed x limit && decide (start < i + 1)) = true
    · simp only [hc, if_true]
      cases dr x (radix.setWidth w) with
      | panic => rfl
      | ok p =>
        simp only [Res.bind, Res.map]
        cases Write.digitToChar oc (p.1.2.setWidth 32) radix with
        | panic => rfl
        | ok c =>
          refine Eq.trans ?_ (ih p.1.1 (c :: out))
          dsimp only
          cases writeLoop oc signed dr limit radix start i p.1.1 (c :: out) <;> rfl
    · simp only [hc]; rfl

theorem toStrRadix_fst (oc signed : Bool) (dr : Limbs w → BitVec w → Res ((Limbs w × BitVec w) × Work))
    (len : Nat) (x : Limbs w) (radix : BitVec 32) :
    (toStrRadix oc signed dr len x radix).map (·.1) =
      Write.toStrRadix oc signed (fun x n => (dr x n).map (·.1)) len x radix := by
  unfold toStrRadix Write.toStrRadix
  split
  · rfl
  · split
    · rfl
    · dsimp only
      rw [← writeLoop_fst]
      generalize (if (signed && Ord.lt signed x (ofU8 x.length 0)) = true then 2 else 1) = start
      cases writeLoop oc signed dr (Cast.fromU32 x.length radix) radix start len x [] with
      | panic => rfl
      | ok p =>
        simp only [Res.bind]
        by_cases hc : (!Ord.lt signed p.1.2.1 (Cast.fromU32 x.length radix)) = true
        · simp only [Res.map, hc, if_true]
        · simp only [hc, Res.map]
          cases Write.digitToChar oc ((getLimb p.1.2.1 0).setWidth 32) radix <;> rfl

theorem toStrRadixU_fst (oc : Bool) (len : Nat) (x : Limbs w) (radix : BitVec 32) :
    (toStrRadixU oc len x radix).map (·.1) = U.toStrRadix oc len x radix := by
  unfold toStrRadixU U.toStrRadix
  rw [toStrRadix_fst]
  congr 1
  funext x n
  exact divRemULimb_fst oc x n

theorem writeDivs_lt {w N r n : Nat} (h : n < r) : writeDivs w N r n = 0 := by
  rw [writeDivs, dif_neg (by omega)]

theorem writeDivs_ge {w N r n : Nat} (hr : 2 ≤ r) (h : r ≤ n) :
    writeDivs w N r n = (if n < 2 ^ (w * 2) then 1 else N) + writeDivs w N r (n / r) := by
  rw [writeDivs, dif_pos ⟨hr, h⟩]

theorem writeLoop_work (oc : Bool) {N M : Nat} {radix : BitVec 32} (h2 : 2 ≤ N)
    (hg : Write.Good false (U.divRemULimb (w := w) oc) N M radix) (hr : 2 ≤ radix.toNat)
    (index : Nat) (x : Limbs w) (out : List Byte) (hx : x.length = N) (hM : toNat x < M)
    (h : toNat x < radix.toNat ^ index) (hi : 1 ≤ index) {a : Nat × Limbs w × List Byte} {k : Work}
    (e : writeLoop oc false (divRemULimb oc) (Cast.fromU32 N radix) radix 1 index x out = .ok (a, k)) :
    k = ⟨0, writeDivs w N radix.toNat (toNat x)⟩ := by
  induction index generalizing x out a k with
  | zero => omega
  | succ i ih =>
    unfold writeLoop Ord.ge at e
    have hc := hg.cmp x hx hM
    by_cases c : toNat x < radix.toNat
    · rw [hc.2 c] at e
      cases e
      rw [writeDivs_lt c]
    · have hcf : Ord.lt false x (Cast.fromU32 N radix) = false := by
        rw [← Bool.not_eq_true]; exact fun q => c (hc.1 q)
      have hi2 : 1 < i + 1 := by
        rcases Nat.eq_zero_or_pos i with h0 | h0
        · rw [h0] at h; simp at h; omega
        · omega
      rw [hcf] at e
      simp only [Bool.not_false, Bool.true_and, decide_eq_true_eq, if_pos hi2] at e
      obtain ⟨q, r, e1, ql, qv, rv⟩ := hg.div x hx hM
      have e2 := divRemULimb_fst oc x (radix.setWidth w)
      rw [e1] at e2
      revert e e2
      cases hd : divRemULimb oc x (radix.setWidth w) with
      | panic => intro _ e2; cases e2
      | ok p =>
        obtain ⟨p, kp⟩ := p
        intro e e2
        have e3 : p = (q, r) := by cases e2; rfl
        subst e3
        have hk := divRemULimb_work oc (by omega) hd
        simp only [Res.bind] at e
        revert e
        cases Write.digitToChar oc (r.setWidth 32) radix with
        | panic => intro e; cases e
        | ok ch =>
          simp only
          cases hl : writeLoop oc false (divRemULimb oc) (Cast.fromU32 N radix) radix 1 i q (ch :: out) with
          | panic => intro e; cases e
          | ok p =>
            have hqle : toNat q ≤ toNat x := by rw [qv]; exact Nat.div_le_self _ _
            have := ih q (ch :: out) ql (by omega)
              (by rw [qv]; apply Nat.div_lt_of_lt_mul; rw [Nat.mul_comm, ← Nat.pow_succ]; exact h) (by omega) hl
            intro e
            cases e
            rw [this, hk, writeDivs_ge (n := toNat x) hr (by omega), qv, hx]
            rfl

theorem toStrRadixU_work {x : Limbs w} {radix : BitVec 32} (hw : w = 32 ∨ w = 64) (h4 : 4 ≤ x.length)
    (he : x.length % 2 = 0) (hr : 2 ≤ radix.toNat) (hr' : radix.toNat ≤ 36) (oc : Bool) (len : Nat)
    (hlen : bits x ≤ len) :
    toStrRadixU oc len x radix =
      .ok (numeral radix.toNat (toNat x), ⟨0, writeDivs w x.length radix.toNat (toNat x)⟩) := by
  have e1 := toStrRadixU_fst oc len x radix
  rw [U.toStrRadix_spec hw h4 he hr hr' oc len hlen] at e1
  have hg := U.good hw h4 he hr hr' oc (x := x)
  have hb : 1 ≤ bits x := by unfold bits; exact Nat.mul_pos (by omega) (by omega)
  have hwk := fun a k => writeLoop_work (a := a) (k := k) oc (by omega) hg hr len x [] rfl (toNat_lt x)
    (lt_of_lt_of_le (toNat_lt x) (le_trans (Nat.pow_le_pow_left hr _) (Nat.pow_le_pow_right (by omega) hlen)))
    (by omega)
  revert e1
  unfold toStrRadixU toStrRadix
  split
  · intro e; cases e
  · split
    · intro e; cases e
    · dsimp only
      simp only [Bool.false_and, Bool.false_eq_true, if_false]
      revert hwk
      cases writeLoop oc false (divRemULimb oc) (Cast.fromU32 x.length radix) radix 1 len x [] with
      | panic => intro _ e; cases e
      | ok p =>
        intro hwk
        have hk := hwk p.1 p.2 rfl
        generalize numeral radix.toNat (toNat x) = s
        simp only [Res.bind]
        by_cases hc : (!Ord.lt false p.1.2.1 (Cast.fromU32 x.length radix)) = true
        · simp only [hc, if_true]; intro e; cases e
        · simp only [hc]
          cases Write.digitToChar oc ((getLimb p.1.2.1 0).setWidth 32) radix with
          | panic => intro e; cases e
          | ok c => intro e; cases e; rw [hk]; rfl

/-! ### Reading -/

theorem uncheckedLoop_fst (mul : Limbs w → BitVec w → Limbs w × Nat) (add : Limbs w → BitVec w → Limbs w)
    (radix : BitVec 32) (ds : List Byte) (x : Limbs w) :
    (uncheckedLoop mul add radix ds x).1 = Parse.uncheckedLoop (fun x n => (mul x n).1) add radix ds x := by
  induction ds generalizing x with
  | nil => rfl
  | cons c cs ih =>
    unfold uncheckedLoop Parse.uncheckedLoop
    cases Parse.charToDigit c radix with
    | none => rfl
    | some d => exact ih _

theorem checkedLoop_fst (over : ErrKind) (mul : Limbs w → BitVec w → Option (Limbs w) × Nat)
    (add : Limbs w → BitVec w → Option (Limbs w)) (radix : BitVec 32) (ds : List Byte) (x : Limbs w) :
    (checkedLoop over mul add radix ds x).1 = Parse.checkedLoop over (fun x n => (mul x n).1) add radix ds x := by
  induction ds generalizing x with
  | nil => rfl
  | cons c cs ih =>
    unfold checkedLoop Parse.checkedLoop
    cases Parse.charToDigit c radix with
    | none => rfl
    | some d =>
      simp only
      rcases mul x (radix.setWidth w) with ⟨_ | v, n⟩
      · rfl
      · simp only
        cases add v (d.setWidth w) with
        | none => rfl
        | some y => exact ih y

theorem body_fst (ops : Parse.Ops w) (cMul : Limbs w → BitVec w → Option (Limbs w) × Nat) (signed : Bool) (N : Nat)
    (radix : BitVec 32) (negative : Bool) (ds : List Byte) :
    (body ops cMul signed N radix negative ds).1 =
      Parse.body { ops with wMul := fun x n => (wrappingLimb x n).1, cMul := fun x n => (cMul x n).1 } signed N radix
        negative ds := by
  unfold body Parse.body
  dsimp only
  split
  · exact uncheckedLoop_fst ..
  · split
    · exact uncheckedLoop_fst ..
    · split
      · exact checkedLoop_fst ..
      · exact checkedLoop_fst ..

theorem fromStrRadix_fst (ops : Parse.Ops w) (cMul : Limbs w → BitVec w → Option (Limbs w) × Nat) (signed : Bool)
    (N : Nat) (src : List Byte) (radix : BitVec 32) :
    (fromStrRadix ops cMul signed N src radix).map (·.1) =
      Parse.fromStrRadix { ops with wMul := fun x n => (wrappingLimb x n).1, cMul := fun x n => (cMul x n).1 } signed N
        src radix := by
  unfold fromStrRadix Parse.fromStrRadix
  split
  · rfl
  · cases src with
    | nil => rfl
    | cons c cs =>
      dsimp only
      split
      · simp only [Res.map, body_fst]
      · split
        · simp only [Res.map, body_fst]
        · split
          · rfl
          · simp only [Res.map, body_fst]

theorem parseOpsU : ({ U.parseOps with
    wMul := fun x n => (wrappingLimb x n).1
    cMul := fun x n => (checkedULimb x n).1 } : Parse.Ops w) = U.parseOps := by
  have h1 : (fun (x : Limbs w) n => (wrappingLimb x n).1) = U.wrappingMulULimb :=
    funext fun x => funext fun n => rows_fst ..
  have h2 : (fun (x : Limbs w) n => (checkedULimb x n).1) = U.checkedMulULimb :=
    funext fun x => funext fun n => congrArg mkChecked (rowsO_fst ..)
  rw [h1, h2]; rfl

theorem parseOpsS : ({ I.parseOps with
    wMul := fun x n => (wrappingLimb x n).1
    cMul := fun x n => (checkedULimbS x n).1 } : Parse.Ops w) = I.parseOps := by
  have h1 : (fun (x : Limbs w) n => (wrappingLimb x n).1) = I.wrappingMulULimb :=
    funext fun x => funext fun n => rows_fst ..
  have h2 : (fun (x : Limbs w) n => (checkedULimbS x n).1) = I.checkedMulULimb :=
    funext fun x => funext fun n => congrArg mkChecked (overflowingFullS_fst ..)
  rw [h1, h2]; rfl

theorem fromStrRadixU_fst (N : Nat) (src : List Byte) (radix : BitVec 32) :
    (fromStrRadixU (w := w) N src radix).map (·.1) = U.fromStrRadix N src radix := by
  unfold fromStrRadixU U.fromStrRadix
  rw [fromStrRadix_fst, parseOpsU]

theorem fromStrRadixS_fst (N : Nat) (src : List Byte) (radix : BitVec 32) :
    (fromStrRadixS (w := w) N src radix).map (·.1) = I.fromStrRadix N src radix := by
  unfold fromStrRadixS I.fromStrRadix
  rw [fromStrRadix_fst, parseOpsS]

section
variable {N c : Nat} {radix : BitVec 32} (hr : 2 ≤ radix.toNat) (hr' : radix.toNat ≤ 36)
include hr hr'

theorem uncheckedLoop_work {mul : Limbs w → BitVec w → Limbs w × Nat} {add : Limbs w → BitVec w → Limbs w}
    (hm : ∀ x n, x.length = N → (mul x n).1.length = N ∧ (mul x n).2 = c)
    (ha : ∀ x n, x.length = N → (add x n).length = N) (ds : List Byte) (x : Limbs w) (hx : x.length = N) :
    (uncheckedLoop mul add radix ds x).2 = (digitPart radix.toNat ds).length * c := by
  induction ds generalizing x with
  | nil => simp [uncheckedLoop, digitPart]
  | cons ch cs ih =>
    unfold uncheckedLoop
    rw [charToDigit_eq ch radix hr hr']
    by_cases h : isDigit radix.toNat ch = true
    · rw [if_pos h, digitPart_cons cs h]
      obtain ⟨l, k⟩ := hm x (radix.setWidth w) hx
      simp only
      rw [ih _ (ha _ _ l), k, List.length_cons, Nat.add_mul]
      omega
    · rw [if_neg h, digitPart_cons_neg cs h]; simp

theorem checkedLoop_work {over : ErrKind}
    {mul : Limbs w → BitVec w → Option (Limbs w) × Nat}
    {add : Limbs w → BitVec w → Option (Limbs w)}
    (hm : ∀ x n, x.length = N → (∀ y, (mul x n).1 = some y → y.length = N) ∧ (mul x n).2 = c)
    (ha : ∀ x n y, x.length = N → add x n = some y → y.length = N) (ds : List Byte) (x : Limbs w)
    (hx : x.length = N) :
    (checkedLoop over mul add radix ds x).2 ≤ (digitPart radix.toNat ds).length * c ∧
      ((checkedLoop over mul add radix ds x).1 ≠ .err over →
        (checkedLoop over mul add radix ds x).2 = (digitPart radix.toNat ds).length * c) := by
  induction ds generalizing x with
  | nil => simp [checkedLoop, digitPart]
  | cons ch cs ih =>
    unfold checkedLoop
    rw [charToDigit_eq ch radix hr hr']
    by_cases h : isDigit radix.toNat ch = true
    · rw [if_pos h, digitPart_cons cs h]
      obtain ⟨l, k⟩ := hm x (radix.setWidth w) hx
      simp only
      rw [List.length_cons, Nat.add_mul, Nat.one_mul]
      rcases hmm : mul x (radix.setWidth w) with ⟨_ | v, n⟩
      · rw [hmm] at k
        simp only at k
        exact ⟨by simp only; omega, fun q => absurd rfl q⟩
      · rw [hmm] at k l
        simp only at k l ⊢
        cases haa : add v ((BitVec.ofNat 32 (dig ch)).setWidth w) with
        | none => exact ⟨by simp only; omega, fun q => absurd rfl q⟩
        | some y =>
          obtain ⟨i1, i2⟩ := ih y (ha _ _ _ (l v rfl) haa)
          simp only
          exact ⟨by omega, fun q => by rw [i2 q]; omega⟩
    · rw [if_neg h, digitPart_cons_neg cs h]; simp

theorem checkedLoop_read {M : Nat} {over : ErrKind}
    {mul : Limbs w → BitVec w → Option (Limbs w) × Nat}
    {add : Limbs w → BitVec w → Option (Limbs w)} {E : Nat → Limbs w → Prop} (hw : 32 ≤ w)
    (hm : ∀ a x n, E a x → (mul x n).2 = c)
    (hstep : ∀ (v : Limbs w) (a : Nat) (d : BitVec w), E a v →
      (a * radix.toNat + d.toNat < M → ∃ u t, (mul v (radix.setWidth w)).1 = some u ∧ add u d = some t ∧
        E (a * radix.toNat + d.toNat) t) ∧
      (¬ a * radix.toNat + d.toNat < M → (mul v (radix.setWidth w)).1 = none ∨
        ∃ u, (mul v (radix.setWidth w)).1 = some u ∧ add u d = none))
    (ds : List Byte) (v : Limbs w) (a : Nat) (hv : E a v) :
    (checkedLoop over mul add radix ds v).2 = digitsRead radix.toNat M a ds * c := by
  induction ds generalizing v a with
  | nil => simp [checkedLoop, digitsRead]
  | cons ch cs ih =>
    unfold checkedLoop digitsRead
    rw [charToDigit_eq ch radix hr hr']
    by_cases h : isDigit radix.toNat ch = true
    · rw [if_pos h, if_pos h]
      have k := hm a v (radix.setWidth w) hv
      have h1 := hstep v a ((BitVec.ofNat 32 (dig ch)).setWidth w) hv
      rw [setWidth_digit hw ch hr' h] at h1
      change (_ → _) ∧ (_ → _) at h1
      simp only
      change _ = (if a * radix.toNat + dig ch < M then _ else _) * c
      by_cases hp : a * radix.toNat + dig ch < M
      · obtain ⟨u, t, h2, h3, h4⟩ := h1.1 hp
        rw [if_pos hp]
        rcases hmm : mul v (radix.setWidth w) with ⟨o, n⟩
        rw [hmm] at h2 k
        simp only at h2 k ⊢
        subst h2
        simp only [h3]
        have := ih t _ h4
        rw [this, k, Nat.add_mul]
        change _ = digitsRead _ _ (a * radix.toNat + dig ch) _ * c + _
        omega
      · rw [if_neg hp]
        rcases hmm : mul v (radix.setWidth w) with ⟨o, n⟩
        rw [hmm] at k
        simp only [hmm] at h1 k ⊢
        rcases h1.2 hp with h2 | ⟨u, h2, h3⟩
        · subst h2; simp [k]
        · subst h2; simp [h3, k]
    · rw [if_neg h, if_neg h]; simp

end

theorem ofU8_length {N : Nat} (h : 1 ≤ N) (b : Nat) : (ofU8 N b : Limbs w).length = N := extU_length h _

theorem wrappingLimb_work (x : Limbs w) (n : BitVec w) :
    (wrappingLimb x n).1.length = x.length ∧ (wrappingLimb x n).2 = x.length :=
  ⟨wrappingFull_length x [n], (wrappingFull_snd x [n]).trans (products_one _)⟩

theorem mkChecked_some {r : Limbs w × Bool} {y : Limbs w} (h : mkChecked r = some y) : y = r.1 := by
  unfold mkChecked at h
  split at h <;> simp_all

theorem checkedULimb_work (x : Limbs w) (n : BitVec w) :
    (∀ y, (checkedULimb x n).1 = some y → y.length = x.length) ∧ (checkedULimb x n).2 = x.length :=
  ⟨fun _ h => (congrArg List.length (mkChecked_some h)).trans (overflowingFull_length x [n]),
    (overflowingFull_snd x [n]).trans (products_one _)⟩

theorem checkedULimbS_work (x : Limbs w) (hx : 1 ≤ x.length) (n : BitVec w) :
    (∀ y, (checkedULimbS x n).1 = some y → y.length = x.length) ∧
      (checkedULimbS x n).2 = x.length * (x.length + 1) / 2 :=
  ⟨fun _ h => (congrArg List.length (mkChecked_some h)).trans (overflowingFullS_length ..), by
    refine (overflowingFullS_snd x _).trans ?_
    rw [extU_length hx]
    have := products_triangle x.length
    omega⟩

/-- Numbers read without overflow test stay in range, so reading goes on to the end of the digits. -/
theorem digitsRead_all {r M : Nat} (hr : 1 ≤ r) (a : Nat) (ds : List Byte) (h : horner r a (digitPart r ds) < M) :
    digitsRead r M a ds = (digitPart r ds).length := by
  induction ds generalizing a with
  | nil => rfl
  | cons c cs ih =>
    unfold digitsRead
    by_cases hd : isDigit r c = true
    · rw [digitPart_cons cs hd] at h ⊢
      have hA : horner r a (c :: digitPart r cs) = horner r (a * r + dig c) (digitPart r cs) := rfl
      rw [hA] at h
      have := le_horner hr (a * r + dig c) (digitPart r cs)
      rw [if_pos hd]
      change (if a * r + dig c < M then digitsRead r M (a * r + dig c) cs + 1 else 1) = _
      rw [if_pos (by omega), ih _ h, List.length_cons]
    · rw [if_neg hd, digitPart_cons_neg cs hd]; rfl

section
variable {N : Nat} {radix : BitVec 32} (hw : w = 32 ∨ w = 64) (hN : 1 ≤ N) (hr : 2 ≤ radix.toNat)
  (hr' : radix.toNat ≤ 36)
include hw hN hr hr'

theorem body_workU (ds : List Byte) :
    (body (w := w) U.parseOps checkedULimb false N radix false ds).2 =
      digitsRead radix.toNat (2 ^ (w * N)) 0 ds * N := by
  have h32 : 32 ≤ w := by omega
  have hrad := setWidth_radix h32 radix
  have h0 := ofU8_zero (w := w) N hN
  unfold body
  simp only [Bool.and_false, Bool.false_eq_true, if_false]
  split
  · rename_i hc
    have hk : ds.length ≤ _ := of_decide_eq_true hc
    have hb := overflowDigits_bound hw radix hr' (by omega) (by omega) false ds.length hk
    rw [digitsRead_all (by omega)]
    · exact uncheckedLoop_work hr hr' (fun x n hx => hx ▸ wrappingLimb_work x n)
        (fun x n hx => (Add.limbWrapU (by omega) (length_ne (n := 0) (by omega)) n).1.trans hx) ds _ h0.1
    · rw [← numVal_eq_horner]
      have h1 := numVal_lt _ (digitPart_isDigit radix.toNat ds)
      have h2 : radix.toNat ^ (digitPart radix.toNat ds).length ≤ radix.toNat ^ ds.length :=
        Nat.pow_le_pow_right (by omega) (digitPart_length_le _ _)
      simp only [Bool.toNat_false, Nat.sub_zero] at hb
      omega
  · refine checkedLoop_read hr hr' (E := fun a v => ExactU N (a : Int) v) h32
      (fun a x n hx => (checkedULimb_work x n).2.trans hx.1) ?_ ds _ 0 h0
    intro v a d hv
    have e1 : (checkedULimb v (radix.setWidth w)).1 = U.checkedMulULimb v (radix.setWidth w) :=
      congrArg mkChecked (rowsO_fst ..)
    rw [e1]
    have h1 := (Mul.overU v [radix.setWidth w] (by simp)).check
    rw [show toNat [radix.setWidth w] = (radix.setWidth w).toNat by simp, hrad, hv.1, hv.2] at h1
    change CheckU N _ (U.checkedMulULimb v _) at h1
    have hin : ∀ z : Nat, InU (w * N) (z : Int) ↔ z < 2 ^ (w * N) := fun z => by
      unfold InU
      rw [← natCast_two_pow]
      omega
    by_cases c : InU (w * N) ((a : Int) * radix.toNat)
    · obtain ⟨u, u1, u2⟩ := h1.1 c
      have h2 := (Add.limbOverU (by omega) (length_ne (n := 0) (u2.1.trans_gt (by omega))) d).check
      rw [u2.1, u2.2] at h2
      change CheckU N _ (U.checkedAddULimb u d) at h2
      rw [← hin]
      push_cast
      refine ⟨fun q => ?_, fun q => Or.inr ⟨u, u1, h2.2 q⟩⟩
      obtain ⟨t, t1, t2⟩ := h2.1 q
      exact ⟨u, t, u1, t1, t2⟩
    · refine ⟨fun q => absurd ?_ c, fun _ => Or.inl (h1.2 c)⟩
      rw [← Nat.cast_mul, hin]
      omega

theorem body_workS (h2 : 2 ≤ N) (negative : Bool) (ds : List Byte) :
    let c := if ds.length ≤ Parse.overflowDigits (N * w / 8) radix true then N else N * (N + 1) / 2
    let b := body (w := w) I.parseOps checkedULimbS true N radix negative ds
    b.2 ≤ (digitPart radix.toNat ds).length * c ∧
      (b.1 ≠ .err .posOverflow → b.1 ≠ .err .negOverflow → b.2 = (digitPart radix.toNat ds).length * c) := by
  have h0 := ofU8_zero (w := w) N hN
  intro c b
  have hm : ∀ (x : Limbs w) n, x.length = N → (wrappingLimb x n).1.length = N ∧ (wrappingLimb x n).2 = N :=
    fun x n hx => hx ▸ wrappingLimb_work x n
  have hm2 : ∀ (x : Limbs w) n, x.length = N → (∀ y, (checkedULimbS x n).1 = some y → y.length = N) ∧
      (checkedULimbS x n).2 = N * (N + 1) / 2 := fun x n hx => hx ▸ checkedULimbS_work x (by omega) n
  have hadd : ∀ (x : Limbs w) n, x.length = N → (I.wrappingAddULimb x n).length = N := fun x n hx =>
    (Add.limbWrapU (by omega) (length_ne (n := 0) (by omega)) n).1.trans hx
  have hsub : ∀ (x : Limbs w) n, x.length = N → (I.wrappingSubULimb x n).length = N := fun x n hx =>
    (Sub.limbWrapU (by omega) (length_ne (n := 0) (by omega)) n).1.trans hx
  have hcadd : ∀ (x : Limbs w) n y, x.length = N → I.checkedAddULimb x n = some y → y.length = N :=
    fun x n y hx e => (congrArg List.length (mkChecked_some e)).trans
      ((Add.uLimbOverS (by omega) (by omega) n).1.1.trans hx)
  have hcsub : ∀ (x : Limbs w) n y, x.length = N → I.checkedSubULimb x n = some y → y.length = N :=
    fun x n y hx e => (congrArg List.length (mkChecked_some e)).trans
      ((Sub.uLimbOverS (by omega) (by omega) n).1.1.trans hx)
  by_cases hk : ds.length ≤ Parse.overflowDigits (N * w / 8) radix true
  · have hc : c = N := if_pos hk
    have hb : b = uncheckedLoop wrappingLimb (if negative then I.wrappingSubULimb else I.wrappingAddULimb) radix ds
        (ofU8 N 0) := by
      simp only [b, body, hk, decide_true, Bool.true_and]
      cases negative <;> rfl
    rw [hb, hc]
    have := uncheckedLoop_work (c := N) hr hr' hm (add := if negative then I.wrappingSubULimb else I.wrappingAddULimb)
      (by cases negative <;> assumption) ds (ofU8 N 0) h0.1
    exact ⟨this.le, fun _ _ => this⟩
  · have hc : c = N * (N + 1) / 2 := if_neg hk
    cases negative
    · have hb : b = checkedLoop .posOverflow checkedULimbS I.checkedAddULimb radix ds (ofU8 N 0) := by
        simp only [b, body, hk]; rfl
      rw [hb, hc]
      have := checkedLoop_work (over := .posOverflow) hr hr' hm2 hcadd ds (ofU8 N 0) h0.1
      exact ⟨this.1, fun q _ => this.2 q⟩
    · have hb : b = checkedLoop .negOverflow checkedULimbS I.checkedSubULimb radix ds (ofU8 N 0) := by
        simp only [b, body, hk]; rfl
      rw [hb, hc]
      have := checkedLoop_work (over := .negOverflow) hr hr' hm2 hcsub ds (ofU8 N 0) h0.1
      exact ⟨this.1, fun _ q => this.2 q⟩

end

end I256.Count

namespace I256

variable {w : Nat} {x y : Limbs w}

section
variable (hw : 0 < w) (hl : x.length = y.length) (he : x.length % 2 = 0) (h4 : 4 ≤ x.length)
include hw hl he h4

/-- Too few rounds. -/
theorem ilogLoop_running (oc : Bool) (hb : 2 ≤ toNat y)
    (hp : ¬ DivPanics w x.length (toNat x) (toNat y)) (hbits : bits x < 2 ^ 32)
    (rounds n : Nat) (r : Limbs w) (hr : ExactU x.length ((toNat y ^ n : Nat) : Int) r) (hle : toNat y ≤ toNat x)
    (hf : n + rounds ≤ Nat.log (toNat y) (toNat x)) :
    U.ilogLoop oc x y rounds (BitVec.ofNat 32 n) r = none := by
  have hlogb : Nat.log (toNat y) (toNat x) < bits x := by
    apply (Nat.log_lt_iff_lt_pow (by omega) (by omega)).2
    exact lt_of_lt_of_le (toNat_lt x) (Nat.pow_le_pow_left hb _)
  induction rounds generalizing n r with
  | zero => rfl
  | succ rounds ih =>
    obtain ⟨q, hq, q1, q2⟩ := (U.div_spec hw hl he h4 (by omega) oc).2 hp
    have hrv : toNat r = toNat y ^ n := by exact_mod_cast hr.2
    have hqv : toNat q = toNat x / toNat y := by exact_mod_cast q2
    have hc := le_val hw hl he h4 hr.1 q1
    rw [hrv, hqv, Nat.le_div_iff_mul_le (by omega), ← Nat.pow_succ] at hc
    have hlog : toNat y ^ (n + 1) ≤ toNat x ↔ n + 1 ≤ Nat.log (toNat y) (toNat x) :=
      (Nat.le_log_iff_pow_le (by omega) (by omega)).symm
    rw [U.ilogLoop, hq]
    simp only
    have c : n + 1 ≤ Nat.log (toNat y) (toNat x) := by omega
    rw [if_pos (hc.2 (hlog.2 c))]
    have hn32 : (BitVec.ofNat 32 n == BitVec.allOnes 32) = false := by
      rw [beq_eq_false_iff_ne]
      intro h
      have := congrArg BitVec.toNat h
      rw [BitVec.toNat_ofNat, BitVec.toNat_allOnes, Nat.mod_eq_of_lt (by omega)] at this
      omega
    rw [hn32, Bool.and_false, if_neg (by decide)]
    have hm := (checkedMulU hw (x := r) (y := y) (by rw [hr.1, hl]) (by rw [hr.1]; exact he)
      (by rw [hr.1]; exact h4)).op (Mul.wrapU r y (by omega)) oc
    rw [hr.1, hrv] at hm
    have hz : ((toNat y ^ n : Nat) : Int) * (toNat y : Int) = ((toNat y ^ (n + 1) : Nat) : Int) := by
      rw [Nat.pow_succ]; push_cast; ring
    rw [hz] at hm
    have hin : InU (w * x.length) ((toNat y ^ (n + 1) : Nat) : Int) := by
      have h1 := hlog.2 c
      have h2 := toNat_lt x
      constructor
      · positivity
      · have : toNat y ^ (n + 1) < 2 ^ (w * x.length) := lt_of_le_of_lt h1 h2
        exact_mod_cast this
    obtain ⟨r', hr', hr''⟩ := hm.ok hin
    rw [show U.mul oc r y = .ok r' from hr']
    simp only
    have := ih (n + 1) r' hr'' (by omega)
    rwa [BitVec.ofNat_add] at this

/-- The exact number of rounds. -/
theorem checkedIlogU_rounds (oc : Bool) (hb : 2 ≤ toNat y) (hle : toNat y ≤ toNat x)
    (hp : ¬ DivPanics w x.length (toNat x) (toNat y)) (hbits : bits x < 2 ^ 32) (rounds : Nat) :
    U.checkedIlog oc rounds x y =
      if Nat.log (toNat y) (toNat x) < logEstimate (toNat y) (toNat x) + rounds then
        some (.ok (some (Nat.log (toNat y) (toNat x)))) else none := by
  rw [U.checkedIlog, ilog_guard hw hl he h4]
  simp only [decide_eq_true_eq]
  rw [if_neg (by omega)]
  obtain ⟨r, h1, h2⟩ := ilogStart_spec hw hl he h4 oc (by omega : toNat x ≠ 0) (by omega) hbits
  rw [h1]
  simp only
  split
  · rename_i h
    rw [ilogLoop_spec hw hl he h4 oc hb hp hbits rounds _ r h2
        ((Nat.le_log_iff_pow_le (by omega) (by omega)).2 (ilog_start_le (by omega) (by omega))) hle h]
    rfl
  · rename_i h
    unfold logEstimate at h
    rw [ilogLoop_running hw hl he h4 oc hb hp hbits rounds _ r h2 hle (by omega)]
    rfl

end

theorem log_le_div {b x : Nat} (hb : 2 ≤ b) (hx : x ≠ 0) : Nat.log b x ≤ x.log2 / b.log2 := by
  have h1 : 1 ≤ b.log2 := (Nat.le_log2 (by omega)).2 (by omega)
  rw [Nat.le_div_iff_mul_le h1]
  apply (Nat.le_log2 hx).2
  rw [Nat.mul_comm, Nat.pow_mul]
  exact (Nat.pow_le_pow_left (Nat.log2_self_le (by omega)) _).trans (Nat.pow_log_le_self b hx)

end I256
