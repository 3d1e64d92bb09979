import Verif.Model.RawScalar
import Verif.Lemmas.RawDivApi
import Verif.Lemmas.FixedStray

/-!
# The literal scalar divisions of the signed types agree with the functional model
-/

namespace I256

variable {w : Nat}

theorem primAbs_zero (m : Nat) : I.primAbs (0 : BitVec m) = 0 := by
  unfold I.primAbs
  split <;> simp

theorem scalar1S_zero {N : Nat} (hN : 0 < N) : ExactS (w := w) N 0 (Div.scalar1 N 0) := by
  have := Div.scalar1_spec hN (0 : BitVec w)
  refine ⟨this.1, ?_⟩
  rw [toInt_eq_zero_iff, this.2]
  simp

theorem isNegative_of_zero (hw : 0 < w) {x : Limbs w} (hx : x ≠ []) (h : toInt x = 0) :
    I.isNegative x = false := by rw [isNegative_eq hw hx, h]; rfl

/-- A signed number divided by a zero double limb. -/
theorem wideU_zero (hw : 1 < w) {x : Limbs w} (h2 : 2 ≤ x.length) (he : x.length % 2 = 0) (oc : Bool) :
    Yields (toInt x ≠ 0) (fun p => ExactS x.length 0 p.1 ∧ p.2 = 0)
      (I.wrappingDivRemUWide oc x 0) := by
  obtain ⟨xl, xv⟩ := unsignedAbs_natAbs (by omega : 0 < w) h2 he
  obtain ⟨h1, h0⟩ := Div.wideDiv_zero (w := w) (x := I.unsignedAbs x) (by omega) (by omega)
  rw [xv] at h1 h0
  rw [xl] at h0
  refine ⟨fun h => by rw [I.wrappingDivRemUWide, h1 (by omega)]; rfl, fun h => ?_⟩
  have h : toInt x = 0 := by simpa using h
  refine ⟨_, by rw [I.wrappingDivRemUWide, h0 (by omega), dU_zero oc (isNegative_of_zero (by omega)
    (length_ne (n := 0) (by omega)) h)], scalar1S_zero (N := x.length) (by omega), rfl⟩

theorem wideS_zero (hw : 1 < w) {x : Limbs w} (h2 : 2 ≤ x.length) (he : x.length % 2 = 0) :
    Yields (toInt x ≠ 0) (fun p => ExactS x.length 0 p.1 ∧ p.2 = 0)
      (I.wrappingDivRemIWide x 0) := by
  obtain ⟨xl, xv⟩ := unsignedAbs_natAbs (by omega : 0 < w) h2 he
  obtain ⟨h1, h0⟩ := Div.wideDiv_zero (w := w) (x := I.unsignedAbs x) (by omega) (by omega)
  rw [xv] at h1 h0
  rw [xl] at h0
  refine ⟨fun h => by rw [I.wrappingDivRemIWide, primAbs_zero, h1 (by omega)]; rfl, fun h => ?_⟩
  have h : toInt x = 0 := by simpa using h
  refine ⟨_, by rw [I.wrappingDivRemIWide, primAbs_zero, h0 (by omega), dI_zero (isNegative_of_zero
    (by omega) (length_ne (n := 0) (by omega)) h)], scalar1S_zero (N := x.length) (by omega), rfl⟩

namespace Raw

open Div (Cfg debugAssert)

theorem opOf_eq {α : Type} (cf : Cfg) (wr : Res α) (ch : Res (Option α)) :
    opOf cf wr ch = opOfR cf.oc wr ch := rfl

theorem checkedBy_eq {α : Type} {n : Nat} (v : BitVec n) (wr : Res α) :
    checkedBy v wr = I256.checkedBy (isZeroScalar v) wr := by
  unfold checkedBy I256.checkedBy isZeroScalar
  cases (v == 0)
  · cases wr <;> rfl
  · rfl

theorem opOfR_map {α β : Type} (f : α → β) (oc : Bool) {m : Nat} (v : BitVec m) (r : Res α) :
    opOfR oc (r.map f) (I256.checkedBy (isZeroScalar v) (r.map f)) =
      (opOfR oc r (I256.checkedBy (isZeroScalar v) r)).map f := by
  unfold opOfR I256.checkedBy
  cases oc <;> cases isZeroScalar v <;> cases r <;> rfl

theorem U.divRemULimb_ok (cf : Cfg) (be : Bool) (hw : 0 < w) {x : Limbs w}
    (hx : x ≠ []) (h128 : 128 ∣ w * x.length) (n : BitVec w) :
    U.divRemULimb cf be (mem be x) n =
      (I256.U.divRemULimb cf.oc x n).map (fun r => (mem be r.1, r.2)) := by
  rw [U.divRemULimb, opOf_eq, checkedBy_eq, U.wrappingDivRemULimb_ok cf be hw hx h128, opOfR_map]
  rfl

theorem U.fromU128_length {x : Limbs 32} (h4 : 4 < x.length) {n : BitVec 128}
    {r : Limbs 32 × BitVec 128} (h : I256.Div.fromU128 x n = .ok r) : r.1.length = x.length := by
  by_cases hd : n = 0
  · subst hd
    obtain ⟨h1, h0⟩ := I256.Div.fromU128_zero (le_of_lt h4)
    by_cases hx : toNat x = 0
    · rw [h0 hx] at h
      injection h with h
      rw [← h]
      exact (I256.Div.scalar1_spec (N := x.length) (by omega) (0 : BitVec 32)).1
    · rw [h1 hx] at h
      exact absurd h (by simp)
  · obtain ⟨q', r', e', ⟨hq, -⟩, -⟩ := I256.Div.fromU128_spec h4 hd
    rw [e'] at h
    injection h with h
    rw [← h]
    exact hq

theorem limb_length {x : Limbs w} (hx : x ≠ []) {n : BitVec w} {r : Limbs w × BitVec w}
    (h : I256.Div.limb x n = .ok r) : r.1.length = x.length := by
  by_cases hn : n = 0
  · rw [hn, I256.Div.limb_zero hx] at h
    exact absurd h (by simp)
  · obtain ⟨q, r', e, hq, -⟩ := I256.Div.limb_spec hn x
    rw [e] at h
    injection h with h
    rw [← h]
    exact hq

namespace I

theorem sub_ok (cf : Cfg) (be : Bool) {x y : Limbs w} (hl : x.length = y.length) (h2 : 2 ≤ x.length)
    (h128 : 128 ∣ w * x.length) (hw : 1 < w) :
    sub cf be (mem be x) (mem be y) = (I256.I.sub cf.oc x y).map (mem be) := by
  have h1 : (I256.Sub.wrappingFull x y).length = x.length := (I256.Sub.wrapU (by omega) hl).1
  have h3 : (I256.Sub.sOverflowingFull x y).1.length = x.length :=
    (I256.Sub.overS hw (length_ne (n := 1) (by omega)) hl).1.1
  unfold sub I256.I.sub I256.opOf
  cases cf.oc
  · simp only [Bool.not_false, if_true]
    rw [Sub.wrappingFull_ok be _ _ hl h2, Res.mbind_ok,
      fromNeLimbs_ok (by rw [mem_length, h1]; exact h128)]
    rfl
  · simp only [Bool.not_true, Bool.false_eq_true, if_false]
    rw [Sub.sOverflowingFull_ok be _ _ hl h2, Res.mbind_ok]
    simp only
    rw [fromNeLimbs_ok (by rw [mem_length, h3]; exact h128), Res.mbind_ok, I256.I.checkedSub,
      I256.I.overflowingSub, mkChecked]
    cases (I256.Sub.sOverflowingFull x y).2 <;> rfl

theorem divRemUnsigned_ok (cf : Cfg) (be : Bool) (hw : 1 < w) (h8 : 8 ∣ w) {x : Limbs w}
    (h2 : 2 ≤ x.length) (he : x.length % 2 = 0) (h128 : 128 ∣ w * x.length) {m : Nat} {n : BitVec m}
    {div : Limbs w → BitVec m → Res (Limbs w × BitVec m)} {r : Res (Limbs w × BitVec m)}
    (hd : div (I256.I.unsignedAbs x) n = r) (hr : ∀ p, r = .ok p → p.1.length = x.length) :
    divRemUnsigned cf be div (mem be x) n =
      (I256.I.divRemUnsigned cf.oc x n r).map (fun p => (mem be p.1, p.2)) := by
  rw [divRemUnsigned, unsignedAbs_ok cf be (by omega) h8 h2 he h128, Res.mbind_ok, toLeLimbs_ok,
    Res.mbind_ok, hd]
  rcases r with ⟨d, rem⟩ | _
  swap
  · rfl
  have hq : d.length = x.length := hr _ rfl
  have hn : (I256.I.wrappingNeg d).length = d.length := (wrappingNegS (by omega) (by omega)).1
  simp only [Res.mbind_ok]
  rw [fromLeLimbs_ok be (by rw [hq]; exact h128), Res.mbind_ok,
    Bits.isNegative_ok be (length_ne (n := 0) (by omega)), Res.mbind_ok,
    wrappingNeg_ok cf be (by omega) h8 (x := d) (by omega) (by omega) (by rw [hq]; exact h128)]
  rw [I256.I.divRemUnsigned, Res.bind_ok]
  simp only
  cases I256.I.isNegative x
  · simp [Res.mbind_ok]
  · simp only [if_true, Res.mbind_ok, Bool.true_and]
    by_cases h0 : rem = 0
    · subst h0
      simp
    · have h0' : (rem != 0) = true := by simpa using h0
      have h1 : (ofU8 x.length 1 : Limbs w).length = x.length := extU_length (by omega) _
      simp only [h0', if_true]
      rw [mem_length, fromU8_ok be 1 (by omega) h128, Res.mbind_ok,
        sub_ok cf be (by rw [hn, hq, h1]) (by omega) (by rw [hn, hq]; exact h128) hw, hn, hq]
      rcases I256.I.sub cf.oc (I256.I.wrappingNeg d) (ofU8 x.length 1) with v | _
      · simp only [Res.map_ok, Res.mbind_ok, Res.bind_ok]
        unfold Div.sub Raw.sub
        have hu : (n.ult rem) = decide (¬ rem.toNat ≤ n.toNat) := by
          rw [Bool.eq_iff_iff, BitVec.ult_iff_lt, BitVec.lt_def, decide_eq_true_iff]
          omega
        rw [hu]
        cases cf.oc
        · rfl
        · by_cases hc : rem.toNat ≤ n.toNat
          · simp [hc, Res.mbind_ok]
          · simp only [hc, if_true, if_false, not_false_eq_true, decide_true, Bool.and_self]
            rfl
      · rfl

theorem divRemSigned_ok (cf : Cfg) (be : Bool) (hw : 1 < w) (h8 : 8 ∣ w) {x : Limbs w}
    (h2 : 2 ≤ x.length) (he : x.length % 2 = 0) (h128 : 128 ∣ w * x.length) {m : Nat} {n : BitVec m}
    {div : Limbs w → BitVec m → Res (Limbs w × BitVec m)} {r : Res (Limbs w × BitVec m)}
    (hd : div (I256.I.unsignedAbs x) (I256.I.primAbs n) = r)
    (hr : ∀ p, r = .ok p → p.1.length = x.length) :
    divRemSigned cf be div (mem be x) n =
      (I256.I.divRemSigned x n r).map (fun p => (mem be p.1, p.2)) := by
  rw [divRemSigned, unsignedAbs_ok cf be (by omega) h8 h2 he h128, Res.mbind_ok, toLeLimbs_ok,
    Res.mbind_ok, hd]
  rcases r with ⟨d, rem⟩ | _
  swap
  · rfl
  have hq : d.length = x.length := hr _ rfl
  simp only [Res.mbind_ok]
  rw [fromLeLimbs_ok be (by rw [hq]; exact h128), Res.mbind_ok,
    Bits.isNegative_ok be (length_ne (n := 0) (by omega)), Res.mbind_ok,
    wrappingNeg_ok cf be (by omega) h8 (x := d) (by omega) (by omega) (by rw [hq]; exact h128)]
  rw [I256.I.divRemSigned, Res.map_ok]
  cases I256.I.isNegative x <;> cases n.slt 0 <;> rfl

section
variable (cf : Cfg) (be : Bool) (hw : 1 < w) (h8 : 8 ∣ w) {x : Limbs w}
  (h2 : 2 ≤ x.length) (he : x.length % 2 = 0) (h128 : 128 ∣ w * x.length)
include hw h8 h2 he h128

theorem wrappingDivRemULimb_ok (n : BitVec w) :
    wrappingDivRemULimb cf be (mem be x) n =
      (I256.I.wrappingDivRemULimb cf.oc x n).map (fun p => (mem be p.1, p.2)) := by
  have hl := (unsignedAbsU (by omega) h2 he).1
  refine divRemUnsigned_ok cf be hw h8 h2 he h128
    (Div.limb_lit cf (by omega) (length_ne (n := 0) (by omega)) n) fun p hp => ?_
  rw [← hl]
  exact limb_length (length_ne (n := 0) (by omega)) hp

theorem wrappingDivRemILimb_ok (n : BitVec w) :
    wrappingDivRemILimb cf be (mem be x) n =
      (I256.I.wrappingDivRemILimb x n).map (fun p => (mem be p.1, p.2)) := by
  have hl := (unsignedAbsU (by omega) h2 he).1
  refine divRemSigned_ok cf be hw h8 h2 he h128
    (Div.limb_lit cf (by omega) (length_ne (n := 0) (by omega)) _) fun p hp => ?_
  rw [← hl]
  exact limb_length (length_ne (n := 0) (by omega)) hp

theorem wrappingDivRemUWide_ok (n : BitVec (w + w)) :
    wrappingDivRemUWide cf be (mem be x) n =
      (I256.I.wrappingDivRemUWide cf.oc x n).map (fun p => (mem be p.1, p.2)) := by
  have hl := (unsignedAbsU (by omega) h2 he).1
  refine divRemUnsigned_ok cf be hw h8 h2 he h128
    (Div.wideDiv_lit cf (by omega) (by omega) n) fun p hp => ?_
  rw [← hl]
  exact U.wideDiv_length (by omega) (by omega) hp

theorem wrappingDivRemIWide_ok (n : BitVec (w + w)) :
    wrappingDivRemIWide cf be (mem be x) n =
      (I256.I.wrappingDivRemIWide x n).map (fun p => (mem be p.1, p.2)) := by
  have hl := (unsignedAbsU (by omega) h2 he).1
  refine divRemSigned_ok cf be hw h8 h2 he h128
    (Div.wideDiv_lit cf (by omega) (by omega) _) fun p hp => ?_
  rw [← hl]
  exact U.wideDiv_length (by omega) (by omega) hp

theorem divRemULimb_ok (n : BitVec w) :
    divRemULimb cf be (mem be x) n =
      (I256.I.divRemULimb cf.oc x n).map (fun r => (mem be r.1, r.2)) := by
  rw [divRemULimb, opOf_eq, checkedBy_eq, wrappingDivRemULimb_ok cf be hw h8 h2 he h128, opOfR_map]
  rfl

end

theorem wrappingDivRemU128_ok (cf : Cfg) (be : Bool) {x : Limbs 32} (h4 : 4 < x.length)
    (he : x.length % 2 = 0) (h128 : 128 ∣ 32 * x.length) (n : BitVec 128) :
    wrappingDivRemU128 cf be (mem be x) n =
      (I256.I.wrappingDivRemFixU cf.oc .b128 x n).map (fun p => (mem be p.1, p.2)) := by
  have hl := (unsignedAbsU (w := 32) (by omega) (by omega) he).1
  exact divRemUnsigned_ok cf be (by omega) (by omega) (by omega) he h128
    (Div.fromU128_lit cf (by omega) n) fun p hp => (U.fromU128_length (by omega) hp).trans hl

theorem wrappingDivRemI128_ok (cf : Cfg) (be : Bool) {x : Limbs 32} (h4 : 4 < x.length)
    (he : x.length % 2 = 0) (h128 : 128 ∣ 32 * x.length) (n : BitVec 128) :
    wrappingDivRemI128 cf be (mem be x) n =
      (I256.I.wrappingDivRemFixI .b128 x n).map (fun p => (mem be p.1, p.2)) := by
  have hl := (unsignedAbsU (w := 32) (by omega) (by omega) he).1
  exact divRemSigned_ok cf be (by omega) (by omega) (by omega) he h128
    (Div.fromU128_lit cf (by omega) _) fun p hp => (U.fromU128_length (by omega) hp).trans hl

end I

end Raw

end I256
