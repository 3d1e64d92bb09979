import Verif.Model.RawPow
import Verif.Lemmas.RawText
import Verif.Lemmas.RawRun
import Verif.Lemmas.Ilog
import Verif.Lemmas.Pow

/-!
# Exponentiation and logarithms in memory: the literal model against the functional model
-/

namespace I256

variable {w : Nat}

namespace Raw

open Div (Cfg debugAssert)

theorem option_logical (be : Bool) (o : Option (Limbs w)) : (o.map (mem be)).map (logical be) = o := by
  cases o <;> simp

theorem res_logical (be : Bool) (r : Res (Limbs w)) : (r.map (mem be)).map (logical be) = r := by
  cases r <;> simp

theorem overflowingOf_ok {be : Bool} {v : Limbs w × Bool} (h : 128 ∣ w * v.1.length) :
    overflowingOf (.ok (mem be v.1, v.2)) = .ok (mem be v.1, v.2) := by
  rw [overflowingOf, Res.mbind_ok]
  simp only
  rw [fromNeLimbs_ok (by simpa using h), Res.mbind_ok]

namespace Pow

theorem bit_eq (e : BitVec 32) : (e &&& 1 == 1) = (e.toNat &&& 1 == 1) := by
  rw [Bool.eq_iff_iff, beq_iff_eq, beq_iff_eq, ← BitVec.toNat_inj, BitVec.toNat_and]
  rfl

theorem one_eq (e : BitVec 32) : (e == 1) = (e.toNat == 1) := by
  rw [Bool.eq_iff_iff, beq_iff_eq, beq_iff_eq, ← BitVec.toNat_inj]
  rfl

theorem half_toNat (e : BitVec 32) : (e / 2).toNat = e.toNat / 2 := by
  rw [BitVec.toNat_udiv]
  rfl

theorem assert_half (cf : Cfg) {e : BitVec 32} (h : 2 ≤ e.toNat) : debugAssert cf (e / 2 != 0) = .ok () := by
  have : (e / 2 != 0) = true := by
    rw [bne_iff_ne, ne_eq, ← BitVec.toNat_inj, half_toNat]
    have : (0 : BitVec 32).toNat = 0 := rfl
    omega
  unfold debugAssert
  rw [this]
  cases cf.da <;> rfl

section
variable (cf : Cfg) {be : Bool} {N : Nat} {mul : Limbs w → Limbs w → Res (Limbs w)}
  {mul' : Limbs w → Limbs w → Limbs w}
  (hm : ∀ a b : Limbs w, a.length = N → b.length = N →
    mul (mem be a) (mem be b) = .ok (mem be (mul' a b)) ∧ (mul' a b).length = N)
include hm

theorem loop_ok (fuel : Nat) (e : BitVec 32) (base acc : Limbs w) (hb : base.length = N)
    (ha : acc.length = N) (h0 : 1 ≤ e.toNat) (hf : e.toNat < 2 ^ fuel) :
    ∃ s, loop fuel running (body cf mul) (e, mem be base, mem be acc, none) = .ok s ∧
      s.2.2.2 = some (mem be (wrappingPowLoop mul' fuel e.toNat base acc)) := by
  induction fuel generalizing e base acc with
  | zero => simp only [pow_zero] at hf; omega
  | succ fuel ih =>
    obtain ⟨m1, l1⟩ := hm acc base ha hb
    obtain ⟨m2, l2⟩ := hm base base hb hb
    rw [wrappingPowLoop.eq_def]
    simp only
    by_cases c : e.toNat = 1
    · refine ⟨_, (loop_step (cond := running) (t := (e, mem be base, mem be (mul' acc base),
        some (mem be (mul' acc base)))) rfl ?_).trans (loop_done rfl), ?_⟩
      · simp only [body, bit_eq e, one_eq e, c, m1]
        rfl
      · simp only [c]
        rfl
    · have hd : debugAssert cf (e / 2 != 0) = .ok () := assert_half cf (by omega)
      have h1 : (e.toNat == 1) = false := beq_eq_false_iff_ne.2 c
      have hs : e.toNat / 2 < 2 ^ fuel := by
        rw [pow_succ] at hf
        omega
      cases cb : (e.toNat &&& 1 == 1)
      · obtain ⟨s, i1, i2⟩ := ih (e / 2) (mul' base base) acc l2 ha (by rw [half_toNat]; omega)
          (by rw [half_toNat]; exact hs)
        refine ⟨s, (loop_step (cond := running) (t := (e / 2, mem be (mul' base base), mem be acc, none))
          rfl ?_).trans i1, ?_⟩
        · simp only [body, bit_eq e, cb, m2, hd, Bool.false_and]
          rfl
        · rw [i2, half_toNat]
          rfl
      · obtain ⟨s, i1, i2⟩ := ih (e / 2) (mul' base base) (mul' acc base) l2 l1
          (by rw [half_toNat]; omega) (by rw [half_toNat]; exact hs)
        refine ⟨s, (loop_step (cond := running) (t := (e / 2, mem be (mul' base base),
          mem be (mul' acc base), none)) rfl ?_).trans i1, ?_⟩
        · simp only [body, bit_eq e, one_eq e, cb, m1, m2, hd, h1]
          rfl
        · rw [i2, half_toNat]
          simp only [h1]
          rfl

theorem wrapping_ok {x : Limbs w} (hx : x.length = N) (hN : 0 < N) (h128 : 128 ∣ w * N) (e : BitVec 32) :
    wrapping cf be mul (mem be x) e = .ok (mem be (I256.wrappingPow mul' x e.toNat)) := by
  subst hx
  unfold wrapping I256.wrappingPow
  have h0 : (e == 0) = (e.toNat == 0) := by
    rw [Bool.eq_iff_iff, beq_iff_eq, beq_iff_eq, ← BitVec.toNat_inj]
    rfl
  rw [h0, mem_length, fromU8_ok be 1 hN h128, Res.mbind_ok]
  cases c : (e.toNat == 0)
  · simp only [Bool.false_eq_true, if_false]
    have c' : e.toNat ≠ 0 := beq_eq_false_iff_ne.1 c
    obtain ⟨s, i1, i2⟩ := loop_ok cf hm 32 e x (ofU8 x.length 1) rfl (extU_length (by omega) _)
      (by omega) e.isLt
    rw [i1, Res.mbind_ok, i2]
    rfl
  · rfl

end

section
variable (cf : Cfg) {be : Bool} {N : Nat} {mul : Limbs w → Limbs w → Res (Limbs w × Bool)}
  {mul' : Limbs w → Limbs w → Limbs w × Bool}
  (hm : ∀ a b : Limbs w, a.length = N → b.length = N →
    mul (mem be a) (mem be b) = .ok (mem be (mul' a b).1, (mul' a b).2) ∧ (mul' a b).1.length = N)
include hm

theorem loopO_ok (fuel : Nat) (e : BitVec 32) (base acc : Limbs w) (o : Bool) (hb : base.length = N)
    (ha : acc.length = N) (h0 : 1 ≤ e.toNat) (hf : e.toNat < 2 ^ fuel) :
    ∃ s, loop fuel running (bodyO cf mul) (e, mem be base, (mem be acc, o), none) = .ok s ∧
      s.2.2.2 = some (mem be (overflowingPowLoop mul' fuel e.toNat base acc o).1,
        (overflowingPowLoop mul' fuel e.toNat base acc o).2) := by
  induction fuel generalizing e base acc o with
  | zero => simp only [pow_zero] at hf; omega
  | succ fuel ih =>
    obtain ⟨m1, l1⟩ := hm acc base ha hb
    obtain ⟨m2, l2⟩ := hm base base hb hb
    rw [overflowingPowLoop.eq_def]
    simp only
    by_cases c : e.toNat = 1
    · refine ⟨_, (loop_step (cond := running) (t := (e, mem be base, (mem be acc, o),
        some (mem be (mul' acc base).1, (mul' acc base).2 || o))) rfl ?_).trans (loop_done rfl), ?_⟩
      · simp only [bodyO, bit_eq e, one_eq e, c, m1]
        rfl
      · simp only [c]
        rfl
    · have hd : debugAssert cf (e / 2 != 0) = .ok () := assert_half cf (by omega)
      have h1 : (e.toNat == 1) = false := beq_eq_false_iff_ne.2 c
      have hs : e.toNat / 2 < 2 ^ fuel := by
        rw [pow_succ] at hf
        omega
      cases cb : (e.toNat &&& 1 == 1)
      · obtain ⟨s, i1, i2⟩ := ih (e / 2) (mul' base base).1 acc (o || (mul' base base).2) l2 ha
          (by rw [half_toNat]; omega) (by rw [half_toNat]; exact hs)
        refine ⟨s, (loop_step (cond := running) (t := (e / 2, mem be (mul' base base).1,
          (mem be acc, o || (mul' base base).2), none)) rfl ?_).trans i1, ?_⟩
        · simp only [bodyO, bit_eq e, cb, m2, hd]
          rfl
        · rw [i2, half_toNat]
          rfl
      · obtain ⟨s, i1, i2⟩ := ih (e / 2) (mul' base base).1 (mul' acc base).1
          (o || (mul' acc base).2 || (mul' base base).2) l2 l1
          (by rw [half_toNat]; omega) (by rw [half_toNat]; exact hs)
        refine ⟨s, (loop_step (cond := running) (t := (e / 2, mem be (mul' base base).1,
          (mem be (mul' acc base).1, o || (mul' acc base).2 || (mul' base base).2), none)) rfl
          ?_).trans i1, ?_⟩
        · simp only [bodyO, bit_eq e, one_eq e, cb, m1, m2, hd, h1]
          rfl
        · rw [i2, half_toNat]
          simp only [h1]
          rfl

theorem overflowing_ok {x : Limbs w} (hx : x.length = N) (hN : 0 < N) (h128 : 128 ∣ w * N)
    (e : BitVec 32) :
    overflowing cf be mul (mem be x) e = .ok (mem be (I256.overflowingPow mul' x e.toNat).1,
      (I256.overflowingPow mul' x e.toNat).2) := by
  subst hx
  unfold overflowing I256.overflowingPow
  have h0 : (e == 0) = (e.toNat == 0) := by
    rw [Bool.eq_iff_iff, beq_iff_eq, beq_iff_eq, ← BitVec.toNat_inj]
    rfl
  rw [h0, mem_length, fromU8_ok be 1 hN h128, Res.mbind_ok, Res.mbind_ok]
  cases c : (e.toNat == 0)
  · simp only [Bool.false_eq_true, if_false]
    have c' : e.toNat ≠ 0 := beq_eq_false_iff_ne.1 c
    obtain ⟨s, i1, i2⟩ := loopO_ok cf hm 32 e x (ofU8 x.length 1) false rfl (extU_length (by omega) _)
      (by omega) e.isLt
    rw [i1, Res.mbind_ok, i2]
    rfl
  · rfl

end

theorem checked_ok {be : Bool} {v : Limbs w × Bool} :
    checked (.ok (mem be v.1, v.2)) = .ok ((mkChecked v).map (mem be)) := by
  rw [checked, Res.mbind_ok]
  unfold mkChecked
  cases v.2 <;> rfl

end Pow

theorem checkedIlog2_ok (h8 : 8 ∣ w) (hw : 0 < w) (be signed : Bool) {x : Limbs w} (he : x.length % 2 = 0)
    (h4 : 4 ≤ x.length) (h128 : 128 ∣ w * x.length) :
    checkedIlog2 be signed (mem be x) = .ok (I256.checkedIlog2 signed x) := by
  have hz : (ofU8 x.length 0 : Limbs w).length = x.length := extU_length (by omega) _
  have hb : bits (mem be x) = bits x := by rw [bits, mem_length, bits]
  have hp : 0 < bits x := Nat.mul_pos hw (by omega)
  unfold checkedIlog2
  rw [mem_length, fromU8_ok be 0 (by omega) h128, Res.mbind_ok,
    Ord.le_ok h8 be signed hz.symm he (length_ne (n := 0) (by omega)), Res.mbind_ok]
  cases c : I256.Ord.le signed x (ofU8 x.length 0)
  · simp only [Bool.false_eq_true, if_false, I256.checkedIlog2, c]
    have hle := I256.Ord.le_iff hw signed hz.symm he h4
    have h0 : toNat x ≠ 0 := by
      intro h0
      have e : x = ofU8 x.length 0 := toNat_inj hz.symm (by
        rw [h0]
        have := (ofU8U (w := w) (N := x.length) (v := 0) (by omega) (Nat.two_pow_pos w)).2
        exact_mod_cast this.symm)
      have := hle.2 (le_of_eq (by rw [← e]))
      rw [c] at this
      exact absurd this (by simp)
    have hlz : I256.Bits.leadingZeros x < bits x := by
      obtain ⟨-, a2, -⟩ := leadingZeros_spec x
      by_contra hk
      have : bits x - I256.Bits.leadingZeros x = 0 := by omega
      rw [this] at a2
      omega
    rw [hb, usub_ok (by omega), Res.mbind_ok, Bits.leadingZeros_ok, Res.mbind_ok, usub_ok (by omega),
      Res.mbind_ok]
  · simp only [if_true, I256.checkedIlog2, c]

theorem ilog2_ok (h8 : 8 ∣ w) (hw : 0 < w) (be signed : Bool) {x : Limbs w} (he : x.length % 2 = 0)
    (h4 : 4 ≤ x.length) (h128 : 128 ∣ w * x.length) :
    ilog2 be signed (mem be x) = I256.ilog2 signed x := by
  rw [ilog2, checkedIlog2_ok h8 hw be signed he h4 h128, Res.mbind_ok, I256.ilog2]

theorem opOf_map (cf : Cfg) {be : Bool} {v : Limbs w} {o : Option (Limbs w)} :
    opOf cf (.ok (mem be v)) (.ok (o.map (mem be))) = (I256.opOf cf.oc v o).map (mem be) := by
  unfold opOf I256.opOf
  cases cf.oc
  · rfl
  · cases o <;> rfl

section
variable (cf : Cfg) (be : Bool) {N : Nat} (hw : 0 < w) (hN : 0 < N) (h128 : 128 ∣ w * N)
include hw hN h128

theorem U.wrappingMul_ok (x y : Limbs w) (hx : x.length = N) (hy : y.length = N) :
    U.wrappingMul be (mem be x) (mem be y) = .ok (mem be (I256.U.wrappingMul x y)) ∧
      (I256.U.wrappingMul x y).length = N := by
  have hl : (I256.Mul.wrappingFull x y).length = N := (Mul.wrapU x y (by omega)).1.trans hx
  refine ⟨?_, hl⟩
  rw [U.wrappingMul, Mul.wrappingFull_ok be hw x y (by omega)]
  exact wrappingOf_ok (by rw [hl]; exact h128)

theorem U.overflowingMul_ok (x y : Limbs w) (hx : x.length = N) (hy : y.length = N) :
    U.overflowingMul be (mem be x) (mem be y) =
        .ok (mem be (I256.U.overflowingMul x y).1, (I256.U.overflowingMul x y).2) ∧
      (I256.U.overflowingMul x y).1.length = N := by
  have hl : (I256.Mul.overflowingFull x y).1.length = N := (Mul.overU x y (by omega)).1.1.trans hx
  refine ⟨?_, hl⟩
  rw [U.overflowingMul, Mul.overflowingFull_ok be hw x y (by omega)]
  exact overflowingOf_ok (by rw [hl]; exact h128)

theorem I.overflowingMul_ok (h2 : 2 ≤ N) (x y : Limbs w) (hx : x.length = N) (hy : y.length = N) :
    I.overflowingMul be (mem be x) (mem be y) =
        .ok (mem be (I256.I.overflowingMul x y).1, (I256.I.overflowingMul x y).2) ∧
      (I256.I.overflowingMul x y).1.length = N := by
  have hl : (I256.Mul.overflowingFullS x y).1.length = N :=
    (Mul.overflowingFullS_spec hw (length_ne (n := 0) (by omega)) (by omega)).1.1.trans hx
  refine ⟨?_, hl⟩
  rw [I.overflowingMul, Mul.overflowingFullS_ok be hw x y (by omega) (by omega)]
  exact overflowingOf_ok (by rw [hl]; exact h128)

theorem U.wrappingPow_ok {x : Limbs w} (hx : x.length = N) (e : BitVec 32) :
    U.wrappingPow cf be (mem be x) e = .ok (mem be (I256.U.wrappingPow x e.toNat)) :=
  Pow.wrapping_ok cf (U.wrappingMul_ok be hw hN h128) hx hN h128 e

theorem U.overflowingPow_ok {x : Limbs w} (hx : x.length = N) (e : BitVec 32) :
    U.overflowingPow cf be (mem be x) e =
      .ok (mem be (I256.U.overflowingPow x e.toNat).1, (I256.U.overflowingPow x e.toNat).2) :=
  Pow.overflowing_ok cf (U.overflowingMul_ok be hw hN h128) hx hN h128 e

theorem U.checkedPow_ok {x : Limbs w} (hx : x.length = N) (e : BitVec 32) :
    U.checkedPow cf be (mem be x) e = .ok ((I256.U.checkedPow x e.toNat).map (mem be)) := by
  rw [U.checkedPow, U.overflowingPow_ok cf be hw hN h128 hx, Pow.checked_ok]
  rfl

theorem U.pow_ok {x : Limbs w} (hx : x.length = N) (e : BitVec 32) :
    U.pow cf be (mem be x) e = (I256.U.pow cf.oc x e.toNat).map (mem be) := by
  rw [U.pow, U.checkedPow_ok cf be hw hN h128 hx, U.wrappingPow_ok cf be hw hN h128 hx, opOf_map]
  rfl

theorem I.wrappingPow_ok {x : Limbs w} (hx : x.length = N) (e : BitVec 32) :
    I.wrappingPow cf be (mem be x) e = .ok (mem be (I256.I.wrappingPow x e.toNat)) :=
  Pow.wrapping_ok cf (U.wrappingMul_ok be hw hN h128) hx hN h128 e

theorem I.overflowingPow_ok (h2 : 2 ≤ N) {x : Limbs w} (hx : x.length = N) (e : BitVec 32) :
    I.overflowingPow cf be (mem be x) e =
      .ok (mem be (I256.I.overflowingPow x e.toNat).1, (I256.I.overflowingPow x e.toNat).2) :=
  Pow.overflowing_ok cf (I.overflowingMul_ok be hw hN h128 h2) hx hN h128 e

theorem I.checkedPow_ok (h2 : 2 ≤ N) {x : Limbs w} (hx : x.length = N) (e : BitVec 32) :
    I.checkedPow cf be (mem be x) e = .ok ((I256.I.checkedPow x e.toNat).map (mem be)) := by
  rw [I.checkedPow, I.overflowingPow_ok cf be hw hN h128 h2 hx, Pow.checked_ok]
  rfl

theorem I.pow_ok (h2 : 2 ≤ N) {x : Limbs w} (hx : x.length = N) (e : BitVec 32) :
    I.pow cf be (mem be x) e = (I256.I.pow cf.oc x e.toNat).map (mem be) := by
  rw [I.pow, I.checkedPow_ok cf be hw hN h128 h2 hx, I.wrappingPow_ok cf be hw hN h128 hx, opOf_map]
  rfl

end

section
variable (cf : Cfg) (be : Bool) {x y : Limbs w} (hw : 0 < w) (h8 : 8 ∣ w) (hl : x.length = y.length)
  (he : x.length % 2 = 0) (h4 : 4 ≤ x.length) (h128 : 128 ∣ w * x.length)
include hw h8 hl he h4 h128

theorem U.checkedMul_ok :
    U.checkedMul be (mem be x) (mem be y) = .ok ((I256.U.checkedMul x y).map (mem be)) := by
  have hb : bits (mem be x) = bits x := by rw [bits, mem_length, bits]
  have hp : 0 < bits x := Nat.mul_pos hw (by omega)
  unfold U.checkedMul I256.U.checkedMul
  rw [checkedIlog2_ok h8 hw be false he h4 h128, Res.mbind_ok,
    checkedIlog2_ok h8 hw be false (by omega) (by omega) (by rw [← hl]; exact h128), Res.mbind_ok,
    (U.overflowingMul_ok be hw (by omega) h128 x y rfl hl.symm).1, hb, usub_ok (by omega), mem_length,
    fromU8_ok be 0 (by omega) h128]
  simp only [Res.mbind_ok]
  cases I256.checkedIlog2 false x with
  | none => rfl
  | some l =>
    cases I256.checkedIlog2 false y with
    | none => rfl
    | some r =>
      simp only
      split
      · rfl
      · unfold mkChecked
        cases (I256.U.overflowingMul x y).2 <;> rfl

theorem U.mul_ok : U.mul cf be (mem be x) (mem be y) = (I256.U.mul cf.oc x y).map (mem be) := by
  rw [U.mul, U.checkedMul_ok be hw h8 hl he h4 h128,
    (U.wrappingMul_ok be hw (by omega) h128 x y rfl hl.symm).1, opOf_map]
  rfl

theorem U.mul_length {oc : Bool} {v : Limbs w} (h : I256.U.mul oc x y = .ok v) :
    v.length = x.length := by
  have hm : (I256.U.wrappingMul x y).length = x.length := (Mul.wrapU x y (by omega)).1
  have hc := mkChecked_length (r := I256.U.overflowingMul x y) (N := x.length)
    (Mul.overU x y (by omega)).1.1
  have hz : (ofU8 x.length 0 : Limbs w).length = x.length := extU_length (by omega) _
  unfold I256.U.mul I256.opOf at h
  cases oc
  · injection h with h
    rw [← h]
    exact hm
  · simp only [Bool.not_true, Bool.false_eq_true, if_false] at h
    cases e : I256.U.checkedMul x y with
    | none => rw [e] at h; exact absurd h (by simp [unwrapOrPanic])
    | some v' =>
      rw [e] at h
      injection h with h
      subst h
      unfold I256.U.checkedMul at e
      split at e
      · split at e
        · exact absurd e (by simp)
        · exact hc _ e
      all_goals
        injection e with e
        rw [← e]
        exact hz

theorem U.wrappingDiv_ok :
    U.wrappingDiv cf be (mem be x) (mem be y) = (I256.U.wrappingDiv x y).map (mem be) := by
  rw [U.wrappingDiv, U.wrappingDivRem_ok cf be hw hl (by omega) h128, I256.U.wrappingDiv,
    I256.U.wrappingDivRem]
  cases I256.Div.full x y <;> rfl

theorem U.div_ok : U.div cf be (mem be x) (mem be y) = (I256.U.div cf.oc x y).map (mem be) := by
  have hz : (ofU8 y.length 0 : Limbs w).length = y.length := extU_length (by omega) _
  have hc : U.checkedDiv cf be (mem be x) (mem be y) =
      (I256.U.checkedDiv x y).map (Option.map (mem be)) := by
    rw [U.checkedDiv, mem_length, fromU8_ok be 0 (by omega) (by rw [← hl]; exact h128), Res.mbind_ok,
      Ord.eqConst_ok h8 be hz.symm (by omega), Res.mbind_ok, I256.U.checkedDiv, I256.checkedBy,
      I256.U.isDivNone]
    have hq := I256.Ord.eqConst_iff hz.symm (by omega)
    by_cases c : y = ofU8 y.length 0
    · rw [if_pos (decide_eq_true c), if_pos (hq.2 c)]
      rfl
    · rw [if_neg (by simpa using c), if_neg (fun h => c (hq.1 h)),
        U.wrappingDiv_ok cf be hw h8 hl he h4 h128]
      cases I256.U.wrappingDiv x y <;> rfl
  rw [U.div, hc, U.wrappingDiv_ok cf be hw h8 hl he h4 h128, I256.U.div, opOf, I256.opOfR]
  cases cf.oc
  · rfl
  · simp only [Bool.not_true, Bool.false_eq_true, if_false]
    rcases I256.U.checkedDiv x y with o | _
    · cases o <;> rfl
    · rfl

theorem U.div_length {oc : Bool} {v : Limbs w} (h : I256.U.div oc x y = .ok v) :
    v.length = x.length := by
  have hw' : ∀ v, I256.U.wrappingDiv x y = .ok v → v.length = x.length := by
    intro v hv
    rw [I256.U.wrappingDiv, I256.U.wrappingDivRem] at hv
    cases e : I256.Div.full x y with
    | panic => rw [e] at hv; exact absurd hv (by simp [Res.map])
    | ok r =>
      rw [e] at hv
      injection hv with hv
      rw [← hv]
      exact (U.full_length hw hl (by omega) e).1
  unfold I256.U.div I256.opOfR at h
  cases oc
  · exact hw' v h
  · simp only [Bool.not_true, Bool.false_eq_true, if_false] at h
    unfold I256.U.checkedDiv I256.checkedBy at h
    split at h
    · exact absurd h (by simp [unwrapOrPanic])
    · cases e : I256.U.wrappingDiv x y with
      | panic => rw [e] at h; exact absurd h (by simp [Res.map])
      | ok v' =>
        rw [e] at h
        injection h with h
        rw [← h]
        exact hw' v' e

theorem U.ilogLoop_ok (rounds : Nat) (n : BitVec 32) (r : Limbs w) (hr : r.length = x.length) :
    U.ilogLoop cf be (mem be x) (mem be y) rounds n (mem be r) =
      I256.U.ilogLoop cf.oc x y rounds n r := by
  induction rounds generalizing n r with
  | zero => rfl
  | succ rounds ih =>
    have hc : U.ilogCond cf be (mem be x) (mem be y) (mem be r) =
        (I256.U.div cf.oc x y).map (fun q => I256.Ord.le false r q) := by
      rw [U.ilogCond, U.div_ok cf be hw h8 hl he h4 h128]
      cases e : I256.U.div cf.oc x y with
      | panic => rfl
      | ok q =>
        have hq := U.div_length hw h8 hl he h4 h128 e
        rw [Res.map_ok, Res.mbind_ok, Ord.le_ok h8 be false (hr.trans hq.symm) (by omega)
          (length_ne (n := 0) (by omega)), Res.map_ok]
    have hb : U.ilogBody cf be (mem be y) n (mem be r) =
        if cf.oc && n == BitVec.allOnes 32 then .panic
        else (I256.U.mul cf.oc r y).map (fun r => (n + 1, mem be r)) := by
      have hadd : Div.add cf n 1 = if cf.oc && n == BitVec.allOnes 32 then .panic else .ok (n + 1) := by
        unfold Div.add
        cases cf.oc
        · rfl
        · simp only [Bool.true_and, if_true, Raw.add]
          have hlt := n.isLt
          by_cases c : n = BitVec.allOnes 32
          · rw [c]
            rfl
          · have : n.toNat ≠ 2 ^ 32 - 1 := fun h => c (BitVec.eq_of_toNat_eq (by rw [h]; rfl))
            have h1 : (1 : BitVec 32).toNat = 1 := rfl
            rw [if_pos (by rw [h1]; omega), if_neg (by simpa using c)]
      rw [U.ilogBody, hadd]
      split
      · rfl
      · rw [Res.mbind_ok, U.mul_ok cf be hw h8 (x := r) (hr.trans hl) (by omega) (by omega)
          (by rw [hr]; exact h128)]
        cases I256.U.mul cf.oc r y <;> rfl
    rw [U.ilogLoop, I256.U.ilogLoop, hc]
    cases e : I256.U.div cf.oc x y with
    | panic => rfl
    | ok q =>
      simp only [Res.map_ok]
      cases I256.Ord.le false r q
      · rfl
      · simp only [if_true, hb]
        cases (cf.oc && n == BitVec.allOnes 32)
        case true => rfl
        case false =>
          simp only [Bool.false_eq_true, if_false]
          cases em : I256.U.mul cf.oc r y with
          | panic => rfl
          | ok r' =>
            simp only [Res.map_ok]
            exact ih _ _ ((U.mul_length hw h8 (x := r) (hr.trans hl) (by omega) (by omega)
              (by rw [hr]; exact h128) em).trans hr)

theorem U.ilogStart_ok (hbits : bits x < 2 ^ 32) :
    U.ilogStart cf be (mem be x) (mem be y) =
      (I256.U.ilogStart cf.oc x y).map (fun p => (p.1, mem be p.2)) := by
  have hb : bits (mem be x) = bits x := by rw [bits, mem_length, bits]
  unfold U.ilogStart I256.U.ilogStart
  rw [hb, ilog2_ok h8 hw be false he h4 h128,
    ilog2_ok h8 hw be false (by omega) (by omega) (by rw [← hl]; exact h128)]
  split
  · cases e1 : I256.ilog2 false x with
    | panic => rfl
    | ok l =>
      have hlt : l < 2 ^ 32 := by
        have h := checkedIlog2_spec hw false he h4
        rw [I256.ilog2, h] at e1
        split at e1
        · exact absurd e1 (by simp [unwrapOrPanic])
        · rename_i hx
          injection e1 with e1
          have h0 : toNat x ≠ 0 := by simpa [Ord.val] using hx
          have := (Nat.log2_lt h0).2 (toNat_lt x)
          omega
      cases I256.ilog2 false y with
      | panic => rfl
      | ok b =>
        have hd : (BitVec.ofNat 32 (l / (b + 1))).toNat = l / (b + 1) := by
          rw [BitVec.toNat_ofNat, Nat.mod_eq_of_lt (lt_of_le_of_lt (Nat.div_le_self _ _) hlt)]
        simp only [Res.mbind_ok, Res.bind_ok]
        rw [U.pow_ok cf be hw (by omega) (by rw [← hl]; exact h128) rfl, hd]
        cases I256.U.pow cf.oc y (l / (b + 1)) <;> rfl
  · rfl

theorem U.ilogNone_ok : U.ilogNone be (mem be x) (mem be y) =
    .ok (x == ofU8 x.length 0 || I256.Ord.le false y (ofU8 x.length 0) || I256.Ord.lt false x y) := by
  have hz : (ofU8 x.length 0 : Limbs w).length = x.length := extU_length (by omega) _
  rw [U.ilogNone, mem_length, fromU8_ok be 0 (by omega) h128, Res.mbind_ok,
    Ord.le_ok h8 be false (by rw [hz, hl]) (by omega) (length_ne (n := 0) (by omega)), Res.mbind_ok,
    Ord.lt_ok h8 be false hl he (length_ne (n := 0) (by omega))]
  have hq : (mem be x == mem be (ofU8 x.length 0)) = (x == ofU8 x.length 0) := by
    rw [Bool.eq_iff_iff, beq_iff_eq, beq_iff_eq]
    exact ⟨mem_inj, fun h => congrArg (mem be) h⟩
  rw [hq]
  cases (x == ofU8 x.length 0)
  · cases I256.Ord.le false y (ofU8 x.length 0) <;> rfl
  · rfl

theorem U.ilogStart_length {oc : Bool} {n : BitVec 32} {r : Limbs w}
    (h : I256.U.ilogStart oc x y = .ok (n, r)) (hbits : bits x < 2 ^ 32) (hx : toNat x ≠ 0)
    (hy : toNat y ≠ 0) : r.length = x.length := by
  obtain ⟨r', e, hr⟩ := ilogStart_spec hw hl he h4 oc hx hy hbits
  rw [e] at h
  injection h with h
  injection h with _ h
  rw [← h]
  exact hr.1

theorem U.checkedIlog_ok (hbits : bits x < 2 ^ 32) (rounds : Nat) :
    U.checkedIlog cf be rounds (mem be x) (mem be y) = I256.U.checkedIlog cf.oc rounds x y := by
  rw [U.checkedIlog, U.ilogNone_ok be hw h8 hl he h4 h128, I256.U.checkedIlog]
  have hg := ilog_guard hw hl he h4
  cases c : (x == ofU8 x.length 0 || I256.Ord.le false y (ofU8 x.length 0) || I256.Ord.lt false x y)
  · rw [c] at hg
    have hg' := of_decide_eq_false hg.symm
    simp only [Bool.false_eq_true, if_false]
    rw [U.ilogStart_ok cf be hw h8 hl he h4 h128 hbits]
    cases e : I256.U.ilogStart cf.oc x y with
    | panic => rfl
    | ok p =>
      obtain ⟨n, r⟩ := p
      simp only [Res.map_ok]
      rw [U.ilogLoop_ok cf be hw h8 hl he h4 h128 rounds n r
        (U.ilogStart_length hw h8 hl he h4 h128 e hbits (by tauto) (by tauto))]
  · rfl

theorem U.ilog_ok (hbits : bits x < 2 ^ 32) (rounds : Nat) :
    U.ilog cf be rounds (mem be x) (mem be y) = I256.U.ilog cf.oc rounds x y := by
  rw [U.ilog, U.checkedIlog_ok cf be hw h8 hl he h4 h128 hbits, I256.U.ilog]

theorem I.checkedIlog_ok (hbits : bits x < 2 ^ 32) (rounds : Nat) :
    I.checkedIlog cf be rounds (mem be x) (mem be y) = I256.I.checkedIlog cf.oc rounds x y := by
  have hz : (ofU8 x.length 0 : Limbs w).length = x.length := extU_length (by omega) _
  have ho : (ofU8 x.length 1 : Limbs w).length = x.length := extU_length (by omega) _
  have hn : I.ilogNone be (mem be x) (mem be y) =
      .ok (I256.Ord.le true x (ofU8 x.length 0) || I256.Ord.le true y (ofU8 x.length 1)) := by
    rw [I.ilogNone, mem_length, fromU8_ok be 0 (by omega) h128, Res.mbind_ok,
      Ord.le_ok h8 be true hz.symm he (length_ne (n := 0) (by omega)), Res.mbind_ok,
      fromU8_ok be 1 (by omega) h128, Res.mbind_ok,
      Ord.le_ok h8 be true (by rw [ho, hl]) (by omega) (length_ne (n := 0) (by omega))]
    cases I256.Ord.le true x (ofU8 x.length 0) <;> rfl
  rw [I.checkedIlog, hn, I256.I.checkedIlog]
  cases (I256.Ord.le true x (ofU8 x.length 0) || I256.Ord.le true y (ofU8 x.length 1))
  · have h1 : Cast.reinterpret (mem be x) = .ok (mem be x) := fromNeLimbs_ok (by simpa using h128)
    have h2 : Cast.reinterpret (mem be y) = .ok (mem be y) :=
      fromNeLimbs_ok (by rw [mem_length, ← hl]; exact h128)
    simp only [Bool.false_eq_true, if_false, h1, h2, Res.mbind_ok]
    rw [U.ilog_ok cf be hw h8 hl he h4 h128 hbits]
  · rfl

theorem I.ilog_ok (hbits : bits x < 2 ^ 32) (rounds : Nat) :
    I.ilog cf be rounds (mem be x) (mem be y) = I256.I.ilog cf.oc rounds x y := by
  have ho : (ofU8 x.length 2 : Limbs w).length = x.length := extU_length (by omega) _
  rw [I.ilog, mem_length, fromU8_ok be 2 (by omega) h128, Res.mbind_ok,
    Ord.lt_ok h8 be true (by rw [ho, hl]) (by omega) (length_ne (n := 0) (by omega)),
    I256.I.ilog, I256.Ord.ge]
  cases I256.Ord.lt true y (ofU8 x.length 2)
  · simp only [Bool.not_false, if_true]
    rw [I.checkedIlog_ok cf be hw h8 hl he h4 h128 hbits]
  · rfl

end

end Raw
end I256
