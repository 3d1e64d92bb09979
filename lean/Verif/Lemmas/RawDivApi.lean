import Verif.Model.RawDivApi
import Verif.Lemmas.RawAdd
import Verif.Lemmas.RawApi
import Verif.Lemmas.RawRun
import Verif.Lemmas.RawDivFull
import Verif.Lemmas.DivTop
import Verif.Lemmas.DivApi

/-!
# The literal callers of division agree with the functional model
-/

namespace I256

variable {w : Nat}

namespace Raw

open Div (Cfg debugAssert)

theorem toLeLimbs_ok (be : Bool) (x : Limbs w) : toLeLimbs be (mem be x) = .ok x := by
  cases be
  · rfl
  · simp [toLeLimbs, Bits.swapArray_ok, mem]

theorem fromLeLimbs_ok (be : Bool) {x : Limbs w} (h : 128 ∣ w * x.length) :
    fromLeLimbs be x = .ok (mem be x) := by
  cases be
  · simp [fromLeLimbs, fromNeLimbs_ok h, mem]
  · simp [fromLeLimbs, Bits.swapArray_ok, mem, fromNeLimbs_ok (x := x.reverse) (by simpa using h)]

theorem Ord.eqConst_ok (h8 : 8 ∣ w) (be : Bool) {x y : Limbs w} (hl : x.length = y.length)
    (h2 : x.length % 2 = 0) : Ord.eqConst be (mem be x) (mem be y) = .ok (decide (x = y)) := by
  unfold Ord.eqConst
  split
  · exact (Ord.eq_ok h8 be hl h2).1
  · exact (Ord.eq_ok h8 be hl h2).2

theorem fromU8_ok (be : Bool) {N : Nat} (v : Nat) (hN : 0 < N) (h : 128 ∣ w * N) :
    fromU8 be N v = .ok (mem be (ofU8 N v : Limbs w)) := by
  obtain ⟨n, rfl⟩ : ∃ n, N = n + 1 := ⟨N - 1, by omega⟩
  rw [fromU8, wr_rep be hN, Res.mbind_ok, fromNeLimbs_ok (by simpa using h)]
  rfl

namespace U

theorem full_length (hw : 0 < w) {x y : Limbs w} (hl : x.length = y.length) (h2 : 2 ≤ x.length)
    {r : Limbs w × Limbs w} (h : I256.Div.full x y = .ok r) :
    r.1.length = x.length ∧ r.2.length = x.length := by
  by_cases hy : toNat y = 0
  · obtain ⟨h1, h0⟩ := I256.Div.full_zero hw hl h2 hy
    by_cases hx : toNat x = 0
    · rw [h0 hx] at h
      obtain ⟨l1, -⟩ := I256.Div.scalar1_spec (N := x.length) (by omega) (1 : BitVec w)
      obtain ⟨l0, -⟩ := I256.Div.scalar1_spec (N := x.length) (by omega) (0 : BitVec w)
      injection h with h
      rw [← h]
      exact ⟨l1, by rw [← hl]; exact l0⟩
    · rw [h1 hx] at h
      exact absurd h (by simp)
  · obtain ⟨h1, h0⟩ := I256.Div.full_spec hw hl h2 hy
    by_cases hp : DivPanics w x.length (toNat x) (toNat y)
    · rw [h1 hp] at h
      exact absurd h (by simp)
    · obtain ⟨v, e, ⟨hq, -⟩, hr, -⟩ := h0 hp
      rw [e] at h
      injection h with h
      rw [← h]
      exact ⟨hq, hr⟩

theorem wrappingDivRem_ok (cf : Cfg) (be : Bool) (hw : 0 < w) {x y : Limbs w}
    (hl : x.length = y.length) (h2 : 2 ≤ x.length) (h128 : 128 ∣ w * x.length) :
    wrappingDivRem cf be (mem be x) (mem be y) =
      (I256.Div.full x y).map (fun r => (mem be r.1, mem be r.2)) := by
  rw [wrappingDivRem, toLeLimbs_ok, Res.mbind_ok, toLeLimbs_ok, Res.mbind_ok,
    Div.full_lit cf hw (length_ne (n := 0) (by omega)) (by omega)]
  rcases e : I256.Div.full x y with ⟨q, r⟩ | _
  · obtain ⟨hq, hr⟩ := full_length hw hl h2 e
    simp only [Res.mbind_ok, Res.map_ok]
    rw [fromLeLimbs_ok be (by rw [hq]; exact h128), Res.mbind_ok,
      fromLeLimbs_ok be (by rw [hr]; exact h128), Res.mbind_ok]
  · rfl

theorem wrappingDivRemULimb_ok (cf : Cfg) (be : Bool) (hw : 0 < w) {x : Limbs w}
    (hx : x ≠ []) (h128 : 128 ∣ w * x.length) (n : BitVec w) :
    wrappingDivRemULimb cf be (mem be x) n =
      (I256.Div.limb x n).map (fun r => (mem be r.1, r.2)) := by
  rw [wrappingDivRemULimb, toLeLimbs_ok, Res.mbind_ok, Div.limb_lit cf hw hx]
  by_cases hn : n = 0
  · rw [hn, I256.Div.limb_zero hx]
    rfl
  · obtain ⟨q, r, e, hq, -⟩ := I256.Div.limb_spec hn x
    rw [e]
    simp only [Res.mbind_ok, Res.map_ok]
    rw [fromLeLimbs_ok be (by rw [hq]; exact h128), Res.mbind_ok]

theorem wideDiv_length (hw : 0 < w) {x : Limbs w} (h2 : 2 ≤ x.length) {d : BitVec (w + w)}
    {r : Limbs w × BitVec (w + w)} (h : I256.Div.wideDiv x d = .ok r) : r.1.length = x.length := by
  by_cases hd : d = 0
  · subst hd
    obtain ⟨h1, h0⟩ := I256.Div.wideDiv_zero hw h2
    by_cases hx : toNat x = 0
    · rw [h0 hx] at h
      obtain ⟨l0, -⟩ := I256.Div.scalar1_spec (N := x.length) (by omega) (0 : BitVec w)
      injection h with h
      rw [← h]
      exact l0
    · rw [h1 hx] at h
      exact absurd h (by simp)
  · obtain ⟨h1, h0⟩ := I256.Div.wideDiv_spec hw h2 hd
    by_cases hp : DivPanics w 2 (toNat x) d.toNat
    · rw [h1 hp] at h
      exact absurd h (by simp)
    · obtain ⟨v, e, ⟨hq, -⟩, -⟩ := h0 hp
      rw [e] at h
      injection h with h
      rw [← h]
      exact hq

theorem wrappingDivRemUWide_ok (cf : Cfg) (be : Bool) (hw : 0 < w) {x : Limbs w}
    (h2 : 2 ≤ x.length) (h128 : 128 ∣ w * x.length) (n : BitVec (w + w)) :
    wrappingDivRemUWide cf be (mem be x) n =
      (I256.Div.wideDiv x n).map (fun r => (mem be r.1, r.2)) := by
  rw [wrappingDivRemUWide, toLeLimbs_ok, Res.mbind_ok, Div.wideDiv_lit cf hw h2]
  rcases e : I256.Div.wideDiv x n with ⟨q, r⟩ | _
  · have hq := wideDiv_length hw h2 e
    simp only [Res.mbind_ok, Res.map_ok]
    rw [fromLeLimbs_ok be (by rw [hq]; exact h128), Res.mbind_ok]
  · rfl

theorem wrappingDivRemU128_ok (cf : Cfg) (be : Bool) {x : Limbs 32}
    (h4 : 4 < x.length) (h128 : 128 ∣ 32 * x.length) (n : BitVec 128) :
    wrappingDivRemU128 cf be (mem be x) n =
      (I256.Div.fromU128 x n).map (fun r => (mem be r.1, r.2)) := by
  rw [wrappingDivRemU128, toLeLimbs_ok, Res.mbind_ok, Div.fromU128_lit cf (by omega)]
  rcases e : I256.Div.fromU128 x n with ⟨q, r⟩ | _
  · have hq : q.length = x.length := by
      by_cases hd : n = 0
      · subst hd
        obtain ⟨h1, h0⟩ := I256.Div.fromU128_zero (le_of_lt h4)
        by_cases hx : toNat x = 0
        · rw [h0 hx] at e
          obtain ⟨l0, -⟩ := I256.Div.scalar1_spec (N := x.length) (by omega) (0 : BitVec 32)
          injection e with e
          injection e with e _
          rw [← e]
          exact l0
        · rw [h1 hx] at e
          exact absurd e (by simp)
      · obtain ⟨q', r', e', ⟨hq, -⟩, -⟩ := I256.Div.fromU128_spec h4 hd
        rw [e'] at e
        injection e with e
        injection e with e _
        rw [← e]
        exact hq
    simp only [Res.mbind_ok, Res.map_ok]
    rw [fromLeLimbs_ok be (by rw [hq]; exact h128), Res.mbind_ok]
  · rfl

end U

namespace I

theorem minValue_ok (be : Bool) {N : Nat} (hN : 0 < N) (h : 128 ∣ w * N) :
    minValue be N = .ok (mem be (I256.I.minValue w N)) := by
  obtain ⟨n, rfl⟩ : ∃ n, N = n + 1 := ⟨N - 1, by omega⟩
  rw [minValue, usub_ok (by omega), Res.mbind_ok, wr_rep be (by omega), Res.mbind_ok,
    fromNeLimbs_ok (by simpa using h)]
  congr 2
  simp [I256.I.minValue, List.replicate_succ', List.set_append]

/-- The `debug_assert!` of `wrapping_neg`. -/
theorem twos_neg (hw : 0 < w) {x : Limbs w} (h2 : 2 ≤ x.length) :
    I256.I.wrappingNeg x = I256.Add.wrappingLimb (I256.Bits.not x) 1 := by
  have hn := I256.not_length x
  have h0 : toNat (ofU8 x.length 0 : Limbs w) = 0 ∧ (ofU8 x.length 0 : Limbs w).length = x.length :=
    ⟨by rw [ofU8, extU_toNat]; simp, extU_length (by omega) _⟩
  have hA := I256.Add.limbWrapU hw (x := I256.Bits.not x) (length_ne (n := 0) (by omega)) 1
  have hS := I256.Sub.wrapU hw (x := ofU8 x.length 0) (y := x) h0.2
  have h1 : (1 : BitVec w).toNat = 1 := by
    rw [BitVec.ofNat_eq_ofNat, BitVec.toNat_ofNat, Nat.mod_eq_of_lt (Nat.one_lt_two_pow (by omega))]
  have hN := I256.not_toNat x
  rw [h0.2, h0.1] at hS
  rw [hn, h1] at hA
  refine toNat_inj (hS.1.trans hA.1.symm) ?_
  have e1 := hS.2
  have e2 := hA.2
  have : ((toNat (I256.Bits.not x) : Int) + (1 : Nat)) = (0 : Nat) - (toNat x : Int) + 2 ^ (w * x.length) := by
    have h : ((toNat (I256.Bits.not x) + toNat x + 1 : Nat) : Int) = (2 ^ bits x : Nat) := congrArg _ hN
    rw [show bits x = w * x.length from rfl] at h
    push_cast at h ⊢
    omega
  rw [this, Int.add_emod_right] at e2
  exact_mod_cast e1.trans e2.symm

theorem wrappingNeg_ok (cf : Cfg) (be : Bool) (hw : 0 < w) (h8 : 8 ∣ w) {x : Limbs w}
    (h2 : 2 ≤ x.length) (he : x.length % 2 = 0) (h128 : 128 ∣ w * x.length) :
    wrappingNeg cf be (mem be x) = .ok (mem be (I256.I.wrappingNeg x)) := by
  have hn := I256.not_length x
  have hl := (wrappingNegS hw h2).1
  have ht := twos_neg hw h2
  have h0 : (ofU8 x.length 0 : Limbs w).length = x.length := extU_length (by omega) _
  have hd : I256.Sub.wrappingFull (ofU8 x.length 0) x = I256.I.wrappingNeg x := rfl
  rw [wrappingNeg, Bits.not_ok be h128, Res.mbind_ok, Add.wrappingLimb_ok be _ _ (by omega),
    Res.mbind_ok, ← ht, fromNeLimbs_ok (by rw [mem_length, hl]; exact h128), Res.mbind_ok, mem_length,
    fromU8_ok be 0 (by omega) h128, Res.mbind_ok, Sub.wrappingFull_ok be _ _ h0 (by omega), hd,
    Res.mbind_ok, fromNeLimbs_ok (by rw [mem_length, hl]; exact h128), Res.mbind_ok,
    Ord.eqConst_ok h8 be rfl (by omega), Res.mbind_ok, Div.debugAssert_ok cf (by simp), Res.mbind_ok]

theorem overflowingNeg_ok (cf : Cfg) (be : Bool) (hw : 0 < w) (h8 : 8 ∣ w) {x : Limbs w}
    (h2 : 2 ≤ x.length) (he : x.length % 2 = 0) (h128 : 128 ∣ w * x.length) :
    overflowingNeg cf be (mem be x) =
      .ok (mem be (I256.I.overflowingNeg x).1, (I256.I.overflowingNeg x).2) := by
  have hm := minValueS (w := w) (N := x.length) hw (by omega)
  have hq := I256.Ord.eqConst_iff (x := x) (y := I256.I.minValue w x.length) hm.1.symm he
  rw [overflowingNeg, mem_length, minValue_ok be (by omega) h128, Res.mbind_ok,
    Ord.eqConst_ok h8 be hm.1.symm he, Res.mbind_ok, I256.I.overflowingNeg]
  by_cases h : x = I256.I.minValue w x.length
  · rw [if_pos (decide_eq_true h), if_pos (hq.2 h)]
  · rw [if_neg (by simpa using h), if_neg (fun c => h (hq.1 c)),
      wrappingNeg_ok cf be hw h8 h2 he h128, Res.mbind_ok]

theorem overflowingAbs_ok (cf : Cfg) (be : Bool) (hw : 0 < w) (h8 : 8 ∣ w) {x : Limbs w}
    (h2 : 2 ≤ x.length) (he : x.length % 2 = 0) (h128 : 128 ∣ w * x.length) :
    overflowingAbs cf be (mem be x) =
      .ok (mem be (I256.I.overflowingAbs x).1, (I256.I.overflowingAbs x).2) := by
  rw [overflowingAbs, Bits.isNegative_ok be (length_ne (n := 0) (by omega)), Res.mbind_ok,
    I256.I.overflowingAbs]
  split
  · exact overflowingNeg_ok cf be hw h8 h2 he h128
  · rfl

theorem unsignedAbs_ok (cf : Cfg) (be : Bool) (hw : 0 < w) (h8 : 8 ∣ w) {x : Limbs w}
    (h2 : 2 ≤ x.length) (he : x.length % 2 = 0) (h128 : 128 ∣ w * x.length) :
    unsignedAbs cf be (mem be x) = .ok (mem be (I256.I.unsignedAbs x)) := by
  have hl := (unsignedAbsU hw h2 he).1
  rw [unsignedAbs, overflowingAbs_ok cf be hw h8 h2 he h128, Res.mbind_ok]
  refine fromNeLimbs_ok ?_
  rw [mem_length]
  exact hl.symm ▸ h128

theorem wrappingDivRem_ok (cf : Cfg) (be : Bool) (hw : 0 < w) (h8 : 8 ∣ w) {x y : Limbs w}
    (hl : x.length = y.length) (h2 : 2 ≤ x.length) (he : x.length % 2 = 0)
    (h128 : 128 ∣ w * x.length) :
    wrappingDivRem cf be (mem be x) (mem be y) =
      (I256.I.wrappingDivRem x y).map (fun r => (mem be r.1, mem be r.2)) := by
  have hx := (unsignedAbsU hw h2 he).1
  have hy := (unsignedAbsU (x := y) hw (by omega) (by omega)).1
  rw [wrappingDivRem, unsignedAbs_ok cf be hw h8 h2 he h128, Res.mbind_ok, toLeLimbs_ok, Res.mbind_ok,
    unsignedAbs_ok cf be hw h8 (by omega) (by omega) (by rw [← hl]; exact h128), Res.mbind_ok,
    toLeLimbs_ok, Res.mbind_ok, Div.full_lit cf hw (length_ne (n := 0) (by omega)) (by omega),
    I256.I.wrappingDivRem]
  rcases e : I256.Div.full (I256.I.unsignedAbs x) (I256.I.unsignedAbs y) with ⟨q, r⟩ | _
  · obtain ⟨hq, hr⟩ := U.full_length hw (by omega) (by omega) e
    simp only at hq hr
    rw [hx] at hq hr
    simp only [Res.mbind_ok, Res.map_ok]
    rw [fromLeLimbs_ok be (by rw [hq]; exact h128), Res.mbind_ok,
      fromLeLimbs_ok be (by rw [hr]; exact h128), Res.mbind_ok,
      Bits.isNegative_ok be (length_ne (n := 0) (by omega)), Res.mbind_ok,
      Bits.isNegative_ok be (length_ne (n := 0) (by omega)), Res.mbind_ok,
      wrappingNeg_ok cf be hw h8 (x := q) (by omega) (by omega) (by rw [hq]; exact h128),
      wrappingNeg_ok cf be hw h8 (x := r) (by omega) (by omega) (by rw [hr]; exact h128)]
    cases I256.I.isNegative x <;> cases I256.I.isNegative y <;> rfl
  · rfl

end I

end Raw

end I256
