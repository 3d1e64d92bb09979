import Verif.Model.RawCasts
import Verif.Lemmas.RawDivApi
import Verif.Lemmas.Casts

/-! # Lemmas on the literal conversions -/

namespace I256

variable {w : Nat}

namespace Raw

open I256.Cast (put signFill)

theorem wr_put (be : Bool) {N : Nat} (f : BitVec w) (low : Limbs w) (v : BitVec w) {i : Nat}
    (hi : i = low.length) (h : i < N) :
    wr be (mem be (put N f low)) i v = .ok (mem be (put N f (low ++ [v]))) := by
  subst hi
  obtain ⟨n, rfl⟩ := Nat.exists_eq_add_of_lt h
  rw [wr_ok be (by simp [put]; omega)]
  simp only [put, List.length_append, List.length_cons, List.length_nil]
  rw [show low.length + n + 1 - low.length = n + 1 by omega,
    show low.length + n + 1 - (low.length + (0 + 1)) = n by omega, List.replicate_succ]
  simp

theorem put_nil (be : Bool) (N : Nat) (f : BitVec w) : List.replicate N f = mem be (put N f []) := by
  simp [put]

theorem wr_put0 (be : Bool) {N : Nat} (f : BitVec w) (v : BitVec w) (h : 0 < N) :
    wr be (List.replicate N f) 0 v = .ok (mem be (put N f [v])) := by
  rw [put_nil be]; exact wr_put be f [] v rfl h

theorem wr_put1 (be : Bool) {N : Nat} (f : BitVec w) (a v : BitVec w) (h : 1 < N) :
    wr be (mem be (put N f [a])) 1 v = .ok (mem be (put N f [a, v])) := wr_put be f [a] v rfl h

theorem wr_put2 (be : Bool) {N : Nat} (f : BitVec w) (a b v : BitVec w) (h : 2 < N) :
    wr be (mem be (put N f [a, b])) 2 v = .ok (mem be (put N f [a, b, v])) :=
  wr_put be f [a, b] v rfl h

theorem wr_put3 (be : Bool) {N : Nat} (f : BitVec w) (a b c v : BitVec w) (h : 3 < N) :
    wr be (mem be (put N f [a, b, c])) 3 v = .ok (mem be (put N f [a, b, c, v])) :=
  wr_put be f [a, b, c] v rfl h

theorem put_length {N : Nat} (f : BitVec w) {low : Limbs w} (h : low.length ≤ N) :
    (put N f low).length = N := by
  simp [put]; omega

theorem fromNeLimbs_put (be : Bool) {N : Nat} (f : BitVec w) {low : Limbs w} (h : low.length ≤ N)
    (h128 : 128 ∣ w * N) : fromNeLimbs (mem be (put N f low)) = .ok (mem be (put N f low)) :=
  fromNeLimbs_ok (by rw [mem_length, put_length f h]; exact h128)

theorem signBit_eq {n : Nat} (w : Nat) (v : BitVec n) : Cast.signBit w v = signFill w v := by
  unfold Cast.signBit signFill boolLimb
  by_cases h : v.toInt < 0
  · have : v.slt 0 = true := by simpa [BitVec.slt_iff_toInt_lt] using h
    rw [if_pos h, this]; rfl
  · have : v.slt 0 = false := by
      rw [Bool.eq_false_iff]; simpa [BitVec.slt_iff_toInt_lt] using h
    rw [if_neg h, this]; rfl

namespace Cast

theorem fromU32_ok (be : Bool) {N : Nat} (hN : 4 ≤ N) (h128 : 128 ∣ w * N) (v : BitVec 32) :
    fromU32 be N v = .ok (mem be (I256.Cast.fromU32 N v : Limbs w)) := by
  rw [fromU32, wr_put0 be _ _ (by omega), Res.mbind_ok,
    fromNeLimbs_put be _ (by simp; omega) h128]
  rfl

section
variable (be : Bool) {N : Nat} (hw : w = 32 ∨ w = 64) (hN : 4 ≤ N) (h128 : 128 ∣ w * N)
include hw hN h128

theorem put64_ok (f : BitVec w) (v : BitVec 64) :
    (if w = 32 then (wr be (List.replicate N f) 0 (v.setWidth w)).bind fun limbs =>
        (shr v 32).bind fun v1 => (wr be limbs 1 (v1.setWidth w)).bind fromNeLimbs
      else (wr be (List.replicate N f) 0 (v.setWidth w)).bind fromNeLimbs) =
    .ok (mem be (if w = 32 then put N f [v.setWidth w, (v >>> 32).setWidth w]
      else put N f [v.setWidth w])) := by
  rw [wr_put0 be _ _ (by omega), Res.bind_ok, Res.bind_ok]
  rw [shr, if_pos (by decide : 32 < 64), Res.bind_ok, wr_put1 be _ _ _ (by omega), Res.bind_ok]
  split <;> exact fromNeLimbs_put be _ (by simp; omega) h128

theorem assertBits : assert (decide (w = 32 ∨ w = 64)) = .ok () := if_pos (decide_eq_true hw)
omit hN h128 in
theorem assertWide : assert (decide (w + w = 64 ∨ w + w = 128)) = .ok () :=
  if_pos (decide_eq_true (by omega))

theorem fromU64_ok (v : BitVec 64) :
    fromU64 be N v = .ok (mem be (I256.Cast.fromU64 N v : Limbs w)) := by
  rw [fromU64, assertBits hw hN h128, Res.mbind_ok]
  exact put64_ok be hw hN h128 0 v

theorem fromI64_ok (v : BitVec 64) :
    fromI64 be N v = .ok (mem be (I256.Cast.fromI64 N v : Limbs w)) := by
  rw [fromI64, assertBits hw hN h128, Res.mbind_ok, signBit_eq]
  exact put64_ok be hw hN h128 _ v

theorem put128_ok (f : BitVec w) (v : BitVec 128) :
    put128 be (List.replicate N f) v = .ok (mem be (if w = 32 then
      put N f [v.setWidth w, (v >>> 32).setWidth w, (v >>> 64).setWidth w, (v >>> 96).setWidth w]
      else put N f [v.setWidth w, (v >>> 64).setWidth w])) := by
  rw [put128]
  split
  · rw [wr_put0 be _ _ (by omega), Res.mbind_ok, shr, if_pos (by decide), Res.mbind_ok,
      wr_put1 be _ _ _ (by omega), Res.mbind_ok, shr, if_pos (by decide), Res.mbind_ok,
      wr_put2 be _ _ _ _ (by omega), Res.mbind_ok, shr, if_pos (by decide), Res.mbind_ok,
      wr_put3 be _ _ _ _ _ (by omega)]
  · rw [wr_put0 be _ _ (by omega), Res.mbind_ok, shr, if_pos (by decide), Res.mbind_ok,
      wr_put1 be _ _ _ (by omega)]

theorem fromU128_ok (v : BitVec 128) :
    fromU128 be N v = .ok (mem be (I256.Cast.fromU128 N v : Limbs w)) := by
  rw [fromU128, assertBits hw hN h128, Res.mbind_ok, put128_ok be hw hN h128, Res.mbind_ok,
    I256.Cast.fromU128]
  split <;> exact fromNeLimbs_put be _ (by simp; omega) h128

theorem fromI128_ok (v : BitVec 128) :
    fromI128 be N v = .ok (mem be (I256.Cast.fromI128 N v : Limbs w)) := by
  rw [fromI128, assertBits hw hN h128, Res.mbind_ok, put128_ok be hw hN h128, Res.mbind_ok,
    I256.Cast.fromI128, signBit_eq]
  split <;> exact fromNeLimbs_put be _ (by simp; omega) h128

theorem fromI32_ok (v : BitVec 32) :
    fromI32 be N v = .ok (mem be (I256.Cast.fromI32 N v : Limbs w)) := by
  rw [fromI32, assertBits hw hN h128, Res.mbind_ok, I256.Cast.fromI32, signBit_eq]
  split
  · rw [wr_put0 be _ _ (by omega), Res.mbind_ok,
      fromNeLimbs_put be _ (by simp; omega) h128]
  · exact fromI64_ok be hw hN h128 _

theorem fromU_ok (p : Prim) (v : BitVec p.n) :
    fromU be N p v = .ok (mem be (I256.Cast.fromU N p v : Limbs w)) := by
  cases p
  · exact fromU32_ok be hN h128 _
  · exact fromU32_ok be hN h128 _
  · exact fromU32_ok be hN h128 _
  · exact fromU64_ok be hw hN h128 _
  · exact fromU128_ok be hw hN h128 _

theorem fromI_ok (p : Prim) (v : BitVec p.n) :
    fromI be N p v = .ok (mem be (I256.Cast.fromI N p v : Limbs w)) := by
  cases p
  · exact fromI32_ok be hw hN h128 _
  · exact fromI32_ok be hw hN h128 _
  · exact fromI32_ok be hw hN h128 _
  · exact fromI64_ok be hw hN h128 _
  · exact fromI128_ok be hw hN h128 _

theorem fromULimb_ok (v : BitVec w) : fromULimb be N v = .ok (mem be (I256.Cast.fromULimb N v)) := by
  rw [fromULimb, assertBits hw hN h128, Res.mbind_ok, I256.Cast.fromULimb]
  split
  · exact fromU32_ok be hN h128 _
  · exact fromU64_ok be hw hN h128 _

theorem fromILimb_ok (v : BitVec w) : fromILimb be N v = .ok (mem be (I256.Cast.fromILimb N v)) := by
  rw [fromILimb, assertBits hw hN h128, Res.mbind_ok, I256.Cast.fromILimb]
  split
  · exact fromI32_ok be hw hN h128 _
  · exact fromI64_ok be hw hN h128 _

theorem fromUWide_ok (v : BitVec (w + w)) :
    fromUWide be N v = .ok (mem be (I256.Cast.fromUWide N v)) := by
  rw [fromUWide, assertWide hw, Res.mbind_ok, I256.Cast.fromUWide]
  split
  · exact fromU64_ok be hw hN h128 _
  · exact fromU128_ok be hw hN h128 _

theorem fromIWide_ok (v : BitVec (w + w)) :
    fromIWide be N v = .ok (mem be (I256.Cast.fromIWide N v)) := by
  rw [fromIWide, assertWide hw, Res.mbind_ok, I256.Cast.fromIWide]
  split
  · exact fromI64_ok be hw hN h128 _
  · exact fromI128_ok be hw hN h128 _

end

section
variable (be : Bool) {x : Limbs w} (hw : w = 32 ∨ w = 64) (h4 : 4 ≤ x.length)
include hw h4

theorem assertBits' : assert (decide (w = 32 ∨ w = 64)) = .ok () := if_pos (decide_eq_true hw)

theorem asU32_ok : asU32 be (mem be x) = .ok (I256.Cast.asU32' x) := by
  rw [asU32, assertBits' hw h4, Res.mbind_ok, rd_limb be (by omega), Res.mbind_ok]
  rfl

theorem asU64_ok : asU64 be (mem be x) = .ok (I256.Cast.asU64 x) := by
  rw [asU64, assertBits' hw h4, Res.mbind_ok, rd_limb be (by omega), Res.mbind_ok, Res.mbind_ok,
    rd_limb be (by omega), Res.mbind_ok, shl, if_pos (by decide : 32 < 64), Res.mbind_ok, I256.Cast.asU64]
  split <;> rfl

theorem asU128_ok : asU128 be (mem be x) = .ok (I256.Cast.asU128 x) := by
  simp only [asU128, assertBits' hw h4, Res.mbind_ok, rd_limb be (by omega : 0 < x.length),
    rd_limb be (by omega : 1 < x.length), rd_limb be (by omega : 2 < x.length),
    rd_limb be (by omega : 3 < x.length), shl, I256.Cast.asU128]
  split <;> rfl

theorem asP_ok (p : Prim) : asP be (mem be x) p = .ok (I256.Cast.asP x p) := by
  cases p
  · rw [asP, asU32_ok be hw h4]; rfl
  · rw [asP, asU32_ok be hw h4]; rfl
  · exact asU32_ok be hw h4
  · exact asU64_ok be hw h4
  · exact asU128_ok be hw h4

theorem asULimb_ok : asULimb be (mem be x) = .ok (I256.Cast.asULimb x) := by
  rw [asULimb, assertBits' hw h4, Res.mbind_ok, I256.Cast.asULimb, asU32_ok be hw h4, asU64_ok be hw h4]
  split <;> rfl

theorem asUWide_ok : asUWide be (mem be x) = .ok (I256.Cast.asUWide x) := by
  rw [asUWide, assertWide hw, Res.mbind_ok, I256.Cast.asUWide, asU64_ok be hw h4, asU128_ok be hw h4]
  split <;> rfl

end

end Cast

theorem getLimb_ok (be : Bool) {x : Limbs w} {i : Nat} (h : i < x.length) :
    getLimb be (mem be x) i = .ok (I256.getLimb x i) := rd_limb be h

theorem isEven_ok (be : Bool) {x : Limbs w} (h : x ≠ []) :
    isEven be (mem be x) = .ok (I256.isEven x) := by
  rw [isEven, getLimb_ok be (List.length_pos_iff.2 h), Res.mbind_ok]
  rfl

theorem isOdd_ok (be : Bool) {x : Limbs w} (h : x ≠ []) :
    isOdd be (mem be x) = .ok (I256.isOdd x) := by
  rw [isOdd, isEven_ok be h, Res.mbind_ok]
  rfl

theorem mostSignificantLimb_ok (be : Bool) {x : Limbs w} (h : x ≠ []) :
    mostSignificantLimb be (mem be x) = .ok (I256.getLimb x (x.length - 1)) := by
  have := List.length_pos_iff.2 h
  rw [mostSignificantLimb, mem_length, usub, if_pos (by omega), Res.mbind_ok, getLimb_ok be (by omega)]

theorem I.maxValue_ok (be : Bool) {N : Nat} (hN : 0 < N) (h128 : 128 ∣ w * N) :
    I.maxValue be N = .ok (mem be (I256.I.maxValue w N)) := by
  obtain ⟨n, rfl⟩ : ∃ n, N = n + 1 := ⟨N - 1, by omega⟩
  rw [I.maxValue, usub, if_pos (by omega), Res.mbind_ok, wr_rep be (by omega), Res.mbind_ok,
    fromNeLimbs_ok (by simpa using h128), I256.I.maxValue]
  rw [show n + 1 - 1 = n by omega, List.replicate_succ', List.set_append_right _ _ (by simp)]
  simp

end Raw

end I256
