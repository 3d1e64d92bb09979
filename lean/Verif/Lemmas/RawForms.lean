import Verif.SpecRaw
import Verif.Model.RawForms
import Verif.Model.Misc
import Verif.Model.Traits
import Verif.Lemmas.RawPow
import Verif.Lemmas.RawCasts
import Verif.Lemmas.RawRun

/-!
# The forms of addition, subtraction, multiplication and negation in memory: agreement with the
functional model
-/

namespace I256

variable {w : Nat}

namespace Raw

open _root_.I256.Raw.Div (Cfg)
open _root_.I256.Raw.Cast (reinterpret)

theorem holdsC {be : Bool} {P : Option (Limbs w) → Prop} {o : Option (Limbs w)} (h : P o) :
    HoldsC be P (.ok (o.map (mem be))) := ⟨_, rfl, by rwa [option_logical]⟩

theorem ends {be : Bool} {P : Res (Limbs w) → Prop} {r : Res (Limbs w)} (h : P r) :
    Ends be P (r.map (mem be)) := by rwa [Ends, res_logical]

theorem unwrapRes_ok {be : Bool} {o : Option (Limbs w)} :
    unwrapRes (.ok (o.map (mem be))) = (unwrapOrPanic o).map (mem be) := by
  cases o <;> rfl

theorem orElse_ok {be : Bool} {o : Option (Limbs w)} {d : Limbs w} :
    orElse (.ok (o.map (mem be))) (.ok (mem be d)) = .ok (mem be (unwrapOr o d)) := by
  cases o <;> rfl

theorem U.constant_ok (be : Bool) {N : Nat} {v : BitVec w} (h : 128 ∣ w * N) :
    U.constant N v = .ok (mem be (List.replicate N v)) := by
  rw [U.constant, fromNeLimbs_ok (by simpa using h), mem_replicate]

theorem reinterpret_ok' (be : Bool) {x : Limbs w} (h : 128 ∣ w * x.length) :
    reinterpret (mem be x) = .ok (mem be x) := fromNeLimbs_ok (by simpa using h)

section
variable {x y : Limbs w} (cf : Cfg) (be : Bool) (F : Fit w x.length) (hl : x.length = y.length)
include F

theorem Fit.pos : 0 < x.length := by have := F.n4; omega
theorem Fit.two : 2 ≤ x.length := by have := F.n4; omega
theorem Fit.nil : x ≠ [] := length_ne (n := 0) F.pos

theorem ofU8_length (v : Nat) : (ofU8 x.length v : Limbs w).length = x.length := extU_length F.pos _

theorem zero_ok (v : Nat) : fromU8 be x.length v = .ok (mem be (ofU8 x.length v : Limbs w)) :=
  fromU8_ok be v F.pos F.n128

theorem isNegative_ok' : Bits.isNegative be (mem be x) = .ok (I256.I.isNegative x) :=
  Bits.isNegative_ok be F.nil

theorem min_ok : I.minValue be x.length = .ok (mem be (I256.I.minValue w x.length)) :=
  I.minValue_ok be F.pos F.n128
theorem max_ok : I.maxValue be x.length = .ok (mem be (I256.I.maxValue w x.length)) :=
  I.maxValue_ok be F.pos F.n128

include hl

theorem Fit.right : Fit w y.length := hl ▸ F

theorem addLen : (I256.Add.wrappingFull x y).length = x.length :=
  (I256.Add.wrapU (by have := F.w1; omega) hl).1
theorem subLen : (I256.Sub.wrappingFull x y).length = x.length :=
  (I256.Sub.wrapU (by have := F.w1; omega) hl).1
theorem addLenO : (I256.Add.overflowingFull x y).1.length = x.length :=
  (I256.Add.overU (by have := F.w1; omega) hl).1.1
theorem subLenO : (I256.Sub.overflowingFull x y).1.length = x.length :=
  (I256.Sub.overU (by have := F.w1; omega) hl).1.1
theorem addLenS : (I256.Add.sOverflowingFull x y).1.length = x.length :=
  (I256.Add.overS F.w1 F.nil hl).1.1
theorem subLenS : (I256.Sub.sOverflowingFull x y).1.length = x.length :=
  (I256.Sub.overS F.w1 F.nil hl).1.1

namespace U

theorem wrappingAdd_ok : wrappingAdd be (mem be x) (mem be y) = .ok (mem be (I256.U.wrappingAdd x y)) := by
  rw [wrappingAdd, Add.wrappingFull_ok be x y hl F.pos]
  exact wrappingOf_ok (by rw [addLen F hl]; exact F.n128)

theorem wrappingSub_ok : wrappingSub be (mem be x) (mem be y) = .ok (mem be (I256.U.wrappingSub x y)) := by
  rw [wrappingSub, Sub.wrappingFull_ok be x y hl F.two]
  exact wrappingOf_ok (by rw [subLen F hl]; exact F.n128)

theorem wrappingAddSigned_ok :
    wrappingAddSigned be (mem be x) (mem be y) = .ok (mem be (I256.U.wrappingAddSigned x y)) := by
  rw [wrappingAddSigned, reinterpret_ok' be (F.right hl).n128, Res.mbind_ok, wrappingAdd_ok be F hl]
  rfl

theorem overflowingAdd_ok : overflowingAdd be (mem be x) (mem be y) =
    .ok (mem be (I256.U.overflowingAdd x y).1, (I256.U.overflowingAdd x y).2) := by
  rw [overflowingAdd, Add.overflowingFull_ok be x y hl]
  exact overflowingOf_ok (by rw [addLenO F hl]; exact F.n128)

theorem overflowingSub_ok : overflowingSub be (mem be x) (mem be y) =
    .ok (mem be (I256.U.overflowingSub x y).1, (I256.U.overflowingSub x y).2) := by
  rw [overflowingSub, Sub.overflowingFull_ok be x y hl F.two]
  exact overflowingOf_ok (by rw [subLenO F hl]; exact F.n128)

theorem overflowingAddSigned_ok : overflowingAddSigned be (mem be x) (mem be y) =
    .ok (mem be (I256.U.overflowingAddSigned x y).1, (I256.U.overflowingAddSigned x y).2) := by
  rw [overflowingAddSigned, isNegative_ok' be (F.right hl), Res.mbind_ok,
    reinterpret_ok' be (F.right hl).n128, Res.mbind_ok, overflowingAdd_ok be F hl]
  rfl

theorem overflowingSubSigned_ok : overflowingSubSigned be (mem be x) (mem be y) =
    .ok (mem be (I256.U.overflowingSubSigned x y).1, (I256.U.overflowingSubSigned x y).2) := by
  rw [overflowingSubSigned, reinterpret_ok' be (F.right hl).n128, Res.mbind_ok, overflowingSub_ok be F hl,
    Res.mbind_ok, isNegative_ok' be (F.right hl)]
  rfl

theorem checkedAdd_ok :
    checkedAdd be (mem be x) (mem be y) = .ok ((I256.U.checkedAdd x y).map (mem be)) := by
  rw [checkedAdd, overflowingAdd_ok be F hl, Pow.checked_ok]
  rfl
theorem checkedSub_ok :
    checkedSub be (mem be x) (mem be y) = .ok ((I256.U.checkedSub x y).map (mem be)) := by
  rw [checkedSub, overflowingSub_ok be F hl, Pow.checked_ok]
  rfl
theorem checkedAddSigned_ok :
    checkedAddSigned be (mem be x) (mem be y) = .ok ((I256.U.checkedAddSigned x y).map (mem be)) := by
  rw [checkedAddSigned, overflowingAddSigned_ok be F hl, Pow.checked_ok]
  rfl

theorem checkedSignedDiff_ok :
    checkedSignedDiff be (mem be x) (mem be y) = .ok ((I256.U.checkedSignedDiff x y).map (mem be)) := by
  have h : (I256.U.wrappingSub x y).length = x.length := subLen F hl
  rw [checkedSignedDiff, wrappingSub_ok be F hl, Res.mbind_ok, reinterpret_ok' be (by rw [h]; exact F.n128),
    Res.mbind_ok, Ord.lt_ok F.w8 be false hl F.even F.nil, Res.mbind_ok, mem_length, zero_ok be F,
    Res.mbind_ok, Ord.lt_ok F.w8 be true (by rw [h, ofU8_length F]) (by rw [h]; exact F.even)
      (length_ne (n := 0) (by rw [h]; exact F.pos)), Res.mbind_ok, I256.U.checkedSignedDiff, I256.Ord.ge]
  simp only
  split <;> rfl

theorem saturatingAdd_ok :
    saturatingAdd be (mem be x) (mem be y) = .ok (mem be (I256.U.saturatingAdd x y)) := by
  rw [saturatingAdd, checkedAdd_ok be F hl, mem_length, constant_ok be F.n128, orElse_ok]
  rfl
theorem saturatingSub_ok :
    saturatingSub be (mem be x) (mem be y) = .ok (mem be (I256.U.saturatingSub x y)) := by
  rw [saturatingSub, checkedSub_ok be F hl, mem_length, constant_ok be F.n128, orElse_ok]
  rfl
theorem saturatingAddSigned_ok :
    saturatingAddSigned be (mem be x) (mem be y) = .ok (mem be (I256.U.saturatingAddSigned x y)) := by
  rw [saturatingAddSigned, isNegative_ok' be (F.right hl), Res.mbind_ok,
    reinterpret_ok' be (F.right hl).n128, Res.mbind_ok, overflowingAdd_ok be F hl, Res.mbind_ok, mem_length,
    constant_ok be F.n128, constant_ok be F.n128, I256.U.saturatingAddSigned]
  simp only
  split
  · rfl
  · split <;> rfl

theorem saturatingMul_ok :
    saturatingMul be (mem be x) (mem be y) = .ok (mem be (I256.U.saturatingMul x y)) := by
  rw [saturatingMul, checkedMul_ok be (by have := F.w1; omega) F.w8 hl F.even F.n4 F.n128, mem_length,
    constant_ok be F.n128, orElse_ok]
  rfl

theorem strictAdd_ok : strictAdd be (mem be x) (mem be y) = (I256.U.strictAdd x y).map (mem be) := by
  rw [strictAdd, checkedAdd_ok be F hl, unwrapRes_ok]; rfl
theorem strictSub_ok : strictSub be (mem be x) (mem be y) = (I256.U.strictSub x y).map (mem be) := by
  rw [strictSub, checkedSub_ok be F hl, unwrapRes_ok]; rfl
theorem strictMul_ok : strictMul be (mem be x) (mem be y) = (I256.U.strictMul x y).map (mem be) := by
  rw [strictMul, checkedMul_ok be (by have := F.w1; omega) F.w8 hl F.even F.n4 F.n128, unwrapRes_ok]; rfl
theorem strictAddSigned_ok :
    strictAddSigned be (mem be x) (mem be y) = (I256.U.strictAddSigned x y).map (mem be) := by
  rw [strictAddSigned, checkedAddSigned_ok be F hl, unwrapRes_ok]; rfl

theorem add_ok : add cf be (mem be x) (mem be y) = (I256.U.add cf.oc x y).map (mem be) := by
  rw [add, wrappingAdd_ok be F hl, checkedAdd_ok be F hl, opOf_map]; rfl
theorem sub_ok : sub cf be (mem be x) (mem be y) = (I256.U.sub cf.oc x y).map (mem be) := by
  rw [sub, wrappingSub_ok be F hl, checkedSub_ok be F hl, opOf_map]; rfl

theorem absDiff_ok : absDiff be (mem be x) (mem be y) = .ok (mem be (I256.U.absDiff x y)) := by
  rw [absDiff, Ord.lt_ok F.w8 be false hl F.even F.nil, Res.mbind_ok, wrappingSub_ok be F hl,
    wrappingSub_ok be (F.right hl) hl.symm, I256.U.absDiff]
  split <;> rfl

end U

namespace I

theorem wrappingAdd_ok : wrappingAdd be (mem be x) (mem be y) = .ok (mem be (I256.I.wrappingAdd x y)) :=
  U.wrappingAdd_ok be F hl
theorem wrappingSub_ok : wrappingSub be (mem be x) (mem be y) = .ok (mem be (I256.I.wrappingSub x y)) :=
  U.wrappingSub_ok be F hl
theorem wrappingSubUnsigned_ok :
    wrappingSubUnsigned be (mem be x) (mem be y) = .ok (mem be (I256.I.wrappingSubUnsigned x y)) := by
  rw [wrappingSubUnsigned, reinterpret_ok' be (F.right hl).n128, Res.mbind_ok, wrappingSub_ok be F hl]
  rfl

theorem overflowingAdd_ok : overflowingAdd be (mem be x) (mem be y) =
    .ok (mem be (I256.I.overflowingAdd x y).1, (I256.I.overflowingAdd x y).2) := by
  rw [overflowingAdd, Add.sOverflowingFull_ok be x y hl F.two]
  exact overflowingOf_ok (by rw [addLenS F hl]; exact F.n128)
theorem overflowingSub_ok : overflowingSub be (mem be x) (mem be y) =
    .ok (mem be (I256.I.overflowingSub x y).1, (I256.I.overflowingSub x y).2) := by
  rw [overflowingSub, Sub.sOverflowingFull_ok be x y hl F.two]
  exact overflowingOf_ok (by rw [subLenS F hl]; exact F.n128)

theorem overflowingAddUnsigned_ok : overflowingAddUnsigned be (mem be x) (mem be y) =
    .ok (mem be (I256.I.overflowingAddUnsigned x y).1, (I256.I.overflowingAddUnsigned x y).2) := by
  rw [overflowingAddUnsigned, reinterpret_ok' be (F.right hl).n128, Res.mbind_ok, overflowingAdd_ok be F hl,
    Res.mbind_ok, isNegative_ok' be (F.right hl)]
  rfl
theorem overflowingSubUnsigned_ok : overflowingSubUnsigned be (mem be x) (mem be y) =
    .ok (mem be (I256.I.overflowingSubUnsigned x y).1, (I256.I.overflowingSubUnsigned x y).2) := by
  rw [overflowingSubUnsigned, reinterpret_ok' be (F.right hl).n128, Res.mbind_ok, overflowingSub_ok be F hl,
    Res.mbind_ok, isNegative_ok' be (F.right hl)]
  rfl

theorem checkedAdd_ok :
    checkedAdd be (mem be x) (mem be y) = .ok ((I256.I.checkedAdd x y).map (mem be)) := by
  rw [checkedAdd, overflowingAdd_ok be F hl, Pow.checked_ok]; rfl
theorem checkedSub_ok :
    checkedSub be (mem be x) (mem be y) = .ok ((I256.I.checkedSub x y).map (mem be)) := by
  rw [checkedSub, overflowingSub_ok be F hl, Pow.checked_ok]; rfl
theorem checkedAddUnsigned_ok :
    checkedAddUnsigned be (mem be x) (mem be y) = .ok ((I256.I.checkedAddUnsigned x y).map (mem be)) := by
  rw [checkedAddUnsigned, overflowingAddUnsigned_ok be F hl, Pow.checked_ok]; rfl
theorem checkedSubUnsigned_ok :
    checkedSubUnsigned be (mem be x) (mem be y) = .ok ((I256.I.checkedSubUnsigned x y).map (mem be)) := by
  rw [checkedSubUnsigned, overflowingSubUnsigned_ok be F hl, Pow.checked_ok]; rfl
theorem checkedMul_ok :
    checkedMul be (mem be x) (mem be y) = .ok ((I256.I.checkedMul x y).map (mem be)) := by
  rw [checkedMul, (overflowingMul_ok be (by have := F.w1; omega) F.pos F.n128 F.two x y rfl hl.symm).1,
    Pow.checked_ok]; rfl

omit hl in
theorem boundOf_ok : boundOf be (mem be x) = .ok (mem be
    (if I256.I.isNegative x then I256.I.minValue w x.length else I256.I.maxValue w x.length)) := by
  rw [boundOf, isNegative_ok' be F, Res.mbind_ok, mem_length, min_ok be F, max_ok be F]
  split <;> rfl

omit F hl in
theorem saturate_eq (o : Option (Limbs w)) : I256.I.saturate x o = unwrapOr o
    (if I256.I.isNegative x then I256.I.minValue w x.length else I256.I.maxValue w x.length) := by
  cases o <;> rfl

theorem saturatingAdd_ok :
    saturatingAdd be (mem be x) (mem be y) = .ok (mem be (I256.I.saturatingAdd x y)) := by
  rw [saturatingAdd, checkedAdd_ok be F hl, boundOf_ok be F, orElse_ok, I256.I.saturatingAdd, saturate_eq]
theorem saturatingSub_ok :
    saturatingSub be (mem be x) (mem be y) = .ok (mem be (I256.I.saturatingSub x y)) := by
  rw [saturatingSub, checkedSub_ok be F hl, boundOf_ok be F, orElse_ok, I256.I.saturatingSub, saturate_eq]
theorem saturatingAddUnsigned_ok :
    saturatingAddUnsigned be (mem be x) (mem be y) = .ok (mem be (I256.I.saturatingAddUnsigned x y)) := by
  rw [saturatingAddUnsigned, checkedAddUnsigned_ok be F hl, mem_length, max_ok be F, orElse_ok]; rfl
theorem saturatingSubUnsigned_ok :
    saturatingSubUnsigned be (mem be x) (mem be y) = .ok (mem be (I256.I.saturatingSubUnsigned x y)) := by
  rw [saturatingSubUnsigned, checkedSubUnsigned_ok be F hl, mem_length, min_ok be F, orElse_ok]; rfl
theorem saturatingMul_ok :
    saturatingMul be (mem be x) (mem be y) = .ok (mem be (I256.I.saturatingMul x y)) := by
  rw [saturatingMul, checkedMul_ok be F hl, mem_length, min_ok be F, max_ok be F, isNegative_ok' be F,
    Res.mbind_ok, isNegative_ok' be (F.right hl), Res.mbind_ok, I256.I.saturatingMul]
  cases I256.I.checkedMul x y
  · cases I256.I.isNegative x <;> cases I256.I.isNegative y <;> rfl
  · rfl

theorem strictAdd_ok : strictAdd be (mem be x) (mem be y) = (I256.I.strictAdd x y).map (mem be) := by
  rw [strictAdd, checkedAdd_ok be F hl, unwrapRes_ok]; rfl
theorem strictSub_ok : strictSub be (mem be x) (mem be y) = (I256.I.strictSub x y).map (mem be) := by
  rw [strictSub, checkedSub_ok be F hl, unwrapRes_ok]; rfl
theorem strictMul_ok : strictMul be (mem be x) (mem be y) = (I256.I.strictMul x y).map (mem be) := by
  rw [strictMul, checkedMul_ok be F hl, unwrapRes_ok]; rfl
theorem strictAddUnsigned_ok :
    strictAddUnsigned be (mem be x) (mem be y) = (I256.I.strictAddUnsigned x y).map (mem be) := by
  rw [strictAddUnsigned, checkedAddUnsigned_ok be F hl, unwrapRes_ok]; rfl
theorem strictSubUnsigned_ok :
    strictSubUnsigned be (mem be x) (mem be y) = (I256.I.strictSubUnsigned x y).map (mem be) := by
  rw [strictSubUnsigned, checkedSubUnsigned_ok be F hl, unwrapRes_ok]; rfl

theorem add_ok : add cf be (mem be x) (mem be y) = (I256.I.add cf.oc x y).map (mem be) := by
  rw [add, wrappingAdd_ok be F hl, checkedAdd_ok be F hl, opOf_map]; rfl
theorem mul_ok : mul cf be (mem be x) (mem be y) = (I256.I.mul cf.oc x y).map (mem be) := by
  have h := (U.wrappingMul_ok be (by have := F.w1; omega) F.pos F.n128 x y rfl hl.symm).1
  have h' : wrappingMul be (mem be x) (mem be y) = .ok (mem be (I256.I.wrappingMul x y)) := h
  rw [mul, h', checkedMul_ok be F hl, opOf_map]; rfl

theorem absDiff_ok : absDiff be (mem be x) (mem be y) = .ok (mem be (I256.I.absDiff x y)) := by
  rw [absDiff, Ord.lt_ok F.w8 be true hl F.even F.nil, Res.mbind_ok, reinterpret_ok' be F.n128,
    reinterpret_ok' be (F.right hl).n128, Res.mbind_ok, Res.mbind_ok, Res.mbind_ok, Res.mbind_ok,
    U.wrappingSub_ok be F hl, U.wrappingSub_ok be (F.right hl) hl.symm, I256.I.absDiff]
  split <;> rfl

end I

end

section
variable {x : Limbs w} (cf : Cfg) (be : Bool) (F : Fit w x.length)
include F

theorem w0 : 0 < w := by have := F.w1; omega

theorem U.wrappingNeg_ok : U.wrappingNeg be (mem be x) = .ok (mem be (I256.U.wrappingNeg x)) := by
  have h : (List.replicate x.length (0 : BitVec w)).length = x.length := by simp
  rw [U.wrappingNeg, mem_length, U.constant_ok be F.n128, Res.mbind_ok,
    U.wrappingSub_ok be (by rw [h]; exact F) h]
  rfl
theorem U.checkedNeg_ok : U.checkedNeg be (mem be x) = .ok ((I256.U.checkedNeg x).map (mem be)) := by
  have h : (List.replicate x.length (0 : BitVec w)).length = x.length := by simp
  have hq := I256.Ord.eqConst_iff (x := x) (y := I256.U.minValue w x.length) (by rw [I256.U.minValue, h]) F.even
  rw [U.checkedNeg, mem_length, U.constant_ok be F.n128, Res.mbind_ok,
    Ord.eqConst_ok F.w8 be h.symm F.even, Res.mbind_ok, I256.U.checkedNeg]
  change Res.ok (if decide (x = I256.U.minValue w x.length) = true then _ else _) = _
  by_cases c : x = I256.U.minValue w x.length
  · rw [if_pos (hq.2 c), if_pos (decide_eq_true c)]; rfl
  · rw [if_neg (fun e => c (hq.1 e)), if_neg (fun e => c (of_decide_eq_true e))]; rfl
theorem U.strictNeg_ok : U.strictNeg be (mem be x) = (I256.U.strictNeg x).map (mem be) := by
  rw [U.strictNeg, U.checkedNeg_ok be F, unwrapRes_ok]; rfl
theorem U.saturatingPow_ok (e : BitVec 32) :
    U.saturatingPow cf be (mem be x) e = .ok (mem be (I256.U.saturatingPow x e.toNat)) := by
  rw [U.saturatingPow, U.checkedPow_ok cf be (w0 F) F.pos F.n128 rfl, mem_length, U.constant_ok be F.n128,
    orElse_ok]
  rfl
theorem U.strictPow_ok (e : BitVec 32) :
    U.strictPow cf be (mem be x) e = (I256.U.strictPow x e.toNat).map (mem be) := by
  rw [U.strictPow, U.checkedPow_ok cf be (w0 F) F.pos F.n128 rfl, unwrapRes_ok]
  rfl

theorem I.strictPow_ok (e : BitVec 32) :
    I.strictPow cf be (mem be x) e = (I256.I.strictPow x e.toNat).map (mem be) := by
  rw [I.strictPow, I.checkedPow_ok cf be (w0 F) F.pos F.n128 F.two rfl, unwrapRes_ok]
  rfl

theorem I.saturatingNeg_ok : I.saturatingNeg be (mem be x) = .ok (mem be (I256.I.saturatingNeg x)) := by
  have h := ofU8_length F 0
  rw [I.saturatingNeg, mem_length, zero_ok be F, Res.mbind_ok, I.saturatingSub_ok be (by rw [h]; exact F) h]
  rfl
theorem I.checkedNeg_ok : I.checkedNeg cf be (mem be x) = .ok ((I256.I.checkedNeg x).map (mem be)) := by
  rw [I.checkedNeg, I.overflowingNeg_ok cf be (w0 F) F.w8 F.two F.even F.n128, Pow.checked_ok]; rfl
theorem I.checkedAbs_ok : I.checkedAbs cf be (mem be x) = .ok ((I256.I.checkedAbs x).map (mem be)) := by
  rw [I.checkedAbs, I.overflowingAbs_ok cf be (w0 F) F.w8 F.two F.even F.n128, Pow.checked_ok]; rfl
theorem I.wrappingAbs_ok : I.wrappingAbs cf be (mem be x) = .ok (mem be (I256.I.wrappingAbs x)) := by
  rw [I.wrappingAbs, I.overflowingAbs_ok cf be (w0 F) F.w8 F.two F.even F.n128]; rfl
theorem I.saturatingAbs_ok : I.saturatingAbs cf be (mem be x) = .ok (mem be (I256.I.saturatingAbs x)) := by
  rw [I.saturatingAbs, I.checkedAbs_ok cf be F, mem_length, max_ok be F, orElse_ok]; rfl
theorem I.strictNeg_ok : I.strictNeg cf be (mem be x) = (I256.I.strictNeg x).map (mem be) := by
  rw [I.strictNeg, I.checkedNeg_ok cf be F, unwrapRes_ok]; rfl
theorem I.abs_ok : I.abs cf be (mem be x) = (I256.I.abs x).map (mem be) := by
  rw [I.abs, I.checkedAbs_ok cf be F, unwrapRes_ok]; rfl
theorem I.neg_ok : I.neg cf be (mem be x) = (I256.I.neg cf.oc x).map (mem be) := by
  rw [I.neg, I.checkedNeg_ok cf be F, I.wrappingNeg_ok cf be (w0 F) F.w8 F.two F.even F.n128, opOf_map]; rfl

omit F in
theorem minusOne_eq (hw : w = 32 ∨ w = 64) {N : Nat} : (I256.Cast.fromI N .b8 (-1) : Limbs w) = ofI8 N (-1) := by
  rcases hw with rfl | rfl <;> rfl

theorem I.signum_ok (hw : w = 32 ∨ w = 64) : I.signum be (mem be x) = .ok (mem be (I256.I.signum x)) := by
  have h := ofU8_length F 0
  rw [I.signum, mem_length, zero_ok be F, Res.mbind_ok, Ord.cmp_ok F.w8 be true h.symm F.even F.nil,
    Res.mbind_ok, zero_ok be F, Cast.fromI_ok be hw F.n4 F.n128, minusOne_eq hw, I256.I.signum]
  cases I256.Ord.cmp true x (ofU8 x.length 0)
  · rfl
  · rfl
  · rfl

theorem I.saturatingPow_ok (e : BitVec 32) :
    I.saturatingPow cf be (mem be x) e = .ok (mem be (I256.I.saturatingPow x e.toNat)) := by
  have h := ofU8_length F 0
  rw [I.saturatingPow, I.checkedPow_ok cf be (w0 F) F.pos F.n128 F.two rfl, mem_length, zero_ok be F,
    Res.mbind_ok, Ord.lt_ok F.w8 be true h.symm F.even F.nil, Res.mbind_ok, min_ok be F, max_ok be F,
    I256.I.saturatingPow]
  have hp : (e % 2 == 1) = (e.toNat % 2 == 1) := by
    rw [Bool.eq_iff_iff, beq_iff_eq, beq_iff_eq, ← BitVec.toNat_inj]
    simp
  rw [hp]
  cases I256.I.checkedPow x e.toNat with
  | some v => rfl
  | none => simp only [Option.map_none]; split <;> simp_all [orElse]

end

section
variable {x y : Limbs w} (cf : Cfg) (be : Bool) (F : Fit w x.length) (hl : x.length = y.length)
include F

namespace U

theorem overflowingAddULimb_ok (n : BitVec w) : overflowingAddULimb be (mem be x) n =
    .ok (mem be (I256.U.overflowingAddULimb x n).1, (I256.U.overflowingAddULimb x n).2) := by
  rw [overflowingAddULimb, Add.overflowingLimb_ok be x n F.two]
  exact overflowingOf_ok (by rw [(I256.Add.limbOverU (w0 F) F.nil n).1.1]; exact F.n128)
theorem overflowingSubULimb_ok (n : BitVec w) : overflowingSubULimb be (mem be x) n =
    .ok (mem be (I256.U.overflowingSubULimb x n).1, (I256.U.overflowingSubULimb x n).2) := by
  rw [overflowingSubULimb, Sub.overflowingLimb_ok be x n F.two]
  exact overflowingOf_ok (by rw [(I256.Sub.limbOverU (w0 F) F.nil n).1.1]; exact F.n128)
theorem wrappingAddULimb_ok (n : BitVec w) :
    wrappingAddULimb be (mem be x) n = .ok (mem be (I256.U.wrappingAddULimb x n)) := by
  rw [wrappingAddULimb, Add.wrappingLimb_ok be x n F.two]
  exact wrappingOf_ok (by rw [(I256.Add.limbWrapU (w0 F) F.nil n).1]; exact F.n128)
theorem addULimb_ok (n : BitVec w) :
    addULimb cf be (mem be x) n = (I256.U.addULimb cf.oc x n).map (mem be) := by
  rw [addULimb, wrappingAddULimb_ok be F, overflowingAddULimb_ok be F, Pow.checked_ok, opOf_map]; rfl

include hl

theorem carryingAdd_ok (c : Bool) : carryingAdd be (mem be x) (mem be y) c =
    .ok (mem be (I256.U.carryingAdd x y c).1, (I256.U.carryingAdd x y c).2) := by
  have h : (I256.U.overflowingAdd x y).1.length = x.length := addLenO F hl
  rw [carryingAdd, overflowingAdd_ok be F hl, Res.mbind_ok]
  simp only
  rw [overflowingAddULimb_ok be (by rw [h]; exact F)]
  rfl
theorem borrowingSub_ok (c : Bool) : borrowingSub be (mem be x) (mem be y) c =
    .ok (mem be (I256.U.borrowingSub x y c).1, (I256.U.borrowingSub x y c).2) := by
  have h : (I256.U.overflowingSub x y).1.length = x.length := subLenO F hl
  rw [borrowingSub, overflowingSub_ok be F hl, Res.mbind_ok]
  simp only
  rw [overflowingSubULimb_ok be (by rw [h]; exact F)]
  rfl

theorem wideningMul_ok : wideningMul be (mem be x) (mem be y) =
    .ok (mem be (I256.U.wideningMul x y).1, mem be (I256.U.wideningMul x y).2) := by
  obtain ⟨h1, h2, -⟩ := I256.Mul.widening_spec x y hl F.pos
  rw [wideningMul, Mul.widening_ok be (w0 F) x y hl.symm, Res.mbind_ok]
  simp only
  rw [fromNeLimbs_ok (by rw [mem_length, h1]; exact F.n128), Res.mbind_ok,
    fromNeLimbs_ok (by rw [mem_length, h2]; exact F.n128), Res.mbind_ok]
  rfl

theorem carryingMul_ok {c : Limbs w} (hc : x.length = c.length) :
    carryingMul cf be (mem be x) (mem be y) (mem be c) =
      (I256.U.carryingMul cf.oc x y c).map (fun r => (mem be r.1, mem be r.2)) := by
  obtain ⟨h1, h2, -⟩ := I256.Mul.widening_spec x y hl F.pos
  rw [carryingMul, Mul.widening_ok be (w0 F) x y hl.symm, Res.mbind_ok]
  simp only
  rw [fromNeLimbs_ok (by rw [mem_length, h1]; exact F.n128), Res.mbind_ok,
    overflowingAdd_ok be (by rw [h1]; exact F) (by rw [h1, hc]), Res.mbind_ok]
  simp only
  rw [fromNeLimbs_ok (by rw [mem_length, h2]; exact F.n128), Res.mbind_ok,
    addULimb_ok cf be (by rw [h2]; exact F), I256.U.carryingMul]
  simp only
  cases I256.U.addULimb cf.oc (I256.Mul.widening x y).2
    (boolLimb w (I256.U.overflowingAdd (I256.Mul.widening x y).1 c).2) <;> rfl

omit F hl in
theorem high_length : (I256.U.high x).length = x.length := by
  simp only [I256.U.high, List.length_append, List.length_take, List.length_drop, List.length_replicate]
  omega
omit F hl in
theorem low_length : (I256.U.low x).length = x.length := by
  simp only [I256.U.low, List.length_append, List.length_take, List.length_replicate]
  omega

theorem highMul_ok : highMul be (mem be x) (mem be y) = .ok (mem be (I256.U.highMul x y)) := by
  have G := F.right hl
  have hh : ∀ {z : Limbs w}, z.length = x.length → Bits.high be (mem be z) = .ok (mem be (I256.U.high z)) ∧
      (I256.U.high z).length = x.length := fun {z} e =>
    ⟨Bits.high_ok be (by rw [e]; exact F.n128), high_length.trans e⟩
  have hlo : ∀ {z : Limbs w}, z.length = x.length → Bits.low be (mem be z) = .ok (mem be (I256.U.low z)) ∧
      (I256.U.low z).length = x.length := fun {z} e =>
    ⟨Bits.low_ok be (by rw [e]; exact F.n128), low_length.trans e⟩
  have hm : ∀ {a b : Limbs w}, a.length = x.length → b.length = x.length →
      wrappingMul be (mem be a) (mem be b) = .ok (mem be (I256.U.wrappingMul a b)) ∧
      (I256.U.wrappingMul a b).length = x.length := fun {a b} ha hb =>
    U.wrappingMul_ok be (w0 F) F.pos F.n128 a b ha hb
  have ha : ∀ {a b : Limbs w}, a.length = x.length → b.length = x.length →
      wrappingAdd be (mem be a) (mem be b) = .ok (mem be (I256.U.wrappingAdd a b)) ∧
      (I256.U.wrappingAdd a b).length = x.length := fun {a b} ha hb =>
    ⟨wrappingAdd_ok be (by rw [ha]; exact F) (by omega),
      (addLen (x := a) (by rw [ha]; exact F) (by omega)).trans ha⟩
  obtain ⟨e1, l1⟩ := hh (z := x) rfl
  obtain ⟨e2, l2⟩ := hlo (z := x) rfl
  obtain ⟨e3, l3⟩ := hh (z := y) hl.symm
  obtain ⟨e4, l4⟩ := hlo (z := y) hl.symm
  obtain ⟨e5, l5⟩ := hm l2 l4
  obtain ⟨e6, l6⟩ := hm l2 l3
  obtain ⟨e7, l7⟩ := hh l5
  obtain ⟨e8, l8⟩ := ha l6 l7
  obtain ⟨e9, l9⟩ := hlo l8
  obtain ⟨e10, l10⟩ := hh l8
  obtain ⟨e11, l11⟩ := hm l1 l4
  obtain ⟨e12, l12⟩ := ha l11 l9
  obtain ⟨e13, l13⟩ := hh l12
  obtain ⟨e14, l14⟩ := hm l1 l3
  obtain ⟨e15, l15⟩ := ha l14 l10
  obtain ⟨e16, l16⟩ := ha l15 l13
  simp only [highMul, Res.mbind_ok, e1, e2, e3, e4, e5, e6, e7, e8, e9, e10, e11, e12, e13, e14, e15, e16]
  rfl

end U

namespace I

theorem overflowingAddULimb_ok (n : BitVec w) : overflowingAddULimb be (mem be x) n =
    .ok (mem be (I256.I.overflowingAddULimb x n).1, (I256.I.overflowingAddULimb x n).2) := by
  have h := I256.Add.sOverflowingULimb_eq F.w1 x n F.two
  rw [overflowingAddULimb, Add.sOverflowingULimb_ok be x n F.two]
  refine overflowingOf_ok ?_
  rw [h, addLenS F (extU_length F.pos _).symm]
  exact F.n128
theorem overflowingSubULimb_ok (n : BitVec w) : overflowingSubULimb be (mem be x) n =
    .ok (mem be (I256.I.overflowingSubULimb x n).1, (I256.I.overflowingSubULimb x n).2) := by
  have h := I256.Sub.sOverflowingULimb_eq F.w1 x n F.two
  rw [overflowingSubULimb, Sub.sOverflowingULimb_ok be x n F.two]
  refine overflowingOf_ok ?_
  rw [h, subLenS F (extU_length F.pos _).symm]
  exact F.n128

include hl

theorem carryingAdd_ok (c : Bool) : carryingAdd be (mem be x) (mem be y) c =
    .ok (mem be (I256.I.carryingAdd x y c).1, (I256.I.carryingAdd x y c).2) := by
  have h : (I256.I.overflowingAdd x y).1.length = x.length := addLenS F hl
  rw [carryingAdd, overflowingAdd_ok be F hl, Res.mbind_ok]
  simp only
  rw [overflowingAddULimb_ok be (by rw [h]; exact F)]
  rfl
theorem borrowingSub_ok (c : Bool) : borrowingSub be (mem be x) (mem be y) c =
    .ok (mem be (I256.I.borrowingSub x y c).1, (I256.I.borrowingSub x y c).2) := by
  have h : (I256.I.overflowingSub x y).1.length = x.length := subLenS F hl
  rw [borrowingSub, overflowingSub_ok be F hl, Res.mbind_ok]
  simp only
  rw [overflowingSubULimb_ok be (by rw [h]; exact F)]
  rfl

end I

end

end Raw

end I256
