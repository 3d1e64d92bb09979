import Verif.Model.RawShiftForms
import Verif.Model.Misc
import Verif.Lemmas.RawDivForms
import Verif.Lemmas.Misc

/-!
# The forms of the shifts, the powers of two and the midpoints in memory: agreement with the functional model
-/

namespace I256

variable {w : Nat}

namespace Raw

open _root_.I256.Raw.Div (Cfg)

theorem mem_bits (be : Bool) (x : Limbs w) : bits (mem be x) = bits x := by simp [bits]

section
variable {x y : Limbs w} (cf : Cfg) (be : Bool) (F : Fit w x.length) (hw : w = 32 ∨ w = 64)
include F hw

theorem shl_ok' (s : Nat) : wrappingShl be (mem be x) s = .ok (mem be (I256.wrappingShl x s)) := by
  obtain ⟨k, hk⟩ := two_pow_of hw
  exact wrappingShl_ok be hk F.w8 F.even F.n4 F.n128 s
theorem shr_ok' (signed : Bool) (s : Nat) :
    wrappingShr be signed (mem be x) s = .ok (mem be (I256.wrappingShr signed x s)) := by
  obtain ⟨k, hk⟩ := two_pow_of hw
  exact wrappingShr_ok be signed hk F.w8 F.even F.n4 F.n128 s

theorem checkedShl_ok (s : Nat) :
    checkedShl be (mem be x) s = .ok ((I256.checkedShl x s).map (mem be)) := by
  rw [checkedShl, mem_bits, I256.checkedShl, shl_ok' be F hw]
  split <;> rfl
theorem checkedShr_ok (signed : Bool) (s : Nat) :
    checkedShr be signed (mem be x) s = .ok ((I256.checkedShr signed x s).map (mem be)) := by
  rw [checkedShr, mem_bits, I256.checkedShr, shr_ok' be F hw]
  split <;> rfl
theorem strictShl_ok (s : Nat) : strictShl be (mem be x) s = (I256.strictShl x s).map (mem be) := by
  rw [strictShl, checkedShl_ok be F hw, unwrapRes_ok]; rfl
theorem strictShr_ok (signed : Bool) (s : Nat) :
    strictShr be signed (mem be x) s = (I256.strictShr signed x s).map (mem be) := by
  rw [strictShr, checkedShr_ok be F hw, unwrapRes_ok]; rfl
theorem unboundedShl_ok (s : Nat) :
    unboundedShl be (mem be x) s = .ok (mem be (I256.unboundedShl x s)) := by
  rw [unboundedShl, mem_bits, mem_length, I256.unboundedShl, shl_ok' be F hw, zero_ok be F]
  split <;> rfl
theorem unboundedShr_ok (signed : Bool) (s : Nat) :
    unboundedShr be signed (mem be x) s = .ok (mem be (I256.unboundedShr signed x s)) := by
  rw [unboundedShr, mem_bits, mem_length, I256.unboundedShr, shr_ok' be F hw, zero_ok be F]
  split <;> rfl
theorem I.overflowingShl_ok (s : Nat) : I.overflowingShl be (mem be x) s =
    .ok (mem be (I256.I.overflowingShl x s).1, (I256.I.overflowingShl x s).2) := by
  rw [I.overflowingShl, shl_ok' be F hw, Res.mbind_ok, mem_bits]; rfl
theorem I.overflowingShr_ok (s : Nat) : I.overflowingShr be (mem be x) s =
    .ok (mem be (I256.I.overflowingShr x s).1, (I256.I.overflowingShr x s).2) := by
  rw [I.overflowingShr, shr_ok' be F hw, Res.mbind_ok, mem_bits]; rfl

theorem shlPrim_ok {n : Nat} (ps : Bool) (c : BitVec n) :
    shlPrim cf be ps (mem be x) c = (I256.shlPrim cf.oc ps x c).map (mem be) := by
  rw [shlPrim, shl_ok' be F hw, mem_bits, I256.shlPrim]
  cases cf.oc
  · rfl
  · cases primInRange ps (bits x) c <;> rfl
theorem shrPrim_ok {n : Nat} (ps signed : Bool) (c : BitVec n) :
    shrPrim cf be ps signed (mem be x) c = (I256.shrPrim cf.oc ps signed x c).map (mem be) := by
  rw [shrPrim, shr_ok' be F hw, mem_bits, I256.shrPrim]
  cases cf.oc
  · rfl
  · cases primInRange ps (bits x) c <;> rfl

omit F in
theorem assertBig_ok (G : Fit w y.length) (os : Bool) {B : Nat} (hB : B < 2 ^ 32) :
    assertBig be os B (mem be y) = if bigOutOfRange os B y then .panic else .ok () := by
  have e : ∀ v : Nat, v < 2 ^ 32 →
      (I256.Cast.fromU32 y.length (BitVec.ofNat 32 v) : Limbs w) = extU y.length (BitVec.ofNat w v) := by
    intro v hv
    rw [I256.Cast.fromU32, I256.Cast.put, extU]
    have : (BitVec.ofNat 32 v).setWidth w = BitVec.ofNat w v := by
      apply BitVec.eq_of_toNat_eq
      rw [BitVec.toNat_setWidth, BitVec.toNat_ofNat, BitVec.toNat_ofNat, Nat.mod_eq_of_lt hv]
    rw [this]; rfl
  have h0 := e 0 (by decide)
  have hlen : ∀ v : BitVec w, (extU y.length v).length = y.length := fun v => extU_length G.pos v
  rw [assertBig, mem_length, Cast.fromU32_ok be G.n4 G.n128, Res.mbind_ok, e B hB,
    Ord.lt_ok G.w8 be os (hlen _).symm G.even G.nil, Res.mbind_ok,
    show (0 : BitVec 32) = BitVec.ofNat 32 0 from rfl, Cast.fromU32_ok be G.n4 G.n128, Res.mbind_ok, h0,
    Ord.lt_ok G.w8 be os (hlen _).symm G.even G.nil, Res.mbind_ok, bigOutOfRange, I256.Ord.ge]
  simp only [BitVec.ofNat_eq_ofNat]
  cases (!I256.Ord.lt os y (extU y.length (BitVec.ofNat w B)) ||
    I256.Ord.lt os y (extU y.length (BitVec.ofNat w 0))) <;> rfl

theorem shlBig_ok (hl : x.length = y.length) (h32 : w * x.length < 2 ^ 32) (os : Bool) :
    shlBig cf be os (mem be x) (mem be y) = (I256.shlBig cf.oc os x y).map (mem be) := by
  have G := F.right hl
  rw [shlBig, Cast.asU32_ok be hw G.n4, mem_bits, assertBig_ok be hw G os (B := bits x) h32,
    I256.shlBig]
  simp only [Res.mbind_ok]
  rw [shl_ok' be F hw]
  cases cf.oc
  · rfl
  · cases bigOutOfRange os (bits x) y <;> rfl
theorem shrBig_ok (hl : x.length = y.length) (h32 : w * x.length < 2 ^ 32) (os signed : Bool) :
    shrBig cf be os signed (mem be x) (mem be y) = (I256.shrBig cf.oc os signed x y).map (mem be) := by
  have G := F.right hl
  rw [shrBig, Cast.asU32_ok be hw G.n4, mem_bits, assertBig_ok be hw G os (B := bits x) h32,
    I256.shrBig]
  simp only [Res.mbind_ok]
  rw [shr_ok' be F hw]
  cases cf.oc
  · rfl
  · cases bigOutOfRange os (bits x) y <;> rfl

theorem shlSelf_ok (hl : x.length = y.length) :
    shlSelf be (mem be x) (mem be y) = .ok (mem be (I256.shlSelf x y)) := by
  have G := F.right hl
  rw [shlSelf, leastSignificantLimb, getLimb_ok be G.pos, Res.mbind_ok]
  simp only [BitVec.and_allOnes]
  rw [shl_ok' be F hw]; rfl
theorem shrSelf_ok (hl : x.length = y.length) (signed : Bool) :
    shrSelf be signed (mem be x) (mem be y) = .ok (mem be (I256.shrSelf signed x y)) := by
  have G := F.right hl
  rw [shrSelf, leastSignificantLimb, getLimb_ok be G.pos, Res.mbind_ok]
  simp only [BitVec.and_allOnes]
  rw [shr_ok' be F hw]; rfl

end

section
variable {x y : Limbs w} (cf : Cfg) (be : Bool) (F : Fit w x.length) (hl : x.length = y.length)
  (hw : w = 32 ∨ w = 64)
include F

theorem Bits.countZeros_ok : Bits.countZeros (mem be x) = .ok (I256.Bits.countZeros x) := by
  rw [Bits.countZeros, Bits.not_ok be F.n128, Res.mbind_ok, Bits.countOnes_ok be]; rfl
theorem Bits.leadingOnes_ok : Bits.leadingOnes be (mem be x) = .ok (I256.Bits.leadingOnes x) := by
  rw [Bits.leadingOnes, Bits.not_ok be F.n128, Res.mbind_ok, Bits.leadingZeros_ok be]; rfl
theorem Bits.trailingOnes_ok : Bits.trailingOnes be (mem be x) = .ok (I256.Bits.trailingOnes x) := by
  rw [Bits.trailingOnes, Bits.not_ok be F.n128, Res.mbind_ok, Bits.trailingZeros_ok be]; rfl

omit F in
theorem U.isPowerOfTwo_ok : U.isPowerOfTwo (mem be x) = .ok (I256.U.isPowerOfTwo x) := by
  rw [U.isPowerOfTwo, Bits.countOnes_ok be, Res.mbind_ok]; rfl

include hw in
theorem U.oneLess_ok : U.oneLessThanNextPowerOfTwo be (mem be x) =
    .ok (mem be (I256.U.oneLessThanNextPowerOfTwo x)) := by
  have h1 := ofU8_length F 1
  have hm : (I256.U.maxValue w x.length).length = x.length := List.length_replicate
  rw [U.oneLessThanNextPowerOfTwo, mem_length, zero_ok be F, Res.mbind_ok,
    Ord.le_ok F.w8 be false h1.symm F.even F.nil, Res.mbind_ok, I256.U.oneLessThanNextPowerOfTwo]
  split
  · exact U.constant_ok be F.n128
  · rw [U.wrappingSub_ok be F h1.symm, Res.mbind_ok, Bits.leadingZeros_ok be, Res.mbind_ok,
      U.constant_ok be F.n128, Res.mbind_ok]
    exact shr_ok' (x := I256.U.maxValue w x.length) be (hm.symm ▸ F) hw false _

include hw in
theorem oneLess_length : (I256.U.oneLessThanNextPowerOfTwo x).length = x.length := by
  obtain ⟨k, hk⟩ := two_pow_of hw
  exact (oneLess_spec hk F.even F.n4).1

include hw in
theorem U.wrappingNextPowerOfTwo_ok : U.wrappingNextPowerOfTwo be (mem be x) =
    .ok (mem be (I256.U.wrappingNextPowerOfTwo x)) := by
  have h := oneLess_length F hw
  rw [U.wrappingNextPowerOfTwo, U.oneLess_ok be F hw, Res.mbind_ok, mem_length, zero_ok be F,
    Res.mbind_ok, U.wrappingAdd_ok be (h.symm ▸ F) (by rw [h, ofU8_length F])]; rfl
include hw in
theorem U.checkedNextPowerOfTwo_ok : U.checkedNextPowerOfTwo be (mem be x) =
    .ok ((I256.U.checkedNextPowerOfTwo x).map (mem be)) := by
  have h := oneLess_length F hw
  rw [U.checkedNextPowerOfTwo, U.oneLess_ok be F hw, Res.mbind_ok, mem_length, zero_ok be F,
    Res.mbind_ok, U.checkedAdd_ok be (h.symm ▸ F) (by rw [h, ofU8_length F])]; rfl
include hw in
theorem U.nextPowerOfTwo_ok : U.nextPowerOfTwo cf be (mem be x) =
    (I256.U.nextPowerOfTwo cf.oc x).map (mem be) := by
  rw [U.nextPowerOfTwo, U.wrappingNextPowerOfTwo_ok be F hw, U.checkedNextPowerOfTwo_ok be F hw, opOf,
    I256.U.nextPowerOfTwo, I256.opOf]
  cases cf.oc
  · rfl
  · cases I256.U.checkedNextPowerOfTwo x <;> rfl

include hw hl in
theorem U.midpoint_ok : U.midpoint be (mem be x) (mem be y) = .ok (mem be (I256.U.midpoint x y)) := by
  obtain ⟨k, hk⟩ := two_pow_of hw
  have hx : (List.zipWith (· ^^^ ·) x y).length = x.length := by simp [hl]
  have ha : (List.zipWith (· &&& ·) x y).length = x.length := by simp [hl]
  have X : Fit w (List.zipWith (· ^^^ ·) x y).length := hx.symm ▸ F
  have hs : (I256.wrappingShr false (List.zipWith (· ^^^ ·) x y) 1).length = x.length :=
    (wrappingShr_spec hk (by rw [hx]; exact F.even) X.nil false _).1.trans hx
  rw [U.midpoint, Bits.zip_ok be _ hl F.n128, Res.mbind_ok, shr_ok' be X hw, Res.mbind_ok,
    Bits.zip_ok be _ hl F.n128, Res.mbind_ok, U.wrappingAdd_ok be (hs.symm ▸ F) (by rw [hs, ha])]
  rfl

include hw hl in
theorem I.midpoint_ok : I.midpoint be (mem be x) (mem be y) = .ok (mem be (I256.I.midpoint x y)) := by
  obtain ⟨k, hk⟩ := two_pow_of hw
  have hx : (List.zipWith (· ^^^ ·) x y).length = x.length := by simp [hl]
  have ha : (List.zipWith (· &&& ·) x y).length = x.length := by simp [hl]
  have X : Fit w (List.zipWith (· ^^^ ·) x y).length := hx.symm ▸ F
  have hs : (I256.wrappingShr true (List.zipWith (· ^^^ ·) x y) 1).length = x.length :=
    (wrappingShr_spec hk (by rw [hx]; exact F.even) X.nil true _).1.trans hx
  have ht : (I256.I.wrappingAdd (I256.wrappingShr true (List.zipWith (· ^^^ ·) x y) 1)
      (List.zipWith (· &&& ·) x y)).length = x.length := by
    rw [I256.I.wrappingAdd, addLen (hs.symm ▸ F) (by rw [hs, ha]), hs]
  have T := F
  rw [← ht] at T
  have ho : ∀ v, (ofU8 x.length v : Limbs w).length = x.length := ofU8_length F
  rw [I.midpoint, Bits.zip_ok be _ hl F.n128, Res.mbind_ok, shr_ok' be X hw, Res.mbind_ok,
    Bits.zip_ok be _ hl F.n128, Res.mbind_ok, I.wrappingAdd_ok be (hs.symm ▸ F) (by rw [hs, ha]),
    Res.mbind_ok, isNegative_ok' be T, Res.mbind_ok, mem_length, zero_ok be F, Res.mbind_ok,
    Bits.zip_ok be _ (by rw [ho, hx]) (by rw [ho]; exact F.n128), Res.mbind_ok,
    I.wrappingAdd_ok be T (by rw [ht]; simp [ho, hx])]
  rfl

end

end Raw

end I256
