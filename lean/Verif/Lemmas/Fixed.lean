import Verif.SpecFixed
import Verif.Model.Fixed
import Verif.Lemmas.DivForms
import Verif.Lemmas.Casts
import Verif.Lemmas.MulApi

/-!
# Lemmas about fixed-width scalars
-/

namespace I256

variable {w : Nat}

theorem FormsU.mk {oc : Bool} {N : Nat} {z : Int} {wr : Res (Limbs w)} {ov : Res (Limbs w × Bool)}
    (h1 : ∃ v, wr = .ok v ∧ WrapU N z v) (h2 : ∃ r, ov = .ok r ∧ OverU N z r) :
    FormsU oc N z wr ov (ov.map mkChecked) (fixOp oc wr (ov.map mkChecked)) := by
  obtain ⟨v, rfl, hv⟩ := h1
  obtain ⟨r, rfl, hr⟩ := h2
  refine ⟨⟨v, rfl, hv⟩, ⟨r, rfl, hr⟩, ⟨_, rfl, hr.check⟩, ?_⟩
  exact hr.check.op hv oc

theorem FormsS.mk {oc : Bool} {N : Nat} {z : Int} {wr : Res (Limbs w)} {ov : Res (Limbs w × Bool)}
    (h1 : ∃ v, wr = .ok v ∧ WrapS N z v) (h2 : ∃ r, ov = .ok r ∧ OverS N z r) :
    FormsS oc N z wr ov (ov.map mkChecked) (fixOp oc wr (ov.map mkChecked)) := by
  obtain ⟨v, rfl, hv⟩ := h1
  obtain ⟨r, rfl, hr⟩ := h2
  refine ⟨⟨v, rfl, hv⟩, ⟨r, rfl, hr⟩, ⟨_, rfl, hr.check⟩, ?_⟩
  exact hr.check.op hv oc

theorem FormsS.mk' {oc : Bool} {N : Nat} {z : Int} {v : Limbs w} {r : Limbs w × Bool}
    (h1 : WrapS N z v) (h2 : OverS N z r) :
    FormsS oc N z (.ok v) (.ok r) (.ok (mkChecked r)) (fixOp oc (.ok v) (.ok (mkChecked r))) :=
  FormsS.mk ⟨v, rfl, h1⟩ ⟨r, rfl, h2⟩

theorem u128ToLimb_spec (n : BitVec 128) :
    (u128ToLimb n : Limbs 32).length = 4 ∧ toNat (u128ToLimb n : Limbs 32) = n.toNat :=
  ⟨rfl, split32_4 n⟩

theorem Mul.limbWrapU (x : Limbs w) (n : BitVec w) :
    WrapU x.length ((toNat x : Int) * n.toNat) (Mul.wrappingLimb x n) := by
  have h := Mul.wrapU x [n] (by simp)
  rwa [show toNat [n] = n.toNat by simp] at h

theorem Mul.wideWrapU (x : Limbs w) (n : BitVec (w + w)) :
    WrapU x.length ((toNat x : Int) * n.toNat) (Mul.wrappingWide x n) := by
  have h := Mul.wrapU x (twoLimbs n) (by simp [twoLimbs])
  rwa [twoLimbs_toNat] at h

theorem Mul.limbOverU (x : Limbs w) (n : BitVec w) :
    OverU x.length ((toNat x : Int) * n.toNat) (Mul.overflowingLimb x n) := by
  have h := Mul.overU x [n] (by simp)
  rwa [show toNat [n] = n.toNat by simp] at h

theorem Mul.wideOverU (x : Limbs w) (n : BitVec (w + w)) :
    OverU x.length ((toNat x : Int) * n.toNat) (Mul.overflowingWide x n) := by
  have h := Mul.overU x (twoLimbs n) (by simp [twoLimbs])
  rwa [twoLimbs_toNat] at h

theorem Mul.limbWrapS (_ : 0 < w) {x : Limbs w} (_ : x ≠ []) (n : BitVec w) :
    WrapS x.length (toInt x * n.toNat) (Mul.wrappingLimb x n) := by
  have h := Mul.wrapSU x [n] (by simp)
  rwa [show toNat [n] = n.toNat by simp] at h

theorem Mul.uWideWrapS (_ : 1 < w) {x : Limbs w} (_ : 3 ≤ x.length) (n : BitVec (w + w)) :
    WrapS x.length (toInt x * n.toNat) (Mul.wrappingWide x n) := by
  have h := Mul.wrapSU x (twoLimbs n) (by simp [twoLimbs])
  rwa [twoLimbs_toNat] at h

theorem Mul.iLimbWrapS (_ : 1 < w) {x : Limbs w} (hx : 1 ≤ x.length) (n : BitVec w) :
    WrapS x.length (toInt x * n.toInt) (Mul.wrappingILimb x n) := by
  have l1 := extI_length hx n
  have h1 := Mul.wrapS x (extI x.length n) (by omega) l1.symm
  rwa [extI_toInt hx] at h1

theorem Mul.iWideWrapS (_ : 1 < w) {x : Limbs w} (hx : 2 ≤ x.length) (n : BitVec (w + w)) :
    WrapS x.length (toInt x * n.toInt) (Mul.wrappingIWide x n) := by
  have l1 := extIW_length hx n
  have h1 := Mul.wrapS x (extIW x.length n) (by omega) l1.symm
  rwa [extIW_toInt hx] at h1

theorem Mul.uLimbOverS (hw : 1 < w) {x : Limbs w} (hx : 2 ≤ x.length) (n : BitVec w)
    (g : ¬ Mul.Gap w x.length (toInt x * n.toNat)) :
    OverS x.length (toInt x * n.toNat) (Mul.overflowingULimbS x n) := by
  have h := Mul.overflowingFullS_spec (by omega) (length_ne (n := 1) (by omega))
    (extU_length (by omega : 1 ≤ x.length) n).symm
  rw [extU_toInt (by omega) hx] at h
  exact OverS.of_gap h g

theorem Mul.iLimbOverS (hw : 1 < w) {x : Limbs w} (hx : 1 ≤ x.length) (n : BitVec w)
    (g : ¬ Mul.Gap w x.length (toInt x * n.toInt)) :
    OverS x.length (toInt x * n.toInt) (Mul.overflowingILimbS x n) := by
  have h := Mul.overflowingFullS_spec (by omega) (length_ne (n := 0) (by omega))
    (extI_length hx n).symm
  rw [extI_toInt hx] at h
  exact OverS.of_gap h g

theorem Mul.uWideOverS (hw : 1 < w) {x : Limbs w} (hx : 3 ≤ x.length) (n : BitVec (w + w))
    (g : ¬ Mul.Gap w x.length (toInt x * n.toNat)) :
    OverS x.length (toInt x * n.toNat) (Mul.overflowingUWideS x n) := by
  have h := Mul.overflowingFullS_spec (by omega) (length_ne (n := 1) (by omega))
    (extUW_length (by omega : 2 ≤ x.length) n).symm
  rw [extUW_toInt (by omega) hx] at h
  exact OverS.of_gap h g

theorem Mul.iWideOverS (hw : 1 < w) {x : Limbs w} (hx : 2 ≤ x.length) (n : BitVec (w + w))
    (g : ¬ Mul.Gap w x.length (toInt x * n.toInt)) :
    OverS x.length (toInt x * n.toInt) (Mul.overflowingIWideS x n) := by
  have h := Mul.overflowingFullS_spec (by omega) (length_ne (n := 1) (by omega))
    (extIW_length hx n).symm
  rw [extIW_toInt hx] at h
  exact OverS.of_gap h g

section
variable {x : Limbs w} (hw : w = 32 ∨ w = 64) (hx : 256 ≤ w * x.length)
include hw hx

theorem uAddFix (k : Fix) (n : BitVec k.n) (oc : Bool) :
    FormsU oc x.length ((toNat x : Int) + n.toNat) (U.wrappingAddFix k x n)
      (U.overflowingAddFix k x n) (U.checkedAddFix k x n) (U.addFix oc k x n) := by
  have hx0 : x ≠ [] := by rintro rfl; simp at hx
  have hpos : 0 < w := by omega
  apply FormsU.mk <;> rcases hw with rfl | rfl <;> cases k <;> (dsimp only [Fix.n] at n)
  · exact ⟨_, rfl, by have := Add.limbWrapU hpos hx0 (n.setWidth 32)
                      rwa [BitVec.toNat_setWidth_of_le (by decide)] at this⟩
  · have := Add.wideWrapU hpos (x := x) (by omega) (n.setWidth (32 + 32))
    rwa [BitVec.toNat_setWidth_of_le (by decide)] at this
  · have := Add.mnWrapU hpos (x := x) (y := u128ToLimb n) (by simp [u128ToLimb])
      (by simp [u128ToLimb]; omega)
    rwa [(u128ToLimb_spec n).2] at this
  · exact ⟨_, rfl, by have := Add.limbWrapU hpos hx0 (n.setWidth 64)
                      rwa [BitVec.toNat_setWidth_of_le (by decide)] at this⟩
  · exact ⟨_, rfl, by have := Add.limbWrapU hpos hx0 (n.setWidth 64)
                      rwa [BitVec.toNat_setWidth_of_le (by decide)] at this⟩
  · have := Add.wideWrapU hpos (x := x) (by omega) (n.setWidth (64 + 64))
    rwa [BitVec.toNat_setWidth_of_le (by decide)] at this
  · exact ⟨_, rfl, by have := Add.limbOverU hpos hx0 (n.setWidth 32)
                      rwa [BitVec.toNat_setWidth_of_le (by decide)] at this⟩
  · have := Add.wideOverU hpos (x := x) (by omega) (n.setWidth (32 + 32))
    rwa [BitVec.toNat_setWidth_of_le (by decide)] at this
  · have := Add.mnOverU hpos (x := x) (y := u128ToLimb n) (by simp [u128ToLimb])
      (by simp [u128ToLimb]; omega)
    rwa [(u128ToLimb_spec n).2] at this
  · exact ⟨_, rfl, by have := Add.limbOverU hpos hx0 (n.setWidth 64)
                      rwa [BitVec.toNat_setWidth_of_le (by decide)] at this⟩
  · exact ⟨_, rfl, by have := Add.limbOverU hpos hx0 (n.setWidth 64)
                      rwa [BitVec.toNat_setWidth_of_le (by decide)] at this⟩
  · have := Add.wideOverU hpos (x := x) (by omega) (n.setWidth (64 + 64))
    rwa [BitVec.toNat_setWidth_of_le (by decide)] at this

theorem uSubFix (k : Fix) (n : BitVec k.n) (oc : Bool) :
    FormsU oc x.length ((toNat x : Int) - n.toNat) (U.wrappingSubFix k x n)
      (U.overflowingSubFix k x n) (U.checkedSubFix k x n) (U.subFix oc k x n) := by
  have hx0 : x ≠ [] := by rintro rfl; simp at hx
  have hpos : 0 < w := by omega
  apply FormsU.mk <;> rcases hw with rfl | rfl <;> cases k <;> (dsimp only [Fix.n] at n)
  · exact ⟨_, rfl, by have := Sub.limbWrapU hpos hx0 (n.setWidth 32)
                      rwa [BitVec.toNat_setWidth_of_le (by decide)] at this⟩
  · have := Sub.wideWrapU hpos (x := x) (by omega) (n.setWidth (32 + 32))
    rwa [BitVec.toNat_setWidth_of_le (by decide)] at this
  · have := Sub.mnWrapU hpos (x := x) (y := u128ToLimb n) (by simp [u128ToLimb])
      (by simp [u128ToLimb]; omega)
    rwa [(u128ToLimb_spec n).2] at this
  · exact ⟨_, rfl, by have := Sub.limbWrapU hpos hx0 (n.setWidth 64)
                      rwa [BitVec.toNat_setWidth_of_le (by decide)] at this⟩
  · exact ⟨_, rfl, by have := Sub.limbWrapU hpos hx0 (n.setWidth 64)
                      rwa [BitVec.toNat_setWidth_of_le (by decide)] at this⟩
  · have := Sub.wideWrapU hpos (x := x) (by omega) (n.setWidth (64 + 64))
    rwa [BitVec.toNat_setWidth_of_le (by decide)] at this
  · exact ⟨_, rfl, by have := Sub.limbOverU hpos hx0 (n.setWidth 32)
                      rwa [BitVec.toNat_setWidth_of_le (by decide)] at this⟩
  · have := Sub.wideOverU hpos (x := x) (by omega) (n.setWidth (32 + 32))
    rwa [BitVec.toNat_setWidth_of_le (by decide)] at this
  · have := Sub.mnOverU hpos (x := x) (y := u128ToLimb n) (by simp [u128ToLimb])
      (by simp [u128ToLimb]; omega)
    rwa [(u128ToLimb_spec n).2] at this
  · exact ⟨_, rfl, by have := Sub.limbOverU hpos hx0 (n.setWidth 64)
                      rwa [BitVec.toNat_setWidth_of_le (by decide)] at this⟩
  · exact ⟨_, rfl, by have := Sub.limbOverU hpos hx0 (n.setWidth 64)
                      rwa [BitVec.toNat_setWidth_of_le (by decide)] at this⟩
  · have := Sub.wideOverU hpos (x := x) (by omega) (n.setWidth (64 + 64))
    rwa [BitVec.toNat_setWidth_of_le (by decide)] at this

omit hx in
theorem uMulFix (k : Fix) (n : BitVec k.n) (oc : Bool) :
    FormsU oc x.length ((toNat x : Int) * n.toNat) (U.wrappingMulFix k x n)
      (U.overflowingMulFix k x n) (U.checkedMulFix k x n) (U.mulFix oc k x n) := by
  apply FormsU.mk <;> rcases hw with rfl | rfl <;> cases k <;> (dsimp only [Fix.n] at n)
  · exact ⟨_, rfl, by have := Mul.limbWrapU x (n.setWidth 32)
                      rwa [BitVec.toNat_setWidth_of_le (by decide)] at this⟩
  · exact ⟨_, rfl, by have := Mul.wideWrapU x (n.setWidth (32 + 32))
                      rwa [BitVec.toNat_setWidth_of_le (by decide)] at this⟩
  · exact ⟨_, rfl, by have := Mul.wrapU x (u128ToLimb n) (by simp [u128ToLimb])
                      rwa [(u128ToLimb_spec n).2] at this⟩
  · exact ⟨_, rfl, by have := Mul.limbWrapU x (n.setWidth 64)
                      rwa [BitVec.toNat_setWidth_of_le (by decide)] at this⟩
  · exact ⟨_, rfl, by have := Mul.limbWrapU x (n.setWidth 64)
                      rwa [BitVec.toNat_setWidth_of_le (by decide)] at this⟩
  · exact ⟨_, rfl, by have := Mul.wideWrapU x (n.setWidth (64 + 64))
                      rwa [BitVec.toNat_setWidth_of_le (by decide)] at this⟩
  · exact ⟨_, rfl, by have := Mul.limbOverU x (n.setWidth 32)
                      rwa [BitVec.toNat_setWidth_of_le (by decide)] at this⟩
  · exact ⟨_, rfl, by have := Mul.wideOverU x (n.setWidth (32 + 32))
                      rwa [BitVec.toNat_setWidth_of_le (by decide)] at this⟩
  · exact ⟨_, rfl, by have := Mul.overU x (u128ToLimb n) (by simp [u128ToLimb])
                      rwa [(u128ToLimb_spec n).2] at this⟩
  · exact ⟨_, rfl, by have := Mul.limbOverU x (n.setWidth 64)
                      rwa [BitVec.toNat_setWidth_of_le (by decide)] at this⟩
  · exact ⟨_, rfl, by have := Mul.limbOverU x (n.setWidth 64)
                      rwa [BitVec.toNat_setWidth_of_le (by decide)] at this⟩
  · exact ⟨_, rfl, by have := Mul.wideOverU x (n.setWidth (64 + 64))
                      rwa [BitVec.toNat_setWidth_of_le (by decide)] at this⟩

theorem iAddFixU (k : Fix) (hk : ¬ (w = 32 ∧ k = .b128)) (n : BitVec k.n) (oc : Bool) :
    FormsS oc x.length (toInt x + n.toNat) (I.wrappingAddFixU k x n)
      (I.overflowingAddFixU k x n) (I.checkedAddFixU k x n) (I.addFixU oc k x n) := by
  have hx0 : x ≠ [] := by rintro rfl; simp at hx
  have hpos : 1 < w := by omega
  rcases hw with rfl | rfl <;> cases k <;> (dsimp only [Fix.n] at n)
  · have h1 := Add.limbWrapS (by omega) hx0 (n.setWidth 32)
    have h2 := Add.uLimbOverS hpos (x := x) (by omega) (n.setWidth 32)
    rw [BitVec.toNat_setWidth_of_le (by decide)] at h1 h2
    exact FormsS.mk' h1 h2
  · have h1 := Add.uWideWrapS hpos (x := x) (by omega) (n.setWidth (32 + 32))
    have h2 := Add.uWideOverS hpos (x := x) (by omega) (n.setWidth (32 + 32))
    rw [BitVec.toNat_setWidth_of_le (by decide)] at h1 h2
    exact FormsS.mk' h1 h2
  · exact absurd ⟨rfl, rfl⟩ hk
  · have h1 := Add.limbWrapS (by omega) hx0 (n.setWidth 64)
    have h2 := Add.uLimbOverS hpos (x := x) (by omega) (n.setWidth 64)
    rw [BitVec.toNat_setWidth_of_le (by decide)] at h1 h2
    exact FormsS.mk' h1 h2
  · have h1 := Add.limbWrapS (by omega) hx0 (n.setWidth 64)
    have h2 := Add.uLimbOverS hpos (x := x) (by omega) (n.setWidth 64)
    rw [BitVec.toNat_setWidth_of_le (by decide)] at h1 h2
    exact FormsS.mk' h1 h2
  · have h1 := Add.uWideWrapS hpos (x := x) (by omega) (n.setWidth (64 + 64))
    have h2 := Add.uWideOverS hpos (x := x) (by omega) (n.setWidth (64 + 64))
    rw [BitVec.toNat_setWidth_of_le (by decide)] at h1 h2
    exact FormsS.mk' h1 h2

theorem iAddFixI (k : Fix) (hk : ¬ (w = 32 ∧ k = .b128)) (n : BitVec k.n) (oc : Bool) :
    FormsS oc x.length (toInt x + n.toInt) (I.wrappingAddFixI k x n)
      (I.overflowingAddFixI k x n) (I.checkedAddFixI k x n) (I.addFixI oc k x n) := by
  have hx0 : x ≠ [] := by rintro rfl; simp at hx
  have hpos : 1 < w := by omega
  rcases hw with rfl | rfl <;> cases k <;> (dsimp only [Fix.n] at n)
  · have h1 := Add.iLimbWrapS hpos (x := x) (by omega) (n.signExtend 32)
    have h2 := Add.iLimbOverS hpos (x := x) (by omega) (n.signExtend 32)
    rw [BitVec.toInt_signExtend_of_le (by decide)] at h1 h2
    exact FormsS.mk' h1 h2
  · have h1 := Add.iWideWrapS hpos (x := x) (by omega) (n.signExtend (32 + 32))
    have h2 := Add.iWideOverS hpos (x := x) (by omega) (n.signExtend (32 + 32))
    rw [BitVec.toInt_signExtend_of_le (by decide)] at h1 h2
    exact FormsS.mk' h1 h2
  · exact absurd ⟨rfl, rfl⟩ hk
  · have h1 := Add.iLimbWrapS hpos (x := x) (by omega) (n.signExtend 64)
    have h2 := Add.iLimbOverS hpos (x := x) (by omega) (n.signExtend 64)
    rw [BitVec.toInt_signExtend_of_le (by decide)] at h1 h2
    exact FormsS.mk' h1 h2
  · have h1 := Add.iLimbWrapS hpos (x := x) (by omega) (n.signExtend 64)
    have h2 := Add.iLimbOverS hpos (x := x) (by omega) (n.signExtend 64)
    rw [BitVec.toInt_signExtend_of_le (by decide)] at h1 h2
    exact FormsS.mk' h1 h2
  · have h1 := Add.iWideWrapS hpos (x := x) (by omega) (n.signExtend (64 + 64))
    have h2 := Add.iWideOverS hpos (x := x) (by omega) (n.signExtend (64 + 64))
    rw [BitVec.toInt_signExtend_of_le (by decide)] at h1 h2
    exact FormsS.mk' h1 h2

theorem iSubFixU (k : Fix) (hk : ¬ (w = 32 ∧ k = .b128)) (n : BitVec k.n) (oc : Bool) :
    FormsS oc x.length (toInt x - n.toNat) (I.wrappingSubFixU k x n)
      (I.overflowingSubFixU k x n) (I.checkedSubFixU k x n) (I.subFixU oc k x n) := by
  have hx0 : x ≠ [] := by rintro rfl; simp at hx
  have hpos : 1 < w := by omega
  rcases hw with rfl | rfl <;> cases k <;> (dsimp only [Fix.n] at n)
  · have h1 := Sub.limbWrapS (by omega) hx0 (n.setWidth 32)
    have h2 := Sub.uLimbOverS hpos (x := x) (by omega) (n.setWidth 32)
    rw [BitVec.toNat_setWidth_of_le (by decide)] at h1 h2
    exact FormsS.mk' h1 h2
  · have h1 := Sub.uWideWrapS hpos (x := x) (by omega) (n.setWidth (32 + 32))
    have h2 := Sub.uWideOverS hpos (x := x) (by omega) (n.setWidth (32 + 32))
    rw [BitVec.toNat_setWidth_of_le (by decide)] at h1 h2
    exact FormsS.mk' h1 h2
  · exact absurd ⟨rfl, rfl⟩ hk
  · have h1 := Sub.limbWrapS (by omega) hx0 (n.setWidth 64)
    have h2 := Sub.uLimbOverS hpos (x := x) (by omega) (n.setWidth 64)
    rw [BitVec.toNat_setWidth_of_le (by decide)] at h1 h2
    exact FormsS.mk' h1 h2
  · have h1 := Sub.limbWrapS (by omega) hx0 (n.setWidth 64)
    have h2 := Sub.uLimbOverS hpos (x := x) (by omega) (n.setWidth 64)
    rw [BitVec.toNat_setWidth_of_le (by decide)] at h1 h2
    exact FormsS.mk' h1 h2
  · have h1 := Sub.uWideWrapS hpos (x := x) (by omega) (n.setWidth (64 + 64))
    have h2 := Sub.uWideOverS hpos (x := x) (by omega) (n.setWidth (64 + 64))
    rw [BitVec.toNat_setWidth_of_le (by decide)] at h1 h2
    exact FormsS.mk' h1 h2

theorem iSubFixI (k : Fix) (hk : ¬ (w = 32 ∧ k = .b128)) (n : BitVec k.n) (oc : Bool) :
    FormsS oc x.length (toInt x - n.toInt) (I.wrappingSubFixI k x n)
      (I.overflowingSubFixI k x n) (I.checkedSubFixI k x n) (I.subFixI oc k x n) := by
  have hx0 : x ≠ [] := by rintro rfl; simp at hx
  have hpos : 1 < w := by omega
  rcases hw with rfl | rfl <;> cases k <;> (dsimp only [Fix.n] at n)
  · have h1 := Sub.iLimbWrapS hpos (x := x) (by omega) (n.signExtend 32)
    have h2 := Sub.iLimbOverS hpos (x := x) (by omega) (n.signExtend 32)
    rw [BitVec.toInt_signExtend_of_le (by decide)] at h1 h2
    exact FormsS.mk' h1 h2
  · have h1 := Sub.iWideWrapS hpos (x := x) (by omega) (n.signExtend (32 + 32))
    have h2 := Sub.iWideOverS hpos (x := x) (by omega) (n.signExtend (32 + 32))
    rw [BitVec.toInt_signExtend_of_le (by decide)] at h1 h2
    exact FormsS.mk' h1 h2
  · exact absurd ⟨rfl, rfl⟩ hk
  · have h1 := Sub.iLimbWrapS hpos (x := x) (by omega) (n.signExtend 64)
    have h2 := Sub.iLimbOverS hpos (x := x) (by omega) (n.signExtend 64)
    rw [BitVec.toInt_signExtend_of_le (by decide)] at h1 h2
    exact FormsS.mk' h1 h2
  · have h1 := Sub.iLimbWrapS hpos (x := x) (by omega) (n.signExtend 64)
    have h2 := Sub.iLimbOverS hpos (x := x) (by omega) (n.signExtend 64)
    rw [BitVec.toInt_signExtend_of_le (by decide)] at h1 h2
    exact FormsS.mk' h1 h2
  · have h1 := Sub.iWideWrapS hpos (x := x) (by omega) (n.signExtend (64 + 64))
    have h2 := Sub.iWideOverS hpos (x := x) (by omega) (n.signExtend (64 + 64))
    rw [BitVec.toInt_signExtend_of_le (by decide)] at h1 h2
    exact FormsS.mk' h1 h2

theorem iMulFixU (k : Fix) (hk : ¬ (w = 32 ∧ k = .b128)) (n : BitVec k.n) (oc : Bool) (hg : ¬ Mul.Gap w x.length (toInt x * n.toNat)) :
    FormsS oc x.length (toInt x * n.toNat) (I.wrappingMulFixU k x n)
      (I.overflowingMulFixU k x n) (I.checkedMulFixU k x n) (I.mulFixU oc k x n) := by
  have hx0 : x ≠ [] := by rintro rfl; simp at hx
  have hpos : 1 < w := by omega
  rcases hw with rfl | rfl <;> cases k <;> (dsimp only [Fix.n] at n)
  · have h1 := Mul.limbWrapS (by omega) hx0 (n.setWidth 32)
    have h2 := Mul.uLimbOverS hpos (x := x) (by omega) (n.setWidth 32)
    rw [BitVec.toNat_setWidth_of_le (by decide)] at h1 h2
    exact FormsS.mk' h1 (h2 hg)
  · have h1 := Mul.uWideWrapS hpos (x := x) (by omega) (n.setWidth (32 + 32))
    have h2 := Mul.uWideOverS hpos (x := x) (by omega) (n.setWidth (32 + 32))
    rw [BitVec.toNat_setWidth_of_le (by decide)] at h1 h2
    exact FormsS.mk' h1 (h2 hg)
  · exact absurd ⟨rfl, rfl⟩ hk
  · have h1 := Mul.limbWrapS (by omega) hx0 (n.setWidth 64)
    have h2 := Mul.uLimbOverS hpos (x := x) (by omega) (n.setWidth 64)
    rw [BitVec.toNat_setWidth_of_le (by decide)] at h1 h2
    exact FormsS.mk' h1 (h2 hg)
  · have h1 := Mul.limbWrapS (by omega) hx0 (n.setWidth 64)
    have h2 := Mul.uLimbOverS hpos (x := x) (by omega) (n.setWidth 64)
    rw [BitVec.toNat_setWidth_of_le (by decide)] at h1 h2
    exact FormsS.mk' h1 (h2 hg)
  · have h1 := Mul.uWideWrapS hpos (x := x) (by omega) (n.setWidth (64 + 64))
    have h2 := Mul.uWideOverS hpos (x := x) (by omega) (n.setWidth (64 + 64))
    rw [BitVec.toNat_setWidth_of_le (by decide)] at h1 h2
    exact FormsS.mk' h1 (h2 hg)

theorem iMulFixI (k : Fix) (hk : ¬ (w = 32 ∧ k = .b128)) (n : BitVec k.n) (oc : Bool) (hg : ¬ Mul.Gap w x.length (toInt x * n.toInt)) :
    FormsS oc x.length (toInt x * n.toInt) (I.wrappingMulFixI k x n)
      (I.overflowingMulFixI k x n) (I.checkedMulFixI k x n) (I.mulFixI oc k x n) := by
  have hx0 : x ≠ [] := by rintro rfl; simp at hx
  have hpos : 1 < w := by omega
  rcases hw with rfl | rfl <;> cases k <;> (dsimp only [Fix.n] at n)
  · have h1 := Mul.iLimbWrapS hpos (x := x) (by omega) (n.signExtend 32)
    have h2 := Mul.iLimbOverS hpos (x := x) (by omega) (n.signExtend 32)
    rw [BitVec.toInt_signExtend_of_le (by decide)] at h1 h2
    exact FormsS.mk' h1 (h2 hg)
  · have h1 := Mul.iWideWrapS hpos (x := x) (by omega) (n.signExtend (32 + 32))
    have h2 := Mul.iWideOverS hpos (x := x) (by omega) (n.signExtend (32 + 32))
    rw [BitVec.toInt_signExtend_of_le (by decide)] at h1 h2
    exact FormsS.mk' h1 (h2 hg)
  · exact absurd ⟨rfl, rfl⟩ hk
  · have h1 := Mul.iLimbWrapS hpos (x := x) (by omega) (n.signExtend 64)
    have h2 := Mul.iLimbOverS hpos (x := x) (by omega) (n.signExtend 64)
    rw [BitVec.toInt_signExtend_of_le (by decide)] at h1 h2
    exact FormsS.mk' h1 (h2 hg)
  · have h1 := Mul.iLimbWrapS hpos (x := x) (by omega) (n.signExtend 64)
    have h2 := Mul.iLimbOverS hpos (x := x) (by omega) (n.signExtend 64)
    rw [BitVec.toInt_signExtend_of_le (by decide)] at h1 h2
    exact FormsS.mk' h1 (h2 hg)
  · have h1 := Mul.iWideWrapS hpos (x := x) (by omega) (n.signExtend (64 + 64))
    have h2 := Mul.iWideOverS hpos (x := x) (by omega) (n.signExtend (64 + 64))
    rw [BitVec.toInt_signExtend_of_le (by decide)] at h1 h2
    exact FormsS.mk' h1 (h2 hg)

end

theorem swap_low (n : BitVec 128) :
    toNat [n.setWidth 32, (n >>> 96).setWidth 32, (n >>> 64).setWidth 32, (n >>> 32).setWidth 32] =
      swap128 n.toNat := by
  simp only [toNat_cons, toNat_nil, BitVec.toNat_setWidth, BitVec.toNat_ushiftRight,
    Nat.shiftRight_eq_div_pow, swap128]
  omega

theorem swap128_lt (v : Nat) : swap128 v < 2 ^ 128 := by unfold swap128; omega

/-- The exchange changes nothing exactly if the two digits agree. -/
theorem swap128_eq_iff {v : Nat} (h : v < 2 ^ 128) :
    swap128 v = v ↔ v / 2 ^ 96 % 2 ^ 32 = v / 2 ^ 32 % 2 ^ 32 := by
  have e2 : v / 2 ^ 64 = v / 2 ^ 32 / 2 ^ 32 := by omega
  have e3 : v / 2 ^ 96 = v / 2 ^ 32 / 2 ^ 32 / 2 ^ 32 := by omega
  unfold swap128
  rw [e2, e3]
  omega

theorem u128ToLimbN_spec {N : Nat} (hN : 4 < N) (n : BitVec 128) :
    ∃ y : Limbs 32, u128ToLimbN N n = .ok y ∧ y.length = N ∧ toInt y = swap128 n.toNat := by
  refine ⟨_, if_pos hN, by simp; omega, ?_⟩
  have hv := swap_low n
  have hl := swap128_lt n.toNat
  have hb : (2 : Nat) ^ 128 * 2 ≤ 2 ^ (32 * N) := by
    rw [← pow_succ]; exact Nat.pow_le_pow_right (by omega) (by omega)
  generalize hy : ([n.setWidth 32, (n >>> 96).setWidth 32, (n >>> 64).setWidth 32,
    (n >>> 32).setWidth 32] : Limbs 32) = low at hv
  have e : (n.setWidth 32 :: (n >>> 96).setWidth 32 :: (n >>> 64).setWidth 32 ::
      (n >>> 32).setWidth 32 :: List.replicate (N - 4) 0 : Limbs 32) =
      low ++ List.replicate (N - 4) 0 := by rw [← hy]; rfl
  have hlow : low.length = 4 := by rw [← hy]; rfl
  have hle : (low ++ List.replicate (N - 4) (0 : BitVec 32)).length = N := by simp [hlow]; omega
  rw [e, toInt, bits, toNat_append, toNat_replicate_zero, Nat.mul_zero, Nat.add_zero, hv, hle,
    if_pos (by omega)]

theorem i128ToLimbN_spec {N : Nat} (hN : 4 < N) (n : BitVec 128) :
    ∃ y : Limbs 32, i128ToLimbN N n = .ok y ∧ y.length = N ∧
      toInt y = swap128 n.toNat - if n.toInt < 0 then 2 ^ 128 else 0 := by
  refine ⟨_, if_pos hN, by simp; omega, ?_⟩
  have hv := swap_low n
  have hl := swap128_lt n.toNat
  obtain ⟨m, rfl⟩ : ∃ m, N = m + 5 := ⟨N - 5, by omega⟩
  have hs : n.slt 0 = decide (n.toInt < 0) := by
    rw [Bool.eq_iff_iff, BitVec.slt_iff_toInt_lt]; simp
  generalize hy : ([n.setWidth 32, (n >>> 96).setWidth 32, (n >>> 64).setWidth 32,
    (n >>> 32).setWidth 32] : Limbs 32) = low at hv
  have e : (n.setWidth 32 :: (n >>> 96).setWidth 32 :: (n >>> 64).setWidth 32 ::
      (n >>> 32).setWidth 32 :: List.replicate (m + 5 - 4) (signLimb 32 (n.slt 0)) : Limbs 32) =
      low ++ List.replicate (m + 1) (signLimb 32 (n.slt 0)) := by rw [← hy]; rfl
  have hlow : low.length = 4 := by rw [← hy]; rfl
  have hf := toNat_signFill (w := 32) (m + 1) (n.slt 0)
  rw [e, toInt, toNat_append, hv, bits, bits, hlow]
  rw [show (low ++ List.replicate (m + 1) (signLimb 32 (n.slt 0))).length = 4 + (m + 1) by
    simp [hlow], Nat.mul_add 32, pow_add, pow_add, show 32 * 4 = 128 from rfl]
  generalize toNat (List.replicate (m + 1) (signLimb 32 (n.slt 0))) = F at hf ⊢
  generalize swap128 n.toNat = S at hl ⊢
  have hM : (2 : Nat) ≤ 2 ^ (32 * (m + 1)) :=
    (by norm_num : 2 ≤ 2 ^ 1).trans (Nat.pow_le_pow_right (by omega) (by omega))
  have hMc : ((2 ^ (32 * (m + 1)) : Nat) : Int) = 2 ^ (32 * (m + 1)) := by push_cast; rfl
  rw [← hMc] at hf ⊢
  generalize 2 ^ (32 * (m + 1)) = M at hM hf ⊢
  rw [hs] at hf
  by_cases hn : n.toInt < 0
  · simp only [hn, decide_true, if_true] at hf ⊢
    obtain rfl : F = M - 1 := by omega
    rw [if_neg (by rw [Nat.mul_sub]; omega)]
    push_cast [show 1 ≤ M by omega]
    ring
  · simp only [hn, decide_false] at hf ⊢
    obtain rfl : F = 0 := by simpa using hf
    rw [if_pos (by omega)]
    simp

theorem wrapping_mn_same {x y : Limbs w} (h : x.length = y.length) :
    Add.wrappingMn x y = .panic ∧ Add.overflowingMn x y = .panic ∧
    Sub.wrappingMn x y = .panic ∧ Sub.overflowingMn x y = .panic :=
  ⟨if_neg (by omega), if_neg (by omega), if_neg (by omega), if_neg (by omega)⟩

end I256
