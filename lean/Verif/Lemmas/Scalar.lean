import Verif.Lemmas.AddSubApi

/-! Contracts of the scalar addition and subtraction kernels. -/

namespace I256

variable {w : Nat}

/-! ### Addition -/

theorem Add.limbOverU (hw : 0 < w) {x : Limbs w} (hx : x ≠ []) (n : BitVec w) :
    OverU x.length ((toNat x : Int) + n.toNat) (Add.overflowingLimb x n) := by
  have hN : 0 < x.length := List.length_pos_iff.2 hx
  have := Add.overU hw (x := x) (y := extU x.length n) (extU_length hN n).symm
  rwa [← Add.overflowingLimb_eq x n hx, extU_toNat] at this

theorem Add.limbWrapU (hw : 0 < w) {x : Limbs w} (hx : x ≠ []) (n : BitVec w) :
    WrapU x.length ((toNat x : Int) + n.toNat) (Add.wrappingLimb x n) := by
  rw [Add.wrappingLimb_eq]
  exact (Add.limbOverU hw hx n).1

theorem Add.limbWrapS (hw : 0 < w) {x : Limbs w} (hx : x ≠ []) (n : BitVec w) :
    WrapS x.length (toInt x + n.toNat) (Add.wrappingLimb x n) := by
  refine ((Add.limbWrapU hw hx n).congr ?_).wrapS
  exact ((toInt_modEq x).add (Int.ModEq.refl _)).symm

theorem Add.mnOverU (hw : 0 < w) {x y : Limbs w} (hy : 2 ≤ y.length) (hl : y.length < x.length) :
    ∃ r, Add.overflowingMn x y = .ok r ∧ OverU x.length ((toNat x : Int) + toNat y) r := by
  refine ⟨_, if_pos ⟨hy, hl⟩, ?_⟩
  rw [Add.overflowingMnLoop_eq _ _ _ (by omega)]
  have := Add.overU hw (x := x) (y := y ++ List.replicate (x.length - y.length) 0)
    (by simp; omega)
  rwa [toNat_append, toNat_replicate_zero, Nat.mul_zero, Nat.add_zero] at this

theorem Add.mnWrapU (hw : 0 < w) {x y : Limbs w} (hy : 2 ≤ y.length) (hl : y.length < x.length) :
    ∃ r, Add.wrappingMn x y = .ok r ∧ WrapU x.length ((toNat x : Int) + toNat y) r := by
  obtain ⟨r, h1, h2⟩ := Add.mnOverU hw hy hl
  refine ⟨r.1, ?_, h2.1⟩
  rw [Add.overflowingMn, if_pos ⟨hy, hl⟩] at h1
  rw [Add.wrappingMn, if_pos ⟨hy, hl⟩, Add.wrappingMnLoop_eq]
  simp only [Res.ok.injEq] at h1 ⊢
  rw [h1]

theorem Add.wideOverU (hw : 0 < w) {x : Limbs w} (hx : 3 ≤ x.length) (n : BitVec (w + w)) :
    ∃ r, Add.overflowingWide x n = .ok r ∧ OverU x.length ((toNat x : Int) + n.toNat) r := by
  have := Add.mnOverU hw (x := x) (y := twoLimbs n) (by simp [twoLimbs])
    (by simp [twoLimbs]; omega)
  rwa [twoLimbs_toNat] at this

theorem Add.wideWrapU (hw : 0 < w) {x : Limbs w} (hx : 3 ≤ x.length) (n : BitVec (w + w)) :
    ∃ r, Add.wrappingWide x n = .ok r ∧ WrapU x.length ((toNat x : Int) + n.toNat) r := by
  have := Add.mnWrapU hw (x := x) (y := twoLimbs n) (by simp [twoLimbs])
    (by simp [twoLimbs]; omega)
  rwa [twoLimbs_toNat] at this

theorem Add.uLimbOverS (hw : 1 < w) {x : Limbs w} (hx : 2 ≤ x.length) (n : BitVec w) :
    OverS x.length (toInt x + n.toNat) (Add.sOverflowingULimb x n) := by
  have h0 : x ≠ [] := by rintro rfl; simp at hx
  have := Add.overS hw h0 (y := extU x.length n) (extU_length (by omega) n).symm
  rwa [← Add.sOverflowingULimb_eq hw x n hx, extU_toInt (by omega) hx] at this

theorem Add.iLimbOverS (hw : 1 < w) {x : Limbs w} (hx : 1 ≤ x.length) (n : BitVec w) :
    OverS x.length (toInt x + n.toInt) (Add.sOverflowingILimb x n) := by
  have h0 : x ≠ [] := by rintro rfl; simp at hx
  have := Add.overS hw h0 (y := extI x.length n) (extI_length (by omega) n).symm
  rwa [extI_toInt hx] at this

theorem Add.iLimbWrapS (hw : 1 < w) {x : Limbs w} (hx : 1 ≤ x.length) (n : BitVec w) :
    WrapS x.length (toInt x + n.toInt) (Add.sWrappingILimb x n) := by
  have := Add.wrapS (by omega) (x := x) (y := extI x.length n) (extI_length (by omega) n).symm
  rwa [extI_toInt hx] at this

theorem Add.uWideOverS (hw : 1 < w) {x : Limbs w} (hx : 3 ≤ x.length) (n : BitVec (w + w)) :
    OverS x.length (toInt x + n.toNat) (Add.sOverflowingUWide x n) := by
  have h0 : x ≠ [] := by rintro rfl; simp at hx
  have := Add.overS hw h0 (y := extUW x.length n) (extUW_length (by omega) n).symm
  rwa [extUW_toInt (by omega) hx] at this

theorem Add.uWideWrapS (hw : 1 < w) {x : Limbs w} (hx : 3 ≤ x.length) (n : BitVec (w + w)) :
    WrapS x.length (toInt x + n.toNat) (Add.sWrappingUWide x n) := by
  have := Add.wrapS (by omega) (x := x) (y := extUW x.length n) (extUW_length (by omega) n).symm
  rwa [extUW_toInt (by omega) hx] at this

theorem Add.iWideOverS (hw : 1 < w) {x : Limbs w} (hx : 2 ≤ x.length) (n : BitVec (w + w)) :
    OverS x.length (toInt x + n.toInt) (Add.sOverflowingIWide x n) := by
  have h0 : x ≠ [] := by rintro rfl; simp at hx
  have := Add.overS hw h0 (y := extIW x.length n) (extIW_length (by omega) n).symm
  rwa [extIW_toInt hx] at this

theorem Add.iWideWrapS (hw : 1 < w) {x : Limbs w} (hx : 2 ≤ x.length) (n : BitVec (w + w)) :
    WrapS x.length (toInt x + n.toInt) (Add.sWrappingIWide x n) := by
  have := Add.wrapS (by omega) (x := x) (y := extIW x.length n) (extIW_length (by omega) n).symm
  rwa [extIW_toInt hx] at this

/-! ### Subtraction -/

theorem Sub.limbOverU (hw : 0 < w) {x : Limbs w} (hx : x ≠ []) (n : BitVec w) :
    OverU x.length ((toNat x : Int) - n.toNat) (Sub.overflowingLimb x n) := by
  have hN : 0 < x.length := List.length_pos_iff.2 hx
  have := Sub.overU hw (x := x) (y := extU x.length n) (extU_length hN n).symm
  rwa [← Sub.overflowingLimb_eq x n hx, extU_toNat] at this

theorem Sub.limbWrapU (hw : 0 < w) {x : Limbs w} (hx : x ≠ []) (n : BitVec w) :
    WrapU x.length ((toNat x : Int) - n.toNat) (Sub.wrappingLimb x n) := by
  rw [Sub.wrappingLimb_eq]
  exact (Sub.limbOverU hw hx n).1

theorem Sub.limbWrapS (hw : 0 < w) {x : Limbs w} (hx : x ≠ []) (n : BitVec w) :
    WrapS x.length (toInt x - n.toNat) (Sub.wrappingLimb x n) := by
  refine ((Sub.limbWrapU hw hx n).congr ?_).wrapS
  exact ((toInt_modEq x).sub (Int.ModEq.refl _)).symm

theorem Sub.mnOverU (hw : 0 < w) {x y : Limbs w} (hy : 2 ≤ y.length) (hl : y.length < x.length) :
    ∃ r, Sub.overflowingMn x y = .ok r ∧ OverU x.length ((toNat x : Int) - toNat y) r := by
  refine ⟨_, if_pos ⟨hy, hl⟩, ?_⟩
  rw [Sub.overflowingMnLoop_eq _ _ _ (by omega)]
  have := Sub.overU hw (x := x) (y := y ++ List.replicate (x.length - y.length) 0)
    (by simp; omega)
  rwa [toNat_append, toNat_replicate_zero, Nat.mul_zero, Nat.add_zero] at this

theorem Sub.mnWrapU (hw : 0 < w) {x y : Limbs w} (hy : 2 ≤ y.length) (hl : y.length < x.length) :
    ∃ r, Sub.wrappingMn x y = .ok r ∧ WrapU x.length ((toNat x : Int) - toNat y) r := by
  obtain ⟨r, h1, h2⟩ := Sub.mnOverU hw hy hl
  refine ⟨r.1, ?_, h2.1⟩
  rw [Sub.overflowingMn, if_pos ⟨hy, hl⟩] at h1
  rw [Sub.wrappingMn, if_pos ⟨hy, hl⟩, Sub.wrappingMnLoop_eq]
  simp only [Res.ok.injEq] at h1 ⊢
  rw [h1]

theorem Sub.wideOverU (hw : 0 < w) {x : Limbs w} (hx : 3 ≤ x.length) (n : BitVec (w + w)) :
    ∃ r, Sub.overflowingWide x n = .ok r ∧ OverU x.length ((toNat x : Int) - n.toNat) r := by
  have := Sub.mnOverU hw (x := x) (y := twoLimbs n) (by simp [twoLimbs])
    (by simp [twoLimbs]; omega)
  rwa [twoLimbs_toNat] at this

theorem Sub.wideWrapU (hw : 0 < w) {x : Limbs w} (hx : 3 ≤ x.length) (n : BitVec (w + w)) :
    ∃ r, Sub.wrappingWide x n = .ok r ∧ WrapU x.length ((toNat x : Int) - n.toNat) r := by
  have := Sub.mnWrapU hw (x := x) (y := twoLimbs n) (by simp [twoLimbs])
    (by simp [twoLimbs]; omega)
  rwa [twoLimbs_toNat] at this

theorem Sub.uLimbOverS (hw : 1 < w) {x : Limbs w} (hx : 2 ≤ x.length) (n : BitVec w) :
    OverS x.length (toInt x - n.toNat) (Sub.sOverflowingULimb x n) := by
  have h0 : x ≠ [] := by rintro rfl; simp at hx
  have := Sub.overS hw h0 (y := extU x.length n) (extU_length (by omega) n).symm
  rwa [← Sub.sOverflowingULimb_eq hw x n hx, extU_toInt (by omega) hx] at this

theorem Sub.iLimbOverS (hw : 1 < w) {x : Limbs w} (hx : 1 ≤ x.length) (n : BitVec w) :
    OverS x.length (toInt x - n.toInt) (Sub.sOverflowingILimb x n) := by
  have h0 : x ≠ [] := by rintro rfl; simp at hx
  have := Sub.overS hw h0 (y := extI x.length n) (extI_length (by omega) n).symm
  rwa [extI_toInt hx] at this

theorem Sub.iLimbWrapS (hw : 1 < w) {x : Limbs w} (hx : 1 ≤ x.length) (n : BitVec w) :
    WrapS x.length (toInt x - n.toInt) (Sub.sWrappingILimb x n) := by
  have := Sub.wrapS (by omega) (x := x) (y := extI x.length n) (extI_length (by omega) n).symm
  rwa [extI_toInt hx] at this

theorem Sub.uWideOverS (hw : 1 < w) {x : Limbs w} (hx : 3 ≤ x.length) (n : BitVec (w + w)) :
    OverS x.length (toInt x - n.toNat) (Sub.sOverflowingUWide x n) := by
  have h0 : x ≠ [] := by rintro rfl; simp at hx
  have := Sub.overS hw h0 (y := extUW x.length n) (extUW_length (by omega) n).symm
  rwa [extUW_toInt (by omega) hx] at this

theorem Sub.uWideWrapS (hw : 1 < w) {x : Limbs w} (hx : 3 ≤ x.length) (n : BitVec (w + w)) :
    WrapS x.length (toInt x - n.toNat) (Sub.sWrappingUWide x n) := by
  have := Sub.wrapS (by omega) (x := x) (y := extUW x.length n) (extUW_length (by omega) n).symm
  rwa [extUW_toInt (by omega) hx] at this

theorem Sub.iWideOverS (hw : 1 < w) {x : Limbs w} (hx : 2 ≤ x.length) (n : BitVec (w + w)) :
    OverS x.length (toInt x - n.toInt) (Sub.sOverflowingIWide x n) := by
  have h0 : x ≠ [] := by rintro rfl; simp at hx
  have := Sub.overS hw h0 (y := extIW x.length n) (extIW_length (by omega) n).symm
  rwa [extIW_toInt hx] at this

theorem Sub.iWideWrapS (hw : 1 < w) {x : Limbs w} (hx : 2 ≤ x.length) (n : BitVec (w + w)) :
    WrapS x.length (toInt x - n.toInt) (Sub.sWrappingIWide x n) := by
  have := Sub.wrapS (by omega) (x := x) (y := extIW x.length n) (extIW_length (by omega) n).symm
  rwa [extIW_toInt hx] at this

end I256
