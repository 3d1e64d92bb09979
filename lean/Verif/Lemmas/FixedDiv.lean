import Verif.Lemmas.Fixed
import Verif.Lemmas.DivScalar
import Verif.Lemmas.DivForms

/-!
# Division by fixed-width scalars
-/

namespace I256

variable {w : Nat} {x : Limbs w}

theorem setWidth_ne {m n : Nat} {v : BitVec m} (h : m ≤ n) (hv : v ≠ 0) : v.setWidth n ≠ 0 := by
  intro e
  refine hv (BitVec.eq_of_toNat_eq ?_)
  rw [← BitVec.toNat_setWidth_of_le (b := v) h, e]
  simp

theorem signExtend_ne {m n : Nat} {v : BitVec m} (h : m ≤ n) (hv : v ≠ 0) : v.signExtend n ≠ 0 := by
  intro e
  refine hv (BitVec.eq_of_toInt_eq ?_)
  rw [← BitVec.toInt_signExtend_of_le (x := v) h, e]
  simp

theorem setWidth_toNat_of_lt {m n : Nat} {r : BitVec n} (h : r.toNat < 2 ^ m) :
    (r.setWidth m).toNat = r.toNat := by
  rw [BitVec.toNat_setWidth, Nat.mod_eq_of_lt h]

theorem setWidth_toInt_of_InS {m n : Nat} (hmn : m ≤ n) {r : BitVec n} (h : InS m r.toInt) :
    (r.setWidth m).toInt = r.toInt := by
  obtain ⟨d, rfl⟩ := Nat.exists_eq_add_of_le hmn
  rw [BitVec.toInt_setWidth]
  have hc := BitVec.toInt_eq_toNat_cond r
  have hp : ((2 ^ (m + d) : Nat) : Int) = ((2 ^ m : Nat) : Int) * 2 ^ d := by push_cast; rw [pow_add]
  rw [hp] at hc
  split at hc
  · rw [← hc]; exact bmod_of_InS h
  · rw [show (r.toNat : Int) = r.toInt + ((2 ^ m : Nat) : Int) * 2 ^ d by omega,
      Int.add_mul_bmod_self_left]
    exact bmod_of_InS h

theorem tmod_InS {m : Nat} {v : BitVec m} (hv : v ≠ 0) (z : Int) : InS m (z.tmod v.toInt) := by
  have hv0 : v.toInt ≠ 0 := fun h => hv (BitVec.eq_of_toInt_eq (by simpa using h))
  have h1 := natAbs_toInt_le v
  have h2 : (z.tmod v.toInt).natAbs < v.toInt.natAbs := by
    rw [Int.natAbs_tmod]; exact Nat.mod_lt _ (by omega)
  have hp : ((2 ^ m : Nat) : Int) = 2 ^ m := by push_cast; rfl
  unfold InS
  omega

section scalar
variable {m : Nat} {n : BitVec m} (hn : n ≠ 0)
include hn

theorem limbCase (hm : m ≤ w) (x : Limbs w) :
    Yields False (fun p => ExactU x.length (toNat x / n.toNat) p.1 ∧ p.2.toNat = toNat x % n.toNat)
      ((U.wrappingDivRemULimb x (n.setWidth w)).map fun (q, r) => (q, r.setWidth m)) := by
  obtain ⟨q, r, e, ql, qv, rv⟩ := Div.limb_spec (setWidth_ne hm hn) x
  rw [BitVec.toNat_setWidth_of_le hm] at qv rv
  have hlt : r.toNat < 2 ^ m := by
    rw [rv]
    exact (Nat.mod_lt _ (Nat.pos_of_ne_zero fun h => hn (BitVec.eq_of_toNat_eq (by simpa using h)))).trans
      n.isLt
  rw [U.wrappingDivRemULimb, e, Res.map_ok]
  exact .ok id ⟨⟨ql, by rw [qv]; push_cast; rfl⟩, by rw [← rv]; exact setWidth_toNat_of_lt hlt⟩

theorem wideCase (hw : 0 < w) (h2 : 2 ≤ x.length) (hm : m ≤ w + w) :
    Yields (DivPanics w 2 (toNat x) n.toNat)
      (fun p => ExactU x.length (toNat x / n.toNat) p.1 ∧ p.2.toNat = toNat x % n.toNat)
      ((U.wrappingDivRemUWide x (n.setWidth (w + w))).map fun (q, r) => (q, r.setWidth m)) := by
  have h := Div.wideDiv_spec hw h2 (setWidth_ne hm hn)
  rw [BitVec.toNat_setWidth_of_le hm] at h
  refine h.map ?_
  rintro ⟨q, r⟩ ⟨⟨ql, qv⟩, rv⟩
  have hlt : r.toNat < 2 ^ m := by
    rw [rv]
    exact (Nat.mod_lt _ (Nat.pos_of_ne_zero fun h => hn (BitVec.eq_of_toNat_eq (by simpa using h)))).trans
      n.isLt
  exact ⟨⟨ql, by rw [qv]; push_cast; rfl⟩, by rw [← rv]; exact setWidth_toNat_of_lt hlt⟩

variable (hw : 1 < w) (h2 : 2 ≤ x.length) (he : x.length % 2 = 0)
include hw h2 he

theorem limbCaseU (hm : m ≤ w) (oc : Bool) :
    Yields False
      (fun p => ExactS x.length (toInt x / n.toNat) p.1 ∧ (p.2.toNat : Int) = toInt x % n.toNat)
      ((I.wrappingDivRemULimb oc x (n.setWidth w)).map fun (q, r) => (q, r.setWidth m)) := by
  obtain ⟨q, r, e, hq, rv⟩ := limbU hw h2 he (setWidth_ne hm hn) oc
  rw [BitVec.toNat_setWidth_of_le hm] at hq rv
  have hn0 : 0 < n.toNat := Nat.pos_of_ne_zero fun h => hn (BitVec.eq_of_toNat_eq (by simpa using h))
  have hlt : r.toNat < 2 ^ m := by
    have := Int.emod_lt_of_pos (toInt x) (b := n.toNat) (by omega)
    have := n.isLt
    omega
  rw [e, Res.map_ok]
  exact .ok id ⟨hq, by rw [← rv]; exact congrArg _ (setWidth_toNat_of_lt hlt)⟩

theorem wideCaseU (hm : m ≤ w + w) (oc : Bool) :
    Yields (DivPanics w 2 (toInt x).natAbs n.toNat)
      (fun p => ExactS x.length (toInt x / n.toNat) p.1 ∧ (p.2.toNat : Int) = toInt x % n.toNat)
      ((I.wrappingDivRemUWide oc x (n.setWidth (w + w))).map fun (q, r) => (q, r.setWidth m)) := by
  have h := wideU hw h2 he (setWidth_ne hm hn) oc
  rw [BitVec.toNat_setWidth_of_le hm] at h
  refine h.map ?_
  rintro ⟨q, r⟩ ⟨hq, rv⟩
  have hn0 : 0 < n.toNat := Nat.pos_of_ne_zero fun h => hn (BitVec.eq_of_toNat_eq (by simpa using h))
  have hlt : r.toNat < 2 ^ m := by
    have := Int.emod_lt_of_pos (toInt x) (b := n.toNat) (by omega)
    have := n.isLt
    simp only at rv
    omega
  exact ⟨hq, by rw [← rv]; exact congrArg _ (setWidth_toNat_of_lt hlt)⟩

theorem limbCaseS (hm : m ≤ w) :
    Yields False
      (fun p => WrapS x.length ((toInt x).tdiv n.toInt) p.1 ∧ p.2.toInt = (toInt x).tmod n.toInt)
      (I.wrappingDivRemILimb x (n.signExtend w)) := by
  obtain ⟨q, r, e, h⟩ := limbS hw h2 he (signExtend_ne hm hn)
  rw [BitVec.toInt_signExtend_of_le hm] at h
  rw [e]
  exact .ok id h

theorem wideCaseS (hm : m ≤ w + w) :
    Yields (DivPanics w 2 (toInt x).natAbs n.toInt.natAbs)
      (fun p => WrapS x.length ((toInt x).tdiv n.toInt) p.1 ∧ p.2.toInt = (toInt x).tmod n.toInt)
      (I.wrappingDivRemIWide x (n.signExtend (w + w))) := by
  have h := wideS hw h2 he (signExtend_ne hm hn)
  rwa [BitVec.toInt_signExtend_of_le hm] at h

end scalar

/-- The `as` casts of the remainder. -/
theorem castRem {m n : Nat} (hmn : m ≤ n) {v : BitVec m} (hv : v ≠ 0) {P : Prop}
    {r : Res (Limbs w × BitVec n)}
    (h : Yields P (fun p => WrapS x.length ((toInt x).tdiv v.toInt) p.1 ∧
      p.2.toInt = (toInt x).tmod v.toInt) r) :
    Yields P (fun p => WrapS x.length ((toInt x).tdiv v.toInt) p.1 ∧
      p.2.toInt = (toInt x).tmod v.toInt) (r.map fun (q, r) => (q, r.setWidth m)) :=
  h.map fun p hp => ⟨hp.1, by
    rw [← hp.2]
    exact setWidth_toInt_of_InS hmn (by rw [hp.2]; exact tmod_InS hv _)⟩

theorem castRemOver {m n : Nat} (hmn : m ≤ n) {v : BitVec m} (hv : v ≠ 0) {P : Prop}
    {r : Res ((Limbs w × BitVec n) × Bool)}
    (h : Yields P (fun p => OverS x.length ((toInt x).tdiv v.toInt) (p.1.1, p.2) ∧
      p.1.2.toInt = (toInt x).tmod v.toInt) r) :
    Yields P (fun p => OverS x.length ((toInt x).tdiv v.toInt) (p.1.1, p.2) ∧
      p.1.2.toInt = (toInt x).tmod v.toInt) (r.map fun (p, f) => ((p.1, p.2.setWidth m), f)) :=
  h.map fun p hp => ⟨hp.1, by
    rw [← hp.2]
    exact setWidth_toInt_of_InS hmn (by rw [hp.2]; exact tmod_InS hv _)⟩

theorem not_scalarPanics {n X Y : Nat} (h : n ≠ 2 * w) : False ↔ ScalarPanics w n X Y :=
  ⟨False.elim, fun hp => h hp.1⟩

theorem scalarPanics_wide {n X Y : Nat} (h : n = 2 * w) : DivPanics w 2 X Y ↔ ScalarPanics w n X Y :=
  ⟨fun hp => ⟨h, hp⟩, fun hp => hp.2⟩

theorem addStray {w N n X Y : Nat} (h : n ≠ 4 * w) {r : Nat} (hy : Y < 2 ^ n) (hy0 : Y ≠ 0)
    (hr : r = X % Y) : r = (X % Y + scalarStray w N n X Y) % 2 ^ n := by
  rw [scalarStray, if_neg h, Nat.add_zero, hr]
  exact (Nat.mod_eq_of_lt ((Nat.mod_lt _ (Nat.pos_of_ne_zero hy0)).trans hy)).symm

variable (hw : w = 32 ∨ w = 64) (hx : 256 ≤ w * x.length)
include hw hx

theorem uDivRemFix (k : Fix) {n : BitVec k.n} (hn : n ≠ 0) :
    Yields (ScalarPanics w k.n (toNat x) n.toNat)
      (fun p => ExactU x.length (toNat x / n.toNat) p.1 ∧
        p.2.toNat = (toNat x % n.toNat + scalarStray w x.length k.n (toNat x) n.toNat) % 2 ^ k.n)
      (U.wrappingDivRemFix k x n) := by
  have hn0 : n.toNat ≠ 0 := fun h => hn (BitVec.eq_of_toNat_eq (by simpa using h))
  rcases hw with rfl | rfl
  · cases k
    · exact ((limbCase (w := 32) hn (by decide) x).congr (not_scalarPanics (by decide))).mono
        fun p hp => ⟨hp.1, addStray (by decide) n.isLt hn0 hp.2⟩
    · exact ((wideCase (w := 32) hn (by decide) (by omega) (by decide)).congr
        (scalarPanics_wide (by decide))).mono
        fun p hp => ⟨hp.1, addStray (by decide) n.isLt hn0 hp.2⟩
    · obtain ⟨q, r, e, ⟨ql, qv⟩, rv⟩ := Div.fromU128_spec (x := x) (by omega) hn
      have e' : U.wrappingDivRemFix .b128 x n = .ok (q, r) := e
      rw [e']
      refine .ok (fun h => by have := h.1; simp [Fix.n] at this) ⟨⟨ql, by rw [qv]; push_cast; rfl⟩, ?_⟩
      rw [rv, scalarStray, if_pos (by decide), Nat.add_mod_mod]
  · cases k
    · exact ((limbCase (w := 64) hn (by decide) x).congr (not_scalarPanics (by decide))).mono
        fun p hp => ⟨hp.1, addStray (by decide) n.isLt hn0 hp.2⟩
    · exact ((limbCase (w := 64) hn (by decide) x).congr (not_scalarPanics (by decide))).mono
        fun p hp => ⟨hp.1, addStray (by decide) n.isLt hn0 hp.2⟩
    · exact ((wideCase (w := 64) hn (by decide) (by omega) (by decide)).congr
        (scalarPanics_wide (by decide))).mono
        fun p hp => ⟨hp.1, addStray (by decide) n.isLt hn0 hp.2⟩

theorem uDivRemFix_zero (k : Fix) :
    (toNat x ≠ 0 ∨ k.n ≤ w → U.wrappingDivRemFix k x 0 = .panic) ∧
    (toNat x = 0 → w < k.n → ∃ q, U.wrappingDivRemFix k x 0 = .ok (q, 0) ∧ ExactU x.length 0 q) := by
  have hxe : x ≠ [] := length_ne (n := 0) (by rcases hw with rfl | rfl <;> omega)
  have h1 : ∀ N, 0 < N → ExactU (w := w) N 0 (Div.scalar1 N 0) := fun N hN => by
    have := Div.scalar1_spec hN (0 : BitVec w)
    exact ⟨this.1, by rw [this.2]; simp⟩
  have hl : (U.wrappingDivRemULimb x 0) = .panic := Div.limb_zero hxe
  rcases hw with rfl | rfl
  · cases k
    · exact ⟨fun _ => by
        rw [U.wrappingDivRemFix, show (0 : BitVec (Fix.b32).n).setWidth 32 = 0 by decide, hl]; rfl,
        fun _ h => by simp [Fix.n] at h⟩
    · have hd := Div.wideDiv_zero (w := 32) (x := x) (by decide) (by omega)
      have e : U.wrappingDivRemFix .b64 x 0 =
          (Div.wideDiv x (0 : BitVec (32 + 32))).map fun (q, r) => (q, r.setWidth 64) := rfl
      rw [e]
      refine ⟨fun h => ?_, fun h _ => ?_⟩
      · rw [hd.1 (h.resolve_right (by decide))]; rfl
      · rw [hd.2 h]; exact ⟨_, rfl, h1 _ (by omega)⟩
    · have hd := Div.fromU128_zero (x := x) (by omega)
      have e : U.wrappingDivRemFix .b128 x 0 = Div.fromU128 x 0 := rfl
      rw [e]
      refine ⟨fun h => ?_, fun h _ => ?_⟩
      · rw [hd.1 (h.resolve_right (by decide))]
      · rw [hd.2 h]; exact ⟨_, rfl, h1 _ (by omega)⟩
  · cases k
    · exact ⟨fun _ => by
        rw [U.wrappingDivRemFix, show (0 : BitVec (Fix.b32).n).setWidth 64 = 0 by decide, hl]; rfl,
        fun _ h => by simp [Fix.n] at h⟩
    · exact ⟨fun _ => by
        rw [U.wrappingDivRemFix, if_neg (by decide),
          show (0 : BitVec (Fix.b64).n).setWidth 64 = 0 by decide, hl]; rfl,
        fun _ h => by simp [Fix.n] at h⟩
    · have hd := Div.wideDiv_zero (w := 64) (x := x) (by decide) (by omega)
      have e : U.wrappingDivRemFix .b128 x 0 =
          (Div.wideDiv x (0 : BitVec (64 + 64))).map fun (q, r) => (q, r.setWidth 128) := rfl
      rw [e]
      refine ⟨fun h => ?_, fun h _ => ?_⟩
      · rw [hd.1 (h.resolve_right (by decide))]; rfl
      · rw [hd.2 h]; exact ⟨_, rfl, h1 _ (by omega)⟩

variable (he : x.length % 2 = 0)
include he

theorem iDivRemFixU (k : Fix) {n : BitVec k.n} (hn : n ≠ 0)
    (hs : scalarStray w x.length k.n (toInt x).natAbs n.toNat = 0) (oc : Bool) :
    Yields (ScalarPanics w k.n (toInt x).natAbs n.toNat)
      (fun p => ExactS x.length (toInt x / n.toNat) p.1 ∧ (p.2.toNat : Int) = toInt x % n.toNat)
      (I.wrappingDivRemFixU oc k x n) := by
  rcases hw with rfl | rfl
  · cases k
    · exact ((limbCaseU (w := 32) hn (by decide) (by omega) he (by decide) oc).congr
        (not_scalarPanics (by decide)))
    · exact ((wideCaseU (w := 32) hn (by decide) (by omega) he (by decide) oc).congr
        (scalarPanics_wide (by decide)))
    · obtain ⟨xl, xv⟩ := unsignedAbs_natAbs (by decide : 0 < 32) (by omega : 2 ≤ x.length) he
      obtain ⟨q, r, e, ⟨ql, qv⟩, rv⟩ := Div.fromU128_spec (x := I.unsignedAbs x) (by omega) hn
      have e' : I.wrappingDivRemFixU oc .b128 x n = I.divRemUnsigned oc x n (.ok (q, r)) := by
        rw [← e]; rfl
      rw [e']
      rw [xv] at qv rv
      rw [scalarStray, if_pos (by decide)] at hs
      have hs' : strayRem 32 x.length (toInt x).natAbs n.toNat % 2 ^ 128 = 0 := hs
      rw [xl, Nat.add_mod, hs', Nat.add_zero, Nat.mod_mod] at rv
      have hn0 : 0 < n.toNat :=
        Nat.pos_of_ne_zero fun h => hn (BitVec.eq_of_toNat_eq (by simpa using h))
      rw [Nat.mod_eq_of_lt ((Nat.mod_lt _ hn0).trans n.isLt)] at rv
      obtain ⟨q', r', e2, h'⟩ := divRemUnsigned_spec (by decide) (by omega) hn (ql.trans xl) qv rv oc
      rw [e2]
      exact .ok (fun h => by have := h.1; simp [Fix.n] at this) h'
  · cases k
    · exact ((limbCaseU (w := 64) hn (by decide) (by omega) he (by decide) oc).congr
        (not_scalarPanics (by decide)))
    · exact ((limbCaseU (w := 64) hn (by decide) (by omega) he (by decide) oc).congr
        (not_scalarPanics (by decide)))
    · exact ((wideCaseU (w := 64) hn (by decide) (by omega) he (by decide) oc).congr
        (scalarPanics_wide (by decide)))

theorem iDivRemFixI (k : Fix) {n : BitVec k.n} (hn : n ≠ 0)
    (hs : scalarStray w x.length k.n (toInt x).natAbs n.toInt.natAbs = 0) :
    Yields (ScalarPanics w k.n (toInt x).natAbs n.toInt.natAbs)
      (fun p => WrapS x.length ((toInt x).tdiv n.toInt) p.1 ∧ p.2.toInt = (toInt x).tmod n.toInt)
      (I.wrappingDivRemFixI k x n) := by
  rcases hw with rfl | rfl
  · cases k
    · exact castRem (by decide) hn ((limbCaseS (w := 32) hn (by decide) (by omega) he
        (by decide)).congr (not_scalarPanics (by decide)))
    · exact castRem (by decide) hn ((wideCaseS (w := 32) hn (by decide) (by omega) he
        (by decide)).congr (scalarPanics_wide (by decide)))
    · obtain ⟨xl, xv⟩ := unsignedAbs_natAbs (by decide : 0 < 32) (by omega : 2 ≤ x.length) he
      have hv0 : n.toInt ≠ 0 := fun h => hn (BitVec.eq_of_toInt_eq (by simpa using h))
      have hpv : I.primAbs n ≠ 0 := fun h => by
        have := primAbs_toNat n
        rw [h] at this
        simp at this
        omega
      obtain ⟨q, r, e, ⟨ql, qv⟩, rv⟩ := Div.fromU128_spec (x := I.unsignedAbs x) (by omega) hpv
      have e' : I.wrappingDivRemFixI .b128 x n = I.divRemSigned x n (.ok (q, r)) := by
        rw [← e]; rfl
      rw [e']
      have hpa : (I.primAbs n).toNat = n.toInt.natAbs := primAbs_toNat n
      rw [hpa, xv] at qv rv
      rw [scalarStray, if_pos (by decide)] at hs
      have hs' : strayRem 32 x.length (toInt x).natAbs n.toInt.natAbs % 2 ^ 128 = 0 := hs
      rw [xl, Nat.add_mod, hs', Nat.add_zero, Nat.mod_mod] at rv
      have hb : 2 * n.toInt.natAbs ≤ 2 ^ 128 := natAbs_toInt_le n
      rw [Nat.mod_eq_of_lt (by
        have := Nat.mod_lt (toInt x).natAbs (y := n.toInt.natAbs) (by omega)
        omega)] at rv
      obtain ⟨q', r', e2, h'⟩ := divRemSigned_spec (by decide) (by omega) hn (ql.trans xl) qv rv
      rw [e2]
      exact .ok (fun h => by have := h.1; simp [Fix.n] at this) h'
  · cases k
    · exact castRem (by decide) hn ((limbCaseS (w := 64) hn (by decide) (by omega) he
        (by decide)).congr (not_scalarPanics (by decide)))
    · exact castRem (by decide) hn ((limbCaseS (w := 64) hn (by decide) (by omega) he
        (by decide)).congr (not_scalarPanics (by decide)))
    · exact castRem (by decide) hn ((wideCaseS (w := 64) hn (by decide) (by omega) he
        (by decide)).congr (scalarPanics_wide (by decide)))

theorem iDivRemFixI_over (k : Fix) {n : BitVec k.n} (hn : n ≠ 0)
    (hs : scalarStray w x.length k.n (toInt x).natAbs n.toInt.natAbs = 0) :
    Yields (ScalarPanics w k.n (toInt x).natAbs n.toInt.natAbs)
      (fun p => OverS x.length ((toInt x).tdiv n.toInt) (p.1.1, p.2) ∧
        p.1.2.toInt = (toInt x).tmod n.toInt)
      (I.overflowingDivRemFixI k x n) := by
  have h2 : 2 ≤ x.length := by rcases hw with rfl | rfl <;> omega
  have hw1 : 1 < w := by omega
  have hk : 0 < k.n ∧ k.n ≤ 128 := by cases k <;> decide
  have hv : InS (w * x.length) n.toInt := InS_mono (by omega) (bv_InS n)
  have hP : n.toInt = -1 → ¬ ScalarPanics w k.n (toInt x).natAbs n.toInt.natAbs :=
    fun e hp => minNeg_noPanic (by omega) e hp.2
  have hdir := formOverScalar hw1 h2 he hk.1 hv hP (iDivRemFixI hw hx he k hn hs)
  have hlimb : ∀ hm : k.n ≤ w, Yields (ScalarPanics w k.n (toInt x).natAbs n.toInt.natAbs)
      (fun p => OverS x.length ((toInt x).tdiv n.toInt) (p.1.1, p.2) ∧
        p.1.2.toInt = (toInt x).tmod n.toInt)
      ((I.overflowingDivRemILimb x (n.signExtend w)).map fun (v, f) =>
        ((v.1, v.2.setWidth k.n), f)) := fun hm => by
    have e := BitVec.toInt_signExtend_of_le (x := n) hm
    refine castRemOver hm hn ?_
    have hc := (limbCaseS hn hw1 h2 he hm).congr
      (not_scalarPanics (n := k.n) (X := (toInt x).natAbs) (Y := n.toInt.natAbs)
        (by omega : k.n ≠ 2 * w))
    generalize n.signExtend w = v at e hc ⊢
    rw [← e] at hc hv hP ⊢
    exact formOverScalar hw1 h2 he (by omega) hv hP hc
  have hwide : ∀ hm : k.n = 2 * w, Yields (ScalarPanics w k.n (toInt x).natAbs n.toInt.natAbs)
      (fun p => OverS x.length ((toInt x).tdiv n.toInt) (p.1.1, p.2) ∧
        p.1.2.toInt = (toInt x).tmod n.toInt)
      ((I.overflowingDivRemIWide x (n.signExtend (w + w))).map fun (v, f) =>
        ((v.1, v.2.setWidth k.n), f)) := fun hm => by
    have e := BitVec.toInt_signExtend_of_le (x := n) (by omega : k.n ≤ w + w)
    refine castRemOver (by omega) hn ?_
    have hc := (wideCaseS hn hw1 h2 he (by omega)).congr
      (scalarPanics_wide (X := (toInt x).natAbs) (Y := n.toInt.natAbs) hm)
    generalize n.signExtend (w + w) = v at e hc ⊢
    rw [← e] at hc hv hP ⊢
    exact formOverScalar hw1 h2 he (by omega) hv hP hc
  rcases hw with rfl | rfl
  · cases k
    · exact hlimb (by decide)
    · exact hdir
    · exact hdir
  · cases k
    · exact hlimb (by decide)
    · exact hdir
    · exact hwide (by decide)

/-- The checked form agrees with the overflowing form. -/
theorem checkedDivRemFixI_eq (k : Fix) {n : BitVec k.n} (hn : n ≠ 0) :
    I.checkedDivRemFixI k x n = (I.overflowingDivRemFixI k x n).map mkChecked := by
  cases k
  · have h : n.signExtend w ≠ 0 := signExtend_ne (by rcases hw with rfl | rfl <;> decide) hn
    rw [I.checkedDivRemFixI, I.checkedDivRemILimb, I.checkedDivRemSigned, if_neg (by simpa using h),
      I.overflowingDivRemFixI, I.overflowingDivRemILimb]
    cases I.overflowingDivRemSigned x (n.signExtend w) (I.wrappingDivRemILimb x (n.signExtend w)) with
    | panic => rfl
    | ok v => obtain ⟨⟨q, r⟩, f⟩ := v; cases f <;> rfl
  · rw [I.checkedDivRemFixI, if_neg (by simpa using hn)]
  · rw [I.checkedDivRemFixI, if_neg (by simpa using hn)]

end I256
