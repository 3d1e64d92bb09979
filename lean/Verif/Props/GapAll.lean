import Verif.Lemmas.Gap
import Verif.Props.Mul
import Verif.Props.Pow
import Verif.Props.Fixed
import Verif.Props.Glue

/-!
# Signed multiplication and powers for all operands: C08, C11, C41, C42, C54, C58

The claims ask for the contracts `OverS`, `CheckS`, `SatS`, `StrictS`, `OpS`.  They are false for results
in `Mul.Gap` (see the `_false` theorems of the files imported here).  The theorems below have no
hypothesis on the gap: they say what every form does for every pair of operands, with the contracts of
`Verif/SpecGap.lean`.
-/

namespace I256

open Sample

variable {w : Nat} {x y z : Limbs w} {e : Nat}

/-- C08, partial: every form of signed multiplication, all operands.  Outside the gap the contracts are
those of the claim. -/
theorem C08_int_mul_all_partial (hw : 0 < w) (hx : x ≠ []) (hl : x.length = y.length) (oc : Bool) :
    OverG x.length (toInt x * toInt y) (I.overflowingMul x y) ∧
      CheckG x.length (toInt x * toInt y) (I.checkedMul x y) ∧
      SatG x.length (toInt x * toInt y) (I.saturatingMul x y) ∧
      StrictG x.length (toInt x * toInt y) (I.strictMul x y) ∧
      OpG oc x.length (toInt x * toInt y) (I.mul oc x y) := by
  have hN := List.length_pos_iff.2 hx
  have ho : OverG x.length (toInt x * toInt y) (I.overflowingMul x y) :=
    .mk (Mul.overflowingFullS_spec hw hx hl)
  have hc : CheckG x.length (toInt x * toInt y) (I.checkedMul x y) := ho.check
  refine ⟨ho, hc, ⟨fun hg => (C08_int_mul_partial hw hx hl oc hg).2.2.1, fun hg => ?_⟩, hc.strict,
    hc.op (Mul.wrapS x y (by omega) hl) oc⟩
  obtain ⟨v, ev, hv⟩ := hc.1 (.inr hg)
  unfold I.saturatingMul
  rw [ev]
  exact gap_wrap hw hN hg hv

example := C08_int_mul_all_partial (x := m2) (y := a) (by decide) (by decide) (by decide) true
/-- A product in the gap: `(2^255 + 1) / 3 * (-3)`. -/
example : let x : Limbs 64 := [0xaaaaaaaaaaaaaaab, 0xaaaaaaaaaaaaaaaa, 0xaaaaaaaaaaaaaaaa,
      0x2aaaaaaaaaaaaaaa]
    let y : Limbs 64 := [0xfffffffffffffffd, 0xffffffffffffffff, 0xffffffffffffffff, 0xffffffffffffffff]
    Mul.Gap 64 4 (toInt x * toInt y) ∧ I.saturatingMul x y = maxS := by decide +kernel

/-- C08, partial: signed multiplication by scalars of one and two limbs, all operands. -/
theorem C08_int_mul_scalar_all_partial (hw : 0 < w) (hx : 3 ≤ x.length) (n : BitVec w)
    (m : BitVec (w + w)) (oc : Bool) :
    (OverG x.length (toInt x * n.toNat) (I.overflowingMulULimb x n) ∧
      CheckG x.length (toInt x * n.toNat) (I.checkedMulULimb x n) ∧
      OpG oc x.length (toInt x * n.toNat) (I.mulULimb oc x n)) ∧
    (OverG x.length (toInt x * n.toInt) (I.overflowingMulILimb x n) ∧
      CheckG x.length (toInt x * n.toInt) (I.checkedMulILimb x n) ∧
      OpG oc x.length (toInt x * n.toInt) (I.mulILimb oc x n)) ∧
    (OverG x.length (toInt x * m.toNat) (I.overflowingMulUWide x m) ∧
      CheckG x.length (toInt x * m.toNat) (I.checkedMulUWide x m) ∧
      OpG oc x.length (toInt x * m.toNat) (I.mulUWide oc x m)) ∧
    (OverG x.length (toInt x * m.toInt) (I.overflowingMulIWide x m) ∧
      CheckG x.length (toInt x * m.toInt) (I.checkedMulIWide x m) ∧
      OpG oc x.length (toInt x * m.toInt) (I.mulIWide oc x m)) := by
  have hx0 : x ≠ [] := List.length_pos_iff.1 (by omega)
  have u := C06_int_wrapping_mul_uscalar (x := x) n m
  have i := C06_int_wrapping_mul_iscalar (x := x) (by omega) n m
  have h1 := Mul.overflowingFullS_spec hw hx0 (extU_length (by omega : 1 ≤ x.length) n).symm
  have h2 := Mul.overflowingFullS_spec hw hx0 (extI_length (by omega : 1 ≤ x.length) n).symm
  have h3 := Mul.overflowingFullS_spec hw hx0 (extUW_length (by omega : 2 ≤ x.length) m).symm
  have h4 := Mul.overflowingFullS_spec hw hx0 (extIW_length (by omega : 2 ≤ x.length) m).symm
  rw [extU_toInt hw (by omega)] at h1
  rw [extI_toInt (by omega)] at h2
  rw [extUW_toInt hw (by omega)] at h3
  rw [extIW_toInt (by omega)] at h4
  have k1 : OverG x.length (toInt x * n.toNat) (I.overflowingMulULimb x n) := .mk h1
  have k2 : OverG x.length (toInt x * n.toInt) (I.overflowingMulILimb x n) := .mk h2
  have k3 : OverG x.length (toInt x * m.toNat) (I.overflowingMulUWide x m) := .mk h3
  have k4 : OverG x.length (toInt x * m.toInt) (I.overflowingMulIWide x m) := .mk h4
  exact ⟨⟨k1, k1.check, k1.check.op u.1 oc⟩, ⟨k2, k2.check, k2.check.op i.1 oc⟩,
    ⟨k3, k3.check, k3.check.op u.2 oc⟩, ⟨k4, k4.check, k4.check.op i.2 oc⟩⟩

example := C08_int_mul_scalar_all_partial (x := m2) (by decide) (by decide) 7 (-7) true

/-- C11, partial: every form of signed powers, all operands. -/
theorem C11_int_pow_all_partial (hw : 1 < w) (hx : 4 ≤ x.length) (h2 : x.length % 2 = 0)
    (he : e < 2 ^ 32) :
    OverG x.length (toInt x ^ e) (I.overflowingPow x e) ∧
      CheckG x.length (toInt x ^ e) (I.checkedPow x e) ∧
      SatG x.length (toInt x ^ e) (I.saturatingPow x e) ∧
      StrictG x.length (toInt x ^ e) (I.strictPow x e) := by
  have ho : OverG x.length (toInt x ^ e) (I.overflowingPow x e) :=
    .mk (powOverS hw (x := x) (by omega) he)
  have hc : CheckG x.length (toInt x ^ e) (I.checkedPow x e) := ho.check
  refine ⟨ho, hc, ⟨fun hg => (C11_int_pow_partial hw hx h2 he hg).2.2.1, fun hg => ?_⟩, hc.strict⟩
  obtain ⟨v, ev, hv⟩ := hc.1 (.inr hg)
  unfold I.saturatingPow
  rw [ev]
  exact gap_wrap (by omega) (by omega) hg hv

example := C11_int_pow_all_partial (x := m2) (e := 257) (by decide) (by decide) (by decide) (by decide)

/-- C42, partial: signed `*` and `pow`, all operands, every build. -/
theorem C42_int_mul_pow_all_partial (hw : 1 < w) (hx : 4 ≤ x.length) (h2 : x.length % 2 = 0)
    (hl : x.length = y.length) (he : e < 2 ^ 32) (oc : Bool) :
    OpG oc x.length (toInt x * toInt y) (I.mul oc x y) ∧
      OpG oc x.length (toInt x ^ e) (I.pow oc x e) := by
  have hx0 : x ≠ [] := List.length_pos_iff.1 (by omega)
  refine ⟨(C08_int_mul_all_partial (by omega) hx0 hl oc).2.2.2.2, ?_⟩
  cases oc
  · exact ⟨_, rfl, powWrapS (by omega) hx0 he⟩
  · exact (C11_int_pow_all_partial hw hx h2 he).2.2.2

example := C42_int_mul_pow_all_partial (x := m2) (y := a) (e := 257) (by decide) (by decide) (by decide)
  (by decide) (by decide) true

section
variable (hw : w = 32 ∨ w = 64) (hx : 256 ≤ w * x.length)
include hw hx

/-- C54, partial: signed multiplication by fixed-width scalars, all operands (128-bit scalars on 32-bit
limbs are C41). -/
theorem C54_int_mul_fixed_all_partial (k : Fix) (hk : ¬ (w = 32 ∧ k = .b128)) (n : BitVec k.n)
    (oc : Bool) :
    FormsG oc x.length (toInt x * n.toNat) (I.wrappingMulFixU k x n)
      (I.overflowingMulFixU k x n) (I.checkedMulFixU k x n) (I.mulFixU oc k x n) ∧
    FormsG oc x.length (toInt x * n.toInt) (I.wrappingMulFixI k x n)
      (I.overflowingMulFixI k x n) (I.checkedMulFixI k x n) (I.mulFixI oc k x n) :=
  ⟨iMulFixU_all hw hx k hk n oc, iMulFixI_all hw hx k hk n oc⟩

end

example := C54_int_mul_fixed_all_partial (x := top) (by decide) (by decide) .b128 (by decide) (-3) true

/-- C41, partial: signed multiplication by 128-bit scalars on 32-bit limbs, all operands: every form
computes with the scalar whose second and fourth 32-bit digits are exchanged. -/
theorem C41_int_mul_all_partial {x : Limbs 32} (hx : 256 ≤ 32 * x.length) (n : BitVec 128) (oc : Bool) :
    let i : Int := swap128 n.toNat - if n.toInt < 0 then 2 ^ 128 else 0
    FormsG oc x.length (toInt x * swap128 n.toNat) (I.wrappingMulFixU .b128 x n)
      (I.overflowingMulFixU .b128 x n) (I.checkedMulFixU .b128 x n) (I.mulFixU oc .b128 x n) ∧
    FormsG oc x.length (toInt x * i) (I.wrappingMulFixI .b128 x n)
      (I.overflowingMulFixI .b128 x n) (I.checkedMulFixI .b128 x n) (I.mulFixI oc .b128 x n) := by
  intro i
  have hx0 : x ≠ [] := by rintro rfl; simp at hx
  constructor
  · obtain ⟨y, ey, yl, yv⟩ := u128ToLimbN_spec (N := x.length) (by omega) n
    have e1 : I.wrappingMulFixU .b128 x n = .ok (Mul.wrappingFull x y) := by
      have : I.wrappingMulFixU .b128 x n = (u128ToLimbN x.length n).map (Mul.wrappingFull x) := rfl
      rw [this, ey, Res.map_ok]
    have e2 : I.overflowingMulFixU .b128 x n = .ok (Mul.overflowingFullS x y) := by
      have : I.overflowingMulFixU .b128 x n = (u128ToLimbN x.length n).map (Mul.overflowingFullS x) := rfl
      rw [this, ey, Res.map_ok]
    have h1 := Mul.wrapS x y (by omega) yl.symm
    have h2 := Mul.overflowingFullS_spec (by decide : 0 < 32) hx0 yl.symm
    rw [yv] at h1 h2
    exact FormsG.mk ⟨_, e1, h1⟩ ⟨_, e2, .mk h2⟩
  · obtain ⟨y, ey, yl, yv⟩ := i128ToLimbN_spec (N := x.length) (by omega) n
    have e1 : I.wrappingMulFixI .b128 x n = .ok (Mul.wrappingFull x y) := by
      have : I.wrappingMulFixI .b128 x n = (i128ToLimbN x.length n).map (Mul.wrappingFull x) := rfl
      rw [this, ey, Res.map_ok]
    have e2 : I.overflowingMulFixI .b128 x n = .ok (Mul.overflowingFullS x y) := by
      have : I.overflowingMulFixI .b128 x n = (i128ToLimbN x.length n).map (Mul.overflowingFullS x) := rfl
      rw [this, ey, Res.map_ok]
    have h1 := Mul.wrapS x y (by omega) yl.symm
    have h2 := Mul.overflowingFullS_spec (by decide : 0 < 32) hx0 yl.symm
    rw [yv] at h1 h2
    exact FormsG.mk ⟨_, e1, h1⟩ ⟨_, e2, .mk h2⟩

example := C41_int_mul_all_partial (x := b32) (by decide) (2 ^ 32) true

/-- C58, partial: signed `mul_add`, all operands, with overflow checks: the product must pass, and then
the sum with the (possibly wrapped) product must be representable. -/
theorem C58_int_mul_add_all_partial (hw : 1 < w) (hx : x ≠ []) (hl : x.length = y.length)
    (hl' : x.length = z.length) :
    let p := toInt x * toInt y
    let s := p + toInt z + if Mul.Gap w x.length p then 2 ^ (w * x.length) else 0
    (Passes w x.length p ∧ InS (w * x.length) s →
      ∃ v, NumTraits.iMulAdd true x y z = .ok v ∧ ExactS x.length s v) ∧
    (¬ (Passes w x.length p ∧ InS (w * x.length) s) → NumTraits.iMulAdd true x y z = .panic) := by
  intro p s
  have hN := List.length_pos_iff.2 hx
  have h : StrictG x.length p (I.mul true x y) :=
    (C08_int_mul_all_partial (by omega) hx hl true).2.2.2.2
  by_cases hin : Passes w x.length p
  · obtain ⟨q, hq, hqw⟩ := h.1 hin
    have hqe : toInt q + toInt z = s := by
      show _ = p + toInt z + _
      rcases hin with hi | hg
      · rw [(hqw.exact hi).2, if_neg (fun hg => gap_not_InS (by omega) hN hg hi)]; omega
      · rw [(gap_wrap (by omega) hN hg hqw).1.2, if_pos hg]; omega
    have hp0 : q ≠ [] := List.length_pos_iff.1 (by rw [hqw.1]; exact hN)
    have h3 := (C42_int_add_sub hw hp0 (hqw.1.trans hl') true).1
    rw [hqw.1, hqe] at h3
    rw [NumTraits.iMulAdd, hq]
    exact ⟨fun hc => h3.1 hc.2, fun hc => h3.2 fun hs => hc ⟨hin, hs⟩⟩
  · have e : NumTraits.iMulAdd true x y z = .panic := by rw [NumTraits.iMulAdd, h.2 hin]; rfl
    exact ⟨fun hc => absurd hc.1 hin, fun _ => e⟩

example := C58_int_mul_add_all_partial (x := m2) (y := m2) (z := m2) (by decide) (by decide) (by decide)
  (by decide)

end I256
