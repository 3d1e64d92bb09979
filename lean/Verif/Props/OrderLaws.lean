import Verif.Lemmas.OrderLaws
import Verif.Lemmas.TextNormal
import Verif.Props.AddSub
import Verif.Props.Bitops
import Verif.Props.Div
import Verif.Props.DivSigned
import Verif.Props.Misc
import Verif.Props.Mul
import Verif.Props.Ord
import Verif.Props.Pow
import Verif.Props.Shift
import Verif.Props.Sign

/-!
# C79: arithmetic and order

How the comparisons of the crate and its arithmetic fit together.  `Ord.le false` is `<=` of the unsigned
and `Ord.le true` that of the signed type.
-/

namespace I256

open Sample

variable {w k : Nat} {x y z : Limbs w}

/-- C79: unsigned saturating addition, multiplication and powers respect `<=`, saturating subtraction
respects it in the first and reverses it in the second operand. -/
theorem C79_uint_saturating (hw : 0 < w) (hl : x.length = y.length) (hz : z.length = x.length)
    (h2 : x.length % 2 = 0) (h4 : 4 ≤ x.length) {e : Nat} (h32 : e < 2 ^ 32)
    (h : Ord.le false x y = true) :
    Ord.le false (U.saturatingAdd x z) (U.saturatingAdd y z) = true ∧
    Ord.le false (U.saturatingSub x z) (U.saturatingSub y z) = true ∧
    Ord.le false (U.saturatingSub z y) (U.saturatingSub z x) = true ∧
    Ord.le false (U.saturatingMul x z) (U.saturatingMul y z) = true ∧
    Ord.le false (U.saturatingPow x e) (U.saturatingPow y e) = true := by
  rw [(C26_uint_order hw hl h2 h4).2.1] at h
  have le : ∀ {a b : Int} {u v : Limbs w}, SatU x.length a u → SatU x.length b v → a ≤ b →
      Ord.le false u v = true := by
    intro a b u v hu hv hab
    rw [(C26_uint_order hw (hu.1.trans hv.1.symm) (by rw [hu.1]; exact h2) (by rw [hu.1]; exact h4)).2.1]
    exact hu.mono hv hab
  have nx : x ≠ [] := List.length_pos_iff.1 (by omega)
  have ny : y ≠ [] := List.length_pos_iff.1 (by omega)
  have a1 := C02_uint_saturating_add hw hz.symm
  have a2 := C02_uint_saturating_add (x := y) (y := z) hw (by omega)
  have b1 := C02_uint_saturating_sub hw hz.symm
  have b2 := C02_uint_saturating_sub (x := y) (y := z) hw (by omega)
  have c1 := C02_uint_saturating_sub (x := z) (y := y) hw (by omega)
  have c2 := C02_uint_saturating_sub (x := z) (y := x) hw (by omega)
  have m1 := (C07_uint_saturating_strict_mul hw hz.symm h2 h4).1
  have m2 := (C07_uint_saturating_strict_mul (x := y) (y := z) hw (by omega) (by omega) (by omega)).1
  have p1 := (C11_uint_pow hw nx h32).2.1
  have p2 := (C11_uint_pow hw ny h32).2.1
  rw [← hl] at a2 b2 m2 p2
  rw [hz] at c1 c2
  refine ⟨le a1 a2 (by omega), le b1 b2 (by omega), le c1 c2 (by omega), le m1 m2 ?_, le p1 p2 ?_⟩
  · exact_mod_cast Nat.mul_le_mul_right _ h
  · exact_mod_cast Nat.pow_le_pow_left h e

example := C79_uint_saturating (x := a) (y := top) (z := maxS) (by decide) (by decide) (by decide)
  (by decide) (by decide) (e := 3) (by decide) (by decide)
example : U.saturatingMul a a = ones ∧ U.saturatingMul one a = a := by decide +kernel

/-- C79: the same for the signed type. -/
theorem C79_int_saturating (hw : 1 < w) (hl : x.length = y.length) (hz : z.length = x.length)
    (h2 : x.length % 2 = 0) (h4 : 4 ≤ x.length) (h : Ord.le true x y = true) :
    Ord.le true (I.saturatingAdd x z) (I.saturatingAdd y z) = true ∧
    Ord.le true (I.saturatingSub x z) (I.saturatingSub y z) = true ∧
    Ord.le true (I.saturatingSub z y) (I.saturatingSub z x) = true ∧
    Ord.le true (I.saturatingNeg y) (I.saturatingNeg x) = true := by
  have hw0 : 0 < w := by omega
  rw [(C26_int_order hw0 hl h2 h4).2.1] at h
  have le : ∀ {a b : Int} {u v : Limbs w}, SatS x.length a u → SatS x.length b v → a ≤ b →
      Ord.le true u v = true := by
    intro a b u v hu hv hab
    rw [(C26_int_order hw0 (hu.1.trans hv.1.symm) (by rw [hu.1]; exact h2) (by rw [hu.1]; exact h4)).2.1]
    exact hu.mono hv hab
  have nx : x ≠ [] := List.length_pos_iff.1 (by omega)
  have ny : y ≠ [] := List.length_pos_iff.1 (by omega)
  have nz : z ≠ [] := List.length_pos_iff.1 (by omega)
  have a1 := C03_int_saturating_add hw nx hz.symm
  have a2 := C03_int_saturating_add (x := y) (y := z) hw ny (by omega)
  have b1 := C03_int_saturating_sub hw nx hz.symm
  have b2 := C03_int_saturating_sub (x := y) (y := z) hw ny (by omega)
  have c1 := C03_int_saturating_sub (x := z) (y := y) hw nz (by omega)
  have c2 := C03_int_saturating_sub (x := z) (y := x) hw nz (by omega)
  rw [← hl] at a2 b2
  rw [hz] at c1 c2
  refine ⟨le a1 a2 (by omega), le b1 b2 (by omega), le c1 c2 (by omega), ?_⟩
  have n1 := C36_int_saturating_neg (x := x) hw (by omega)
  have n2 := C36_int_saturating_neg (x := y) hw (by omega)
  rw [← hl] at n2
  exact le n2 n1 (by omega)

example := C79_int_saturating (x := m2) (y := maxS) (z := maxS) (by decide) (by decide) (by decide)
  (by decide) (by decide) (by decide)
example : I.saturatingAdd m2 maxS = [0xfffffffffffffffd, 0xffffffffffffffff, 0xffffffffffffffff,
    0x7fffffffffffffff] ∧ I.saturatingAdd maxS maxS = maxS := by decide

/-! Signed `saturating_mul` does not respect the order, because of B1: with
`x = -(2^255 + 1) / 3 < 0` the product `x * 3` saturates to `MAX`. -/

example : let x : Limbs 64 :=
      [0x5555555555555555, 0x5555555555555555, 0x5555555555555555, 0xd555555555555555]
    Ord.lt true x zero = true ∧ I.saturatingMul x [3, 0, 0, 0] = maxS ∧
      I.saturatingMul zero [3, 0, 0, 0] = zero := by decide +kernel

/-- C79: a sum or difference that does not overflow respects `<=` and `<`. -/
theorem C79_checked (hw : 1 < w) (hl : x.length = y.length) (hz : z.length = x.length)
    (h2 : x.length % 2 = 0) (h4 : 4 ≤ x.length) {u v : Limbs w} :
    (U.checkedAdd x z = some u → U.checkedAdd y z = some v → Ord.cmp false u v = Ord.cmp false x y) ∧
    (U.checkedSub x z = some u → U.checkedSub y z = some v → Ord.cmp false u v = Ord.cmp false x y) ∧
    (U.checkedSub z x = some u → U.checkedSub z y = some v → Ord.cmp false u v = Ord.cmp false y x) ∧
    (I.checkedAdd x z = some u → I.checkedAdd y z = some v → Ord.cmp true u v = Ord.cmp true x y) ∧
    (I.checkedSub x z = some u → I.checkedSub y z = some v → Ord.cmp true u v = Ord.cmp true x y) ∧
    (I.checkedSub z x = some u → I.checkedSub z y = some v → Ord.cmp true u v = Ord.cmp true y x) := by
  have hw0 : 0 < w := by omega
  have nx : x ≠ [] := List.length_pos_iff.1 (by omega)
  have ny : y ≠ [] := List.length_pos_iff.1 (by omega)
  have nz : z ≠ [] := List.length_pos_iff.1 (by omega)
  have lzy : z.length = y.length := by omega
  refine ⟨?_, ?_, ?_, ?_, ?_, ?_⟩ <;> intro e1 e2
  · have h1 := C02_uint_checked_add hw0 hz.symm
    have h3 := C02_uint_checked_add hw0 lzy.symm
    rw [e1] at h1
    rw [e2] at h3
    obtain ⟨l1, v1⟩ := h1.some
    obtain ⟨l3, v3⟩ := h3.some
    apply cmp_of_val hw0 _ hl h2 h4 l1 (by omega) <;>
      simp only [Ord.val, Bool.false_eq_true, if_false] <;> omega
  · have h1 := C02_uint_checked_sub hw0 hz.symm
    have h3 := C02_uint_checked_sub hw0 lzy.symm
    rw [e1] at h1
    rw [e2] at h3
    obtain ⟨l1, v1⟩ := h1.some
    obtain ⟨l3, v3⟩ := h3.some
    apply cmp_of_val hw0 _ hl h2 h4 l1 (by omega) <;>
      simp only [Ord.val, Bool.false_eq_true, if_false] <;> omega
  · have h1 := C02_uint_checked_sub hw0 hz
    have h3 := C02_uint_checked_sub hw0 lzy
    rw [e1] at h1
    rw [e2] at h3
    obtain ⟨l1, v1⟩ := h1.some
    obtain ⟨l3, v3⟩ := h3.some
    apply cmp_of_val hw0 _ hl.symm (by omega) (by omega) (by omega) (by omega) <;>
      simp only [Ord.val, Bool.false_eq_true, if_false] <;> omega
  · have h1 := C03_int_checked_add hw nx hz.symm
    have h3 := C03_int_checked_add hw ny lzy.symm
    rw [e1] at h1
    rw [e2] at h3
    obtain ⟨l1, v1⟩ := h1.some
    obtain ⟨l3, v3⟩ := h3.some
    apply cmp_of_val hw0 _ hl h2 h4 l1 (by omega) <;> simp only [Ord.val, if_true] <;> omega
  · have h1 := C03_int_checked_sub hw nx hz.symm
    have h3 := C03_int_checked_sub hw ny lzy.symm
    rw [e1] at h1
    rw [e2] at h3
    obtain ⟨l1, v1⟩ := h1.some
    obtain ⟨l3, v3⟩ := h3.some
    apply cmp_of_val hw0 _ hl h2 h4 l1 (by omega) <;> simp only [Ord.val, if_true] <;> omega
  · have h1 := C03_int_checked_sub hw nz hz
    have h3 := C03_int_checked_sub hw nz lzy
    rw [e1] at h1
    rw [e2] at h3
    obtain ⟨l1, v1⟩ := h1.some
    obtain ⟨l3, v3⟩ := h3.some
    apply cmp_of_val hw0 _ hl.symm (by omega) (by omega) (by omega) (by omega) <;>
      simp only [Ord.val, if_true] <;> omega

example := (C79_checked (x := one) (y := a) (z := a) (u := [0, 1, 5, 0])
  (v := [0xfffffffffffffffe, 1, 10, 0]) (by decide) (by decide) (by decide) (by decide) (by decide)).1
  (by decide) (by decide)
example : U.checkedAdd ones one = none := by decide

/-- C79: bitwise negation reverses both orders. -/
theorem C79_not (hw : 0 < w) (hl : x.length = y.length) (h2 : x.length % 2 = 0) (h4 : 4 ≤ x.length)
    (s : Bool) : Ord.cmp s (Bits.not x) (Bits.not y) = Ord.cmp s y x := by
  have nx : x ≠ [] := List.length_pos_iff.1 (by omega)
  have ny : y ≠ [] := List.length_pos_iff.1 (by omega)
  have lx := not_length x
  have ly := not_length y
  have ax := not_toNat x
  have ay := not_toNat y
  rw [show bits y = bits x from bits_eq_of_length hl.symm] at ay
  cases s
  · apply cmp_of_val hw _ hl.symm (by omega) (by omega) (by omega) (by omega) <;>
      simp only [Ord.val, Bool.false_eq_true, if_false] <;> omega
  · have bx := (C23_not (x := x) hw).2.2.2 nx
    have by' := (C23_not (x := y) hw).2.2.2 ny
    apply cmp_of_val hw _ hl.symm (by omega) (by omega) (by omega) (by omega) <;>
      simp only [Ord.val, if_true] <;> omega

example := C79_not (x := m2) (y := a) (by decide) (by decide) (by decide) (by decide) true
example : Ord.cmp true m2 a = .lt ∧ Ord.cmp true (Bits.not m2) (Bits.not a) = .gt := by decide

/-- C79: shifting to the right respects both orders. -/
theorem C79_shr (hk : w = 2 ^ k) (hl : x.length = y.length) (h2 : x.length % 2 = 0) (h4 : 4 ≤ x.length)
    (s : Bool) (n : Nat) (h : Ord.le s x y = true) :
    Ord.le s (wrappingShr s x n) (wrappingShr s y n) = true := by
  have hw := pow_pos_width hk
  have nx : x ≠ [] := List.length_pos_iff.1 (by omega)
  have ny : y ≠ [] := List.length_pos_iff.1 (by omega)
  rw [Ord.le_iff hw s hl h2 h4] at h
  cases s
  · obtain ⟨l1, v1⟩ := C20_uint_wrapping_shr hk h2 nx n
    obtain ⟨l2, v2⟩ := C20_uint_wrapping_shr hk (x := y) (by omega) ny n
    rw [Ord.le_iff hw _ (by omega) (by omega) (by omega)]
    simp only [Ord.val, Bool.false_eq_true, if_false] at h ⊢
    rw [v1, v2, ← hl]
    exact Int.ediv_le_ediv (by positivity) h
  · obtain ⟨l1, v1⟩ := C20_int_wrapping_shr hk h2 nx n
    obtain ⟨l2, v2⟩ := C20_int_wrapping_shr hk (x := y) (by omega) ny n
    rw [Ord.le_iff hw _ (by omega) (by omega) (by omega)]
    simp only [Ord.val, if_true] at h ⊢
    rw [v1, v2, ← hl]
    exact Int.ediv_le_ediv (by positivity) h

example := C79_shr (k := 6) (x := m2) (y := a) (by decide) (by decide) (by decide) (by decide) true 77
  (by decide)
example : wrappingShr true m2 77 = ones ∧ wrappingShr false m2 77 ≠ ones := by decide

/-- C79: the midpoint lies between its arguments and does not depend on their order. -/
theorem C79_midpoint (hk : w = 2 ^ k) (hl : x.length = y.length) (h2 : x.length % 2 = 0)
    (h4 : 4 ≤ x.length) :
    (Ord.le false x y = true →
      Ord.le false x (U.midpoint x y) = true ∧ Ord.le false (U.midpoint x y) y = true) ∧
    (Ord.le true x y = true →
      Ord.le true x (I.midpoint x y) = true ∧ Ord.le true (I.midpoint x y) y = true) ∧
    U.midpoint x y = U.midpoint y x ∧ I.midpoint x y = I.midpoint y x := by
  have hw := pow_pos_width hk
  have nx : x ≠ [] := List.length_pos_iff.1 (by omega)
  have ny : y ≠ [] := List.length_pos_iff.1 (by omega)
  have u1 := C35_uint_midpoint hk hl h2 nx
  have u2 := C35_uint_midpoint hk hl.symm (by omega) ny
  have i1 := C43_int_midpoint_partial hk hl h2 nx
  have i2 := C43_int_midpoint_partial hk hl.symm (by omega) ny
  rw [← hl, add_comm] at u2 i2
  refine ⟨?_, ?_, u1.unique u2, i1.unique i2⟩
  · obtain ⟨l, v⟩ := u1
    rw [Ord.le_iff hw false hl h2 h4, Ord.le_iff hw false l.symm h2 h4,
      Ord.le_iff hw false (by omega) (by omega) (by omega)]
    simp only [Ord.val, Bool.false_eq_true, if_false]
    omega
  · obtain ⟨l, v⟩ := i1
    rw [Ord.le_iff hw true hl h2 h4, Ord.le_iff hw true l.symm h2 h4,
      Ord.le_iff hw true (by omega) (by omega) (by omega)]
    simp only [Ord.val, if_true]
    rw [v, Int.tdiv_eq_ediv, show Int.sign 2 = 1 from rfl]
    split <;> omega

example := C79_midpoint (k := 6) (x := m2) (y := a) (by decide) (by decide) (by decide) (by decide)
example : I.midpoint ones zero = zero ∧ I.midpoint zero ones = zero := by decide +kernel

/-- C79: `abs_diff` is a distance: symmetric, zero exactly for equal numbers, and the triangle inequality
holds (the sum on the right may overflow, hence the saturating addition). -/
theorem C79_abs_diff (hw : 0 < w) (hl : x.length = y.length) (hz : z.length = x.length)
    (h2 : x.length % 2 = 0) (h4 : 4 ≤ x.length) :
    U.absDiff x y = U.absDiff y x ∧ I.absDiff x y = I.absDiff y x ∧
    (toNat (U.absDiff x y) = 0 ↔ x = y) ∧ (toNat (I.absDiff x y) = 0 ↔ x = y) ∧
    Ord.le false (U.absDiff x z) (U.saturatingAdd (U.absDiff x y) (U.absDiff y z)) = true ∧
    Ord.le false (I.absDiff x z) (U.saturatingAdd (I.absDiff x y) (I.absDiff y z)) = true := by
  have u1 := C35_uint_abs_diff hw hl h2 (by omega)
  have u2 := C35_uint_abs_diff hw hl.symm (by omega) (by omega)
  have u3 := C35_uint_abs_diff (x := y) (y := z) hw (by omega) (by omega) (by omega)
  have u4 := C35_uint_abs_diff hw hz.symm h2 (by omega)
  have i1 := C36_int_abs_diff hw hl h2 (by omega)
  have i2 := C36_int_abs_diff hw hl.symm (by omega) (by omega)
  have i3 := C36_int_abs_diff (x := y) (y := z) hw (by omega) (by omega) (by omega)
  have i4 := C36_int_abs_diff hw hz.symm h2 (by omega)
  rw [← hl] at u2 u3 i2 i3
  rw [abs_sub_comm] at u2 i2
  have a1 := C02_uint_saturating_add hw (u1.1.trans u3.1.symm)
  have a2 := C02_uint_saturating_add hw (i1.1.trans i3.1.symm)
  have b4 := toNat_lt_int (U.absDiff x z)
  have c4 := toNat_lt_int (I.absDiff x z)
  rw [bits, u4.1] at b4
  rw [bits, i4.1] at c4
  rw [u1.1] at a1
  rw [i1.1] at a2
  refine ⟨u1.unique u2, i1.unique i2, ?_, ?_, ?_, ?_⟩
  · have := u1.2
    refine ⟨fun h => toNat_inj hl ?_, fun h => ?_⟩
    · have := abs_eq_zero.1 (this.symm.trans (by rw [h]; rfl))
      omega
    · rw [h, sub_self, abs_zero] at this
      rw [h]
      omega
  · have := i1.2
    refine ⟨fun h => toInt_inj hl ?_, fun h => ?_⟩
    · have := abs_eq_zero.1 (this.symm.trans (by rw [h]; rfl))
      omega
    · rw [h, sub_self, abs_zero] at this
      rw [h]
      omega
  · rw [Ord.le_iff hw false (u4.1.trans a1.1.symm) (by rw [u4.1]; exact h2) (by rw [u4.1]; exact h4)]
    simp only [Ord.val, Bool.false_eq_true, if_false]
    have := a1.2
    have := abs_sub_le (toNat x : Int) (toNat y) (toNat z)
    have := u1.2
    have := u3.2
    have := u4.2
    omega
  · rw [Ord.le_iff hw false (i4.1.trans a2.1.symm) (by rw [i4.1]; exact h2) (by rw [i4.1]; exact h4)]
    simp only [Ord.val, Bool.false_eq_true, if_false]
    have := a2.2
    have := abs_sub_le (toInt x : Int) (toInt y) (toInt z)
    have := i1.2
    have := i3.2
    have := i4.2
    omega

example := C79_abs_diff (x := m2) (y := a) (z := top) (by decide) (by decide) (by decide) (by decide)
  (by decide)
example : U.absDiff zero ones = ones ∧ I.absDiff zero ones = one := by decide +kernel

/-- C79: division respects `<=` in the numerator, and the unsigned quotient reverses it in the
divisor. -/
theorem C79_div (hw : 1 < w) (hl : x.length = y.length) (hz : z.length = x.length)
    (h2 : x.length % 2 = 0) (h4 : 4 ≤ x.length) {u v : Limbs w} :
    (Ord.le false x y = true → toNat z ≠ 0 → U.wrappingDiv x z = .ok u → U.wrappingDiv y z = .ok v →
      Ord.le false u v = true) ∧
    (Ord.le false x y = true → toNat x ≠ 0 → U.wrappingDiv z x = .ok u → U.wrappingDiv z y = .ok v →
      Ord.le false v u = true) ∧
    (Ord.le true x y = true → 0 < toInt z → I.wrappingDiv x z = .ok u → I.wrappingDiv y z = .ok v →
      Ord.le true u v = true) := by
  have hw0 : 0 < w := by omega
  have lzy : z.length = y.length := by omega
  have fin : ∀ {P : Prop} {Q : Limbs w → Prop} {r : Res (Limbs w)} {t : Limbs w}, Yields P Q r →
      r = .ok t → Q t := by
    intro P Q r t h e
    have hp : ¬ P := fun hp => by rw [h.1 hp] at e; cases e
    obtain ⟨t', e', ht⟩ := h.2 hp
    rw [e] at e'
    cases e'
    exact ht
  refine ⟨?_, ?_, ?_⟩ <;> intro h h0 e1 e2
  · rw [Ord.le_iff hw0 false hl h2 h4] at h
    have d1 := fin (C12_uint_div hw0 hz.symm (by omega) h2 h0 true _ (by simp)) e1
    have d2 := fin (C12_uint_div hw0 lzy.symm (by omega) (by omega) h0 true _ (by simp)) e2
    rw [Ord.le_iff hw0 false (by rw [d1.1, d2.1, hl]) (by rw [d1.1]; exact h2) (by rw [d1.1]; exact h4)]
    simp only [Ord.val, Bool.false_eq_true, if_false] at h ⊢
    rw [d1.2, d2.2]
    exact Int.ediv_le_ediv (by omega) h
  · rw [Ord.le_iff hw0 false hl h2 h4] at h
    simp only [Ord.val, Bool.false_eq_true, if_false] at h
    have d1 := fin (C12_uint_div hw0 hz (by omega) (by omega) h0 true _ (by simp)) e1
    have d2 := fin (C12_uint_div hw0 lzy (by omega) (by omega) (by omega) true _ (by simp)) e2
    rw [Ord.le_iff hw0 false (by rw [d1.1, d2.1]) (by rw [d2.1]; omega) (by rw [d2.1]; omega)]
    simp only [Ord.val, Bool.false_eq_true, if_false]
    rw [d1.2, d2.2]
    exact_mod_cast Nat.div_le_div_left (by omega) (by omega)
  · rw [Ord.le_iff hw0 true hl h2 h4] at h
    simp only [Ord.val, if_true] at h
    have d1 := fin (C17_int_wrapping_div hw hz.symm (by omega) h2 h0.ne') e1
    have d2 := fin (C17_int_wrapping_div hw lzy.symm (by omega) (by omega) h0.ne') e2
    have pos : ∀ {t : Limbs w}, t.length = x.length → InS (w * x.length) ((toInt t).tdiv (toInt z)) := by
      intro t ht
      have it := toInt_InS t
      have iz := toInt_InS z
      rw [bits, ht] at it
      rw [bits, hz] at iz
      rw [tdiv_InS (by positivity) it iz]
      omega
    have f1 := d1.exact (pos rfl)
    rw [← hl] at d2
    have f2 := d2.exact (pos hl.symm)
    rw [Ord.le_iff hw0 true (by rw [f1.1, f2.1]) (by rw [f1.1]; exact h2) (by rw [f1.1]; exact h4)]
    simp only [Ord.val, if_true]
    rw [f1.2, f2.2]
    exact Int.tdiv_le_tdiv h0 h

example := (C79_div (x := m2) (y := a) (z := one) (u := m2) (v := a) (by decide) (by decide) (by decide)
  (by decide) (by decide)).2.2 (by decide) (by decide +kernel) (by decide +kernel) (by decide +kernel)
example : U.wrappingDiv a [2, 0, 0, 0] = .ok [0xffffffffffffffff >>> 1, 0x8000000000000000, 2, 0] := by
  decide +kernel

end I256
