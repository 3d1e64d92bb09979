import Verif.Lemmas.FormsScalar
import Verif.Lemmas.TextNormal
import Verif.Props.GapAll
import Verif.Props.Casts
import Verif.Props.DivForms
import Verif.Props.Sign

/-!
# Lemmas for the agreement of scalar and full operands (C98)

The contracts determine the results, so two operations that meet the same contract return the same.
-/

namespace I256

variable {w N : Nat} {z : Int} {oc : Bool} {x y : Limbs w}

theorem OverU.unique {r r' : Limbs w × Bool} (h : OverU N z r) (h' : OverU N z r') : r = r' :=
  Prod.ext (h.1.unique h'.1 rfl) (Bool.eq_iff_iff.2 (h.2.trans h'.2.symm))

theorem OverS.unique {r r' : Limbs w × Bool} (h : OverS N z r) (h' : OverS N z r') : r = r' :=
  Prod.ext (h.1.unique h'.1) (Bool.eq_iff_iff.2 (h.2.trans h'.2.symm))

theorem OverG.unique {r r' : Limbs w × Bool} (h : OverG N z r) (h' : OverG N z r') : r = r' :=
  Prod.ext (h.1.unique h'.1) (Bool.eq_iff_iff.2 (h.2.trans h'.2.symm))

theorem CheckS.unique {o o' : Option (Limbs w)} (h : CheckS N z o) (h' : CheckS N z o') : o = o' := by
  by_cases c : InS (w * N) z
  · obtain ⟨v, rfl, hv⟩ := h.1 c
    obtain ⟨v', rfl, hv'⟩ := h'.1 c
    rw [hv.unique hv']
  · rw [h.2 c, h'.2 c]

theorem CheckG.unique {o o' : Option (Limbs w)} (h : CheckG N z o) (h' : CheckG N z o') : o = o' := by
  by_cases c : Passes w N z
  · obtain ⟨v, rfl, hv⟩ := h.1 c
    obtain ⟨v', rfl, hv'⟩ := h'.1 c
    rw [hv.unique hv']
  · rw [h.2 c, h'.2 c]

theorem OpU.unique {o o' : Res (Limbs w)} (h : OpU oc N z o) (h' : OpU oc N z o') : o = o' := by
  cases oc
  · obtain ⟨v, rfl, hv⟩ := h
    obtain ⟨v', rfl, hv'⟩ := h'
    rw [hv.unique hv' rfl]
  · by_cases c : InU (w * N) z
    · obtain ⟨v, rfl, hv⟩ := h.1 c
      obtain ⟨v', rfl, hv'⟩ := h'.1 c
      rw [hv.unique hv']
    · rw [h.2 c, h'.2 c]

theorem OpS.unique {o o' : Res (Limbs w)} (h : OpS oc N z o) (h' : OpS oc N z o') : o = o' := by
  cases oc
  · obtain ⟨v, rfl, hv⟩ := h
    obtain ⟨v', rfl, hv'⟩ := h'
    rw [hv.unique hv']
  · by_cases c : InS (w * N) z
    · obtain ⟨v, rfl, hv⟩ := h.1 c
      obtain ⟨v', rfl, hv'⟩ := h'.1 c
      rw [hv.unique hv']
    · rw [h.2 c, h'.2 c]

theorem OpG.unique {o o' : Res (Limbs w)} (h : OpG oc N z o) (h' : OpG oc N z o') : o = o' := by
  cases oc
  · obtain ⟨v, rfl, hv⟩ := h
    obtain ⟨v', rfl, hv'⟩ := h'
    rw [hv.unique hv']
  · by_cases c : Passes w N z
    · obtain ⟨v, rfl, hv⟩ := h.1 c
      obtain ⟨v', rfl, hv'⟩ := h'.1 c
      rw [hv.unique hv']
    · rw [h.2 c, h'.2 c]

/-! ### The four forms at once -/

section forms
variable {a a' : Limbs w} {b b' : Limbs w × Bool} {c c' : Option (Limbs w)} {d d' : Res (Limbs w)}
  {ra : Res (Limbs w)} {rb : Res (Limbs w × Bool)} {rc : Res (Option (Limbs w))}

theorem formsU_eq (h : WrapU N z a ∧ OverU N z b ∧ CheckU N z c ∧ OpU oc N z d)
    (h' : WrapU N z a' ∧ OverU N z b' ∧ CheckU N z c' ∧ OpU oc N z d') :
    a = a' ∧ b = b' ∧ c = c' ∧ d = d' :=
  ⟨h.1.unique h'.1 rfl, h.2.1.unique h'.2.1, h.2.2.1.unique h'.2.2.1, h.2.2.2.unique h'.2.2.2⟩

theorem formsS_eq (h : WrapS N z a ∧ OverS N z b ∧ CheckS N z c ∧ OpS oc N z d)
    (h' : WrapS N z a' ∧ OverS N z b' ∧ CheckS N z c' ∧ OpS oc N z d') :
    a = a' ∧ b = b' ∧ c = c' ∧ d = d' :=
  ⟨h.1.unique h'.1, h.2.1.unique h'.2.1, h.2.2.1.unique h'.2.2.1, h.2.2.2.unique h'.2.2.2⟩

theorem formsG_eq (h : WrapS N z a ∧ OverG N z b ∧ CheckG N z c ∧ OpG oc N z d)
    (h' : WrapS N z a' ∧ OverG N z b' ∧ CheckG N z c' ∧ OpG oc N z d') :
    a = a' ∧ b = b' ∧ c = c' ∧ d = d' :=
  ⟨h.1.unique h'.1, h.2.1.unique h'.2.1, h.2.2.1.unique h'.2.2.1, h.2.2.2.unique h'.2.2.2⟩

theorem FormsU.eq (h : FormsU oc N z ra rb rc d)
    (h' : WrapU N z a' ∧ OverU N z b' ∧ CheckU N z c' ∧ OpU oc N z d') :
    ra = .ok a' ∧ rb = .ok b' ∧ rc = .ok c' ∧ d = d' := by
  obtain ⟨⟨a, rfl, ha⟩, ⟨b, rfl, hb⟩, ⟨c, rfl, hc⟩, hd⟩ := h
  obtain ⟨rfl, rfl, rfl, e⟩ := formsU_eq ⟨ha, hb, hc, hd⟩ h'
  exact ⟨rfl, rfl, rfl, e⟩

theorem FormsS.eq (h : FormsS oc N z ra rb rc d)
    (h' : WrapS N z a' ∧ OverS N z b' ∧ CheckS N z c' ∧ OpS oc N z d') :
    ra = .ok a' ∧ rb = .ok b' ∧ rc = .ok c' ∧ d = d' := by
  obtain ⟨⟨a, rfl, ha⟩, ⟨b, rfl, hb⟩, ⟨c, rfl, hc⟩, hd⟩ := h
  obtain ⟨rfl, rfl, rfl, e⟩ := formsS_eq ⟨ha, hb, hc, hd⟩ h'
  exact ⟨rfl, rfl, rfl, e⟩

theorem FormsG.eq (h : FormsG oc N z ra rb rc d)
    (h' : WrapS N z a' ∧ OverG N z b' ∧ CheckG N z c' ∧ OpG oc N z d') :
    ra = .ok a' ∧ rb = .ok b' ∧ rc = .ok c' ∧ d = d' := by
  obtain ⟨⟨a, rfl, ha⟩, ⟨b, rfl, hb⟩, ⟨c, rfl, hc⟩, hd⟩ := h
  obtain ⟨rfl, rfl, rfl, e⟩ := formsG_eq ⟨ha, hb, hc, hd⟩ h'
  exact ⟨rfl, rfl, rfl, e⟩

end forms

/-! ### The full operations -/

section full
variable (hw : 1 < w) (h4 : 4 ≤ x.length) (he : x.length % 2 = 0)
include hw h4

omit h4 in
theorem fullAddU (hy : ExactU x.length z y) :
    WrapU x.length (toNat x + z) (U.wrappingAdd x y) ∧ OverU x.length (toNat x + z) (U.overflowingAdd x y) ∧
    CheckU x.length (toNat x + z) (U.checkedAdd x y) ∧ OpU oc x.length (toNat x + z) (U.add oc x y) := by
  have hl := hy.1.symm
  rw [← hy.2]
  have h0 : 0 < w := by omega
  exact ⟨C01_uint_wrapping_add h0 hl, C02_uint_overflowing_add h0 hl, C02_uint_checked_add h0 hl,
    (C42_uint_add_sub h0 hl oc).1⟩

omit h4 in
theorem fullSubU (hy : ExactU x.length z y) :
    WrapU x.length (toNat x - z) (U.wrappingSub x y) ∧ OverU x.length (toNat x - z) (U.overflowingSub x y) ∧
    CheckU x.length (toNat x - z) (U.checkedSub x y) ∧ OpU oc x.length (toNat x - z) (U.sub oc x y) := by
  have hl := hy.1.symm
  rw [← hy.2]
  have h0 : 0 < w := by omega
  exact ⟨C01_uint_wrapping_sub h0 hl, (C02_uint_overflowing_sub h0 hl).1, C02_uint_checked_sub h0 hl,
    (C42_uint_add_sub h0 hl oc).2⟩

theorem fullAddS (hy : ExactS x.length z y) :
    WrapS x.length (toInt x + z) (I.wrappingAdd x y) ∧ OverS x.length (toInt x + z) (I.overflowingAdd x y) ∧
    CheckS x.length (toInt x + z) (I.checkedAdd x y) ∧ OpS oc x.length (toInt x + z) (I.add oc x y) := by
  have hl := hy.1.symm
  rw [← hy.2]
  have hx : x ≠ [] := by rintro rfl; simp at h4
  exact ⟨C03_int_wrapping_add (by omega) hl, C03_int_overflowing_add hw hx hl,
    C03_int_checked_add hw hx hl, (C42_int_add_sub hw hx hl oc).1⟩

theorem fullSubS (hy : ExactS x.length z y) :
    WrapS x.length (toInt x - z) (I.wrappingSub x y) ∧ OverS x.length (toInt x - z) (I.overflowingSub x y) ∧
    CheckS x.length (toInt x - z) (I.checkedSub x y) ∧ OpS oc x.length (toInt x - z) (I.sub oc x y) := by
  have hl := hy.1.symm
  rw [← hy.2]
  have hx : x ≠ [] := by rintro rfl; simp at h4
  exact ⟨C03_int_wrapping_sub (by omega) hl, C03_int_overflowing_sub hw hx hl,
    C03_int_checked_sub hw hx hl, (C42_int_add_sub hw hx hl oc).2⟩

theorem fullMulS (hy : ExactS x.length z y) :
    WrapS x.length (toInt x * z) (I.wrappingMul x y) ∧ OverG x.length (toInt x * z) (I.overflowingMul x y) ∧
    CheckG x.length (toInt x * z) (I.checkedMul x y) ∧ OpG oc x.length (toInt x * z) (I.mul oc x y) := by
  have hl := hy.1.symm
  rw [← hy.2]
  have hx : x ≠ [] := by rintro rfl; simp at h4
  obtain ⟨a, b, -, -, c⟩ := C08_int_mul_all_partial (by omega) hx hl oc
  exact ⟨C06_int_wrapping_mul hx hl, a, b, c⟩

include he

theorem fullMulU (hy : ExactU x.length z y) :
    WrapU x.length (toNat x * z) (U.wrappingMul x y) ∧ OverU x.length (toNat x * z) (U.overflowingMul x y) ∧
    CheckU x.length (toNat x * z) (U.checkedMul x y) ∧ OpU oc x.length (toNat x * z) (U.mul oc x y) := by
  have hl := hy.1.symm
  rw [← hy.2]
  have h0 : 0 < w := by omega
  have hx : x ≠ [] := by rintro rfl; simp at h4
  exact ⟨C06_uint_wrapping_mul hx hl, C07_uint_overflowing_mul hx hl, C07_uint_checked_mul h0 hl he h4,
    C42_uint_mul h0 hl he h4 oc⟩

end full

/-! ### Division -/

theorem Agree.sameForms {α β : Type} {wr : Res α} {ov : Res (α × Bool)} {ch : Res (Option α)} {st : Res α}
    {op : Bool → Res α} {wr' : Res β} {ov' : Res (β × Bool)} {ch' : Res (Option β)} {op' : Res β} (f : β → α)
    (h : Agree wr ov ch st op) (h' : AgreeIn oc wr' ov' ch' op')
    (e : ov = ov'.map fun p => (f p.1, p.2)) : SameForms f wr ov ch (op oc) wr' ov' ch' op' := by
  subst e
  rcases ov' with ⟨v, b⟩ | _
  · cases b
    · obtain ⟨rfl, rfl, rfl⟩ := h'
      obtain ⟨h1, h2, -, h3⟩ := h
      exact ⟨h1, rfl, h2, h3 oc⟩
    · obtain ⟨rfl, rfl, rfl⟩ := h'
      obtain ⟨h1, h2, -, h3, h4⟩ := h
      refine ⟨h1, rfl, h2, ?_⟩
      cases oc
      · exact h4
      · exact h3
  · obtain ⟨rfl, rfl, rfl⟩ := h'
    obtain ⟨h1, h2, -, h3⟩ := h
    exact ⟨h1, rfl, h2, h3 oc⟩

theorem natAbs_toInt_lt {k : Nat} (v : BitVec k) : v.toInt.natAbs < 2 ^ k := by
  have := natAbs_toInt_le v
  have : 0 < 2 ^ k := by positivity
  omega

/-- A divisor of at most two limbs: nothing is left over in the remainder unless the division by the
double limb panics. -/
theorem stray_of_two (hw : 0 < w) {X Y : Nat} (hY : Y < 2 ^ (w + w))
    (h : ¬ DivPanics w 2 X Y) :
    strayRem w N X Y = 0 := by
  by_cases c : nLimbs w Y = 2
  · refine Clean.stray fun j => ?_
    by_contra hj
    exact h ⟨c, j, by simpa using hj⟩
  · refine (addBack_clean_of_small (.inl ?_)).stray
    by_cases hz : Y = 0
    · rw [hz, nLimbs_zero hw]; omega
    have h := (nLimbs_spec hw hz).2.1.trans_lt hY
    rw [← Nat.mul_two] at h
    have := Nat.lt_of_mul_lt_mul_left ((Nat.pow_lt_pow_iff_right (by omega)).1 h)
    omega

/-- Full division by at most two limbs does not panic. -/
theorem noPanic_of_two (hw : 0 < w) {X Y : Nat} (hN : 3 ≤ N) (hY : Y < 2 ^ (w + w)) : ¬ DivPanics w N X Y :=
  C14_no_panic hw (by omega) (hY.trans_le (Nat.pow_le_pow_right (by omega) (by
    rw [← Nat.mul_two]; exact Nat.mul_le_mul_left _ (by omega))))

/-- Full unsigned division that leaves nothing over. -/
theorem fullDivU (hw : 0 < w) (h4 : 4 ≤ x.length) (he : x.length % 2 = 0) {Y : Nat} (hy : ExactU x.length Y y)
    (h0 : Y ≠ 0) (hd : DivExact w x.length (toNat x) Y) :
    ∃ q r, U.wrappingDivRem x y = .ok (q, r) ∧ ExactU x.length (toNat x / Y : Nat) q ∧
      ExactU x.length (toNat x % Y : Nat) r := by
  have hv : toNat y = Y := by exact_mod_cast hy.2
  subst hv
  obtain ⟨p, ep, hq⟩ := ((C12_uint_div_rem hw hy.1.symm (by omega) he h0 true).1 U.wrappingDivRem
    (List.mem_cons_self ..)).2 hd.1
  obtain ⟨p', ep', hr⟩ := ((C13_uint_rem_forms_partial hw hy.1.symm (by omega) he h0 true).2.2.1 U.wrappingDivRem
    (List.mem_cons_self ..)).2 hd.1
  rw [ep] at ep'
  cases ep'
  rw [hd.2] at hr
  exact ⟨p.1, p.2, ep, by simpa using hq, by simpa using hr⟩

/-- Full signed division that leaves nothing over. -/
theorem fullDivS (hw : 1 < w) (h4 : 4 ≤ x.length) (he : x.length % 2 = 0) {Y : Int} (hy : ExactS x.length Y y)
    (h0 : Y ≠ 0) (hd : DivExact w x.length (toInt x).natAbs Y.natAbs) :
    ∃ q r f, I.overflowingDivRem x y = .ok ((q, r), f) ∧ I.overflowingDiv x y = .ok (q, f) ∧
      I.overflowingRem x y = .ok (r, f) ∧ OverS x.length ((toInt x).tdiv Y) (q, f) ∧
      ExactS x.length ((toInt x).tmod Y) r := by
  have hv : toInt y = Y := hy.2
  subst hv
  have hl := hy.1.symm
  obtain ⟨⟨⟨q, r⟩, f⟩, e, ho, hr⟩ := (C17_int_div_rem_all_partial hw hl (by omega) he h0 rfl true).1.2 hd.1
  obtain ⟨⟨q', f'⟩, e', ho', hc⟩ := (C17_int_overflowing_div hw hl (by omega) he h0).2 hd.1
  obtain ⟨⟨r', f''⟩, e'', hr', hc'⟩ := (C17_int_rem_all_partial hw hl (by omega) he h0 rfl true).1.2 hd.1
  simp only [hd.2, Int.natCast_zero, Int.mul_zero, Int.add_zero] at hr hr'
  obtain ⟨rfl, rfl⟩ := Prod.ext_iff.1 (OverS.unique ho ho')
  obtain rfl := ExactS.unique hr hr'
  obtain rfl : f = f'' := Bool.eq_iff_iff.2 (hc.trans hc'.symm)
  exact ⟨q, r, f, e, e', e'', ho, hr⟩

end I256
