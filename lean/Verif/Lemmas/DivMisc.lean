import Verif.Lemmas.DivSigned

/-!
# Ceiling division, multiples and scalar divisors
-/

namespace I256

variable {w : Nat}

/-- A divisor that leaves something in the remainder is at least 2. -/
theorem one_lt_of_rem (hw : 0 < w) {N X Y : Nat} (hY : Y ≠ 0) (h : ¬ (X % Y = 0 ∧ strayRem w N X Y = 0)) :
    1 < Y := by
  by_contra hc
  have : Y = 1 := by omega
  subst this
  have hcl := clean_neg_one hw (x := X) (y := -1) rfl
  rw [show (-1 : Int).natAbs = 1 from rfl] at hcl
  exact h ⟨Nat.mod_one _, hcl.stray⟩

theorem wrappingAddULimb_one (hw : 0 < w) {N Q : Nat} {q : Limbs w} (hN : 0 < N)
    (hq : ExactU N Q q) (hlt : Q + 1 < 2 ^ (w * N)) : ExactU N (Q + 1) (U.wrappingAddULimb q 1) := by
  have h1 := Add.limbWrapU hw (length_ne (n := 0) (by rw [hq.1]; exact hN)) (x := q) 1
  rw [hq.1, toNat_one hw, hq.2] at h1
  refine h1.exact ⟨by omega, ?_⟩
  exact_mod_cast hlt

/-- The value `div_ceil` returns, unsigned. -/
theorem divCeilU (hw : 0 < w) {x y : Limbs w} (hl : x.length = y.length) (h2 : 2 ≤ x.length)
    (he : x.length % 2 = 0) (hy : toNat y ≠ 0) :
    Yields (DivPanics w x.length (toNat x) (toNat y))
      (ExactU x.length ((toNat x / toNat y + if toNat y ∣ toNat x ∧
        strayRem w x.length (toNat x) (toNat y) = 0 then 0 else 1 : Nat) : Int))
      (U.divCeil x y) := by
  refine (wrappingDivRemU hw hl h2 hy).map ?_
  rintro ⟨q, r⟩ ⟨hq, hr⟩
  simp only at hq hr ⊢
  have hz := eqZero_iff (y := r) (by rw [hr.1]; exact he) (by rw [hr.1]; exact h2)
  have hrv : toNat r = toNat x % toNat y + strayRem w x.length (toNat x) (toNat y) := by
    have := hr.2; exact_mod_cast this
  rw [hrv] at hz
  have hd : toNat y ∣ toNat x ↔ toNat x % toNat y = 0 := Nat.dvd_iff_mod_eq_zero
  by_cases c : toNat x % toNat y = 0 ∧ strayRem w x.length (toNat x) (toNat y) = 0
  · rw [if_pos (by rw [hd]; exact c), if_neg (by rw [hz.2 (by omega)]; simp)]
    exact_mod_cast hq
  · have hc : Ord.eqConst r (ofU8 r.length 0) = false := by
      rw [← Bool.not_eq_true, hz]; omega
    rw [if_neg (by rw [hd]; exact c), if_pos (by rw [hc]; rfl)]
    have h1 := one_lt_of_rem hw hy c
    have hx := toNat_lt x
    have hdl : toNat x / toNat y ≤ toNat x / 2 := Nat.div_le_div_left (by omega) (by omega)
    have hb : bits x = w * x.length := rfl
    have hx0 : toNat x ≠ 0 := by
      intro h
      apply c
      rw [h]
      exact ⟨Nat.zero_mod _, stray_zero_num⟩
    have := wrappingAddULimb_one hw (N := x.length) (by omega) (Q := toNat x / toNat y)
      (by exact_mod_cast hq) (by rw [← hb]; omega)
    exact_mod_cast this

theorem minU_iff {x r : Limbs w} (hl : r.length = x.length) : r = U.minValue w x.length ↔ toNat r = 0 := by
  have h := minValueU (w := w) (N := x.length)
  constructor
  · intro e; rw [e]; have := h.2; exact_mod_cast this
  · intro e; exact toNat_inj (hl.trans h.1.symm) (by rw [e]; have := h.2; exact_mod_cast this.symm)

/-- `is_multiple_of`. -/
theorem isMultipleOfU (hw : 0 < w) {x y : Limbs w} (hl : x.length = y.length) (h2 : 2 ≤ x.length)
    (he : x.length % 2 = 0) :
    Yields (DivPanics w x.length (toNat x) (toNat y))
      (fun b => b = true ↔ toNat y ∣ toNat x ∧ strayRem w x.length (toNat x) (toNat y) = 0)
      (U.isMultipleOf x y) := by
  have hm := minValueU (w := w) (N := x.length)
  have heq : ∀ r : Limbs w, r.length = x.length →
      (Ord.eqConst r (U.minValue w x.length) = true ↔ toNat r = 0) := by
    intro r hr
    rw [Ord.eqConst_iff (hr.trans hm.1.symm) (by omega), minU_iff hr]
  unfold U.isMultipleOf
  by_cases hy : toNat y = 0
  · rw [if_pos ((minU_iff hl.symm).2 hy), hy]
    have hc : Clean w (toNat x) 0 := addBack_clean_of_small (.inl (by rw [nLimbs_zero hw]; omega))
    refine .ok hc.noPanic ?_
    rw [heq x rfl]
    simp [hc.stray]
  · rw [if_neg (fun h => hy ((minU_iff hl.symm).1 h))]
    refine (wrappingRemU hw hl h2 hy).map ?_
    rintro r ⟨rl, rv⟩
    rw [heq r rl]
    have : toNat r = toNat x % toNat y + strayRem w x.length (toNat x) (toNat y) := by exact_mod_cast rv
    rw [this, Nat.dvd_iff_mod_eq_zero]; omega

/-- The least multiple of `y` that is at least `x`. -/
theorem next_mul_val {x y : Nat} (hy : y ≠ 0) :
    (x % y = 0 → (x + y - 1) / y * y = x) ∧
    (x % y ≠ 0 → (x + y - 1) / y * y = x + (y - x % y)) := by
  have h := Nat.div_add_mod x y
  have hlt := Nat.mod_lt x (Nat.pos_of_ne_zero hy)
  generalize x / y = q at *
  generalize hr : x % y = r at *
  constructor
  · intro h0
    have : (x + y - 1) / y = q := by
      apply Nat.div_eq_of_lt_le
      · rw [Nat.mul_comm]; omega
      · rw [Nat.succ_mul, Nat.mul_comm]; omega
    rw [this, Nat.mul_comm]; omega
  · intro h0
    have : (x + y - 1) / y = q + 1 := by
      apply Nat.div_eq_of_lt_le
      · rw [Nat.succ_mul, Nat.mul_comm]; omega
      · rw [Nat.succ_mul, Nat.succ_mul, Nat.mul_comm]; omega
    rw [this, Nat.succ_mul, Nat.mul_comm]; omega

/-- It is the least multiple of `y` that is at least `x`. -/
theorem next_mul_least {x y m : Nat} (hy : y ≠ 0) (hm : y ∣ m) (hx : x ≤ m) :
    (x + y - 1) / y * y ≤ m := by
  obtain ⟨c, rfl⟩ := hm
  rw [Nat.mul_comm y c]
  apply Nat.mul_le_mul_right
  apply Nat.le_of_lt_succ
  rw [Nat.div_lt_iff_lt_mul (Nat.pos_of_ne_zero hy), Nat.succ_mul, Nat.mul_comm]
  omega

/-! ### The non-zero divisor collapses checked and operator forms to the wrapping one -/

section nonzero
variable {x y : Limbs w} (hl : x.length = y.length) (h2 : 2 ≤ x.length) (he : x.length % 2 = 0)
  (hy : toNat y ≠ 0)
include hl h2 he hy

theorem checkedU_eq {α : Type} (r : Res α) : checkedBy (U.isDivNone y) r = r.map some := by
  rw [isDivNoneU (by omega) (by omega) hy, checkedBy_false]

theorem opU_eq {α : Type} (oc : Bool) (r : Res α) : opOfR oc r (checkedBy (U.isDivNone y) r) = r := by
  rw [checkedU_eq hl h2 he hy, opOfR_checked]

theorem strictU_eq {α : Type} (r : Res α) :
    (checkedBy (U.isDivNone y) r).bind unwrapOrPanic = r := by
  rw [checkedU_eq hl h2 he hy, map_some_unwrap]

end nonzero

theorem addOpU (hw : 0 < w) {x y : Limbs w} (hl : x.length = y.length) (oc : Bool) :
    OpU oc x.length ((toNat x : Int) + toNat y) (U.add oc x y) :=
  (Add.overU hw hl).check.op (Add.wrapU hw hl) oc

theorem subOpU (hw : 0 < w) {x y : Limbs w} (hl : x.length = y.length) (oc : Bool) :
    OpU oc x.length ((toNat x : Int) - toNat y) (U.sub oc x y) :=
  (Sub.overU hw hl).check.op (Sub.wrapU hw hl) oc

/-- The remainder when nothing is left over. -/
theorem wrappingRemU_exact (hw : 0 < w) {x y : Limbs w} (hl : x.length = y.length) (h2 : 2 ≤ x.length)
    (hy : toNat y ≠ 0) (hd : DivExact w x.length (toNat x) (toNat y)) :
    ∃ r, U.wrappingRem x y = .ok r ∧ r.length = x.length ∧ toNat r = toNat x % toNat y := by
  obtain ⟨r, e, rl, rv⟩ := (wrappingRemU hw hl h2 hy).2 hd.1
  refine ⟨r, e, rl, ?_⟩
  rw [hd.2] at rv
  exact_mod_cast rv

theorem nextMultipleOfU (hw : 0 < w) {x y : Limbs w} (hl : x.length = y.length) (h2 : 2 ≤ x.length)
    (he : x.length % 2 = 0) (hy : toNat y ≠ 0) (hd : DivExact w x.length (toNat x) (toNat y))
    (oc : Bool) :
    OpU oc x.length (((toNat x + toNat y - 1) / toNat y * toNat y : Nat) : Int)
      (U.nextMultipleOf oc x y) := by
  obtain ⟨r, e, rl, rv⟩ := wrappingRemU_exact hw hl h2 hy hd
  have hr := Nat.mod_lt (toNat x) (Nat.pos_of_ne_zero hy)
  rw [U.nextMultipleOf, U.rem, U.checkedRem, opU_eq hl h2 he hy, e, Res.bind_ok]
  by_cases h0 : toNat r = 0
  · rw [if_pos ((minU_iff rl).2 h0), (next_mul_val hy).1 (by omega)]
    have hx := InU_toNat x
    have hw : WrapU x.length (toNat x : Int) x := ExactU.wrap ⟨rfl, rfl⟩
    exact (CheckU.op (o := some x) ⟨fun _ => ⟨x, rfl, rfl, rfl⟩, fun h => absurd hx h⟩ hw oc :
      OpU oc x.length (toNat x : Int) (opOf oc x (some x))) |> fun h => by cases oc <;> exact h
  · rw [if_neg (fun h => h0 ((minU_iff rl).1 h)), (next_mul_val hy).2 (by omega)]
    have hs := subOpU hw (x := y) (y := r) (by omega) oc
    have hyl := InU_toNat y
    rw [bits] at hyl
    obtain ⟨d, ed, dl, dv⟩ := hs.exact (by unfold InU at hyl ⊢; omega)
    rw [ed, Res.bind_ok]
    have ha := addOpU hw (x := x) (y := d) (by omega) oc
    have : (toNat x : Int) + toNat d = ((toNat x + (toNat y - toNat x % toNat y) : Nat) : Int) := by omega
    rw [this] at ha
    exact ha

theorem checkedNextMultipleOfU (hw : 0 < w) {x y : Limbs w} (hl : x.length = y.length) (h2 : 2 ≤ x.length)
    (he : x.length % 2 = 0) (hy : toNat y ≠ 0) (hd : DivExact w x.length (toNat x) (toNat y)) :
    ∃ o, U.checkedNextMultipleOf x y = .ok o ∧
      CheckU x.length (((toNat x + toNat y - 1) / toNat y * toNat y : Nat) : Int) o := by
  obtain ⟨r, e, rl, rv⟩ := wrappingRemU_exact hw hl h2 hy hd
  have hr := Nat.mod_lt (toNat x) (Nat.pos_of_ne_zero hy)
  rw [U.checkedNextMultipleOf, U.checkedRem, checkedU_eq hl h2 he hy, e, Res.map_ok, Res.map_ok]
  refine ⟨_, rfl, ?_⟩
  simp only
  by_cases h0 : toNat r = 0
  · rw [if_pos ((minU_iff rl).2 h0), (next_mul_val hy).1 (by omega)]
    exact ⟨fun _ => ⟨x, rfl, rfl, rfl⟩, fun h => absurd (InU_toNat x) h⟩
  · rw [if_neg (fun h => h0 ((minU_iff rl).1 h)), (next_mul_val hy).2 (by omega)]
    have hs := Sub.wrapU hw (x := y) (y := r) (by omega)
    have hyl := InU_toNat y
    rw [bits] at hyl
    obtain ⟨dl, dv⟩ := hs.exact (by unfold InU at hyl ⊢; omega)
    have ha := (Add.overU hw (x := x) (y := U.wrappingSub y r) (hl.trans dl.symm)).check
    have : (toNat x : Int) + toNat (U.wrappingSub y r) =
        ((toNat x + (toNat y - toNat x % toNat y) : Nat) : Int) := by
      rw [show (toNat (U.wrappingSub y r) : Int) = toNat y - toNat r from dv]; omega
    rw [this] at ha
    exact ha

end I256
