import Verif.Props.Shift
import Verif.SpecDiv

/-!
# Shifts by every amount, in and out of range (C38, C39, C49)

The claims C38, C39 and C49 are violated for some amounts.  The theorems here say what the code does
for every amount: when it panics and which value it returns otherwise.
-/

namespace I256

open Sample

variable {w k : Nat} {x y : Limbs w}

/-- The amount `v` is rejected in a build with overflow checks by a comparison with the limit `lim`. -/
def ShiftRejects (oc : Bool) (lim v : Int) : Prop := oc = true ∧ ¬ (0 ≤ v ∧ v < lim)

instance (oc : Bool) (lim v : Int) : Decidable (ShiftRejects oc lim v) := by
  unfold ShiftRejects; infer_instance

/-- `B` converted to a primitive type of `n` bits: the limit that the operators compare with. -/
def castLimit (ps : Bool) (n B : Nat) : Int := if ps then Int.bmod B (2 ^ n) else (B : Int) % 2 ^ n

/-- The number of places by which an amount `v` shifts a number of `B` bits: its low 32 bits, reduced
modulo `B`. -/
def shiftPlaces (B : Nat) (v : Int) : Nat := (v % 2 ^ 32).toNat % B

/-- C38, partial: the shift operators with amounts of any primitive type.  In a build with overflow
checks the amount has to be below `BITS` converted to its type; an accepted amount shifts by its low 32
bits modulo `BITS`.  The full claim asks for the limit `BITS` itself (`C38_narrow_false`). -/
theorem C38_all_partial {n : Nat} (hk : w = 2 ^ k) (h2 : x.length % 2 = 0) (hx : x ≠ []) (oc ps : Bool)
    (c : BitVec n) :
    Yields (ShiftRejects oc (castLimit ps n (w * x.length)) (primVal ps c)) (fun v =>
      WrapU x.length ((toNat x : Int) * 2 ^ shiftPlaces (w * x.length) (primVal ps c)) v ∧
      WrapS x.length (toInt x * 2 ^ shiftPlaces (w * x.length) (primVal ps c)) v) (shlPrim oc ps x c) ∧
    Yields (ShiftRejects oc (castLimit ps n (w * x.length)) (primVal ps c))
      (ExactU x.length ((toNat x : Int) / 2 ^ shiftPlaces (w * x.length) (primVal ps c)))
      (shrPrim oc ps false x c) ∧
    Yields (ShiftRejects oc (castLimit ps n (w * x.length)) (primVal ps c))
      (ExactS x.length (toInt x / 2 ^ shiftPlaces (w * x.length) (primVal ps c)))
      (shrPrim oc ps true x c) := by
  have hb : bits x = w * x.length := rfl
  have hr : ShiftRejects oc (castLimit ps n (w * x.length)) (primVal ps c) ↔
      (oc && !primInRange ps (bits x) c) = true := by
    simp only [ShiftRejects, Bool.and_eq_true, Bool.not_eq_true', ← Bool.not_eq_true]
    refine and_congr_right fun _ => not_congr ?_
    unfold primInRange castLimit
    cases ps
    · simp only [primVal, Bool.false_eq_true, if_false]
      rw [BitVec.ult_iff_lt, BitVec.lt_def, BitVec.toNat_ofNat, hb]
      have : (((w * x.length % 2 ^ n : Nat)) : Int) = ((w * x.length : Nat) : Int) % 2 ^ n := by
        rw [Int.natCast_emod]; norm_cast
      rw [← this]; omega
    · simp only [primVal, if_true]
      rw [Bool.and_eq_true, BitVec.slt_iff_toInt_lt, Bool.not_eq_true', ← Bool.not_eq_true,
        BitVec.slt_iff_toInt_lt, hb, BitVec.ofNat_eq_ofNat, BitVec.toInt_zero,
        BitVec.toInt_eq_toNat_bmod (x := BitVec.ofNat n (w * x.length)), BitVec.toNat_ofNat,
        show (((w * x.length % 2 ^ n : Nat) : Int)).bmod (2 ^ n) = ((w * x.length : Nat) : Int).bmod (2 ^ n)
          by rw [Int.natCast_emod, Int.emod_bmod]]
      omega
  have hs : primAsU32 ps c = (primVal ps c % 2 ^ 32).toNat := by
    unfold primAsU32
    cases ps
    · simp only [primVal, Bool.false_eq_true, if_false, BitVec.toNat_setWidth]
      have : ((c.toNat : Int) % 2 ^ 32) = ((c.toNat % 2 ^ 32 : Nat) : Int) := by norm_cast
      rw [this]; rfl
    · simp only [primVal, if_true, BitVec.signExtend, BitVec.toNat_ofInt]
      norm_cast
  have hU := wrappingShlU hk h2 hx (primAsU32 ps c)
  have hS := wrappingShlS hk h2 hx (primAsU32 ps c)
  have hRU := wrappingShrU hk h2 hx (primAsU32 ps c)
  have hRS := wrappingShrS hk h2 hx (primAsU32 ps c)
  rw [hb] at hU hS hRU hRS
  have hp : primAsU32 ps c % (w * x.length) = shiftPlaces (w * x.length) (primVal ps c) := by
    rw [hs]; rfl
  rw [hp] at hU hS hRU hRS
  unfold shlPrim shrPrim
  refine ⟨⟨fun h => if_pos (hr.1 h), fun h => ?_⟩, ⟨fun h => if_pos (hr.1 h), fun h => ?_⟩,
    ⟨fun h => if_pos (hr.1 h), fun h => ?_⟩⟩ <;> rw [hr] at h <;> rw [if_neg h]
  · exact ⟨_, rfl, hU, hS⟩
  · exact ⟨_, rfl, hRU⟩
  · exact ⟨_, rfl, hRS⟩

example := C38_all_partial (k := 6) (x := a) rfl (by decide) (by decide) true true (-3#16)
example : shlPrim false true one (-1#8) = .ok top ∧
    shiftPlaces 256 (primVal true (-1#8)) = 255 ∧ castLimit false 8 384 = 128 ∧
    castLimit true 8 384 = -128 ∧ castLimit false 8 256 = 0 := by decide +kernel

/-- C38, partial: with overflow checks the 256-, 512- and 1024-bit types reject every `u8` and `i8`
amount, even 0, and the 384-bit types reject every `i8` amount and the `u8` amounts from 128 on.  The
full claim asks them to accept every amount below `BITS`. -/
theorem C38_narrow_partial (hk : w = 2 ^ k) (h2 : x.length % 2 = 0) (c : BitVec 8) :
    (w * x.length ∈ [256, 512, 1024] → ∀ ps, shlPrim true ps x c = .panic ∧
      ∀ sg, shrPrim true ps sg x c = .panic) ∧
    (w * x.length = 384 →
      (shlPrim true true x c = .panic ∧ ∀ sg, shrPrim true true sg x c = .panic) ∧
      (shlPrim true false x c = .panic ↔ 128 ≤ c.toNat) ∧
      ∀ sg, shrPrim true false sg x c = .panic ↔ 128 ≤ c.toNat) := by
  have key : ∀ ps : Bool, w * x.length ≠ 0 →
      (ShiftRejects true (castLimit ps 8 (w * x.length)) (primVal ps c) →
        shlPrim true ps x c = .panic ∧ ∀ sg, shrPrim true ps sg x c = .panic) ∧
      (¬ ShiftRejects true (castLimit ps 8 (w * x.length)) (primVal ps c) →
        shlPrim true ps x c ≠ .panic ∧ ∀ sg, shrPrim true ps sg x c ≠ .panic) := by
    intro ps h0
    have hx : x ≠ [] := by rintro rfl; simp at h0
    obtain ⟨h3, h4, h5⟩ := C38_all_partial hk h2 hx true ps c
    refine ⟨fun h => ⟨h3.1 h, fun sg => ?_⟩, fun h => ⟨?_, fun sg => ?_⟩⟩
    · cases sg
      · exact h4.1 h
      · exact h5.1 h
    · obtain ⟨v, e, -⟩ := h3.2 h; rw [e]; simp
    · cases sg
      · obtain ⟨v, e, -⟩ := h4.2 h; rw [e]; simp
      · obtain ⟨v, e, -⟩ := h5.2 h; rw [e]; simp
  constructor
  · intro hm ps
    refine (key ps (by intro h; rw [h] at hm; simp at hm)).1 ⟨rfl, ?_⟩
    have h0 : castLimit ps 8 (w * x.length) = 0 := by
      simp only [List.mem_cons, List.not_mem_nil, or_false] at hm
      rcases hm with h | h | h <;> rw [h] <;> cases ps <;> decide
    rw [h0]; omega
  · intro hm
    refine ⟨(key true (by omega)).1 ⟨rfl, ?_⟩, ?_⟩
    · rw [hm, show castLimit true 8 384 = -128 by decide]; omega
    · have hiff : ShiftRejects true (castLimit false 8 (w * x.length)) (primVal false c) ↔
          128 ≤ c.toNat := by
        rw [hm, show castLimit false 8 384 = 128 by decide]
        simp only [ShiftRejects, primVal, Bool.false_eq_true, if_false, true_and]
        omega
      have := key false (by omega)
      rw [hiff] at this
      refine ⟨⟨fun h => ?_, fun h => (this.1 h).1⟩, fun sg => ⟨fun h => ?_, fun h => (this.1 h).2 sg⟩⟩
      · by_contra hc; exact (this.2 hc).1 h
      · by_contra hc; exact (this.2 hc).2 sg h

example := (C38_narrow_partial (k := 6) (x := a) rfl (by decide) (3#8)).1 (by decide)
example : shlPrim true false ([1, 0, 0, 0, 0, 0] : Limbs 64) (127#8) = .ok [0, 2 ^ 63, 0, 0, 0, 0] ∧
    shlPrim true true ([1, 0, 0, 0, 0, 0] : Limbs 64) (0#8) = .panic := by decide +kernel

/-- C39, partial: signed `unbounded_shr` for every number and amount: 0 from `BITS` on.  So it is the
floor of `x / 2^s` exactly if `s < BITS` or `x` is not negative; the full claim has no condition
(`C39_int_unbounded_shr_false`). -/
theorem C39_int_unbounded_shr_all_partial (hk : w = 2 ^ k) (h2 : x.length % 2 = 0) (hx : x ≠ [])
    (s : Nat) :
    ExactS x.length (if s < w * x.length then toInt x / 2 ^ s else 0) (unboundedShr true x s) ∧
    (ExactS x.length (toInt x / 2 ^ s) (unboundedShr true x s) ↔ s < w * x.length ∨ 0 ≤ toInt x) := by
  have hb : bits x = w * x.length := rfl
  have hw := pow_pos_width hk
  have hN : 1 ≤ x.length := List.length_pos_iff.2 hx
  have h1 : ExactS x.length (if s < w * x.length then toInt x / 2 ^ s else 0) (unboundedShr true x s) := by
    unfold unboundedShr
    rw [hb]
    split
    · rename_i h
      have := wrappingShrS hk h2 hx s
      rwa [hb, Nat.mod_eq_of_lt h] at this
    · exact ofU8S hw (by omega) (by positivity)
  refine ⟨h1, fun h => ?_, fun h => C39_int_unbounded_shr_partial hk h2 hx s h⟩
  by_contra hc
  rw [not_or, not_lt, not_le] at hc
  have e := h.2
  rw [h1.2, if_neg (by omega)] at e
  have : toInt x / 2 ^ s < 0 := Int.ediv_neg_of_neg_of_pos hc.2 (by positivity)
  omega

example := C39_int_unbounded_shr_all_partial (k := 6) (x := m2) rfl (by decide) (by decide) 1000

/-- C49, partial: the amount is of the same type and arbitrary: the shift is by its low 32 bits modulo
`BITS`, in every build.  The full claim asks for a panic out of range in a build with overflow checks
(`C49_self_false`). -/
theorem C49_self_all_partial (hk : w = 2 ^ k) (hw : 32 ≤ w) (h2 : x.length % 2 = 0) (hx : x ≠ []) :
    WrapU x.length ((toNat x : Int) * 2 ^ shiftPlaces (w * x.length) (toNat y)) (shlSelf x y) ∧
    WrapS x.length (toInt x * 2 ^ shiftPlaces (w * x.length) (toNat y)) (shlSelf x y) ∧
    ExactU x.length ((toNat x : Int) / 2 ^ shiftPlaces (w * x.length) (toNat y)) (shrSelf false x y) ∧
    ExactS x.length (toInt x / 2 ^ shiftPlaces (w * x.length) (toNat y)) (shrSelf true x y) := by
  have hb : bits x = w * x.length := rfl
  have h3 : asU32 y % (w * x.length) = shiftPlaces (w * x.length) (toNat y) := by
    unfold shiftPlaces
    congr 1
    have : ((toNat y : Int) % 2 ^ 32) = ((toNat y % 2 ^ 32 : Nat) : Int) := by norm_cast
    rw [this, Int.toNat_natCast, asU32, BitVec.toNat_setWidth, getLimb]
    cases y with
    | nil => simp
    | cons b y =>
      rw [toNat_cons, List.getD_cons_zero, Nat.add_mod, Nat.mul_mod]
      have hd : 2 ^ w % 2 ^ 32 = 0 := Nat.mod_eq_zero_of_dvd (pow_dvd_pow 2 hw)
      rw [hd]; simp
  have hU := wrappingShlU hk h2 hx (asU32 y)
  have hS := wrappingShlS hk h2 hx (asU32 y)
  have hRU := wrappingShrU hk h2 hx (asU32 y)
  have hRS := wrappingShrS hk h2 hx (asU32 y)
  rw [hb, h3] at hU hS hRU hRS
  exact ⟨hU, hS, hRU, hRS⟩

example := C49_self_all_partial (k := 6) (x := a) (y := [2 ^ 32 + 300, 5, 0, 1]) rfl (by decide)
  (by decide) (by decide)
example : shiftPlaces 256 (toNat ([2 ^ 32 + 300, 5, 0, 1] : Limbs 64)) = 44 := by decide +kernel

/-- C49: an amount of the type of the other signedness in a build without overflow checks: the shift is
by its low 32 bits modulo `BITS`, for every amount. -/
theorem C49_other_type_unchecked (hk : w = 2 ^ k) (hw : 32 ≤ w) (h2 : x.length % 2 = 0) (hx : x ≠ [])
    (os : Bool) :
    (∃ v, shlBig false os x y = .ok v ∧
      WrapU x.length ((toNat x : Int) * 2 ^ shiftPlaces (w * x.length) (toNat y)) v ∧
      WrapS x.length (toInt x * 2 ^ shiftPlaces (w * x.length) (toNat y)) v) ∧
    (∃ v, shrBig false os false x y = .ok v ∧
      ExactU x.length ((toNat x : Int) / 2 ^ shiftPlaces (w * x.length) (toNat y)) v) ∧
    (∃ v, shrBig false os true x y = .ok v ∧
      ExactS x.length (toInt x / 2 ^ shiftPlaces (w * x.length) (toNat y)) v) := by
  obtain ⟨h1, h3, h4, h5⟩ := C49_self_all_partial (y := y) hk hw h2 hx
  exact ⟨⟨_, rfl, h1, h3⟩, ⟨_, rfl, h4⟩, ⟨_, rfl, h5⟩⟩

example := C49_other_type_unchecked (k := 6) (x := a) (y := m2) rfl (by decide) (by decide) (by decide)
  true
example : shlBig false true one m2 = .ok [0, 0, 0, 2 ^ 62] := by decide +kernel

end I256
