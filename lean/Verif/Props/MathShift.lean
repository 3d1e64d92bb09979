import Verif.SpecMath
import Verif.Lemmas.MathShift
import Verif.Props.RawShift

/-!
# C91: the public functions of the shift and rotate modules

`math::shift` and `math::rotate` are public functions over arrays of any length.  The test of the amount
is a debug assertion, so there are three cases: an amount below the width, a larger amount in a build
with debug assertions, and a larger amount in a build without them.
-/

namespace I256

open I256.Raw.Div (Cfg)

variable {w k : Nat} {be : Bool} {a : Limbs w} {cf : Cfg}

/-- The amount by which an array of `N` elements of `w` bits is shifted if nothing tests the amount: all
of it, but with two elements, an amount of the width or more counts as one element and the remaining bits
of an element. -/
def effective (w N s : Nat) : Nat := if N = 2 ∧ w * 2 ≤ s then w + s % w else s

/-- C91: the left shift of an array of any length by any amount. -/
theorem C91_left (hk : w = 2 ^ k) (h32 : w * a.length < 2 ^ 32) (s : Nat) :
    Leaves be (a.length < 2 ∨ (cf.da = true ∧ w * a.length ≤ s))
      (WrapU a.length ((memNat be a : Int) * 2 ^ effective w a.length s)) (Raw.Shift.leftIn cf be a s) := by
  have hW : 0 < w := by rw [hk]; positivity
  rw [Nat.mul_comm] at h32
  refine ⟨?_, fun hp => ?_⟩
  · rintro (h | ⟨hd, hs⟩)
    · exact Raw.Shift.leftIn_short cf be h s
    · by_cases h : a.length < 2
      · exact Raw.Shift.leftIn_short cf be h s
      · exact Raw.Shift.leftIn_da hW h32 hd be (by rwa [Nat.mul_comm])
  · push Not at hp
    obtain ⟨h2, hd⟩ := hp
    by_cases hs : s < w * a.length
    · rw [Raw.Shift.leftIn_eq hW h32 cf be (by rwa [Nat.mul_comm]),
        show effective w a.length s = s from if_neg (by rintro ⟨e, h⟩; rw [e] at hs; omega)]
      exact C65_kernel_left hk h2 hs
    · rw [Nat.not_lt] at hs
      have hd : cf.da = false := by
        cases h : cf.da
        · rfl
        · exact absurd (hd h) (by omega)
      by_cases e2 : a.length = 2
      · rw [Raw.Shift.leftIn_two hk hd be e2 (by rwa [Nat.mul_comm]),
          show effective w a.length s = w + s % w from if_pos ⟨e2, by rwa [e2] at hs⟩]
        exact C65_kernel_left hk h2 (by have := Nat.mod_lt s hW; rw [e2]; omega)
      · rw [Raw.Shift.leftIn_out hk hd be (by omega) (by rwa [Nat.mul_comm]),
          show effective w a.length s = s from if_neg (fun h => e2 h.1)]
        refine ⟨_, rfl, ?_, ?_⟩
        · simp [logical]
        · have e : logical be (List.replicate a.length (0 : BitVec w)) = List.replicate a.length 0 := by
            unfold logical; split <;> simp
          rw [e, toNat_replicate_zero]
          refine (Int.emod_eq_zero_of_dvd ?_).symm
          exact Dvd.dvd.mul_left (pow_dvd_pow 2 hs) _

example := C91_left (be := true) (k := 6) (a := Sample.a) (cf := ⟨false, false, false⟩) rfl (by decide) 300
example : Raw.Shift.leftIn ⟨true, false, false⟩ true ([0, 5, 0, 0xffffffffffffffff] : Limbs 64) 70 =
    .ok [0x140, 0x3f, 0xffffffffffffffc0, 0] := by decide +kernel
example : Raw.Shift.leftIn ⟨true, true, false⟩ false ([1, 0] : Limbs 64) 128 = .panic := by decide +kernel
example : Raw.Shift.leftIn ⟨true, false, false⟩ false ([1, 0] : Limbs 64) 128 = .ok [0, 1] := by
  decide +kernel
example : Raw.Shift.leftIn ⟨true, false, false⟩ false ([1, 2, 3] : Limbs 64) 192 = .ok [0, 0, 0] := by
  decide +kernel

/-- C91: the right shift, unsigned and signed, of an array of any length by any amount. -/
theorem C91_right (hk : w = 2 ^ k) (h32 : w * a.length < 2 ^ 32) (s : Nat) :
    Leaves be (a.length < 2 ∨ (cf.da = true ∧ w * a.length ≤ s))
      (ExactU a.length ((memNat be a : Int) / 2 ^ effective w a.length s))
      (Raw.Shift.rightIn cf be false a s) ∧
    Leaves be (a.length < 2 ∨ (cf.da = true ∧ w * a.length ≤ s))
      (ExactS a.length (memInt be a / 2 ^ effective w a.length s))
      (Raw.Shift.rightIn cf be true a s) := by
  have hW : 0 < w := by rw [hk]; positivity
  rw [Nat.mul_comm] at h32
  have hpan : ∀ sg, a.length < 2 ∨ (cf.da = true ∧ w * a.length ≤ s) →
      Raw.Shift.rightIn cf be sg a s = .panic := by
    rintro sg (h | ⟨hd, hs⟩)
    · exact Raw.Shift.rightIn_short cf be sg h s
    · by_cases h : a.length < 2
      · exact Raw.Shift.rightIn_short cf be sg h s
      · exact Raw.Shift.rightIn_da hW h32 hd be sg (by rwa [Nat.mul_comm])
  rw [Leaves, Leaves]
  suffices h : ¬ (a.length < 2 ∨ (cf.da = true ∧ w * a.length ≤ s)) →
      Holds be (ExactU a.length ((memNat be a : Int) / 2 ^ effective w a.length s))
        (Raw.Shift.rightIn cf be false a s) ∧
      Holds be (ExactS a.length (memInt be a / 2 ^ effective w a.length s))
        (Raw.Shift.rightIn cf be true a s) from
    ⟨⟨hpan false, fun hp => (h hp).1⟩, hpan true, fun hp => (h hp).2⟩
  intro hp
  push Not at hp
  obtain ⟨h2, hd⟩ := hp
  by_cases hs : s < w * a.length
  · rw [Raw.Shift.rightIn_eq hW h32 cf be _ (by rwa [Nat.mul_comm]),
      Raw.Shift.rightIn_eq hW h32 cf be _ (by rwa [Nat.mul_comm]),
      show effective w a.length s = s from if_neg (by rintro ⟨e, h⟩; rw [e] at hs; omega)]
    exact C65_kernel_right hk h2 hs
  · rw [Nat.not_lt] at hs
    replace hd : cf.da = false := by
      cases h : cf.da
      · rfl
      · exact absurd (hd h) (by omega)
    by_cases e2 : a.length = 2
    · rw [Raw.Shift.rightIn_two hk hd be _ e2 (by rwa [Nat.mul_comm]),
        Raw.Shift.rightIn_two hk hd be _ e2 (by rwa [Nat.mul_comm]),
        show effective w a.length s = w + s % w from if_pos ⟨e2, by rwa [e2] at hs⟩]
      exact C65_kernel_right hk h2 (by have := Nat.mod_lt s hW; rw [e2]; omega)
    · rw [show effective w a.length s = s from if_neg (fun h => e2 h.1)]
      obtain ⟨x, rfl⟩ := Raw.exists_mem be a
      simp only [Raw.mem_length, Raw.memNat_mem, Raw.memInt_mem] at *
      rw [Raw.Shift.rightIn_out hk hd be _ (by omega) (by rwa [Nat.mul_comm]),
        Raw.Shift.rightIn_out hk hd be _ (by omega) (by rwa [Nat.mul_comm])]
      have hrep : ∀ v : BitVec w, logical be (List.replicate x.length v) = List.replicate x.length v := by
        intro v; unfold logical; split <;> simp
      have hx : x ≠ [] := by rintro rfl; simp at h2
      refine ⟨⟨_, rfl, by simp [hrep], ?_⟩, _, rfl, by simp [hrep], ?_⟩
      · rw [hrep]
        simp only [Bool.false_and, Bool.false_eq_true, if_false, toNat_replicate_zero]
        have := toNat_lt x
        have h3 : toNat x < 2 ^ s := lt_of_lt_of_le this (Nat.pow_le_pow_right (by omega) hs)
        rw [show ((2 : Int) ^ s) = ((2 ^ s : Nat) : Int) by push_cast; rfl, ← Int.natCast_ediv,
          Nat.div_eq_of_lt h3]
      · rw [hrep]
        have hneg := isNegative_iff hW hx
        rw [I.isNegative] at hneg
        have hi := toInt_InS x
        rw [show bits x = w * x.length from rfl] at hi
        have hP : (2 : Int) ^ (w * x.length) ≤ 2 ^ s := pow_le_pow_right₀ (by norm_num) hs
        have hh := hi
        unfold InS at hh
        have h0 : (0 : Int) < 2 ^ (w * x.length) := by positivity
        by_cases hn : (msLimb x).slt 0 = true
        · rw [if_pos (by simpa using hn)]
          have h1 := hneg.1 hn
          have h3 := toNat_allOnes w x.length
          have h4 : 2 ≤ 2 ^ (w * x.length) := by
            have : 1 ≤ w * x.length := Nat.mul_pos hW (by omega)
            exact le_trans (by norm_num) (Nat.pow_le_pow_right (by norm_num : 0 < 2) this)
          rw [toInt, if_neg (by simp only [bits, List.length_replicate]; omega)]
          have h5 : toInt x / 2 ^ s = -1 := by
            rw [Int.ediv_eq_iff_of_pos (by positivity)]
            constructor <;> omega
          rw [h5]
          simp only [bits, List.length_replicate]
          have : ((2 ^ (w * x.length) : Nat) : Int) = (2 : Int) ^ (w * x.length) := by push_cast; rfl
          omega
        · rw [if_neg (by simpa using hn)]
          have h1 : ¬ toInt x < 0 := fun hc => hn (hneg.2 hc)
          rw [toInt, toNat_replicate_zero, if_pos (by positivity), Int.ediv_eq_zero_of_lt (by omega) (by omega)]
          rfl

example := C91_right (be := true) (k := 6) (a := Sample.top) (cf := ⟨false, false, false⟩) rfl (by decide) 300
example : Raw.Shift.rightIn ⟨true, true, false⟩ true true ([0x8000000000000000, 0, 0, 1] : Limbs 64) 65 =
    .ok [0xffffffffffffffff, 0xc000000000000000, 0, 0] := by decide +kernel
example : Raw.Shift.rightIn ⟨true, false, false⟩ false true ([1, 0, 0x8000000000000000] : Limbs 64) 192 =
    .ok [0xffffffffffffffff, 0xffffffffffffffff, 0xffffffffffffffff] := by decide +kernel
example : Raw.Shift.rightIn ⟨true, true, false⟩ false true ([1, 0, 0x8000000000000000] : Limbs 64) 192 =
    .panic := by decide +kernel
example : Raw.Shift.rightIn ⟨true, false, false⟩ false false ([1, 5] : Limbs 64) 128 = .ok [5, 0] := by
  decide +kernel

/-- C91: with more than two elements, and with two elements below the width, the amount is taken as it
is. -/
theorem C91_effective {N s : Nat} (h : N ≠ 2 ∨ s < w * N) : effective w N s = s :=
  if_neg (by rintro ⟨rfl, h2⟩; rcases h with h | h <;> omega)

example := C91_effective (w := 64) (N := 2) (s := 127) (.inr (by decide))
example : effective 64 2 130 = 66 := by decide

/-- C91, the claim that fails: without debug assertions, shifting by the width or more does not always
shift all bits out.  With two elements the shift by 128 bits is the shift by 64 bits. -/
theorem C91_shifted_out_false :
    ¬ ∀ (cf : Cfg) (be : Bool) (a : Limbs 64) (s : Nat), 2 ≤ a.length → cf.da = false → 64 * a.length ≤ s →
      Holds be (ExactU a.length 0) (Raw.Shift.leftIn cf be a s) := by
  intro h
  obtain ⟨m, hm, hv⟩ := h ⟨true, false, false⟩ false [1, 0] 128 (by decide) rfl (by decide)
  have e : Raw.Shift.leftIn ⟨true, false, false⟩ false ([1, 0] : Limbs 64) 128 = .ok [0, 1] := by
    decide +kernel
  rw [e] at hm
  obtain rfl := Res.ok.inj hm
  revert hv
  unfold ExactU
  decide +kernel

/-- C91: with more than two elements all bits are shifted out, and copies of the sign are shifted in. -/
theorem C91_shifted_out_partial (hk : w = 2 ^ k) (h32 : w * a.length < 2 ^ 32) (h2 : 2 < a.length)
    (hd : cf.da = false) {s : Nat} (hs : w * a.length ≤ s) :
    Holds be (ExactU a.length 0) (Raw.Shift.leftIn cf be a s) ∧
      Holds be (ExactU a.length 0) (Raw.Shift.rightIn cf be false a s) ∧
      Holds be (ExactS a.length (if memInt be a < 0 then -1 else 0)) (Raw.Shift.rightIn cf be true a s) := by
  have e : effective w a.length s = s := C91_effective (.inl (by omega))
  have hp : ¬ (a.length < 2 ∨ (cf.da = true ∧ w * a.length ≤ s)) := by
    rw [hd]; rintro (h | ⟨h, -⟩)
    · omega
    · simp at h
  have hl := (C91_left (be := be) (cf := cf) (a := a) hk h32 s).2 hp
  obtain ⟨hr, ha⟩ := C91_right (be := be) (cf := cf) (a := a) hk h32 s
  have hr := hr.2 hp
  have ha := ha.2 hp
  rw [e] at hl hr ha
  have hP : (2 : Int) ^ (w * a.length) ≤ 2 ^ s := pow_le_pow_right₀ (by norm_num) hs
  refine ⟨?_, ?_, ?_⟩
  · obtain ⟨m, hm, h1, h3⟩ := hl
    refine ⟨m, hm, h1, ?_⟩
    rw [h3]
    exact Int.emod_eq_zero_of_dvd (Dvd.dvd.mul_left (pow_dvd_pow 2 hs) _)
  · obtain ⟨m, hm, h1, h3⟩ := hr
    refine ⟨m, hm, h1, ?_⟩
    rw [h3]
    have h4 := toNat_lt (logical be a)
    have h5 : (logical be a).length = a.length := by unfold logical; split <;> simp
    have h6 : ((toNat (logical be a) : Nat) : Int) < 2 ^ (w * a.length) := by
      have := h4; rw [bits, h5] at this; exact_mod_cast this
    exact Int.ediv_eq_zero_of_lt (by positivity) (lt_of_lt_of_le h6 hP)
  · obtain ⟨m, hm, h1, h3⟩ := ha
    refine ⟨m, hm, h1, ?_⟩
    rw [h3]
    have h4 := toInt_InS (logical be a)
    have h5 : (logical be a).length = a.length := by unfold logical; split <;> simp
    rw [bits, h5] at h4
    unfold InS at h4
    have h0 : (0 : Int) < 2 ^ (w * a.length) := by positivity
    change -_ ≤ 2 * memInt be a ∧ 2 * memInt be a < _ at h4
    generalize memInt be a = z at *
    by_cases hz : z < 0
    · rw [if_pos hz, Int.ediv_eq_iff_of_pos (by positivity)]
      constructor <;> omega
    · rw [if_neg hz]
      exact Int.ediv_eq_zero_of_lt (by omega) (by omega)

example := C91_shifted_out_partial (be := true) (k := 6) (a := Sample.top) (cf := ⟨false, false, false⟩) rfl
  (by decide) (by decide) rfl (s := 300) (by decide)

/-- C91: the rotations of an array of any length by any amount: bit `i` goes to bit `i + n`, modulo the
total width; an array of fewer than two elements panics. -/
theorem C91_rotate (hk : w = 2 ^ k) (h32 : w * a.length < 2 ^ 32) (n : Nat) :
    Leaves be (a.length < 2) (fun v => v.length = a.length ∧ ∀ i < w * a.length,
        (toNat v).testBit ((i + n) % (w * a.length)) = (memNat be a).testBit i)
      (Raw.Rot.leftIn cf be a n) ∧
    Leaves be (a.length < 2) (fun v => v.length = a.length ∧ ∀ i < w * a.length,
        (toNat v).testBit i = (memNat be a).testBit ((i + n) % (w * a.length)))
      (Raw.Rot.rightIn cf be a n) := by
  have hW : 0 < w := by rw [hk]; positivity
  rw [Nat.mul_comm] at h32
  refine ⟨⟨fun h => Raw.Rot.leftIn_short cf be h n, fun h => ?_⟩,
    fun h => Raw.Rot.rightIn_short cf be h n, fun h => ?_⟩
  · rw [Raw.Rot.leftIn_eq hW h32]
    exact (C65_kernel_rotate hk (by omega) n).1
  · rw [Raw.Rot.rightIn_eq hW h32]
    exact (C65_kernel_rotate hk (by omega) n).2

example := C91_rotate (be := true) (k := 6) (a := Sample.a) (cf := ⟨true, true, true⟩) rfl (by decide) 200
example : Raw.Rot.leftIn ⟨true, true, true⟩ true ([0, 5, 0, 0xffffffffffffffff] : Limbs 64) 136 =
    .ok [0xff, 0xffffffffffffff00, 0, 0x500] := by decide +kernel
example : Raw.Rot.rightIn ⟨true, true, true⟩ false ([1, 0] : Limbs 64) 257 =
    .ok [0, 0x8000000000000000] := by decide +kernel
example : Raw.Rot.rightIn ⟨true, true, true⟩ false ([1] : Limbs 64) 1 = .panic := by decide +kernel

end I256
