import Verif.SpecRaw
import Verif.Lemmas.RawPow
import Verif.Props.Pow
import Verif.Props.Ilog
import Verif.Props.GapAll

/-!
# C71: powers and logarithms in memory

The theorems are about the literal transcription of the loops of `wrapping_pow`, `overflowing_pow` and
`checked_ilog`: the limbs are in memory order and read through checked indices, the assertion in the loops
is executed, and native arithmetic is checked or wraps as the build says (`cf`).
-/

namespace I256

open Sample
open Raw.Div (Cfg)

variable {w : Nat} {be : Bool} {a b : Limbs w} {cf : Cfg}

/-- C71: unsigned powers: the loops end within 32 rounds, the assertion in them holds, the results are
exact. -/
theorem C71_uint_pow (hw : 0 < w) (h1 : 1 ≤ a.length) (h128 : 128 ∣ w * a.length) (e : BitVec 32) :
    let z := (memNat be a : Int) ^ e.toNat
    Holds be (WrapU a.length z) (Raw.U.wrappingPow cf be a e) ∧
      HoldsO be (OverU a.length z) (Raw.U.overflowingPow cf be a e) ∧
      (∃ o, Raw.U.checkedPow cf be a e = .ok o ∧ CheckU a.length z (o.map (logical be))) ∧
      OpU cf.oc a.length z ((Raw.U.pow cf be a e).map (logical be)) := by
  obtain ⟨x, rfl⟩ := Raw.exists_mem be a
  simp only [Raw.mem_length, Raw.memNat_mem] at *
  have hx : x ≠ [] := length_ne (n := 0) (by omega)
  rw [Raw.U.wrappingPow_ok cf be hw (by omega) h128 rfl, Raw.U.overflowingPow_ok cf be hw (by omega) h128 rfl,
    Raw.U.checkedPow_ok cf be hw (by omega) h128 rfl, Raw.U.pow_ok cf be hw (by omega) h128 rfl]
  have ho := powOverU hw hx e.isLt
  have hp := ho.check.op (powWrapU hw hx e.isLt) cf.oc
  refine ⟨Raw.holds (powWrapU hw hx e.isLt), Raw.holdsO ho, ⟨_, rfl, ?_⟩, ?_⟩
  · rw [Raw.option_logical]
    exact ho.check
  · rw [Raw.res_logical]
    exact hp

example := C71_uint_pow (cf := ⟨true, true, false⟩) (be := true) (a := ones32) (by decide) (by decide)
  (by decide) 4294967295
example : Raw.U.overflowingPow ⟨true, true, false⟩ true ([0, 0, 0, 2] : Limbs 64) 255 =
      .ok ([0x8000000000000000, 0, 0, 0], false) ∧
    Raw.U.pow ⟨true, true, false⟩ true ([0, 0, 0, 2] : Limbs 64) 256 = .panic ∧
    Raw.U.pow ⟨false, true, false⟩ true ([0, 0, 0, 3] : Limbs 64) 5 = .ok [0, 0, 0, 243] := by
  decide +kernel

/-- C71: signed powers, with the gap of C11 in the overflow test. -/
theorem C71_int_pow (hw : 1 < w) (h4 : 4 ≤ a.length) (he : a.length % 2 = 0)
    (h128 : 128 ∣ w * a.length) (e : BitVec 32) :
    let z := memInt be a ^ e.toNat
    Holds be (WrapS a.length z) (Raw.I.wrappingPow cf be a e) ∧
      HoldsO be (OverG a.length z) (Raw.I.overflowingPow cf be a e) ∧
      (∃ o, Raw.I.checkedPow cf be a e = .ok o ∧ CheckG a.length z (o.map (logical be))) ∧
      OpG cf.oc a.length z ((Raw.I.pow cf be a e).map (logical be)) := by
  obtain ⟨x, rfl⟩ := Raw.exists_mem be a
  simp only [Raw.mem_length, Raw.memInt_mem] at *
  have hx : x ≠ [] := length_ne (n := 0) (by omega)
  have hw0 : 0 < w := by omega
  rw [Raw.I.wrappingPow_ok cf be hw0 (by omega) h128 rfl,
    Raw.I.overflowingPow_ok cf be hw0 (by omega) h128 (by omega) rfl,
    Raw.I.checkedPow_ok cf be hw0 (by omega) h128 (by omega) rfl,
    Raw.I.pow_ok cf be hw0 (by omega) h128 (by omega) rfl]
  obtain ⟨ho, hc, -, hs⟩ := C11_int_pow_all_partial hw h4 he e.isLt
  have hwr := C10_int_wrapping_pow hw0 hx e.isLt
  refine ⟨Raw.holds hwr, Raw.holdsO ho, ⟨_, rfl, ?_⟩, ?_⟩
  · rw [Raw.option_logical]
    exact hc
  · rw [Raw.res_logical]
    unfold OpG I.pow opOf
    cases cf.oc
    · exact ⟨_, rfl, hwr⟩
    · exact hs

example := C71_int_pow (cf := ⟨true, true, false⟩) (be := true) (a := ones32) (by decide) (by decide)
  (by decide) (by decide) 4294967295
example : Raw.I.overflowingPow ⟨true, true, false⟩ true
      ([0xffffffffffffffff, 0xffffffffffffffff, 0xffffffffffffffff, 0xfffffffffffffffe] : Limbs 64) 255 =
      .ok ([0x8000000000000000, 0, 0, 0], false) := by decide +kernel

section
variable (hw : 0 < w) (h8 : 8 ∣ w) (hl : a.length = b.length) (he : a.length % 2 = 0) (h4 : 4 ≤ a.length)
  (h128 : 128 ∣ w * a.length) (hbits : bits a < 2 ^ 32)
include hw h8 hl he h4 h128 hbits

/-- C71: unsigned `checked_ilog` and `ilog` for bases other than 1: within `BITS` rounds of the loop the
answer is there. -/
theorem C71_uint_ilog (hb : memNat be b ≠ 1) (rounds : Nat) (hr : bits a ≤ rounds) :
    let x := memNat be a
    let y := memNat be b
    Raw.U.checkedIlog cf be rounds a b =
        (if x = 0 ∨ y = 0 ∨ x < y then some (.ok none)
        else if DivPanics w a.length x y then some .panic
        else some (.ok (some (Nat.log y x)))) ∧
      Raw.U.ilog cf be rounds a b =
        if x = 0 ∨ y = 0 ∨ x < y ∨ DivPanics w a.length x y then some .panic
        else some (.ok (Nat.log y x)) := by
  obtain ⟨x, rfl⟩ := Raw.exists_mem be a
  obtain ⟨y, rfl⟩ := Raw.exists_mem be b
  simp only [bits, Raw.mem_length, Raw.memNat_mem] at *
  rw [Raw.U.checkedIlog_ok cf be hw h8 hl he h4 h128 hbits,
    Raw.U.ilog_ok cf be hw h8 hl he h4 h128 hbits]
  exact ⟨C32_uint_checked_ilog_partial hw hl he h4 hbits cf.oc hb rounds hr,
    C32_uint_ilog_partial hw hl he h4 hbits cf.oc hb rounds hr⟩

/-- C71: unsigned `checked_ilog` with base 1: without overflow checks the loop never ends, with overflow
checks it panics when its 32-bit counter overflows. -/
theorem C71_uint_ilog_base_one (hb : memNat be b = 1) (hx : memNat be a ≠ 0) (rounds : Nat) :
    Raw.U.checkedIlog cf be rounds a b =
      if cf.oc = true ∧ 2 ^ 32 ≤ (memNat be a).log2 + rounds then some .panic else none := by
  obtain ⟨x, rfl⟩ := Raw.exists_mem be a
  obtain ⟨y, rfl⟩ := Raw.exists_mem be b
  simp only [bits, Raw.mem_length, Raw.memNat_mem] at *
  rw [Raw.U.checkedIlog_ok cf be hw h8 hl he h4 h128 hbits]
  exact C32_uint_base_one_partial hw hl he h4 hbits cf.oc hb hx rounds

/-- C71: signed `checked_ilog` and `ilog`. -/
theorem C71_int_ilog (rounds : Nat) (hr : bits a ≤ rounds) :
    let x := memInt be a
    let y := memInt be b
    Raw.I.checkedIlog cf be rounds a b =
        (if x ≤ 0 ∨ y ≤ 1 then some (.ok none)
        else if x < y ∨ DivPanics w a.length (memNat be a) (memNat be b) then some .panic
        else some (.ok (some (Nat.log (memNat be b) (memNat be a))))) ∧
      Raw.I.ilog cf be rounds a b =
        if x ≤ 0 ∨ y ≤ 1 ∨ x < y ∨ DivPanics w a.length (memNat be a) (memNat be b) then some .panic
        else some (.ok (Nat.log (memNat be b) (memNat be a))) := by
  obtain ⟨x, rfl⟩ := Raw.exists_mem be a
  obtain ⟨y, rfl⟩ := Raw.exists_mem be b
  simp only [bits, Raw.mem_length, Raw.memNat_mem, Raw.memInt_mem] at *
  rw [Raw.I.checkedIlog_ok cf be hw h8 hl he h4 h128 hbits,
    Raw.I.ilog_ok cf be hw h8 hl he h4 h128 hbits]
  have hw1 : 1 < w := by omega
  exact ⟨C32_int_checked_ilog_partial hw hl he h4 hbits cf.oc rounds hr,
    C32_int_ilog_partial hw hl he h4 hbits hw1 cf.oc rounds hr⟩

end

example := C71_uint_ilog (cf := ⟨true, true, false⟩) (be := true) (a := ones) (b := Sample.a) (by decide)
  (by decide) (by decide) (by decide) (by decide) (by decide) (by decide) (by decide) 256 (by decide)
example := C71_uint_ilog_base_one (cf := ⟨true, true, false⟩) (be := false) (a := ones) (b := one)
  (by decide) (by decide) (by decide) (by decide) (by decide) (by decide) (by decide) (by decide)
  (by decide) 100
example := C71_int_ilog (cf := ⟨true, true, false⟩) (be := true) (a := ones) (b := Sample.a) (by decide)
  (by decide) (by decide) (by decide) (by decide) (by decide) (by decide) 256 (by decide)
example : Raw.U.checkedIlog ⟨true, true, false⟩ true 256 ones ([0, 0, 0, 10] : Limbs 64) =
      some (.ok (some 77)) ∧
    Raw.I.ilog ⟨true, true, false⟩ true 256 ([0, 0, 0, 3] : Limbs 64) [0, 0, 0, 10] = some .panic := by
  decide +kernel

end I256
