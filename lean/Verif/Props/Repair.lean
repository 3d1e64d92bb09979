import Verif.Lemmas.RepairRest
import Verif.Lemmas.DivClean
import Verif.Props.Div
import Verif.Props.Parse

/-!
# C82: small changes that make the faulty functions right

The functions `Repair.…` are not code of the crate: each is a function of the crate with the change that
its comment names (`Verif/Repair`).  The theorems show that with this change the full claim holds, without
the conditions of the `_partial` theorems, and that nothing changes where the code was already right.
-/

namespace I256

open Sample

variable {w k N : Nat} {x y : Limbs w} {radix : BitVec 32}

/-! ### Division (B2, B4) -/

/-- C82, C12 to C15: with the add-back loop ended at limb `n` and a test for a zero divisor, division
panics exactly for a zero divisor and otherwise returns the exact quotient and remainder. -/
theorem C82_div_rem (hw : 0 < w) (hl : x.length = y.length) (h2 : 2 ≤ x.length) :
    Yields (toNat y = 0)
      (fun r => ExactU x.length ((toNat x / toNat y : Nat) : Int) r.1 ∧
        ExactU x.length ((toNat x % toNat y : Nat) : Int) r.2) (Repair.full x y) := by
  have h := Repair.full_spec hw hl h2
  refine h.mono ?_
  rintro r ⟨⟨h1, h2⟩, h3, h4⟩
  exact ⟨⟨h1, by rw [h2]⟩, h3, by rw [h4]⟩

example := C82_div_rem (x := n3) (y := d3) (by decide) (by decide) (by decide)
/-- The panic, the stray bit and `0 / 0` of the code are gone. -/
example : Div.full n3 d3 = .panic ∧ (Repair.full n3 d3).map (fun r => toNat r.1) = .ok 2 ∧
    Div.full mult d1 ≠ Repair.full mult d1 ∧
    (Repair.full mult d1).map (fun r => toNat r.2) = .ok 0 ∧
    Div.full zero zero = .ok (one, zero) ∧ Repair.full zero zero = .panic := by decide +kernel

/-- C82: where the code divides exactly, nothing changes. -/
theorem C82_div_rem_same (hw : 0 < w) (hl : x.length = y.length) (h2 : 2 ≤ x.length)
    (hy : toNat y ≠ 0) (he : DivExact w x.length (toNat x) (toNat y)) :
    Repair.full x y = Div.full x y := by
  obtain ⟨⟨q, r⟩, e1, ⟨a1, a2⟩, a3, a4⟩ := (Repair.full_spec hw hl h2).2 hy
  obtain ⟨⟨q', r'⟩, e2, ⟨b1, b2⟩, b3, b4⟩ := (Div.full_spec hw hl h2 hy).2 he.1
  rw [he.2, Nat.add_zero] at b4
  simp only at a1 a2 a3 a4 b1 b2 b3 b4
  rw [e1, e2, toNat_inj (a1.trans b1.symm) (a2.trans b2.symm),
    toNat_inj (a3.trans b3.symm) (a4.trans b4.symm)]

example := C82_div_rem_same (x := ones) (y := d7) (by decide) (by decide) (by decide) (by decide +kernel)
  (by decide +kernel)

/-- C82: the same for a divisor of two limbs. -/
theorem C82_div_rem_wide (hw : 0 < w) (h2 : 2 ≤ x.length) (d : BitVec (w + w)) :
    Yields (d.toNat = 0)
      (fun r => ExactU x.length ((toNat x / d.toNat : Nat) : Int) r.1 ∧ r.2.toNat = toNat x % d.toNat)
      (Repair.wideDiv x d) := by
  refine (Repair.wideDiv_spec hw h2 d).mono ?_
  rintro r ⟨⟨h1, h2⟩, h3⟩
  exact ⟨⟨h1, by rw [h2]⟩, h3⟩

example := C82_div_rem_wide (x := mult) (by decide) (by decide) (0x8000000000000000ffffffffffffffff#128)
example : (Repair.wideDiv mult (0x8000000000000000ffffffffffffffff#128)).map (·.2) = .ok 0 ∧
    Div.wideDiv zero 0 = .ok (zero, 0) ∧ Repair.wideDiv zero 0 = .panic := by decide +kernel

/-- C82, C17: the signed division on the changed kernel: the wrapped quotient (only `MIN / -1` wraps) and
the exact remainder, a panic exactly for a zero divisor. -/
theorem C82_int_div_rem (hw : 0 < w) (hl : x.length = y.length) (h2 : 2 ≤ x.length)
    (he : x.length % 2 = 0) :
    Yields (toInt y = 0)
      (fun r => WrapS x.length ((toInt x).tdiv (toInt y)) r.1 ∧
        ExactS x.length ((toInt x).tmod (toInt y)) r.2) (Repair.wrappingDivRemS x y) :=
  Repair.wrappingDivRemS_spec hw hl h2 he

example := C82_int_div_rem (x := n3) (y := d3) (by decide) (by decide) (by decide) (by decide)
example : Repair.wrappingDivRemS top ones = .ok (top, zero) ∧
    Repair.wrappingDivRemS zero zero = .panic := by decide +kernel

/-! ### Signed multiplication (B1) -/

/-- C82, C08: with all limbs compared with `MIN` the overflow flag is right for all operands. -/
theorem C82_int_mul (hw : 0 < w) (hx : x ≠ []) (hl : x.length = y.length) :
    OverS x.length (toInt x * toInt y) (Repair.overflowingFullS x y) :=
  Repair.overflowingFullS_spec hw hx hl

example := C82_int_mul (x := top) (y := m2) (by decide) (by decide) (by decide)
/-- `(2^254 + 1) * (-2)`: the code reports no overflow. -/
example : let x : Limbs 64 := [1, 0, 0, 0x4000000000000000]
    (Mul.overflowingFullS x m2).2 = false ∧ (Repair.overflowingFullS x m2).2 = true ∧
    (Repair.overflowingFullS [0, 0, 0, 0x4000000000000000] m2) = (top, false) := by decide +kernel

/-- C82: outside the window where the code is wrong nothing changes. -/
theorem C82_int_mul_same (hw : 0 < w) (hx : x ≠ []) (hl : x.length = y.length)
    (hg : ¬ Mul.Gap w x.length (toInt x * toInt y)) :
    Repair.overflowingFullS x y = Mul.overflowingFullS x y := by
  have h1 := Repair.overflowingFullS_spec hw hx hl
  have h2 := OverS.of_gap (Mul.overflowingFullS_spec hw hx hl) hg
  refine Prod.ext (toInt_inj (h1.1.1.trans h2.1.1.symm) (h1.1.2.trans h2.1.2.symm)) ?_
  rw [Bool.eq_iff_iff, h1.2, h2.2]

example := C82_int_mul_same (x := a) (y := m2) (by decide) (by decide) (by decide)
  (by decide +kernel)

/-! ### Logarithms (B5) -/

/-- C82, C32: with the changed division, the guard `base <= 1` and the early `Some(0)`, `checked_ilog`
ends and returns the integer logarithm for every number from 1 and every base from 2, and `None`
otherwise; the unsigned and the signed form. -/
theorem C82_checked_ilog (hw : 1 < w) (hl : x.length = y.length) (he : x.length % 2 = 0)
    (h4 : 4 ≤ x.length) (hbits : w * x.length < 2 ^ 32) (oc : Bool) (rounds : Nat)
    (hr : w * x.length ≤ rounds) :
    Repair.checkedIlogU oc rounds x y =
      some (.ok (if 1 ≤ toNat x ∧ 2 ≤ toNat y then some (Nat.log (toNat y) (toNat x)) else none)) ∧
    Repair.checkedIlogS oc rounds x y =
      some (.ok (if 1 ≤ toInt x ∧ 2 ≤ toInt y then
        some (Nat.log (toInt y).toNat (toInt x).toNat) else none)) :=
  ⟨Repair.checkedIlogU_spec (by omega) hl he h4 oc hbits rounds hr,
    Repair.checkedIlogS_spec (by omega) hl he h4 hw oc hbits rounds hr⟩

example := C82_checked_ilog (x := n3) (y := d3) (by decide) (by decide) (by decide) (by decide) (by decide)
  true 256 (by decide)
/-- The code: a panic (B2), `None` for a number below the base, no result for base 1. -/
example : U.checkedIlog true 256 n3 d3 = some .panic ∧
    Repair.checkedIlogU true 256 n3 d3 = some (.ok (some 1)) ∧
    U.checkedIlog true 256 one d7 = some (.ok none) ∧
    Repair.checkedIlogU true 256 one d7 = some (.ok (some 0)) ∧
    U.checkedIlog true 256 d7 one = none ∧
    Repair.checkedIlogU true 256 d7 one = some (.ok none) := by decide +kernel

/-! ### Text (B6, B1, B7) -/

/-- C82, C29: with an error for a sign without digits and the changed multiplication, `from_str_radix`
meets its specification for every string, base, and type. -/
theorem C82_from_str_radix (hw : w = 32 ∨ w = 64) (hN : 4 ≤ N) (hr : 2 ≤ radix.toNat)
    (hr' : radix.toNat ≤ 36) (s : List Byte) :
    (∃ p, Repair.fromStrRadix (U.parseOps (w := w)) false N s radix = .ok p ∧
      ParsesU (w := w) N radix.toNat s p) ∧
    (∃ p, Repair.fromStrRadix (Repair.parseOpsS (w := w)) true N s radix = .ok p ∧
      ParsesS (w := w) N radix.toNat s p) :=
  ⟨Repair.fromStrRadixU_spec hw hN hr hr' s, Repair.fromStrRadixS_spec hw hN hr hr' s⟩

example := C82_from_str_radix (w := 64) (N := 4) (radix := 10) (Or.inr rfl) (by decide) (by decide)
  (by decide) (ascii "-57896044618658097711785492504343953926634992332820282019728792003956564819970")
/-- The strings of `C29_sign_only_false` and `C29_int_gap_false`, and `MIN`. -/
example : let p := Repair.fromStrRadix (w := 64) Repair.parseOpsS true 4
    p (ascii "-57896044618658097711785492504343953926634992332820282019728792003956564819970") 10
      = .ok (.err .negOverflow) ∧
    p (ascii "-57896044618658097711785492504343953926634992332820282019728792003956564819968") 10
      = .ok (.ok top) ∧
    p (ascii "-") 10 = .ok (.err .invalidDigit) ∧ p (ascii "+") 10 = .ok (.err .invalidDigit) ∧
    p (ascii "-2") 10 = .ok (.ok m2) := by decide +kernel

/-- C82, C30: the signed `to_str_radix` on the digits of the absolute value writes the numeral of every
value. -/
theorem C82_int_to_str_radix (hw : w = 32 ∨ w = 64) (h4 : 4 ≤ x.length) (he : x.length % 2 = 0)
    (hr : 2 ≤ radix.toNat) (hr' : radix.toNat ≤ 36) (oc : Bool) (len : Nat)
    (hlen : w * x.length + 1 ≤ len) :
    Repair.toStrRadixS oc len x radix = .ok (numeralS radix.toNat (toInt x)) :=
  Repair.toStrRadixS_spec hw h4 he hr hr' oc len hlen

example := C82_int_to_str_radix (x := m2) (radix := 10) (Or.inr rfl) (by decide) (by decide) (by decide)
  (by decide) true 257 (by decide)
example : Repair.toStrRadixS true 257 m2 10 = .ok (ascii "-2") ∧
    Repair.toStrRadixS true 257 top 16 =
      .ok (ascii "-8000000000000000000000000000000000000000000000000000000000000000") ∧
    Repair.toStrRadixS true 257 d7 36 ≠ Repair.toStrRadixS true 257 d7 35 := by decide +kernel

/-! ### Shifts (B9, B13) -/

/-- C82, C38: with the range test made in 128 bits the shift operators of a build with overflow checks
are right for amounts of every primitive type. -/
theorem C82_shift_prim {n : Nat} (hn : n ≤ 128) (hk : w = 2 ^ k) (h2 : x.length % 2 = 0) (hx : x ≠ [])
    (h32 : w * x.length < 2 ^ 32) (ps : Bool) (c : BitVec n) :
    (∀ s : Nat, primVal ps c = s → s < w * x.length →
      (∃ v, Repair.shlPrim ps x c = .ok v ∧ WrapU x.length ((toNat x : Int) * 2 ^ s) v ∧
        WrapS x.length (toInt x * 2 ^ s) v) ∧
      (∃ v, Repair.shrPrim ps false x c = .ok v ∧ ExactU x.length ((toNat x : Int) / 2 ^ s) v) ∧
      (∃ v, Repair.shrPrim ps true x c = .ok v ∧ ExactS x.length (toInt x / 2 ^ s) v)) ∧
    (primVal ps c < 0 ∨ ((w * x.length : Nat) : Int) ≤ primVal ps c →
      Repair.shlPrim ps x c = .panic ∧ ∀ sg, Repair.shrPrim ps sg x c = .panic) := by
  have hb : bits x = w * x.length := rfl
  have hr := Repair.primInRange_iff hn ps (B := bits x)
    (lt_trans (by rw [hb]; exact h32) (by decide)) c
  refine ⟨fun s hs hlt => ?_, fun h => ?_⟩
  · have h1 : Repair.primInRange ps (bits x) c = true := hr.2 (by rw [hs, hb]; omega)
    have h3 := primAsU32_eq ps c hs (by omega)
    have hm : s % bits x = s := Nat.mod_eq_of_lt (by rw [hb]; exact hlt)
    have hU := wrappingShlU hk h2 hx s
    have hS := wrappingShlS hk h2 hx s
    have hRU := wrappingShrU hk h2 hx s
    have hRS := wrappingShrS hk h2 hx s
    rw [hm] at hU hS hRU hRS
    simp only [Repair.shlPrim, Repair.shrPrim, h1, if_true, h3]
    exact ⟨⟨_, rfl, hU, hS⟩, ⟨_, rfl, hRU⟩, ⟨_, rfl, hRS⟩⟩
  · have h1 : Repair.primInRange ps (bits x) c = false := by
      rw [← Bool.not_eq_true, hr, hb]; omega
    simp [Repair.shlPrim, Repair.shrPrim, h1]

example := (C82_shift_prim (n := 8) (k := 6) (x := a) (by decide) rfl (by decide) (by decide) (by decide)
  false (200#8)).1 200 (by decide) (by decide)
/-- `1 << 3u8` (a panic in the code), and `1 << -1i8`. -/
example : Repair.shlPrim false one (3#8) = .ok [8, 0, 0, 0] ∧
    Repair.shlPrim true one (0xff#8) = .panic := by decide

/-- C82, C39: with -1 for negative numbers the signed `unbounded_shr` is the floor of the division by a
power of two for every amount. -/
theorem C82_int_unbounded_shr (hk : w = 2 ^ k) (h2 : x.length % 2 = 0) (hx : x ≠ []) (s : Nat) :
    ExactS x.length (toInt x / 2 ^ s) (Repair.unboundedShrS x s) :=
  Repair.unboundedShrS_spec hk h2 hx s

example := C82_int_unbounded_shr (k := 6) (x := m2) rfl (by decide) (by decide) 1000
example : Repair.unboundedShrS m2 1000 = ones ∧ Repair.unboundedShrS a 1000 = zero := by decide

/-! ### Carry (B10) -/

/-- C82, C37: with the exclusive or of the two flags the signed `carrying_add` and `borrowing_sub` report
overflow exactly if the result is out of range. -/
theorem C82_int_carrying (hw : 1 < w) (hx : 2 ≤ x.length) (hl : x.length = y.length) (c : Bool) :
    OverS x.length (toInt x + toInt y + c.toNat) (Repair.carryingAddS x y c) ∧
    OverS x.length (toInt x - toInt y - c.toNat) (Repair.borrowingSubS x y c) :=
  ⟨Repair.carryingAddS_spec hw hx hl c, Repair.borrowingSubS_spec hw hx hl c⟩

example := C82_int_carrying (x := top) (y := ones) (by decide) (by decide) (by decide) true
/-- `MIN + -1 + 1` and `MAX - -1 - 1` are in range. -/
example : I.carryingAdd top ones true = (top, true) ∧ Repair.carryingAddS top ones true = (top, false) ∧
    I.borrowingSub maxS ones true = (maxS, true) ∧ Repair.borrowingSubS maxS ones true = (maxS, false) := by
  decide

/-! ### Conversions (B11, B3) -/

/-- C82, C28: with `<=` the conversion from the unsigned type accepts exactly the numbers in range. -/
theorem C82_try_from_unsigned (hw : 0 < w) (h2 : x.length % 2 = 0) (h4 : 4 ≤ x.length) :
    CheckS x.length (toNat x) (Repair.tryFromUnsigned x) :=
  Repair.tryFromUnsigned_spec hw h2 h4

example := C82_try_from_unsigned (x := maxS) (by decide) (by decide) (by decide)
example : Repair.tryFromUnsigned maxS = some maxS ∧ Repair.tryFromUnsigned top = none := by decide

/-- C82, C41: with the limbs in order the split of a 128-bit scalar into limbs of 32 bits keeps its
value. -/
theorem C82_limb_n (hN : 4 < N) (n : BitVec 128) :
    (∃ y : Limbs 32, Repair.u128ToLimbN N n = .ok y ∧ ExactU N n.toNat y) ∧
    (∃ y : Limbs 32, Repair.i128ToLimbN N n = .ok y ∧ ExactS N n.toInt y) :=
  ⟨Repair.u128ToLimbN_spec hN n, Repair.i128ToLimbN_spec hN n⟩

example := C82_limb_n (N := 8) (by decide) (0x80000000000000000000000100000002#128)
example : Repair.u128ToLimbN (w := 32) 8 (0x100000002#128) = .ok [2, 1, 0, 0, 0, 0, 0, 0] ∧
    u128ToLimbN (w := 32) 8 (0x100000002#128) = .ok [2, 0, 0, 1, 0, 0, 0, 0] ∧
    Repair.i128ToLimbN (w := 32) 5 (BitVec.allOnes 128) = .ok (List.replicate 5 0xffffffff) := by decide

end I256
