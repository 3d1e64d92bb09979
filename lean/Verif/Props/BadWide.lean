import Verif.Lemmas.BadWide
import Verif.Props.Div
import Verif.Props.DivSigned
import Verif.Props.Fixed

/-!
# C118: which double-limb divisors panic

The exact set of divisors of two limbs for which the division of some number panics (C14, C16, C55), with a numerator for
each of them.
-/

namespace I256

open Sample

variable {w N : Nat} {x : Limbs w}

/-- C118: the non-zero double-limb divisors for which some division panics: those whose leading `2 * w` digits (the divisor
moved up as far as it goes) have an upper half `u` and a lower half `l` with `u < l`. -/
theorem C118_divisors (hw : 1 < w) (h3 : 3 ≤ N) {n : BitVec (w + w)} (hn : n ≠ 0) (oc : Bool) :
    let m := n.toNat * 2 ^ (2 * w - bitLen n.toNat)
    let bad := m / 2 ^ w < m % 2 ^ w
    (∀ f ∈ [U.divRemUWide oc, U.wrappingDivRemUWide], (∃ x : Limbs w, x.length = N ∧ f x n = .panic) ↔ bad) ∧
    ((∃ x : Limbs w, x.length = N ∧ U.checkedDivRemUWide x n = .panic) ↔ bad) ∧
    ((∃ x : Limbs w, x.length = N ∧ U.overflowingDivRemUWide x n = .panic) ↔ bad) ∧
    (∀ f ∈ [U.divUWide oc, U.wrappingDivUWide], (∃ x : Limbs w, x.length = N ∧ f x n = .panic) ↔ bad) ∧
    (∀ f ∈ [U.remUWide oc, U.wrappingRemUWide], (∃ x : Limbs w, x.length = N ∧ f x n = .panic) ↔ bad) ∧
    ((∃ x : Limbs w, x.length = N ∧ U.checkedDivUWide x n = .panic) ↔ bad) ∧
    ((∃ x : Limbs w, x.length = N ∧ U.checkedRemUWide x n = .panic) ↔ bad) ∧
    ((∃ x : Limbs w, x.length = N ∧ U.overflowingDivUWide x n = .panic) ↔ bad) ∧
    ((∃ x : Limbs w, x.length = N ∧ U.overflowingRemUWide x n = .panic) ↔ bad) := by
  intro m bad
  have hn0 : n.toNat ≠ 0 := fun h => hn (by apply BitVec.eq_of_toNat_eq; rw [h]; simp)
  have hL := bitLen_le_of_lt n.isLt
  have key := divPanics_two_iff hw h3 hn0 n.isLt
  rw [lead_digits (by omega)] at key
  have h : ∀ x : Limbs w, x.length = N → _ := fun x hx =>
    C16_uint_div_uwide (x := x) (by omega) (by omega) hn oc
  refine ⟨fun f hf => ?_, ?_, ?_, fun f hf => ?_, fun f hf => ?_, ?_, ?_, ?_, ?_⟩
  · exact (panics_of_yields fun x hx => (h x hx).1 f hf).trans key
  · exact (panics_of_yields fun x hx => (h x hx).2.1).trans key
  · exact (panics_of_yields fun x hx => (h x hx).2.2.1).trans key
  · exact (panics_of_yields fun x hx => (h x hx).2.2.2.1 f hf).trans key
  · exact (panics_of_yields fun x hx => (h x hx).2.2.2.2.1 f hf).trans key
  · exact (panics_of_yields fun x hx => (h x hx).2.2.2.2.2.1).trans key
  · exact (panics_of_yields fun x hx => (h x hx).2.2.2.2.2.2.1).trans key
  · exact (panics_of_yields fun x hx => (h x hx).2.2.2.2.2.2.2.1).trans key
  · exact (panics_of_yields fun x hx => (h x hx).2.2.2.2.2.2.2.2).trans key

example := C118_divisors (w := 64) (N := 4) (by decide) (by decide)
  (n := (0x8000000000000000#64 ++ 0xffffffffffffffff#64)) (by decide) true

/-- C118: no divisor whose leading half is all ones, and none that fits one limb, is among them. -/
theorem C118_safe (hw : 1 < w) (h3 : 3 ≤ x.length) {n : BitVec (w + w)} (hn : n ≠ 0)
    (h : n.toNat < 2 ^ w ∨ 2 ^ (2 * w) - 2 ^ w ≤ n.toNat) :
    ∃ r, U.wrappingDivRemUWide x n = .ok r ∧ ExactU x.length (toNat x / n.toNat) r.1 ∧ r.2.toNat = toNat x % n.toNat := by
  refine ((C16_uint_div_uwide (x := x) (by omega) (by omega) hn true).1 U.wrappingDivRemUWide (by simp)).2 ?_
  intro hp
  have hb := toNat_lt x
  rw [bits] at hb
  have hn0 : n.toNat ≠ 0 := fun h => hn (by apply BitVec.eq_of_toNat_eq; rw [h]; simp)
  have hbad := (divPanics_two_iff hw h3 hn0 n.isLt).1 ⟨_, hb, hp⟩
  rcases h with h | h
  · have h1 := two_limbs (w := w) (y := n.toNat) (by omega) (by intro h0; rw [h0] at hbad; exact Nat.not_lt_zero _ hbad)
    have h2 := nLimbs_le_of_lt (w := w) (N := 1) (by omega) (show n.toNat < 2 ^ (w * 1) by rwa [Nat.mul_one])
    omega
  · obtain ⟨b1, b2, b3⟩ := bitLen_spec hn0
    have hL := bitLen_le_of_lt n.isLt
    have hB : 2 ≤ 2 ^ w := one_lt_two_pow' (by omega)
    have e : 2 ^ (2 * w) = 2 ^ w * 2 ^ w := by rw [Nat.two_mul, Nat.pow_add]
    have hh : 2 ^ (2 * w - 1) * 2 = 2 ^ (2 * w) := by
      rw [← Nat.pow_succ, Nat.succ_eq_add_one, Nat.sub_add_cancel (by omega)]
    have h2 : 2 * 2 ^ w ≤ 2 ^ (2 * w) := by rw [e]; exact Nat.mul_le_mul_right _ hB
    have hge : 2 ^ (2 * w - 1) ≤ n.toNat := by omega
    have h4 := (Nat.pow_lt_pow_iff_right (a := 2) (by omega)).1 (Nat.lt_of_le_of_lt hge b3)
    rw [show bitLen n.toNat = 2 * w by omega, Nat.mul_div_cancel _ (by positivity)] at hbad
    have h5 : 2 ^ w - 1 ≤ n.toNat / 2 ^ w := by
      rw [Nat.le_div_iff_mul_le (by positivity), Nat.sub_mul, Nat.one_mul, ← e]
      exact h
    have h6 := Nat.mod_lt n.toNat (show 0 < 2 ^ w by positivity)
    omega

example := C118_safe (w := 64) (x := ones) (by decide) (by decide) (n := BitVec.ofNat 128 (2 ^ 128 - 1)) (by decide)
  (.inr (by decide +kernel))

/-- C118: the only power of ten of type `u128` for which the division of some `U256` (or larger) number panics, with 64-bit
limbs, is `10 ^ 32`. -/
theorem C118_powers_of_ten {k : Nat} (hk : k ≤ 38) (h3 : 3 ≤ N) (oc : Bool) :
    ∀ f ∈ [U.divUWide oc, U.wrappingDivUWide],
      (∃ x : Limbs 64, x.length = N ∧ f x (BitVec.ofNat (64 + 64) (10 ^ k)) = .panic) ↔ k = 32 := by
  intro f hf
  have hlt : 10 ^ k < 2 ^ (64 + 64) :=
    Nat.lt_of_le_of_lt (Nat.pow_le_pow_right (by omega) hk) (by decide +kernel)
  have hv : (BitVec.ofNat (64 + 64) (10 ^ k)).toNat = 10 ^ k := by
    rw [BitVec.toNat_ofNat, Nat.mod_eq_of_lt hlt]
  have hn : BitVec.ofNat (64 + 64) (10 ^ k) ≠ 0 := by
    intro h
    rw [h] at hv
    have : 0 < 10 ^ k := by positivity
    simp at hv
    omega
  have h := (C118_divisors (w := 64) (by decide) h3 hn oc).2.2.2.1 f hf
  rw [hv] at h
  rw [h]
  have all : ∀ k < 39, (10 ^ k * 2 ^ (2 * 64 - bitLen (10 ^ k)) / 2 ^ 64 <
      10 ^ k * 2 ^ (2 * 64 - bitLen (10 ^ k)) % 2 ^ 64) ↔ k = 32 := by decide +kernel
  exact all k (by omega)

example := C118_powers_of_ten (k := 32) (N := 4) (by decide) (by decide) true U.wrappingDivUWide (by simp)

/-- C118: the only power of ten of type `u64`, with 32-bit limbs, is `10 ^ 17`. -/
theorem C118_powers_of_ten_32 {k : Nat} (hk : k ≤ 19) (h3 : 3 ≤ N) (oc : Bool) :
    ∀ f ∈ [U.divUWide oc, U.wrappingDivUWide],
      (∃ x : Limbs 32, x.length = N ∧ f x (BitVec.ofNat (32 + 32) (10 ^ k)) = .panic) ↔ k = 17 := by
  intro f hf
  have hlt : 10 ^ k < 2 ^ (32 + 32) :=
    Nat.lt_of_le_of_lt (Nat.pow_le_pow_right (by omega) hk) (by decide +kernel)
  have hv : (BitVec.ofNat (32 + 32) (10 ^ k)).toNat = 10 ^ k := by
    rw [BitVec.toNat_ofNat, Nat.mod_eq_of_lt hlt]
  have hn : BitVec.ofNat (32 + 32) (10 ^ k) ≠ 0 := by
    intro h
    rw [h] at hv
    have : 0 < 10 ^ k := by positivity
    simp at hv
    omega
  have h := (C118_divisors (w := 32) (by decide) h3 hn oc).2.2.2.1 f hf
  rw [hv] at h
  rw [h]
  have all : ∀ k < 20, (10 ^ k * 2 ^ (2 * 32 - bitLen (10 ^ k)) / 2 ^ 32 <
      10 ^ k * 2 ^ (2 * 32 - bitLen (10 ^ k)) % 2 ^ 32) ↔ k = 17 := by decide +kernel
  exact all k (by omega)

example := C118_powers_of_ten_32 (k := 17) (N := 8) (by decide) (by decide) true U.wrappingDivUWide (by simp)

/-- Numerators for the two: the upper half of the leading digits of the divisor, times the power of two above the divisor. -/
example : U.wrappingDivUWide ([0, 0x9dc5ada82b70b59d <<< 43, 0x9dc5ada82b70b59d >>> 21, 0] : Limbs 64)
      (BitVec.ofNat (64 + 64) (10 ^ 32)) = .panic ∧
    U.wrappingDivUWide ([0, 0xb1a2bc2e <<< 25, 0xb1a2bc2e >>> 7, 0, 0, 0, 0, 0] : Limbs 32)
      (BitVec.ofNat (32 + 32) (10 ^ 17)) = .panic := by decide +kernel

/-- C118: the same for the functions on scalars of a fixed width of two limbs: `u128` with 64-bit limbs, `u64` with 32-bit
limbs. -/
theorem C118_fixed (hw : w = 32 ∨ w = 64) (hN : 256 ≤ w * N) {k : Fix} (hk : k.n = 2 * w) {n : BitVec k.n} (hn : n ≠ 0)
    (oc : Bool) :
    let m := n.toNat * 2 ^ (2 * w - bitLen n.toNat)
    let bad := m / 2 ^ w < m % 2 ^ w
    (∀ f ∈ [U.wrappingDivRemFix k, U.divRemFix oc k], (∃ x : Limbs w, x.length = N ∧ f x n = .panic) ↔ bad) ∧
    ((∃ x : Limbs w, x.length = N ∧ U.checkedDivRemFix k x n = .panic) ↔ bad) ∧
    (∀ f ∈ [U.wrappingDivFix k, U.divFix oc k], (∃ x : Limbs w, x.length = N ∧ f x n = .panic) ↔ bad) ∧
    (∀ f ∈ [U.wrappingRemFix k, U.remFix oc k], (∃ x : Limbs w, x.length = N ∧ f x n = .panic) ↔ bad) ∧
    ((∃ x : Limbs w, x.length = N ∧ U.checkedDivFix k x n = .panic) ↔ bad) ∧
    ((∃ x : Limbs w, x.length = N ∧ U.checkedRemFix k x n = .panic) ↔ bad) := by
  intro m bad
  have hn0 : n.toNat ≠ 0 := fun h => hn (by apply BitVec.eq_of_toNat_eq; rw [h]; simp)
  have hlt : n.toNat < 2 ^ (w + w) := by
    rw [← Nat.two_mul, ← hk]
    exact n.isLt
  have h3 : 3 ≤ N := by rcases hw with rfl | rfl <;> omega
  have key := divPanics_two_iff (by omega) h3 hn0 hlt
  rw [lead_digits (by have := bitLen_le_of_lt hlt; omega)] at key
  have h : ∀ x : Limbs w, x.length = N → _ := fun x hx =>
    C55_uint_div_fixed_partial (x := x) hw (by rwa [hx]) k hn oc
  have e : ∀ X, ScalarPanics w k.n X n.toNat = DivPanics w 2 X n.toNat := fun X =>
    propext ⟨And.right, fun h => ⟨hk, h⟩⟩
  simp only [e] at h
  refine ⟨fun f hf => ?_, ?_, fun f hf => ?_, fun f hf => ?_, ?_, ?_⟩
  · exact (panics_of_yields fun x hx => (h x hx).1 f hf).trans key
  · exact (panics_of_yields fun x hx => (h x hx).2.1).trans key
  · exact (panics_of_yields fun x hx => (h x hx).2.2.2.1 f hf).trans key
  · exact (panics_of_yields fun x hx => (h x hx).2.2.2.2.1 f hf).trans key
  · exact (panics_of_yields fun x hx => (h x hx).2.2.2.2.2.1).trans key
  · exact (panics_of_yields fun x hx => (h x hx).2.2.2.2.2.2.1).trans key

example := C118_fixed (w := 64) (N := 4) (.inr rfl) (by decide) (k := .b128) rfl
  (n := BitVec.ofNat 128 (2 ^ 127 + 2 ^ 64 - 1)) (by decide) true
example := C118_fixed (w := 32) (N := 8) (.inl rfl) (by decide) (k := .b64) rfl
  (n := BitVec.ofNat 64 (10 ^ 17)) (by decide) true
example : U.checkedRemFix .b64 ([0, 0xb1a2bc2e <<< 25, 0xb1a2bc2e >>> 7, 0, 0, 0, 0, 0] : Limbs 32)
    (BitVec.ofNat 64 (10 ^ 17)) = .panic := by decide +kernel

/-- C118: signed numbers divided by an unsigned double limb: the same divisors. -/
theorem C118_signed_unsigned (hw : 1 < w) (h4 : 4 ≤ N) (he : N % 2 = 0) {n : BitVec (w + w)} (hn : n ≠ 0) (oc : Bool) :
    let m := n.toNat * 2 ^ (2 * w - bitLen n.toNat)
    let bad := m / 2 ^ w < m % 2 ^ w
    (∀ f ∈ [I.wrappingDivRemUWide oc, I.divRemUWide oc], (∃ x : Limbs w, x.length = N ∧ f x n = .panic) ↔ bad) ∧
    ((∃ x : Limbs w, x.length = N ∧ I.checkedDivRemUWide oc x n = .panic) ↔ bad) ∧
    ((∃ x : Limbs w, x.length = N ∧ I.overflowingDivRemUWide oc x n = .panic) ↔ bad) := by
  intro m bad
  have hn0 : n.toNat ≠ 0 := fun h => hn (by apply BitVec.eq_of_toNat_eq; rw [h]; simp)
  have hL := bitLen_le_of_lt n.isLt
  have hm := lead_digits (w := w) (y := n.toNat) (by omega)
  have h : ∀ x : Limbs w, x.length = N → _ := fun x hx =>
    C51_int_div_uwide (x := x) hw (by omega) (by omega) hn oc
  refine ⟨fun f hf => ?_, ?_, ?_⟩
  · have := panics_of_yieldsS hw h4 hn0 n.isLt fun x hx => (h x hx).1 f hf
    rwa [hm] at this
  · have := panics_of_yieldsS hw h4 hn0 n.isLt fun x hx => (h x hx).2.1
    rwa [hm] at this
  · have := panics_of_yieldsS hw h4 hn0 n.isLt fun x hx => (h x hx).2.2.1
    rwa [hm] at this

example := C118_signed_unsigned (w := 64) (N := 4) (by decide) (by decide) rfl
  (n := (0x8000000000000000#64 ++ 0xffffffffffffffff#64)) (by decide) true

/-- C118: signed numbers divided by a signed double limb: the absolute value of the divisor decides. -/
theorem C118_signed (hw : 1 < w) (h4 : 4 ≤ N) (he : N % 2 = 0) {n : BitVec (w + w)} (hn : n ≠ 0) :
    let a := n.toInt.natAbs
    let m := a * 2 ^ (2 * w - bitLen a)
    let bad := m / 2 ^ w < m % 2 ^ w
    ((∃ x : Limbs w, x.length = N ∧ I.wrappingDivRemIWide x n = .panic) ↔ bad) ∧
    ((∃ x : Limbs w, x.length = N ∧ I.overflowingDivRemIWide x n = .panic) ↔ bad) ∧
    ((∃ x : Limbs w, x.length = N ∧ I.checkedDivRemIWide x n = .panic) ↔ bad) := by
  intro a m bad
  have hn0 : a ≠ 0 := fun h => hn (by
    apply BitVec.eq_of_toInt_eq
    rw [Int.natAbs_eq_zero.1 h]
    simp)
  have hlt : a < 2 ^ (w + w) := by
    have hi := bv_InS n
    unfold InS at hi
    have hE : ((2 ^ (w + w) : Nat) : Int) = 2 ^ (w + w) := by push_cast; rfl
    rw [← hE] at hi
    omega
  have hL := bitLen_le_of_lt hlt
  have hm := lead_digits (w := w) (y := a) (by omega)
  have h : ∀ x : Limbs w, x.length = N → _ := fun x hx =>
    C51_int_div_iwide (x := x) hw (by omega) (by omega) hn
  refine ⟨?_, ?_, ?_⟩
  · have := panics_of_yieldsS hw h4 hn0 hlt fun x hx => (h x hx).1
    rwa [hm] at this
  · have := panics_of_yieldsS hw h4 hn0 hlt fun x hx => (h x hx).2.1
    rwa [hm] at this
  · have := panics_of_yieldsS hw h4 hn0 hlt fun x hx => (h x hx).2.2
    rwa [hm] at this

example := C118_signed (w := 64) (N := 4) (by decide) (by decide) rfl (n := BitVec.ofInt 128 (-10 ^ 32)) (by decide)
example : I.wrappingDivRemIWide ([0, 0x9dc5ada82b70b59d <<< 43, 0x9dc5ada82b70b59d >>> 21, 0] : Limbs 64)
    (BitVec.ofInt (64 + 64) (-10 ^ 32)) = .panic := by decide +kernel

end I256
