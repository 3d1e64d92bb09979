import Verif.Lemmas.BadDivisor
import Verif.Lemmas.RareMul
import Verif.Props.Div
import Verif.Props.DivSigned

/-!
# C117: which divisors are divided by wrongly

The exact set of divisors for which the remainder of some numerator is wrong or a panic (C13, C14), with a numerator for
each of them.  `bitLen y` is the number of binary digits of `y`, so `y * 2 ^ (2 * w) / 2 ^ bitLen y` are its leading
`2 * w` binary digits (with zeros behind if it has fewer).
-/

namespace I256

open Sample

variable {w N : Nat} {x y : Limbs w}

/-- C117: the divisors for which some remainder is wrong: those with a digit of one beyond the leading `2 * w` digits, except
the divisors of all `w * N` digits, and those of at most `N - 1` limbs whose leading `2 * w` digits have an upper half that is
smaller than the lower half. -/
theorem C117_divisors (hw : 1 < w) (hl : y.length = N) (h2 : 2 ≤ N) (he : N % 2 = 0) (hy : toNat y ≠ 0) (oc : Bool) :
    ∀ f ∈ [U.wrappingRem, U.wrappingRemEuclid, U.strictRem, U.strictRemEuclid, U.rem oc, U.remEuclid oc],
    (∃ x : Limbs w, x.length = N ∧ ¬ ∃ v, f x y = .ok v ∧ ExactU N (toNat x % toNat y) v) ↔
      (toNat y < 2 ^ (w * N - 1) ∧ ¬ 2 ^ (bitLen (toNat y) - 2 * w) ∣ toNat y) ∨
      (toNat y < 2 ^ (w * (N - 1)) ∧
        toNat y * 2 ^ (2 * w) / 2 ^ bitLen (toNat y) / 2 ^ w < toNat y * 2 ^ (2 * w) / 2 ^ bitLen (toNat y) % 2 ^ w) := by
  intro f hf
  rw [← half_iff (Nat.mod_lt _ (show 0 < 2 ^ w by positivity))]
  have hb := toNat_lt y
  rw [bits, hl] at hb
  have hy1 : y.length = N := hl
  constructor
  · rintro ⟨x, hx, hn⟩
    have hxb := toNat_lt x
    rw [bits, hx] at hxb
    by_contra hc
    rw [not_or, not_and, not_and, Nat.not_lt] at hc
    apply hn
    subst hx
    rw [C13_uint_rem_exact_partial (by omega) hl.symm h2 he hy oc f hf]
    exact DivExact.of_clean (clean_of (by omega) hxb hb (fun h => Classical.not_not.1 (hc.1 h)) hc.2)
  · have hnN := nLimbs_le_of_lt (w := w) (by omega) hb
    have key : ∀ X, X < 2 ^ (w * N) → addBack w X (toNat y) 0 = true →
        ∃ x : Limbs w, x.length = N ∧ ¬ ∃ v, f x y = .ok v ∧ ExactU N (toNat x % toNat y) v := by
      intro X hX ha
      obtain ⟨x, hx, rfl⟩ := exists_toNat w N X hX
      refine ⟨x, hx, ?_⟩
      subst hx
      rw [C13_uint_rem_exact_partial (by omega) hl.symm h2 he hy oc f hf]
      exact not_exact_of hnN ha
    have hww : 0 < w * N := Nat.mul_pos (by omega) (by omega)
    have e2 : 2 ^ (w * N) = 2 * 2 ^ (w * N - 1) := by
      rw [← Nat.pow_succ', Nat.succ_eq_add_one, Nat.sub_add_cancel hww]
    have first : toNat y < 2 ^ (w * N - 1) → ¬ 2 ^ (bitLen (toNat y) - 2 * w) ∣ toNat y →
        ∃ x : Limbs w, x.length = N ∧ ¬ ∃ v, f x y = .ok v ∧ ExactU N (toNat x % toNat y) v := fun h1 h3 =>
      key (2 * toNat y - 1) (by omega) (addBack_multiple hw h3 (Nat.le_refl 2)
        (by calc 2 = 2 ^ 1 := rfl
              _ ≤ _ := Nat.pow_le_pow_right (by omega) (by omega)) (Nat.le_refl 1) (by omega))
    rintro (⟨h1, h3⟩ | ⟨h1, h3⟩)
    · exact first h1 h3
    · by_cases hd : 2 ^ (bitLen (toNat y) - 2 * w) ∣ toNat y
      · refine key _ ?_ (addBack_top (by omega) hd h3)
        have hL := bitLen_le_of_lt h1
        obtain ⟨b1, b2, b3⟩ := bitLen_spec hy
        have hz : toNat y * 2 ^ (2 * w) / 2 ^ bitLen (toNat y) / 2 ^ w < 2 ^ w := by
          rw [Nat.div_div_eq_div_mul]
          apply Nat.div_lt_of_lt_mul
          calc toNat y * 2 ^ (2 * w) < 2 ^ bitLen (toNat y) * 2 ^ (2 * w) := Nat.mul_lt_mul_of_pos_right b3 (by positivity)
            _ = _ := by rw [show 2 * w = w + w by omega, Nat.pow_add]; ring
        calc _ < 2 ^ w * 2 ^ bitLen (toNat y) := Nat.mul_lt_mul_of_pos_right hz (by positivity)
          _ ≤ 2 ^ w * 2 ^ (w * (N - 1)) := Nat.mul_le_mul_left _ (Nat.pow_le_pow_right (by omega) hL)
          _ = 2 ^ (w * N) := by
            rw [← Nat.pow_add]
            congr 1
            obtain ⟨k, rfl⟩ : ∃ k, N = k + 1 := ⟨N - 1, by omega⟩
            simp only [Nat.add_sub_cancel]; ring
      · exact first (Nat.lt_of_lt_of_le h1 (Nat.pow_le_pow_right (by omega) (by
          obtain ⟨k, rfl⟩ : ∃ k, N = k + 1 := ⟨N - 1, by omega⟩
          simp only [Nat.add_sub_cancel, Nat.mul_succ]; omega))) hd

example := C117_divisors (w := 64) (N := 4) (y := d2) (by decide) rfl (by decide) rfl (by decide +kernel) true
  U.wrappingRem (by simp)
/-- Some divisors of both kinds. -/
example :
    let bad := fun y : Nat => decide ((y < 2 ^ 255 ∧ ¬ 2 ^ (bitLen y - 128) ∣ y) ∨
      (y < 2 ^ 192 ∧ y * 2 ^ 128 / 2 ^ bitLen y / 2 ^ 64 < y * 2 ^ 128 / 2 ^ bitLen y % 2 ^ 64))
    bad (2 ^ 189 + 1) = true ∧ bad (2 ^ 127 + 2 ^ 64 - 1) = true ∧ bad (2 ^ 255 - 19) = true ∧ bad (10 ^ 76) = true ∧
      bad (10 ^ 19) = false ∧ bad (2 ^ 64 + 1) = false ∧ bad (2 ^ 256 - 1) = false ∧ bad (3 * 2 ^ 190) = false := by
  decide +kernel

/-- C117: with a digit of one beyond the leading `2 * w` digits, all of `q * y - k` for `k ≤ q ≤ 2 ^ (w - 1)` have a wrong
remainder or a panic. -/
theorem C117_multiples (hw : 1 < w) (hl : x.length = y.length) (h2 : 2 ≤ x.length) (he : x.length % 2 = 0) (oc : Bool)
    (hd : ¬ 2 ^ (bitLen (toNat y) - 2 * w) ∣ toNat y) {q k : Nat} (hq : 2 ≤ q) (hq' : q ≤ 2 ^ (w - 1)) (hk : 1 ≤ k)
    (hk' : k ≤ q) (hx : toNat x + k = q * toNat y) :
    ∀ f ∈ [U.wrappingRem, U.wrappingRemEuclid, U.strictRem, U.strictRemEuclid, U.rem oc, U.remEuclid oc],
    ¬ ∃ v, f x y = .ok v ∧ ExactU x.length (toNat x % toNat y) v := by
  intro f hf
  have hy : toNat y ≠ 0 := by intro h0; rw [h0] at hd; exact hd ⟨0, by simp⟩
  have hb := toNat_lt y
  rw [bits, ← hl] at hb
  rw [C13_uint_rem_exact_partial (by omega) hl h2 he hy oc f hf]
  refine not_exact_of (nLimbs_le_of_lt (by omega) hb) ?_
  rw [show toNat x = q * toNat y - k by omega]
  exact addBack_multiple hw hd hq hq' hk hk'

example := C117_multiples (w := 64) (x := [1, 0, 0x4000000000000000, 0]) (y := d2) (by decide) rfl (by decide) rfl true
  (by decide +kernel) (q := 2) (k := 1) (by decide) (by decide) (by decide) (by decide) (by decide +kernel)
  U.wrappingRem (by simp)

/-- C117: what `(2 * y - 1) % y` is for such a divisor: too large by the power of two above `y` if `y` has a leading zero limb,
otherwise a panic. -/
theorem C117_twice (hw : 2 < w) (hl : x.length = y.length) (h2 : 2 ≤ x.length) (he : x.length % 2 = 0) (oc : Bool)
    (hd : ¬ 2 ^ (bitLen (toNat y) - 2 * w) ∣ toNat y) (hx : toNat x + 1 = 2 * toNat y) :
    ∀ f ∈ [U.wrappingRem, U.wrappingRemEuclid, U.strictRem, U.strictRemEuclid, U.rem oc, U.remEuclid oc],
    (toNat y < 2 ^ (w * (x.length - 1)) →
      ∃ v, f x y = .ok v ∧ ExactU x.length (toNat y - 1 + 2 ^ bitLen (toNat y)) v) ∧
    (2 ^ (w * (x.length - 1)) ≤ toNat y → f x y = .panic) := by
  intro f hf
  have hy : toNat y ≠ 0 := by intro h0; rw [h0] at hd; exact hd ⟨0, by simp⟩
  have hb := toNat_lt y
  rw [bits, ← hl] at hb
  have h := C13_uint_rem_partial (by omega) hl h2 he hy oc f hf
  have hxe : toNat x = 2 * toNat y - 1 := by omega
  refine ⟨fun hlt => ?_, fun hge => h.1 ?_⟩
  · have hn := nLimbs_le_of_lt (w := w) (by omega) hlt
    obtain ⟨v, e, hv⟩ := h.2 (fun hp => by have := hp.1; omega)
    refine ⟨v, e, ?_⟩
    rw [hxe, strayRem_twice hw hd (by omega)] at hv
    have hm : (2 * toNat y - 1) % toNat y = toNat y - 1 := by
      rw [show 2 * toNat y - 1 = toNat y - 1 + toNat y by omega, Nat.add_mod_right, Nat.mod_eq_of_lt (by omega)]
    refine ⟨hv.1, ?_⟩
    have hm' : ((2 * toNat y - 1 : Nat) : Int) % (toNat y : Int) = ((toNat y - 1 : Nat) : Int) := by
      rw [← hm, Int.natCast_mod]
    rw [hv.2, hm']
    push_cast [show 1 ≤ toNat y by omega]
    rfl
  · refine ⟨Nat.le_antisymm (nLimbs_le_of_lt (by omega) hb) ?_, 0, ?_⟩
    · obtain ⟨-, -, a3⟩ := nLimbs_spec (w := w) (by omega) hy
      have h3 := (Nat.pow_lt_pow_iff_right (a := 2) (by omega)).1 (Nat.lt_of_le_of_lt hge a3)
      have := Nat.lt_of_mul_lt_mul_left h3
      omega
    · rw [hxe]
      exact addBack_multiple (by omega) hd (Nat.le_refl 2)
        (by calc 2 = 2 ^ 1 := rfl
              _ ≤ _ := Nat.pow_le_pow_right (by omega) (by omega)) (Nat.le_refl 1) (by omega)

example := C117_twice (w := 64) (x := [1, 0, 0x4000000000000000, 0]) (y := d2) (by decide) rfl (by decide) rfl true
  (by decide +kernel) (by decide +kernel) U.wrappingRem (by simp)
example : U.wrappingRem [1, 0, 0x4000000000000000, 0] d2 = .ok ([0, 0, 0x6000000000000000, 0] : Limbs 64) := by
  decide +kernel

/-- C117: in particular for every odd divisor of more than two limbs. -/
theorem C117_odd (hw : 2 < w) (hl : x.length = y.length) (h2 : 2 ≤ x.length) (he : x.length % 2 = 0) (oc : Bool)
    (ho : toNat y % 2 = 1) (hb : 2 ^ (2 * w) ≤ toNat y) (hx : toNat x + 1 = 2 * toNat y) :
    ∀ f ∈ [U.wrappingRem, U.wrappingRemEuclid, U.strictRem, U.strictRemEuclid, U.rem oc, U.remEuclid oc],
    (toNat y < 2 ^ (w * (x.length - 1)) →
      ∃ v, f x y = .ok v ∧ toNat y < toNat v ∧ toNat x % toNat y < toNat y) ∧
    (2 ^ (w * (x.length - 1)) ≤ toNat y → f x y = .panic) := by
  intro f hf
  obtain ⟨b1, b2, b3⟩ := bitLen_spec (show toNat y ≠ 0 by omega)
  have hL := (Nat.pow_lt_pow_iff_right (a := 2) (by omega)).1 (Nat.lt_of_le_of_lt hb b3)
  have h := C117_twice hw hl h2 he oc (fun hd => by
    have : 2 ∣ toNat y := Nat.dvd_trans (Dvd.intro_left (2 ^ (bitLen (toNat y) - 2 * w - 1)) (by
      rw [← Nat.pow_succ]; congr 1; omega)) hd
    omega) hx f hf
  refine ⟨fun hlt => ?_, h.2⟩
  obtain ⟨v, e, -, hv⟩ := h.1 hlt
  refine ⟨v, e, ?_, Nat.mod_lt _ (by omega)⟩
  have : (toNat v : Int) = ((toNat y - 1 + 2 ^ bitLen (toNat y) : Nat) : Int) := by
    rw [hv]; push_cast [show 1 ≤ toNat y by omega]; rfl
  omega

example := C117_odd (w := 64) (x := [1, 0, 0x4000000000000000, 0]) (y := d2) (by decide) rfl (by decide) rfl true
  (by decide +kernel) (by decide +kernel) (by decide +kernel) U.wrappingRem (by simp)
/-- `U256`: the division by `2 ^ 255 - 19` of twice this number less one is a panic. -/
example : U.wrappingRem [0xffffffffffffffd9, 0xffffffffffffffff, 0xffffffffffffffff, 0xffffffffffffffff]
    ([0xffffffffffffffed, 0xffffffffffffffff, 0xffffffffffffffff, 0x7fffffffffffffff] : Limbs 64) = .panic := by
  decide +kernel

/-- C117: the powers of ten by which `U256` divides wrongly, with 64-bit limbs. -/
theorem C117_powers_of_ten {k : Nat} (hk : k ≤ 77) {y : Limbs 64} (hl : y.length = 4) (hy : toNat y = 10 ^ k) (oc : Bool) :
    ∀ f ∈ [U.wrappingRem, U.wrappingRemEuclid, U.strictRem, U.strictRemEuclid, U.rem oc, U.remEuclid oc],
    (∃ x : Limbs 64, x.length = 4 ∧ ¬ ∃ v, f x y = .ok v ∧ ExactU 4 (toNat x % 10 ^ k) v) ↔
      k ∈ [32, 42, 44, 45, 50] ∨ 55 ≤ k ∧ k ≤ 76 := by
  intro f hf
  have h := C117_divisors (by decide) hl (by decide) rfl (by rw [hy]; positivity) oc f hf
  rw [hy] at h
  push_cast at h
  rw [h]
  have all : ∀ k < 78, ((10 ^ k < 2 ^ (64 * 4 - 1) ∧ ¬ 2 ^ (bitLen (10 ^ k) - 2 * 64) ∣ 10 ^ k) ∨
      (10 ^ k < 2 ^ (64 * (4 - 1)) ∧ 10 ^ k * 2 ^ (2 * 64) / 2 ^ bitLen (10 ^ k) / 2 ^ 64 <
        10 ^ k * 2 ^ (2 * 64) / 2 ^ bitLen (10 ^ k) % 2 ^ 64)) ↔
      k ∈ [32, 42, 44, 45, 50] ∨ 55 ≤ k ∧ k ≤ 76 := by decide +kernel
  exact all k (by omega)

example := C117_powers_of_ten (k := 32) (y := [0x85acef8100000000, 0x4ee2d6d415b, 0, 0]) (by decide) rfl
  (by decide +kernel) true U.wrappingRem (by simp)

/-- C117: the same with 32-bit limbs. -/
theorem C117_powers_of_ten_32 {k : Nat} (hk : k ≤ 77) {y : Limbs 32} (hl : y.length = 8) (hy : toNat y = 10 ^ k)
    (oc : Bool) :
    ∀ f ∈ [U.wrappingRem, U.wrappingRemEuclid, U.strictRem, U.strictRemEuclid, U.rem oc, U.remEuclid oc],
    (∃ x : Limbs 32, x.length = 8 ∧ ¬ ∃ v, f x y = .ok v ∧ ExactU 8 (toNat x % 10 ^ k) v) ↔
      k = 17 ∨ 27 ≤ k ∧ k ≤ 76 := by
  intro f hf
  have h := C117_divisors (by decide) hl (by decide) rfl (by rw [hy]; positivity) oc f hf
  rw [hy] at h
  push_cast at h
  rw [h]
  have all : ∀ k < 78, ((10 ^ k < 2 ^ (32 * 8 - 1) ∧ ¬ 2 ^ (bitLen (10 ^ k) - 2 * 32) ∣ 10 ^ k) ∨
      (10 ^ k < 2 ^ (32 * (8 - 1)) ∧ 10 ^ k * 2 ^ (2 * 32) / 2 ^ bitLen (10 ^ k) / 2 ^ 32 <
        10 ^ k * 2 ^ (2 * 32) / 2 ^ bitLen (10 ^ k) % 2 ^ 32)) ↔
      k = 17 ∨ 27 ≤ k ∧ k ≤ 76 := by decide +kernel
  exact all k (by omega)

example := C117_powers_of_ten_32 (k := 17) (y := [0x5d8a0000, 0x1634578, 0, 0, 0, 0, 0, 0]) (by decide) rfl
  (by decide +kernel) true U.wrappingRem (by simp)

/-- C117: the signed remainder of a number of absolute value `2 * |y| - 1`: the absolute value of the result is too large by
the power of two above `|y|`, or it is a panic. -/
theorem C117_signed (hw : 2 < w) (hl : x.length = y.length) (h2 : 2 ≤ x.length) (he : x.length % 2 = 0)
    (hd : ¬ 2 ^ (bitLen (toInt y).natAbs - 2 * w) ∣ (toInt y).natAbs)
    (hx : (toInt x).natAbs + 1 = 2 * (toInt y).natAbs) :
    ((toInt y).natAbs < 2 ^ (w * (x.length - 1)) → ∃ v, I.wrappingRem x y = .ok v ∧
      (toInt v).natAbs = (toInt y).natAbs - 1 + 2 ^ bitLen (toInt y).natAbs) ∧
    (2 ^ (w * (x.length - 1)) ≤ (toInt y).natAbs → I.wrappingRem x y = .panic) := by
  have hy0 : (toInt y).natAbs ≠ 0 := by intro h0; rw [h0] at hd; exact hd ⟨0, by simp⟩
  have h := (C17_int_rem_partial (by omega) hl h2 he (by omega)).1
  have hyi := toInt_InS y
  unfold InS at hyi
  rw [bits, ← hl] at hyi
  have hE : ((2 ^ (w * x.length) : Nat) : Int) = 2 ^ (w * x.length) := by push_cast; rfl
  rw [← hE] at hyi
  have hyb : (toInt y).natAbs < 2 ^ (w * x.length) := by omega
  have hxe : (toInt x).natAbs = 2 * (toInt y).natAbs - 1 := by omega
  refine ⟨fun hlt => ?_, fun hge => h.1 ?_⟩
  · have hn := nLimbs_le_of_lt (w := w) (by omega) hlt
    obtain ⟨v, e, -, hv⟩ := h.2 (fun hp => by have := hp.1; omega)
    refine ⟨v, e, ?_⟩
    rw [hxe, strayRem_twice hw hd (by omega)] at hv
    have hm : (2 * (toInt y).natAbs - 1) % (toInt y).natAbs = (toInt y).natAbs - 1 := by
      rw [show 2 * (toInt y).natAbs - 1 = (toInt y).natAbs - 1 + (toInt y).natAbs by omega, Nat.add_mod_right,
        Nat.mod_eq_of_lt (by omega)]
    have ht : (toInt x).tmod (toInt y) = (toInt x).sign * ((toInt y).natAbs - 1 : Nat) := by
      rw [← hm, ← hxe]
      exact tmod_sign _ _
    rw [hv, ht, ← Int.mul_add, Int.natAbs_mul, Int.natAbs_sign_of_ne_zero (by omega), Nat.one_mul, ← Int.natCast_add,
      Int.natAbs_natCast]
  · refine ⟨Nat.le_antisymm (nLimbs_le_of_lt (by omega) hyb) ?_, 0, ?_⟩
    · obtain ⟨-, -, a3⟩ := nLimbs_spec (w := w) (by omega) hy0
      have h3 := (Nat.pow_lt_pow_iff_right (a := 2) (by omega)).1 (Nat.lt_of_le_of_lt hge a3)
      have := Nat.lt_of_mul_lt_mul_left h3
      omega
    · rw [hxe]
      exact addBack_multiple (by omega) hd (Nat.le_refl 2)
        (by calc 2 = 2 ^ 1 := rfl
              _ ≤ _ := Nat.pow_le_pow_right (by omega) (by omega)) (Nat.le_refl 1) (by omega)

example := C117_signed (w := 64) (x := [1, 0, 0x4000000000000000, 0]) (y := d2) (by decide) rfl (by decide) rfl
  (by decide +kernel) (by decide +kernel)
/-- The negative of the numerator. -/
example : I.wrappingRem [0xffffffffffffffff, 0xffffffffffffffff, 0xbfffffffffffffff, 0xffffffffffffffff] d2 =
    .ok ([0, 0, 0xa000000000000000, 0xffffffffffffffff] : Limbs 64) := by decide +kernel

end I256
