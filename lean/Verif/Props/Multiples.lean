import Verif.Lemmas.Multiples
import Verif.Props.Div
import Verif.Props.DivSigned

/-!
# C119: exact multiples

What the fault in long division does to numbers that are multiples of the divisor: it never causes a panic for them, and
the remainder is zero unless the divisor has two leading zero limbs and the quotient more than one digit.
-/

namespace I256

open Sample

variable {w N : Nat} {x y : Limbs w}

/-- C119: the division of a multiple never panics, and the quotient is exact. -/
theorem C119_no_panic (hw : 0 < w) (hl : x.length = y.length) (h2 : 2 ≤ x.length) (he : x.length % 2 = 0)
    (hy : toNat y ≠ 0) (hd : toNat y ∣ toNat x) (oc : Bool) :
    (∀ f ∈ [U.wrappingDiv, U.wrappingDivEuclid, U.saturatingDiv, U.divFloor, U.strictDiv, U.strictDivEuclid, U.div oc,
      U.divEuclid oc], ∃ v, f x y = .ok v ∧ ExactU x.length (toNat x / toNat y) v) ∧
    (∀ f ∈ [U.wrappingRem, U.wrappingRemEuclid, U.strictRem, U.strictRemEuclid, U.rem oc, U.remEuclid oc],
      ∃ v, f x y = .ok v) ∧
    ∃ b, U.isMultipleOf x y = .ok b := by
  have hb := toNat_lt x
  rw [bits] at hb
  have hp := noPanic_multiple hw hb hd
  refine ⟨fun f hf => (C12_uint_div hw hl h2 he hy oc f hf).2 hp, fun f hf => ?_, ?_⟩
  · obtain ⟨v, e, -⟩ := (C13_uint_rem_partial hw hl h2 he hy oc f hf).2 hp
    exact ⟨v, e⟩
  · obtain ⟨b, e, -⟩ := (C34_uint_is_multiple_of_partial hw hl h2 he).2 hp
    exact ⟨b, e⟩

example := C119_no_panic (x := mult) (y := d1) (by decide) rfl (by decide) rfl (by decide +kernel) (by decide +kernel) true

/-- C119: if the quotient has one digit or the divisor at most one leading zero limb, the remainder of a multiple is zero,
`is_multiple_of` is true and `div_ceil` is the quotient. -/
theorem C119_exact (hw : 0 < w) (hl : x.length = y.length) (h2 : 2 ≤ x.length) (he : x.length % 2 = 0)
    (hy : toNat y ≠ 0) (hd : toNat y ∣ toNat x) (h : 2 ^ (w * (x.length - 2)) ≤ toNat y ∨ toNat x < toNat y * 2 ^ w)
    (oc : Bool) :
    (∀ f ∈ [U.wrappingRem, U.wrappingRemEuclid, U.strictRem, U.strictRemEuclid, U.rem oc, U.remEuclid oc],
      ∃ v, f x y = .ok v ∧ ExactU x.length 0 v) ∧
    U.isMultipleOf x y = .ok true ∧
    ∃ v, U.divCeil x y = .ok v ∧ ExactU x.length (toNat x / toNat y) v := by
  have hb := toNat_lt x
  rw [bits] at hb
  have hx := divExact_multiple hw hb hd h
  refine ⟨fun f hf => ?_, ?_, ?_⟩
  · obtain ⟨v, e, hv⟩ := (C13_uint_rem_exact_partial hw hl h2 he hy oc f hf).2 hx
    refine ⟨v, e, hv.1, ?_⟩
    rw [hv.2, Int.emod_eq_zero_of_dvd (Int.natCast_dvd_natCast.2 hd)]
  · obtain ⟨b, e, hb⟩ := (C34_uint_is_multiple_of_partial hw hl h2 he).2 hx.1
    rw [e, hb.2 ⟨hd, hx.2⟩]
  · obtain ⟨v, e, hv⟩ := (C19_uint_div_ceil_partial hw hl h2 he hy).2 hx.1
    refine ⟨v, e, hv.1, ?_⟩
    rw [hv.2, if_neg (fun h => h.2 hx.2), Int.add_zero,
      Int.neg_ediv_of_dvd (Int.natCast_dvd_natCast.2 hd), Int.neg_neg]

example := C119_exact (x := ones) (y := ones) (by decide) rfl (by decide) rfl (by decide +kernel) (by decide +kernel)
  (.inl (by decide +kernel)) true
/-- The multiple of C34's counterexample is outside: the divisor `d1` has two leading zero limbs. -/
example : toNat d1 < 2 ^ (64 * 2) ∧ toNat d1 * 2 ^ 64 ≤ toNat mult ∧ U.isMultipleOf mult d1 = .ok false := by
  decide +kernel

/-- C119: on four limbs, the divisors for which `is_multiple_of` is false for some multiple: those of two limbs whose leading
`2 * w` digits have an upper half that is smaller than the lower half by two or more. -/
theorem C119_four (hw : 1 < w) (hl : y.length = 4) :
    (∃ x : Limbs w, x.length = 4 ∧ toNat y ∣ toNat x ∧ U.isMultipleOf x y ≠ .ok true) ↔
      toNat y < 2 ^ (2 * w) ∧ toNat y * 2 ^ (2 * w - bitLen (toNat y)) / 2 ^ w + 2 ≤
        toNat y * 2 ^ (2 * w - bitLen (toNat y)) % 2 ^ w := by
  constructor
  · rintro ⟨x, hx, hd, hn⟩
    have hb := toNat_lt x
    rw [bits, hx] at hb
    have hp := noPanic_multiple (by omega) hb hd
    have hs : strayRem w 4 (toNat x) (toNat y) ≠ 0 := by
      intro h0
      apply hn
      have h := C34_uint_is_multiple_of_partial (x := x) (y := y) (by omega) (by omega) (by omega) (by omega)
      rw [hx] at h
      obtain ⟨b, e, hb⟩ := h.2 hp
      rw [e, hb.2 ⟨hd, h0⟩]
    have hlt : toNat y < 2 ^ (2 * w) := by
      by_contra hc
      refine hs (divExact_multiple (by omega) hb hd (.inl ?_)).2
      rw [show w * (4 - 2) = 2 * w by omega]
      omega
    refine ⟨hlt, ?_⟩
    obtain ⟨Q, hQ⟩ := hd
    rw [Nat.mul_comm] at hQ
    have hn2 := nLimbs_le_of_lt (w := w) (N := 2) (y := toNat y) (by omega) (by rwa [Nat.mul_comm])
    have hn : nLimbs w (toNat y) = 2 := by
      by_contra hc
      apply hs
      unfold strayRem
      rw [flagNum_eq_zero, Nat.mul_zero]
      intro j _
      rw [← Bool.not_eq_true]
      intro hj
      simp only [addBack, Bool.and_eq_true, decide_eq_true_eq] at hj
      omega
    have h1 : addBack w (Q * toNat y) (toNat y) 1 = true := by
      by_contra hc
      rw [Bool.not_eq_true] at hc
      apply hs
      unfold strayRem
      rw [flagNum_eq_zero, Nat.mul_zero]
      intro j hj
      rw [hn] at hj
      rw [hQ]
      rcases (show j = 0 ∨ j = 1 by omega) with rfl | rfl
      · exact addBack_exact (by omega) _ _
      · exact hc
    have := addBack_second hw hn h1
    rwa [lead_digits (bitLen_le_of_lt hlt)] at this
  · rintro ⟨hlt, h⟩
    rw [← lead_digits (bitLen_le_of_lt hlt)] at h
    have hn2 := nLimbs_le_of_lt (w := w) (N := 2) (y := toNat y) (by omega) (by rwa [Nat.mul_comm])
    have hn3 := two_limbs (w := w) (y := toNat y) (by omega) (by
      intro h0
      rw [h0] at h
      exact absurd h (by simp))
    have hn : nLimbs w (toNat y) = 2 := by omega
    have ha := addBack_second_of hw hn h
    have hR : (2 ^ w - 1) * 2 ^ w - 1 ≤ 2 ^ (2 * w) := by
      rw [Nat.two_mul, Nat.pow_add]
      have : (2 ^ w - 1) * 2 ^ w ≤ 2 ^ w * 2 ^ w := Nat.mul_le_mul_right _ (by omega)
      omega
    have hX : ((2 ^ w - 1) * 2 ^ w - 1) * toNat y < 2 ^ (w * 4) := by
      calc _ ≤ 2 ^ (2 * w) * toNat y := Nat.mul_le_mul_right _ hR
        _ < 2 ^ (2 * w) * 2 ^ (2 * w) := Nat.mul_lt_mul_of_pos_left hlt (by positivity)
        _ = 2 ^ (w * 4) := by rw [← Nat.pow_add]; congr 1; omega
    obtain ⟨x, hx, e⟩ := exists_toNat w 4 _ hX
    have hd : toNat y ∣ toNat x := ⟨_, by rw [e, Nat.mul_comm]⟩
    refine ⟨x, hx, hd, fun hc => ?_⟩
    have hb := toNat_lt x
    rw [bits, hx] at hb
    have hq := C34_uint_is_multiple_of_partial (x := x) (y := y) (by omega) (by omega) (by omega) (by omega)
    rw [hx] at hq
    obtain ⟨b, e2, hq⟩ := hq.2 (noPanic_multiple (by omega) hb hd)
    rw [hc] at e2
    cases e2
    have h0 := (hq.1 rfl).2
    unfold strayRem at h0
    rw [e, hn] at h0
    have := flagNum_pos (w := w) (k := 4 - 2) (show 1 < 4 - 2 by omega) ha
    have : 0 < 2 ^ bitLen (toNat y) * flagNum w
      (addBack w (((2 ^ w - 1) * 2 ^ w - 1) * toNat y) (toNat y)) (4 - 2) := Nat.mul_pos (by positivity) this
    omega

example := C119_four (w := 64) (y := d1) (by decide) rfl

/-- C119: on more than four limbs, the divisors of at most two limbs for which `is_multiple_of` is false for some multiple:
those whose leading `2 * w` digits have an upper half that is smaller than the lower half. -/
theorem C119_two_limbs (hw : 1 < w) (hl : y.length = N) (h5 : 5 ≤ N) (he : N % 2 = 0) (hlt : toNat y < 2 ^ (2 * w)) :
    (∃ x : Limbs w, x.length = N ∧ toNat y ∣ toNat x ∧ U.isMultipleOf x y ≠ .ok true) ↔
      toNat y * 2 ^ (2 * w - bitLen (toNat y)) / 2 ^ w < toNat y * 2 ^ (2 * w - bitLen (toNat y)) % 2 ^ w := by
  have hL := bitLen_le_of_lt hlt
  rw [← lead_digits hL]
  have hBN : 2 ^ (w * 5) ≤ 2 ^ (w * N) := Nat.pow_le_pow_right (by omega) (Nat.mul_le_mul_left _ h5)
  constructor
  · rintro ⟨x, hx, hd, hn⟩
    by_contra hc
    rw [← half_iff (Nat.mod_lt _ (show 0 < 2 ^ w by positivity)), Nat.not_lt] at hc
    have hb := toNat_lt x
    rw [bits, hx] at hb
    have hyb := toNat_lt y
    rw [bits, hl] at hyb
    apply hn
    have h := C34_uint_is_multiple_of_partial (x := x) (y := y) (by omega) (by omega) (by omega) (by omega)
    rw [hx] at h
    obtain ⟨b, e, hq⟩ := h.2 (noPanic_multiple (by omega) hb hd)
    have hcl : Clean w (toNat x) (toNat y) := clean_of (by omega) hb hyb
      (fun _ => by rw [show bitLen (toNat y) - 2 * w = 0 by omega]; simp) (fun _ => hc)
    have h0 : strayRem w N (toNat x) (toNat y) = 0 := by
      unfold strayRem
      rw [flagNum_eq_zero (fun j _ => hcl j), Nat.mul_zero]
    rw [e, hq.2 ⟨hd, h0⟩]
  · intro h
    have hn2 := nLimbs_le_of_lt (w := w) (N := 2) (y := toNat y) (by omega) (by rwa [Nat.mul_comm])
    have hn3 := two_limbs (w := w) (y := toNat y) (by omega) (by
      intro h0
      rw [h0] at h
      exact absurd h (by simp))
    have hn : nLimbs w (toNat y) = 2 := by omega
    have ha := addBack_third_of hw hn h
    have hR : (2 ^ w - 1) * (2 ^ w * 2 ^ w) - 1 ≤ 2 ^ (3 * w) := by
      rw [show 3 * w = w + (w + w) by omega, Nat.pow_add, Nat.pow_add]
      exact (Nat.sub_le _ _).trans (Nat.mul_le_mul_right _ (Nat.sub_le _ _))
    have hX : ((2 ^ w - 1) * (2 ^ w * 2 ^ w) - 1) * toNat y < 2 ^ (w * N) := by
      calc _ ≤ 2 ^ (3 * w) * toNat y := Nat.mul_le_mul_right _ hR
        _ < 2 ^ (3 * w) * 2 ^ (2 * w) := Nat.mul_lt_mul_of_pos_left hlt (by positivity)
        _ = 2 ^ (w * 5) := by rw [← Nat.pow_add]; congr 1; omega
        _ ≤ _ := hBN
    obtain ⟨x, hx, e⟩ := exists_toNat w N _ hX
    have hd : toNat y ∣ toNat x := ⟨_, by rw [e, Nat.mul_comm]⟩
    refine ⟨x, hx, hd, fun hc => ?_⟩
    have hb := toNat_lt x
    rw [bits, hx] at hb
    have hq := C34_uint_is_multiple_of_partial (x := x) (y := y) (by omega) (by omega) (by omega) (by omega)
    rw [hx] at hq
    obtain ⟨b, e2, hq⟩ := hq.2 (noPanic_multiple (by omega) hb hd)
    rw [hc] at e2
    cases e2
    have h0 := (hq.1 rfl).2
    unfold strayRem at h0
    rw [e, hn] at h0
    have := flagNum_pos (w := w) (k := N - 2) (show 2 < N - 2 by omega) ha
    have := Nat.mul_pos (show 0 < 2 ^ bitLen (toNat y) by positivity) this
    omega

example := C119_two_limbs (w := 64) (y := [3, 1, 0, 0, 0, 0]) (by decide) rfl (by decide) rfl (by decide +kernel)
/-- Halves that differ by one, `2 ^ 127 + 2 ^ 63 + 1`: a wrong answer on six limbs, but none on four limbs. -/
example :
    let y : Limbs 64 := [0x8000000000000001, 0x8000000000000000, 0, 0, 0, 0]
    let x : Limbs 64 := [0x7fffffffffffffff, 0x7fffffffffffffff, 0x7ffffffffffffffe, 0, 0x8000000000000000, 0]
    toNat y = 2 ^ 127 + 2 ^ 63 + 1 ∧ toNat x = (2 ^ 192 - 2 ^ 128 - 1) * toNat y ∧ U.isMultipleOf x y = .ok false ∧
    ¬ (2 ^ 127 + 2 ^ 63 + 1) / 2 ^ 64 + 2 ≤ (2 ^ 127 + 2 ^ 63 + 1) % 2 ^ 64 := by decide +kernel

/-- C119: a divisor of `n` limbs, `2 * n < N`, with a digit of one after its leading `2 * w`: `is_multiple_of` is false for its
multiple by `2 ^ (w * n + 1) - 1`. -/
theorem C119_long (hw : 1 < w) (hl : x.length = y.length) (he : x.length % 2 = 0)
    (hd : ¬ 2 ^ (bitLen (toNat y) - 2 * w) ∣ toNat y) {n : Nat} (hy1 : 2 ^ (w * (n - 1)) ≤ toNat y)
    (hy2 : toNat y < 2 ^ (w * n)) (hn : 2 * n < x.length) (hx : toNat x = (2 ^ (w * n + 1) - 1) * toNat y) :
    U.isMultipleOf x y = .ok false := by
  have hy0 : toNat y ≠ 0 := by
    have : 0 < 2 ^ (w * (n - 1)) := by positivity
    omega
  have hnl : nLimbs w (toNat y) = n := by
    obtain ⟨-, -, a3⟩ := nLimbs_spec (w := w) (by omega) hy0
    have h1 := nLimbs_le_of_lt (w := w) (by omega) hy2
    have h2 := (Nat.pow_lt_pow_iff_right (a := 2) (by omega)).1 (Nat.lt_of_le_of_lt hy1 a3)
    have := Nat.lt_of_mul_lt_mul_left h2
    omega
  have ha := addBack_long hw hd
  rw [hnl] at ha
  have hb := toNat_lt x
  rw [bits] at hb
  have hdv : toNat y ∣ toNat x := ⟨_, by rw [hx, Nat.mul_comm]⟩
  obtain ⟨b, e, hq⟩ := (C34_uint_is_multiple_of_partial (x := x) (y := y) (by omega) hl (by omega) he).2
    (noPanic_multiple (by omega) hb hdv)
  rw [e]
  cases b with
  | false => rfl
  | true =>
    have h0 := (hq.1 rfl).2
    unfold strayRem at h0
    rw [hnl, hx] at h0
    have := flagNum_pos (w := w) (k := x.length - n) (show n < x.length - n by omega) ha
    have := Nat.mul_pos (show 0 < 2 ^ bitLen (toNat y) by positivity) this
    omega

/-- With 64-bit limbs, every odd number from `2 ^ 128` to `2 ^ 192` is such a divisor of a `U512`. -/
theorem C119_odd {x y : Limbs 64} (hlx : x.length = 8) (hly : y.length = 8) (ho : toNat y % 2 = 1)
    (hy1 : 2 ^ 128 ≤ toNat y) (hy2 : toNat y < 2 ^ 192) (hx : toNat x = (2 ^ 193 - 1) * toNat y) :
    U.isMultipleOf x y = .ok false := by
  refine C119_long (by decide) (by omega) (by omega) ?_ (n := 3) (by simpa using hy1) (by simpa using hy2) (by omega)
    (by simpa using hx)
  intro h
  have hL : 128 < bitLen (toNat y) := by
    by_contra hc
    obtain ⟨-, -, b3⟩ := bitLen_spec (y := toNat y) (by omega)
    have := Nat.pow_le_pow_right (n := 2) (by omega) (show bitLen (toNat y) ≤ 128 by omega)
    omega
  have := (dvd_pow_self 2 (show bitLen (toNat y) - 2 * 64 ≠ 0 by omega)).trans h
  omega

example := C119_odd (x := [0xffffffffffffffff, 0xffffffffffffffff, 0xfffffffffffffffe, 1, 0, 2, 0, 0])
  (y := [1, 0, 1, 0, 0, 0, 0, 0]) rfl rfl (by decide +kernel) (by decide +kernel) (by decide +kernel) (by decide +kernel)

/-- C119: the powers of ten for which `is_multiple_of` of a `U256` is false for some multiple, with 64-bit limbs. -/
theorem C119_powers_of_ten {k : Nat} (hk : k ≤ 77) {y : Limbs 64} (hl : y.length = 4) (hy : toNat y = 10 ^ k) :
    (∃ x : Limbs 64, x.length = 4 ∧ 10 ^ k ∣ toNat x ∧ U.isMultipleOf x y ≠ .ok true) ↔ k = 32 := by
  have h := C119_four (by decide) hl
  rw [hy] at h
  rw [h]
  have all : ∀ k < 78, (10 ^ k < 2 ^ (2 * 64) ∧ 10 ^ k * 2 ^ (2 * 64 - bitLen (10 ^ k)) / 2 ^ 64 + 2 ≤
      10 ^ k * 2 ^ (2 * 64 - bitLen (10 ^ k)) % 2 ^ 64) ↔ k = 32 := by decide +kernel
  exact all k (by omega)

example := C119_powers_of_ten (k := 32) (y := [0x85acef8100000000, 0x4ee2d6d415b, 0, 0]) (by decide) rfl
  (by decide +kernel)
/-- `(2 ^ 128 - 2 ^ 64 - 1) * 10 ^ 32`. -/
example : U.isMultipleOf (w := 64) [0x7a53107f00000000, 0x7a530b90d292bea4, 0x85acea92d292bea4, 0x4ee2d6d415b]
    [0x85acef8100000000, 0x4ee2d6d415b, 0, 0] = .ok false := by decide +kernel

/-- C119: signed multiples: no panic, and under the same condition zero remainders and the Euclidean quotient. -/
theorem C119_signed (hw : 1 < w) (hl : x.length = y.length) (h2 : 2 ≤ x.length) (he : x.length % 2 = 0)
    (hy : toInt y ≠ 0) (hd : toInt y ∣ toInt x) :
    (∃ v, I.wrappingDiv x y = .ok v ∧ WrapS x.length ((toInt x).tdiv (toInt y)) v) ∧
    (∃ v, I.wrappingRem x y = .ok v) ∧
    (2 ^ (w * (x.length - 2)) ≤ (toInt y).natAbs ∨ (toInt x).natAbs < (toInt y).natAbs * 2 ^ w →
      (∃ v, I.wrappingRem x y = .ok v ∧ ExactS x.length 0 v) ∧
      (∃ v, I.wrappingRemEuclid x y = .ok v ∧ ExactS x.length 0 v) ∧
      (∃ v, I.wrappingDivEuclid x y = .ok v ∧ WrapS x.length (toInt x / toInt y) v)) := by
  have hb : (toInt x).natAbs < 2 ^ (w * x.length) := by
    have hi := toInt_InS x
    unfold InS at hi
    have hE : ((2 ^ (w * x.length) : Nat) : Int) = 2 ^ (w * x.length) := by push_cast; rfl
    rw [bits, ← hE] at hi
    omega
  have hda : (toInt y).natAbs ∣ (toInt x).natAbs := Int.natAbs_dvd_natAbs.2 hd
  have hp := noPanic_multiple (by omega) hb hda
  refine ⟨(C17_int_wrapping_div hw hl h2 he hy).2 hp, ?_, fun h => ?_⟩
  · obtain ⟨v, e, -⟩ := (C17_int_rem_partial hw hl h2 he hy).1.2 hp
    exact ⟨v, e⟩
  · have hx := divExact_multiple (by omega) hb hda h
    refine ⟨?_, ?_, (C18_int_div_euclid_partial hw hl h2 he hy hx true).1⟩
    · obtain ⟨v, e, hv⟩ := (C17_int_rem_forms_partial hw hl h2 he hy hx true).1
      exact ⟨v, e, by rwa [Int.tmod_eq_zero_of_dvd hd] at hv⟩
    · obtain ⟨v, e, hv⟩ := (C18_int_rem_euclid_partial hw hl h2 he hy hx true).1
      exact ⟨v, e, by rwa [Int.emod_eq_zero_of_dvd hd] at hv⟩

example := C119_signed (x := top) (y := top) (by decide) rfl (by decide) rfl (by decide +kernel) (Int.dvd_refl _)

end I256
