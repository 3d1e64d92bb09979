import Verif.Lemmas.DivLaws
import Verif.Lemmas.TextNormal
import Verif.Props.AddSub
import Verif.Props.Bitops
import Verif.Props.Casts
import Verif.Props.Div
import Verif.Props.DivSigned
import Verif.Props.Laws
import Verif.Props.Mul
import Verif.Props.Ord
import Verif.Props.Shift
import Verif.Props.Sign

/-!
# C77: division against multiplication, addition, order and shifts

Everything here is said with the operations of the crate itself.  `DivPanics`, `strayRem` and `DivExact`
(Verif/SpecDiv.lean) describe the numerators and divisors for which long division misbehaves (B2).
-/

namespace I256

open Sample

variable {w k : Nat} {x y : Limbs w}

/-- C77: `q * y + r = x` and `r < y` for the results of an unsigned division, in every build and without
overflow, exactly if the estimates of the division needed no correction. -/
theorem C77_uint_reconstruct (hw : 0 < w) (hl : x.length = y.length) (h4 : 4 ≤ x.length)
    (he : x.length % 2 = 0) (hy : toNat y ≠ 0) (hp : ¬ DivPanics w x.length (toNat x) (toNat y))
    (oc : Bool) :
    ∃ q r p, U.wrappingDivRem x y = .ok (q, r) ∧ U.wrappingDiv x y = .ok q ∧ U.wrappingRem x y = .ok r ∧
      U.mul oc q y = .ok p ∧ Ord.le false p x = true ∧
      (U.wrappingAdd p r = x ↔ DivExact w x.length (toNat x) (toNat y)) ∧
      (Ord.lt false r y = true ↔ DivExact w x.length (toNat x) (toNat y)) ∧
      (DivExact w x.length (toNat x) (toNat y) → U.add oc p r = .ok x) := by
  obtain ⟨⟨q, r⟩, e, ⟨ql, qv⟩, ⟨rl, rv⟩⟩ := (wrappingDivRemU hw hl (by omega) hy).2 hp
  simp only at ql qv rl rv
  have hx := toNat_lt x
  have hr := toNat_lt r
  have hqn : toNat q = toNat x / toNat y := by exact_mod_cast qv
  have hrn : toNat r = toNat x % toNat y + strayRem w x.length (toNat x) (toNat y) := by exact_mod_cast rv
  have hqy : toNat q * toNat y + toNat x % toNat y = toNat x := by
    rw [hqn, Nat.mul_comm]; exact Nat.div_add_mod (toNat x) (toNat y)
  rw [show bits r = bits x from bits_eq_of_length rl] at hr
  have hrem : toNat x % toNat y < toNat y := Nat.mod_lt _ (Nat.pos_of_ne_zero hy)
  have hIn : InU (w * q.length) ((toNat q : Int) * toNat y) := by
    rw [show w * q.length = bits x from bits_eq_of_length ql]
    refine ⟨by positivity, ?_⟩
    exact_mod_cast lt_of_le_of_lt (by omega : toNat q * toNat y ≤ toNat x) hx
  obtain ⟨p, ep, pl, pv⟩ := (C42_uint_mul hw (ql.trans hl) (by omega) (by omega) oc).exact hIn
  have hpn : toNat p = toNat q * toNat y := by exact_mod_cast pv
  have hplx : p.length = x.length := pl.trans ql
  have hex : DivExact w x.length (toNat x) (toNat y) ↔ strayRem w x.length (toNat x) (toNat y) = 0 :=
    ⟨fun h => h.2, fun h => ⟨hp, h⟩⟩
  refine ⟨q, r, p, e, by rw [U.wrappingDiv, e]; rfl, by rw [U.wrappingRem, e]; rfl, ep, ?_, ?_, ?_, ?_⟩
  · rw [(C26_uint_order hw hplx (by omega) (by omega)).2.1]
    omega
  · have hs := (C01_uint_wrapping_add (x := p) (y := r) hw (by omega)).2
    rw [show ((toNat p : Int) + toNat r) = ((toNat x + strayRem w x.length (toNat x) (toNat y) : Nat) : Int) by
      rw [← Nat.cast_add]; congr 1; omega,
      show w * p.length = bits x from bits_eq_of_length hplx] at hs
    have hsn : toNat (U.wrappingAdd p r) =
        (toNat x + strayRem w x.length (toNat x) (toNat y)) % 2 ^ bits x := by exact_mod_cast hs
    rw [hex]
    constructor
    · intro h
      rw [h] at hsn
      by_contra hne
      rcases Nat.lt_or_ge (toNat x + strayRem w x.length (toNat x) (toNat y)) (2 ^ bits x) with h6 | h6
      · rw [Nat.mod_eq_of_lt h6] at hsn
        omega
      · rw [Nat.mod_eq_sub_mod h6, Nat.mod_eq_of_lt (by omega)] at hsn
        omega
    · intro h
      refine toNat_inj ((C01_uint_wrapping_add (x := p) (y := r) hw (by omega)).1.trans hplx) ?_
      rw [hsn, h, Nat.add_zero, Nat.mod_eq_of_lt hx]
  · rw [(C26_uint_order hw (rl.trans hl) (by omega) (by omega)).1, hex]
    constructor
    · intro h
      by_contra hne
      have := strayRem_large hne
      omega
    · intro h
      omega
  · intro h
    rw [hex] at h
    have hIn2 : InU (w * p.length) ((toNat p : Int) + toNat r) := by
      rw [show w * p.length = bits x from bits_eq_of_length hplx]
      refine ⟨by positivity, ?_⟩
      have : toNat p + toNat r < 2 ^ bits x := by omega
      exact_mod_cast this
    obtain ⟨v, ev, vl, vv⟩ := (C42_uint_add_sub hw (by omega : p.length = r.length) oc).1.exact hIn2
    rw [ev]
    congr 1
    exact toNat_inj (vl.trans hplx) (by omega)

example := C77_uint_reconstruct (x := ones) (y := d7) (by decide) (by decide) (by decide) (by decide)
  (by decide +kernel) (by decide +kernel) true
example : U.wrappingDivRem ones d7 = .ok ([0x9249249249249249, 0x924924924924924, 0, 0],
    [0xdb6db6db6db6db6e, 0xadb6db6db6db6db6, 3, 0]) ∧ DivExact 64 4 (toNat ones) (toNat d7) := by
  decide +kernel

/-- The other case: an exact quotient, but a remainder above the divisor. -/
example : ¬ DivPanics 64 4 (toNat n2) (toNat d2) ∧ ¬ DivExact 64 4 (toNat n2) (toNat d2) ∧
    ∃ r, U.wrappingDivRem n2 d2 = .ok ([2, 0, 0, 0], r) ∧ Ord.lt false r d2 = false ∧
      U.wrappingAdd (U.wrappingMul [2, 0, 0, 0] d2) r ≠ n2 :=
  ⟨by decide +kernel, by decide +kernel, [0xfffffffffffffffe, 0xffffffffffffffff, 0x5fffffffffffffff, 0],
    by decide +kernel⟩

/-- C77: the same for the signed division; the size of the remainder is below that of the divisor and
its sign is that of the numerator. -/
theorem C77_int_reconstruct (hw : 1 < w) (hl : x.length = y.length) (h4 : 4 ≤ x.length)
    (he : x.length % 2 = 0) (hy : toInt y ≠ 0)
    (hp : ¬ DivPanics w x.length (toInt x).natAbs (toInt y).natAbs) :
    ∃ q r, I.wrappingDivRem x y = .ok (q, r) ∧ I.wrappingDiv x y = .ok q ∧ I.wrappingRem x y = .ok r ∧
      (I.wrappingAdd (I.wrappingMul q y) r = x ↔
        DivExact w x.length (toInt x).natAbs (toInt y).natAbs) ∧
      (Ord.lt false (I.unsignedAbs r) (I.unsignedAbs y) = true ↔
        DivExact w x.length (toInt x).natAbs (toInt y).natAbs) ∧
      (toInt r = 0 ∨ I.isNegative r = I.isNegative x) := by
  obtain ⟨⟨q, r⟩, e, hq, ⟨rl, rv⟩⟩ := (wrappingDivRemS' hw hl (by omega) he hy).2 hp
  simp only at hq rl rv
  have hex : DivExact w x.length (toInt x).natAbs (toInt y).natAbs ↔
      strayRem w x.length (toInt x).natAbs (toInt y).natAbs = 0 := ⟨fun h => h.2, fun h => ⟨hp, h⟩⟩
  have hS0 : toInt x = 0 → strayRem w x.length (toInt x).natAbs (toInt y).natAbs = 0 := fun h => by
    rw [h]; exact stray_zero_num
  have hrv := rv
  rw [← tmod_natAbs _ _ _ hS0] at hrv
  have hrem : (toInt x).natAbs % (toInt y).natAbs < (toInt y).natAbs := Nat.mod_lt _ (by omega)
  have hrS := toInt_InS r
  rw [show bits r = bits x from bits_eq_of_length rl] at hrS
  have hP := two_pow_half (w := w) (N := x.length) (by omega) (by omega)
  rw [show w * x.length = bits x from rfl] at hP
  have hqe : q ≠ [] := length_ne (n := 1) (by have := hq.1; omega)
  have hxe : x ≠ [] := length_ne (n := 1) (by omega)
  have hre : r ≠ [] := length_ne (n := 1) (by omega)
  have hlarge := @strayRem_large w x.length (toInt x).natAbs (toInt y).natAbs
  refine ⟨q, r, e, by rw [I.wrappingDiv, e]; rfl, by rw [I.wrappingRem, e]; rfl, ?_, ?_, ?_⟩
  · have hm := C06_int_wrapping_mul (x := q) (y := y) hqe (hq.1.trans hl)
    have hs := C03_int_wrapping_add (x := I.wrappingMul q y) (y := r) (by omega)
      (by rw [hm.1, hq.1, rl])
    rw [hm.1, hq.1] at hs
    have hmod : toInt (I.wrappingMul q y) + toInt r ≡
        toInt x + (toInt x).sign * strayRem w x.length (toInt x).natAbs (toInt y).natAbs
        [ZMOD 2 ^ (w * x.length)] := by
      have h1 := hm.modEq
      rw [hq.1] at h1
      refine ((h1.trans (hq.modEq.mul_right (toInt y))).add_right (toInt r)).trans ?_
      have h2 := Int.mul_tdiv_add_tmod (toInt x) (toInt y)
      rw [rv, show (toInt x).tdiv (toInt y) * toInt y + ((toInt x).tmod (toInt y) + (toInt x).sign *
          strayRem w x.length (toInt x).natAbs (toInt y).natAbs) = toInt x + (toInt x).sign *
          strayRem w x.length (toInt x).natAbs (toInt y).natAbs by linear_combination h2]
    have hs' := hs.congr hmod
    rw [hex]
    constructor
    · intro h
      rw [h] at hs'
      have h5 := hs'.modEq.symm.sub_right (toInt x)
      rw [sub_self, add_sub_cancel_left] at h5
      have h6 : (2 : Int) ^ bits x ∣ (toInt x).sign *
          strayRem w x.length (toInt x).natAbs (toInt y).natAbs := Int.modEq_zero_iff_dvd.1 h5
      by_contra hne
      have hx0 : toInt x ≠ 0 := fun h0 => hne (hS0 h0)
      have h7 : (2 : Int) ^ bits x ∣ (strayRem w x.length (toInt x).natAbs (toInt y).natAbs : Int) := by
        rcases Int.lt_or_gt_of_ne hx0 with h | h
        · rw [Int.sign_eq_neg_one_of_neg h] at h6
          simpa using h6
        · rw [Int.sign_eq_one_of_pos h] at h6
          simpa using h6
      have h8 := Int.le_of_dvd (by omega) h7
      unfold InS at hrS
      generalize strayRem w x.length (toInt x).natAbs (toInt y).natAbs = S at *
      generalize (toInt x).natAbs % (toInt y).natAbs = m at *
      split at hrv <;> push_cast at hrv <;> omega
    · intro h
      rw [h, Nat.cast_zero, mul_zero, add_zero] at hs'
      exact toInt_inj hs'.1 (hs'.exact (toInt_InS x)).2
  · obtain ⟨ul, uv⟩ := unsignedAbs_natAbs (by omega : 0 < w) (x := r) (by omega) (by omega)
    obtain ⟨vl, vv⟩ := unsignedAbs_natAbs (by omega : 0 < w) (x := y) (by omega) (by omega)
    rw [(C26_uint_order (by omega) (by omega) (by omega) (by omega)).1, uv, vv, hex]
    have hra : (toInt r).natAbs = (toInt x).natAbs % (toInt y).natAbs +
        strayRem w x.length (toInt x).natAbs (toInt y).natAbs := by
      generalize strayRem w x.length (toInt x).natAbs (toInt y).natAbs = S at *
      generalize (toInt x).natAbs % (toInt y).natAbs = m at *
      split at hrv <;> push_cast at hrv <;> omega
    constructor
    · intro h
      by_contra hne
      have := hlarge hne
      omega
    · intro h
      omega
  · rw [isNegative_eq (by omega) hre, isNegative_eq (by omega) hxe]
    by_cases h0 : toInt r = 0
    · exact .inl h0
    · right
      congr 1
      generalize strayRem w x.length (toInt x).natAbs (toInt y).natAbs = S at *
      generalize (toInt x).natAbs % (toInt y).natAbs = m at *
      rw [eq_iff_iff]
      split at hrv <;> push_cast at hrv <;> omega

example := C77_int_reconstruct (x := top) (y := d7) (by decide) (by decide) (by decide) (by decide)
  (by decide +kernel) (by decide +kernel)
example : I.wrappingDivRem m2 [3, 0, 0, 0] = .ok (zero, m2) ∧
    I.wrappingDivRem top (Bits.not zero) = .ok (top, zero) := by decide +kernel

/-- C77: multiplying and dividing by the same number gives back the first one, whenever the product is
representable and the division does not panic. -/
theorem C77_uint_cancel (hw : 0 < w) (hl : x.length = y.length) (h4 : 4 ≤ x.length)
    (he : x.length % 2 = 0) (hy : toNat y ≠ 0) (hfit : toNat x * toNat y < 2 ^ bits x)
    (hp : ¬ DivPanics w x.length (toNat x * toNat y) (toNat y)) (oc : Bool) :
    ∃ p, U.mul oc x y = .ok p ∧ U.div oc p y = .ok x ∧ U.wrappingDiv (U.wrappingMul x y) y = .ok x ∧
      U.isMultipleOf p y = .ok (decide (strayRem w x.length (toNat x * toNat y) (toNat y) = 0)) := by
  have hxe : x ≠ [] := length_ne (n := 1) (by omega)
  have hIn : InU (w * x.length) ((toNat x : Int) * toNat y) := ⟨by positivity, by exact_mod_cast hfit⟩
  obtain ⟨p, ep, hpe⟩ := (C42_uint_mul hw hl he h4 oc).exact hIn
  have hpw : U.wrappingMul x y = p := ((C06_uint_wrapping_mul hxe hl).exact hIn).unique hpe
  obtain ⟨pl, pv⟩ := hpe
  have hpn : toNat p = toNat x * toNat y := by exact_mod_cast pv
  have hdiv := C12_uint_div hw (pl.trans hl) (by omega) (by omega) hy oc
  rw [pl, hpn, Nat.cast_mul, Int.mul_ediv_cancel _ (by exact_mod_cast hy)] at hdiv
  have hx : ∀ v : Limbs w, ExactU x.length (toNat x : Int) v → v = x := fun v hv => hv.unique ⟨rfl, rfl⟩
  refine ⟨p, ep, ?_, ?_, ?_⟩
  · obtain ⟨v, e, hv⟩ := (hdiv _ (by simp : U.div oc ∈ _)).2 hp
    rw [e, hx v hv]
  · obtain ⟨v, e, hv⟩ := (hdiv _ (by simp : U.wrappingDiv ∈ _)).2 hp
    rw [hpw, e, hx v hv]
  · have h := C34_uint_is_multiple_of_partial hw (pl.trans hl) (by omega) (by omega)
    rw [pl, hpn] at h
    obtain ⟨b, e, hb⟩ := h.2 hp
    rw [e]
    congr 1
    rw [Bool.eq_iff_iff, hb, decide_eq_true_iff]
    simp

example := C77_uint_cancel (x := [7, 0, 0, 0]) (y := d7) (by decide) (by decide) (by decide) (by decide)
  (by decide +kernel) (by decide +kernel) (by decide +kernel) true
/-- The exact multiple is not recognised. -/
example : U.div true mult d1 = .ok [0xffffffffffffffff, 0xfffffffffffffffe, 0, 0] ∧
    U.isMultipleOf mult d1 = .ok false := by decide +kernel

/-- C77: dividing an unsigned number by `1 << s` is the right shift by `s`, the remainder is the mask of
the lowest `s` bits, in every form and build, and never panics. -/
theorem C77_uint_pow2 (hk : w = 2 ^ k) (h2 : x.length % 2 = 0) (h0 : 2 ≤ x.length) {s : Nat}
    (hs : s < w * x.length) (oc : Bool) :
    (∀ f ∈ [U.wrappingDiv, U.wrappingDivEuclid, U.saturatingDiv, U.divFloor, U.strictDiv,
      U.strictDivEuclid, U.div oc, U.divEuclid oc],
      f x (wrappingShl (ofU8 x.length 1) s) = .ok (wrappingShr false x s)) ∧
    (∀ f ∈ [U.wrappingRem, U.wrappingRemEuclid, U.strictRem, U.strictRemEuclid, U.rem oc,
      U.remEuclid oc], f x (wrappingShl (ofU8 x.length 1) s) =
        .ok (Bits.and x (U.wrappingSub (wrappingShl (ofU8 x.length 1) s) (ofU8 x.length 1)))) := by
  have hw := pow_pos_width hk
  obtain ⟨p1, p2⟩ := pow2U hk h2 h0 hs
  have hpn : toNat (wrappingShl (ofU8 x.length 1 : Limbs w) s) = 2 ^ s := by exact_mod_cast p2
  have hex : DivExact w x.length (toNat x) (2 ^ s) := by
    refine C13_exact_cases hw _ (.inr (.inl ⟨1, s, one_lt_two_pow' hw, (one_mul _).symm⟩))
  have hd := C12_uint_div (x := x) (y := wrappingShl (ofU8 x.length 1) s) hw p1.symm h0 h2
    (by rw [hpn]; positivity) oc
  have hr := C13_uint_rem_partial (x := x) (y := wrappingShl (ofU8 x.length 1) s) hw p1.symm h0 h2
    (by rw [hpn]; positivity) oc
  rw [hpn] at hd hr
  have hsh := C20_uint_wrapping_shr (x := x) hk h2 (length_ne (n := 1) (by omega)) s
  rw [Nat.mod_eq_of_lt hs] at hsh
  obtain ⟨a1, a2⟩ := and_mask (x := x) hk h2 h0 hs
  constructor
  · intro f hf
    obtain ⟨v, e, hv⟩ := (hd f hf).2 hex.1
    rw [e]
    congr 1
    push_cast at hv
    exact hv.unique hsh
  · intro f hf
    obtain ⟨v, e, hv⟩ := (hr f hf).2 hex.1
    rw [e]
    congr 1
    rw [hex.2] at hv
    refine hv.unique ⟨a1, ?_⟩
    rw [a2]
    push_cast
    ring

example := C77_uint_pow2 (k := 6) (x := ones) rfl (by decide) (by decide) (s := 200) (by decide) true
example : U.rem true a (wrappingShl one 130) = .ok [0xffffffffffffffff, 0, 1, 0] ∧
    U.div true a (wrappingShl one 130) = .ok one := by decide +kernel

/-- C77: for a signed number, `div_floor` and `div_euclid` by `1 << s` are the arithmetic right shift and
`rem_euclid` is the mask of the lowest `s` bits, for negative numbers as well. -/
theorem C77_int_pow2 (hk : w = 2 ^ k) (hk1 : 1 < w) (h2 : x.length % 2 = 0) (h0 : 2 ≤ x.length) {s : Nat}
    (hs : s < w * x.length - 1) (oc : Bool) :
    (∀ f ∈ [I.divFloor, I.wrappingDivEuclid, I.strictDivEuclid, I.divEuclid oc],
      f x (wrappingShl (ofU8 x.length 1) s) = .ok (wrappingShr true x s)) ∧
    (∀ f ∈ [I.wrappingRemEuclid, I.strictRemEuclid, I.remEuclid oc],
      f x (wrappingShl (ofU8 x.length 1) s) =
        .ok (Bits.and x (U.wrappingSub (wrappingShl (ofU8 x.length 1) s) (ofU8 x.length 1)))) := by
  have hw := pow_pos_width hk
  have hp := pow2U hk h2 h0 (by omega : s < w * x.length)
  obtain ⟨p1, p2⟩ := hp.exactS (n := w * x.length - 1) (Nat.pow_lt_pow_right (by decide) hs) (by omega)
  have hpn : toInt (wrappingShl (ofU8 x.length 1 : Limbs w) s) = 2 ^ s := by rw [p2]; push_cast; rfl
  have hpa : (toInt (wrappingShl (ofU8 x.length 1 : Limbs w) s)).natAbs = 2 ^ s := by
    rw [p2]; exact Int.natAbs_natCast _
  have hex : DivExact w x.length (toInt x).natAbs
      (toInt (wrappingShl (ofU8 x.length 1 : Limbs w) s)).natAbs := by
    rw [hpa]
    exact C13_exact_cases hw _ (.inr (.inl ⟨1, s, one_lt_two_pow' hw, (one_mul _).symm⟩))
  have hy0 : toInt (wrappingShl (ofU8 x.length 1 : Limbs w) s) ≠ 0 := by rw [hpn]; positivity
  have hpos : (0 : Int) < 2 ^ s := by positivity
  have hsh := C20_int_wrapping_shr (x := x) hk h2 (length_ne (n := 1) (by omega)) s
  rw [Nat.mod_eq_of_lt (by omega : s < w * x.length)] at hsh
  obtain ⟨a1, a2⟩ := and_mask (x := x) hk h2 h0 (by omega : s < w * x.length)
  have hin : InS (w * x.length) (toInt x / 2 ^ s) := hsh.inS
  have hfl := (C19_int_div_floor_partial (x := x) (y := wrappingShl (ofU8 x.length 1) s) hk1 p1.symm h0 h2
    hy0).2 hex.1
  rw [hex.2, hpn] at hfl
  have hmask : toInt (Bits.and x (U.wrappingSub (wrappingShl (ofU8 x.length 1) s) (ofU8 x.length 1))) =
      toInt x % 2 ^ s := by
    have h3 : toInt x % 2 ^ s = (toNat x : Int) % 2 ^ s := by
      rcases toInt_cases x with ⟨-, e⟩ | ⟨-, e⟩
      · rw [e]
      · rw [e]
        have : (2 : Int) ^ bits x = 2 ^ s * 2 ^ (bits x - s) := by
          rw [← pow_add]; congr 1; have : bits x = w * x.length := rfl; omega
        rw [this]
        simp
    have h4 : (toNat (Bits.and x (U.wrappingSub (wrappingShl (ofU8 x.length 1) s)
        (ofU8 x.length 1))) : Int) = toInt x % 2 ^ s := by rw [a2, h3]; push_cast; rfl
    have h5 : ExactU x.length ((toNat x % 2 ^ s : Nat) : Int) (Bits.and x (U.wrappingSub
      (wrappingShl (ofU8 x.length 1) s) (ofU8 x.length 1))) := ⟨a1, by rw [a2]⟩
    rw [(h5.exactS (n := s) (Nat.mod_lt _ (by positivity)) (by omega)).2, h3]
    push_cast
    rfl
  have hnm : ¬ (toInt x = -2 ^ (w * x.length - 1) ∧ toInt (wrappingShl (ofU8 x.length 1 : Limbs w) s) = -1) := by
    rw [hpn]; omega
  obtain ⟨⟨e1, w1, v1⟩, -, -, e4, e5⟩ := C18_int_div_euclid_partial (x := x)
    (y := wrappingShl (ofU8 x.length 1) s) hk1 p1.symm h0 h2 hy0 hex oc
  obtain ⟨⟨f1, g1, u1⟩, -, f3, -⟩ := C18_int_rem_euclid_partial (x := x)
    (y := wrappingShl (ofU8 x.length 1) s) hk1 p1.symm h0 h2 hy0 hex oc
  obtain ⟨f2, -, g2, g3, u2⟩ := f3 hnm
  rw [hpn] at v1 e4 e5 u1 u2
  refine ⟨?_, ?_⟩
  · intro f hf
    simp only [List.mem_cons, List.not_mem_nil, or_false] at hf
    rcases hf with rfl | rfl | rfl | rfl
    · obtain ⟨v, e, hv⟩ := hfl
      rw [e]
      congr 1
      rw [if_neg (by simp), sub_zero, Int.fdiv_eq_ediv_of_nonneg _ hpos.le] at hv
      exact (hv.exact hin).unique hsh
    · rw [w1]
      congr 1
      exact (v1.exact hin).unique hsh
    · obtain ⟨v, e, hv⟩ := e4.1 hin
      rw [e]
      congr 1
      exact hv.unique hsh
    · obtain ⟨v, e, hv⟩ := e5.exact hin
      rw [e]
      congr 1
      exact hv.unique hsh
  · intro f hf
    simp only [List.mem_cons, List.not_mem_nil, or_false] at hf
    rcases hf with rfl | rfl | rfl
    · rw [g1]
      congr 1
      exact u1.unique ⟨a1, hmask⟩
    · rw [g2]
      congr 1
      exact u2.unique ⟨a1, hmask⟩
    · rw [g3]
      congr 1
      exact u2.unique ⟨a1, hmask⟩

example := C77_int_pow2 (k := 6) (x := m2) rfl (by decide) (by decide) (by decide) (s := 200) (by decide) true
example : I.divFloor m2 (wrappingShl one 2) = .ok ones ∧ I.remEuclid true m2 (wrappingShl one 2) =
    .ok [2, 0, 0, 0] ∧ I.wrappingDiv m2 (wrappingShl one 2) = .ok zero := by decide +kernel

/-- C77: how the four signed quotients are related.  `div_euclid` is `div_floor` for positive and
`div_ceil` for negative divisors; `wrapping_div` is `div_floor` if the signs agree and `div_ceil` if not;
`div_ceil` is `div_floor` for a zero remainder and one more otherwise. -/
theorem C77_int_rounding (hk : w = 2 ^ k) (hw : 1 < w) (hl : x.length = y.length) (h2 : 2 ≤ x.length)
    (he : x.length % 2 = 0) (h32 : w * x.length < 2 ^ 32) (hy : toInt y ≠ 0)
    (hd : DivExact w x.length (toInt x).natAbs (toInt y).natAbs) (oc : Bool) :
    ∃ t r f c e, I.wrappingDiv x y = .ok t ∧ I.wrappingRem x y = .ok r ∧ I.divFloor x y = .ok f ∧
      I.divCeil oc x y = .ok c ∧ I.wrappingDivEuclid x y = .ok e ∧
      e = (if I.isNegative y then c else f) ∧
      t = (if I.isNegative x = I.isNegative y then f else c) ∧
      c = (if Ord.eqConst r (ofU8 x.length 0) then f else I.wrappingAdd f (ofU8 x.length 1)) := by
  obtain ⟨t, et, ht⟩ := (C17_int_wrapping_div hw hl h2 he hy).2 hd.1
  obtain ⟨r, er, hr⟩ := (C17_int_rem_partial hw hl h2 he hy).1.2 hd.1
  obtain ⟨f, ef, hf⟩ := (C19_int_div_floor_partial hw hl h2 he hy).2 hd.1
  obtain ⟨c, ec, hc⟩ := (C19_int_div_ceil_partial hw hl h2 he hy hk h32 oc).2 hd.1
  obtain ⟨e, ee, hE⟩ := (C18_int_wrapping_euclid_partial hw hl h2 he hy).1.2 hd.1
  have hxe : x ≠ [] := length_ne (n := 1) (by omega)
  have hye : y ≠ [] := length_ne (n := 1) (by omega)
  rw [hd.2] at hr hf hc hE
  simp only [Nat.cast_zero, mul_zero, add_zero, ne_eq, not_true_eq_false, and_false, false_and, if_false,
    sub_zero] at hr hf hc hE
  have uq : ∀ {z : Int} {u v : Limbs w}, WrapS x.length z u → WrapS x.length z v → u = v :=
    fun hu hv => toInt_inj (hu.1.trans hv.1.symm) (hu.2.trans hv.2.symm)
  obtain ⟨z1, z2⟩ := ofU8S (w := w) (N := x.length) (v := 0) (by omega) h2 (by positivity)
  have oe : ∀ {a b n : Int}, a = b → a ≡ b [ZMOD n] := fun h => h ▸ Int.ModEq.refl _
  obtain ⟨o1, o2⟩ := ofU8S (w := w) (N := x.length) (v := 1) (by omega) (by omega) (one_lt_two_pow' (by omega))
  have hneg : (-toInt x).fdiv (toInt y) = -(toInt x).fdiv (toInt y) -
      (if toInt y ∣ toInt x then 0 else 1) := by
    rw [Int.fdiv_eq_ediv, Int.fdiv_eq_ediv, Int.neg_ediv]
    simp only [Int.dvd_neg]
    by_cases h : toInt y ∣ toInt x
    · simp [h]
    · rcases Int.lt_or_gt_of_ne hy with h' | h'
      · rw [Int.sign_eq_neg_one_of_neg h']
        simp only [h, or_false, if_false, show ¬ 0 ≤ toInt y by omega]
        ring
      · rw [Int.sign_eq_one_of_pos h']
        simp only [h, if_false, show 0 ≤ toInt y by omega, true_or, if_true]
        ring
  rw [hneg] at hc
  refine ⟨t, r, f, c, e, et, er, ef, ec, ee, ?_, ?_, ?_⟩
  · rw [isNegative_eq (by omega) hye]
    by_cases h : toInt y < 0
    · rw [if_pos (by simpa using h)]
      refine uq hE ?_
      rw [Int.fdiv_eq_ediv] at hc
      refine hc.congr (oe ?_)
      by_cases h' : toInt y ∣ toInt x
      · simp [h']
      · simp only [h', or_false, if_false, show ¬ 0 ≤ toInt y by omega]
        ring
    · rw [if_neg (by simpa using h)]
      refine uq hE ?_
      rw [Int.fdiv_eq_ediv_of_nonneg _ (by omega)] at hf
      exact hf
  · rw [isNegative_eq (by omega) hye, isNegative_eq (by omega) hxe]
    rw [Int.tdiv_eq_ediv] at ht
    rw [Int.fdiv_eq_ediv] at hf hc
    by_cases hdv : toInt y ∣ toInt x
    · simp only [hdv, or_true, if_true, add_zero, sub_zero, neg_neg] at ht hf hc
      split
      · exact uq ht hf
      · exact uq ht hc
    · have hx0 : toInt x ≠ 0 := fun h => hdv (h ▸ dvd_zero _)
      simp only [hdv, or_false, if_false] at ht hf hc
      rcases Int.lt_or_gt_of_ne hy with h' | h' <;> rcases Int.lt_or_gt_of_ne hx0 with h | h
      · rw [if_pos (by simp [h, h'])]
        refine uq ht (hf.congr (oe ?_))
        rw [if_neg (by omega), if_neg (by omega), Int.sign_eq_neg_one_of_neg h']
        ring
      · rw [if_neg (by simp [h.le, h'])]
        refine uq ht (hc.congr (oe ?_))
        rw [if_neg (by omega), if_pos (by omega)]
        ring
      · rw [if_neg (by simp [h, h'.le])]
        refine uq ht (hc.congr (oe ?_))
        rw [if_pos (by omega), if_neg (by omega), Int.sign_eq_one_of_pos h']
        ring
      · rw [if_pos (by rw [decide_eq_decide]; omega)]
        refine uq ht (hf.congr (oe ?_))
        rw [if_pos (by omega), if_pos (by omega)]
        ring
  · have hz : (Ord.eqConst r (ofU8 x.length 0) = true) ↔ toInt y ∣ toInt x := by
      rw [Ord.eqConst_iff (by rw [hr.1, z1]) (by rw [hr.1]; exact he)]
      constructor
      · intro h
        have h1 := hr.2
        rw [h] at h1
        have h2 : toInt (ofU8 x.length 0 : Limbs w) = 0 := by rw [z2]; rfl
        rw [h2] at h1
        exact Int.dvd_of_tmod_eq_zero h1.symm
      · intro h
        have h1 := hr.2
        rw [Int.tmod_eq_zero_of_dvd h] at h1
        exact toInt_inj (by rw [hr.1, z1]) (h1.trans (by rw [z2]; rfl))
    by_cases hdv : toInt y ∣ toInt x
    · rw [if_pos (hz.2 hdv)]
      simp only [hdv, if_true, sub_zero, neg_neg] at hc
      exact uq hc hf
    · rw [if_neg (by rw [hz]; exact hdv)]
      simp only [hdv, if_false] at hc
      have ha := C03_int_wrapping_add (x := f) (y := ofU8 x.length 1) (by omega) (by rw [hf.1, o1])
      rw [hf.1, o2] at ha
      refine uq hc (ha.congr ?_)
      rw [show -(-(toInt x).fdiv (toInt y) - 1) = (toInt x).fdiv (toInt y) + 1 by ring]
      exact hf.modEq.add_right _

example := C77_int_rounding (k := 6) (x := top) (y := d7) rfl (by decide) (by decide) (by decide)
  (by decide) (by decide) (by decide +kernel) (by decide +kernel) true
example : I.divFloor m2 [3, 0, 0, 0] = .ok ones ∧ I.divCeil true m2 [3, 0, 0, 0] = .ok zero ∧
    I.wrappingDivEuclid m2 (I.wrappingNeg [3, 0, 0, 0]) = .ok one := by decide +kernel

end I256
