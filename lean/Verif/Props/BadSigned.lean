import Verif.Lemmas.BadSigned
import Verif.Props.Div
import Verif.Props.DivSigned

/-!
# C120: which divisors make a division panic, and which signed divisors have wrong remainders

Divisions by a divisor that is not zero. C117 answers the second question for unsigned integers.
-/

namespace I256

open Sample

variable {w N : Nat} {x y : Limbs w}

/-- C120: the unsigned divisors for which some division panics: those with no leading zero limb and less than `w * N` digits
that have a digit of one after the leading `2 * w`. -/
theorem C120_uint (hw : 1 < w) (hl : y.length = N) (h3 : 3 ≤ N) (he : N % 2 = 0) (hy : toNat y ≠ 0) (oc : Bool) :
    let bad := 2 ^ (w * (N - 1)) ≤ toNat y ∧ toNat y < 2 ^ (w * N - 1) ∧ ¬ 2 ^ (bitLen (toNat y) - 2 * w) ∣ toNat y
    (∀ f ∈ [U.wrappingDiv, U.wrappingDivEuclid, U.saturatingDiv, U.divFloor, U.strictDiv, U.strictDivEuclid, U.div oc,
      U.divEuclid oc], (∃ x : Limbs w, x.length = N ∧ f x y = .panic) ↔ bad) ∧
    ((∃ x : Limbs w, x.length = N ∧ U.checkedDivRem x y = .panic) ↔ bad) := by
  intro bad
  obtain ⟨p1, p2, p3, p4, p5, p6, p7, p8, p9, p10, p11⟩ := pow_facts hw h3
  have hb := toNat_lt y
  rw [bits, hl] at hb
  have key : (∃ X, X < 2 ^ (w * N) ∧ DivPanics w N X (toNat y)) ↔ bad := by
    constructor
    · rintro ⟨X, hX, hn, j, hj⟩
      obtain ⟨-, a2, -⟩ := nLimbs_spec (w := w) (by omega) hy
      rw [hn] at a2
      refine ⟨a2, ?_⟩
      by_contra hc
      rw [not_and, not_not] at hc
      have := clean_of (N := N) (by omega) hX hb hc (fun h => absurd h (by omega)) j
      rw [hj] at this
      cases this
    · rintro ⟨h1, h2, hd⟩
      refine ⟨2 * toNat y - 1, by omega, Nat.le_antisymm (nLimbs_le_of_lt (by omega) hb) ?_, 0,
        addBack_multiple hw hd (Nat.le_refl 2) p8 (Nat.le_refl 1) (by omega)⟩
      obtain ⟨-, -, a3⟩ := nLimbs_spec (w := w) (by omega) hy
      have h4 := (Nat.pow_lt_pow_iff_right (a := 2) (by omega)).1 (Nat.lt_of_le_of_lt h1 a3)
      have := Nat.lt_of_mul_lt_mul_left h4
      omega
  have all : ∀ {α : Type} {f : Limbs w → Res α} {G : Limbs w → α → Prop},
      (∀ x, x.length = N → Yields (DivPanics w N (toNat x) (toNat y)) (G x) (f x)) →
      ((∃ x : Limbs w, x.length = N ∧ f x = .panic) ↔ bad) := by
    intro α f G h
    rw [← key]
    constructor
    · rintro ⟨x, hx, e⟩
      have hxb := toNat_lt x
      rw [bits, hx] at hxb
      refine ⟨toNat x, hxb, ?_⟩
      by_contra hc
      obtain ⟨v, e2, -⟩ := (h x hx).2 hc
      rw [e] at e2
      cases e2
    · rintro ⟨X, hX, hp⟩
      obtain ⟨x, hx, rfl⟩ := exists_toNat w N X hX
      exact ⟨x, hx, (h x hx).1 hp⟩
  refine ⟨fun f hf => all (f := fun x => f x y) (G := fun x => ExactU x.length (toNat x / toNat y)) fun x hx => ?_,
    all (f := fun x => U.checkedDivRem x y)
      (G := fun x o => ∃ v, o = some v ∧ ExactU x.length (toNat x / toNat y) v.1) fun x hx => ?_⟩
  · have := C12_uint_div (x := x) (y := y) (by omega) (by omega) (by omega) (by omega) hy oc f hf
    rwa [hx] at this ⊢
  · have := (C12_uint_div_rem (x := x) (y := y) (by omega) (by omega) (by omega) (by omega) hy oc).2.2
    rwa [hx] at this ⊢

example := C120_uint (w := 64) (N := 4) (y := [1, 0, 0, 1]) (by decide) rfl (by decide) rfl (by decide +kernel) true
/-- `2 ^ 193 / (2 ^ 192 + 1)`. -/
example : U.div false ([0, 0, 0, 2] : Limbs 64) [1, 0, 0, 1] = .panic := by decide +kernel

/-- C120: the signed divisors for which some division panics. The bound is a quarter of the range and half a unit of the
second limb, since only the minimum has an absolute value that reaches half of the range. -/
theorem C120_int (hw : 1 < w) (hl : y.length = N) (h3 : 3 ≤ N) (he : N % 2 = 0) (hy : toInt y ≠ 0) (oc : Bool) :
    let a := (toInt y).natAbs
    let bad := 2 ^ (w * (N - 1)) ≤ a ∧ a < 2 ^ (w * N - 2) + 2 ^ (w * (N - 2) - 1) ∧ ¬ 2 ^ (bitLen a - 2 * w) ∣ a
    (∀ f ∈ [I.wrappingDiv, I.saturatingDiv, I.wrappingRem], (∃ x : Limbs w, x.length = N ∧ f x y = .panic) ↔ bad) ∧
    ((∃ x : Limbs w, x.length = N ∧ I.wrappingDivRem x y = .panic) ↔ bad) ∧
    ((∃ x : Limbs w, x.length = N ∧ I.checkedDiv x y = .panic) ↔ bad) ∧
    (bad → ∃ x : Limbs w, x.length = N ∧ I.div oc x y = .panic ∧ I.strictDiv x y = .panic) := by
  intro a bad
  obtain ⟨p1, p2, p3, p4, p5, p6, p7, p8, p9, p10, p11⟩ := pow_facts hw h3
  have hE : ((2 ^ (w * N) : Nat) : Int) = 2 ^ (w * N) := by push_cast; rfl
  have range : ∀ x : Limbs w, x.length = N → (toInt x).natAbs ≤ 2 ^ (w * N - 1) := by
    intro x hx
    have hi := toInt_InS x
    unfold InS at hi
    rw [bits, hx, ← hE] at hi
    omega
  have hya : a ≤ 2 ^ (w * N - 1) := range y hl
  have ha0 : a ≠ 0 := by omega
  have hp0 : 0 < 2 ^ (w * N - 1) := by positivity
  have key : (∃ X, X ≤ 2 ^ (w * N - 1) ∧ DivPanics w N X a) ↔ bad := by
    constructor
    · rintro ⟨X, hX, hn, j, hj⟩
      obtain ⟨-, a2, -⟩ := nLimbs_spec (w := w) (by omega) ha0
      rw [hn] at a2
      refine ⟨a2, ?_⟩
      by_contra hc
      rw [not_and, not_not] at hc
      have := clean_signed hw h3 hX hya hc (fun h => absurd h (by
        have : 2 ^ (w * (N - 2)) ≤ 2 ^ (w * (N - 1) - 1) := Nat.pow_le_pow_right (by omega) (by omega)
        omega)) j
      rw [hj] at this
      cases this
    · rintro ⟨h1, h2, hd⟩
      obtain ⟨X, hX, hb⟩ := addBack_signed hw h3 ha0 (.inl ⟨h2, hd⟩)
      refine ⟨X, hX, Nat.le_antisymm (nLimbs_le_of_lt (by omega) (by omega)) ?_, 0, hb⟩
      obtain ⟨-, -, a3⟩ := nLimbs_spec (w := w) (by omega) ha0
      have h4 := (Nat.pow_lt_pow_iff_right (a := 2) (by omega)).1 (Nat.lt_of_le_of_lt h1 a3)
      have := Nat.lt_of_mul_lt_mul_left h4
      omega
  have wit : ∀ X, X ≤ 2 ^ (w * N - 1) → ∃ x : Limbs w, x.length = N ∧ (toInt x).natAbs = X := by
    intro X hX
    obtain ⟨x, hx, e⟩ := exists_toInt (w := w) (N := N) (z := -(X : Int)) (by
      unfold InS
      rw [← hE]
      omega)
    exact ⟨x, hx, by omega⟩
  have all : ∀ {α : Type} {f : Limbs w → Res α} {G : Limbs w → α → Prop},
      (∀ x, x.length = N → Yields (DivPanics w N (toInt x).natAbs a) (G x) (f x)) →
      ((∃ x : Limbs w, x.length = N ∧ f x = .panic) ↔ bad) := by
    intro α f G h
    rw [← key]
    constructor
    · rintro ⟨x, hx, e⟩
      refine ⟨(toInt x).natAbs, range x hx, ?_⟩
      by_contra hc
      obtain ⟨v, e2, -⟩ := (h x hx).2 hc
      rw [e] at e2
      cases e2
    · rintro ⟨X, hX, hp⟩
      obtain ⟨x, hx, rfl⟩ := wit X hX
      exact ⟨x, hx, (h x hx).1 hp⟩
  have c17 := fun (x : Limbs w) (hx : x.length = N) =>
    C17_int_rem_partial (x := x) (y := y) (by omega) (by omega) (by omega) (by omega) hy
  refine ⟨fun f hf => ?_, ?_, ?_, fun hbad => ?_⟩
  · simp only [List.mem_cons, List.not_mem_nil, or_false] at hf
    rcases hf with rfl | rfl | rfl
    · exact all (fun x hx => hx ▸
        C17_int_wrapping_div (x := x) (y := y) (by omega) (by omega) (by omega) (by omega) hy)
    · exact all (fun x hx => hx ▸
        C17_int_saturating_div (x := x) (y := y) (by omega) (by omega) (by omega) (by omega) hy)
    · exact all (fun x hx => hx ▸ (c17 x hx).1)
  · exact all (fun x hx => hx ▸ (c17 x hx).2)
  · exact all (fun x hx => hx ▸
        C17_int_checked_div (x := x) (y := y) (by omega) (by omega) (by omega) (by omega) hy)
  · obtain ⟨X, hX, hp⟩ := key.2 hbad
    obtain ⟨x, hx, rfl⟩ := wit X hX
    refine ⟨x, hx, (C17_int_div (x := x) (y := y) (by omega) (by omega) (by omega) (by omega) hy oc).1 ?_⟩
    rwa [hx]

example := C120_int (w := 64) (N := 4) (y := [1, 0, 0, 1]) (by decide) rfl (by decide) rfl (by decide +kernel) true

/-- C120: the minimum by a divisor of absolute value just above a quarter of the range: the quotient is one or minus one, and
every form of the division panics. -/
theorem C120_min (hw : 1 < w) (hl : x.length = y.length) (h3 : 3 ≤ x.length) (he : x.length % 2 = 0) (oc : Bool)
    (hx : toInt x = -2 ^ (w * x.length - 1)) (h1 : 2 ^ (w * x.length - 2) < (toInt y).natAbs)
    (h2 : (toInt y).natAbs < 2 ^ (w * x.length - 2) + 2 ^ (w * (x.length - 2) - 1)) :
    ((toInt x).tdiv (toInt y)).natAbs = 1 ∧ I.wrappingDiv x y = .panic ∧ I.wrappingRem x y = .panic ∧
    I.div oc x y = .panic ∧ I.strictDiv x y = .panic ∧ I.checkedDiv x y = .panic ∧ I.saturatingDiv x y = .panic := by
  obtain ⟨p1, p2, p3, p4, p5, p6, p7, p8, p9, p10, p11⟩ := pow_facts hw h3
  have hy : toInt y ≠ 0 := by omega
  have hxa : (toInt x).natAbs = 2 ^ (w * x.length - 1) := by rw [hx, Int.natAbs_neg, Int.natAbs_pow]; rfl
  have hb : (toInt y).natAbs < 2 ^ (w * x.length) := by
    have : 2 ^ (w * (x.length - 2) - 1) ≤ 2 ^ (w * x.length - 2) := Nat.pow_le_pow_right (by omega) (by omega)
    omega
  have hp : DivPanics w x.length (toInt x).natAbs (toInt y).natAbs := by
    refine ⟨Nat.le_antisymm (nLimbs_le_of_lt (by omega) hb) ?_, 0, ?_⟩
    · obtain ⟨-, -, a3⟩ := nLimbs_spec (w := w) (y := (toInt y).natAbs) (by omega) (by omega)
      have h4 := (Nat.pow_lt_pow_iff_right (a := 2) (by omega)).1 (h1.trans a3)
      have : w * (x.length - 1) < w * nLimbs w (toInt y).natAbs := by omega
      have := Nat.lt_of_mul_lt_mul_left this
      omega
    · rw [hxa]
      exact addBack_min hw h3 h1 h2
  refine ⟨?_, (C17_int_wrapping_div (by omega) hl (by omega) he hy).1 hp,
    (C17_int_rem_partial (by omega) hl (by omega) he hy).1.1 hp, ((C17_int_div (by omega) hl (by omega) he hy oc).1 hp).1,
    ((C17_int_div (by omega) hl (by omega) he hy oc).1 hp).2, (C17_int_checked_div (by omega) hl (by omega) he hy).1 hp,
    (C17_int_saturating_div (by omega) hl (by omega) he hy).1 hp⟩
  rw [Int.natAbs_tdiv, hxa]
  have : 2 ^ (w * (x.length - 2) - 1) ≤ 2 ^ (w * x.length - 2) := Nat.pow_le_pow_right (by omega) (by omega)
  apply Nat.div_eq_of_lt_le <;> omega

/-- `I256::MIN / (2 ^ 254 + 1)`, but not `(I256::MIN + 1) / (2 ^ 254 + 1)`. -/
example := C120_min (w := 64) (x := [0, 0, 0, 0x8000000000000000]) (y := [1, 0, 0, 0x4000000000000000]) (by decide) rfl
  (by decide) rfl true (by decide +kernel) (by decide +kernel) (by decide +kernel)
example : I.div false ([1, 0, 0, 0x8000000000000000] : Limbs 64) [1, 0, 0, 0x4000000000000000] = .ok [-1, -1, -1, -1] ∧
    I.div false ([0, 0, 0, 0x8000000000000000] : Limbs 64) [1, 0, 0, 0x4000000000000000] = .panic := by decide +kernel

/-- C120: the signed divisors for which some remainder is wrong or panics. -/
theorem C120_rem (hw : 1 < w) (hl : y.length = N) (h3 : 3 ≤ N) (he : N % 2 = 0) (hy : toInt y ≠ 0) :
    let a := (toInt y).natAbs
    (∃ x : Limbs w, x.length = N ∧ ¬ ∃ v, I.wrappingRem x y = .ok v ∧ ExactS N ((toInt x).tmod (toInt y)) v) ↔
      (a < 2 ^ (w * N - 2) + 2 ^ (w * (N - 2) - 1) ∧ ¬ 2 ^ (bitLen a - 2 * w) ∣ a) ∨
      (a < 2 ^ (w * (N - 1) - 1) + 2 ^ (w * (N - 2)) ∧
        a * 2 ^ (2 * w) / 2 ^ bitLen a / 2 ^ w < a * 2 ^ (2 * w) / 2 ^ bitLen a % 2 ^ w) := by
  intro a
  obtain ⟨p1, p2, p3, p4, p5, p6, p7, p8, p9, p10, p11⟩ := pow_facts hw h3
  have hE : ((2 ^ (w * N) : Nat) : Int) = 2 ^ (w * N) := by push_cast; rfl
  have range : ∀ x : Limbs w, x.length = N → (toInt x).natAbs ≤ 2 ^ (w * N - 1) := by
    intro x hx
    have hi := toInt_InS x
    unfold InS at hi
    rw [bits, hx, ← hE] at hi
    omega
  have hya : a ≤ 2 ^ (w * N - 1) := range y hl
  have ha0 : a ≠ 0 := by omega
  have hp0 : 0 < 2 ^ (w * N - 1) := by positivity
  constructor
  · rintro ⟨x, hx, hn⟩
    by_contra hc
    rw [not_or, not_and, not_and, not_not] at hc
    apply hn
    subst hx
    refine (C17_int_rem_forms_partial (by omega) hl.symm (by omega) he hy ?_ true).1
    refine DivExact.of_clean (clean_signed hw h3 (range x rfl) hya hc.1 fun h => ?_)
    have h4 := hc.2 h
    rwa [← half_iff (Nat.mod_lt _ (show 0 < 2 ^ w by positivity)), Nat.not_lt] at h4
  · intro h
    obtain ⟨X, hX, hb⟩ := addBack_signed hw h3 ha0 h
    obtain ⟨x, hx, e⟩ := exists_toInt (w := w) (N := N) (z := -(X : Int)) (by
      unfold InS
      rw [← hE]
      omega)
    have hxa : (toInt x).natAbs = X := by omega
    refine ⟨x, hx, ?_⟩
    subst hx
    rintro ⟨v, e2, -, hv⟩
    have hX0 : a < X := by
      simp only [addBack, Bool.and_eq_true, decide_eq_true_eq] at hb
      exact hb.1.1.2
    refine not_exact_of (N := x.length) (nLimbs_le_of_lt (by omega) (show a < 2 ^ (w * x.length) by omega)) hb ?_
    have h := (C17_int_rem_partial (x := x) (y := y) (by omega) hl.symm (by omega) he hy).1
    rw [hxa] at h
    have hnp : ¬ DivPanics w x.length X a := by
      intro hp
      rw [h.1 hp] at e2
      cases e2
    refine ⟨hnp, ?_⟩
    obtain ⟨v2, e3, -, hv2⟩ := h.2 hnp
    rw [e2] at e3
    cases e3
    rw [hv] at hv2
    have hs : (toInt x).sign = -1 := Int.sign_eq_neg_one_of_neg (by omega)
    rw [hs] at hv2
    change strayRem w x.length X (toInt y).natAbs = 0
    omega

example := C120_rem (w := 64) (N := 4) (y := d2) (by decide) rfl (by decide) rfl (by decide +kernel)
/-- Divisors just below and above the bounds: `2 ^ 254 + 2 ^ 127 - 1`, `2 ^ 254 + 2 ^ 127 + 1`, `2 ^ 191 + 2 ^ 128 - 2 ^ 64` and
`2 ^ 191 + 2 ^ 129 - 2 ^ 64`. -/
example :
    let bad := fun a : Nat => decide ((a < 2 ^ 254 + 2 ^ 127 ∧ ¬ 2 ^ (bitLen a - 128) ∣ a) ∨
      (a < 2 ^ 191 + 2 ^ 128 ∧ a * 2 ^ 128 / 2 ^ bitLen a / 2 ^ 64 < a * 2 ^ 128 / 2 ^ bitLen a % 2 ^ 64))
    bad (2 ^ 254 + 2 ^ 127 - 1) = true ∧ bad (2 ^ 254 + 2 ^ 127 + 1) = false ∧ bad (2 ^ 191 + 2 ^ 128 - 2 ^ 64) = true ∧
      bad (2 ^ 191 + 2 ^ 129 - 2 ^ 64) = false ∧ bad (10 ^ 32) = true ∧ bad (10 ^ 76) = true := by
  decide +kernel

/-- C120: the powers of ten for which some remainder of an `I256` is wrong or panics, with 64-bit limbs: those of C117 that
fit, all powers from `10 ^ 55` to `10 ^ 76` included. -/
theorem C120_powers_of_ten {k : Nat} (hk : k ≤ 76) {y : Limbs 64} (hl : y.length = 4) (hy : toInt y = 10 ^ k) :
    (∃ x : Limbs 64, x.length = 4 ∧ ¬ ∃ v, I.wrappingRem x y = .ok v ∧ ExactS 4 ((toInt x).tmod (10 ^ k)) v) ↔
      k ∈ [32, 42, 44, 45, 50] ∨ 55 ≤ k := by
  have hy0 : toInt y ≠ 0 := by rw [hy]; positivity
  have h := C120_rem (w := 64) (N := 4) (y := y) (by decide) hl (by decide) rfl hy0
  have ha : (toInt y).natAbs = 10 ^ k := by rw [hy, Int.natAbs_pow]; rfl
  simp only [ha] at h
  rw [hy] at h
  rw [h]
  have all : ∀ k < 77, (10 ^ k < 2 ^ (64 * 4 - 2) + 2 ^ (64 * (4 - 2) - 1) ∧ ¬ 2 ^ (bitLen (10 ^ k) - 2 * 64) ∣ 10 ^ k) ∨
      (10 ^ k < 2 ^ (64 * (4 - 1) - 1) + 2 ^ (64 * (4 - 2)) ∧
        10 ^ k * 2 ^ (2 * 64) / 2 ^ bitLen (10 ^ k) / 2 ^ 64 < 10 ^ k * 2 ^ (2 * 64) / 2 ^ bitLen (10 ^ k) % 2 ^ 64) ↔
      k ∈ [32, 42, 44, 45, 50] ∨ 55 ≤ k := by decide +kernel
  exact all k (by omega)

example := C120_powers_of_ten (k := 32) (y := [0x85acef8100000000, 0x4ee2d6d415b, 0, 0]) (by decide) rfl (by decide +kernel)

end I256
