import Verif.Lemmas.MathDiv
import Verif.Props.Div

/-!
# C83: the public functions of `math::div` on arrays of any lengths

`full<M, N>`, `wide<M>`, `from_u128<M>`, `limb<M>` and their helpers can be called with lengths the crate
itself never uses. The theorems are about the literal transcription (checked indexing, assertions, all
builds `cf`) and have no hypothesis on the lengths.

The documented claim, "division with remainder; panics if divisor is zero", would read
`Yields (toNat y = 0) (fun r => toNat r.1 = toNat x / toNat y ∧ toNat r.2 = toNat x % toNat y) (full cf x y)`.
It fails in three ways (the `_false` theorems); `C83_full_partial` says where it holds, and
`C83_full_all_partial` what the function does in every case.
-/

namespace I256

open Sample Raw.Div

variable {w : Nat} {x y : Limbs w} {cf : Cfg}

/-- C83 fails: a numerator with fewer limbs than the divisor makes `full` panic if it is smaller than the
divisor, or if the divisor has two significant limbs; and `wide` panics on one limb. -/
theorem C83_narrow_false :
    ¬ (∀ (cf : Cfg) (x y : Limbs 64), x ≠ [] → toNat y ≠ 0 → full cf x y ≠ .panic) ∧
    ¬ (∀ (cf : Cfg) (x : Limbs 64) (d : BitVec 128), x ≠ [] → d ≠ 0 → wideDiv (w := 64) cf x d ≠ .panic) := by
  refine ⟨fun h => h ⟨true, true, true⟩ [1] [0, 1] (by decide) (by decide +kernel) (by decide +kernel),
    fun h => h ⟨true, true, true⟩ [7] 9 (by decide) (by decide) (by decide +kernel)⟩

/-- C83 fails: the add-back step leaves a stray limb in the remainder, or indexes past the divisor. -/
theorem C83_full_false :
    ¬ (∀ (cf : Cfg) (x y : Limbs 64) (r : Limbs 64 × Limbs 64), toNat y ≠ 0 → full cf x y = .ok r →
      toNat r.2 = toNat x % toNat y) ∧
    ¬ (∀ (cf : Cfg) (x y : Limbs 64), y.length ≤ x.length → toNat y ≠ 0 → full cf x y ≠ .panic) := by
  refine ⟨fun h => ?_, fun h => h ⟨true, true, true⟩ mult (d1.take 2) (by decide) (by decide +kernel)
    (by decide +kernel)⟩
  exact absurd (h ⟨true, true, true⟩ mult.tail (d1.take 3)
    ([0xfffffffffffffffe, 0, 0], [0x7ffffffffffffffe, 0x8000000000000000, 1]) (by decide +kernel)
    (by decide +kernel)) (by decide +kernel)

/-- C83 fails: a zero divisor does not always panic. -/
theorem C83_zero_false :
    ¬ (∀ (cf : Cfg) (x y : Limbs 64), toNat y = 0 → full cf x y = .panic) ∧
    ¬ (∀ (cf : Cfg) (x : Limbs 64), wideDiv (w := 64) cf x 0 = .panic) ∧
    ¬ (∀ (cf : Cfg) (x : Limbs 32), fromU128 cf x 0 = .panic) := by
  refine ⟨fun h => ?_, fun h => ?_, fun h => ?_⟩
  · exact absurd (h ⟨true, true, true⟩ [0, 0, 0] [0, 0] (by decide)) (by decide +kernel)
  · exact absurd (h ⟨true, true, true⟩ [0]) (by decide +kernel)
  · exact absurd (h ⟨true, true, true⟩ [0, 0]) (by decide +kernel)

/-- C83: with at least as many limbs in the numerator, and if no estimate has to be corrected, `full`
returns the exact quotient and remainder. Missing: everything the `_false` theorems exclude; see
`C83_full_all_partial`. -/
theorem C83_full_partial (hw : 0 < w) (h1 : 1 ≤ y.length) (hl : y.length ≤ x.length) (hy : toNat y ≠ 0)
    (hc : Clean w (toNat x) (toNat y)) :
    ∃ q r, full cf x y = .ok (q, r) ∧ q.length = x.length ∧ r.length = y.length ∧
      toNat q = toNat x / toNat y ∧ toNat r = toNat x % toNat y := by
  obtain ⟨⟨q, r⟩, e, ⟨ql, qv⟩, rl, rv⟩ := (full_all cf hw x y).2 (by
    rintro (hp | hp | ⟨-, hp | hp | hp | ⟨-, hp⟩⟩)
    · omega
    · omega
    · omega
    · omega
    · omega
    · exact hc.noPanic hp)
  refine ⟨q, r, e, ql, rl, qv.trans (if_neg (by omega)), rv.trans ?_⟩
  rw [hc.stray, Nat.add_zero]
  refine Nat.mod_eq_of_lt (lt_trans (Nat.mod_lt _ (by omega)) ?_)
  exact toNat_lt y

example := C83_full_partial (w := 64) (cf := ⟨true, true, true⟩) (x := [3, 5, 7, 9, 11]) (y := [2, 4, 0])
  (by decide) (by decide) (by decide) (by decide +kernel)
example : full ⟨true, true, true⟩ ([9, 7, 0, 3, 0] : Limbs 64) [0, 2, 0] =
    .ok ([3, 0x8000000000000000, 1, 0, 0], [9, 1, 0]) := by decide +kernel

/-- C83: what `full` does for arrays of any lengths: when it panics, the quotient, and the remainder, which
is exact up to the stray limbs that fit into the length of the divisor. -/
theorem C83_full_all_partial (hw : 0 < w) :
    Yields (FullPanics w x.length y.length (toNat x) (toNat y))
      (fun r => (r.1.length = x.length ∧ toNat r.1 = fullQuo y.length (toNat x) (toNat y)) ∧
        (r.2.length = y.length ∧
          toNat r.2 = (toNat x % toNat y + strayRem w x.length (toNat x) (toNat y)) %
            2 ^ (w * y.length)))
      (full cf x y) :=
  full_all cf hw x y

example : FullPanics 64 1 2 1 (2 ^ 64) ∧ FullPanics 64 4 2 (toNat mult) (toNat d1) ∧
    ¬ FullPanics 64 1 3 7 2 ∧ ¬ FullPanics 64 3 3 (toNat mult.tail) (toNat d1) ∧
    FullPanics 64 4 0 0 0 ∧ ¬ FullPanics 64 0 1 0 0 := by decide +kernel
example : full ⟨true, true, true⟩ ([7] : Limbs 64) [2, 0, 0] = .ok ([3], [1, 0, 0]) ∧
    full ⟨true, true, true⟩ ([] : Limbs 64) [0] = .ok ([], [0]) ∧
    full ⟨true, true, true⟩ ([5] : Limbs 64) [] = .panic := by decide +kernel

/-- C83: `limb` is exact for a numerator of any length and panics exactly for a zero divisor, unless the
numerator has no limbs. `limb_padded` returns the same with the remainder in an array of any other
length, which must not be empty. -/
theorem C83_limb (hw : 0 < w) (d : BitVec w) (N : Nat) :
    Yields (x ≠ [] ∧ d = 0)
      (fun r => (r.1.length = x.length ∧ toNat r.1 = toNat x / d.toNat) ∧ r.2.toNat = toNat x % d.toNat)
      (limb cf x d) ∧
    Yields (N = 0 ∨ x ≠ [] ∧ d = 0)
      (fun r => (r.1.length = x.length ∧ toNat r.1 = toNat x / d.toNat) ∧
        r.2.length = N ∧ toNat r.2 = toNat x % d.toNat)
      (limbPadded cf N x d) :=
  ⟨limb_all cf hw x d, limbPadded_all cf hw x d⟩

example := (C83_limb (w := 64) (cf := ⟨true, true, true⟩) (x := [3, 5, 7]) (by decide) 2 5).1.2 (by decide)
example : limb ⟨true, true, true⟩ ([3, 5, 7] : Limbs 64) 2 =
    .ok ([0x8000000000000001, 0x8000000000000002, 3], 1) ∧
    limb ⟨true, true, true⟩ ([9] : Limbs 64) 2 = .ok ([4], 1) ∧
    limbPadded ⟨true, true, true⟩ 3 ([9] : Limbs 64) 2 = .ok ([4], [1, 0, 0]) ∧
    limb ⟨true, true, true⟩ ([9] : Limbs 64) 0 = .panic := by decide +kernel

/-- C83: with at least two limbs and a divisor that is not zero, `wide` is exact if no estimate has to be
corrected. Missing: the cases of `C83_narrow_false`, `C83_zero_false` and the add-back step; see
`C83_wide_all_partial`. -/
theorem C83_wide_partial (hw : 0 < w) (h2 : 2 ≤ x.length) {d : BitVec (w + w)} (hd : d ≠ 0)
    (hc : Clean w (toNat x) d.toNat) :
    ∃ q r, wideDiv cf x d = .ok (q, r) ∧ q.length = x.length ∧ toNat q = toNat x / d.toNat ∧
      r.toNat = toNat x % d.toNat := by
  have hd0 : d.toNat ≠ 0 := fun h => hd (BitVec.eq_of_toNat_eq (by simpa using h))
  obtain ⟨⟨q, r⟩, e, ⟨ql, qv⟩, rv⟩ := (wideDiv_all cf hw x d).2 (by
    rintro (hp | hp | ⟨-, hp | hp⟩)
    · omega
    · omega
    · omega
    · exact hc.noPanic hp)
  exact ⟨q, r, e, ql, qv.trans (if_neg (by omega)), rv⟩

example := C83_wide_partial (w := 64) (cf := ⟨true, true, true⟩) (x := [3, 5, 7]) (by decide) (by decide)
  (d := 0x20000000000000000) (by decide)
example : wideDiv ⟨true, true, true⟩ ([3, 5, 7] : Limbs 64) 0x20000000000000000 =
    .ok ([0x8000000000000002, 3, 0], 0x10000000000000003) := by decide +kernel

/-- C83: what `wide` does for a numerator of any length. -/
theorem C83_wide_all_partial (hw : 0 < w) (d : BitVec (w + w)) :
    Yields (WidePanics w x.length (toNat x) d.toNat)
      (fun r => (r.1.length = x.length ∧ toNat r.1 = wideQuo x.length (toNat x) d.toNat) ∧
        r.2.toNat = toNat x % d.toNat)
      (wideDiv cf x d) :=
  wideDiv_all cf hw x d

example : WidePanics 64 1 7 9 ∧ ¬ WidePanics 64 1 7 3 ∧ WidePanics 64 3 (toNat mult.tail) (toNat d1) ∧
    WidePanics 64 0 0 1 ∧ ¬ WidePanics 64 1 0 0 ∧ WidePanics 64 2 5 0 := by decide +kernel
example : wideDiv (w := 64) ⟨true, true, true⟩ [7] 3 = .ok ([2], 1) ∧
    wideDiv (w := 64) ⟨true, true, true⟩ [0] 0 = .ok ([1], 0) ∧
    wideDiv (w := 64) ⟨true, true, true⟩ [0, 0] 0 = .ok ([0, 0], 0) := by decide +kernel

/-- C83: what `from_u128` does for a numerator of any length, with limbs of 32 bits; with limbs of 64 bits
its assertion always fails. -/
theorem C83_from_u128_all_partial (x : Limbs 32) (x' : Limbs 64) (d : BitVec 128) :
    Yields (U128Panics x.length (toNat x) d.toNat)
      (fun r => (r.1.length = x.length ∧ toNat r.1 = toNat x / d.toNat) ∧
        r.2.toNat = (toNat x % d.toNat + strayRem 32 x.length (toNat x) d.toNat) % 2 ^ 128)
      (fromU128 cf x d) ∧
    fromU128 cf x' d = .panic :=
  ⟨fromU128_all cf x d, rfl⟩

example : U128Panics 3 7 2 ∧ ¬ U128Panics 3 0 2 ∧ ¬ U128Panics 4 (2 ^ 100) 3 ∧
    U128Panics 4 (2 ^ 100) 0 := by decide +kernel
example : fromU128 ⟨true, true, true⟩ ([7, 0, 0, 5] : Limbs 32) 0x200000000 =
    .ok ([0, 0x80000000, 2, 0], 7) ∧
    fromU128 ⟨true, true, true⟩ ([7, 0, 0] : Limbs 32) 2 = .panic := by decide +kernel

/-- C83: `cmp` compares the values, whatever the two lengths are. -/
theorem C83_cmp : Raw.Div.cmp x y = .ok (compare (toNat x) (toNat y)) := by
  rw [cmp_lit, Div.cmp_gen]

example : Raw.Div.cmp ([1, 0, 0] : Limbs 64) [2] = .ok .lt ∧ Raw.Div.cmp ([2] : Limbs 64) [2, 0] = .ok .eq ∧
    Raw.Div.cmp ([2] : Limbs 64) [0, 1] = .ok .lt ∧ Raw.Div.cmp ([2, 3] : Limbs 64) [] = .ok .gt := by
  decide

/-- C83: `truncate` reduces the value to the new length and panics exactly if that is longer; `scalar1` and
`scalar2` return an array of the given value and panic exactly if it has no room for one or two limbs. -/
theorem C83_truncate_scalar (hw : 0 < w) (N : Nat) (a : BitVec w) (b : BitVec (w + w)) :
    Yields (x.length < N) (fun r => r.length = N ∧ toNat r = toNat x % 2 ^ (w * N)) (truncate N x) ∧
    Yields (N = 0) (fun r => r.length = N ∧ toNat r = a.toNat) (scalar1 N a) ∧
    Yields (N < 2) (fun r => r.length = N ∧ toNat r = b.toNat) (scalar2 cf N b) := by
  refine ⟨?_, ?_, ?_⟩
  · by_cases h : x.length < N
    · exact ⟨fun _ => truncate_panic h, fun hn => absurd h hn⟩
    · rw [truncate_lit (by omega)]
      exact Yields.ok h ⟨by simp; omega, toNat_take _ _ (by omega)⟩
  · by_cases h : N = 0
    · subst h
      exact ⟨fun _ => rfl, fun hn => absurd rfl hn⟩
    · obtain ⟨r, e, rl, rv⟩ := scalar_ok (N := N) (by omega) a
      rw [e]
      exact Yields.ok h ⟨rl, rv⟩
  · by_cases h : N < 2
    · refine ⟨fun _ => ?_, fun hn => absurd h hn⟩
      rcases (show N = 0 ∨ N = 1 by omega) with rfl | rfl
      · rfl
      · unfold scalar2
        rw [shr_ok cf _ (by omega)]
        rfl
    · rw [scalar2_lit cf hw (by omega)]
      exact Yields.ok h (Div.scalar2_spec (by omega) b)

example := (C83_truncate_scalar (w := 64) (cf := ⟨true, true, true⟩) (x := [3, 5, 7]) (by decide) 2 9 9).1.2 (by decide)
example : truncate 2 ([3, 5, 7] : Limbs 64) = .ok [3, 5] ∧ truncate 4 ([3, 5, 7] : Limbs 64) = .panic ∧
    scalar2 (w := 64) ⟨true, true, true⟩ 3 0x70000000000000009 = .ok [9, 7, 0] ∧
    scalar2 (w := 64) ⟨true, true, true⟩ 1 9 = .panic := by decide +kernel

/-- C83: `scalar_u128` and `u128_scalar` convert between a 128-bit value and limbs of 32 bits; both panic
exactly if there are fewer than four limbs, and always with limbs of 64 bits. -/
theorem C83_u128_scalar (x : Limbs 32) (x' : Limbs 64) (N : Nat) (v : BitVec 128) :
    Yields (N < 4) (fun r : Limbs 32 => r.length = N ∧ toNat r = v.toNat) (scalarU128 cf N v) ∧
    Yields (x.length < 4) (fun r => r.toNat = toNat x % 2 ^ 128) (u128Scalar cf x) ∧
    (scalarU128 cf N v : Res (Limbs 64)) = .panic ∧ u128Scalar cf x' = .panic := by
  have hp : ∀ {α : Type} (M : Nat) (k : Unit → Res α), M < 4 → (Raw.assert (decide (M ≥ 4)) >>= k) = .panic := by
    intro α M k h
    rw [show Raw.assert (decide (M ≥ 4)) = .panic by simp [Raw.assert]; omega]
    rfl
  refine ⟨?_, ?_, ?_, ?_⟩
  · by_cases h : N < 4
    · exact ⟨fun _ => hp _ _ h, fun hn => absurd h hn⟩
    · rw [scalarU128_lit cf (by omega)]
      exact Yields.ok h (Div.scalarU128_spec (by omega) v)
  · by_cases h : x.length < 4
    · exact ⟨fun _ => hp _ _ h, fun hn => absurd h hn⟩
    · rw [u128Scalar_lit cf (by omega)]
      exact Yields.ok h (Div.u128Scalar_toNat (by omega))
  · by_cases h : N < 4
    · exact hp _ _ h
    · unfold scalarU128
      rw [Raw.assert_ok (decide_eq_true (by omega))]
      rfl
  · by_cases h : x'.length < 4
    · exact hp _ _ h
    · unfold u128Scalar
      rw [Raw.assert_ok (decide_eq_true (by omega))]
      rfl

example := (C83_u128_scalar (cf := ⟨true, true, true⟩) b32 a 8 7).1.2 (by decide)
example : (scalarU128 ⟨true, true, true⟩ 5 0x00000004000000030000000200000001 : Res (Limbs 32)) = .ok [1, 2, 3, 4, 0] ∧
    u128Scalar ⟨true, true, true⟩ ([1, 2, 3, 4, 5] : Limbs 32) = .ok 0x00000004000000030000000200000001 := by
  decide +kernel

/-- C83: every build returns the same, for arrays of any lengths: no overflow check, debug assertion or
`div` instruction stops a run that another build completes. -/
theorem C83_builds_agree (hw : 0 < w) (cf cf' : Cfg) (d : BitVec w) (e : BitVec (w + w)) :
    full cf x y = full cf' x y ∧ limb cf x d = limb cf' x d ∧ wideDiv cf x e = wideDiv cf' x e := by
  refine ⟨(full_all cf hw x y).unique (full_all cf' hw x y) ?_,
    (limb_all cf hw x d).unique (limb_all cf' hw x d) ?_,
    (wideDiv_all cf hw x e).unique (wideDiv_all cf' hw x e) ?_⟩
  · rintro ⟨a, b⟩ ⟨a', b'⟩ ⟨⟨h1, h2⟩, h3, h4⟩ ⟨⟨h1', h2'⟩, h3', h4'⟩
    exact Prod.ext (toNat_inj (h1.trans h1'.symm) (h2.trans h2'.symm))
      (toNat_inj (h3.trans h3'.symm) (h4.trans h4'.symm))
  · rintro ⟨a, b⟩ ⟨a', b'⟩ ⟨⟨h1, h2⟩, h3⟩ ⟨⟨h1', h2'⟩, h3'⟩
    exact Prod.ext (toNat_inj (h1.trans h1'.symm) (h2.trans h2'.symm))
      (BitVec.eq_of_toNat_eq (h3.trans h3'.symm))
  · rintro ⟨a, b⟩ ⟨a', b'⟩ ⟨⟨h1, h2⟩, h3⟩ ⟨⟨h1', h2'⟩, h3'⟩
    exact Prod.ext (toNat_inj (h1.trans h1'.symm) (h2.trans h2'.symm))
      (BitVec.eq_of_toNat_eq (h3.trans h3'.symm))

example := C83_builds_agree (w := 64) (x := [3, 5]) (y := [7, 8, 9]) (by decide) ⟨true, true, true⟩ ⟨false, false, false⟩ 5 5
example : full ⟨true, true, false⟩ ([9, 7] : Limbs 64) [5] = full ⟨false, false, true⟩ [9, 7] [5] := by
  decide +kernel

end I256
