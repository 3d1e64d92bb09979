import Verif.SpecRaw
import Verif.Lemmas.RawScalar
import Verif.Props.Samples

/-!
# C68: signed numbers divided by scalars in memory

The theorems are about the literal transcription of the scalar divisions of `src/int/limb.rs` with the
division kernels of `src/math/div.rs` below them: arrays in memory order, checked indexing, the
assertions, and for every function one run per kind of build (`cf`: overflow checks, debug assertions,
inline assembler) and per byte order (`be`).  They say exactly when a run panics and what it returns
otherwise.
-/

namespace I256

open Sample Raw.Div

variable {w : Nat} {be : Bool} {a : Limbs w} {cf : Cfg}

/-- C68: the unsigned `div_rem_ulimb` is exact in every build and panics iff the divisor is zero. -/
theorem C68_uint_div_rem_ulimb (hw : 0 < w) (ha : a ≠ []) (h128 : 128 ∣ w * a.length) (n : BitVec w) :
    Yields (n = 0)
      (fun r => (r.1.length = a.length ∧ memNat be r.1 = memNat be a / n.toNat) ∧
        r.2.toNat = memNat be a % n.toNat)
      (Raw.U.divRemULimb cf be a n) := by
  have ha' := List.length_pos_iff.2 ha
  obtain ⟨x, rfl⟩ := Raw.exists_mem be a
  simp only [Raw.mem_length, Raw.memNat_mem] at *
  have hx : x ≠ [] := List.length_pos_iff.1 ha'
  rw [Raw.U.divRemULimb_ok cf be hw hx h128, U.divRemULimb, U.checkedDivRemULimb, U.wrappingDivRemULimb]
  refine ⟨fun h => by rw [h, Div.limb_zero hx]; cases cf.oc <;> rfl, fun h => ?_⟩
  have hz : isZeroScalar n = false := by simpa [isZeroScalar] using h
  obtain ⟨q, r, e, hq, vq, vr⟩ := Div.limb_spec h x
  refine ⟨(Raw.mem be q, r), by rw [e, hz]; cases cf.oc <;> rfl, ?_⟩
  simp only [Raw.mem_length, Raw.memNat_mem]
  exact ⟨⟨hq, vq⟩, vr⟩

example := C68_uint_div_rem_ulimb (be := true) (cf := ⟨true, true, true⟩) (a := Sample.a) (by decide)
  (by decide) (by decide) 7
example : Raw.U.divRemULimb ⟨true, true, true⟩ true ([3, 0, 7, 9] : Limbs 64) 2 =
      .ok ([1, 0x8000000000000000, 3, 0x8000000000000004], 1) ∧
    Raw.U.divRemULimb ⟨false, true, true⟩ true ([3, 0, 7, 9] : Limbs 64) 0 = .panic := by decide +kernel

section
variable (hw : 1 < w) (h8 : 8 ∣ w) (h2 : 2 ≤ a.length) (he : a.length % 2 = 0)
  (h128 : 128 ∣ w * a.length)
include hw h8 h2 he h128

/-- C68: division by an unsigned limb is floor division; only a zero divisor panics. -/
theorem C68_int_div_rem_ulimb (n : BitVec w) :
    ∀ f ∈ [Raw.I.wrappingDivRemULimb cf be, Raw.I.divRemULimb cf be],
      Yields (n = 0)
        (fun p => ExactS a.length (memInt be a / n.toNat) (logical be p.1) ∧
          (p.2.toNat : Int) = memInt be a % n.toNat) (f a n) := by
  obtain ⟨x, rfl⟩ := Raw.exists_mem be a
  simp only [Raw.mem_length, Raw.memInt_mem] at *
  have hxe : I.unsignedAbs x ≠ [] := length_ne (n := 0) (by rw [(unsignedAbsU (by omega) h2 he).1]; omega)
  have h : Yields (n = 0) (fun p : Limbs w × BitVec w => ExactS x.length (toInt x / n.toNat) p.1 ∧
      (p.2.toNat : Int) = toInt x % n.toNat) (I.wrappingDivRemULimb cf.oc x n) := by
    refine ⟨fun h => ?_, fun h => ?_⟩
    · rw [h, I.wrappingDivRemULimb, Div.limb_zero hxe]; rfl
    · obtain ⟨q, r, e, hq, hr⟩ := limbU hw h2 he h cf.oc
      exact ⟨_, e, hq, hr⟩
  have h' : Yields (n = 0) (fun p : Limbs w × BitVec w => ExactS x.length (toInt x / n.toNat) p.1 ∧
      (p.2.toNat : Int) = toInt x % n.toNat) (I.divRemULimb cf.oc x n) := by
    rw [I.divRemULimb, I.checkedDivRemULimb]
    refine ⟨fun h0 => ?_, fun h0 => ?_⟩
    · rw [h.1 h0, h0]; cases cf.oc <;> rfl
    · obtain ⟨v, e, hv⟩ := h.2 h0
      have hz : isZeroScalar n = false := by simpa [isZeroScalar] using h0
      exact ⟨v, by rw [e, hz]; cases cf.oc <;> rfl, hv⟩
  intro f hf
  simp only [List.mem_cons, List.not_mem_nil, or_false] at hf
  rcases hf with rfl | rfl
  · rw [Raw.I.wrappingDivRemULimb_ok cf be hw h8 h2 he h128]
    exact h.map fun p hp => by simpa only [Raw.logical_mem] using hp
  · rw [Raw.I.divRemULimb_ok cf be hw h8 h2 he h128]
    exact h'.map fun p hp => by simpa only [Raw.logical_mem] using hp

/-- C68: division by a signed limb truncates and wraps; only a zero divisor panics. -/
theorem C68_int_div_rem_ilimb (n : BitVec w) :
    Yields (n = 0)
      (fun p => WrapS a.length ((memInt be a).tdiv n.toInt) (logical be p.1) ∧
        p.2.toInt = (memInt be a).tmod n.toInt) (Raw.I.wrappingDivRemILimb cf be a n) := by
  obtain ⟨x, rfl⟩ := Raw.exists_mem be a
  simp only [Raw.mem_length, Raw.memInt_mem] at *
  have hxe : I.unsignedAbs x ≠ [] := length_ne (n := 0) (by rw [(unsignedAbsU (by omega) h2 he).1]; omega)
  rw [Raw.I.wrappingDivRemILimb_ok cf be hw h8 h2 he h128]
  refine Yields.map (Q := fun p => WrapS x.length ((toInt x).tdiv n.toInt) p.1 ∧
    p.2.toInt = (toInt x).tmod n.toInt) ⟨fun h => ?_, fun h => ?_⟩
    fun p hp => by simpa only [Raw.logical_mem] using hp
  · rw [h, I.wrappingDivRemILimb, primAbs_zero, Div.limb_zero hxe]; rfl
  · obtain ⟨q, r, e, hq, hr⟩ := limbS hw h2 he h
    exact ⟨_, e, hq, hr⟩

/-- C68: division by an unsigned double limb is floor division.  A run panics iff the add-back step of
long division would index past the divisor; a zero divisor panics unless the dividend is zero. -/
theorem C68_int_div_rem_uwide (n : BitVec (w + w)) :
    (n ≠ 0 → Yields (DivPanics w 2 (memInt be a).natAbs n.toNat)
      (fun p => ExactS a.length (memInt be a / n.toNat) (logical be p.1) ∧
        (p.2.toNat : Int) = memInt be a % n.toNat) (Raw.I.wrappingDivRemUWide cf be a n)) ∧
    (n = 0 → Yields (memInt be a ≠ 0) (fun p => ExactS a.length 0 (logical be p.1) ∧ p.2 = 0)
      (Raw.I.wrappingDivRemUWide cf be a n)) := by
  obtain ⟨x, rfl⟩ := Raw.exists_mem be a
  simp only [Raw.mem_length, Raw.memInt_mem] at *
  rw [Raw.I.wrappingDivRemUWide_ok cf be hw h8 h2 he h128]
  refine ⟨fun hn => (wideU hw h2 he hn cf.oc).map fun p hp => by simpa only [Raw.logical_mem] using hp,
    fun hn => ?_⟩
  subst hn
  exact (wideU_zero hw h2 he cf.oc).map fun p hp => by simpa only [Raw.logical_mem] using hp

/-- C68: division by a signed double limb truncates and wraps.  A run panics iff the add-back step of
long division would index past the divisor; a zero divisor panics unless the dividend is zero. -/
theorem C68_int_div_rem_iwide (n : BitVec (w + w)) :
    (n ≠ 0 → Yields (DivPanics w 2 (memInt be a).natAbs n.toInt.natAbs)
      (fun p => WrapS a.length ((memInt be a).tdiv n.toInt) (logical be p.1) ∧
        p.2.toInt = (memInt be a).tmod n.toInt) (Raw.I.wrappingDivRemIWide cf be a n)) ∧
    (n = 0 → Yields (memInt be a ≠ 0) (fun p => ExactS a.length 0 (logical be p.1) ∧ p.2 = 0)
      (Raw.I.wrappingDivRemIWide cf be a n)) := by
  obtain ⟨x, rfl⟩ := Raw.exists_mem be a
  simp only [Raw.mem_length, Raw.memInt_mem] at *
  rw [Raw.I.wrappingDivRemIWide_ok cf be hw h8 h2 he h128]
  refine ⟨fun hn => (wideS hw h2 he hn).map fun p hp => by simpa only [Raw.logical_mem] using hp,
    fun hn => ?_⟩
  subst hn
  exact (wideS_zero hw h2 he).map fun p hp => by simpa only [Raw.logical_mem] using hp

end

example := C68_int_div_rem_ulimb (be := true) (cf := ⟨true, true, true⟩) (a := m2) (by decide) (by decide)
  (by decide) (by decide) (by decide) 7
example := C68_int_div_rem_ilimb (be := true) (cf := ⟨true, true, true⟩) (a := m2) (by decide) (by decide)
  (by decide) (by decide) (by decide) 7
example := (C68_int_div_rem_uwide (be := true) (cf := ⟨true, true, true⟩) (a := m2) (by decide) (by decide)
  (by decide) (by decide) (by decide) 0x70000000000000001).1 (by decide)
example := (C68_int_div_rem_iwide (be := true) (cf := ⟨true, true, true⟩) (a := m2) (by decide) (by decide)
  (by decide) (by decide) (by decide) 0x70000000000000001).1 (by decide)
-- -2 divided by 3 in big-endian memory: floor division leaves 1, truncating division -2
example : Raw.I.wrappingDivRemULimb ⟨true, true, true⟩ true m2.reverse 3 = .ok (ones, 1) ∧
    Raw.I.wrappingDivRemILimb ⟨true, true, false⟩ true m2.reverse 3 = .ok (zero, -2) ∧
    Raw.I.wrappingDivRemUWide ⟨true, true, false⟩ true m2.reverse 3 = .ok (ones, 1) ∧
    Raw.I.wrappingDivRemIWide ⟨false, false, true⟩ true m2.reverse (-3) = .ok (zero, -2) ∧
    Raw.I.divRemULimb ⟨true, true, true⟩ false m2 0 = .panic ∧
    Raw.I.wrappingDivRemIWide ⟨false, false, true⟩ true zero 0 = .ok (zero, 0) := by decide +kernel

section
variable {a : Limbs 32} (h4 : 4 < a.length) (he : a.length % 2 = 0) (h128 : 128 ∣ 32 * a.length)
include h4 he h128

/-- C68: division by a `u128` on limbs of 32 bits.  It is floor division if the add-back step leaves no
stray bits (`s = 0`).  Otherwise a negative dividend panics in builds with overflow checks; elsewhere
the quotient is one too small if the division is exact, and the remainder is off by `s`. -/
theorem C68_int_div_rem_u128 (n : BitVec 128) :
    let s := scalarStray 32 a.length 128 (memInt be a).natAbs n.toNat
    let z := memInt be a / n.toNat -
      (if memInt be a < 0 ∧ (n.toNat : Int) ∣ memInt be a ∧ s ≠ 0 then 1 else 0)
    (n ≠ 0 → Yields (cf.oc = true ∧ memInt be a < 0 ∧ s ≠ 0)
      (fun p => ExactS a.length z (logical be p.1) ∧
        p.2 = BitVec.ofInt 128 (memInt be a - z * n.toNat + (memInt be a).sign * s))
      (Raw.I.wrappingDivRemU128 cf be a n)) ∧
    (n = 0 → Yields (memInt be a ≠ 0) (fun p => ExactS a.length 0 (logical be p.1) ∧ p.2 = 0)
      (Raw.I.wrappingDivRemU128 cf be a n)) := by
  obtain ⟨x, rfl⟩ := Raw.exists_mem be a
  simp only [Raw.mem_length, Raw.memInt_mem] at *
  rw [Raw.I.wrappingDivRemU128_ok cf be h4 he h128]
  refine ⟨fun hn => ?_, fun hn => ?_⟩
  · refine ((iDivRemFixU_all (.inl rfl) (by omega) he .b128 hn cf.oc).map
      fun p hp => by simpa only [Raw.logical_mem] using hp).congr ?_
    refine ⟨fun h => h.resolve_left fun hp => ?_, .inr⟩
    have := hp.1
    simp [Fix.n] at this
  · subst hn
    obtain ⟨h1, h0⟩ := iDivRemFix_zero (.inl rfl) (by omega : 256 ≤ 32 * x.length) he .b128 cf.oc
    refine ⟨fun h => by rw [(h1 (.inl h)).1]; rfl, fun h => ?_⟩
    obtain ⟨q, hq, e, -⟩ := h0 (by simpa using h) (by decide)
    exact ⟨_, by rw [e]; rfl, by simpa only [Raw.logical_mem] using hq, rfl⟩

/-- C68: division by an `i128` on limbs of 32 bits truncates and wraps; stray bits of the add-back step
appear in the remainder with the sign of the dividend. -/
theorem C68_int_div_rem_i128 (n : BitVec 128) :
    let s := scalarStray 32 a.length 128 (memInt be a).natAbs n.toInt.natAbs
    (n ≠ 0 → ∃ q r, Raw.I.wrappingDivRemI128 cf be a n = .ok (q, r) ∧
      WrapS a.length ((memInt be a).tdiv n.toInt) (logical be q) ∧
      r = BitVec.ofInt 128 ((memInt be a).tmod n.toInt + (memInt be a).sign * s)) ∧
    (n = 0 → Yields (memInt be a ≠ 0) (fun p => ExactS a.length 0 (logical be p.1) ∧ p.2 = 0)
      (Raw.I.wrappingDivRemI128 cf be a n)) := by
  obtain ⟨x, rfl⟩ := Raw.exists_mem be a
  simp only [Raw.mem_length, Raw.memInt_mem] at *
  rw [Raw.I.wrappingDivRemI128_ok cf be h4 he h128]
  refine ⟨fun hn => ?_, fun hn => ?_⟩
  · obtain ⟨p, e, hq, hr⟩ := (iDivRemFixI_all (.inl rfl) (by omega) he .b128 hn).1.2 (fun hp => by
      have := hp.1
      simp [Fix.n] at this)
    exact ⟨_, _, by rw [e]; rfl, by simpa only [Raw.logical_mem] using hq, hr⟩
  · subst hn
    obtain ⟨h1, h0⟩ := iDivRemFix_zero (.inl rfl) (by omega : 256 ≤ 32 * x.length) he .b128 cf.oc
    refine ⟨fun h => by rw [(h1 (.inl h)).2]; rfl, fun h => ?_⟩
    obtain ⟨q, hq, -, e⟩ := h0 (by simpa using h) (by decide)
    exact ⟨_, by rw [e]; rfl, by simpa only [Raw.logical_mem] using hq, rfl⟩

end

example := (C68_int_div_rem_u128 (be := true) (cf := ⟨true, true, true⟩) (a := ones32) (by decide)
  (by decide) (by decide) 0x70000000000000001).1 (by decide)
example := (C68_int_div_rem_i128 (be := true) (cf := ⟨true, true, true⟩) (a := ones32) (by decide)
  (by decide) (by decide) 0x70000000000000001).1 (by decide)
example : Raw.I.wrappingDivRemU128 ⟨true, true, true⟩ true ones32 0x70000000000000001 =
      .ok (ones32, 0x70000000000000000) ∧
    Raw.I.wrappingDivRemI128 ⟨true, true, true⟩ true ones32 0x70000000000000001 =
      .ok (List.replicate 8 0, -1) := by decide +kernel

end I256
