import Verif.Lemmas.Casts
import Verif.Lemmas.AddSubApi
import Verif.Props.Samples

/-!
# Conversions (C27, C28, C46, C50)

`w = 32 ∨ w = 64` are the limb sizes the code accepts; every type has at least four limbs and more
than 128 bits.
-/

namespace I256

open Sample

variable {w N : Nat} {x y : Limbs w}

/-! ### C27: conversions from and to primitive integers -/

/-- C27: `from_u8` … `from_u128` preserve the value, on the unsigned and on the signed types. -/
theorem C27_from_unsigned (hw : w = 32 ∨ w = 64) (hN : 4 ≤ N) (hB : 128 < w * N) (p : Prim)
    (v : BitVec p.n) :
    ExactU N v.toNat (Cast.fromU N p v : Limbs w) ∧ ExactS N v.toNat (Cast.fromU N p v : Limbs w) :=
  ⟨fromU_spec hw hN p v, fromU_specS hw hN hB p v⟩

example := C27_from_unsigned (w := 32) (N := 8) (Or.inl rfl) (by decide) (by decide) .b128
  (BitVec.ofNat 128 (2 ^ 100 + 7))
example : (Cast.fromU 4 .b128 0x10000000000000007#128 : Limbs 64) = [7, 1, 0, 0] := by decide
example : (Cast.fromU 8 .b64 0x100000007#64 : Limbs 32) = [7, 1, 0, 0, 0, 0, 0, 0] := by decide

/-- C27: `from_i8` … `from_i128` preserve the value on the signed types, and its residue modulo
`2^BITS` on the unsigned types. -/
theorem C27_from_signed (hw : w = 32 ∨ w = 64) (hN : 4 ≤ N) (p : Prim) (v : BitVec p.n) :
    ExactS N v.toInt (Cast.fromI N p v : Limbs w) ∧ WrapU N v.toInt (Cast.fromI N p v : Limbs w) :=
  ⟨fromI_spec hw hN p v, (fromI_spec hw hN p v).wrap.wrapU⟩

example := C27_from_signed (w := 64) (N := 4) (Or.inr rfl) (by decide) .b8 (0xfe#8)
example : (Cast.fromI 4 .b8 0xfe#8 : Limbs 64) = m2 := by decide
example : (Cast.fromI 8 .b32 0xffffffff#32 : Limbs 32) = ones32 := by decide

/-- C27: `as_u8` … `as_u128` keep the value modulo `2^n`, `as_i8` … `as_i128` are its two's
complement reading; for the unsigned and the signed types. -/
theorem C27_as (hw : w = 32 ∨ w = 64) (h4 : 4 ≤ x.length) (hB : 128 ≤ w * x.length) (p : Prim) :
    ((Cast.asP x p).toNat : Int) = (toNat x : Int) % 2 ^ p.n ∧
    ((Cast.asP x p).toNat : Int) = toInt x % 2 ^ p.n ∧
    (Cast.asP x p).toInt = Int.bmod (toNat x) (2 ^ p.n) ∧
    (Cast.asP x p).toInt = Int.bmod (toInt x) (2 ^ p.n) := by
  have h1 := asP_toNat hw h4 p
  have hd : ((2:Int) ^ p.n) ∣ 2 ^ bits x := pow_dvd_pow 2 (by
    have := p.lt; have : bits x = w * x.length := rfl; omega)
  have h2 : toInt x % 2 ^ p.n = (toNat x : Int) % 2 ^ p.n := (toInt_modEq x).of_dvd hd
  have hb : ∀ z : Int, z % 2 ^ p.n = (toNat x : Int) % 2 ^ p.n →
      (Cast.asP x p).toInt = Int.bmod z (2 ^ p.n) := by
    intro z hz
    rw [BitVec.toInt_eq_toNat_bmod, h1]
    push_cast
    rw [← hz]
    have := Int.emod_bmod z (2 ^ p.n)
    push_cast at this
    exact this
  refine ⟨by rw [h1]; push_cast; rfl, by rw [h2, h1]; push_cast; rfl, hb _ rfl, hb _ h2⟩

example := C27_as (x := m2) (Or.inr rfl) (by decide) (by decide) .b16
example : Cast.asP m2 .b16 = 0xfffe#16 ∧ Cast.asP a .b128 = 0xffffffffffffffff#128 := by decide

/-- C27: narrowing after widening is the identity. -/
theorem C27_roundtrip (hw : w = 32 ∨ w = 64) (hN : 4 ≤ N) (hB : 128 ≤ w * N) (p : Prim)
    (v : BitVec p.n) :
    Cast.asP (Cast.fromU N p v : Limbs w) p = v ∧ Cast.asP (Cast.fromI N p v : Limbs w) p = v := by
  obtain ⟨l1, h1⟩ := fromU_spec (w := w) hw hN p v
  obtain ⟨l2, h2⟩ := fromI_spec (w := w) hw hN p v
  constructor
  · apply BitVec.eq_of_toNat_eq
    rw [asP_toNat hw (by omega)]
    have : toNat (Cast.fromU N p v : Limbs w) = v.toNat := by omega
    rw [this, Nat.mod_eq_of_lt v.isLt]
  · apply BitVec.eq_of_toInt_eq
    rw [(C27_as hw (by omega) (by rw [l2]; exact hB) p).2.2.2, h2]
    exact bmod_of_InS (bv_InS v)

example := C27_roundtrip (w := 32) (N := 8) (Or.inl rfl) (by decide) (by decide) .b64 (77#64)

/-- C27: the conversions from and to the limb types and the double-width types. -/
theorem C27_limb (hw : w = 32 ∨ w = 64) (hN : 4 ≤ N) (hB : 128 < w * N) (v : BitVec w)
    (u : BitVec (w + w)) :
    (ExactU N v.toNat (Cast.fromULimb N v) ∧ ExactS N v.toNat (Cast.fromULimb N v)) ∧
    (ExactU N u.toNat (Cast.fromUWide N u) ∧ ExactS N u.toNat (Cast.fromUWide N u)) ∧
    ExactS N v.toInt (Cast.fromILimb N v) ∧ ExactS N u.toInt (Cast.fromIWide N u) := by
  rcases hw with rfl | rfl
  · have e1 : Cast.fromULimb N v = Cast.fromU N .b32 v := by simp [Cast.fromULimb, Cast.fromU]
    have e2 : Cast.fromUWide N u = Cast.fromU N .b64 u := by
      simp [Cast.fromUWide, Cast.fromU]
    have e3 : Cast.fromILimb N v = Cast.fromI N .b32 v := by simp [Cast.fromILimb, Cast.fromI]
    have e4 : Cast.fromIWide N u = Cast.fromI N .b64 u := by
      simp [Cast.fromIWide, Cast.fromI]
    rw [e1, e2, e3, e4]
    exact ⟨C27_from_unsigned (Or.inl rfl) hN hB .b32 v, C27_from_unsigned (Or.inl rfl) hN hB .b64 u,
      fromI_spec (Or.inl rfl) hN .b32 v, fromI_spec (Or.inl rfl) hN .b64 u⟩
  · have e1 : Cast.fromULimb N v = Cast.fromU N .b64 v := by simp [Cast.fromULimb, Cast.fromU]
    have e2 : Cast.fromUWide N u = Cast.fromU N .b128 u := by
      simp [Cast.fromUWide, Cast.fromU]
    have e3 : Cast.fromILimb N v = Cast.fromI N .b64 v := by simp [Cast.fromILimb, Cast.fromI]
    have e4 : Cast.fromIWide N u = Cast.fromI N .b128 u := by
      simp [Cast.fromIWide, Cast.fromI]
    rw [e1, e2, e3, e4]
    exact ⟨C27_from_unsigned (Or.inr rfl) hN hB .b64 v, C27_from_unsigned (Or.inr rfl) hN hB .b128 u,
      fromI_spec (Or.inr rfl) hN .b64 v, fromI_spec (Or.inr rfl) hN .b128 u⟩

example := C27_limb (w := 64) (N := 4) (Or.inr rfl) (by decide) (by decide) 5 (BitVec.allOnes _)
example : (Cast.fromIWide 4 (BitVec.allOnes _) : Limbs 64) = ones := by decide

/-- C27: `as_ulimb`, `as_uwide` keep the value modulo the size of the type (the signed forms are the
same bits). -/
theorem C27_as_limb (hw : w = 32 ∨ w = 64) (h4 : 4 ≤ x.length) :
    (Cast.asULimb x).toNat = toNat x % 2 ^ w ∧ (Cast.asUWide x).toNat = toNat x % 2 ^ (w + w) := by
  have h32 := asU32'_toNat hw h4
  have h64 := asU64_toNat hw h4
  have h128 := asU128_toNat hw h4
  rcases hw with rfl | rfl
  · simp only [Cast.asULimb, Cast.asUWide, if_true, BitVec.toNat_setWidth, h32, h64]
    omega
  · simp only [Cast.asULimb, Cast.asUWide]
    rw [if_neg (by decide), if_neg (by decide)]
    simp only [BitVec.toNat_setWidth, h64, h128]
    omega

example := C27_as_limb (x := a) (Or.inr rfl) (by decide)
example : Cast.asULimb a = 0xffffffffffffffff := by decide

/-! ### C28: fallible conversions -/

/-- C28: `TryFrom<iN>` for the unsigned types succeeds, with the same value, iff the number is not
negative. -/
theorem C28_try_from_prim (hw : w = 32 ∨ w = 64) (hN : 4 ≤ N) (hB : 128 ≤ w * N) (p : Prim)
    (v : BitVec p.n) : CheckU N v.toInt (Cast.tryFromI N p v : Option (Limbs w)) := by
  have h0 : (0 : BitVec p.n).sle v = true ↔ 0 ≤ v.toInt := by
    rw [BitVec.sle_iff_toInt_le]; simp
  have hr : v.toInt < 2 ^ (w * N) := by
    have h1 := bv_InS v
    have h2 : (2:Int) ^ p.n ≤ 2 ^ (w * N) := pow_le_pow_right₀ (by norm_num) (by
      have := p.lt; omega)
    unfold InS at h1
    omega
  constructor
  · intro h
    exact ⟨_, if_pos (h0.2 h.1), ((C27_from_signed hw hN p v).2).exact h⟩
  · intro h
    exact if_neg (by rw [h0]; intro h'; exact h ⟨h', hr⟩)

example := C28_try_from_prim (w := 64) (N := 4) (Or.inr rfl) (by decide) (by decide) .b8 (0x80#8)
example : (Cast.tryFromI 4 .b8 0x80#8 : Option (Limbs 64)) = none ∧
    (Cast.tryFromI 4 .b8 0x7f#8 : Option (Limbs 64)) = some [0x7f, 0, 0, 0] := by decide

/-- C28: `TryFrom<signed>` for the unsigned type of the same width succeeds, with the same value, iff
the number is not negative. -/
theorem C28_try_from_signed (hw : 0 < w) (hx : x ≠ []) :
    CheckU x.length (toInt x) (Cast.tryFromSigned x) := by
  have hn := isNegative_iff hw hx
  rcases toInt_cases x with ⟨h1, h2⟩ | ⟨h1, h2⟩
  · have hf : I.isNegative x = false := by
      rw [← Bool.not_eq_true, hn]; omega
    refine ⟨fun _ => ⟨x, by simp [Cast.tryFromSigned, hf], rfl, by omega⟩, fun h => ?_⟩
    exfalso; apply h
    refine ⟨h1, ?_⟩
    have := toNat_lt_int x
    rw [show w * x.length = bits x from rfl]; omega
  · have hf : I.isNegative x = true := hn.2 h1
    refine ⟨fun h => ?_, fun _ => by simp [Cast.tryFromSigned, hf]⟩
    have := h.1
    omega

example := C28_try_from_signed (x := m2) (by decide) (by decide)
example : Cast.tryFromSigned m2 = none ∧ Cast.tryFromSigned maxS = some maxS := by decide

/-- C28 is false for `TryFrom<unsigned>` of the signed types: the maximum, which is representable, is
rejected (the code compares with `<` instead of `<=`). -/
theorem C28_try_from_unsigned_false :
    InS 256 (toNat maxS) ∧ Cast.tryFromUnsigned maxS = none := by decide +kernel

/-- C28, `TryFrom<unsigned>` of the signed types. The full statement has no condition `hm`; only the
maximum is treated wrongly. -/
theorem C28_try_from_unsigned_partial (hw : 0 < w) (h2 : x.length % 2 = 0) (hx : x ≠ [])
    (hm : (toNat x : Int) ≠ 2 ^ (w * x.length - 1) - 1) :
    CheckS x.length (toNat x) (Cast.tryFromUnsigned x) := by
  have hN : 1 ≤ x.length := List.length_pos_iff.2 hx
  obtain ⟨l1, h1⟩ := maxValueS hw (show 0 < x.length by omega)
  have hp := two_pow_pred (w := w * x.length) (Nat.mul_pos hw hN)
  have hpos : (0:Int) < 2 ^ (w * x.length - 1) := by positivity
  have hmax : (toNat (I.maxValue w x.length) : Int) = 2 ^ (w * x.length - 1) - 1 := by
    rcases toInt_cases (I.maxValue w x.length) with ⟨h3, h4⟩ | ⟨h3, h4⟩
    · omega
    · rw [h1] at h3; omega
  have hlt := Ord.lt_iff hw false (x := x) (y := I.maxValue w x.length) l1.symm h2 (by omega)
  simp only [Ord.val, Bool.false_eq_true, if_false, hmax] at hlt
  by_cases hc : (toNat x : Int) < 2 ^ (w * x.length - 1) - 1
  · have hi : InS (w * x.length) (toNat x) := by
      unfold InS; rw [hp]; omega
    refine ⟨fun _ => ⟨x, by rw [Cast.tryFromUnsigned, if_pos (hlt.2 hc)], rfl, ?_⟩,
      fun h => absurd hi h⟩
    rw [← bmod_of_InS hi, toInt_eq_bmod]; rfl
  · refine ⟨fun h => ?_, fun _ => by rw [Cast.tryFromUnsigned, if_neg (by rw [hlt]; exact hc)]⟩
    exfalso
    unfold InS at h
    rw [hp] at h
    omega

example := C28_try_from_unsigned_partial (x := a) (by decide) (by decide) (by decide)
  (by decide +kernel)
example : Cast.tryFromUnsigned a = some a ∧ Cast.tryFromUnsigned top = none := by decide

/-! ### C46: num-traits conversions -/

/-- The result of a conversion to an `n`-bit primitive type: the value iff it is representable. -/
def FitsPrim {n : Nat} (ps : Bool) (z : Int) (o : Option (BitVec n)) : Prop :=
  ((if ps then InS n z else InU n z) → ∃ c, o = some c ∧ primVal ps c = z) ∧
  (¬ (if ps then InS n z else InU n z) → o = none)

theorem FitsPrim.mk_if {n : Nat} {ps : Bool} {z : Int} {b : Bool} {c : BitVec n}
    (hb : b = true ↔ (if ps then InS n z else InU n z))
    (hc : (if ps then InS n z else InU n z) → primVal ps c = z) :
    FitsPrim ps z (if b then some c else none) := by
  constructor
  · intro h; exact ⟨c, if_pos (hb.2 h), hc h⟩
  · intro h; exact if_neg (fun h' => h (hb.1 h'))

theorem bv_of_emodU {n : Nat} {z : Int} {c : BitVec n} (hc : (c.toNat : Int) = z % 2 ^ n)
    (h : InU n z) : primVal false c = z := by
  rw [emod_of_InU h] at hc; exact hc

theorem bv_of_emodS {n : Nat} {z : Int} {c : BitVec n} (hc : c.toInt = Int.bmod z (2 ^ n))
    (h : InS n z) : primVal true c = z := by
  rw [bmod_of_InS h] at hc; exact hc

theorem toInt_intMax' {n : Nat} (hn : 0 < n) :
    (2:Int) * (BitVec.intMax n).toInt = 2 ^ n - 2 := by
  have := two_pow_pred hn
  rw [BitVec.toInt_intMax, this]; push_cast; ring

theorem toInt_intMin' {n : Nat} (hn : 0 < n) :
    (2:Int) * (BitVec.intMin n).toInt = - 2 ^ n := by
  have h := two_pow_pred hn
  rw [BitVec.toInt_intMin_of_pos hn, h]; push_cast; ring

/-- C46: `to_u8` … `to_u128` of the unsigned types. -/
theorem C46_uint_to_unsigned (hw : w = 32 ∨ w = 64) (h4 : 4 ≤ x.length) (h2 : x.length % 2 = 0)
    (hB : 128 ≤ w * x.length) (p : Prim) : FitsPrim false (toNat x) (Cast.uToU x p) := by
  obtain ⟨l, hv⟩ := fromU_spec (w := w) hw h4 p (BitVec.allOnes _)
  refine FitsPrim.mk_if ?_ (bv_of_emodU (C27_as hw h4 hB p).1)
  rw [Ord.le_iff (by omega) false l.symm h2 h4]
  simp only [Ord.val, Bool.false_eq_true, if_false, hv, BitVec.toNat_allOnes, InU]
  have : 0 < 2 ^ p.n := by positivity
  have h1 : ((2 ^ p.n - 1 : Nat) : Int) = 2 ^ p.n - 1 := by push_cast [this]; rfl
  rw [h1]; omega

example := C46_uint_to_unsigned (x := a) (Or.inr rfl) (by decide) (by decide) (by decide) .b64
example : Cast.uToU a .b128 = none ∧ Cast.uToU ([255, 0, 0, 0] : Limbs 64) .b8 = some (255#8 : BitVec 8) ∧
    Cast.uToU ([256, 0, 0, 0] : Limbs 64) .b8 = none := by decide

/-- C46: `to_i8` … `to_i128` of the unsigned types. -/
theorem C46_uint_to_signed (hw : w = 32 ∨ w = 64) (h4 : 4 ≤ x.length) (h2 : x.length % 2 = 0)
    (hB : 128 ≤ w * x.length) (p : Prim) : FitsPrim true (toNat x) (Cast.uToI x p) := by
  have hn : 0 < p.n := by cases p <;> decide
  obtain ⟨l, hv⟩ := fromI_spec (w := w) hw h4 p (BitVec.intMax _)
  refine FitsPrim.mk_if ?_ (bv_of_emodS (C27_as hw h4 hB p).2.2.1)
  have hmax := toInt_intMax' hn
  have hpos : (2:Int) ≤ 2 ^ p.n := by
    have := two_pow_pred hn
    have : (0:Int) < 2 ^ (p.n - 1) := by positivity
    omega
  have hN : (toNat (Cast.fromI x.length p (BitVec.intMax p.n) : Limbs w) : Int) =
      (BitVec.intMax p.n).toInt := by
    rcases toInt_cases (Cast.fromI x.length p (BitVec.intMax p.n) : Limbs w) with ⟨h5, h6⟩ | ⟨h5, h6⟩
    · omega
    · omega
  rw [Ord.le_iff (by omega) false l.symm h2 h4]
  simp only [Ord.val, Bool.false_eq_true, if_false, if_true, hN, InS]
  omega

example := C46_uint_to_signed (x := a) (Or.inr rfl) (by decide) (by decide) (by decide) .b128
example : Cast.uToI ([128, 0, 0, 0] : Limbs 64) .b8 = (none : Option (BitVec 8)) ∧
    Cast.uToI ([127, 0, 0, 0] : Limbs 64) .b8 = some (127#8 : BitVec 8) := by decide

/-- C46: `to_u8` … `to_u128` of the signed types. -/
theorem C46_int_to_unsigned (hw : w = 32 ∨ w = 64) (h4 : 4 ≤ x.length) (h2 : x.length % 2 = 0)
    (hB : 128 < w * x.length) (p : Prim) : FitsPrim false (toInt x) (Cast.iToU x p) := by
  obtain ⟨l, hv⟩ := fromU_specS (w := w) hw h4 hB p (BitVec.allOnes _)
  obtain ⟨l0, hv0⟩ := fromU_specS (w := w) hw h4 hB p 0
  refine FitsPrim.mk_if ?_ (bv_of_emodU (C27_as hw h4 hB.le p).2.1)
  rw [Bool.and_eq_true, Ord.le_iff (by omega) true l.symm h2 h4, Ord.ge, Bool.not_eq_true',
    ← Bool.not_eq_true, Ord.lt_iff (by omega) true l0.symm h2 (by omega)]
  simp only [Ord.val, Bool.false_eq_true, if_false, if_true, hv, hv0, BitVec.toNat_allOnes, InU]
  have : 0 < 2 ^ p.n := by positivity
  have h1 : ((2 ^ p.n - 1 : Nat) : Int) = 2 ^ p.n - 1 := by push_cast [this]; rfl
  rw [h1]
  simp only [BitVec.ofNat_eq_ofNat, BitVec.toNat_ofNat, Nat.zero_mod, Nat.cast_zero]
  omega

example := C46_int_to_unsigned (x := m2) (Or.inr rfl) (by decide) (by decide) (by decide) .b64
example : Cast.iToU m2 .b128 = none ∧ 
    Cast.iToU ([255, 0, 0, 0] : Limbs 64) .b8 = some (255#8 : BitVec 8) := by decide

/-- C46: `to_i8` … `to_i128` of the signed types. -/
theorem C46_int_to_signed (hw : w = 32 ∨ w = 64) (h4 : 4 ≤ x.length) (h2 : x.length % 2 = 0)
    (hB : 128 ≤ w * x.length) (p : Prim) : FitsPrim true (toInt x) (Cast.iToI x p) := by
  have hn : 0 < p.n := by cases p <;> decide
  obtain ⟨l, hv⟩ := fromI_spec (w := w) hw h4 p (BitVec.intMax _)
  obtain ⟨l0, hv0⟩ := fromI_spec (w := w) hw h4 p (BitVec.intMin _)
  refine FitsPrim.mk_if ?_ (bv_of_emodS (C27_as hw h4 hB p).2.2.2)
  have hmax := toInt_intMax' hn
  have hmin := toInt_intMin' hn
  rw [Bool.and_eq_true, Ord.le_iff (by omega) true l.symm h2 h4, Ord.ge, Bool.not_eq_true',
    ← Bool.not_eq_true, Ord.lt_iff (by omega) true l0.symm h2 (by omega)]
  have hpar := two_pow_pred hn
  simp only [Ord.val, if_true, hv, hv0, InS]
  omega

example := C46_int_to_signed (x := m2) (Or.inr rfl) (by decide) (by decide) (by decide) .b8
example : Cast.iToI m2 .b8 = some (0xfe#8 : BitVec 8) ∧ Cast.iToI top .b128 = none := by decide

/-- C46: `FromPrimitive` on the unsigned types: the value, or `None` iff it is negative. -/
theorem C46_uint_from_primitive (hw : w = 32 ∨ w = 64) (hN : 4 ≤ N) (hB : 128 ≤ w * N) (p : Prim)
    (v : BitVec p.n) :
    CheckU N v.toInt (Cast.uFromPrimI N p v : Option (Limbs w)) ∧
    CheckU N v.toNat (Cast.fromPrimU N p v : Option (Limbs w)) := by
  have hU := fromU_spec (w := w) hw hN p v
  constructor
  · have h0 : (0 : BitVec p.n).sle v = true ↔ 0 ≤ v.toInt := by
      rw [BitVec.sle_iff_toInt_le]; simp
    have hr : v.toInt < 2 ^ (w * N) := by
      have h1 := bv_InS v
      have h2 : (2:Int) ^ p.n ≤ 2 ^ (w * N) := pow_le_pow_right₀ (by norm_num) (by
        have := p.lt; omega)
      unfold InS at h1
      omega
    constructor
    · intro h
      refine ⟨_, if_pos (h0.2 h.1), ?_⟩
      have : v.toInt = v.toNat := by
        have := bv_toInt_eq v
        have := v.isLt
        have h3 := h.1
        rw [BitVec.toInt_eq_toNat_cond] at h3 ⊢
        split at h3
        · rename_i hc; rw [if_pos hc]
        · have := bv_lt_int v; push_cast at h3; omega
      rw [this]; exact hU
    · intro h
      exact if_neg (by rw [h0]; intro h'; exact h ⟨h', hr⟩)
  · exact ⟨fun _ => ⟨_, rfl, hU⟩, fun h => absurd hU.inU h⟩

example := C46_uint_from_primitive (w := 64) (N := 4) (Or.inr rfl) (by decide) (by decide) .b8 (0x80#8)
example : (Cast.uFromPrimI 4 .b8 0x80#8 : Option (Limbs 64)) = none ∧
    (Cast.fromPrimU 4 .b8 0x80#8 : Option (Limbs 64)) = some [128, 0, 0, 0] := by decide

/-- C46: `FromPrimitive` on the signed types always succeeds with the value. -/
theorem C46_int_from_primitive (hw : w = 32 ∨ w = 64) (hN : 4 ≤ N) (hB : 128 < w * N) (p : Prim)
    (v : BitVec p.n) :
    CheckS N v.toInt (Cast.iFromPrimI N p v : Option (Limbs w)) ∧
    CheckS N v.toNat (Cast.fromPrimU N p v : Option (Limbs w)) := by
  have hI := fromI_spec (w := w) hw hN p v
  have hU := fromU_specS (w := w) hw hN hB p v
  exact ⟨⟨fun _ => ⟨_, rfl, hI⟩, fun h => absurd hI.inS h⟩,
    ⟨fun _ => ⟨_, rfl, hU⟩, fun h => absurd hU.inS h⟩⟩

example := C46_int_from_primitive (w := 64) (N := 4) (Or.inr rfl) (by decide) (by decide) .b8 (0xfe#8)
example : (Cast.iFromPrimI 4 .b8 0xfe#8 : Option (Limbs 64)) = some m2 := by decide

/-- C46: `to_usize`, `to_isize` (`pw` is the pointer width) of the unsigned types. -/
theorem C46_uint_to_size (hw : w = 32 ∨ w = 64) (h4 : 4 ≤ x.length) (h2 : x.length % 2 = 0)
    (hB : 128 ≤ w * x.length) {pw : Nat} (h0 : 0 < pw) (hpw : pw ≤ 128) :
    FitsPrim false (toNat x) (Cast.uToUsize pw x) ∧
    FitsPrim true (toNat x) (Cast.uToIsize pw x) := by
  have has : ((Cast.asP x .b128).setWidth pw).toNat = toNat x % 2 ^ pw := by
    rw [BitVec.toNat_setWidth, asP_toNat hw h4]
    exact Nat.mod_mod_of_dvd _ (pow_dvd_pow 2 hpw)
  constructor
  · obtain ⟨l, hv⟩ := fromU_spec (w := w) hw h4 .b128 ((BitVec.allOnes pw).setWidth 128)
    rw [setWidth_toNat hpw] at hv
    refine FitsPrim.mk_if ?_ (bv_of_emodU (by rw [has]; push_cast; rfl))
    rw [Ord.le_iff (by omega) false l.symm h2 h4]
    simp only [Ord.val, Bool.false_eq_true, if_false, hv, BitVec.toNat_allOnes, InU]
    have : 0 < 2 ^ pw := by positivity
    have h1 : ((2 ^ pw - 1 : Nat) : Int) = 2 ^ pw - 1 := by push_cast [this]; rfl
    rw [h1]; omega
  · obtain ⟨l, hv⟩ := fromI_spec (w := w) hw h4 .b128 ((BitVec.intMax pw).signExtend 128)
    rw [BitVec.toInt_signExtend_of_le hpw] at hv
    refine FitsPrim.mk_if ?_ (bv_of_emodS ?_)
    · have hmax := toInt_intMax' h0
      have hpos : (2:Int) ≤ 2 ^ pw := by
        have := two_pow_pred h0
        have : (0:Int) < 2 ^ (pw - 1) := by positivity
        omega
      rw [Ord.le_iff (by omega) false l.symm h2 h4]
      simp only [Ord.val, Bool.false_eq_true, if_false, if_true, InS]
      rcases toInt_cases (Cast.fromI x.length .b128 ((BitVec.intMax pw).signExtend 128) : Limbs w)
        with ⟨h5, h6⟩ | ⟨h5, h6⟩ <;> omega
    · rw [BitVec.toInt_eq_toNat_bmod, has]
      have := Int.emod_bmod (toNat x : Int) (2 ^ pw)
      push_cast at this ⊢
      exact this

example := C46_uint_to_size (x := a) (pw := 32) (Or.inr rfl) (by decide) (by decide) (by decide)
  (by decide) (by decide)
example : Cast.uToIsize 32 ([0x80000000, 0, 0, 0] : Limbs 64) = none ∧
    Cast.uToUsize 32 ([0x80000000, 0, 0, 0] : Limbs 64) = some 0x80000000#32 := by decide

/-- C46: `to_usize`, `to_isize` (`pw` is the pointer width) of the signed types. -/
theorem C46_int_to_size (hw : w = 32 ∨ w = 64) (h4 : 4 ≤ x.length) (h2 : x.length % 2 = 0)
    (hB : 128 < w * x.length) {pw : Nat} (h0 : 0 < pw) (hpw : pw ≤ 128) :
    FitsPrim false (toInt x) (Cast.iToUsize pw x) ∧
    FitsPrim true (toInt x) (Cast.iToIsize pw x) := by
  have has : ((Cast.asP x .b128).setWidth pw).toNat = toNat x % 2 ^ pw := by
    rw [BitVec.toNat_setWidth, asP_toNat hw h4]
    exact Nat.mod_mod_of_dvd _ (pow_dvd_pow 2 hpw)
  have hd : ((2:Int) ^ pw) ∣ 2 ^ bits x := pow_dvd_pow 2 (by
    have : bits x = w * x.length := rfl
    omega)
  have hmod : toInt x % 2 ^ pw = (toNat x : Int) % 2 ^ pw := (toInt_modEq x).of_dvd hd
  constructor
  · obtain ⟨l, hv⟩ := fromU_specS (w := w) hw h4 hB .b128 ((BitVec.allOnes pw).setWidth 128)
    obtain ⟨l0, hv0⟩ := fromU_specS (w := w) hw h4 hB .b128 0
    rw [setWidth_toNat hpw] at hv
    refine FitsPrim.mk_if ?_ (bv_of_emodU (by rw [has, hmod]; push_cast; rfl))
    rw [Bool.and_eq_true, Ord.le_iff (by omega) true l.symm h2 h4, Ord.ge, Bool.not_eq_true',
      ← Bool.not_eq_true, Ord.lt_iff (by omega) true l0.symm h2 (by omega)]
    simp only [Ord.val, Bool.false_eq_true, if_false, if_true, hv, hv0, BitVec.toNat_allOnes, InU]
    have : 0 < 2 ^ pw := by positivity
    have h1 : ((2 ^ pw - 1 : Nat) : Int) = 2 ^ pw - 1 := by push_cast [this]; rfl
    rw [h1]
    simp only [BitVec.ofNat_eq_ofNat, BitVec.toNat_ofNat, Nat.zero_mod, Nat.cast_zero]
    omega
  · obtain ⟨l, hv⟩ := fromI_spec (w := w) hw h4 .b128 ((BitVec.intMax pw).signExtend 128)
    obtain ⟨l0, hv0⟩ := fromI_spec (w := w) hw h4 .b128 ((BitVec.intMin pw).signExtend 128)
    rw [BitVec.toInt_signExtend_of_le hpw] at hv hv0
    refine FitsPrim.mk_if ?_ (bv_of_emodS ?_)
    · have hmax := toInt_intMax' h0
      have hmin := toInt_intMin' h0
      have hpar := two_pow_pred h0
      rw [Bool.and_eq_true, Ord.le_iff (by omega) true l.symm h2 h4, Ord.ge, Bool.not_eq_true',
        ← Bool.not_eq_true, Ord.lt_iff (by omega) true l0.symm h2 (by omega)]
      simp only [Ord.val, if_true, hv, hv0, InS]
      omega
    · rw [BitVec.toInt_eq_toNat_bmod, has]
      have := Int.emod_bmod (toInt x) (2 ^ pw)
      push_cast at this ⊢
      rw [hmod] at this
      exact this

example := C46_int_to_size (x := m2) (pw := 64) (Or.inr rfl) (by decide) (by decide) (by decide)
  (by decide) (by decide)
example : Cast.iToIsize 32 m2 = some 0xfffffffe#32 ∧ Cast.iToUsize 32 m2 = none := by decide

/-- C46: `NumCast::from` for both kinds of type. The source has the value `z`, and its `to_u128` and
`to_i128` succeed iff `z` fits (the contract of `ToPrimitive`, proved above for the crate's own
types). The conversion preserves `z`, or fails iff `z` fits none of the consulted primitive types. -/
theorem C46_num_cast (hw : w = 32 ∨ w = 64) (hN : 4 ≤ N) (hB : 128 < w * N) {z : Int}
    {o1 o2 : Option (BitVec 128)} (h1 : FitsPrim true z o1) (h2 : FitsPrim false z o2) :
    ((InU 128 z → ∃ v, (Cast.uNumCast N o2 : Option (Limbs w)) = some v ∧ ExactU N z v) ∧
      (¬ InU 128 z → (Cast.uNumCast N o2 : Option (Limbs w)) = none)) ∧
    ((InU 128 z ∨ InS 128 z →
        ∃ v, (Cast.iNumCast N o1 o2 : Option (Limbs w)) = some v ∧ ExactS N z v) ∧
      (¬ (InU 128 z ∨ InS 128 z) → (Cast.iNumCast N o1 o2 : Option (Limbs w)) = none)) := by
  simp only [FitsPrim, if_true, Bool.false_eq_true, if_false] at h1 h2
  refine ⟨⟨fun h => ?_, fun h => ?_⟩, fun h => ?_, fun h => ?_⟩
  · obtain ⟨c, rfl, hc⟩ := h2.1 h
    exact ⟨_, rfl, hc ▸ fromU_spec hw hN .b128 c⟩
  · rw [h2.2 h]; rfl
  · by_cases hs : InS 128 z
    · obtain ⟨c, rfl, hc⟩ := h1.1 hs
      exact ⟨_, rfl, hc ▸ fromI_spec hw hN .b128 c⟩
    · rw [h1.2 hs]
      obtain ⟨c, rfl, hc⟩ := h2.1 (h.resolve_right hs)
      exact ⟨_, rfl, hc ▸ fromU_specS hw hN hB .b128 c⟩
  · rw [h1.2 (fun h' => h (.inr h')), h2.2 (fun h' => h (.inl h'))]; rfl

example := C46_num_cast (w := 32) (N := 8) (Or.inl rfl) (by decide) (by decide)
  (C46_int_to_signed (x := m2) (Or.inr rfl) (by decide) (by decide) (by decide) .b128)
  (C46_int_to_unsigned (x := m2) (Or.inr rfl) (by decide) (by decide) (by decide) .b128)
example : (Cast.iNumCast 4 (Cast.iToI m2 .b128) (Cast.iToU m2 .b128) : Option (Limbs 64)) = some m2 ∧
    (Cast.uNumCast 4 (Cast.iToU m2 .b128) : Option (Limbs 64)) = none := by decide

/-! ### C50: the num-traits `Signed` implementation -/

/-- C50: `Signed::is_negative` tests for a negative number. -/
theorem C50_is_negative (hw : 1 < w) (h2 : x.length % 2 = 0) (hx : x ≠ []) :
    NumSigned.isNegative x = true ↔ toInt x < 0 := by
  have hN : 1 ≤ x.length := List.length_pos_iff.2 hx
  obtain ⟨l, h0⟩ := ofU8S (w := w) (N := x.length) (v := 0) (by omega) (by omega) (by positivity)
  rw [NumSigned.isNegative, Ord.lt_iff (by omega) true l.symm h2 (by omega)]
  simp only [Ord.val, if_true, h0]; simp

example := C50_is_negative (x := m2) (by decide) (by decide) (by decide)
example : NumSigned.isNegative m2 = true ∧ NumSigned.isNegative zero = false := by decide

/-- C50 is false for `Signed::is_positive`: num-traits documents `false` for zero, the code returns
`true` (it compares with `>=`). -/
theorem C50_is_positive_false : toInt zero = 0 ∧ NumSigned.isPositive zero = true := by
  decide +kernel

/-- C50: `Signed::is_positive` on non-zero numbers; the full statement has no condition `hz`. -/
theorem C50_is_positive_partial (hw : 1 < w) (h2 : x.length % 2 = 0) (hx : x ≠ [])
    (hz : toInt x ≠ 0) : NumSigned.isPositive x = true ↔ 0 < toInt x := by
  have hN : 1 ≤ x.length := List.length_pos_iff.2 hx
  obtain ⟨l, h0⟩ := ofU8S (w := w) (N := x.length) (v := 0) (by omega) (by omega) (by positivity)
  rw [NumSigned.isPositive, Ord.ge, Bool.not_eq_true', ← Bool.not_eq_true,
    Ord.lt_iff (by omega) true l.symm h2 (by omega)]
  simp only [Ord.val, if_true, h0]; simp; omega

example := C50_is_positive_partial (x := m2) (by decide) (by decide) (by decide) (by decide +kernel)
example : NumSigned.isPositive m2 = false ∧ NumSigned.isPositive maxS = true := by decide

/-- C50: `Signed::abs_sub` is `max (x - y) 0` (with the overflow behaviour of the operator `-`). -/
theorem C50_abs_sub (hw : 1 < w) (h2 : x.length % 2 = 0) (hx : x ≠ []) (hl : x.length = y.length)
    (oc : Bool) : OpS oc x.length (max (toInt x - toInt y) 0) (NumSigned.absSub oc x y) := by
  have hN : 1 ≤ x.length := List.length_pos_iff.2 hx
  have hlt := Ord.lt_iff (by omega) true hl h2 (by omega)
  simp only [Ord.val, if_true] at hlt
  unfold NumSigned.absSub
  by_cases hc : toInt x < toInt y
  · rw [if_pos (hlt.2 hc), max_eq_right (by omega)]
    have h0 := ofU8S (w := w) (N := x.length) (v := 0) (by omega) (by omega) (by positivity)
    unfold OpS StrictS
    cases oc
    · exact ⟨_, rfl, h0.wrap⟩
    · exact ⟨fun _ => ⟨_, rfl, h0⟩, fun h => absurd h0.inS h⟩
  · rw [if_neg (by rw [hlt]; exact hc), max_eq_left (by omega)]
    exact ((Sub.overS hw hx hl).check.op (Sub.wrapS (by omega) hl) oc : _)

example := C50_abs_sub (x := m2) (y := a) (by decide) (by decide) (by decide) (by decide) true
example : NumSigned.absSub true m2 a = .ok zero ∧ NumSigned.absSub true a m2 = .ok [1, 1, 5, 0] ∧
    NumSigned.absSub true maxS m2 = .panic := by decide

/-- C50: `Signed::signum` is the sign of the number and never panics. -/
theorem C50_signum (hw : 1 < w) (h2 : x.length % 2 = 0) (h4 : 4 ≤ x.length) (oc : Bool) :
    ∃ v, NumSigned.signum oc x = .ok v ∧ ExactS x.length (toInt x).sign v := by
  have h0 := ofU8S (w := w) (N := x.length) (v := 0) (by omega) (by omega) (by positivity)
  have hw1 : 1 < 2 ^ w := Nat.one_lt_two_pow (by omega)
  have h1 := ofU8S (w := w) (N := x.length) (v := 1) (by omega) (by omega) hw1
  have heq := Ord.eqConst_iff (x := x) (y := ofU8 x.length 0) h0.1.symm h2
  have hle := Ord.le_iff (by omega) true (x := x) (y := ofU8 x.length 0) h0.1.symm h2 h4
  simp only [Ord.val, if_true, h0.2] at hle
  unfold NumSigned.signum
  by_cases hz : x = ofU8 x.length 0
  · rw [if_pos (heq.2 hz)]
    have : toInt x = 0 := by conv_lhs => rw [hz]
                             exact h0.2
    rw [this]
    exact ⟨_, rfl, h0⟩
  · rw [if_neg (by rw [heq]; exact hz)]
    have hne : toInt x ≠ 0 := by
      intro h
      apply hz
      exact toInt_inj h0.1.symm (by rw [h, h0.2]; rfl)
    by_cases hp : 0 < toInt x
    · have hgt : Ord.gt true x (ofU8 x.length 0) = true := by
        rw [Ord.gt, Bool.not_eq_true', ← Bool.not_eq_true, hle]; push_cast; omega
      rw [if_pos hgt, Int.sign_eq_one_of_pos hp]
      exact ⟨_, rfl, h1⟩
    · have hgt : Ord.gt true x (ofU8 x.length 0) = false := by
        rw [Ord.gt, Bool.not_eq_false', hle]; push_cast; omega
      rw [if_neg (by rw [hgt]; decide), Int.sign_eq_neg_one_of_neg (by omega)]
      have hlen : 2 ≤ (ofU8 x.length 1 : Limbs w).length := by rw [h1.1]; omega
      have hn := (overflowingNegS (by omega) hlen (by rw [h1.1]; exact h2)).check.op
        (wrappingNegS (by omega) hlen) oc
      rw [h1.1, h1.2] at hn
      have hp2 : (2:Int) ≤ 2 ^ (w * x.length) := by
        have : 1 ≤ w * x.length := Nat.mul_pos (by omega) (by omega)
        calc (2:Int) = 2 ^ 1 := by norm_num
          _ ≤ _ := pow_le_pow_right₀ (by norm_num) this
      have hi : InS (w * x.length) (-((1:Nat):Int)) := by unfold InS; push_cast; omega
      cases oc
      · obtain ⟨v, e, hv⟩ := hn
        exact ⟨v, e, hv.exact hi⟩
      · exact hn.1 hi

example := C50_signum (x := m2) (by decide) (by decide) (by decide) true
example : NumSigned.signum true m2 = .ok ones ∧ NumSigned.signum true a = .ok one ∧
    NumSigned.signum false zero = .ok zero := by decide

end I256
