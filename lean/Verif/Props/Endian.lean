import Verif.SpecBytes
import Verif.Lemmas.Endian
import Verif.Lemmas.DivTop
import Verif.Props.Samples

/-!
# Byte order (C24, C25)

`be` is the byte order of the target (`true` for big-endian); all statements hold for both.  `8 ∣ w`
holds for the limb widths 32 and 64.  A number of `N` limbs has `w / 8 * N` bytes.
-/

namespace I256

open Sample Endian

variable {w : Nat} {x y : Limbs w} {be : Bool}

private theorem byteOf_memBytes (h8 : 8 ∣ w) (x : Limbs w) (i : Nat) :
    (memBytes false x)[i]? =
      if i < w / 8 * x.length then some (BitVec.ofNat 8 (byteOf (toNat x) i)) else none := by
  split
  · rename_i h
    have h' : i < (memBytes false x).length := by rwa [memBytes_length]
    rw [List.getElem?_eq_getElem h']
    congr 1
    apply BitVec.eq_of_toNat_eq
    rw [toNat_digit, memBytes_toNat h8, Nat.pow_mul, byteOf, BitVec.toNat_ofNat]
    simp
  · rename_i h
    rw [List.getElem?_eq_none]
    rw [memBytes_length]; omega

private theorem byteOf_eq (h8 : 8 ∣ w) (x : Limbs w) {i : Nat} (h : i < w / 8 * x.length) :
    byteOf (toNat x) i = ((memBytes false x)[i]'(by rwa [memBytes_length])).toNat := by
  rw [toNat_digit, memBytes_toNat h8, Nat.pow_mul, byteOf]; rfl

/-! ### C24 -/

/-- C24: byte `i` of `swap_bytes(x)` is byte `BYTES - 1 - i` of `x`. -/
theorem C24_swap_bytes (h8 : 8 ∣ w) : (swapBytes be x).length = x.length ∧
    ∀ i < w / 8 * x.length,
      byteOf (toNat (swapBytes be x)) i = byteOf (toNat x) (w / 8 * x.length - 1 - i) := by
  refine ⟨swapBytes_length be x, fun i hi => ?_⟩
  rw [byteOf_eq h8 _ (by rwa [swapBytes_length]), byteOf_eq h8 _ (by omega)]
  simp only [memBytes_swapBytes h8, List.getElem_reverse, memBytes_length]

example := C24_swap_bytes (x := a) (be := true) (by decide)
example : swapBytes false a = [0, 0x0500000000000000, 0, 0xffffffffffffffff] := by decide

/-- C24: bit `i` of `reverse_bits(x)` is bit `BITS - 1 - i` of `x`. -/
theorem C24_reverse_bits (hw : 0 < w) : (reverseBits be x).length = x.length ∧
    ∀ i < bits x, (toNat (reverseBits be x)).testBit i = (toNat x).testBit (bits x - 1 - i) :=
  ⟨by simp [reverseBits_eq], fun i hi => testBit_reverseBits hw be x i hi⟩

example := C24_reverse_bits (x := a) (be := false) (by decide)
example : reverseBits false a = [0, 0xa000000000000000, 0, 0xffffffffffffffff] := by decide +kernel

/-- C24: both are involutions. -/
theorem C24_involution (h8 : 8 ∣ w) :
    swapBytes be (swapBytes be x) = x ∧ reverseBits be (reverseBits be x) = x := by
  refine ⟨swapBytes_swapBytes h8 be x, ?_⟩
  rw [reverseBits_eq, reverseBits_eq]
  simp [List.map_reverse, Function.comp_def]

example := C24_involution (x := a) (be := true) (by decide)

/-! ### C25: bytes -/

/-- C25: `to_le_bytes` has `BYTES` elements and element `i` is byte `i` of the value;
`to_be_bytes` is its reversal; `to_ne_bytes` is the one of the target's byte order. -/
theorem C25_to_bytes (h8 : 8 ∣ w) :
    (∀ i, (toLeBytes be x)[i]? =
      if i < w / 8 * x.length then some (BitVec.ofNat 8 (byteOf (toNat x) i)) else none) ∧
    toBeBytes be x = (toLeBytes be x).reverse ∧
    toNeBytes be x = (if be then toBeBytes be x else toLeBytes be x) := by
  refine ⟨fun i => ?_, ?_, ?_⟩
  · rw [toLeBytes_eq h8, byteOf_memBytes h8]
  · rw [toLeBytes_eq h8, toBeBytes_eq h8]
  · rw [toLeBytes_eq h8, toBeBytes_eq h8, toNeBytes_eq]

example := C25_to_bytes (x := a) (be := true) (by decide)
example : toBeBytes false ([0x0102030405060708, 0x1112131415161718] : Limbs 64) =
    [0x11, 0x12, 0x13, 0x14, 0x15, 0x16, 0x17, 0x18, 1, 2, 3, 4, 5, 6, 7, 8] := by decide

/-- C25: the byte string denotes the value (positional notation in base 256). -/
theorem C25_to_bytes_value (h8 : 8 ∣ w) :
    (toLeBytes be x).length = w / 8 * x.length ∧ toNat (toLeBytes be x) = toNat x ∧
    toNat (toBeBytes be x).reverse = toNat x := by
  rw [toLeBytes_eq h8, toBeBytes_eq h8, List.reverse_reverse]
  exact ⟨memBytes_length .., memBytes_toNat h8 x, memBytes_toNat h8 x⟩

example := C25_to_bytes_value (x := a) (be := true) (by decide)

/-- C25: `from_le_bytes` and `from_be_bytes` return the number whose bytes are the argument.  They
panic exactly if `BITS` is not a multiple of 128, which is not so for the types of the crate. -/
theorem C25_from_bytes {N : Nat} {bs : List (BitVec 8)} (h8 : 8 ∣ w) (hl : bs.length = w / 8 * N) :
    Yields (¬ 128 ∣ w * N) (fun v => v.length = N ∧ toNat v = toNat bs) (fromLeBytes be w N bs) ∧
    Yields (¬ 128 ∣ w * N) (fun v => v.length = N ∧ toNat v = toNat bs.reverse)
      (fromBeBytes be w N bs) := by
  have hd : 128 ∣ w * N ↔ w * N % 128 = 0 := Nat.dvd_iff_mod_eq_zero
  obtain ⟨v, h1, h2, h3⟩ := fromLeBytes_eq h8 be N bs hl
  obtain ⟨v', h1', h2', h3'⟩ := fromBeBytes_eq h8 be N bs hl
  rw [hd, h3, h3']
  refine ⟨⟨fun h => if_neg h, fun h => ⟨v, if_pos (not_not.mp h), h1, ?_⟩⟩,
    fun h => if_neg h, fun h => ⟨v', if_pos (not_not.mp h), h1', ?_⟩⟩
  · rw [← h2, toLeBytes_eq h8, memBytes_toNat h8]
  · rw [← h2', toBeBytes_eq h8, List.reverse_reverse, memBytes_toNat h8]

example := C25_from_bytes (w := 64) (N := 2) (be := true)
  (bs := [0x11, 0x12, 0x13, 0x14, 0x15, 0x16, 0x17, 0x18, 1, 2, 3, 4, 5, 6, 7, 8]) (by decide) (by decide)
example : fromBeBytes false 64 2 [0x11, 0x12, 0x13, 0x14, 0x15, 0x16, 0x17, 0x18, 1, 2, 3, 4, 5, 6, 7, 8]
    = .ok [0x0102030405060708, 0x1112131415161718] := by decide

/-- C25: `from_*_bytes` inverts `to_*_bytes`. -/
theorem C25_bytes_roundtrip (h8 : 8 ∣ w) (h128 : 128 ∣ w * x.length) :
    fromLeBytes be w x.length (toLeBytes be x) = .ok x ∧
    fromBeBytes be w x.length (toBeBytes be x) = .ok x ∧
    fromNeBytes be w x.length (toNeBytes be x) = .ok x := by
  have hd := Nat.mod_eq_zero_of_dvd h128
  have hne {v : Limbs w} (h1 : v.length = x.length) (h2 : toNeBytes be v = toNeBytes be x) : v = x := by
    have := memBytes_inj h8 (by simpa [mem_length] using h1) h2
    rw [← mem_mem be v, this, mem_mem]
  refine ⟨?_, ?_, ?_⟩
  · obtain ⟨v, h1, h2, h3⟩ := fromLeBytes_eq h8 be x.length (toLeBytes be x)
      (by rw [toLeBytes_eq h8, memBytes_length])
    rw [h3, if_pos hd]
    rw [toLeBytes_eq h8, toLeBytes_eq h8] at h2
    rw [memBytes_inj h8 h1 h2]
  · obtain ⟨v, h1, h2, h3⟩ := fromBeBytes_eq h8 be x.length (toBeBytes be x)
      (by rw [toBeBytes_eq h8, List.length_reverse, memBytes_length])
    rw [h3, if_pos hd]
    rw [toBeBytes_eq h8, toBeBytes_eq h8, List.reverse_inj] at h2
    rw [memBytes_inj h8 h1 h2]
  · obtain ⟨v, h1, h2, h3⟩ := fromNeBytes_eq h8 be x.length (toNeBytes be x)
      (by rw [toNeBytes, memBytes_length, mem_length])
    rw [h3, if_pos hd, hne h1 h2]

example := C25_bytes_roundtrip (x := a) (be := true) (by decide) (by decide)

/-- C25: `to_*_bytes` inverts `from_*_bytes`. -/
theorem C25_bytes_roundtrip_rev {N : Nat} {bs : List (BitVec 8)} (h8 : 8 ∣ w) (h128 : 128 ∣ w * N)
    (hl : bs.length = w / 8 * N) :
    (fromLeBytes be w N bs).map (toLeBytes be) = .ok bs ∧
    (fromBeBytes be w N bs).map (toBeBytes be) = .ok bs ∧
    (fromNeBytes be w N bs).map (toNeBytes be) = .ok bs := by
  have hd := Nat.mod_eq_zero_of_dvd h128
  obtain ⟨v, -, h2, h3⟩ := fromLeBytes_eq h8 be N bs hl
  obtain ⟨v', -, h2', h3'⟩ := fromBeBytes_eq h8 be N bs hl
  obtain ⟨v'', -, h2'', h3''⟩ := fromNeBytes_eq h8 be N bs hl
  rw [h3, h3', h3'', if_pos hd, if_pos hd, if_pos hd, Res.map_ok, Res.map_ok, Res.map_ok, h2, h2', h2'']
  exact ⟨rfl, rfl, rfl⟩

example := C25_bytes_roundtrip_rev (w := 32) (N := 4) (be := true) (bs := List.replicate 16 7) (by decide)
  (by decide) (by decide)

/-- C25: `to_be`/`from_be` and `to_le`/`from_le` change the value only on targets of the other byte
order, where they are `swap_bytes`; `from_*` inverts `to_*`. -/
theorem C25_to_be_le (h8 : 8 ∣ w) :
    toBe true x = x ∧ toLe false x = x ∧ toBe false x = swapBytes false x ∧
    toLe true x = swapBytes true x ∧
    fromBe be (toBe be x) = x ∧ fromLe be (toLe be x) = x := by
  refine ⟨rfl, rfl, rfl, rfl, ?_, ?_⟩
  · exact toBe_toBe h8 be x
  · exact toLe_toLe h8 be x

example := C25_to_be_le (x := a) (be := true) (by decide)

/-! ### C25: limbs -/

/-- C25: `to_le_limbs` are the limbs from the least significant one, `to_be_limbs` is the reversal,
and `from_*_limbs` builds the number with these limbs. -/
theorem C25_limbs :
    (∀ i (h : i < x.length), (toLeLimbs be x)[i]? = some (BitVec.ofNat w (elemOf w (toNat x) i))) ∧
    (toLeLimbs be x).length = x.length ∧
    toBeLimbs be x = (toLeLimbs be x).reverse ∧
    Yields (¬ 128 ∣ w * x.length) (fun v => v.length = x.length ∧ toNat v = toNat x)
      (fromLeLimbs be x) ∧
    Yields (¬ 128 ∣ w * x.length) (fun v => v.length = x.length ∧ toNat v = toNat x.reverse)
      (fromBeLimbs be x) := by
  have hle : toLeLimbs be x = x := by cases be <;> simp [toLeLimbs, toNeLimbs, mem, swapArray]
  have hd : 128 ∣ w * x.length ↔ w * x.length % 128 = 0 := Nat.dvd_iff_mod_eq_zero
  rw [hle]
  refine ⟨fun i h => ?_, rfl, ?_, ?_, ?_⟩
  · rw [List.getElem?_eq_getElem h]
    congr 1
    apply BitVec.eq_of_toNat_eq
    rw [toNat_digit, elemOf, BitVec.toNat_ofNat, Nat.mod_mod]
  · cases be <;> simp [toBeLimbs, toNeLimbs, mem, swapArray]
  · rw [hd]
    have : fromLeLimbs be x = if w * x.length % 128 = 0 then .ok x else .panic := by
      cases be <;> simp [fromLeLimbs, fromNeLimbs, mem, swapArray]
    rw [this]
    exact ⟨fun h => if_neg h, fun h => ⟨x, if_pos (not_not.mp h), rfl, rfl⟩⟩
  · rw [hd]
    have : fromBeLimbs be x = if w * x.length % 128 = 0 then .ok x.reverse else .panic := by
      cases be <;> simp [fromBeLimbs, fromNeLimbs, mem, swapArray]
    rw [this]
    exact ⟨fun h => if_neg h, fun h => ⟨x.reverse, if_pos (not_not.mp h), by simp, rfl⟩⟩

example := C25_limbs (x := a) (be := true)
example : toBeLimbs false a = [0, 5, 0, 0xffffffffffffffff] := by decide

/-- C25: the limb array conversions invert each other. -/
theorem C25_limbs_roundtrip (h128 : 128 ∣ w * x.length) :
    fromLeLimbs be (toLeLimbs be x) = .ok x ∧ fromBeLimbs be (toBeLimbs be x) = .ok x ∧
    fromNeLimbs be (toNeLimbs be x) = .ok x ∧
    (fromLeLimbs be x).map (toLeLimbs be) = .ok x ∧ (fromBeLimbs be x).map (toBeLimbs be) = .ok x ∧
    (fromNeLimbs be x).map (toNeLimbs be) = .ok x := by
  have hd := Nat.mod_eq_zero_of_dvd h128
  cases be <;>
    simp [fromLeLimbs, toLeLimbs, fromBeLimbs, toBeLimbs, fromNeLimbs, toNeLimbs, mem, swapArray, hd]

example := C25_limbs_roundtrip (x := a) (be := true) (by decide)

/-! ### C25: arrays of other element types (`wide`, `u32`, `u64`)

`v` is the element width (`w + w`, 32 or 64) and `n` the number of elements. -/

/-- C25: `to_le_wide`, `to_le_u32`, `to_le_u64`: element `i` is the `i`-th group of `v` bits, least
significant first; the big-endian forms are the reversal and the native form is the one of the
target. -/
theorem C25_to_array {v n : Nat} (h8 : 8 ∣ w) (hv : 8 ∣ v) (hn : v * n = w * x.length) :
    (∀ i < n, (toLeArr be v n x)[i]? = some (BitVec.ofNat v (elemOf v (toNat x) i))) ∧
    (toLeArr be v n x).length = n ∧ toNat (toLeArr be v n x) = toNat x ∧
    toBeArr be v n x = (toLeArr be v n x).reverse ∧
    toNeArr be v n x = (if be then toBeArr be v n x else toLeArr be v n x) := by
  obtain ⟨h1, h2⟩ := toLeArr_spec h8 be hv x hn
  refine ⟨fun i hi => ?_, h1, h2, toBeArr_eq .., by cases be <;> simp [toBeArr, toLeArr]⟩
  rw [List.getElem?_eq_getElem (by omega)]
  congr 1
  apply BitVec.eq_of_toNat_eq
  rw [toNat_digit, h2, elemOf, BitVec.toNat_ofNat, Nat.mod_mod]

example := C25_to_array (x := a) (v := 128) (n := 2) (be := true) (by decide) (by decide) (by decide)
example := C25_to_array (x := a) (v := 32) (n := 8) (be := true) (by decide) (by decide) (by decide)
example : toLeArr true 128 2 a = [0xffffffffffffffff, 5] ∧
    toBeArr true 32 8 a = [0, 0, 0, 5, 0, 0, 0xffffffff, 0xffffffff] := by decide

/-- C25: `from_le_wide` and the other array constructors return the number with these elements. -/
theorem C25_from_array {v N : Nat} {l : Limbs v} (h8 : 8 ∣ w) (hv : 8 ∣ v)
    (hn : v * l.length = w * N) :
    Yields (¬ 128 ∣ w * N) (fun r : Limbs w => r.length = N ∧ toNat r = toNat l)
      (fromLeArr be w N l) ∧
    Yields (¬ 128 ∣ w * N) (fun r : Limbs w => r.length = N ∧ toNat r = toNat l.reverse)
      (fromBeArr be w N l) := by
  have hd : 128 ∣ w * N ↔ w * N % 128 = 0 := Nat.dvd_iff_mod_eq_zero
  obtain ⟨r, h1, h2, h3⟩ := fromLeArr_spec h8 be hv l hn
  obtain ⟨r', h1', h2', h3'⟩ := fromLeArr_spec h8 be hv l.reverse (by simpa using hn)
  rw [hd, fromBeArr_eq, h3, h3']
  exact ⟨⟨fun h => if_neg h, fun h => ⟨r, if_pos (not_not.mp h), h1, h2⟩⟩,
    fun h => if_neg h, fun h => ⟨r', if_pos (not_not.mp h), h1', h2'⟩⟩

example := C25_from_array (w := 64) (N := 2) (l := ([1, 2, 3, 4] : Limbs 32)) (be := true) (by decide)
  (by decide) (by decide)
example : fromLeArr true 64 2 ([1, 2, 3, 4] : Limbs 32) = .ok [0x200000001, 0x400000003] := by decide

/-- C25: the array conversions invert each other, in both directions. -/
theorem C25_array_roundtrip {v : Nat} {l : Limbs v} (h8 : 8 ∣ w) (hv : 8 ∣ v)
    (hn : v * l.length = w * x.length) (h128 : 128 ∣ w * x.length) :
    fromLeArr be w x.length (toLeArr be v l.length x) = .ok x ∧
    fromBeArr be w x.length (toBeArr be v l.length x) = .ok x ∧
    (fromLeArr be w x.length l).map (toLeArr be v l.length) = .ok l ∧
    (fromBeArr be w x.length l).map (toBeArr be v l.length) = .ok l := by
  have hd := Nat.mod_eq_zero_of_dvd h128
  obtain ⟨t1, t2⟩ := toLeArr_spec h8 be hv x hn
  have hfrom {l : Limbs v} (hn : v * l.length = w * x.length) :
      ∃ r : Limbs w, r.length = x.length ∧ toNat r = toNat l ∧ fromLeArr be w x.length l = .ok r := by
    obtain ⟨r, h1, h2, h3⟩ := fromLeArr_spec h8 be hv l hn
    exact ⟨r, h1, h2, by rw [h3, if_pos hd]⟩
  have hleft : fromLeArr be w x.length (toLeArr be v l.length x) = .ok x := by
    obtain ⟨r, h1, h2, h3⟩ := hfrom (l := toLeArr be v l.length x) (by rw [t1, hn])
    rw [h3, toNat_inj h1 (h2.trans t2)]
  have hright {l' : Limbs v} (hl : l'.length = l.length) :
      (fromLeArr be w x.length l').map (toLeArr be v l.length) = .ok l' := by
    obtain ⟨r, h1, h2, h3⟩ := hfrom (l := l') (by rw [hl, hn])
    obtain ⟨s1, s2⟩ := toLeArr_spec h8 be hv (n := l.length) r (by rw [h1, hn])
    rw [h3, Res.map_ok, toNat_inj (s1.trans hl.symm) (s2.trans h2)]
  refine ⟨hleft, ?_, hright rfl, ?_⟩
  · rw [toBeArr_eq, fromBeArr_eq, List.reverse_reverse, hleft]
  · rw [fromBeArr_eq]
    have h := hright (l' := l.reverse) (by simp)
    cases hf : fromLeArr be w x.length l.reverse with
    | panic => rw [hf] at h; simp at h
    | ok r =>
      rw [hf, Res.map_ok, Res.ok.injEq] at h
      rw [Res.map_ok, toBeArr_eq, h, List.reverse_reverse]

example := C25_array_roundtrip (x := a) (l := ([1, 2, 3, 4, 5, 6, 7, 8] : Limbs 32)) (be := true)
  (by decide) (by decide) (by decide) (by decide)

end I256
