import Verif.SpecRaw
import Verif.Lemmas.RawApi
import Verif.Lemmas.RawRun
import Verif.Props.Shift

/-!
# C65: shifts and rotations in memory

The theorems are about the literal transcription of `src/math/shift.rs`, `src/math/rotate.rs` and their
callers: arrays in memory order of a little-endian or a big-endian machine, the `transmute` to
double-width elements by way of the bytes, checked indexing, native shifts that panic on an amount of
the element width or more, and the assertions.
-/

namespace I256

open Sample

variable {w k : Nat} {be : Bool} {a : Limbs w}

/-- C65: the left shift kernel, on elements of any width, for every amount below the total width. -/
theorem C65_kernel_left (hk : w = 2 ^ k) (h2 : 2 ≤ a.length) {s : Nat} (hs : s < w * a.length) :
    Holds be (WrapU a.length ((memNat be a : Int) * 2 ^ s)) (Raw.Shift.left be a s) := by
  obtain ⟨x, rfl⟩ := Raw.exists_mem be a
  simp only [Raw.mem_length, Raw.memNat_mem] at *
  rw [Raw.Shift.left_ok be hk x s h2 (by rwa [Nat.mul_comm])]
  obtain ⟨h1, h3⟩ := left_spec hk x hs
  refine Raw.holds ⟨h1, ?_⟩
  rw [h3]; push_cast; rfl

example := C65_kernel_left (be := true) (k := 6) (a := Sample.a) rfl (by decide) (s := 70) (by decide)
example : Raw.Shift.left true ([0, 5, 0, 0xffffffffffffffff] : Limbs 64) 70 =
    .ok [0x140, 0x3f, 0xffffffffffffffc0, 0] := by decide +kernel

/-- C65: the right shift kernel; `signed` is the arithmetic shift. -/
theorem C65_kernel_right (hk : w = 2 ^ k) (h2 : 2 ≤ a.length) {s : Nat} (hs : s < w * a.length) :
    Holds be (ExactU a.length ((memNat be a : Int) / 2 ^ s)) (Raw.Shift.right be false a s) ∧
      Holds be (ExactS a.length (memInt be a / 2 ^ s)) (Raw.Shift.right be true a s) := by
  obtain ⟨x, rfl⟩ := Raw.exists_mem be a
  simp only [Raw.mem_length, Raw.memNat_mem, Raw.memInt_mem] at *
  rw [Raw.Shift.right_ok be false hk x s h2 (by rwa [Nat.mul_comm]),
    Raw.Shift.right_ok be true hk x s h2 (by rwa [Nat.mul_comm])]
  exact ⟨Raw.holds (right_spec hk false x hs), Raw.holds (right_spec hk true x hs)⟩

example := C65_kernel_right (be := true) (k := 6) (a := top) rfl (by decide) (s := 200) (by decide)
example : Raw.Shift.right true true ([0x8000000000000000, 0, 0, 1] : Limbs 64) 65 =
    .ok [0xffffffffffffffff, 0xc000000000000000, 0, 0] := by decide +kernel

/-- C65: both kernels reject an amount of the total width or more, and an array of fewer than two
elements. -/
theorem C65_kernel_rejects {signed : Bool} {s : Nat} (h : a.length < 2 ∨ w * a.length ≤ s) :
    Raw.Shift.left be a s = .panic ∧ Raw.Shift.right be signed a s = .panic := by
  have e : Raw.assert (decide (a.length ≥ 2)) = .panic ∨
      Raw.assert (decide (s < a.length * w)) = .panic := by
    rw [Nat.mul_comm] at h
    rcases h with h | h
    · left; simp [Raw.assert]; omega
    · right; simp [Raw.assert]; omega
  unfold Raw.Shift.left Raw.Shift.right
  simp only
  rcases e with e | e
  · rw [e]; exact ⟨rfl, rfl⟩
  · rw [e]
    cases Raw.assert (decide (a.length ≥ 2)) <;> exact ⟨rfl, rfl⟩

example := C65_kernel_rejects (be := true) (signed := true) (a := top) (s := 256) (.inr (by decide))
example : Raw.Shift.left false top 255 = .ok [0, 0, 0, 0] := by decide +kernel

/-- C65: the rotation kernels: bit `i` goes to bit `i + n`, modulo the total width. -/
theorem C65_kernel_rotate (hk : w = 2 ^ k) (h2 : 2 ≤ a.length) (n : Nat) :
    Holds be (fun v => v.length = a.length ∧ ∀ i < w * a.length,
        (toNat v).testBit ((i + n) % (w * a.length)) = (memNat be a).testBit i)
      (Raw.Rot.left be a n) ∧
    Holds be (fun v => v.length = a.length ∧ ∀ i < w * a.length,
        (toNat v).testBit i = (memNat be a).testBit ((i + n) % (w * a.length)))
      (Raw.Rot.right be a n) := by
  obtain ⟨x, rfl⟩ := Raw.exists_mem be a
  simp only [Raw.mem_length, Raw.memNat_mem] at *
  rw [Raw.Rot.left_ok be hk x n h2, Raw.Rot.right_ok be hk x n h2]
  exact ⟨Raw.holds ⟨rotLeft_length x n, fun i hi => rotLeft_spec hk h2 n hi⟩,
    Raw.holds ⟨rotLeft_length x _, fun i hi => rotRight_spec hk h2 n hi⟩⟩

example := C65_kernel_rotate (be := true) (k := 6) (a := Sample.a) rfl (by decide) 200
example : Raw.Rot.left true ([0, 5, 0, 0xffffffffffffffff] : Limbs 64) 136 =
    .ok [0xff, 0xffffffffffffff00, 0, 0x500] := by decide +kernel

/-- C65: `wrapping_shl` of a type in memory, signed and unsigned. -/
theorem C65_wrapping_shl (hk : w = 2 ^ k) (h8 : 8 ∣ w) (h2 : a.length % 2 = 0) (h4 : 4 ≤ a.length)
    (h128 : 128 ∣ w * a.length) (s : Nat) :
    Holds be (fun v =>
      WrapU a.length ((memNat be a : Int) * 2 ^ (s % (w * a.length))) v ∧
      WrapS a.length (memInt be a * 2 ^ (s % (w * a.length))) v) (Raw.wrappingShl be a s) := by
  obtain ⟨x, rfl⟩ := Raw.exists_mem be a
  simp only [Raw.mem_length, Raw.memNat_mem, Raw.memInt_mem] at *
  have hx : x ≠ [] := by rintro rfl; simp at h4
  rw [Raw.wrappingShl_ok be hk h8 h2 h4 h128 s]
  exact Raw.holds ⟨wrappingShlU hk h2 hx s, wrappingShlS hk h2 hx s⟩

example := C65_wrapping_shl (be := true) (k := 5) (a := b32) rfl (by decide) (by decide) (by decide)
  (by decide) 300
example : Raw.wrappingShl true ([0, 5, 0, 0xffffffffffffffff] : Limbs 64) 326 =
    .ok [0x140, 0x3f, 0xffffffffffffffc0, 0] := by decide +kernel

/-- C65: `wrapping_shr` of a type in memory, signed and unsigned. -/
theorem C65_wrapping_shr (hk : w = 2 ^ k) (h8 : 8 ∣ w) (h2 : a.length % 2 = 0) (h4 : 4 ≤ a.length)
    (h128 : 128 ∣ w * a.length) (s : Nat) :
    Holds be (ExactU a.length ((memNat be a : Int) / 2 ^ (s % (w * a.length))))
      (Raw.wrappingShr be false a s) ∧
    Holds be (ExactS a.length (memInt be a / 2 ^ (s % (w * a.length))))
      (Raw.wrappingShr be true a s) := by
  obtain ⟨x, rfl⟩ := Raw.exists_mem be a
  simp only [Raw.mem_length, Raw.memNat_mem, Raw.memInt_mem] at *
  have hx : x ≠ [] := by rintro rfl; simp at h4
  rw [Raw.wrappingShr_ok be false hk h8 h2 h4 h128 s, Raw.wrappingShr_ok be true hk h8 h2 h4 h128 s]
  exact ⟨Raw.holds (wrappingShrU hk h2 hx s), Raw.holds (wrappingShrS hk h2 hx s)⟩

example := C65_wrapping_shr (be := true) (k := 6) (a := top) rfl (by decide) (by decide) (by decide)
  (by decide) 300
example : Raw.wrappingShr true true ([0x8000000000000000, 0, 0, 1] : Limbs 64) 321 =
    .ok [0xffffffffffffffff, 0xc000000000000000, 0, 0] := by decide +kernel

/-- C65: `rotate_left` and `rotate_right` of a type in memory. -/
theorem C65_rotate (hk : w = 2 ^ k) (h8 : 8 ∣ w) (h2 : a.length % 2 = 0) (h4 : 4 ≤ a.length)
    (h128 : 128 ∣ w * a.length) (n : Nat) :
    Holds be (fun v => v.length = a.length ∧ ∀ i < w * a.length,
        (toNat v).testBit ((i + n) % (w * a.length)) = (memNat be a).testBit i)
      (Raw.rotateLeft be a n) ∧
    Holds be (fun v => v.length = a.length ∧ ∀ i < w * a.length,
        (toNat v).testBit i = (memNat be a).testBit ((i + n) % (w * a.length)))
      (Raw.rotateRight be a n) := by
  obtain ⟨x, rfl⟩ := Raw.exists_mem be a
  simp only [Raw.mem_length, Raw.memNat_mem] at *
  rw [Raw.rotateLeft_ok be hk h8 h2 h4 h128 n, Raw.rotateRight_ok be hk h8 h2 h4 h128 n]
  exact ⟨Raw.holds ⟨rotateLeft_length h2 n, fun i hi => rotateLeft_spec hk h2 h4 n hi⟩,
    Raw.holds ⟨rotateRight_length h2 n, fun i hi => rotateRight_spec hk h2 h4 n hi⟩⟩

example := C65_rotate (be := true) (k := 6) (a := Sample.a) rfl (by decide) (by decide) (by decide)
  (by decide) 136
example : Raw.rotateLeft true ([0, 5, 0, 0xffffffffffffffff] : Limbs 64) 136 =
    .ok [0xff, 0xffffffffffffff00, 0, 0x500] := by decide +kernel

end I256
