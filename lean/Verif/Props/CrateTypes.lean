import Verif.Props.FormsAgree

/-!
# The types of the crate meet the hypotheses of the theorems

The theorems are stated for numbers of any limb size `w` and any number of limbs, under the
hypotheses they need.  The crate defines eight types (src/lib.rs L156-181: `U256`, `I256`, `U384`,
`I384`, `U512`, `I512`, `U1024`, `I1024`), each with 64-bit or with 32-bit limbs.
-/

namespace I256

/-- The limb sizes and limb counts of the crate: `BITS / 64` limbs of 64 bits or `BITS / 32` limbs of
32 bits for the four sizes of src/lib.rs L156-181.
The limb size is chosen in src/types.rs. -/
def CrateType (w N : Nat) : Prop :=
  ∃ BITS ∈ [256, 384, 512, 1024], (w = 64 ∨ w = 32) ∧ w * N = BITS

/-- Every hypothesis on the type used in the property theorems. -/
theorem CrateType.hypotheses {w N : Nat} (h : CrateType w N) :
    1 < w ∧ (∃ k, w = 2 ^ k) ∧ 8 ∣ w ∧ 32 ≤ w ∧ (w = 32 ∨ w = 64) ∧ N % 2 = 0 ∧ 4 ≤ N ∧
      128 ∣ w * N ∧ w * N < 2 ^ 32 := by
  obtain ⟨b, hb, hw, e⟩ := h
  have hk : ∃ k, w = 2 ^ k := by
    rcases hw with rfl | rfl
    · exact ⟨6, rfl⟩
    · exact ⟨5, rfl⟩
  simp only [List.mem_cons, List.not_mem_nil, or_false] at hb
  refine ⟨by omega, hk, by omega, by omega, by omega, ?_⟩
  rcases hw with rfl | rfl <;> omega

example : CrateType 64 6 ∧ CrateType 32 32 := by
  constructor
  · exact ⟨384, by decide, .inl rfl, rfl⟩
  · exact ⟨1024, by decide, .inr rfl, rfl⟩

/-- For instance, the forms of an operation agree in every type of the crate. -/
example {w N e : Nat} (h : CrateType w N) {x y : Limbs w} (hx : x.length = N) (hy : y.length = N)
    (he : e < 2 ^ 32) :=
  have t := h.hypotheses
  C80_int (x := x) (y := y) t.1 (hx ▸ t.2.2.2.2.2.1) (hx ▸ t.2.2.2.2.2.2.1) (hx.trans hy.symm) he

end I256
