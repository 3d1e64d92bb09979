import Verif.SpecText
import Verif.SpecFixed

/-!
# Specification vocabulary for the two limb sizes

The crate can be built with limbs of 32 or of 64 bits.  The definitions in this file say that results
of the two builds agree.  Nothing here refers to the model of the code.
-/

namespace I256

variable {w v : Nat}

/-- Two limb arrays, possibly with different limb sizes, that are the same number of the same width. -/
def Same (x : Limbs w) (y : Limbs v) : Prop := bits x = bits y ∧ toNat x = toNat y

/-- The value and the flag agree. -/
def SameFlag (x : Limbs w × Bool) (y : Limbs v × Bool) : Prop := Same x.1 y.1 ∧ x.2 = y.2

/-- Both components agree. -/
def SamePair (x : Limbs w × Limbs w) (y : Limbs v × Limbs v) : Prop := Same x.1 y.1 ∧ Same x.2 y.2

/-- Both are `None`, or both are `Some` and the values agree. -/
def SameOpt : Option (Limbs w) → Option (Limbs v) → Prop
  | some x, some y => Same x y
  | none, none => True
  | _, _ => False

/-- Both are the same error, or both are numbers and agree. -/
def SameParsed : Parsed (Limbs w) → Parsed (Limbs v) → Prop
  | .ok x, .ok y => Same x y
  | .err a, .err b => a = b
  | _, _ => False

/-- Both panic, or both return and the values are related by `R`. -/
def SameRes {α β : Type} (R : α → β → Prop) : Res α → Res β → Prop
  | .ok x, .ok y => R x y
  | .panic, .panic => True
  | _, _ => False

/-- If both return, the values are related by `R`. -/
def SameIfBoth {α β : Type} (R : α → β → Prop) (r : Res α) (s : Res β) : Prop :=
  ∀ a b, r = .ok a → s = .ok b → R a b

/-- Both are `None`, or both are `Some` and the values are related by `R`. -/
def SameOptBy {α β : Type} (R : α → β → Prop) : Option α → Option β → Prop
  | some x, some y => R x y
  | none, none => True
  | _, _ => False

/-- The values are related by `R` and the flags agree. -/
def SameFlagBy {α β : Type} (R : α → β → Prop) (x : α × Bool) (y : β × Bool) : Prop :=
  R x.1 y.1 ∧ x.2 = y.2

/-- Long division of `x` by `y` panics with `N` limbs of `w` bits iff it does with `M` limbs of `v`
bits. -/
def PanicsAlike (w N v M x y : Nat) : Prop := DivPanics w N x y ↔ DivPanics v M x y

/-- Long division of `x` by `y` panics alike and, where it returns, leaves the same remainder. -/
def DividesAlike (w N v M x y : Nat) : Prop :=
  PanicsAlike w N v M x y ∧ (¬ DivPanics w N x y → strayRem w N x y = strayRem v M x y)

/-- Long division of `x` by `y` panics alike and, where it returns and `c` holds, spoils the remainder
in both builds or in neither. -/
def SpoilsAlike (w N v M x y : Nat) (c : Prop) : Prop :=
  PanicsAlike w N v M x y ∧
    (¬ DivPanics w N x y → c → (strayRem w N x y = 0 ↔ strayRem v M x y = 0))

/-- Long division of `x` by a scalar `y` of `n` bits panics with limbs of `w` bits iff it does with limbs
of `v` bits. -/
def ScalarPanicsAlike (w v n x y : Nat) : Prop := ScalarPanics w n x y ↔ ScalarPanics v n x y

/-- Long division by a scalar panics alike and, where it returns, leaves the same remainder. -/
def ScalarDividesAlike (w N v M n x y : Nat) : Prop :=
  ScalarPanicsAlike w v n x y ∧
    (¬ ScalarPanics w n x y → scalarStray w N n x y = scalarStray v M n x y)

instance (w v n x y : Nat) : Decidable (ScalarPanicsAlike w v n x y) := by
  unfold ScalarPanicsAlike; infer_instance
instance (w N v M n x y : Nat) : Decidable (ScalarDividesAlike w N v M n x y) := by
  unfold ScalarDividesAlike; infer_instance
instance (w N v M x y : Nat) : Decidable (PanicsAlike w N v M x y) := by
  unfold PanicsAlike; infer_instance
instance (w N v M x y : Nat) : Decidable (DividesAlike w N v M x y) := by
  unfold DividesAlike; infer_instance
instance (w N v M x y : Nat) (c : Prop) [Decidable c] : Decidable (SpoilsAlike w N v M x y c) := by
  unfold SpoilsAlike; infer_instance

instance (x : Limbs w) (y : Limbs v) : Decidable (Same x y) := by unfold Same; infer_instance
instance (x : Limbs w × Bool) (y : Limbs v × Bool) : Decidable (SameFlag x y) := by
  unfold SameFlag; infer_instance

/-- `N` limbs of `w` bits and `M` limbs of `v` bits are two builds of the same type.  Every type of the
crate qualifies: its width is at least 256 bits and a multiple of 128 bits. -/
structure Builds (w N v M : Nat) : Prop where
  left : w = 32 ∨ w = 64
  right : v = 32 ∨ v = 64
  width : w * N = v * M
  large : 256 ≤ w * N
  wide : 128 ∣ w * N
  small : w * N < 2 ^ 32

/-- `x` and `y` are the same operand in two builds. -/
structure Twins (x : Limbs w) (y : Limbs v) : Prop where
  builds : Builds w x.length v y.length
  value : toNat x = toNat y

instance (w N v M : Nat) : Decidable (Builds w N v M) :=
  decidable_of_iff ((w = 32 ∨ w = 64) ∧ (v = 32 ∨ v = 64) ∧ w * N = v * M ∧ 256 ≤ w * N ∧
    128 ∣ w * N ∧ w * N < 2 ^ 32)
    ⟨fun ⟨a, b, c, d, e, f⟩ => ⟨a, b, c, d, e, f⟩, fun ⟨a, b, c, d, e, f⟩ => ⟨a, b, c, d, e, f⟩⟩

instance (x : Limbs w) (y : Limbs v) : Decidable (Twins x y) :=
  decidable_of_iff (Builds w x.length v y.length ∧ toNat x = toNat y)
    ⟨fun ⟨a, b⟩ => ⟨a, b⟩, fun ⟨a, b⟩ => ⟨a, b⟩⟩

end I256
