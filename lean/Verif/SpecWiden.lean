import Verif.SpecSame

/-!
# Specification vocabulary for types of different widths

The definitions in this file relate the result of an operation in one type of the crate to the result
of the same operation on the same numbers in a type with at least as many bits.  The narrow result comes
first.  Nothing here refers to the model of the code.
-/

namespace I256

variable {w v : Nat} {α β : Type}

/-- The same number, read as unsigned. -/
def EqU (a : Limbs w) (b : Limbs v) : Prop := toNat a = toNat b
/-- The same number, read as signed. -/
def EqS (a : Limbs w) (b : Limbs v) : Prop := toInt a = toInt b

/-- Two pairs of the same numbers, unsigned. -/
def EqPairU (a : Limbs w × Limbs w) (b : Limbs v × Limbs v) : Prop := EqU a.1 b.1 ∧ EqU a.2 b.2
/-- Two pairs of the same numbers, signed. -/
def EqPairS (a : Limbs w × Limbs w) (b : Limbs v × Limbs v) : Prop := EqS a.1 b.1 ∧ EqS a.2 b.2

/-- `a` consists of the lowest bits of `b`. -/
def Cuts (a : Limbs w) (b : Limbs v) : Prop := toNat a = toNat b % 2 ^ bits a

/-- `b` is representable with `n` bits, unsigned. -/
def FitsU (n : Nat) (b : Limbs v) : Prop := InU n (toNat b)
/-- `b` is representable with `n` bits, signed. -/
def FitsS (n : Nat) (b : Limbs v) : Prop := InS n (toInt b)

/-- `a` is the unsigned number of its width nearest to `b`. -/
def CapsU (a : Limbs w) (b : Limbs v) : Prop := toNat a = min (toNat b) (2 ^ bits a - 1)
/-- `a` is the signed number of its width nearest to `b`. -/
def CapsS (a : Limbs w) (b : Limbs v) : Prop :=
  toInt a = max (-2 ^ (bits a - 1)) (min (toInt b) (2 ^ (bits a - 1) - 1))

/-- Value and overflow flag: the narrow value consists of the lowest bits of the wide one, and the narrow
operation overflows iff the wide one does or its result does not fit (`F`). -/
def NarrowFlag (F : Limbs v → Prop) (a : Limbs w × Bool) (b : Limbs v × Bool) : Prop :=
  Cuts a.1 b.1 ∧ (a.2 = true ↔ b.2 = true ∨ ¬ F b.1)

/-- The narrow operation returns `Some` iff the wide one does and its result fits (`F`), and then the
results are related by `R`. -/
def NarrowOpt (R : α → β → Prop) (F : β → Prop) : Option α → Option β → Prop
  | some a, some b => R a b
  | none, some b => ¬ F b
  | none, none => True
  | some _, none => False

/-- The same for operations that panic. -/
def NarrowRes (R : α → β → Prop) (F : β → Prop) : Res α → Res β → Prop
  | .ok a, .ok b => R a b
  | .panic, .ok b => ¬ F b
  | .panic, .panic => True
  | .ok _, .panic => False

/-- Operators: as `NarrowRes` with overflow checks; without, both return and the narrow value consists
of the lowest bits of the wide one. -/
def NarrowOp (oc : Bool) (R : Limbs w → Limbs v → Prop) (F : Limbs v → Prop) (r : Res (Limbs w))
    (s : Res (Limbs v)) : Prop :=
  if oc then NarrowRes R F r s else SameRes Cuts r s

/-- Parsing: what the narrow type accepts, the wide one accepts with the same value; a text that only
the wide type accepts does not fit (`F`) and gives `over`; if both reject it, the errors agree or the
narrow one is `over`. -/
def NarrowParsed (R : Limbs w → Limbs v → Prop) (F : Limbs v → Prop) (over : ErrKind) :
    Parsed (Limbs w) → Parsed (Limbs v) → Prop
  | .ok a, .ok b => R a b
  | .err e, .ok b => e = over ∧ ¬ F b
  | .err e, .err e' => e = e' ∨ e = over
  | .ok _, .err _ => False

/-- `N` limbs of `w` bits form a type of the crate. -/
def IsType (w N : Nat) : Prop := Builds w N w N

/-- Two types of the crate, the second with at least as many bits. -/
structure Wider (w N v M : Nat) : Prop where
  narrow : IsType w N
  wide : IsType v M
  le : w * N ≤ v * M

/-- The same unsigned number in two types. -/
structure WidenU (x : Limbs w) (y : Limbs v) : Prop where
  types : Wider w x.length v y.length
  value : toNat x = toNat y

/-- The same signed number in two types. -/
structure WidenS (x : Limbs w) (y : Limbs v) : Prop where
  types : Wider w x.length v y.length
  value : toInt x = toInt y

instance (w N : Nat) : Decidable (IsType w N) := by unfold IsType; infer_instance
instance (w N v M : Nat) : Decidable (Wider w N v M) :=
  decidable_of_iff (IsType w N ∧ IsType v M ∧ w * N ≤ v * M)
    ⟨fun ⟨a, b, c⟩ => ⟨a, b, c⟩, fun ⟨a, b, c⟩ => ⟨a, b, c⟩⟩
instance (x : Limbs w) (y : Limbs v) : Decidable (WidenU x y) :=
  decidable_of_iff (Wider w x.length v y.length ∧ toNat x = toNat y)
    ⟨fun ⟨a, b⟩ => ⟨a, b⟩, fun ⟨a, b⟩ => ⟨a, b⟩⟩
instance (x : Limbs w) (y : Limbs v) : Decidable (WidenS x y) :=
  decidable_of_iff (Wider w x.length v y.length ∧ toInt x = toInt y)
    ⟨fun ⟨a, b⟩ => ⟨a, b⟩, fun ⟨a, b⟩ => ⟨a, b⟩⟩
instance (a : Limbs w) (b : Limbs v) : Decidable (EqU a b) := by unfold EqU; infer_instance
instance (a : Limbs w) (b : Limbs v) : Decidable (EqS a b) := by unfold EqS; infer_instance
instance (a : Limbs w) (b : Limbs v) : Decidable (Cuts a b) := by unfold Cuts; infer_instance
instance (n : Nat) (b : Limbs v) : Decidable (FitsU n b) := by unfold FitsU; infer_instance
instance (n : Nat) (b : Limbs v) : Decidable (FitsS n b) := by unfold FitsS; infer_instance

instance (F : Limbs v → Prop) [DecidablePred F] (a : Limbs w × Bool) (b : Limbs v × Bool) :
    Decidable (NarrowFlag F a b) := by unfold NarrowFlag; infer_instance
instance {α β : Type} (R : α → β → Prop) [∀ a b, Decidable (R a b)] (F : β → Prop) [DecidablePred F] :
    (a : Option α) → (b : Option β) → Decidable (NarrowOpt R F a b)
  | some a, some b => inferInstanceAs (Decidable (R a b))
  | none, some b => inferInstanceAs (Decidable (¬ F b))
  | none, none => inferInstanceAs (Decidable True)
  | some _, none => inferInstanceAs (Decidable False)
instance {α β : Type} (R : α → β → Prop) [∀ a b, Decidable (R a b)] (F : β → Prop) [DecidablePred F] :
    (a : Res α) → (b : Res β) → Decidable (NarrowRes R F a b)
  | .ok a, .ok b => inferInstanceAs (Decidable (R a b))
  | .panic, .ok b => inferInstanceAs (Decidable (¬ F b))
  | .panic, .panic => inferInstanceAs (Decidable True)
  | .ok _, .panic => inferInstanceAs (Decidable False)
instance (n : Nat) : DecidablePred (FitsU (v := v) n) := fun b => by unfold FitsU; infer_instance
instance (n : Nat) : DecidablePred (FitsS (v := v) n) := fun b => by unfold FitsS; infer_instance

end I256
