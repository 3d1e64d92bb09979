import Verif.Model.Common

/-!
# How the forms of one operation are related

The crate offers an operation as `wrapping_*`, `overflowing_*`, `checked_*`, `strict_*`,
`saturating_*` and as an operator.  Everything can be read off from the overflowing form: a value
and a flag.
-/

namespace I256

/-- The wrapping form is the value of the overflowing form; the checked form is `None` iff the flag
is set; the strict form panics iff the flag is set; the operator is the strict form in a build with
overflow checks and the wrapping form otherwise. A panic of one is a panic of all. -/
def Agree {α : Type} (wrapping : Res α) (over : Res (α × Bool)) (checked : Res (Option α))
    (strict : Res α) (op : Bool → Res α) : Prop :=
  match over with
  | .panic => wrapping = .panic ∧ checked = .panic ∧ strict = .panic ∧ ∀ oc, op oc = .panic
  | .ok (v, false) => wrapping = .ok v ∧ checked = .ok (some v) ∧ strict = .ok v ∧ ∀ oc, op oc = .ok v
  | .ok (v, true) => wrapping = .ok v ∧ checked = .ok none ∧ strict = .panic ∧ op true = .panic ∧
      op false = .ok v

/-- For a zero divisor: the checked form is `None`, the strict form and the operator in a build with
overflow checks panic; the overflowing form and the other operator do what the wrapping form does,
and no flag is set. -/
def AgreeZero {α : Type} (wrapping : Res α) (over : Res (α × Bool)) (checked : Res (Option α))
    (strict : Res α) (op : Bool → Res α) : Prop :=
  checked = .ok none ∧ strict = .panic ∧ op true = .panic ∧ op false = wrapping ∧
    match wrapping with
    | .panic => over = .panic
    | .ok v => over = .ok (v, false)

/-- The same within one build, for operations without a strict form: `oc` says whether the build has
overflow checks. -/
def AgreeIn {α : Type} (oc : Bool) (wrapping : Res α) (over : Res (α × Bool)) (checked : Res (Option α))
    (op : Res α) : Prop :=
  match over with
  | .panic => wrapping = .panic ∧ checked = .panic ∧ op = .panic
  | .ok (v, false) => wrapping = .ok v ∧ checked = .ok (some v) ∧ op = .ok v
  | .ok (v, true) => wrapping = .ok v ∧ checked = .ok none ∧ op = if oc then .panic else .ok v

/-- For a zero divisor, within one build. -/
def AgreeZeroIn {α : Type} (oc : Bool) (wrapping : Res α) (over : Res (α × Bool))
    (checked : Res (Option α)) (op : Res α) : Prop :=
  checked = .ok none ∧ (op = if oc then .panic else wrapping) ∧
    match wrapping with
    | .panic => over = .panic
    | .ok v => over = .ok (v, false)

/-- The four forms of one operation return what the four forms of another return, converted by `f`. -/
def SameForms {α β : Type} (f : β → α) (wrapping : Res α) (over : Res (α × Bool))
    (checked : Res (Option α)) (op : Res α) (wrapping' : Res β) (over' : Res (β × Bool))
    (checked' : Res (Option β)) (op' : Res β) : Prop :=
  wrapping = wrapping'.map f ∧ over = over'.map (fun p => (f p.1, p.2)) ∧
    checked = checked'.map (fun o => o.map f) ∧ op = op'.map f

/-- The saturating form is the value of the overflowing form, or the bound if the flag is set. -/
def Clamps {α : Type} (over : α × Bool) (sat bound : α) : Prop :=
  (over.2 = false → sat = over.1) ∧ (over.2 = true → sat = bound)

end I256
