import Verif.Model.Mixed
import Verif.Lemmas.Loop
import Verif.Lemmas.Calc
import Verif.Props.Casts
import Verif.Props.Sign

/-!
# Lemmas about programs over the signed and the unsigned type of one width
-/

namespace I256

variable {w N : Nat} {sg oc : Bool} {α β : Type}

/-! ## Literals and conversions -/

theorem lit_value (T : IsType w N) (sg : Bool) (v : BitVec 128) :
    ((if sg then Cast.fromI128 N v else Cast.fromU128 N v) : Limbs w).length = N ∧
      value sg ((if sg then Cast.fromI128 N v else Cast.fromU128 N v) : Limbs w) =
        if sg then v.toInt else v.toNat := by
  cases sg
  · have h := fromU_spec (N := N) T.left T.four .b128 v
    exact ⟨h.1, h.2⟩
  · have h := fromI_spec (N := N) T.left T.four .b128 v
    exact ⟨h.1, h.2⟩

theorem try_max {x : Limbs w} (hw : 0 < w) (h2 : x.length % 2 = 0) (hx : x ≠ [])
    (hm : (toNat x : Int) = 2 ^ (w * x.length - 1) - 1) : Cast.tryFromUnsigned x = none := by
  have hN : 1 ≤ x.length := List.length_pos_iff.2 hx
  obtain ⟨l1, h1⟩ := maxValueS hw (show 0 < x.length by omega)
  have hpos : (0:Int) < 2 ^ (w * x.length - 1) := by positivity
  have hmax : (toNat (I.maxValue w x.length) : Int) = 2 ^ (w * x.length - 1) - 1 := by
    rcases toInt_cases (I.maxValue w x.length) with ⟨h3, h4⟩ | ⟨h3, h4⟩
    · omega
    · rw [h1] at h3; omega
  have hlt := Ord.lt_iff hw false (x := x) (y := I.maxValue w x.length) l1.symm h2 (by omega)
  simp only [Ord.val, Bool.false_eq_true, if_false, hmax] at hlt
  rw [Cast.tryFromUnsigned, if_neg (by rw [hlt]; omega)]

section move
variable {x : Limbs w} (T : IsType w N) (hx : x.length = N)
include T hx

theorem Move.run_actual (m : Move) :
    ExprGives (!m.src) N (m.actual (w * N) (value m.src x)) (m.run x) := by
  subst hx
  have h4 := T.four
  have hne : x ≠ [] := by intro e; simp [e] at h4
  cases m with
  | asSigned => exact ⟨x, rfl, rfl, toInt_eq_bmod x⟩
  | asUnsigned =>
    refine ⟨x, rfl, rfl, ?_⟩
    have h := toNat_lt x
    simp only [value, Move.src, reduce, Bool.not_true, Bool.false_eq_true, if_false, if_true]
    rw [toInt_emod_toNat]
    rfl
  | unsignedAbs =>
    have h := C36_int_unsigned_abs (x := x) T.pos (by omega) T.even
    exact ⟨_, rfl, h.1, h.2⟩
  | trySigned =>
    by_cases hm : (toNat x : Int) = 2 ^ (w * x.length - 1) - 1
    · have e := try_max T.pos T.even hne hm
      simp only [Move.run, e, Move.actual, value, Move.src, Bool.false_eq_true, if_false, if_pos hm]
      rfl
    · obtain ⟨h1, h2⟩ := C28_try_from_unsigned_partial T.pos T.even hne hm
      simp only [Move.run, Move.actual, value, Move.src, Bool.false_eq_true, if_false, if_neg hm, keep, Fits, if_true]
      by_cases hf : InS (w * x.length) (toNat x : Int)
      · obtain ⟨y, e, hy, hv⟩ := h1 hf
        rw [e, if_pos hf]
        exact ⟨y, rfl, hy, hv⟩
      · rw [h2 hf, if_neg hf]; rfl
  | tryUnsigned =>
    obtain ⟨h1, h2⟩ := C28_try_from_signed T.pos hne
    simp only [Move.run, Move.actual, Move.exact, value, Move.src, if_true, keep, Fits, Bool.false_eq_true, if_false]
    by_cases hf : InU (w * x.length) (toInt x)
    · obtain ⟨y, e, hy, hv⟩ := h1 hf
      rw [e, if_pos hf]
      exact ⟨y, rfl, hy, hv⟩
    · rw [h2 hf, if_neg hf]; rfl

theorem Move.run_exact (m : Move) (hm : m = .trySigned → value m.src x ≠ 2 ^ (w * N - 1) - 1) :
    ExprGives (!m.src) N (m.exact (w * N) (value m.src x)) (m.run x) := by
  have h := m.run_actual T hx
  have e : m.actual (w * N) (value m.src x) = m.exact (w * N) (value m.src x) := by
    cases m with
    | trySigned => exact if_neg (hm rfl)
    | _ => rfl
  rwa [e] at h

theorem Move.run_length (m : Move) {y : Limbs w} (h : m.run x = .ok y) : y.length = N := by
  have := m.run_actual T hx
  cases e : m.actual (w * N) (value m.src x) with
  | none => rw [e] at this; rw [show m.run x = .panic from this] at h; cases h
  | some z =>
    rw [e] at this
    obtain ⟨v, ev, hv, -⟩ := this
    rw [ev] at h; cases h; exact hv

end move

/-! ## Programs -/

/-- The variables of both types denote the integers. -/
def Denotes2 (N : Nat) (s : Bool → Nat → Limbs w) (env : Bool → Nat → Int) : Prop :=
  ∀ sg i, (s sg i).length = N ∧ value sg (s sg i) = env sg i

theorem MixEnds.bind {o : Outcome (Bool → Nat → Int)} {r : Outcome (Bool → Nat → Limbs w)}
    {f : (Bool → Nat → Int) → Outcome (Bool → Nat → Int)}
    {g : (Bool → Nat → Limbs w) → Outcome (Bool → Nat → Limbs w)} (h : MixEnds N o r)
    (h' : ∀ s env, o = .ends env → Denotes2 N s env → MixEnds N (f env) (g s)) :
    MixEnds N (o.bind f) (r.bind g) := by
  cases o with
  | more => rw [show r = .more from h]; rfl
  | panic => rw [show r = .panic from h]; rfl
  | ends env =>
    obtain ⟨s, rfl, hs⟩ := h
    exact h' s env rfl hs

theorem MixEnds.test {o : Option Bool} {f : Bool → Outcome (Bool → Nat → Int)}
    {g : Bool → Outcome (Bool → Nat → Limbs w)} (h : ∀ b, o = some b → MixEnds N (f b) (g b)) :
    MixEnds N ((Outcome.ofOption o).bind f) ((Outcome.ofRes (condRes o)).bind g) := by
  cases o with
  | none => rfl
  | some b => exact h b rfl

theorem MixEnds.repeat {test : (Bool → Nat → Int) → Option Bool}
    {body : (Bool → Nat → Int) → Outcome (Bool → Nat → Int)} {test' : (Bool → Nat → Limbs w) → Res Bool}
    {body' : (Bool → Nat → Limbs w) → Outcome (Bool → Nat → Limbs w)} {Q B : (Bool → Nat → Int) → Prop}
    (ht : ∀ s env, Denotes2 N s env → Q env → test' s = condRes (test env))
    (hb : ∀ s env, Denotes2 N s env → B env → MixEnds N (body env) (body' s)) (k : Nat) :
    ∀ s env, Denotes2 N s env → repeatMeets (fun e => Outcome.ofOption (test e)) body Q B k env →
      MixEnds N (repeatWhile (fun e => Outcome.ofOption (test e)) body k env)
        (repeatWhile (fun s => Outcome.ofRes (test' s)) body' k s) := by
  induction k with
  | zero =>
    intro s env hd hm
    simp only [repeatWhile]
    rw [ht s env hd hm]
    refine .test fun b _ => ?_
    cases b
    · exact ⟨s, rfl, hd⟩
    · rfl
  | succ k ih =>
    intro s env hd hm
    simp only [repeatWhile]
    rw [ht s env hd hm.1]
    refine .test fun b hb' => ?_
    cases b
    · exact ⟨s, rfl, hd⟩
    · have h := hm.2 (by change Outcome.ofOption (test env) = _; rw [hb']; rfl)
      exact (hb s env hd h.1).bind fun s' env' he hd' => ih s' env' hd' (h.2 env' he)

theorem Denotes2.set {s : Bool → Nat → Limbs w} {env : Bool → Nat → Int} (h : Denotes2 N s env) {x : Limbs w}
    (hx : x.length = N) (sg : Bool) (i : Nat) : Denotes2 N (setVar s sg i x) (setVar env sg i (value sg x)) := by
  intro t j
  by_cases ht : t = sg
  · subst ht
    by_cases hj : j = i
    · subst hj; simp [setVar, hx]
    · simpa [setVar, hj] using h t j
  · simpa [setVar, ht] using h t j

theorem MixEnds.assign {s : Bool → Nat → Limbs w} {env : Bool → Nat → Int} {o : Option Int} {r : Res (Limbs w)}
    (hd : Denotes2 N s env) (h : ExprGives sg N o r) (i : Nat) :
    MixEnds N ((Outcome.ofOption o).bind fun z => .ends (setVar env sg i z))
      ((Outcome.ofRes r).bind fun x => .ends (setVar s sg i x)) := by
  cases o with
  | none => rw [show r = .panic from h]; rfl
  | some z =>
    obtain ⟨x, rfl, hx, rfl⟩ := h
    exact ⟨_, rfl, hd.set hx sg i⟩

theorem Mix.run_sem {P : (sg : Bool) → (Nat → Int) → Expr sg → Prop} {Q : Int → Move → Prop}
    {ev : (sg : Bool) → (Nat → Int) → Expr sg → Option Int} {mv : Int → Move → Option Int} (T : IsType w N)
    (H : ∀ sg (s : Nat → Limbs w) env, Denotes sg N s env → ∀ e, P sg env e →
      ExprGives sg N (ev sg env e) (e.eval oc s))
    (M : ∀ m (x : Limbs w), x.length = N → Q (value m.src x) m →
      ExprGives (!m.src) N (mv (value m.src x) m) (m.run x))
    (k : Nat) (c : Mix) : ∀ (s : Bool → Nat → Limbs w) env, Denotes2 N s env → c.Meets P Q ev mv k env →
      MixEnds N (c.sem ev mv k env) (c.run oc N k s) := by
  induction c with
  | skip => intro s env hd _; exact ⟨s, rfl, hd⟩
  | lit sg i v =>
    intro s env hd _
    obtain ⟨h1, h2⟩ := lit_value (w := w) T sg v
    refine ⟨_, rfl, ?_⟩
    rw [← h2]
    exact hd.set h1 sg i
  | set i e =>
    intro s env hd hm
    exact .assign hd (H _ _ _ (hd _) e hm) i
  | move m i j =>
    intro s env hd hm
    rw [Mix.sem, Mix.run]
    rw [Mix.Meets, ← (hd m.src j).2] at hm
    rw [← (hd m.src j).2]
    exact .assign hd (M m _ (hd m.src j).1 hm) i
  | seq c d ihc ihd =>
    intro s env hd hm
    exact (ihc s env hd hm.1).bind fun s' env' he hd' => ihd s' env' hd' (hm.2 env' he)
  | ite b c d ihc ihd =>
    intro s env hd hm
    rw [Mix.sem, Mix.run, b.eval_sem T (H _ _ _ (hd _)) hm.1]
    refine .test fun t ht => ?_
    cases t
    · exact ihd s env hd (hm.2.2 ht)
    · exact ihc s env hd (hm.2.1 ht)
  | loop b c ih =>
    intro s env hd hm
    exact MixEnds.repeat (fun s env hd hq => b.eval_sem T (H _ _ _ (hd _)) hq) ih k s env hd hm

theorem Mix.meets_all {P : (sg : Bool) → (Nat → Int) → Expr sg → Prop} {Q : Int → Move → Prop}
    {ev : (sg : Bool) → (Nat → Int) → Expr sg → Option Int} {mv : Int → Move → Option Int}
    (h : ∀ sg env e, P sg env e) (h' : ∀ z m, Q z m) (k : Nat) (c : Mix) : ∀ env, c.Meets P Q ev mv k env := by
  induction c with
  | skip | lit => exact fun _ => trivial
  | set i e => exact fun env => h _ _ e
  | move m i j => exact fun env => h' _ m
  | seq c d ihc ihd => exact fun env => ⟨ihc env, fun env' _ => ihd env'⟩
  | ite b c d ihc ihd => exact fun env => ⟨b.meets_all (h _ _), fun _ => ihc env, fun _ => ihd env⟩
  | loop b c ih => exact repeatMeets_all (fun env => b.meets_all (h _ _)) ih k

theorem Mix.Plain.tame {c : Mix} (h : c.Plain) (k : Nat) : ∀ env, c.Tame w N k env := by
  induction c with
  | skip | lit => exact fun _ => trivial
  | set i e => exact fun env => Expr.Plain.tame h _
  | move m i j => exact fun env e => absurd e h
  | seq c d ihc ihd => exact fun env => ⟨ihc h.1 env, fun env' _ => ihd h.2 env'⟩
  | ite b c d ihc ihd => exact fun env => ⟨h.1.meets, fun _ => ihc h.2.1 env, fun _ => ihd h.2.2 env⟩
  | loop b c ih => exact repeatMeets_all (fun env => h.1.meets) (ih h.2) k

/-! ## The two builds -/

theorem setVar_length {s : Bool → Nat → Limbs w} (hs : ∀ sg i, (s sg i).length = N) {x : Limbs w}
    (hx : x.length = N) (sg : Bool) (i : Nat) : ∀ t j, (setVar s sg i x t j).length = N := by
  intro t j
  by_cases ht : t = sg
  · subst ht
    by_cases hj : j = i
    · subst hj; simp [setVar, hx]
    · simpa [setVar, hj] using hs t j
  · simpa [setVar, ht] using hs t j

theorem Mix.run_stable (T : IsType w N) (k : Nat) (c : Mix) : ∀ s : Bool → Nat → Limbs w,
    (∀ sg i, (s sg i).length = N) →
    (∀ s', c.run true N k s = .ends s' → c.run false N k s = .ends s' ∧ ∀ sg i, (s' sg i).length = N) ∧
      (c.run true N k s = .more → c.run false N k s = .more) := by
  induction c with
  | skip => exact fun s hs => ⟨fun s' h => by cases h; exact ⟨rfl, hs⟩, fun h => (nomatch h)⟩
  | lit sg i v =>
    exact fun s hs => ⟨fun s' h => by cases h; exact ⟨rfl, setVar_length hs (lit_value T sg v).1 sg i⟩,
      fun h => (nomatch h)⟩
  | set i e =>
    intro s hs
    simp only [Mix.run]
    cases ex : e.eval true (s _) with
    | panic => exact ⟨fun s' h => (nomatch h), fun h => (nomatch h)⟩
    | ok x =>
      obtain ⟨ex', hx⟩ := e.eval_stable T (hs _) x ex
      rw [ex']
      exact ⟨fun s' h => by cases h; exact ⟨rfl, setVar_length hs hx _ i⟩, fun h => (nomatch h)⟩
  | move m i j =>
    intro s hs
    simp only [Mix.run]
    cases ex : m.run (s m.src j) with
    | panic => exact ⟨fun s' h => (nomatch h), fun h => (nomatch h)⟩
    | ok x =>
      have hx := m.run_length T (hs _ j) ex
      exact ⟨fun s' h => by cases h; exact ⟨rfl, setVar_length hs hx _ i⟩, fun h => (nomatch h)⟩
  | seq c d ihc ihd =>
    intro s hs
    obtain ⟨h1, h2⟩ := ihc s hs
    simp only [Mix.run]
    cases e : c.run true N k s with
    | panic => exact ⟨fun s' h => (nomatch h), fun h => (nomatch h)⟩
    | more => rw [h2 e]; exact ⟨fun s' h => (nomatch h), fun _ => rfl⟩
    | ends t =>
      obtain ⟨e', ht⟩ := h1 t e
      rw [e']
      exact ihd t ht
  | ite b c d ihc ihd =>
    intro s hs
    simp only [Mix.run]
    cases e : b.eval true (s _) with
    | panic => exact ⟨fun s' h => (nomatch h), fun h => (nomatch h)⟩
    | ok t =>
      rw [b.eval_stable T (hs _) e]
      cases t
      · exact ihd s hs
      · exact ihc s hs
  | loop b c ih =>
    exact repeatWhile_stable (I := fun s : Bool → Nat → Limbs w => ∀ sg i, (s sg i).length = N)
      (fun s t hs => b.eval_stable T (hs _)) ih k

end I256
