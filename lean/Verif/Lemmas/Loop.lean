import Verif.Model.Loop
import Verif.Lemmas.Prog
import Verif.Props.Ord

/-!
# Lemmas about programs with branches and loops
-/

namespace I256

variable {w N : Nat} {sg oc : Bool} {α β : Type}

/-- The result of a condition. -/
def condRes : Option Bool → Res Bool
  | none => .panic
  | some b => .ok b

theorem ofRes_condRes (o : Option Bool) : Outcome.ofRes (condRes o) = Outcome.ofOption o := by
  cases o <;> rfl

theorem ExprGives.compare {oa ob : Option Int} {ra rb : Res (Limbs w)} {f : Int → Int → Bool}
    {g : Limbs w → Limbs w → Bool} (ha : ExprGives sg N oa ra) (hb : ExprGives sg N ob rb)
    (h : ∀ x y : Limbs w, x.length = N → y.length = N → g x y = f (value sg x) (value sg y)) :
    (ra.bind fun x => rb.bind fun y => .ok (g x y)) =
      condRes (oa.bind fun x => ob.bind fun y => some (f x y)) := by
  cases oa with
  | none => rw [show ra = .panic from ha]; rfl
  | some z =>
    obtain ⟨x, rfl, hx, rfl⟩ := ha
    cases ob with
    | none => rw [show rb = .panic from hb]; rfl
    | some z' =>
      obtain ⟨y, rfl, hy, rfl⟩ := hb
      simp [condRes, h x y hx hy]

section compare
variable {x y : Limbs w} (T : IsType w N) (hx : x.length = N) (hy : y.length = N)
include hx hy

theorem value_eq_iff : value sg x = value sg y ↔ x = y := by
  subst hx
  cases sg
  · simpa [value] using ⟨fun h => toNat_inj hy.symm h, fun h => by rw [h]⟩
  · simpa [value] using ⟨fun h => toInt_inj hy.symm h, fun h => by rw [h]⟩

include T

theorem order_value : Ord.lt sg x y = decide (value sg x < value sg y) ∧
    Ord.le sg x y = decide (value sg x ≤ value sg y) ∧
    Ord.gt sg x y = decide (value sg x > value sg y) ∧
    Ord.ge sg x y = decide (value sg x ≥ value sg y) := by
  subst hx
  have key : ∀ {b : Bool} {p : Prop} [Decidable p], (b = true ↔ p) → b = decide p := by
    intro b p _ h; rw [Bool.eq_iff_iff, h, decide_eq_true_eq]
  cases sg
  · obtain ⟨h1, h2, h3, h4, -⟩ := C26_uint_order T.pos hy.symm T.even T.four
    simp only [value, Bool.false_eq_true, if_false]
    exact ⟨key (h1.trans (by omega)), key (h2.trans (by omega)), key (h3.trans (by omega)), key (h4.trans (by omega))⟩
  · obtain ⟨h1, h2, h3, h4, -⟩ := C26_int_order T.pos hy.symm T.even T.four
    simp only [value, if_true]
    exact ⟨key h1, key h2, key h3, key h4⟩

end compare

theorem Cond.eval_sem {P : Expr sg → Prop} {ev : Expr sg → Option Int} {s : Nat → Limbs w} (T : IsType w N)
    (H : ∀ e, P e → ExprGives sg N (ev e) (e.eval oc s)) (c : Cond sg) (hm : c.Meets P ev) :
    c.eval oc s = condRes (c.sem ev) := by
  induction c with
  | eq a b =>
    exact (H a hm.1).compare (H b hm.2) fun x y hx hy => by
      rw [Bool.eq_iff_iff, decide_eq_true_eq, value_eq_iff hx hy, beq_iff_eq]
  | ne a b =>
    exact (H a hm.1).compare (H b hm.2) fun x y hx hy => by
      rw [Bool.eq_iff_iff, decide_eq_true_eq, ne_eq, value_eq_iff hx hy, bne_iff_ne]
  | lt a b => exact (H a hm.1).compare (H b hm.2) fun x y hx hy => (order_value T hx hy).1
  | le a b => exact (H a hm.1).compare (H b hm.2) fun x y hx hy => (order_value T hx hy).2.1
  | gt a b => exact (H a hm.1).compare (H b hm.2) fun x y hx hy => (order_value T hx hy).2.2.1
  | ge a b => exact (H a hm.1).compare (H b hm.2) fun x y hx hy => (order_value T hx hy).2.2.2
  | not c ih =>
    rw [Cond.eval, ih hm, Cond.sem]
    cases c.sem ev <;> rfl
  | and c d ihc ihd =>
    rw [Cond.eval, ihc hm.1, Cond.sem]
    cases h : c.sem ev with
    | none => rfl
    | some t =>
      cases t
      · rfl
      · exact ihd (hm.2 h)
  | or c d ihc ihd =>
    rw [Cond.eval, ihc hm.1, Cond.sem]
    cases h : c.sem ev with
    | none => rfl
    | some t =>
      cases t
      · exact ihd (hm.2 h)
      · rfl

/-- The variables denote the integers. -/
def Denotes (sg : Bool) (N : Nat) (s : Nat → Limbs w) (env : Nat → Int) : Prop :=
  ∀ i, (s i).length = N ∧ value sg (s i) = env i

theorem CmdEnds.bind {o : Outcome (Nat → Int)} {r : Outcome (Nat → Limbs w)} {f : (Nat → Int) → Outcome (Nat → Int)}
    {g : (Nat → Limbs w) → Outcome (Nat → Limbs w)} (h : CmdEnds sg N o r)
    (h' : ∀ s env, o = .ends env → Denotes sg N s env → CmdEnds sg N (f env) (g s)) :
    CmdEnds sg N (o.bind f) (r.bind g) := by
  cases o with
  | more => rw [show r = .more from h]; rfl
  | panic => rw [show r = .panic from h]; rfl
  | ends env =>
    obtain ⟨s, rfl, hs⟩ := h
    exact h' s env rfl hs

theorem CmdEnds.test {o : Option Bool} {f : Bool → Outcome (Nat → Int)} {g : Bool → Outcome (Nat → Limbs w)}
    (h : ∀ b, o = some b → CmdEnds sg N (f b) (g b)) :
    CmdEnds sg N ((Outcome.ofOption o).bind f) ((Outcome.ofRes (condRes o)).bind g) := by
  cases o with
  | none => rfl
  | some b => exact h b rfl

theorem CmdEnds.repeat {test : (Nat → Int) → Option Bool} {body : (Nat → Int) → Outcome (Nat → Int)}
    {test' : (Nat → Limbs w) → Res Bool} {body' : (Nat → Limbs w) → Outcome (Nat → Limbs w)}
    {Q B : (Nat → Int) → Prop}
    (ht : ∀ s env, Denotes sg N s env → Q env → test' s = condRes (test env))
    (hb : ∀ s env, Denotes sg N s env → B env → CmdEnds sg N (body env) (body' s)) (k : Nat) :
    ∀ s env, Denotes sg N s env → repeatMeets (fun e => Outcome.ofOption (test e)) body Q B k env →
      CmdEnds sg N (repeatWhile (fun e => Outcome.ofOption (test e)) body k env)
        (repeatWhile (fun s => Outcome.ofRes (test' s)) body' k s) := by
  induction k with
  | zero =>
    intro s env hd hm
    simp only [repeatWhile]
    rw [ht s env hd hm]
    refine .test fun b _ => ?_
    cases b
    · exact ⟨s, rfl, hd⟩
    · rfl
  | succ k ih =>
    intro s env hd hm
    simp only [repeatWhile]
    rw [ht s env hd hm.1]
    refine .test fun b hb' => ?_
    cases b
    · exact ⟨s, rfl, hd⟩
    · have h := hm.2 (by change Outcome.ofOption (test env) = _; rw [hb']; rfl)
      exact (hb s env hd h.1).bind fun s' env' he hd' => ih s' env' hd' (h.2 env' he)

theorem Denotes.update {s : Nat → Limbs w} {env : Nat → Int} (h : Denotes sg N s env) {x : Limbs w}
    (hx : x.length = N) (i : Nat) : Denotes sg N (Function.update s i x) (Function.update env i (value sg x)) := by
  intro j
  by_cases hj : j = i
  · subst hj; simp [hx]
  · simpa [hj] using h j

theorem Cmd.run_sem {P : (Nat → Int) → Expr sg → Prop} {ev : (Nat → Int) → Expr sg → Option Int} (T : IsType w N)
    (H : ∀ (s : Nat → Limbs w) env, Denotes sg N s env → ∀ e, P env e → ExprGives sg N (ev env e) (e.eval oc s))
    (k : Nat) (c : Cmd sg) : ∀ (s : Nat → Limbs w) env, Denotes sg N s env → c.Meets P ev k env →
      CmdEnds sg N (c.sem ev k env) (c.run oc k s) := by
  induction c with
  | skip => intro s env hd _; exact ⟨s, rfl, hd⟩
  | set i e =>
    intro s env hd hm
    have h := H s env hd e hm
    rw [Cmd.sem, Cmd.run]
    generalize ev env e = o at h
    cases o with
    | none => rw [show e.eval oc s = .panic from h]; rfl
    | some z =>
      obtain ⟨x, ex, hx, rfl⟩ := h
      rw [ex]
      exact ⟨_, rfl, hd.update hx i⟩
  | seq c d ihc ihd =>
    intro s env hd hm
    exact (ihc s env hd hm.1).bind fun s' env' he hd' => ihd s' env' hd' (hm.2 env' he)
  | ite b c d ihc ihd =>
    intro s env hd hm
    rw [Cmd.sem, Cmd.run, b.eval_sem T (H s env hd) hm.1]
    refine .test fun t ht => ?_
    cases t
    · exact ihd s env hd (hm.2.2 ht)
    · exact ihc s env hd (hm.2.1 ht)
  | loop b c ih =>
    intro s env hd hm
    exact CmdEnds.repeat (fun s env hd hq => b.eval_sem T (H s env hd) hq) ih k s env hd hm

/-! ## Sufficient conditions for `Meets` -/

theorem Cond.meets_of {P Q : Expr sg → Prop} {ev : Expr sg → Option Int} (h : ∀ e, Q e → P e) (c : Cond sg)
    (hq : c.Meets Q ev) : c.Meets P ev := by
  induction c with
  | eq a b | ne a b | lt a b | le a b | gt a b | ge a b => exact ⟨h a hq.1, h b hq.2⟩
  | not c ih => exact ih hq
  | and c d ihc ihd | or c d ihc ihd => exact ⟨ihc hq.1, fun e => ihd (hq.2 e)⟩

theorem Cond.meets_all {P : Expr sg → Prop} {ev : Expr sg → Option Int} (h : ∀ e, P e) (c : Cond sg) :
    c.Meets P ev := by
  induction c with
  | eq a b | ne a b | lt a b | le a b | gt a b | ge a b => exact ⟨h a, h b⟩
  | not c ih => exact ih
  | and c d ihc ihd | or c d ihc ihd => exact ⟨ihc, fun _ => ihd⟩

theorem repeatMeets_all {test : α → Outcome Bool} {body : α → Outcome α} {Q B : α → Prop} (hQ : ∀ s, Q s)
    (hB : ∀ s, B s) (k : Nat) : ∀ s, repeatMeets test body Q B k s := by
  induction k with
  | zero => exact fun s => hQ s
  | succ k ih => exact fun s => ⟨hQ s, fun _ => ⟨hB s, fun s' _ => ih s'⟩⟩

theorem Cmd.meets_all {P : (Nat → Int) → Expr sg → Prop} {ev : (Nat → Int) → Expr sg → Option Int}
    (h : ∀ env e, P env e) (k : Nat) (c : Cmd sg) : ∀ env, c.Meets P ev k env := by
  induction c with
  | skip => exact fun _ => trivial
  | set i e => exact fun env => h env e
  | seq c d ihc ihd => exact fun env => ⟨ihc env, fun env' _ => ihd env'⟩
  | ite b c d ihc ihd => exact fun env => ⟨b.meets_all (h env), fun _ => ihc env, fun _ => ihd env⟩
  | loop b c ih => exact repeatMeets_all (fun env => b.meets_all (h env)) ih k

theorem Expr.Plain.tame {e : Expr sg} (h : e.Plain) (env : Nat → Int) : e.Tame w N env := by
  have both : ∀ {f : Int → Int → Prop} (oa ob : Option Int), (∀ x y, f x y) → Both f oa ob := by
    intro f oa ob hf
    cases oa <;> cases ob <;> first | trivial | exact hf _ _
  induction e with
  | var i => trivial
  | add a b iha ihb | sub a b iha ihb | and a b iha ihb | or a b iha ihb | xor a b iha ihb =>
    exact ⟨iha h.1, ihb h.2⟩
  | not a ih => exact ih h
  | neg _ a ih => exact ih h
  | shl a _ ih | shr a _ ih => exact ih h
  | mul a b iha ihb =>
    exact ⟨iha h.2.1, ihb h.2.2, both _ _ fun x y e => by rw [h.1] at e; cases e⟩
  | pow a e ih => exact ⟨ih h.2, both _ _ fun x y e => by rw [h.1] at e; cases e⟩
  | div a b | rem a b => exact h.elim

theorem Cond.Plain.meets {c : Cond sg} (h : c.Plain) {env : Nat → Int} {ev : Expr sg → Option Int} :
    c.Meets (fun e => e.Tame w N env) ev := by
  induction c with
  | eq a b | ne a b | lt a b | le a b | gt a b | ge a b => exact ⟨h.1.tame env, h.2.tame env⟩
  | not c ih => exact ih h
  | and c d ihc ihd | or c d ihc ihd => exact ⟨ihc h.1, fun _ => ihd h.2⟩

theorem Cmd.Plain.tame {c : Cmd sg} (h : c.Plain) (k : Nat) : ∀ env, c.Tame w N k env := by
  induction c with
  | skip => exact fun _ => trivial
  | set i e => exact fun env => Expr.Plain.tame h env
  | seq c d ihc ihd => exact fun env => ⟨ihc h.1 env, fun env' _ => ihd h.2 env'⟩
  | ite b c d ihc ihd => exact fun env => ⟨h.1.meets, fun _ => ihc h.2.1 env, fun _ => ihd h.2.2 env⟩
  | loop b c ih => exact repeatMeets_all (fun env => h.1.meets) (ih h.2) k

/-! ## The two builds -/

theorem Cond.eval_stable {s : Nat → Limbs w} (T : IsType w N) (hs : ∀ i, (s i).length = N) (c : Cond sg) {b : Bool}
    (h : c.eval true s = .ok b) : c.eval false s = .ok b := by
  have two : ∀ {a b : Expr sg} {g : Limbs w → Limbs w → Bool} {t : Bool},
      ((a.eval true s).bind fun x => (b.eval true s).bind fun y => Res.ok (g x y)) = .ok t →
      ((a.eval false s).bind fun x => (b.eval false s).bind fun y => Res.ok (g x y)) = .ok t := by
    intro a b g t e
    cases ea : a.eval true s with
    | panic => rw [ea] at e; simp at e
    | ok x =>
      cases eb : b.eval true s with
      | panic => rw [ea, eb] at e; simp at e
      | ok y =>
        rw [ea, eb] at e
        rw [(a.eval_stable T hs x ea).1, (b.eval_stable T hs y eb).1]
        exact e
  induction c generalizing b with
  | eq a b | ne a b | lt a b | le a b | gt a b | ge a b => exact two h
  | not c ih =>
    rw [Cond.eval] at h ⊢
    cases e : c.eval true s with
    | panic => rw [e] at h; simp at h
    | ok t => rw [e] at h; rw [ih e]; exact h
  | and c d ihc ihd =>
    rw [Cond.eval] at h ⊢
    cases e : c.eval true s with
    | panic => rw [e] at h; simp at h
    | ok t =>
      rw [e] at h; rw [ihc e]
      cases t
      · exact h
      · exact ihd h
  | or c d ihc ihd =>
    rw [Cond.eval] at h ⊢
    cases e : c.eval true s with
    | panic => rw [e] at h; simp at h
    | ok t =>
      rw [e] at h; rw [ihc e]
      cases t
      · exact ihd h
      · exact h

theorem repeatWhile_stable {test test' : α → Res Bool} {body body' : α → Outcome α} {I : α → Prop}
    (ht : ∀ s b, I s → test s = .ok b → test' s = .ok b)
    (hb : ∀ s, I s → (∀ s', body s = .ends s' → body' s = .ends s' ∧ I s') ∧ (body s = .more → body' s = .more)) (k : Nat) :
    ∀ s, I s → (∀ s', repeatWhile (fun s => .ofRes (test s)) body k s = .ends s' →
        repeatWhile (fun s => .ofRes (test' s)) body' k s = .ends s' ∧ I s') ∧
      (repeatWhile (fun s => .ofRes (test s)) body k s = .more →
        repeatWhile (fun s => .ofRes (test' s)) body' k s = .more) := by
  induction k with
  | zero =>
    intro s hs
    simp only [repeatWhile]
    cases e : test s with
    | panic => exact ⟨fun s' h => (nomatch h), fun h => (nomatch h)⟩
    | ok b =>
      rw [ht s b hs e]
      cases b
      · exact ⟨fun s' h => by cases h; exact ⟨rfl, hs⟩, fun h => (nomatch h)⟩
      · exact ⟨fun s' h => (nomatch h), fun _ => rfl⟩
  | succ k ih =>
    intro s hs
    simp only [repeatWhile]
    cases e : test s with
    | panic => exact ⟨fun s' h => (nomatch h), fun h => (nomatch h)⟩
    | ok b =>
      rw [ht s b hs e]
      cases b
      · exact ⟨fun s' h => by cases h; exact ⟨rfl, hs⟩, fun h => (nomatch h)⟩
      · obtain ⟨h1, h2⟩ := hb s hs
        simp only [Outcome.ofRes, Outcome.bind, if_true]
        cases eb : body s with
        | panic => exact ⟨fun s' h => (nomatch h), fun h => (nomatch h)⟩
        | more => rw [h2 eb]; exact ⟨fun s' h => (nomatch h), fun _ => rfl⟩
        | ends t =>
          obtain ⟨e', ht'⟩ := h1 t eb
          rw [e']
          exact ih t ht'

theorem Cmd.run_stable (T : IsType w N) (k : Nat) (c : Cmd sg) : ∀ s : Nat → Limbs w, (∀ i, (s i).length = N) →
    (∀ s', c.run true k s = .ends s' → c.run false k s = .ends s' ∧ ∀ i, (s' i).length = N) ∧
      (c.run true k s = .more → c.run false k s = .more) := by
  induction c with
  | skip => exact fun s hs => ⟨fun s' h => by cases h; exact ⟨rfl, hs⟩, fun h => (nomatch h)⟩
  | set i e =>
    intro s hs
    simp only [Cmd.run]
    cases ex : e.eval true s with
    | panic => exact ⟨fun s' h => (nomatch h), fun h => (nomatch h)⟩
    | ok x =>
      obtain ⟨ex', hx⟩ := e.eval_stable T hs x ex
      rw [ex']
      exact ⟨fun s' h => by cases h; exact ⟨rfl, update_length hs hx i⟩, fun h => (nomatch h)⟩
  | seq c d ihc ihd =>
    intro s hs
    obtain ⟨h1, h2⟩ := ihc s hs
    simp only [Cmd.run]
    cases e : c.run true k s with
    | panic => exact ⟨fun s' h => (nomatch h), fun h => (nomatch h)⟩
    | more => rw [h2 e]; exact ⟨fun s' h => (nomatch h), fun _ => rfl⟩
    | ends t =>
      obtain ⟨e', ht⟩ := h1 t e
      rw [e']
      exact ihd t ht
  | ite b c d ihc ihd =>
    intro s hs
    simp only [Cmd.run]
    cases e : b.eval true s with
    | panic => exact ⟨fun s' h => (nomatch h), fun h => (nomatch h)⟩
    | ok t =>
      rw [b.eval_stable T hs e]
      cases t
      · exact ihd s hs
      · exact ihc s hs
  | loop b c ih =>
    exact repeatWhile_stable (I := fun s : Nat → Limbs w => ∀ i, (s i).length = N)
      (fun s t hs => b.eval_stable T hs) ih k

/-! ## The bound on the rounds -/

theorem repeatWhile_more {test : α → Outcome Bool} {body body' : α → Outcome α} {k k' : Nat} (hk : k ≤ k')
    (hb : ∀ s, body s ≠ .more → body' s = body s) :
    ∀ s, repeatWhile test body k s ≠ .more → repeatWhile test body' k' s = repeatWhile test body k s := by
  induction k generalizing k' with
  | zero =>
    intro s h
    cases k' <;> simp only [repeatWhile] at h ⊢
    cases e : test s with
    | more => rfl
    | panic => rfl
    | ends b =>
      rw [e] at h
      cases b
      · rfl
      · exact absurd rfl h
  | succ k ih =>
    intro s h
    obtain ⟨k', rfl⟩ : ∃ m, k' = m + 1 := ⟨k' - 1, by omega⟩
    simp only [repeatWhile] at h ⊢
    cases e : test s with
    | more => rfl
    | panic => rfl
    | ends b =>
      rw [e] at h
      cases b
      · rfl
      · simp only [Outcome.bind, if_true] at h ⊢
        have h0 : body s ≠ .more := by intro e0; rw [e0] at h; exact h rfl
        rw [hb s h0]
        cases e1 : body s with
        | more => rfl
        | panic => rfl
        | ends t =>
          rw [e1] at h
          exact ih (by omega) t h

theorem Cmd.run_more {k k' : Nat} (hk : k ≤ k') (c : Cmd sg) : ∀ s : Nat → Limbs w, c.run oc k s ≠ .more →
    c.run oc k' s = c.run oc k s := by
  induction c with
  | skip => exact fun _ _ => rfl
  | set i e => exact fun _ _ => rfl
  | seq c d ihc ihd =>
    intro s h
    simp only [Cmd.run] at h ⊢
    have h0 : c.run oc k s ≠ .more := by intro e0; rw [e0] at h; exact h rfl
    rw [ihc s h0]
    cases e : c.run oc k s with
    | more => rfl
    | panic => rfl
    | ends t => rw [e] at h; exact ihd t h
  | ite b c d ihc ihd =>
    intro s h
    simp only [Cmd.run] at h ⊢
    cases e : Outcome.ofRes (b.eval oc s) with
    | more => rfl
    | panic => rfl
    | ends t =>
      rw [e] at h
      cases t
      · exact ihd s h
      · exact ihc s h
  | loop b c ih => exact fun s h => repeatWhile_more hk ih s h

end I256
