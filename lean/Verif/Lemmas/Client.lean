import Verif.Lemmas.Mixed

/-!
# Rules for the programs of C108 on the integers
-/

namespace I256

variable {n k : Nat} {sg : Bool} {env : Bool → Nat → Int} {Q : (Bool → Nat → Int) → Prop}

theorem setVar_apply {α : Type} (s : Bool → Nat → α) (sg : Bool) (i : Nat) (a : α) (t : Bool) (j : Nat) :
    setVar s sg i a t j = if t = sg ∧ j = i then a else s t j := by
  by_cases ht : t = sg
  · subst ht
    by_cases hj : j = i <;> simp [setVar, hj]
  · simp [setVar, ht]

theorem setVar_other {α : Type} (s : Bool → Nat → α) {sg t : Bool} (i : Nat) (a : α) (h : t ≠ sg) :
    setVar s sg i a t = s t := by
  simp [setVar, h]

theorem keep_nat {z : Int} (h0 : 0 ≤ z) (h : z < 2 ^ n) : keep false n z = some z := if_pos ⟨h0, h⟩

/-- The program ends in a state with `Q`. -/
def Mix.Ends (n k : Nat) (c : Mix) (env : Bool → Nat → Int) (Q : (Bool → Nat → Int) → Prop) : Prop :=
  ∃ env', c.exact n k env = .ends env' ∧ Q env'

namespace Mix.Ends

theorem mono {c : Mix} {Q' : (Bool → Nat → Int) → Prop} (h : Ends n k c env Q) (hq : ∀ e, Q e → Q' e) :
    Ends n k c env Q' := by
  obtain ⟨e, h1, h2⟩ := h
  exact ⟨e, h1, hq e h2⟩

theorem skip (h : Q env) : Ends n k .skip env Q := ⟨env, rfl, h⟩

theorem lit {i : Nat} {v : BitVec 128} (h : Q (setVar env sg i (if sg then v.toInt else v.toNat))) :
    Ends n k (.lit sg i v) env Q := ⟨_, rfl, h⟩

theorem set {i : Nat} {e : Expr sg} (z : Int) (he : e.exact n (env sg) = some z) (h : Q (setVar env sg i z)) :
    Ends n k (.set i e) env Q := by
  refine ⟨_, ?_, h⟩
  simp [Mix.exact, Mix.sem, he, Outcome.ofOption, Outcome.bind]

theorem move {m : Move} {i j : Nat} (z : Int) (he : m.exact n (env m.src j) = some z)
    (h : Q (setVar env (!m.src) i z)) : Ends n k (.move m i j) env Q := by
  refine ⟨_, ?_, h⟩
  simp [Mix.exact, Mix.sem, he, Outcome.ofOption, Outcome.bind]

theorem seq {c d : Mix} (h : Ends n k c env fun e => Ends n k d e Q) : Ends n k (.seq c d) env Q := by
  obtain ⟨e, h1, e', h2, h3⟩ := h
  refine ⟨e', ?_, h3⟩
  simp only [Mix.exact] at h1 h2
  simp [Mix.exact, Mix.sem, h1, Outcome.bind, h2]

theorem yes {b : Cond sg} {c d : Mix} (hb : (b.sem fun e => e.exact n (env sg)) = some true) (h : Ends n k c env Q) :
    Ends n k (.ite b c d) env Q := by
  obtain ⟨e, h1, h2⟩ := h
  refine ⟨e, ?_, h2⟩
  simp only [Mix.exact] at h1
  simp [Mix.exact, Mix.sem, hb, Outcome.ofOption, Outcome.bind, h1]

theorem no {b : Cond sg} {c d : Mix} (hb : (b.sem fun e => e.exact n (env sg)) = some false) (h : Ends n k d env Q) :
    Ends n k (.ite b c d) env Q := by
  obtain ⟨e, h1, h2⟩ := h
  refine ⟨e, ?_, h2⟩
  simp only [Mix.exact] at h1
  simp [Mix.exact, Mix.sem, hb, Outcome.ofOption, Outcome.bind, h1]

/-- A loop with an invariant `I m` for at most `m` rounds to go. -/
theorem loop {b : Cond sg} {c : Mix} {I : Nat → (Bool → Nat → Int) → Prop} {m : Nat} (hm : m ≤ k) (hi : I m env)
    (h : ∀ m env, I m env → ((b.sem fun e => e.exact n (env sg)) = some false ∧ Q env) ∨
      (b.sem fun e => e.exact n (env sg)) = some true ∧ Ends n k c env fun e => ∃ m', m' < m ∧ I m' e) :
    Ends n k (.loop b c) env Q := by
  unfold Ends Mix.exact
  simp only [Mix.sem]
  have go : ∀ r m env, I m env → m ≤ r → ∃ e,
      repeatWhile (fun env => Outcome.ofOption (b.sem fun e => e.exact n (env sg)))
        (Mix.sem (fun _ env e => e.exact n env) (Move.exact n) k c) r env = .ends e ∧ Q e := by
    intro r
    induction r with
    | zero =>
      intro m env hi hm
      rcases h m env hi with ⟨ht, hq⟩ | ⟨-, e, -, m', hm', -⟩
      · exact ⟨env, by simp [repeatWhile, ht, Outcome.bind, Outcome.ofOption], hq⟩
      · omega
    | succ r ih =>
      intro m env hi hm
      rcases h m env hi with ⟨ht, hq⟩ | ⟨ht, e, he, m', hm', hi'⟩
      · exact ⟨env, by simp [repeatWhile, ht, Outcome.bind, Outcome.ofOption], hq⟩
      · obtain ⟨e', h1, h2⟩ := ih m' e hi' (by omega)
        simp only [Mix.exact] at he
        refine ⟨e', ?_, h2⟩
        rw [repeatWhile, ht]
        simp only [Outcome.ofOption, Outcome.bind, if_true, he]
        exact h1
  exact go k m env hi hm

end Mix.Ends

/-- The program panics. -/
def Mix.Fails (n k : Nat) (c : Mix) (env : Bool → Nat → Int) : Prop := c.exact n k env = .panic

namespace Mix.Fails

theorem set {i : Nat} {e : Expr sg} (he : e.exact n (env sg) = none) : Fails n k (.set i e) env := by
  simp [Fails, Mix.exact, Mix.sem, he, Outcome.ofOption, Outcome.bind]

theorem move {m : Move} {i j : Nat} (he : m.exact n (env m.src j) = none) : Fails n k (.move m i j) env := by
  simp [Fails, Mix.exact, Mix.sem, he, Outcome.ofOption, Outcome.bind]

theorem first {c d : Mix} (h : Fails n k c env) : Fails n k (.seq c d) env := by
  simp only [Fails, Mix.exact] at h
  simp [Fails, Mix.exact, Mix.sem, h, Outcome.bind]

theorem seq {c d : Mix} (h : Ends n k c env fun e => Fails n k d e) : Fails n k (.seq c d) env := by
  obtain ⟨e, h1, h2⟩ := h
  simp only [Fails, Mix.exact] at h1 h2
  simp [Fails, Mix.exact, Mix.sem, h1, Outcome.bind, h2]

theorem no {b : Cond sg} {c d : Mix} (hb : (b.sem fun e => e.exact n (env sg)) = some false) (h : Fails n k d env) :
    Fails n k (.ite b c d) env := by
  simp only [Fails, Mix.exact] at h
  simp [Fails, Mix.exact, Mix.sem, hb, Outcome.ofOption, Outcome.bind, h]

theorem yes {b : Cond sg} {c d : Mix} (hb : (b.sem fun e => e.exact n (env sg)) = some true) (h : Fails n k c env) :
    Fails n k (.ite b c d) env := by
  simp only [Fails, Mix.exact] at h
  simp [Fails, Mix.exact, Mix.sem, hb, Outcome.ofOption, Outcome.bind, h]

/-- A loop that goes on until it panics, after at most `m` rounds. -/
theorem loop {b : Cond sg} {c : Mix} {I : Nat → (Bool → Nat → Int) → Prop} {m : Nat} (hm : m ≤ k) (hi : I m env)
    (h : ∀ m env, I m env → (b.sem fun e => e.exact n (env sg)) = some true ∧ 0 < m ∧
      (Fails n k c env ∨ Ends n k c env fun e => ∃ m', m' < m ∧ I m' e)) : Fails n k (.loop b c) env := by
  unfold Fails Mix.exact
  simp only [Mix.sem]
  have go : ∀ r m env, I m env → m ≤ r →
      repeatWhile (fun env => Outcome.ofOption (b.sem fun e => e.exact n (env sg)))
        (Mix.sem (fun _ env e => e.exact n env) (Move.exact n) k c) r env = .panic := by
    intro r
    induction r with
    | zero =>
      intro m env hi hm
      have := (h m env hi).2.1
      omega
    | succ r ih =>
      intro m env hi hm
      obtain ⟨ht, -, hf | ⟨e, he, m', hm', hi'⟩⟩ := h m env hi
      · simp only [Fails, Mix.exact] at hf
        rw [repeatWhile, ht]
        simp only [Outcome.ofOption, Outcome.bind, if_true, hf]
      · simp only [Mix.exact] at he
        rw [repeatWhile, ht]
        simp only [Outcome.ofOption, Outcome.bind, if_true, he]
        exact ih m' e hi' (by omega)
  exact go k m env hi hm

end Mix.Fails

end I256
