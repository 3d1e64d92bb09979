import Verif.Model.Calc
import Verif.Props.Loop
import Verif.Props.Parse
import Verif.Props.Write

/-! # Lemmas about programs that read and write decimal text -/

namespace I256

variable {w N : Nat} {sg : Bool}

theorem IsType.four (T : IsType w N) : 4 ≤ N := by
  have := T.large
  rcases T.left with rfl | rfl <;> omega

theorem IsType.even (T : IsType w N) : N % 2 = 0 := by
  have := T.wide
  rcases T.left with rfl | rfl <;> omega

/-- The result of parsing one text. -/
def Reads1 (sg : Bool) (N : Nat) : Option Int → Parsed (Limbs w) → Prop
  | none, .err _ => True
  | some z, .ok x => x.length = N ∧ value sg x = z
  | _, _ => False

theorem decimal_plus {ds : List Byte} (h : ds ≠ []) :
    decimal (43 :: ds) = if ds.all (isDigit 10) = true then some ((numVal 10 ds : Nat) : Int) else none := by
  rw [decimal, if_pos (show (43 :: ds).head? = some (45 : Byte) ∨ (43 :: ds).head? = some (43 : Byte) from Or.inr rfl),
    List.tail_cons]
  rw [if_neg (c := (43 :: ds).head? = some (45 : Byte)) (by decide : ¬ some (43 : Byte) = some 45), one_mul]
  exact if_congr ⟨fun e => e.2, fun e => ⟨h, e⟩⟩ rfl rfl

theorem decimal_minus {ds : List Byte} (h : ds ≠ []) :
    decimal (45 :: ds) = if ds.all (isDigit 10) = true then some (-1 * (numVal 10 ds : Nat) : Int) else none := by
  rw [decimal, if_pos (show (45 :: ds).head? = some (45 : Byte) ∨ (45 :: ds).head? = some (43 : Byte) from Or.inl rfl),
    List.tail_cons]
  rw [if_pos (c := (45 :: ds).head? = some (45 : Byte)) rfl]
  exact if_congr ⟨fun e => e.2, fun e => ⟨h, e⟩⟩ rfl rfl

theorem decimal_digits {c : Byte} {ds : List Byte} (h43 : c ≠ 43) (h45 : c ≠ 45) :
    decimal (c :: ds) =
      if (c :: ds).all (isDigit 10) = true then some ((numVal 10 (c :: ds) : Nat) : Int) else none := by
  have h : ¬ (c :: ds).head? = some 45 := fun e => h45 (Option.some.inj e)
  have h' : ¬ (c :: ds).head? = some 43 := fun e => h43 (Option.some.inj e)
  rw [decimal, if_neg (not_or.2 ⟨h, h'⟩), if_neg h, one_mul]
  exact if_congr ⟨fun e => e.2, fun e => ⟨List.cons_ne_nil _ _, e⟩⟩ rfl rfl

theorem bind_keep {p : Prop} [Decidable p] {sg : Bool} {n : Nat} {z : Int} :
    ((if p then some z else none) >>= fun z => keep sg n z) = if p then keep sg n z else none := by
  split <;> rfl

theorem ReadsU.reads {over : ErrKind} {ds : List Byte} {p : Parsed (Limbs w)} (h : ReadsU N 10 over ds p) :
    Reads1 false N (if ds.all (isDigit 10) = true then keep false (w * N) (numVal 10 ds) else none) p := by
  obtain ⟨h1, h2, h3⟩ := h
  by_cases ha : digitPart 10 ds = ds
  · rw [if_pos (all_iff_digitPart.2 ha)]
    rw [ha] at h1 h2 h3
    by_cases hi : InU (w * N) (numVal 10 ds : Int)
    · obtain ⟨v, rfl, hv⟩ := h3 hi rfl
      rw [keep, if_pos (by simpa [Fits] using hi)]
      exact ⟨hv.1, by simpa [value] using hv.2⟩
    · rw [h1 hi, keep, if_neg (by simpa [Fits] using hi)]
      trivial
  · rw [if_neg (fun e => ha (all_iff_digitPart.1 e))]
    by_cases hi : InU (w * N) (numVal 10 (digitPart 10 ds) : Int)
    · rw [h2 hi ha]; trivial
    · rw [h1 hi]; trivial

theorem ReadsS.reads {over : ErrKind} {sgn : Int} {ds : List Byte} {p : Parsed (Limbs w)}
    (h : ReadsS N 10 sgn over ds p) :
    Reads1 true N (if ds.all (isDigit 10) = true then keep true (w * N) (sgn * numVal 10 ds) else none) p := by
  obtain ⟨h1, h2, h3⟩ := h
  by_cases ha : digitPart 10 ds = ds
  · rw [if_pos (all_iff_digitPart.2 ha)]
    rw [ha] at h1 h2 h3
    by_cases hi : InS (w * N) (sgn * numVal 10 ds)
    · obtain ⟨v, rfl, hv⟩ := h3 hi rfl
      rw [keep, if_pos (by simpa [Fits] using hi)]
      exact ⟨hv.1, by simpa [value] using hv.2⟩
    · rw [h1 hi, keep, if_neg (by simpa [Fits] using hi)]
      trivial
  · rw [if_neg (fun e => ha (all_iff_digitPart.1 e))]
    by_cases hi : InS (w * N) (sgn * numVal 10 (digitPart 10 ds))
    · rw [h2 hi ha]; trivial
    · rw [h1 hi]; trivial

theorem ParsesU.reads {t : List Byte} {p : Parsed (Limbs w)} (h : ParsesU N 10 t p) :
    Reads1 false N (readDec false (w * N) t) p := by
  cases t with
  | nil => rw [show p = _ from h]; trivial
  | cons c t =>
    unfold ParsesU at h
    simp only at h
    by_cases h43 : c = 43
    · rw [if_pos h43] at h
      subst h43
      by_cases ht : t = []
      · rw [if_pos ht] at h
        subst ht h
        trivial
      · rw [if_neg ht] at h
        rw [readDec, if_neg (fun e => absurd e.2 (by decide : ¬ some (43 : Byte) = some 45)), decimal_plus ht, bind_keep]
        exact h.reads
    · rw [if_neg h43] at h
      by_cases h45 : c = 45
      · rw [if_pos h45] at h
        subst h45 h
        trivial
      · rw [if_neg h45] at h
        rw [readDec, if_neg (fun e => absurd e.2 (fun e => h45 (Option.some.inj e))), decimal_digits h43 h45, bind_keep]
        exact h.reads

theorem ParsesS.reads {t : List Byte} {p : Parsed (Limbs w)} (h : ParsesS N 10 t p) :
    Reads1 true N (readDec true (w * N) t) p := by
  cases t with
  | nil => rw [show p = _ from h]; trivial
  | cons c t =>
    unfold ParsesS at h
    simp only at h
    by_cases h43 : c = 43
    · rw [if_pos h43] at h
      subst h43
      by_cases ht : t = []
      · rw [if_pos ht] at h
        subst ht h
        trivial
      · rw [if_neg ht] at h
        rw [readDec, if_neg (fun e => absurd e.1 (by decide)), decimal_plus ht, bind_keep]
        simpa only [one_mul] using h.reads
    · rw [if_neg h43] at h
      by_cases h45 : c = 45
      · rw [if_pos h45] at h
        subst h45
        by_cases ht : t = []
        · rw [if_pos ht] at h
          subst ht h
          trivial
        · rw [if_neg ht] at h
          rw [readDec, if_neg (fun e => absurd e.1 (by decide)), decimal_minus ht, bind_keep]
          exact h.reads
      · rw [if_neg h45] at h
        rw [readDec, if_neg (fun e => absurd e.1 (by decide)), decimal_digits h43 h45, bind_keep]
        simpa only [one_mul] using h.reads

/-- Texts of the gap are long. -/
theorem gap_long (T : IsType w N) {t : List Byte} (hd : ∀ c ∈ t, isDigit 10 c = true)
    (hg : Mul.Gap w N (-((10 * numVal 10 t.dropLast : Nat) : Int))) : 39 ≤ t.length := by
  by_contra hc
  have h1 := numVal_lt (r := 10) t.dropLast fun c h => hd c (List.mem_of_mem_dropLast h)
  have h2 : 10 ^ t.dropLast.length ≤ 10 ^ 37 := Nat.pow_le_pow_right (by decide) (by simp; omega)
  have h3 : (2 : Int) ^ 255 ≤ 2 ^ (w * N - 1) :=
    pow_le_pow_right₀ (by decide) (by have := T.large; omega)
  have := hg.1
  omega

theorem Calc.parse_actual (T : IsType w N) (p32 : Bool) (t : List Byte) :
    ∃ p, Calc.parse (w := w) sg p32 N t = .ok p ∧ Reads1 sg N (readActual sg w N t) p := by
  have hB : 128 ≤ w * N := by have := T.large; omega
  cases sg with
  | false =>
    obtain ⟨p, e, h1, h2⟩ := C29_uint_from_str T.left T.four hB p32 t
    refine ⟨p, e, ?_⟩
    rw [readActual, if_neg (by simp)]
    by_cases c : 39 ≤ t.length ∨ t.head? ≠ some 45
    · exact (h1 c).reads
    · rw [not_or, not_not] at c
      rw [h2 (by omega) c.2, readDec, if_pos ⟨rfl, c.2⟩]
      trivial
  | true =>
    have hmin : ∀ s, 39 ≤ s.length → I.fromStr (w := w) p32 N s = I.fromStrRadix N s 10 := by
      intro s hs
      rw [I.fromStr, if_neg (by simp; omega), if_neg (by omega)]
    by_cases h45 : t.head? = some 45
    · obtain ⟨ds, rfl⟩ : ∃ ds, t = 45 :: ds := by
        cases t with
        | nil => simp at h45
        | cons c t => exact ⟨t, by simpa using h45⟩
      by_cases ha : digitPart 10 ds = ds
      · by_cases hg : Mul.Gap w N (-((10 * numVal 10 ds.dropLast : Nat) : Int))
        · have hl := gap_long T (List.all_eq_true.1 (all_iff_digitPart.2 ha)) hg
          obtain ⟨u, e, hu⟩ := (I.fromStrRadix_gap T.left T.four (radix := 10) (by decide) (by decide) ds
            ⟨ds, rfl, by simpa [ha] using hg⟩).2 ha
          refine ⟨.ok u, (hmin _ (by simp; omega)).trans e, ?_⟩
          have hne : ds ≠ [] := by rintro rfl; simp at hl
          rw [readActual, if_pos ⟨rfl, rfl, hg⟩]
          simp only [decimal, List.head?_cons, true_or, if_true, List.tail_cons, ne_eq, hne, not_false_eq_true,
            all_iff_digitPart.2 ha, and_self, Option.bind_eq_bind, Option.bind_some]
          refine ⟨hu.1, ?_⟩
          have := hu.2
          simp only [value, if_true, this, show (10 : BitVec 32).toNat = 10 from rfl]
          ring
        · rw [readActual, if_neg (fun e => hg e.2.2)]
          obtain ⟨p, e, h⟩ := C29_int_from_str_partial (w := w) T.left T.four hB p32 (45 :: ds) (by
            rintro - ⟨ds', e, h⟩
            obtain rfl : ds = ds' := (List.cons.inj e).2
            rw [ha] at h
            exact hg h)
          exact ⟨p, e, h.reads⟩
      · have hn : readActual true w N (45 :: ds) = none := by
          have : decimal (45 :: ds) = none := by
            rw [decimal]
            simp only [List.head?_cons, true_or, if_true, List.tail_cons]
            rw [if_neg (fun e => ha (all_iff_digitPart.1 e.2))]
          rw [readActual, readDec, this]
          split <;> simp
        rw [hn]
        by_cases hg : 39 ≤ (45 :: ds).length ∧ GapText w N 10 (45 :: ds)
        · refine ⟨_, (hmin _ hg.1).trans ((I.fromStrRadix_gap T.left T.four (radix := 10) (by decide) (by decide) ds
            hg.2).1 ha), trivial⟩
        · obtain ⟨p, e, h⟩ := C29_int_from_str_partial (w := w) T.left T.four hB p32 (45 :: ds)
            fun a b => hg ⟨a, b⟩
          have hn' : readDec true (w * N) (45 :: ds) = none := by
            rw [readActual] at hn
            split at hn
            · cases hd : decimal (45 :: ds) with
              | none => rw [readDec, if_neg (fun e => absurd e.1 (by decide)), hd]; rfl
              | some z => rw [hd] at hn; cases hn
            · exact hn
          exact ⟨p, e, hn' ▸ h.reads⟩
    · rw [readActual, if_neg (fun e => h45 e.2.1)]
      obtain ⟨p, e, h⟩ := C29_int_from_str_partial (w := w) T.left T.four hB p32 t (by
        rintro - ⟨ds, rfl, -⟩
        exact h45 rfl)
      exact ⟨p, e, h.reads⟩

/-- The result of parsing several texts. -/
def Reads (sg : Bool) (N : Nat) : Option (List Int) → Parsed (List (Limbs w)) → Prop
  | none, .err _ => True
  | some zs, .ok xs => List.Forall₂ (fun z x => x.length = N ∧ value sg x = z) zs xs
  | _, _ => False

theorem Calc.read_reads {parse : List Byte → Res (Parsed (Limbs w))} {rd : List Byte → Option Int}
    (hp : ∀ t, ∃ p, parse t = .ok p ∧ Reads1 sg N (rd t) p) (ts : List (List Byte)) :
    ∃ p, Calc.read parse ts = .ok p ∧ Reads sg N (ts.mapM rd) p := by
  induction ts with
  | nil => exact ⟨_, rfl, List.Forall₂.nil⟩
  | cons t ts ih =>
    obtain ⟨p, e, h⟩ := hp t
    obtain ⟨q, e', h'⟩ := ih
    rw [Calc.read, e, List.mapM_cons]
    cases hz : rd t with
    | none =>
      rw [hz] at h
      cases p with
      | ok x => exact h.elim
      | err k => exact ⟨_, rfl, trivial⟩
    | some z =>
      rw [hz] at h
      cases p with
      | err k => exact h.elim
      | ok x =>
        simp only [Res.bind, e', Res.map]
        cases hzs : ts.mapM rd with
        | none =>
          rw [hzs] at h'
          cases q with
          | ok x => exact h'.elim
          | err k => exact ⟨_, rfl, trivial⟩
        | some zs =>
          rw [hzs] at h'
          cases q with
          | err k => exact h'.elim
          | ok xs => exact ⟨_, rfl, List.Forall₂.cons h h'⟩

theorem getD_value {zs : List Int} {xs : List (Limbs w)} (h0 : value sg (List.replicate N (0 : BitVec w)) = 0)
    (h : List.Forall₂ (fun z x => x.length = N ∧ value sg x = z) zs xs) (i : Nat) :
    (xs.getD i (List.replicate N 0)).length = N ∧ value sg (xs.getD i (List.replicate N 0)) = zs.getD i 0 := by
  induction h generalizing i with
  | nil => simpa using h0
  | cons h _ ih =>
    cases i with
    | zero => exact h
    | succ i => simpa using ih i

theorem value_replicate_zero (sg : Bool) (N : Nat) : value sg (List.replicate N (0 : BitVec w)) = 0 := by
  have h : toNat (List.replicate N (0 : BitVec w)) = 0 := toNat_replicate_zero N
  cases sg
  · rw [value, if_neg (by decide), h]; rfl
  · rw [value, if_pos rfl, toInt, h]; simp

theorem Calc.print_value (T : IsType w N) (oc : Bool) {x : Limbs w} (hx : x.length = N) :
    Calc.print sg oc x = .ok (numeralS 10 (value sg x)) := by
  have h4 : 4 ≤ x.length := hx ▸ T.four
  have he : x.length % 2 = 0 := hx ▸ T.even
  cases sg with
  | true => exact (C30_int_fmt T.left h4 he oc).1
  | false =>
    refine (C30_uint_fmt T.left h4 he oc).1.trans ?_
    simp [value, numeralS]

/-- The whole program, given what the parser and the commands do. -/
theorem Calc.session_prints (T : IsType w N) {mean : (Nat → Int) → Outcome (Nat → Int)} {oc : Bool}
    {parse : List Byte → Res (Parsed (Limbs w))} {run : (Nat → Limbs w) → Outcome (Nat → Limbs w)}
    {rd rd' : List Byte → Option Int} (o : Nat) (ts : List (List Byte))
    (hp : ∀ t, ∃ p, parse t = .ok p ∧ Reads1 sg N (rd' t) p) (hr : ts.mapM rd' = ts.mapM rd)
    (hc : ∀ s : Nat → Limbs w, (∀ i, (s i).length = N) →
      (∀ zs, ts.mapM rd = some zs → (fun i => value sg (s i)) = (fun i => zs.getD i 0) →
        CmdEnds sg N (mean fun i => value sg (s i)) (run s))) :
    Prints (calculator rd mean o ts) (Calc.session N o parse run (Calc.print sg oc) ts) := by
  obtain ⟨p, e, h⟩ := Calc.read_reads hp ts
  rw [hr] at h
  rw [Prints, Calc.session, e, calculator]
  cases hz : ts.mapM rd with
  | none =>
    rw [hz] at h
    cases p with
    | ok x => exact h.elim
    | err k => rfl
  | some zs =>
    rw [hz] at h
    cases p with
    | err k => exact h.elim
    | ok xs =>
      have hv := getD_value (value_replicate_zero sg N) h
      have hf : (fun i => value sg (xs.getD i (List.replicate N 0))) = fun i => zs.getD i 0 :=
        funext fun i => (hv i).2
      have h1 := hc _ (fun i => (hv i).1) zs hz hf
      rw [hf] at h1
      simp only [Outcome.ofRes, Outcome.bind]
      cases hm : mean fun i => zs.getD i 0 with
      | more => rw [hm] at h1; rw [show run _ = _ from h1]
      | panic => rw [hm] at h1; rw [show run _ = _ from h1]
      | ends env =>
        rw [hm] at h1
        obtain ⟨s, es, hs⟩ := h1
        rw [es]
        simp only [Calc.print_value T oc (hs o).1, (hs o).2]
        rfl

/-- The programs of the crate. -/
theorem Calc.main_prints (T : IsType w N) {mean : (Nat → Int) → Outcome (Nat → Int)} {oc : Bool} {k : Nat}
    {c : Cmd sg} {rd : List Byte → Option Int} (p32 : Bool) (o : Nat) (ts : List (List Byte))
    (hr : ts.mapM (readActual sg w N) = ts.mapM rd)
    (hc : ∀ s : Nat → Limbs w, (∀ i, (s i).length = N) →
      (∀ zs, ts.mapM rd = some zs → (fun i => value sg (s i)) = (fun i => zs.getD i 0) →
        CmdEnds sg N (mean fun i => value sg (s i)) (c.run oc k s))) :
    Prints (calculator rd mean o ts) (Calc.main (w := w) oc p32 N k c o ts) :=
  Calc.session_prints T o ts (Calc.parse_actual T p32) hr hc

/-- Without texts of the gap the rule of the fault is not used. -/
theorem readActual_eq {ts : List (List Byte)} (h : sg = true → ∀ t ∈ ts, ¬ GapText w N 10 t) :
    ts.mapM (readActual sg w N) = ts.mapM (readDec sg (w * N)) := by
  have key : ∀ t ∈ ts, readActual sg w N t = readDec sg (w * N) t := by
    intro t ht
    rw [readActual]
    split
    case isTrue c =>
      obtain ⟨rfl, h45, hg⟩ := c
      obtain ⟨ds, rfl⟩ : ∃ ds, t = 45 :: ds := by
        cases t with
        | nil => simp at h45
        | cons c t => exact ⟨t, by simpa using h45⟩
      cases hd : decimal (45 :: ds) with
      | none => rw [readDec, if_neg (fun e => absurd e.1 (by decide)), hd]; rfl
      | some z =>
        refine absurd ⟨ds, rfl, ?_⟩ (h rfl _ ht)
        have ha : digitPart 10 ds = ds := by
          by_contra ha
          rw [decimal] at hd
          simp only [List.head?_cons, true_or, if_true, List.tail_cons] at hd
          rw [if_neg (fun e => ha (all_iff_digitPart.1 e.2))] at hd
          cases hd
        rw [ha]
        exact hg
    case isFalse c => rfl
  clear h
  induction ts with
  | nil => rfl
  | cons t ts ih =>
    rw [List.mapM_cons, List.mapM_cons, key t (by simp), ih fun t h => key t (List.mem_cons_of_mem _ h)]

end I256
