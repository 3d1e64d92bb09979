import Verif.Model.RawAdd

/-!
# Lemmas about the vocabulary of the literal model
-/

namespace I256

variable {w : Nat}

namespace Raw

variable {α σ τ : Type}

@[simp] theorem mem_length (be : Bool) (x : List α) : (mem be x).length = x.length := by
  cases be <;> simp [mem]

@[simp] theorem mem_replicate (be : Bool) (n : Nat) (v : α) :
    mem be (List.replicate n v) = List.replicate n v := by
  cases be <;> simp [mem]

@[simp] theorem mem_mem (be : Bool) (x : List α) : mem be (mem be x) = x := by
  cases be <;> simp [mem]

theorem mem_inj {be : Bool} {x y : List α} (h : mem be x = mem be y) : x = y := by
  have := congrArg (mem be) h
  simpa using this

theorem usub_ok {a b : Nat} (h : b ≤ a) : usub a b = .ok (a - b) := if_pos h
theorem assert_ok {b : Bool} (h : b = true) : assert b = .ok () := if_pos h

theorem at_ok {x : List α} {i : Nat} (h : i < x.length) : at_ x i = .ok x[i] := by
  simp [at_, h]

theorem set_ok {x : List α} {i : Nat} (h : i < x.length) (v : α) :
    set_ x i v = .ok (x.set i v) := if_pos h

theorem neIndex_ok (be : Bool) {i n : Nat} (h : i < n) :
    neIndex be i n = .ok (if be then n - 1 - i else i) := by
  cases be
  · rfl
  · have h1 : usub n 1 = .ok (n - 1) := usub_ok (by omega)
    have h2 : usub (n - 1) i = .ok (n - 1 - i) := usub_ok (by omega)
    simp [neIndex, h1, h2]

/-- Reading at an index in range. -/
theorem rd_ok (be : Bool) {x : List α} {i : Nat} (h : i < x.length) :
    rd be (mem be x) i = .ok x[i] := by
  unfold rd
  rw [mem_length, neIndex_ok be h, Res.mbind_ok]
  cases be
  · exact at_ok h
  · simp only [mem, if_true]
    rw [at_ok (by simp; omega)]
    congr 1
    rw [List.getElem_reverse]
    congr 1
    omega

/-- Reading out of range panics. -/
theorem rd_panic (be : Bool) {x : List α} {i : Nat} (h : x.length ≤ i) :
    rd be (mem be x) i = .panic := by
  unfold rd
  cases be
  · simp [neIndex, at_, mem, h]
  · by_cases h0 : x.length = 0
    · simp [neIndex, usub, h0]
    · have h1 : usub x.length 1 = .ok (x.length - 1) := usub_ok (by omega)
      have h2 : usub (x.length - 1) i = .panic := if_neg (by omega)
      simp [neIndex, h1, h2]

/-- Writing at an index in range. -/
theorem wr_ok (be : Bool) {x : List α} {i : Nat} (h : i < x.length) (v : α) :
    wr be (mem be x) i v = .ok (mem be (x.set i v)) := by
  unfold wr
  rw [mem_length, neIndex_ok be h, Res.mbind_ok]
  cases be
  · exact set_ok h v
  · simp only [mem, if_true]
    rw [set_ok (by simp; omega)]
    congr 1
    apply List.ext_getElem
    · simp
    · intro j h1 h2
      simp only [List.length_set, List.length_reverse] at h1 h2
      rw [List.getElem_set, List.getElem_reverse, List.getElem_reverse, List.getElem_set]
      simp only [List.length_set]
      by_cases hj : x.length - 1 - i = j
      · rw [if_pos hj, if_pos (by omega)]
      · rw [if_neg hj, if_neg (by omega)]

theorem wr_rep (be : Bool) {n i : Nat} (h : i < n) (z v : α) :
    wr be (List.replicate n z) i v = .ok (mem be ((List.replicate n z).set i v)) := by
  rw [← mem_replicate be n z, wr_ok be (by simpa using h), mem_replicate]

theorem rd_limb (be : Bool) {x : Limbs w} {i : Nat} (h : i < x.length) :
    rd be (mem be x) i = .ok (getLimb x i) := by
  rw [rd_ok be h]
  simp [getLimb, h]

theorem loop_done {fuel : Nat} {cond : σ → Bool} {body : σ → Res σ} {s : σ} (h : cond s = false) :
    loop fuel cond body s = .ok s := by
  rw [loop.eq_def]
  simp [h]

theorem loop_step {fuel : Nat} {cond : σ → Bool} {body : σ → Res σ} {s t : σ} (h : cond s = true)
    (hb : body s = .ok t) : loop (fuel + 1) cond body s = loop fuel cond body t := by
  rw [loop.eq_def]
  simp [h, hb]

/-- The limbs that a loop with `result[index] = (f index s).1` produces from `index = i` on. -/
def emit (f : Nat → σ → α × σ) : Nat → Nat → σ → List α × σ
  | 0, _, s => ([], s)
  | k + 1, i, s =>
    let r := emit f k (i + 1) (f i s).2
    ((f i s).1 :: r.1, r.2)

theorem emit_length (f : Nat → σ → α × σ) (k i : Nat) (s : σ) : (emit f k i s).1.length = k := by
  induction k generalizing i s with
  | zero => rfl
  | succ k ih => simp [emit, ih]

theorem emit_congr {f g : Nat → σ → α × σ} (k i : Nat) (s : σ)
    (h : ∀ j s, i ≤ j → j < i + k → f j s = g j s) : emit f k i s = emit g k i s := by
  induction k generalizing i s with
  | zero => rfl
  | succ k ih =>
    simp only [emit, h i s (by omega) (by omega)]
    rw [ih (i + 1) _ fun j s h1 h2 => h j s (by omega) (by omega)]

/-- A loop that fills the result array upwards. -/
theorem loop_emit (be : Bool) (f : Nat → σ → α × σ) {fuel lo hi : Nat}
    {body : Nat × List α × σ → Res (Nat × List α × σ)}
    (hb : ∀ i s R, lo ≤ i → i < hi → i < R.length →
      body (i, mem be R, s) = .ok (i + 1, mem be (R.set i (f i s).1), (f i s).2))
    (done rest : List α) (s : σ) (hd : done.length = lo) (hl : lo ≤ hi) (hf : hi - lo ≤ fuel)
    (hr : hi - lo ≤ rest.length) :
    loop fuel (fun t => decide (t.1 < hi)) body (lo, mem be (done ++ rest), s) =
      .ok (hi, mem be (done ++ (emit f (hi - lo) lo s).1 ++ rest.drop (hi - lo)),
        (emit f (hi - lo) lo s).2) := by
  obtain ⟨k, hk⟩ : ∃ k, k = hi - lo := ⟨_, rfl⟩
  rw [← hk] at hf hr ⊢
  induction k generalizing lo fuel done rest s with
  | zero =>
    rw [loop_done (by simp; omega)]
    have : lo = hi := by omega
    simp [emit, this]
  | succ k ih =>
    obtain ⟨fuel, rfl⟩ : ∃ n, fuel = n + 1 := ⟨fuel - 1, by omega⟩
    obtain ⟨z, rest, rfl⟩ : ∃ z r, rest = z :: r := by
      cases rest with
      | nil => simp at hr
      | cons z r => exact ⟨z, r, rfl⟩
    rw [loop_step (by simp; omega) (hb lo s _ (Nat.le_refl _) (by omega) (by simp; omega))]
    have e : (done ++ z :: rest).set lo (f lo s).1 = (done ++ [(f lo s).1]) ++ rest := by
      subst hd
      simp
    simp only [List.length_cons] at hr
    rw [e, ih (fun i s R h1 h2 h3 => hb i s R (by omega) h2 h3) (done ++ [(f lo s).1]) rest _
      (by simp [hd]) (by omega) (by omega) (by omega) (by omega)]
    simp [emit]

end Raw

end I256
