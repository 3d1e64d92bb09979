import Verif.Lemmas.RawApi
import Verif.Lemmas.DivFull
import Verif.Model.RawDiv

/-!
# The literal helpers of division compute what the functional model computes
-/

namespace I256

variable {w W : Nat}

namespace Raw

variable {α σ : Type}

theorem loop_panic {fuel : Nat} {cond : σ → Bool} {body : σ → Res σ} {s : σ} (h : cond s = true)
    (hb : body s = .panic) : loop fuel cond body s = .panic := by
  rw [loop.eq_def]
  cases fuel with
  | zero => simp [h]
  | succ n => simp [h, hb]

theorem at_panic {x : List α} {i : Nat} (h : x.length ≤ i) : at_ x i = .panic := by
  simp [at_, h]

namespace Div

/-! ### Native arithmetic -/

theorem debugAssert_ok (cf : Cfg) {b : Bool} (h : b = true) : debugAssert cf b = .ok () := by
  unfold debugAssert
  split
  · exact assert_ok h
  · rfl

theorem sub_ok (cf : Cfg) {a b : BitVec W} (h : b.toNat ≤ a.toNat) : sub cf a b = .ok (a - b) := by
  unfold sub Raw.sub
  rw [if_pos h]
  split <;> rfl

theorem add_ok (cf : Cfg) {a b : BitVec W} (h : a.toNat + b.toNat < 2 ^ W) :
    add cf a b = .ok (a + b) := by
  unfold add Raw.add
  rw [if_pos h]
  split <;> rfl

theorem mul_ok (cf : Cfg) {a b : BitVec W} (h : a.toNat * b.toNat < 2 ^ W) :
    mul cf a b = .ok (a * b) := by
  unfold mul Raw.mul
  rw [if_pos h]
  split <;> rfl

theorem shl_ok (cf : Cfg) (a : BitVec W) {s : Nat} (h : s < W) : shl cf a s = .ok (a <<< s) := by
  unfold shl Raw.shl
  rw [if_pos h, Nat.mod_eq_of_lt h]
  split <;> rfl

theorem shr_ok (cf : Cfg) (a : BitVec W) {s : Nat} (h : s < W) : shr cf a s = .ok (a >>> s) := by
  unfold shr Raw.shr
  rw [if_pos h, Nat.mod_eq_of_lt h]
  split <;> rfl

theorem wide_mul_lt (a b : BitVec w) : (wide a).toNat * (wide b).toNat < 2 ^ (w + w) := by
  rw [wide_toNat, wide_toNat, Nat.pow_add]
  exact Nat.mul_lt_mul'' a.isLt b.isLt

theorem wide_mac_lt (a b c : BitVec w) : (wide a * wide b).toNat + (wide c).toNat < 2 ^ (w + w) := by
  rw [I256.Div.wide_mul_toNat, wide_toNat, Nat.pow_add]
  have h1 : a.toNat ≤ 2 ^ w - 1 := by have := a.isLt; omega
  have h2 : b.toNat ≤ 2 ^ w - 1 := by have := b.isLt; omega
  have h3 := c.isLt
  have h4 := Nat.mul_le_mul h1 h2
  have hp : 0 < 2 ^ w := by positivity
  generalize 2 ^ w = B at *
  obtain ⟨k, rfl⟩ : ∃ k, B = k + 1 := ⟨B - 1, by omega⟩
  simp only [Nat.add_sub_cancel] at h4
  nlinarith

theorem wide_shl_toNat (a : BitVec w) : (wide a <<< w).toNat = a.toNat * 2 ^ w := by
  have := a.isLt
  rw [BitVec.toNat_shiftLeft, wide_toNat, Nat.shiftLeft_eq, Nat.mod_eq_of_lt]
  rw [Nat.pow_add]
  exact Nat.mul_lt_mul_of_pos_right this (by positivity)

theorem wide_pair_lt (hi lo : BitVec w) : (wide hi <<< w).toNat + (wide lo).toNat < 2 ^ (w + w) := by
  rw [wide_shl_toNat, wide_toNat, Nat.pow_add]
  have h1 := hi.isLt
  have h2 := lo.isLt
  generalize 2 ^ w = B at *
  nlinarith

theorem append_eq (hi lo : BitVec w) : hi ++ lo = (wide hi <<< w) + wide lo := by
  apply BitVec.eq_of_toNat_eq
  rw [BitVec.toNat_append, BitVec.toNat_add, Nat.mod_eq_of_lt (wide_pair_lt hi lo), wide_shl_toNat,
    wide_toNat, Nat.shiftLeft_eq, Nat.mul_comm, ← Nat.two_pow_add_eq_or_of_lt lo.isLt]

theorem wide_eq_zero {d : BitVec w} : wide d = 0 ↔ d = 0 := by
  constructor
  · intro h
    apply BitVec.eq_of_toNat_eq
    have := congrArg BitVec.toNat h
    rw [wide_toNat] at this
    simpa using this
  · rintro rfl
    apply BitVec.eq_of_toNat_eq
    rw [wide_toNat]
    simp

theorem divRemWord_eq (hw : 0 < w) (cf : Cfg) {hi d : BitVec w} (lo : BitVec w)
    (h : hi.toNat < d.toNat ∨ d = 0) : divRemWord cf hi lo d = I256.Div.divRemWord hi lo d := by
  rcases h with h | rfl
  · have hu : hi.ult d = true := by simpa [BitVec.ult] using h
    have hd : d ≠ 0 := by rintro rfl; simp at h
    unfold divRemWord I256.Div.divRemWord
    rw [debugAssert_ok cf hu, debugAssert_ok cf (by simpa using hd), if_pos hu]
    simp only [Res.mbind_ok]
    by_cases ha : cf.asm = true
    · rw [if_pos ha, assert_ok hu, append_eq]
      rfl
    · rw [if_neg ha, shl_ok cf _ (by omega)]
      simp only [Res.mbind_ok]
      rw [add_ok cf (wide_pair_lt hi lo)]
      simp only [Res.mbind_ok]
      rw [divRem, if_neg (fun h => hd (wide_eq_zero.1 h))]
      rfl
  · rw [I256.Div.divRemWord_zero]
    have hu : hi.ult 0 = false := by simp [BitVec.ult]
    unfold divRemWord
    rw [hu]
    by_cases hd : cf.da = true
    · simp [debugAssert, hd, assert]
    · have e : ∀ b, debugAssert cf b = .ok () := fun b => by simp [debugAssert, hd]
      rw [e, e]
      simp only [Res.mbind_ok]
      by_cases ha : cf.asm = true
      · simp [ha, assert]
      · rw [if_neg ha, shl_ok cf _ (by omega)]
        simp only [Res.mbind_ok]
        rw [add_ok cf (wide_pair_lt hi lo)]
        simp only [Res.mbind_ok]
        rw [divRem, if_pos (wide_eq_zero.2 rfl)]
        rfl

/-! ### `ArrayPlusOne` -/

/-- The pair that holds a list of `N + 1` limbs. -/
def apo (v : Limbs w) : Limbs w × BitVec w := (v.take (v.length - 1), getLimb v (v.length - 1))

theorem apo_append (l : Limbs w) (t : BitVec w) : apo (l ++ [t]) = (l, t) := by
  simp [apo, getLimb]

theorem apo_cases {v : Limbs w} (h : v ≠ []) : ∃ l t, v = l ++ [t] :=
  ⟨v.dropLast, v.getLast h, (List.dropLast_concat_getLast h).symm⟩

theorem get_ok {v : Limbs w} {i : Nat} (h : i < v.length) : get (apo v) i = .ok (getLimb v i) := by
  obtain ⟨l, t, rfl⟩ := apo_cases (v := v) (by rintro rfl; simp at h)
  rw [apo_append]
  simp only [List.length_append, List.length_cons, List.length_nil] at h
  unfold get
  by_cases hi : i = l.length
  · rw [if_pos hi]; simp [getLimb, hi]
  · rw [if_neg hi, Bits.at_limb (by simp; omega)]
    simp only [getLimb, List.getD_eq_getElem?_getD]
    rw [List.getElem?_append_left (by omega)]

theorem set_ok {v : Limbs w} {i : Nat} (h : i < v.length) (x : BitVec w) :
    set (apo v) i x = .ok (apo (v.set i x)) := by
  obtain ⟨l, t, rfl⟩ := apo_cases (v := v) (by rintro rfl; simp at h)
  rw [apo_append]
  simp only [List.length_append, List.length_cons, List.length_nil] at h
  unfold set
  by_cases hi : i = l.length
  · rw [if_pos hi, hi]
    simp [apo_append]
  · rw [if_neg hi, Raw.set_ok (by simp; omega), List.set_append_left _ _ (by omega), apo_append]
    rfl

theorem apo_at {v : Limbs w} {i : Nat} (h : i + 1 < v.length) :
    at_ (apo v).1 i = .ok (getLimb v i) := by
  obtain ⟨l, t, rfl⟩ := apo_cases (v := v) (by rintro rfl; simp at h)
  rw [apo_append]
  simp only [List.length_append, List.length_cons, List.length_nil] at h
  rw [Bits.at_limb (by simp; omega)]
  simp only [getLimb, List.getD_eq_getElem?_getD]
  rw [List.getElem?_append_left (by omega)]

/-! ### Helpers -/

theorem getLimb_append_right {p : Limbs w} {a : BitVec w} {xs : Limbs w} {i : Nat}
    (h : p.length = i) : getLimb (p ++ a :: xs) i = a := by
  subst h
  simp [getLimb]

theorem fullMulLoop_lit (cf : Cfg) (hw : 0 < w) {N : Nat} (b : BitVec w) :
    ∀ (xs px done : Limbs w) (carry : BitVec w) (fuel : Nat), xs.length ≤ fuel →
    px.length + xs.length = N → done.length = px.length →
    ∃ out c', loop fuel (fun s => decide (s.1 < N)) (fun (i, out, carry) => do
        let v ← at_ (px ++ xs) i
        let p ← mul cf (wide v) (wide b)
        let r ← add cf p (wide carry)
        let out ← set_ out i (r.setWidth w)
        let c ← shr cf r w
        .ok (i + 1, out, c.setWidth w))
        (px.length, done ++ List.replicate xs.length 0, carry) = .ok (N, out, c') ∧
      out ++ [c'] = done ++ I256.Div.fullMulLoop b xs carry
  | [], px, done, carry, fuel, _, hN, _ => by
    simp only [List.length_nil, Nat.add_zero] at hN
    refine ⟨done ++ List.replicate 0 0, carry, ?_, by simp [I256.Div.fullMulLoop]⟩
    rw [loop_done (by simp [hN])]
    simp [hN]
  | x :: xs, px, done, carry, fuel, hf, hN, hd => by
    simp only [List.length_cons] at hf hN
    obtain ⟨fuel, rfl⟩ : ∃ n, fuel = n + 1 := ⟨fuel - 1, by omega⟩
    obtain ⟨out, c', h1, h2⟩ := fullMulLoop_lit cf hw (N := N) b xs (px ++ [x])
      (done ++ [(wide x * wide b + wide carry).setWidth w])
      (((wide x * wide b + wide carry) >>> w).setWidth w) fuel (by omega)
      (by simp; omega) (by simp [hd])
    refine ⟨out, c', ?_, by rw [h2]; simp [I256.Div.fullMulLoop, loLimb, hiLimb]⟩
    simp only [List.append_assoc, List.singleton_append, List.length_append, List.length_cons,
      List.length_nil] at h1
    rw [← h1, loop_step (by simp; omega)]
    simp only
    rw [Bits.at_limb (by simp), getLimb_append_right rfl]
    simp only [Res.mbind_ok]
    rw [mul_ok cf (wide_mul_lt x b)]
    simp only [Res.mbind_ok]
    rw [add_ok cf (wide_mac_lt x b carry)]
    simp only [Res.mbind_ok]
    rw [Raw.set_ok (by simp; omega), shr_ok cf _ (by omega)]
    simp only [Res.mbind_ok, List.length_cons, List.replicate_succ]
    rw [List.set_append_right _ _ (by omega), hd]
    simp

theorem fullMul_lit (cf : Cfg) (hw : 0 < w) (a : Limbs w) (b : BitVec w) :
    fullMul cf a b = .ok (apo (I256.Div.fullMul a b)) := by
  obtain ⟨out, c', h1, h2⟩ := fullMulLoop_lit cf hw (N := a.length) b a [] [] 0 a.length
    (Nat.le_refl _) (by simp) rfl
  simp only [List.nil_append, List.length_nil] at h1 h2
  unfold fullMul
  refine (congrArg (fun r => Res.bind r _) h1).trans ?_
  simp only [Res.bind_ok]
  rw [I256.Div.fullMul, ← h2, apo_append]

theorem shlLoop_lit (cf : Cfg) {N s : Nat} (hs : 0 < s) (hsw : s < w) :
    ∀ (xs px done : Limbs w) (prev : BitVec w) (fuel : Nat), xs.length ≤ fuel →
    px.length + 1 + xs.length = N → done.length = px.length + 1 →
    ∃ out, loop fuel (fun s => decide (s.1 < N)) (fun (i, out) => do
        let k ← usub i 1
        let a ← at_ (px ++ prev :: xs) k
        let inv ← usub w s
        let lo ← shr cf a inv
        let b ← at_ (px ++ prev :: xs) i
        let hi ← shl cf b s
        let out ← set_ out i (lo ||| hi)
        .ok (i + 1, out)) (px.length + 1, done ++ List.replicate xs.length 0) = .ok (N, out) ∧
      out ++ [getLimb (px ++ prev :: xs) (N - 1) >>> (w - s)] =
        done ++ I256.Div.shlLoop s prev xs
  | [], px, done, prev, fuel, _, hN, hd => by
    simp only [List.length_nil, Nat.add_zero] at hN
    refine ⟨done ++ List.replicate 0 0, ?_, ?_⟩
    · rw [loop_done (by simp [hN])]
      simp [hN]
    · rw [getLimb_append_right (by omega)]
      simp [I256.Div.shlLoop]
  | x :: xs, px, done, prev, fuel, hf, hN, hd => by
    simp only [List.length_cons] at hf hN
    obtain ⟨fuel, rfl⟩ : ∃ n, fuel = n + 1 := ⟨fuel - 1, by omega⟩
    obtain ⟨out, h1, h2⟩ := shlLoop_lit cf (N := N) hs hsw xs (px ++ [prev])
      (done ++ [(prev >>> (w - s)) ||| (x <<< s)]) x fuel (by omega)
      (by simp; omega) (by simp [hd])
    simp only [List.append_assoc, List.singleton_append, List.length_append, List.length_cons,
      List.length_nil] at h1 h2
    refine ⟨out, ?_, by rw [h2]; simp [I256.Div.shlLoop]⟩
    rw [← h1, loop_step (by simp; omega)]
    simp only
    rw [usub_ok (by omega), usub_ok (by omega)]
    simp only [Res.mbind_ok, Nat.add_sub_cancel]
    rw [Bits.at_limb (by simp), getLimb_append_right rfl]
    simp only [Res.mbind_ok]
    rw [shr_ok cf _ (by omega), Bits.at_limb (by simp),
      show px ++ prev :: x :: xs = (px ++ [prev]) ++ x :: xs by simp,
      getLimb_append_right (by simp)]
    simp only [Res.mbind_ok]
    rw [shl_ok cf _ hsw]
    simp only [Res.mbind_ok]
    rw [Raw.set_ok (by simp; omega)]
    simp only [Res.mbind_ok, List.length_cons, List.replicate_succ]
    rw [List.set_append_right _ _ (by omega), hd]
    simp

theorem fullShl_lit (cf : Cfg) {s : Nat} (hs : s < w) {v : Limbs w} (hv : v ≠ []) :
    fullShl cf v s = .ok (apo (I256.Div.fullShl v s)) := by
  unfold fullShl
  rw [debugAssert_ok cf (decide_eq_true hs)]
  simp only [Res.mbind_ok]
  by_cases h0 : s = 0
  · rw [if_pos h0, I256.Div.fullShl, if_pos h0, apo_append]
  · rw [if_neg h0, I256.Div.fullShl, if_neg h0]
    obtain ⟨a, v, rfl⟩ : ∃ a r, v = a :: r := by
      cases v with
      | nil => exact absurd rfl hv
      | cons a r => exact ⟨a, r, rfl⟩
    obtain ⟨out, h1, h2⟩ := shlLoop_lit cf (N := (a :: v).length) (by omega) hs v [] [a <<< s] a
      (a :: v).length (by simp) (by simp; omega) (by simp)
    simp only [List.nil_append, List.length_nil] at h1 h2
    rw [Bits.at_limb (by simp)]
    simp only [Res.mbind_ok]
    rw [shl_ok cf _ hs]
    simp only [Res.mbind_ok]
    rw [Raw.set_ok (by simp)]
    simp only [Res.mbind_ok]
    have e : (List.replicate (a :: v).length (0 : BitVec w)).set 0 (getLimb (a :: v) 0 <<< s) =
        [a <<< s] ++ List.replicate v.length 0 := by
      simp [getLimb, List.replicate_succ]
    rw [e]
    refine (congrArg (fun r => Res.bind r _) h1).trans ?_
    simp only [Res.bind_ok]
    rw [usub_ok (by simp), usub_ok (by omega)]
    simp only [Res.mbind_ok]
    rw [Bits.at_limb (by simp)]
    simp only [Res.mbind_ok]
    rw [shr_ok cf _ (by omega)]
    simp only [Res.mbind_ok]
    have e2 : I256.Div.shlLoop s 0 (a :: v) =
        out ++ [getLimb (a :: v) ((a :: v).length - 1) >>> (w - s)] := by
      rw [h2]; simp [I256.Div.shlLoop]
    rw [e2, apo_append]

theorem shlWord_lit (cf : Cfg) {s : Nat} (hs : s < w) {v : Limbs w} (hv : v ≠ []) :
    shlWord cf v s = .ok (I256.Div.shlWord v s) := by
  unfold shlWord
  rw [fullShl_lit cf hs hv]
  simp only [Res.mbind_ok, apo, I256.Div.shlWord, (I256.Div.fullShl_spec hs v).1,
    Nat.add_sub_cancel]

theorem shrLoop_lit (cf : Cfg) {last s : Nat} (hs : 0 < s) (hsw : s < w) :
    ∀ (xs px done : Limbs w) (x : BitVec w) (fuel : Nat), xs.length ≤ fuel →
    px.length + xs.length = last → done.length = px.length →
    ∃ out, loop fuel (fun s => decide (s.1 < last)) (fun (i, out) => do
        let b ← at_ (px ++ x :: xs) i
        let lo ← shr cf b s
        let c ← at_ (px ++ x :: xs) (i + 1)
        let inv ← usub w s
        let hi ← shl cf c inv
        let out ← set_ out i (lo ||| hi)
        .ok (i + 1, out)) (px.length, done ++ List.replicate (xs.length + 1) 0) = .ok (last, out) ∧
      out.length = last + 1 ∧
      out.set last (getLimb (px ++ x :: xs) last >>> s) = done ++ I256.Div.shrLoop s (x :: xs)
  | [], px, done, x, fuel, _, hN, hd => by
    simp only [List.length_nil, Nat.add_zero] at hN
    refine ⟨done ++ List.replicate 1 0, ?_, by simp; omega, ?_⟩
    · rw [loop_done (by simp [hN])]
      simp [hN]
    · rw [getLimb_append_right hN, List.set_append_right _ _ (by omega)]
      simp [I256.Div.shrLoop, show last - done.length = 0 by omega]
  | y :: xs, px, done, x, fuel, hf, hN, hd => by
    simp only [List.length_cons] at hf hN
    obtain ⟨fuel, rfl⟩ : ∃ n, fuel = n + 1 := ⟨fuel - 1, by omega⟩
    obtain ⟨out, h1, hl, h2⟩ := shrLoop_lit cf (last := last) hs hsw xs (px ++ [x])
      (done ++ [(x >>> s) ||| (y <<< (w - s))]) y fuel (by omega)
      (by simp; omega) (by simp [hd])
    simp only [List.append_assoc, List.singleton_append, List.length_append, List.length_cons,
      List.length_nil] at h1 h2
    refine ⟨out, ?_, hl, by rw [h2]; simp [I256.Div.shrLoop]⟩
    rw [← h1, loop_step (by simp; omega)]
    simp only
    rw [Bits.at_limb (by simp), getLimb_append_right rfl, usub_ok (by omega)]
    simp only [Res.mbind_ok]
    rw [shr_ok cf _ hsw, Bits.at_limb (by simp),
      show px ++ x :: y :: xs = (px ++ [x]) ++ y :: xs by simp,
      getLimb_append_right (by simp)]
    simp only [Res.mbind_ok]
    rw [shl_ok cf _ (by omega)]
    simp only [Res.mbind_ok]
    rw [Raw.set_ok (by simp; omega)]
    simp only [Res.mbind_ok, List.length_cons]
    rw [List.replicate_succ, List.set_append_right _ _ (by omega), hd]
    simp

theorem fullShr_lit (cf : Cfg) {s : Nat} (hs : s < w) {v : Limbs w} (hv : 2 ≤ v.length) :
    fullShr cf (apo v) s = .ok (I256.Div.fullShr v s) := by
  unfold fullShr
  rw [debugAssert_ok cf (decide_eq_true hs)]
  simp only [Res.mbind_ok]
  by_cases h0 : s = 0
  · rw [if_pos h0, I256.Div.fullShr, if_pos h0]; rfl
  · rw [if_neg h0, I256.Div.fullShr, if_neg h0]
    have hl : (v.take (v.length - 1)).length = v.length - 1 := by simp
    have ha : (apo v).1 = v.take (v.length - 1) := rfl
    rw [ha]
    generalize v.take (v.length - 1) = u at hl
    obtain ⟨a, u, rfl⟩ : ∃ a r, u = a :: r := by
      cases u with
      | nil => simp at hl; omega
      | cons a r => exact ⟨a, r, rfl⟩
    obtain ⟨out, h1, hlo, h2⟩ := shrLoop_lit cf (last := u.length) (by omega) hs u [] [] a
      (a :: u).length (by simp) (by simp) (by simp)
    simp only [List.nil_append, List.length_nil] at h1 h2
    rw [usub_ok (by simp)]
    simp only [Res.mbind_ok, List.length_cons, Nat.add_sub_cancel]
    refine (congrArg (fun r => Res.bind r _) h1).trans ?_
    simp only [Res.bind_ok]
    rw [Bits.at_limb (by simp)]
    simp only [Res.mbind_ok]
    rw [shr_ok cf _ hs]
    simp only [Res.mbind_ok]
    rw [Raw.set_ok (by omega), h2]

theorem truncate_lit {N : Nat} {v : Limbs w} (h : N ≤ v.length) :
    truncate N v = .ok (v.take N) := by
  unfold truncate
  rw [assert_ok (decide_eq_true h)]
  simp only [Res.mbind_ok]
  have := loop_fill false (fun i => getLimb v i) (n := N) (L := N)
    (body := fun (i, r) => do
      let a ← at_ v i
      let r ← set_ r i a
      .ok (i + 1, r)) ?_ (List.replicate N 0) (by simp) (Nat.le_refl _)
  · refine (congrArg (fun r => Res.bind r _) this).trans ?_
    simp only [Res.bind_ok, mem]
    congr 1
    apply List.ext_getElem
    · simp [h]
    · intro i h1 h2
      simp at h1 h2
      simp [getLimb, h1, h2.2]
  · intro i R hi hR
    simp only [mem]
    rw [Bits.at_limb (by omega)]
    simp only [Res.mbind_ok]
    exact congrArg (fun r => Res.bind r _) (Raw.set_ok (x := R) (by omega) _)

end Div

end Raw

end I256
