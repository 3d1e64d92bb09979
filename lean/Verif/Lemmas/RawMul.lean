import Verif.Lemmas.RawAdd
import Verif.Model.RawMul
import Verif.Model.Mul
import Verif.Lemmas.Mul

/-!
# The literal multiplications compute the functional ones
-/

namespace I256

variable {w : Nat}

namespace Raw

theorem mul_add_lt {a b c d B : Nat} (ha : a < B) (hb : b < B) (hc : c < B) (hd : d < B) :
    a + b * c + d < B * B := by
  have h1 : b * c ≤ (B - 1) * (B - 1) := Nat.mul_le_mul (by omega) (by omega)
  obtain ⟨k, rfl⟩ : ∃ k, B = k + 1 := ⟨B - 1, by omega⟩
  simp only [Nat.add_sub_cancel] at h1
  have h2 : (k + 1) * (k + 1) = k * k + k + k + 1 := by ring
  omega

theorem wide_toNat (x : BitVec w) : (wide x).toNat = x.toNat := by
  unfold wide
  rw [BitVec.toNat_setWidth]
  exact Nat.mod_eq_of_lt (Nat.lt_of_lt_of_le x.isLt (Nat.pow_le_pow_right (by decide) (by omega)))

theorem mac_ok (hw : 0 < w) (a b c d : BitVec w) : mac a b c d = .ok (I256.mac a b c d) := by
  have ha := a.isLt
  have hb := b.isLt
  have hc := c.isLt
  have hd := d.isLt
  have e : (2 : Nat) ^ (w + w) = 2 ^ w * 2 ^ w := pow_add _ _ _
  have key := mul_add_lt ha hb hc hd
  have m : (wide b * wide c).toNat = b.toNat * c.toNat := by
    rw [BitVec.toNat_mul, wide_toNat, wide_toNat, Nat.mod_eq_of_lt (by omega)]
  have s : (wide a + wide b * wide c).toNat = a.toNat + b.toNat * c.toNat := by
    rw [BitVec.toNat_add, m, wide_toNat, Nat.mod_eq_of_lt (by omega)]
  unfold mac mul add shr
  rw [if_pos (by rw [wide_toNat, wide_toNat]; omega), Res.mbind_ok,
    if_pos (by rw [m, wide_toNat]; omega), Res.mbind_ok,
    if_pos (by rw [s, wide_toNat]; omega), Res.mbind_ok, if_pos (by omega), Res.mbind_ok]
  rfl

theorem carryingMul_ok (hw : 0 < w) (a b c : BitVec w) :
    carryingMul a b c = .ok (I256.carryingMul a b c) := by
  have ha := a.isLt
  have hb := b.isLt
  have hc := c.isLt
  have e : (2 : Nat) ^ (w + w) = 2 ^ w * 2 ^ w := pow_add _ _ _
  have key := mul_add_lt (show 0 < 2 ^ w by omega) ha hb hc
  have m : (wide a * wide b).toNat = a.toNat * b.toNat := by
    rw [BitVec.toNat_mul, wide_toNat, wide_toNat, Nat.mod_eq_of_lt (by omega)]
  unfold carryingMul mul add shr
  rw [if_pos (by rw [wide_toNat, wide_toNat]; omega), Res.mbind_ok,
    if_pos (by rw [m, wide_toNat]; omega), Res.mbind_ok, if_pos (by omega), Res.mbind_ok]
  rfl

theorem rd_at (be : Bool) {α : Type} (px xs : List α) (a : α) {i : Nat} (h : i = px.length) :
    rd be (mem be (px ++ a :: xs)) i = .ok a := by
  subst h
  rw [rd_ok be (by simp)]
  simp

theorem wr_at (be : Bool) {α : Type} (px xs : List α) (a v : α) {i : Nat} (h : i = px.length) :
    wr be (mem be (px ++ a :: xs)) i v = .ok (mem be (px ++ v :: xs)) := by
  subst h
  rw [wr_ok be (by simp)]
  simp

theorem isNegative_ok (be : Bool) {x : Limbs w} (h : x ≠ []) :
    isNegative be (mem be x) = .ok ((msLimb x).slt 0) := by
  have hl : 0 < x.length := List.length_pos_iff.mpr h
  unfold isNegative
  rw [mem_length, usub_ok (by omega), Res.mbind_ok, rd_limb be (by omega), Res.mbind_ok]
  rfl

theorem negateLoop_snoc (xs : Limbs w) (a : BitVec w) (c : Bool) :
    negateLoop (xs ++ [a]) c =
      (mapC (fun a c => uAddO (~~~a) (boolLimb w c)) xs c).1 ++
        [~~~a + boolLimb w (mapC (fun a c => uAddO (~~~a) (boolLimb w c)) xs c).2] := by
  induction xs generalizing c with
  | nil => rfl
  | cons x xs ih =>
    have := ih (uAddO (~~~x) (boolLimb w c)).2
    cases xs <;> simp_all [negateLoop, mapC]

theorem negate_ok (be : Bool) (x : Limbs w) (h1 : 1 ≤ x.length) :
    negate be (mem be x) = .ok (mem be (I256.negate x)) := by
  by_cases h2 : 2 ≤ x.length
  swap
  · obtain ⟨a, rfl⟩ := List.length_eq_one_iff.1 (show x.length = 1 by omega)
    have e : ∀ b : BitVec w, mem be [b] = [b] := by intro b; cases be <;> rfl
    simp only [negate, e, List.length_singleton, List.replicate_one, I256.negate, negateLoop]
    cases be <;> rfl
  obtain ⟨x0, xs, rfl⟩ : ∃ x0 xs, x = x0 :: xs := by
    cases x with
    | nil => simp at h2
    | cons x0 xs => exact ⟨x0, xs, rfl⟩
  obtain ⟨xs, a, rfl⟩ := snoc_of_ne (x := xs) (by rintro rfl; simp at h2)
  unfold negate
  rw [mem_length, rd_limb be (by simp), Res.mbind_ok]
  have h0 : getLimb (x0 :: (xs ++ [a])) 0 = x0 := rfl
  simp only [h0]
  rw [wr_rep be (by simp), Res.mbind_ok, usub_ok (by simp), Res.mbind_ok]
  have hz := loop_emit be (fun i c => uAddO (~~~(getLimb (x0 :: (xs ++ [a])) i)) (boolLimb w c))
    (fuel := (x0 :: (xs ++ [a])).length) (lo := 1) (hi := (x0 :: (xs ++ [a])).length - 1)
    (body := fun (index, result, c) => do
      let xi ← rd be (mem be (x0 :: (xs ++ [a]))) index
      let (v, c) := uAddO (~~~xi) (boolLimb w c)
      let result ← wr be result index v
      .ok (index + 1, result, c)) ?_ [(uAddO (~~~x0) 1).1] (List.replicate (xs ++ [a]).length 0)
      (uAddO (~~~x0) 1).2 rfl (by simp) (by simp; omega) (by simp)
  · have e : (List.replicate (x0 :: (xs ++ [a])).length 0#w).set 0 (uAddO (~~~x0) 1).1 =
        [(uAddO (~~~x0) 1).1] ++ List.replicate (xs ++ [a]).length 0#w := by
      simp [List.replicate_succ]
    simp only [BitVec.ofNat_eq_ofNat] at hz e ⊢
    rw [e, hz]
    rw [emit_map (fun a c => uAddO (~~~a) (boolLimb w c)) _ _ _ _ (by simp; omega)]
    have hl := mapC_length (fun a c => uAddO (~~~a) (boolLimb w c)) xs (uAddO (~~~x0) 1).2
    simp only [rd_limb be (show (x0 :: (xs ++ [a])).length - 1 < (x0 :: (xs ++ [a])).length by simp),
      Res.mbind_ok]
    rw [if_pos (by simp)]
    simp only [BitVec.ofNat_eq_ofNat, List.length_append, List.length_cons, List.length_nil,
      Nat.zero_add,
      Nat.add_sub_cancel, List.drop_succ_cons, List.drop_zero, List.take_left, List.drop_replicate,
      Nat.add_sub_cancel_left, List.replicate_one] at hl ⊢
    rw [← List.cons_append, getLimb_snoc _ _ _ (by simp), wr_ok be (by simp [hl]),
      set_snoc _ _ _ _ (by simp [hl]), List.cons_append]
    simp [I256.negate, negateLoop_snoc]
  · intro i s R h1 h2 h3
    simp only [rd_limb be (show i < (x0 :: (xs ++ [a])).length by omega), Res.mbind_ok, wr_ok be h3]

namespace Mul

/-- The multiply-and-add of one row, without the store of the carry. -/
def macC (xi : BitVec w) : Limbs w → Limbs w → BitVec w → Limbs w × BitVec w
  | y :: ys, r :: rs, c =>
    ((I256.mac r xi y c).1 :: (macC xi ys rs (I256.mac r xi y c).2).1,
      (macC xi ys rs (I256.mac r xi y c).2).2)
  | _, rs, c => (rs, c)

theorem macC_length (xi : BitVec w) (ys rs : Limbs w) (c : BitVec w) :
    (macC xi ys rs c).1.length = rs.length := by
  induction ys generalizing rs c with
  | nil => cases rs <;> rfl
  | cons y ys ih =>
    cases rs with
    | nil => rfl
    | cons r rs => simp [macC, ih]

theorem row_eq (xi : BitVec w) (ys rs : Limbs w) (c : BitVec w) :
    I256.Mul.row xi ys rs c =
      if ys.length < rs.length then (macC xi ys rs c).1.set ys.length (macC xi ys rs c).2
      else (macC xi ys rs c).1 := by
  induction ys generalizing rs c with
  | nil => cases rs <;> simp [I256.Mul.row, macC]
  | cons y ys ih =>
    cases rs with
    | nil => simp [I256.Mul.row, macC]
    | cons r rs =>
      simp only [I256.Mul.row, macC, ih, List.length_cons, Nat.add_lt_add_iff_right]
      split <;> simp

theorem rowO_eq (xi : BitVec w) (ys rs : Limbs w) (c : BitVec w) :
    I256.Mul.rowO xi ys rs c =
      (I256.Mul.row xi ys rs c, if ys.length < rs.length then false
        else I256.Mul.dropped xi (ys.drop rs.length) || !decide ((macC xi ys rs c).2 = 0)) := by
  induction ys generalizing rs c with
  | nil =>
    cases rs
    · simp [I256.Mul.row, I256.Mul.rowO]
      rfl
    · simp [I256.Mul.row, I256.Mul.rowO]
  | cons y ys ih =>
    cases rs with
    | nil =>
      simp [I256.Mul.row, I256.Mul.rowO]
      rfl
    | cons r rs =>
      simp only [I256.Mul.row, I256.Mul.rowO, macC, ih, List.length_cons, Nat.add_lt_add_iff_right,
        List.drop_succ_cons]
      rfl

theorem inner_ok (be : Bool) (hw : 0 < w) (xi : BitVec w) (i M : Nat) (py ys done rs : Limbs w)
    (c : BitVec w) (fuel : Nat) (hf : ys.length ≤ fuel) (hd : done.length = i + py.length)
    (hM : M = done.length + rs.length) :
    ∃ j', loop fuel (fun s => decide (s.1 < (mem be (py ++ ys)).length) && decide (i + s.1 < M))
      (fun ((j, r, carry) : Nat × Limbs w × BitVec w) => do
        let ij := i + j
        let yj ← rd be (mem be (py ++ ys)) j
        let rij ← rd be r ij
        let (vij, carry) ← mac rij xi yj carry
        let r ← wr be r ij vij
        .ok (j + 1, r, carry)) (py.length, mem be (done ++ rs), c) =
      .ok (j', mem be (done ++ (macC xi ys rs c).1), (macC xi ys rs c).2) := by
  induction ys generalizing py done rs c fuel with
  | nil =>
    refine ⟨py.length, ?_⟩
    rw [loop_done (by simp)]
    cases rs <;> rfl
  | cons y ys ih =>
    cases rs with
    | nil =>
      refine ⟨py.length, ?_⟩
      rw [loop_done (by simp at hM; simp; omega)]
      rfl
    | cons r rs =>
      obtain ⟨fuel, rfl⟩ : ∃ n, fuel = n + 1 := ⟨fuel - 1, by simp at hf; omega⟩
      have hs : (fun ((j, r, carry) : Nat × Limbs w × BitVec w) => (do
        let ij := i + j
        let yj ← rd be (mem be (py ++ y :: ys)) j
        let rij ← rd be r ij
        let (vij, carry) ← mac rij xi yj carry
        let r ← wr be r ij vij
        .ok (j + 1, r, carry) : Res _)) (py.length, mem be (done ++ r :: rs), c) =
        .ok (py.length + 1, mem be (done ++ (I256.mac r xi y c).1 :: rs), (I256.mac r xi y c).2) := by
        simp only [rd_at be py ys y rfl, rd_at be done rs r hd.symm, Res.mbind_ok, mac_ok hw,
          wr_at be done rs r _ hd.symm]
      rw [loop_step (by simp at hM; simp; omega) hs]
      obtain ⟨j', h⟩ := ih (py ++ [y]) (done ++ [(I256.mac r xi y c).1]) rs (I256.mac r xi y c).2 fuel
        (by simpa using hf) (by simp [hd]; omega) (by simp at hM ⊢; omega)
      refine ⟨j', ?_⟩
      simp only [List.append_assoc, List.singleton_append, List.length_append, List.length_cons,
        List.length_nil, Nat.zero_add] at h
      exact h

theorem inner_ok' (be : Bool) (hw : 0 < w) (xi : BitVec w) (i M : Nat) (ys done rs : Limbs w)
    (c : BitVec w) (hd : done.length = i) (hM : M = done.length + rs.length) :
    ∃ j', inner be (mem be ys) xi i M (0, mem be (done ++ rs), c) =
      .ok (j', mem be (done ++ (macC xi ys rs c).1), (macC xi ys rs c).2) := by
  have := inner_ok be hw xi i M [] ys done rs c (mem be ys).length (by simp) (by simpa using hd) hM
  exact this

theorem rows_loop (be : Bool) (hw : 0 < w) (M : Nat) (px xs ys done rs : Limbs w) (fuel : Nat)
    (hf : xs.length ≤ fuel) (hd : done.length = px.length) (hM : M = done.length + rs.length)
    (hx : px.length + xs.length = M) :
    loop fuel (fun s => decide (s.1 < M)) (fun ((i, r) : Nat × Limbs w) => do
      let xi ← rd be (mem be (px ++ xs)) i
      let (_, r, carry) ← inner be (mem be ys) xi i M (0, r, 0)
      let r ← if ys.length < M ∧ i + ys.length < M then wr be r (i + ys.length) carry else .ok r
      .ok (i + 1, r)) (px.length, mem be (done ++ rs)) =
      .ok (M, mem be (done ++ I256.Mul.rows xs ys rs)) := by
  induction xs generalizing px done rs fuel with
  | nil =>
    rw [loop_done (by simp at hx; simp; omega)]
    simp at hx
    simp [I256.Mul.rows, hx]
  | cons x xs ih =>
    obtain ⟨fuel, rfl⟩ : ∃ n, fuel = n + 1 := ⟨fuel - 1, by simp at hf; omega⟩
    simp only [List.length_cons] at hx
    have hl : (I256.Mul.row x ys rs 0).length = rs.length := by
      rw [row_eq]
      split <;> simp [macC_length]
    obtain ⟨r, rs', hr⟩ : ∃ r rs', I256.Mul.row x ys rs 0 = r :: rs' := by
      cases h : I256.Mul.row x ys rs 0 with
      | nil => rw [h] at hl; simp at hl; omega
      | cons r rs' => exact ⟨r, rs', rfl⟩
    rw [hr] at hl
    have hs : (fun ((i, r) : Nat × Limbs w) => (do
      let xi ← rd be (mem be (px ++ x :: xs)) i
      let (_, r, carry) ← inner be (mem be ys) xi i M (0, r, 0)
      let r ← if ys.length < M ∧ i + ys.length < M then wr be r (i + ys.length) carry else .ok r
      .ok (i + 1, r) : Res _)) (px.length, mem be (done ++ rs)) =
        .ok (px.length + 1, mem be (done ++ r :: rs')) := by
      obtain ⟨j', hj⟩ := inner_ok' be hw x px.length M ys done rs 0 hd hM
      simp only [rd_at be px xs x rfl, Res.mbind_ok, hj]
      by_cases hc : ys.length < rs.length
      · rw [if_pos (by omega), wr_ok be (by simp [macC_length]; omega), Res.mbind_ok, ← hr, row_eq,
          if_pos hc, List.set_append_right _ _ (by omega)]
        simp [hd]
      · rw [if_neg (by omega), ← hr, row_eq, if_neg hc]
    rw [loop_step (by simp; omega) hs]
    have h := ih (px ++ [x]) (done ++ [r]) rs' fuel
        (by simpa using hf) (by simp [hd]) (by simp at hl ⊢; omega) (by simp; omega)
    simp only [List.append_assoc, List.singleton_append, List.length_append, List.length_cons,
        List.length_nil, Nat.zero_add] at h
    refine h.trans ?_
    rw [I256.Mul.rows, hr]

theorem wrappingFull_ok (be : Bool) (hw : 0 < w) (x y : Limbs w) (h : y.length ≤ x.length) :
    wrappingFull be (mem be x) (mem be y) = .ok (mem be (I256.Mul.wrappingFull x y)) := by
  unfold wrappingFull
  simp only [mem_length]
  rw [assert_ok (by simpa using h), Res.mbind_ok]
  have := rows_loop be hw x.length [] x y [] (List.replicate x.length 0) x.length (by simp) rfl
    (by simp) (by simp)
  simp only [List.nil_append, List.length_nil, mem_replicate] at this
  rw [this]
  rfl

theorem wrappingLimb_ok (be : Bool) (hw : 0 < w) (x : Limbs w) (y : BitVec w) (h : 1 ≤ x.length) :
    wrappingLimb be (mem be x) y = .ok (mem be (I256.Mul.wrappingLimb x y)) := by
  have e : mem be [y] = [y] := by cases be <;> rfl
  unfold wrappingLimb
  rw [← e]
  exact wrappingFull_ok be hw x [y] h

theorem wrappingWide_ok (be : Bool) (hw : 0 < w) (x : Limbs w) (y : BitVec (w + w))
    (h : 2 ≤ x.length) :
    wrappingWide be (mem be x) y = .ok (mem be (I256.Mul.wrappingWide x y)) := by
  unfold wrappingWide
  rw [rhsUW_ok be hw (Nat.le_refl 2), Res.mbind_ok]
  exact wrappingFull_ok be hw x (extUW 2 y) (by simpa [extUW] using h)

theorem wrappingILimb_ok (be : Bool) (hw : 0 < w) (x : Limbs w) (y : BitVec w) (h : 1 ≤ x.length) :
    wrappingILimb be (mem be x) y = .ok (mem be (I256.Mul.wrappingILimb x y)) := by
  unfold wrappingILimb
  rw [mem_length, rhsI_ok be h, Res.mbind_ok]
  exact wrappingFull_ok be hw x _ (by simp [extI]; omega)

theorem wrappingIWide_ok (be : Bool) (hw : 0 < w) (x : Limbs w) (y : BitVec (w + w))
    (h : 2 ≤ x.length) :
    wrappingIWide be (mem be x) y = .ok (mem be (I256.Mul.wrappingIWide x y)) := by
  unfold wrappingIWide
  rw [mem_length, rhsIW_ok be hw h, Res.mbind_ok]
  exact wrappingFull_ok be hw x _ (by simp [extIW]; omega)

/-- The inner loop of the overflowing product, from any position. -/
theorem innerO_ok (be : Bool) (hw : 0 < w) (xi : BitVec w) (i M : Nat) (py ys done rs : Limbs w)
    (c : BitVec w) (o : Bool) (fuel : Nat) (hf : ys.length ≤ fuel)
    (hd : rs ≠ [] → done.length = i + py.length)
    (hd' : rs = [] → M ≤ i + py.length) (hM : M = done.length + rs.length) :
    ∃ j' b', loop fuel (fun s => decide (s.1 < (mem be (py ++ ys)).length) && !s.2.2.2.2)
      (fun ((j, r, carry, overflowed, broken) : Nat × Limbs w × BitVec w × Bool × Bool) => do
        let ij := i + j
        let yj ← rd be (mem be (py ++ ys)) j
        if ij < M then
          let rij ← rd be r ij
          let (vij, carry) ← mac rij xi yj carry
          let r ← wr be r ij vij
          .ok (j + 1, r, carry, overflowed, broken)
        else if xi ≠ 0 ∧ yj ≠ 0 then .ok (j, r, carry, true, true)
        else .ok (j + 1, r, carry, overflowed, broken))
      (py.length, mem be (done ++ rs), c, o, false) =
      .ok (j', mem be (done ++ (macC xi ys rs c).1), (macC xi ys rs c).2,
        o || I256.Mul.dropped xi (ys.drop rs.length), b') := by
  induction ys generalizing py done rs c fuel with
  | nil =>
    refine ⟨py.length, false, ?_⟩
    rw [loop_done (by simp)]
    cases rs <;> simp [macC, I256.Mul.dropped]
  | cons y ys ih =>
    obtain ⟨fuel, rfl⟩ : ∃ n, fuel = n + 1 := ⟨fuel - 1, by simp at hf; omega⟩
    cases rs with
    | nil =>
      have hi := hd' rfl
      by_cases hxy : xi ≠ 0 ∧ y ≠ 0
      · refine ⟨py.length, true, ?_⟩
        rw [loop_step (t := (py.length, mem be (done ++ []), c, true, true)) (by simp),
          loop_done (by simp)]
        · have e : I256.Mul.dropped xi ((y :: ys).drop ([] : Limbs w).length) = true := by
            simp only [List.length_nil, List.drop_zero, I256.Mul.dropped]
            rw [if_pos hxy]
          rw [e, Bool.or_true]
          rfl
        · simp only [rd_at be py ys y rfl, Res.mbind_ok]
          rw [if_neg (by omega), if_pos hxy]
      · obtain ⟨j', b', h⟩ := ih (py ++ [y]) done [] c fuel (by simpa using hf) (by simp)
          (by simp; omega) hM
        refine ⟨j', b', ?_⟩
        rw [loop_step (t := (py.length + 1, mem be (done ++ []), c, o, false)) (by simp)]
        · simp only [List.append_assoc, List.singleton_append, List.length_append, List.length_cons,
            List.length_nil, Nat.zero_add, List.drop_zero] at h ⊢
          refine h.trans ?_
          have e : I256.Mul.dropped xi (y :: ys) = I256.Mul.dropped xi ys := by
            simp only [I256.Mul.dropped]
            rw [if_neg hxy]
          rw [e]
          cases ys <;> rfl
        · simp only [rd_at be py ys y rfl, Res.mbind_ok]
          rw [if_neg (by omega), if_neg hxy]
    | cons r rs =>
      have hd := hd (by simp)
      obtain ⟨j', b', h⟩ := ih (py ++ [y]) (done ++ [(I256.mac r xi y c).1]) rs
        (I256.mac r xi y c).2 fuel
        (by simpa using hf) (by simp [hd]; omega)
        (by rintro rfl; simp at hM ⊢; omega) (by simp at hM ⊢; omega)
      refine ⟨j', b', ?_⟩
      rw [loop_step (t := (py.length + 1, mem be (done ++ (I256.mac r xi y c).1 :: rs),
        (I256.mac r xi y c).2, o, false)) (by simp)]
      · simp only [List.append_assoc, List.singleton_append, List.length_append, List.length_cons,
          List.length_nil, Nat.zero_add] at h
        refine h.trans ?_
        simp [macC]
      · simp only [rd_at be py ys y rfl, Res.mbind_ok]
        rw [if_pos (by simp at hM; omega)]
        simp only [rd_at be done rs r hd.symm, Res.mbind_ok, mac_ok hw,
          wr_at be done rs r _ hd.symm]

theorem innerO_ok' (be : Bool) (hw : 0 < w) (xi : BitVec w) (i M : Nat) (ys done rs : Limbs w)
    (c : BitVec w) (o : Bool) (hd : done.length = i) (hM : M = done.length + rs.length) :
    ∃ j' b', innerO be (mem be ys) xi i M (0, mem be (done ++ rs), c, o, false) =
      .ok (j', mem be (done ++ (macC xi ys rs c).1), (macC xi ys rs c).2,
        o || I256.Mul.dropped xi (ys.drop rs.length), b') := by
  have := innerO_ok be hw xi i M [] ys done rs c o (mem be ys).length (by simp) (by simp [hd])
    (by rintro rfl; simp at hM; simp; omega) hM
  exact this

theorem rowsO_loop (be : Bool) (hw : 0 < w) (M : Nat) (px xs ys done rs : Limbs w) (o : Bool)
    (fuel : Nat)
    (hf : xs.length ≤ fuel) (hd : done.length = px.length) (hM : M = done.length + rs.length)
    (hx : px.length + xs.length = M) :
    loop fuel (fun s => decide (s.1 < M)) (fun ((i, r, overflowed) : Nat × Limbs w × Bool) => do
      let xi ← rd be (mem be (px ++ xs)) i
      let (_, r, carry, overflowed, _) ← innerO be (mem be ys) xi i M (0, r, 0, overflowed, false)
      if ys.length < M ∧ i + ys.length < M then
        let r ← wr be r (i + ys.length) carry
        .ok (i + 1, r, overflowed)
      else if carry ≠ 0 then .ok (i + 1, r, true)
      else .ok (i + 1, r, overflowed)) (px.length, mem be (done ++ rs), o) =
      .ok (M, mem be (done ++ (I256.Mul.rowsO xs ys rs).1), o || (I256.Mul.rowsO xs ys rs).2) := by
  induction xs generalizing px done rs o fuel with
  | nil =>
    rw [loop_done (by simp at hx; simp; omega)]
    simp at hx
    simp [I256.Mul.rowsO, hx]
  | cons x xs ih =>
    obtain ⟨fuel, rfl⟩ : ∃ n, fuel = n + 1 := ⟨fuel - 1, by simp at hf; omega⟩
    simp only [List.length_cons] at hx
    have hl : (I256.Mul.row x ys rs 0).length = rs.length := by
      rw [row_eq]
      split <;> simp [macC_length]
    obtain ⟨r, rs', hr⟩ : ∃ r rs', I256.Mul.row x ys rs 0 = r :: rs' := by
      cases h : I256.Mul.row x ys rs 0 with
      | nil => rw [h] at hl; simp at hl; omega
      | cons r rs' => exact ⟨r, rs', rfl⟩
    rw [hr] at hl
    have hs : (fun ((i, r, overflowed) : Nat × Limbs w × Bool) => (do
      let xi ← rd be (mem be (px ++ x :: xs)) i
      let (_, r, carry, overflowed, _) ← innerO be (mem be ys) xi i M (0, r, 0, overflowed, false)
      if ys.length < M ∧ i + ys.length < M then
        let r ← wr be r (i + ys.length) carry
        .ok (i + 1, r, overflowed)
      else if carry ≠ 0 then .ok (i + 1, r, true)
      else .ok (i + 1, r, overflowed) : Res _)) (px.length, mem be (done ++ rs), o) =
        .ok (px.length + 1, mem be (done ++ r :: rs'), o || (I256.Mul.rowO x ys rs 0).2) := by
      obtain ⟨j', b', hj⟩ := innerO_ok' be hw x px.length M ys done rs 0 o hd hM
      simp only [rd_at be px xs x rfl, Res.mbind_ok, hj, rowO_eq]
      by_cases hc : ys.length < rs.length
      · rw [if_pos (by omega), wr_ok be (by simp [macC_length]; omega), Res.mbind_ok, ← hr, row_eq,
          if_pos hc, List.set_append_right _ _ (by omega), if_pos hc,
          List.drop_eq_nil_of_le (by omega)]
        simp [hd, I256.Mul.dropped]
      · rw [if_neg (by omega), ← hr, row_eq, if_neg hc, if_neg hc]
        by_cases h0 : (macC x ys rs 0).2 = 0
        · rw [if_neg (not_not.mpr h0), decide_eq_true h0]
          simp
        · rw [if_pos h0, decide_eq_false h0]
          simp
    rw [loop_step (by simp; omega) hs]
    have h := ih (px ++ [x]) (done ++ [r]) rs' (o || (I256.Mul.rowO x ys rs 0).2) fuel
        (by simpa using hf) (by simp [hd]) (by simp at hl ⊢; omega) (by simp; omega)
    simp only [List.append_assoc, List.singleton_append, List.length_append, List.length_cons,
        List.length_nil, Nat.zero_add] at h
    refine h.trans ?_
    have e : I256.Mul.rowO x ys rs 0 = (r :: rs', (I256.Mul.rowO x ys rs 0).2) := by
      rw [← hr, rowO_eq]
    rw [I256.Mul.rowsO, e]
    simp [Bool.or_assoc]

theorem overflowingFull_ok (be : Bool) (hw : 0 < w) (x y : Limbs w) (h : y.length ≤ x.length) :
    overflowingFull be (mem be x) (mem be y) =
      .ok (mem be (I256.Mul.overflowingFull x y).1, (I256.Mul.overflowingFull x y).2) := by
  unfold overflowingFull
  simp only [mem_length]
  rw [assert_ok (by simpa using h), Res.mbind_ok]
  have := rowsO_loop be hw x.length [] x y [] (List.replicate x.length 0) false x.length (by simp) rfl
    (by simp) (by simp)
  simp only [List.nil_append, List.length_nil, mem_replicate] at this
  rw [this]
  simp [I256.Mul.overflowingFull]

theorem overflowingLimb_ok (be : Bool) (hw : 0 < w) (x : Limbs w) (y : BitVec w) (h : 1 ≤ x.length) :
    overflowingLimb be (mem be x) y =
      .ok (mem be (I256.Mul.overflowingLimb x y).1, (I256.Mul.overflowingLimb x y).2) := by
  have e : mem be [y] = [y] := by cases be <;> rfl
  unfold overflowingLimb
  rw [← e]
  exact overflowingFull_ok be hw x [y] h

theorem overflowingWide_ok (be : Bool) (hw : 0 < w) (x : Limbs w) (y : BitVec (w + w))
    (h : 2 ≤ x.length) :
    overflowingWide be (mem be x) y =
      .ok (mem be (I256.Mul.overflowingWide x y).1, (I256.Mul.overflowingWide x y).2) := by
  unfold overflowingWide
  rw [rhsUW_ok be hw (Nat.le_refl 2), Res.mbind_ok]
  exact overflowingFull_ok be hw x (extUW 2 y) (by simpa [extUW] using h)

theorem negate_length (x : Limbs w) : (I256.negate x).length = x.length := by
  have aux : ∀ (x : Limbs w) c, (negateLoop x c).length = x.length := by
    intro x
    induction x with
    | nil => intro c; rfl
    | cons a x ih =>
      intro c
      cases x with
      | nil => rfl
      | cons b x => simp [negateLoop, ih]
  cases x with
  | nil => rfl
  | cons a x => simp [I256.negate, aux]

theorem rowsO_length (xs ys rs : Limbs w) : (I256.Mul.rowsO xs ys rs).1.length = rs.length := by
  induction xs generalizing rs with
  | nil => rfl
  | cons x xs ih =>
    have hl : (I256.Mul.row x ys rs 0).length = rs.length := by
      rw [row_eq]
      split <;> simp [macC_length]
    have e : I256.Mul.rowO x ys rs 0 = (I256.Mul.row x ys rs 0, (I256.Mul.rowO x ys rs 0).2) := by
      rw [rowO_eq]
    rw [I256.Mul.rowsO, e]
    cases hr : I256.Mul.row x ys rs 0 with
    | nil => rw [hr] at hl; simpa using hl
    | cons r rs' => rw [hr] at hl; simp at hl; simp [ih, hl]

/-- The right operand may be shorter. -/
theorem overflowingFullS_gen (be : Bool) (hw : 0 < w) (x y : Limbs w) (h : y.length ≤ x.length)
    (h1 : 1 ≤ y.length) :
    overflowingFullS be (mem be x) (mem be y) =
      .ok (mem be (I256.Mul.overflowingFullS x y).1, (I256.Mul.overflowingFullS x y).2) := by
  have key : ∀ (x' y' : Limbs w) (s : Bool), x'.length = x.length → y'.length ≤ x.length →
      (do
        let (r, overflowed) ← overflowingFull be (mem be x') (mem be y')
        let last ← usub (mem be x').length 1
        let msl ← rd be r last
        let rNeg := msl.slt 0
        if !s then .ok (r, overflowed || rNeg)
        else
          let isMin := msl == BitVec.intMin w
          let r ← negate be r
          .ok (r, overflowed || (rNeg ^^ isMin)) : Res (Limbs w × Bool)) =
      .ok (if !s then (mem be (I256.Mul.overflowingFull x' y').1,
          (I256.Mul.overflowingFull x' y').2 || (msLimb (I256.Mul.overflowingFull x' y').1).slt 0)
        else (mem be (I256.negate (I256.Mul.overflowingFull x' y').1),
          (I256.Mul.overflowingFull x' y').2 ||
            ((msLimb (I256.Mul.overflowingFull x' y').1).slt 0 ^^
              (msLimb (I256.Mul.overflowingFull x' y').1 == BitVec.intMin w)))) := by
    intro x' y' s lx ly
    have lr : (I256.Mul.overflowingFull x' y').1.length = x.length := by
      simp [I256.Mul.overflowingFull, rowsO_length, lx]
    have em : getLimb (I256.Mul.overflowingFull x' y').1 (x.length - 1) =
        msLimb (I256.Mul.overflowingFull x' y').1 := by
      rw [msLimb, lr]
    rw [overflowingFull_ok be hw _ _ (by omega)]
    simp only [Res.mbind_ok, mem_length, lx]
    rw [usub_ok (by omega), Res.mbind_ok, rd_limb be (by omega), Res.mbind_ok, em]
    cases s
    · rfl
    · rw [if_neg (by simp), if_neg (by simp), negate_ok be _ (by omega)]
      rfl
  unfold overflowingFullS I256.Mul.overflowingFullS
  rw [isNegative_ok be (List.length_pos_iff.1 (by omega)), Res.mbind_ok,
    isNegative_ok be (List.length_pos_iff.1 (by omega)), Res.mbind_ok]
  cases hx : (msLimb x).slt 0 <;> cases hy : (msLimb y).slt 0
  · exact key x y false rfl h
  · simp only [if_true, Bool.false_eq_true, if_false, negate_ok be y (by omega), Res.mbind_ok]
    exact key x (I256.negate y) true rfl (by rwa [negate_length])
  · simp only [if_true, Bool.false_eq_true, if_false, negate_ok be x (by omega), Res.mbind_ok]
    exact key (I256.negate x) y true (by rw [negate_length]) h
  · simp only [if_true, negate_ok be x (by omega), negate_ok be y (by omega), Res.mbind_ok]
    exact key (I256.negate x) (I256.negate y) false (by rw [negate_length]) (by rwa [negate_length])

theorem overflowingFullS_ok (be : Bool) (hw : 0 < w) (x y : Limbs w) (h : y.length = x.length)
    (h2 : 2 ≤ x.length) :
    overflowingFullS be (mem be x) (mem be y) =
      .ok (mem be (I256.Mul.overflowingFullS x y).1, (I256.Mul.overflowingFullS x y).2) :=
  overflowingFullS_gen be hw x y h.le (by omega)

theorem overflowingULimbS_ok (be : Bool) (hw : 0 < w) (x : Limbs w) (y : BitVec w)
    (h2 : 2 ≤ x.length) :
    overflowingULimbS be (mem be x) y =
      .ok (mem be (I256.Mul.overflowingULimbS x y).1, (I256.Mul.overflowingULimbS x y).2) := by
  unfold overflowingULimbS
  rw [mem_length, wr_rep be (by omega), Res.mbind_ok]
  have e : (List.replicate x.length 0).set 0 y = extU x.length y := by
    obtain ⟨m, hm⟩ : ∃ m, x.length = m + 1 := ⟨x.length - 1, by omega⟩
    simp [extU, hm, List.replicate_succ]
  rw [e]
  exact overflowingFullS_ok be hw x _ (by simp [extU]; omega) h2

theorem overflowingUWideS_ok (be : Bool) (hw : 0 < w) (x : Limbs w) (y : BitVec (w + w))
    (h2 : 2 ≤ x.length) :
    overflowingUWideS be (mem be x) y =
      .ok (mem be (I256.Mul.overflowingUWideS x y).1, (I256.Mul.overflowingUWideS x y).2) := by
  unfold overflowingUWideS
  rw [mem_length, rhsUW_ok be hw h2, Res.mbind_ok]
  exact overflowingFullS_ok be hw x _ (by simp [extUW]; omega) h2

theorem overflowingILimbS_ok (be : Bool) (hw : 0 < w) (x : Limbs w) (y : BitVec w)
    (h2 : 2 ≤ x.length) :
    overflowingILimbS be (mem be x) y =
      .ok (mem be (I256.Mul.overflowingILimbS x y).1, (I256.Mul.overflowingILimbS x y).2) := by
  unfold overflowingILimbS
  rw [mem_length, rhsI_ok be (by omega), Res.mbind_ok]
  exact overflowingFullS_ok be hw x _ (by simp [extI]; omega) h2

theorem overflowingIWideS_ok (be : Bool) (hw : 0 < w) (x : Limbs w) (y : BitVec (w + w))
    (h2 : 2 ≤ x.length) :
    overflowingIWideS be (mem be x) y =
      .ok (mem be (I256.Mul.overflowingIWideS x y).1, (I256.Mul.overflowingIWideS x y).2) := by
  unfold overflowingIWideS
  rw [mem_length, rhsIW_ok be hw h2, Res.mbind_ok]
  exact overflowingFullS_ok be hw x _ (by simp [extIW]; omega) h2

/-- Reading from the pair of arrays that `widening` keeps. -/
theorem rd_pair (be : Bool) (M ij : Nat) (R : Limbs w) (hR : R.length = M + M) (h : ij < M + M) :
    (if ij < M then rd be (mem be (R.take M)) ij
      else (usub ij M).bind fun k => rd be (mem be (R.drop M)) k) = .ok (getLimb R ij) := by
  split
  · rename_i hlt
    rw [rd_limb be (by simp; omega)]
    simp [getLimb, List.getD_eq_getElem?_getD, List.getElem?_take, hlt]
  · rw [usub_ok (by omega), Res.bind_ok, rd_limb be (by simp; omega)]
    simp only [getLimb, List.getD_eq_getElem?_getD, List.getElem?_drop]
    congr 3
    omega

theorem take_set' (R : Limbs w) (M k : Nat) (v : BitVec w) (h : k < M) :
    (R.take M).set k v = (R.set k v).take M := by
  rw [List.take_set]

theorem drop_set_low (R : Limbs w) (M k : Nat) (v : BitVec w) (h : k < M) :
    (R.set k v).drop M = R.drop M := by
  rw [List.drop_set, if_pos h]

theorem take_set_high (R : Limbs w) (M k : Nat) (v : BitVec w) (h : M ≤ k) :
    (R.set k v).take M = R.take M := by
  rw [List.take_set]
  exact List.set_eq_of_length_le (by simp; omega)

theorem drop_set_high (R : Limbs w) (M k : Nat) (v : BitVec w) (h : M ≤ k) :
    (R.set k v).drop M = (R.drop M).set (k - M) v := by
  rw [List.drop_set, if_neg (by omega)]

theorem innerW_ok (be : Bool) (hw : 0 < w) (xi : BitVec w) (i M : Nat) (py ys done rs : Limbs w)
    (c : BitVec w) (fuel : Nat) (hf : ys.length ≤ fuel) (hd : done.length = i + py.length)
    (hM : (done ++ rs).length = M + M) (hy : py.length + ys.length = M) (hi : i < M) :
    loop fuel (fun s => decide (s.1 < M))
      (fun ((j, lo, hi, carry) : Nat × Limbs w × Limbs w × BitVec w) => do
        let ij := i + j
        let yj ← rd be (mem be (py ++ ys)) j
        if ij < M then
          let v ← rd be lo ij
          let (vij, carry) ← mac v xi yj carry
          let lo ← wr be lo ij vij
          .ok (j + 1, lo, hi, carry)
        else
          let k ← usub ij M
          let v ← rd be hi k
          let (vij, carry) ← mac v xi yj carry
          let hi ← wr be hi k vij
          .ok (j + 1, lo, hi, carry))
      (py.length, mem be ((done ++ rs).take M), mem be ((done ++ rs).drop M), c) =
      .ok (M, mem be ((done ++ (macC xi ys rs c).1).take M),
        mem be ((done ++ (macC xi ys rs c).1).drop M), (macC xi ys rs c).2) := by
  induction ys generalizing py done rs c fuel with
  | nil =>
    simp at hy
    rw [loop_done (by simp; omega), hy]
    cases rs <;> rfl
  | cons y ys ih =>
    simp only [List.length_cons] at hy
    cases rs with
    | nil => simp at hM; omega
    | cons r rs =>
      obtain ⟨fuel, rfl⟩ : ∃ n, fuel = n + 1 := ⟨fuel - 1, by simp at hf; omega⟩
      have hg : getLimb (done ++ r :: rs) (i + py.length) = r := by
        rw [← hd]
        simp [getLimb]
      have hset : (done ++ r :: rs).set (i + py.length) (I256.mac r xi y c).1 =
          done ++ (I256.mac r xi y c).1 :: rs := by
        rw [← hd]
        simp
      have hp := rd_pair be M (i + py.length) (done ++ r :: rs) hM (by omega)
      rw [loop_step (t := (py.length + 1, mem be ((done ++ (I256.mac r xi y c).1 :: rs).take M),
        mem be ((done ++ (I256.mac r xi y c).1 :: rs).drop M), (I256.mac r xi y c).2))
        (by simp; omega)]
      · have h := ih (py ++ [y]) (done ++ [(I256.mac r xi y c).1]) rs (I256.mac r xi y c).2 fuel
          (by simpa using hf) (by simp [hd]; omega) (by simpa using hM) (by simp; omega)
        simp only [List.append_assoc, List.singleton_append, List.length_append, List.length_cons,
          List.length_nil, Nat.zero_add] at h
        exact h
      · simp only [rd_at be py ys y rfl, Res.mbind_ok]
        rw [hg] at hp
        split
        · rename_i hlt
          rw [if_pos hlt] at hp
          rw [hp]
          simp only [Res.mbind_ok, mac_ok hw]
          rw [wr_ok be (by simp at hM ⊢; omega), take_set' _ _ _ _ hlt, hset, Res.mbind_ok,
            ← drop_set_low (done ++ r :: rs) M _ (I256.mac r xi y c).1 hlt, hset]
        · rename_i hge
          rw [if_neg hge, usub_ok (by omega), Res.bind_ok] at hp
          rw [usub_ok (by omega), Res.mbind_ok, hp]
          simp only [Res.mbind_ok, mac_ok hw]
          rw [wr_ok be (by simp at hM ⊢; omega), ← drop_set_high _ _ _ _ (by omega), hset,
            Res.mbind_ok, ← take_set_high (done ++ r :: rs) M (i + py.length)
              (I256.mac r xi y c).1 (by omega), hset]

theorem innerW_ok' (be : Bool) (hw : 0 < w) (xi : BitVec w) (i M : Nat) (ys done rs : Limbs w)
    (c : BitVec w) (hd : done.length = i) (hM : (done ++ rs).length = M + M) (hy : ys.length = M)
    (hi : i < M) :
    innerW be (mem be ys) xi i M
      (0, mem be ((done ++ rs).take M), mem be ((done ++ rs).drop M), c) =
      .ok (M, mem be ((done ++ (macC xi ys rs c).1).take M),
        mem be ((done ++ (macC xi ys rs c).1).drop M), (macC xi ys rs c).2) := by
  have := innerW_ok be hw xi i M [] ys done rs c M (by omega) (by simp [hd]) hM (by simp [hy]) hi
  exact this

theorem rowsW_loop (be : Bool) (hw : 0 < w) (M : Nat) (px xs ys done rs : Limbs w) (fuel : Nat)
    (hf : xs.length ≤ fuel) (hd : done.length = px.length) (hM : (done ++ rs).length = M + M)
    (hx : px.length + xs.length = M) (hy : ys.length = M) :
    loop fuel (fun s => decide (s.1 < M)) (fun ((i, lo, hi) : Nat × Limbs w × Limbs w) => do
      let xi ← rd be (mem be (px ++ xs)) i
      let (j, lo, hi, carry) ← innerW be (mem be ys) xi i M (0, lo, hi, 0)
      let ij := i + j
      if ij < M then
        let lo ← wr be lo ij carry
        .ok (i + 1, lo, hi)
      else
        let k ← usub ij M
        let hi ← wr be hi k carry
        .ok (i + 1, lo, hi))
      (px.length, mem be ((done ++ rs).take M), mem be ((done ++ rs).drop M)) =
      .ok (M, mem be ((done ++ I256.Mul.rows xs ys rs).take M),
        mem be ((done ++ I256.Mul.rows xs ys rs).drop M)) := by
  induction xs generalizing px done rs fuel with
  | nil =>
    rw [loop_done (by simp at hx; simp; omega)]
    simp at hx
    simp [I256.Mul.rows, hx]
  | cons x xs ih =>
    obtain ⟨fuel, rfl⟩ : ∃ n, fuel = n + 1 := ⟨fuel - 1, by simp at hf; omega⟩
    simp only [List.length_cons] at hx
    simp only [List.length_append] at hM
    have hl : (I256.Mul.row x ys rs 0).length = rs.length := by
      rw [row_eq]
      split <;> simp [macC_length]
    obtain ⟨r, rs', hr⟩ : ∃ r rs', I256.Mul.row x ys rs 0 = r :: rs' := by
      cases h : I256.Mul.row x ys rs 0 with
      | nil => rw [h] at hl; simp at hl; omega
      | cons r rs' => exact ⟨r, rs', rfl⟩
    have hrow : (done ++ (macC x ys rs 0).1).set (px.length + M) (macC x ys rs 0).2 =
        done ++ r :: rs' := by
      rw [← hr, row_eq, if_pos (by omega), List.set_append_right _ _ (by omega), ← hd, ← hy]
      simp
    rw [hr] at hl
    simp only [List.length_cons] at hl
    rw [loop_step (t := (px.length + 1, mem be ((done ++ r :: rs').take M),
        mem be ((done ++ r :: rs').drop M))) (by simp; omega)]
    · have h := ih (px ++ [x]) (done ++ [r]) rs' fuel
        (by simpa using hf) (by simp [hd]) (by simp; omega) (by simp; omega)
      simp only [List.append_assoc, List.singleton_append, List.length_append, List.length_cons,
          List.length_nil, Nat.zero_add] at h
      refine h.trans ?_
      rw [I256.Mul.rows, hr]
    · simp only [rd_at be px xs x rfl, Res.mbind_ok,
        innerW_ok' be hw x px.length M ys done rs 0 hd (by simp; omega) hy (by omega)]
      rw [if_neg (by omega), usub_ok (by omega), Res.mbind_ok,
        wr_ok be (by simp [macC_length]; omega), ← drop_set_high _ _ _ _ (by omega), hrow,
        Res.mbind_ok, ← take_set_high (done ++ (macC x ys rs 0).1) M (px.length + M)
          (macC x ys rs 0).2 (by omega), hrow]

theorem widening_ok (be : Bool) (hw : 0 < w) (x y : Limbs w) (h : y.length = x.length) :
    widening be (mem be x) (mem be y) =
      .ok (mem be (I256.Mul.widening x y).1, mem be (I256.Mul.widening x y).2) := by
  unfold widening
  simp only [mem_length]
  have := rowsW_loop be hw x.length [] x y [] (List.replicate (x.length + x.length) 0) x.length
    (by simp) rfl (by simp) (by simp) h
  simp only [List.nil_append, List.length_nil, List.take_replicate, List.drop_replicate,
    mem_replicate, Nat.min_eq_left (Nat.le_add_right x.length x.length),
    Nat.add_sub_cancel] at this
  rw [this]
  rfl

end Mul

end Raw

end I256
