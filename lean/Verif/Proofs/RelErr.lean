import Verif.Proofs.BitLoss
import Mathlib.Algebra.Order.Field.Basic
import Mathlib.Tactic.Linarith
import Mathlib.Tactic.Ring

/-!
# Rounding errors

The standard model of floating point arithmetic: a result that does not overflow is the exact one up to a relative error
`u`. `Appr m S A x` says that `x` was computed by at most `m` nested roundings from terms with exact sum `S` and sum of
absolute values at most `A`.
-/

set_option linter.unusedSectionVars false

namespace KMedoids

variable {L K : Type} [RLoss L] [Field K] [LinearOrder K] [IsStrictOrderedRing K]

/-- The standard model of floating point arithmetic for addition, subtraction, negation and comparison: `fin` are the finite
numbers, `val` their values, `u` is the unit roundoff, and results up to `B` do not overflow. -/
structure StdModel (fin : L → Prop) (val : L → K) (u B : K) : Prop where
  u_nonneg : 0 ≤ u
  u_lt_one : u < 1
  pcmp : ∀ a b, fin a → fin b → pcmp a b = some (compare (val a) (val b))
  zero_fin : fin RLoss.zero
  zero : val RLoss.zero = 0
  add : ∀ a b, fin a → fin b → |val a + val b| ≤ B →
    fin (RLoss.add a b) ∧ |val (RLoss.add a b) - (val a + val b)| ≤ u * |val a + val b|
  sub : ∀ a b, fin a → fin b → |val a - val b| ≤ B →
    fin (RLoss.sub a b) ∧ |val (RLoss.sub a b) - (val a - val b)| ≤ u * |val a - val b|
  neg : ∀ a, fin a → fin (RLoss.neg a) ∧ val (RLoss.neg a) = -val a

variable {fin : L → Prop} {val : L → K} {u B : K}

namespace StdModel

theorem rlt_iff (M : StdModel fin val u B) {a b : L} (ha : fin a) (hb : fin b) : rlt a b = true ↔ val a < val b := by
  unfold rlt
  rw [M.pcmp a b ha hb]
  rcases lt_trichotomy (val a) (val b) with h | h | h
  · simp [compare_lt_iff_lt.mpr h, h]
  · simp [h]
  · simp [compare_gt_iff_gt.mpr h, h.le]

theorem rge_iff (M : StdModel fin val u B) {a b : L} (ha : fin a) (hb : fin b) : rge a b = true ↔ val b ≤ val a := by
  unfold rge
  rw [M.pcmp a b ha hb]
  rcases lt_trichotomy (val a) (val b) with h | h | h
  · simp [compare_lt_iff_lt.mpr h, h]
  · simp [h]
  · simp [compare_gt_iff_gt.mpr h, h.le]

theorem one_le_pow (M : StdModel fin val u B) (m : Nat) : 1 ≤ (1 + u) ^ m :=
  one_le_pow₀ (by linarith [M.u_nonneg])

theorem pow_mono (M : StdModel fin val u B) {m m' : Nat} (h : m ≤ m') : (1 + u) ^ m ≤ (1 + u) ^ m' :=
  pow_le_pow_right₀ (by linarith [M.u_nonneg]) h

end StdModel

/-- `x` approximates `S`, with error at most `((1 + u) ^ m - 1) * A`. -/
structure Appr (fin : L → Prop) (val : L → K) (u : K) (m : Nat) (S A : K) (x : L) : Prop where
  fin : fin x
  abs_le : |S| ≤ A
  err : |val x - S| ≤ ((1 + u) ^ m - 1) * A

namespace Appr

theorem nonneg {m : Nat} {S A : K} {x : L} (h : Appr fin val u m S A x) : 0 ≤ A := (abs_nonneg S).trans h.abs_le

theorem mono (M : StdModel fin val u B) {m m' : Nat} {S A A' : K} {x : L} (h : Appr fin val u m S A x) (hm : m ≤ m')
    (hA : A ≤ A') : Appr fin val u m' S A' x := by
  refine ⟨h.fin, h.abs_le.trans hA, h.err.trans ?_⟩
  have h1 := M.pow_mono hm
  have h2 := M.one_le_pow m
  have h3 := M.one_le_pow m'
  calc ((1 + u) ^ m - 1) * A ≤ ((1 + u) ^ m' - 1) * A := mul_le_mul_of_nonneg_right (by linarith) h.nonneg
    _ ≤ _ := mul_le_mul_of_nonneg_left hA (by linarith)

theorem abs_val {m : Nat} {S A : K} {x : L} (h : Appr fin val u m S A x) : |val x| ≤ (1 + u) ^ m * A := by
  have h1 := h.err
  have h2 := h.abs_le
  calc |val x| = |(val x - S) + S| := by rw [sub_add_cancel]
    _ ≤ |val x - S| + |S| := abs_add_le _ _
    _ ≤ ((1 + u) ^ m - 1) * A + A := by linarith
    _ = _ := by ring

theorem zero (M : StdModel fin val u B) : Appr fin val u 0 0 0 (RLoss.zero : L) :=
  ⟨M.zero_fin, by simp, by simp [M.zero]⟩

theorem exact {x : L} (h : fin x) : Appr fin val u 0 (val x) |val x| x := ⟨h, le_rfl, by simp⟩

theorem sub (M : StdModel fin val u B) {a b : L} (ha : fin a) (hb : fin b) (hB : |val a - val b| ≤ B) :
    Appr fin val u 1 (val a - val b) |val a - val b| (RLoss.sub a b) := by
  obtain ⟨h1, h2⟩ := M.sub a b ha hb hB
  exact ⟨h1, le_rfl, by simpa using h2⟩

theorem add (M : StdModel fin val u B) {m : Nat} {S A S' A' : K} {x y : L} (h : Appr fin val u m S A x)
    (h' : Appr fin val u m S' A' y) (hB : (1 + u) ^ m * (A + A') ≤ B) :
    Appr fin val u (m + 1) (S + S') (A + A') (RLoss.add x y) := by
  have hx := h.abs_val
  have hy := h'.abs_val
  have hxy : |val x + val y| ≤ (1 + u) ^ m * (A + A') := by
    calc |val x + val y| ≤ |val x| + |val y| := abs_add_le _ _
      _ ≤ _ := by rw [mul_add]; exact add_le_add hx hy
  obtain ⟨h1, h2⟩ := M.add x y h.fin h'.fin (hxy.trans hB)
  refine ⟨h1, (abs_add_le _ _).trans (add_le_add h.abs_le h'.abs_le), ?_⟩
  have h3 := mul_le_mul_of_nonneg_left hxy M.u_nonneg
  have h4 : |val (RLoss.add x y) - (S + S')| ≤
      |val (RLoss.add x y) - (val x + val y)| + (|val x - S| + |val y - S'|) := by
    have e : val (RLoss.add x y) - (S + S') =
        (val (RLoss.add x y) - (val x + val y)) + ((val x - S) + (val y - S')) := by ring
    rw [e]
    exact (abs_add_le _ _).trans (add_le_add_right (abs_add_le _ _) _)
  have h5 := h.err
  have h6 := h'.err
  calc _ ≤ _ := h4
    _ ≤ u * ((1 + u) ^ m * (A + A')) + (((1 + u) ^ m - 1) * A + ((1 + u) ^ m - 1) * A') :=
      add_le_add (h2.trans h3) (add_le_add h5 h6)
    _ = _ := by rw [pow_succ]; ring

/-- A loop that adds up terms, and may skip objects. -/
theorem foldl (M : StdModel fin val u B) {α : Type} {step : L → α → L} {S A : α → K} {ps : List α}
    (hstep : ∀ p ∈ ps, 0 ≤ A p ∧ ((S p = 0 ∧ ∀ acc, step acc p = acc) ∨
      ∃ t, Appr fin val u 1 (S p) (A p) t ∧ ∀ acc, step acc p = RLoss.add acc t))
    {m : Nat} (hm : 1 ≤ m) {s a : K} {x : L} (h : Appr fin val u m s a x)
    (hB : (1 + u) ^ (m + ps.length) * (a + (ps.map A).sum) ≤ B) :
    Appr fin val u (m + ps.length) (s + (ps.map S).sum) (a + (ps.map A).sum) (ps.foldl step x) := by
  induction ps generalizing m s a x with
  | nil => simpa using h
  | cons p ps ih =>
    obtain ⟨hA, hp⟩ := hstep p (by simp)
    have hrest : 0 ≤ (ps.map A).sum := List.sum_nonneg fun y hy => by
      obtain ⟨q, hq, rfl⟩ := List.mem_map.mp hy
      exact (hstep q (by simp [hq])).1
    have ha := h.nonneg
    rw [List.foldl_cons, List.map_cons, List.map_cons, List.sum_cons, List.sum_cons, ← add_assoc, ← add_assoc,
      List.length_cons, show m + (ps.length + 1) = (m + 1) + ps.length by omega]
    rw [List.map_cons, List.sum_cons, ← add_assoc, List.length_cons,
      show m + (ps.length + 1) = (m + 1) + ps.length by omega] at hB
    refine ih (fun q hq => hstep q (by simp [hq])) (by omega) ?_ hB
    rcases hp with ⟨h0, hs⟩ | ⟨t, ht, hs⟩
    · rw [hs, h0, add_zero]
      exact h.mono M (by omega) (by linarith)
    · rw [hs]
      refine h.add M (ht.mono M hm le_rfl) (le_trans ?_ hB)
      have h1 : (1 + u) ^ m ≤ (1 + u) ^ (m + 1 + ps.length) := M.pow_mono (by omega)
      have h2 := M.one_le_pow m
      calc (1 + u) ^ m * (a + A p) ≤ (1 + u) ^ (m + 1 + ps.length) * (a + A p) :=
            mul_le_mul_of_nonneg_right h1 (by linarith)
        _ ≤ _ := mul_le_mul_of_nonneg_left (by linarith) (by linarith [M.one_le_pow (m + 1 + ps.length)])

end Appr

/-- The sum of non-negative numbers with any bracketing. -/
theorem BracketSum.appr (M : StdModel fin val u B) {xs : List L} {v : L} (h : BracketSum xs v)
    (hx : ∀ x ∈ xs, fin x ∧ 0 ≤ val x) (hB : (1 + u) ^ (xs.length - 1) * (xs.map val).sum ≤ B) :
    Appr fin val u (xs.length - 1) (xs.map val).sum (xs.map val).sum v := by
  induction h with
  | one x =>
    have := Appr.exact (fin := fin) (val := val) (u := u) (hx x (by simp)).1
    rw [abs_of_nonneg (hx x (by simp)).2] at this
    simpa using this
  | @join xs ys a b h h' ih ih' =>
    have hlx : 0 < xs.length := by
      clear ih ih' hB hx
      induction h with
      | one => simp
      | join _ _ i1 _ => simp only [List.length_append]; omega
    have hly : 0 < ys.length := by
      clear ih ih' hB hx
      induction h' with
      | one => simp
      | join _ _ i1 _ => simp only [List.length_append]; omega
    rw [List.map_append, List.sum_append, List.length_append] at hB ⊢
    have hnn : ∀ zs : List L, (∀ x ∈ zs, fin x ∧ 0 ≤ val x) → 0 ≤ (zs.map val).sum := fun zs hz =>
      List.sum_nonneg fun y hy => by
        obtain ⟨q, hq, rfl⟩ := List.mem_map.mp hy
        exact (hz q hq).2
    have hxx : ∀ x ∈ xs, fin x ∧ 0 ≤ val x := fun x hx' => hx x (by simp [hx'])
    have hyy : ∀ x ∈ ys, fin x ∧ 0 ≤ val x := fun x hx' => hx x (by simp [hx'])
    have n1 := hnn xs hxx
    have n2 := hnn ys hyy
    have key : ∀ (m : Nat) (s : K), m ≤ xs.length + ys.length - 1 → 0 ≤ s →
        s ≤ (xs.map val).sum + (ys.map val).sum → (1 + u) ^ m * s ≤ B := by
      intro m s hm hs0 hs
      have h1 := M.pow_mono hm
      have h2 := M.one_le_pow (xs.length + ys.length - 1)
      calc (1 + u) ^ m * s ≤ (1 + u) ^ (xs.length + ys.length - 1) * s := mul_le_mul_of_nonneg_right h1 hs0
        _ ≤ _ := mul_le_mul_of_nonneg_left hs (by linarith)
        _ ≤ B := hB
    have e1 := (ih hxx (key _ _ (by omega) n1 (by linarith))).mono M
      (m' := xs.length + ys.length - 2) (by omega) le_rfl
    have e2 := (ih' hyy (key _ _ (by omega) n2 (by linarith))).mono M
      (m' := xs.length + ys.length - 2) (by omega) le_rfl
    have := e1.add M e2 (key _ _ (by omega) (by linarith) le_rfl)
    rwa [show xs.length + ys.length - 2 + 1 = xs.length + ys.length - 1 by omega] at this

end KMedoids
