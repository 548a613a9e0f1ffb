import Verif.Model.OrlibExample
import Verif.Laws
import Mathlib.Algebra.Order.Group.Defs
import Mathlib.Algebra.Order.Group.Basic
import Mathlib.Tactic.Abel
import Mathlib.Order.Basic

/-!
# Floyd's algorithm in the ORLib example

`allPairsShortestPath` on a symmetric matrix with nonnegative entries and zero diagonal. The arithmetic is related to an
ordered group by a valuation `φ`; sums have to be correct for values in a downward closed range only, so that the result
applies to ideal numbers as well as to machine integers.
-/

set_option linter.unusedSectionVars false

namespace KMedoids

/-- A loop whose body establishes `Q x`, where nothing that is done later destroys it. -/
theorem foldRes_rel {α σ : Type} {f : σ → α → Res σ} {P : σ → Prop} {R : σ → σ → Prop} {Q : α → σ → Prop}
    (refl : ∀ s, R s s) (trans : ∀ s t u, R s t → R t u → R s u) (stable : ∀ s t x, R s t → Q x s → Q x t) :
    ∀ (l : List α), (∀ s, ∀ x ∈ l, P s → ∃ s', f s x = .ok s' ∧ P s' ∧ R s s' ∧ Q x s') → ∀ s, P s →
      ∃ s', foldRes f s l = .ok s' ∧ P s' ∧ R s s' ∧ ∀ x ∈ l, Q x s' := by
  intro l
  induction l with
  | nil => intro _ s hs; exact ⟨s, rfl, hs, refl s, by simp⟩
  | cons x l ih =>
    intro hstep s hs
    obtain ⟨t, e, hp, hr, hq⟩ := hstep s x (by simp) hs
    obtain ⟨u, e', hp', hr', hq'⟩ := ih (fun s y hy => hstep s y (by simp [hy])) t hp
    refine ⟨u, ?_, hp', trans _ _ _ hr hr', fun y hy => ?_⟩
    · show (do let s' ← f s x; foldRes f s' l) = _
      rw [e]; exact e'
    · rcases List.mem_cons.mp hy with rfl | hy
      · exact stable _ _ _ hr' hq
      · exact hq' y hy

/-! ## Walks -/

section walk
variable {L : Type} [Add L]

/-- Length of the walk from `x` through the objects of the list to `y`. -/
def walkLen (w : Nat → Nat → L) : Nat → List Nat → Nat → L
  | x, [], y => w x y
  | x, v :: vs, y => w x v + walkLen w v vs y

end walk

section
variable {N L : Type} [RPartialOrd N] [AddCommGroup L] [LinearOrder L] [IsOrderedAddMonoid L]

theorem walkLen_append (w : Nat → Nat → L) (x : Nat) (us : List Nat) (v : Nat) (vs : List Nat) (y : Nat) :
    walkLen w x (us ++ v :: vs) y = walkLen w x us v + walkLen w v vs y := by
  induction us generalizing x with
  | nil => rfl
  | cons u us ih => rw [List.cons_append, walkLen, walkLen, ih, add_assoc]

/-- `D` is the matrix of the lengths of the shortest walks for the edge lengths `w`: no walk is shorter, and there is a walk of
this length. -/
structure IsShortest (n : Nat) (w D : Nat → Nat → L) : Prop where
  le : ∀ x y, x < n → y < n → ∀ vs : List Nat, (∀ v ∈ vs, v < n) → D x y ≤ walkLen w x vs y
  attained : ∀ x y, x < n → y < n → ∃ vs : List Nat, (∀ v ∈ vs, v < n) ∧ D x y = walkLen w x vs y

/-- The arithmetic: comparisons are right, and so are sums of values in the range `I`, which contains with a
value all smaller nonnegative ones. -/
structure GoodAdd (φ : N → L) (I : L → Prop) (add : N → N → Res N) : Prop where
  lt : ∀ a b, rlt a b = true ↔ φ a < φ b
  add : ∀ a b, 0 ≤ φ a → 0 ≤ φ b → I (φ a) → I (φ b) → ∃ s, add a b = .ok s ∧ φ s = φ a + φ b
  down : ∀ u v : L, 0 ≤ u → u ≤ v → I v → I u

variable {φ : N → L} {I : L → Prop} {add : N → N → Res N} {n : Nat}

/-- A square matrix with nonnegative symmetric values in the range and zero diagonal. -/
structure Weights0 (φ : N → L) (I : L → Prop) (n : Nat) (a : Array2 N) : Prop where
  rows : a.rows = n
  cols : a.cols = n
  diag : ∀ x, x < n → φ (a.val x x) = 0
  nonneg : ∀ x y, x < n → y < n → 0 ≤ φ (a.val x y)
  symm : ∀ x y, x < n → y < n → φ (a.val x y) = φ (a.val y x)
  range : ∀ x y, x < n → y < n → I (φ (a.val x y))

/-- The state during the pass for `i` that began with the values `D`. -/
structure DuringPass (φ : N → L) (I : L → Prop) (n : Nat) (D : Nat → Nat → L) (i : Nat) (a : Array2 N) : Prop where
  base : Weights0 φ I n a
  le : ∀ x y, x < n → y < n → φ (a.val x y) ≤ D x y
  eq : ∀ x y, x < n → y < n → φ (a.val x y) = D x y ∨ φ (a.val x y) = D x i + D i y
  col : ∀ x, x < n → φ (a.val x i) = D x i

/-- All values are at most what they were. -/
def Smaller (φ : N → L) (n : Nat) (a a' : Array2 N) : Prop :=
  ∀ x y, x < n → y < n → φ (a'.val x y) ≤ φ (a.val x y)

theorem DuringPass.cell (hA : GoodAdd φ I add) {D : Nat → Nat → L} (hDs : ∀ x y, x < n → y < n → D x y = D y x) {i : Nat}
    (hi : i < n) (hD0 : D i i = 0) {a : Array2 N}
    (h : DuringPass φ I n D i a) {x y : Nat} (hx : x < n) (hy : y < n) (hxy : x < y) :
    ∃ a', apspCell add i x a y = .ok a' ∧ DuringPass φ I n D i a' ∧ Smaller φ n a a' ∧
      φ (a'.val x y) ≤ D x i + D i y := by
  have hb := h.base
  have hcol := h.col x hx
  have hrow : φ (a.val i y) = D i y := by rw [hb.symm i y hi hy, h.col y hy, hDs y i hy hi]
  obtain ⟨m, em, vm⟩ := hA.add (a.val x i) (a.val i y) (hb.nonneg x i hx hi) (hb.nonneg i y hi hy)
    (hb.range x i hx hi) (hb.range i y hi hy)
  have g1 : a.get x i = .ok (a.val x i) := by unfold Array2.get; rw [hb.rows, hb.cols, if_pos ⟨hx, hi⟩]
  have g2 : a.get i y = .ok (a.val i y) := by unfold Array2.get; rw [hb.rows, hb.cols, if_pos ⟨hi, hy⟩]
  have g3 : a.get x y = .ok (a.val x y) := by unfold Array2.get; rw [hb.rows, hb.cols, if_pos ⟨hx, hy⟩]
  have key : apspCell add i x a y = if rlt m (a.val x y) then (do let a ← a.set y x m; a.set x y m) else .ok a := by
    unfold apspCell
    simp only [g1, g2, g3, em, bind, Except.bind]
  have vm' : φ m = D x i + D i y := by rw [vm, hcol, hrow]
  have m0 : 0 ≤ φ m := vm ▸ add_nonneg (hb.nonneg x i hx hi) (hb.nonneg i y hi hy)
  rw [key]
  by_cases hlt : rlt m (a.val x y) = true
  · rw [if_pos hlt]
    have hlt' := (hA.lt _ _).mp hlt
    have hle : ∀ p q, p < n → q < n →
        φ (if p = x ∧ q = y then m else if p = y ∧ q = x then m else a.val p q) ≤ φ (a.val p q) := by
      intro p q hp hq
      split
      · rename_i e; obtain ⟨rfl, rfl⟩ := e; exact le_of_lt hlt'
      · split
        · rename_i e; obtain ⟨rfl, rfl⟩ := e; rw [hb.symm p q hp hq]; exact le_of_lt hlt'
        · exact le_refl _
    have h0 : ∀ p q, p < n → q < n → 0 ≤ φ (if p = x ∧ q = y then m else if p = y ∧ q = x then m else a.val p q) := by
      intro p q hp hq
      split
      · exact m0
      · split
        · exact m0
        · exact hb.nonneg p q hp hq
    refine ⟨⟨n, n, fun p q => if p = x ∧ q = y then m else if p = y ∧ q = x then m else a.val p q⟩, ?_,
      ⟨⟨rfl, rfl, fun p hp => ?_, h0, fun p q hp hq => ?_, fun p q hp hq => ?_⟩, fun p q hp hq => ?_, fun p q hp hq => ?_,
        fun p hp => ?_⟩, hle, ?_⟩
    · unfold Array2.set
      simp only [hb.rows, hb.cols, hx, hy, and_self, if_true, bind, Except.bind]
    · show φ (if p = x ∧ p = y then m else if p = y ∧ p = x then m else a.val p p) = 0
      rw [if_neg (by omega), if_neg (by omega)]
      exact hb.diag p hp
    · show φ (if p = x ∧ q = y then m else if p = y ∧ q = x then m else a.val p q) =
        φ (if q = x ∧ p = y then m else if q = y ∧ p = x then m else a.val q p)
      by_cases e1 : p = x ∧ q = y
      · rw [if_pos e1, if_neg (by omega), if_pos (by omega)]
      · rw [if_neg e1]
        by_cases e2 : p = y ∧ q = x
        · rw [if_pos e2, if_pos (by omega)]
        · rw [if_neg e2, if_neg (by omega), if_neg (by omega)]
          exact hb.symm p q hp hq
    · exact hA.down _ _ (h0 p q hp hq) (hle p q hp hq) (hb.range p q hp hq)
    · exact le_trans (hle p q hp hq) (h.le p q hp hq)
    · show φ (if p = x ∧ q = y then m else if p = y ∧ q = x then m else a.val p q) = D p q ∨
        φ (if p = x ∧ q = y then m else if p = y ∧ q = x then m else a.val p q) = D p i + D i q
      split
      · rename_i e; obtain ⟨rfl, rfl⟩ := e; exact Or.inr vm'
      · split
        · rename_i e
          obtain ⟨rfl, rfl⟩ := e
          right
          rw [vm', hDs p i hp hi, hDs i q hi hq, add_comm]
        · exact h.eq p q hp hq
    · show φ (if p = x ∧ i = y then m else if p = y ∧ i = x then m else a.val p i) = D p i
      split
      · rename_i e; obtain ⟨rfl, rfl⟩ := e; rw [vm', hD0, add_zero]
      · split
        · rename_i e
          obtain ⟨rfl, rfl⟩ := e
          rw [vm', hD0, zero_add, hDs _ _ hi hp]
        · exact h.col p hp
    · show φ (if x = x ∧ y = y then m else _) ≤ _
      rw [if_pos ⟨rfl, rfl⟩, vm']
  · rw [if_neg hlt]
    refine ⟨a, rfl, h, fun _ _ _ _ => le_refl _, ?_⟩
    rw [← vm']
    exact not_lt.mp fun g => hlt ((hA.lt _ _).mpr g)

/-- One pass: the paths through `i` are taken into account. -/
theorem apspPass_spec (hA : GoodAdd φ I add) {i : Nat} (hi : i < n) {a : Array2 N} (h : Weights0 φ I n a) :
    ∃ a', apspPass add n a i = .ok a' ∧ DuringPass φ I n (fun x y => φ (a.val x y)) i a' ∧
      ∀ x y, x < n → y < n → φ (a'.val x y) ≤ φ (a.val x i) + φ (a.val i y) := by
  have h0 : DuringPass φ I n (fun x y => φ (a.val x y)) i a :=
    ⟨h, fun _ _ _ _ => le_refl _, fun _ _ _ _ => Or.inl rfl, fun _ _ => rfl⟩
  have tr : ∀ s t u : Array2 N, Smaller φ n s t → Smaller φ n t u → Smaller φ n s u :=
    fun s t u h1 h2 x y hx hy => le_trans (h2 x y hx hy) (h1 x y hx hy)
  obtain ⟨a', e, hd, -, hq⟩ := foldRes_rel (f := apspRow add n i) (P := DuringPass φ I n (fun x y => φ (a.val x y)) i)
    (R := Smaller φ n) (Q := fun x s => ∀ y, x < y → y < n → φ (s.val x y) ≤ φ (a.val x i) + φ (a.val i y) ∨ ¬ x < n)
    (fun s x y _ _ => le_refl _) tr (fun s t x hst hQ y hxy hy => by
      by_cases hx : x < n
      · rcases hQ y hxy hy with g | g
        · exact Or.inl (le_trans (hst x y hx hy) g)
        · exact Or.inr g
      · exact Or.inr hx)
    (List.range n) (fun s x hx hs => by
      have hx := List.mem_range.mp hx
      obtain ⟨t, e, hp, hr, hq⟩ := foldRes_rel (f := apspCell add i x)
        (P := DuringPass φ I n (fun x y => φ (a.val x y)) i) (R := Smaller φ n)
        (Q := fun y s => y < n → φ (s.val x y) ≤ φ (a.val x i) + φ (a.val i y))
        (fun s x y _ _ => le_refl _) tr (fun s t y hst hQ hy => le_trans (hst x y hx hy) (hQ hy))
        (List.range' (x + 1) (n - (x + 1))) (fun s y hy hs => by
          rw [List.mem_range'_1] at hy
          obtain ⟨t, e, hp, hr, hq⟩ := hs.cell hA h.symm hi (h.diag i hi) hx (y := y) (by omega) (by omega)
          exact ⟨t, e, hp, hr, fun _ => hq⟩) s hs
      refine ⟨t, e, hp, hr, fun y hxy hy => Or.inl (hq y ?_ hy)⟩
      rw [List.mem_range'_1]; omega) a h0
  refine ⟨a', e, hd, fun x y hx hy => ?_⟩
  rcases lt_trichotomy x y with hlt | rfl | hlt
  · rcases hq x (List.mem_range.mpr hx) y hlt hy with g | g
    · exact g
    · exact absurd hx g
  · rw [hd.base.diag x hx]
    exact add_nonneg (h.nonneg x i hx hi) (h.nonneg i x hi hx)
  · rcases hq y (List.mem_range.mpr hy) x hlt hx with g | g
    · rw [hd.base.symm x y hx hy, h.symm x i hx hi, h.symm i y hi hy, add_comm]; exact g
    · exact absurd hy g

/-- The triangle inequality for paths through `v`. -/
def TriVia (φ : N → L) (n : Nat) (v : Nat) (a : Array2 N) : Prop :=
  v < n → ∀ x y, x < n → y < n → φ (a.val x y) ≤ φ (a.val x v) + φ (a.val v y)

/-- The passes before are not undone. -/
theorem apspPass_tri (hA : GoodAdd φ I add) {i : Nat} (hi : i < n) {a : Array2 N} (h : Weights0 φ I n a) :
    ∃ a', apspPass add n a i = .ok a' ∧ DuringPass φ I n (fun x y => φ (a.val x y)) i a' ∧ TriVia φ n i a' ∧
      ∀ v, TriVia φ n v a → TriVia φ n v a' := by
  obtain ⟨a', e, hd, ht⟩ := apspPass_spec hA hi h
  have hrow : ∀ y, y < n → φ (a'.val i y) = φ (a.val i y) := fun y hy => by
    rw [hd.base.symm i y hi hy, hd.col y hy, h.symm y i hy hi]
  refine ⟨a', e, hd, fun _ x y hx hy => ?_, fun v hv hvn x y hx hy => ?_⟩
  · rw [hd.col x hx, hrow y hy]; exact ht x y hx hy
  · have hv := hv hvn
    have q1 := ht x y hx hy
    have q2 := hd.le x y hx hy
    have nn := h.nonneg
    rcases hd.eq x v hx hvn with e1 | e1 <;> rcases hd.eq v y hvn hy with e2 | e2 <;> rw [e1, e2]
    · exact le_trans q2 (hv x y hx hy)
    · refine le_trans q1 ?_
      have := hv x i hx hi
      calc φ (a.val x i) + φ (a.val i y) ≤ (φ (a.val x v) + φ (a.val v i)) + φ (a.val i y) := add_le_add this (le_refl _)
        _ = _ := add_assoc _ _ _
    · refine le_trans q1 ?_
      have := hv i y hi hy
      calc φ (a.val x i) + φ (a.val i y) ≤ φ (a.val x i) + (φ (a.val i v) + φ (a.val v y)) := add_le_add (le_refl _) this
        _ = _ := (add_assoc _ _ _).symm
    · refine le_trans q1 ?_
      have z : 0 ≤ φ (a.val i v) + φ (a.val v i) := add_nonneg (nn i v hi hvn) (nn v i hvn hi)
      calc φ (a.val x i) + φ (a.val i y) ≤ φ (a.val x i) + φ (a.val i y) + (φ (a.val i v) + φ (a.val v i)) :=
            le_add_of_nonneg_right z
        _ = _ := by abel

/-- Floyd's algorithm computes the lengths of the shortest walks. -/
theorem allPairsShortestPath_spec (hA : GoodAdd φ I add) {a : Array2 N} (h : Weights0 φ I n a) :
    ∃ a', allPairsShortestPath add a = .ok a' ∧ Weights0 φ I n a' ∧
      IsShortest n (fun x y => φ (a.val x y)) (fun x y => φ (a'.val x y)) := by
  obtain ⟨a', e, ⟨hw, hle, hat⟩, -, htri⟩ := foldRes_rel (f := apspPass add n)
    (P := fun s => Weights0 φ I n s ∧ (∀ x y, x < n → y < n → φ (s.val x y) ≤ φ (a.val x y)) ∧
      ∀ x y, x < n → y < n → ∃ vs : List Nat, (∀ v ∈ vs, v < n) ∧
        φ (s.val x y) = walkLen (fun x y => φ (a.val x y)) x vs y)
    (R := fun s t => ∀ v, TriVia φ n v s → TriVia φ n v t) (Q := TriVia φ n)
    (fun s v hv => hv) (fun s t u h1 h2 v hv => h2 v (h1 v hv)) (fun s t v h hv => h v hv) (List.range n)
    (fun s i hi ⟨hw, hle, hat⟩ => by
      have hi := List.mem_range.mp hi
      obtain ⟨t, e, hd, ht, hR⟩ := apspPass_tri hA hi hw
      refine ⟨t, e, ⟨hd.base, fun x y hx hy => le_trans (hd.le x y hx hy) (hle x y hx hy), fun x y hx hy => ?_⟩, hR, ht⟩
      rcases hd.eq x y hx hy with e | e
      · rw [e]; exact hat x y hx hy
      · obtain ⟨us, hu, eu⟩ := hat x i hx hi
        obtain ⟨vs, hv, ev⟩ := hat i y hi hy
        refine ⟨us ++ i :: vs, fun v hv' => ?_, ?_⟩
        · rcases List.mem_append.mp hv' with g | g
          · exact hu v g
          · rcases List.mem_cons.mp g with rfl | g
            · exact hi
            · exact hv v g
        · rw [walkLen_append, ← eu, ← ev]; exact e)
    a ⟨h, fun _ _ _ _ => le_refl _, fun _ _ _ _ => ⟨[], by simp, rfl⟩⟩
  refine ⟨a', ?_, hw, ⟨fun x y hx hy vs => ?_, hat⟩⟩
  · unfold allPairsShortestPath
    rw [h.rows, h.cols]
    simp only [rassert, beq_self_eq_true, if_true, bind, Except.bind]
    exact e
  · induction vs generalizing x with
    | nil => intro _; exact hle x y hx hy
    | cons v vs ih =>
      intro hvs
      have hv := hvs v (by simp)
      show _ ≤ φ (a.val x v) + walkLen _ v vs y
      exact le_trans (htri v (List.mem_range.mpr hv) hv x y hx hy)
        (add_le_add (hle x v hx hv) (ih v hv fun u hu => hvs u (by simp [hu])))

/-- The same with the shape of the result made explicit. -/
theorem allPairsShortestPath_square (hA : GoodAdd φ I add) {a : Array2 N} (h : Weights0 φ I n a) :
    ∃ D : Nat → Nat → N, allPairsShortestPath add a = .ok ⟨n, n, D⟩ ∧ Weights0 φ I n ⟨n, n, D⟩ ∧
      IsShortest n (fun x y => φ (a.val x y)) (fun x y => φ (D x y)) := by
  obtain ⟨⟨r, c, D⟩, e, hw, hd⟩ := allPairsShortestPath_spec hA h
  have hr : r = n := hw.rows
  have hc : c = n := hw.cols
  subst hr
  subst hc
  exact ⟨D, e, hw, hd⟩

/-- Lengths of shortest walks satisfy the triangle inequality. -/
theorem IsShortest.triangle {w D : Nat → Nat → L} (h : IsShortest n w D) {x y z : Nat} (hx : x < n) (hy : y < n) (hz : z < n) :
    D x z ≤ D x y + D y z := by
  obtain ⟨us, hu, eu⟩ := h.attained x y hx hy
  obtain ⟨vs, hv, ev⟩ := h.attained y z hy hz
  rw [eu, ev, ← walkLen_append]
  refine h.le x z hx hz _ fun v hv' => ?_
  rcases List.mem_append.mp hv' with g | g
  · exact hu v g
  · rcases List.mem_cons.mp g with rfl | g
    · exact hy
    · exact hv v g

/-- There is only one matrix of shortest lengths. -/
theorem IsShortest.unique {w D D' : Nat → Nat → L} (h : IsShortest n w D) (h' : IsShortest n w D') {x y : Nat} (hx : x < n)
    (hy : y < n) : D x y = D' x y := by
  obtain ⟨us, hu, eu⟩ := h.attained x y hx hy
  obtain ⟨vs, hv, ev⟩ := h'.attained x y hx hy
  exact le_antisymm (ev ▸ h.le x y hx hy vs hv) (eu ▸ h'.le x y hx hy us hu)

end

end KMedoids
