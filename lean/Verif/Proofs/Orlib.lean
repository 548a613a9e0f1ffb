import Verif.Proofs.Floyd

/-!
# `read_orlib` of the ORLib example

The lines of the file describe edges; the matrix before Floyd's algorithm holds the weight given last for each pair.
-/

set_option linter.unusedSectionVars false

namespace KMedoids

/-! ## The file -/

section file
variable {N : Type}

/-- An edge: the two objects, counted from 0, and the weight. -/
structure Edge (N : Type) where
  u : Nat
  v : Nat
  weight : N

/-- The line describes this edge; the objects are counted from 1 in the file, and words after the third do not matter. -/
def LineOf (parseUsize : String → Option Nat) (parse : String → Option N) (line : List String) (e : Edge N) : Prop :=
  ∃ t1 t2 t3 rest, line = t1 :: t2 :: t3 :: rest ∧ parseUsize t1 = some (e.u + 1) ∧ parseUsize t2 = some (e.v + 1) ∧
    parse t3 = some e.weight

/-- The edges of a graph with the objects `0, …, n - 1`. -/
def ValidEdges (n : Nat) (es : List (Edge N)) : Prop := ∀ e ∈ es, e.u < n ∧ e.v < n ∧ e.u ≠ e.v

/-- The weight listed last for the pair. -/
def lastWeight : List (Edge N) → Nat → Nat → Option N
  | [], _, _ => none
  | e :: es, x, y =>
    match lastWeight es x y with
    | some w => some w
    | none => if (e.u = x ∧ e.v = y) ∨ (e.u = y ∧ e.v = x) then some e.weight else none

/-- The matrix of the graph: zero on the diagonal, the weight listed last, and the default value for all other pairs. -/
def graphW (n : Nat) (zero default : N) (es : List (Edge N)) (x y : Nat) : N :=
  if x = y ∧ x < n then zero else (lastWeight es x y).getD default

theorem lastWeight_symm (es : List (Edge N)) (x y : Nat) : lastWeight es x y = lastWeight es y x := by
  induction es with
  | nil => rfl
  | cons e es ih =>
    unfold lastWeight
    rw [ih]
    split
    · rfl
    · by_cases h : (e.u = x ∧ e.v = y) ∨ (e.u = y ∧ e.v = x)
      · rw [if_pos h, if_pos (Or.symm h)]
      · rw [if_neg h, if_neg fun g => h (Or.symm g)]

theorem lastWeight_mem {es : List (Edge N)} {x y : Nat} {w : N} (h : lastWeight es x y = some w) :
    ∃ e ∈ es, e.weight = w ∧ ((e.u = x ∧ e.v = y) ∨ (e.u = y ∧ e.v = x)) := by
  induction es with
  | nil => cases h
  | cons e es ih =>
    unfold lastWeight at h
    cases g : lastWeight es x y with
    | some v =>
      rw [g] at h
      obtain ⟨e', he', q⟩ := ih (g.trans h)
      exact ⟨e', by simp [he'], q⟩
    | none =>
      rw [g] at h
      simp only at h
      split at h
      · rename_i hc
        exact ⟨e, by simp, by cases h; rfl, hc⟩
      · cases h

theorem lastWeight_lt {n : Nat} {es : List (Edge N)} (hv : ValidEdges n es) {x y : Nat} {w : N}
    (h : lastWeight es x y = some w) : x < n ∧ y < n ∧ x ≠ y := by
  obtain ⟨e, he, -, q⟩ := lastWeight_mem h
  obtain ⟨h1, h2, h3⟩ := hv e he
  rcases q with ⟨rfl, rfl⟩ | ⟨rfl, rfl⟩
  · exact ⟨h1, h2, h3⟩
  · exact ⟨h2, h1, h3.symm⟩

variable {parseUsize : String → Option Nat} {parse : String → Option N}

/-- One line writes the two entries of the edge. -/
theorem orlibLine_ok {n : Nat} {f : Nat → Nat → N} {line : List String} {e : Edge N} (hl : LineOf parseUsize parse line e)
    (hu : e.u < n) (hv : e.v < n) (huv : e.u ≠ e.v) :
    orlibLine parseUsize parse ⟨n, n, f⟩ line =
      .ok (some ⟨n, n, fun x y => if (e.u = x ∧ e.v = y) ∨ (e.u = y ∧ e.v = x) then e.weight else f x y⟩) := by
  obtain ⟨t1, t2, t3, rest, rfl, h1, h2, h3⟩ := hl
  have hne : (e.u + 1 != e.v + 1) = true := by simpa using huv
  unfold orlibLine
  simp only [List.getElem?_cons_zero, List.getElem?_cons_succ, unwrapOpt, h1, h2, h3, bind, Except.bind, rassert, hne, if_true,
    predUsize, Nat.add_one_ne_zero, if_false, Nat.add_sub_cancel, Array2.set, hu, hv, and_self, Except.ok.injEq,
    Option.some.injEq, Array2.mk.injEq, true_and]
  funext x y
  by_cases c1 : x = e.v ∧ y = e.u
  · rw [if_pos c1, if_pos (Or.inr ⟨c1.2.symm, c1.1.symm⟩)]
  · rw [if_neg c1]
    by_cases c2 : x = e.u ∧ y = e.v
    · rw [if_pos c2, if_pos (Or.inl ⟨c2.1.symm, c2.2.symm⟩)]
    · rw [if_neg c2, if_neg]
      rintro (⟨rfl, rfl⟩ | ⟨rfl, rfl⟩)
      · exact c2 ⟨rfl, rfl⟩
      · exact c1 ⟨rfl, rfl⟩

theorem orlibLines_append {n : Nat} {lines : List (List String)} {es : List (Edge N)} (hv : ValidEdges n es)
    (hl : List.Forall₂ (LineOf parseUsize parse) lines es) (f : Nat → Nat → N) (more : List (List String)) :
    orlibLines parseUsize parse ⟨n, n, f⟩ (lines ++ more) =
      orlibLines parseUsize parse ⟨n, n, fun x y => (lastWeight es x y).getD (f x y)⟩ more := by
  induction hl generalizing f with
  | nil => rfl
  | @cons line e lines es h _ ih =>
    obtain ⟨h1, h2, h3⟩ := hv e (by simp)
    rw [List.cons_append, orlibLines, orlibLine_ok h h1 h2 h3]
    simp only [bind, Except.bind]
    rw [ih (fun e he => hv e (by simp [he]))]
    congr 2
    funext x y
    rw [lastWeight]
    cases lastWeight es x y with
    | some w => rfl
    | none => by_cases c : (e.u = x ∧ e.v = y) ∨ (e.u = y ∧ e.v = x) <;> simp [c]

theorem foldRes_append {α σ : Type} (f : σ → α → Res σ) (s : σ) (xs ys : List α) :
    foldRes f s (xs ++ ys) = (foldRes f s xs >>= fun s' => foldRes f s' ys) := by
  induction xs generalizing s with
  | nil => rfl
  | cons x xs ih =>
    show (f s x >>= fun s' => foldRes f s' (xs ++ ys)) = ((f s x >>= fun s' => foldRes f s' xs) >>= _)
    cases f s x with
    | error e => rfl
    | ok s' => exact ih s'

theorem zeroDiag (n : Nat) (zero : N) (f : Nat → Nat → N) (m : Nat) (hm : m ≤ n) :
    foldRes (fun (a : Array2 N) x => a.set x x zero) ⟨n, n, f⟩ (List.range m) =
      .ok ⟨n, n, fun x y => if x = y ∧ x < m then zero else f x y⟩ := by
  induction m with
  | zero => simp [foldRes]
  | succ m ih =>
    rw [List.range_succ, foldRes_append, ih (by omega)]
    have hm : m < n := hm
    simp only [foldRes, bind, Except.bind, Array2.set, hm, and_self, if_true, Except.ok.injEq, Array2.mk.injEq, true_and]
    funext x y
    by_cases c1 : x = m ∧ y = m
    · rw [if_pos c1, if_pos (by omega)]
    · rw [if_neg c1]
      by_cases c2 : x = y ∧ x < m
      · rw [if_pos c2, if_pos (by omega)]
      · rw [if_neg c2, if_neg (by omega)]

/-- For a proper file the program does Floyd's algorithm for the matrix of the graph. -/
theorem readOrlib_eq [RPartialOrd N] {add : N → N → Res N} {zero default : N} {header : List String} {n p k : Nat}
    (hh : header.map parseUsize = [some n, some p, some k]) {lines : List (List String)} {es : List (Edge N)}
    (hv : ValidEdges n es) (hl : List.Forall₂ (LineOf parseUsize parse) lines es) :
    readOrlib add zero parseUsize parse default header lines = (do
      let a ← allPairsShortestPath add ⟨n, n, graphW n zero default es⟩
      .ok (some ⟨a, k⟩)) := by
  have hc : collectOpt (header.map parseUsize) = some [n, p, k] := by rw [hh]; rfl
  have e := orlibLines_append hv hl (fun _ _ => default) []
  rw [List.append_nil] at e
  unfold readOrlib
  rw [hc]
  simp only [List.length_cons, List.length_nil, rassert, beq_self_eq_true, if_true, idx, List.getElem?_cons_zero,
    List.getElem?_cons_succ, bind, Except.bind, Nat.reduceAdd]
  rw [e]
  simp only [orlibLines, zeroDiag n zero _ n (Nat.le_refl n)]
  rfl

/-- A line with an object that does not exist, or a loop, or too few words: the program panics. -/
theorem orlibLine_bad {n : Nat} {f : Nat → Nat → N} {line : List String} {x1 x2 : Nat}
    (h1 : ∀ t, line[0]? = some t → parseUsize t = some x1) (h2 : ∀ t, line[1]? = some t → parseUsize t = some x2)
    (h3 : ∀ t, line[2]? = some t → (parse t).isSome)
    (hbad : line.length < 3 ∨ x1 = x2 ∨ x1 = 0 ∨ x2 = 0 ∨ n < x1 ∨ n < x2) :
    ∃ e, orlibLine parseUsize parse ⟨n, n, f⟩ line = .error e := by
  match line, h1, h2, h3, hbad with
  | [], _, _, _, _ => exact ⟨_, rfl⟩
  | [t1], h1, _, _, _ =>
    have g1 := h1 t1 rfl
    unfold orlibLine
    simp [unwrapOpt, g1, bind, Except.bind]
  | [t1, t2], h1, h2, _, _ =>
    have g1 := h1 t1 rfl
    have g2 := h2 t2 rfl
    unfold orlibLine
    by_cases e : x1 = x2 <;> simp [unwrapOpt, g1, g2, bind, Except.bind, rassert, e]
  | t1 :: t2 :: t3 :: rest, h1, h2, h3, hbad =>
    have g1 := h1 t1 rfl
    have g2 := h2 t2 rfl
    obtain ⟨w, g3⟩ := Option.isSome_iff_exists.mp (h3 t3 rfl)
    unfold orlibLine
    by_cases e : x1 = x2
    · simp [unwrapOpt, g1, g2, bind, Except.bind, rassert, e]
    · by_cases e1 : x1 = 0
      · have : x2 ≠ 0 := fun h => e (e1.trans h.symm)
        subst e1
        simp [unwrapOpt, g1, g2, g3, bind, Except.bind, rassert, e, predUsize]
      · by_cases e2 : x2 = 0
        · subst e2
          simp [unwrapOpt, g1, g2, g3, bind, Except.bind, rassert, e1, predUsize]
        · have hb : ¬ (x1 - 1 < n ∧ x2 - 1 < n) := by
            rcases hbad with h | h | h | h | h | h
            · simp only [List.length_cons] at h; omega
            · exact absurd h e
            · exact absurd h e1
            · exact absurd h e2
            · omega
            · omega
          simp [unwrapOpt, g1, g2, g3, bind, Except.bind, rassert, e, e1, e2, predUsize, Array2.set, hb]

/-- The panic is not hidden by the lines around it. -/
theorem readOrlib_bad [RPartialOrd N] {add : N → N → Res N} {zero default : N} {header : List String} {n p k : Nat}
    (hh : header.map parseUsize = [some n, some p, some k]) {lines : List (List String)} {es : List (Edge N)}
    (hv : ValidEdges n es) (hl : List.Forall₂ (LineOf parseUsize parse) lines es) {line : List String}
    (hbad : ∀ f : Nat → Nat → N, ∃ e, orlibLine parseUsize parse ⟨n, n, f⟩ line = .error e) (more : List (List String)) :
    ∃ e, readOrlib add zero parseUsize parse default header (lines ++ line :: more) = .error e := by
  have hc : collectOpt (header.map parseUsize) = some [n, p, k] := by rw [hh]; rfl
  have e := orlibLines_append hv hl (fun _ _ => default) (line :: more)
  obtain ⟨err, he⟩ := hbad fun x y => (lastWeight es x y).getD default
  refine ⟨err, ?_⟩
  unfold readOrlib
  rw [hc]
  simp only [List.length_cons, List.length_nil, rassert, beq_self_eq_true, if_true, idx, List.getElem?_cons_zero,
    List.getElem?_cons_succ, bind, Except.bind, Nat.reduceAdd]
  rw [e, orlibLines, he]
  rfl

end file

/-! ## Walks in the graph -/

section graph
variable {N L : Type} [RPartialOrd N] [AddCommGroup L] [LinearOrder L] [IsOrderedAddMonoid L]
variable {φ : N → L} {n : Nat} {es : List (Edge N)}

/-- There is a walk of length `l` from `x` to `y` that uses listed edges only. -/
inductive GraphWalk (φ : N → L) (es : List (Edge N)) : Nat → Nat → L → Prop
  | nil (x : Nat) : GraphWalk φ es x x 0
  | cons {x v y : Nat} {w : N} {l : L} : lastWeight es x v = some w → GraphWalk φ es v y l →
      GraphWalk φ es x y (φ w + l)

/-- `D` is the distance in the graph. -/
structure IsGraphDist (φ : N → L) (es : List (Edge N)) (n : Nat) (D : Nat → Nat → L) : Prop where
  le : ∀ x y l, x < n → y < n → GraphWalk φ es x y l → D x y ≤ l
  attained : ∀ x y, x < n → y < n → GraphWalk φ es x y (D x y)

theorem GraphWalk.append {x v y : Nat} {l l' : L} (h : GraphWalk φ es x v l) (h' : GraphWalk φ es v y l') :
    GraphWalk φ es x y (l + l') := by
  induction h with
  | nil => rwa [zero_add]
  | cons e _ ih => rw [add_assoc]; exact .cons e (ih h')

/-- If all objects are connected by walks that are not longer than the default value, the default value does not matter. -/
theorem graphDist_of_shortest {zero default : N} (h0 : φ zero = 0) (hv : ValidEdges n es)
    (hc : ∀ x y, x < n → y < n → ∃ l, l ≤ φ default ∧ GraphWalk φ es x y l) {D : Nat → Nat → L}
    (hD : IsShortest n (fun x y => φ (graphW n zero default es x y)) D) : IsGraphDist φ es n D := by
  have hle : ∀ x y l, GraphWalk φ es x y l → x < n → y < n → D x y ≤ l := by
    intro x y l h
    induction h with
    | nil x =>
      intro hx _
      refine le_trans (hD.le x x hx hx [] (by simp)) (le_of_eq ?_)
      show φ (graphW n zero default es x x) = 0
      rw [graphW, if_pos ⟨rfl, hx⟩, h0]
    | @cons x v y w l e _ ih =>
      intro hx hy
      obtain ⟨-, hvn, hxv⟩ := lastWeight_lt hv e
      refine le_trans (hD.triangle hx hvn hy) (add_le_add ?_ (ih hvn hy))
      refine le_trans (hD.le x v hx hvn [] (by simp)) (le_of_eq ?_)
      show φ (graphW n zero default es x v) = φ w
      rw [graphW, if_neg (fun h => hxv h.1), e]; rfl
  have hstep : ∀ x y, x < n → y < n → ∃ l, l ≤ φ (graphW n zero default es x y) ∧ GraphWalk φ es x y l := by
    intro x y hx hy
    by_cases hxy : x = y
    · subst hxy
      exact ⟨0, by rw [graphW, if_pos ⟨rfl, hx⟩, h0], .nil x⟩
    · cases e : lastWeight es x y with
      | none =>
        obtain ⟨l, h1, h2⟩ := hc x y hx hy
        exact ⟨l, by rw [graphW, if_neg (fun h => hxy h.1), e]; exact h1, h2⟩
      | some w =>
        refine ⟨φ w + 0, ?_, .cons e (.nil y)⟩
        rw [graphW, if_neg (fun h => hxy h.1), e, add_zero]; rfl
  have hwalk : ∀ (vs : List Nat) x y, x < n → y < n → (∀ v ∈ vs, v < n) →
      ∃ l, l ≤ walkLen (fun x y => φ (graphW n zero default es x y)) x vs y ∧ GraphWalk φ es x y l := by
    intro vs
    induction vs with
    | nil => intro x y hx hy _; exact hstep x y hx hy
    | cons v vs ih =>
      intro x y hx hy hvs
      have hvn := hvs v (by simp)
      obtain ⟨l, h1, h2⟩ := hstep x v hx hvn
      obtain ⟨l', h1', h2'⟩ := ih v y hvn hy fun u hu => hvs u (by simp [hu])
      exact ⟨l + l', add_le_add h1 h1', h2.append h2'⟩
  refine ⟨fun x y l hx hy h => hle x y l h hx hy, fun x y hx hy => ?_⟩
  obtain ⟨vs, hvs, e⟩ := hD.attained x y hx hy
  obtain ⟨l, h1, h2⟩ := hwalk vs x y hx hy hvs
  rw [← e] at h1
  rw [le_antisymm (hle x y l h2 hx hy) h1]
  exact h2

end graph

end KMedoids
