import Verif.Proofs.Orlib
import Verif.Props.C99

/-!
# C100: the ORLib example program

For a proper file `read_orlib` returns the distances in the graph, if the default value is large enough and sums do not overflow. A
file with a bad line (a blank last line is enough) makes it panic. The default value the program uses, `i32::MAX`, overflows for
almost every graph: with overflow checks the program panics, without them it clusters negative distances.
-/

set_option linter.unusedSectionVars false

namespace KMedoids

open RFrom (conv)

/-! ## What the program computes -/

section general

variable {N L : Type} [LinearOrder N] [Zero N] [RDist N] [LawfulDist N]
variable [AddCommGroup L] [LinearOrder L] [IsOrderedAddMonoid L] [RLoss L] [LawfulLoss L]
variable [RFrom N L] [LawfulFrom N L]
variable {I : L → Prop} {add : N → N → Res N} {n p k : Nat}
variable {parseUsize : String → Option Nat} {parse : String → Option N} {header : List String}
variable {lines : List (List String)} {es : List (Edge N)} {default : N}

theorem graphW_dissim (hw : ∀ e ∈ es, 0 ≤ e.weight) (hdef : 0 ≤ default) : Dissim n (graphW n 0 default es) := by
  refine ⟨fun x hx => by rw [graphW, if_pos ⟨rfl, hx⟩], fun x y hx hy => ?_⟩
  unfold graphW
  split
  · exact le_refl _
  · cases e : lastWeight es x y with
    | none => exact hdef
    | some w =>
      obtain ⟨e', he', rfl, -⟩ := lastWeight_mem e
      exact hw e' he'

theorem graphW_symm : Symm n (graphW n 0 default es) := by
  intro x y hx hy
  unfold graphW
  rw [lastWeight_symm es x y]
  by_cases h : x = y
  · subst h; rfl
  · rw [if_neg (fun g => h g.1), if_neg (fun g => h g.1.symm)]

theorem graphW_all {P : N → Prop} (h0 : P 0) (hw : ∀ e ∈ es, P e.weight) (hdef : P default) (x y : Nat) :
    P (graphW n 0 default es x y) := by
  unfold graphW
  split
  · exact h0
  · cases e : lastWeight es x y with
    | none => exact hdef
    | some w =>
      obtain ⟨e', he', rfl, -⟩ := lastWeight_mem e
      exact hw e' he'

/-- **C100.** `read_orlib` returns `k` from the header and the lengths of the shortest walks, where pairs that are not listed
are edges with the default value. This is a metric. -/
theorem C100_read (hA : GoodAdd (conv : N → L) I add) (hh : header.map parseUsize = [some n, some p, some k])
    (hv : ValidEdges n es) (hl : List.Forall₂ (LineOf parseUsize parse) lines es)
    (hw : ∀ e ∈ es, 0 ≤ e.weight ∧ I (conv e.weight)) (hdef : 0 ≤ default ∧ I (conv default)) :
    ∃ D : Nat → Nat → N, readOrlib add 0 parseUsize parse default header lines = .ok (some ⟨⟨n, n, D⟩, k⟩) ∧
      IsMatrix (Array2.toMat ⟨n, n, D⟩) n D ∧ Dissim n D ∧ IsMetric (conv : N → L) n D ∧
      IsShortest n (fun x y => (conv (graphW n 0 default es x y) : L)) fun x y => conv (D x y) := by
  have hI0 : I (conv (0 : N)) := by
    refine hA.down _ _ ?_ ?_ hdef.2
    · rw [LawfulFrom.map_zero]
    · exact LawfulFrom.strictMono.monotone hdef.1
  obtain ⟨D, e, h⟩ := C99_metric hA (graphW_dissim (n := n) (fun e he => (hw e he).1) hdef.1) graphW_symm
    (fun x y _ _ => graphW_all (P := fun v => I (conv v)) hI0 (fun e he => (hw e he).2) hdef.2 x y)
  exact ⟨D, by rw [readOrlib_eq hh hv hl, e]; rfl, h⟩

/-- **C100, distances in the graph:** if every two objects are connected by a walk of listed edges that is not longer than the
default value, the result contains the distances in the graph, whatever the default value is. -/
theorem C100_graph (hA : GoodAdd (conv : N → L) I add) (hh : header.map parseUsize = [some n, some p, some k])
    (hv : ValidEdges n es) (hl : List.Forall₂ (LineOf parseUsize parse) lines es)
    (hw : ∀ e ∈ es, 0 ≤ e.weight ∧ I (conv e.weight)) (hdef : 0 ≤ default ∧ I (conv default))
    (hc : ∀ x y, x < n → y < n → ∃ l, l ≤ conv default ∧ GraphWalk (conv : N → L) es x y l) :
    ∃ D : Nat → Nat → N, readOrlib add 0 parseUsize parse default header lines = .ok (some ⟨⟨n, n, D⟩, k⟩) ∧
      IsGraphDist (conv : N → L) es n fun x y => conv (D x y) := by
  obtain ⟨D, e, -, -, -, hD⟩ := C100_read hA hh hv hl hw hdef
  exact ⟨D, e, graphDist_of_shortest LawfulFrom.map_zero hv hc hD⟩

/-- **C100, the whole program:** with distinct start medoids it ends normally. The loss it prints is the sum of the distances
in the graph to the nearest of the medoids found, and, unless it stopped after 100 iterations, at most five times that of any `k`
objects. -/
theorem C100_main (hA : GoodAdd (conv : N → L) I add) (hh : header.map parseUsize = [some n, some p, some k])
    (hv : ValidEdges n es) (hl : List.Forall₂ (LineOf parseUsize parse) lines es)
    (hw : ∀ e ∈ es, 0 ≤ e.weight ∧ I (conv e.weight)) (hdef : 0 ≤ default ∧ I (conv default))
    (hc : ∀ x y, x < n → y < n → ∃ l, l ≤ conv default ∧ GraphWalk (conv : N → L) es x y l)
    {sample : Nat → Nat → List Nat} (hs : ValidMeds n (sample n k)) (hnd : (sample n k).Nodup) (hk : (sample n k).length = k) :
    ∃ (D : Nat → Nat → N) (r : SwapResult L),
      orlibMain L add parseUsize parse default sample header lines = .ok (some r) ∧
      IsGraphDist (conv : N → L) es n (fun x y => conv (D x y)) ∧ r.med.length = k ∧ r.med.Nodup ∧ (∀ m ∈ r.med, m < n) ∧
      r.loss = totalDev (conv : N → L) n D r.med ∧
      (r.nIter < 100 → ∀ other : List Nat, other ≠ [] → (∀ c ∈ other, c < n) → other.length ≤ k →
        r.loss ≤ 5 • totalDev (conv : N → L) n D other) := by
  obtain ⟨D, e, hm, hd, hmet, hD⟩ := C100_read hA hh hv hl hw hdef
  obtain ⟨r, er, hwf⟩ := C04_fasterpam (L := L) hm hs 100
  have hrun : IsPamRun (L := L) (Array2.toMat ⟨n, n, D⟩) n (sample n k) 100 r := Or.inl er
  refine ⟨D, r, ?_, graphDist_of_shortest LawfulFrom.map_zero hv hc hD, hwf.medLen.trans hk, C06_fasterpam hm hd hs hnd 100 er,
    hwf.medRange, (hrun.outcome hm hd hs hnd fun _ => hmet.symm).loss, fun hlt other hne hor hol => ?_⟩
  · unfold orlibMain
    rw [LawfulDist.zero_eq, e]
    simp only [bind, Except.bind]
    rw [er]
  · exact C64_pam_family hm hd hmet hs hnd hrun hlt hne hor (by rw [hk]; exact hol)

end general

section bad

variable {N : Type} [RPartialOrd N] {add : N → N → Res N} {n p k : Nat}
variable {parseUsize : String → Option Nat} {parse : String → Option N} {header : List String}
variable {lines : List (List String)} {es : List (Edge N)} {zero default : N}

/-- **C100, bad lines:** any number type and any arithmetic. A loop, an object that does not exist or a line with less than three words
makes the program panic, wherever the line is. -/
theorem C100_bad_line (hh : header.map parseUsize = [some n, some p, some k])
    (hv : ValidEdges n es) (hl : List.Forall₂ (LineOf parseUsize parse) lines es) {line : List String} {x1 x2 : Nat}
    (h1 : ∀ t, line[0]? = some t → parseUsize t = some x1) (h2 : ∀ t, line[1]? = some t → parseUsize t = some x2)
    (h3 : ∀ t, line[2]? = some t → (parse t).isSome)
    (hbad : line.length < 3 ∨ x1 = x2 ∨ x1 = 0 ∨ x2 = 0 ∨ n < x1 ∨ n < x2) (more : List (List String)) :
    Panics (readOrlib add zero parseUsize parse default header (lines ++ line :: more)) :=
  readOrlib_bad hh hv hl (fun _ => orlibLine_bad h1 h2 h3 hbad) more

/-- **C100, blank line:** a proper file that ends with a blank line makes the program panic. -/
theorem C100_blank_line (hh : header.map parseUsize = [some n, some p, some k])
    (hv : ValidEdges n es) (hl : List.Forall₂ (LineOf parseUsize parse) lines es) :
    Panics (readOrlib add zero parseUsize parse default header (lines ++ [[]])) :=
  C100_bad_line (x1 := 0) (x2 := 0) hh hv hl (by simp) (by simp) (by simp) (by simp) []

end bad

/-! ## `i32::MAX` as default value -/

/-- `i32::MAX` -/
def maxI32 : Int32 := 2147483647

/-- A loop that fails with a certain panic at some element, and can fail with this panic only. -/
theorem foldRes_fails {α σ : Type} {f : σ → α → Res σ} {P : σ → Prop} {err : Panic} {l : List α} {x : α} (hx : x ∈ l)
    (hstep : ∀ s, ∀ y ∈ l, P s → f s y = .error err ∨ ∃ s', f s y = .ok s' ∧ P s')
    (hfail : ∀ s, P s → f s x = .error err) : ∀ s, P s → foldRes f s l = .error err := by
  induction l with
  | nil => cases hx
  | cons y l ih =>
    intro s hs
    show (f s y >>= fun s' => foldRes f s' l) = _
    rcases List.mem_cons.mp hx with rfl | hx
    · rw [hfail s hs]; rfl
    · rcases hstep s y (by simp) hs with e | ⟨s', e, hp⟩
      · rw [e]; rfl
      · rw [e]
        exact ih hx (fun s z hz => hstep s z (by simp [hz])) s' hp

/-- During the first pass: the first row and column are as they were. -/
structure FirstPass (n : Nat) (w : Nat → Nat → Int32) (a : Array2 Int32) : Prop where
  rows : a.rows = n
  cols : a.cols = n
  col : ∀ x, x < n → a.val x 0 = w x 0
  row : ∀ x, x < n → a.val 0 x = w 0 x

section i32

variable {n : Nat} {w : Nat → Nat → Int32}

theorem apspCell_eq {add : Int32 → Int32 → Res Int32} {a : Array2 Int32} (hr : a.rows = n) (hc : a.cols = n) {i x y : Nat}
    (hi : i < n) (hx : x < n) (hy : y < n) : apspCell add i x a y = (do
      let m ← add (a.val x i) (a.val i y)
      if rlt m (a.val x y) then .ok ⟨n, n, fun p q => if p = x ∧ q = y then m else if p = y ∧ q = x then m else a.val p q⟩
      else .ok a) := by
  have g1 : a.get x i = .ok (a.val x i) := by unfold Array2.get; rw [hr, hc, if_pos ⟨hx, hi⟩]
  have g2 : a.get i y = .ok (a.val i y) := by unfold Array2.get; rw [hr, hc, if_pos ⟨hi, hy⟩]
  have g3 : a.get x y = .ok (a.val x y) := by unfold Array2.get; rw [hr, hc, if_pos ⟨hx, hy⟩]
  unfold apspCell
  simp only [g1, g2, g3, bind, Except.bind]
  cases add (a.val x i) (a.val i y) with
  | error e => rfl
  | ok m =>
    simp only [Array2.set, hr, hc, hx, hy, and_self, if_true]

theorem FirstPass.write {a : Array2 Int32} (h : FirstPass n w a) {x y : Nat} (hx : x ≠ 0) (hy : y ≠ 0) (m : Int32) :
    FirstPass n w ⟨n, n, fun p q => if p = x ∧ q = y then m else if p = y ∧ q = x then m else a.val p q⟩ :=
  ⟨rfl, rfl, fun p hp => by
    show (if p = x ∧ 0 = y then m else if p = y ∧ 0 = x then m else a.val p 0) = _
    rw [if_neg (by omega), if_neg (by omega)]; exact h.col p hp, fun p hp => by
    show (if 0 = x ∧ p = y then m else if 0 = y ∧ p = x then m else a.val 0 p) = _
    rw [if_neg (by omega), if_neg (by omega)]; exact h.row p hp⟩

/-- The first row does not change anything. -/
theorem FirstPass.zero_row (hd : Dissim n w) {add : Int32 → Int32 → Res Int32} (hadd : ∀ v : Int32, add 0 v = .ok v)
    {a : Array2 Int32} (h : FirstPass n w a) {y : Nat} (hn : 0 < n) (hy : y < n) : apspCell add 0 0 a y = .ok a := by
  have h0 : a.val 0 0 = 0 := by rw [h.col 0 hn, hd.diag 0 hn]
  rw [apspCell_eq h.rows h.cols hn hn hy, h0, hadd]
  simp only [bind, Except.bind]
  rw [if_neg]
  rw [i32_rlt]
  exact lt_irrefl _

theorem addI32Checked_zero (v : Int32) : addI32Checked 0 v = .ok v := by
  have h1 := Int32.le_toInt v
  have h2 := Int32.toInt_lt v
  unfold addI32Checked
  have e0 : (0 : Int32).toInt = 0 := rfl
  rw [if_pos (by rw [e0, zero_add]; exact ⟨h1, h2⟩), Int32.zero_add]

/-- With overflow checks: a step of the first pass either fails or keeps the first row and column. -/
theorem FirstPass.step_checked (hd : Dissim n w) {a : Array2 Int32} (h : FirstPass n w a) {x y : Nat} (hxy : x < y) (hy : y < n) :
    apspCell addI32Checked 0 x a y = .error .arith ∨
      ∃ a', apspCell addI32Checked 0 x a y = .ok a' ∧ FirstPass n w a' := by
  by_cases hx0 : x = 0
  · subst hx0
    exact Or.inr ⟨a, h.zero_row hd addI32Checked_zero (by omega) hy, h⟩
  · rw [apspCell_eq h.rows h.cols (by omega) (by omega) hy]
    unfold addI32Checked
    split
    · right
      simp only [bind, Except.bind]
      split
      · exact ⟨_, rfl, h.write hx0 (by omega) _⟩
      · exact ⟨_, rfl, h⟩
    · exact Or.inl rfl

theorem apsp_first {add : Int32 → Int32 → Res Int32} (hn : 0 < n) : allPairsShortestPath add ⟨n, n, w⟩ =
    (apspPass add n ⟨n, n, w⟩ 0 >>= fun a => foldRes (apspPass add n) a (List.range' 1 (n - 1))) := by
  unfold allPairsShortestPath
  simp only [rassert, beq_self_eq_true, if_true, bind, Except.bind]
  obtain ⟨m, rfl⟩ : ∃ m, n = m + 1 := ⟨n - 1, by omega⟩
  rw [List.range_eq_range', List.range'_succ]
  rfl

/-- Overflow in the first pass with overflow checks. -/
theorem apsp_checked_fails (hd : Dissim n w) {x y : Nat} (hx : 0 < x) (hxy : x < y) (hy : y < n)
    (hover : 2 ^ 31 ≤ (w x 0).toInt + (w 0 y).toInt) : allPairsShortestPath addI32Checked ⟨n, n, w⟩ = .error .arith := by
  have hfail : ∀ a, FirstPass n w a → apspCell addI32Checked 0 x a y = .error .arith := by
    intro a h
    rw [apspCell_eq h.rows h.cols (by omega) (by omega) hy, h.col x (by omega), h.row y hy]
    unfold addI32Checked
    rw [if_neg (by omega)]; rfl
  have hP0 : FirstPass n w ⟨n, n, w⟩ := ⟨rfl, rfl, fun _ _ => rfl, fun _ _ => rfl⟩
  have : apspPass addI32Checked n ⟨n, n, w⟩ 0 = .error .arith := by
    refine foldRes_fails (P := FirstPass n w) (x := x) (List.mem_range.mpr (by omega)) (fun a x' hx' ha => ?_) (fun a ha => ?_) _ hP0
    · have hx' := List.mem_range.mp hx'
      have hstep : ∀ s, ∀ z ∈ List.range' (x' + 1) (n - (x' + 1)), FirstPass n w s →
          apspCell addI32Checked 0 x' s z = .error .arith ∨ ∃ s', apspCell addI32Checked 0 x' s z = .ok s' ∧ FirstPass n w s' := by
        intro s z hz hs
        rw [List.mem_range'_1] at hz
        exact hs.step_checked hd (by omega) (by omega)
      show foldRes _ _ _ = _ ∨ ∃ s', foldRes _ _ _ = _ ∧ _
      generalize List.range' (x' + 1) (n - (x' + 1)) = l at hstep
      induction l generalizing a with
      | nil => exact Or.inr ⟨a, rfl, ha⟩
      | cons z l ih =>
        rcases hstep a z (by simp) ha with e | ⟨s', e, hs'⟩
        · left
          show (apspCell addI32Checked 0 x' a z >>= _) = _
          rw [e]; rfl
        · have := ih s' hs' fun s u hu => hstep s u (by simp [hu])
          show (apspCell addI32Checked 0 x' a z >>= _) = _ ∨ ∃ s', (apspCell addI32Checked 0 x' a z >>= _) = _ ∧ _
          rw [e]
          exact this
    · refine foldRes_fails (P := FirstPass n w) (x := y) ?_ (fun s z hz hs => ?_) hfail a ha
      · rw [List.mem_range'_1]; omega
      · rw [List.mem_range'_1] at hz
        exact hs.step_checked hd (by omega) (by omega)
  rw [apsp_first (by omega), this]; rfl

/-- The entries above the diagonal do not grow. -/
def UpperLe (n : Nat) (a a' : Array2 Int32) : Prop := ∀ p q, p < q → q < n → (a'.val p q).toInt ≤ (a.val p q).toInt

theorem UpperLe.refl (a : Array2 Int32) : UpperLe n a a := fun _ _ _ _ => le_refl _

theorem UpperLe.trans (a b c : Array2 Int32) (h1 : UpperLe n a b) (h2 : UpperLe n b c) : UpperLe n a c :=
  fun p q hp hq => le_trans (h2 p q hp hq) (h1 p q hp hq)

/-- Without overflow checks: a step does not fail, and nothing grows; the new entry is at most the wrapped sum. -/
theorem step_wrapping {a : Array2 Int32} (hr : a.rows = n) (hc : a.cols = n) {i x y : Nat} (hi : i < n) (hxy : x < y)
    (hy : y < n) : ∃ a', apspCell addI32Wrapping i x a y = .ok a' ∧ (a'.rows = n ∧ a'.cols = n) ∧ UpperLe n a a' ∧
      (a'.val x y).toInt ≤ (a.val x i + a.val i y).toInt ∧
      (∀ w, x ≠ 0 → FirstPass n w a → FirstPass n w a') := by
  rw [apspCell_eq hr hc hi (by omega) hy]
  unfold addI32Wrapping
  simp only [bind, Except.bind]
  split
  · rename_i hlt
    have hlt := (i32_rlt _ _).mp hlt
    refine ⟨_, rfl, ⟨rfl, rfl⟩, fun p q hp hq => ?_, ?_, fun w hx0 hf => hf.write hx0 (by omega) _⟩
    · show (if p = x ∧ q = y then a.val x i + a.val i y else if p = y ∧ q = x then a.val x i + a.val i y else a.val p q).toInt ≤ _
      split
      · rename_i e; rw [e.1, e.2]; exact le_of_lt hlt
      · rw [if_neg (by omega)]
    · show (if x = x ∧ y = y then a.val x i + a.val i y else _).toInt ≤ _
      rw [if_pos ⟨rfl, rfl⟩]
  · rename_i hlt
    exact ⟨_, rfl, ⟨hr, hc⟩, UpperLe.refl a, not_lt.mp fun g => hlt ((i32_rlt _ _).mpr g), fun _ _ hf => hf⟩

theorem row_wrapping {a : Array2 Int32} (hr : a.rows = n) (hc : a.cols = n) {i x : Nat} (hi : i < n) :
    ∃ a', apspRow addI32Wrapping n i a x = .ok a' ∧ (a'.rows = n ∧ a'.cols = n) ∧ UpperLe n a a' := by
  obtain ⟨a', e, h1, h2, -⟩ := foldRes_rel (f := apspCell addI32Wrapping i x) (P := fun s => s.rows = n ∧ s.cols = n)
    (R := UpperLe n) (Q := fun _ _ => True) UpperLe.refl UpperLe.trans (fun _ _ _ _ _ => trivial)
    (List.range' (x + 1) (n - (x + 1))) (fun s y hy hs => by
      rw [List.mem_range'_1] at hy
      obtain ⟨t, e, h1, h2, -⟩ := step_wrapping (n := n) hs.1 hs.2 hi (x := x) (y := y) (by omega) (by omega)
      exact ⟨t, e, h1, h2, trivial⟩) a ⟨hr, hc⟩
  exact ⟨a', e, h1, h2⟩

theorem pass_wrapping {a : Array2 Int32} (hr : a.rows = n) (hc : a.cols = n) {i : Nat} (hi : i < n) :
    ∃ a', apspPass addI32Wrapping n a i = .ok a' ∧ (a'.rows = n ∧ a'.cols = n) ∧ UpperLe n a a' := by
  obtain ⟨a', e, h1, h2, -⟩ := foldRes_rel (f := apspRow addI32Wrapping n i) (P := fun s => s.rows = n ∧ s.cols = n)
    (R := UpperLe n) (Q := fun _ _ => True) UpperLe.refl UpperLe.trans (fun _ _ _ _ _ => trivial)
    (List.range n) (fun s x hx hs => by
      obtain ⟨t, e, h1, h2⟩ := row_wrapping (n := n) hs.1 hs.2 hi (x := x)
      exact ⟨t, e, h1, h2, trivial⟩) a ⟨hr, hc⟩
  exact ⟨a', e, h1, h2⟩

/-- The first pass without overflow checks takes all wrapped sums. -/
theorem first_wrapping (hd : Dissim n w) : ∃ a', apspPass addI32Wrapping n ⟨n, n, w⟩ 0 = .ok a' ∧ (a'.rows = n ∧ a'.cols = n) ∧
    ∀ x y, 0 < x → x < y → y < n → (a'.val x y).toInt ≤ (w x 0 + w 0 y).toInt := by
  obtain ⟨a', e, h1, -, hq⟩ := foldRes_rel (f := apspRow addI32Wrapping n 0) (P := FirstPass n w) (R := UpperLe n)
    (Q := fun x s => ∀ y, 0 < x → x < y → y < n → (s.val x y).toInt ≤ (w x 0 + w 0 y).toInt) UpperLe.refl UpperLe.trans
    (fun s t x hst hQ y h0 hxy hy => le_trans (hst x y hxy hy) (hQ y h0 hxy hy))
    (List.range n) (fun s x hx hs => by
      have hx := List.mem_range.mp hx
      obtain ⟨t, e, hp, hr, hq⟩ := foldRes_rel (f := apspCell addI32Wrapping 0 x) (P := FirstPass n w) (R := UpperLe n)
        (Q := fun y s => 0 < x → x < y → y < n → (s.val x y).toInt ≤ (w x 0 + w 0 y).toInt) UpperLe.refl UpperLe.trans
        (fun s t y hst hQ h0 hxy hy => le_trans (hst x y hxy hy) (hQ h0 hxy hy))
        (List.range' (x + 1) (n - (x + 1))) (fun s y hy hs => by
          rw [List.mem_range'_1] at hy
          by_cases hx0 : x = 0
          · subst hx0
            exact ⟨s, hs.zero_row hd (fun v => by rw [addI32Wrapping, Int32.zero_add]) hx (by omega), hs, UpperLe.refl s,
              fun h => absurd h (by omega)⟩
          · obtain ⟨t, e, h1, h2, h3, h4⟩ := step_wrapping (n := n) hs.rows hs.cols (i := 0) (x := x) (y := y) (by omega)
              (by omega) (by omega)
            rw [hs.col x hx, hs.row y (by omega)] at h3
            exact ⟨t, e, h4 w hx0 hs, h2, fun _ _ _ => h3⟩) s hs
      refine ⟨t, e, hp, hr, fun y h0 hxy hy => hq y ?_ h0 hxy hy⟩
      rw [List.mem_range'_1]; omega) ⟨n, n, w⟩ ⟨rfl, rfl, fun _ _ => rfl, fun _ _ => rfl⟩
  exact ⟨a', e, ⟨h1.rows, h1.cols⟩, fun x y h0 hxy hy => hq x (List.mem_range.mpr (by omega)) y h0 hxy hy⟩

/-- Overflow in the first pass without overflow checks: a negative distance remains. -/
theorem apsp_wrapping_negative (hd : Dissim n w) {x y : Nat} (hx : 0 < x) (hxy : x < y) (hy : y < n)
    (hover : 2 ^ 31 ≤ (w x 0).toInt + (w 0 y).toInt) :
    ∃ D : Nat → Nat → Int32, allPairsShortestPath addI32Wrapping ⟨n, n, w⟩ = .ok ⟨n, n, D⟩ ∧ (D x y).toInt < 0 := by
  obtain ⟨a, e, hs, hq⟩ := first_wrapping hd
  obtain ⟨⟨r, c, D⟩, e', ⟨hr, hc⟩, hle, -⟩ := foldRes_rel (f := apspPass addI32Wrapping n) (P := fun s => s.rows = n ∧ s.cols = n)
    (R := UpperLe n) (Q := fun _ _ => True) UpperLe.refl UpperLe.trans (fun _ _ _ _ _ => trivial)
    (List.range' 1 (n - 1)) (fun s i hi hs => by
      rw [List.mem_range'_1] at hi
      obtain ⟨t, e, h1, h2⟩ := pass_wrapping (n := n) hs.1 hs.2 (i := i) (by omega)
      exact ⟨t, e, h1, h2, trivial⟩) a hs
  have hr : r = n := hr
  have hc : c = n := hc
  subst hr
  subst hc
  refine ⟨D, by rw [apsp_first (by omega), e]; exact e', lt_of_le_of_lt (le_trans (hle x y hxy hy) (hq x y hx hxy hy)) ?_⟩
  have b1 := Int32.toInt_lt (w x 0)
  have b2 := Int32.toInt_lt (w 0 y)
  rw [Int32.toInt_add, Int.bmod_def]
  split <;> omega

end i32

section max

variable {n p k : Nat} {parseUsize : String → Option Nat} {parse : String → Option Int32} {header : List String}
variable {lines : List (List String)} {es : List (Edge Int32)}

/-- The two entries that overflow. -/
theorem max_overflow {z z' : Nat} (hz0 : 0 < z) (hzn : z < n) (hz : lastWeight es 0 z = none)
    (hz0' : 0 < z') (hzn' : z' < n) (hzz : z ≠ z') (hpos : 0 < graphW n 0 maxI32 es 0 z') :
    ∃ x y, 0 < x ∧ x < y ∧ y < n ∧ (x = z ∧ y = z' ∨ x = z' ∧ y = z) ∧
      2 ^ 31 ≤ (graphW n 0 maxI32 es x 0).toInt + (graphW n 0 maxI32 es 0 y).toInt := by
  have e1 : graphW n 0 maxI32 es 0 z = maxI32 := by
    rw [graphW, if_neg (fun h => absurd h.1 (by omega)), hz]; rfl
  have hs : ∀ u, u < n → graphW n 0 maxI32 es u 0 = graphW n 0 maxI32 es 0 u := fun u hu =>
    graphW_symm u 0 hu (by omega)
  have hp : 0 < (graphW n 0 maxI32 es 0 z').toInt := Int32.lt_iff_toInt_lt.mp hpos
  have em : maxI32.toInt = 2 ^ 31 - 1 := rfl
  rcases Nat.lt_or_ge z z' with h | h
  · exact ⟨z, z', hz0, h, hzn', Or.inl ⟨rfl, rfl⟩, by rw [hs z hzn, e1, em]; omega⟩
  · exact ⟨z', z, hz0', by omega, hzn, Or.inr ⟨rfl, rfl⟩, by rw [hs z' hzn', e1, em]; omega⟩

/-- **C100, the default value `i32::MAX`:** let the first object have no edge to some object `z`, and let its entry for another object `z'`
not be zero (no edge, or an edge with a positive weight). With overflow checks the program panics on this file. Without them it
obtains a negative distance between `z` and `z'`. -/
theorem C100_i32_max (hh : header.map parseUsize = [some n, some p, some k]) (hv : ValidEdges n es)
    (hl : List.Forall₂ (LineOf parseUsize parse) lines es) (hw : ∀ e ∈ es, 0 ≤ e.weight)
    {z z' : Nat} (hz0 : 0 < z) (hzn : z < n) (hz : lastWeight es 0 z = none)
    (hz0' : 0 < z') (hzn' : z' < n) (hzz : z ≠ z') (hpos : lastWeight es 0 z' ≠ some 0) :
    readOrlib addI32Checked 0 parseUsize parse maxI32 header lines = .error .arith ∧
    ∃ (D : Nat → Nat → Int32) (x y : Nat), readOrlib addI32Wrapping 0 parseUsize parse maxI32 header lines =
      .ok (some ⟨⟨n, n, D⟩, k⟩) ∧ (x = z ∧ y = z' ∨ x = z' ∧ y = z) ∧ (D x y).toInt < 0 := by
  have hd : Dissim n (graphW n 0 maxI32 es) := graphW_dissim hw (by decide)
  have hpos' : 0 < graphW n 0 maxI32 es 0 z' := by
    rw [graphW, if_neg (fun h => absurd h.1 (by omega))]
    cases e : lastWeight es 0 z' with
    | none => exact (by decide : (0 : Int32) < maxI32)
    | some v =>
      obtain ⟨e', he', rfl, -⟩ := lastWeight_mem e
      rw [e] at hpos
      exact lt_of_le_of_ne (hw e' he') fun h => hpos (congrArg some h.symm)
  obtain ⟨x, y, h0, hxy, hy, hor, hover⟩ := max_overflow hz0 hzn hz hz0' hzn' hzz hpos'
  rw [readOrlib_eq hh hv hl, readOrlib_eq hh hv hl, apsp_checked_fails hd h0 hxy hy hover]
  obtain ⟨D, e, hD⟩ := apsp_wrapping_negative hd h0 hxy hy hover
  rw [e]
  exact ⟨rfl, D, x, y, rfl, hor, hD⟩

/-- **C100, the program as it is:** with overflow checks `main` panics on such a file, for any start medoids. -/
theorem C100_main_i32_max (hh : header.map parseUsize = [some n, some p, some k]) (hv : ValidEdges n es)
    (hl : List.Forall₂ (LineOf parseUsize parse) lines es) (hw : ∀ e ∈ es, 0 ≤ e.weight)
    {z z' : Nat} (hz0 : 0 < z) (hzn : z < n) (hz : lastWeight es 0 z = none)
    (hz0' : 0 < z') (hzn' : z' < n) (hzz : z ≠ z') (hpos : lastWeight es 0 z' ≠ some 0) (sample : Nat → Nat → List Nat) :
    orlibMain ℤ addI32Checked parseUsize parse maxI32 sample header lines = .error .arith := by
  have h := (C100_i32_max hh hv hl hw hz0 hzn hz hz0' hzn' hzz hpos).1
  unfold orlibMain
  rw [LawfulDist.zero_eq, h]
  rfl

/-- **C100, the remedy:** with the default value `i32::MAX / 2`, weights up to this value, and objects that are connected by walks of at most
this length, the program computes with the distances in the graph, with and without overflow checks. -/
theorem C100_remedy (hh : header.map parseUsize = [some n, some p, some k]) (hv : ValidEdges n es)
    (hl : List.Forall₂ (LineOf parseUsize parse) lines es) (hw : ∀ e ∈ es, 0 ≤ e.weight ∧ e.weight.toInt ≤ halfMax)
    (hc : ∀ x y, x < n → y < n → ∃ l, l ≤ halfMax ∧ GraphWalk (conv : Int32 → ℤ) es x y l)
    {add : Int32 → Int32 → Res Int32} (hadd : add = addI32Checked ∨ add = addI32Wrapping) :
    ∃ D : Nat → Nat → Int32, readOrlib add 0 parseUsize parse 1073741823 header lines = .ok (some ⟨⟨n, n, D⟩, k⟩) ∧
      IsGraphDist (conv : Int32 → ℤ) es n fun x y => (D x y).toInt := by
  have hdef : (0 : Int32) ≤ 1073741823 ∧ (conv (1073741823 : Int32) : ℤ) ≤ halfMax := by decide
  have e : (conv (1073741823 : Int32) : ℤ) = halfMax := by decide
  rcases hadd with rfl | rfl
  · exact C100_graph goodAdd_i32_checked hh hv hl hw hdef (by rw [e]; exact hc)
  · exact C100_graph goodAdd_i32_wrapping hh hv hl hw hdef (by rw [e]; exact hc)

end max

/-! ## Non-vacuity -/

/-- The words of the examples. -/
def orlibWord (s : String) : Option Nat := [("1", 1), ("2", 2), ("3", 3), ("4", 4), ("7", 7)].lookup s

/-- The same as `i32`. -/
def orlibWordI (s : String) : Option Int32 := (orlibWord s).map fun v => Int32.ofNat v

/-- Four objects, the edges 1-4 (weight 7, then replaced by 2), 4-2 and 2-3. -/
def orlibExLines : List (List String) := [["1", "4", "7"], ["4", "2", "1"], ["2", "3", "3"], ["4", "1", "2", "x"]]

def orlibExEdges : List (Edge Int32) := [⟨0, 3, 7⟩, ⟨3, 1, 1⟩, ⟨1, 2, 3⟩, ⟨3, 0, 2⟩]

theorem orlibEx_header : ["4", "3", "2"].map orlibWord = [some 4, some 3, some 2] := by decide +kernel

theorem orlibEx_lines : List.Forall₂ (LineOf orlibWord orlibWordI) orlibExLines orlibExEdges := by
  refine .cons ⟨_, _, _, _, rfl, ?_, ?_, ?_⟩ (.cons ⟨_, _, _, _, rfl, ?_, ?_, ?_⟩ (.cons ⟨_, _, _, _, rfl, ?_, ?_, ?_⟩
    (.cons ⟨_, _, _, _, rfl, ?_, ?_, ?_⟩ .nil))) <;> decide +kernel

theorem orlibEx_valid : ValidEdges 4 orlibExEdges := by
  intro e he
  simp only [orlibExEdges, List.mem_cons, List.not_mem_nil, or_false] at he
  rcases he with rfl | rfl | rfl | rfl <;> decide

theorem orlibEx_weights : ∀ e ∈ orlibExEdges, 0 ≤ e.weight ∧ e.weight.toInt ≤ halfMax := by
  intro e he
  simp only [orlibExEdges, List.mem_cons, List.not_mem_nil, or_false] at he
  rcases he with rfl | rfl | rfl | rfl <;> decide

/-- The last line replaces the first. -/
example : lastWeight orlibExEdges 0 3 = some 2 := by decide

/-- `C100_i32_max` applies: the first object has no edge to objects 1 and 2. -/
example : lastWeight orlibExEdges 0 1 = none ∧ lastWeight orlibExEdges 0 2 ≠ some 0 := by decide

example : readOrlib addI32Checked 0 orlibWord orlibWordI maxI32 ["4", "3", "2"] orlibExLines = .error .arith :=
  (C100_i32_max orlibEx_header orlibEx_valid orlibEx_lines (fun e he => (orlibEx_weights e he).1) (z := 1) (z' := 2) (by decide) (by decide) (by decide)
    (by decide) (by decide) (by decide) (by decide)).1

/-- Without overflow checks, with a negative loss at the end. -/
example : ((orlibMain ℤ addI32Wrapping orlibWord orlibWordI maxI32 (fun _ _ => [0, 1]) ["4", "3", "2"] orlibExLines).toOption.map
    fun r => r.map fun r => decide (r.loss < 0)) = some (some true) := by decide +kernel

/-- With the smaller default value: the distances in the graph. -/
example : ((readOrlib addI32Checked 0 orlibWord orlibWordI 1073741823 ["4", "3", "2"] orlibExLines).toOption.map fun r => r.map fun p =>
    (p.k, (List.range 4).map fun x => (List.range 4).map fun y => (p.data.val x y).toInt)) =
      some (some (2, [[0, 3, 6, 2], [3, 0, 3, 1], [6, 3, 0, 4], [2, 1, 4, 0]])) := by decide +kernel

/-- All objects are connected by short walks. -/
theorem orlibEx_connected : ∀ x y, x < 4 → y < 4 → ∃ l, l ≤ halfMax ∧ GraphWalk (conv : Int32 → ℤ) orlibExEdges x y l := by
  have to3 : ∀ x, x < 4 → ∃ l, l ≤ 4 ∧ GraphWalk (conv : Int32 → ℤ) orlibExEdges x 3 l := by
    intro x hx
    have h1 : GraphWalk (conv : Int32 → ℤ) orlibExEdges 1 3 (1 + 0) := .cons (w := 1) (by decide) (.nil 3)
    match x, hx with
    | 0, _ => exact ⟨2 + 0, by decide, .cons (w := 2) (by decide) (.nil 3)⟩
    | 1, _ => exact ⟨1 + 0, by decide, h1⟩
    | 2, _ => exact ⟨3 + (1 + 0), by decide, .cons (w := 3) (by decide) h1⟩
    | 3, _ => exact ⟨0, by decide, .nil 3⟩
  have from3 : ∀ y, y < 4 → ∃ l, l ≤ 4 ∧ GraphWalk (conv : Int32 → ℤ) orlibExEdges 3 y l := by
    intro y hy
    match y, hy with
    | 0, _ => exact ⟨2 + 0, by decide, .cons (w := 2) (by decide) (.nil 0)⟩
    | 1, _ => exact ⟨1 + 0, by decide, .cons (w := 1) (by decide) (.nil 1)⟩
    | 2, _ => exact ⟨1 + (3 + 0), by decide, .cons (w := 1) (v := 1) (by decide) (.cons (w := 3) (by decide) (.nil 2))⟩
    | 3, _ => exact ⟨0, by decide, .nil 3⟩
  intro x y hx hy
  obtain ⟨l, h1, h2⟩ := to3 x hx
  obtain ⟨l', h1', h2'⟩ := from3 y hy
  exact ⟨l + l', le_trans (add_le_add h1 h1') (by decide), h2.append h2'⟩

/-- `C100_main` applies: both profiles, and a run that converged. -/
example : ∃ (D : Nat → Nat → Int32) (r : SwapResult ℤ),
    orlibMain ℤ addI32Checked orlibWord orlibWordI 1073741823 (fun _ _ => [0, 1]) ["4", "3", "2"] orlibExLines = .ok (some r) ∧
      r.loss = totalDev (conv : Int32 → ℤ) 4 D r.med := by
  obtain ⟨D, r, e, -, -, -, -, h, -⟩ := C100_main goodAdd_i32_checked orlibEx_header orlibEx_valid orlibEx_lines orlibEx_weights (default := 1073741823)
    (by decide) (fun x y hx hy => orlibEx_connected x y hx hy) (sample := fun _ _ => [0, 1])
    ⟨⟨by decide, by decide, by decide, by decide⟩, by decide⟩ (by decide) rfl
  exact ⟨D, r, e, h⟩

example : ((orlibMain ℤ addI32Checked orlibWord orlibWordI 1073741823 (fun _ _ => [0, 1]) ["4", "3", "2"] orlibExLines).toOption.map
    fun r => r.map fun r => (r.loss, decide (r.nIter < 100))) = some (some (4, true)) := by decide +kernel

/-- `C100_bad_line`: a loop after two proper lines. -/
example : Panics (readOrlib addI32Checked 0 orlibWord orlibWordI maxI32 ["4", "3", "2"] (orlibExLines ++ [["2", "2", "1"], ["1", "2", "3"]])) :=
  C100_bad_line orlibEx_header orlibEx_valid orlibEx_lines (line := ["2", "2", "1"]) (x1 := 2) (x2 := 2)
    (fun t h => by cases h; decide +kernel) (fun t h => by cases h; decide +kernel) (fun t h => by cases h; decide +kernel)
    (by decide) _

end KMedoids
