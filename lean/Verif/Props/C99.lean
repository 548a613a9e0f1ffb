import Verif.Proofs.Floyd
import Verif.Props.C64

/-!
# C99: all_pairs_shortest_path of the ORLib example computes the shortest-path metric

For a symmetric matrix with zero diagonal and nonnegative entries the function does not panic, and every entry of the
result is the length of a shortest walk between the two objects, where the entries of the matrix are the edge lengths.
So the result satisfies the triangle inequality and the guarantee of C64 holds for fasterpam. With `i32` this is true, with or without
overflow checks, if no entry is above `i32::MAX / 2`; this bound is sharp.
-/

set_option linter.unusedSectionVars false

namespace KMedoids

open RFrom (conv)

/-! ## Exact numbers -/

section exact

variable {L : Type} [AddCommGroup L] [LinearOrder L] [IsOrderedAddMonoid L] [RLoss L] [LawfulLoss L]

/-- Ideal addition. -/
def addExact (a b : L) : Res L := .ok (RLoss.add a b)

theorem goodAdd_exact : GoodAdd (id : L → L) (fun _ => True) addExact :=
  ⟨fun a b => by
    unfold rlt
    rw [LawfulLoss.pcmp_eq, beq_iff_eq, Option.some.injEq]
    exact compare_lt_iff_lt, fun a b _ _ _ _ => ⟨_, rfl, LawfulLoss.add_eq a b⟩, fun _ _ _ _ _ => trivial⟩

/-- **C99.** The result has the same shape, and its entries are the lengths of the shortest walks. -/
theorem C99_shortest_paths {n : Nat} {w : Nat → Nat → L} (h0 : ∀ x, x < n → w x x = 0)
    (hn : ∀ x y, x < n → y < n → 0 ≤ w x y) (hs : ∀ x y, x < n → y < n → w x y = w y x) :
    ∃ D : Nat → Nat → L, allPairsShortestPath addExact ⟨n, n, w⟩ = .ok ⟨n, n, D⟩ ∧ IsShortest n w D ∧
      (∀ x, x < n → D x x = 0) ∧ (∀ x y, x < n → y < n → 0 ≤ D x y) ∧ (∀ x y, x < n → y < n → D x y = D y x) ∧
      ∀ x y z, x < n → y < n → z < n → D x z ≤ D x y + D y z := by
  obtain ⟨D, e, hw, hd⟩ := allPairsShortestPath_square goodAdd_exact (n := n) (a := ⟨n, n, w⟩)
    ⟨rfl, rfl, h0, hn, hs, fun _ _ _ _ => trivial⟩
  exact ⟨D, e, hd, hw.diag, hw.nonneg, hw.symm, fun x y z hx hy hz => hd.triangle hx hy hz⟩

/-- **C99:** distances that satisfy the triangle inequality are not changed. -/
theorem C99_metric_unchanged {n : Nat} {w : Nat → Nat → L} (h0 : ∀ x, x < n → w x x = 0)
    (hn : ∀ x y, x < n → y < n → 0 ≤ w x y) (hs : ∀ x y, x < n → y < n → w x y = w y x)
    (ht : ∀ x y z, x < n → y < n → z < n → w x z ≤ w x y + w y z) :
    ∃ D : Nat → Nat → L, allPairsShortestPath addExact ⟨n, n, w⟩ = .ok ⟨n, n, D⟩ ∧
      ∀ x y, x < n → y < n → D x y = w x y := by
  obtain ⟨D, e, hd, -⟩ := C99_shortest_paths h0 hn hs
  refine ⟨D, e, fun x y hx hy => hd.unique ⟨fun x y hx hy vs => ?_, fun x y _ _ => ⟨[], by simp, rfl⟩⟩ hx hy⟩
  induction vs generalizing x with
  | nil => intro _; exact le_refl _
  | cons v vs ih =>
    intro hvs
    have hv := hvs v (by simp)
    exact le_trans (ht x v y hx hv hy) (add_le_add (le_refl _) (ih v hv fun u hu => hvs u (by simp [hu])))

end exact

/-! ## Any number type whose sums are right in some range -/

section general

variable {N L : Type} [LinearOrder N] [Zero N] [RDist N] [LawfulDist N]
variable [AddCommGroup L] [LinearOrder L] [IsOrderedAddMonoid L] [RLoss L] [LawfulLoss L]
variable [RFrom N L] [LawfulFrom N L]
variable {I : L → Prop} {add : N → N → Res N} {n : Nat} {w : Nat → Nat → N}

/-- **C99, input of the clustering:** the result is a matrix to which all theorems about metrics apply. -/
theorem C99_metric (hA : GoodAdd (conv : N → L) I add) (hd : Dissim n w) (hs : Symm n w)
    (hI : ∀ x y, x < n → y < n → I (conv (w x y))) :
    ∃ D : Nat → Nat → N, allPairsShortestPath add ⟨n, n, w⟩ = .ok ⟨n, n, D⟩ ∧
      IsMatrix (Array2.toMat ⟨n, n, D⟩) n D ∧ Dissim n D ∧ IsMetric (conv : N → L) n D ∧
      IsShortest n (fun x y => (conv (w x y) : L)) fun x y => conv (D x y) := by
  have mono := LawfulFrom.strictMono (N := N) (L := L)
  obtain ⟨D, e, hw, hsh⟩ := allPairsShortestPath_square hA (n := n) (a := ⟨n, n, w⟩)
    ⟨rfl, rfl, fun x hx => by
      show (conv (w x x) : L) = 0
      rw [hd.diag x hx]; exact LawfulFrom.map_zero, fun x y hx hy => by
      rw [← LawfulFrom.map_zero (N := N) (L := L)]; exact mono.monotone (hd.nonneg x y hx hy),
      fun x y hx hy => by
      show (conv (w x y) : L) = conv (w y x)
      rw [hs x y hx hy], hI⟩
  refine ⟨D, e, ⟨rfl, ?_, fun x y hx hy => ?_⟩, ⟨fun x hx => mono.injective ?_, fun x y hx hy => ?_⟩, ⟨fun x y hx hy =>
    mono.injective (hw.symm x y hx hy), fun x y z hx hy hz => hsh.triangle hx hy hz⟩, hsh⟩
  · simp [Array2.toMat]
  · simp [Array2.toMat, hx, hy]
  · rw [LawfulFrom.map_zero]; exact hw.diag x hx
  · rw [← mono.le_iff_le, LawfulFrom.map_zero]; exact hw.nonneg x y hx hy

/-- **C99, the clustering:** a converged run of fasterpam on the result is at most five times worse than the best `k` medoids for
the lengths of the shortest walks. -/
theorem C99_fasterpam (hA : GoodAdd (conv : N → L) I add) (hd : Dissim n w) (hs : Symm n w)
    (hI : ∀ x y, x < n → y < n → I (conv (w x y))) {a : Array2 N} (ha : allPairsShortestPath add ⟨n, n, w⟩ = .ok a)
    {med : List Nat} (hv : ValidMeds n med) (hnd : med.Nodup) {maxiter : Nat} {r : SwapResult L}
    (hr : fasterpam L a.toMat med maxiter = .ok r) (hlt : r.nIter < maxiter) {other : List Nat} (hne : other ≠ [])
    (hor : ∀ c ∈ other, c < n) (hk : other.length ≤ med.length) :
    r.loss ≤ 5 • totalDev (conv : N → L) n a.val other := by
  obtain ⟨D, e, hm, hd', hmet, -⟩ := C99_metric hA hd hs hI
  rw [e] at ha
  cases ha
  exact C64_pam_family hm hd' hmet hv hnd (Or.inl hr) hlt hne hor hk

end general

/-! ## `i32` -/

instance : LinearOrder Int32 where
  le_refl _ := Int32.le_iff_toInt_le.mpr (le_refl _)
  le_trans _ _ _ h1 h2 := Int32.le_iff_toInt_le.mpr (le_trans (Int32.le_iff_toInt_le.mp h1) (Int32.le_iff_toInt_le.mp h2))
  lt_iff_le_not_ge a b := by
    rw [Int32.lt_iff_toInt_lt, Int32.le_iff_toInt_le, Int32.le_iff_toInt_le]; omega
  le_antisymm _ _ := Int32.le_antisymm
  le_total a b := by rw [Int32.le_iff_toInt_le, Int32.le_iff_toInt_le]; omega
  toDecidableLE := inferInstance
  toDecidableEq := inferInstance
  toDecidableLT := inferInstance

instance : RDist Int32 where
  pcmp a b := some (compare a.toInt b.toInt)
  zero := 0
  isZero a := decide (a = 0)
  add := (· + ·)

instance : RFrom Int32 ℤ := ⟨Int32.toInt⟩

instance : LawfulDist Int32 where
  pcmp_eq a b := by
    show some (compare a.toInt b.toInt) = some (compare a b)
    rcases lt_trichotomy a.toInt b.toInt with h | h | h
    · rw [compare_lt_iff_lt.mpr h, compare_lt_iff_lt.mpr (Int32.lt_iff_toInt_lt.mpr h)]
    · rw [Int32.toInt_inj.mp h]; simp
    · rw [compare_gt_iff_gt.mpr h, compare_gt_iff_gt.mpr (Int32.lt_iff_toInt_lt.mpr h)]
  zero_eq := rfl
  isZero_eq _ := rfl

instance : LawfulFrom Int32 ℤ := ⟨fun _ _ h => Int32.lt_iff_toInt_lt.mp h, rfl⟩

/-- `i32` addition with overflow checks (debug profile). -/
def addI32Checked (a b : Int32) : Res Int32 :=
  if -2 ^ 31 ≤ a.toInt + b.toInt ∧ a.toInt + b.toInt < 2 ^ 31 then .ok (a + b) else .error .arith

/-- `i32` addition without overflow checks (release profile). -/
def addI32Wrapping (a b : Int32) : Res Int32 := .ok (a + b)

/-- `i32::MAX / 2` -/
def halfMax : ℤ := 2 ^ 30 - 1

theorem i32_sum {a b : Int32} (ha : 0 ≤ a.toInt) (hb : 0 ≤ b.toInt) (hs : a.toInt + b.toInt < 2 ^ 31) :
    (a + b).toInt = a.toInt + b.toInt := by
  rw [Int32.toInt_add, Int.bmod_eq_of_le]
  · omega
  · omega

theorem i32_rlt (a b : Int32) : rlt a b = true ↔ a.toInt < b.toInt := by
  show (some (compare a.toInt b.toInt) == some Ordering.lt) = true ↔ _
  rw [beq_iff_eq, Option.some.injEq]
  exact compare_lt_iff_lt

theorem goodAdd_i32_checked : GoodAdd (conv : Int32 → ℤ) (· ≤ halfMax) addI32Checked :=
  ⟨i32_rlt, fun a b ha hb h1 h2 => by
    have ha : 0 ≤ a.toInt := ha
    have hb : 0 ≤ b.toInt := hb
    have h1 : a.toInt ≤ 2 ^ 30 - 1 := h1
    have h2 : b.toInt ≤ 2 ^ 30 - 1 := h2
    exact ⟨a + b, by unfold addI32Checked; rw [if_pos ⟨by omega, by omega⟩], i32_sum ha hb (by omega)⟩,
    fun u v _ huv hv => le_trans huv hv⟩

theorem goodAdd_i32_wrapping : GoodAdd (conv : Int32 → ℤ) (· ≤ halfMax) addI32Wrapping :=
  ⟨i32_rlt, fun a b ha hb h1 h2 => by
    have ha : 0 ≤ a.toInt := ha
    have hb : 0 ≤ b.toInt := hb
    have h1 : a.toInt ≤ 2 ^ 30 - 1 := h1
    have h2 : b.toInt ≤ 2 ^ 30 - 1 := h2
    exact ⟨a + b, rfl, i32_sum ha hb (by omega)⟩, fun u v _ huv hv => le_trans huv hv⟩

/-- **C99, i32:** if no entry is above `i32::MAX / 2`, there is no overflow: both profiles return the same matrix, which contains the
lengths of the shortest walks. -/
theorem C99_i32 {n : Nat} {w : Nat → Nat → Int32} (hd : Dissim n w) (hs : Symm n w)
    (hI : ∀ x y, x < n → y < n → (w x y).toInt ≤ halfMax) :
    ∃ D D' : Nat → Nat → Int32, allPairsShortestPath addI32Checked ⟨n, n, w⟩ = .ok ⟨n, n, D⟩ ∧
      allPairsShortestPath addI32Wrapping ⟨n, n, w⟩ = .ok ⟨n, n, D'⟩ ∧ (∀ x y, x < n → y < n → D' x y = D x y) ∧
      Dissim n D ∧ IsMetric (conv : Int32 → ℤ) n D ∧
      IsShortest n (fun x y => (w x y).toInt) fun x y => (D x y).toInt := by
  obtain ⟨D, e, -, h1, h2, h3⟩ := C99_metric goodAdd_i32_checked hd hs hI
  obtain ⟨D', e', -, -, -, h3'⟩ := C99_metric goodAdd_i32_wrapping hd hs hI
  exact ⟨D, D', e, e', fun x y hx hy => Int32.toInt_inj.mp (h3'.unique h3 hx hy), h1, h2, h3⟩

/-- The panic of a computation, if there is one. -/
def panicOf {α : Type} : Res α → Option Panic
  | .ok _ => none
  | .error e => some e

theorem eq_error_of_panicOf {α : Type} {r : Res α} {e : Panic} (h : panicOf r = some e) : r = .error e := by
  cases r with
  | ok a => cases h
  | error e' => cases h; rfl

/-- **C99, sharpness:** three objects, and two entries one above the bound: with overflow checks the function panics,
without them the result contains a negative distance. -/
theorem C99_i32_sharp :
    let w : Nat → Nat → Int32 := fun x y => if x = y then 0 else if x + y = 3 then 7 else 1073741824
    Dissim 3 w ∧ Symm 3 w ∧ (∀ x y, (w x y).toInt ≤ halfMax + 1) ∧
      allPairsShortestPath addI32Checked ⟨3, 3, w⟩ = .error .arith ∧
      ((allPairsShortestPath addI32Wrapping ⟨3, 3, w⟩).toOption.map fun a => (a.val 1 2).toInt) = some (-2147483648) := by
  intro w
  refine ⟨⟨fun x _ => by simp [w], fun x y _ _ => ?_⟩, fun x y _ _ => ?_, fun x y => ?_,
    eq_error_of_panicOf (by decide +kernel), by decide +kernel⟩
  · show (0 : Int32) ≤ if x = y then 0 else if x + y = 3 then 7 else 1073741824
    split
    · decide
    · split <;> decide
  · show (if x = y then (0 : Int32) else if x + y = 3 then 7 else 1073741824) =
      if y = x then 0 else if y + x = 3 then 7 else 1073741824
    rw [Nat.add_comm y x]
    by_cases h : x = y
    · rw [if_pos h, if_pos h.symm]
    · rw [if_neg h, if_neg (Ne.symm h)]
  · show (if x = y then (0 : Int32) else if x + y = 3 then 7 else 1073741824).toInt ≤ halfMax + 1
    split
    · decide
    · split <;> decide

/-! ## Non-vacuity -/

/-- A path of four objects with edge lengths 3, 1, 2, all other entries 50. -/
def pathW (x y : Nat) : ℤ :=
  if x = y then 0 else if x + 1 = y ∨ y + 1 = x then [3, 1, 2].getD (min x y) 50 else 50

/-- The length of the path between the two ends is found. -/
example : ((allPairsShortestPath addExact ⟨4, 4, pathW⟩).toOption.map fun a =>
    (List.range 4).map fun x => (List.range 4).map fun y => a.val x y) =
      some [[0, 3, 4, 6], [3, 0, 1, 3], [4, 1, 0, 2], [6, 3, 2, 0]] := by decide +kernel

/-- The hypotheses of `C99_shortest_paths` hold for it. -/
example : (∀ x, x < 4 → pathW x x = 0) ∧ (∀ x y, x < 4 → y < 4 → 0 ≤ pathW x y) ∧
    ∀ x y, x < 4 → y < 4 → pathW x y = pathW y x := by
  refine ⟨fun x _ => by simp [pathW], fun x y hx hy => ?_, fun x y hx hy => ?_⟩
  · exact (by decide : ∀ x ∈ List.range 4, ∀ y ∈ List.range 4, 0 ≤ pathW x y) x (by simpa) y (by simpa)
  · exact (by decide : ∀ x ∈ List.range 4, ∀ y ∈ List.range 4, pathW x y = pathW y x) x (by simpa) y (by simpa)

/-- The matrix was not a metric: the triangle inequality failed. -/
example : ¬ pathW 0 3 ≤ pathW 0 1 + pathW 1 3 ∨ ¬ pathW 1 3 ≤ pathW 1 2 + pathW 2 3 := by decide

/-- A metric for `C99_metric_unchanged`. -/
example : ∀ x ∈ List.range 4, ∀ y ∈ List.range 4, ∀ z ∈ List.range 4,
    lineD [0, 1, 5, 7] x z ≤ lineD [0, 1, 5, 7] x y + lineD [0, 1, 5, 7] y z := by decide

/-- The same path with `i32`, the missing entries being `i32::MAX / 2`. -/
def pathI (x y : Nat) : Int32 :=
  if x = y then 0 else if x + 1 = y ∨ y + 1 = x then [3, 1, 2].getD (min x y) 0 else 1073741823

example : Dissim 4 pathI ∧ Symm 4 pathI ∧ ∀ x y, x < 4 → y < 4 → (pathI x y).toInt ≤ halfMax := by
  refine ⟨⟨fun x _ => by simp [pathI], fun x y hx hy => ?_⟩, fun x y hx hy => ?_, fun x y hx hy => ?_⟩
  · exact (by decide : ∀ x ∈ List.range 4, ∀ y ∈ List.range 4, 0 ≤ pathI x y) x (by simpa) y (by simpa)
  · exact (by decide : ∀ x ∈ List.range 4, ∀ y ∈ List.range 4, pathI x y = pathI y x) x (by simpa) y (by simpa)
  · exact (by decide : ∀ x ∈ List.range 4, ∀ y ∈ List.range 4, (pathI x y).toInt ≤ halfMax) x (by simpa) y (by simpa)

/-- A converged clustering of the result. -/
example : ((allPairsShortestPath addI32Checked ⟨4, 4, pathI⟩).toOption.bind fun a =>
    (fasterpam ℤ a.toMat [0, 1] 10).toOption.map fun r => (r.loss, decide (r.nIter < 10))) = some (3, true) := by
  decide +kernel

end KMedoids
