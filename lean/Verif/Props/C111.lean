import Verif.Model.Bench
import Verif.Props.C17
import Verif.Props.C46
import Verif.Props.C63
import Verif.Props.C99

/-!
# C111: the benchmarks, and `i32` losses in general

`C111_i32`: with `i32` distances from `0` to `U` and `3 (n + 1) U < 2^31`, every function of the PAM family gives the result of
unbounded integer arithmetic; what an overflow does, has no influence (`C111_overflow`). The benchmarks use `i32` for distances and losses. For all random
numbers they could draw, all schedules and all shuffles, they return, and the results have all the properties shown for exact
arithmetic. No value computed with an overflow reaches a result or decides a comparison; that no overflow check fires is C112.
-/

set_option linter.unusedSectionVars false

namespace KMedoids

open RFrom (conv)

/-! ## The matrix of the benchmarks -/

/-- Number of pairs `(t, _)` with `t < i`. -/
def rowStart (size : Nat) : Nat → Nat
  | 0 => 0
  | i + 1 => rowStart size i + (size - (i + 1))

/-- Number of the pair `(x, y)`, `x < y`, in the order of the loops. -/
def pairNo (size x y : Nat) : Nat := rowStart size x + (y - (x + 1))

/-- The matrix: every pair of different objects has its own random number. -/
def benchDist {N : Type} (draw : Nat → N) (zero : N) (size x y : Nat) : N :=
  if x = y then zero else draw (pairNo size (min x y) (max x y))

section matrix
variable {N : Type} (draw : Nat → N) (zero : N) (size : Nat)

/-- Contents when the loops are at `(i, j)`. -/
def benchAt (i j p q : Nat) : N :=
  if p < q ∧ q < size ∧ (p < i ∨ p = i ∧ q < j) then draw (pairNo size p q)
  else if q < p ∧ p < size ∧ (q < i ∨ q = i ∧ p < j) then draw (pairNo size q p) else zero

theorem benchCell_eq {i j : Nat} (hij : i < j) (hj : j < size) :
    benchCell draw i (⟨size, size, benchAt draw zero size i j⟩, pairNo size i j) j =
      .ok (⟨size, size, benchAt draw zero size i (j + 1)⟩, pairNo size i (j + 1)) := by
  have hi : i < size := by omega
  unfold benchCell
  simp only [Array2.set, hi, hj, and_self, if_true, bind, Except.bind, Except.ok.injEq, Prod.mk.injEq, Array2.mk.injEq, true_and]
  refine ⟨?_, by unfold pairNo; omega⟩
  funext p q
  unfold benchAt
  by_cases h1 : p = j ∧ q = i
  · obtain ⟨rfl, rfl⟩ := h1
    rw [if_pos ⟨rfl, rfl⟩, if_neg (by omega), if_pos (by omega)]
  · rw [if_neg h1]
    by_cases h2 : p = i ∧ q = j
    · obtain ⟨rfl, rfl⟩ := h2
      rw [if_pos ⟨rfl, rfl⟩, if_pos (by omega)]
    · rw [if_neg h2]
      have e1 : (p < q ∧ q < size ∧ (p < i ∨ p = i ∧ q < j)) = (p < q ∧ q < size ∧ (p < i ∨ p = i ∧ q < j + 1)) :=
        propext (by omega)
      have e2 : (q < p ∧ p < size ∧ (q < i ∨ q = i ∧ p < j)) = (q < p ∧ p < size ∧ (q < i ∨ q = i ∧ p < j + 1)) :=
        propext (by omega)
      simp only [e1, e2]

theorem benchRow_go {i : Nat} : ∀ (len j : Nat), i < j → j + len = size →
    foldRes (benchCell draw i) (⟨size, size, benchAt draw zero size i j⟩, pairNo size i j) (List.range' j len) =
      .ok (⟨size, size, benchAt draw zero size i size⟩, pairNo size i size)
  | 0, j, _, h => by
    obtain rfl : j = size := by omega
    rfl
  | len + 1, j, hij, h => by
    rw [List.range'_succ, foldRes_cons, benchCell_eq draw zero size hij (by omega)]
    exact benchRow_go len (j + 1) (by omega) (by omega)

theorem benchRow_eq {i : Nat} (hi : i < size) :
    benchRow draw size (⟨size, size, benchAt draw zero size i (i + 1)⟩, rowStart size i) i =
      .ok (⟨size, size, benchAt draw zero size (i + 1) (i + 2)⟩, rowStart size (i + 1)) := by
  have h := benchRow_go draw zero size (i := i) (size - (i + 1)) (i + 1) (by omega) (by omega)
  have e0 : pairNo size i (i + 1) = rowStart size i := by unfold pairNo; omega
  rw [e0] at h
  unfold benchRow
  rw [h]
  have e1 : pairNo size i size = rowStart size (i + 1) := rfl
  have e2 : benchAt draw zero size i size = benchAt draw zero size (i + 1) (i + 2) := by
    funext p q
    unfold benchAt
    have e1 : (p < q ∧ q < size ∧ (p < i ∨ p = i ∧ q < size)) =
        (p < q ∧ q < size ∧ (p < i + 1 ∨ p = i + 1 ∧ q < i + 2)) := propext (by omega)
    have e2 : (q < p ∧ p < size ∧ (q < i ∨ q = i ∧ p < size)) =
        (q < p ∧ p < size ∧ (q < i + 1 ∨ q = i + 1 ∧ p < i + 2)) := propext (by omega)
    simp only [e1, e2]
  rw [e1, e2]

theorem benchMat_go : ∀ (len i : Nat), i + len = size →
    foldRes (benchRow draw size) (⟨size, size, benchAt draw zero size i (i + 1)⟩, rowStart size i) (List.range' i len) =
      .ok (⟨size, size, benchAt draw zero size size (size + 1)⟩, rowStart size size)
  | 0, i, h => by
    obtain rfl : i = size := by omega
    rfl
  | len + 1, i, h => by
    rw [List.range'_succ, foldRes_cons, benchRow_eq draw zero size (by omega)]
    exact benchMat_go len (i + 1) (by omega)

theorem benchMat_at : benchMat draw zero size = .ok ⟨size, size, benchAt draw zero size size (size + 1)⟩ := by
  have h := benchMat_go draw zero size size 0 (by omega)
  have e : benchAt draw zero size 0 1 = fun _ _ => zero := by
    funext p q
    unfold benchAt
    rw [if_neg (by omega), if_neg (by omega)]
  rw [e, ← List.range_eq_range'] at h
  unfold benchMat
  have h : foldRes (benchRow draw size) (⟨size, size, fun _ _ => zero⟩, 0) (List.range size) = _ := h
  rw [h]; rfl

/-- The matrix is as `benchDist` says, symmetric, with its own number for every pair. -/
theorem C111_matrix : ∃ D : Nat → Nat → N, benchMat draw zero size = .ok ⟨size, size, D⟩ ∧
    ∀ x y, x < size → y < size → D x y = benchDist draw zero size x y ∧ D y x = D x y := by
  have key : ∀ x y, x < size → y < size → benchAt draw zero size size (size + 1) x y = benchDist draw zero size x y := by
    intro x y hx hy
    unfold benchAt benchDist
    rcases lt_trichotomy x y with h | h | h
    · rw [if_pos (by omega), if_neg (by omega), min_eq_left h.le, max_eq_right h.le]
    · rw [if_neg (by omega), if_neg (by omega), if_pos h]
    · rw [if_neg (by omega), if_pos (by omega), if_neg (by omega), min_eq_right h.le, max_eq_left h.le]
  refine ⟨_, benchMat_at draw zero size, fun x y hx hy => ⟨key x y hx hy, ?_⟩⟩
  rw [key x y hx hy, key y x hy hx]
  unfold benchDist
  rw [min_comm, max_comm]
  by_cases h : x = y
  · rw [if_pos h, if_pos h.symm]
  · rw [if_neg h, if_neg (Ne.symm h)]

theorem rowStart_mono {i : Nat} : ∀ j, i ≤ j → rowStart size i ≤ rowStart size j
  | 0, h => by obtain rfl : i = 0 := by omega
               exact le_refl _
  | j + 1, h => by
    rcases Nat.lt_or_ge j i with h' | h'
    · obtain rfl : i = j + 1 := by omega
      exact le_refl _
    · exact le_trans (rowStart_mono j h') (Nat.le_add_right _ _)

theorem rowStart_twice : ∀ i, i ≤ size → 2 * rowStart size i + i * i + i = 2 * (size * i)
  | 0, _ => by simp [rowStart]
  | i + 1, h => by
    have ih := rowStart_twice i (by omega)
    have e : size - (i + 1) + (i + 1) = size := by omega
    simp only [rowStart]
    nlinarith

/-- Different pairs have different numbers, all below the number of pairs. -/
theorem C111_own_number {x y x' y' : Nat} (h : x < y) (hy : y < size) (h' : x' < y') (hy' : y' < size) :
    (pairNo size x y = pairNo size x' y' → x = x' ∧ y = y') ∧ 2 * (pairNo size x y + 1) ≤ size * (size - 1) := by
  have lt : ∀ {x y : Nat}, x < y → y < size → pairNo size x y < rowStart size (x + 1) := fun {x y} _ _ => by
    simp only [pairNo, rowStart]; omega
  refine ⟨fun e => ?_, ?_⟩
  · rcases lt_trichotomy x x' with hx | hx | hx
    · have := rowStart_mono size (i := x + 1) x' hx
      have := lt h hy
      simp only [pairNo] at *
      omega
    · subst hx
      simp only [pairNo] at e
      omega
    · have := rowStart_mono size (i := x' + 1) x hx
      have := lt h' hy'
      simp only [pairNo] at *
      omega
  · have h1 := lt h hy
    have h2 := rowStart_mono size (i := x + 1) size (by omega)
    have h3 := rowStart_twice size size (le_refl _)
    obtain ⟨s, rfl⟩ : ∃ s, size = s + 1 := ⟨size - 1, by omega⟩
    have e : s + 1 - 1 = s := rfl
    rw [e]
    nlinarith

end matrix

/-! ## `i32` losses -/

/-- Rust's `i32` in a release build: two's complement, wrapping. -/
instance : RLoss Int32 where
  pcmp a b := some (compare a.toInt b.toInt)
  zero := 0
  one := 1
  add := (· + ·)
  sub := (· - ·)
  neg := (- ·)
  div := (· / ·)
  ofU32 n := Int32.ofInt n

instance : RFrom Int32 Int32 := ⟨id⟩

/-- `i32` with overflow checks: `none` marks a value that was computed with an overflow. -/
structure CheckedI32 where
  /-- the value -/
  val : Option ℤ
  deriving DecidableEq, Repr

/-- `none` unless in the range of `i32` -/
def CheckedI32.ofInt (x : ℤ) : CheckedI32 := ⟨if -2 ^ 31 ≤ x ∧ x < 2 ^ 31 then some x else none⟩

/-- an operation with overflow check -/
def CheckedI32.op (o : ℤ → ℤ → ℤ) (a b : CheckedI32) : CheckedI32 :=
  match a.val, b.val with
  | some x, some y => .ofInt (o x y)
  | _, _ => ⟨none⟩

instance : RLoss CheckedI32 where
  pcmp a b := a.val.bind fun x => b.val.map fun y => compare x y
  zero := .ofInt 0
  one := .ofInt 1
  add := CheckedI32.op (· + ·)
  sub := CheckedI32.op (· - ·)
  neg a := CheckedI32.op (· - ·) ⟨some 0⟩ a
  div := CheckedI32.op (· / ·)
  ofU32 n := .ofInt n

instance : RFrom Int32 CheckedI32 := ⟨fun x => .ofInt x.toInt⟩

/-- The values of `i32` from `0` to `U`. -/
structure I32Upto (U : ℕ) where
  /-- the value -/
  val : Int32
  /-- it is in the range -/
  range : 0 ≤ val.toInt ∧ val.toInt ≤ U

instance {U : ℕ} : RDist (I32Upto U) where
  pcmp a b := some (compare a.val.toInt b.val.toInt)
  zero := ⟨0, by show (0 : ℤ) ≤ 0 ∧ (0 : ℤ) ≤ U; omega⟩
  isZero a := decide (a.val = 0)
  add a b := if h : 0 ≤ (a.val + b.val).toInt ∧ (a.val + b.val).toInt ≤ U then ⟨a.val + b.val, h⟩ else a

instance {U : ℕ} : RFrom (I32Upto U) ℤ := ⟨fun x => x.val.toInt⟩

/-- `x`, if it is in the range -/
def I32Upto.of (U : ℕ) (x : Int32) : I32Upto U :=
  if h : 0 ≤ x.toInt ∧ x.toInt ≤ U then ⟨x, h⟩ else RDist.zero

theorem I32Upto.of_val {U : ℕ} {x : Int32} (h : 0 ≤ x.toInt ∧ x.toInt ≤ U) : (I32Upto.of U x).val = x := by
  simp only [I32Upto.of, dif_pos h]

/-- `i32` as an integer type of distances is exact. -/
theorem bhom_int (U : ℕ) (B : ℤ) : BHom (N := I32Upto U) (N' := Int32) (L' := ℤ) I32Upto.val id U B where
  distCmp _ _ := rfl
  distZero := rfl
  lossCmp _ _ _ _ := rfl
  lossZero := rfl
  lossAdd _ _ _ _ _ := rfl
  lossSub _ _ _ _ _ := rfl
  lossNeg _ _ _ := rfl
  lossConv _ := rfl
  convNonneg x := x.range.1
  convLe x := x.range.2

/-- Wrapping `i32` is exact within its range. -/
theorem bhom_i32 (U : ℕ) : BHom (N := I32Upto U) (N' := Int32) I32Upto.val Int32.ofInt U (2 ^ 31 - 1) where
  distCmp _ _ := rfl
  distZero := rfl
  lossCmp x y hx hy := by
    obtain ⟨h1, h2⟩ := hx; obtain ⟨h3, h4⟩ := hy
    show some (compare (Int32.ofInt x).toInt (Int32.ofInt y).toInt) = _
    rw [Int32.toInt_ofInt_of_le (by omega) (by omega), Int32.toInt_ofInt_of_le (by omega) (by omega)]
  lossZero := rfl
  lossAdd x y _ _ _ := Int32.ofInt_add x y
  lossSub x y _ _ _ := Int32.ofInt_sub x y
  lossNeg x _ _ := Int32.ofInt_neg x
  lossConv x := by
    show Int32.ofInt x.val.toInt = x.val
    exact Int32.ofInt_toInt x.val
  convNonneg x := x.range.1
  convLe x := x.range.2

theorem CheckedI32.ofInt_val {x : ℤ} (h : Bd (2 ^ 31 - 1) x) : (CheckedI32.ofInt x).val = some x := by
  obtain ⟨h1, h2⟩ := h
  simp only [CheckedI32.ofInt]
  rw [if_pos ⟨by omega, by omega⟩]

/-- Checked `i32` is exact within its range. -/
theorem bhom_i32_checked (U : ℕ) :
    BHom (N := I32Upto U) (N' := Int32) I32Upto.val CheckedI32.ofInt U (2 ^ 31 - 1) where
  distCmp _ _ := rfl
  distZero := rfl
  lossCmp x y hx hy := by
    show (CheckedI32.ofInt x).val.bind (fun a => (CheckedI32.ofInt y).val.map fun b => compare a b) = _
    rw [CheckedI32.ofInt_val hx, CheckedI32.ofInt_val hy]; rfl
  lossZero := rfl
  lossAdd x y hx hy _ := by
    show _ = CheckedI32.op (· + ·) (CheckedI32.ofInt x) (CheckedI32.ofInt y)
    simp only [CheckedI32.op, CheckedI32.ofInt_val hx, CheckedI32.ofInt_val hy]
  lossSub x y hx hy _ := by
    show _ = CheckedI32.op (· - ·) (CheckedI32.ofInt x) (CheckedI32.ofInt y)
    simp only [CheckedI32.op, CheckedI32.ofInt_val hx, CheckedI32.ofInt_val hy]
  lossNeg x hx _ := by
    show _ = CheckedI32.op (· - ·) ⟨some 0⟩ (CheckedI32.ofInt x)
    simp only [CheckedI32.op, CheckedI32.ofInt_val hx, zero_sub]
  lossConv _ := rfl
  convNonneg x := x.range.1
  convLe x := x.range.2

/-- `f L` gives the result of `f ℤ`, for all functions of the PAM family. -/
structure SameFamily (L' : Type) [RLoss L'] [RFrom Int32 L'] (ι : ℤ → L') (mat : Mat Int32) : Prop where
  fasterpam : ∀ med maxiter, SameSwap ι (fasterpam ℤ mat med maxiter) (KMedoids.fasterpam L' mat med maxiter)
  rand_fasterpam : ∀ med maxiter seq,
    SameSwap ι (randFasterpam ℤ mat med maxiter seq) (randFasterpam L' mat med maxiter seq)
  par_fasterpam : ∀ (sc0 : Sched) (scF scS : Nat → Nat → Sched), (∀ i j, (scF i j).Ok) → ∀ med maxiter seq,
    SameSwap ι (parFasterpam ℤ sc0 scF scS mat med maxiter seq) (parFasterpam L' sc0 scF scS mat med maxiter seq)
  fastpam1 : ∀ med maxiter, SameSwap ι (fastpam1 ℤ mat med maxiter) (KMedoids.fastpam1 L' mat med maxiter)
  pam_swap : ∀ med maxiter, SameSwap ι (pamSwap ℤ mat med maxiter) (pamSwap L' mat med maxiter)
  pam : ∀ k maxiter, SameSwap ι (pam ℤ mat k maxiter) (KMedoids.pam L' mat k maxiter)
  pam_build : ∀ k, SameBuild ι (pamBuild ℤ mat k) (pamBuild L' mat k)
  alternating : ∀ med maxiter, SameAlt ι (alternating ℤ mat med maxiter) (KMedoids.alternating L' mat med maxiter)

theorem sameSwap_trans {L' : Type} {ι : ℤ → L'} {a b : Res (SwapResult ℤ)} {c : Res (SwapResult L')} (h : SameSwap id a b)
    (h' : SameSwap ι a c) : SameSwap ι b c := by
  cases a with
  | error e =>
    cases b with
    | error e' => cases (show e = e' from h); exact h'
    | ok r => exact False.elim h
  | ok r =>
    cases b with
    | error e' => exact False.elim h
    | ok r' =>
      cases c with
      | error e => exact False.elim h'
      | ok r'' =>
        obtain ⟨h1, h2, h3, h4, h5⟩ := h
        obtain ⟨g1, g2, g3, g4, g5⟩ := h'
        exact ⟨g1.trans h1.symm, g2.trans h2.symm, g3.trans h3.symm, g4.trans h4.symm, g5.trans (congrArg ι h5.symm)⟩

theorem sameBuild_trans {L' : Type} {ι : ℤ → L'} {a b : Res (BuildResult ℤ)} {c : Res (BuildResult L')} (h : SameBuild id a b)
    (h' : SameBuild ι a c) : SameBuild ι b c := by
  cases a with
  | error e =>
    cases b with
    | error e' => cases (show e = e' from h); exact h'
    | ok r => exact False.elim h
  | ok r =>
    cases b with
    | error e' => exact False.elim h
    | ok r' =>
      cases c with
      | error e => exact False.elim h'
      | ok r'' =>
        obtain ⟨h1, h2, h5⟩ := h
        obtain ⟨g1, g2, g5⟩ := h'
        exact ⟨g1.trans h1.symm, g2.trans h2.symm, g5.trans (congrArg ι h5.symm)⟩

theorem sameAlt_trans {L' : Type} {ι : ℤ → L'} {a b : Res (AltResult ℤ)} {c : Res (AltResult L')} (h : SameAlt id a b)
    (h' : SameAlt ι a c) : SameAlt ι b c := by
  cases a with
  | error e =>
    cases b with
    | error e' => cases (show e = e' from h); exact h'
    | ok r => exact False.elim h
  | ok r =>
    cases b with
    | error e' => exact False.elim h
    | ok r' =>
      cases c with
      | error e => exact False.elim h'
      | ok r'' =>
        obtain ⟨h1, h2, h3, h5⟩ := h
        obtain ⟨g1, g2, g3, g5⟩ := h'
        exact ⟨g1.trans h1.symm, g2.trans h2.symm, g3.trans h3.symm, g5.trans (congrArg ι h5.symm)⟩

theorem sameFamily {L' : Type} [RLoss L'] [RFrom Int32 L'] {ι : ℤ → L'} {U : ℕ} {B : ℤ}
    (H : BHom (N := I32Upto U) (N' := Int32) (L' := L') I32Upto.val ι U B) {a : Array2 Int32}
    (hr : ∀ x y, x < a.rows → y < a.cols → 0 ≤ (a.val x y).toInt ∧ (a.val x y).toInt ≤ U)
    (hB : 3 * ((a.rows : ℤ) + 1) * U ≤ B) : SameFamily L' ι a.toMat := by
  let b : Array2 (I32Upto U) := ⟨a.rows, a.cols, fun x y => .of U (a.val x y)⟩
  have e : b.toMat.map I32Upto.val = a.toMat := by
    simp only [Array2.toMat, Mat.map, b, Mat.mk.injEq, true_and]
    funext x y
    by_cases h : x < a.rows ∧ y < a.cols
    · rw [if_pos h, if_pos h]
      exact congrArg Except.ok (I32Upto.of_val (hr x y h.1 h.2))
    · rw [if_neg h, if_neg h]; rfl
  have H0 := bhom_int U B
  have hB : 3 * ((b.toMat.len : ℤ) + 1) * U ≤ B := hB
  rw [← e]
  exact {
    fasterpam := fun med it => sameSwap_trans (C46_fasterpam H0 b.toMat hB med it) (C46_fasterpam H b.toMat hB med it)
    rand_fasterpam := fun med it seq =>
      sameSwap_trans (C46_rand_fasterpam H0 b.toMat hB med it seq) (C46_rand_fasterpam H b.toMat hB med it seq)
    par_fasterpam := fun sc0 scF scS hF med it seq =>
      sameSwap_trans (C46_par_fasterpam H0 sc0 hF b.toMat hB med it seq) (C46_par_fasterpam H sc0 hF b.toMat hB med it seq)
    fastpam1 := fun med it => sameSwap_trans (C46_fastpam1 H0 b.toMat hB med it) (C46_fastpam1 H b.toMat hB med it)
    pam_swap := fun med it => sameSwap_trans (C46_pam_swap H0 b.toMat hB med it) (C46_pam_swap H b.toMat hB med it)
    pam := fun k it => sameSwap_trans (C46_pam H0 b.toMat hB k it) (C46_pam H b.toMat hB k it)
    pam_build := fun k => sameBuild_trans (C46_pam_build H0 b.toMat hB k) (C46_pam_build H b.toMat hB k)
    alternating := fun med it => sameAlt_trans (C46_alternating H0 b.toMat hB med it) (C46_alternating H b.toMat hB med it) }

/-- **C111, `i32`:** distances from `0` to `U` and `3 (n + 1) U < 2^31`. Then the results with `i32` losses are those of unbounded
integers, with wrapping, and also if values computed with an overflow are marked and compare with nothing. -/
theorem C111_i32 {U : ℕ} {a : Array2 Int32}
    (hr : ∀ x y, x < a.rows → y < a.cols → 0 ≤ (a.val x y).toInt ∧ (a.val x y).toInt ≤ U)
    (hB : 3 * ((a.rows : ℤ) + 1) * U < 2 ^ 31) :
    SameFamily Int32 Int32.ofInt a.toMat ∧ SameFamily CheckedI32 CheckedI32.ofInt a.toMat :=
  ⟨sameFamily (bhom_i32 U) hr (by omega), sameFamily (bhom_i32_checked U) hr (by omega)⟩

/-- **C111, overflow:** the same for every type of losses that computes as unbounded integers do, as long as operands and result
are in the range of `i32`. What it does otherwise has no influence. -/
theorem C111_overflow {L' : Type} [RLoss L'] [RFrom Int32 L'] {ι : ℤ → L'} {U : ℕ}
    (H : BHom (N := I32Upto U) (N' := Int32) (L' := L') I32Upto.val ι U (2 ^ 31 - 1)) {a : Array2 Int32}
    (hr : ∀ x y, x < a.rows → y < a.cols → 0 ≤ (a.val x y).toInt ∧ (a.val x y).toInt ≤ U)
    (hB : 3 * ((a.rows : ℤ) + 1) * U < 2 ^ 31) : SameFamily L' ι a.toMat :=
  sameFamily H hr (by omega)

/-- six objects in two groups -/
def exI32 : Array2 Int32 := ⟨6, 6, fun x y =>
  (([[0, 2, 3, 90, 91, 92], [2, 0, 1, 88, 89, 90], [3, 1, 0, 87, 88, 89], [90, 88, 87, 0, 1, 2], [91, 89, 88, 1, 0, 1],
    [92, 90, 89, 2, 1, 0]] : List (List Int32)).getD x []).getD y 0⟩

theorem exI32_range : ∀ x y, x < exI32.rows → y < exI32.cols → 0 ≤ (exI32.val x y).toInt ∧ (exI32.val x y).toInt ≤ (100 : ℕ) := by
  have : ∀ x < 6, ∀ y < 6, 0 ≤ (exI32.val x y).toInt ∧ (exI32.val x y).toInt ≤ (100 : ℕ) := by decide +kernel
  exact fun x y hx hy => this x hx y hy

example := C111_i32 exI32_range (by show 3 * (((6 : ℕ) : ℤ) + 1) * (100 : ℕ) < 2 ^ 31; norm_num)
example := C111_overflow (bhom_i32_checked 100) exI32_range (by show 3 * (((6 : ℕ) : ℤ) + 1) * (100 : ℕ) < 2 ^ 31; norm_num)

example : fasterpam Int32 exI32.toMat [0, 1] 10 = .ok ⟨5, [1, 1, 1, 0, 0, 0], 3, 4, [4, 1]⟩ ∧
    fasterpam CheckedI32 exI32.toMat [0, 1] 10 = .ok ⟨⟨some 5⟩, [1, 1, 1, 0, 0, 0], 3, 4, [4, 1]⟩ := by decide +kernel

/-- three objects with large distances -/
def exI32Large : Array2 Int32 := ⟨3, 3, fun x y =>
  (([[0, 20, 100], [20, 0, 80], [100, 80, 0]] : List (List Int32)).getD x []).getD y 0 * 16777216⟩

/-- **C111, a bound is needed:** here `i32` wraps around and the worst object is chosen. -/
theorem C111_bound_needed : fasterpam ℤ exI32Large.toMat [0] 10 = .ok ⟨1677721600, [0, 0, 0], 1, 1, [1]⟩ ∧
    fasterpam Int32 exI32Large.toMat [0] 10 = .ok ⟨-1275068416, [0, 0, 0], 1, 1, [2]⟩ := by decide +kernel

/-! ## The benchmarks -/

/-- What `gen_range(1..10000)` may return. -/
def BenchDraw (draw : Nat → Int32) : Prop := ∀ c, 1 ≤ (draw c).toInt ∧ (draw c).toInt < 10000

/-- The distances of the benchmarks. -/
def benchD (draw : Nat → Int32) : Nat → Nat → Int32 := benchDist draw 0 benchSize

/-- The sum of the distances to the nearest medoid, as an integer. -/
def benchLoss (draw : Nat → Int32) (med : List Nat) : ℤ := totalDev (conv : Int32 → ℤ) benchSize (benchD draw) med

section bench
variable {draw : Nat → Int32}

theorem benchD_range (h : BenchDraw draw) (x y : Nat) :
    0 ≤ (benchD draw x y).toInt ∧ (benchD draw x y).toInt ≤ (9999 : ℕ) := by
  unfold benchD benchDist
  split
  · show (0 : ℤ) ≤ 0 ∧ (0 : ℤ) ≤ (9999 : ℕ); omega
  · have := h (pairNo benchSize (min x y) (max x y)); omega

theorem benchD_dissim (h : BenchDraw draw) : Dissim benchSize (benchD draw) :=
  ⟨fun x _ => by unfold benchD benchDist; rw [if_pos rfl], fun x y _ _ =>
    Int32.le_iff_toInt_le.mpr (benchD_range h x y).1⟩

theorem benchD_symm : Symm benchSize (benchD draw) := fun x y _ _ => by
  unfold benchD benchDist
  rw [min_comm, max_comm]
  by_cases h : x = y
  · rw [if_pos h, if_pos h.symm]
  · rw [if_neg h, if_neg (Ne.symm h)]

/-- Different objects have a positive distance. -/
theorem benchD_pos (h : BenchDraw draw) {x y : Nat} (hxy : x ≠ y) : benchD draw x y ≠ 0 := fun e => by
  have h1 := (h (pairNo benchSize (min x y) (max x y))).1
  unfold benchD benchDist at e
  rw [if_neg hxy] at e
  rw [e] at h1
  exact absurd h1 (by decide)

theorem benchMeds_valid : ValidMeds benchSize benchMeds ∧ benchMeds.Nodup ∧ Sizes benchSize 5 :=
  ⟨⟨⟨by decide, by decide, by decide, by decide⟩, by decide⟩, by decide, by decide, by decide, by decide, by decide⟩

/-- A matrix as the benchmarks use it. -/
theorem bench_setup (h : BenchDraw draw) : ∃ a : Array2 Int32, benchMat draw RDist.zero benchSize = .ok a ∧
    IsMatrix a.toMat benchSize (benchD draw) ∧ SameFamily Int32 Int32.ofInt a.toMat ∧
    SameFamily CheckedI32 CheckedI32.ofInt a.toMat := by
  obtain ⟨D, e, hD⟩ := C111_matrix draw (RDist.zero : Int32) benchSize
  refine ⟨_, e, ⟨rfl, by simp [Array2.toMat], fun x y hx hy => ?_⟩, ?_⟩
  · show (if x < benchSize ∧ y < benchSize then Except.ok (D x y) else _) = _
    rw [if_pos ⟨hx, hy⟩, (hD x y hx hy).1]; rfl
  · refine C111_i32 (U := 9999) (fun x y hx hy => ?_) (by show 3 * (((100 : ℕ) : ℤ) + 1) * (9999 : ℕ) < 2 ^ 31; norm_num)
    show 0 ≤ (D x y).toInt ∧ (D x y).toInt ≤ _
    rw [(hD x y hx hy).1]
    exact benchD_range h x y

theorem benchLoss_range (h : BenchDraw draw) {med : List Nat} (hne : med ≠ []) : Bd (2 ^ 31 - 1) (benchLoss draw med) := by
  have hb : ∀ o, 0 ≤ (conv (minDist (benchD draw) o med) : ℤ) ∧ (conv (minDist (benchD draw) o med) : ℤ) ≤ (9999 : ℕ) := fun o => by
    obtain ⟨⟨c, -, e⟩, -⟩ := minDist_spec (benchD draw) o med hne
    rw [e]
    exact benchD_range h o c
  have h1 : 0 ≤ benchLoss draw med := List.sum_nonneg fun x hx => by
    obtain ⟨o, -, rfl⟩ := List.mem_map.mp hx
    exact (hb o).1
  have h2 : benchLoss draw med ≤ ((List.range benchSize).map fun o => (conv (minDist (benchD draw) o med) : ℤ)).length • ((9999 : ℕ) : ℤ) :=
    List.sum_le_card_nsmul _ _ fun x hx => by
      obtain ⟨o, -, rfl⟩ := List.mem_map.mp hx
      exact (hb o).2
  have h3 : ((List.range benchSize).map fun o => (conv (minDist (benchD draw) o med) : ℤ)).length = 100 := by simp [benchSize]
  rw [h3] at h2
  have h4 : (100 : ℕ) • ((9999 : ℕ) : ℤ) = 999900 := by norm_num
  constructor <;> omega

/-- What holds for a run from the given medoids. -/
structure BenchRun (draw : Nat → Int32) (r : SwapResult Int32) : Prop where
  /-- five different objects -/
  len : r.med.length = 5
  nodup : r.med.Nodup
  range : ∀ m ∈ r.med, m < 100
  /-- every object has a nearest medoid as label -/
  near : NearestAssignment 100 (benchD draw) r.med r.assi
  /-- the loss did not overflow -/
  loss : r.loss.toInt = benchLoss draw r.med
  /-- no exchange is better, unless the limit was reached -/
  opt : r.nIter < 100 → SwapOptimal (conv : Int32 → ℤ) 100 (benchD draw) r.med

/-- The benchmark returns `r`, also if values computed with an overflow are marked, and then the loss is not marked. -/
structure BenchReturns (f : (L : Type) → [RLoss L] → [RFrom Int32 L] → Res (SwapResult L)) (r : SwapResult Int32) : Prop where
  wrapping : f Int32 = .ok r
  checked : f CheckedI32 = .ok ⟨⟨some r.loss.toInt⟩, r.assi, r.nIter, r.nSwap, r.med⟩

/-- From a run with exact arithmetic to both builds. -/
theorem bench_transfer (h : BenchDraw draw) {f : (L : Type) → [RLoss L] → [RFrom Int32 L] → Res (SwapResult L)}
    {q : SwapResult ℤ} (hq : f ℤ = .ok q) (h1 : SameSwap Int32.ofInt (f ℤ) (f Int32))
    (h2 : SameSwap CheckedI32.ofInt (f ℤ) (f CheckedI32)) (hlen : q.med.length = 5) (hnd : q.med.Nodup)
    (hr : ∀ m ∈ q.med, m < 100) (hn : NearestAssignment 100 (benchD draw) q.med q.assi) (hl : q.loss = benchLoss draw q.med)
    (ho : q.nIter < 100 → SwapOptimal (conv : Int32 → ℤ) 100 (benchD draw) q.med) :
    ∃ r, BenchReturns f r ∧ BenchRun draw r ∧ r.med = q.med ∧ r.assi = q.assi ∧ r.nIter = q.nIter ∧ r.nSwap = q.nSwap := by
  rw [hq] at h1 h2
  have hb : Bd (2 ^ 31 - 1) q.loss := hl ▸ benchLoss_range h (List.ne_nil_of_length_pos (by omega))
  cases e1 : f Int32 with
  | error e => rw [e1] at h1; exact False.elim h1
  | ok r =>
    cases e2 : f CheckedI32 with
    | error e => rw [e2] at h2; exact False.elim h2
    | ok r' =>
      rw [e1] at h1; rw [e2] at h2
      obtain ⟨l, as, it, sw, md⟩ := r
      obtain ⟨l', as', it', sw', md'⟩ := r'
      obtain ⟨a1, a2, a3, a4, a5⟩ := h1
      obtain ⟨b1, b2, b3, b4, b5⟩ := h2
      simp only at a1 a2 a3 a4 a5 b1 b2 b3 b4 b5
      subst a1 a2 a3 a4 a5 b1 b2 b3 b4 b5
      have ht : (Int32.ofInt q.loss).toInt = q.loss := Int32.toInt_ofInt_of_le (by have := hb.1; omega) (by have := hb.2; omega)
      refine ⟨_, ⟨e1, ?_⟩, ⟨hlen, hnd, hr, hn, ht.trans hl, ho⟩, rfl, rfl, rfl, rfl⟩
      rw [e2, ht]
      have : CheckedI32.ofInt q.loss = ⟨some q.loss⟩ := by
        have := CheckedI32.ofInt_val hb
        cases hc : CheckedI32.ofInt q.loss with
        | mk v => rw [hc] at this; simp only at this; rw [this]
      rw [this]

/-- **C111, `bench_fasterpam`:** it returns, for all random numbers; five different medoids, labels and loss
belong to them, and unless the limit of iterations was reached, no exchange is better. -/
theorem C111_fasterpam (h : BenchDraw draw) :
    ∃ r, BenchReturns (fun L => benchFasterpam L draw) r ∧ BenchRun draw r ∧ benchLoss draw r.med ≤ benchLoss draw benchMeds := by
  obtain ⟨a, e, hm, h1, h2⟩ := bench_setup h
  obtain ⟨hv, hnd, -⟩ := benchMeds_valid
  have hd := benchD_dissim h
  have hf : ∀ (L : Type) [RLoss L] [RFrom Int32 L], benchFasterpam L draw = fasterpam L a.toMat benchMeds 100 := fun L _ _ => by
    unfold benchFasterpam; rw [e]; rfl
  obtain ⟨q, hq, hw⟩ := C04_fasterpam (L := ℤ) hm hv 100
  obtain ⟨r, g1, g2, g3, -⟩ := bench_transfer (f := fun L => benchFasterpam L draw) (q := q) h ((hf ℤ).trans hq)
    (by rw [hf, hf]; exact h1.fasterpam _ _) (by rw [hf, hf]; exact h2.fasterpam _ _) hw.medLen (C06_fasterpam hm hd hv hnd 100 hq)
    hw.medRange (C07_fasterpam hm hd hv hnd 100 hq) (C08_fasterpam hm hd hv hnd (fun _ => benchD_symm) 100 hq)
    (C11_fasterpam hm hd hv hnd (fun _ => benchD_symm) 100 hq)
  refine ⟨r, g1, g2, ?_⟩
  rw [g3]
  exact (fasterpam_outcome hm hd hv hnd (fun _ => benchD_symm) 100 hq).chain.le

/-- **C111, `bench_rand_fasterpam`,** for every order of the objects. -/
theorem C111_rand_fasterpam (h : BenchDraw draw) {seq : List Nat} (hseq : seq.Perm (List.range 100)) :
    ∃ r, BenchReturns (fun L => benchRandFasterpam L draw seq) r ∧ BenchRun draw r ∧
      benchLoss draw r.med ≤ benchLoss draw benchMeds := by
  obtain ⟨a, e, hm, h1, h2⟩ := bench_setup h
  obtain ⟨hv, hnd, -⟩ := benchMeds_valid
  have hd := benchD_dissim h
  have hs : ∀ j ∈ seq, j < benchSize := fun j hj => List.mem_range.mp (hseq.mem_iff.mp hj)
  have hf : ∀ (L : Type) [RLoss L] [RFrom Int32 L], benchRandFasterpam L draw seq = randFasterpam L a.toMat benchMeds 100 seq :=
    fun L _ _ => by unfold benchRandFasterpam; rw [e]; rfl
  obtain ⟨q, hq, hw⟩ := C04_rand_fasterpam (L := ℤ) hm hv 100 hs
  obtain ⟨r, g1, g2, g3, -⟩ := bench_transfer (f := fun L => benchRandFasterpam L draw seq) (q := q) h ((hf ℤ).trans hq)
    (by rw [hf, hf]; exact h1.rand_fasterpam _ _ _) (by rw [hf, hf]; exact h2.rand_fasterpam _ _ _) hw.medLen
    (C06_rand_fasterpam hm hd hv hnd 100 hs hq)
    hw.medRange (C07_rand_fasterpam hm hd hv hnd 100 hs hq) (C08_rand_fasterpam hm hd hv hnd (fun _ => benchD_symm) 100 hseq hq)
    (C11_rand_fasterpam hm hd hv hnd (fun _ => benchD_symm) 100 hseq hq)
  refine ⟨r, g1, g2, ?_⟩
  rw [g3]
  exact (rand_fasterpam_outcome hm hd hv hnd (fun _ => benchD_symm) 100 hseq hq).chain.le

/-- **C111, `bench_par_fasterpam`:** for every schedule the same result as `bench_rand_fasterpam` for the same order. -/
theorem C111_par_fasterpam (h : BenchDraw draw) {seq : List Nat} (hseq : seq.Perm (List.range 100)) (sc0 : Sched)
    {scF scS : Nat → Nat → Sched} (hF : ∀ i j, (scF i j).Ok) :
    ∃ r, BenchReturns (fun L => benchParFasterpam L draw sc0 scF scS seq) r ∧
      BenchReturns (fun L => benchRandFasterpam L draw seq) r ∧ BenchRun draw r := by
  obtain ⟨r0, k1, k2, -⟩ := C111_rand_fasterpam h hseq
  obtain ⟨a, e, hm, h1, h2⟩ := bench_setup h
  obtain ⟨hv, hnd, -⟩ := benchMeds_valid
  have hd := benchD_dissim h
  have hs : ∀ j ∈ seq, j < benchSize := fun j hj => List.mem_range.mp (hseq.mem_iff.mp hj)
  have hf : ∀ (L : Type) [RLoss L] [RFrom Int32 L],
      benchParFasterpam L draw sc0 scF scS seq = parFasterpam L sc0 scF scS a.toMat benchMeds 100 seq :=
    fun L _ _ => by unfold benchParFasterpam; rw [e]; rfl
  have hg : ∀ (L : Type) [RLoss L] [RFrom Int32 L], benchRandFasterpam L draw seq = randFasterpam L a.toMat benchMeds 100 seq :=
    fun L _ _ => by unfold benchRandFasterpam; rw [e]; rfl
  obtain ⟨q, hq0, hw⟩ := C04_rand_fasterpam (L := ℤ) hm hv 100 hs
  have hq := (C17_par_fasterpam (L := ℤ) sc0 (scS := scS) hF hm hd hv hnd 100 hs).1.trans hq0
  obtain ⟨r, g1, g2, g3, g4, g5, g6⟩ := bench_transfer (f := fun L => benchParFasterpam L draw sc0 scF scS seq) (q := q) h
    ((hf ℤ).trans hq)
    (by rw [hf, hf]; exact h1.par_fasterpam _ _ _ hF _ _ _) (by rw [hf, hf]; exact h2.par_fasterpam _ _ _ hF _ _ _) hw.medLen
    (C06_rand_fasterpam hm hd hv hnd 100 hs hq0)
    hw.medRange (C07_rand_fasterpam hm hd hv hnd 100 hs hq0) (C08_rand_fasterpam hm hd hv hnd (fun _ => benchD_symm) 100 hseq hq0)
    (C11_rand_fasterpam hm hd hv hnd (fun _ => benchD_symm) 100 hseq hq0)
  have hr0 := h1.rand_fasterpam benchMeds 100 seq
  rw [hq0, ← hg Int32, k1.wrapping] at hr0
  obtain ⟨a1, a2, a3, a4, -⟩ := hr0
  have : r = r0 := by
    have hl : r.loss = r0.loss := Int32.toInt_inj.mp (by rw [g2.loss, k2.loss, g3, a1])
    obtain ⟨l, as, it, sw, md⟩ := r
    obtain ⟨l', as', it', sw', md'⟩ := r0
    simp only at g3 g4 g5 g6 a1 a2 a3 a4 hl
    rw [hl, g3, g4, g5, g6, a1, a2, a3, a4]
  exact ⟨r, g1, this ▸ k1, g2⟩

/-- **C111, `bench_fastpam1` and `bench_pam_swap`:** they return the same. -/
theorem C111_pam_swap (h : BenchDraw draw) :
    ∃ r, BenchReturns (fun L => benchPamSwap L draw) r ∧ BenchReturns (fun L => benchFastpam1 L draw) r ∧ BenchRun draw r ∧
      benchLoss draw r.med ≤ benchLoss draw benchMeds := by
  obtain ⟨a, e, hm, h1, h2⟩ := bench_setup h
  obtain ⟨hv, hnd, -⟩ := benchMeds_valid
  have hd := benchD_dissim h
  have hf : ∀ (L : Type) [RLoss L] [RFrom Int32 L], benchPamSwap L draw = pamSwap L a.toMat benchMeds 100 := fun L _ _ => by
    unfold benchPamSwap; rw [e]; rfl
  have hg : ∀ (L : Type) [RLoss L] [RFrom Int32 L], benchFastpam1 L draw = fastpam1 L a.toMat benchMeds 100 := fun L _ _ => by
    unfold benchFastpam1; rw [e]; rfl
  obtain ⟨q, hq, hw⟩ := C04_pam_swap (L := ℤ) hm hv 100
  have hq' := (C14_fastpam1_eq_pam_swap (L := ℤ) hm hd hv hnd 100).1.trans hq
  have n1 := C06_pam_swap hm hd hv hnd 100 hq
  have n2 := C07_pam_swap hm hd hv hnd 100 hq
  have n3 := C08_pam_swap hm hd hv hnd (fun _ => benchD_symm) 100 hq
  have n4 := C12_pam_swap hm hd hv hnd (fun _ => benchD_symm) 100 hq
  obtain ⟨r, g1, g2, g3, g4, g5, g6⟩ := bench_transfer (f := fun L => benchPamSwap L draw) (q := q) h ((hf ℤ).trans hq)
    (by rw [hf, hf]; exact h1.pam_swap _ _) (by rw [hf, hf]; exact h2.pam_swap _ _) hw.medLen n1 hw.medRange n2 n3 n4
  obtain ⟨r', k1, k2, k3, k4, k5, k6⟩ := bench_transfer (f := fun L => benchFastpam1 L draw) (q := q) h ((hg ℤ).trans hq')
    (by rw [hg, hg]; exact h1.fastpam1 _ _) (by rw [hg, hg]; exact h2.fastpam1 _ _) hw.medLen n1 hw.medRange n2 n3 n4
  have : r' = r := by
    have hl : r'.loss = r.loss := Int32.toInt_inj.mp (by rw [g2.loss, k2.loss, g3, k3])
    obtain ⟨l, as, it, sw, md⟩ := r
    obtain ⟨l', as', it', sw', md'⟩ := r'
    simp only at g3 g4 g5 g6 k3 k4 k5 k6 hl
    rw [hl, g3, g4, g5, g6, k3, k4, k5, k6]
  refine ⟨r, g1, this ▸ k1, g2, ?_⟩
  rw [g3]
  exact (pam_swap_outcome hm hd hv hnd (fun _ => benchD_symm) 100 hq).chain.le

/-- Fewer than 100 medoids have a positive loss. -/
theorem benchLoss_pos (h : BenchDraw draw) {med : List Nat} (hne : med ≠ []) (hr : ∀ m ∈ med, m < 100) (hl : med.length < 100) :
    benchLoss draw med ≠ 0 := fun h0 => by
  have h0 := (totalDev_eq_zero_iff (L := ℤ) (benchD_dissim h) hr hne).mp h0
  have hsub : List.range 100 ⊆ med := fun o ho => by
    obtain ⟨c, hc, e⟩ := h0 o (List.mem_range.mp ho)
    by_cases hoc : o = c
    · exact hoc ▸ hc
    · exact absurd e (benchD_pos h hoc)
  have := (List.nodup_range (n := 100)).subperm hsub |>.length_le
  rw [List.length_range] at this
  omega

/-- **C111, `bench_pam_build`:** five different medoids, although BUILD may stop early; every one is the best choice, given those
before; labels and loss belong to them. -/
theorem C111_pam_build (h : BenchDraw draw) : ∃ r : BuildResult Int32, benchPamBuild Int32 draw = .ok r ∧
    benchPamBuild CheckedI32 draw = .ok ⟨⟨some r.loss.toInt⟩, r.assi, r.med⟩ ∧
    r.med.length = 5 ∧ r.med.Nodup ∧ (∀ m ∈ r.med, m < 100) ∧ NearestAssignment 100 (benchD draw) r.med r.assi ∧
    r.loss.toInt = benchLoss draw r.med ∧ Greedy (benchLoss draw) 100 r.med := by
  obtain ⟨a, e, hm, h1, h2⟩ := bench_setup h
  obtain ⟨-, -, hs⟩ := benchMeds_valid
  have hd := benchD_dissim h
  have hf : ∀ (L : Type) [RLoss L] [RFrom Int32 L], benchPamBuild L draw = pamBuild L a.toMat 5 := fun L _ _ => by
    unfold benchPamBuild; rw [e]; rfl
  obtain ⟨q, hq, -⟩ := C04_pam_build (L := ℤ) hm hs
  obtain ⟨c1, c2, c3, c4, c5, c6⟩ := C19_pam_build hm hd hs hq
  have hlen : q.med.length = 5 := (C20_pam_build hm hd hs hq).2 fun ms hl hne _ hr =>
    benchLoss_pos h hne hr (by omega)
  have hb : Bd (2 ^ 31 - 1) q.loss := c6 ▸ benchLoss_range h (List.ne_nil_of_length_pos (by omega))
  have g1 := h1.pam_build 5
  have g2 := h2.pam_build 5
  rw [hq, ← hf] at g1 g2
  cases e1 : benchPamBuild Int32 draw with
  | error e => rw [e1] at g1; exact False.elim g1
  | ok r =>
    cases e2 : benchPamBuild CheckedI32 draw with
    | error e => rw [e2] at g2; exact False.elim g2
    | ok r' =>
      rw [e1] at g1; rw [e2] at g2
      obtain ⟨l, as, md⟩ := r
      obtain ⟨l', as', md'⟩ := r'
      obtain ⟨a1, a2, a5⟩ := g1
      obtain ⟨b1, b2, b5⟩ := g2
      simp only at a1 a2 a5 b1 b2 b5
      subst a1 a2 a5 b1 b2 b5
      have ht : (Int32.ofInt q.loss).toInt = q.loss := Int32.toInt_ofInt_of_le (by have := hb.1; omega) (by have := hb.2; omega)
      refine ⟨_, rfl, ?_, hlen, c3, c4, c5, ht.trans c6, (C21_pam_build hm hd hs hq).2⟩
      rw [ht]
      have : CheckedI32.ofInt q.loss = ⟨some q.loss⟩ := by
        have := CheckedI32.ofInt_val hb
        cases hc : CheckedI32.ofInt q.loss with
        | mk v => rw [hc] at this; simp only at this; rw [this]
      rw [this]

/-- **C111, `bench_pam`:** as `bench_pam_swap`, and not worse than what `bench_pam_build` returns. -/
theorem C111_pam (h : BenchDraw draw) : ∃ (r : SwapResult Int32) (b : BuildResult Int32),
    BenchReturns (fun L => benchPam L draw) r ∧ BenchRun draw r ∧ benchPamBuild Int32 draw = .ok b ∧
      benchLoss draw r.med ≤ benchLoss draw b.med := by
  obtain ⟨b, hb, -, b1, b2, b3, -⟩ := C111_pam_build h
  obtain ⟨a, e, hm, h1, h2⟩ := bench_setup h
  obtain ⟨-, -, hs⟩ := benchMeds_valid
  have hd := benchD_dissim h
  have hf : ∀ (L : Type) [RLoss L] [RFrom Int32 L], benchPam L draw = pam L a.toMat 5 100 := fun L _ _ => by
    unfold benchPam; rw [e]; rfl
  have hg : ∀ (L : Type) [RLoss L] [RFrom Int32 L], benchPamBuild L draw = pamBuild L a.toMat 5 := fun L _ _ => by
    unfold benchPamBuild; rw [e]; rfl
  obtain ⟨p, hp, -⟩ := C04_pam_build (L := ℤ) hm hs
  have hpb := h1.pam_build 5
  rw [hp, ← hg, hb] at hpb
  have hmed : b.med = p.med := hpb.1
  have hv : ValidMeds benchSize p.med := by
    rw [← hmed]
    exact ⟨by rw [b1]; exact hs, b3⟩
  have hnd : p.med.Nodup := hmed ▸ b2
  have hpam := (C22_pam hm hd hs 100 hp).1
  obtain ⟨q, hq, hw⟩ := C04_pam_swap (L := ℤ) hm hv 100
  obtain ⟨r, g1, g2, g3, -⟩ := bench_transfer (f := fun L => benchPam L draw) (q := q) h ((hf ℤ).trans (hpam.trans hq))
    (by rw [hf, hf]; exact h1.pam _ _) (by rw [hf, hf]; exact h2.pam _ _) (hw.medLen.trans (by rw [← hmed]; exact b1))
    (C06_pam_swap hm hd hv hnd 100 hq) hw.medRange (C07_pam_swap hm hd hv hnd 100 hq)
    (C08_pam_swap hm hd hv hnd (fun _ => benchD_symm) 100 hq) (C12_pam_swap hm hd hv hnd (fun _ => benchD_symm) 100 hq)
  refine ⟨r, b, g1, g2, hb, ?_⟩
  rw [g3, hmed]
  exact (pam_swap_outcome hm hd hv hnd (fun _ => benchD_symm) 100 hq).chain.le

/-- **C111, `bench_alternating`:** five different medoids; labels and loss belong to them; not worse than the start, and unless the
limit was reached, every medoid is a best one of its cluster. -/
theorem C111_alternating (h : BenchDraw draw) : ∃ r : AltResult Int32, benchAlternating Int32 draw = .ok r ∧
    benchAlternating CheckedI32 draw = .ok ⟨⟨some r.loss.toInt⟩, r.assi, r.nIter, r.med⟩ ∧
    r.med.length = 5 ∧ r.med.Nodup ∧ (∀ m ∈ r.med, m < 100) ∧ NearestAssignment 100 (benchD draw) r.med r.assi ∧
    r.loss.toInt = benchLoss draw r.med ∧ benchLoss draw r.med ≤ benchLoss draw benchMeds ∧
    (r.nIter < 100 → ∀ m c x : Nat, r.med[m]? = some c → r.assi[x]? = some m →
      clusterSum (conv : Int32 → ℤ) (benchD draw) r.assi m c ≤ clusterSum (conv : Int32 → ℤ) (benchD draw) r.assi m x) := by
  obtain ⟨a, e, hm, h1, h2⟩ := bench_setup h
  obtain ⟨hv, hnd, -⟩ := benchMeds_valid
  have hd := benchD_dissim h
  have hf : ∀ (L : Type) [RLoss L] [RFrom Int32 L], benchAlternating L draw = alternating L a.toMat benchMeds 100 := fun L _ _ => by
    unfold benchAlternating; rw [e]; rfl
  obtain ⟨q, hq, hw⟩ := C04_alternating (L := ℤ) hm hv 100
  have hl := C08_alternating hm hd hv hnd 100 hq
  obtain ⟨c1, -, c3⟩ := C23_alternating hm hd hv hnd 100 hq
  have hlen : q.med.length = 5 := hw.medLen
  have hb : Bd (2 ^ 31 - 1) q.loss := hl ▸ benchLoss_range h (List.ne_nil_of_length_pos (by omega))
  have g1 := h1.alternating benchMeds 100
  have g2 := h2.alternating benchMeds 100
  rw [hq, ← hf] at g1 g2
  cases e1 : benchAlternating Int32 draw with
  | error e => rw [e1] at g1; exact False.elim g1
  | ok r =>
    cases e2 : benchAlternating CheckedI32 draw with
    | error e => rw [e2] at g2; exact False.elim g2
    | ok r' =>
      rw [e1] at g1; rw [e2] at g2
      obtain ⟨l, as, it, md⟩ := r
      obtain ⟨l', as', it', md'⟩ := r'
      obtain ⟨a1, a2, a3, a5⟩ := g1
      obtain ⟨b1, b2, b3, b5⟩ := g2
      simp only at a1 a2 a3 a5 b1 b2 b3 b5
      subst a1 a2 a3 a5 b1 b2 b3 b5
      have ht : (Int32.ofInt q.loss).toInt = q.loss := Int32.toInt_ofInt_of_le (by have := hb.1; omega) (by have := hb.2; omega)
      refine ⟨_, rfl, ?_, hlen, C06_alternating (L := ℤ) (r := q) hm hd hv hnd 100 hq, hw.medRange, C07_alternating (L := ℤ) (r := q) hm hd hv hnd 100 hq, ht.trans hl,
        (c1 benchD_symm).2, c3⟩
      rw [ht]
      have : CheckedI32.ofInt q.loss = ⟨some q.loss⟩ := by
        have := CheckedI32.ofInt_val hb
        cases hc : CheckedI32.ofInt q.loss with
        | mk v => rw [hc] at this; simp only at this; rw [this]
      rw [this]

end bench

/-! ## examples -/

/-- Some numbers from 1 to 9999. -/
def exDraw (c : Nat) : Int32 := Int32.ofInt (((c * 7919 + 13) % 9999 : ℕ) + 1)

theorem exDraw_ok : BenchDraw exDraw := fun c => by
  have h : (c * 7919 + 13) % 9999 < 9999 := Nat.mod_lt _ (by decide)
  unfold exDraw
  rw [Int32.toInt_ofInt_of_le (by omega) (by omega)]
  omega

example := C111_fasterpam exDraw_ok
example := C111_rand_fasterpam exDraw_ok (List.Perm.refl (List.range 100))
example := C111_rand_fasterpam exDraw_ok (List.reverse_perm (List.range 100))
example := C111_par_fasterpam exDraw_ok (List.reverse_perm (List.range 100)) ⟨3, [2, 0, 1], .node 2 (.node 1 .leaf .leaf) .leaf⟩
  (scF := fun _ _ => ⟨3, [2, 0, 1], .node 2 (.node 1 .leaf .leaf) .leaf⟩)
  (scS := fun _ _ => ⟨4, [2, 3, 0, 1], .node 4 (.node 1 .leaf .leaf) .leaf⟩) fun _ _ => ⟨by decide, by decide⟩
example := C111_pam_swap exDraw_ok
example := C111_pam_build exDraw_ok
example := C111_pam exDraw_ok
example := C111_alternating exDraw_ok

end KMedoids
