import Verif.Proofs.CheckedErase
import Verif.Proofs.CheckedPar
import Verif.Props.C111

/-!
# C112: overflow checks never fire

In a debug build, and with `overflow-checks = true`, an operation on integers panics if the result does not fit. Here `fK` is the
function `f` in which every `+`, `-` and unary `-` on losses may panic, `f` the one in which it cannot. `C112_erase`: both are the
same, if no operation panics. `C112_exact`, `C112_general`: if `3 (n + 1) U ≤ B`, no operation panics for *all* inputs, so the debug build
returns what the release build returns; this also covers sums that lose every comparison. It is applied to `u32` distances with
`i64` losses (`C112_u32_i64`), `i32` for both (`C112_i32`) and to the benchmarks (`C112_bench`). Without a bound a check
fires (`C112_bound_needed`), also where wrapping gives the right result in the end (`C112_lost_sum`).
-/

set_option linter.unusedSectionVars false
set_option linter.overlappingInstances false

namespace KMedoids

open RFrom (conv)

/-- A function with overflow checks (`left`) and without (`right`), for the same loss type: always the same outcome. -/
structure SameDebug {N : Type} [RDist N] (L : Type) [RFrom N L] [KLoss L] [RLoss L] (mat : Mat N) : Prop where
  fasterpam : ∀ med maxiter, fasterpamK L mat med maxiter = KMedoids.fasterpam L mat med maxiter
  rand_fasterpam : ∀ med maxiter seq, randFasterpamK L mat med maxiter seq = randFasterpam L mat med maxiter seq
  par_fasterpam : ∀ (sc0 : Sched) (scF scS : Nat → Nat → Sched), (∀ i j, (scF i j).Ok) → ∀ med maxiter seq,
    parFasterpamK L sc0 scF scS mat med maxiter seq = parFasterpam L sc0 scF scS mat med maxiter seq
  fastpam1 : ∀ med maxiter, fastpam1K L mat med maxiter = KMedoids.fastpam1 L mat med maxiter
  pam_swap : ∀ med maxiter, pamSwapK L mat med maxiter = pamSwap L mat med maxiter
  pam : ∀ k maxiter, pamK L mat k maxiter = KMedoids.pam L mat k maxiter
  pam_build : ∀ k, pamBuildK L mat k = pamBuild L mat k
  alternating : ∀ med maxiter, alternatingK L mat med maxiter = KMedoids.alternating L mat med maxiter

/-- **C112, the text is the same:** if no operation panics, `fK` is `f`. (Without any assumption on the matrix.) -/
theorem C112_erase {N L : Type} [RDist N] [RLoss L] [RFrom N L] (mat : Mat N) :
    letI := KLoss.ofRLoss L
    SameDebug L mat := by
  letI := KLoss.ofRLoss L
  exact ⟨erase_fasterpam mat, erase_randFasterpam mat, fun sc0 scF scS _ => erase_parFasterpam sc0 scF scS mat, erase_fastpam1 mat,
    erase_pamSwap mat, erase_pam mat, erase_pamBuild mat, erase_alternating mat⟩

section general
variable {N N' L' : Type} [RDist N] [RFrom N ℤ] [RDist N'] [RFrom N' L'] {f : N → N'} {ι : ℤ → L'} {U B : ℤ}

/-- **C112:** the operations are exact, and do not panic, on integers up to `B`; distances up to `U`; `3 (n + 1) U ≤ B`. Then the
outcome with overflow checks is always that of unbounded integers (also if it is another panic, such as a failed assertion). -/
theorem C112_exact [KLoss L'] (H : KHom f ι U B) (mat : Mat N) (hB : 3 * ((mat.len : ℤ) + 1) * U ≤ B) :
    (∀ med it, fasterpamK L' (mat.map f) med it = rmap (SwapResult.map ι) (fasterpam ℤ mat med it)) ∧
    (∀ med it seq, randFasterpamK L' (mat.map f) med it seq = rmap (SwapResult.map ι) (randFasterpam ℤ mat med it seq)) ∧
    (∀ (sc0 : Sched) (scF scS : Nat → Nat → Sched), (∀ i j, (scF i j).Ok) → ∀ med it seq,
      parFasterpamK L' sc0 scF scS (mat.map f) med it seq = rmap (SwapResult.map ι) (parFasterpam ℤ sc0 scF scS mat med it seq)) ∧
    (∀ med it, fastpam1K L' (mat.map f) med it = rmap (SwapResult.map ι) (fastpam1 ℤ mat med it)) ∧
    (∀ med it, pamSwapK L' (mat.map f) med it = rmap (SwapResult.map ι) (pamSwap ℤ mat med it)) ∧
    (∀ k it, pamK L' (mat.map f) k it = rmap (SwapResult.map ι) (pam ℤ mat k it)) ∧
    (∀ k, pamBuildK L' (mat.map f) k = rmap (BuildResult.map ι) (pamBuild ℤ mat k)) ∧
    (∀ med it, alternatingK L' (mat.map f) med it = rmap (AltResult.map ι) (alternating ℤ mat med it)) := by
  have hB : 3 * (((mat.len + 1 : Nat) : ℤ) * U) ≤ B := by push_cast; linarith
  exact ⟨fun med it => (H.fasterpamB mat med it hB).1, fun med it seq => (H.randFasterpamB mat med it seq hB).1,
    fun sc0 scF scS hF med it seq => (H.parFasterpamB sc0 hF mat med it seq hB).1, fun med it => (H.fastpam1B mat hB med it).1,
    fun med it => (H.pamSwapB mat hB med it).1, fun k it => (H.pamB mat hB k it).1, fun k => (H.pamBuildB mat hB k).1,
    fun med it => (H.alternatingB mat hB med it).1⟩

/-- **C112:** hence with and without overflow checks the outcome is the same. -/
theorem C112_general [KLoss L'] [RLoss L'] (H : KHom f ι U B) (H' : BHom f ι U B) (mat : Mat N)
    (hB : 3 * ((mat.len : ℤ) + 1) * U ≤ B) : SameDebug L' (mat.map f) := by
  have hB : 3 * (((mat.len + 1 : Nat) : ℤ) * U) ≤ B := by push_cast; linarith
  exact {
    fasterpam := fun med it => (H.fasterpamB mat med it hB).1.trans (H'.fasterpamB mat med it hB).1.symm
    rand_fasterpam := fun med it seq => (H.randFasterpamB mat med it seq hB).1.trans (H'.randFasterpamB mat med it seq hB).1.symm
    par_fasterpam := fun sc0 scF scS hF med it seq =>
      (H.parFasterpamB sc0 hF mat med it seq hB).1.trans (H'.parFasterpamB sc0 hF mat med it seq hB).1.symm
    fastpam1 := fun med it => (H.fastpam1B mat hB med it).1.trans (H'.fastpam1B mat hB med it).1.symm
    pam_swap := fun med it => (H.pamSwapB mat hB med it).1.trans (H'.pamSwapB mat hB med it).1.symm
    pam := fun k it => (H.pamB mat hB k it).1.trans (H'.pamB mat hB k it).1.symm
    pam_build := fun k => (H.pamBuildB mat hB k).1.trans (H'.pamBuildB mat hB k).1.symm
    alternating := fun med it => (H.alternatingB mat hB med it).1.trans (H'.alternatingB mat hB med it).1.symm }

end general

/-! ## `i64` -/

/-- An `i64` or a panic: "attempt to add with overflow" etc. -/
def checkI64 (exact : ℤ) (value : Int64) : Res Int64 := if -2 ^ 63 ≤ exact ∧ exact < 2 ^ 63 then .ok value else .error .arith

/-- Rust's `i64` with overflow checks. -/
instance : KLoss Int64 where
  pcmp a b := some (compare a.toInt b.toInt)
  zero := 0
  addK a b := checkI64 (a.toInt + b.toInt) (a + b)
  subK a b := checkI64 (a.toInt - b.toInt) (a - b)
  negK a := checkI64 (-a.toInt) (-a)

theorem toInt_ofInt64 {x : ℤ} (h : Bd (2 ^ 63 - 1) x) : (Int64.ofInt x).toInt = x :=
  Int64.toInt_ofInt_of_le (by have := h.1; omega) (by have := h.2; omega)

theorem checkI64_ok {x : ℤ} (h : Bd (2 ^ 63 - 1) x) (v : Int64) : checkI64 x v = .ok v :=
  if_pos ⟨by have := h.1; omega, by have := h.2; omega⟩

/-- `i64` with overflow checks does not panic within its range. -/
theorem khom_i64 : KHom (N := UInt32) (N' := UInt32) id Int64.ofInt (2 ^ 32 - 1) (2 ^ 63 - 1) where
  distCmp _ _ := rfl
  distZero := rfl
  lossCmp x y hx hy := by
    show some (compare (Int64.ofInt x).toInt (Int64.ofInt y).toInt) = _
    rw [toInt_ofInt64 hx, toInt_ofInt64 hy]
  lossZero := rfl
  lossAdd x y hx hy h := by
    show checkI64 _ _ = _
    rw [toInt_ofInt64 hx, toInt_ofInt64 hy, checkI64_ok h, Int64.ofInt_add]
  lossSub x y hx hy h := by
    show checkI64 _ _ = _
    rw [toInt_ofInt64 hx, toInt_ofInt64 hy, checkI64_ok h, Int64.ofInt_sub]
  lossNeg x hx h := by
    show checkI64 _ _ = _
    rw [toInt_ofInt64 hx, checkI64_ok h, Int64.ofInt_neg]
  lossConv _ := rfl
  convNonneg x := Int.natCast_nonneg _
  convLe x := by have := x.toNat_lt; show (x.toNat : ℤ) ≤ _; omega

/-- **C112, `u32` distances, `i64` losses:** up to 2^29 objects a debug build does what a release build does. -/
theorem C112_u32_i64 (mat : Mat UInt32) (hn : mat.len ≤ 2 ^ 29) : SameDebug Int64 mat := by
  have := C112_general khom_i64 C46_wrapping mat (by omega)
  rwa [Mat.map_id'] at this

example := C112_u32_i64 exBig (by decide)
example : fasterpamK Int64 exBig [0, 3] 10 = .ok ⟨12, [1, 0, 0, 1], 2, 1, [1, 3]⟩ := by decide +kernel

/-! ## `i32` -/

/-- An `i32` or a panic. -/
def checkI32 (exact : ℤ) (value : Int32) : Res Int32 := if -2 ^ 31 ≤ exact ∧ exact < 2 ^ 31 then .ok value else .error .arith

/-- Rust's `i32` with overflow checks. -/
instance : KLoss Int32 where
  pcmp a b := some (compare a.toInt b.toInt)
  zero := 0
  addK a b := checkI32 (a.toInt + b.toInt) (a + b)
  subK a b := checkI32 (a.toInt - b.toInt) (a - b)
  negK a := checkI32 (-a.toInt) (-a)

theorem toInt_ofInt32 {x : ℤ} (h : Bd (2 ^ 31 - 1) x) : (Int32.ofInt x).toInt = x :=
  Int32.toInt_ofInt_of_le (by have := h.1; omega) (by have := h.2; omega)

theorem checkI32_ok {x : ℤ} (h : Bd (2 ^ 31 - 1) x) (v : Int32) : checkI32 x v = .ok v :=
  if_pos ⟨by have := h.1; omega, by have := h.2; omega⟩

/-- `i32` with overflow checks does not panic within its range. -/
theorem khom_i32 (U : ℕ) : KHom (N := I32Upto U) (N' := Int32) I32Upto.val Int32.ofInt U (2 ^ 31 - 1) where
  distCmp _ _ := rfl
  distZero := rfl
  lossCmp x y hx hy := by
    show some (compare (Int32.ofInt x).toInt (Int32.ofInt y).toInt) = _
    rw [toInt_ofInt32 hx, toInt_ofInt32 hy]
  lossZero := rfl
  lossAdd x y hx hy h := by
    show checkI32 _ _ = _
    rw [toInt_ofInt32 hx, toInt_ofInt32 hy, checkI32_ok h, Int32.ofInt_add]
  lossSub x y hx hy h := by
    show checkI32 _ _ = _
    rw [toInt_ofInt32 hx, toInt_ofInt32 hy, checkI32_ok h, Int32.ofInt_sub]
  lossNeg x hx h := by
    show checkI32 _ _ = _
    rw [toInt_ofInt32 hx, checkI32_ok h, Int32.ofInt_neg]
  lossConv x := by
    show Int32.ofInt x.val.toInt = x.val
    exact Int32.ofInt_toInt x.val
  convNonneg x := x.range.1
  convLe x := x.range.2

/-- **C112, `i32`:** distances from `0` to `U` and `3 (n + 1) U < 2^31`: a debug build does what a release build does. -/
theorem C112_i32 {U : ℕ} {a : Array2 Int32}
    (hr : ∀ x y, x < a.rows → y < a.cols → 0 ≤ (a.val x y).toInt ∧ (a.val x y).toInt ≤ U)
    (hB : 3 * ((a.rows : ℤ) + 1) * U < 2 ^ 31) : SameDebug Int32 a.toMat := by
  let b : Array2 (I32Upto U) := ⟨a.rows, a.cols, fun x y => .of U (a.val x y)⟩
  have e : b.toMat.map I32Upto.val = a.toMat := by
    simp only [Array2.toMat, Mat.map, b, Mat.mk.injEq, true_and]
    funext x y
    by_cases h : x < a.rows ∧ y < a.cols
    · rw [if_pos h, if_pos h]
      exact congrArg Except.ok (I32Upto.of_val (hr x y h.1 h.2))
    · rw [if_neg h, if_neg h]; rfl
  rw [← e]
  exact C112_general (khom_i32 U) (bhom_i32 U) b.toMat (by show 3 * ((a.rows : ℤ) + 1) * U ≤ _; omega)

example := C112_i32 exI32_range (by show 3 * (((6 : ℕ) : ℤ) + 1) * (100 : ℕ) < 2 ^ 31; norm_num)

example : fasterpamK Int32 exI32.toMat [0, 1] 10 = .ok ⟨5, [1, 1, 1, 0, 0, 0], 3, 4, [4, 1]⟩ ∧
    pamK Int32 exI32.toMat 2 10 = .ok ⟨5, [0, 0, 0, 1, 1, 1], 2, 1, [1, 4]⟩ := by decide +kernel

/-- **C112, a bound is needed:** here a debug build panics, and a release build chooses the worst object. -/
theorem C112_bound_needed : fasterpamK Int32 exI32Large.toMat [0] 10 = .error .arith ∧
    fasterpam Int32 exI32Large.toMat [0] 10 = .ok ⟨-1275068416, [0, 0, 0], 1, 1, [2]⟩ := by decide +kernel

/-- four objects; the distances *from* the last one are large -/
def exI32Lost : Array2 Int32 := ⟨4, 4, fun x y =>
  (([[0, 1, 1, 2], [1, 0, 2, 2], [1, 2, 0, 2], [2100000000, 2100000000, 2100000000, 0]] : List (List Int32)).getD x []).getD y 0⟩

/-- **C112, a sum that is not chosen:** a debug build panics, although wrapping around gives the exact result. So to say that the
result of a release build is exact, is less than to say that no check fires. -/
theorem C112_lost_sum : fasterpamK Int32 exI32Lost.toMat [0] 10 = .error .arith ∧
    fasterpam Int32 exI32Lost.toMat [0] 10 = .ok ⟨4, [0, 0, 0, 0], 1, 0, [0]⟩ ∧
    fasterpam ℤ exI32Lost.toMat [0] 10 = .ok ⟨4, [0, 0, 0, 0], 1, 0, [0]⟩ := by decide +kernel

/-! ## The benchmarks -/

section bench
variable {draw : Nat → Int32}

theorem bench_debug (h : BenchDraw draw) : ∃ a : Array2 Int32, benchMat draw RDist.zero benchSize = .ok a ∧ SameDebug Int32 a.toMat := by
  obtain ⟨D, e, hD⟩ := C111_matrix draw (RDist.zero : Int32) benchSize
  refine ⟨_, e, ?_⟩
  refine C112_i32 (U := 9999) (fun x y hx hy => ?_) (by show 3 * (((100 : ℕ) : ℤ) + 1) * (9999 : ℕ) < 2 ^ 31; norm_num)
  show 0 ≤ (D x y).toInt ∧ (D x y).toInt ≤ _
  rw [(hD x y hx hy).1]
  exact benchD_range h x y

/-- **C112, the benchmarks:** for all random numbers, schedules and orders, all eight benchmarks do the same with overflow checks. -/
theorem C112_bench (h : BenchDraw draw) :
    benchFasterpamK Int32 draw = benchFasterpam Int32 draw ∧
    (∀ seq, benchRandFasterpamK Int32 draw seq = benchRandFasterpam Int32 draw seq) ∧
    (∀ (sc0 : Sched) (scF scS : Nat → Nat → Sched), (∀ i j, (scF i j).Ok) → ∀ seq,
      benchParFasterpamK Int32 draw sc0 scF scS seq = benchParFasterpam Int32 draw sc0 scF scS seq) ∧
    benchFastpam1K Int32 draw = benchFastpam1 Int32 draw ∧ benchPamSwapK Int32 draw = benchPamSwap Int32 draw ∧
    benchPamBuildK Int32 draw = benchPamBuild Int32 draw ∧ benchPamK Int32 draw = benchPam Int32 draw ∧
    benchAlternatingK Int32 draw = benchAlternating Int32 draw := by
  obtain ⟨a, e, s⟩ := bench_debug h
  refine ⟨?_, fun seq => ?_, fun sc0 scF scS hF seq => ?_, ?_, ?_, ?_, ?_, ?_⟩
  · unfold benchFasterpamK benchFasterpam; simp only [e, ok_bind]; exact s.fasterpam _ _
  · unfold benchRandFasterpamK benchRandFasterpam; simp only [e, ok_bind]; exact s.rand_fasterpam _ _ _
  · unfold benchParFasterpamK benchParFasterpam; simp only [e, ok_bind]; exact s.par_fasterpam _ _ _ hF _ _ _
  · unfold benchFastpam1K benchFastpam1; simp only [e, ok_bind]; exact s.fastpam1 _ _
  · unfold benchPamSwapK benchPamSwap; simp only [e, ok_bind]; exact s.pam_swap _ _
  · unfold benchPamBuildK benchPamBuild; simp only [e, ok_bind]; exact s.pam_build _
  · unfold benchPamK benchPam; simp only [e, ok_bind]; exact s.pam _ _
  · unfold benchAlternatingK benchAlternating; simp only [e, ok_bind]; exact s.alternating _ _

/-- **C112, the benchmarks return:** with overflow checks none of the eight panics, for all random numbers, schedules and orders;
the results are those described by C111. -/
theorem C112_bench_returns (h : BenchDraw draw) {seq : List Nat} (hseq : seq.Perm (List.range 100)) (sc0 : Sched)
    {scF scS : Nat → Nat → Sched} (hF : ∀ i j, (scF i j).Ok) :
    (∃ r, benchFasterpamK Int32 draw = .ok r ∧ BenchRun draw r) ∧
    (∃ r, benchRandFasterpamK Int32 draw seq = .ok r ∧ benchParFasterpamK Int32 draw sc0 scF scS seq = .ok r ∧ BenchRun draw r) ∧
    (∃ r, benchPamSwapK Int32 draw = .ok r ∧ benchFastpam1K Int32 draw = .ok r ∧ BenchRun draw r) ∧
    (∃ r, benchPamBuildK Int32 draw = .ok r ∧ r.loss.toInt = benchLoss draw r.med) ∧
    (∃ r, benchPamK Int32 draw = .ok r ∧ BenchRun draw r) ∧
    ∃ r, benchAlternatingK Int32 draw = .ok r ∧ r.loss.toInt = benchLoss draw r.med := by
  obtain ⟨e1, e2, e3, e4, e5, e6, e7, e8⟩ := C112_bench h
  rw [e1, e2, e3 _ _ _ hF, e4, e5, e6, e7, e8]
  obtain ⟨r1, a1, b1, -⟩ := C111_fasterpam h
  obtain ⟨r2, a2, c2, b2⟩ := C111_par_fasterpam h hseq sc0 (scS := scS) hF
  obtain ⟨r3, a3, c3, b3, -⟩ := C111_pam_swap h
  obtain ⟨r4, a4, -, -, -, -, -, b4, -⟩ := C111_pam_build h
  obtain ⟨r5, -, a5, b5, -⟩ := C111_pam h
  obtain ⟨r6, a6, -, -, -, -, -, b6, -⟩ := C111_alternating h
  exact ⟨⟨r1, a1.wrapping, b1⟩, ⟨r2, c2.wrapping, a2.wrapping, b2⟩, ⟨r3, a3.wrapping, c3.wrapping, b3⟩, ⟨r4, a4, b4⟩,
    ⟨r5, a5.wrapping, b5⟩, ⟨r6, a6, b6⟩⟩

end bench

example := C112_bench exDraw_ok
example := C112_bench_returns exDraw_ok (List.reverse_perm (List.range 100)) ⟨3, [2, 0, 1], .node 2 (.node 1 .leaf .leaf) .leaf⟩
  (scF := fun _ _ => ⟨3, [2, 0, 1], .node 2 (.node 1 .leaf .leaf) .leaf⟩)
  (scS := fun _ _ => ⟨4, [2, 3, 0, 1], .node 4 (.node 1 .leaf .leaf) .leaf⟩) fun _ _ => ⟨by decide, by decide⟩

end KMedoids
