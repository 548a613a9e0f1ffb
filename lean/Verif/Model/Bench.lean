import Verif.Model.OrlibExample
import Verif.Model.Pam
import Verif.Model.FastPam1
import Verif.Model.ParFasterPam
import Verif.Model.Alternating

/-! # Model of `benches/bench.rs`

Every benchmark fills a matrix with random distances and then calls one function in a loop. The random numbers are a parameter:
`draw c` is the number drawn in the `c`-th call of `gen_range(1..10000)`. The time measurement is not modelled. -/

namespace KMedoids

variable {N : Type}

/-- Body of the inner loop (benches/bench.rs:18-22): one number is drawn and stored twice. The state contains the number of draws. -/
def benchCell (draw : Nat → N) (i : Nat) (st : Array2 N × Nat) (j : Nat) : Res (Array2 N × Nat) := do
  let v := draw st.2
  let a ← st.1.set i j v
  let a ← a.set j i v
  .ok (a, st.2 + 1)

/-- `for j in (i + 1)..SIZE` (benches/bench.rs:18-22) -/
def benchRow (draw : Nat → N) (size : Nat) (st : Array2 N × Nat) (i : Nat) : Res (Array2 N × Nat) :=
  foldRes (benchCell draw i) st (List.range' (i + 1) (size - (i + 1)))

/-- The matrix of all benchmarks (benches/bench.rs:16-23). -/
def benchMat (draw : Nat → N) (zero : N) (size : Nat) : Res (Array2 N) := do
  let st ← foldRes (benchRow draw size) (⟨size, size, fun _ _ => zero⟩, 0) (List.range size)
  .ok st.1

/-- `SIZE` (benches/bench.rs:11) -/
def benchSize : Nat := 100

/-- `vec![0, 1, 2, 3, 4]` -/
def benchMeds : List Nat := [0, 1, 2, 3, 4]

section
variable [RDist N] (L : Type) [RLoss L] [RFrom N L] (draw : Nat → N)

/-- `bench_fasterpam` (benches/bench.rs:14-30) -/
def benchFasterpam : Res (SwapResult L) := do
  let a ← benchMat draw RDist.zero benchSize
  fasterpam L a.toMat benchMeds 100

/-- `bench_rand_fasterpam` (benches/bench.rs:33-49); `seq` is the shuffled order. -/
def benchRandFasterpam (seq : List Nat) : Res (SwapResult L) := do
  let a ← benchMat draw RDist.zero benchSize
  randFasterpam L a.toMat benchMeds 100 seq

/-- `bench_par_fasterpam` (benches/bench.rs:53-69) -/
def benchParFasterpam (sc0 : Sched) (scF scS : Nat → Nat → Sched) (seq : List Nat) : Res (SwapResult L) := do
  let a ← benchMat draw RDist.zero benchSize
  parFasterpam L sc0 scF scS a.toMat benchMeds 100 seq

/-- `bench_fastpam1` (benches/bench.rs:72-88) -/
def benchFastpam1 : Res (SwapResult L) := do
  let a ← benchMat draw RDist.zero benchSize
  fastpam1 L a.toMat benchMeds 100

/-- `bench_pam_swap` (benches/bench.rs:91-107) -/
def benchPamSwap : Res (SwapResult L) := do
  let a ← benchMat draw RDist.zero benchSize
  pamSwap L a.toMat benchMeds 100

/-- `bench_pam_build` (benches/bench.rs:110-125) -/
def benchPamBuild : Res (BuildResult L) := do
  let a ← benchMat draw RDist.zero benchSize
  pamBuild L a.toMat 5

/-- `bench_pam` (benches/bench.rs:128-143) -/
def benchPam : Res (SwapResult L) := do
  let a ← benchMat draw RDist.zero benchSize
  pam L a.toMat 5 100

/-- `bench_alternating` (benches/bench.rs:146-162) -/
def benchAlternating : Res (AltResult L) := do
  let a ← benchMat draw RDist.zero benchSize
  alternating L a.toMat benchMeds 100

end

end KMedoids
