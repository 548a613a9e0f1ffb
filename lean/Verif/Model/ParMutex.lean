import Verif.Model.ParFasterPam

/-!
# The worker threads of `par_find_best_swap`, step by step

`parFindBestSwap` takes the order in which the workers obtain the mutex as a parameter. Here the threads
of `rayon::scope` (src/par_fasterpam.rs:145-173) run as an interleaving of small steps: each worker
processes one record at a time with private sums, then locks the mutex, adds its vector to the shared
vector one entry at a time, adds its accumulator, and unlocks. The scope ends when all workers are done.
-/

namespace KMedoids

variable {N L : Type} [RDist N] [RLoss L] [RFrom N L]

/-- Where a worker is. -/
inductive Phase where
  /-- in the loop over its records, or waiting for the mutex (src/par_fasterpam.rs:155-166) -/
  | work
  /-- holds the mutex, about to add entry `i` of the vector (line 169) -/
  | vec (i : Nat)
  /-- holds the mutex, the accumulator is left (line 170) -/
  | acc
  /-- about to release the mutex -/
  | unlock
  /-- finished -/
  | done
deriving DecidableEq

/-- One spawned closure. -/
structure Worker (N L : Type) where
  /-- the records that are left -/
  todo : List (Rec N × Nat)
  /-- private `(loss, lagg)` -/
  priv : List L × L
  /-- position -/
  phase : Phase

/-- State of the scope. -/
structure PoolState (N L : Type) where
  /-- the spawned closures -/
  workers : List (Worker N L)
  /-- shared `(ploss, acc)` behind the mutex -/
  shared : List L × L
  /-- owner of the mutex -/
  lock : Option Nat

/-- One step of one worker. -/
inductive PoolStep (mat : Mat N) (j : Nat) : PoolState N L → PoolState N L → Prop
  | work {s : PoolState N L} {x : Nat} {w : Worker N L} {p : Rec N × Nat} {todo : List (Rec N × Nat)}
      {priv : List L × L}
      (hw : s.workers[x]? = some w) (hph : w.phase = .work) (ht : w.todo = p :: todo)
      (hst : parFindStep mat j w.priv p = .ok priv) :
      PoolStep mat j s { s with workers := s.workers.set x ⟨todo, priv, .work⟩ }
  | lock {s : PoolState N L} {x : Nat} {w : Worker N L}
      (hw : s.workers[x]? = some w) (hph : w.phase = .work) (ht : w.todo = [])
      (hfree : s.lock = none) :
      PoolStep mat j s { s with workers := s.workers.set x { w with phase := .vec 0 }, lock := some x }
  | vec {s : PoolState N L} {x i : Nat} {w : Worker N L}
      (hw : s.workers[x]? = some w) (hph : w.phase = .vec i) (hi : i < s.shared.1.length) :
      PoolStep mat j s { s with
        workers := s.workers.set x { w with phase := .vec (i + 1) }
        shared := (s.shared.1.modify i (RLoss.add · (w.priv.1.getD i RLoss.zero)), s.shared.2) }
  | vecEnd {s : PoolState N L} {x i : Nat} {w : Worker N L}
      (hw : s.workers[x]? = some w) (hph : w.phase = .vec i) (hi : s.shared.1.length ≤ i) :
      PoolStep mat j s { s with workers := s.workers.set x { w with phase := .acc } }
  | acc {s : PoolState N L} {x : Nat} {w : Worker N L}
      (hw : s.workers[x]? = some w) (hph : w.phase = .acc) :
      PoolStep mat j s { s with
        workers := s.workers.set x { w with phase := .unlock }
        shared := (s.shared.1, RLoss.add s.shared.2 w.priv.2) }
  | unlock {s : PoolState N L} {x : Nat} {w : Worker N L}
      (hw : s.workers[x]? = some w) (hph : w.phase = .unlock) :
      PoolStep mat j s { s with workers := s.workers.set x { w with phase := .done }, lock := none }

/-- Any number of steps. -/
inductive PoolSteps (mat : Mat N) (j : Nat) : PoolState N L → PoolState N L → Prop
  | refl (s : PoolState N L) : PoolSteps mat j s s
  | tail {s t u : PoolState N L} (h : PoolSteps mat j s t) (h' : PoolStep mat j t u) : PoolSteps mat j s u

/-- The records of worker `x` (src/par_fasterpam.rs:153-155). -/
def workerRange (n parts x : Nat) (data : List (Rec N)) : List (Rec N × Nat) :=
  let stepsize := (n + parts - 1) / parts
  let start := x * stepsize
  let end_ := min (start + stepsize) n
  (data.zipIdx.take end_).drop start

/-- The state after spawning `parts` closures. -/
def poolInit (mat : Mat N) (parts : Nat) (removalLoss : List L) (data : List (Rec N)) : PoolState N L :=
  ⟨(List.range parts).map fun x =>
      ⟨workerRange mat.len parts x data, (List.replicate removalLoss.length RLoss.zero, RLoss.zero), .work⟩,
    (removalLoss, RLoss.zero), none⟩

/-- All closures have returned; `rayon::scope` returns. -/
def PoolState.finished (s : PoolState N L) : Prop := ∀ w ∈ s.workers, w.phase = .done

end KMedoids
