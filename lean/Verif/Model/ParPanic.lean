import Verif.Model.ParMutex

/-!
# Panics in the worker threads of `par_find_best_swap`

`ParMutex.lean` models the threads of `rayon::scope` (src/par_fasterpam.rs:145-173) as long as nothing panics. Here every
step may panic: reading the matrix, an index, and, for integers with overflow checks, each addition, also those made while the
mutex is locked. Then the guard is dropped during unwinding and poisons the mutex; `lock().unwrap()` (line 168) panics from
then on. `rayon::scope` waits for all tasks and panics if one of them did.
-/

namespace KMedoids

/-- Where a task is. -/
inductive TPhase where
  /-- in the loop over its records, or waiting for the mutex (src/par_fasterpam.rs:155-168) -/
  | work
  /-- holds the mutex, about to add entry `i` of the vector (line 169) -/
  | vec (i : Nat)
  /-- holds the mutex, the accumulator is left (line 170) -/
  | acc
  /-- about to release the mutex -/
  | unlock
  /-- returned -/
  | done
  /-- panicked -/
  | panicked
deriving DecidableEq

/-- One spawned closure. -/
structure Task (P L : Type) where
  /-- the records that are left -/
  todo : List P
  /-- private `(loss, lagg)` -/
  priv : List L × L
  /-- position -/
  phase : TPhase

/-- State of the scope. -/
structure Scope (P L : Type) where
  /-- the spawned closures -/
  tasks : List (Task P L)
  /-- shared `(ploss, acc)` behind the mutex -/
  shared : List L × L
  /-- owner of the mutex -/
  lock : Option Nat
  /-- the poison flag of the mutex -/
  poisoned : Bool

variable {P L : Type}

/-- One step of one task; `step` is the loop body, `add` the addition in the critical section. -/
inductive ScopeStep (step : List L × L → P → Res (List L × L)) (add : L → L → Res L) : Scope P L → Scope P L → Prop
  | work {s : Scope P L} {x : Nat} {w : Task P L} {p : P} {todo : List P} {priv : List L × L}
      (hw : s.tasks[x]? = some w) (hph : w.phase = .work) (ht : w.todo = p :: todo) (hst : step w.priv p = .ok priv) :
      ScopeStep step add s { s with tasks := s.tasks.set x ⟨todo, priv, .work⟩ }
  | workPanic {s : Scope P L} {x : Nat} {w : Task P L} {p : P} {todo : List P} {e : Panic}
      (hw : s.tasks[x]? = some w) (hph : w.phase = .work) (ht : w.todo = p :: todo) (hst : step w.priv p = .error e) :
      ScopeStep step add s { s with tasks := s.tasks.set x { w with phase := .panicked } }
  | lock {s : Scope P L} {x : Nat} {w : Task P L}
      (hw : s.tasks[x]? = some w) (hph : w.phase = .work) (ht : w.todo = []) (hfree : s.lock = none)
      (hp : s.poisoned = false) :
      ScopeStep step add s { s with tasks := s.tasks.set x { w with phase := .vec 0 }, lock := some x }
  | lockPanic {s : Scope P L} {x : Nat} {w : Task P L}
      (hw : s.tasks[x]? = some w) (hph : w.phase = .work) (ht : w.todo = []) (hfree : s.lock = none)
      (hp : s.poisoned = true) :
      ScopeStep step add s { s with tasks := s.tasks.set x { w with phase := .panicked } }
  | vec {s : Scope P L} {x i : Nat} {w : Task P L} {a b c : L}
      (hw : s.tasks[x]? = some w) (hph : w.phase = .vec i) (ha : s.shared.1[i]? = some a) (hb : w.priv.1[i]? = some b)
      (hc : add a b = .ok c) :
      ScopeStep step add s { s with
        tasks := s.tasks.set x { w with phase := .vec (i + 1) }, shared := (s.shared.1.set i c, s.shared.2) }
  | vecPanic {s : Scope P L} {x i : Nat} {w : Task P L} {a b : L} {e : Panic}
      (hw : s.tasks[x]? = some w) (hph : w.phase = .vec i) (ha : s.shared.1[i]? = some a) (hb : w.priv.1[i]? = some b)
      (hc : add a b = .error e) :
      ScopeStep step add s { s with
        tasks := s.tasks.set x { w with phase := .panicked }, lock := none, poisoned := true }
  | vecEnd {s : Scope P L} {x i : Nat} {w : Task P L}
      (hw : s.tasks[x]? = some w) (hph : w.phase = .vec i) (hi : s.shared.1.length ≤ i) :
      ScopeStep step add s { s with tasks := s.tasks.set x { w with phase := .acc } }
  | acc {s : Scope P L} {x : Nat} {w : Task P L} {c : L}
      (hw : s.tasks[x]? = some w) (hph : w.phase = .acc) (hc : add s.shared.2 w.priv.2 = .ok c) :
      ScopeStep step add s { s with
        tasks := s.tasks.set x { w with phase := .unlock }, shared := (s.shared.1, c) }
  | accPanic {s : Scope P L} {x : Nat} {w : Task P L} {e : Panic}
      (hw : s.tasks[x]? = some w) (hph : w.phase = .acc) (hc : add s.shared.2 w.priv.2 = .error e) :
      ScopeStep step add s { s with
        tasks := s.tasks.set x { w with phase := .panicked }, lock := none, poisoned := true }
  | unlock {s : Scope P L} {x : Nat} {w : Task P L}
      (hw : s.tasks[x]? = some w) (hph : w.phase = .unlock) :
      ScopeStep step add s { s with tasks := s.tasks.set x { w with phase := .done }, lock := none }

/-- Any number of steps. -/
inductive ScopeSteps (step : List L × L → P → Res (List L × L)) (add : L → L → Res L) : Scope P L → Scope P L → Prop
  | refl (s : Scope P L) : ScopeSteps step add s s
  | tail {s t u : Scope P L} (h : ScopeSteps step add s t) (h' : ScopeStep step add t u) : ScopeSteps step add s u

/-- The state after spawning one closure for each list of records. -/
def scopeInit (slices : List (List P)) (priv shared : List L × L) : Scope P L :=
  ⟨slices.map fun l => ⟨l, priv, .work⟩, shared, none, false⟩

/-- No task is running any more: `rayon::scope` ends. -/
def Scope.ended (s : Scope P L) : Prop := ∀ w ∈ s.tasks, w.phase = .done ∨ w.phase = .panicked

/-- `rayon::scope` ends with a panic. -/
def Scope.panics (s : Scope P L) : Prop := ∃ w ∈ s.tasks, w.phase = .panicked

/-- The critical section of one task, run without interruption. -/
def mergeR (add : L → L → Res L) (shared priv : List L × L) : Res (List L × L) := do
  let v ← mapRes (fun p : L × L => add p.1 p.2) (shared.1.zip priv.1)
  let a ← add shared.2 priv.2
  .ok (v, a)

/-- The tasks run one after the other in the given order. -/
def runInOrder (step : List L × L → P → Res (List L × L)) (add : L → L → Res L) (slices : List (List P))
    (priv shared : List L × L) (order : List Nat) : Res (List L × L) :=
  foldRes (fun st x => do
    let l ← idx slices x
    let w ← foldRes step priv l
    mergeR add st w) shared order

/-- `a[i] += v` with an addition that may panic; the index is evaluated before `v`. -/
def addAtR (add : L → L → Res L) (a : List L) (i : Nat) (v : Res L) : Res (List L) := do
  let x ← idx a i
  let y ← v
  let c ← add x y
  .ok (a.set i c)

/-- Loop body of one task (src/par_fasterpam.rs:155-166) with additions and subtractions that may panic. -/
def parFindStepR {N : Type} [RDist N] [RFrom N L] (add sub : L → L → Res L) (mat : Mat N) (j : Nat) (st : List L × L)
    (p : Rec N × Nat) : Res (List L × L) := do
  let doj ← mat.get p.2 j
  if rlt doj p.1.near.d then
    let x ← sub (RFrom.conv doj) (RFrom.conv p.1.near.d)
    let lagg ← add st.2 x
    let loss ← addAtR add st.1 p.1.near.i (sub (RFrom.conv p.1.near.d) (RFrom.conv p.1.seco.d))
    .ok (loss, lagg)
  else if rlt doj p.1.seco.d then
    let loss ← addAtR add st.1 p.1.near.i (sub (RFrom.conv doj) (RFrom.conv p.1.seco.d))
    .ok (loss, st.2)
  else .ok st

/-- Integer addition with overflow check. -/
def addChk (lo hi a b : Int) : Res Int := if lo ≤ a + b ∧ a + b ≤ hi then .ok (a + b) else .error .arith

/-- Integer subtraction with overflow check. -/
def subChk (lo hi a b : Int) : Res Int := if lo ≤ a - b ∧ a - b ≤ hi then .ok (a - b) else .error .arith

/-- The closures of `par_find_best_swap` with `parts` threads. -/
def swapScope {N L : Type} [RDist N] [RLoss L] [RFrom N L] (n parts : Nat) (removalLoss : List L) (data : List (Rec N)) :
    Scope (Rec N × Nat) L :=
  scopeInit ((List.range parts).map fun x => workerRange n parts x data)
    (List.replicate removalLoss.length RLoss.zero, RLoss.zero) (removalLoss, RLoss.zero)

end KMedoids
