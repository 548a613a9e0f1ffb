import Verif.Examples
import Verif.Proofs.ParMutex
import Verif.Props.C04_C05_C10

/-!
# C17: parallel FasterPAM equals the sequential one

Exact loss arithmetic, zero diagonal, no negative distances, distinct initial medoids. `scF i j` resolves
the scheduling freedom (number of threads, order of merging) of the search for object `j` in iteration `i`,
`scS i j` and `sc0` the reduction trees of the swap and of the initial assignment.
-/

set_option linter.unusedSectionVars false

namespace KMedoids

open RFrom (conv)

section exact

variable {N L : Type} [LinearOrder N] [Zero N] [RDist N] [LawfulDist N]
variable [AddCommGroup L] [LinearOrder L] [IsOrderedAddMonoid L] [RLoss L] [LawfulLoss L]
variable [RFrom N L] [LawfulFrom N L]

/-- **C17.** For every schedule `par_fasterpam` returns in all components what `rand_fasterpam` returns for
the same shuffle, and it returns. -/
theorem C17_par_fasterpam (sc0 : Sched) {scF scS : Nat → Nat → Sched} (hF : ∀ i j, (scF i j).Ok)
    {mat : Mat N} {n : Nat} {d : Nat → Nat → N} (hm : IsMatrix mat n d) (hd : Dissim n d)
    {med : List Nat} (hv : ValidMeds n med) (hnd : med.Nodup) (maxiter : Nat) {seq : List Nat}
    (hseq : ∀ j ∈ seq, j < n) :
    parFasterpam L sc0 scF scS mat med maxiter seq = randFasterpam L mat med maxiter seq ∧
    ∃ r, parFasterpam L sc0 scF scS mat med maxiter seq = .ok r ∧
      WellFormed n med.length r.med r.assi := by
  have h := (parFasterpam_eq (L := L) sc0 (scS := scS) hF hm hd hv hnd maxiter hseq).trans
    (randFasterpam_eq hm hv maxiter hseq).symm
  refine ⟨h, ?_⟩
  rw [h]
  exact C04_rand_fasterpam hm hv maxiter hseq

/-- **C17, worker threads.** Whatever the interleaving of the worker threads, when all of them are done the
result of `par_find_best_swap` is the one of `find_best_swap`. -/
theorem C17_pool_result {mat : Mat N} {n : Nat} {d : Nat → Nat → N} (hm : IsMatrix mat n d)
    {rem : List L} {data : List (Rec N)} {j parts : Nat} (hj : j < n) (hp : 1 ≤ parts)
    (hl : data.length = n) (hk : 1 ≤ rem.length)
    (hidx : ∀ r ∈ data, r.near.i < rem.length ∧ r.seco.i < rem.length) {s : PoolState N L}
    (hs : PoolSteps mat j (poolInit mat parts rem data) s) (hf : s.finished) :
    (findMin s.shared.1).bind (fun r => .ok (RLoss.add r.2 s.shared.2, r.1)) =
      findBestSwap mat rem data j := by
  obtain ⟨order, ho⟩ := pool_reachable hm hj hl hidx hs
  obtain ⟨h1, h2⟩ := ho.final hf
  rw [(findBestSwap_eq hm hj hl hk hidx).1,
    ← parFindBestSwap_eq (sc := ⟨parts, order, .leaf⟩) ⟨hp, h1⟩ hm hj hl hk hidx]
  have hfold : foldRes (fun (st : List L × L) (x : Nat) => do
      let w ← parWorker L mat rem.length data j parts x
      .ok (parMerge st w)) (rem, RLoss.zero) order = .ok s.shared := by
    rw [h2]
    refine foldRes_eq' (fun s x _ => ?_) _
    simp only [parWorker_eq hm hj hl hidx, ok_bind]
  simp only [parFindBestSwap, hfold, ok_bind]
  rfl

/-- Six objects, three workers that merge in the order 2, 0, 1, a nontrivial reduction tree. -/
example : IsMatrix exMat 6 exD ∧ Dissim 6 exD ∧ ValidMeds 6 [0, 1, 2] ∧ [0, 1, 2].Nodup ∧
    (⟨3, [2, 0, 1], .node 2 (.node 1 .leaf .leaf) .leaf⟩ : Sched).Ok ∧
    parFasterpam ℤ ⟨3, [2, 0, 1], .node 2 (.node 1 .leaf .leaf) .leaf⟩
      (fun _ _ => ⟨3, [2, 0, 1], .node 2 (.node 1 .leaf .leaf) .leaf⟩)
      (fun _ _ => ⟨4, [2, 3, 0, 1], .node 4 (.node 1 .leaf .leaf) .leaf⟩) exMat [0, 1, 2] 9
      [5, 3, 1, 0, 2, 4] = .ok ⟨2, [1, 1, 1, 2, 2, 0], 2, 2, [5, 1, 3]⟩ :=
  ⟨exMat_isMatrix, exD_dissim, ex_valid (by decide) (by decide) (by decide), by decide,
    ⟨by decide, by decide⟩, by decide +kernel⟩

end exact

section any

variable {N L : Type} [RDist N] [RLoss L] [RFrom N L]

/-- **C17, threads, any arithmetic.** Every interleaving corresponds to one of the schedules over which
`C17_par_fasterpam` quantifies: when all workers are done, they were merged once each, in some order. -/
theorem C17_pool_refines {mat : Mat N} {n : Nat} {d : Nat → Nat → N} (hm : IsMatrix mat n d)
    {rem : List L} {data : List (Rec N)} {j parts : Nat} (hj : j < n) (hp : 1 ≤ parts)
    (hl : data.length = n)
    (hidx : ∀ r ∈ data, r.near.i < rem.length ∧ r.seco.i < rem.length) {s : PoolState N L}
    (hs : PoolSteps mat j (poolInit mat parts rem data) s) (hf : s.finished) :
    ∃ sc : Sched, sc.Ok ∧ sc.parts = parts ∧ parFindBestSwap sc mat rem data j =
      (findMin s.shared.1).bind (fun r => .ok (RLoss.add r.2 s.shared.2, r.1)) := by
  obtain ⟨order, ho⟩ := pool_reachable hm hj hl hidx hs
  obtain ⟨h1, h2⟩ := ho.final hf
  refine ⟨⟨parts, order, .leaf⟩, ⟨hp, h1⟩, rfl, ?_⟩
  have hfold : foldRes (fun (st : List L × L) (x : Nat) => do
      let w ← parWorker L mat rem.length data j parts x
      .ok (parMerge st w)) (rem, RLoss.zero) order = .ok s.shared := by
    rw [h2]
    refine foldRes_eq' (fun s x _ => ?_) _
    simp only [parWorker_eq hm hj hl hidx, ok_bind]
  simp only [parFindBestSwap, hfold, ok_bind]
  rfl

/-- **C17, threads: no deadlock, no livelock.** From every reachable state the workers can reach a state in
which all are done, and every step decreases the remaining work, so every run gets there. -/
theorem C17_pool_completes {mat : Mat N} {n : Nat} {d : Nat → Nat → N} (hm : IsMatrix mat n d)
    {rem : List L} {data : List (Rec N)} {j parts : Nat} (hj : j < n)
    (hl : data.length = n)
    (hidx : ∀ r ∈ data, r.near.i < rem.length ∧ r.seco.i < rem.length) {s : PoolState N L}
    (hs : PoolSteps mat j (poolInit mat parts rem data) s) :
    (∀ t, PoolStep mat j s t → t.work < s.work) ∧
    (¬ s.finished → ∃ t, PoolStep mat j s t) ∧
    ∃ t, PoolSteps mat j s t ∧ t.finished := by
  have hprog : ∀ {s : PoolState N L}, PoolSteps mat j (poolInit mat parts rem data) s →
      ¬ s.finished → ∃ t, PoolStep mat j s t := by
    intro s hs
    obtain ⟨order, ho⟩ := pool_reachable hm hj hl hidx hs
    exact ho.progress (fun st p h1 h2 => parFindStep_eq hm hj h1 h2)
  refine ⟨fun t h => h.decreases, hprog hs, ?_⟩
  have key : ∀ m (s u : PoolState N L), s.work ≤ m → PoolSteps mat j (poolInit mat parts rem data) s →
      PoolSteps mat j u s → ∃ t, PoolSteps mat j u t ∧ t.finished := by
    intro m
    induction m with
    | zero =>
      intro s u hm0 hs hu
      by_cases hfin : s.finished
      · exact ⟨s, hu, hfin⟩
      · obtain ⟨t, ht⟩ := hprog hs hfin
        have := ht.decreases; omega
    | succ m ih =>
      intro s u hm0 hs hu
      by_cases hfin : s.finished
      · exact ⟨s, hu, hfin⟩
      · obtain ⟨t, ht⟩ := hprog hs hfin
        have := ht.decreases
        exact ih t u (by omega) (hs.tail ht) (hu.tail ht)
  exact key s.work s s le_rfl hs (.refl s)

/-- A pool of three workers on six objects can be started. -/
example : IsMatrix exMat 6 exD ∧ (6 : Nat) = (initDataP exD 6 [0, 1, 2]).length ∧
    (∀ r ∈ initDataP exD 6 [0, 1, 2], r.near.i < 3 ∧ r.seco.i < 3) ∧
    (poolInit exMat 3 ([5, 6, 7] : List ℤ) (initDataP exD 6 [0, 1, 2])).workers.length = 3 ∧
    ¬ (poolInit exMat 3 ([5, 6, 7] : List ℤ) (initDataP exD 6 [0, 1, 2])).finished :=
  ⟨exMat_isMatrix, by decide +kernel, by decide +kernel, by decide +kernel, fun h => by
    have := h _ (List.mem_cons_self ..)
    cases this⟩

end any

end KMedoids
