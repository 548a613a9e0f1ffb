import Verif.Model.Checked
import Verif.Proofs.Hom
import Verif.Proofs.PureFasterPam

/-! # The model with overflow checks agrees with the other one, if no operation panics -/

set_option linter.unusedSectionVars false

namespace KMedoids

open RFrom (conv)

variable {N L : Type} [RDist N] [RLoss L] [RFrom N L]

attribute [local instance] KLoss.ofRLoss

theorem erase_zero : (KLoss.zero : L) = RLoss.zero := rfl

theorem foldRes_pure {σ α : Type} (step : σ → α → σ) (s : σ) (xs : List α) :
    foldRes (fun s x => .ok (step s x)) s xs = .ok (xs.foldl step s) := by
  induction xs generalizing s with
  | nil => rfl
  | cons x xs ih => exact ih _

theorem erase_reduceAdd (xs : List L) : reduceAddK xs = .ok (reduceAdd xs) := by
  cases xs with
  | nil => rfl
  | cons x xs =>
    have := foldRes_pure (RLoss.add : L → L → L) x xs
    show (foldRes (fun s x => .ok (RLoss.add s x)) x xs >>= _) = _
    rw [this]; rfl

theorem erase_reduceTree (t : RTree) (xs : List L) : reduceTreeK t xs = .ok (reduceTree t xs) := by
  induction t generalizing xs with
  | leaf => exact erase_reduceAdd xs
  | node s l r ihl ihr =>
    simp only [reduceTreeK, reduceTree, ihl, ihr, ok_bind]
    cases reduceTree l (xs.take s) <;> cases reduceTree r (xs.drop s) <;> rfl

theorem erase_addAt (a : List L) (i : Nat) (v : L) : addAtK a i v = addAt a i v := rfl

theorem erase_partitionSum (mat : Mat N) (assi : List Nat) (m c : Nat) :
    partitionSumK L mat assi m c = partitionSum L mat assi m c := rfl

theorem erase_chooseMedoid (mat : Mat N) (assi med : List Nat) (m : Nat) :
    chooseMedoidWithinPartitionK L mat assi med m = chooseMedoidWithinPartition L mat assi med m := rfl

theorem erase_singleCluster (mat : Mat N) (med : List Nat) : singleClusterK L mat med = singleCluster L mat med := rfl

theorem erase_initialAssignment (mat : Mat N) (med : List Nat) : initialAssignmentK L mat med = initialAssignment L mat med := by
  simp only [initialAssignmentK, initialAssignment, erase_reduceAdd, ok_bind]

theorem erase_findBestSwap (mat : Mat N) (rem : List L) (data : List (Rec N)) (j : Nat) :
    findBestSwapK mat rem data j = findBestSwap mat rem data j := rfl

theorem erase_updateRemovalLoss (data : List (Rec N)) (k : Nat) : updateRemovalLossK L data k = updateRemovalLoss L data k := rfl

theorem erase_doSwap (mat : Mat N) (med : List Nat) (data : List (Rec N)) (b j : Nat) :
    doSwapK L mat med data b j = doSwap L mat med data b j := by
  simp only [doSwapK, doSwap, erase_reduceAdd, ok_bind]
  rfl

theorem erase_fpPass (mat : Mat N) (js : List Nat) (s : FPState N L) : fpPassK mat js s = fpPass mat js s := by
  induction js generalizing s with
  | nil => rfl
  | cons j js ih => simp only [fpPassK, fpPass, ih, erase_zero, erase_findBestSwap, erase_doSwap, erase_updateRemovalLoss]

theorem erase_fpLoop (mat : Mat N) (seq : List Nat) (fuel iter : Nat) (s : FPState N L) :
    fpLoopK mat seq fuel iter s = fpLoop mat seq fuel iter s := by
  induction fuel generalizing iter s with
  | zero => rfl
  | succ fuel ih => simp only [fpLoopK, fpLoop, ih, erase_fpPass]

/-- `rand_fasterpam` -/
theorem erase_randFasterpam (mat : Mat N) (med : List Nat) (maxiter : Nat) (seq : List Nat) :
    randFasterpamK L mat med maxiter seq = randFasterpam L mat med maxiter seq := by
  simp only [randFasterpamK, randFasterpam, erase_initialAssignment, erase_updateRemovalLoss, erase_fpLoop, erase_singleCluster]

/-- `fasterpam` -/
theorem erase_fasterpam (mat : Mat N) (med : List Nat) (maxiter : Nat) :
    fasterpamK L mat med maxiter = fasterpam L mat med maxiter := by
  simp only [fasterpamK, fasterpam, erase_initialAssignment, erase_updateRemovalLoss, erase_fpLoop, erase_singleCluster]

theorem erase_findBestSwapPam (mat : Mat N) (med : List Nat) (data : List (Rec N)) (j : Nat) :
    findBestSwapPamK L mat med data j = findBestSwapPam L mat med data j := rfl

theorem erase_pamScanStep (mat : Mat N) (med : List Nat) (data : List (Rec N)) :
    pamScanStepK (L := L) mat med data = pamScanStep mat med data := rfl

theorem erase_pamLoop (mat : Mat N) (k fuel iter : Nat) (s : PState N L) :
    pamLoopK mat k fuel iter s = pamLoop mat k fuel iter s := by
  induction fuel generalizing iter s with
  | zero => rfl
  | succ fuel ih => simp only [pamLoopK, pamLoop, ih, erase_zero, erase_pamScanStep, erase_doSwap]

theorem erase_pamOptimize (mat : Mat N) (med : List Nat) (data : List (Rec N)) (maxiter : Nat) (loss : L) :
    pamOptimizeK mat med data maxiter loss = pamOptimize mat med data maxiter loss := by
  simp only [pamOptimizeK, pamOptimize, erase_pamLoop, erase_singleCluster]

/-- `pam_swap` -/
theorem erase_pamSwap (mat : Mat N) (med : List Nat) (maxiter : Nat) : pamSwapK L mat med maxiter = pamSwap L mat med maxiter := by
  simp only [pamSwapK, pamSwap, erase_initialAssignment, erase_pamOptimize]

theorem erase_buildNext (mat : Mat N) (near : List N) (k : Nat) : buildNextK L mat near k = buildNext L mat near k := by
  have : ∀ i, buildSumK L mat near i = buildSum L mat near i := fun i => by
    show (idx near i >>= fun di => foldRes (buildSumStepK mat i) (RLoss.neg (conv di) : L) near.zipIdx) = _
    unfold buildSum
    refine rbind_congr fun di => ?_
    congr 1
    funext sum p
    unfold buildSumStepK
    by_cases h : p.2 ≠ i
    · rw [if_pos h, if_pos h]
      refine rbind_congr fun d => ?_
      split <;> rfl
    · rw [if_neg h, if_neg h]
  simp only [buildNextK, buildNext, this, erase_zero]

theorem erase_buildLoss (c : Nat) (data : List (Rec N)) : buildLossK L c data = .ok (buildLoss L c data) := by
  unfold buildLossK buildLoss
  rw [← foldRes_pure]
  congr 1
  funext loss p
  split <;> rfl

theorem erase_buildLoop (mat : Mat N) (k : Nat) (ls meds : List Nat) (data : List (Rec N)) (loss : L) :
    buildLoopK mat k ls meds data loss = buildLoop mat k ls meds data loss := by
  induction ls generalizing meds data loss with
  | nil => rfl
  | cons l ls ih => simp only [buildLoopK, buildLoop, ih, erase_zero, erase_buildNext, erase_buildLoss, ok_bind]

theorem erase_buildFirst (mat : Mat N) (k : Nat) : buildFirstK L mat k = buildFirst L mat k := rfl

theorem erase_pamBuildInitialize (mat : Mat N) (k : Nat) : pamBuildInitializeK L mat k = pamBuildInitialize L mat k := by
  simp only [pamBuildInitializeK, pamBuildInitialize, erase_buildLoop, erase_buildFirst]

/-- `pam_build` -/
theorem erase_pamBuild (mat : Mat N) (k : Nat) : pamBuildK L mat k = pamBuild L mat k := by
  simp only [pamBuildK, pamBuild, erase_pamBuildInitialize]

/-- `pam` -/
theorem erase_pam (mat : Mat N) (k maxiter : Nat) : pamK L mat k maxiter = pam L mat k maxiter := by
  simp only [pamK, pam, erase_pamBuildInitialize, erase_pamOptimize]

theorem erase_fastpam1ScanStep (mat : Mat N) (med : List Nat) (data : List (Rec N)) (rem : List L) :
    fastpam1ScanStepK mat med data rem = fastpam1ScanStep mat med data rem := rfl

theorem erase_fastpam1Loop (mat : Mat N) (k fuel iter : Nat) (s : PState N L) :
    fastpam1LoopK mat k fuel iter s = fastpam1Loop mat k fuel iter s := by
  induction fuel generalizing iter s with
  | zero => rfl
  | succ fuel ih =>
    simp only [fastpam1LoopK, fastpam1Loop, ih, erase_zero, erase_fastpam1ScanStep, erase_doSwap, erase_updateRemovalLoss]

/-- `fastpam1` -/
theorem erase_fastpam1 (mat : Mat N) (med : List Nat) (maxiter : Nat) :
    fastpam1K L mat med maxiter = fastpam1 L mat med maxiter := by
  simp only [fastpam1K, fastpam1, erase_initialAssignment, erase_fastpam1Loop, erase_singleCluster]

theorem erase_assignNearest (mat : Mat N) (med : List Nat) : assignNearestK L mat med = assignNearest L mat med := by
  simp only [assignNearestK, assignNearest, erase_reduceAdd, erase_zero, ok_bind]

theorem erase_alternatingUpdate (mat : Mat N) (assi med : List Nat) :
    alternatingUpdateK L mat assi med = alternatingUpdate L mat assi med := rfl

theorem erase_alternatingLoop (mat : Mat N) (fuel iter : Nat) (loss : L) (assi med : List Nat) :
    alternatingLoopK mat fuel iter loss assi med = alternatingLoop mat fuel iter loss assi med := by
  induction fuel generalizing iter loss assi med with
  | zero => rfl
  | succ fuel ih => simp only [alternatingLoopK, alternatingLoop, ih, erase_alternatingUpdate, erase_assignNearest]

/-- `alternating` -/
theorem erase_alternating (mat : Mat N) (med : List Nat) (maxiter : Nat) :
    alternatingK L mat med maxiter = alternating L mat med maxiter := by
  simp only [alternatingK, alternating, erase_assignNearest, erase_alternatingLoop]

theorem erase_parInitialAssignment (sc : Sched) (mat : Mat N) (med : List Nat) :
    parInitialAssignmentK L sc mat med = parInitialAssignment L sc mat med := by
  simp only [parInitialAssignmentK, parInitialAssignment, erase_reduceTree, ok_bind]

theorem erase_zipAdd (xs ys : List L) : zipAddK xs ys = .ok (List.zipWith RLoss.add xs ys) := by
  induction xs generalizing ys with
  | nil => rfl
  | cons x xs ih =>
    cases ys with
    | nil => rfl
    | cons y ys =>
      show (zipAddK xs ys >>= _) = _
      rw [ih]; rfl

theorem erase_parMerge (a b : List L × L) : parMergeK a b = .ok (parMerge a b) := by
  unfold parMergeK
  rw [erase_zipAdd]; rfl

theorem erase_parFindBestSwap (sc : Sched) (mat : Mat N) (rem : List L) (data : List (Rec N)) (j : Nat) :
    parFindBestSwapK sc mat rem data j = parFindBestSwap sc mat rem data j := by
  simp only [parFindBestSwapK, parFindBestSwap, erase_parMerge]
  rfl

theorem erase_parDoSwap (sc : Sched) (mat : Mat N) (med : List Nat) (data : List (Rec N)) (b j : Nat) :
    parDoSwapK L sc mat med data b j = parDoSwap L sc mat med data b j := by
  simp only [parDoSwapK, parDoSwap, erase_reduceTree, ok_bind]
  rfl

theorem erase_parPass (scF scS : Nat → Sched) (mat : Mat N) (js : List Nat) (s : FPState N L) :
    parPassK scF scS mat js s = parPass scF scS mat js s := by
  induction js generalizing s with
  | nil => rfl
  | cons j js ih => simp only [parPassK, parPass, ih, erase_zero, erase_parFindBestSwap, erase_parDoSwap, erase_updateRemovalLoss]

theorem erase_parLoop (scF scS : Nat → Nat → Sched) (mat : Mat N) (seq : List Nat) (fuel iter : Nat) (s : FPState N L) :
    parLoopK scF scS mat seq fuel iter s = parLoop scF scS mat seq fuel iter s := by
  induction fuel generalizing iter s with
  | zero => rfl
  | succ fuel ih => simp only [parLoopK, parLoop, ih, erase_parPass]

/-- `par_fasterpam` -/
theorem erase_parFasterpam (sc0 : Sched) (scF scS : Nat → Nat → Sched) (mat : Mat N) (med : List Nat) (maxiter : Nat)
    (seq : List Nat) : parFasterpamK L sc0 scF scS mat med maxiter seq = parFasterpam L sc0 scF scS mat med maxiter seq := by
  simp only [parFasterpamK, parFasterpam, erase_parInitialAssignment, erase_updateRemovalLoss, erase_parLoop, erase_singleCluster]

end KMedoids
