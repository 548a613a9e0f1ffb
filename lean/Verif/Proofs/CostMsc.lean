import Verif.Model.CostMsc
import Verif.Proofs.Cost

/-! # The counted copy of the silhouette family computes the same -/

namespace KMedoids

set_option linter.unusedSectionVars false
set_option linter.unusedSimpArgs false
variable {N L : Type} [RDist N] [RLoss L] [RFrom N L]
open RFrom (conv)

variable (w : Weights) (mat : Mat N)

@[simp] theorem erase_findMaxC (l : List L) : (findMaxC w l).erase = findMax l := by
  simp [findMaxC]

theorem erase_mscInitialAssignmentC (med : List Nat) :
    (mscInitialAssignmentC L w (mat.counted w) med).erase = mscInitialAssignment L mat med := by
  have h : ∀ c i, (mscInitRecC w (mat.counted w) med c i).erase = mscInitRec mat med c i := by
    intro c i
    simp only [mscInitRecC, mscInitRec, erase_bind, erase_get]
    refine bind_congr' fun d => erase_foldC (fun s x => ?_) _ _
    simp only [mscInitStepC, mscInitStep, erase_bind, erase_get, erase_ite, erase_pure]
  simp only [mscInitialAssignmentC, mscInitialAssignment, erase_bind, erase_assertSizesC, erase_lift, counted_len,
    erase_mapC (h _), erase_pure]

theorem erase_mscFindBestSwapC (rem : List L) (data : List (Reco N)) (j : Nat) :
    (mscFindBestSwapC w (mat.counted w) rem data j).erase = mscFindBestSwap mat rem data j := by
  have h : ∀ (s : List L × L) (x : Reco N × Nat),
      (mscFindStepC (mat.counted w) j s x).erase = mscFindStep mat j s x := by
    intro s x
    simp only [mscFindStepC, mscFindStep, erase_bind, erase_get, erase_ite, erase_pure, erase_lift]
  simp only [mscFindBestSwapC, mscFindBestSwap, erase_tick, ok_bind, erase_bind, erase_foldC h, erase_findMaxC,
    erase_pure]

theorem erase_mscUpdateRemovalLossC (data : List (Reco N)) (k : Nat) :
    (mscUpdateRemovalLossC L w data k).erase = mscUpdateRemovalLoss L data k := by
  simp only [mscUpdateRemovalLossC, mscUpdateRemovalLoss, erase_bind, erase_tick, ok_bind]
  refine erase_foldC (fun s x => ?_) _ _
  simp only [erase_bind, erase_lift]

theorem erase_updateThirdNearestC (med : List Nat) (n s b o : Nat) (doj : N) :
    (updateThirdNearestC w (mat.counted w) med n s b o doj).erase = updateThirdNearest mat med n s b o doj := by
  refine erase_foldC (fun s x => ?_) _ _
  simp only [erase_ite, erase_pure, erase_bind, erase_get]

theorem erase_mscDoSwapC (med : List Nat) (data : List (Reco N)) (b j : Nat) :
    (mscDoSwapC L w (mat.counted w) med data b j).erase = mscDoSwap L mat med data b j := by
  have h : ∀ (med : List Nat) (x : Reco N × Nat),
      (mscSwapRecC L w (mat.counted w) med b j x).erase = mscSwapRec L mat med b j x := by
    intro med x
    simp only [mscSwapRecC, mscSwapRec, erase_bind, erase_get, erase_ite, erase_pure,
      erase_updateThirdNearestC]
  simp only [mscDoSwapC, mscDoSwap, erase_bind, erase_lift, counted_len, erase_mapC (h _), erase_pure]
  rfl

theorem erase_mscPassC (js : List Nat) (s : MSCState N L) :
    (mscPassC w (mat.counted w) js s).erase = mscPass mat js s := by
  induction js generalizing s with
  | nil => rfl
  | cons j js ih =>
    simp only [mscPassC, mscPass, erase_tick, ok_bind, erase_ite, erase_pure, erase_bind, erase_lift, ih,
      erase_mscFindBestSwapC, erase_mscDoSwapC, erase_mscUpdateRemovalLossC]

theorem erase_mscLoopC (fuel iter : Nat) (s : MSCState N L) :
    (mscLoopC w (mat.counted w) fuel iter s).erase = mscLoop mat fuel iter s := by
  induction fuel generalizing s iter with
  | zero => rfl
  | succ fuel ih =>
    simp only [mscLoopC, mscLoop, erase_tick, ok_bind, erase_bind, erase_mscPassC, erase_ite, erase_pure, ih,
      counted_len]

theorem erase_k2InitialAssignmentC (med : List Nat) :
    (k2InitialAssignmentC L w (mat.counted w) med).erase = k2InitialAssignment L mat med := by
  have h : ∀ i, (k2InitRecC L (mat.counted w) med i).erase = k2InitRec L mat med i := by
    intro i
    simp only [k2InitRecC, k2InitRec, erase_bind, erase_get, erase_lift, erase_ite, erase_pure]
  simp only [k2InitialAssignmentC, k2InitialAssignment, assertSquare, bind_assoc, erase_bind, erase_lift,
    counted_len, counted_isSquare, erase_mapC h, erase_pure]
  rfl

theorem erase_k2FindBestSwapC (data : List (N × N)) (j : Nat) :
    (k2FindBestSwapC L w (mat.counted w) data j).erase = k2FindBestSwap L mat data j := by
  have h : ∀ (s : L × L) (x : (N × N) × Nat),
      (k2FindStepC (mat.counted w) j s x).erase = k2FindStep mat j s x := by
    intro s x
    simp only [k2FindStepC, k2FindStep, erase_bind, erase_get, erase_pure]
  simp only [k2FindBestSwapC, k2FindBestSwap, erase_bind, erase_foldC h, erase_findMinC, erase_pure]

theorem erase_k2DoSwapC (med assi : List Nat) (data : List (N × N)) (b j : Nat) :
    (k2DoSwapC L w (mat.counted w) med assi data b j).erase = k2DoSwap L mat med assi data b j := by
  have h : ∀ (x : (Nat × (N × N)) × Nat),
      (k2SwapRecC L (mat.counted w) b j x).erase = k2SwapRec L mat b j x := by
    intro x
    simp only [k2SwapRecC, k2SwapRec, erase_bind, erase_get, erase_ite, erase_pure]
  simp only [k2DoSwapC, k2DoSwap, erase_bind, erase_lift, counted_len, erase_mapC h, erase_pure]
  rfl

theorem erase_k2PassC (js : List Nat) (s : K2State N L) :
    (k2PassC w (mat.counted w) js s).erase = k2Pass mat js s := by
  induction js generalizing s with
  | nil => rfl
  | cons j js ih =>
    simp only [k2PassC, k2Pass, erase_tick, ok_bind, erase_ite, erase_pure, erase_bind, erase_lift, ih,
      erase_k2FindBestSwapC, erase_k2DoSwapC]

theorem erase_k2LoopC (fuel iter : Nat) (s : K2State N L) :
    (k2LoopC w (mat.counted w) fuel iter s).erase = k2Loop mat fuel iter s := by
  induction fuel generalizing s iter with
  | zero => rfl
  | succ fuel ih =>
    simp only [k2LoopC, k2Loop, erase_tick, ok_bind, erase_bind, erase_k2PassC, erase_ite, erase_pure, ih,
      counted_len]

theorem erase_fastermscK2C (med : List Nat) (maxiter : Nat) :
    (fastermscK2C L w (mat.counted w) med maxiter).erase = fastermscK2 L mat med maxiter := by
  simp only [fastermscK2C, fastermscK2, erase_bind, erase_lift, erase_k2InitialAssignmentC, erase_k2LoopC,
    counted_len, erase_pure]

theorem erase_fastermscC (med : List Nat) (maxiter : Nat) :
    (fastermscC L w (mat.counted w) med maxiter).erase = fastermsc L mat med maxiter := by
  simp only [fastermscC, fastermsc, erase_ite, erase_singleClusterC, erase_fastermscK2C, erase_bind,
    erase_mscInitialAssignmentC, erase_mscUpdateRemovalLossC, erase_mscLoopC, erase_pure, counted_len,
    erase_tick, ok_bind]

theorem erase_fastmscLoopC (k fuel iter : Nat) (s : MPState N L) :
    (fastmscLoopC w (mat.counted w) k fuel iter s).erase = fastmscLoop mat k fuel iter s := by
  induction fuel generalizing s iter with
  | zero => rfl
  | succ fuel ih =>
    have h : ∀ (rem : List L) (b : L × Nat × Nat) (j : Nat),
        (fastmscScanStepC w (mat.counted w) s.med s.data rem b j).erase =
          fastmscScanStep mat s.med s.data rem b j := by
      intro rem b j
      simp only [fastmscScanStepC, fastmscScanStep, erase_bind, erase_lift, erase_ite, erase_pure,
        erase_mscFindBestSwapC]
    simp only [fastmscLoopC, fastmscLoop, erase_tick, ok_bind, erase_bind, erase_mscUpdateRemovalLossC,
      erase_foldC (h _), counted_len, erase_ite, erase_pure, erase_mscDoSwapC, ih]

theorem erase_fastmscK2LoopC (k fuel iter : Nat) (s : K2State N L) :
    (fastmscK2LoopC w (mat.counted w) k fuel iter s).erase = fastmscK2Loop mat k fuel iter s := by
  induction fuel generalizing s iter with
  | zero => rfl
  | succ fuel ih =>
    have h : ∀ (b : L × Nat × Nat) (j : Nat),
        (fastmscK2ScanStepC w (mat.counted w) s.med s.assi s.data b j).erase =
          fastmscK2ScanStep mat s.med s.assi s.data b j := by
      intro b j
      simp only [fastmscK2ScanStepC, fastmscK2ScanStep, erase_bind, erase_lift, erase_ite, erase_pure,
        erase_k2FindBestSwapC]
    simp only [fastmscK2LoopC, fastmscK2Loop, erase_tick, ok_bind, erase_bind,
      erase_foldC h, counted_len, erase_ite, erase_pure, erase_k2DoSwapC, ih]

theorem erase_fastmscC (med : List Nat) (maxiter : Nat) :
    (fastmscC L w (mat.counted w) med maxiter).erase = fastmsc L mat med maxiter := by
  simp only [fastmscC, fastmsc, fastmscK2C, fastmscK2, erase_ite, erase_singleClusterC, erase_bind, erase_lift,
    erase_k2InitialAssignmentC, erase_fastmscK2LoopC,
    erase_mscInitialAssignmentC, erase_fastmscLoopC, erase_pure, erase_tick, ok_bind, counted_len]

theorem erase_pmsFindBestSwapC {stepC : CMat N → Nat → Nat → L → Reco N × Nat → Cnt L}
    {step : Mat N → Nat → Nat → L → Reco N × Nat → Res L}
    (h : ∀ m j s x, (stepC (mat.counted w) m j s x).erase = step mat m j s x)
    (med : List Nat) (data : List (Reco N)) (j : Nat) :
    (pmsFindBestSwapC L w stepC (mat.counted w) med data j).erase = pmsFindBestSwap L step mat med data j := by
  simp only [pmsFindBestSwapC, pmsFindBestSwap, erase_bind, erase_lift]
  refine bind_congr' fun recj => erase_foldC (fun s x => ?_) _ _
  simp only [erase_bind, erase_foldC (h _ _), erase_pure]

theorem erase_pmsStepC (m j : Nat) (s : L) (x : Reco N × Nat) :
    (pmsStepC (mat.counted w) m j s x).erase = pmsStep mat m j s x := by
  simp only [pmsStepC, pmsStep, erase_bind, erase_get, erase_ite, erase_pure]

theorem erase_pmsStepK2C (m j : Nat) (s : L) (x : Reco N × Nat) :
    (pmsStepK2C (mat.counted w) m j s x).erase = pmsStepK2 mat m j s x := by
  simp only [pmsStepK2C, pmsStepK2, erase_bind, erase_get, erase_ite, erase_pure]

theorem erase_pmsLoopC (k fuel iter : Nat) (s : MPState N L) :
    (pmsLoopC w (mat.counted w) k fuel iter s).erase = pmsLoop mat k fuel iter s := by
  induction fuel generalizing s iter with
  | zero => rfl
  | succ fuel ih =>
    have h : ∀ (b : L × Nat × Nat) (j : Nat),
        (pmsScanStepC w (mat.counted w) k s.med s.data b j).erase = pmsScanStep mat k s.med s.data b j := by
      intro b j
      simp only [pmsScanStepC, pmsScanStep, erase_bind, erase_lift, erase_ite, erase_pure,
        erase_pmsFindBestSwapC w mat (erase_pmsStepC w mat), erase_pmsFindBestSwapC w mat (erase_pmsStepK2C w mat)]
    simp only [pmsLoopC, pmsLoop, erase_tick, ok_bind, erase_bind, erase_foldC h, counted_len, erase_ite,
      erase_pure, erase_mscDoSwapC, ih]

theorem erase_pammedsilOptimizeC (med : List Nat) (data : List (Reco N)) (maxiter : Nat) (loss : L) :
    (pammedsilOptimizeC w (mat.counted w) med data maxiter loss).erase =
      pammedsilOptimize mat med data maxiter loss := by
  simp only [pammedsilOptimizeC, pammedsilOptimize, erase_ite, erase_singleClusterC, erase_bind, erase_pmsLoopC,
    erase_pure, erase_tick, ok_bind, counted_len]

theorem erase_pammedsilSwapC (med : List Nat) (maxiter : Nat) :
    (pammedsilSwapC L w (mat.counted w) med maxiter).erase = pammedsilSwap L mat med maxiter := by
  simp only [pammedsilSwapC, pammedsilSwap, erase_bind, erase_mscInitialAssignmentC, erase_pammedsilOptimizeC]

theorem erase_buildFirstC (k : Nat) : (buildFirstC L w (mat.counted w) k).erase = buildFirst L mat k := by
  have h1 : ∀ i, (buildFirstSumC L w (mat.counted w) i).erase = buildFirstSum L mat i := by
    intro i
    refine erase_foldC (fun s x => ?_) _ _
    simp only [erase_ite, erase_pure, erase_bind, erase_get]
  refine erase_foldC (fun s x => ?_) _ _
  simp only [erase_pure, erase_bind, h1]

theorem erase_buildSumC (near : List N) (i : Nat) :
    (buildSumC L w (mat.counted w) near i).erase = buildSum L mat near i := by
  simp only [buildSumC, buildSum, erase_bind, erase_lift]
  refine bind_congr' fun di => erase_foldC (fun s x => ?_) _ _
  simp only [erase_ite, erase_pure, erase_bind, erase_get]

theorem erase_pammedsilBuildInitializeC (k : Nat) :
    (pammedsilBuildInitializeC L w (mat.counted w) k).erase = pammedsilBuildInitialize L mat k := by
  have h4 : ∀ near, (pmsBuildNextC L w (mat.counted w) near k).erase = pmsBuildNext L mat near k := by
    intro near
    refine erase_foldC (fun s x => ?_) _ _
    simp only [erase_pure, erase_bind, erase_buildSumC]
  have h5 : ∀ l c x, (pmsBuildUpdateRecC (mat.counted w) l c x).erase = pmsBuildUpdateRec mat l c x := by
    intro l c x
    simp only [pmsBuildUpdateRecC, pmsBuildUpdateRec, erase_ite, erase_pure, erase_bind, erase_get]
  have h6 : ∀ ls meds data (loss : L),
      (pmsBuildLoopC w (mat.counted w) k ls meds data loss).erase = pmsBuildLoop mat k ls meds data loss := by
    intro ls
    induction ls with
    | nil => intros; rfl
    | cons l ls ih =>
      intro meds data loss
      simp only [pmsBuildLoopC, pmsBuildLoop, erase_tick, ok_bind, erase_bind, h4, erase_ite, erase_pure,
        erase_mapC (h5 _ _), ih]
  simp only [pammedsilBuildInitializeC, pammedsilBuildInitialize, erase_bind, erase_buildFirstC, h6, counted_len]
  refine bind_congr' fun best => ?_
  rw [erase_mapC (g := fun j => do
    let d ← mat.get j best.2
    .ok (⟨⟨0, d⟩, ⟨u32Max, RDist.zero⟩, ⟨u32Max, RDist.zero⟩⟩ : Reco N))]
  intro x
  simp only [erase_bind, erase_get, erase_pure]

theorem erase_pammedsilC (k maxiter : Nat) :
    (pammedsilC L w (mat.counted w) k maxiter).erase = pammedsil L mat k maxiter := by
  simp only [pammedsilC, pammedsil, erase_bind, erase_assertSizesC, erase_pammedsilBuildInitializeC,
    erase_pammedsilOptimizeC]

theorem erase_removeMedC (med : List Nat) (data : List (Reco N)) (b : Nat) :
    (removeMedC L w (mat.counted w) med data b).erase = removeMed L mat med data b := by
  have h1 : ∀ med n s o, (updateThirdNearestWithoutNewC w (mat.counted w) med n s b o).erase =
      updateThirdNearestWithoutNew mat med n s b o := by
    intro med n s o
    refine erase_foldC (fun s x => ?_) _ _
    simp only [erase_ite, erase_pure, erase_bind, erase_get]
  have h2 : ∀ med l x, (removeMedRecC L w (mat.counted w) med l b x).erase = removeMedRec L mat med l b x := by
    intro med l x
    simp only [removeMedRecC, removeMedRec, erase_ite, erase_pure, erase_bind, h1]
  simp only [removeMedC, removeMed, erase_ite, erase_bind, erase_lift, erase_mapC (h2 _ _), erase_pure]

theorem erase_dynLoopC (maxiter minK fuel : Nat) (s : DynState N L) :
    (dynLoopC w (mat.counted w) maxiter minK fuel s).erase = dynLoop mat maxiter minK fuel s := by
  have h : ∀ s : DynState N L, (dynRoundC w (mat.counted w) maxiter minK s).erase = dynRound mat maxiter minK s := by
    intro s
    simp only [dynRoundC, dynRound, erase_ite, erase_bind, erase_lift, erase_mscUpdateRemovalLossC,
      erase_mscLoopC, erase_tick, ok_bind, erase_removeMedC, erase_pure, counted_len]
    rfl
  induction fuel generalizing s with
  | zero => rfl
  | succ fuel ih =>
    simp only [dynLoopC, dynLoop, erase_tick, ok_bind, erase_bind, erase_ite, erase_pure, ih, h]

theorem erase_dynmscC (med : List Nat) (mink maxiter : Nat) :
    (dynmscC L w (mat.counted w) med mink maxiter).erase = dynmsc L mat med mink maxiter := by
  simp only [dynmscC, dynmsc, dynFinishC, dynFinish, erase_ite, erase_bind, erase_lift, erase_chooseC, erase_tick,
    ok_bind, erase_mscInitialAssignmentC, erase_dynLoopC, erase_fastermscK2C, erase_pure, counted_len]

theorem erase_silhouetteC (assi : List Nat) (samples : Bool) :
    (silhouetteC L w (mat.counted w) assi samples).erase = silhouette L mat assi samples := by
  have h1 : ∀ i, (silBufC L w (mat.counted w) assi i).erase = silBuf L mat assi i := by
    intro i
    refine erase_foldC (fun s x => ?_) _ _
    simp only [silBufStepC, silBufStep, erase_ite, erase_pure, erase_bind, erase_get, erase_tick, ok_bind, erase_lift]
  have h2 : ∀ ps (l : L) sil, (silGoC w (mat.counted w) assi samples ps l sil).erase =
      silGo mat assi samples ps l sil := by
    intro ps
    induction ps with
    | nil =>
      intro l sil
      simp only [silGoC, silGo, erase_ite, erase_pure, erase_bind, erase_lift]
    | cons p ps ih =>
      intro l sil
      simp only [silGoC, silGo, erase_ite, erase_pure, erase_bind, erase_lift, erase_tick, ok_bind, h1, ih]
  simp only [silhouetteC, silhouette, assertSquare, bind_assoc, erase_bind, erase_lift, erase_tick, ok_bind, h2,
    counted_isSquare]

theorem erase_medoidSilhouetteC (meds : List Nat) (samples : Bool) :
    (medoidSilhouetteC L w (mat.counted w) meds samples).erase = medoidSilhouette L mat meds samples := by
  have h1 : ∀ i, (twoNearestC w (mat.counted w) meds i).erase = twoNearest mat meds i := by
    intro i
    simp only [twoNearestC, twoNearest, erase_bind, erase_lift, erase_get]
    refine bind_congr' fun _ => bind_congr' fun _ => bind_congr' fun _ => bind_congr' fun _ =>
      erase_foldC (fun s x => ?_) _ _
    simp only [erase_bind, erase_get, erase_pure]
  have h2 : ∀ (s : L × List L) i, (medoidSilStepC w (mat.counted w) meds samples s i).erase =
      medoidSilStep mat meds samples s i := by
    intro s i
    simp only [medoidSilStepC, medoidSilStep, erase_bind, erase_lift, erase_ite, erase_pure, h1]
  simp only [medoidSilhouetteC, medoidSilhouette, assertSquare, bind_assoc, erase_bind, erase_lift, erase_tick,
    ok_bind, erase_ite, erase_pure, counted_isSquare, counted_len, erase_foldC h2]
  rfl

theorem erase_pamsilLoopC (k fuel iter : Nat) (sil : L) (med assi : List Nat) (nSwaps : Nat) :
    (pamsilLoopC w (mat.counted w) k fuel iter sil med assi nSwaps).erase =
      pamsilLoop mat k fuel iter sil med assi nSwaps := by
  have h1 : ∀ m medm (st : PSScan L) j, (pamsilScanStepC w (mat.counted w) m medm st j).erase =
      pamsilScanStep mat m medm st j := by
    intro m medm st j
    simp only [pamsilScanStepC, pamsilScanStep, erase_bind, erase_lift, erase_ite, erase_pure,
      erase_assignNearestC, erase_silhouetteC]
  have h2 : ∀ (st : PSScan L) m, (pamsilScanMedC w (mat.counted w) st m).erase = pamsilScanMed mat st m := by
    intro st m
    simp only [pamsilScanMedC, pamsilScanMed, erase_bind, erase_lift, erase_pure, erase_foldC (h1 _ _),
      counted_len]
  induction fuel generalizing iter sil med assi nSwaps with
  | zero => rfl
  | succ fuel ih =>
    simp only [pamsilLoopC, pamsilLoop, erase_bind, erase_lift, erase_pure, erase_ite, erase_tick, ok_bind,
      erase_foldC h2, ih]

theorem erase_pamsilOptimizeC (med assi : List Nat) (maxiter : Nat) :
    (pamsilOptimizeC L w (mat.counted w) med assi maxiter).erase = pamsilOptimize L mat med assi maxiter := by
  simp only [pamsilOptimizeC, pamsilOptimize, erase_ite, erase_bind, erase_chooseC, erase_silhouetteC,
    erase_pamsilLoopC, erase_assignNearestC, erase_pure]

theorem erase_pamsilSwapC (med : List Nat) (maxiter : Nat) :
    (pamsilSwapC L w (mat.counted w) med maxiter).erase = pamsilSwap L mat med maxiter := by
  simp only [pamsilSwapC, pamsilSwap, erase_bind, erase_assignNearestC, erase_pamsilOptimizeC]

theorem erase_pamsilC (k maxiter : Nat) :
    (pamsilC L w (mat.counted w) k maxiter).erase = pamsil L mat k maxiter := by
  have h1 : ∀ near, (buildNextC L w (mat.counted w) near k).erase = buildNext L mat near k := by
    intro near
    refine erase_foldC (fun s x => ?_) _ _
    simp only [erase_pure, erase_bind, erase_buildSumC]
  have h2 : ∀ c x, (psBuildUpdateC (mat.counted w) c x).erase = psBuildUpdate mat c x := by
    intro c x
    simp only [psBuildUpdateC, psBuildUpdate, erase_ite, erase_pure, erase_bind, erase_get]
  have h3 : ∀ fuel meds near, (psBuildLoopC L w (mat.counted w) k fuel meds near).erase =
      psBuildLoop L mat k fuel meds near := by
    intro fuel
    induction fuel with
    | zero => intros; rfl
    | succ fuel ih =>
      intro meds near
      simp only [psBuildLoopC, psBuildLoop, erase_tick, ok_bind, erase_bind, h1, erase_lift,
        erase_mapC (h2 _), ih]
  simp only [pamsilC, pamsil, pamsilBuildInitializeC, pamsilBuildInitialize, erase_bind, erase_assertSizesC,
    erase_buildFirstC, erase_mapC (fun x => erase_get w mat x _), h3, erase_tick, ok_bind, counted_len,
    erase_pamsilOptimizeC]

end KMedoids
