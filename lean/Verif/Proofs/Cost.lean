import Verif.Model.Cost
import Verif.Proofs.Basic

/-! # The counted copy computes the same, and rules for costs -/

namespace KMedoids

section
variable {α β σ : Type}

/-- Forget the cost. -/
def Cnt.erase (x : Cnt α) : Res α := x.run.map Prod.fst

@[simp] theorem erase_pure (a : α) : (pure a : Cnt α).erase = .ok a := rfl

@[simp] theorem erase_bind (x : Cnt α) (f : α → Cnt β) :
    (x >>= f).erase = x.erase >>= fun a => (f a).erase := by
  obtain ⟨x⟩ := x
  rcases x with e | ⟨a, c⟩
  · rfl
  · show (match (f a).run with | .error e => (⟨.error e⟩ : Cnt β) | .ok (b, c') => ⟨.ok (b, c + c')⟩).erase
      = (f a).erase
    unfold Cnt.erase
    rcases (f a).run with e | ⟨b, c'⟩ <;> rfl

@[simp] theorem erase_lift (x : Res α) : (liftM x : Cnt α).erase = x := by
  rcases x with e | a <;> rfl

@[simp] theorem erase_lift' (x : Res α) : (monadLift x : Cnt α).erase = x := erase_lift x

@[simp] theorem erase_tick (c : Nat) : (Cnt.tick c).erase = .ok () := rfl

@[simp] theorem erase_ite (p : Prop) [Decidable p] (x y : Cnt α) :
    (if p then x else y).erase = if p then x.erase else y.erase := by split <;> rfl

theorem bind_congr' {x : Res α} {f g : α → Res β} (h : ∀ a, f a = g a) : (x >>= f) = (x >>= g) := by
  have : f = g := funext h
  rw [this]

theorem erase_foldC {w : Weights} {f : σ → α → Cnt σ} {g : σ → α → Res σ}
    (h : ∀ s x, (f s x).erase = g s x) (s : σ) (xs : List α) : (foldC w f s xs).erase = foldRes g s xs := by
  induction xs generalizing s with
  | nil => rfl
  | cons x xs ih =>
    show (Cnt.tick w.step >>= fun _ => f s x >>= fun s' => foldC w f s' xs).erase = _
    simp only [erase_tick, ok_bind, erase_bind, h, ih]
    rfl

theorem erase_mapC {w : Weights} {f : α → Cnt β} {g : α → Res β}
    (h : ∀ x, (f x).erase = g x) (xs : List α) : (mapC w f xs).erase = mapRes g xs := by
  induction xs with
  | nil => rfl
  | cons x xs ih =>
    show (Cnt.tick w.step >>= fun _ => f x >>= fun y => mapC w f xs >>= fun ys => pure (y :: ys)).erase = _
    simp only [erase_tick, ok_bind, erase_bind, h, ih, erase_pure]
    rfl

end

set_option linter.unusedSectionVars false
set_option linter.unusedSimpArgs false
variable {N L : Type} [RDist N] [RLoss L] [RFrom N L]
open RFrom (conv)

section Erase
variable (w : Weights) (mat : Mat N)

@[simp] theorem erase_get (x y : Nat) : ((mat.counted w).get x y).erase = mat.get x y := by
  show (Cnt.tick w.read >>= fun _ => (liftM (mat.get x y) : Cnt N)).erase = _
  simp

@[simp] theorem counted_len : (mat.counted w).len = mat.len := rfl
@[simp] theorem counted_isSquare : (mat.counted w).isSquare = mat.isSquare := rfl

@[simp] theorem erase_findMinC (l : List L) : (findMinC w l).erase = findMin l := by
  simp [findMinC]

theorem erase_assertSizesC (k : Nat) : (assertSizesC (mat.counted w) k).erase = assertSizes mat k := by
  simp only [assertSizesC, erase_bind, erase_lift, counted_isSquare, counted_len, assertSizes,
    assertSquare, bind_assoc]
  rfl

theorem erase_initAssignRecC (med : List Nat) (c i : Nat) :
    (initAssignRecC w (mat.counted w) med c i).erase = initAssignRec mat med c i := by
  simp only [initAssignRecC, initAssignRec, erase_bind, erase_get]
  refine bind_congr' fun d => erase_foldC (fun s x => ?_) _ _
  simp only [initAssignStepC, initAssignStep, erase_bind, erase_get, erase_ite, erase_pure]

theorem erase_initialAssignmentC (med : List Nat) :
    (initialAssignmentC L w (mat.counted w) med).erase = initialAssignment L mat med := by
  simp only [initialAssignmentC, initialAssignment, erase_bind, erase_assertSizesC, erase_lift, counted_len,
    erase_mapC (fun x => erase_initAssignRecC w mat med _ x), erase_pure]

theorem erase_findBestSwapC (rem : List L) (data : List (Rec N)) (j : Nat) :
    (findBestSwapC w (mat.counted w) rem data j).erase = findBestSwap mat rem data j := by
  have h : ∀ (s : List L × L) (x : Rec N × Nat),
      (findBestSwapStepC (mat.counted w) j s x).erase = findBestSwapStep mat j s x := by
    intro s x
    simp only [findBestSwapStepC, findBestSwapStep, erase_bind, erase_get, erase_ite, erase_pure, erase_lift]
  simp only [findBestSwapC, findBestSwap, erase_tick, ok_bind, erase_bind, erase_foldC h, erase_findMinC,
    erase_pure]

theorem erase_updateRemovalLossC (data : List (Rec N)) (k : Nat) :
    (updateRemovalLossC L w data k).erase = updateRemovalLoss L data k := by
  simp only [updateRemovalLossC, updateRemovalLoss, erase_bind, erase_tick, ok_bind]
  exact erase_foldC (fun s x => erase_lift _) _ _

theorem erase_updateSecondNearestC (med : List Nat) (n b o : Nat) (doj : N) :
    (updateSecondNearestC w (mat.counted w) med n b o doj).erase = updateSecondNearest mat med n b o doj := by
  refine erase_foldC (fun s x => ?_) _ _
  simp only [erase_ite, erase_pure, erase_bind, erase_get]

theorem erase_doSwapC (med : List Nat) (data : List (Rec N)) (b j : Nat) :
    (doSwapC L w (mat.counted w) med data b j).erase = doSwap L mat med data b j := by
  have h : ∀ (med : List Nat) (x : Rec N × Nat),
      (doSwapRecC (L := L) w (mat.counted w) med b j x).erase = doSwapRec mat med b j x := by
    intro med x
    simp only [doSwapRecC, doSwapRec, erase_bind, erase_get, erase_ite, erase_pure,
      erase_updateSecondNearestC]
  simp only [doSwapC, doSwap, erase_bind, erase_lift, counted_len, erase_mapC (h _), erase_pure]
  rfl

theorem erase_fpPassC (js : List Nat) (s : FPState N L) :
    (fpPassC w (mat.counted w) js s).erase = fpPass mat js s := by
  induction js generalizing s with
  | nil => rfl
  | cons j js ih =>
    simp only [fpPassC, fpPass, erase_tick, ok_bind, erase_ite, erase_pure, erase_bind, erase_lift, ih,
      erase_findBestSwapC, erase_doSwapC, erase_updateRemovalLossC]

theorem erase_fpLoopC (seq : List Nat) (fuel iter : Nat) (s : FPState N L) :
    (fpLoopC w (mat.counted w) seq fuel iter s).erase = fpLoop mat seq fuel iter s := by
  induction fuel generalizing s iter with
  | zero => rfl
  | succ fuel ih =>
    simp only [fpLoopC, fpLoop, erase_tick, ok_bind, erase_bind, erase_fpPassC, erase_ite, erase_pure, ih]

theorem erase_partitionSumC (assi : List Nat) (m c : Nat) :
    (partitionSumC L w (mat.counted w) assi m c).erase = partitionSum L mat assi m c := by
  refine erase_foldC (fun s x => ?_) _ _
  simp only [erase_ite, erase_pure, erase_bind, erase_get]

theorem erase_chooseC (assi med : List Nat) (m : Nat) :
    (chooseMedoidWithinPartitionC L w (mat.counted w) assi med m).erase =
      chooseMedoidWithinPartition L mat assi med m := by
  have h : ∀ (first : Nat) (s : Nat × L) (x : Nat × Nat),
      (chooseMedoidStepC w (mat.counted w) assi m first s x).erase =
        chooseMedoidStep mat assi m first s x := by
    intro first s x
    simp only [chooseMedoidStepC, chooseMedoidStep, erase_ite, erase_pure, erase_bind, erase_partitionSumC]
  simp only [chooseMedoidWithinPartitionC, chooseMedoidWithinPartition, erase_bind, erase_lift,
    erase_partitionSumC, erase_foldC (h _), erase_pure]

theorem erase_singleClusterC (med : List Nat) :
    (singleClusterC L w (mat.counted w) med).erase = singleCluster L mat med := by
  simp only [singleClusterC, singleCluster, erase_tick, ok_bind, erase_bind, erase_chooseC, erase_pure,
    counted_len]

theorem erase_randFasterpamC (med : List Nat) (maxiter : Nat) (seq : List Nat) :
    (randFasterpamC L w (mat.counted w) med maxiter seq).erase = randFasterpam L mat med maxiter seq := by
  simp only [randFasterpamC, randFasterpam, erase_ite, erase_singleClusterC, erase_bind,
    erase_initialAssignmentC, erase_updateRemovalLossC, erase_fpLoopC, erase_pure, counted_len,
    erase_tick, ok_bind]

theorem erase_fasterpamC (med : List Nat) (maxiter : Nat) :
    (fasterpamC L w (mat.counted w) med maxiter).erase = fasterpam L mat med maxiter := by
  simp only [fasterpamC, fasterpam, erase_ite, erase_singleClusterC, erase_bind,
    erase_initialAssignmentC, erase_updateRemovalLossC, erase_fpLoopC, erase_pure, counted_len,
    erase_tick, ok_bind]

theorem erase_fastpam1LoopC (k fuel iter : Nat) (s : PState N L) :
    (fastpam1LoopC w (mat.counted w) k fuel iter s).erase = fastpam1Loop mat k fuel iter s := by
  induction fuel generalizing s iter with
  | zero => rfl
  | succ fuel ih =>
    have h : ∀ (rem : List L) (b : L × Nat × Nat) (j : Nat),
        (fastpam1ScanStepC w (mat.counted w) s.med s.data rem b j).erase =
          fastpam1ScanStep mat s.med s.data rem b j := by
      intro rem b j
      simp only [fastpam1ScanStepC, fastpam1ScanStep, erase_bind, erase_lift, erase_ite, erase_pure,
        erase_findBestSwapC]
    simp only [fastpam1LoopC, fastpam1Loop, erase_tick, ok_bind, erase_bind, erase_updateRemovalLossC,
      erase_foldC (h _), counted_len, erase_ite, erase_pure, erase_doSwapC, ih]

theorem erase_fastpam1C (med : List Nat) (maxiter : Nat) :
    (fastpam1C L w (mat.counted w) med maxiter).erase = fastpam1 L mat med maxiter := by
  simp only [fastpam1C, fastpam1, erase_ite, erase_singleClusterC, erase_bind,
    erase_initialAssignmentC, erase_fastpam1LoopC, erase_pure, erase_tick, ok_bind]

theorem erase_findBestSwapPamC (med : List Nat) (data : List (Rec N)) (j : Nat) :
    (findBestSwapPamC L w (mat.counted w) med data j).erase = findBestSwapPam L mat med data j := by
  have h : ∀ (m : Nat) (s : L) (x : Rec N × Nat),
      (findBestSwapPamStepC (mat.counted w) m j s x).erase = findBestSwapPamStep mat m j s x := by
    intro m s x
    simp only [findBestSwapPamStepC, findBestSwapPamStep, erase_bind, erase_get, erase_ite, erase_pure]
  simp only [findBestSwapPamC, findBestSwapPam, erase_bind, erase_lift]
  refine bind_congr' fun recj => erase_foldC (fun s x => ?_) _ _
  simp only [erase_bind, erase_foldC (h _), erase_pure]

theorem erase_pamLoopC (k fuel iter : Nat) (s : PState N L) :
    (pamLoopC w (mat.counted w) k fuel iter s).erase = pamLoop mat k fuel iter s := by
  induction fuel generalizing s iter with
  | zero => rfl
  | succ fuel ih =>
    have h : ∀ (b : L × Nat × Nat) (j : Nat),
        (pamScanStepC w (mat.counted w) s.med s.data b j).erase = pamScanStep mat s.med s.data b j := by
      intro b j
      simp only [pamScanStepC, pamScanStep, erase_bind, erase_lift, erase_ite, erase_pure,
        erase_findBestSwapPamC]
    simp only [pamLoopC, pamLoop, erase_tick, ok_bind, erase_bind, erase_foldC h, counted_len, erase_ite,
      erase_pure, erase_doSwapC, ih]

theorem erase_pamOptimizeC (med : List Nat) (data : List (Rec N)) (maxiter : Nat) (loss : L) :
    (pamOptimizeC w (mat.counted w) med data maxiter loss).erase = pamOptimize mat med data maxiter loss := by
  simp only [pamOptimizeC, pamOptimize, erase_ite, erase_singleClusterC, erase_bind, erase_pamLoopC,
    erase_pure, erase_tick, ok_bind]

theorem erase_pamSwapC (med : List Nat) (maxiter : Nat) :
    (pamSwapC L w (mat.counted w) med maxiter).erase = pamSwap L mat med maxiter := by
  simp only [pamSwapC, pamSwap, erase_bind, erase_initialAssignmentC, erase_pamOptimizeC]

theorem erase_pamBuildInitializeC (k : Nat) :
    (pamBuildInitializeC L w (mat.counted w) k).erase = pamBuildInitialize L mat k := by
  have h1 : ∀ i, (buildFirstSumC L w (mat.counted w) i).erase = buildFirstSum L mat i := by
    intro i
    refine erase_foldC (fun s x => ?_) _ _
    simp only [erase_ite, erase_pure, erase_bind, erase_get]
  have h2 : (buildFirstC L w (mat.counted w) k).erase = buildFirst L mat k := by
    refine erase_foldC (fun s x => ?_) _ _
    simp only [erase_pure, erase_bind, h1]
  have h3 : ∀ near i, (buildSumC L w (mat.counted w) near i).erase = buildSum L mat near i := by
    intro near i
    simp only [buildSumC, buildSum, erase_bind, erase_lift]
    refine bind_congr' fun di => erase_foldC (fun s x => ?_) _ _
    simp only [erase_ite, erase_pure, erase_bind, erase_get]
  have h4 : ∀ near, (buildNextC L w (mat.counted w) near k).erase = buildNext L mat near k := by
    intro near
    refine erase_foldC (fun s x => ?_) _ _
    simp only [erase_pure, erase_bind, h3]
  have h5 : ∀ l c x, (buildUpdateRecC (mat.counted w) l c x).erase = buildUpdateRec mat l c x := by
    intro l c x
    simp only [buildUpdateRecC, buildUpdateRec, erase_ite, erase_pure, erase_bind, erase_get]
  have h6 : ∀ ls meds data (loss : L),
      (buildLoopC w (mat.counted w) k ls meds data loss).erase = buildLoop mat k ls meds data loss := by
    intro ls
    induction ls with
    | nil => intros; rfl
    | cons l ls ih =>
      intro meds data loss
      simp only [buildLoopC, buildLoop, erase_tick, ok_bind, erase_bind, h4, erase_ite, erase_pure,
        erase_mapC (h5 _ _), ih]
  simp only [pamBuildInitializeC, pamBuildInitialize, assertSquare, erase_bind, erase_lift, bind_assoc,
    counted_isSquare, counted_len, h2, h6]
  refine bind_congr' fun s => bind_congr' fun _ => bind_congr' fun best => ?_
  rw [erase_mapC (g := fun j => do
    let d ← mat.get j best.2
    .ok (⟨⟨0, d⟩, ⟨u32Max, RDist.zero⟩⟩ : Rec N))]
  intro x
  simp only [erase_bind, erase_get, erase_pure]

theorem erase_pamBuildC (k : Nat) : (pamBuildC L w (mat.counted w) k).erase = pamBuild L mat k := by
  simp only [pamBuildC, pamBuild, erase_bind, erase_assertSizesC, erase_pamBuildInitializeC, erase_tick, ok_bind,
    erase_pure]

theorem erase_pamC (k maxiter : Nat) : (pamC L w (mat.counted w) k maxiter).erase = pam L mat k maxiter := by
  simp only [pamC, pam, erase_bind, erase_assertSizesC, erase_pamBuildInitializeC, erase_pamOptimizeC]

theorem erase_assignNearestC (med : List Nat) :
    (assignNearestC L w (mat.counted w) med).erase = assignNearest L mat med := by
  have h : ∀ c i, (assignNearestRecC w (mat.counted w) med c i).erase = assignNearestRec mat med c i := by
    intro c i
    simp only [assignNearestRecC, assignNearestRec, erase_bind, erase_get]
    refine bind_congr' fun d => erase_foldC (fun s x => ?_) _ _
    simp only [erase_bind, erase_get, erase_pure]
  simp only [assignNearestC, assignNearest, erase_bind, erase_assertSizesC, erase_lift, counted_len,
    erase_mapC (h _), erase_pure]

theorem erase_alternatingC (med : List Nat) (maxiter : Nat) :
    (alternatingC L w (mat.counted w) med maxiter).erase = alternating L mat med maxiter := by
  have h1 : ∀ assi med, (alternatingUpdateC L w (mat.counted w) assi med).erase =
      alternatingUpdate L mat assi med := by
    intro assi med
    refine erase_foldC (fun s x => ?_) _ _
    simp only [erase_bind, erase_chooseC, erase_pure]
  have h2 : ∀ fuel iter (loss : L) assi med,
      (alternatingLoopC w (mat.counted w) fuel iter loss assi med).erase =
        alternatingLoop mat fuel iter loss assi med := by
    intro fuel
    induction fuel with
    | zero => intros; rfl
    | succ fuel ih =>
      intro iter loss assi med
      simp only [alternatingLoopC, alternatingLoop, erase_tick, ok_bind, erase_bind, h1, erase_ite, erase_pure,
        erase_assignNearestC, ih]
  simp only [alternatingC, alternating, erase_bind, erase_assignNearestC, h2]

end Erase

end KMedoids
