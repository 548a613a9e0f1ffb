import Verif.Model.FastPam1
import Verif.Model.Alternating
import Verif.Model.ParFasterPam

/-! # Changing the number types

The PAM family commutes with maps of the number types that respect the operations used. Proved on the model
itself, for arbitrary arguments, panics included. -/

set_option linter.unusedSectionVars false

namespace KMedoids

open RFrom (conv)

/-! ## plumbing -/

section plumbing
variable {α β γ δ σ τ : Type}

/-- apply a function to the value of a computation -/
def rmap (F : α → β) : Res α → Res β
  | .ok a => .ok (F a)
  | .error e => .error e

@[simp] theorem rmap_ok (F : α → β) (a : α) : rmap F (.ok a) = .ok (F a) := rfl
@[simp] theorem rmap_error (F : α → β) (e : Panic) : rmap F (.error e) = .error e := rfl

theorem rmap_bind (F : β → γ) (x : Res α) (k : α → Res β) :
    rmap F (x >>= k) = x >>= fun a => rmap F (k a) := by cases x <;> rfl

theorem bind_rmap (F : α → β) (x : Res α) (k : β → Res γ) :
    rmap F x >>= k = x >>= fun a => k (F a) := by cases x <;> rfl

theorem rok_bind (a : α) (k : α → Res β) : ((.ok a : Res α) >>= k) = k a := rfl

theorem rbind_congr {x : Res α} {k k' : α → Res β} (h : ∀ a, k a = k' a) : x >>= k = x >>= k' := by
  rw [funext h]

theorem rmap_ite {c : Prop} [Decidable c] (F : α → β) (x y : Res α) :
    rmap F (if c then x else y) = if c then rmap F x else rmap F y := by split <;> rfl

theorem foldRes_hom (F : σ → τ) (G : α → β) {step : σ → α → Res σ} {step' : τ → β → Res τ}
    (h : ∀ s x, step' (F s) (G x) = rmap F (step s x)) (s : σ) (xs : List α) :
    foldRes step' (F s) (xs.map G) = rmap F (foldRes step s xs) := by
  induction xs generalizing s with
  | nil => rfl
  | cons x xs ih =>
    simp only [List.map_cons, foldRes, h, bind_rmap, rmap_bind]
    exact rbind_congr fun a => ih a

theorem foldRes_hom' (F : σ → τ) {step : σ → α → Res σ} {step' : τ → α → Res τ}
    (h : ∀ s x, step' (F s) x = rmap F (step s x)) (s : σ) (xs : List α) :
    foldRes step' (F s) xs = rmap F (foldRes step s xs) := by
  have := foldRes_hom F id (step := step) (step' := step') h s xs
  rwa [List.map_id] at this

theorem mapRes_hom (F : γ → δ) (G : α → β) {step : α → Res γ} {step' : β → Res δ}
    (h : ∀ x, step' (G x) = rmap F (step x)) (xs : List α) :
    mapRes step' (xs.map G) = rmap (List.map F) (mapRes step xs) := by
  induction xs with
  | nil => rfl
  | cons x xs ih =>
    simp only [List.map_cons, mapRes, h, bind_rmap, rmap_bind, ih, rmap_ok]

theorem mapRes_hom' (F : γ → δ) {step : α → Res γ} {step' : α → Res δ}
    (h : ∀ x, step' x = rmap F (step x)) (xs : List α) :
    mapRes step' xs = rmap (List.map F) (mapRes step xs) := by
  have := mapRes_hom F id (step := step) (step' := step') h xs
  rwa [List.map_id] at this

theorem idx_hom (F : α → β) (l : List α) (i : Nat) : idx (l.map F) i = rmap F (idx l i) := by
  simp only [idx, List.getElem?_map]
  cases l[i]? <;> rfl

theorem setIdx_hom (F : α → β) (l : List α) (i : Nat) (v : α) :
    setIdx (l.map F) i (F v) = rmap (List.map F) (setIdx l i v) := by
  simp only [setIdx, List.length_map]
  split <;> simp [List.map_set]

theorem unwrapOpt_hom (F : α → β) (o : Option α) : unwrapOpt (o.map F) = rmap F (unwrapOpt o) := by
  cases o <;> rfl

theorem zipIdx_hom (F : α → β) (l : List α) : (l.map F).zipIdx = l.zipIdx.map (Prod.map F id) :=
  List.zipIdx_map ..

end plumbing

/-! ## maps of number types -/

/-- The matrix with all distances replaced. -/
def Mat.map {N N' : Type} (f : N → N') (mat : Mat N) : Mat N' where
  len := mat.len
  isSquare := mat.isSquare
  get x y := rmap f (mat.get x y)

/-- map the distance of a pair -/
def DistancePair.map {N N' : Type} (f : N → N') (p : DistancePair N) : DistancePair N' := ⟨p.i, f p.d⟩

/-- map the distances of a record -/
def Rec.map {N N' : Type} (f : N → N') (r : Rec N) : Rec N' := ⟨r.near.map f, r.seco.map f⟩

/-- map the loss of a result -/
def SwapResult.map {L L' : Type} (g : L → L') (r : SwapResult L) : SwapResult L' :=
  ⟨g r.loss, r.assi, r.nIter, r.nSwap, r.med⟩

/-- map the loss of a result -/
def BuildResult.map {L L' : Type} (g : L → L') (r : BuildResult L) : BuildResult L' :=
  ⟨g r.loss, r.assi, r.med⟩

/-- map the loss of a result -/
def AltResult.map {L L' : Type} (g : L → L') (r : AltResult L) : AltResult L' :=
  ⟨g r.loss, r.assi, r.nIter, r.med⟩

/-- Maps of distances and losses that respect comparisons, zero, addition, subtraction, negation and the
conversion. Multiplication and division are not used by the PAM family. -/
structure NumHom {N N' L L' : Type} [RDist N] [RDist N'] [RLoss L] [RLoss L'] [RFrom N L] [RFrom N' L']
    (f : N → N') (g : L → L') : Prop where
  distCmp : ∀ x y, pcmp (f x) (f y) = pcmp x y
  distZero : f RDist.zero = RDist.zero
  lossCmp : ∀ x y, pcmp (g x) (g y) = pcmp x y
  lossZero : g RLoss.zero = RLoss.zero
  lossAdd : ∀ x y, g (RLoss.add x y) = RLoss.add (g x) (g y)
  lossSub : ∀ x y, g (RLoss.sub x y) = RLoss.sub (g x) (g y)
  lossNeg : ∀ x, g (RLoss.neg x) = RLoss.neg (g x)
  lossConv : ∀ x, g (conv x) = conv (f x)

variable {N N' L L' : Type} [RDist N] [RDist N'] [RLoss L] [RLoss L'] [RFrom N L] [RFrom N' L']
variable {f : N → N'} {g : L → L'}

namespace NumHom

theorem dlt (H : NumHom f g) (x y : N) : rlt (f x) (f y) = rlt x y := by simp only [rlt, H.distCmp]
theorem llt (H : NumHom f g) (x y : L) : rlt (g x) (g y) = rlt x y := by simp only [rlt, H.lossCmp]
theorem lge (H : NumHom f g) (x y : L) : rge (g x) (g y) = rge x y := by simp only [rge, H.lossCmp]
theorem llt0 (H : NumHom f g) (x : L) : rlt (g x) RLoss.zero = rlt x RLoss.zero := by
  rw [← H.lossZero, H.llt]
theorem lge0 (H : NumHom f g) (x : L) : rge (g x) RLoss.zero = rge x RLoss.zero := by
  rw [← H.lossZero, H.lge]

theorem foldl_add (H : NumHom f g) (xs : List L) (a : L) :
    (xs.map g).foldl RLoss.add (g a) = g (xs.foldl RLoss.add a) := by
  induction xs generalizing a with
  | nil => rfl
  | cons x xs ih => simp only [List.map_cons, List.foldl_cons, ← H.lossAdd, ih]

theorem reduceAdd_hom (H : NumHom f g) (xs : List L) : reduceAdd (xs.map g) = (reduceAdd xs).map g := by
  cases xs with
  | nil => rfl
  | cons x xs => simp only [List.map_cons, reduceAdd, H.foldl_add, Option.map_some]

theorem addAt_hom (H : NumHom f g) (l : List L) (i : Nat) (v : L) :
    addAt (l.map g) i (g v) = rmap (List.map g) (addAt l i v) := by
  simp only [addAt, idx_hom, bind_rmap, rmap_bind]
  exact rbind_congr fun a => by simp [← H.lossAdd, List.map_set]

theorem findMinGo_hom (H : NumHom f g) (xs : List L) (i : Nat) (b : Nat × L) :
    findMinGo (xs.map g) i (Prod.map id g b) = Prod.map id g (findMinGo xs i b) := by
  induction xs generalizing i b with
  | nil => rfl
  | cons x xs ih =>
    simp only [List.map_cons, findMinGo, ← ih, Prod.map_snd, H.llt]
    congr 1
    split <;> rfl

theorem findMin_hom (H : NumHom f g) (xs : List L) :
    findMin (xs.map g) = rmap (Prod.map id g) (findMin xs) := by
  cases xs with
  | nil => rfl
  | cons x xs => exact congrArg Except.ok (H.findMinGo_hom xs 1 (0, x))

/-! ## util -/

theorem partitionSum_hom (H : NumHom f g) (mat : Mat N) (assi : List Nat) (m c : Nat) :
    partitionSum L' (mat.map f) assi m c = rmap g (partitionSum L mat assi m c) := by
  unfold partitionSum
  rw [← H.lossZero]
  refine foldRes_hom' g (fun s p => ?_) _ _
  simp only [rmap_ite, rmap_bind, Mat.map, bind_rmap, rmap_ok, H.lossAdd, H.lossConv]

theorem chooseMedoid_hom (H : NumHom f g) (mat : Mat N) (assi med : List Nat) (m : Nat) :
    chooseMedoidWithinPartition L' (mat.map f) assi med m =
      rmap (Prod.map (Prod.map id g) id) (chooseMedoidWithinPartition L mat assi med m) := by
  have hfold : ∀ (first : Nat) (s : Nat × L),
      foldRes (chooseMedoidStep (mat.map f) assi m first) (Prod.map id g s) assi.zipIdx =
        rmap (Prod.map id g) (foldRes (chooseMedoidStep mat assi m first) s assi.zipIdx) := by
    intro first s
    refine foldRes_hom' _ (fun s p => ?_) _ _
    unfold chooseMedoidStep
    simp only [rmap_ite, rmap_bind, H.partitionSum_hom, bind_rmap, rmap_ok, Prod.map_snd, H.llt]
    congr 1
    refine rbind_congr fun a => congrArg Except.ok ?_
    split <;> rfl
  unfold chooseMedoidWithinPartition
  simp only [rmap_bind, H.partitionSum_hom, bind_rmap]
  refine rbind_congr fun first => rbind_congr fun sumb => ?_
  have := hfold first (first, sumb)
  simp only [Prod.map_apply, id_eq] at this
  simp only [this, bind_rmap, Prod.map_fst, Prod.map_snd, id_eq]
  rfl

theorem singleCluster_hom (H : NumHom f g) (mat : Mat N) (med : List Nat) :
    singleCluster L' (mat.map f) med = rmap (SwapResult.map g) (singleCluster L mat med) := by
  have := H.chooseMedoid_hom mat (List.replicate mat.len 0) med 0
  unfold singleCluster
  simp only [Mat.map] at this ⊢
  simp only [this, rmap_bind, bind_rmap]
  rfl

theorem assertSizes_hom (_ : NumHom f g) (mat : Mat N) (k : Nat) :
    assertSizes (mat.map f) k = assertSizes mat k := rfl

/-! ## FasterPAM -/

theorem initAssignRec_hom (H : NumHom f g) (mat : Mat N) (med : List Nat) (c i : Nat) :
    initAssignRec (mat.map f) med c i = rmap (Rec.map f) (initAssignRec mat med c i) := by
  unfold initAssignRec
  simp only [Mat.map, bind_rmap, rmap_bind]
  refine rbind_congr fun d => ?_
  have : (⟨⟨0, f d⟩, ⟨u32Max, RDist.zero⟩⟩ : Rec N') = Rec.map f ⟨⟨0, d⟩, ⟨u32Max, RDist.zero⟩⟩ := by
    simp [Rec.map, DistancePair.map, H.distZero]
  rw [this]
  refine foldRes_hom' _ (fun s p => ?_) _ _
  unfold initAssignStep
  simp only [bind_rmap, rmap_bind, rmap_ite, rmap_ok]
  refine rbind_congr fun x => ?_
  simp only [Rec.map, DistancePair.map, H.dlt]

theorem initialAssignment_hom (H : NumHom f g) (mat : Mat N) (med : List Nat) :
    initialAssignment L' (mat.map f) med =
      rmap (Prod.map g (List.map (Rec.map f))) (initialAssignment L mat med) := by
  unfold initialAssignment
  simp only [H.assertSizes_hom, rmap_bind]
  refine rbind_congr fun _ => rbind_congr fun c => ?_
  have := mapRes_hom' (Rec.map f) (H.initAssignRec_hom mat med c) (List.range mat.len)
  rw [show (mat.map f).len = mat.len from rfl]
  simp only [this, bind_rmap]
  refine rbind_congr fun data => ?_
  have : (data.map (Rec.map f)).map (fun r => (conv r.near.d : L')) =
      (data.map fun r => (conv r.near.d : L)).map g := by
    simp [Rec.map, DistancePair.map, H.lossConv]
  simp only [this, H.reduceAdd_hom, unwrapOpt_hom, bind_rmap, rmap_ok]
  rfl

theorem findBestSwap_hom (H : NumHom f g) (mat : Mat N) (rem : List L) (data : List (Rec N)) (j : Nat) :
    findBestSwap (mat.map f) (rem.map g) (data.map (Rec.map f)) j =
      rmap (Prod.map g id) (findBestSwap mat rem data j) := by
  have hstep := foldRes_hom (Prod.map (List.map g) g) (Prod.map (Rec.map f) (id : Nat → Nat))
    (step := findBestSwapStep (L := L) mat j) (step' := findBestSwapStep (L := L') (mat.map f) j)
    (fun s p => by
      unfold findBestSwapStep
      simp only [Mat.map, bind_rmap, rmap_bind, rmap_ite, rmap_ok, Rec.map, DistancePair.map,
        Prod.map_fst, Prod.map_snd, id_eq]
      refine rbind_congr fun x => ?_
      simp only [H.dlt, ← H.lossConv, ← H.lossSub, ← H.lossAdd, H.addAt_hom, bind_rmap]
      rfl) (rem, RLoss.zero) data.zipIdx
  unfold findBestSwap
  simp only [Prod.map_apply, H.lossZero] at hstep
  simp only [zipIdx_hom, hstep, bind_rmap, rmap_bind, H.findMin_hom, Prod.map_fst, Prod.map_snd, rmap_ok,
    Prod.map_apply, H.lossAdd]

theorem updateRemovalLoss_hom (H : NumHom f g) (data : List (Rec N)) (k : Nat) :
    updateRemovalLoss L' (data.map (Rec.map f)) k = rmap (List.map g) (updateRemovalLoss L data k) := by
  unfold updateRemovalLoss
  rw [show List.replicate k (RLoss.zero : L') = (List.replicate k (RLoss.zero : L)).map g by
    simp [H.lossZero]]
  refine foldRes_hom _ _ (fun s r => ?_) _ _
  simp only [Rec.map, DistancePair.map, ← H.lossConv, ← H.lossSub, H.addAt_hom]

theorem updateSecondNearest_hom (H : NumHom f g) (mat : Mat N) (med : List Nat) (nn b o : Nat) (x : N) :
    updateSecondNearest (mat.map f) med nn b o (f x) =
      rmap (DistancePair.map f) (updateSecondNearest mat med nn b o x) := by
  unfold updateSecondNearest
  refine foldRes_hom' (DistancePair.map f) (fun s p => ?_) (.new b x) _
  simp only [Mat.map, bind_rmap, rmap_bind, rmap_ite, rmap_ok]
  congr 1
  refine rbind_congr fun y => congrArg Except.ok ?_
  simp only [DistancePair.map, H.dlt, DistancePair.new]
  split <;> rfl

theorem doSwapRec_hom (H : NumHom f g) (mat : Mat N) (med : List Nat) (b j : Nat) (p : Rec N × Nat) :
    doSwapRec (mat.map f) med b j (Prod.map (Rec.map f) id p) =
      rmap (Prod.map (Rec.map f) g) (doSwapRec mat med b j p) := by
  unfold doSwapRec
  simp only [Prod.map_snd, Prod.map_fst, id_eq, rmap_ite]
  by_cases hj : p.2 = j
  · simp only [hj, if_true, rmap_ok, Prod.map_apply, H.lossZero]
    congr 2
    by_cases hb : p.1.near.i = asU32 b <;>
      simp [hb, Rec.map, DistancePair.map, DistancePair.new, H.distZero]
  · simp only [hj, if_false, Mat.map, bind_rmap, rmap_bind]
    refine rbind_congr fun x => ?_
    have hu : ∀ nn, updateSecondNearest (N := N') ⟨mat.len, mat.isSquare, fun x y => rmap f (mat.get x y)⟩
        med nn b p.2 (f x) = rmap (DistancePair.map f) (updateSecondNearest mat med nn b p.2 x) :=
      fun nn => H.updateSecondNearest_hom mat med nn b p.2 x
    simp only [Rec.map, DistancePair.map, H.dlt, hu, bind_rmap, DistancePair.new, rmap_ite, rmap_bind,
      rok_bind, rmap_ok, H.lossConv, Prod.map_apply]

theorem doSwap_hom (H : NumHom f g) (mat : Mat N) (med : List Nat) (data : List (Rec N)) (b j : Nat) :
    doSwap L' (mat.map f) med (data.map (Rec.map f)) b j =
      rmap (Prod.map g (Prod.map id (List.map (Rec.map f)))) (doSwap L mat med data b j) := by
  unfold doSwap
  rw [show (mat.map f).len = mat.len from rfl]
  simp only [rmap_bind]
  refine rbind_congr fun _ => rbind_congr fun _ => rbind_congr fun med => ?_
  have := mapRes_hom (Prod.map (Rec.map f) g) (Prod.map (Rec.map f) (id : Nat → Nat))
    (H.doSwapRec_hom mat med b j) data.zipIdx
  simp only [zipIdx_hom, this, bind_rmap]
  refine rbind_congr fun rs => ?_
  have h2 : (rs.map (Prod.map (Rec.map f) g)).map (·.2) = (rs.map (·.2)).map g := by simp
  simp only [h2, H.reduceAdd_hom, unwrapOpt_hom, bind_rmap, rmap_ok]
  refine rbind_congr fun l => ?_
  simp

theorem isOwnMedoid_hom (f : N → N') (med : List Nat) (data : List (Rec N)) (j : Nat) :
    isOwnMedoid med (data.map (Rec.map f)) j = isOwnMedoid med data j := by
  unfold isOwnMedoid
  simp only [idx_hom, bind_rmap]
  rfl

/-- map a state -/
def mapFP (f : N → N') (g : L → L') (s : FPState N L) : FPState N' L' :=
  ⟨s.med, s.data.map (Rec.map f), s.rem.map g, g s.loss, s.lastswap, s.nSwaps⟩

theorem fpPass_hom (H : NumHom f g) (mat : Mat N) (js : List Nat) (s : FPState N L) :
    fpPass (mat.map f) js (mapFP f g s) = rmap (mapFP f g) (fpPass mat js s) := by
  induction js generalizing s with
  | nil => rfl
  | cons j js ih =>
    unfold fpPass
    simp only [rmap_ite, rmap_ok, rmap_bind]
    rw [show (mapFP f g s).lastswap = s.lastswap from rfl]
    congr 1
    rw [show isOwnMedoid (mapFP f g s).med (mapFP f g s).data j = isOwnMedoid s.med s.data j from
      isOwnMedoid_hom f _ _ _]
    refine rbind_congr fun own => ?_
    rw [show findBestSwap (mat.map f) (mapFP f g s).rem (mapFP f g s).data j = _ from
      H.findBestSwap_hom mat s.rem s.data j]
    simp only [bind_rmap, ih, Prod.map_fst, Prod.map_snd, id_eq, H.lge0]
    congr 1
    refine rbind_congr fun r => ?_
    congr 1
    rw [show doSwap L' (mat.map f) (mapFP f g s).med (mapFP f g s).data r.2 j = _ from
      H.doSwap_hom mat s.med s.data r.2 j]
    simp only [bind_rmap, Prod.map_fst, Prod.map_snd, id_eq, H.updateRemovalLoss_hom,
      show (mapFP f g s).rem.length = s.rem.length by simp [mapFP]]
    refine rbind_congr fun q => rbind_congr fun rem => ?_
    exact ih ⟨q.2.1, q.2.2, rem, q.1, j, s.nSwaps + 1⟩

theorem fpLoop_hom (H : NumHom f g) (mat : Mat N) (seq : List Nat) (fuel iter : Nat) (s : FPState N L) :
    fpLoop (mat.map f) seq fuel iter (mapFP f g s) =
      rmap (Prod.map (mapFP f g) id) (fpLoop mat seq fuel iter s) := by
  induction fuel generalizing iter s with
  | zero => rfl
  | succ fuel ih =>
    unfold fpLoop
    simp only [rmap_ite, rmap_ok, rmap_bind, H.fpPass_hom, bind_rmap, ih]
    refine rbind_congr fun s' => ?_
    simp only [mapFP, H.lge, Prod.map_apply, id_eq]

theorem randFasterpam_hom (H : NumHom f g) (mat : Mat N) (med : List Nat) (maxiter : Nat) (seq : List Nat) :
    randFasterpam L' (mat.map f) med maxiter seq =
      rmap (SwapResult.map g) (randFasterpam L mat med maxiter seq) := by
  unfold randFasterpam
  simp only [rmap_ite, rmap_bind, H.singleCluster_hom, H.initialAssignment_hom, bind_rmap,
    Prod.map_fst, Prod.map_snd, H.updateRemovalLoss_hom]
  congr 1
  refine rbind_congr fun q => rbind_congr fun rem => ?_
  rw [show (⟨med, q.2.map (Rec.map f), rem.map g, g q.1, (mat.map f).len, 0⟩ : FPState N' L') =
    mapFP f g ⟨med, q.2, rem, q.1, mat.len, 0⟩ from rfl, H.fpLoop_hom, bind_rmap]
  refine rbind_congr fun r => ?_
  simp [SwapResult.map, mapFP, Rec.map, DistancePair.map]

theorem fasterpam_hom (H : NumHom f g) (mat : Mat N) (med : List Nat) (maxiter : Nat) :
    fasterpam L' (mat.map f) med maxiter = rmap (SwapResult.map g) (fasterpam L mat med maxiter) :=
  H.randFasterpam_hom mat med maxiter (List.range mat.len)

/-! ## PAM -/

theorem findBestSwapPam_hom (H : NumHom f g) (mat : Mat N) (med : List Nat) (data : List (Rec N)) (j : Nat) :
    findBestSwapPam L' (mat.map f) med (data.map (Rec.map f)) j =
      rmap (Prod.map g id) (findBestSwapPam L mat med data j) := by
  have hstep : ∀ (m : Nat) (a : L), foldRes (findBestSwapPamStep (L := L') (mat.map f) m j) (g a)
      (data.map (Rec.map f)).zipIdx = rmap g (foldRes (findBestSwapPamStep (L := L) mat m j) a data.zipIdx) := by
    intro m a
    rw [zipIdx_hom]
    refine foldRes_hom g _ (fun s p => ?_) _ _
    unfold findBestSwapPamStep
    simp only [Mat.map, bind_rmap, rmap_bind, rmap_ite, rmap_ok, Rec.map, DistancePair.map,
      Prod.map_fst, Prod.map_snd, id_eq, H.dlt, H.lossConv, H.lossSub, H.lossAdd]
  unfold findBestSwapPam
  simp only [idx_hom, bind_rmap, rmap_bind]
  refine rbind_congr fun r => ?_
  have h0 : ((RLoss.zero : L'), usizeMax) = Prod.map g id ((RLoss.zero : L), usizeMax) := by
    simp [H.lossZero]
  have hneg : (RLoss.neg (conv (Rec.map f r).near.d) : L') = g (RLoss.neg (conv r.near.d)) := by
    simp [Rec.map, DistancePair.map, H.lossNeg, H.lossConv]
  rw [h0]
  refine foldRes_hom' (Prod.map g id) (fun s m => ?_) _ _
  simp only [hneg, hstep, bind_rmap, rmap_bind, rmap_ok, Prod.map_fst, H.llt]
  refine rbind_congr fun a => congrArg Except.ok ?_
  split <;> rfl

theorem pamScanStep_hom (H : NumHom f g) (mat : Mat N) (med : List Nat) (data : List (Rec N))
    (best : L × Nat × Nat) (j : Nat) :
    pamScanStep (mat.map f) med (data.map (Rec.map f)) (Prod.map g id best) j =
      rmap (Prod.map g id) (pamScanStep mat med data best j) := by
  unfold pamScanStep
  simp only [isOwnMedoid_hom, rmap_bind, rmap_ite, rmap_ok, H.findBestSwapPam_hom, bind_rmap,
    Prod.map_fst, Prod.map_snd, H.lge]
  refine rbind_congr fun own => ?_
  congr 1
  refine rbind_congr fun r => congrArg Except.ok ?_
  split <;> rfl

/-- map a state -/
def mapP (f : N → N') (g : L → L') (s : PState N L) : PState N' L' :=
  ⟨s.med, s.data.map (Rec.map f), g s.loss, s.nSwaps⟩

theorem pamLoop_hom (H : NumHom f g) (mat : Mat N) (k fuel iter : Nat) (s : PState N L) :
    pamLoop (mat.map f) k fuel iter (mapP f g s) =
      rmap (Prod.map (mapP f g) id) (pamLoop mat k fuel iter s) := by
  induction fuel generalizing iter s with
  | zero => rfl
  | succ fuel ih =>
    have hscan := foldRes_hom' (Prod.map g id) (H.pamScanStep_hom mat s.med s.data)
      ((RLoss.zero : L), k, usizeMax) (List.range mat.len)
    rw [Prod.map_apply, H.lossZero, id_eq] at hscan
    unfold pamLoop
    simp only [rmap_ite, rmap_ok, rmap_bind]
    rw [show foldRes (pamScanStep (mat.map f) (mapP f g s).med (mapP f g s).data)
      ((RLoss.zero : L'), k, usizeMax) (List.range (mat.map f).len) = _ from hscan]
    simp only [bind_rmap, Prod.map_fst, Prod.map_snd, id_eq, H.llt0]
    refine rbind_congr fun best => ?_
    congr 1
    rw [show doSwap L' (mat.map f) (mapP f g s).med (mapP f g s).data best.2.1 best.2.2 = _ from
      H.doSwap_hom mat s.med s.data best.2.1 best.2.2]
    simp only [bind_rmap, Prod.map_fst, Prod.map_snd, id_eq]
    refine rbind_congr fun q => ?_
    simp only [show (mapP f g s).loss = g s.loss from rfl, H.lge, show (mapP f g s).nSwaps = s.nSwaps from rfl]
    rw [← ih]
    rfl

theorem pamOptimize_hom (H : NumHom f g) (mat : Mat N) (med : List Nat) (data : List (Rec N)) (maxiter : Nat)
    (loss : L) :
    pamOptimize (mat.map f) med (data.map (Rec.map f)) maxiter (g loss) =
      rmap (SwapResult.map g) (pamOptimize mat med data maxiter loss) := by
  unfold pamOptimize
  simp only [rmap_ite, rmap_bind, H.singleCluster_hom]
  congr 1
  rw [show (⟨med, data.map (Rec.map f), g loss, 0⟩ : PState N' L') = mapP f g ⟨med, data, loss, 0⟩ from rfl,
    H.pamLoop_hom, bind_rmap]
  refine rbind_congr fun r => ?_
  simp [SwapResult.map, mapP, Rec.map, DistancePair.map]

theorem pamSwap_hom (H : NumHom f g) (mat : Mat N) (med : List Nat) (maxiter : Nat) :
    pamSwap L' (mat.map f) med maxiter = rmap (SwapResult.map g) (pamSwap L mat med maxiter) := by
  unfold pamSwap
  simp only [rmap_bind, H.initialAssignment_hom, bind_rmap, Prod.map_fst, Prod.map_snd, H.pamOptimize_hom]

theorem buildFirst_hom (H : NumHom f g) (mat : Mat N) (k : Nat) :
    buildFirst L' (mat.map f) k = rmap (Prod.map g id) (buildFirst L mat k) := by
  have hsum : ∀ i, buildFirstSum L' (mat.map f) i = rmap g (buildFirstSum L mat i) := by
    intro i
    unfold buildFirstSum
    rw [← H.lossZero]
    refine foldRes_hom' g (fun s p => ?_) _ _
    simp only [rmap_ite, rmap_bind, Mat.map, bind_rmap, rmap_ok, H.lossAdd, H.lossConv]
  unfold buildFirst
  have h0 : ((RLoss.zero : L'), k) = Prod.map g id ((RLoss.zero : L), k) := by simp [H.lossZero]
  rw [h0]
  refine foldRes_hom' _ (fun s i => ?_) _ _
  simp only [hsum, bind_rmap, rmap_bind, rmap_ok, Prod.map_fst, H.llt]
  refine rbind_congr fun a => congrArg Except.ok ?_
  split <;> rfl

theorem buildNext_hom (H : NumHom f g) (mat : Mat N) (near : List N) (k : Nat) :
    buildNext L' (mat.map f) (near.map f) k = rmap (Prod.map g id) (buildNext L mat near k) := by
  have hsum : ∀ i, buildSum L' (mat.map f) (near.map f) i = rmap g (buildSum L mat near i) := by
    intro i
    unfold buildSum
    simp only [idx_hom, bind_rmap, rmap_bind]
    refine rbind_congr fun di => ?_
    rw [← H.lossConv, ← H.lossNeg, zipIdx_hom]
    refine foldRes_hom g _ (fun s p => ?_) _ _
    simp only [rmap_ite, rmap_bind, Mat.map, bind_rmap, rmap_ok, Prod.map_fst, Prod.map_snd, id_eq, H.dlt]
    congr 1
    refine rbind_congr fun x => congrArg Except.ok ?_
    split
    · simp only [H.lossAdd, H.lossConv, H.lossSub]
    · rfl
  unfold buildNext
  have h0 : ((RLoss.zero : L'), k) = Prod.map g id ((RLoss.zero : L), k) := by simp [H.lossZero]
  rw [h0, List.length_map]
  refine foldRes_hom' _ (fun s i => ?_) _ _
  simp only [hsum, bind_rmap, rmap_bind, rmap_ok, Prod.map_fst, H.llt]
  refine rbind_congr fun a => congrArg Except.ok ?_
  split <;> rfl

theorem buildUpdateRec_hom (H : NumHom f g) (mat : Mat N) (l c : Nat) (p : Rec N × Nat) :
    buildUpdateRec (mat.map f) l c (Prod.map (Rec.map f) id p) =
      rmap (Rec.map f) (buildUpdateRec mat l c p) := by
  unfold buildUpdateRec
  simp only [rmap_ite, rmap_ok, rmap_bind, Mat.map, bind_rmap, Prod.map_fst, Prod.map_snd, id_eq]
  congr 1
  · simp [Rec.map, DistancePair.map, DistancePair.new, H.distZero]
  · refine rbind_congr fun x => ?_
    simp only [Rec.map, DistancePair.map, DistancePair.new, H.dlt]

theorem buildLoss_hom (H : NumHom f g) (c : Nat) (data : List (Rec N)) :
    buildLoss L' c (data.map (Rec.map f)) = g (buildLoss L c data) := by
  unfold buildLoss
  rw [zipIdx_hom, ← H.lossZero]
  generalize (RLoss.zero : L) = a
  induction data.zipIdx generalizing a with
  | nil => rfl
  | cons p xs ih =>
    rw [List.map_cons, List.foldl_cons, List.foldl_cons, ← ih]
    congr 1
    simp only [Prod.map_snd, Prod.map_fst, id_eq, Rec.map, DistancePair.map]
    split
    · rfl
    · simp [H.lossAdd, H.lossConv]

theorem buildLoop_hom (H : NumHom f g) (mat : Mat N) (k : Nat) (ls meds : List Nat) (data : List (Rec N))
    (loss : L) :
    buildLoop (mat.map f) k ls meds (data.map (Rec.map f)) (g loss) =
      rmap (Prod.map id (Prod.map (List.map (Rec.map f)) g)) (buildLoop mat k ls meds data loss) := by
  induction ls generalizing meds data loss with
  | nil => rfl
  | cons l ls ih =>
    unfold buildLoop
    have hnear : (data.map (Rec.map f)).map (·.near.d) = (data.map (·.near.d)).map f := by
      simp [Rec.map, DistancePair.map]
    simp only [hnear, H.buildNext_hom, bind_rmap, rmap_bind, rmap_ite, rmap_ok, Prod.map_fst, Prod.map_snd,
      id_eq, H.lge0]
    refine rbind_congr fun best => ?_
    congr 1
    have := mapRes_hom (Rec.map f) (Prod.map (Rec.map f) (id : Nat → Nat))
      (H.buildUpdateRec_hom mat l best.2) data.zipIdx
    simp only [zipIdx_hom, this, bind_rmap, H.buildLoss_hom, ih]

theorem pamBuildInitialize_hom (H : NumHom f g) (mat : Mat N) (k : Nat) :
    pamBuildInitialize L' (mat.map f) k =
      rmap (Prod.map id (Prod.map (List.map (Rec.map f)) g)) (pamBuildInitialize L mat k) := by
  unfold pamBuildInitialize
  rw [show assertSquare (mat.map f) = assertSquare mat from rfl, show (mat.map f).len = mat.len from rfl]
  simp only [rmap_bind, H.buildFirst_hom, bind_rmap, Prod.map_snd, Prod.map_fst, id_eq]
  refine rbind_congr fun _ => rbind_congr fun best => ?_
  have := mapRes_hom' (Rec.map f) (step := fun j => do
      let d ← mat.get j best.2
      .ok (⟨⟨0, d⟩, ⟨u32Max, RDist.zero⟩⟩ : Rec N)) (step' := fun j => do
      let d ← (mat.map f).get j best.2
      .ok (⟨⟨0, d⟩, ⟨u32Max, RDist.zero⟩⟩ : Rec N')) (fun j => by
        simp only [Mat.map, bind_rmap, rmap_bind, rmap_ok, Rec.map, DistancePair.map, H.distZero])
      (List.range mat.len)
  simp only [this, bind_rmap, H.buildLoop_hom]

theorem pamBuild_hom (H : NumHom f g) (mat : Mat N) (k : Nat) :
    pamBuild L' (mat.map f) k = rmap (BuildResult.map g) (pamBuild L mat k) := by
  unfold pamBuild
  simp only [rmap_bind, H.assertSizes_hom, H.pamBuildInitialize_hom, bind_rmap]
  refine rbind_congr fun _ => rbind_congr fun r => ?_
  simp [BuildResult.map, Rec.map, DistancePair.map]

theorem pam_hom (H : NumHom f g) (mat : Mat N) (k maxiter : Nat) :
    pam L' (mat.map f) k maxiter = rmap (SwapResult.map g) (pam L mat k maxiter) := by
  unfold pam
  simp only [rmap_bind, H.assertSizes_hom, H.pamBuildInitialize_hom, bind_rmap, Prod.map_fst, Prod.map_snd,
    id_eq, H.pamOptimize_hom]

/-! ## FastPAM1 -/

theorem fastpam1ScanStep_hom (H : NumHom f g) (mat : Mat N) (med : List Nat) (data : List (Rec N))
    (rem : List L) (best : L × Nat × Nat) (j : Nat) :
    fastpam1ScanStep (mat.map f) med (data.map (Rec.map f)) (rem.map g) (Prod.map g id best) j =
      rmap (Prod.map g id) (fastpam1ScanStep mat med data rem best j) := by
  unfold fastpam1ScanStep
  simp only [isOwnMedoid_hom, rmap_bind, rmap_ite, rmap_ok, H.findBestSwap_hom, bind_rmap,
    Prod.map_fst, Prod.map_snd, H.lge]
  refine rbind_congr fun own => ?_
  congr 1
  refine rbind_congr fun r => congrArg Except.ok ?_
  split <;> rfl

theorem fastpam1Loop_hom (H : NumHom f g) (mat : Mat N) (k fuel iter : Nat) (s : PState N L) :
    fastpam1Loop (mat.map f) k fuel iter (mapP f g s) =
      rmap (Prod.map (mapP f g) id) (fastpam1Loop mat k fuel iter s) := by
  induction fuel generalizing iter s with
  | zero => rfl
  | succ fuel ih =>
    unfold fastpam1Loop
    simp only [rmap_ite, rmap_ok, rmap_bind]
    rw [show updateRemovalLoss L' (mapP f g s).data k = _ from H.updateRemovalLoss_hom s.data k, bind_rmap]
    refine rbind_congr fun rem => ?_
    have hscan := foldRes_hom' (Prod.map g id) (H.fastpam1ScanStep_hom mat s.med s.data rem)
      ((RLoss.zero : L), usizeMax, usizeMax) (List.range mat.len)
    rw [Prod.map_apply, H.lossZero, id_eq] at hscan
    rw [show foldRes (fastpam1ScanStep (mat.map f) (mapP f g s).med (mapP f g s).data (rem.map g))
      ((RLoss.zero : L'), usizeMax, usizeMax) (List.range (mat.map f).len) = _ from hscan]
    simp only [bind_rmap, Prod.map_fst, Prod.map_snd, id_eq, H.llt0]
    refine rbind_congr fun best => ?_
    congr 1
    rw [show doSwap L' (mat.map f) (mapP f g s).med (mapP f g s).data best.2.1 best.2.2 = _ from
      H.doSwap_hom mat s.med s.data best.2.1 best.2.2]
    simp only [bind_rmap, Prod.map_fst, Prod.map_snd, id_eq]
    refine rbind_congr fun q => ?_
    simp only [show (mapP f g s).loss = g s.loss from rfl, H.lge, show (mapP f g s).nSwaps = s.nSwaps from rfl]
    rw [← ih]
    rfl

theorem fastpam1_hom (H : NumHom f g) (mat : Mat N) (med : List Nat) (maxiter : Nat) :
    fastpam1 L' (mat.map f) med maxiter = rmap (SwapResult.map g) (fastpam1 L mat med maxiter) := by
  unfold fastpam1
  simp only [rmap_ite, rmap_bind, H.singleCluster_hom, H.initialAssignment_hom, bind_rmap]
  congr 1
  refine rbind_congr fun q => ?_
  rw [show (⟨med, (Prod.map g (List.map (Rec.map f)) q).2, (Prod.map g (List.map (Rec.map f)) q).1, 0⟩ :
    PState N' L') = mapP f g ⟨med, q.2, q.1, 0⟩ from rfl, H.fastpam1Loop_hom, bind_rmap]
  refine rbind_congr fun r => ?_
  simp [SwapResult.map, mapP, Rec.map, DistancePair.map]

/-! ## Alternating -/

theorem assignNearest_hom (H : NumHom f g) (mat : Mat N) (med : List Nat) :
    assignNearest L' (mat.map f) med = rmap (Prod.map g id) (assignNearest L mat med) := by
  have hrec : ∀ c i, assignNearestRec (mat.map f) med c i =
      rmap (Prod.map id f) (assignNearestRec mat med c i) := by
    intro c i
    unfold assignNearestRec
    simp only [Mat.map, bind_rmap, rmap_bind]
    refine rbind_congr fun x => ?_
    refine foldRes_hom' (Prod.map id f) (fun s p => ?_) (0, x) _
    simp only [rmap_bind, rmap_ok, Prod.map_snd, H.dlt]
    refine rbind_congr fun y => congrArg Except.ok ?_
    split <;> rfl
  unfold assignNearest
  rw [show (mat.map f).len = mat.len from rfl]
  simp only [H.assertSizes_hom, rmap_bind, mapRes_hom' (Prod.map id f) (hrec _), bind_rmap, rmap_ok]
  refine rbind_congr fun _ => rbind_congr fun c => rbind_congr fun rs => congrArg Except.ok ?_
  have : (rs.map (Prod.map id f)).map (fun r => (conv r.2 : L')) = (rs.map fun r => (conv r.2 : L)).map g := by
    simp [H.lossConv]
  rw [this, H.reduceAdd_hom]
  refine Prod.ext ?_ (by simp)
  cases reduceAdd (rs.map fun r => (conv r.2 : L)) <;> simp [H.lossZero]

theorem alternatingUpdate_hom (H : NumHom f g) (mat : Mat N) (assi med : List Nat) :
    alternatingUpdate L' (mat.map f) assi med = alternatingUpdate L mat assi med := by
  unfold alternatingUpdate
  have := foldRes_hom' (id : Bool × List Nat → _) (step := fun (st : Bool × List Nat) (i : Nat) => do
    let r ← chooseMedoidWithinPartition L mat assi st.2 i
    .ok (st.1 || r.1.1, r.2)) (step' := fun (st : Bool × List Nat) (i : Nat) => do
    let r ← chooseMedoidWithinPartition L' (mat.map f) assi st.2 i
    .ok (st.1 || r.1.1, r.2)) (fun s i => by
      simp only [H.chooseMedoid_hom, bind_rmap, rmap_bind, rmap_ok, id_eq, Prod.map_fst, Prod.map_snd])
    (false, med) (List.range med.length)
  refine this.trans ?_
  cases foldRes _ _ (List.range med.length) <;> rfl

theorem alternatingLoop_hom (H : NumHom f g) (mat : Mat N) (fuel iter : Nat) (loss : L) (assi med : List Nat) :
    alternatingLoop (mat.map f) fuel iter (g loss) assi med =
      rmap (AltResult.map g) (alternatingLoop mat fuel iter loss assi med) := by
  induction fuel generalizing iter loss assi med with
  | zero => rfl
  | succ fuel ih =>
    unfold alternatingLoop
    simp only [H.alternatingUpdate_hom, rmap_bind, rmap_ite, rmap_ok, H.assignNearest_hom, bind_rmap,
      Prod.map_fst, Prod.map_snd, id_eq, ih]
    rfl

theorem alternating_hom (H : NumHom f g) (mat : Mat N) (med : List Nat) (maxiter : Nat) :
    alternating L' (mat.map f) med maxiter = rmap (AltResult.map g) (alternating L mat med maxiter) := by
  unfold alternating
  simp only [rmap_bind, H.assignNearest_hom, bind_rmap, Prod.map_fst, Prod.map_snd, id_eq, H.alternatingLoop_hom]

/-! ## par_fasterpam -/

theorem reduceTree_hom (H : NumHom f g) (t : RTree) (xs : List L) :
    reduceTree t (xs.map g) = (reduceTree t xs).map g := by
  induction t generalizing xs with
  | leaf => exact H.reduceAdd_hom xs
  | node s l r ihl ihr =>
    simp only [reduceTree, ← List.map_take, ← List.map_drop, ihl, ihr]
    cases reduceTree l (xs.take s) <;> cases reduceTree r (xs.drop s) <;> simp [H.lossAdd]

theorem parInitialAssignment_hom (H : NumHom f g) (sc : Sched) (mat : Mat N) (med : List Nat) :
    parInitialAssignment L' sc (mat.map f) med =
      rmap (Prod.map g (List.map (Rec.map f))) (parInitialAssignment L sc mat med) := by
  unfold parInitialAssignment
  simp only [H.assertSizes_hom, rmap_bind]
  refine rbind_congr fun _ => rbind_congr fun c => ?_
  have := mapRes_hom' (Rec.map f) (H.initAssignRec_hom mat med c) (List.range mat.len)
  rw [show (mat.map f).len = mat.len from rfl]
  simp only [this, bind_rmap]
  refine rbind_congr fun data => ?_
  have : (data.map (Rec.map f)).map (fun r => (conv r.near.d : L')) =
      (data.map fun r => (conv r.near.d : L)).map g := by
    simp [Rec.map, DistancePair.map, H.lossConv]
  simp only [this, H.reduceTree_hom, unwrapOpt_hom, bind_rmap, rmap_ok]
  rfl

theorem parWorker_hom (H : NumHom f g) (mat : Mat N) (len : Nat) (data : List (Rec N)) (j parts x : Nat) :
    parWorker L' (mat.map f) len (data.map (Rec.map f)) j parts x =
      rmap (Prod.map (List.map g) g) (parWorker L mat len data j parts x) := by
  unfold parWorker
  dsimp only
  have h0 : (List.replicate len (RLoss.zero : L'), (RLoss.zero : L')) =
      Prod.map (List.map g) g (List.replicate len RLoss.zero, RLoss.zero) := by simp [H.lossZero]
  rw [show (mat.map f).len = mat.len from rfl, h0, zipIdx_hom, ← List.map_take, ← List.map_drop]
  refine foldRes_hom _ _ (fun s p => ?_) _ _
  unfold parFindStep
  simp only [Mat.map, bind_rmap, rmap_bind, rmap_ite, rmap_ok, Rec.map, DistancePair.map,
    Prod.map_fst, Prod.map_snd, id_eq]
  refine rbind_congr fun y => ?_
  simp only [H.dlt, ← H.lossConv, ← H.lossSub, ← H.lossAdd, H.addAt_hom, bind_rmap]
  rfl

theorem parMerge_hom (H : NumHom f g) (s w : List L × L) :
    parMerge (Prod.map (List.map g) g s) (Prod.map (List.map g) g w) =
      Prod.map (List.map g) g (parMerge s w) := by
  simp only [parMerge, Prod.map_apply, Prod.map_fst, Prod.map_snd, H.lossAdd, List.map_zipWith,
    List.zipWith_map]

theorem parFindBestSwap_hom (H : NumHom f g) (sc : Sched) (mat : Mat N) (rem : List L) (data : List (Rec N))
    (j : Nat) :
    parFindBestSwap sc (mat.map f) (rem.map g) (data.map (Rec.map f)) j =
      rmap (Prod.map g id) (parFindBestSwap sc mat rem data j) := by
  unfold parFindBestSwap
  have h0 : (rem.map g, (RLoss.zero : L')) = Prod.map (List.map g) g (rem, RLoss.zero) := by simp [H.lossZero]
  have hfold := foldRes_hom' (Prod.map (List.map g) g) (step := fun (st : List L × L) (x : Nat) => do
    let w ← parWorker L mat rem.length data j sc.parts x
    .ok (parMerge st w)) (step' := fun (st : List L' × L') (x : Nat) => do
    let w ← parWorker L' (mat.map f) (rem.map g).length (data.map (Rec.map f)) j sc.parts x
    .ok (parMerge st w)) (fun s x => by
      simp only [List.length_map, H.parWorker_hom, bind_rmap, rmap_bind, rmap_ok, H.parMerge_hom])
    (rem, RLoss.zero) sc.order
  rw [h0, hfold]
  simp only [bind_rmap, rmap_bind, H.findMin_hom, Prod.map_fst, Prod.map_snd, rmap_ok, Prod.map_apply, H.lossAdd]

theorem parSwapRec_hom (H : NumHom f g) (mat : Mat N) (med : List Nat) (b j : Nat) (p : Rec N × Nat) :
    parSwapRec (mat.map f) med b j (Prod.map (Rec.map f) id p) =
      rmap (Prod.map (Rec.map f) g) (parSwapRec mat med b j p) := by
  unfold parSwapRec
  simp only [Prod.map_snd, Prod.map_fst, id_eq, rmap_ite]
  by_cases hj : p.2 = j
  · simp only [hj, if_true, rmap_ok, Prod.map_apply, H.lossZero]
    congr 2
    by_cases hb : p.1.near.i = asU32 b <;>
      simp [hb, Rec.map, DistancePair.map, DistancePair.new, H.distZero]
  · simp only [hj, if_false, Mat.map, bind_rmap, rmap_bind]
    refine rbind_congr fun x => ?_
    have hu : ∀ nn, updateSecondNearest (N := N') ⟨mat.len, mat.isSquare, fun x y => rmap f (mat.get x y)⟩
        med nn b p.2 (f x) = rmap (DistancePair.map f) (updateSecondNearest mat med nn b p.2 x) :=
      fun nn => H.updateSecondNearest_hom mat med nn b p.2 x
    simp only [Rec.map, DistancePair.map, H.dlt, hu, bind_rmap, DistancePair.new, rmap_ite, rmap_bind,
      rok_bind, rmap_ok, H.lossConv, Prod.map_apply]

theorem parDoSwap_hom (H : NumHom f g) (sc : Sched) (mat : Mat N) (med : List Nat) (data : List (Rec N))
    (b j : Nat) :
    parDoSwap L' sc (mat.map f) med (data.map (Rec.map f)) b j =
      rmap (Prod.map g (Prod.map id (List.map (Rec.map f)))) (parDoSwap L sc mat med data b j) := by
  unfold parDoSwap
  rw [show (mat.map f).len = mat.len from rfl]
  simp only [rmap_bind]
  refine rbind_congr fun _ => rbind_congr fun _ => rbind_congr fun med => ?_
  have := mapRes_hom (Prod.map (Rec.map f) g) (Prod.map (Rec.map f) (id : Nat → Nat))
    (H.parSwapRec_hom mat med b j) data.zipIdx
  simp only [zipIdx_hom, this, bind_rmap]
  refine rbind_congr fun rs => ?_
  have h2 : (rs.map (Prod.map (Rec.map f) g)).map (·.2) = (rs.map (·.2)).map g := by simp
  simp only [h2, H.reduceTree_hom, unwrapOpt_hom, bind_rmap, rmap_ok]
  refine rbind_congr fun l => ?_
  simp

theorem parPass_hom (H : NumHom f g) (scF scS : Nat → Sched) (mat : Mat N) (js : List Nat) (s : FPState N L) :
    parPass scF scS (mat.map f) js (mapFP f g s) = rmap (mapFP f g) (parPass scF scS mat js s) := by
  induction js generalizing s with
  | nil => rfl
  | cons j js ih =>
    unfold parPass
    simp only [rmap_ite, rmap_ok, rmap_bind]
    rw [show (mapFP f g s).lastswap = s.lastswap from rfl]
    congr 1
    rw [show isOwnMedoid (mapFP f g s).med (mapFP f g s).data j = isOwnMedoid s.med s.data j from
      isOwnMedoid_hom f _ _ _]
    refine rbind_congr fun own => ?_
    rw [show parFindBestSwap (scF j) (mat.map f) (mapFP f g s).rem (mapFP f g s).data j = _ from
      H.parFindBestSwap_hom (scF j) mat s.rem s.data j]
    simp only [bind_rmap, ih, Prod.map_fst, Prod.map_snd, id_eq, H.lge0]
    congr 1
    refine rbind_congr fun r => ?_
    congr 1
    rw [show parDoSwap L' (scS j) (mat.map f) (mapFP f g s).med (mapFP f g s).data r.2 j = _ from
      H.parDoSwap_hom (scS j) mat s.med s.data r.2 j]
    simp only [bind_rmap, Prod.map_fst, Prod.map_snd, id_eq, H.updateRemovalLoss_hom,
      show (mapFP f g s).rem.length = s.rem.length by simp [mapFP]]
    refine rbind_congr fun q => rbind_congr fun rem => ?_
    exact ih ⟨q.2.1, q.2.2, rem, q.1, j, s.nSwaps + 1⟩

theorem parLoop_hom (H : NumHom f g) (scF scS : Nat → Nat → Sched) (mat : Mat N) (seq : List Nat)
    (fuel iter : Nat) (s : FPState N L) :
    parLoop scF scS (mat.map f) seq fuel iter (mapFP f g s) =
      rmap (Prod.map (mapFP f g) id) (parLoop scF scS mat seq fuel iter s) := by
  induction fuel generalizing iter s with
  | zero => rfl
  | succ fuel ih =>
    unfold parLoop
    simp only [rmap_ite, rmap_ok, rmap_bind, H.parPass_hom, bind_rmap, ih]
    refine rbind_congr fun s' => ?_
    simp only [mapFP, H.lge, Prod.map_apply, id_eq]

theorem parFasterpam_hom (H : NumHom f g) (sc0 : Sched) (scF scS : Nat → Nat → Sched) (mat : Mat N)
    (med : List Nat) (maxiter : Nat) (seq : List Nat) :
    parFasterpam L' sc0 scF scS (mat.map f) med maxiter seq =
      rmap (SwapResult.map g) (parFasterpam L sc0 scF scS mat med maxiter seq) := by
  unfold parFasterpam
  simp only [rmap_ite, rmap_bind, H.singleCluster_hom, H.parInitialAssignment_hom, bind_rmap,
    Prod.map_fst, Prod.map_snd, H.updateRemovalLoss_hom]
  congr 1
  refine rbind_congr fun q => rbind_congr fun rem => ?_
  rw [show (⟨med, q.2.map (Rec.map f), rem.map g, g q.1, (mat.map f).len, 0⟩ : FPState N' L') =
    mapFP f g ⟨med, q.2, rem, q.1, mat.len, 0⟩ from rfl, H.parLoop_hom, bind_rmap]
  refine rbind_congr fun r => ?_
  simp [SwapResult.map, mapFP, Rec.map, DistancePair.map]

end NumHom

end KMedoids
