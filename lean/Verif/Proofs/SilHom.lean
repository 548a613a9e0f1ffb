import Verif.Proofs.Hom
import Verif.Model.PamMedSil
import Verif.Model.DynMsc
import Verif.Model.PamSil

/-! # Changing the number types in the silhouette family

As `Proofs/Hom.lean`, for the functions that divide: medoid silhouette (FasterMSC, FastMSC, PAMMEDSIL, DynMSC)
and silhouette (PAMSIL). Losses that are sums of distances are mapped by `g`, ratios of those by `h`. Proved on
the model itself, for arbitrary arguments, panics included. -/

set_option linter.unusedSectionVars false

namespace KMedoids

open RFrom (conv)

/-- map the distances of a record -/
def Reco.map {N N' : Type} (f : N → N') (r : Reco N) : Reco N' := ⟨r.near.map f, r.seco.map f, r.third.map f⟩

/-- map the losses of a result -/
def DynResult.map {L L' : Type} (g : L → L') (r : DynResult L) : DynResult L' :=
  ⟨g r.loss, r.assi, r.nIter, r.nSwap, r.med, r.losses.map g⟩

/-- `NumHom f g` together with a map `h` of the quotients: `h` respects the operations among quotients, and a
quotient of two sums of distances may be formed before or after mapping. -/
structure SilHom {N N' L L' : Type} [RDist N] [RDist N'] [RLoss L] [RLoss L'] [RFrom N L] [RFrom N' L']
    (f : N → N') (g h : L → L') : Prop extends NumHom f g where
  distIsZero : ∀ x, RDist.isZero (f x) = RDist.isZero x
  distAdd : ∀ x y, f (RDist.add x y) = RDist.add (f x) (f y)
  ratCmp : ∀ x y, pcmp (h x) (h y) = pcmp x y
  ratZero : h RLoss.zero = RLoss.zero
  ratOne : h RLoss.one = RLoss.one
  ratU32 : ∀ m, h (RLoss.ofU32 m) = RLoss.ofU32 m
  ratAdd : ∀ x y, h (RLoss.add x y) = RLoss.add (h x) (h y)
  ratSub : ∀ x y, h (RLoss.sub x y) = RLoss.sub (h x) (h y)
  /-- quotients of sums of distances -/
  ratDiv : ∀ x y, h (RLoss.div x y) = RLoss.div (g x) (g y)
  /-- means of quotients -/
  ratMean : ∀ x m, h (RLoss.div x (RLoss.ofU32 m)) = RLoss.div (h x) (RLoss.ofU32 m)
  /-- means of distances -/
  distMean : ∀ x m, rgt (RLoss.ofU32 m : L) RLoss.zero = true →
    g (RLoss.div x (RLoss.ofU32 m)) = RLoss.div (g x) (RLoss.ofU32 m)

variable {N N' L L' : Type} [RDist N] [RDist N'] [RLoss L] [RLoss L'] [RFrom N L] [RFrom N' L']
variable {f : N → N'} {g h : L → L'}

namespace SilHom

theorem rlt_ (H : SilHom f g h) (x y : L) : rlt (h x) (h y) = rlt x y := by simp only [rlt, H.ratCmp]
theorem rgt_ (H : SilHom f g h) (x y : L) : rgt (h x) (h y) = rgt x y := by simp only [rgt, H.ratCmp]
theorem rge_ (H : SilHom f g h) (x y : L) : rge (h x) (h y) = rge x y := by simp only [rge, H.ratCmp]
theorem rle_ (H : SilHom f g h) (x y : L) : rle (h x) (h y) = rle x y := by simp only [rle, H.ratCmp]
theorem rgt0 (H : SilHom f g h) (x : L) : rgt (h x) RLoss.zero = rgt x RLoss.zero := by
  rw [← H.ratZero, H.rgt_]
theorem rle0 (H : SilHom f g h) (x : L) : rle (h x) RLoss.zero = rle x RLoss.zero := by
  rw [← H.ratZero, H.rle_]
theorem deq (H : SilHom f g h) (x y : N) : req (f x) (f y) = req x y := by simp only [req, H.distCmp]
theorem lgt (H : SilHom f g h) (x y : L) : rgt (g x) (g y) = rgt x y := by simp only [rgt, H.lossCmp]
theorem lgt0 (H : SilHom f g h) (x : L) : rgt (g x) RLoss.zero = rgt x RLoss.zero := by
  rw [← H.lossZero, H.lgt]
theorem lle0 (H : SilHom f g h) (x : L) : rle (g x) RLoss.zero = rle x RLoss.zero := by
  rw [← H.lossZero]; simp only [rle, H.lossCmp]

theorem foldl_radd (H : SilHom f g h) (xs : List L) (a : L) :
    (xs.map h).foldl RLoss.add (h a) = h (xs.foldl RLoss.add a) := by
  induction xs generalizing a with
  | nil => rfl
  | cons x xs ih => simp only [List.map_cons, List.foldl_cons, ← H.ratAdd, ih]

theorem reduceAdd_rhom (H : SilHom f g h) (xs : List L) : reduceAdd (xs.map h) = (reduceAdd xs).map h := by
  cases xs with
  | nil => rfl
  | cons x xs => simp only [List.map_cons, reduceAdd, H.foldl_radd, Option.map_some]

theorem addAt_rhom (H : SilHom f g h) (l : List L) (i : Nat) (v : L) :
    addAt (l.map h) i (h v) = rmap (List.map h) (addAt l i v) := by
  simp only [addAt, idx_hom, bind_rmap, rmap_bind]
  exact rbind_congr fun a => by simp [← H.ratAdd, List.map_set]

theorem findMinGo_rhom (H : SilHom f g h) (xs : List L) (i : Nat) (b : Nat × L) :
    findMinGo (xs.map h) i (Prod.map id h b) = Prod.map id h (findMinGo xs i b) := by
  induction xs generalizing i b with
  | nil => rfl
  | cons x xs ih =>
    simp only [List.map_cons, findMinGo, ← ih, Prod.map_snd, H.rlt_]
    congr 1
    split <;> rfl

theorem findMin_rhom (H : SilHom f g h) (xs : List L) :
    findMin (xs.map h) = rmap (Prod.map id h) (findMin xs) := by
  cases xs with
  | nil => rfl
  | cons x xs => exact congrArg Except.ok (H.findMinGo_rhom xs 1 (0, x))

theorem findMaxGo_rhom (H : SilHom f g h) (xs : List L) (i : Nat) (b : Nat × L) :
    findMaxGo (xs.map h) i (Prod.map id h b) = Prod.map id h (findMaxGo xs i b) := by
  induction xs generalizing i b with
  | nil => rfl
  | cons x xs ih =>
    simp only [List.map_cons, findMaxGo, ← ih, Prod.map_snd, H.rgt_]
    congr 1
    split <;> rfl

theorem findMax_rhom (H : SilHom f g h) (xs : List L) :
    findMax (xs.map h) = rmap (Prod.map id h) (findMax xs) := by
  cases xs with
  | nil => rfl
  | cons x xs => exact congrArg Except.ok (H.findMaxGo_rhom xs 1 (0, x))

theorem mscLoss_hom (H : SilHom f g h) (a b : N) : mscLoss L' (f a) (f b) = h (mscLoss L a b) := by
  unfold mscLoss
  rw [H.distIsZero, H.distIsZero]
  split
  · exact H.ratZero.symm
  · rw [H.ratDiv, H.lossConv, H.lossConv]

theorem toSilhouette_hom (H : SilHom f g h) (l : L) (n : Nat) :
    toSilhouette (h l) n = h (toSilhouette l n) := by
  unfold toSilhouette
  rw [H.ratSub, H.ratOne, H.ratMean]

/-! ## FasterMSC -/

theorem mscInitRec_hom (H : SilHom f g h) (mat : Mat N) (med : List Nat) (c i : Nat) :
    mscInitRec (mat.map f) med c i = rmap (Reco.map f) (mscInitRec mat med c i) := by
  unfold mscInitRec
  simp only [Mat.map, bind_rmap, rmap_bind]
  refine rbind_congr fun d => ?_
  have : (⟨⟨0, f d⟩, ⟨u32Max, RDist.zero⟩, ⟨u32Max, RDist.zero⟩⟩ : Reco N') =
      Reco.map f ⟨⟨0, d⟩, ⟨u32Max, RDist.zero⟩, ⟨u32Max, RDist.zero⟩⟩ := by
    simp [Reco.map, DistancePair.map, H.distZero]
  rw [this]
  refine foldRes_hom' _ (fun s p => ?_) _ _
  unfold mscInitStep
  simp only [bind_rmap, rmap_bind, rmap_ite, rmap_ok]
  refine rbind_congr fun x => ?_
  simp only [Reco.map, DistancePair.map, H.dlt]

theorem lossMap_hom (H : SilHom f g h) (data : List (Reco N)) :
    (data.map (Reco.map f)).map (fun r => mscLoss L' r.near.d r.seco.d) =
      (data.map fun r => mscLoss L r.near.d r.seco.d).map h := by
  simp [Reco.map, DistancePair.map, H.mscLoss_hom]

theorem mscInitialAssignment_hom (H : SilHom f g h) (mat : Mat N) (med : List Nat) :
    mscInitialAssignment L' (mat.map f) med =
      rmap (Prod.map h (List.map (Reco.map f))) (mscInitialAssignment L mat med) := by
  unfold mscInitialAssignment
  simp only [H.assertSizes_hom, rmap_bind]
  refine rbind_congr fun _ => rbind_congr fun c => ?_
  have := mapRes_hom' (Reco.map f) (H.mscInitRec_hom mat med c) (List.range mat.len)
  rw [show (mat.map f).len = mat.len from rfl]
  simp only [this, bind_rmap]
  refine rbind_congr fun data => ?_
  simp only [H.lossMap_hom, H.reduceAdd_rhom, unwrapOpt_hom, bind_rmap, rmap_ok]
  rfl

theorem mscFindBestSwap_hom (H : SilHom f g h) (mat : Mat N) (rem : List L) (data : List (Reco N)) (j : Nat) :
    mscFindBestSwap (mat.map f) (rem.map h) (data.map (Reco.map f)) j =
      rmap (Prod.map h id) (mscFindBestSwap mat rem data j) := by
  have hstep := foldRes_hom (Prod.map (List.map h) h) (Prod.map (Reco.map f) (id : Nat → Nat))
    (step := mscFindStep (L := L) mat j) (step' := mscFindStep (L := L') (mat.map f) j)
    (fun s p => by
      unfold mscFindStep
      simp only [Mat.map, bind_rmap, rmap_bind, rmap_ite, rmap_ok, Reco.map, DistancePair.map,
        Prod.map_fst, Prod.map_snd, id_eq]
      refine rbind_congr fun x => ?_
      simp only [H.dlt, ← H.distAdd, H.mscLoss_hom, ← H.ratSub, ← H.ratAdd, H.addAt_rhom, bind_rmap]
      rfl) (rem, RLoss.zero) data.zipIdx
  unfold mscFindBestSwap
  simp only [Prod.map_apply, H.ratZero] at hstep
  simp only [zipIdx_hom, hstep, bind_rmap, rmap_bind, H.findMax_rhom, Prod.map_fst, Prod.map_snd, rmap_ok,
    Prod.map_apply, H.ratAdd]

theorem mscUpdateRemovalLoss_hom (H : SilHom f g h) (data : List (Reco N)) (k : Nat) :
    mscUpdateRemovalLoss L' (data.map (Reco.map f)) k =
      rmap (List.map h) (mscUpdateRemovalLoss L data k) := by
  unfold mscUpdateRemovalLoss
  rw [show List.replicate k (RLoss.zero : L') = (List.replicate k (RLoss.zero : L)).map h by
    simp [H.ratZero]]
  refine foldRes_hom _ _ (fun s r => ?_) _ _
  simp only [Reco.map, DistancePair.map, H.mscLoss_hom, ← H.ratSub, H.addAt_rhom, bind_rmap, rmap_bind]

theorem updateThirdNearest_hom (H : SilHom f g h) (mat : Mat N) (med : List Nat) (n s b o : Nat) (x : N) :
    updateThirdNearest (mat.map f) med n s b o (f x) =
      rmap (DistancePair.map f) (updateThirdNearest mat med n s b o x) := by
  unfold updateThirdNearest
  refine foldRes_hom' (DistancePair.map f) (fun s p => ?_) (.new b x) _
  simp only [Mat.map, bind_rmap, rmap_bind, rmap_ite, rmap_ok]
  congr 1
  refine rbind_congr fun y => congrArg Except.ok ?_
  simp only [DistancePair.map, H.dlt, DistancePair.new]
  split <;> rfl

theorem mscSwapRec_hom (H : SilHom f g h) (mat : Mat N) (med : List Nat) (b j : Nat) (p : Reco N × Nat) :
    mscSwapRec L' (mat.map f) med b j (Prod.map (Reco.map f) id p) =
      rmap (Prod.map (Reco.map f) h) (mscSwapRec L mat med b j p) := by
  unfold mscSwapRec
  simp only [Prod.map_snd, Prod.map_fst, id_eq, rmap_ite]
  by_cases hj : p.2 = j
  · simp only [hj, if_true, rmap_ok, Prod.map_apply, H.ratZero]
    congr 2
    by_cases hb : p.1.near.i = asU32 b <;> by_cases hs : p.1.seco.i = asU32 b <;>
      simp [hb, hs, Reco.map, DistancePair.map, DistancePair.new, H.distZero]
  · simp only [hj, if_false, Mat.map, bind_rmap, rmap_bind]
    refine rbind_congr fun x => ?_
    have hu : ∀ n s, updateThirdNearest (N := N') ⟨mat.len, mat.isSquare, fun x y => rmap f (mat.get x y)⟩
        med n s b p.2 (f x) = rmap (DistancePair.map f) (updateThirdNearest mat med n s b p.2 x) :=
      fun n s => H.updateThirdNearest_hom mat med n s b p.2 x
    simp only [Reco.map, DistancePair.map, H.dlt, hu, bind_rmap, DistancePair.new, rmap_ite, rmap_bind,
      rok_bind, rmap_ok, H.mscLoss_hom, Prod.map_apply]

theorem mscDoSwap_hom (H : SilHom f g h) (mat : Mat N) (med : List Nat) (data : List (Reco N)) (b j : Nat) :
    mscDoSwap L' (mat.map f) med (data.map (Reco.map f)) b j =
      rmap (Prod.map h (Prod.map id (List.map (Reco.map f)))) (mscDoSwap L mat med data b j) := by
  unfold mscDoSwap
  rw [show (mat.map f).len = mat.len from rfl]
  simp only [rmap_bind]
  refine rbind_congr fun _ => rbind_congr fun _ => rbind_congr fun med => ?_
  have := mapRes_hom (Prod.map (Reco.map f) h) (Prod.map (Reco.map f) (id : Nat → Nat))
    (H.mscSwapRec_hom mat med b j) data.zipIdx
  simp only [zipIdx_hom, this, bind_rmap]
  refine rbind_congr fun rs => ?_
  have h2 : (rs.map (Prod.map (Reco.map f) h)).map (·.2) = (rs.map (·.2)).map h := by simp
  simp only [h2, H.reduceAdd_rhom, unwrapOpt_hom, bind_rmap, rmap_ok]
  refine rbind_congr fun l => ?_
  simp

theorem mscIsOwnMedoid_hom (f : N → N') (med : List Nat) (data : List (Reco N)) (j : Nat) :
    mscIsOwnMedoid med (data.map (Reco.map f)) j = mscIsOwnMedoid med data j := by
  unfold mscIsOwnMedoid
  simp only [idx_hom, bind_rmap]
  rfl

/-- map a state -/
def mapMS (f : N → N') (h : L → L') (s : MSCState N L) : MSCState N' L' :=
  ⟨s.med, s.data.map (Reco.map f), s.rem.map h, h s.loss, s.lastswap, s.nSwaps⟩

theorem mscPass_hom (H : SilHom f g h) (mat : Mat N) (js : List Nat) (s : MSCState N L) :
    mscPass (mat.map f) js (mapMS f h s) = rmap (mapMS f h) (mscPass mat js s) := by
  induction js generalizing s with
  | nil => rfl
  | cons j js ih =>
    unfold mscPass
    simp only [rmap_ite, rmap_ok, rmap_bind]
    rw [show (mapMS f h s).lastswap = s.lastswap from rfl]
    congr 1
    rw [show mscIsOwnMedoid (mapMS f h s).med (mapMS f h s).data j = mscIsOwnMedoid s.med s.data j from
      mscIsOwnMedoid_hom f _ _ _]
    refine rbind_congr fun own => ?_
    rw [show mscFindBestSwap (mat.map f) (mapMS f h s).rem (mapMS f h s).data j = _ from
      H.mscFindBestSwap_hom mat s.rem s.data j]
    simp only [bind_rmap, ih, Prod.map_fst, Prod.map_snd, id_eq, H.rle0]
    congr 1
    refine rbind_congr fun r => ?_
    congr 1
    rw [show mscDoSwap L' (mat.map f) (mapMS f h s).med (mapMS f h s).data r.2 j = _ from
      H.mscDoSwap_hom mat s.med s.data r.2 j]
    simp only [bind_rmap, Prod.map_fst, Prod.map_snd, id_eq, H.mscUpdateRemovalLoss_hom,
      show (mapMS f h s).rem.length = s.rem.length by simp [mapMS]]
    refine rbind_congr fun q => rbind_congr fun rem => ?_
    exact ih ⟨q.2.1, q.2.2, rem, q.1, j, s.nSwaps + 1⟩

theorem mscLoop_hom (H : SilHom f g h) (mat : Mat N) (fuel iter : Nat) (s : MSCState N L) :
    mscLoop (mat.map f) fuel iter (mapMS f h s) =
      rmap (Prod.map (mapMS f h) id) (mscLoop mat fuel iter s) := by
  induction fuel generalizing iter s with
  | zero => rfl
  | succ fuel ih =>
    unfold mscLoop
    rw [show (mat.map f).len = mat.len from rfl]
    simp only [rmap_ite, rmap_ok, rmap_bind, H.mscPass_hom, bind_rmap, ih]
    refine rbind_congr fun s' => ?_
    simp only [mapMS, H.rge_, Prod.map_apply, id_eq]

/-! ## two medoids -/

/-- map the distances of the records for two medoids -/
abbrev m2 (f : N → N') : N × N → N' × N' := Prod.map f f

theorem k2InitRec_hom (H : SilHom f g h) (mat : Mat N) (med : List Nat) (i : Nat) :
    k2InitRec L' (mat.map f) med i = rmap (Prod.map id (Prod.map (m2 f) h)) (k2InitRec L mat med i) := by
  unfold k2InitRec
  simp only [Mat.map, bind_rmap, rmap_bind, rmap_ite, rmap_ok, H.dlt, H.mscLoss_hom, Prod.map_apply, id_eq]

theorem k2InitialAssignment_hom (H : SilHom f g h) (mat : Mat N) (med : List Nat) :
    k2InitialAssignment L' (mat.map f) med =
      rmap (Prod.map h (Prod.map id (List.map (m2 f)))) (k2InitialAssignment L mat med) := by
  unfold k2InitialAssignment
  rw [show (mat.map f).len = mat.len from rfl, show assertSquare (mat.map f) = assertSquare mat from rfl]
  simp only [rmap_bind, mapRes_hom' _ (H.k2InitRec_hom mat med), bind_rmap, rmap_ok]
  refine rbind_congr fun _ => rbind_congr fun _ => rbind_congr fun _ => rbind_congr fun rs => ?_
  have h2 : (rs.map (Prod.map id (Prod.map (m2 f) h))).map (·.2.2) = (rs.map (·.2.2)).map h := by simp
  simp only [h2, H.reduceAdd_rhom, unwrapOpt_hom, bind_rmap]
  refine rbind_congr fun l => ?_
  simp

theorem k2FindBestSwap_hom (H : SilHom f g h) (mat : Mat N) (data : List (N × N)) (j : Nat) :
    k2FindBestSwap L' (mat.map f) (data.map (m2 f)) j =
      rmap (Prod.map h id) (k2FindBestSwap L mat data j) := by
  have hstep := foldRes_hom (Prod.map h h) (Prod.map (m2 f) (id : Nat → Nat))
    (step := k2FindStep (L := L) mat j) (step' := k2FindStep (L := L') (mat.map f) j)
    (fun s p => by
      unfold k2FindStep
      simp only [Mat.map, bind_rmap, rmap_bind, rmap_ok, Prod.map_fst, Prod.map_snd, id_eq]
      refine rbind_congr fun x => ?_
      simp only [H.dlt, H.mscLoss_hom, ← apply_ite h, ← H.ratAdd, Prod.map_apply])
    (RLoss.zero, RLoss.zero) data.zipIdx
  unfold k2FindBestSwap
  simp only [Prod.map_apply, H.ratZero] at hstep
  simp only [zipIdx_hom, hstep, bind_rmap, rmap_bind, Prod.map_fst, Prod.map_snd, rmap_ok]
  refine rbind_congr fun pl => ?_
  rw [show [h pl.1, h pl.2] = [pl.1, pl.2].map h from rfl, H.findMin_rhom, bind_rmap]
  rfl

theorem k2SwapRec_hom (H : SilHom f g h) (mat : Mat N) (b j : Nat) (p : (Nat × (N × N)) × Nat) :
    k2SwapRec L' (mat.map f) b j (Prod.map (Prod.map id (m2 f)) id p) =
      rmap (Prod.map id (Prod.map (m2 f) h)) (k2SwapRec L mat b j p) := by
  unfold k2SwapRec
  simp only [Mat.map, bind_rmap, rmap_bind, rmap_ite, rmap_ok, H.dlt, H.deq, H.mscLoss_hom, Prod.map_apply,
    Prod.map_fst, Prod.map_snd, id_eq, H.distZero, H.ratZero]

theorem k2DoSwap_hom (H : SilHom f g h) (mat : Mat N) (med assi : List Nat) (data : List (N × N)) (b j : Nat) :
    k2DoSwap L' (mat.map f) med assi (data.map (m2 f)) b j =
      rmap (Prod.map h (Prod.map id (Prod.map id (List.map (m2 f))))) (k2DoSwap L mat med assi data b j) := by
  unfold k2DoSwap
  rw [show (mat.map f).len = mat.len from rfl]
  have hz : assi.zip (data.map (m2 f)) = (assi.zip data).map (Prod.map id (m2 f)) := by
    rw [← List.map_id assi, List.zip_map, List.map_id]
  have := mapRes_hom _ (Prod.map (Prod.map id (m2 f)) (id : Nat → Nat))
    (H.k2SwapRec_hom mat b j) (assi.zip data).zipIdx
  simp only [hz, zipIdx_hom, this, bind_rmap, rmap_bind, rmap_ok]
  refine rbind_congr fun _ => rbind_congr fun _ => rbind_congr fun med => rbind_congr fun rs => ?_
  have h2 : (rs.map (Prod.map id (Prod.map (m2 f) h))).map (·.2.2) = (rs.map (·.2.2)).map h := by simp
  simp only [h2, H.reduceAdd_rhom, unwrapOpt_hom, bind_rmap]
  refine rbind_congr fun l => ?_
  simp

/-- map a state -/
def mapK2 (f : N → N') (h : L → L') (s : K2State N L) : K2State N' L' :=
  ⟨s.med, s.assi, s.data.map (m2 f), h s.loss, s.lastswap, s.nSwaps⟩

theorem k2Pass_hom (H : SilHom f g h) (mat : Mat N) (js : List Nat) (s : K2State N L) :
    k2Pass (mat.map f) js (mapK2 f h s) = rmap (mapK2 f h) (k2Pass mat js s) := by
  induction js generalizing s with
  | nil => rfl
  | cons j js ih =>
    unfold k2Pass
    simp only [rmap_ite, rmap_ok, rmap_bind]
    rw [show (mapK2 f h s).lastswap = s.lastswap from rfl]
    congr 1
    rw [show k2IsOwnMedoid (mapK2 f h s).med (mapK2 f h s).assi j = k2IsOwnMedoid s.med s.assi j from rfl]
    refine rbind_congr fun own => ?_
    rw [show k2FindBestSwap L' (mat.map f) (mapK2 f h s).data j = _ from
      H.k2FindBestSwap_hom mat s.data j]
    simp only [bind_rmap, ih, Prod.map_fst, Prod.map_snd, id_eq,
      show (mapK2 f h s).loss = h s.loss from rfl, H.rge_]
    congr 1
    refine rbind_congr fun r => ?_
    congr 1
    rw [show k2DoSwap L' (mat.map f) (mapK2 f h s).med (mapK2 f h s).assi (mapK2 f h s).data r.2 j = _ from
      H.k2DoSwap_hom mat s.med s.assi s.data r.2 j]
    simp only [bind_rmap, Prod.map_fst, Prod.map_snd, id_eq]
    refine rbind_congr fun q => ?_
    exact ih ⟨q.2.1, q.2.2.1, q.2.2.2, q.1, j, s.nSwaps + 1⟩

theorem k2Loop_hom (H : SilHom f g h) (mat : Mat N) (fuel iter : Nat) (s : K2State N L) :
    k2Loop (mat.map f) fuel iter (mapK2 f h s) =
      rmap (Prod.map (mapK2 f h) id) (k2Loop mat fuel iter s) := by
  induction fuel generalizing iter s with
  | zero => rfl
  | succ fuel ih =>
    unfold k2Loop
    rw [show (mat.map f).len = mat.len from rfl]
    simp only [rmap_ite, rmap_ok, rmap_bind, H.k2Pass_hom, bind_rmap, ih]
    refine rbind_congr fun s' => ?_
    simp only [mapK2, H.rge_, Prod.map_apply, id_eq]

theorem fastermscK2_hom (H : SilHom f g h) (mat : Mat N) (med : List Nat) (maxiter : Nat) :
    fastermscK2 L' (mat.map f) med maxiter = rmap (SwapResult.map h) (fastermscK2 L mat med maxiter) := by
  unfold fastermscK2
  simp only [rmap_bind, H.k2InitialAssignment_hom, bind_rmap, Prod.map_fst, Prod.map_snd, id_eq, rmap_ok]
  refine rbind_congr fun _ => rbind_congr fun q => ?_
  rw [show (⟨med, q.2.1, q.2.2.map (m2 f), h q.1, (mat.map f).len, 0⟩ : K2State N' L') =
    mapK2 f h ⟨med, q.2.1, q.2.2, q.1, mat.len, 0⟩ from rfl, H.k2Loop_hom, bind_rmap]
  refine rbind_congr fun r => ?_
  simp [SwapResult.map, mapK2, ← H.toSilhouette_hom, Mat.map]

theorem fastermsc_hom (H : SilHom f g h) (mat : Mat N) (med : List Nat) (maxiter : Nat) :
    fastermsc L' (mat.map f) med maxiter =
      rmap (SwapResult.map (if med.length = 1 then g else h)) (fastermsc L mat med maxiter) := by
  unfold fastermsc
  by_cases h1 : med.length = 1
  · simp only [h1, if_true]
    exact H.singleCluster_hom mat med
  · simp only [h1, if_false]
    by_cases h2 : med.length = 2
    · simp only [h2, if_true]
      exact H.fastermscK2_hom mat med maxiter
    · simp only [h2, if_false, rmap_bind, H.mscInitialAssignment_hom, bind_rmap, Prod.map_fst, Prod.map_snd,
        H.mscUpdateRemovalLoss_hom]
      refine rbind_congr fun q => rbind_congr fun rem => ?_
      rw [show (⟨med, q.2.map (Reco.map f), rem.map h, h q.1, (mat.map f).len, 0⟩ : MSCState N' L') =
        mapMS f h ⟨med, q.2, rem, q.1, mat.len, 0⟩ from rfl, H.mscLoop_hom, bind_rmap]
      refine rbind_congr fun r => ?_
      simp [SwapResult.map, mapMS, Reco.map, DistancePair.map, ← H.toSilhouette_hom, Mat.map]

/-! ## FastMSC -/

/-- map a state -/
def mapMP (f : N → N') (h : L → L') (s : MPState N L) : MPState N' L' :=
  ⟨s.med, s.data.map (Reco.map f), h s.loss, s.nSwaps⟩

theorem fastmscScanStep_hom (H : SilHom f g h) (mat : Mat N) (med : List Nat) (data : List (Reco N))
    (rem : List L) (best : L × Nat × Nat) (j : Nat) :
    fastmscScanStep (mat.map f) med (data.map (Reco.map f)) (rem.map h) (Prod.map h id best) j =
      rmap (Prod.map h id) (fastmscScanStep mat med data rem best j) := by
  unfold fastmscScanStep
  simp only [mscIsOwnMedoid_hom, rmap_bind, rmap_ite, rmap_ok, H.mscFindBestSwap_hom, bind_rmap,
    Prod.map_fst, Prod.map_snd, H.rle_]
  refine rbind_congr fun own => ?_
  congr 1
  refine rbind_congr fun r => congrArg Except.ok ?_
  split <;> rfl

theorem fastmscLoop_hom (H : SilHom f g h) (mat : Mat N) (k fuel iter : Nat) (s : MPState N L) :
    fastmscLoop (mat.map f) k fuel iter (mapMP f h s) =
      rmap (Prod.map (mapMP f h) id) (fastmscLoop mat k fuel iter s) := by
  induction fuel generalizing iter s with
  | zero => rfl
  | succ fuel ih =>
    unfold fastmscLoop
    simp only [rmap_ite, rmap_ok, rmap_bind]
    rw [show mscUpdateRemovalLoss L' (mapMP f h s).data k = _ from H.mscUpdateRemovalLoss_hom s.data k,
      bind_rmap]
    refine rbind_congr fun rem => ?_
    have hscan := foldRes_hom' (Prod.map h id) (H.fastmscScanStep_hom mat s.med s.data rem)
      ((RLoss.zero : L), usizeMax, usizeMax) (List.range mat.len)
    rw [Prod.map_apply, H.ratZero, id_eq] at hscan
    rw [show foldRes (fastmscScanStep (mat.map f) (mapMP f h s).med (mapMP f h s).data (rem.map h))
      ((RLoss.zero : L'), usizeMax, usizeMax) (List.range (mat.map f).len) = _ from hscan]
    simp only [bind_rmap, Prod.map_fst, Prod.map_snd, id_eq, H.rgt0]
    refine rbind_congr fun best => ?_
    congr 1
    rw [show mscDoSwap L' (mat.map f) (mapMP f h s).med (mapMP f h s).data best.2.1 best.2.2 = _ from
      H.mscDoSwap_hom mat s.med s.data best.2.1 best.2.2]
    simp only [bind_rmap, Prod.map_fst, Prod.map_snd, id_eq]
    refine rbind_congr fun q => ?_
    simp only [show (mapMP f h s).loss = h s.loss from rfl, H.rge_,
      show (mapMP f h s).nSwaps = s.nSwaps from rfl]
    rw [← ih]
    rfl

theorem fastmscK2ScanStep_hom (H : SilHom f g h) (mat : Mat N) (med assi : List Nat) (data : List (N × N))
    (best : L × Nat × Nat) (j : Nat) :
    fastmscK2ScanStep (mat.map f) med assi (data.map (m2 f)) (Prod.map h id best) j =
      rmap (Prod.map h id) (fastmscK2ScanStep mat med assi data best j) := by
  unfold fastmscK2ScanStep
  simp only [rmap_bind, rmap_ite, rmap_ok, H.k2FindBestSwap_hom, bind_rmap,
    Prod.map_fst, Prod.map_snd, H.rlt_]
  refine rbind_congr fun own => ?_
  congr 1
  refine rbind_congr fun r => congrArg Except.ok ?_
  simp only [id_eq]
  split <;> rfl

theorem fastmscK2Loop_hom (H : SilHom f g h) (mat : Mat N) (k fuel iter : Nat) (s : K2State N L) :
    fastmscK2Loop (mat.map f) k fuel iter (mapK2 f h s) =
      rmap (Prod.map (mapK2 f h) id) (fastmscK2Loop mat k fuel iter s) := by
  induction fuel generalizing iter s with
  | zero => rfl
  | succ fuel ih =>
    unfold fastmscK2Loop
    simp only [rmap_ite, rmap_ok, rmap_bind]
    have hscan := foldRes_hom' (Prod.map h id) (H.fastmscK2ScanStep_hom mat s.med s.assi s.data)
      ((RLoss.zero : L), k, usizeMax) (List.range mat.len)
    rw [Prod.map_apply, H.ratZero, id_eq] at hscan
    rw [show foldRes (fastmscK2ScanStep (mat.map f) (mapK2 f h s).med (mapK2 f h s).assi (mapK2 f h s).data)
      ((RLoss.zero : L'), k, usizeMax) (List.range (mat.map f).len) = _ from hscan]
    simp only [bind_rmap, Prod.map_fst, Prod.map_snd, id_eq, show (mapK2 f h s).loss = h s.loss from rfl,
      H.rlt_]
    refine rbind_congr fun best => ?_
    congr 1
    rw [show k2DoSwap L' (mat.map f) (mapK2 f h s).med (mapK2 f h s).assi (mapK2 f h s).data best.2.1 best.2.2
      = _ from H.k2DoSwap_hom mat s.med s.assi s.data best.2.1 best.2.2]
    simp only [bind_rmap, Prod.map_fst, Prod.map_snd, id_eq, H.rlt_]
    refine rbind_congr fun q => ?_
    rw [← ih]
    rfl

theorem fastmsc_hom (H : SilHom f g h) (mat : Mat N) (med : List Nat) (maxiter : Nat) :
    fastmsc L' (mat.map f) med maxiter =
      rmap (SwapResult.map (if med.length = 1 then g else h)) (fastmsc L mat med maxiter) := by
  unfold fastmsc
  by_cases h1 : med.length = 1
  · simp only [h1, if_true]
    exact H.singleCluster_hom mat med
  · simp only [h1, if_false]
    by_cases h2 : med.length = 2
    · simp only [h2, if_true]
      unfold fastmscK2
      simp only [rmap_bind, H.k2InitialAssignment_hom, bind_rmap, Prod.map_fst, Prod.map_snd, id_eq, rmap_ok]
      refine rbind_congr fun _ => rbind_congr fun q => ?_
      rw [show (⟨med, q.2.1, q.2.2.map (m2 f), h q.1, 0, 0⟩ : K2State N' L') =
        mapK2 f h ⟨med, q.2.1, q.2.2, q.1, 0, 0⟩ from rfl, H.fastmscK2Loop_hom, bind_rmap]
      refine rbind_congr fun r => ?_
      simp [SwapResult.map, mapK2, ← H.toSilhouette_hom, Mat.map]
    · simp only [h2, if_false, rmap_bind, H.mscInitialAssignment_hom, bind_rmap, Prod.map_fst, Prod.map_snd]
      refine rbind_congr fun q => ?_
      rw [show (⟨med, q.2.map (Reco.map f), h q.1, 0⟩ : MPState N' L') =
        mapMP f h ⟨med, q.2, q.1, 0⟩ from rfl, H.fastmscLoop_hom, bind_rmap]
      refine rbind_congr fun r => ?_
      simp [SwapResult.map, mapMP, Reco.map, DistancePair.map, ← H.toSilhouette_hom, Mat.map]

/-! ## PAMMEDSIL -/

/-- what is needed of a step function of `find_best_swap_pammedsil` -/
def StepHom (f : N → N') (h : L → L') (step : Mat N → Nat → Nat → L → Reco N × Nat → Res L)
    (step' : Mat N' → Nat → Nat → L' → Reco N' × Nat → Res L') : Prop :=
  ∀ mat m j a p, step' (mat.map f) m j (h a) (Prod.map (Reco.map f) id p) = rmap h (step mat m j a p)

theorem pmsStep_hom (H : SilHom f g h) : StepHom f h (pmsStep (L := L)) (pmsStep (L := L')) := by
  intro mat m j a p
  unfold pmsStep
  simp only [Mat.map, bind_rmap, rmap_bind, rmap_ite, rmap_ok, Reco.map, DistancePair.map,
    Prod.map_fst, Prod.map_snd, id_eq, H.dlt, H.mscLoss_hom, H.ratSub, H.ratAdd]

theorem pmsStepK2_hom (H : SilHom f g h) : StepHom f h (pmsStepK2 (L := L)) (pmsStepK2 (L := L')) := by
  intro mat m j a p
  unfold pmsStepK2
  simp only [Mat.map, bind_rmap, rmap_bind, rmap_ite, rmap_ok, Reco.map, DistancePair.map,
    Prod.map_fst, Prod.map_snd, id_eq, H.dlt, H.mscLoss_hom, H.ratSub, H.ratAdd]

theorem pmsFindBestSwap_hom (H : SilHom f g h) {step : Mat N → Nat → Nat → L → Reco N × Nat → Res L}
    {step' : Mat N' → Nat → Nat → L' → Reco N' × Nat → Res L'} (hs : StepHom f h step step') (mat : Mat N)
    (med : List Nat) (data : List (Reco N)) (j : Nat) :
    pmsFindBestSwap L' step' (mat.map f) med (data.map (Reco.map f)) j =
      rmap (Prod.map h id) (pmsFindBestSwap L step mat med data j) := by
  have hstep : ∀ (m : Nat) (a : L), foldRes (step' (mat.map f) m j) (h a)
      (data.map (Reco.map f)).zipIdx = rmap h (foldRes (step mat m j) a data.zipIdx) := by
    intro m a
    rw [zipIdx_hom]
    exact foldRes_hom h _ (fun s p => hs mat m j s p) _ _
  unfold pmsFindBestSwap
  simp only [idx_hom, bind_rmap, rmap_bind]
  refine rbind_congr fun r => ?_
  have h0 : ((RLoss.zero : L'), usizeMax) = Prod.map h id ((RLoss.zero : L), usizeMax) := by
    simp [H.ratZero]
  have hcur : mscLoss L' (Reco.map f r).near.d (Reco.map f r).seco.d = h (mscLoss L r.near.d r.seco.d) :=
    H.mscLoss_hom _ _
  rw [h0]
  refine foldRes_hom' (Prod.map h id) (fun s m => ?_) _ _
  simp only [hcur, hstep, bind_rmap, rmap_bind, rmap_ok, Prod.map_fst, H.rgt_]
  refine rbind_congr fun a => congrArg Except.ok ?_
  split <;> rfl

theorem pmsScanStep_hom (H : SilHom f g h) (mat : Mat N) (k : Nat) (med : List Nat) (data : List (Reco N))
    (best : L × Nat × Nat) (j : Nat) :
    pmsScanStep (mat.map f) k med (data.map (Reco.map f)) (Prod.map h id best) j =
      rmap (Prod.map h id) (pmsScanStep mat k med data best j) := by
  unfold pmsScanStep
  by_cases hk : k = 2
  all_goals
    simp only [hk, if_true, if_false, mscIsOwnMedoid_hom, rmap_bind, rmap_ite, rmap_ok,
      H.pmsFindBestSwap_hom H.pmsStep_hom, H.pmsFindBestSwap_hom H.pmsStepK2_hom, bind_rmap, Prod.map_fst,
      Prod.map_snd, H.rle_]
    refine rbind_congr fun own => ?_
    congr 1
    refine rbind_congr fun r => congrArg Except.ok ?_
    split <;> rfl

theorem pmsLoop_hom (H : SilHom f g h) (mat : Mat N) (k fuel iter : Nat) (s : MPState N L) :
    pmsLoop (mat.map f) k fuel iter (mapMP f h s) =
      rmap (Prod.map (mapMP f h) id) (pmsLoop mat k fuel iter s) := by
  induction fuel generalizing iter s with
  | zero => rfl
  | succ fuel ih =>
    unfold pmsLoop
    simp only [rmap_ite, rmap_ok, rmap_bind]
    have hscan := foldRes_hom' (Prod.map h id) (H.pmsScanStep_hom mat k s.med s.data)
      ((RLoss.zero : L), k, usizeMax) (List.range mat.len)
    rw [Prod.map_apply, H.ratZero, id_eq] at hscan
    rw [show foldRes (pmsScanStep (mat.map f) k (mapMP f h s).med (mapMP f h s).data)
      ((RLoss.zero : L'), k, usizeMax) (List.range (mat.map f).len) = _ from hscan]
    simp only [bind_rmap, Prod.map_fst, Prod.map_snd, id_eq, H.rgt0]
    refine rbind_congr fun best => ?_
    congr 1
    rw [show mscDoSwap L' (mat.map f) (mapMP f h s).med (mapMP f h s).data best.2.1 best.2.2 = _ from
      H.mscDoSwap_hom mat s.med s.data best.2.1 best.2.2]
    simp only [bind_rmap, Prod.map_fst, Prod.map_snd, id_eq]
    refine rbind_congr fun q => ?_
    simp only [show (mapMP f h s).loss = h s.loss from rfl, H.rge_,
      show (mapMP f h s).nSwaps = s.nSwaps from rfl]
    rw [← ih]
    rfl

/-- which map applies to the loss of a result with `k` medoids -/
abbrev pick (g h : L → L') (k : Nat) : L → L' := if k = 1 then g else h

theorem pammedsilOptimize_hom (H : SilHom f g h) (mat : Mat N) (med : List Nat) (data : List (Reco N))
    (maxiter : Nat) (loss : L) :
    pammedsilOptimize (mat.map f) med (data.map (Reco.map f)) maxiter (pick g h med.length loss) =
      rmap (SwapResult.map (pick g h med.length)) (pammedsilOptimize mat med data maxiter loss) := by
  unfold pammedsilOptimize pick
  by_cases h1 : med.length = 1
  · simp only [h1, if_true]
    exact H.singleCluster_hom mat med
  · simp only [h1, if_false, rmap_bind]
    rw [show (⟨med, data.map (Reco.map f), h loss, 0⟩ : MPState N' L') =
      mapMP f h ⟨med, data, loss, 0⟩ from rfl, H.pmsLoop_hom, bind_rmap]
    refine rbind_congr fun r => ?_
    simp [SwapResult.map, mapMP, Reco.map, DistancePair.map, ← H.toSilhouette_hom, Mat.map]

theorem pammedsilSwap_hom (H : SilHom f g h) (mat : Mat N) (med : List Nat) (maxiter : Nat) :
    pammedsilSwap L' (mat.map f) med maxiter =
      rmap (SwapResult.map (pick g h med.length)) (pammedsilSwap L mat med maxiter) := by
  unfold pammedsilSwap
  simp only [rmap_bind, H.mscInitialAssignment_hom, bind_rmap, Prod.map_fst, Prod.map_snd]
  refine rbind_congr fun q => ?_
  rw [← H.pammedsilOptimize_hom]
  by_cases h1 : med.length = 1
  · unfold pammedsilOptimize
    simp only [h1, if_true]
  · simp only [pick, h1, if_false]

theorem buildSum_hom (H : SilHom f g h) (mat : Mat N) (near : List N) (i : Nat) :
    buildSum L' (mat.map f) (near.map f) i = rmap g (buildSum L mat near i) := by
  unfold buildSum
  simp only [idx_hom, bind_rmap, rmap_bind]
  refine rbind_congr fun di => ?_
  rw [← H.lossConv, ← H.lossNeg, zipIdx_hom]
  refine foldRes_hom g _ (fun s p => ?_) _ _
  simp only [rmap_ite, rmap_bind, Mat.map, bind_rmap, rmap_ok, Prod.map_fst, Prod.map_snd, id_eq, H.dlt]
  congr 1
  refine rbind_congr fun x => congrArg Except.ok ?_
  split
  · simp only [H.lossAdd, H.lossConv, H.lossSub]
  · rfl

theorem pmsBuildNext_hom (H : SilHom f g h) (mat : Mat N) (near : List N) (k : Nat) :
    pmsBuildNext L' (mat.map f) (near.map f) k = rmap (Prod.map g id) (pmsBuildNext L mat near k) := by
  unfold pmsBuildNext
  have h0 : ((RLoss.zero : L'), k) = Prod.map g id ((RLoss.zero : L), k) := by simp [H.lossZero]
  rw [h0, List.length_map]
  refine foldRes_hom' _ (fun s i => ?_) _ _
  simp only [H.buildSum_hom, bind_rmap, rmap_bind, rmap_ok, Prod.map_fst, H.llt]
  refine rbind_congr fun a => congrArg Except.ok ?_
  split <;> rfl

theorem pmsBuildUpdateRec_hom (H : SilHom f g h) (mat : Mat N) (l c : Nat) (p : Reco N × Nat) :
    pmsBuildUpdateRec (mat.map f) l c (Prod.map (Reco.map f) id p) =
      rmap (Reco.map f) (pmsBuildUpdateRec mat l c p) := by
  unfold pmsBuildUpdateRec
  simp only [rmap_ite, rmap_ok, rmap_bind, Mat.map, bind_rmap, Prod.map_fst, Prod.map_snd, id_eq]
  congr 1
  · simp [Reco.map, DistancePair.map, DistancePair.new, H.distZero]
  · refine rbind_congr fun x => ?_
    simp only [Reco.map, DistancePair.map, DistancePair.new, H.dlt]

theorem pmsBuildLoss_hom (H : SilHom f g h) (data : List (Reco N)) :
    pmsBuildLoss L' (data.map (Reco.map f)) = h (pmsBuildLoss L data) := by
  unfold pmsBuildLoss
  rw [← H.ratZero]
  generalize (RLoss.zero : L) = a
  induction data generalizing a with
  | nil => rfl
  | cons p xs ih =>
    rw [List.map_cons, List.foldl_cons, List.foldl_cons, ← ih]
    simp only [Reco.map, DistancePair.map, H.ratAdd, H.mscLoss_hom]

theorem pmsBuildLoop_hom (H : SilHom f g h) (mat : Mat N) (k : Nat) (ls meds : List Nat) (data : List (Reco N))
    (loss : L) (hne : meds ≠ []) :
    pmsBuildLoop (mat.map f) k ls meds (data.map (Reco.map f)) (pick g h meds.length loss) =
      rmap (fun r => (r.1, r.2.1.map (Reco.map f), pick g h r.1.length r.2.2))
        (pmsBuildLoop mat k ls meds data loss) := by
  induction ls generalizing meds data loss with
  | nil => rfl
  | cons l ls ih =>
    unfold pmsBuildLoop
    have hnear : (data.map (Reco.map f)).map (·.near.d) = (data.map (·.near.d)).map f := by
      simp [Reco.map, DistancePair.map]
    simp only [hnear, H.pmsBuildNext_hom, bind_rmap, rmap_bind, rmap_ite, rmap_ok, Prod.map_fst, Prod.map_snd,
      id_eq, H.lge0]
    refine rbind_congr fun best => ?_
    congr 1
    have := mapRes_hom (Reco.map f) (Prod.map (Reco.map f) (id : Nat → Nat))
      (H.pmsBuildUpdateRec_hom mat l best.2) data.zipIdx
    simp only [zipIdx_hom, this, bind_rmap, H.pmsBuildLoss_hom]
    refine rbind_congr fun data' => ?_
    rw [← ih _ _ _ (by simp)]
    have : (meds ++ [best.2]).length ≠ 1 := by
      have := List.length_pos_iff.mpr hne
      simp
      omega
    simp only [pick, this, if_false]

theorem pammedsilBuildInitialize_hom (H : SilHom f g h) (mat : Mat N) (k : Nat) :
    pammedsilBuildInitialize L' (mat.map f) k =
      rmap (fun r => (r.1, r.2.1.map (Reco.map f), pick g h r.1.length r.2.2))
        (pammedsilBuildInitialize L mat k) := by
  unfold pammedsilBuildInitialize
  rw [show (mat.map f).len = mat.len from rfl]
  simp only [rmap_bind, H.buildFirst_hom, bind_rmap, Prod.map_snd, Prod.map_fst, id_eq]
  refine rbind_congr fun best => ?_
  have := mapRes_hom' (Reco.map f) (step := fun j => do
      let d ← mat.get j best.2
      .ok (⟨⟨0, d⟩, ⟨u32Max, RDist.zero⟩, ⟨u32Max, RDist.zero⟩⟩ : Reco N)) (step' := fun j => do
      let d ← (mat.map f).get j best.2
      .ok (⟨⟨0, d⟩, ⟨u32Max, RDist.zero⟩, ⟨u32Max, RDist.zero⟩⟩ : Reco N')) (fun j => by
        simp only [Mat.map, bind_rmap, rmap_bind, rmap_ok, Reco.map, DistancePair.map, H.distZero])
      (List.range mat.len)
  simp only [this, bind_rmap]
  refine rbind_congr fun data => ?_
  rw [← H.pmsBuildLoop_hom mat k _ _ _ _ (by simp)]
  rfl

/-- `pammedsil`: the number of medoids found by BUILD decides which map applies. -/
theorem pammedsil_hom (H : SilHom f g h) (mat : Mat N) (k maxiter : Nat) :
    pammedsil L' (mat.map f) k maxiter = (do
      assertSizes mat k
      let r ← pammedsilBuildInitialize L mat k
      rmap (SwapResult.map (pick g h r.1.length)) (pammedsilOptimize mat r.1 r.2.1 maxiter r.2.2)) := by
  unfold pammedsil
  simp only [H.assertSizes_hom, H.pammedsilBuildInitialize_hom, bind_rmap, H.pammedsilOptimize_hom]

/-! ## DynMSC -/

theorem relabel_hom (f : N → N') (l b : Nat) (p : DistancePair N) :
    relabel l b (p.map f) = (relabel l b p).map f := by
  unfold relabel
  rw [show (p.map f).i = p.i from rfl]
  split <;> rfl

theorem updateThirdNearestWithoutNew_hom (H : SilHom f g h) (mat : Mat N) (med : List Nat) (n s b o : Nat) :
    updateThirdNearestWithoutNew (mat.map f) med n s b o =
      rmap (DistancePair.map f) (updateThirdNearestWithoutNew mat med n s b o) := by
  unfold updateThirdNearestWithoutNew
  rw [show (DistancePair.new b RDist.zero : DistancePair N') = (DistancePair.new b RDist.zero).map f by
    simp [DistancePair.new, DistancePair.map, H.distZero]]
  refine foldRes_hom' (DistancePair.map f) (fun s p => ?_) _ _
  simp only [Mat.map, bind_rmap, rmap_bind, rmap_ite, rmap_ok]
  congr 1
  refine rbind_congr fun y => congrArg Except.ok ?_
  simp only [DistancePair.map, H.dlt, DistancePair.new]
  split <;> rfl

theorem removeMedRec_hom (H : SilHom f g h) (mat : Mat N) (med : List Nat) (l b : Nat) (p : Reco N × Nat) :
    removeMedRec L' (mat.map f) med l b (Prod.map (Reco.map f) id p) =
      rmap (Prod.map (Reco.map f) h) (removeMedRec L mat med l b p) := by
  have hi : ∀ q : DistancePair N, (q.map f).i = q.i := fun _ => rfl
  have hd : ∀ q : DistancePair N, (q.map f).d = f q.d := fun _ => rfl
  unfold removeMedRec
  simp only [Prod.map_fst, Prod.map_snd, id_eq, Reco.map, relabel_hom, hi,
    H.updateThirdNearestWithoutNew_hom]
  by_cases h1 : p.1.near.i = asU32 b
  · simp only [h1, if_true, bind_rmap, rmap_bind, rok_bind, rmap_ok, Prod.map_apply, hd, H.mscLoss_hom]
    rfl
  · by_cases h2 : p.1.seco.i = asU32 b
    · simp only [h1, h2, if_true, if_false, bind_rmap, rmap_bind, rok_bind, rmap_ok, Prod.map_apply, hd,
        H.mscLoss_hom]
      rfl
    · by_cases h3 : p.1.third.i = asU32 b
      · simp only [h1, h2, h3, if_true, if_false, bind_rmap, rmap_bind, rok_bind, rmap_ok, Prod.map_apply, hd,
          H.mscLoss_hom]
        rfl
      · simp only [h1, h2, h3, if_false, rok_bind, rmap_ok, Prod.map_apply, hd, H.mscLoss_hom]
        rfl

theorem removeMed_hom (H : SilHom f g h) (mat : Mat N) (med : List Nat) (data : List (Reco N)) (b : Nat) :
    removeMed L' (mat.map f) med (data.map (Reco.map f)) b =
      rmap (Prod.map h (Prod.map id (List.map (Reco.map f)))) (removeMed L mat med data b) := by
  unfold removeMed
  have hr : ∀ med', mapRes (removeMedRec L' (mat.map f) med' (med.length - 1) b)
      (data.map (Reco.map f)).zipIdx = rmap (List.map (Prod.map (Reco.map f) h))
      (mapRes (removeMedRec L mat med' (med.length - 1) b) data.zipIdx) := by
    intro med'
    rw [zipIdx_hom]
    exact mapRes_hom _ (Prod.map (Reco.map f) (id : Nat → Nat))
      (H.removeMedRec_hom mat med' (med.length - 1) b) data.zipIdx
  have h2 : ∀ rs : List (Reco N × L),
      (rs.map (Prod.map (Reco.map f) h)).map (·.2) = (rs.map (·.2)).map h := by intro rs; simp
  have h3 : ∀ rs : List (Reco N × L),
      (rs.map (Prod.map (Reco.map f) h)).map (·.1) = (rs.map (·.1)).map (Reco.map f) := by intro rs; simp
  by_cases h0 : med.length = 0
  · simp only [h0, if_true]
    rfl
  · simp only [h0, if_false, rmap_bind, hr, bind_rmap, h2, h3, H.reduceAdd_rhom, unwrapOpt_hom, rmap_ok,
      Prod.map_apply, id_eq]

theorem chooseRemoval_hom (H : SilHom f g h) (rem : List L) :
    chooseRemoval (rem.map h) = Prod.map h id (chooseRemoval rem) := by
  unfold chooseRemoval
  rw [zipIdx_hom, show ((RLoss.zero : L'), usizeMax) = Prod.map h id ((RLoss.zero : L), usizeMax) by
    simp [H.ratZero]]
  generalize ((RLoss.zero : L), usizeMax) = a
  induction rem.zipIdx generalizing a with
  | nil => rfl
  | cons p xs ih =>
    rw [List.map_cons, List.foldl_cons, List.foldl_cons, ← ih]
    congr 1
    simp only [Prod.map_fst, Prod.map_snd, id_eq, H.rlt_]
    split <;> rfl

/-- map a state -/
def mapDyn (f : N → N') (h : L → L') (s : DynState N L) : DynState N' L' :=
  ⟨s.med, s.data.map (Reco.map f), s.rem.map h, h s.loss, h s.bestLoss, s.retAssi, s.retMeds, s.retIter,
    s.retSwaps, s.retLoss.map h⟩

theorem dynRound_hom (H : SilHom f g h) (mat : Mat N) (maxiter minK : Nat) (s : DynState N L) :
    dynRound (mat.map f) maxiter minK (mapDyn f h s) = rmap (mapDyn f h) (dynRound mat maxiter minK s) := by
  unfold dynRound
  rw [show (mat.map f).len = mat.len from rfl]
  simp only [show (mapDyn f h s).data = s.data.map (Reco.map f) from rfl,
    show (mapDyn f h s).rem.length = s.rem.length by simp [mapDyn], H.mscUpdateRemovalLoss_hom, bind_rmap,
    rmap_bind, show (mapDyn f h s).med = s.med from rfl, show (mapDyn f h s).loss = h s.loss from rfl]
  refine rbind_congr fun rem => ?_
  rw [show (⟨s.med, s.data.map (Reco.map f), rem.map h, h s.loss, mat.len, 0⟩ : MSCState N' L') =
    mapMS f h ⟨s.med, s.data, rem, s.loss, mat.len, 0⟩ from rfl, H.mscLoop_hom, bind_rmap]
  refine rbind_congr fun r => ?_
  simp only [Prod.map_fst, Prod.map_snd, id_eq, mapMS, H.chooseRemoval_hom, H.toSilhouette_hom,
    show (mapDyn f h s).retLoss = s.retLoss.map h from rfl, setIdx_hom, bind_rmap, H.removeMed_hom,
    List.length_map, show (mapDyn f h s).bestLoss = h s.bestLoss from rfl, H.rgt_, rmap_ite]
  refine rbind_congr fun rl => rbind_congr fun q => ?_
  congr 1
  simp only [rmap_ok, mapDyn]
  congr 2
  · simp [List.eraseIdx_eq_take_drop_succ]
  · split <;> rfl
  · rw [List.map_map]
    rfl

theorem dynLoop_hom (H : SilHom f g h) (mat : Mat N) (maxiter minK fuel : Nat) (s : DynState N L) :
    dynLoop (mat.map f) maxiter minK fuel (mapDyn f h s) =
      rmap (mapDyn f h) (dynLoop mat maxiter minK fuel s) := by
  induction fuel generalizing s with
  | zero => rfl
  | succ fuel ih =>
    unfold dynLoop
    simp only [show (mapDyn f h s).med = s.med from rfl, rmap_ite, H.dynRound_hom, bind_rmap, rmap_bind, ih,
      rmap_ok]

theorem dynFinish_hom (H : SilHom f g h) (mat : Mat N) (maxiter minK : Nat) (s : DynState N L) :
    dynFinish (mat.map f) maxiter minK (mapDyn f h s) =
      rmap (DynResult.map h) (dynFinish mat maxiter minK s) := by
  unfold dynFinish
  have hz : ∀ l : List L, setIdx (l.map h) 0 (RLoss.zero : L') = rmap (List.map h) (setIdx l 0 RLoss.zero) := by
    intro l
    rw [← H.ratZero]
    exact setIdx_hom h l 0 _
  by_cases h2 : minK ≤ 2
  · simp only [h2, if_true, show (mapDyn f h s).med = s.med from rfl, H.fastermscK2_hom, bind_rmap, rmap_bind,
      show (mapDyn f h s).retLoss = s.retLoss.map h from rfl, SwapResult.map, setIdx_hom, rok_bind,
      show (mapDyn f h s).bestLoss = h s.bestLoss from rfl, H.rgt_, hz]
    refine rbind_congr fun r => rbind_congr fun rl => ?_
    by_cases h1 : minK ≤ 1
    · simp only [h1, if_true, rmap_bind, rmap_ok]
      refine rbind_congr fun a => ?_
      simp only [DynResult.map, mapDyn, apply_ite h]
    · simp only [h1, if_false, rmap_ok, DynResult.map, mapDyn, apply_ite h]
  · have h1 : ¬ minK ≤ 1 := by omega
    simp only [h2, h1, if_false, rok_bind, rmap_ok, DynResult.map, mapDyn]

theorem dynmsc_hom (H : SilHom f g h) (mat : Mat N) (med : List Nat) (mink maxiter : Nat) :
    dynmsc L' (mat.map f) med mink maxiter =
      rmap (DynResult.map (pick g h med.length)) (dynmsc L mat med mink maxiter) := by
  unfold dynmsc pick
  rw [show (mat.map f).len = mat.len from rfl]
  by_cases h1 : med.length = 1
  · simp only [h1, if_true, H.chooseMedoid_hom, bind_rmap, rmap_bind]
    rfl
  · simp only [h1, if_false, H.mscInitialAssignment_hom, bind_rmap, rmap_bind, Prod.map_fst, Prod.map_snd]
    refine rbind_congr fun q => ?_
    rw [show (⟨med, q.2.map (Reco.map f), List.replicate med.length RLoss.zero, h q.1, RLoss.zero,
        [0, mat.len], med, 0, 0, List.replicate (med.length - min (max mink 1) med.length + 1) RLoss.zero⟩ :
        DynState N' L') =
      mapDyn f h ⟨med, q.2, List.replicate med.length RLoss.zero, q.1, RLoss.zero,
        [0, mat.len], med, 0, 0, List.replicate (med.length - min (max mink 1) med.length + 1) RLoss.zero⟩ by
      simp [mapDyn, H.ratZero], H.dynLoop_hom, bind_rmap]
    exact rbind_congr fun s => H.dynFinish_hom mat maxiter _ s

/-! ## silhouettes -/

theorem checkedDiv_mean (H : SilHom f g h) (x : L) (m : Nat) :
    checkedDiv (g x) (RLoss.ofU32 m) = g (checkedDiv x (RLoss.ofU32 m)) := by
  unfold checkedDiv
  rw [← H.ratU32, H.rgt0]
  split
  · rename_i hm
    rw [H.distMean _ _ hm, H.ratU32]
  · exact H.lossZero.symm

theorem checkedDiv_rat (H : SilHom f g h) (x y : L) : checkedDiv (g x) (g y) = h (checkedDiv x y) := by
  unfold checkedDiv
  rw [H.lgt0]
  split
  · rw [H.ratDiv]
  · exact H.ratZero.symm

theorem growBuf_hom (H : SilHom f g h) (buf : List (Nat × L)) (a : Nat) :
    growBuf (buf.map (Prod.map id g)) a = (growBuf buf a).map (Prod.map id g) := by
  simp [growBuf, H.lossZero]

theorem silBuf_hom (H : SilHom f g h) (mat : Mat N) (assi : List Nat) (i : Nat) :
    silBuf L' (mat.map f) assi i = rmap (List.map (Prod.map id g)) (silBuf L mat assi i) := by
  unfold silBuf
  refine foldRes_hom' (List.map (Prod.map id g)) (fun s p => ?_) [] _
  unfold silBufStep
  simp only [H.growBuf_hom, rmap_ite, rmap_bind, rmap_ok, Mat.map, bind_rmap, idx_hom]
  congr 1
  refine rbind_congr fun x => rbind_congr fun c => ?_
  rw [← setIdx_hom]
  simp [H.lossAdd, H.lossConv]

theorem foldl_min_hom (H : SilHom f g h) (xs : List L) (a : L) :
    (xs.map g).foldl (fun x y => if rlt y x then y else x) (g a) =
      g (xs.foldl (fun x y => if rlt y x then y else x) a) := by
  induction xs generalizing a with
  | nil => rfl
  | cons x xs ih =>
    rw [List.map_cons, List.foldl_cons, List.foldl_cons, ← ih, H.llt, ← apply_ite g]

theorem silValue_hom (H : SilHom f g h) (buf : List (Nat × L)) (ai : Nat) :
    silValue (buf.map (Prod.map id g)) ai = rmap h (silValue buf ai) := by
  have htmp : (((buf.map (Prod.map id g)).zipIdx.filter (fun p => p.2 ≠ ai)).map
      (fun p => checkedDiv p.1.2 (RLoss.ofU32 p.1.1))) =
      ((buf.zipIdx.filter (fun p => p.2 ≠ ai)).map (fun p => checkedDiv p.1.2 (RLoss.ofU32 p.1.1))).map g := by
    rw [zipIdx_hom, List.filter_map, List.map_map, List.map_map]
    refine List.map_congr_left fun p _ => ?_
    simp [H.checkedDiv_mean]
  unfold silValue
  simp only [idx_hom, bind_rmap, rmap_bind, htmp, Prod.map_fst, Prod.map_snd, id_eq, rmap_ite, rmap_ok]
  refine rbind_congr fun own => ?_
  generalize (buf.zipIdx.filter (fun p => p.2 ≠ ai)).map (fun p => checkedDiv p.1.2 (RLoss.ofU32 p.1.1)) = tmp
  have hh : (tmp.map g).head?.getD RLoss.zero = g (tmp.head?.getD RLoss.zero) := by
    cases tmp <;> simp [H.lossZero]
  rw [hh, ← List.map_tail, H.foldl_min_hom, H.checkedDiv_mean, ← H.lossSub, H.lgt, ← apply_ite g,
    H.checkedDiv_rat, H.ratZero]

theorem silGo_hom (H : SilHom f g h) (mat : Mat N) (assi : List Nat) (samples : Bool) (ps : List (Nat × Nat))
    (lsum : L) (sil : List L) :
    silGo (mat.map f) assi samples ps (h lsum) (sil.map h) =
      rmap (Prod.map h (List.map h)) (silGo mat assi samples ps lsum sil) := by
  induction ps generalizing lsum sil with
  | nil =>
    unfold silGo
    cases samples
    · simp only [Bool.false_eq_true, if_false, rmap_ok, Prod.map_apply, H.ratMean]
    · simp only [if_true, List.length_map, rmap_bind, rmap_ok, Prod.map_apply, H.ratMean]
  | cons p rest ih =>
    unfold silGo
    simp only [H.silBuf_hom, bind_rmap, rmap_bind, List.length_map, rmap_ite, rmap_ok, Prod.map_apply,
      H.ratZero, H.silValue_hom]
    refine rbind_congr fun buf => ?_
    congr 1
    refine rbind_congr fun s => ?_
    cases samples
    · simp only [Bool.false_eq_true, if_false, rok_bind, ← H.ratAdd, ih]
    · simp only [if_true, setIdx_hom, bind_rmap, ← H.ratAdd, ih]

theorem silhouette_hom (H : SilHom f g h) (mat : Mat N) (assi : List Nat) (samples : Bool) :
    silhouette L' (mat.map f) assi samples =
      rmap (Prod.map h (List.map h)) (silhouette L mat assi samples) := by
  unfold silhouette
  rw [show assertSquare (mat.map f) = assertSquare mat from rfl, rmap_bind]
  refine rbind_congr fun _ => ?_
  rw [← H.silGo_hom]
  simp [H.ratZero]

theorem parSilhouette_hom (H : SilHom f g h) (mat : Mat N) (assi : List Nat) :
    parSilhouette L' (mat.map f) assi = rmap h (parSilhouette L mat assi) := by
  unfold parSilhouette
  rw [show assertSquare (mat.map f) = assertSquare mat from rfl, rmap_bind]
  refine rbind_congr fun _ => ?_
  have := mapRes_hom' h (step := fun (p : Nat × Nat) => do
    let buf ← silBuf L mat assi p.2
    silValue buf p.1) (step' := fun (p : Nat × Nat) => do
    let buf ← silBuf L' (mat.map f) assi p.2
    silValue buf p.1) (fun p => by simp only [H.silBuf_hom, bind_rmap, rmap_bind, H.silValue_hom]) assi.zipIdx
  simp only [this, bind_rmap, rmap_bind, rmap_ok]
  refine rbind_congr fun vals => ?_
  rw [← H.ratZero, H.foldl_radd, H.ratMean]

theorem twoNearest_hom (H : SilHom f g h) (mat : Mat N) (meds : List Nat) (i : Nat) :
    twoNearest (mat.map f) meds i = rmap (m2 f) (twoNearest mat meds i) := by
  unfold twoNearest
  simp only [Mat.map, bind_rmap, rmap_bind]
  refine rbind_congr fun m0 => rbind_congr fun d1 => rbind_congr fun m1 => rbind_congr fun d2 => ?_
  rw [show (if rlt (f d1) (f d2) then (f d1, f d2) else (f d2, f d1)) =
    m2 f (if rlt d1 d2 then (d1, d2) else (d2, d1)) by rw [H.dlt]; split <;> rfl]
  refine foldRes_hom' _ (fun s m => ?_) _ _
  simp only [rmap_bind, rmap_ok, Prod.map_fst, Prod.map_snd, H.dlt]
  refine rbind_congr fun d => congrArg Except.ok ?_
  split
  · rfl
  · split <;> rfl

theorem medoidSilStep_hom (H : SilHom f g h) (mat : Mat N) (meds : List Nat) (samples : Bool) (st : L × List L)
    (i : Nat) :
    medoidSilStep (mat.map f) meds samples (Prod.map h (List.map h) st) i =
      rmap (Prod.map h (List.map h)) (medoidSilStep mat meds samples st i) := by
  unfold medoidSilStep
  simp only [H.twoNearest_hom, bind_rmap, rmap_bind, Prod.map_fst, Prod.map_snd, H.distIsZero, rmap_ite, rmap_ok]
  refine rbind_congr fun best => ?_
  congr 1
  cases samples
  · simp only [Bool.false_eq_true, if_false, rok_bind, Prod.map_apply, H.ratAdd, H.ratDiv, H.lossConv]
  · simp only [if_true, ← H.lossConv, ← H.ratDiv, ← H.ratOne, ← H.ratSub, setIdx_hom, bind_rmap, Prod.map_apply,
      H.ratAdd]

theorem medoidSilhouette_hom (H : SilHom f g h) (mat : Mat N) (meds : List Nat) (samples : Bool) :
    medoidSilhouette L' (mat.map f) meds samples =
      rmap (Prod.map h (List.map h)) (medoidSilhouette L mat meds samples) := by
  unfold medoidSilhouette
  rw [show assertSquare (mat.map f) = assertSquare mat from rfl, show (mat.map f).len = mat.len from rfl]
  simp only [rmap_bind, rmap_ite]
  refine rbind_congr fun _ => rbind_congr fun _ => ?_
  have hrep : List.replicate (if samples then mat.len else 0) (RLoss.one : L') =
      (List.replicate (if samples then mat.len else 0) (RLoss.one : L)).map h := by simp [H.ratOne]
  congr 1
  · simp [H.ratOne]
  · refine rbind_congr fun _ => ?_
    have := foldRes_hom' (Prod.map h (List.map h)) (H.medoidSilStep_hom mat meds samples)
      (RLoss.zero, List.replicate (if samples then mat.len else 0) RLoss.one) (List.range mat.len)
    rw [Prod.map_apply, H.ratZero, ← hrep] at this
    simp only [this, bind_rmap, rmap_ok, Prod.map_fst, Prod.map_snd, Prod.map_apply, H.ratSub, H.ratOne,
      H.ratMean]

/-! ## PAMSIL -/

/-- map a state -/
def mapPS (h : L → L') (s : PSScan L) : PSScan L' := ⟨s.med, s.assi, Prod.map h id s.best⟩

theorem pamsilScanStep_hom (H : SilHom f g h) (mat : Mat N) (m medm : Nat) (st : PSScan L) (j : Nat) :
    pamsilScanStep (mat.map f) m medm (mapPS h st) j =
      rmap (mapPS h) (pamsilScanStep mat m medm st j) := by
  unfold pamsilScanStep
  simp only [rmap_ite, rmap_ok, rmap_bind, H.assignNearest_hom, H.silhouette_hom, bind_rmap, Prod.map_fst,
    Prod.map_snd, id_eq, show (mapPS h st).assi = st.assi from rfl, show (mapPS h st).med = st.med from rfl,
    show (mapPS h st).best = Prod.map h id st.best from rfl, H.rle_]
  congr 1
  refine rbind_congr fun a => rbind_congr fun mm => ?_
  congr 1
  refine rbind_congr fun med => rbind_congr fun q => rbind_congr fun r => congrArg Except.ok ?_
  simp only [mapPS]
  congr 1
  split <;> rfl

theorem pamsilScanMed_hom (H : SilHom f g h) (mat : Mat N) (st : PSScan L) (m : Nat) :
    pamsilScanMed (mat.map f) (mapPS h st) m = rmap (mapPS h) (pamsilScanMed mat st m) := by
  unfold pamsilScanMed
  rw [show (mat.map f).len = mat.len from rfl]
  simp only [show (mapPS h st).med = st.med from rfl, rmap_bind]
  refine rbind_congr fun medm => ?_
  rw [foldRes_hom' (mapPS h) (H.pamsilScanStep_hom mat m medm), bind_rmap]
  rfl

theorem pamsilLoop_hom (H : SilHom f g h) (mat : Mat N) (k fuel iter : Nat) (sil : L) (med assi : List Nat)
    (nSwaps : Nat) :
    pamsilLoop (mat.map f) k fuel iter (h sil) med assi nSwaps =
      rmap (Prod.map h id) (pamsilLoop mat k fuel iter sil med assi nSwaps) := by
  induction fuel generalizing iter sil med assi nSwaps with
  | zero => rfl
  | succ fuel ih =>
    unfold pamsilLoop
    rw [show (⟨med, assi, ((RLoss.zero : L'), k, usizeMax)⟩ : PSScan L') =
      mapPS h ⟨med, assi, ((RLoss.zero : L), k, usizeMax)⟩ by simp [mapPS, H.ratZero],
      foldRes_hom' (mapPS h) (H.pamsilScanMed_hom mat)]
    simp only [bind_rmap, rmap_bind, rmap_ite, rmap_ok, mapPS, Prod.map_fst, Prod.map_snd, id_eq, H.rle_, ih,
      Prod.map_apply]

theorem pamsilOptimize_hom (H : SilHom f g h) (mat : Mat N) (med assi : List Nat) (maxiter : Nat) :
    pamsilOptimize L' (mat.map f) med assi maxiter =
      rmap (SwapResult.map (pick g h med.length)) (pamsilOptimize L mat med assi maxiter) := by
  unfold pamsilOptimize pick
  by_cases h1 : med.length = 1
  · simp only [h1, if_true, H.chooseMedoid_hom, bind_rmap, rmap_bind]
    rfl
  · simp only [h1, if_false, H.silhouette_hom, bind_rmap, rmap_bind, Prod.map_fst, H.pamsilLoop_hom,
      Prod.map_snd, id_eq, H.assignNearest_hom, rmap_ok, SwapResult.map]

theorem pamsilSwap_hom (H : SilHom f g h) (mat : Mat N) (med : List Nat) (maxiter : Nat) :
    pamsilSwap L' (mat.map f) med maxiter =
      rmap (SwapResult.map (pick g h med.length)) (pamsilSwap L mat med maxiter) := by
  unfold pamsilSwap
  simp only [rmap_bind, H.assignNearest_hom, bind_rmap, Prod.map_snd, id_eq, H.pamsilOptimize_hom]

theorem psBuildLoop_hom (H : SilHom f g h) (mat : Mat N) (k fuel : Nat) (meds : List Nat) (near : List N) :
    psBuildLoop L' (mat.map f) k fuel meds (near.map f) = psBuildLoop L mat k fuel meds near := by
  induction fuel generalizing meds near with
  | zero => rfl
  | succ fuel ih =>
    unfold psBuildLoop
    simp only [H.buildNext_hom, bind_rmap, Prod.map_fst, Prod.map_snd, id_eq, H.lle0]
    refine rbind_congr fun best => rbind_congr fun _ => ?_
    have := mapRes_hom f (Prod.map f (id : Nat → Nat)) (step := psBuildUpdate mat best.2)
      (step' := psBuildUpdate (mat.map f) best.2) (fun p => by
        unfold psBuildUpdate
        simp only [rmap_ite, rmap_ok, rmap_bind, Mat.map, bind_rmap, Prod.map_fst, Prod.map_snd, id_eq, H.dlt,
          H.distZero, apply_ite f]) near.zipIdx
    simp only [zipIdx_hom, this, bind_rmap, ih]

theorem pamsilBuildInitialize_hom (H : SilHom f g h) (mat : Mat N) (k : Nat) :
    pamsilBuildInitialize L' (mat.map f) k = pamsilBuildInitialize L mat k := by
  unfold pamsilBuildInitialize
  rw [show (mat.map f).len = mat.len from rfl]
  simp only [H.buildFirst_hom, bind_rmap, Prod.map_snd, id_eq]
  refine rbind_congr fun best => ?_
  rw [mapRes_hom' f (step := fun j => mat.get j best.2) (step' := fun j => (mat.map f).get j best.2)
    (fun _ => rfl), bind_rmap]
  exact rbind_congr fun near => H.psBuildLoop_hom mat k _ _ _

omit [RFrom N' L'] [RLoss L'] [RDist N'] in
theorem psBuildLoop_length (mat : Mat N) (k fuel : Nat) (meds : List Nat) (near : List N) {r : List Nat}
    (hr : psBuildLoop L mat k fuel meds near = .ok r) : r.length = meds.length + fuel := by
  induction fuel generalizing meds near with
  | zero => cases hr; rfl
  | succ fuel ih =>
    unfold psBuildLoop at hr
    cases h1 : buildNext L mat near k with
    | error e => rw [h1] at hr; cases hr
    | ok best =>
      rw [h1, rok_bind] at hr
      cases h2 : rassert (rle best.1 RLoss.zero) "assertion failed: best.0 <= L::zero()" with
      | error e => rw [h2] at hr; cases hr
      | ok _ =>
        rw [h2, rok_bind] at hr
        cases h3 : mapRes (psBuildUpdate mat best.2) near.zipIdx with
        | error e => rw [h3] at hr; cases hr
        | ok near' =>
          rw [h3, rok_bind] at hr
          rw [ih _ _ hr, List.length_append, List.length_singleton]
          omega

omit [RFrom N' L'] [RLoss L'] [RDist N'] [RFrom N L] [RLoss L] in
theorem pos_of_assertSizes {mat : Mat N} {k : Nat} {u : Unit} (h0 : assertSizes mat k = .ok u) : 0 < k := by
  rcases Nat.eq_zero_or_pos k with rfl | hk
  · unfold assertSizes at h0
    cases h1 : assertSquare mat with
    | error e => rw [h1] at h0; cases h0
    | ok _ =>
      rw [h1, rok_bind] at h0
      cases h2 : rassert (mat.len ≤ u32Max) "N is too large" with
      | error e => rw [h2] at h0; cases h0
      | ok _ => rw [h2, rok_bind] at h0; cases h0
  · exact hk

theorem pamsil_hom (H : SilHom f g h) (mat : Mat N) (k maxiter : Nat) :
    pamsil L' (mat.map f) k maxiter =
      rmap (SwapResult.map (pick g h k)) (pamsil L mat k maxiter) := by
  unfold pamsil
  rw [show (mat.map f).len = mat.len from rfl]
  simp only [rmap_bind, H.assertSizes_hom, H.pamsilBuildInitialize_hom, H.pamsilOptimize_hom]
  cases h0 : assertSizes mat k with
  | error e => rfl
  | ok _ =>
    rw [rok_bind, rok_bind]
    cases h1 : pamsilBuildInitialize L mat k with
    | error e => rfl
    | ok meds =>
      rw [rok_bind, rok_bind]
      have hlen : (meds.length = 1) = (k = 1) := by
        unfold pamsilBuildInitialize at h1
        cases h2 : buildFirst L mat k with
        | error e => rw [h2] at h1; cases h1
        | ok best =>
          rw [h2, rok_bind] at h1
          cases h3 : mapRes (fun j => mat.get j best.2) (List.range mat.len) with
          | error e => rw [h3] at h1; cases h1
          | ok near =>
            rw [h3, rok_bind] at h1
            have := psBuildLoop_length _ _ _ _ _ h1
            have hk : 0 < k := pos_of_assertSizes h0
            rw [List.length_singleton] at this
            rw [this]
            exact propext (by omega)
      simp only [pick, hlen]

end SilHom
end KMedoids
