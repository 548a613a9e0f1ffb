import Verif.Model.Checked
import Verif.Proofs.BoundedPar

/-! # Overflow checks that never fire

`KHom f ι U B` says that the operations of a loss type with overflow checks do not panic and are exact on (images under `ι` of)
integers of magnitude at most `B`, and that all distances convert to integers between `0` and `U`. If `3 (n + 1) U ≤ B`, the PAM
family never leaves this range, hence no check fires. The proofs follow those of `Bounded.lean`. -/

set_option linter.unusedSectionVars false

namespace KMedoids

open RFrom (conv)
open BHom (getB ofEq isOwnB mapFP mapP FPB)

/-- A loss type that is exact on integers up to `B`, with distances up to `U`, and does not panic there. -/
structure KHom {N N' L' : Type} [RDist N] [RFrom N ℤ] [RDist N'] [KLoss L'] [RFrom N' L']
    (f : N → N') (ι : ℤ → L') (U B : ℤ) : Prop where
  distCmp : ∀ x y, pcmp (f x) (f y) = pcmp x y
  distZero : f RDist.zero = RDist.zero
  lossCmp : ∀ x y, Bd B x → Bd B y → pcmp (ι x) (ι y) = some (compare x y)
  lossZero : ι 0 = KLoss.zero
  lossAdd : ∀ x y, Bd B x → Bd B y → Bd B (x + y) → KLoss.addK (ι x) (ι y) = .ok (ι (x + y))
  lossSub : ∀ x y, Bd B x → Bd B y → Bd B (x - y) → KLoss.subK (ι x) (ι y) = .ok (ι (x - y))
  lossNeg : ∀ x, Bd B x → Bd B (-x) → KLoss.negK (ι x) = .ok (ι (-x))
  lossConv : ∀ x, ι (conv x) = conv (f x)
  convNonneg : ∀ x : N, 0 ≤ (conv x : ℤ)
  convLe : ∀ x : N, (conv x : ℤ) ≤ U

variable {N N' L' : Type} [RDist N] [RFrom N ℤ] [RDist N'] [KLoss L'] [RFrom N' L']
variable {f : N → N'} {ι : ℤ → L'} {U B : ℤ}

namespace KHom

theorem dlt (H : KHom f ι U B) (x y : N) : rlt (f x) (f y) = rlt x y := by simp only [rlt, H.distCmp]

theorem llt (H : KHom f ι U B) {x y : ℤ} (hx : Bd B x) (hy : Bd B y) : rlt (ι x) (ι y) = rlt x y := by
  simp only [rlt, H.lossCmp x y hx hy]; rfl

theorem lge (H : KHom f ι U B) {x y : ℤ} (hx : Bd B x) (hy : Bd B y) : rge (ι x) (ι y) = rge x y := by
  simp only [rge, H.lossCmp x y hx hy]; rfl

theorem uNonneg (H : KHom f ι U B) : 0 ≤ U := le_trans (H.convNonneg RDist.zero) (H.convLe RDist.zero)

theorem bdConv (H : KHom f ι U B) (x : N) : Bd U (conv x : ℤ) := by
  have h1 := H.convNonneg x; have h2 := H.convLe x; have := H.uNonneg
  constructor <;> linarith

theorem bdDiff (H : KHom f ι U B) (x y : N) : Bd U ((conv x : ℤ) - conv y) := by
  have h1 := H.convNonneg x; have h2 := H.convLe x; have h3 := H.convNonneg y; have h4 := H.convLe y
  constructor <;> linarith

theorem rbind_assoc {α β γ : Type} (x : Res α) (g : α → Res β) (h : β → Res γ) :
    (x >>= g) >>= h = x >>= fun a => g a >>= h := by
  cases x <;> rfl

/-- difference of two distances -/
theorem subConv (H : KHom f ι U B) (hB : U ≤ B) (x y : N) :
    KLoss.subK (conv (f x) : L') (conv (f y)) = .ok (ι ((conv x : ℤ) - conv y)) := by
  rw [← H.lossConv, ← H.lossConv]
  exact H.lossSub _ _ ((H.bdConv x).mono hB) ((H.bdConv y).mono hB) ((H.bdDiff x y).mono hB)

theorem addB (H : KHom f ι U B) {x y C D : ℤ} (hx : Bd C x) (hy : Bd D y) (hC : 0 ≤ C) (hD : 0 ≤ D)
    (h : C + D ≤ B) : KLoss.addK (ι x) (ι y) = .ok (ι (x + y)) :=
  H.lossAdd x y (hx.mono (by linarith)) (hy.mono (by linarith)) ((hx.add hy).mono h)

/-- an addition -/
theorem addHomB (H : KHom f ι U B) {x y C D : ℤ} (hx : Bd C x) (hy : Bd D y) (hC : 0 ≤ C) (hD : 0 ≤ D)
    (h : C + D ≤ B) : HomB ι (Bd (C + D)) (.ok (RLoss.add x y)) (KLoss.addK (ι x) (ι y)) := by
  rw [H.addB hx hy hC hD h]
  exact HomB.ok rfl (hx.add hy)

theorem foldl_addB (H : KHom f ι U B) {xs : List ℤ} (hxs : ∀ x ∈ xs, Bd U x) {t : Nat} {a : ℤ}
    (ha : Bd ((t : ℤ) * U) a) (hT : ((t + xs.length : Nat) : ℤ) * U ≤ B) :
    foldRes KLoss.addK (ι a) (xs.map ι) = .ok (ι (xs.foldl (· + ·) a)) ∧
      Bd (((t + xs.length : Nat) : ℤ) * U) (xs.foldl (· + ·) a) := by
  have hU := H.uNonneg
  induction xs generalizing t a with
  | nil => exact ⟨rfl, ha⟩
  | cons x xs ih =>
    have hx := hxs x (by simp)
    have hlen : t + (x :: xs).length = t + 1 + xs.length := by simp only [List.length_cons]; omega
    rw [hlen] at hT ⊢
    have h1 : ((t + 1 : Nat) : ℤ) * U ≤ ((t + 1 + xs.length : Nat) : ℤ) * U := mulU hU (by omega)
    have hs := succU U t
    have ht : 0 ≤ (t : ℤ) * U := mul_nonneg (by positivity) hU
    have := ih (fun y hy => hxs y (by simp [hy])) (t := t + 1) (a := a + x) (by rw [hs]; exact ha.add hx) hT
    rw [List.map_cons, List.foldl_cons]
    simp only [foldRes]
    rw [H.addB ha hx ht hU (by linarith), ok_bind]
    exact this

theorem reduceB (H : KHom f ι U B) {xs : List ℤ} (hxs : ∀ x ∈ xs, Bd U x) (hT : (xs.length : ℤ) * U ≤ B) :
    reduceAddK (xs.map ι) = .ok ((reduceAdd xs).map ι) ∧ ∀ s, reduceAdd xs = some s → Bd ((xs.length : ℤ) * U) s := by
  cases xs with
  | nil => exact ⟨rfl, fun s h => by cases h⟩
  | cons x xs =>
    have h := H.foldl_addB (xs := xs) (fun y hy => hxs y (by simp [hy])) (t := 1) (a := x)
      (by simpa using hxs x (by simp)) (by rw [Nat.add_comm]; exact hT)
    refine ⟨?_, fun s hs => ?_⟩
    · simp only [List.map_cons, reduceAddK]
      rw [h.1]; rfl
    cases hs
    rw [Nat.add_comm] at h
    exact h.2

theorem unwrapB (H : KHom f ι U B) {xs : List ℤ} (hxs : ∀ x ∈ xs, Bd U x) (hT : (xs.length : ℤ) * U ≤ B) :
    HomB ι (Bd ((xs.length : ℤ) * U)) (unwrapOpt (reduceAdd xs)) (reduceAddK (xs.map ι) >>= unwrapOpt) := by
  obtain ⟨h1, h2⟩ := H.reduceB hxs hT
  rw [h1, ok_bind, unwrapOpt_hom]
  refine ⟨rfl, fun a ha => ?_⟩
  cases hr : reduceAdd xs with
  | none => rw [hr] at ha; cases ha
  | some s => rw [hr] at ha; cases ha; exact h2 _ hr

theorem addAtB (H : KHom f ι U B) {l : List ℤ} {C V v : ℤ} (hl : ∀ x ∈ l, Bd C x) (hv : Bd V v)
    (hC : 0 ≤ C) (hV : 0 ≤ V) (hB : C + V ≤ B) (i : Nat) :
    HomB (List.map ι) (fun l' => ∀ x ∈ l', Bd (C + V) x) (addAt l i v) (addAtK (l.map ι) i (ι v)) := by
  unfold addAt addAtK
  rw [idx_hom]
  have : HomB ι (Bd C) (idx l i) (rmap ι (idx l i)) := by
    refine ⟨rfl, fun a ha => hl a ?_⟩
    unfold idx at ha
    cases h : l[i]? with
    | none => rw [h] at ha; cases ha
    | some b => rw [h] at ha; cases ha; exact List.mem_of_getElem? h
  refine this.bind fun a ha => ?_
  rw [H.addB ha hv hC hV hB, ok_bind]
  refine HomB.ok ?_ ?_
  · rw [← List.map_set]; rfl
  · intro x hx
    rcases List.mem_or_eq_of_mem_set hx with h | h
    · exact (hl x h).mono (by linarith)
    · rw [h]; exact ha.add hv

theorem findMinGoB (H : KHom f ι U B) {xs : List ℤ} {C : ℤ} (hC : C ≤ B) (hxs : ∀ x ∈ xs, Bd C x) (i : Nat)
    {b : Nat × ℤ} (hb : Bd C b.2) :
    findMinGo (xs.map ι) i (Prod.map id ι b) = Prod.map id ι (findMinGo xs i b) ∧
      Bd C (findMinGo xs i b).2 := by
  induction xs generalizing i b with
  | nil => exact ⟨rfl, hb⟩
  | cons x xs ih =>
    have hx := hxs x (by simp)
    have ih' := fun {b : Nat × ℤ} => ih (fun y hy => hxs y (by simp [hy])) (i + 1) (b := b)
    simp only [List.map_cons, findMinGo, Prod.map_snd, H.llt (hx.mono hC) (hb.mono hC)]
    by_cases h : rlt x b.2 = true
    · simp only [h, if_true]; exact ih' (b := (i, x)) hx
    · simp only [h]; exact ih' hb

theorem findMinB (H : KHom f ι U B) {xs : List ℤ} {C : ℤ} (hC : C ≤ B) (hxs : ∀ x ∈ xs, Bd C x) :
    HomB (Prod.map id ι) (fun r => Bd C r.2) (findMin xs) (findMin (xs.map ι)) := by
  cases xs with
  | nil => exact ⟨rfl, fun a h => by cases h⟩
  | cons x xs =>
    obtain ⟨h1, h2⟩ := H.findMinGoB (xs := xs) hC (fun y hy => hxs y (by simp [hy])) 1 (b := (0, x)) (hxs x (by simp))
    exact ⟨congrArg Except.ok h1, fun a ha => by cases ha; exact h2⟩

/-! ## util -/

theorem partitionSumB (H : KHom f ι U B) (mat : Mat N) (assi : List Nat) (hB : (assi.length : ℤ) * U ≤ B)
    (m c : Nat) :
    HomB ι (Bd ((assi.length : ℤ) * U)) (partitionSum ℤ mat assi m c) (partitionSumK L' (mat.map f) assi m c) := by
  have hU := H.uNonneg
  unfold partitionSum partitionSumK
  rw [← H.lossZero]
  have := HomB.fold (F := ι) (G := id) (fun t a => Bd ((t : ℤ) * U) a) (T := assi.length)
    (step := fun (sum : ℤ) (p : Nat × Nat) =>
    if p.2 ≠ c ∧ p.1 = m then do
      let x ← mat.get c p.2
      .ok (RLoss.add sum (conv x))
    else .ok sum) (step' := fun (sum : L') (p : Nat × Nat) =>
    if p.2 ≠ c ∧ p.1 = m then do
      let x ← (mat.map f).get c p.2
      KLoss.addK sum (conv x)
    else .ok sum) (fun t a p ht ha => by
      have h1 := succU U t
      have h2 : ((t + 1 : Nat) : ℤ) * U ≤ _ := mulU hU (show t + 1 ≤ assi.length by omega)
      have h3 : 0 ≤ (t : ℤ) * U := mul_nonneg (by positivity) hU
      refine HomB.ite Iff.rfl (fun _ => (getB mat _ _).bind fun x _ => ?_) fun _ => HomB.ok rfl ?_
      · rw [← H.lossConv, h1]
        exact H.addHomB ha (H.bdConv x) h3 hU (by linarith)
      · exact ha.mono (by linarith)) (xs := assi.zipIdx) (t := 0) (s := 0) (Bd.zero (by simp)) (by simp)
  simp only [List.map_id, List.length_zipIdx, Nat.zero_add] at this
  exact this

theorem chooseMedoidB (H : KHom f ι U B) (mat : Mat N) (assi med : List Nat)
    (hB : (assi.length : ℤ) * U ≤ B) (m : Nat) :
    HomB (Prod.map (Prod.map id ι) id) (fun r => Bd ((assi.length : ℤ) * U) r.1.2)
      (chooseMedoidWithinPartition ℤ mat assi med m) (chooseMedoidWithinPartitionK L' (mat.map f) assi med m) := by
  unfold chooseMedoidWithinPartition chooseMedoidWithinPartitionK
  refine (HomB.same _).bind fun first _ => (H.partitionSumB mat assi hB m first).bind fun sumb hs => ?_
  have hfold : HomB (Prod.map id ι) (fun s : Nat × ℤ => Bd ((assi.length : ℤ) * U) s.2)
      (foldRes (chooseMedoidStep mat assi m first) (first, sumb) assi.zipIdx)
      (foldRes (chooseMedoidStepK (mat.map f) assi m first) (Prod.map id ι (first, sumb)) assi.zipIdx) := by
    refine HomB.foldInv _ (fun s p hs => ?_) hs
    unfold chooseMedoidStep chooseMedoidStepK
    refine HomB.ite Iff.rfl (fun _ => (H.partitionSumB mat assi hB m p.2).bind fun a ha => ?_)
      fun _ => HomB.ok rfl hs
    simp only [Prod.map_snd, H.llt (ha.mono hB) (hs.mono hB)]
    by_cases h : rlt a s.2 = true
    · simp only [h, if_true]; exact HomB.ok rfl ha
    · simp only [h]; exact HomB.ok rfl hs
  refine hfold.bind fun r hr => ?_
  exact (HomB.same (setIdx med m r.1)).bind fun med _ => HomB.ok rfl hr

theorem singleClusterB (H : KHom f ι U B) (mat : Mat N) (med : List Nat) (hB : (mat.len : ℤ) * U ≤ B) :
    HomB (SwapResult.map ι) (fun r => Bd ((mat.len : ℤ) * U) r.loss)
      (singleCluster ℤ mat med) (singleClusterK L' (mat.map f) med) := by
  unfold singleCluster singleClusterK
  have := H.chooseMedoidB mat (List.replicate mat.len 0) med (by rwa [List.length_replicate]) 0
  rw [List.length_replicate] at this
  exact this.bind fun r hr => HomB.ok rfl hr

/-! ## FasterPAM -/

/-- the parts that compare and copy distances only -/
theorem initAssignRecB (H : KHom f ι U B) (mat : Mat N) (med : List Nat) (c i : Nat) :
    initAssignRec (mat.map f) med c i = rmap (Rec.map f) (initAssignRec mat med c i) := by
  unfold initAssignRec
  simp only [Mat.map, bind_rmap, rmap_bind]
  refine rbind_congr fun d => ?_
  have : (⟨⟨0, f d⟩, ⟨u32Max, RDist.zero⟩⟩ : Rec N') = Rec.map f ⟨⟨0, d⟩, ⟨u32Max, RDist.zero⟩⟩ := by
    simp [Rec.map, DistancePair.map, H.distZero]
  rw [this]
  refine foldRes_hom' _ (fun s p => ?_) _ _
  unfold initAssignStep
  simp only [bind_rmap, rmap_bind, rmap_ite, rmap_ok]
  refine rbind_congr fun x => ?_
  simp only [Rec.map, DistancePair.map, H.dlt]

theorem initialAssignmentB (H : KHom f ι U B) (mat : Mat N) (med : List Nat) (hB : (mat.len : ℤ) * U ≤ B) :
    HomB (Prod.map ι (List.map (Rec.map f))) (fun r => Bd ((mat.len : ℤ) * U) r.1 ∧ r.2.length = mat.len)
      (initialAssignment ℤ mat med) (initialAssignmentK L' (mat.map f) med) := by
  unfold initialAssignment initialAssignmentK
  refine (HomB.same (assertSizes mat med.length)).bind fun _ _ => (HomB.same _).bind fun c _ => ?_
  refine (HomB.mapRes' (fun i => ofEq (H.initAssignRecB mat med c i)) (List.range mat.len)).bind
    fun data hd => ?_
  rw [List.length_range] at hd
  have h2 : (data.map (Rec.map f)).map (fun r => (conv r.near.d : L')) =
      (data.map fun r => (conv r.near.d : ℤ)).map ι := by
    simp [Rec.map, DistancePair.map, H.lossConv]
  have h3 := H.unwrapB (xs := data.map fun r => (conv r.near.d : ℤ))
    (fun x hx => by obtain ⟨r, -, rfl⟩ := List.mem_map.mp hx; exact H.bdConv _)
    (by rw [List.length_map, hd.1]; exact hB)
  rw [← h2, List.length_map, hd.1] at h3
  rw [← rbind_assoc]
  exact h3.bind fun l hl => HomB.ok rfl ⟨hl, hd.1⟩

theorem findBestSwapB (H : KHom f ι U B) (mat : Mat N) {rem : List ℤ} {data : List (Rec N)} {n : Nat}
    (hr : ∀ x ∈ rem, Bd ((n : ℤ) * U) x) (hd : data.length = n) (hB : 3 * (((n + 1 : Nat) : ℤ) * U) ≤ B)
    (j : Nat) :
    HomB (Prod.map ι id) (fun r => Bd (3 * ((n : ℤ) * U)) r.1) (findBestSwap mat rem data j)
      (findBestSwapK (mat.map f) (rem.map ι) (data.map (Rec.map f)) j) := by
  have hU := H.uNonneg
  have hn := succU U n
  have hn0 : 0 ≤ (n : ℤ) * U := mul_nonneg (by positivity) hU
  have hfold := HomB.fold (F := Prod.map (List.map ι) ι) (G := Prod.map (Rec.map f) (id : Nat → Nat))
    (fun t (st : List ℤ × ℤ) => (∀ x ∈ st.1, Bd ((n : ℤ) * U + (t : ℤ) * U) x) ∧ Bd ((t : ℤ) * U) st.2)
    (T := n) (step := findBestSwapStep (L := ℤ) mat j) (step' := findBestSwapStepK (L := L') (mat.map f) j)
    (fun t st p ht hst => by
      have h1 := succU U t
      have h2 : ((t + 1 : Nat) : ℤ) * U ≤ _ := mulU hU (show t + 1 ≤ n by omega)
      have h3 : 0 ≤ (t : ℤ) * U := mul_nonneg (by positivity) hU
      unfold findBestSwapStep findBestSwapStepK
      refine (getB mat _ _).bind fun x _ => ?_
      simp only [Prod.map_fst, Prod.map_snd, Rec.map, DistancePair.map, H.dlt]
      have hadd : ∀ y z : N, HomB (List.map ι) (fun l => ∀ x ∈ l, Bd ((n : ℤ) * U + ((t + 1 : Nat) : ℤ) * U) x)
          (addAt st.1 p.1.near.i (RLoss.sub (conv y) (conv z)))
          (addAtK (st.1.map ι) p.1.near.i (ι ((conv y : ℤ) - conv z))) := by
        intro y z
        have := H.addAtB hst.1 (H.bdDiff y z) (by linarith) hU (by linarith) p.1.near.i
        rw [h1, ← add_assoc]; exact this
      refine HomB.ite Iff.rfl (fun _ => ?_) fun _ => HomB.ite Iff.rfl (fun _ => ?_) fun _ => ?_
      · rw [H.subConv (by linarith), ok_bind, H.addB hst.2 (H.bdDiff _ _) h3 hU (by linarith), ok_bind,
          H.subConv (by linarith), ok_bind]
        refine (hadd _ _).bind fun l hl => HomB.ok rfl ⟨hl, ?_⟩
        · show Bd _ (st.2 + (conv x - conv p.1.near.d))
          rw [h1]; exact hst.2.add (H.bdDiff _ _)
      · rw [H.subConv (by linarith), ok_bind]
        exact (hadd _ _).bind fun l hl => HomB.ok rfl ⟨hl, hst.2.mono (by linarith)⟩
      · exact HomB.ok rfl ⟨fun y hy => (hst.1 y hy).mono (by linarith), hst.2.mono (by linarith)⟩)
    (xs := data.zipIdx) (t := 0) (s := (rem, 0)) ⟨by simpa using hr, Bd.zero (by simp)⟩ (by simp [hd])
  unfold findBestSwap findBestSwapK
  rw [zipIdx_hom, show ((rem.map ι, (KLoss.zero : L')) : List L' × L') = Prod.map (List.map ι) ι (rem, 0) by
    simp [H.lossZero]]
  simp only [List.length_zipIdx, hd, Nat.zero_add] at hfold
  refine hfold.bind fun st hst => ?_
  refine (H.findMinB (by linarith) hst.1).bind fun r hr => ?_
  simp only [Prod.map_snd, Prod.map_fst, id_eq]
  rw [H.addB hr hst.2 (by linarith) hn0 (by linarith), ok_bind]
  refine HomB.ok rfl ?_
  · show Bd _ (r.2 + st.2)
    exact (hr.add hst.2).mono (by linarith)

theorem updateRemovalLossB (H : KHom f ι U B) {data : List (Rec N)} {n : Nat} (hd : data.length = n)
    (hB : 3 * (((n + 1 : Nat) : ℤ) * U) ≤ B) (k : Nat) :
    HomB (List.map ι) (fun l => ∀ x ∈ l, Bd ((n : ℤ) * U) x) (updateRemovalLoss ℤ data k)
      (updateRemovalLossK L' (data.map (Rec.map f)) k) := by
  have hU := H.uNonneg
  have hn := succU U n
  have hn0 : 0 ≤ (n : ℤ) * U := mul_nonneg (by positivity) hU
  unfold updateRemovalLoss updateRemovalLossK
  rw [show List.replicate k (KLoss.zero : L') = (List.replicate k (0 : ℤ)).map ι by simp [H.lossZero]]
  have := HomB.fold (F := List.map ι) (G := Rec.map f) (fun t (l : List ℤ) => ∀ x ∈ l, Bd ((t : ℤ) * U) x)
    (T := n) (step := fun (loss : List ℤ) (r : Rec N) =>
      addAt loss r.near.i (RLoss.sub (conv r.seco.d) (conv r.near.d)))
    (step' := fun (loss : List L') (r : Rec N') => do
      let y ← KLoss.subK (conv r.seco.d) (conv r.near.d)
      addAtK loss r.near.i y)
    (fun t l r ht hl => by
      have h1 := succU U t
      have h2 : ((t + 1 : Nat) : ℤ) * U ≤ _ := mulU hU (show t + 1 ≤ n by omega)
      have h3 : 0 ≤ (t : ℤ) * U := mul_nonneg (by positivity) hU
      have := H.addAtB hl (H.bdDiff r.seco.d r.near.d) h3 hU (by linarith) r.near.i
      simp only [Rec.map, DistancePair.map]
      rw [H.subConv (by linarith), ok_bind, h1]; exact this)
    (xs := data) (t := 0) (s := List.replicate k 0)
    (fun x hx => by rw [List.eq_of_mem_replicate hx]; exact Bd.zero (by simp)) (by omega)
  rw [Nat.zero_add, hd] at this
  exact this

theorem updateSecondNearestB (H : KHom f ι U B) (mat : Mat N) (med : List Nat) (nn b o : Nat) (x : N) :
    updateSecondNearest (mat.map f) med nn b o (f x) =
      rmap (DistancePair.map f) (updateSecondNearest mat med nn b o x) := by
  unfold updateSecondNearest
  refine foldRes_hom' (DistancePair.map f) (fun s p => ?_) (.new b x) _
  simp only [Mat.map, bind_rmap, rmap_bind, rmap_ite, rmap_ok]
  congr 1
  refine rbind_congr fun y => congrArg Except.ok ?_
  simp only [DistancePair.map, H.dlt, DistancePair.new]
  split <;> rfl

theorem doSwapRecB (H : KHom f ι U B) (mat : Mat N) (med : List Nat) (b j : Nat) (p : Rec N × Nat) :
    HomB (Prod.map (Rec.map f) ι) (fun r => Bd U r.2) (doSwapRec mat med b j p)
      (doSwapRecK (mat.map f) med b j (Prod.map (Rec.map f) id p)) := by
  have key : ∀ {x : Res (Rec N)} {x' : Res (Rec N')}, HomB (Rec.map f) (fun _ => True) x x' →
      HomB (Prod.map (Rec.map f) ι) (fun r => Bd U r.2) (x >>= fun r => .ok (r, (conv r.near.d : ℤ)))
        (x' >>= fun r => .ok (r, (conv r.near.d : L'))) := fun h =>
    h.bind fun r _ => HomB.ok (by simp [Rec.map, DistancePair.map, H.lossConv]) (H.bdConv _)
  have hu : ∀ nn x, HomB (DistancePair.map f) (fun _ => True) (updateSecondNearest mat med nn b p.2 x)
      (updateSecondNearest (mat.map f) med nn b p.2 (f x)) :=
    fun nn x => ofEq (H.updateSecondNearestB mat med nn b p.2 x)
  unfold doSwapRec doSwapRecK
  simp only [Prod.map_snd, Prod.map_fst, id_eq]
  refine HomB.ite Iff.rfl (fun _ => HomB.ok ?_ (Bd.zero H.uNonneg)) fun _ => ?_
  · simp only [Prod.map_apply]
    refine Prod.ext ?_ H.lossZero.symm
    by_cases hb : p.1.near.i = asU32 b <;>
      simp [hb, Rec.map, DistancePair.map, DistancePair.new, H.distZero]
  · refine (getB mat _ _).bind fun x _ => ?_
    simp only [Rec.map, DistancePair.map, H.dlt]
    refine HomB.ite Iff.rfl (fun _ => HomB.ite Iff.rfl (fun _ => ?_) fun _ => ?_) fun _ =>
      HomB.ite Iff.rfl (fun _ => ?_) fun _ => HomB.ite Iff.rfl (fun _ => ?_) fun _ =>
      HomB.ite Iff.rfl (fun _ => ?_) fun _ => ?_
    · exact key (HomB.ok rfl trivial)
    · exact (hu _ _).bind fun s _ => key (HomB.ok rfl trivial)
    · exact key (HomB.ok rfl trivial)
    · exact key (HomB.ok rfl trivial)
    · exact (hu _ _).bind fun s _ => key (HomB.ok rfl trivial)
    · exact key (HomB.ok rfl trivial)

theorem doSwapB (H : KHom f ι U B) (mat : Mat N) (med : List Nat) {data : List (Rec N)} {n : Nat}
    (hd : data.length = n) (hB : 3 * (((n + 1 : Nat) : ℤ) * U) ≤ B) (b j : Nat) :
    HomB (Prod.map ι (Prod.map id (List.map (Rec.map f))))
      (fun r => Bd ((n : ℤ) * U) r.1 ∧ r.2.2.length = n)
      (doSwap ℤ mat med data b j) (doSwapK L' (mat.map f) med (data.map (Rec.map f)) b j) := by
  have hU := H.uNonneg
  have hn := succU U n
  have hn0 : 0 ≤ (n : ℤ) * U := mul_nonneg (by positivity) hU
  unfold doSwap doSwapK
  rw [show (mat.map f).len = mat.len from rfl]
  refine (HomB.same _).bind fun _ _ => (HomB.same _).bind fun _ _ => (HomB.same _).bind fun med' _ => ?_
  rw [zipIdx_hom]
  refine (HomB.mapRes (H.doSwapRecB mat med' b j) data.zipIdx).bind fun rs hrs => ?_
  rw [List.length_zipIdx, hd] at hrs
  have h2 : (rs.map (Prod.map (Rec.map f) ι)).map (·.2) = (rs.map (·.2)).map ι := by simp
  have h3 := H.unwrapB (xs := rs.map (·.2))
    (fun x hx => by obtain ⟨r, hr, rfl⟩ := List.mem_map.mp hx; exact hrs.2 r hr)
    (by rw [List.length_map, hrs.1]; linarith)
  rw [List.length_map, hrs.1] at h3
  rw [h2, ← rbind_assoc]
  exact h3.bind fun l hl => HomB.ok (by simp) ⟨hl, by simp [hrs.1]⟩

theorem fpPassB (H : KHom f ι U B) (mat : Mat N) {n : Nat} (hB : 3 * (((n + 1 : Nat) : ℤ) * U) ≤ B)
    (js : List Nat) {s : FPState N ℤ} (hs : FPB n U s) :
    HomB (mapFP f ι) (FPB n U) (fpPass mat js s) (fpPassK (mat.map f) js (mapFP f ι s)) := by
  have hU := H.uNonneg
  have hn := succU U n
  have hn0 : 0 ≤ (n : ℤ) * U := mul_nonneg (by positivity) hU
  induction js generalizing s with
  | nil => exact HomB.ok rfl hs
  | cons j js ih =>
    unfold fpPass fpPassK
    refine HomB.ite Iff.rfl (fun _ => HomB.ok rfl hs) fun _ => ?_
    refine (isOwnB s.med s.data j).bind fun own _ => ?_
    refine HomB.ite Iff.rfl (fun _ => ih hs) fun _ => ?_
    refine (H.findBestSwapB mat hs.rem hs.len hB j).bind fun r hr => ?_
    refine HomB.ite ?_ (fun _ => ih hs) fun _ => ?_
    · show rge (ι r.1) (KLoss.zero : L') = true ↔ _
      rw [← H.lossZero, H.lge (hr.mono (by linarith)) (Bd.zero (by linarith))]; rfl
    refine (H.doSwapB mat s.med hs.len hB r.2 j).bind fun q hq => ?_
    have hl : (mapFP f ι s).rem.length = s.rem.length := by simp [mapFP]
    simp only [hl]
    refine (H.updateRemovalLossB hq.2 hB s.rem.length).bind fun rem hrem => ?_
    exact ih (s := ⟨q.2.1, q.2.2, rem, q.1, j, s.nSwaps + 1⟩) ⟨hq.2, hrem, hq.1⟩

theorem fpLoopB (H : KHom f ι U B) (mat : Mat N) {n : Nat} (hB : 3 * (((n + 1 : Nat) : ℤ) * U) ≤ B)
    (seq : List Nat) (fuel iter : Nat) {s : FPState N ℤ} (hs : FPB n U s) :
    HomB (Prod.map (mapFP f ι) id) (fun r => FPB n U r.1) (fpLoop mat seq fuel iter s)
      (fpLoopK (mat.map f) seq fuel iter (mapFP f ι s)) := by
  have hU := H.uNonneg
  have hn := succU U n
  have hn0 : 0 ≤ (n : ℤ) * U := mul_nonneg (by positivity) hU
  induction fuel generalizing iter s with
  | zero => exact HomB.ok rfl hs
  | succ fuel ih =>
    unfold fpLoop fpLoopK
    refine (H.fpPassB mat hB seq hs).bind fun s' hs' => ?_
    refine HomB.ite ?_ (fun _ => HomB.ok rfl hs') fun _ => ih _ hs'
    simp only [mapFP, H.lge (hs'.loss.mono (by linarith)) (hs.loss.mono (by linarith))]

theorem randFasterpamB (H : KHom f ι U B) (mat : Mat N) (med : List Nat) (maxiter : Nat) (seq : List Nat)
    (hB : 3 * (((mat.len + 1 : Nat) : ℤ) * U) ≤ B) :
    HomB (SwapResult.map ι) (fun r => Bd ((mat.len : ℤ) * U) r.loss) (randFasterpam ℤ mat med maxiter seq)
      (randFasterpamK L' (mat.map f) med maxiter seq) := by
  have hU := H.uNonneg
  have hn := succU U mat.len
  have hn0 : 0 ≤ (mat.len : ℤ) * U := mul_nonneg (by positivity) hU
  unfold randFasterpam randFasterpamK
  refine HomB.ite Iff.rfl (fun _ => H.singleClusterB mat med (by linarith)) fun _ => ?_
  refine (H.initialAssignmentB mat med (by linarith)).bind fun q hq => ?_
  refine (H.updateRemovalLossB hq.2 hB med.length).bind fun rem hrem => ?_
  refine (H.fpLoopB mat hB seq maxiter 0 (s := ⟨med, q.2, rem, q.1, mat.len, 0⟩) ⟨hq.2, hrem, hq.1⟩).bind
    fun r hr => HomB.ok ?_ hr.loss
  simp [SwapResult.map, mapFP, Rec.map, DistancePair.map]

theorem fasterpamB (H : KHom f ι U B) (mat : Mat N) (med : List Nat) (maxiter : Nat)
    (hB : 3 * (((mat.len + 1 : Nat) : ℤ) * U) ≤ B) :
    HomB (SwapResult.map ι) (fun r => Bd ((mat.len : ℤ) * U) r.loss) (fasterpam ℤ mat med maxiter)
      (fasterpamK L' (mat.map f) med maxiter) :=
  H.randFasterpamB mat med maxiter (List.range mat.len) hB

/-! ## PAM -/

theorem findBestSwapPamB (H : KHom f ι U B) (mat : Mat N) (med : List Nat) {data : List (Rec N)} {n : Nat}
    (hd : data.length = n) (hB : 3 * (((n + 1 : Nat) : ℤ) * U) ≤ B) (j : Nat) :
    HomB (Prod.map ι id) (fun r => Bd (((n + 1 : Nat) : ℤ) * U) r.1) (findBestSwapPam ℤ mat med data j)
      (findBestSwapPamK L' (mat.map f) med (data.map (Rec.map f)) j) := by
  have hU := H.uNonneg
  have hn := succU U n
  have hn0 : 0 ≤ (n : ℤ) * U := mul_nonneg (by positivity) hU
  unfold findBestSwapPam findBestSwapPamK
  have hidx : HomB (Rec.map f) (fun _ => True) (idx data j) (idx (data.map (Rec.map f)) j) := ofEq (idx_hom _ _ _)
  refine hidx.bind fun r _ => ?_
  have hneg : KLoss.negK (conv (Rec.map f r).near.d : L') = .ok (ι (-(conv r.near.d : ℤ))) := by
    rw [show (Rec.map f r).near.d = f r.near.d from rfl, ← H.lossConv]
    exact H.lossNeg _ ((H.bdConv _).mono (by linarith)) ((H.bdConv _).neg.mono (by linarith))
  have hfold : ∀ m, HomB ι (Bd (((n + 1 : Nat) : ℤ) * U))
      (foldRes (findBestSwapPamStep mat m j) (-(conv r.near.d : ℤ)) data.zipIdx)
      (foldRes (findBestSwapPamStepK (mat.map f) m j) (ι (-(conv r.near.d : ℤ)))
        (data.zipIdx.map (Prod.map (Rec.map f) id))) := by
    intro m
    have := HomB.fold (F := ι) (G := Prod.map (Rec.map f) (id : Nat → Nat))
      (fun t a => Bd (((t : Nat) : ℤ) * U) a) (T := n + 1) (step := findBestSwapPamStep (L := ℤ) mat m j)
      (step' := findBestSwapPamStepK (L := L') (mat.map f) m j) (fun t a p ht ha => by
        have h1 := succU U t
        have h2 : ((t + 1 : Nat) : ℤ) * U ≤ _ := mulU hU (show t + 1 ≤ n + 1 by omega)
        have h3 : 0 ≤ (t : ℤ) * U := mul_nonneg (by positivity) hU
        have hadd : ∀ y z : N, HomB ι (Bd (((t + 1 : Nat) : ℤ) * U))
            (.ok (RLoss.add a (RLoss.sub (conv y) (conv z))))
            (KLoss.subK (conv (f y)) (conv (f z)) >>= fun x => KLoss.addK (ι a) x) := fun y z => by
          rw [H.subConv (by linarith), ok_bind, h1]
          exact H.addHomB ha (H.bdDiff _ _) h3 hU (by linarith)
        unfold findBestSwapPamStep findBestSwapPamStepK
        refine HomB.ite Iff.rfl (fun _ => HomB.ok rfl (ha.mono (by linarith))) fun _ => ?_
        refine (getB mat _ _).bind fun x _ => ?_
        simp only [Prod.map_fst, Rec.map, DistancePair.map, H.dlt]
        exact HomB.ite Iff.rfl (fun _ => HomB.ite Iff.rfl (fun _ => hadd _ _) fun _ => hadd _ _) fun _ =>
          HomB.ite Iff.rfl (fun _ => hadd _ _) fun _ => HomB.ok rfl (ha.mono (by linarith)))
      (xs := data.zipIdx) (t := 1) (s := -(conv r.near.d : ℤ)) (by simpa using (H.bdConv r.near.d).neg)
      (by rw [List.length_zipIdx, hd]; omega)
    rw [List.length_zipIdx, hd, Nat.add_comm] at this
    exact this
  rw [show ((KLoss.zero : L'), usizeMax) = Prod.map ι id ((0 : ℤ), usizeMax) by simp [H.lossZero], hneg,
    zipIdx_hom]
  refine HomB.foldInv _ (fun s m hs => ?_) (Bd.zero (by linarith))
  rw [ok_bind]
  refine (hfold m).bind fun a ha => ?_
  simp only [Prod.map_fst, H.llt (ha.mono (by linarith)) (hs.mono (by linarith))]
  by_cases h : rlt a s.1 = true
  · simp only [h, if_true]; exact HomB.ok rfl ha
  · simp only [h]; exact HomB.ok rfl hs

/-- the tail of an iteration of `pam_optimize` and `fastpam1` -/
theorem scanSwapB (H : KHom f ι U B) (mat : Mat N) {n : Nat} (hB : 3 * (((n + 1 : Nat) : ℤ) * U) ≤ B)
    {s : PState N ℤ} (hs : s.data.length = n ∧ Bd ((n : ℤ) * U) s.loss)
    {loop : Nat → PState N ℤ → Res (PState N ℤ × Nat)} {loop' : Nat → PState N' L' → Res (PState N' L' × Nat)}
    (hloop : ∀ iter s, s.data.length = n ∧ Bd ((n : ℤ) * U) s.loss →
      HomB (Prod.map (mapP f ι) id) (fun r => Bd ((n : ℤ) * U) r.1.loss) (loop iter s) (loop' iter (mapP f ι s)))
    {best : ℤ × Nat × Nat} (hb : Bd (3 * (((n + 1 : Nat) : ℤ) * U)) best.1) (iter : Nat) :
    HomB (Prod.map (mapP f ι) id) (fun r => Bd ((n : ℤ) * U) r.1.loss)
      (if rlt best.1 RLoss.zero then do
        let q ← doSwap ℤ mat s.med s.data best.2.1 best.2.2
        if rge q.1 s.loss then .ok (⟨q.2.1, q.2.2, s.loss, s.nSwaps + 1⟩, iter + 1)
        else loop (iter + 1) ⟨q.2.1, q.2.2, q.1, s.nSwaps + 1⟩
      else .ok (s, iter + 1))
      (if rlt (ι best.1) KLoss.zero then do
        let q ← doSwapK L' (mat.map f) s.med (s.data.map (Rec.map f)) best.2.1 best.2.2
        if rge q.1 (ι s.loss) then .ok (⟨q.2.1, q.2.2, ι s.loss, s.nSwaps + 1⟩, iter + 1)
        else loop' (iter + 1) ⟨q.2.1, q.2.2, q.1, s.nSwaps + 1⟩
      else .ok (mapP f ι s, iter + 1)) := by
  have hU := H.uNonneg
  have hn := succU U n
  have hn0 : 0 ≤ (n : ℤ) * U := mul_nonneg (by positivity) hU
  refine HomB.ite ?_ (fun _ => ?_) fun _ => HomB.ok rfl hs.2
  · rw [← H.lossZero, H.llt (hb.mono hB) (Bd.zero (by linarith))]; rfl
  refine (H.doSwapB mat s.med hs.1 hB best.2.1 best.2.2).bind fun q hq => ?_
  refine HomB.ite ?_ (fun _ => HomB.ok rfl hs.2) fun _ =>
    hloop _ ⟨q.2.1, q.2.2, q.1, s.nSwaps + 1⟩ ⟨hq.2, hq.1⟩
  rw [Prod.map_fst, H.lge (hq.1.mono (by linarith)) (hs.2.mono (by linarith))]

theorem pamLoopB (H : KHom f ι U B) (mat : Mat N) {n : Nat} (hB : 3 * (((n + 1 : Nat) : ℤ) * U) ≤ B)
    (k fuel iter : Nat) {s : PState N ℤ} (hs : s.data.length = n ∧ Bd ((n : ℤ) * U) s.loss) :
    HomB (Prod.map (mapP f ι) id) (fun r => Bd ((n : ℤ) * U) r.1.loss) (pamLoop mat k fuel iter s)
      (pamLoopK (mat.map f) k fuel iter (mapP f ι s)) := by
  have hU := H.uNonneg
  have hn := succU U n
  have hn0 : 0 ≤ (n : ℤ) * U := mul_nonneg (by positivity) hU
  induction fuel generalizing iter s with
  | zero => exact HomB.ok rfl hs.2
  | succ fuel ih =>
    unfold pamLoop pamLoopK
    have hscan : HomB (Prod.map ι id) (fun b => Bd (((n + 1 : Nat) : ℤ) * U) b.1)
        (foldRes (pamScanStep mat s.med s.data) ((0 : ℤ), k, usizeMax) (List.range mat.len))
        (foldRes (pamScanStepK (mat.map f) s.med (s.data.map (Rec.map f))) (Prod.map ι id ((0 : ℤ), k, usizeMax))
          (List.range mat.len)) := by
      refine HomB.foldInv _ (fun b j hb => ?_) (Bd.zero (by linarith))
      unfold pamScanStep pamScanStepK
      refine (isOwnB s.med s.data j).bind fun own _ => HomB.ite Iff.rfl (fun _ => HomB.ok rfl hb) fun _ => ?_
      refine (H.findBestSwapPamB mat s.med hs.1 hB j).bind fun r hr => ?_
      simp only [Prod.map_fst, H.lge (hr.mono (by linarith)) (hb.mono (by linarith))]
      by_cases h : rge r.1 b.1 = true
      · simp only [h, if_true]; exact HomB.ok rfl hb
      · simp only [h]; exact HomB.ok rfl hr
    rw [show ((KLoss.zero : L'), k, usizeMax) = Prod.map ι id ((0 : ℤ), k, usizeMax) by simp [H.lossZero]]
    refine hscan.bind fun best hb => ?_
    exact H.scanSwapB mat hB hs (loop := pamLoop mat k fuel) (loop' := pamLoopK (mat.map f) k fuel)
      (fun iter s hs => ih iter hs) (hb.mono (by linarith)) iter

theorem pamOptimizeB (H : KHom f ι U B) (mat : Mat N) {data : List (Rec N)} {loss : ℤ}
    (hB : 3 * (((mat.len + 1 : Nat) : ℤ) * U) ≤ B) (hd : data.length = mat.len)
    (hl : Bd ((mat.len : ℤ) * U) loss) (med : List Nat) (maxiter : Nat) :
    HomB (SwapResult.map ι) (fun r => Bd ((mat.len : ℤ) * U) r.loss) (pamOptimize mat med data maxiter loss)
      (pamOptimizeK (mat.map f) med (data.map (Rec.map f)) maxiter (ι loss)) := by
  have hU := H.uNonneg
  have hn := succU U mat.len
  have hn0 : 0 ≤ (mat.len : ℤ) * U := mul_nonneg (by positivity) hU
  unfold pamOptimize pamOptimizeK
  refine HomB.ite Iff.rfl (fun _ => H.singleClusterB mat med (by linarith)) fun _ => ?_
  refine (H.pamLoopB mat hB med.length maxiter 0 (s := ⟨med, data, loss, 0⟩) ⟨hd, hl⟩).bind
    fun r hr => HomB.ok ?_ hr
  simp [SwapResult.map, mapP, Rec.map, DistancePair.map]

theorem pamSwapB (H : KHom f ι U B) (mat : Mat N) (hB : 3 * (((mat.len + 1 : Nat) : ℤ) * U) ≤ B)
    (med : List Nat) (maxiter : Nat) :
    HomB (SwapResult.map ι) (fun r => Bd ((mat.len : ℤ) * U) r.loss) (pamSwap ℤ mat med maxiter)
      (pamSwapK L' (mat.map f) med maxiter) := by
  have hU := H.uNonneg
  have hn := succU U mat.len
  have hn0 : 0 ≤ (mat.len : ℤ) * U := mul_nonneg (by positivity) hU
  unfold pamSwap pamSwapK
  exact (H.initialAssignmentB mat med (by linarith)).bind fun q hq => H.pamOptimizeB mat hB hq.2 hq.1 med maxiter

theorem buildFirstB (H : KHom f ι U B) (mat : Mat N) (hB : 3 * (((mat.len + 1 : Nat) : ℤ) * U) ≤ B) (k : Nat) :
    HomB (Prod.map ι id) (fun r => Bd ((mat.len : ℤ) * U) r.1) (buildFirst ℤ mat k)
      (buildFirstK L' (mat.map f) k) := by
  have hU := H.uNonneg
  have hn := succU U mat.len
  have hn0 : 0 ≤ (mat.len : ℤ) * U := mul_nonneg (by positivity) hU
  have hsum : ∀ i, HomB ι (Bd ((mat.len : ℤ) * U)) (buildFirstSum ℤ mat i) (buildFirstSumK L' (mat.map f) i) := by
    intro i
    unfold buildFirstSum buildFirstSumK
    rw [← H.lossZero]
    have := HomB.fold (F := ι) (G := id) (fun t a => Bd ((t : ℤ) * U) a) (T := mat.len)
      (step := fun (sum : ℤ) (j : Nat) =>
      if j ≠ i then do
        let x ← mat.get j i
        .ok (RLoss.add sum (conv x))
      else .ok sum) (step' := fun (sum : L') (j : Nat) =>
      if j ≠ i then do
        let x ← (mat.map f).get j i
        KLoss.addK sum (conv x)
      else .ok sum) (fun t a p ht ha => by
        have h1 := succU U t
        have h2 : ((t + 1 : Nat) : ℤ) * U ≤ _ := mulU hU (show t + 1 ≤ mat.len by omega)
        have h3 : 0 ≤ (t : ℤ) * U := mul_nonneg (by positivity) hU
        refine HomB.ite Iff.rfl (fun _ => (getB mat _ _).bind fun x _ => ?_) fun _ => HomB.ok rfl ?_
        · rw [← H.lossConv, h1]
          exact H.addHomB ha (H.bdConv x) h3 hU (by linarith)
        · exact ha.mono (by linarith)) (xs := List.range mat.len) (t := 0) (s := 0) (Bd.zero (by simp)) (by simp)
    simp only [List.map_id, List.length_range, Nat.zero_add] at this
    exact this
  unfold buildFirst buildFirstK
  rw [show ((KLoss.zero : L'), k) = Prod.map ι id ((0 : ℤ), k) by simp [H.lossZero]]
  refine HomB.foldInv _ (fun s i hs => ?_) (Bd.zero (by linarith))
  refine (hsum i).bind fun a ha => ?_
  simp only [Prod.map_fst, H.llt (ha.mono (by linarith)) (hs.mono (by linarith))]
  by_cases h : (i == 0 || rlt a s.1) = true
  · simp only [h, if_true]; exact HomB.ok rfl ha
  · simp only [h]; exact HomB.ok rfl hs

theorem buildNextB (H : KHom f ι U B) (mat : Mat N) {near : List N} {n : Nat} (hl : near.length = n)
    (hB : 3 * (((n + 1 : Nat) : ℤ) * U) ≤ B) (k : Nat) :
    HomB (Prod.map ι id) (fun r => Bd (((n + 1 : Nat) : ℤ) * U) r.1) (buildNext ℤ mat near k)
      (buildNextK L' (mat.map f) (near.map f) k) := by
  have hU := H.uNonneg
  have hn := succU U n
  have hn0 : 0 ≤ (n : ℤ) * U := mul_nonneg (by positivity) hU
  have hsum : ∀ i, HomB ι (Bd (((n + 1 : Nat) : ℤ) * U)) (buildSum ℤ mat near i)
      (buildSumK L' (mat.map f) (near.map f) i) := by
    intro i
    unfold buildSum buildSumK
    have hidx : HomB f (fun _ => True) (idx near i) (idx (near.map f) i) := ofEq (idx_hom _ _ _)
    refine hidx.bind fun di _ => ?_
    have hneg : KLoss.negK (conv (f di) : L') = .ok (ι (-(conv di : ℤ))) := by
      rw [← H.lossConv]
      exact H.lossNeg _ ((H.bdConv _).mono (by linarith)) ((H.bdConv _).neg.mono (by linarith))
    rw [hneg, ok_bind, zipIdx_hom]
    have := HomB.fold (F := ι) (G := Prod.map f (id : Nat → Nat)) (fun t a => Bd ((t : ℤ) * U) a) (T := n + 1)
      (step := fun (sum : ℤ) (p : N × Nat) =>
        if p.2 ≠ i then do
          let d ← mat.get p.2 i
          .ok (if rlt d p.1 then RLoss.add sum (RLoss.sub (conv d) (conv p.1)) else sum)
        else .ok sum) (step' := buildSumStepK (L := L') (mat.map f) i) (fun t a p ht ha => by
        have h1 := succU U t
        have h2 : ((t + 1 : Nat) : ℤ) * U ≤ _ := mulU hU (show t + 1 ≤ n + 1 by omega)
        have h3 : 0 ≤ (t : ℤ) * U := mul_nonneg (by positivity) hU
        unfold buildSumStepK
        refine HomB.ite Iff.rfl (fun _ => (getB mat _ _).bind fun x _ => ?_) fun _ =>
          HomB.ok rfl (ha.mono (by linarith))
        simp only [Prod.map_fst, H.dlt]
        by_cases h : rlt x p.1 = true
        · simp only [h, if_true]
          rw [H.subConv (by linarith), ok_bind, h1]
          exact H.addHomB ha (H.bdDiff _ _) h3 hU (by linarith)
        · simp only [h]; exact HomB.ok rfl (ha.mono (by linarith)))
      (xs := near.zipIdx) (t := 1) (s := -(conv di : ℤ)) (by simpa using (H.bdConv di).neg)
      (by rw [List.length_zipIdx, hl]; omega)
    rw [List.length_zipIdx, hl, Nat.add_comm] at this
    exact this
  unfold buildNext buildNextK
  rw [show ((KLoss.zero : L'), k) = Prod.map ι id ((0 : ℤ), k) by simp [H.lossZero], List.length_map]
  refine HomB.foldInv _ (fun s i hs => ?_) (Bd.zero (by linarith))
  refine (hsum i).bind fun a ha => ?_
  simp only [Prod.map_fst, H.llt (ha.mono (by linarith)) (hs.mono (by linarith))]
  by_cases h : (i == 0 || rlt a s.1) = true
  · simp only [h, if_true]; exact HomB.ok rfl ha
  · simp only [h]; exact HomB.ok rfl hs

theorem buildUpdateRecB (H : KHom f ι U B) (mat : Mat N) (l c : Nat) (p : Rec N × Nat) :
    buildUpdateRec (mat.map f) l c (Prod.map (Rec.map f) id p) =
      rmap (Rec.map f) (buildUpdateRec mat l c p) := by
  unfold buildUpdateRec
  simp only [rmap_ite, rmap_ok, rmap_bind, Mat.map, bind_rmap, Prod.map_fst, Prod.map_snd, id_eq]
  congr 1
  · simp [Rec.map, DistancePair.map, DistancePair.new, H.distZero]
  · refine rbind_congr fun x => ?_
    simp only [Rec.map, DistancePair.map, DistancePair.new, H.dlt]

theorem buildLossB (H : KHom f ι U B) (c : Nat) {data : List (Rec N)} (hB : (data.length : ℤ) * U ≤ B) :
    HomB ι (Bd ((data.length : ℤ) * U)) (.ok (buildLoss ℤ c data)) (buildLossK L' c (data.map (Rec.map f))) := by
  have hU := H.uNonneg
  have h := HomB.fold (F := ι) (G := Prod.map (Rec.map f) (id : Nat → Nat)) (fun t a => Bd ((t : ℤ) * U) a)
    (T := data.length)
    (step := fun (loss : ℤ) (p : Rec N × Nat) =>
      .ok (if p.2 = c then loss else RLoss.add loss (conv p.1.near.d)))
    (step' := fun (loss : L') (p : Rec N' × Nat) =>
      if p.2 = c then .ok loss else KLoss.addK loss (conv p.1.near.d)) (fun t a p ht ha => by
        have h1 := succU U t
        have h2 : ((t + 1 : Nat) : ℤ) * U ≤ _ := mulU hU (show t + 1 ≤ data.length by omega)
        have h3 : 0 ≤ (t : ℤ) * U := mul_nonneg (by positivity) hU
        simp only [Prod.map_snd, Prod.map_fst, id_eq]
        by_cases h : p.2 = c
        · simp only [h, if_true]; exact HomB.ok rfl (ha.mono (by linarith))
        · simp only [h, if_false]
          rw [show (Rec.map f p.1).near.d = f p.1.near.d from rfl, ← H.lossConv, h1]
          exact H.addHomB ha (H.bdConv _) h3 hU (by linarith))
    (xs := data.zipIdx) (t := 0) (s := 0) (Bd.zero (by simp)) (by simp)
  have pure : ∀ {σ α : Type} (step : σ → α → σ) (s : σ) (xs : List α),
      foldRes (fun s x => .ok (step s x)) s xs = .ok (xs.foldl step s) := by
    intro σ α step s xs
    induction xs generalizing s with
    | nil => rfl
    | cons x xs ih => exact ih _
  rw [pure, List.length_zipIdx, Nat.zero_add] at h
  unfold buildLoss buildLossK
  rw [zipIdx_hom, ← H.lossZero]
  exact h

theorem buildLoopB (H : KHom f ι U B) (mat : Mat N) {n : Nat} (hB : 3 * (((n + 1 : Nat) : ℤ) * U) ≤ B) (k : Nat)
    (ls meds : List Nat) {data : List (Rec N)} (hd : data.length = n) {loss : ℤ} (hl : Bd ((n : ℤ) * U) loss) :
    HomB (Prod.map id (Prod.map (List.map (Rec.map f)) ι))
      (fun r => r.2.1.length = n ∧ Bd ((n : ℤ) * U) r.2.2) (buildLoop mat k ls meds data loss)
      (buildLoopK (mat.map f) k ls meds (data.map (Rec.map f)) (ι loss)) := by
  have hU := H.uNonneg
  have hn := succU U n
  have hn0 : 0 ≤ (n : ℤ) * U := mul_nonneg (by positivity) hU
  induction ls generalizing meds data loss with
  | nil => exact HomB.ok rfl ⟨hd, hl⟩
  | cons l ls ih =>
    unfold buildLoop buildLoopK
    rw [show (data.map (Rec.map f)).map (·.near.d) = (data.map (·.near.d)).map f by
      simp [Rec.map, DistancePair.map]]
    refine (H.buildNextB mat (n := n) (by simp [hd]) hB k).bind fun best hb => ?_
    refine HomB.ite ?_ (fun _ => HomB.ok rfl ⟨hd, hl⟩) fun _ => ?_
    · rw [Prod.map_fst, ← H.lossZero, H.lge (hb.mono (by linarith)) (Bd.zero (by linarith))]; rfl
    rw [zipIdx_hom]
    refine (HomB.mapRes (fun p => ofEq (H.buildUpdateRecB mat l best.2 p)) data.zipIdx).bind fun data' hd' => ?_
    rw [List.length_zipIdx, hd] at hd'
    have h1 := H.buildLossB best.2 (data := data') (by rw [hd'.1]; linarith)
    rw [hd'.1] at h1
    exact h1.bind fun l hl => ih _ hd'.1 hl

theorem pamBuildInitializeB (H : KHom f ι U B) (mat : Mat N) (hB : 3 * (((mat.len + 1 : Nat) : ℤ) * U) ≤ B)
    (k : Nat) :
    HomB (Prod.map id (Prod.map (List.map (Rec.map f)) ι))
      (fun r => r.2.1.length = mat.len ∧ Bd ((mat.len : ℤ) * U) r.2.2) (pamBuildInitialize ℤ mat k)
      (pamBuildInitializeK L' (mat.map f) k) := by
  unfold pamBuildInitialize pamBuildInitializeK
  refine (HomB.same (assertSquare mat)).bind fun _ _ => (H.buildFirstB mat hB k).bind fun best hb => ?_
  rw [show (mat.map f).len = mat.len from rfl]
  refine (HomB.mapRes' (F := Rec.map f) (P := fun _ => True) (step := fun j => do
      let d ← mat.get j best.2
      .ok (⟨⟨0, d⟩, ⟨u32Max, RDist.zero⟩⟩ : Rec N)) (fun j => ?_) (List.range mat.len)).bind fun data hd => ?_
  · exact (getB mat _ _).bind fun x _ => HomB.ok (by simp [Rec.map, DistancePair.map, H.distZero]) trivial
  · rw [List.length_range] at hd
    exact H.buildLoopB mat hB k _ _ hd.1 hb

theorem pamBuildB (H : KHom f ι U B) (mat : Mat N) (hB : 3 * (((mat.len + 1 : Nat) : ℤ) * U) ≤ B) (k : Nat) :
    HomB (BuildResult.map ι) (fun r => Bd ((mat.len : ℤ) * U) r.loss) (pamBuild ℤ mat k)
      (pamBuildK L' (mat.map f) k) := by
  unfold pamBuild pamBuildK
  refine (HomB.same (assertSizes mat k)).bind fun _ _ => (H.pamBuildInitializeB mat hB k).bind fun r hr =>
    HomB.ok ?_ hr.2
  simp [BuildResult.map, Rec.map, DistancePair.map]

theorem pamB (H : KHom f ι U B) (mat : Mat N) (hB : 3 * (((mat.len + 1 : Nat) : ℤ) * U) ≤ B) (k maxiter : Nat) :
    HomB (SwapResult.map ι) (fun r => Bd ((mat.len : ℤ) * U) r.loss) (pam ℤ mat k maxiter)
      (pamK L' (mat.map f) k maxiter) := by
  unfold pam pamK
  exact (HomB.same (assertSizes mat k)).bind fun _ _ => (H.pamBuildInitializeB mat hB k).bind fun r hr =>
    H.pamOptimizeB mat hB hr.1 hr.2 r.1 maxiter

/-! ## FastPAM1 -/

theorem fastpam1LoopB (H : KHom f ι U B) (mat : Mat N) {n : Nat} (hB : 3 * (((n + 1 : Nat) : ℤ) * U) ≤ B)
    (k fuel iter : Nat) {s : PState N ℤ} (hs : s.data.length = n ∧ Bd ((n : ℤ) * U) s.loss) :
    HomB (Prod.map (mapP f ι) id) (fun r => Bd ((n : ℤ) * U) r.1.loss) (fastpam1Loop mat k fuel iter s)
      (fastpam1LoopK (mat.map f) k fuel iter (mapP f ι s)) := by
  have hU := H.uNonneg
  have hn := succU U n
  have hn0 : 0 ≤ (n : ℤ) * U := mul_nonneg (by positivity) hU
  induction fuel generalizing iter s with
  | zero => exact HomB.ok rfl hs.2
  | succ fuel ih =>
    unfold fastpam1Loop fastpam1LoopK
    refine (H.updateRemovalLossB hs.1 hB k).bind fun rem hrem => ?_
    have hscan : HomB (Prod.map ι id) (fun b => Bd (3 * ((n : ℤ) * U)) b.1)
        (foldRes (fastpam1ScanStep mat s.med s.data rem) ((0 : ℤ), usizeMax, usizeMax) (List.range mat.len))
        (foldRes (fastpam1ScanStepK (mat.map f) s.med (s.data.map (Rec.map f)) (rem.map ι))
          (Prod.map ι id ((0 : ℤ), usizeMax, usizeMax)) (List.range mat.len)) := by
      refine HomB.foldInv _ (fun b j hb => ?_) (Bd.zero (by linarith))
      unfold fastpam1ScanStep fastpam1ScanStepK
      refine (isOwnB s.med s.data j).bind fun own _ => HomB.ite Iff.rfl (fun _ => HomB.ok rfl hb) fun _ => ?_
      refine (H.findBestSwapB mat hrem hs.1 hB j).bind fun r hr => ?_
      simp only [Prod.map_fst, H.lge (hr.mono (by linarith)) (hb.mono (by linarith))]
      by_cases h : rge r.1 b.1 = true
      · simp only [h, if_true]; exact HomB.ok rfl hb
      · simp only [h]; exact HomB.ok rfl hr
    rw [show ((KLoss.zero : L'), usizeMax, usizeMax) = Prod.map ι id ((0 : ℤ), usizeMax, usizeMax) by
      simp [H.lossZero]]
    refine hscan.bind fun best hb => ?_
    exact H.scanSwapB mat hB hs (loop := fastpam1Loop mat k fuel) (loop' := fastpam1LoopK (mat.map f) k fuel)
      (fun iter s hs => ih iter hs) (hb.mono (by linarith)) iter

theorem fastpam1B (H : KHom f ι U B) (mat : Mat N) (hB : 3 * (((mat.len + 1 : Nat) : ℤ) * U) ≤ B)
    (med : List Nat) (maxiter : Nat) :
    HomB (SwapResult.map ι) (fun r => Bd ((mat.len : ℤ) * U) r.loss) (fastpam1 ℤ mat med maxiter)
      (fastpam1K L' (mat.map f) med maxiter) := by
  have hU := H.uNonneg
  have hn := succU U mat.len
  have hn0 : 0 ≤ (mat.len : ℤ) * U := mul_nonneg (by positivity) hU
  unfold fastpam1 fastpam1K
  refine HomB.ite Iff.rfl (fun _ => H.singleClusterB mat med (by linarith)) fun _ => ?_
  refine (H.initialAssignmentB mat med (by linarith)).bind fun q hq => ?_
  refine (H.fastpam1LoopB mat hB med.length maxiter 0 (s := ⟨med, q.2, q.1, 0⟩) ⟨hq.2, hq.1⟩).bind
    fun r hr => HomB.ok ?_ hr
  simp [SwapResult.map, mapP, Rec.map, DistancePair.map]

/-! ## Alternating -/

theorem assignNearestB (H : KHom f ι U B) (mat : Mat N) (hB : (mat.len : ℤ) * U ≤ B) (med : List Nat) :
    HomB (Prod.map ι id) (fun r => Bd ((mat.len : ℤ) * U) r.1 ∧ r.2.length = mat.len)
      (assignNearest ℤ mat med) (assignNearestK L' (mat.map f) med) := by
  have hrec : ∀ c i, HomB (Prod.map id f) (fun _ => True) (assignNearestRec mat med c i)
      (assignNearestRec (mat.map f) med c i) := by
    intro c i
    unfold assignNearestRec
    refine (getB mat _ _).bind fun x _ => ?_
    refine HomB.foldInv (F := Prod.map id f) (fun _ => True) (fun s p _ => ?_) (s := (0, x)) trivial
    refine (getB mat _ _).bind fun y _ => ?_
    simp only [Prod.map_snd, H.dlt]
    refine HomB.ok ?_ trivial
    split <;> rfl
  unfold assignNearest assignNearestK
  refine (HomB.same (assertSizes mat med.length)).bind fun _ _ => (HomB.same _).bind fun c _ => ?_
  refine (HomB.mapRes' (hrec c) (List.range mat.len)).bind fun rs hrs => ?_
  rw [List.length_range] at hrs
  have h2 : (rs.map (Prod.map id f)).map (fun r => (conv r.2 : L')) =
      (rs.map fun r => (conv r.2 : ℤ)).map ι := by simp [H.lossConv]
  obtain ⟨h3, h4⟩ := H.reduceB (xs := rs.map fun r => (conv r.2 : ℤ))
    (fun x hx => by obtain ⟨r, -, rfl⟩ := List.mem_map.mp hx; exact H.bdConv _)
    (by rw [List.length_map, hrs.1]; exact hB)
  rw [List.length_map, hrs.1] at h4
  rw [h2, h3, ok_bind]
  refine HomB.ok ?_ ⟨?_, by simp [hrs.1]⟩
  · refine Prod.ext ?_ (by simp)
    simp only [Prod.map_fst]
    cases reduceAdd (rs.map fun r => (conv r.2 : ℤ)) with
    | none => exact H.lossZero.symm
    | some s => rfl
  · cases hr : reduceAdd (rs.map fun r => (conv r.2 : ℤ)) with
    | none => exact Bd.zero (mul_nonneg (by positivity) H.uNonneg)
    | some s => exact h4 s hr

theorem alternatingLoopB (H : KHom f ι U B) (mat : Mat N) (hB : (mat.len : ℤ) * U ≤ B) (fuel iter : Nat)
    {loss : ℤ} (hl : Bd ((mat.len : ℤ) * U) loss) {assi : List Nat} (ha : assi.length = mat.len)
    (med : List Nat) :
    HomB (AltResult.map ι) (fun r => Bd ((mat.len : ℤ) * U) r.loss) (alternatingLoop mat fuel iter loss assi med)
      (alternatingLoopK (mat.map f) fuel iter (ι loss) assi med) := by
  induction fuel generalizing iter loss assi med with
  | zero => exact HomB.ok rfl hl
  | succ fuel ih =>
    unfold alternatingLoop alternatingLoopK
    have hupd : HomB id (fun _ => True) (alternatingUpdate ℤ mat assi med)
        (alternatingUpdateK L' (mat.map f) assi med) := by
      unfold alternatingUpdate alternatingUpdateK
      refine HomB.foldInv (F := id) (fun _ => True) (fun s i _ => ?_) (s := (false, med)) trivial
      exact (H.chooseMedoidB mat assi s.2 (by rw [ha]; exact hB) i).bind fun r _ => HomB.ok rfl trivial
    refine hupd.bind fun r _ => HomB.ite Iff.rfl (fun _ => HomB.ok rfl hl) fun _ => ?_
    exact (H.assignNearestB mat hB r.2).bind fun q hq => ih _ hq.1 hq.2 _

theorem alternatingB (H : KHom f ι U B) (mat : Mat N) (hB : 3 * (((mat.len + 1 : Nat) : ℤ) * U) ≤ B)
    (med : List Nat) (maxiter : Nat) :
    HomB (AltResult.map ι) (fun r => Bd ((mat.len : ℤ) * U) r.loss) (alternating ℤ mat med maxiter)
      (alternatingK L' (mat.map f) med maxiter) := by
  have hU := H.uNonneg
  have hn := succU U mat.len
  have hn0 : 0 ≤ (mat.len : ℤ) * U := mul_nonneg (by positivity) hU
  unfold alternating alternatingK
  exact (H.assignNearestB mat (by linarith) med).bind fun q hq =>
    H.alternatingLoopB mat (by linarith) maxiter 0 hq.1 hq.2 med

end KHom

end KMedoids
