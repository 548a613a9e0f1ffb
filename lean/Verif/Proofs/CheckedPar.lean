import Verif.Proofs.BoundedPar
import Verif.Proofs.CheckedBounded
import Verif.Proofs.Par

/-! # Parallel FasterPAM with overflow checks: no check fires within bounds -/

set_option linter.unusedSectionVars false

namespace KMedoids

open RFrom (conv)

variable {N N' L' : Type} [RDist N] [RFrom N ℤ] [RDist N'] [KLoss L'] [RFrom N' L']
variable {f : N → N'} {ι : ℤ → L'} {U B : ℤ}

namespace KHom

open BHom (getB ofEq isOwnB mapFP mapP FPB)

theorem reduceTreeB (H : KHom f ι U B) (t : RTree) {xs : List ℤ} (hxs : ∀ x ∈ xs, Bd U x)
    (hT : (xs.length : ℤ) * U ≤ B) :
    reduceTreeK t (xs.map ι) = .ok ((reduceTree t xs).map ι) ∧
      ∀ s, reduceTree t xs = some s → Bd ((xs.length : ℤ) * U) s := by
  have hU := H.uNonneg
  induction t generalizing xs with
  | leaf => exact H.reduceB hxs hT
  | node s l r ihl ihr =>
    have hl : ((xs.take s).length : ℤ) * U + ((xs.drop s).length : ℤ) * U = (xs.length : ℤ) * U := by
      rw [← add_mul]
      congr 1
      simp only [List.length_take, List.length_drop]
      omega
    have p1 : 0 ≤ ((xs.take s).length : ℤ) * U := mul_nonneg (by positivity) hU
    have p2 : 0 ≤ ((xs.drop s).length : ℤ) * U := mul_nonneg (by positivity) hU
    obtain ⟨a1, a2⟩ := ihl (xs := xs.take s) (fun x hx => hxs x (List.mem_of_mem_take hx)) (by linarith)
    obtain ⟨b1, b2⟩ := ihr (xs := xs.drop s) (fun x hx => hxs x (List.mem_of_mem_drop hx)) (by linarith)
    simp only [reduceTree, reduceTreeK, ← List.map_take, ← List.map_drop, a1, b1, ok_bind]
    rw [← hl]
    cases ha : reduceTree l (xs.take s) with
    | none =>
      cases hb : reduceTree r (xs.drop s) with
      | none => exact ⟨rfl, fun _ h => by cases h⟩
      | some b => exact ⟨rfl, fun _ h => by cases h; exact (b2 b hb).mono (by linarith)⟩
    | some a =>
      cases hb : reduceTree r (xs.drop s) with
      | none => exact ⟨rfl, fun _ h => by cases h; exact (a2 a ha).mono (by linarith)⟩
      | some b =>
        refine ⟨?_, fun _ h => by cases h; exact (a2 a ha).add (b2 b hb)⟩
        simp only [Option.map_some]
        rw [H.addB (a2 a ha) (b2 b hb) p1 p2 (by linarith)]; rfl

theorem unwrapTreeB (H : KHom f ι U B) (t : RTree) {xs : List ℤ} (hxs : ∀ x ∈ xs, Bd U x)
    (hT : (xs.length : ℤ) * U ≤ B) :
    HomB ι (Bd ((xs.length : ℤ) * U)) (unwrapOpt (reduceTree t xs)) (reduceTreeK t (xs.map ι) >>= unwrapOpt) := by
  obtain ⟨h1, h2⟩ := H.reduceTreeB t hxs hT
  rw [h1, ok_bind, unwrapOpt_hom]
  refine ⟨rfl, fun a ha => ?_⟩
  cases hr : reduceTree t xs with
  | none => rw [hr] at ha; cases ha
  | some s => rw [hr] at ha; cases ha; exact h2 _ hr

theorem parInitialAssignmentB (H : KHom f ι U B) (sc : Sched) (mat : Mat N) (med : List Nat)
    (hB : (mat.len : ℤ) * U ≤ B) :
    HomB (Prod.map ι (List.map (Rec.map f))) (fun r => Bd ((mat.len : ℤ) * U) r.1 ∧ r.2.length = mat.len)
      (parInitialAssignment ℤ sc mat med) (parInitialAssignmentK L' sc (mat.map f) med) := by
  unfold parInitialAssignment parInitialAssignmentK
  refine (HomB.same (assertSizes mat med.length)).bind fun _ _ => (HomB.same _).bind fun c _ => ?_
  refine (HomB.mapRes' (fun i => ofEq (H.initAssignRecB mat med c i)) (List.range mat.len)).bind
    fun data hd => ?_
  rw [List.length_range] at hd
  have h2 : (data.map (Rec.map f)).map (fun r => (conv r.near.d : L')) =
      (data.map fun r => (conv r.near.d : ℤ)).map ι := by
    simp [Rec.map, DistancePair.map, H.lossConv]
  have h3 := H.unwrapTreeB sc.tree (xs := data.map fun r => (conv r.near.d : ℤ))
    (fun x hx => by obtain ⟨r, -, rfl⟩ := List.mem_map.mp hx; exact H.bdConv _)
    (by rw [List.length_map, hd.1]; exact hB)
  rw [← h2, List.length_map, hd.1] at h3
  rw [← rbind_assoc]
  exact h3.bind fun l hl => HomB.ok rfl ⟨hl, hd.1⟩

theorem parWorkerB (H : KHom f ι U B) (mat : Mat N) {data : List (Rec N)} (hd : data.length = mat.len)
    (hB : 3 * (((mat.len + 1 : Nat) : ℤ) * U) ≤ B) (k j parts x : Nat) :
    HomB (Prod.map (List.map ι) ι)
      (fun w => w.1.length = k ∧ (∀ y ∈ w.1, Bd ((chunkLen mat.len parts x : ℤ) * U) y) ∧
        Bd ((chunkLen mat.len parts x : ℤ) * U) w.2)
      (parWorker ℤ mat k data j parts x) (parWorkerK L' (mat.map f) k (data.map (Rec.map f)) j parts x) := by
  have hU := H.uNonneg
  have hn := succU U mat.len
  have hn0 : 0 ≤ (mat.len : ℤ) * U := mul_nonneg (by positivity) hU
  have hlen : ((data.zipIdx.take (min (x * ((mat.len + parts - 1) / parts) + (mat.len + parts - 1) / parts) mat.len)).drop
      (x * ((mat.len + parts - 1) / parts))).length = chunkLen mat.len parts x := by
    simp only [List.length_drop, List.length_take, List.length_zipIdx, hd, chunkLen]
    omega
  have hc : chunkLen mat.len parts x ≤ mat.len := by unfold chunkLen; omega
  have hfold := HomB.fold (F := Prod.map (List.map ι) ι) (G := Prod.map (Rec.map f) (id : Nat → Nat))
    (fun t (st : List ℤ × ℤ) => st.1.length = k ∧ (∀ x ∈ st.1, Bd ((t : ℤ) * U) x) ∧ Bd ((t : ℤ) * U) st.2)
    (T := mat.len) (step := parFindStep (L := ℤ) mat j) (step' := parFindStepK (L := L') (mat.map f) j)
    (fun t st p ht hst => by
      have h1 := succU U t
      have h2 : ((t + 1 : Nat) : ℤ) * U ≤ _ := mulU hU (show t + 1 ≤ mat.len by omega)
      have h3 : 0 ≤ (t : ℤ) * U := mul_nonneg (by positivity) hU
      unfold parFindStep parFindStepK
      refine (getB mat _ _).bind fun x _ => ?_
      simp only [Prod.map_fst, Prod.map_snd, Rec.map, DistancePair.map, H.dlt]
      have hadd : ∀ y z : N, HomB (List.map ι) (fun l => l.length = k ∧ ∀ x ∈ l, Bd (((t + 1 : Nat) : ℤ) * U) x)
          (addAt st.1 p.1.near.i (RLoss.sub (conv y) (conv z)))
          (addAtK (st.1.map ι) p.1.near.i (ι ((conv y : ℤ) - conv z))) := by
        intro y z
        have := H.addAtB hst.2.1 (H.bdDiff y z) (by linarith) hU (by linarith) p.1.near.i
        refine ⟨this.1, fun l hl => ⟨?_, by rw [h1]; exact this.2 l hl⟩⟩
        unfold addAt at hl
        cases he : idx st.1 p.1.near.i with
        | error e => rw [he] at hl; cases hl
        | ok v => rw [he] at hl; cases hl; simp [hst.1]
      refine HomB.ite Iff.rfl (fun _ => ?_) fun _ => HomB.ite Iff.rfl (fun _ => ?_) fun _ => ?_
      · rw [H.subConv (by linarith), ok_bind, H.addB hst.2.2 (H.bdDiff _ _) h3 hU (by linarith), ok_bind,
          H.subConv (by linarith), ok_bind]
        refine (hadd _ _).bind fun l hl => HomB.ok rfl ⟨hl.1, hl.2, ?_⟩
        · show Bd _ (st.2 + (conv x - conv p.1.near.d))
          rw [h1]; exact hst.2.2.add (H.bdDiff _ _)
      · rw [H.subConv (by linarith), ok_bind]
        exact (hadd _ _).bind fun l hl => HomB.ok rfl ⟨hl.1, hl.2, hst.2.2.mono (by linarith)⟩
      · exact HomB.ok rfl ⟨hst.1, fun y hy => (hst.2.1 y hy).mono (by linarith), hst.2.2.mono (by linarith)⟩)
    (xs := (data.zipIdx.take (min (x * ((mat.len + parts - 1) / parts) + (mat.len + parts - 1) / parts) mat.len)).drop
      (x * ((mat.len + parts - 1) / parts))) (t := 0) (s := (List.replicate k 0, 0))
    ⟨by simp, fun x hx => by rw [List.eq_of_mem_replicate hx]; exact Bd.zero (by simp), Bd.zero (by simp)⟩
    (by rw [hlen]; omega)
  unfold parWorker parWorkerK
  rw [show (mat.map f).len = mat.len from rfl, zipIdx_hom,
    show ((List.replicate k KLoss.zero, (KLoss.zero : L')) : List L' × L') =
      Prod.map (List.map ι) ι (List.replicate k 0, 0) by simp [H.lossZero]]
  simp only [hlen, Nat.zero_add, List.map_drop, List.map_take] at hfold
  exact hfold

theorem zipAddB (H : KHom f ι U B) {C D : ℤ} (hC : 0 ≤ C) (hD : 0 ≤ D) (h : C + D ≤ B) {xs ys : List ℤ}
    (hx : ∀ x ∈ xs, Bd C x) (hy : ∀ y ∈ ys, Bd D y) :
    zipAddK (xs.map ι) (ys.map ι) = .ok ((List.zipWith (RLoss.add : ℤ → ℤ → ℤ) xs ys).map ι) ∧
      ∀ z ∈ List.zipWith (RLoss.add : ℤ → ℤ → ℤ) xs ys, Bd (C + D) z := by
  induction xs generalizing ys with
  | nil => simp [zipAddK]
  | cons x xs ih =>
    cases ys with
    | nil => simp [zipAddK]
    | cons y ys =>
      obtain ⟨i1, i2⟩ := ih (ys := ys) (fun z hz => hx z (by simp [hz])) (fun z hz => hy z (by simp [hz]))
      have e := H.addB (hx x (by simp)) (hy y (by simp)) hC hD h
      simp only [List.map_cons, List.zipWith_cons_cons, zipAddK, i1, e, ok_bind]
      refine ⟨rfl, fun z hz => ?_⟩
      rcases List.mem_cons.mp hz with rfl | hz
      · exact (hx x (by simp)).add (hy y (by simp))
      · exact i2 z hz

theorem parMergeFoldB (H : KHom f ι U B) (mat : Mat N) {data : List (Rec N)} (hd : data.length = mat.len)
    (hB : 3 * (((mat.len + 1 : Nat) : ℤ) * U) ≤ B) (k j parts : Nat) {order : List Nat} {t : Nat}
    (ht : t + (order.map (chunkLen mat.len parts)).sum ≤ mat.len) {st : List ℤ × ℤ}
    (h1 : ∀ x ∈ st.1, Bd ((mat.len : ℤ) * U + (t : ℤ) * U) x) (h2 : Bd ((t : ℤ) * U) st.2) :
    HomB (Prod.map (List.map ι) ι)
      (fun st => (∀ x ∈ st.1, Bd ((mat.len : ℤ) * U + (mat.len : ℤ) * U) x) ∧ Bd ((mat.len : ℤ) * U) st.2)
      (foldRes (fun (st : List ℤ × ℤ) (x : Nat) => do
        let w ← parWorker ℤ mat k data j parts x
        .ok (parMerge st w)) st order)
      (foldRes (fun (st : List L' × L') (x : Nat) => do
        let w ← parWorkerK L' (mat.map f) k (data.map (Rec.map f)) j parts x
        parMergeK st w) (Prod.map (List.map ι) ι st) order) := by
  have hU := H.uNonneg
  have hn := succU U mat.len
  have hn0 : 0 ≤ (mat.len : ℤ) * U := mul_nonneg (by positivity) hU
  induction order generalizing t st with
  | nil =>
    have := mulU hU (show t ≤ mat.len by simpa using ht)
    exact HomB.ok rfl ⟨fun x hx => (h1 x hx).mono (by linarith), h2.mono this⟩
  | cons x xs ih =>
    simp only [List.map_cons, List.sum_cons] at ht
    have h3 : ((t + chunkLen mat.len parts x : Nat) : ℤ) * U = (t : ℤ) * U + (chunkLen mat.len parts x : ℤ) * U := by
      push_cast; ring
    have h4 := mulU hU (show t + chunkLen mat.len parts x ≤ mat.len by omega)
    have h5 : 0 ≤ (t : ℤ) * U := mul_nonneg (by positivity) hU
    have h6 : 0 ≤ (chunkLen mat.len parts x : ℤ) * U := mul_nonneg (by positivity) hU
    unfold foldRes
    refine HomB.bind (F := Prod.map (List.map ι) ι)
      (P := fun st => (∀ y ∈ st.1, Bd ((mat.len : ℤ) * U + ((t + chunkLen mat.len parts x : Nat) : ℤ) * U) y) ∧
        Bd (((t + chunkLen mat.len parts x : Nat) : ℤ) * U) st.2) ?_ fun s hs => ih (by omega) hs.1 hs.2
    refine (H.parWorkerB mat hd hB k j parts x).bind fun w hw => ?_
    obtain ⟨-, w1, w2⟩ := hw
    obtain ⟨z1, z2⟩ := H.zipAddB (by linarith) h6 (by linarith) h1 w1
    simp only [parMergeK, Prod.map_fst, Prod.map_snd, z1, H.addB h2 w2 h5 h6 (by linarith), ok_bind]
    refine HomB.ok rfl ⟨fun y hy => ?_, ?_⟩
    · rw [h3, ← add_assoc]; exact z2 y hy
    · rw [h3]; exact h2.add w2

theorem parFindBestSwapB (H : KHom f ι U B) {sc : Sched} (hsc : sc.Ok) (mat : Mat N) {rem : List ℤ} {data : List (Rec N)}
    (hr : ∀ x ∈ rem, Bd ((mat.len : ℤ) * U) x) (hd : data.length = mat.len)
    (hB : 3 * (((mat.len + 1 : Nat) : ℤ) * U) ≤ B) (j : Nat) :
    HomB (Prod.map ι id) (fun r => Bd (3 * ((mat.len : ℤ) * U)) r.1) (parFindBestSwap sc mat rem data j)
      (parFindBestSwapK sc (mat.map f) (rem.map ι) (data.map (Rec.map f)) j) := by
  have hU := H.uNonneg
  have hn := succU U mat.len
  have hn0 : 0 ≤ (mat.len : ℤ) * U := mul_nonneg (by positivity) hU
  unfold parFindBestSwap parFindBestSwapK
  have ht : 0 + (sc.order.map (chunkLen mat.len sc.parts)).sum ≤ mat.len := by
    rw [Nat.zero_add, (hsc.perm.map _).sum_eq, chunkLen_sum]; exact min_le_right _ _
  have h := H.parMergeFoldB mat hd hB rem.length j sc.parts ht (st := (rem, 0)) (by simpa using hr) (Bd.zero (by simp))
  rw [List.length_map, show ((rem.map ι, (KLoss.zero : L')) : List L' × L') = Prod.map (List.map ι) ι (rem, 0) by
    simp [H.lossZero]]
  refine h.bind fun st hst => ?_
  refine (H.findMinB (by linarith) hst.1).bind fun r hr => ?_
  simp only [Prod.map_snd, Prod.map_fst, id_eq]
  rw [H.addB hr hst.2 (by linarith) hn0 (by linarith), ok_bind]
  refine HomB.ok rfl ?_
  · show Bd _ (r.2 + st.2)
    exact (hr.add hst.2).mono (by linarith)

theorem parSwapRecB (H : KHom f ι U B) (mat : Mat N) (med : List Nat) (b j : Nat) (p : Rec N × Nat) :
    HomB (Prod.map (Rec.map f) ι) (fun r => Bd U r.2) (parSwapRec mat med b j p)
      (parSwapRecK (mat.map f) med b j (Prod.map (Rec.map f) id p)) := by
  have key : ∀ {x : Res (Rec N)} {x' : Res (Rec N')}, HomB (Rec.map f) (fun _ => True) x x' →
      HomB (Prod.map (Rec.map f) ι) (fun r => Bd U r.2) (x >>= fun r => .ok (r, (conv r.near.d : ℤ)))
        (x' >>= fun r => .ok (r, (conv r.near.d : L'))) := fun h =>
    h.bind fun r _ => HomB.ok (by simp [Rec.map, DistancePair.map, H.lossConv]) (H.bdConv _)
  have hu : ∀ nn x, HomB (DistancePair.map f) (fun _ => True) (updateSecondNearest mat med nn b p.2 x)
      (updateSecondNearest (mat.map f) med nn b p.2 (f x)) :=
    fun nn x => ofEq (H.updateSecondNearestB mat med nn b p.2 x)
  unfold parSwapRec parSwapRecK
  simp only [Prod.map_snd, Prod.map_fst, id_eq]
  refine HomB.ite Iff.rfl (fun _ => HomB.ok ?_ (Bd.zero H.uNonneg)) fun _ => ?_
  · simp only [Prod.map_apply]
    refine Prod.ext ?_ H.lossZero.symm
    by_cases hb : p.1.near.i = asU32 b <;>
      simp [hb, Rec.map, DistancePair.map, DistancePair.new, H.distZero]
  · refine (getB mat _ _).bind fun x _ => ?_
    simp only [Rec.map, DistancePair.map, H.dlt]
    refine HomB.ite Iff.rfl (fun _ => HomB.ite Iff.rfl (fun _ => ?_) fun _ => ?_) fun _ =>
      HomB.ite Iff.rfl (fun _ => ?_) fun _ => HomB.ite Iff.rfl (fun _ => ?_) fun _ =>
      HomB.ite Iff.rfl (fun _ => ?_) fun _ => ?_
    · exact key (HomB.ok rfl trivial)
    · exact (hu _ _).bind fun s _ => key (HomB.ok rfl trivial)
    · exact key (HomB.ok rfl trivial)
    · exact (hu _ _).bind fun s _ => key (HomB.ok rfl trivial)
    · exact key (HomB.ok rfl trivial)
    · exact key (HomB.ok rfl trivial)

theorem parDoSwapB (H : KHom f ι U B) (sc : Sched) (mat : Mat N) (med : List Nat) {data : List (Rec N)} {n : Nat}
    (hd : data.length = n) (hB : 3 * (((n + 1 : Nat) : ℤ) * U) ≤ B) (b j : Nat) :
    HomB (Prod.map ι (Prod.map id (List.map (Rec.map f))))
      (fun r => Bd ((n : ℤ) * U) r.1 ∧ r.2.2.length = n)
      (parDoSwap ℤ sc mat med data b j) (parDoSwapK L' sc (mat.map f) med (data.map (Rec.map f)) b j) := by
  have hU := H.uNonneg
  have hn := succU U n
  have hn0 : 0 ≤ (n : ℤ) * U := mul_nonneg (by positivity) hU
  unfold parDoSwap parDoSwapK
  rw [show (mat.map f).len = mat.len from rfl]
  refine (HomB.same _).bind fun _ _ => (HomB.same _).bind fun _ _ => (HomB.same _).bind fun med' _ => ?_
  rw [zipIdx_hom]
  refine (HomB.mapRes (H.parSwapRecB mat med' b j) data.zipIdx).bind fun rs hrs => ?_
  rw [List.length_zipIdx, hd] at hrs
  have h2 : (rs.map (Prod.map (Rec.map f) ι)).map (·.2) = (rs.map (·.2)).map ι := by simp
  have h3 := H.unwrapTreeB sc.tree (xs := rs.map (·.2))
    (fun x hx => by obtain ⟨r, hr, rfl⟩ := List.mem_map.mp hx; exact hrs.2 r hr)
    (by rw [List.length_map, hrs.1]; linarith)
  rw [List.length_map, hrs.1] at h3
  rw [h2, ← rbind_assoc]
  exact h3.bind fun l hl => HomB.ok (by simp) ⟨hl, by simp [hrs.1]⟩

theorem parPassB (H : KHom f ι U B) {scF scS : Nat → Sched} (hF : ∀ j, (scF j).Ok) (mat : Mat N)
    (hB : 3 * (((mat.len + 1 : Nat) : ℤ) * U) ≤ B)
    (js : List Nat) {s : FPState N ℤ} (hs : FPB mat.len U s) :
    HomB (mapFP f ι) (FPB mat.len U) (parPass scF scS mat js s) (parPassK scF scS (mat.map f) js (mapFP f ι s)) := by
  have hU := H.uNonneg
  have hn := succU U mat.len
  have hn0 : 0 ≤ (mat.len : ℤ) * U := mul_nonneg (by positivity) hU
  induction js generalizing s with
  | nil => exact HomB.ok rfl hs
  | cons j js ih =>
    unfold parPass parPassK
    refine HomB.ite Iff.rfl (fun _ => HomB.ok rfl hs) fun _ => ?_
    refine (isOwnB s.med s.data j).bind fun own _ => ?_
    refine HomB.ite Iff.rfl (fun _ => ih hs) fun _ => ?_
    refine (H.parFindBestSwapB (hF j) mat hs.rem hs.len hB j).bind fun r hr => ?_
    refine HomB.ite ?_ (fun _ => ih hs) fun _ => ?_
    · show rge (ι r.1) (KLoss.zero : L') = true ↔ _
      rw [← H.lossZero, H.lge (hr.mono (by linarith)) (Bd.zero (by linarith))]; rfl
    refine (H.parDoSwapB (scS j) mat s.med hs.len hB r.2 j).bind fun q hq => ?_
    have hl : (mapFP f ι s).rem.length = s.rem.length := by simp [mapFP]
    simp only [hl]
    refine (H.updateRemovalLossB hq.2 hB s.rem.length).bind fun rem hrem => ?_
    exact ih (s := ⟨q.2.1, q.2.2, rem, q.1, j, s.nSwaps + 1⟩) ⟨hq.2, hrem, hq.1⟩

theorem parLoopB (H : KHom f ι U B) {scF scS : Nat → Nat → Sched} (hF : ∀ i j, (scF i j).Ok) (mat : Mat N)
    (hB : 3 * (((mat.len + 1 : Nat) : ℤ) * U) ≤ B)
    (seq : List Nat) (fuel iter : Nat) {s : FPState N ℤ} (hs : FPB mat.len U s) :
    HomB (Prod.map (mapFP f ι) id) (fun r => FPB mat.len U r.1) (parLoop scF scS mat seq fuel iter s)
      (parLoopK scF scS (mat.map f) seq fuel iter (mapFP f ι s)) := by
  have hU := H.uNonneg
  have hn := succU U mat.len
  have hn0 : 0 ≤ (mat.len : ℤ) * U := mul_nonneg (by positivity) hU
  induction fuel generalizing iter s with
  | zero => exact HomB.ok rfl hs
  | succ fuel ih =>
    unfold parLoop parLoopK
    refine (H.parPassB (hF iter) mat hB seq hs).bind fun s' hs' => ?_
    refine HomB.ite ?_ (fun _ => HomB.ok rfl hs') fun _ => ih _ hs'
    simp only [mapFP, H.lge (hs'.loss.mono (by linarith)) (hs.loss.mono (by linarith))]

theorem parFasterpamB (H : KHom f ι U B) (sc0 : Sched) {scF scS : Nat → Nat → Sched} (hF : ∀ i j, (scF i j).Ok)
    (mat : Mat N) (med : List Nat) (maxiter : Nat) (seq : List Nat)
    (hB : 3 * (((mat.len + 1 : Nat) : ℤ) * U) ≤ B) :
    HomB (SwapResult.map ι) (fun r => Bd ((mat.len : ℤ) * U) r.loss) (parFasterpam ℤ sc0 scF scS mat med maxiter seq)
      (parFasterpamK L' sc0 scF scS (mat.map f) med maxiter seq) := by
  have hU := H.uNonneg
  have hn := succU U mat.len
  have hn0 : 0 ≤ (mat.len : ℤ) * U := mul_nonneg (by positivity) hU
  unfold parFasterpam parFasterpamK
  refine HomB.ite Iff.rfl (fun _ => H.singleClusterB mat med (by linarith)) fun _ => ?_
  refine (H.parInitialAssignmentB sc0 mat med (by linarith)).bind fun q hq => ?_
  refine (H.updateRemovalLossB hq.2 hB med.length).bind fun rem hrem => ?_
  refine (H.parLoopB hF mat hB seq maxiter 0 (s := ⟨med, q.2, rem, q.1, mat.len, 0⟩) ⟨hq.2, hrem, hq.1⟩).bind
    fun r hr => HomB.ok ?_ hr.loss
  simp [SwapResult.map, mapFP, Rec.map, DistancePair.map]

end KHom

end KMedoids
