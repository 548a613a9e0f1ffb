import Verif.Model.FastPam1
import Verif.Model.Alternating
import Verif.Proofs.PureFasterPam

/-!
# Panic-free form of PAM, FastPAM1, BUILD and the alternating algorithm

No law about the number types is used, except that `0 < 0` is false (`SaneZero`).
-/

set_option linter.unusedSectionVars false
set_option linter.unusedSimpArgs false

namespace KMedoids

variable {N L : Type} [RDist N] [RLoss L] [RFrom N L]
open RFrom (conv)

theorem rlt_zero_zero [SaneZero L] : rlt (RLoss.zero : L) RLoss.zero = false := by
  simp [rlt, SaneZero.pcmp_zero]

/-! ## find_best_swap_pam and the scan over all candidates -/

/-- pure `findBestSwapPamStep` -/
def pamStepP (d : Nat → Nat → N) (m j : Nat) (acc : L) (p : Rec N × Nat) : L :=
  if p.2 = j then acc
  else if p.1.near.i = m then
    if rlt (d p.2 j) p.1.seco.d then RLoss.add acc (RLoss.sub (conv (d p.2 j)) (conv p.1.near.d))
    else RLoss.add acc (RLoss.sub (conv p.1.seco.d) (conv p.1.near.d))
  else if rlt (d p.2 j) p.1.near.d then RLoss.add acc (RLoss.sub (conv (d p.2 j)) (conv p.1.near.d))
  else acc

/-- `data[j].near.d` -/
def nearDP (data : List (Rec N)) (j : Nat) : N :=
  match data[j]? with
  | some r => r.near.d
  | none => RDist.zero

/-- pure change of total deviation computed by PAM for the exchange of medoid `m` with `j` -/
def pamChangeP (L : Type) [RLoss L] [RFrom N L] (d : Nat → Nat → N) (data : List (Rec N)) (j m : Nat) :
    L :=
  data.zipIdx.foldl (pamStepP d m j) (RLoss.neg (conv (nearDP data j)))

/-- pure `findBestSwapPam` -/
def pamFbsP (L : Type) [RLoss L] [RFrom N L] (d : Nat → Nat → N) (k : Nat) (data : List (Rec N))
    (j : Nat) : L × Nat :=
  (List.range k).foldl (fun (best : L × Nat) (m : Nat) =>
    if rlt (pamChangeP L d data j m) best.1 then (pamChangeP L d data j m, m) else best)
    (RLoss.zero, usizeMax)

theorem pamChange_eq {mat : Mat N} {n : Nat} {d : Nat → Nat → N} (hm : IsMatrix mat n d)
    {data : List (Rec N)} (hl : data.length = n) {j : Nat} (hj : j < n) (m : Nat) (s : L) :
    foldRes (findBestSwapPamStep mat m j) s data.zipIdx =
      .ok (data.zipIdx.foldl (pamStepP d m j) s) := by
  refine foldRes_eq' (fun s p hp => ?_) _
  unfold findBestSwapPamStep pamStepP
  by_cases h : p.2 = j
  · simp [h]
  · simp only [h, if_false, hm.get _ _ (hl ▸ mem_zipIdx_lt hp) hj, ok_bind]
    split
    · split <;> rfl
    · split <;> rfl

theorem findBestSwapPam_eq [SaneZero L] {mat : Mat N} {n : Nat} {d : Nat → Nat → N}
    (hm : IsMatrix mat n d) {med : List Nat} {data : List (Rec N)} (hl : data.length = n) {j : Nat}
    (hj : j < n) :
    findBestSwapPam L mat med data j = .ok (pamFbsP L d med.length data j) ∧
      (rlt (pamFbsP L d med.length data j).1 RLoss.zero = true →
        (pamFbsP L d med.length data j).2 < med.length) := by
  have hjl : j < data.length := hl ▸ hj
  have hnd : data[j].near.d = nearDP data j := by simp [nearDP, List.getElem?_eq_getElem hjl]
  simp only [findBestSwapPam, idx_lt hjl, ok_bind, hnd]
  refine foldRes_eq (fun b : L × Nat => rlt b.1 RLoss.zero = true → b.2 < med.length)
    (fun b m hmem hb => ?_) (by simp [rlt_zero_zero])
  have hmk : m < med.length := List.mem_range.mp hmem
  simp only [pamChange_eq hm hl hj, ok_bind]
  refine ⟨rfl, ?_⟩
  split
  · intro _; exact hmk
  · exact hb

/-- One candidate in the scan for the best exchange. -/
def scanStepP (fbs : Nat → L × Nat) (own : Nat → Bool) (best : L × Nat × Nat) (j : Nat) :
    L × Nat × Nat :=
  if own j then best
  else if rge (fbs j).1 best.1 then best else ((fbs j).1, (fbs j).2, j)

/-- pure scan of `pamLoop` -/
def pamScanP (d : Nat → Nat → N) (n k : Nat) (med : List Nat) (data : List (Rec N)) : L × Nat × Nat :=
  (List.range n).foldl (scanStepP (pamFbsP L d k data) (ownP med data)) (RLoss.zero, k, usizeMax)

/-- pure scan of `fastpam1Loop` -/
def fastScanP (d : Nat → Nat → N) (n k : Nat) (med : List Nat) (data : List (Rec N)) :
    L × Nat × Nat :=
  (List.range n).foldl (scanStepP (fbsP d (remP L data k) data) (ownP med data))
    (RLoss.zero, usizeMax, usizeMax)

/-- A scan result that will be used is in range. -/
def ScanOk (n k : Nat) (b : L × Nat × Nat) : Prop :=
  rlt b.1 RLoss.zero = true → b.2.1 < k ∧ b.2.2 < n

theorem pamScan_eq [SaneZero L] {mat : Mat N} {n k : Nat} {d : Nat → Nat → N} (hm : IsMatrix mat n d)
    {med : List Nat} {data : List (Rec N)} (hs : Shape n k med data) :
    foldRes (pamScanStep mat med data) ((RLoss.zero : L), k, usizeMax) (List.range mat.len) =
      .ok (pamScanP d n k med data) ∧ ScanOk n k (pamScanP d n k med data : L × Nat × Nat) := by
  rw [hm.len]
  refine foldRes_eq (ScanOk n k) (fun b j hj hb => ?_) (by simp [ScanOk, rlt_zero_zero])
  have hj := List.mem_range.mp hj
  obtain ⟨h1, h2⟩ := findBestSwapPam_eq (L := L) hm (med := med) hs.dataLen hj
  rw [hs.medLen] at h1 h2
  simp only [pamScanStep, isOwnMedoid_eq hs hj, ok_bind, h1, scanStepP]
  split
  · exact ⟨rfl, hb⟩
  · refine ⟨by simp, ?_⟩
    split
    · exact hb
    · exact fun hlt => ⟨h2 hlt, hj⟩

theorem fastScan_eq [SaneZero L] {mat : Mat N} {n k : Nat} {d : Nat → Nat → N} (hm : IsMatrix mat n d)
    (hk : 1 ≤ k) {med : List Nat} {data : List (Rec N)} (hs : Shape n k med data) :
    foldRes (fastpam1ScanStep mat med data (remP L data k)) ((RLoss.zero : L), usizeMax, usizeMax)
      (List.range mat.len) =
      .ok (fastScanP d n k med data) ∧ ScanOk n k (fastScanP d n k med data : L × Nat × Nat) := by
  rw [hm.len]
  refine foldRes_eq (ScanOk n k) (fun b j hj hb => ?_) (by simp [ScanOk, rlt_zero_zero])
  have hj := List.mem_range.mp hj
  have hrl := (updateRemovalLoss_eq (L := L) hs.recIdx).2
  obtain ⟨h1, h2⟩ := findBestSwap_eq (L := L) hm hj hs.dataLen (rem := remP L data k)
    (by rw [hrl]; exact hk) (by rw [hrl]; exact hs.recIdx)
  rw [hrl] at h2
  simp only [fastpam1ScanStep, isOwnMedoid_eq hs hj, ok_bind, h1, scanStepP]
  split
  · exact ⟨rfl, hb⟩
  · refine ⟨by simp, ?_⟩
    split
    · exact hb
    · exact fun hlt => ⟨h2, hj⟩

/-- pure swap of `pamLoop` without the loss -/
def pSwapP (d : Nat → Nat → N) (s : PState N L) (b j : Nat) (loss : L) : PState N L :=
  ⟨s.med.set b j, swapDataP d s.med s.data b j, loss, s.nSwaps + 1⟩

/-- pure `pamLoop` / `fastpam1Loop`, given the scan -/
def pLoopP (d : Nat → Nat → N) (scan : List Nat → List (Rec N) → L × Nat × Nat) :
    Nat → Nat → PState N L → PState N L × Nat
  | 0, iter, s => (s, iter)
  | fuel + 1, iter, s =>
    let best := scan s.med s.data
    if rlt best.1 RLoss.zero then
      let newloss := swapSumP L best.2.2 (swapDataP d s.med s.data best.2.1 best.2.2)
      if rge newloss s.loss then (pSwapP d s best.2.1 best.2.2 s.loss, iter + 1)
      else pLoopP d scan fuel (iter + 1) (pSwapP d s best.2.1 best.2.2 newloss)
    else (s, iter + 1)

theorem pamLoop_eq [SaneZero L] {mat : Mat N} {n k : Nat} {d : Nat → Nat → N} (hm : IsMatrix mat n d)
    (hk : k < u32Max) {fuel iter : Nat} {s : PState N L} (hs : Shape n k s.med s.data) :
    pamLoop mat k fuel iter s = .ok (pLoopP d (pamScanP d n k) fuel iter s) ∧
      Shape n k (pLoopP d (pamScanP d n k) fuel iter s).1.med
        (pLoopP d (pamScanP d n k) fuel iter s).1.data := by
  induction fuel generalizing iter s with
  | zero => exact ⟨rfl, hs⟩
  | succ fuel ih =>
    obtain ⟨h1, h2⟩ := pamScan_eq (L := L) hm hs
    unfold pamLoop pLoopP
    simp only [h1, ok_bind]
    split
    · rename_i hlt
      obtain ⟨hb, hj⟩ := h2 hlt
      obtain ⟨h3, h4⟩ := doSwap_eq (L := L) hm hs hk hb hj
      simp only [h3, ok_bind]
      split
      · exact ⟨rfl, h4⟩
      · exact ih h4
    · exact ⟨rfl, hs⟩

theorem fastpam1Loop_eq [SaneZero L] {mat : Mat N} {n k : Nat} {d : Nat → Nat → N}
    (hm : IsMatrix mat n d) (hk : k < u32Max) (hk1 : 1 ≤ k) {fuel iter : Nat} {s : PState N L}
    (hs : Shape n k s.med s.data) :
    fastpam1Loop mat k fuel iter s = .ok (pLoopP d (fastScanP d n k) fuel iter s) ∧
      Shape n k (pLoopP d (fastScanP d n k) fuel iter s).1.med
        (pLoopP d (fastScanP d n k) fuel iter s).1.data := by
  induction fuel generalizing iter s with
  | zero => exact ⟨rfl, hs⟩
  | succ fuel ih =>
    obtain ⟨h1, h2⟩ := fastScan_eq (L := L) hm hk1 hs
    unfold fastpam1Loop pLoopP
    simp only [(updateRemovalLoss_eq (L := L) hs.recIdx).1, h1, ok_bind]
    split
    · rename_i hlt
      obtain ⟨hb, hj⟩ := h2 hlt
      obtain ⟨h3, h4⟩ := doSwap_eq (L := L) hm hs hk hb hj
      simp only [h3, ok_bind]
      split
      · exact ⟨rfl, h4⟩
      · exact ih h4
    · exact ⟨rfl, hs⟩

/-- the returned tuple -/
def pResultP (r : PState N L × Nat) : SwapResult L :=
  ⟨r.1.loss, r.1.data.map (·.near.i), r.2, r.1.nSwaps, r.1.med⟩

/-- pure optimisation given initial caches (both PAM and FastPAM1) -/
def pOptP (d : Nat → Nat → N) (n : Nat)
    (scan : Nat → Nat → List Nat → List (Rec N) → L × Nat × Nat)
    (med : List Nat) (data : List (Rec N)) (maxiter : Nat) (loss : L) : SwapResult L :=
  match med with
  | [c] => singleP L d n c
  | med => pResultP (pLoopP d (scan n med.length) maxiter 0 ⟨med, data, loss, 0⟩)

theorem pOptP_single (d : Nat → Nat → N) (n c : Nat)
    (scan : Nat → Nat → List Nat → List (Rec N) → L × Nat × Nat)
    (data : List (Rec N)) (maxiter : Nat) (loss : L) :
    pOptP d n scan [c] data maxiter loss = singleP L d n c := rfl

theorem pOptP_many (d : Nat → Nat → N) (n : Nat)
    (scan : Nat → Nat → List Nat → List (Rec N) → L × Nat × Nat) {med : List Nat}
    (hk : 2 ≤ med.length) (data : List (Rec N)) (maxiter : Nat) (loss : L) :
    pOptP d n scan med data maxiter loss =
      pResultP (pLoopP d (scan n med.length) maxiter 0 ⟨med, data, loss, 0⟩) := by
  match med, hk with
  | a :: b :: t, _ => rfl

theorem pamOptimize_eq [SaneZero L] {mat : Mat N} {n : Nat} {d : Nat → Nat → N}
    (hm : IsMatrix mat n d) {med : List Nat} (hv : ValidMeds n med) {data : List (Rec N)}
    (hs : 2 ≤ med.length → Shape n med.length med data) (maxiter : Nat) (loss : L) :
    pamOptimize mat med data maxiter loss = .ok (pOptP d n (pamScanP d) med data maxiter loss) := by
  by_cases h1 : med.length = 1
  · obtain ⟨c, rfl⟩ := List.length_eq_one_iff.mp h1
    simp only [pamOptimize, h1, if_true, (singleCluster_eq hm (hv.range c (by simp))).1, pOptP_single]
  · have hk : 2 ≤ med.length := by have := hv.sizes.pos; omega
    have h := (pamLoop_eq (L := L) hm hv.sizes.k_lt (fuel := maxiter) (iter := 0)
      (s := ⟨med, data, loss, 0⟩) (hs hk)).1
    simp only [pamOptimize, h1, if_false, h, ok_bind, pOptP_many d n _ hk, pResultP]

/-- pure `pamSwap` -/
def pamSwapP (L : Type) [RLoss L] [RFrom N L] (d : Nat → Nat → N) (n : Nat) (med : List Nat)
    (maxiter : Nat) : SwapResult L :=
  pOptP d n (pamScanP d) med (initDataP d n med) maxiter (nearLossP L (initDataP d n med))

/-- pure `fastpam1` -/
def fastpam1P (L : Type) [RLoss L] [RFrom N L] (d : Nat → Nat → N) (n : Nat) (med : List Nat)
    (maxiter : Nat) : SwapResult L :=
  pOptP d n (fastScanP d) med (initDataP d n med) maxiter (nearLossP L (initDataP d n med))

theorem pamSwap_eq [SaneZero L] {mat : Mat N} {n : Nat} {d : Nat → Nat → N}
    (hm : IsMatrix mat n d) {med : List Nat} (hv : ValidMeds n med) (maxiter : Nat) :
    pamSwap L mat med maxiter = .ok (pamSwapP L d n med maxiter) := by
  simp only [pamSwap, initialAssignment_eq hm hv, ok_bind]
  exact pamOptimize_eq hm hv (initDataP_shape d hv) maxiter _

theorem fastpam1_eq [SaneZero L] {mat : Mat N} {n : Nat} {d : Nat → Nat → N}
    (hm : IsMatrix mat n d) {med : List Nat} (hv : ValidMeds n med) (maxiter : Nat) :
    fastpam1 L mat med maxiter = .ok (fastpam1P L d n med maxiter) := by
  by_cases h1 : med.length = 1
  · obtain ⟨c, rfl⟩ := List.length_eq_one_iff.mp h1
    simp only [fastpam1, h1, if_true, (singleCluster_eq hm (hv.range c (by simp))).1, fastpam1P,
      pOptP_single]
  · have hk : 2 ≤ med.length := by have := hv.sizes.pos; omega
    have h := (fastpam1Loop_eq (L := L) hm hv.sizes.k_lt (by omega) (fuel := maxiter) (iter := 0)
      (s := ⟨med, initDataP d n med, nearLossP L (initDataP d n med), 0⟩) (initDataP_shape d hv hk)).1
    simp only [fastpam1, h1, if_false, initialAssignment_eq hm hv, h, ok_bind, fastpam1P,
      pOptP_many d n _ hk, pResultP]

/-! ## BUILD -/

/-- pure `buildFirstSum` -/
def buildFirstSumP (L : Type) [RLoss L] [RFrom N L] (d : Nat → Nat → N) (n i : Nat) : L :=
  (List.range n).foldl (fun (sum : L) (j : Nat) =>
    if j ≠ i then RLoss.add sum (conv (d j i)) else sum) RLoss.zero

/-- first strict minimum over `0..n` (the `i == 0 ||` idiom of BUILD) -/
def argminP (f : Nat → L) (n k : Nat) : L × Nat :=
  (List.range n).foldl (fun (best : L × Nat) (i : Nat) =>
    if i == 0 || rlt (f i) best.1 then (f i, i) else best) (RLoss.zero, k)

theorem argminP_lt (f : Nat → L) {n : Nat} (k : Nat) (hn : 0 < n) : (argminP f n k).2 < n := by
  obtain ⟨m, rfl⟩ : ∃ m, n = m + 1 := ⟨n - 1, by omega⟩
  unfold argminP
  rw [List.range_succ_eq_map, List.foldl_cons]
  refine foldl_inv (fun b : L × Nat => b.2 < m + 1) (fun b i hi hb => ?_) (by simp)
  obtain ⟨x, hx, rfl⟩ := List.mem_map.mp hi
  have := List.mem_range.mp hx
  split
  · show Nat.succ x < m + 1; omega
  · exact hb

theorem buildFirst_eq {mat : Mat N} {n : Nat} {d : Nat → Nat → N} (hm : IsMatrix mat n d) (k : Nat) :
    buildFirst L mat k = .ok (argminP (buildFirstSumP L d n) n k) := by
  unfold buildFirst argminP
  rw [hm.len]
  refine foldRes_eq' (fun b i hi => ?_) _
  have hi := List.mem_range.mp hi
  have : buildFirstSum L mat i = .ok (buildFirstSumP L d n i) := by
    unfold buildFirstSum buildFirstSumP
    rw [hm.len]
    refine foldRes_eq' (fun s j hj => ?_) _
    by_cases h : j ≠ i
    · simp only [if_pos h, hm.get j i (List.mem_range.mp hj) hi, ok_bind]
    · simp only [if_neg h]
  simp only [this, ok_bind]

/-- pure `buildSum` -/
def buildSumP (L : Type) [RLoss L] [RFrom N L] (d : Nat → Nat → N) (near : List N) (i : Nat) : L :=
  near.zipIdx.foldl (fun (sum : L) (p : N × Nat) =>
    if p.2 ≠ i then
      if rlt (d p.2 i) p.1 then RLoss.add sum (RLoss.sub (conv (d p.2 i)) (conv p.1)) else sum
    else sum) (RLoss.neg (conv (near.getD i RDist.zero)))

theorem buildNext_eq {mat : Mat N} {n : Nat} {d : Nat → Nat → N} (hm : IsMatrix mat n d)
    {near : List N} (hl : near.length = n) (k : Nat) :
    buildNext L mat near k = .ok (argminP (buildSumP L d near) n k) := by
  unfold buildNext argminP
  rw [hl]
  refine foldRes_eq' (fun b i hi => ?_) _
  have hi := List.mem_range.mp hi
  have hil : i < near.length := hl ▸ hi
  have hd : near.getD i RDist.zero = near[i] := by simp [hil]
  have : buildSum L mat near i = .ok (buildSumP L d near i) := by
    unfold buildSum buildSumP
    simp only [idx_lt hil, ok_bind, hd]
    refine foldRes_eq' (fun s p hp => ?_) _
    by_cases h : p.2 ≠ i
    · simp only [if_pos h, hm.get p.2 i (hl ▸ mem_zipIdx_lt hp) hi, ok_bind]
    · simp only [if_neg h]
  simp only [this, ok_bind]

/-- pure `buildUpdateRec` -/
def buildRecP (d : Nat → Nat → N) (l c : Nat) (p : Rec N × Nat) : Rec N :=
  if p.2 = c then { near := ⟨l, RDist.zero⟩, seco := p.1.near }
  else if rlt (d p.2 c) p.1.near.d then { near := ⟨l, d p.2 c⟩, seco := p.1.near }
  else if p.1.seco.i == u32Max || rlt (d p.2 c) p.1.seco.d then { p.1 with seco := ⟨l, d p.2 c⟩ }
  else p.1

theorem buildUpdate_eq {mat : Mat N} {n : Nat} {d : Nat → Nat → N} (hm : IsMatrix mat n d)
    {data : List (Rec N)} (hl : data.length = n) {l c : Nat} (hlu : l < u32Max) (hc : c < n) :
    mapRes (buildUpdateRec mat l c) data.zipIdx = .ok (data.zipIdx.map (buildRecP d l c)) := by
  refine mapRes_eq fun p hp => ?_
  unfold buildUpdateRec buildRecP
  simp only [DistancePair.new, asU32_lt hlu]
  by_cases h : p.2 = c
  · simp [h]
  · simp only [h, if_false, hm.get _ _ (hl ▸ mem_zipIdx_lt hp) hc, ok_bind]
    split
    · rfl
    · split <;> rfl

/-- pure `buildLoop` -/
def buildLoopP (d : Nat → Nat → N) (n k : Nat) :
    List Nat → List Nat → List (Rec N) → L → List Nat × List (Rec N) × L
  | [], meds, data, loss => (meds, data, loss)
  | l :: ls, meds, data, loss =>
    let best := argminP (buildSumP L d (data.map (·.near.d))) n k
    if rge best.1 RLoss.zero then (meds, data, loss)
    else
      let data := data.zipIdx.map (buildRecP d l best.2)
      buildLoopP d n k ls (meds ++ [best.2]) data (buildLoss L best.2 data)

/-- Cache of BUILD: the second nearest is unset for a single medoid. -/
structure BShape (n : Nat) (meds : List Nat) (data : List (Rec N)) : Prop where
  medRange : ∀ m ∈ meds, m < n
  pos : 1 ≤ meds.length
  dataLen : data.length = n
  near : ∀ r ∈ data, r.near.i < meds.length
  seco : ∀ r ∈ data, (meds.length = 1 ∧ r.seco.i = u32Max) ∨ r.seco.i < meds.length

theorem BShape.shape {n : Nat} {meds : List Nat} {data : List (Rec N)} (h : BShape n meds data)
    (hk : 2 ≤ meds.length) : Shape n meds.length meds data :=
  ⟨rfl, h.medRange, h.dataLen, fun r hr => ⟨h.near r hr, by
    rcases h.seco r hr with h | h
    · omega
    · exact h⟩⟩

theorem buildRecP_shape {n : Nat} {d : Nat → Nat → N} {meds : List Nat} {data : List (Rec N)}
    (h : BShape n meds data) {c : Nat} (hc : c < n) :
    BShape n (meds ++ [c]) (data.zipIdx.map (buildRecP d meds.length c)) := by
  refine ⟨?_, by simp, by simp [h.dataLen], ?_, ?_⟩
  · intro m hm
    rcases List.mem_append.mp hm with hm | hm
    · exact h.medRange m hm
    · rw [List.mem_singleton.mp hm]; exact hc
  · intro r hr
    obtain ⟨p, hp, rfl⟩ := List.mem_map.mp hr
    have := h.near _ (mem_zipIdx_mem hp)
    simp only [List.length_append, List.length_singleton]
    unfold buildRecP
    split
    · simp
    · split
      · simp
      · split
        · simp; omega
        · omega
  · intro r hr
    right
    obtain ⟨p, hp, rfl⟩ := List.mem_map.mp hr
    have h1 := h.near _ (mem_zipIdx_mem hp)
    have h2 := h.seco _ (mem_zipIdx_mem hp)
    simp only [List.length_append, List.length_singleton]
    unfold buildRecP
    split
    · simp; omega
    · split
      · simp; omega
      · split
        · simp
        · rename_i h3
          rcases h2 with h2 | h2
          · simp [h2.2] at h3
          · omega

theorem buildLoop_eq {mat : Mat N} {n k : Nat} {d : Nat → Nat → N} (hm : IsMatrix mat n d)
    (hk : k < u32Max) {cnt : Nat} {meds : List Nat} {data : List (Rec N)} {loss : L}
    (hs : BShape n meds data) (hcnt : meds.length + cnt ≤ k) :
    buildLoop mat k (List.range' meds.length cnt) meds data loss =
      .ok (buildLoopP d n k (List.range' meds.length cnt) meds data loss) ∧
    BShape n (buildLoopP d n k (List.range' meds.length cnt) meds data loss).1
      (buildLoopP d n k (List.range' meds.length cnt) meds data loss).2.1 ∧
    (buildLoopP d n k (List.range' meds.length cnt) meds data loss).1.length ≤ meds.length + cnt := by
  induction cnt generalizing meds data loss with
  | zero => exact ⟨rfl, hs, by simp [buildLoopP]⟩
  | succ cnt ih =>
    have hn : 0 < n := by
      obtain ⟨m, hm⟩ := List.exists_mem_of_length_pos hs.pos
      have := hs.medRange m hm; omega
    have hmap : (data.map (·.near.d)).length = n := by simp [hs.dataLen]
    have hc := argminP_lt (buildSumP L d (data.map (·.near.d))) k hn
    rw [List.range'_succ]
    unfold buildLoop buildLoopP
    simp only [buildNext_eq (L := L) hm hmap k, ok_bind]
    split
    · exact ⟨rfl, hs, by dsimp only; omega⟩
    · rw [buildUpdate_eq hm hs.dataLen (by omega) hc]
      simp only [ok_bind]
      have := ih (loss := buildLoss L (argminP (buildSumP L d (data.map (·.near.d))) n k).2
        (data.zipIdx.map (buildRecP d meds.length
          (argminP (buildSumP L d (data.map (·.near.d))) n k).2)))
        (buildRecP_shape (d := d) hs hc) (by simp; omega)
      simp only [List.length_append, List.length_singleton] at this
      refine ⟨this.1, this.2.1, by omega⟩

/-- pure first records of BUILD -/
def buildInitP (d : Nat → Nat → N) (n c : Nat) : List (Rec N) :=
  (List.range n).map fun j => ⟨⟨0, d j c⟩, ⟨u32Max, RDist.zero⟩⟩

/-- pure `pamBuildInitialize` -/
def buildP (L : Type) [RLoss L] [RFrom N L] (d : Nat → Nat → N) (n k : Nat) :
    List Nat × List (Rec N) × L :=
  let best := argminP (buildFirstSumP L d n) n k
  buildLoopP d n k (List.range' 1 (k - 1)) [best.2] (buildInitP d n best.2) best.1

theorem drop_one_range (k : Nat) : (List.range k).drop 1 = List.range' 1 (k - 1) := by
  cases k with
  | zero => rfl
  | succ k => rw [List.range_eq_range', List.range'_succ]; simp

theorem buildInitP_shape {n : Nat} (d : Nat → Nat → N) {c : Nat} (hc : c < n) :
    BShape n [c] (buildInitP d n c) := by
  refine ⟨by simp [hc], by simp, by simp [buildInitP], ?_, ?_⟩
  · intro r hr
    obtain ⟨j, -, rfl⟩ := List.mem_map.mp hr; simp
  · intro r hr
    obtain ⟨j, -, rfl⟩ := List.mem_map.mp hr; simp

theorem pamBuildInitialize_eq {mat : Mat N} {n k : Nat} {d : Nat → Nat → N} (hm : IsMatrix mat n d)
    (hs : Sizes n k) :
    pamBuildInitialize L mat k = .ok (buildP L d n k) ∧
      BShape n (buildP L d n k).1 (buildP L d n k).2.1 ∧ (buildP L d n k).1.length ≤ k := by
  have hn : 0 < n := by have := hs.pos; have := hs.le; omega
  have hc := argminP_lt (buildFirstSumP L d n) k hn
  have hmap : mapRes (fun j => do
      let x ← mat.get j (argminP (buildFirstSumP L d n) n k).2
      .ok (⟨⟨0, x⟩, ⟨u32Max, RDist.zero⟩⟩ : Rec N)) (List.range n) =
      .ok (buildInitP d n (argminP (buildFirstSumP L d n) n k).2) :=
    mapRes_eq fun j hj => by simp only [hm.get j _ (List.mem_range.mp hj) hc, ok_bind]
  have h := buildLoop_eq (L := L) hm hs.k_lt (cnt := k - 1)
    (loss := (argminP (buildFirstSumP L d n) n k).1) (buildInitP_shape d hc)
    (by simp; have := hs.pos; omega)
  simp only [List.length_singleton] at h
  refine ⟨?_, h.2.1, ?_⟩
  · simp only [pamBuildInitialize, assertSquare, hm.square, ok_bind, rassert_true, buildFirst_eq hm,
      hm.len, hmap, drop_one_range, h.1, buildP]
  · have := h.2.2; have := hs.pos; simp only [buildP]; omega

/-- pure `pamBuild` -/
def pamBuildP (L : Type) [RLoss L] [RFrom N L] (d : Nat → Nat → N) (n k : Nat) : BuildResult L :=
  ⟨(buildP L d n k).2.2, (buildP L d n k).2.1.map (·.near.i), (buildP L d n k).1⟩

/-- pure `pam` -/
def pamP (L : Type) [RLoss L] [RFrom N L] (d : Nat → Nat → N) (n k maxiter : Nat) : SwapResult L :=
  pOptP d n (pamScanP d) (buildP L d n k).1 (buildP L d n k).2.1 maxiter (buildP L d n k).2.2

theorem pamBuild_eq {mat : Mat N} {n k : Nat} {d : Nat → Nat → N} (hm : IsMatrix mat n d)
    (hs : Sizes n k) : pamBuild L mat k = .ok (pamBuildP L d n k) := by
  simp only [pamBuild, assertSizes_ok hm hs, ok_bind, (pamBuildInitialize_eq hm hs).1, pamBuildP]

theorem buildP_valid {mat : Mat N} {n k : Nat} {d : Nat → Nat → N} (hm : IsMatrix mat n d)
    (hs : Sizes n k) : ValidMeds n (buildP L d n k).1 := by
  obtain ⟨-, h2, h3⟩ := pamBuildInitialize_eq (L := L) hm hs
  exact ⟨⟨h2.pos, le_trans h3 hs.le, hs.n_le, lt_of_le_of_lt h3 hs.k_lt⟩, h2.medRange⟩

theorem pam_eq [SaneZero L] {mat : Mat N} {n k : Nat} {d : Nat → Nat → N} (hm : IsMatrix mat n d)
    (hs : Sizes n k) (maxiter : Nat) : pam L mat k maxiter = .ok (pamP L d n k maxiter) := by
  obtain ⟨h1, h2, h3⟩ := pamBuildInitialize_eq (L := L) hm hs
  simp only [pam, assertSizes_ok hm hs, ok_bind, h1]
  exact pamOptimize_eq hm (buildP_valid hm hs) h2.shape maxiter _

/-! ## alternating -/

/-- pure `assignNearestRec` -/
def nearRecP (d : Nat → Nat → N) (med : List Nat) (i : Nat) : Nat × N :=
  (med.zipIdx.drop 1).foldl (fun (best : Nat × N) (p : Nat × Nat) =>
    if rlt (d i p.1) best.2 || i == p.1 then (p.2, d i p.1) else best) (0, d i (med.headD 0))

/-- pure labels of `assignNearest` -/
def nearAssiP (d : Nat → Nat → N) (n : Nat) (med : List Nat) : List Nat :=
  (List.range n).map fun i => (nearRecP d med i).1

/-- pure loss of `assignNearest` -/
def nearAssiLossP (L : Type) [RLoss L] [RFrom N L] (d : Nat → Nat → N) (n : Nat) (med : List Nat) : L :=
  sumP ((List.range n).map fun i => (conv (nearRecP d med i).2 : L))

theorem nearRecP_lt (d : Nat → Nat → N) {med : List Nat} (hk : 1 ≤ med.length) (i : Nat) :
    (nearRecP d med i).1 < med.length := by
  unfold nearRecP
  refine foldl_inv (fun b : Nat × N => b.1 < med.length) (fun b p hp hb => ?_) hk
  have := (mem_drop_zipIdx hp).2.1
  split <;> assumption

theorem assignNearest_eq {mat : Mat N} {n : Nat} {d : Nat → Nat → N} {med : List Nat}
    (hm : IsMatrix mat n d) (hv : ValidMeds n med) :
    assignNearest L mat med = .ok (nearAssiLossP L d n med, nearAssiP d n med) := by
  have hlen : 0 < med.length := hv.sizes.pos
  have h0 : med[0]? = some med[0] := by simp [hlen]
  have hh : med.headD 0 = med[0] := by cases med <;> simp_all
  have hmap : mapRes (assignNearestRec mat med med[0]) (List.range n) =
      .ok ((List.range n).map (nearRecP d med)) := by
    refine mapRes_eq fun i hi => ?_
    have hi := List.mem_range.mp hi
    simp only [assignNearestRec, hm.get i _ hi (hv.range _ (List.getElem_mem hlen)), ok_bind, nearRecP, hh]
    refine foldRes_eq' (fun s p hp => ?_) _
    simp only [hm.get i p.1 hi (hv.range _ (mem_drop_zipIdx hp).1), ok_bind]
  simp only [assignNearest, assertSizes_ok hm hv.sizes, idx_of_get h0, ok_bind, hm.len, hmap,
    nearAssiLossP, nearAssiP, sumP, List.map_map, Function.comp_def]

/-- pure `alternatingUpdate` -/
def altUpdateP (L : Type) [RLoss L] [RFrom N L] (d : Nat → Nat → N) (assi med : List Nat) :
    Bool × List Nat :=
  (List.range med.length).foldl (fun (st : Bool × List Nat) (i : Nat) =>
    let c := st.2.getD i 0
    (st.1 || (chooseP L d assi i c).1 != c, st.2.set i (chooseP L d assi i c).1)) (false, med)

theorem alternatingUpdate_eq {mat : Mat N} {n : Nat} {d : Nat → Nat → N} (hm : IsMatrix mat n d)
    {assi med : List Nat} (hl : assi.length = n) (hr : ∀ m ∈ med, m < n) :
    alternatingUpdate L mat assi med = .ok (altUpdateP L d assi med) ∧
      (altUpdateP L d assi med).2.length = med.length ∧ ∀ m ∈ (altUpdateP L d assi med).2, m < n := by
  refine foldRes_eq (fun st : Bool × List Nat => st.2.length = med.length ∧ ∀ m ∈ st.2, m < n)
    (fun st i hi hst => ?_) ⟨rfl, hr⟩
  have hi : i < st.2.length := hst.1 ▸ List.mem_range.mp hi
  have hg : st.2[i]? = some (st.2.getD i 0) := by simp [hi]
  have hn : st.2.getD i 0 < n := hst.2 _ (List.mem_of_getElem? hg)
  obtain ⟨h1, h2⟩ := chooseMedoid_eq (L := L) hm hl hg hn
  simp only [h1, ok_bind]
  refine ⟨trivial, by simp [hst.1], fun m hmem => ?_⟩
  rcases List.mem_or_eq_of_mem_set hmem with h | h
  · exact hst.2 m h
  · rw [h]; exact h2

/-- pure `alternatingLoop` -/
def altLoopP (d : Nat → Nat → N) (n : Nat) : Nat → Nat → L → List Nat → List Nat → AltResult L
  | 0, iter, loss, assi, med => ⟨loss, assi, iter, med⟩
  | fuel + 1, iter, loss, assi, med =>
    let r := altUpdateP L d assi med
    if !r.1 then ⟨loss, assi, iter + 1, r.2⟩
    else altLoopP d n fuel (iter + 1) (nearAssiLossP L d n r.2) (nearAssiP d n r.2) r.2

theorem alternatingLoop_eq {mat : Mat N} {n : Nat} {d : Nat → Nat → N} (hm : IsMatrix mat n d)
    {fuel iter : Nat} {loss : L} {assi med : List Nat} (hv : ValidMeds n med)
    (hl : assi.length = n) (ha : ∀ a ∈ assi, a < med.length) :
    alternatingLoop mat fuel iter loss assi med = .ok (altLoopP d n fuel iter loss assi med) ∧
      (altLoopP d n fuel iter loss assi med).assi.length = n ∧
      (∀ a ∈ (altLoopP d n fuel iter loss assi med).assi, a < med.length) ∧
      (altLoopP d n fuel iter loss assi med).med.length = med.length ∧
      ∀ m ∈ (altLoopP d n fuel iter loss assi med).med, m < n := by
  induction fuel generalizing iter loss assi med with
  | zero => exact ⟨rfl, hl, ha, rfl, hv.range⟩
  | succ fuel ih =>
    obtain ⟨h1, h2, h3⟩ := alternatingUpdate_eq (L := L) hm hl hv.range
    unfold alternatingLoop altLoopP
    simp only [h1, ok_bind]
    split
    · exact ⟨rfl, hl, ha, h2, h3⟩
    · have hv' : ValidMeds n (altUpdateP L d assi med).2 := ⟨h2 ▸ hv.sizes, h3⟩
      simp only [assignNearest_eq (L := L) hm hv', ok_bind]
      have := ih (iter := iter + 1) (loss := nearAssiLossP L d n (altUpdateP L d assi med).2)
        (assi := nearAssiP d n (altUpdateP L d assi med).2) hv' (by simp [nearAssiP])
        (by
          intro a ha
          obtain ⟨i, -, rfl⟩ := List.mem_map.mp ha
          exact nearRecP_lt d hv'.sizes.pos i)
      rw [h2] at this
      exact this

/-- pure `alternating` -/
def altP (L : Type) [RLoss L] [RFrom N L] (d : Nat → Nat → N) (n : Nat) (med : List Nat)
    (maxiter : Nat) : AltResult L :=
  altLoopP d n maxiter 0 (nearAssiLossP L d n med) (nearAssiP d n med) med

theorem alternating_eq {mat : Mat N} {n : Nat} {d : Nat → Nat → N} (hm : IsMatrix mat n d)
    {med : List Nat} (hv : ValidMeds n med) (maxiter : Nat) :
    alternating L mat med maxiter = .ok (altP L d n med maxiter) ∧
      (altP L d n med maxiter).assi.length = n ∧
      (∀ a ∈ (altP L d n med maxiter).assi, a < med.length) ∧
      (altP L d n med maxiter).med.length = med.length ∧
      ∀ m ∈ (altP L d n med maxiter).med, m < n := by
  have h := alternatingLoop_eq (L := L) hm (fuel := maxiter) (iter := 0)
    (loss := nearAssiLossP L d n med) (assi := nearAssiP d n med) hv (by simp [nearAssiP])
    (by
      intro a ha
      obtain ⟨i, -, rfl⟩ := List.mem_map.mp ha
      exact nearRecP_lt d hv.sizes.pos i)
  simp only [alternating, assignNearest_eq (L := L) hm hv, ok_bind]
  exact h

end KMedoids
