import Verif.Model.PamSil
import Verif.Proofs.PurePam
import Verif.Proofs.Sil

/-! # PAMSIL without the panics that cannot happen (any arithmetic)

One panic remains: `med[best.1] = best.2` with `best.1 = k` if no candidate has a positive silhouette. -/

set_option linter.unusedSectionVars false

namespace KMedoids

variable {N L : Type} [RDist N] [RLoss L] [RFrom N L]
open RFrom (conv)

theorem ValidMeds.set {n : Nat} {med : List Nat} (hv : ValidMeds n med) (m : Nat) {j : Nat} (hj : j < n) :
    ValidMeds n (med.set m j) :=
  ⟨by rw [List.length_set]; exact hv.sizes, fun x hx => by
    rcases List.mem_or_eq_of_mem_set hx with h | h
    · exact hv.range x h
    · exact h ▸ hj⟩

/-- Silhouette of the nearest-medoid assignment of `med`, as computed. -/
def silM (L : Type) [RLoss L] [RFrom N L] (d : Nat → Nat → N) (n : Nat) (med : List Nat) : L :=
  (silhouetteP L d (nearAssiP d n med) false).1

/-- pure `pamsilScanStep` -/
def psStepP (d : Nat → Nat → N) (n m medm : Nat) (st : PSScan L) (j : Nat) : PSScan L :=
  if j = medm ∨ j = st.med.getD (st.assi.getD j 0) 0 then st
  else ⟨st.med.set m j, nearAssiP d n (st.med.set m j),
    if rle (silM L d n (st.med.set m j)) st.best.1 then st.best else (silM L d n (st.med.set m j), m, j)⟩

/-- pure `pamsilScanMed` -/
def psMedP (d : Nat → Nat → N) (n : Nat) (st : PSScan L) (m : Nat) : PSScan L :=
  let st' := (List.range n).foldl (psStepP d n m (st.med.getD m 0)) st
  { st' with med := st'.med.set m (st.med.getD m 0) }

/-- pure scan -/
def psScanP (d : Nat → Nat → N) (n k : Nat) (med assi : List Nat) : PSScan L :=
  (List.range k).foldl (psMedP d n) ⟨med, assi, ((RLoss.zero : L), k, usizeMax)⟩

/-- Valid medoids and labels. -/
structure PSOk (n k : Nat) (st : PSScan L) : Prop where
  valid : ValidMeds n st.med
  len : st.med.length = k
  assiLen : st.assi.length = n
  label : ∀ a ∈ st.assi, a < k

theorem nearAssiP_length (d : Nat → Nat → N) (n : Nat) (med : List Nat) : (nearAssiP d n med).length = n := by
  simp [nearAssiP]

theorem nearAssiP_label (d : Nat → Nat → N) {n : Nat} {med : List Nat} (hk : 1 ≤ med.length) :
    ∀ a ∈ nearAssiP d n med, a < med.length := by
  intro a ha
  obtain ⟨i, -, rfl⟩ := List.mem_map.mp ha
  exact nearRecP_lt d hk i

theorem psStep_eq {mat : Mat N} {n k : Nat} {d : Nat → Nat → N} (hm : IsMatrix mat n d) {st : PSScan L}
    (h : PSOk n k st) {m : Nat} (hmk : m < k) (medm : Nat) {j : Nat} (hj : j < n) :
    pamsilScanStep mat m medm st j = .ok (psStepP d n m medm st j) ∧ PSOk n k (psStepP d n m medm st j) := by
  unfold pamsilScanStep psStepP
  by_cases h1 : j = medm
  · simp only [h1, if_true, true_or]; exact ⟨trivial, h⟩
  · have hja : j < st.assi.length := h.assiLen ▸ hj
    have hla : st.assi[j] < st.med.length := h.len ▸ h.label _ (List.getElem_mem hja)
    have e1 : st.assi.getD j 0 = st.assi[j] := by
      simp [List.getD_eq_getElem?_getD, hja]
    have e2 : st.med.getD st.assi[j] 0 = st.med[st.assi[j]] := by
      simp [List.getD_eq_getElem?_getD, hla]
    simp only [idx_lt hja, ok_bind, idx_lt hla, e1, e2, h1, false_or, if_false]
    by_cases h2 : j = st.med[st.assi[j]]
    · simp only [if_pos h2]; exact ⟨trivial, h⟩
    · have hv := h.valid.set m hj
      have hml : m < st.med.length := h.len ▸ hmk
      simp only [if_neg h2, setIdx_lt hml, ok_bind, assignNearest_eq (L := L) hm hv,
        silhouette_eq (L := L) hm (le_of_eq (nearAssiP_length d n _))]
      refine ⟨rfl, hv, by simp [h.len], nearAssiP_length _ _ _, ?_⟩
      intro a ha
      have := nearAssiP_label d hv.sizes.pos a ha
      simpa [h.len] using this

theorem psMed_eq {mat : Mat N} {n k : Nat} {d : Nat → Nat → N} (hm : IsMatrix mat n d) {st : PSScan L}
    (h : PSOk n k st) {m : Nat} (hmk : m < k) :
    pamsilScanMed mat st m = .ok (psMedP d n st m) ∧ PSOk n k (psMedP d n st m) := by
  have hml : m < st.med.length := h.len ▸ hmk
  have e1 : st.med.getD m 0 = st.med[m] := by simp [List.getD_eq_getElem?_getD, hml]
  have hf : foldRes (pamsilScanStep mat m st.med[m]) st (List.range n) =
      .ok ((List.range n).foldl (psStepP d n m st.med[m]) st) ∧
      PSOk n k ((List.range n).foldl (psStepP d n m st.med[m]) st) :=
    foldRes_eq (PSOk n k) (fun s j hj hs => psStep_eq hm hs hmk _ (List.mem_range.mp hj)) h
  unfold pamsilScanMed psMedP
  have hml' : m < ((List.range n).foldl (psStepP d n m st.med[m]) st).med.length := hf.2.len ▸ hmk
  simp only [idx_lt hml, ok_bind, hm.len, hf.1, e1, setIdx_lt hml']
  exact ⟨trivial, hf.2.valid.set _ (h.valid.range _ (List.getElem_mem hml)), by simp [hf.2.len],
    hf.2.assiLen, hf.2.label⟩

theorem psScan_eq {mat : Mat N} {n k : Nat} {d : Nat → Nat → N} (hm : IsMatrix mat n d) {med assi : List Nat}
    (hv : ValidMeds n med) (hk : med.length = k) (hl : assi.length = n) (hlab : ∀ a ∈ assi, a < k) :
    foldRes (pamsilScanMed mat) (⟨med, assi, ((RLoss.zero : L), k, usizeMax)⟩ : PSScan L) (List.range k) =
      .ok (psScanP d n k med assi) ∧ PSOk n k (psScanP (L := L) d n k med assi) :=
  foldRes_eq (PSOk n k) (fun s j hj hs => psMed_eq hm hs (List.mem_range.mp hj)) ⟨hv, hk, hl, hlab⟩

/-- The best candidate is the initial value or some exchange with its silhouette. -/
def PSBest (d : Nat → Nat → N) (n k : Nat) (med : List Nat) (b : L × Nat × Nat) : Prop :=
  b = (RLoss.zero, k, usizeMax) ∨
    (b.2.1 < k ∧ b.2.2 < n ∧ b.1 = silM L d n (med.set b.2.1 b.2.2))

/-- State inside the scan for medoid `m`. -/
structure PSIn (d : Nat → Nat → N) (n k : Nat) (med : List Nat) (m : Nat) (pre : List Nat) (st : PSScan L) :
    Prop where
  cur : st.med = med ∨ ∃ j ∈ pre, st.med = med.set m j
  best : PSBest d n k med st.best

theorem PSIn.set {d : Nat → Nat → N} {n k : Nat} {med : List Nat} {m : Nat} {pre : List Nat} {st : PSScan L}
    (h : PSIn d n k med m pre st) (j : Nat) : st.med.set m j = med.set m j := by
  rcases h.cur with e | ⟨j', -, e⟩
  · rw [e]
  · rw [e, List.set_set]

theorem psStepP_in {d : Nat → Nat → N} {n k : Nat} {med : List Nat} {m : Nat} (hmk : m < k)
    {pre : List Nat} {st : PSScan L} (h : PSIn d n k med m pre st) {j : Nat} (hj : j < n) (medm : Nat) :
    PSIn d n k med m (pre ++ [j]) (psStepP d n m medm st j) := by
  unfold psStepP
  split
  · refine ⟨?_, h.best⟩
    rcases h.cur with e | ⟨j', hj', e⟩
    · exact .inl e
    · exact .inr ⟨j', by simp [hj'], e⟩
  · refine ⟨.inr ⟨j, by simp, h.set j⟩, ?_⟩
    dsimp only
    split
    · exact h.best
    · exact .inr ⟨hmk, hj, congrArg (silM L d n) (h.set j)⟩

theorem psMedP_spec {d : Nat → Nat → N} {n k : Nat} {med : List Nat} {m : Nat} (hmk : m < k)
    (hk : med.length = k) {st : PSScan L} (hst : st.med = med) (hb : PSBest d n k med st.best) :
    (psMedP d n st m).med = med ∧ PSBest d n k med (psMedP d n st m).best := by
  have h := foldl_prefix (fun pre s => PSIn (L := L) d n k med m pre s) (g := psStepP d n m (st.med.getD m 0))
    (xs := List.range n) (fun pre x post s he hs => psStepP_in hmk hs (by
      have : x ∈ List.range n := by rw [he]; simp
      exact List.mem_range.mp this) _) (s := st) ⟨.inl hst, hb⟩
  refine ⟨?_, h.best⟩
  have hml : m < med.length := hk ▸ hmk
  show ((List.range n).foldl (psStepP d n m (st.med.getD m 0)) st).med.set m _ = _
  rw [h.set, hst]
  simp [List.getD_eq_getElem?_getD, hml]

theorem psScanP_spec {d : Nat → Nat → N} {n k : Nat} {med : List Nat} (hk : med.length = k) (assi : List Nat) :
    (psScanP (L := L) d n k med assi).med = med ∧ PSBest d n k med (psScanP (L := L) d n k med assi).best := by
  exact foldl_inv (fun s : PSScan L => s.med = med ∧ PSBest d n k med s.best)
    (fun s m hm hs => psMedP_spec (List.mem_range.mp hm) hk hs.1 hs.2) ⟨rfl, .inl rfl⟩

/-- The main loop; the only panic is the write to `med[k]`. -/
def psLoopP (d : Nat → Nat → N) (n k : Nat) :
    Nat → Nat → L → List Nat → List Nat → Nat → Res (L × List Nat × Nat × Nat)
  | 0, iter, sil, med, _, nSwaps => .ok (sil, med, iter, nSwaps)
  | fuel + 1, iter, sil, med, assi, nSwaps =>
    let st := psScanP (L := L) d n k med assi
    if rle st.best.1 sil then .ok (sil, med, iter + 1, nSwaps)
    else do
      let med ← setIdx med st.best.2.1 st.best.2.2
      psLoopP d n k fuel (iter + 1) st.best.1 med st.assi (nSwaps + 1)

theorem psLoop_eq {mat : Mat N} {n k : Nat} {d : Nat → Nat → N} (hm : IsMatrix mat n d)
    {med assi : List Nat} (hv : ValidMeds n med) (hk : med.length = k) (hl : assi.length = n)
    (hlab : ∀ a ∈ assi, a < k) (fuel iter : Nat) (sil : L) (nSwaps : Nat) :
    pamsilLoop mat k fuel iter sil med assi nSwaps = psLoopP d n k fuel iter sil med assi nSwaps := by
  induction fuel generalizing iter sil med assi nSwaps with
  | zero => rfl
  | succ fuel ih =>
    obtain ⟨h1, h2⟩ := psScan_eq (L := L) hm hv hk hl hlab
    obtain ⟨h3, h4⟩ := psScanP_spec (L := L) (d := d) (n := n) hk assi
    unfold pamsilLoop psLoopP
    simp only [h1, ok_bind, h3]
    split
    · rfl
    · rcases h4 with e | ⟨b1, b2, -⟩
      · rw [e]
        have : setIdx med k usizeMax = .error .index := by simp [setIdx, hk]
        rw [this]; rfl
      · rw [setIdx_lt (hk ▸ b1), ok_bind, ok_bind]
        exact ih (hv.set _ b2) (by simp [hk]) h2.assiLen h2.label _ _ _

/-- What the main loop guarantees when it returns: every swap is an exchange. -/
theorem psLoopP_ok {d : Nat → Nat → N} {n k : Nat} {med assi : List Nat} (hv : ValidMeds n med)
    (hk : med.length = k) {fuel iter : Nat} {sil : L} {nSwaps : Nat} {r : L × List Nat × Nat × Nat}
    (hr : psLoopP d n k fuel iter sil med assi nSwaps = .ok r) :
    ValidMeds n r.2.1 ∧ r.2.1.length = k ∧ nSwaps ≤ r.2.2.2 ∧ iter ≤ r.2.2.1 ∧ r.2.2.1 ≤ iter + fuel ∧
    r.2.2.2 - nSwaps ≤ r.2.2.1 - iter ∧
    (r.2.2.2 = nSwaps ∧ r.2.1 = med ∧ r.1 = sil ∨ nSwaps < r.2.2.2 ∧ r.1 = silM L d n r.2.1) := by
  induction fuel generalizing iter sil med assi nSwaps with
  | zero => cases hr; exact ⟨hv, hk, le_rfl, le_rfl, le_rfl, by simp, .inl ⟨rfl, rfl, rfl⟩⟩
  | succ fuel ih =>
    unfold psLoopP at hr
    dsimp only at hr
    split at hr
    · cases hr
      exact ⟨hv, hk, le_rfl, Nat.le_succ _, by dsimp only; omega, by simp, .inl ⟨rfl, rfl, rfl⟩⟩
    · obtain ⟨h3, h4⟩ := psScanP_spec (L := L) (d := d) (n := n) hk assi
      rcases h4 with e | ⟨b1, b2, b3⟩
      · rw [e] at hr
        have : setIdx med k usizeMax = .error .index := by simp [setIdx, hk]
        rw [this] at hr; cases hr
      · rw [setIdx_lt (hk ▸ b1), ok_bind] at hr
        obtain ⟨i1, i2, i3, i4, i5, i6, i7⟩ := ih (hv.set _ b2) (by simp [hk]) hr
        refine ⟨i1, i2, by omega, by omega, by omega, by omega, .inr ⟨by omega, ?_⟩⟩
        rcases i7 with ⟨-, e2, e3⟩ | ⟨-, e⟩
        · rw [e2, e3, b3]
        · exact e

/-- pure `pamsil_optimize` for `k ≥ 2` -/
def pamsilOptP (L : Type) [RLoss L] [RFrom N L] (d : Nat → Nat → N) (n : Nat) (med assi : List Nat)
    (maxiter : Nat) : Res (SwapResult L) :=
  if med.length = 1 then
    let r := chooseP L d assi 0 (med.headD 0)
    .ok ⟨r.2, assi, 1, if r.1 != med.headD 0 then 1 else 0, [r.1]⟩
  else do
    let r ← psLoopP d n med.length maxiter 0 (silhouetteP L d assi false).1 med assi 0
    .ok ⟨r.1, nearAssiP d n r.2.1, r.2.2.1, r.2.2.2, r.2.1⟩

theorem pamsilOptimize_eq {mat : Mat N} {n : Nat} {d : Nat → Nat → N} (hm : IsMatrix mat n d)
    {med assi : List Nat} (hv : ValidMeds n med) (hl : assi.length = n) (hlab : ∀ a ∈ assi, a < med.length)
    (maxiter : Nat) : pamsilOptimize L mat med assi maxiter = pamsilOptP L d n med assi maxiter := by
  unfold pamsilOptimize pamsilOptP
  by_cases h1 : med.length = 1
  · obtain ⟨c, rfl⟩ := List.length_eq_one_iff.mp h1
    have h := chooseMedoid_eq (L := L) hm hl (med := [c]) (m := 0) (c := c) rfl (hv.range c (by simp))
    simp only [if_true, List.length_singleton, h.1, ok_bind, List.headD_cons, List.set_cons_zero]
    rfl
  · simp only [if_neg h1, silhouette_eq (L := L) hm (le_of_eq hl), ok_bind,
      psLoop_eq hm hv rfl hl hlab]
    cases hr : psLoopP d n med.length maxiter 0 (silhouetteP L d assi false).1 med assi 0 with
    | error e => rfl
    | ok r =>
      obtain ⟨i1, -⟩ := psLoopP_ok hv rfl hr
      simp only [ok_bind, assignNearest_eq (L := L) hm i1]

theorem pamsilSwap_eq {mat : Mat N} {n : Nat} {d : Nat → Nat → N} (hm : IsMatrix mat n d)
    {med : List Nat} (hv : ValidMeds n med) (maxiter : Nat) :
    pamsilSwap L mat med maxiter = pamsilOptP L d n med (nearAssiP d n med) maxiter := by
  simp only [pamsilSwap, assignNearest_eq (L := L) hm hv, ok_bind,
    pamsilOptimize_eq (L := L) hm hv (nearAssiP_length _ _ _) (nearAssiP_label d hv.sizes.pos)]

/-! ## BUILD -/

/-- pure `psBuildUpdate` -/
def psBuildUpdateP (d : Nat → Nat → N) (c : Nat) (p : N × Nat) : N :=
  if p.2 = c then RDist.zero else if rlt (d p.2 c) p.1 then d p.2 c else p.1

/-- pure `psBuildLoop`; the assertion remains. -/
def psBuildLoopP (L : Type) [RLoss L] [RFrom N L] (d : Nat → Nat → N) (n k : Nat) :
    Nat → List Nat → List N → Res (List Nat)
  | 0, meds, _ => .ok meds
  | fuel + 1, meds, near => do
    let best := argminP (buildSumP L d near) n k
    rassert (rle best.1 RLoss.zero) "assertion failed: best.0 <= L::zero()"
    psBuildLoopP L d n k fuel (meds ++ [best.2]) (near.zipIdx.map (psBuildUpdateP d best.2))

theorem psBuildUpdate_eq {mat : Mat N} {n : Nat} {d : Nat → Nat → N} (hm : IsMatrix mat n d) {c : Nat}
    (hc : c < n) {p : N × Nat} (hp : p.2 < n) : psBuildUpdate mat c p = .ok (psBuildUpdateP d c p) := by
  unfold psBuildUpdate psBuildUpdateP
  by_cases h : p.2 = c
  · simp [h]
  · simp only [if_neg h, hm.get p.2 c hp hc, ok_bind]

theorem psBuildLoop_eq {mat : Mat N} {n k : Nat} {d : Nat → Nat → N} (hm : IsMatrix mat n d) (hn : 0 < n)
    (fuel : Nat) (meds : List Nat) {near : List N} (hl : near.length = n) :
    psBuildLoop L mat k fuel meds near = psBuildLoopP L d n k fuel meds near := by
  induction fuel generalizing meds near with
  | zero => rfl
  | succ fuel ih =>
    have hb := argminP_lt (buildSumP L d near) k hn
    unfold psBuildLoop psBuildLoopP
    rw [buildNext_eq hm hl, ok_bind]
    have hmap : mapRes (psBuildUpdate mat (argminP (buildSumP L d near) n k).2) near.zipIdx =
        .ok (near.zipIdx.map (psBuildUpdateP d (argminP (buildSumP L d near) n k).2)) :=
      mapRes_eq fun p hp => psBuildUpdate_eq hm hb (hl ▸ mem_zipIdx_lt hp)
    rw [hmap]
    dsimp only
    cases rassert (rle (argminP (buildSumP L d near) n k).1 RLoss.zero) "assertion failed: best.0 <= L::zero()" with
    | error e => rfl
    | ok u => simp only [ok_bind]; exact ih _ (by simp [hl])

/-- pure `pamsil_build_initialize` -/
def psBuildP (L : Type) [RLoss L] [RFrom N L] (d : Nat → Nat → N) (n k : Nat) : Res (List Nat) :=
  let c := (argminP (buildFirstSumP L d n) n k).2
  psBuildLoopP L d n k (k - 1) [c] ((List.range n).map fun j => d j c)

theorem psBuild_eq {mat : Mat N} {n k : Nat} {d : Nat → Nat → N} (hm : IsMatrix mat n d) (hn : 0 < n) :
    pamsilBuildInitialize L mat k = psBuildP L d n k := by
  have hb := argminP_lt (buildFirstSumP L d n) k hn
  have hmap : mapRes (fun j => mat.get j (argminP (buildFirstSumP L d n) n k).2) (List.range n) =
      .ok ((List.range n).map fun j => d j (argminP (buildFirstSumP L d n) n k).2) :=
    mapRes_eq fun j hj => hm.get _ _ (List.mem_range.mp hj) hb
  simp only [pamsilBuildInitialize, psBuildP, buildFirst_eq hm, ok_bind, hm.len, hmap]
  exact psBuildLoop_eq hm hn _ _ (by simp)

theorem psBuildLoopP_ok {d : Nat → Nat → N} {n k : Nat} (hn : 0 < n) {fuel : Nat} {meds : List Nat}
    {near : List N} {r : List Nat} (hr : psBuildLoopP L d n k fuel meds near = .ok r)
    (hmr : ∀ m ∈ meds, m < n) : r.length = meds.length + fuel ∧ ∀ m ∈ r, m < n := by
  induction fuel generalizing meds near with
  | zero => cases hr; exact ⟨rfl, hmr⟩
  | succ fuel ih =>
    unfold psBuildLoopP at hr
    dsimp only at hr
    cases ha : rassert (rle (argminP (buildSumP L d near) n k).1 RLoss.zero)
        "assertion failed: best.0 <= L::zero()" with
    | error e => rw [ha] at hr; cases hr
    | ok u =>
      rw [ha, ok_bind] at hr
      obtain ⟨h1, h2⟩ := ih hr (fun m hm => by
        rcases List.mem_append.mp hm with h | h
        · exact hmr m h
        · rw [List.mem_singleton.mp h]; exact argminP_lt _ k hn)
      refine ⟨?_, h2⟩
      simp at h1; omega

/-- The medoids after BUILD are `k` objects (maybe with repetitions). -/
theorem psBuildP_valid {d : Nat → Nat → N} {n k : Nat} (hs : Sizes n k) {r : List Nat}
    (hr : psBuildP L d n k = .ok r) : ValidMeds n r ∧ r.length = k := by
  have hn : 0 < n := by have := hs.pos; have := hs.le; omega
  obtain ⟨h1, h2⟩ := psBuildLoopP_ok hn hr (by simpa using argminP_lt (buildFirstSumP L d n) k hn)
  have h3 : r.length = k := by have := hs.pos; simp at h1; omega
  exact ⟨⟨h3 ▸ hs, h2⟩, h3⟩

theorem pamsil_eq {mat : Mat N} {n k : Nat} {d : Nat → Nat → N} (hm : IsMatrix mat n d) (hs : Sizes n k)
    (maxiter : Nat) : pamsil L mat k maxiter = (do
      let meds ← psBuildP L d n k
      pamsilOptP L d n meds (List.replicate n 0) maxiter) := by
  have hn : 0 < n := by have := hs.pos; have := hs.le; omega
  simp only [pamsil, assertSizes_ok hm hs, ok_bind, psBuild_eq hm hn, hm.len]
  cases hr : psBuildP L d n k with
  | error e => rfl
  | ok r =>
    obtain ⟨hv, hk⟩ := psBuildP_valid hs hr
    simp only [ok_bind]
    exact pamsilOptimize_eq hm hv (by simp) (fun a ha => by
      rw [(List.mem_replicate.mp ha).2]; exact hv.sizes.pos) maxiter

end KMedoids
