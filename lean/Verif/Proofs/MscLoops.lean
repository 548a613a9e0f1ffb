import Verif.Proofs.MscLoss

/-! # Exact outcome of FasterMSC (k ≥ 3), FastMSC (k ≥ 3) and PAMMEDSIL (k ≥ 2) -/

set_option linter.unusedSectionVars false

namespace KMedoids

open RFrom (conv)

variable {N L : Type} [LinearOrder N] [Zero N] [RDist N] [LawfulDist N]
variable [Field L] [LinearOrder L] [IsStrictOrderedRing L] [RLoss L] [LawfulField L]
variable [RFrom N L] [LawfulFrom N L]

theorem rleL (a b : L) : rle a b = decide (a ≤ b) := by
  rw [Bool.eq_iff_iff]
  simp only [rle, LawfulLoss.pcmp_eq, Bool.or_eq_true, beq_iff_eq, Option.some.injEq,
    compare_lt_iff_lt, compare_eq_iff_eq, decide_eq_true_eq, le_iff_lt_or_eq]

theorem toSilhouette_eq {n : Nat} (hn : 0 < n) (hu : n ≤ u32Max) (d : Nat → Nat → N) (med : List Nat) :
    toSilhouette (msT L n d med) n = medSil (conv : N → L) n d med := by
  rw [toSilhouette, medSil_eq_msT hn, subL, oneL, ofU32L, asU32_le hu,
    divL _ (by exact_mod_cast hn.ne')]

/-- Summary of a run of a medoid silhouette function from `med` with result `r`. -/
structure MOutcome (n : Nat) (d : Nat → Nat → N) (med : List Nat) (maxiter : Nat) (r : SwapResult L) :
    Prop where
  loss : r.loss = medSil (conv : N → L) n d r.med
  assiLen : r.assi.length = n
  nearest : ∀ o m : Nat, r.assi[o]? = some m → IsNearest d r.med o m
  chain : SwapChain (msT L n d) n r.nSwap med r.med
  iter : r.nIter ≤ r.nSwap + 1
  iterMax : r.nIter ≤ maxiter
  opt : r.nIter < maxiter → ∀ x, x < n → Settled (msT L n d) x r.med

/-! ## state invariant -/

/-- Exact invariant of medoids and cache. -/
structure MInv (n k : Nat) (d : Nat → Nat → N) (med : List Nat) (data : List (Reco N)) (loss : L) : Prop where
  medLen : med.length = k
  medRange : ∀ m ∈ med, m < n
  nodup : med.Nodup
  cache : MCache n d med data
  loss : loss = msT L n d med

theorem MInv.idx {n k : Nat} {d : Nat → Nat → N} {med : List Nat} {data : List (Reco N)} {loss : L}
    (h : MInv n k d med data loss) : ∀ r ∈ data, RecoIdx med.length r :=
  (h.cache.mshape h.medRange).recIdx

theorem MInv.init {n : Nat} {d : Nat → Nat → N} (hd : Dissim n d) {med : List Nat} (hv : ValidMeds n med)
    (hnd : med.Nodup) (hk : 2 ≤ med.length) :
    MInv n med.length d med (mscInitDataP d n med) (mscLossP L (mscInitDataP d n med)) :=
  ⟨rfl, hv.range, hnd, mscInitDataP_cache hd hv hnd hk, mscLossP_eq (mscInitDataP_cache hd hv hnd hk)⟩

theorem MInv.swap {n k : Nat} {d : Nat → Nat → N} (hd : Dissim n d) (hku : k < u32Max) {med : List Nat}
    {data : List (Reco N)} {loss : L} (h : MInv n k d med data loss) {b j : Nat} (hb : b < k) (hj : j < n)
    (hjm : j ∉ med) :
    MInv n k d (med.set b j) (mscSwapDataP d med data b j) (mscSwapSumP L j (mscSwapDataP d med data b j)) := by
  have hb' : b < med.length := h.medLen ▸ hb
  have hc := mscSwapDataP_cache hd (by rw [h.medLen]; exact hku) h.medRange hb' hj hjm h.cache
  refine ⟨by simp [h.medLen], set_range h.medRange hj, nodup_set h.nodup hjm, hc, ?_⟩
  exact mscSwapSumP_eq hd hc (List.mem_of_getElem? (i := b) (by simp [hb']))

/-! ## FasterMSC -/

/-- Exact invariant of FasterMSC. -/
structure MSCEx (n k : Nat) (d : Nat → Nat → N) (s : MSCState N L) : Prop where
  inv : MInv n k d s.med s.data s.loss
  rem : s.rem = mscRemP L s.data k

theorem msc_candSpec [LawfulAdd N L] {n k : Nat} {d : Nat → Nat → N} (hd : Dissim n d) (hk : 3 ≤ k)
    (hku : k < u32Max) :
    CandSpec (msT L n d) n (MSCEx n k d) (fun s : MSCState N L => s.med) (·.lastswap) (·.nSwaps) (·.loss)
      (mscCandP d) := by
  have spec := fun (s : MSCState N L) (hs : MSCEx n k d s) (j : Nat) =>
    mscFbsP_spec (L := L) hs.inv.cache (by rw [hs.inv.medLen]; exact hk) (by rw [hs.inv.medLen]; exact hku)
      hs.inv.idx (rem := s.rem) (by rw [hs.inv.medLen]; exact hs.rem) j
  have gain := fun (s : MSCState N L) (hs : MSCEx n k d s) (b j : Nat) (hb : b < s.med.length) =>
    hs.inv.cache.gain_eq (L := L) (by rw [hs.inv.medLen]; exact hku) hb j
  refine ⟨fun s j hs hj hc => ?_, fun s j s' hs hj hc => ?_, fun s hs => hs.inv.loss⟩
  · unfold mscCandP at hc
    by_cases hown : mscOwnP s.med s.data j = true
    · exact Or.inl ((hs.inv.cache.ownP hj).mp hown)
    · simp only [hown, Bool.false_eq_true, if_false, rleL, zeroL, decide_eq_true_eq] at hc
      split at hc
      · rename_i hle
        right
        intro m hm
        have := le_trans ((spec s hs j).2.2.1 m hm) hle
        rw [gain s hs m j hm] at this
        exact sub_nonpos.mp this
      · cases hc
  · unfold mscCandP at hc
    by_cases hown : mscOwnP s.med s.data j = true
    · simp [hown] at hc
    · have hjm : j ∉ s.med := fun h => hown ((hs.inv.cache.ownP hj).mpr h)
      simp only [hown, Bool.false_eq_true, if_false, rleL, zeroL, decide_eq_true_eq] at hc
      split at hc
      · cases hc
      · rename_i hle
        obtain ⟨f1, f2, f3, f4⟩ := spec s hs j
        have hb : (mscFbsP d s.rem s.data j).2 < k := hs.inv.medLen ▸ f1
        rw [f2, gain s hs _ j f1, sub_nonpos, not_le] at hle
        cases hc
        refine ⟨⟨hs.inv.swap hd hku hb hj hjm, ?_⟩, rfl, rfl, _, f1, hjm, rfl, hle⟩
        simp [mscSwapP, hs.rem, mscRemP_length]

theorem mscInitP_ex {n : Nat} {d : Nat → Nat → N} (hd : Dissim n d) {med : List Nat} (hv : ValidMeds n med)
    (hnd : med.Nodup) (hk : 2 ≤ med.length) : MSCEx n med.length d (mscInitP L d n med) :=
  ⟨MInv.init hd hv hnd hk, rfl⟩

theorem fastermscP_outcome [LawfulAdd N L] {n : Nat} {d : Nat → Nat → N} (hd : Dissim n d) {med : List Nat}
    (hv : ValidMeds n med) (hnd : med.Nodup) (hk : 3 ≤ med.length) (maxiter : Nat) :
    MOutcome n d med maxiter (mscResultP n (mscLoopP d n maxiter 0 (mscInitP L d n med))) ∧
    NearestAssignment n d (mscLoopP d n maxiter 0 (mscInitP L d n med)).1.med
      ((mscLoopP d n maxiter 0 (mscInitP L d n med)).1.data.map (·.near.i)) := by
  have H := msc_candSpec (L := L) hd hk hv.sizes.k_lt
  have hinit := mscInitP_ex (L := L) hd hv hnd (by omega)
  have hseq : ∀ j ∈ List.range n, j < n := fun j hj => List.mem_range.mp hj
  have hn : 0 < n := lt_of_lt_of_le hv.sizes.pos hv.sizes.le
  obtain ⟨h1, c, h2, h3, h4⟩ := loopG_ex H hseq (fuel := maxiter) (iter := 0) hinit
  have h5 := loopG_converged H hseq List.nodup_range (fuel := maxiter) (iter := 0) hinit
    (Or.inl (by simp [mscInitP]))
  have h6 := (loopG_inv (L := L) (nSwaps := fun s : MSCState N L => s.nSwaps) (loss := fun s => s.loss)
    (pass := mscPassP d (List.range n)) (fun _ => True) (fun _ _ => trivial) (fuel := maxiter) (iter := 0)
    (s := mscInitP L d n med) trivial).2
  have hna := h1.inv.cache.assignment h1.inv.medRange
  have h2' : (mscLoopP d n maxiter 0 (mscInitP L d n med)).1.nSwaps = c := by
    have h2 : (mscLoopP d n maxiter 0 (mscInitP L d n med)).1.nSwaps = (mscInitP L d n med).nSwaps + c := h2
    rw [h2]; simp [mscInitP]
  refine ⟨⟨?_, ?_, ?_, ?_, ?_, ?_, ?_⟩, hna⟩
  · show toSilhouette _ n = _
    rw [← toSilhouette_eq hn hv.sizes.n_le]
    exact congrArg (toSilhouette · n) h1.inv.loss
  · exact hna.length
  · exact hna.nearest
  · show SwapChain _ n (mscLoopP d n maxiter 0 (mscInitP L d n med)).1.nSwaps _ _
    rw [h2']; exact h3
  · show (mscLoopP d n maxiter 0 (mscInitP L d n med)).2 ≤ (mscLoopP d n maxiter 0 (mscInitP L d n med)).1.nSwaps + 1
    rw [h2']
    have : (mscLoopP d n maxiter 0 (mscInitP L d n med)).2 ≤ 0 + c + 1 := h4
    omega
  · have : (mscLoopP d n maxiter 0 (mscInitP L d n med)).2 ≤ 0 + maxiter := h6
    show (mscLoopP d n maxiter 0 (mscInitP L d n med)).2 ≤ maxiter
    omega
  · intro hlt x hx
    have hlt : (mscLoopP d n maxiter 0 (mscInitP L d n med)).2 < maxiter := hlt
    exact h5 (by rw [Nat.zero_add]; exact hlt) x (List.mem_range.mpr hx)

/-! ## scans -/

/-- The scan finds the best exchange. -/
structure ScanGain (n : Nat) (d : Nat → Nat → N) (med : List Nat) (data : List (Reco N))
    (best : L × Nat × Nat) : Prop where
  nonneg : 0 ≤ best.1
  bound : ∀ m j, m < med.length → j < n → j ∉ med → gainP L d data m j ≤ best.1
  attained : 0 < best.1 → best.2.1 < med.length ∧ best.2.2 < n ∧ best.2.2 ∉ med ∧
    best.1 = gainP L d data best.2.1 best.2.2

/-- A candidate function that returns the best medoid to exchange, or something not positive. -/
structure FbsGain (k : Nat) (gain : Nat → Nat → L) (fbs : Nat → L × Nat) (j : Nat) : Prop where
  bound : ∀ m, m < k → gain m j ≤ (fbs j).1
  attained : 0 < (fbs j).1 → (fbs j).2 < k ∧ (fbs j).1 = gain (fbs j).2 j ∧
    ∀ m, m < (fbs j).2 → gain m j < (fbs j).1

theorem scan_gain {n : Nat} {d : Nat → Nat → N} {med : List Nat} {data : List (Reco N)}
    (hc : MCache n d med data) (fbs : Nat → L × Nat)
    (hfbs : ∀ j, j < n → j ∉ med → FbsGain med.length (gainP L d data) fbs j) (b0 : Nat × Nat) :
    ScanGain n d med data
      ((List.range n).foldl (scanMaxP fbs (mscOwnP med data)) ((RLoss.zero : L), b0)) := by
  have hg : ∀ js : List Nat, (∀ j ∈ js, j < n) →
      let best := js.foldl (scanMaxP fbs (mscOwnP med data)) ((RLoss.zero : L), b0)
      0 ≤ best.1 ∧ (∀ m j, m < med.length → j ∈ js → j ∉ med → gainP L d data m j ≤ best.1) ∧
      (0 < best.1 → best.2.1 < med.length ∧ best.2.2 < n ∧ best.2.2 ∉ med ∧
        best.1 = gainP L d data best.2.1 best.2.2) := by
    intro js
    induction js using List.reverseRecOn with
    | nil => intro _; simp [zeroL]
    | append_singleton js j ih =>
      intro hjs
      obtain ⟨i1, i2, i3⟩ := ih (fun x hx => hjs x (by simp [hx]))
      have hj : j < n := hjs j (by simp)
      rw [List.foldl_append, List.foldl_cons, List.foldl_nil]
      generalize js.foldl (scanMaxP fbs (mscOwnP med data)) ((RLoss.zero : L), b0) = best at *
      unfold scanMaxP
      by_cases hown : mscOwnP med data j = true
      · simp only [hown, if_true]
        refine ⟨i1, fun m x hm hx hxm => ?_, i3⟩
        rcases List.mem_append.mp hx with hx | hx
        · exact i2 m x hm hx hxm
        · rw [List.mem_singleton.mp hx] at hxm
          exact absurd ((hc.ownP hj).mp hown) hxm
      · have hjm : j ∉ med := fun h => hown ((hc.ownP hj).mpr h)
        obtain ⟨f1, f2⟩ := hfbs j hj hjm
        simp only [hown, Bool.false_eq_true, if_false, rleL]
        by_cases hle : (fbs j).1 ≤ best.1
        · simp only [hle, decide_true, if_true]
          refine ⟨i1, fun m x hm hx hxm => ?_, i3⟩
          rcases List.mem_append.mp hx with hx | hx
          · exact i2 m x hm hx hxm
          · rw [List.mem_singleton.mp hx]; exact le_trans (f1 m hm) hle
        · simp only [hle, decide_false, Bool.false_eq_true, if_false]
          have hlt := not_le.mp hle
          have hpos : 0 < (fbs j).1 := lt_of_le_of_lt i1 hlt
          refine ⟨le_of_lt hpos, fun m x hm hx hxm => ?_, fun _ => ⟨(f2 hpos).1, hj, hjm, (f2 hpos).2.1⟩⟩
          rcases List.mem_append.mp hx with hx | hx
          · exact le_of_lt (lt_of_le_of_lt (i2 m x hm hx hxm) hlt)
          · rw [List.mem_singleton.mp hx]; exact f1 m hm
  obtain ⟨g1, g2, g3⟩ := hg (List.range n) (fun j hj => List.mem_range.mp hj)
  exact ⟨g1, fun m j hm hj hjm => g2 m j hm (List.mem_range.mpr hj) hjm, g3⟩

theorem fastmscFbs_gain [LawfulAdd N L] {n : Nat} {d : Nat → Nat → N} {med : List Nat} {data : List (Reco N)}
    (hc : MCache n d med data) (hr : ∀ m ∈ med, m < n) (hk : 3 ≤ med.length) (hku : med.length < u32Max)
    (j : Nat) :
    FbsGain med.length (gainP L d data) (mscFbsP d (mscRemP L data med.length) data) j := by
  obtain ⟨f1, f2, f3, f4⟩ := mscFbsP_spec (L := L) hc hk hku (hc.mshape hr).recIdx rfl j
  exact ⟨f3, fun _ => ⟨f1, f2, f4⟩⟩

theorem pmsFbs_gain {n : Nat} {d : Nat → Nat → N} (hd : Dissim n d) {med : List Nat} {data : List (Reco N)}
    (hc : MCache n d med data) (hr : ∀ m ∈ med, m < n) (hk : 2 ≤ med.length) (hku : med.length < u32Max)
    {j : Nat} (hj : j < n) :
    FbsGain med.length (gainP L d data) (pmsFbsP L d med.length data) j := by
  obtain ⟨-, f2, f3⟩ := pmsFbsP_spec (L := L) hd hr hc hk hku hj
  exact ⟨f2, f3⟩

/-- Two best-exchange scans agree, unless none improves. -/
theorem scanMax_agree {k : Nat} {gain : Nat → Nat → L} {f g : Nat → L × Nat} {own : Nat → Bool}
    {js : List Nat} (hf : ∀ j ∈ js, FbsGain k gain f j) (hg : ∀ j ∈ js, FbsGain k gain g j) (b0 b1 : Nat × Nat) :
    let a := js.foldl (scanMaxP f own) ((RLoss.zero : L), b0)
    let b := js.foldl (scanMaxP g own) ((RLoss.zero : L), b1)
    a.1 = b.1 ∧ 0 ≤ b.1 ∧ (0 < b.1 → a = b) := by
  induction js using List.reverseRecOn with
  | nil => simp [zeroL]
  | append_singleton js j ih =>
    obtain ⟨i1, i2, i3⟩ := ih (fun x hx => hf x (by simp [hx])) (fun x hx => hg x (by simp [hx]))
    rw [List.foldl_append, List.foldl_cons, List.foldl_nil, List.foldl_append, List.foldl_cons,
      List.foldl_nil]
    generalize js.foldl (scanMaxP f own) ((RLoss.zero : L), b0) = a at *
    generalize js.foldl (scanMaxP g own) ((RLoss.zero : L), b1) = b at *
    unfold scanMaxP
    by_cases hown : own j = true
    · simp only [hown, if_true]; exact ⟨i1, i2, i3⟩
    · simp only [hown, Bool.false_eq_true, if_false, rleL, decide_eq_true_eq, i1]
      obtain ⟨f1, f2⟩ := hf j (by simp)
      obtain ⟨g1, g2⟩ := hg j (by simp)
      by_cases hpos : 0 < (f j).1
      · obtain ⟨p1, p2, p3⟩ := f2 hpos
        have hfg : (f j).1 ≤ (g j).1 := by rw [p2]; exact g1 _ p1
        obtain ⟨q1, q2, q3⟩ := g2 (lt_of_lt_of_le hpos hfg)
        have heq : (f j).1 = (g j).1 := le_antisymm hfg (by rw [q2]; exact f1 _ q1)
        have hidx : (f j).2 = (g j).2 := by
          rcases lt_trichotomy (f j).2 (g j).2 with h | h | h
          · have := q3 _ h; rw [← p2, heq] at this; exact absurd this (lt_irrefl _)
          · exact h
          · have := p3 _ h; rw [← q2, heq] at this; exact absurd this (lt_irrefl _)
        rw [heq, hidx]
        split
        · exact ⟨i1, i2, i3⟩
        · exact ⟨rfl, le_of_lt (heq ▸ hpos), fun _ => rfl⟩
      · have hf0 := not_lt.mp hpos
        have hg0 : (g j).1 ≤ 0 := by
          by_contra h
          obtain ⟨q1, q2, q3⟩ := g2 (not_le.mp h)
          have := f1 _ q1
          rw [← q2] at this
          exact h (le_trans this hf0)
        rw [if_pos (le_trans hf0 i2), if_pos (le_trans hg0 i2)]
        exact ⟨i1, i2, i3⟩

/-! ## FastMSC and PAMMEDSIL -/

/-- The scan of a loop finds best exchanges. -/
def GoodScanM (n k : Nat) (d : Nat → Nat → N) (scan : List Nat → List (Reco N) → L × Nat × Nat) : Prop :=
  ∀ med data, MCache n d med data → (∀ m ∈ med, m < n) → med.length = k → ScanGain n d med data (scan med data)

theorem fastmscScanP_good [LawfulAdd N L] {n k : Nat} (hk : 3 ≤ k) (hku : k < u32Max) (d : Nat → Nat → N) :
    GoodScanM n k d (fastmscScanP (L := L) d n k) := by
  rintro med data hc hr rfl
  exact scan_gain hc _ (fun j _ _ => fastmscFbs_gain hc hr hk hku j) _

theorem pmsScanP_good {n k : Nat} (hk : 2 ≤ k) (hku : k < u32Max) {d : Nat → Nat → N} (hd : Dissim n d) :
    GoodScanM n k d (pmsScanP (L := L) d n k) := by
  rintro med data hc hr rfl
  exact scan_gain hc _ (fun _ hj _ => pmsFbs_gain hd hc hr hk hku hj) _

/-- Exact invariant of FastMSC and PAMMEDSIL. -/
def MPEx (n k : Nat) (d : Nat → Nat → N) (s : MPState N L) : Prop := MInv n k d s.med s.data s.loss

theorem mp_bestSpec {n k : Nat} {d : Nat → Nat → N} (hd : Dissim n d) (hku : k < u32Max)
    {scan : List Nat → List (Reco N) → L × Nat × Nat} (hscan : GoodScanM n k d scan) :
    BestSpec (msT L n d) n (MPEx n k d) (fun s : MPState N L => s.med) (·.nSwaps) (mpStepP d scan) := by
  have gain := fun (s : MPState N L) (hs : MPEx n k d s) (b j : Nat) (hb : b < s.med.length) =>
    hs.cache.gain_eq (L := L) (by rw [hs.medLen]; exact hku) hb j
  refine ⟨fun s hs hst x hx => ?_, fun s s' b hs hst => ?_⟩
  · have hb := hscan s.med s.data hs.cache hs.medRange hs.medLen
    unfold mpStepP at hst
    simp only [rgtL, zeroL, decide_eq_true_eq] at hst
    split at hst
    · split at hst <;> cases hst
    · rename_i hle
      by_cases hxm : x ∈ s.med
      · exact Or.inl hxm
      · right
        intro m hm
        have := le_trans (hb.bound m x hm hx hxm) (not_lt.mp hle)
        rw [gain s hs m x hm] at this
        exact sub_nonpos.mp this
  · have hb := hscan s.med s.data hs.cache hs.medRange hs.medLen
    unfold mpStepP at hst
    simp only [rgtL, zeroL, decide_eq_true_eq, rgeL] at hst
    split at hst
    · rename_i hpos
      obtain ⟨h1, h2, h3, h4⟩ := hb.attained hpos
      rw [gain s hs _ _ h1] at h4
      rw [h4, sub_pos] at hpos
      have hI := hs.swap hd hku (hs.medLen ▸ h1) h2 h3
      split at hst
      · rename_i hge
        rw [hI.loss, hs.loss] at hge
        exact absurd hpos (not_lt.mpr hge)
      · cases hst
        exact ⟨hI, rfl, rfl, _, h2, _, h1, h3, rfl, hpos⟩
    · cases hst

theorem mpLoop_outcome {n : Nat} {d : Nat → Nat → N} (hd : Dissim n d) {med : List Nat} (hv : ValidMeds n med)
    (hnd : med.Nodup) (hk : 2 ≤ med.length) {scan : List Nat → List (Reco N) → L × Nat × Nat}
    (hscan : GoodScanM n med.length d scan) (maxiter : Nat) :
    MOutcome n d med maxiter (mpResultP n (loopB (mpStepP d scan) maxiter 0 (mpInitP L d n med))) ∧
    NearestAssignment n d (loopB (mpStepP d scan) maxiter 0 (mpInitP L d n med)).1.med
      ((loopB (mpStepP d scan) maxiter 0 (mpInitP L d n med)).1.data.map (·.near.i)) := by
  have H := mp_bestSpec hd hv.sizes.k_lt hscan
  have hinit : MPEx n med.length d (mpInitP L d n med) := MInv.init hd hv hnd hk
  have hn : 0 < n := lt_of_lt_of_le hv.sizes.pos hv.sizes.le
  obtain ⟨h1, ⟨c, h2, h3, h4⟩, h5⟩ := loopB_ex H (fuel := maxiter) (iter := 0) hinit
  have h6 := (loopB_inv (step := mpStepP d scan) (fun _ => True) (fun _ _ _ _ _ => trivial)
    (fuel := maxiter) (iter := 0) (s := mpInitP L d n med) trivial).2
  have hna := h1.cache.assignment h1.medRange
  have h2' : (loopB (mpStepP d scan) maxiter 0 (mpInitP L d n med)).1.nSwaps = c := by
    simpa [mpInitP] using h2
  refine ⟨⟨?_, hna.length, hna.nearest, ?_, ?_, ?_, ?_⟩, hna⟩
  · show toSilhouette _ n = _
    rw [← toSilhouette_eq hn hv.sizes.n_le]
    exact congrArg (toSilhouette · n) h1.loss
  · show SwapChain _ n (loopB (mpStepP d scan) maxiter 0 (mpInitP L d n med)).1.nSwaps _ _
    rw [h2']; exact h3
  · show (loopB (mpStepP d scan) maxiter 0 (mpInitP L d n med)).2 ≤
      (loopB (mpStepP d scan) maxiter 0 (mpInitP L d n med)).1.nSwaps + 1
    rw [h2']; omega
  · show (loopB (mpStepP d scan) maxiter 0 (mpInitP L d n med)).2 ≤ maxiter
    omega
  · intro hlt x hx
    have hlt : (loopB (mpStepP d scan) maxiter 0 (mpInitP L d n med)).2 < maxiter := hlt
    exact h5 (by omega) x hx

/-- FastMSC and PAMMEDSIL do the same for at least three medoids. -/
theorem mpLoop_agree [LawfulAdd N L] {n k : Nat} {d : Nat → Nat → N} (hd : Dissim n d) (hk : 3 ≤ k)
    (hku : k < u32Max) {fuel iter : Nat} {s : MPState N L} (hs : MPEx n k d s) :
    loopB (mpStepP d (fastmscScanP d n k)) fuel iter s = loopB (mpStepP d (pmsScanP d n k)) fuel iter s := by
  induction fuel generalizing iter s with
  | zero => rfl
  | succ fuel ih =>
    have hl := hs.medLen
    obtain ⟨a1, a2, a3⟩ := scanMax_agree (L := L) (k := k) (gain := gainP L d s.data)
      (f := mscFbsP d (mscRemP L s.data k) s.data) (g := pmsFbsP L d k s.data) (own := mscOwnP s.med s.data)
      (js := List.range n)
      (fun j _ => by
        have := fastmscFbs_gain (L := L) hs.cache hs.medRange (by omega) (by omega) j
        rwa [hl] at this)
      (fun j hj => by
        have := pmsFbs_gain (L := L) hd hs.cache hs.medRange (by omega) (by omega) (List.mem_range.mp hj)
        rwa [hl] at this) (usizeMax, usizeMax) (k, usizeMax)
    have hstep : mpStepP d (fastmscScanP d n k) s = mpStepP d (pmsScanP d n k) s := by
      unfold mpStepP
      by_cases hpos : 0 < (pmsScanP (L := L) d n k s.med s.data).1
      · have e : fastmscScanP (L := L) d n k s.med s.data = pmsScanP (L := L) d n k s.med s.data := a3 hpos
        rw [e]
      · have e : (fastmscScanP (L := L) d n k s.med s.data).1 = (pmsScanP (L := L) d n k s.med s.data).1 := a1
        simp only [rgtL, zeroL, e, hpos, decide_false, Bool.false_eq_true, if_false]
    unfold loopB
    rw [hstep]
    have H := mp_bestSpec (L := L) hd hku (pmsScanP_good (by omega) hku hd)
    cases hst : mpStepP d (pmsScanP d n k) s with
    | none => rfl
    | some p =>
      obtain ⟨s', b⟩ := p
      obtain ⟨g1, rfl, -⟩ := H.some s s' b hs hst
      exact ih g1

end KMedoids
