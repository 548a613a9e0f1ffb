import Verif.Examples
import Verif.Proofs.PmsBuild
import Verif.Props.C18_C23
import Verif.Props.C24_C28
import Verif.Props.C29_C35

/-!
# C39-C43, C49-C51: PAMSIL and the BUILD phase of PAMMEDSIL

C39 holds for any arithmetic whenever the function returns. The others: exact arithmetic, zero diagonal, no
negative distances; the matrix need not be symmetric.
-/

set_option linter.unusedSectionVars false

namespace KMedoids

open RFrom (conv)

/-- `s` is the silhouette, as computed by `silhouette`, of the nearest-medoid assignment of `med`, as computed
by `assign_nearest`. -/
def SilOf {N : Type} (L : Type) [RDist N] [RLoss L] [RFrom N L] (mat : Mat N) (med : List Nat) (s : L) : Prop :=
  ∃ loss assi, assignNearest L mat med = .ok (loss, assi) ∧ silhouette L mat assi false = .ok (s, [])

/-! ## C39 -/

section any
variable {N L : Type} [RDist N] [RLoss L] [RFrom N L]

theorem silOf_iff {mat : Mat N} {n : Nat} {d : Nat → Nat → N} (hm : IsMatrix mat n d) {med : List Nat}
    (hv : ValidMeds n med) {s : L} : SilOf L mat med s ↔ s = silM L d n med := by
  have h2 : silhouette L mat (nearAssiP d n med) false = .ok (silM L d n med, []) := by
    rw [silhouette_eq hm (le_of_eq (nearAssiP_length _ _ _))]
    unfold silM silhouetteP
    split <;> simp
  constructor
  · rintro ⟨loss, assi, h1, h3⟩
    rw [assignNearest_eq hm hv] at h1
    cases h1
    rw [h2] at h3
    cases h3; rfl
  · rintro rfl
    exact ⟨_, _, assignNearest_eq hm hv, h2⟩

/-- The loop of `pamsil_swap` and `pamsil`. -/
theorem pamsilOptP_loop {d : Nat → Nat → N} {n : Nat} {med assi : List Nat} (hk : 2 ≤ med.length)
    {maxiter : Nat} {r : SwapResult L} (hr : pamsilOptP L d n med assi maxiter = .ok r) :
    psLoopP d n med.length maxiter 0 (silhouetteP L d assi false).1 med assi 0 =
      .ok (r.loss, r.med, r.nIter, r.nSwap) ∧ r.assi = nearAssiP d n r.med := by
  unfold pamsilOptP at hr
  rw [if_neg (by omega)] at hr
  cases h : psLoopP d n med.length maxiter 0 (silhouetteP L d assi false).1 med assi 0 with
  | error e => rw [h] at hr; cases hr
  | ok q => rw [h] at hr; cases hr; exact ⟨rfl, rfl⟩

/-- **C39, any arithmetic.** If `pamsil_swap` returns, its assignment is that of `assign_nearest` for the
returned medoids and its loss is what `silhouette` computes for it; the answer is well-formed. -/
theorem C39_pamsil_swap {mat : Mat N} {n : Nat} {d : Nat → Nat → N} (hm : IsMatrix mat n d)
    {med : List Nat} (hv : ValidMeds n med) (hk : 2 ≤ med.length) {maxiter : Nat} {r : SwapResult L}
    (hr : pamsilSwap L mat med maxiter = .ok r) :
    (∃ loss, assignNearest L mat r.med = .ok (loss, r.assi)) ∧
    silhouette L mat r.assi false = .ok (r.loss, []) ∧
    WellFormed n med.length r.med r.assi ∧ r.nIter ≤ maxiter ∧ r.nSwap ≤ r.nIter := by
  rw [pamsilSwap_eq hm hv] at hr
  obtain ⟨h1, h2⟩ := pamsilOptP_loop hk hr
  obtain ⟨g1, g2, -, -, g5, g6, g7⟩ := psLoopP_ok hv rfl h1
  dsimp only at g1 g2 g5 g6 g7
  have hs : r.loss = silM L d n r.med := by
    rcases g7 with ⟨-, e1, e2⟩ | ⟨-, e⟩
    · rw [e1, e2]; rfl
    · exact e
  obtain ⟨loss, assi, e1, e2⟩ := (silOf_iff hm g1).mpr hs
  rw [assignNearest_eq hm g1] at e1
  cases e1
  refine ⟨⟨_, by rw [h2]; exact assignNearest_eq hm g1⟩, by rw [h2]; exact e2, ⟨?_, ?_, g2, g1.range⟩,
    by omega, by omega⟩
  · rw [h2, nearAssiP_length]
  · rw [h2, ← g2]; exact nearAssiP_label d g1.sizes.pos

/-- The only panic in `pamsil_swap` on valid medoids is an index out of bounds. -/
theorem psLoopP_index {d : Nat → Nat → N} {n k : Nat} {fuel iter : Nat} {sil : L} {med assi : List Nat}
    {nSwaps : Nat} {e : Panic} (h : psLoopP d n k fuel iter sil med assi nSwaps = .error e) : e = .index := by
  induction fuel generalizing iter sil med assi nSwaps with
  | zero => cases h
  | succ fuel ih =>
    unfold psLoopP at h
    dsimp only at h
    split at h
    · cases h
    · cases hs : setIdx med (psScanP (L := L) d n k med assi).best.2.1
        (psScanP (L := L) d n k med assi).best.2.2 with
      | ok q => rw [hs] at h; exact ih h
      | error e' =>
        rw [hs] at h; cases h
        unfold setIdx at hs
        split at hs <;> cases hs
        rfl

/-- **C41, any arithmetic, part:** on valid medoids the only panic of `pamsil_swap` is an index out of
bounds (the write to `med[k]`). -/
theorem C41_pamsil_swap_only_index_partial {mat : Mat N} {n : Nat} {d : Nat → Nat → N} (hm : IsMatrix mat n d)
    {med : List Nat} (hv : ValidMeds n med) {maxiter : Nat} {e : Panic}
    (hr : pamsilSwap L mat med maxiter = .error e) : e = .index := by
  rw [pamsilSwap_eq hm hv] at hr
  unfold pamsilOptP at hr
  split at hr
  · cases hr
  · cases h : psLoopP d n med.length maxiter 0 (silhouetteP L d (nearAssiP d n med) false).1 med
      (nearAssiP d n med) 0 with
    | ok q => rw [h] at hr; cases hr
    | error e' => rw [h] at hr; cases hr; exact psLoopP_index h

/-- **C29, pammedsil** (BUILD and SWAP): no panic and a well-formed answer with at most `k` medoids, for any
distances and any arithmetic. -/
theorem C29_pammedsil [SaneZero L] {mat : Mat N} {n k : Nat} {d : Nat → Nat → N} (hm : IsMatrix mat n d)
    (hs : Sizes n k) (maxiter : Nat) :
    ∃ r k', pammedsil L mat k maxiter = .ok r ∧ 1 ≤ k' ∧ k' ≤ k ∧ WellFormed n k' r.med r.assi := by
  obtain ⟨-, h2, h3⟩ := pmsBuild_eq (L := L) hm hs
  refine ⟨_, (pmsBuildP L d n k).1.length, pammedsil_eq hm hs maxiter, h2.pos, h3, ?_⟩
  unfold pammedsilP
  by_cases hk : 2 ≤ (pmsBuildP L d n k).1.length
  · rw [pmsOptP_many d n hk]
    exact (loopB_inv (step := mpStepP d (pmsScanP d n (pmsBuildP L d n k).1.length))
      (fun s : MPState N L => MShape n (pmsBuildP L d n k).1.length s.med s.data)
      (fun s s' b hs' hst => mpStepP_shape hm (lt_of_le_of_lt h3 hs.k_lt)
        (fun med' data => pmsScanP_ok (L := L) d n _ med' data) hs' hst)
      (fuel := maxiter) (iter := 0) (h2.shape hk)).1.wf
  · have h1 : (pmsBuildP L d n k).1.length = 1 := by have := h2.pos; omega
    obtain ⟨c, hc⟩ := List.length_eq_one_iff.mp h1
    have hcn : c < n := h2.medRange c (by rw [hc]; simp)
    rw [hc]
    refine ⟨by simp [pmsOptP, singleP], fun a ha => ?_, by simp [pmsOptP, singleP], fun m hm' => ?_⟩
    · rw [List.eq_of_mem_replicate (show a ∈ List.replicate n 0 from ha)]; simp
    · rw [List.mem_singleton.mp (show m ∈ [(chooseP L d (List.replicate n 0) 0 c).1] from hm')]
      exact (singleCluster_eq (L := L) hm hcn).2

end any

section dist
variable {N L : Type} [LinearOrder N] [Zero N] [RDist N] [LawfulDist N] [RLoss L] [RFrom N L]

/-- **C39, labels.** All objects carry the label of a nearest medoid; only comparisons of distances matter,
the loss arithmetic is arbitrary. -/
theorem C39_pamsil_swap_nearest {mat : Mat N} {n : Nat} {d : Nat → Nat → N} (hm : IsMatrix mat n d)
    (hd : Dissim n d) {med : List Nat} (hv : ValidMeds n med) (hk : 2 ≤ med.length) {maxiter : Nat}
    {r : SwapResult L} (hr : pamsilSwap L mat med maxiter = .ok r) :
    r.assi.length = n ∧ (∀ o m : Nat, r.assi[o]? = some m → IsNearest d r.med o m) ∧
    (r.med.Nodup → NearestAssignment n d r.med r.assi) := by
  obtain ⟨-, -, hw, -, -⟩ := C39_pamsil_swap hm hv hk hr
  rw [pamsilSwap_eq hm hv] at hr
  obtain ⟨h1, h2⟩ := pamsilOptP_loop hk hr
  obtain ⟨g1, -⟩ := psLoopP_ok hv rfl h1
  refine ⟨hw.assiLen, fun o m h => ?_, fun hnd => ?_⟩
  · rw [h2] at h; exact nearAssiP_nearest hd g1 h
  · rw [h2]; exact nearAssiP_ok hd g1 hnd

/-- **C42, part:** if object 0 is not an initial medoid and at most one swap was made, the medoids stay
distinct. Without these conditions see `C42_pamsil_swap_negation`. -/
theorem C42_pamsil_swap_partial {mat : Mat N} {n : Nat} {d : Nat → Nat → N} (hm : IsMatrix mat n d)
    (hd : Dissim n d) {med : List Nat} (hv : ValidMeds n med) (hnd : med.Nodup) (h0 : 0 ∉ med) {maxiter : Nat}
    {r : SwapResult L} (hr : pamsilSwap L mat med maxiter = .ok r) (h1 : r.nSwap ≤ 1) : r.med.Nodup := by
  rw [pamsilSwap_eq hm hv] at hr
  by_cases hk : 2 ≤ med.length
  · obtain ⟨g1, -⟩ := pamsilOptP_loop hk hr
    exact psLoopP_nodup hd hv hnd h0 rfl (nearAssiP_length _ _ _) (nearAssiP_label d hv.sizes.pos) g1 h1
  · have h1 : med.length = 1 := by have := hv.sizes.pos; omega
    unfold pamsilOptP at hr
    rw [if_pos h1] at hr
    cases hr; simp

end dist

section exactLoss
variable {N L : Type} [LinearOrder N] [Zero N] [RDist N] [LawfulDist N]
variable [AddCommGroup L] [LinearOrder L] [IsOrderedAddMonoid L] [RLoss L] [LawfulLoss L]
variable [RFrom N L] [LawfulFrom N L]

/-! ## C40 -/

/-- **C40.** If `pamsil_swap` returns, the silhouette is at least that of the initial medoids, larger (and
positive) if a swap was made. If the iteration limit was not reached, no exchange of a medoid by an object
that is not a medoid has a larger silhouette. -/
theorem C40_pamsil_swap {mat : Mat N} {n : Nat} {d : Nat → Nat → N} (hm : IsMatrix mat n d)
    {med : List Nat} (hv : ValidMeds n med) (hk : 2 ≤ med.length) {maxiter : Nat} {r : SwapResult L}
    (hr : pamsilSwap L mat med maxiter = .ok r) :
    (∀ s : L, SilOf L mat med s → s ≤ r.loss ∧ (0 < r.nSwap → s < r.loss ∧ 0 < r.loss)) ∧
    (r.nSwap = 0 → r.med = med) ∧
    (r.nIter < maxiter → ∀ m j, m < r.med.length → j < n → j ∉ r.med →
      ∀ s : L, SilOf L mat (r.med.set m j) s → s ≤ r.loss) := by
  rw [pamsilSwap_eq hm hv] at hr
  obtain ⟨h1, h2⟩ := pamsilOptP_loop hk hr
  obtain ⟨g1, g2, -, -, -, -, g7⟩ := psLoopP_ok hv rfl h1
  obtain ⟨e1, e2, e3⟩ := psLoopP_ex hv rfl (nearAssiP_length _ _ _) (nearAssiP_label d hv.sizes.pos) h1
  dsimp only at g1 g2 g7 e1 e2 e3
  refine ⟨fun s hs => ?_, fun h => ?_, fun hlt m j hml hj hjm s hs => ?_⟩
  · rw [(silOf_iff hm hv).mp hs]; exact ⟨e1, e2⟩
  · rcases g7 with ⟨-, e, -⟩ | ⟨h', -⟩
    · exact e
    · omega
  · rw [(silOf_iff hm (g1.set m hj)).mp hs]
    exact e3 (by omega) m j (by omega) hj hjm

/-! ## C41 -/

/-- **C41, `pamsil_swap`, part:** it returns if there is a single medoid, or the silhouette of the initial
medoids is not negative, or some exchange by a non-medoid has a positive silhouette. Otherwise it panics, see
`C41_pamsil_swap_panics` and `C41_negation`. -/
theorem C41_pamsil_swap_partial {mat : Mat N} {n : Nat} {d : Nat → Nat → N} (hm : IsMatrix mat n d)
    {med : List Nat} (hv : ValidMeds n med) (maxiter : Nat)
    (h : med.length = 1 ∨ (∃ s : L, SilOf L mat med s ∧ 0 ≤ s) ∨
      ∃ m j, ∃ s : L, m < med.length ∧ j < n ∧ j ∉ med ∧ SilOf L mat (med.set m j) s ∧ 0 < s) :
    ∃ r, pamsilSwap L mat med maxiter = .ok r := by
  rw [pamsilSwap_eq hm hv]
  by_cases hk : med.length = 1
  · unfold pamsilOptP; rw [if_pos hk]; exact ⟨_, rfl⟩
  · unfold pamsilOptP; rw [if_neg hk]
    obtain ⟨r, hr⟩ := psLoopP_total (L := L) (d := d) hv rfl (nearAssiP_length d n med)
      (nearAssiP_label d hv.sizes.pos) (fuel := maxiter) (iter := 0)
      (sil := (silhouetteP L d (nearAssiP d n med) false).1) (nSwaps := 0) (by
        rcases h with h | ⟨s, h1, h2⟩ | ⟨m, j, s, h1, h2, h3, h4, h5⟩
        · exact absurd h hk
        · left; rw [(silOf_iff hm hv).mp h1] at h2; exact h2
        · right; refine ⟨m, j, h1, h2, h3, ?_⟩
          rw [(silOf_iff hm (hv.set m h2)).mp h4] at h5; exact h5)
    rw [hr]; exact ⟨_, rfl⟩

/-- **C41, finding:** `pamsil_swap` panics whenever the initial silhouette is negative and no exchange has a
positive silhouette (and `maxiter` is not 0). -/
theorem C41_pamsil_swap_panics {mat : Mat N} {n : Nat} {d : Nat → Nat → N} (hm : IsMatrix mat n d)
    {med : List Nat} (hv : ValidMeds n med) (hk : 2 ≤ med.length) {maxiter : Nat} (hmi : 0 < maxiter)
    {s : L} (hs : SilOf L mat med s) (h0 : s < 0)
    (h : ∀ m j, m < med.length → j < n → ∀ s : L, SilOf L mat (med.set m j) s → s ≤ 0) :
    pamsilSwap L mat med maxiter = .error .index := by
  rw [pamsilSwap_eq hm hv]
  obtain ⟨f, rfl⟩ := Nat.exists_eq_succ_of_ne_zero (by omega : maxiter ≠ 0)
  rw [(silOf_iff hm hv).mp hs] at h0
  have := psLoopP_panic (L := L) (d := d) hv rfl (nearAssiP_length d n med)
    (nearAssiP_label d hv.sizes.pos) (fuel := f) (iter := 0) (nSwaps := 0) h0
    (fun m j hm' hj => h m j hm' hj _ ((silOf_iff hm (hv.set m hj)).mpr rfl))
  unfold pamsilOptP
  rw [if_neg (by omega)]
  unfold silM at this
  rw [this]; rfl

theorem silhouetteP_zeros (d : Nat → Nat → N) {n : Nat} (hn : 0 < n) :
    (silhouetteP L d (List.replicate n 0) false).1 = 0 := by
  have hb : bufLen (List.replicate n 0) = 1 := by
    obtain ⟨m, rfl⟩ := Nat.exists_eq_succ_of_ne_zero (by omega : n ≠ 0)
    unfold bufLen
    rw [List.replicate_succ, List.foldl_cons]
    exact foldl_inv (fun b : Nat => b = 1) (fun b a ha hb => by
      rw [List.eq_of_mem_replicate ha, hb]; rfl) rfl
  unfold silhouetteP
  rw [if_pos hb, zeroL]

/-- What `pamsil` does: BUILD, then the loop from the assignment with all labels 0, whose silhouette is 0. -/
theorem pamsil_run {mat : Mat N} {n k : Nat} {d : Nat → Nat → N} (hm : IsMatrix mat n d) (hd : Dissim n d)
    (hs : Sizes n k) (maxiter : Nat) :
    ∃ meds, pamsilBuildInitialize L mat k = .ok meds ∧ ValidMeds n meds ∧ meds.length = k ∧
      meds = (buildP L d n k).1 ++ List.replicate (k - (buildP L d n k).1.length) 0 ∧
      pamsil L mat k maxiter = pamsilOptP L d n meds (List.replicate n 0) maxiter := by
  have hn : 0 < n := by have := hs.pos; have := hs.le; omega
  have hb := psBuildP_ex (L := L) hd hs
  obtain ⟨hv, hl⟩ := psBuildP_valid hs hb
  refine ⟨_, (psBuild_eq hm hn).trans hb, hv, hl, rfl, ?_⟩
  rw [pamsil_eq hm hs, hb]; rfl

/-- **C41, `pamsil`** (BUILD and SWAP) never panics. -/
theorem C41_pamsil {mat : Mat N} {n k : Nat} {d : Nat → Nat → N} (hm : IsMatrix mat n d) (hd : Dissim n d)
    (hs : Sizes n k) (maxiter : Nat) :
    ∃ r, pamsil L mat k maxiter = .ok r ∧ WellFormed n k r.med r.assi := by
  have hn : 0 < n := by have := hs.pos; have := hs.le; omega
  obtain ⟨meds, -, hv, hl, -, he⟩ := pamsil_run (L := L) hm hd hs maxiter
  rw [he]
  by_cases hk : meds.length = 1
  · unfold pamsilOptP
    rw [if_pos hk]
    obtain ⟨c, rfl⟩ := List.length_eq_one_iff.mp hk
    have h := chooseMedoid_eq (L := L) hm (assi := List.replicate n 0) (by simp) (med := [c]) (m := 0)
      (c := c) rfl (hv.range c (by simp))
    refine ⟨_, rfl, by simp, fun a ha => ?_, by simpa using hl, ?_⟩
    · rw [List.eq_of_mem_replicate ha]; exact hs.pos
    · intro m hm'
      rw [List.mem_singleton.mp hm']
      exact h.2
  · have hk2 : 2 ≤ meds.length := by have := hv.sizes.pos; omega
    have hlab : ∀ a ∈ List.replicate n 0, a < meds.length := fun a ha => by
      rw [List.eq_of_mem_replicate ha]; omega
    obtain ⟨r, hr⟩ := psLoopP_total (L := L) (d := d) hv rfl (assi := List.replicate n 0) (by simp) hlab
      (fuel := maxiter) (iter := 0) (sil := (silhouetteP L d (List.replicate n 0) false).1) (nSwaps := 0)
      (.inl (le_of_eq (silhouetteP_zeros d hn).symm))
    obtain ⟨g1, g2, -⟩ := psLoopP_ok hv rfl hr
    unfold pamsilOptP
    rw [if_neg hk, hr]
    refine ⟨_, rfl, nearAssiP_length _ _ _, ?_, g2.trans hl, g1.range⟩
    rw [← hl, ← g2]
    exact nearAssiP_label d g1.sizes.pos

/-! ## C49, C50: `pamsil` -/

/-- **C49, part.** The assignment returned by `pamsil` is that of its medoids. If a swap was made, the loss is
its silhouette, and positive; if none was made, the loss is 0, whatever the silhouette of the assignment is:
see `C49_negation`. If the iteration limit was not reached, no exchange has a larger silhouette than the
returned loss. -/
theorem C49_pamsil_partial {mat : Mat N} {n k : Nat} {d : Nat → Nat → N} (hm : IsMatrix mat n d)
    (hd : Dissim n d) (hs : Sizes n k) (hk : 2 ≤ k) {maxiter : Nat} {r : SwapResult L}
    (hr : pamsil L mat k maxiter = .ok r) :
    (∃ loss, assignNearest L mat r.med = .ok (loss, r.assi)) ∧
    (∀ o m : Nat, r.assi[o]? = some m → IsNearest d r.med o m) ∧
    (0 < r.nSwap → silhouette L mat r.assi false = .ok (r.loss, []) ∧ 0 < r.loss) ∧
    (r.nSwap = 0 → r.loss = 0) ∧ r.nIter ≤ maxiter ∧ r.nSwap ≤ r.nIter ∧
    (r.nIter < maxiter → ∀ m j, m < r.med.length → j < n → j ∉ r.med →
      ∀ s : L, SilOf L mat (r.med.set m j) s → s ≤ r.loss) := by
  have hn : 0 < n := by have := hs.pos; have := hs.le; omega
  obtain ⟨meds, -, hv, hl, -, he⟩ := pamsil_run (L := L) hm hd hs maxiter
  rw [he] at hr
  obtain ⟨h1, h2⟩ := pamsilOptP_loop (by omega) hr
  obtain ⟨g1, g2, -, -, g5, g6, g7⟩ := psLoopP_ok hv rfl h1
  obtain ⟨e1, e2, e3⟩ := psLoopP_ex hv rfl (by simp) (fun a ha => by
    rw [List.eq_of_mem_replicate ha]; omega) h1
  dsimp only at g1 g2 g5 g6 g7 e1 e2 e3
  rw [silhouetteP_zeros d hn] at g7
  refine ⟨⟨_, by rw [h2]; exact assignNearest_eq hm g1⟩, fun o m h => ?_, fun hsw => ⟨?_, (e2 hsw).2⟩,
    fun hsw => ?_, by omega, by omega, fun hlt m j hml hj hjm s hs' => ?_⟩
  · rw [h2] at h; exact nearAssiP_nearest hd g1 h
  · rcases g7 with ⟨e, -, -⟩ | ⟨-, e⟩
    · omega
    · obtain ⟨loss, assi, q1, q2⟩ := (silOf_iff hm g1).mpr e
      rw [assignNearest_eq hm g1] at q1
      cases q1
      rw [h2]; exact q2
  · rcases g7 with ⟨-, -, e⟩ | ⟨e, -⟩
    · exact e
    · omega
  · rw [(silOf_iff hm (g1.set m hj)).mp hs']
    exact e3 (by omega) m j (by omega) hj hjm

/-- **C50.** The BUILD phase of `pamsil` returns the medoids of `pam_build`, filled up with copies of object 0
to `k` medoids if `pam_build` stops early, which it does only when their total deviation is 0. -/
theorem C50_pamsil_build {mat : Mat N} {n k : Nat} {d : Nat → Nat → N} (hm : IsMatrix mat n d)
    (hd : Dissim n d) (hs : Sizes n k) {b : BuildResult L} (hb : pamBuild L mat k = .ok b) :
    pamsilBuildInitialize L mat k = .ok (b.med ++ List.replicate (k - b.med.length) 0) := by
  rw [pamBuild_eq hm hs] at hb; cases hb
  obtain ⟨meds, h, -, -, e, -⟩ := pamsil_run (L := L) hm hd hs 0
  rw [h, e]; rfl

/-- **C42, `pamsil`, part:** distinct medoids if BUILD neither selects object 0 nor stops early and at most one
swap was made. Otherwise see `C42_pamsil_negation`. -/
theorem C42_pamsil_partial {mat : Mat N} {n k : Nat} {d : Nat → Nat → N} (hm : IsMatrix mat n d)
    (hd : Dissim n d) (hs : Sizes n k) {b : BuildResult L} (hb : pamBuild L mat k = .ok b)
    (hbk : b.med.length = k) (h0 : 0 ∉ b.med) {maxiter : Nat} {r : SwapResult L}
    (hr : pamsil L mat k maxiter = .ok r) (h1 : r.nSwap ≤ 1) : r.med.Nodup := by
  obtain ⟨-, -, hnd, -⟩ := C19_pam_build hm hd hs hb
  rw [pamBuild_eq hm hs] at hb; cases hb
  obtain ⟨meds, -, hv, hl, e, he⟩ := pamsil_run (L := L) hm hd hs maxiter
  have e' : meds = (pamBuildP L d n k).med := by
    rw [e]; simp only [pamBuildP] at hbk ⊢; rw [hbk]; simp
  subst e'
  rw [he] at hr
  by_cases hk : 2 ≤ k
  · obtain ⟨g1, -⟩ := pamsilOptP_loop (by omega) hr
    exact psLoopP_nodup hd hv hnd h0 rfl (by simp) (fun a ha => by
      rw [List.eq_of_mem_replicate ha]; omega) g1 h1
  · have h1 : (pamBuildP L d n k).med.length = 1 := by have := hs.pos; omega
    unfold pamsilOptP at hr
    rw [if_pos h1] at hr
    cases hr; simp

end exactLoss

section exact
variable {N L : Type} [LinearOrder N] [Zero N] [RDist N] [LawfulDist N]
variable [Field L] [LinearOrder L] [IsStrictOrderedRing L] [RLoss L] [LawfulField L]
variable [RFrom N L] [LawfulFrom N L]

/-- **C39, textbook silhouette:** if the returned medoids are distinct, the loss is the average silhouette of
the assignment. -/
theorem C39_pamsil_swap_textbook {mat : Mat N} {n : Nat} {d : Nat → Nat → N} (hm : IsMatrix mat n d)
    (hd : Dissim n d) {med : List Nat} (hv : ValidMeds n med) (hk : 2 ≤ med.length) {maxiter : Nat}
    {r : SwapResult L} (hr : pamsilSwap L mat med maxiter = .ok r) (hnd : r.med.Nodup) :
    r.loss = mean (silList (conv : N → L) d r.assi) := by
  obtain ⟨-, h2, hw, -, -⟩ := C39_pamsil_swap hm hv hk hr
  rw [pamsilSwap_eq hm hv] at hr
  obtain ⟨g1, g2⟩ := pamsilOptP_loop hk hr
  obtain ⟨g3, -⟩ := psLoopP_ok hv rfl g1
  have hg : NoGap r.assi := g2 ▸ nearAssiP_noGap hd g3 hnd
  have hn : 0 < n := lt_of_lt_of_le hv.sizes.pos hv.sizes.le
  have hne : r.assi ≠ [] := fun e => by have := hw.assiLen; rw [e] at this; simp at this; omega
  have := (C24_silhouette (L := L) hm hd.nonneg (le_of_eq hw.assiLen) hv.sizes.n_le hne hg).2
  rw [h2] at this
  injection this with this
  exact (Prod.mk.inj this).1

/-! ## C43, C51: PAMMEDSIL -/

/-- **C43, part.** What the BUILD phase of `pammedsil` does: the first medoid is the best of all objects; every
further medoid is the best among the objects `1, …, n-1`, and never object 0. It stops with fewer than `k`
medoids only if none of the objects `1, …, n-1` reduces the total deviation. That object 0 is not considered
breaks C43, see `C43_negation`. -/
theorem C43_pammedsil_build_partial {mat : Mat N} {n k : Nat} {d : Nat → Nat → N} (hm : IsMatrix mat n d)
    (hd : Dissim n d) (hs : Sizes n k) :
    ∃ meds data loss, pammedsilBuildInitialize L mat k = .ok (meds, data, loss) ∧
      1 ≤ meds.length ∧ meds.length ≤ k ∧ meds.Nodup ∧ (∀ m ∈ meds, m < n) ∧
      (∃ c, meds.head? = some c ∧
        ∀ x, x < n → totalDev (conv : N → L) n d [c] ≤ totalDev (conv : N → L) n d [x]) ∧
      (∀ l c : Nat, 1 ≤ l → meds[l]? = some c → 1 ≤ c ∧ ∀ x, 1 ≤ x → x < n →
        totalDev (conv : N → L) n d (meds.take l ++ [c]) ≤ totalDev (conv : N → L) n d (meds.take l ++ [x])) ∧
      (meds.length < k → ∀ x, 1 ≤ x → x < n →
        totalDev (conv : N → L) n d meds ≤ totalDev (conv : N → L) n d (meds ++ [x])) := by
  obtain ⟨h1, h2, h3, h4⟩ := pmsBuildP_ex (L := L) hd hs
  exact ⟨_, _, _, (pmsBuild_eq hm hs).1, List.length_pos_iff.mpr h1.ne, h4, h1.nodup, h1.range, h2, h1.greedy, h3⟩

/-- **C51.** `pammedsil` is `pammedsil_swap` started from the medoids of its BUILD phase, in all components. So
with at least two BUILD medoids C30-C33 apply to it. -/
theorem C51_pammedsil {mat : Mat N} {n k : Nat} {d : Nat → Nat → N} (hm : IsMatrix mat n d)
    (hd : Dissim n d) (hs : Sizes n k) (maxiter : Nat) {meds : List Nat} {data : List (Reco N)} {loss : L}
    (hb : pammedsilBuildInitialize L mat k = .ok (meds, data, loss)) :
    pammedsil L mat k maxiter = pammedsilSwap L mat meds maxiter ∧ ValidMeds n meds ∧ meds.Nodup := by
  rw [(pmsBuild_eq hm hs).1] at hb
  have e : meds = (pmsBuildP L d n k).1 := by injection hb with hb; rw [hb]
  subst e
  have hv := pmsBuildP_valid (L := L) hm hs
  exact ⟨by rw [pammedsil_eq hm hs, pammedsilP_eq hd hs, pammedsilSwap_eq hm hv], hv,
    (pmsBuildP_ex (L := L) hd hs).1.nodup⟩

/-- **C51, number of medoids:** if different objects have positive distance and `k < n`, BUILD finds exactly
`k` medoids. -/
theorem C51_pammedsil_count {mat : Mat N} {n k : Nat} {d : Nat → Nat → N} (hm : IsMatrix mat n d)
    (hd : Dissim n d) (hpos : ∀ x y, x < n → y < n → x ≠ y → 0 < d x y) (hs : Sizes n k) (hkn : k < n)
    {meds : List Nat} {data : List (Reco N)} {loss : L}
    (hb : pammedsilBuildInitialize L mat k = .ok (meds, data, loss)) : meds.length = k := by
  obtain ⟨ms, _, _, h0, h1, h2, h3, h4, -, -, h7⟩ := C43_pammedsil_build_partial (L := L) hm hd hs
  rw [h0] at hb
  have e : ms = meds := by injection hb with hb; injection hb
  subst e
  by_contra hne
  have hlt : ms.length < k := lt_of_le_of_ne h2 hne
  -- some object other than 0 is not a medoid
  obtain ⟨x, hx1, hxn, hxm⟩ : ∃ x, 1 ≤ x ∧ x < n ∧ x ∉ ms := by
    by_contra hall
    push Not at hall
    have hsub : List.range' 1 (n - 1) ⊆ ms := fun x hx => by
      rw [List.mem_range'_1] at hx
      exact hall x hx.1 (by omega)
    have := (List.subperm_of_subset (List.nodup_range' (step := 1)) hsub).length_le
    simp at this
    omega
  have hms : ms ≠ [] := List.length_pos_iff.mp h1
  have hcontra := h7 hlt x hx1 hxn
  refine absurd hcontra (not_le.mpr ?_)
  unfold totalDev
  refine List.sum_lt_sum _ _ (fun o _ => LawfulFrom.strictMono.monotone ?_) ⟨x, List.mem_range.mpr hxn, ?_⟩
  · rw [minDist_append d o hms]; exact min_le_left _ _
  · refine LawfulFrom.strictMono ?_
    rw [minDist_append d x hms, hd.diag x hxn]
    refine lt_of_le_of_lt (min_le_right _ _) ?_
    obtain ⟨⟨c, hc, e⟩, -⟩ := minDist_spec d x ms hms
    rw [e]
    exact hpos x c hxn (h4 c hc) (fun h => hxm (h ▸ hc))

end exact

/-! ## Findings -/

/-- Entries of a list of rows. -/
def rowsD (rows : List (List ℕ)) (x y : Nat) : ℕ := (rows.getD x []).getD y 0

/-- Full C41 for `pamsil_swap`; false. -/
def C41_full : Prop := ∀ (mat : Mat ℕ) (n : Nat) (d : Nat → Nat → ℕ), IsMatrix mat n d → Dissim n d → Symm n d →
  ∀ med : List Nat, ValidMeds n med → med.Nodup → ∀ maxiter : Nat, ∃ r, pamsilSwap ℚ mat med maxiter = .ok r

/-- Four objects where the silhouette for medoids 0, 1, 2 is negative and no exchange has a positive one. -/
def exPanic : List (List ℕ) := [[0, 1, 1, 6], [1, 0, 1, 3], [1, 1, 0, 5], [6, 3, 5, 0]]

theorem exPanic_isMatrix : IsMatrix (ofRows exPanic : Mat ℕ) 4 (rowsD exPanic) :=
  ⟨rfl, rfl, fun x y hx hy => by
    have : ∀ x < 4, ∀ y < 4, (ofRows exPanic : Mat ℕ).get x y = .ok (rowsD exPanic x y) := by decide +kernel
    exact this x hx y hy⟩

/-- **C41, finding.** `pamsil_swap` panics with an index out of bounds on a symmetric 4 × 4 matrix. -/
theorem C41_negation : ¬ C41_full := by
  intro h
  obtain ⟨r, hr⟩ := h _ 4 _ exPanic_isMatrix ⟨by decide +kernel, fun _ _ _ _ => Nat.zero_le _⟩
    (by
      have : ∀ x < 4, ∀ y < 4, rowsD exPanic x y = rowsD exPanic y x := by decide +kernel
      exact fun x y hx hy => this x hx y hy)
    [0, 1, 2] ⟨⟨by decide, by decide, by decide, by decide⟩, by decide⟩ (by decide) 9
  have hp : pamsilSwap ℚ (ofRows exPanic : Mat ℕ) [0, 1, 2] 9 = .error .index := by decide +kernel
  rw [hp] at hr
  cases hr

/-- Full C42 for `pamsil_swap`; false. -/
def C42_swap_full : Prop := ∀ (mat : Mat ℕ) (n : Nat) (d : Nat → Nat → ℕ), IsMatrix mat n d → Dissim n d →
  Symm n d → (∀ x y, x < n → y < n → x ≠ y → 0 < d x y) →
  ∀ med : List Nat, ValidMeds n med → med.Nodup → ∀ (maxiter : Nat) (r : SwapResult ℚ),
    pamsilSwap ℚ mat med maxiter = .ok r → r.med.Nodup

def exDup : List (List ℕ) := [[0, 5, 6, 6], [5, 0, 6, 1], [6, 6, 0, 2], [6, 1, 2, 0]]

/-- **C42, finding.** `pamsil_swap` from medoids `[0, 1]` returns `[0, 0]`: whether object 0 is already a medoid
is tested with the assignment of the previous candidate. -/
theorem C42_pamsil_swap_negation : ¬ C42_swap_full := by
  intro h
  have := h (ofRows exDup) 4 (rowsD exDup) ⟨rfl, rfl, fun x y hx hy => by
      have : ∀ x < 4, ∀ y < 4, (ofRows exDup : Mat ℕ).get x y = .ok (rowsD exDup x y) := by decide +kernel
      exact this x hx y hy⟩ ⟨by decide +kernel, fun _ _ _ _ => Nat.zero_le _⟩
    (by
      have : ∀ x < 4, ∀ y < 4, rowsD exDup x y = rowsD exDup y x := by decide +kernel
      exact fun x y hx hy => this x hx y hy)
    (by
      have : ∀ x < 4, ∀ y < 4, x ≠ y → 0 < rowsD exDup x y := by decide +kernel
      exact fun x y hx hy => this x hx y hy)
    [0, 1] ⟨⟨by decide, by decide, by decide, by decide⟩, by decide⟩ (by decide) 9
    ⟨83/240, [1, 0, 0, 0], 2, 1, [0, 0]⟩ (by decide +kernel)
  revert this; decide

/-- Full C42 for `pamsil`; false. -/
def C42_pamsil_full : Prop := ∀ (mat : Mat ℕ) (n k : Nat) (d : Nat → Nat → ℕ), IsMatrix mat n d → Dissim n d →
  Symm n d → (∀ x y, x < n → y < n → x ≠ y → 0 < d x y) → Sizes n k → ∀ (maxiter : Nat) (r : SwapResult ℚ),
    pamsil ℚ mat k maxiter = .ok r → r.med.Nodup

def exDup2 : List (List ℕ) :=
  [[0, 9, 9, 2, 1], [9, 0, 8, 2, 3], [9, 8, 0, 1, 9], [2, 2, 1, 0, 9], [1, 3, 9, 9, 0]]

/-- **C42, finding for `pamsil`:** five objects with positive distances, and medoids `[0, 0, 1, 2]`. -/
theorem C42_pamsil_negation : ¬ C42_pamsil_full := by
  intro h
  have := h (ofRows exDup2) 5 4 (rowsD exDup2) ⟨rfl, rfl, fun x y hx hy => by
      have : ∀ x < 5, ∀ y < 5, (ofRows exDup2 : Mat ℕ).get x y = .ok (rowsD exDup2 x y) := by decide +kernel
      exact this x hx y hy⟩ ⟨by decide +kernel, fun _ _ _ _ => Nat.zero_le _⟩
    (by
      have : ∀ x < 5, ∀ y < 5, rowsD exDup2 x y = rowsD exDup2 y x := by decide +kernel
      exact fun x y hx hy => this x hx y hy)
    (by
      have : ∀ x < 5, ∀ y < 5, x ≠ y → 0 < rowsD exDup2 x y := by decide +kernel
      exact fun x y hx hy => this x hx y hy)
    ⟨by decide, by decide, by decide, by decide⟩ 9
    ⟨11/40, [1, 2, 3, 3, 0], 2, 1, [0, 0, 1, 2]⟩ (by decide +kernel)
  revert this; decide

/-- Full C49: the loss of `pamsil` is the silhouette of its assignment; false. -/
def C49_full : Prop := ∀ (mat : Mat ℕ) (n k : Nat) (d : Nat → Nat → ℕ), IsMatrix mat n d → Dissim n d →
  Symm n d → Sizes n k → 2 ≤ k → ∀ (maxiter : Nat) (r : SwapResult ℚ),
    pamsil ℚ mat k maxiter = .ok r → silhouette ℚ mat r.assi false = .ok (r.loss, [])

def exLoss : List (List ℕ) :=
  [[0, 2, 5, 6, 3], [2, 0, 1, 1, 5], [5, 1, 0, 1, 2], [6, 1, 1, 0, 1], [3, 5, 2, 1, 0]]

/-- **C49, finding.** `pamsil` reports 0 for an assignment with silhouette 1/10 (before the iteration limit):
it compares against the silhouette of the all-0 assignment. -/
theorem C49_negation : ¬ C49_full := by
  intro h
  have := h (ofRows exLoss) 5 4 (rowsD exLoss) ⟨rfl, rfl, fun x y hx hy => by
      have : ∀ x < 5, ∀ y < 5, (ofRows exLoss : Mat ℕ).get x y = .ok (rowsD exLoss x y) := by decide +kernel
      exact this x hx y hy⟩ ⟨by decide +kernel, fun _ _ _ _ => Nat.zero_le _⟩
    (by
      have : ∀ x < 5, ∀ y < 5, rowsD exLoss x y = rowsD exLoss y x := by decide +kernel
      exact fun x y hx hy => this x hx y hy)
    ⟨by decide, by decide, by decide, by decide⟩ (by decide) 9
    ⟨0, [2, 0, 3, 1, 1], 1, 0, [1, 3, 0, 2]⟩ (by decide +kernel)
  revert this; decide +kernel

/-- Full C43; false. -/
def C43_full : Prop := ∀ (mat : Mat ℕ) (n k : Nat) (d : Nat → Nat → ℕ), IsMatrix mat n d → Dissim n d →
  Symm n d → Sizes n k → ∀ (meds : List Nat) (data : List (Reco ℕ)) (loss : ℚ),
    pammedsilBuildInitialize ℚ mat k = .ok (meds, data, loss) → Greedy (totalDev (conv : ℕ → ℚ) n d) n meds

/-- Points on a line at 100, 0, 0, 10. -/
def exSkip : List (List ℕ) := [[0, 100, 100, 90], [100, 0, 0, 10], [100, 0, 0, 10], [90, 10, 10, 0]]

/-- **C43, finding.** For points at 100, 0, 0, 10 BUILD takes the second and the last point, because object 0
is skipped; taking object 0 would reduce the total deviation from 110 to 10 instead of 90. -/
theorem C43_negation : ¬ C43_full := by
  intro h
  have := h (ofRows exSkip) 4 2 (rowsD exSkip) ⟨rfl, rfl, fun x y hx hy => by
      have : ∀ x < 4, ∀ y < 4, (ofRows exSkip : Mat ℕ).get x y = .ok (rowsD exSkip x y) := by decide +kernel
      exact this x hx y hy⟩ ⟨by decide +kernel, fun _ _ _ _ => Nat.zero_le _⟩
    (by
      have : ∀ x < 4, ∀ y < 4, rowsD exSkip x y = rowsD exSkip y x := by decide +kernel
      exact fun x y hx hy => this x hx y hy)
    ⟨by decide, by decide, by decide, by decide⟩ [1, 3]
    [⟨⟨1, 90⟩, ⟨0, 100⟩, ⟨4294967295, 0⟩⟩, ⟨⟨0, 0⟩, ⟨1, 10⟩, ⟨4294967295, 0⟩⟩,
      ⟨⟨0, 0⟩, ⟨1, 10⟩, ⟨4294967295, 0⟩⟩, ⟨⟨1, 0⟩, ⟨0, 10⟩, ⟨4294967295, 0⟩⟩] (9/10) (by decide +kernel)
    1 3 rfl 0 (by decide)
  revert this; decide +kernel

/-- **C43, C51, finding.** With `k = 2` on an outlier (object 0) and two equal objects `pammedsil` returns a
single medoid, and as loss a sum of distances instead of a silhouette, although two medoids would have total
deviation 0. -/
theorem C43_pammedsil_one_medoid :
    pammedsil ℚ (ofRows [[0, 6, 6], [6, 0, 0], [6, 0, 0]] : Mat ℕ) 2 9 = .ok ⟨6, [0, 0, 0], 1, 0, [1]⟩ ∧
    pamBuild ℚ (ofRows [[0, 6, 6], [6, 0, 0], [6, 0, 0]] : Mat ℕ) 2 = .ok ⟨0, [1, 0, 0], [1, 0]⟩ := by
  decide +kernel

/-! ## The hypotheses can be met -/

/-- `pamsil_swap` from a bad start makes two swaps; `pamsil` one. -/
example : IsMatrix exMat 6 exD ∧ Dissim 6 exD ∧ ValidMeds 6 [0, 1, 2] ∧ ValidMeds 6 [3, 4, 5] ∧ Sizes 6 3 ∧
    pamsilSwap ℚ exMat [0, 1, 2] 9 = .ok ⟨11453/16632, [2, 2, 2, 0, 0, 1], 3, 2, [3, 5, 2]⟩ ∧
    pamsilSwap ℚ exMat [3, 4, 5] 9 = .ok ⟨11453/16632, [0, 0, 0, 1, 1, 2], 2, 1, [0, 4, 5]⟩ ∧
    pamBuild ℚ exMat 3 = .ok ⟨3, [0, 0, 0, 1, 1, 2], [2, 4, 5]⟩ ∧
    pamsil ℚ exMat 3 9 = .ok ⟨11453/16632, [0, 0, 0, 1, 1, 2], 2, 1, [0, 4, 5]⟩ :=
  ⟨exMat_isMatrix, exD_dissim, ex_valid (by decide) (by decide) (by decide),
    ex_valid (by decide) (by decide) (by decide), ex_sizes (by decide) (by decide), by decide +kernel,
    by decide +kernel, by decide +kernel, by decide +kernel⟩

/-- Initial silhouettes of both signs, and an exchange with a positive one (hypotheses of C40, C41). -/
example : SilOf ℚ exMat [1, 3, 5] (11453/16632) ∧ SilOf ℚ (ofRows exPanic : Mat ℕ) [0, 1, 2] (-1/15) ∧
    SilOf ℚ exMat ([3, 4, 5].set 0 0) (11453/16632) := by
  refine ⟨⟨_, _, rfl, by decide +kernel⟩, ⟨_, _, rfl, by decide +kernel⟩, ⟨_, _, rfl, by decide +kernel⟩⟩

/-- The conditions of `C41_pamsil_swap_panics` hold for `exPanic`. -/
example : pamsilSwap ℚ (ofRows exPanic : Mat ℕ) [0, 1, 2] 1 = .error .index := by
  have hv : ValidMeds 4 [0, 1, 2] := ⟨⟨by decide, by decide, by decide, by decide⟩, by decide⟩
  refine C41_pamsil_swap_panics exPanic_isMatrix hv (by decide) (by decide) (s := -1/15)
    ((silOf_iff exPanic_isMatrix hv).mpr (by decide +kernel)) (by decide +kernel) fun m j hm hj s hs => ?_
  rw [(silOf_iff exPanic_isMatrix (hv.set m hj)).mp hs]
  have : ∀ m < 3, ∀ j < 4, silM ℚ (rowsD exPanic) 4 ([0, 1, 2].set m j) ≤ 0 := by decide +kernel
  exact this m hm j hj

/-- `pammedsil`: BUILD finds three medoids, SWAP improves them. -/
example : IsMatrix exMat 6 exD ∧ Dissim 6 exD ∧ Sizes 6 3 ∧
    (pammedsilBuildInitialize ℚ exMat 3).map (fun r => (r.1, r.2.2)) = .ok ([2, 4, 5], 7/12) ∧
    pammedsil ℚ exMat 3 9 = .ok ⟨14/15, [0, 0, 0, 1, 1, 2], 2, 1, [0, 4, 5]⟩ :=
  ⟨exMat_isMatrix, exD_dissim, ex_sizes (by decide) (by decide), by decide +kernel, by decide +kernel⟩

/-- Hypotheses of `C51_pammedsil_count`. -/
example : (∀ x y, x < 4 → y < 4 → x ≠ y → 0 < rowsD exPanic x y) ∧ Sizes 4 3 ∧
    (pammedsilBuildInitialize ℚ (ofRows exPanic : Mat ℕ) 3).map (fun r => (r.1, r.2.2)) = .ok ([1, 3, 2], 1) := by
  refine ⟨?_, ⟨by decide, by decide, by decide, by decide⟩, by decide +kernel⟩
  have : ∀ x < 4, ∀ y < 4, x ≠ y → 0 < rowsD exPanic x y := by decide +kernel
  exact fun x y hx hy => this x hx y hy

end KMedoids
