import Verif.Proofs.Build

/-! # What an optimisation run achieves, exact arithmetic -/

set_option linter.unusedSectionVars false

namespace KMedoids

open RFrom (conv)

variable {N L : Type} [LinearOrder N] [Zero N] [RDist N] [LawfulDist N]
variable [AddCommGroup L] [LinearOrder L] [IsOrderedAddMonoid L] [RLoss L] [LawfulLoss L]
variable [RFrom N L] [LawfulFrom N L]

/-- Summary of a run from `med` with result `r`. -/
structure Outcome (n : Nat) (d : Nat → Nat → N) (med : List Nat) (maxiter : Nat) (r : SwapResult L) :
    Prop where
  loss : r.loss = totalDev (conv : N → L) n d r.med
  chain : SwapChain (totalDev (conv : N → L) n d) n r.nSwap med r.med
  iter : r.nIter ≤ r.nSwap + 1
  opt : r.nIter < maxiter → SwapOptimal (conv : N → L) n d r.med

theorem singleP_outcome {n : Nat} {d : Nat → Nat → N} (hd : Dissim n d) (hs : Symm n d) {c : Nat}
    (hc : c < n) (maxiter : Nat) : Outcome n d [c] maxiter (singleP L d n c) := by
  obtain ⟨c', h1, h2, h3, h4, h5, h6, h7, h8⟩ := singleP_spec (L := L) hd hc
  refine ⟨?_, ?_, by omega, fun _ => ?_⟩
  · rw [h2, h3, totalDev_single hs h1]
  · rw [h2, h6]
    by_cases h : c' = c
    · simp only [h, if_true]; exact .refl _
    · simp only [h, if_false]
      refine SwapChain.step (.refl [c]) 0 c' (by simp) h1 (by simpa using h) ?_
      simp only [List.set_cons_zero]
      rw [totalDev_single hs h1, totalDev_single hs hc]; exact h5 h
  · rw [h2]
    intro m j hm hj _
    have hm0 : m = 0 := by simp at hm; omega
    subst hm0
    simp only [List.set_cons_zero]
    rw [totalDev_single hs h1, totalDev_single hs hj]; exact h4 j hj

theorem fpP_outcome {n : Nat} {d : Nat → Nat → N} (hd : Dissim n d) {med : List Nat}
    (hv : ValidMeds n med) (hnd : med.Nodup) (hsym : med.length = 1 → Symm n d) (maxiter : Nat)
    {seq : List Nat} (hseq : seq.Perm (List.range n)) :
    Outcome n d med maxiter (fpP L d n med maxiter seq) := by
  have hlt : ∀ j ∈ seq, j < n := fun j hj => List.mem_range.mp (hseq.mem_iff.mp hj)
  by_cases h1 : med.length = 1
  · have hs := hsym h1
    obtain ⟨c, rfl⟩ := List.length_eq_one_iff.mp h1
    exact singleP_outcome hd hs (hv.range c (by simp)) maxiter
  · have hk : 2 ≤ med.length := by have := hv.sizes.pos; omega
    have hinit := fpInitP_ex (L := L) hd hv hk hnd
    obtain ⟨h2, c, h3, h4, h5⟩ := fpLoopP_ex hd (by omega) hlt (fuel := maxiter) (iter := 0) hinit
    have h0 : (fpInitP L d n med).nSwaps = 0 := rfl
    have hm0 : (fpInitP L d n med).med = med := rfl
    rw [h0, Nat.zero_add] at h3
    rw [hm0] at h4
    rw [fpP_many d n hk]
    refine ⟨h2.loss, h3 ▸ h4, by dsimp only; omega, fun hc => ?_⟩
    have hh : Hist n d seq (fpInitP L d n med) := by
      left; intro hmem; exact absurd (hlt _ hmem) (lt_irrefl n)
    have := fpLoopP_converged hd (by omega) hlt (hseq.nodup_iff.mpr List.nodup_range) hinit hh
      (fuel := maxiter) (iter := 0) (by rw [Nat.zero_add]; exact hc)
    exact swapOptimal_of_settled fun x hx => this x (hseq.mem_iff.mpr (List.mem_range.mpr hx))

theorem pOptP_outcome {n : Nat} {d : Nat → Nat → N} (hd : Dissim n d) {med : List Nat}
    (hv : ValidMeds n med) (hnd : med.Nodup) (hsym : med.length = 1 → Symm n d)
    {scan : Nat → Nat → List Nat → List (Rec N) → L × Nat × Nat}
    (hscan : GoodScan n med.length d (scan n med.length)) (maxiter : Nat) :
    Outcome n d med maxiter (pOptP d n scan med (initDataP d n med) maxiter
      (nearLossP L (initDataP d n med))) := by
  by_cases h1 : med.length = 1
  · have hs := hsym h1
    obtain ⟨c, rfl⟩ := List.length_eq_one_iff.mp h1
    exact singleP_outcome hd hs (hv.range c (by simp)) maxiter
  · have hk : 2 ≤ med.length := by have := hv.sizes.pos; omega
    have hc := initDataP_ok hd hk hv hnd
    obtain ⟨h2, ⟨c, h3, h4, h5⟩, h6⟩ := pLoopP_ex hd hscan (fuel := maxiter) (iter := 0)
      (s := ⟨med, initDataP d n med, nearLossP L (initDataP d n med), 0⟩)
      ⟨hc, rfl, nearLossP_eq hc⟩
    rw [pOptP_many d n _ hk]
    simp only [Nat.zero_add] at h3 h6 h5
    refine ⟨h2.loss, ?_, ?_, h6⟩
    · simp only [pResultP, h3]; exact h4
    · simp only [pResultP, h3]; exact h5

/-- From a swap-optimal start no improving exchange exists. -/
theorem SwapOptimal.chain_zero {n c : Nat} {d : Nat → Nat → N} {med med' : List Nat}
    (h : SwapOptimal (conv : N → L) n d med)
    (hc : SwapChain (totalDev (conv : N → L) n d) n c med med') : c = 0 := by
  have : c = 0 ∨ ∃ m j, m < med.length ∧ j < n ∧ j ∉ med ∧
      totalDev (conv : N → L) n d (med.set m j) < totalDev (conv : N → L) n d med := by
    induction hc with
    | refl _ => exact Or.inl rfl
    | step hch b j hb hj hjm hT ih =>
      rcases ih h with hc0 | h'
      · subst hc0
        cases hch
        exact Or.inr ⟨b, j, hb, hj, hjm, hT⟩
      · exact Or.inr h'
  rcases this with h0 | ⟨m, j, hm, hj, hjm, hlt⟩
  · exact h0
  · exact absurd (h m j hm hj hjm) (not_le.mpr hlt)

/-- One iteration of PAM/FastPAM1 gives the best exchange. -/
theorem pOptP_one {n : Nat} {d : Nat → Nat → N} (hd : Dissim n d) {med : List Nat}
    (hv : ValidMeds n med) (hnd : med.Nodup) (hsym : med.length = 1 → Symm n d)
    {scan : Nat → Nat → List Nat → List (Rec N) → L × Nat × Nat}
    (hscan : GoodScan n med.length d (scan n med.length)) :
    ∀ m x, m < med.length → x < n → x ∉ med →
      totalDev (conv : N → L) n d (pOptP d n scan med (initDataP d n med) 1
        (nearLossP L (initDataP d n med))).med ≤ totalDev (conv : N → L) n d (med.set m x) := by
  by_cases h1 : med.length = 1
  · have hs := hsym h1
    obtain ⟨c, rfl⟩ := List.length_eq_one_iff.mp h1
    have hcn := hv.range c (by simp)
    obtain ⟨c', q1, q2, -, q4, -, -, -, -⟩ := singleP_spec (L := L) hd hcn
    intro m x hm hx _
    have hm0 : m = 0 := by simp at hm; omega
    subst hm0
    rw [pOptP_single, q2, List.set_cons_zero, totalDev_single hs q1, totalDev_single hs hx]
    exact q4 x hx
  · have hk : 2 ≤ med.length := by have := hv.sizes.pos; omega
    have hc := initDataP_ok hd hk hv hnd
    rw [pOptP_many d n _ hk]
    intro m x hm hx hxm
    rcases pIter hd hscan (s := ⟨med, initDataP d n med, nearLossP L (initDataP d n med), 0⟩)
      ⟨hc, rfl, nearLossP_eq hc⟩ 0 0 with ⟨q1, q2⟩ | ⟨b, j, l, -, -, -, -, q5, -, q7⟩
    · simp only [pResultP, q2]; exact q1 m x hm hx hxm
    · rw [show (1 : Nat) = 0 + 1 from rfl, q7]
      simp only [pResultP, pLoopP, pSwapP]; exact q5 m x hm hx hxm

/-- FastPAM1 and PAM return the same. -/
theorem fastpam1P_eq {n : Nat} {d : Nat → Nat → N} (hd : Dissim n d) {med : List Nat}
    (hv : ValidMeds n med) (hnd : med.Nodup) (maxiter : Nat) :
    fastpam1P L d n med maxiter = pamSwapP L d n med maxiter := by
  unfold fastpam1P pamSwapP
  by_cases h1 : med.length = 1
  · obtain ⟨c, rfl⟩ := List.length_eq_one_iff.mp h1; rfl
  · have hk : 2 ≤ med.length := by have := hv.sizes.pos; omega
    have hc := initDataP_ok hd hk hv hnd
    have h := pLoopP_agree hd (by omega : 0 < med.length) (fuel := maxiter) (iter := 0)
      (s := ⟨med, initDataP d n med, nearLossP L (initDataP d n med), 0⟩) ⟨hc, rfl, nearLossP_eq hc⟩
    rw [pOptP_many d n _ hk, pOptP_many d n _ hk]
    exact congrArg pResultP h

/-! ## Alternating -/

theorem nearAssiLossP_eq {n : Nat} {d : Nat → Nat → N} (hd : Dissim n d) {med : List Nat}
    (hv : ValidMeds n med) (hnd : med.Nodup) :
    nearAssiLossP L d n med = totalDev (conv : N → L) n d med := by
  have hne : med ≠ [] := by intro h; have := hv.sizes.pos; simp [h] at this
  unfold nearAssiLossP totalDev
  rw [sumP_eq]
  congr 1
  refine List.map_congr_left fun o ho => ?_
  rw [nearRecP_eq, initRecP_minDist hd (List.mem_range.mp ho) hne hv.range hnd (le_of_lt hv.sizes.k_lt)]

/-- Sum over objects, grouped by cluster. -/
theorem sum_by_cluster {G : Type} [AddCommMonoid G] (assi : List Nat) (k : Nat) (ha : ∀ a ∈ assi, a < k)
    (f : Nat → Nat → G) :
    (assi.zipIdx.map fun p => f p.1 p.2).sum =
      ((List.range k).map fun m => ((assi.zipIdx.filter fun p => p.1 = m).map fun p => f m p.2).sum).sum := by
  have h : ∀ xs : List (Nat × Nat), (∀ p ∈ xs, p.1 < k) →
      (xs.map fun p => f p.1 p.2).sum =
        ((List.range k).map fun m => ((xs.filter fun p => p.1 = m).map fun p => f m p.2).sum).sum := by
    intro xs
    induction xs with
    | nil => intro _; simp
    | cons p xs ih =>
      intro hx
      rw [List.map_cons, List.sum_cons, ih (fun q hq => hx q (by simp [hq]))]
      have hp := hx p (by simp)
      have : ∀ m, (((p :: xs).filter fun q => q.1 = m).map fun q => f m q.2).sum =
          (if m = p.1 then f p.1 p.2 else 0) + ((xs.filter fun q => q.1 = m).map fun q => f m q.2).sum := by
        intro m
        rw [List.filter_cons]
        by_cases h : p.1 = m
        · simp [h]
        · simp [h, Ne.symm h]
      simp only [this, List.sum_map_add]
      congr 1
      have hs : ∀ k', p.1 < k' → ((List.range k').map fun m => if m = p.1 then f p.1 p.2 else 0).sum =
          f p.1 p.2 := by
        intro k' hk'
        induction k' with
        | zero => omega
        | succ k' ih' =>
          rw [List.range_succ, List.map_append, List.sum_append]
          by_cases hlt : p.1 < k'
          · rw [ih' hlt]; simp [show k' ≠ p.1 by omega]
          · have e : p.1 = k' := by omega
            have hz : ((List.range k').map fun m => if m = p.1 then f p.1 p.2 else 0).sum = 0 := by
              rw [List.map_congr_left (g := fun _ => (0 : G)) (fun m hm => by
                rw [if_neg]; have := List.mem_range.mp hm; omega)]
              simp
            rw [hz]; simp [e]
      exact (hs k hp).symm
  exact h assi.zipIdx (fun p hp => ha p.1 (mem_zipIdx_mem hp))

theorem totalDev_assi {G : Type} [AddCommMonoid G] {cv : N → G} {n : Nat} {d : Nat → Nat → N} {med assi : List Nat}
    (ha : NearestAssignment n d med assi) :
    totalDev cv n d med =
      (assi.zipIdx.map fun p => cv (d p.2 (med.getD p.1 0))).sum := by
  unfold totalDev
  have := sum_range_zipIdx assi (fun o => cv (minDist d o med))
  rw [ha.length] at this
  rw [this]
  congr 1
  refine List.map_congr_left fun p hp => ?_
  obtain ⟨c, h1, h2⟩ := ha.nearest p.2 p.1 (mem_zipIdx_get hp)
  rw [minDist_eq (List.mem_of_getElem? h1) h2, List.getD_eq_getElem?_getD, h1]; rfl

/-- Any assignment to medoids gives an upper bound. -/
theorem totalDev_le_assi {n : Nat} (d : Nat → Nat → N) {med assi : List Nat} (hl : assi.length = n)
    (ha : ∀ a ∈ assi, a < med.length) :
    totalDev (conv : N → L) n d med ≤
      (assi.zipIdx.map fun p => (conv (d p.2 (med.getD p.1 0)) : L)).sum := by
  unfold totalDev
  have := sum_range_zipIdx assi (fun o => (conv (minDist d o med) : L))
  rw [hl] at this
  rw [this]
  apply List.sum_le_sum
  intro p hp
  refine LawfulFrom.strictMono.monotone ?_
  have hlt := ha p.1 (mem_zipIdx_mem hp)
  have hmem : med.getD p.1 0 ∈ med := by simp [hlt]
  exact (minDist_spec d p.2 med (List.ne_nil_of_mem hmem)).2 _ hmem

theorem altUpdateP_getD (d : Nat → Nat → N) (assi med : List Nat) {i : Nat} (hi : i < med.length) :
    (altUpdateP L d assi med).2.getD i 0 = (chooseP L d assi i (med.getD i 0)).1 := by
  rw [altUpdateP_eq]; simp [hi]

theorem NearestAssignment.lt {n : Nat} {d : Nat → Nat → N} {med assi : List Nat}
    (ha : NearestAssignment n d med assi) : ∀ a ∈ assi, a < med.length := by
  intro a hmem
  obtain ⟨o, ho⟩ := List.mem_iff_getElem?.mp hmem
  obtain ⟨c, h1, -⟩ := ha.nearest o a ho
  exact (List.getElem?_eq_some_iff.mp h1).1

/-- Moving each medoid to the best member of its cluster does not increase the loss. -/
theorem altUpdate_le {n : Nat} {d : Nat → Nat → N} (hd : Dissim n d) (hsym : Symm n d)
    {med assi : List Nat} (hr : ∀ m ∈ med, m < n) (ha : NearestAssignment n d med assi) :
    totalDev (conv : N → L) n d (altUpdateP L d assi med).2 ≤ totalDev (conv : N → L) n d med := by
  have hlt := ha.lt
  have hlen : (altUpdateP L d assi med).2.length = med.length := by rw [altUpdateP_eq]; simp
  refine le_trans (totalDev_le_assi d ha.length (by rw [hlen]; exact hlt)) ?_
  rw [totalDev_assi ha,
    sum_by_cluster assi med.length hlt (fun m o => conv (d o ((altUpdateP L d assi med).2.getD m 0))),
    sum_by_cluster assi med.length hlt (fun m o => conv (d o (med.getD m 0)))]
  apply List.sum_le_sum
  intro m hm
  have hm := List.mem_range.mp hm
  have hmn : med.getD m 0 < n := hr _ (by simp [hm])
  obtain ⟨c0, c1, -, c3, -⟩ := chooseP_spec (L := L) hd ha.length m hmn
  rw [altUpdateP_getD d assi med hm]
  have key : ∀ c, c < n → ((assi.zipIdx.filter fun p => p.1 = m).map fun p => (conv (d p.2 c) : L)).sum =
      clusterSum (conv : N → L) d assi m c := by
    intro c hc
    unfold clusterSum
    congr 1
    refine List.map_congr_left fun p hp => ?_
    have hp' := (List.mem_filter.mp hp).1
    rw [hsym p.2 c (ha.length ▸ mem_zipIdx_lt hp') hc]
  rw [key _ c0, key _ hmn, ← c1]
  exact c3

/-- Every medoid is a best member of its cluster. -/
def AltOptimal (n : Nat) (d : Nat → Nat → N) (med assi : List Nat) : Prop :=
  ∀ m c x : Nat, med[m]? = some c → x < n → assi[x]? = some m →
    clusterSum (conv : N → L) d assi m c ≤ clusterSum (conv : N → L) d assi m x

theorem altLoopP_ex {n : Nat} {d : Nat → Nat → N} (hd : Dissim n d) {fuel iter : Nat}
    {assi med : List Nat} (hv : ValidMeds n med) (hnd : med.Nodup)
    (ha : NearestAssignment n d med assi) :
    let r := altLoopP d n fuel iter (totalDev (conv : N → L) n d med) assi med
    r.loss = totalDev (conv : N → L) n d r.med ∧ (Symm n d → r.loss ≤ totalDev (conv : N → L) n d med) ∧
    iter ≤ r.nIter ∧ r.nIter ≤ iter + fuel ∧
    (r.nIter < iter + fuel → AltOptimal (L := L) n d r.med r.assi) := by
  induction fuel generalizing iter assi med with
  | zero => exact ⟨rfl, fun _ => le_refl _, le_refl _, le_refl _, by simp [altLoopP]⟩
  | succ fuel ih =>
    unfold altLoopP
    dsimp only
    split
    · rename_i h
      have hf : (altUpdateP L d assi med).1 = false := by simpa using h
      rw [altUpdateP_unchanged hf]
      refine ⟨rfl, fun _ => le_refl _, by dsimp only; omega, by dsimp only; omega, fun _ => ?_⟩
      intro m c x hm hx hxa
      have hcn := hv.range c (List.mem_of_getElem? hm)
      obtain ⟨-, c1, c2, -, -⟩ := chooseP_spec (L := L) hd ha.length m hcn
      have hsame : (chooseP L d assi m c).1 = c := by
        rw [altUpdateP_eq] at hf
        simp only [List.any_eq_false, bne_iff_ne, ne_eq, not_not] at hf
        exact hf (c, m) (List.mem_zipIdx_iff_getElem?.mpr (by simpa using hm))
      rw [hsame] at c1
      rw [← c1]; exact c2 x hxa
    · have hnd' := altUpdateP_nodup (L := L) ha
      have hv' : ValidMeds n (altUpdateP L d assi med).2 := by
        rw [altUpdateP_eq]
        refine ⟨by simpa using hv.sizes, fun m hm => ?_⟩
        obtain ⟨p, hp, rfl⟩ := List.mem_map.mp hm
        exact (chooseP_spec (L := L) hd ha.length p.2 (hv.range _ (mem_zipIdx_mem hp))).1
      have hle := fun hsym => altUpdate_le (L := L) hd hsym hv.range ha
      rw [nearAssiLossP_eq hd hv' hnd']
      obtain ⟨i1, i2, i3, i4, i5⟩ := ih (iter := iter + 1) hv' hnd' (nearAssiP_ok hd hv' hnd')
      refine ⟨i1, fun hsym => le_trans (i2 hsym) (hle hsym), by omega, by omega, fun h => i5 (by omega)⟩

end KMedoids
