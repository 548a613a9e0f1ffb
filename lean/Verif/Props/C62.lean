import Verif.Props.C61
import Verif.Props.C18_C23

/-!
# C62: the functions agree on what a local optimum is

A local optimum found by one of `fasterpam`, `rand_fasterpam`, `pam_swap`, `fastpam1` is left unchanged by all of
them, and on symmetric matrices by `alternating`, too. The converse fails: `alternating` stops in points that the
others improve.
-/

set_option linter.unusedSectionVars false
set_option linter.overlappingInstances false

namespace KMedoids

open RFrom (conv)

variable {N L : Type} [LinearOrder N] [Zero N] [RDist N] [LawfulDist N]
variable [AddCommGroup L] [LinearOrder L] [IsOrderedAddMonoid L] [RLoss L] [LawfulLoss L]
variable [RFrom N L] [LawfulFrom N L]

theorem sum_lt_of_one {f g : Nat → L} {k m : Nat} (hm : m < k) (hle : ∀ i, i < k → f i ≤ g i) (hlt : f m < g m) :
    ((List.range k).map f).sum < ((List.range k).map g).sum :=
  List.sum_lt_sum _ _ (fun i hi => hle i (List.mem_range.mp hi)) ⟨m, List.mem_range.mpr hm, hlt⟩

/-- **C62, core.** On a symmetric matrix, no exchange improves ⟹ every medoid is a best member of its cluster. -/
theorem C62_swapOptimal_cluster {n : Nat} {d : Nat → Nat → N} (hsym : Symm n d) {med assi : List Nat}
    (hr : ∀ m ∈ med, m < n) (ha : NearestAssignment n d med assi) (hopt : SwapOptimal (conv : N → L) n d med)
    {m c x : Nat} (hm : med[m]? = some c) (hx : assi[x]? = some m) :
    clusterSum (conv : N → L) d assi m c ≤ clusterSum (conv : N → L) d assi m x := by
  have hlt := ha.lt
  have hmk : m < med.length := (List.getElem?_eq_some_iff.mp hm).1
  have hxn : x < n := ha.length ▸ (List.getElem?_eq_some_iff.mp hx).1
  have hcn : c < n := hr c (List.mem_of_getElem? hm)
  by_contra hcon
  have hcon := not_le.mp hcon
  have hxm : x ∉ med := by
    intro h
    obtain ⟨i, hi⟩ := List.mem_iff_getElem?.mp h
    have := ha.own i x hi
    rw [hx] at this
    rw [← Option.some.inj this, hm] at hi
    rw [Option.some.inj hi] at hcon
    exact lt_irrefl _ hcon
  refine absurd (hopt m x hmk hxn hxm) (not_le.mpr ?_)
  refine lt_of_le_of_lt (totalDev_le_assi d (assi := assi) ha.length (by simpa using hlt)) ?_
  rw [totalDev_assi ha,
    sum_by_cluster assi med.length hlt (fun i o => conv (d o ((med.set m x).getD i 0))),
    sum_by_cluster assi med.length hlt (fun i o => conv (d o (med.getD i 0)))]
  have key : ∀ i y, y < n → ((assi.zipIdx.filter fun p => p.1 = i).map fun p => (conv (d p.2 y) : L)).sum =
      clusterSum (conv : N → L) d assi i y := by
    intro i y hy
    unfold clusterSum
    congr 1
    refine List.map_congr_left fun p hp => ?_
    have hp' := (List.mem_filter.mp hp).1
    rw [hsym p.2 y (ha.length ▸ mem_zipIdx_lt hp') hy]
  refine sum_lt_of_one hmk (fun i hi => ?_) ?_
  · by_cases him : i = m
    · subst him
      have e1 : (med.set i x).getD i 0 = x := by simp [hi]
      have e2 : med.getD i 0 = c := by simp [hm]
      rw [e1, e2, key i x hxn, key i c hcn]
      exact le_of_lt hcon
    · have e1 : (med.set m x).getD i 0 = med.getD i 0 := by
        simp [List.getElem?_set, Ne.symm him]
      rw [e1]
  · have e1 : (med.set m x).getD m 0 = x := by simp [hmk]
    have e2 : med.getD m 0 = c := by simp [hm]
    rw [e1, e2, key m x hxn, key m c hcn]
    exact hcon

/-- **C62, alternating from a local optimum** of the exchanges: nothing changes, after one iteration. -/
theorem C62_alternating {mat : Mat N} {n : Nat} {d : Nat → Nat → N} (hm : IsMatrix mat n d) (hd : Dissim n d)
    (hsym : Symm n d) {med : List Nat} (hv : ValidMeds n med) (hnd : med.Nodup)
    (hopt : SwapOptimal (conv : N → L) n d med) (maxiter : Nat) {r : AltResult L}
    (hr : alternating L mat med maxiter = .ok r) :
    r.med = med ∧ r.loss = totalDev (conv : N → L) n d med ∧ r.nIter = min 1 maxiter := by
  rw [(alternating_eq (L := L) hm hv maxiter).1] at hr; cases hr
  unfold altP
  rw [nearAssiLossP_eq hd hv hnd]
  have ha := nearAssiP_ok hd hv hnd
  cases maxiter with
  | zero => exact ⟨rfl, rfl, rfl⟩
  | succ k =>
    have hu : (altUpdateP L d (nearAssiP d n med) med).1 = false := by
      rw [altUpdateP_eq]
      simp only [List.any_eq_false, bne_iff_ne, ne_eq, not_not]
      intro p hp
      have hp1 : med[p.2]? = some p.1 := mem_zipIdx_get hp
      obtain ⟨-, c1, -, -, c4⟩ := chooseP_spec (L := L) hd ha.length p.2 (hv.range _ (mem_zipIdx_mem hp))
      by_contra hne
      have h1 := c4 hne
      rcases chooseP_mem (L := L) d (nearAssiP d n med) p.2 p.1 with h | h
      · exact hne h
      · rw [c1] at h1
        exact absurd (C62_swapOptimal_cluster hsym hv.range ha hopt hp1 h) (not_le.mpr h1)
    unfold altLoopP
    dsimp only
    simp only [hu, Bool.not_false, if_true, altUpdateP_unchanged hu]
    exact ⟨trivial, trivial, by simp⟩

/-- **C62.** The medoids of a converged run of one of `fasterpam`, `rand_fasterpam`, `pam_swap`, `fastpam1`, given to
any other of them: no exchange, same medoids, same loss. -/
theorem C62_pam_family {mat : Mat N} {n : Nat} {d : Nat → Nat → N} (hm : IsMatrix mat n d) (hd : Dissim n d)
    {med : List Nat} (hv : ValidMeds n med) (hnd : med.Nodup) (hsym : med.length = 1 → Symm n d)
    {maxiter : Nat} {r : SwapResult L} (hr : IsPamRun mat n med maxiter r) (hlt : r.nIter < maxiter)
    {maxiter' : Nat} {r' : SwapResult L} (hr' : IsPamRun mat n r.med maxiter' r') :
    r'.nSwap = 0 ∧ r'.med = r.med ∧ r'.loss = r.loss := by
  have h := hr.outcome hm hd hv hnd hsym
  have hl := h.chain.length
  have hv' : ValidMeds n r.med := ⟨hl ▸ hv.sizes, h.chain.range hv.range⟩
  have h' := hr'.outcome hm hd hv' (h.chain.nodup hnd) (by rw [hl]; exact hsym)
  have h0 := (h.opt hlt).chain_zero h'.chain
  have h1 : r'.med = r.med := (h0 ▸ h'.chain).eq_of_zero
  exact ⟨h0, h1, by rw [h'.loss, h.loss, h1]⟩

/-- **C62.** The medoids of a converged run of one of these functions, given to `alternating`: same medoids, same loss,
one iteration. -/
theorem C62_pam_then_alternating {mat : Mat N} {n : Nat} {d : Nat → Nat → N} (hm : IsMatrix mat n d)
    (hd : Dissim n d) (hsym : Symm n d) {med : List Nat} (hv : ValidMeds n med) (hnd : med.Nodup)
    {maxiter : Nat} {r : SwapResult L} (hr : IsPamRun mat n med maxiter r) (hlt : r.nIter < maxiter)
    {maxiter' : Nat} {r' : AltResult L} (hr' : alternating L mat r.med maxiter' = .ok r') :
    r'.med = r.med ∧ r'.loss = r.loss ∧ r'.nIter = min 1 maxiter' := by
  have h := hr.outcome hm hd hv hnd (fun _ => hsym)
  have hv' : ValidMeds n r.med := ⟨h.chain.length ▸ hv.sizes, h.chain.range hv.range⟩
  obtain ⟨a, b, c⟩ := C62_alternating hm hd hsym hv' (h.chain.nodup hnd) (h.opt hlt) maxiter' hr'
  exact ⟨a, b.trans h.loss.symm, c⟩

/-- **C62.** `alternating` followed by one of these functions: never worse than `alternating` alone, and every
exchange improves. -/
theorem C62_alternating_then_pam {mat : Mat N} {n : Nat} {d : Nat → Nat → N} (hm : IsMatrix mat n d)
    (hd : Dissim n d) {med : List Nat} (hv : ValidMeds n med) (hnd : med.Nodup) (hsym : med.length = 1 → Symm n d)
    {maxiter : Nat} {r : AltResult L} (hr : alternating L mat med maxiter = .ok r)
    {maxiter' : Nat} {r' : SwapResult L} (hr' : IsPamRun mat n r.med maxiter' r') :
    r'.loss ≤ r.loss ∧ (0 < r'.nSwap → r'.loss < r.loss) := by
  have hl := C08_alternating hm hd hv hnd maxiter hr
  have hg := alternating_good hm hd hv hnd maxiter hr
  obtain ⟨e, -, -, h4, h5⟩ := alternating_eq (L := L) hm hv maxiter
  rw [e] at hr; cases hr
  have h' := hr'.outcome hm hd ⟨h4 ▸ hv.sizes, h5⟩ hg.1 (by rw [h4]; exact hsym)
  rw [h'.loss, hl]
  exact ⟨h'.chain.le, fun h => h'.chain.lt h⟩

/-! ## the converse fails; symmetry is needed -/

/-- `alternating` stops at medoids 0, 1, 4 with loss 6; one iteration of `fasterpam` from there reaches loss 2. -/
theorem C62_converse_fails :
    alternating ℤ exMat [0, 1, 2] 9 = .ok ⟨6, [0, 1, 0, 2, 2, 2], 3, [0, 1, 4]⟩ ∧
    fasterpam ℤ exMat [0, 1, 4] 9 = .ok ⟨2, [1, 1, 1, 2, 2, 0], 2, 2, [5, 1, 4]⟩ ∧
    ¬ SwapOptimal (conv : ℕ → ℤ) 6 exD [0, 1, 4] := by
  refine ⟨by decide +kernel, by decide +kernel, fun h => ?_⟩
  have := h 0 5 (by decide) (by decide) (by decide)
  revert this
  decide +kernel

/-- Without symmetry `alternating` leaves an optimum: it adds up rows, the exchanges are about columns. Two objects with
distances 1 and 2; medoid 1 is the best single medoid, `alternating` moves to medoid 0. -/
theorem C62_needs_symmetry :
    ∃ d : Nat → Nat → ℕ, IsMatrix asymMat 2 d ∧ Dissim 2 d ∧ ValidMeds 2 [1] ∧
      SwapOptimal (conv : ℕ → ℤ) 2 d [1] ∧
      alternating ℤ asymMat [1] 9 = .ok ⟨2, [0, 0], 2, [0]⟩ ∧ totalDev (conv : ℕ → ℤ) 2 d [1] = 1 := by
  refine ⟨fun x y => ([[0, 1], [2, 0]].getD x []).getD y 0, ⟨rfl, rfl, fun x y hx hy => ?_⟩,
    ⟨by decide, fun _ _ _ _ => Nat.zero_le _⟩, ⟨⟨by decide, by decide, by decide, by decide⟩, by decide⟩,
    fun m j hm hj hjm => ?_, by decide +kernel, by decide +kernel⟩
  · have : ∀ x < 2, ∀ y < 2, asymMat.get x y = .ok (([[0, 1], [2, 0]].getD x []).getD y 0) := by
      decide +kernel
    exact this x hx y hy
  · have : ∀ m < 1, ∀ j < 2, totalDev (conv : ℕ → ℤ) 2 (fun x y => ([[0, 1], [2, 0]].getD x []).getD y 0) [1] ≤
        totalDev (conv : ℕ → ℤ) 2 (fun x y => ([[0, 1], [2, 0]].getD x []).getD y 0) ([1].set m j) := by
      decide +kernel
    exact this m hm j hj

/-! ## examples -/

/-- PAM from medoids 0, 1, 2 makes two exchanges; FasterPAM and `alternating` then change nothing. -/
example : ∃ r : SwapResult ℤ, pamSwap ℤ exMat [0, 1, 2] 9 = .ok r ∧ r.nSwap = 2 ∧
    (∀ m r', fasterpam ℤ exMat r.med m = .ok r' → r'.med = r.med ∧ r'.loss = r.loss) ∧
    ∀ m r', alternating ℤ exMat r.med m = .ok r' → r'.med = r.med ∧ r'.loss = r.loss := by
  have h : pamSwap ℤ exMat [0, 1, 2] 9 = .ok ⟨2, [1, 1, 1, 0, 0, 2], 3, 2, [4, 1, 5]⟩ := by decide +kernel
  have hv : ValidMeds 6 [0, 1, 2] := ex_valid (by decide) (by decide) (by decide)
  refine ⟨_, h, rfl, fun m r' hr' => ?_, fun m r' hr' => ?_⟩
  · exact (C62_pam_family exMat_isMatrix exD_dissim hv (by decide) (by simp) (.inr (.inr (.inl h))) (by decide)
      (.inl hr')).2
  · obtain ⟨a, b, -⟩ := C62_pam_then_alternating exMat_isMatrix exD_dissim exD_symm hv (by decide)
      (.inr (.inr (.inl h))) (by decide) hr'
    exact ⟨a, b⟩

end KMedoids
