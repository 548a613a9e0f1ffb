import Verif.Proofs.Separated
import Verif.Props.C63
import Verif.Props.C58

/-!
# C113: well-separated groups are found, and the result is then a global optimum

The objects consist of `k` groups of at least `s` objects; distances within a group are at most `δ`, between groups at least
`S`, and `(n - 1) δ < s S`. With the triangle inequality every converged run of the PAM family from any `k` distinct medoids
puts one medoid in each group, labels the objects by their groups, and its loss is the smallest one of all sets of at most `k`
medoids. `pam_build` finds the groups as well, hence `pam` does for every limit, and `alternating` from the medoids of BUILD.
`alternating` from other medoids need not, and the triangle inequality and the separation are needed.
-/

set_option linter.unusedSectionVars false
set_option linter.overlappingInstances false

namespace KMedoids

open RFrom (conv)

/-- One medoid in each of the groups `0, …, k - 1`, and two objects have the same label if and only if they are in the same
group. -/
structure FindsGroups (n k : Nat) (g : Nat → Nat) (med assi : List Nat) : Prop where
  medoid : ∀ c, c < k → ∃! m, m ∈ med ∧ g m = c
  count : med.length = k
  labels : assi.length = n ∧ ∀ x y, x < n → y < n → (assi[x]? = assi[y]? ↔ g x = g y)

/-- If every group has a medoid, then labels by nearest medoids are the groups. -/
theorem Separated.finds {N K : Type} [LinearOrder N] [Zero N] [AddCommGroup K] [LinearOrder K] [IsOrderedAddMonoid K] {cv : N → K}
    {n k s : Nat} {d : Nat → Nat → N} {g : Nat → Nat} {δ S : K} (H : Separated cv n k s d g δ S) (hmono : Monotone cv)
    (h0 : cv 0 = 0) (hd : Dissim n d) (hsep : (n - 1) • δ < s • S) {med assi : List Nat} (hr : ∀ m ∈ med, m < n)
    (hl : med.length ≤ k) (hcov : Covers k g med) (ha : NearestAssignment n d med assi) : FindsGroups n k g med assi := by
  have key : ∀ x, x < n → ∃ m c, assi[x]? = some m ∧ med[m]? = some c ∧ g c = g x := fun x hx => by
    have hx' : x < assi.length := by rw [ha.length]; exact hx
    obtain ⟨c, hc, hle⟩ := ha.nearest x assi[x] (List.getElem?_eq_getElem hx')
    exact ⟨_, c, List.getElem?_eq_getElem hx', hc, H.own_group hmono h0 hd hsep hr hcov hx (List.mem_of_getElem? hc) hle⟩
  refine ⟨fun c hc => ?_, (hcov.inj hl).2, ha.length, fun x y hx hy => ?_⟩
  · obtain ⟨m, hm, e⟩ := hcov c hc
    exact ⟨m, ⟨hm, e⟩, fun m' hm' => hcov.unique hl hm'.1 hm (hm'.2.trans e.symm)⟩
  · obtain ⟨a, c, e1, e2, e3⟩ := key x hx
    obtain ⟨a', c', e1', e2', e3'⟩ := key y hy
    constructor
    · intro e
      rw [e1, e1'] at e
      cases e
      rw [e2] at e2'
      cases e2'
      exact e3.symm.trans e3'
    · intro e
      have hcc := hcov.unique hl (List.mem_of_getElem? e2) (List.mem_of_getElem? e2') (e3.trans (e.trans e3'.symm))
      subst hcc
      rw [e1, e1']
      have h1 := ha.own a c e2
      have h2 := ha.own a' c e2'
      rw [← h1, ← h2]

section
variable {N L : Type} [LinearOrder N] [Zero N] [RDist N] [LawfulDist N]
variable [AddCommGroup L] [LinearOrder L] [IsOrderedAddMonoid L] [RLoss L] [LawfulLoss L]
variable [RFrom N L] [LawfulFrom N L]
variable {n k s : Nat} {d : Nat → Nat → N} {g : Nat → Nat} {δ S : L}

/-- **C113, labels.** If every group has a medoid, then labels by nearest medoids are the groups. -/
theorem C113_labels (hd : Dissim n d) (H : Separated (conv : N → L) n k s d g δ S) (hsep : (n - 1) • δ < s • S) {med assi : List Nat}
    (hr : ∀ m ∈ med, m < n) (hl : med.length ≤ k) (hcov : Covers k g med) (ha : NearestAssignment n d med assi) :
    FindsGroups n k g med assi :=
  H.finds LawfulFrom.strictMono.monotone LawfulFrom.map_zero hd hsep hr hl hcov ha

/-- **C113, local optima.** If no exchange of one medoid improves, every group has a medoid. -/
theorem C113_swapOptimal (hd : Dissim n d) (hmet : IsMetric (conv : N → L) n d) (H : Separated (conv : N → L) n k s d g δ S)
    (hsep : (n - 1) • δ < s • S) {med : List Nat} (hne : med ≠ []) (hr : ∀ m ∈ med, m < n) (hl : med.length = k)
    (hopt : SwapOptimal (conv : N → L) n d med) : Covers k g med := by
  have hmono : Monotone (conv : N → L) := LawfulFrom.strictMono.monotone
  have h0 : (conv (0 : N) : L) = 0 := LawfulFrom.map_zero
  have hn : 0 < n := Nat.lt_of_le_of_lt (Nat.zero_le _) (hr _ (List.getElem_mem (List.length_pos_of_ne_nil hne)))
  by_contra hcov
  obtain ⟨b, x, c, hb, hx, hxm, -, hc, hck, hle⟩ := H.exists_swap hmono h0 hd hsep hmet hr hl.ge hcov
  have hS := Separated.pos_of_sep (H.nonneg h0 hd hn) hsep
  have h1 := H.far hmono h0 hd hne hr hck hS.le hc
  have h2 := add_le_add (hopt b x hb hx hxm) h1
  exact absurd hsep (not_lt.mpr (le_of_add_le_add_left (h2.trans hle)))

/-- **C113, global optimum.** If no exchange improves and every group has a medoid, then no set of at most `k` medoids is
better. -/
theorem C113_optimum (hd : Dissim n d) (H : Separated (conv : N → L) n k s d g δ S) (hsep : (n - 1) • δ < s • S) {med : List Nat}
    (hne : med ≠ []) (hr : ∀ m ∈ med, m < n) (hl : med.length ≤ k) (hcov : Covers k g med)
    (hopt : SwapOptimal (conv : N → L) n d med) {other : List Nat} (hno : other ≠ []) (hor : ∀ m ∈ other, m < n)
    (hol : other.length ≤ k) : totalDev (conv : N → L) n d med ≤ totalDev (conv : N → L) n d other := by
  have hmono : Monotone (conv : N → L) := LawfulFrom.strictMono.monotone
  have h0 : (conv (0 : N) : L) = 0 := LawfulFrom.map_zero
  have hn : 0 < n := Nat.lt_of_le_of_lt (Nat.zero_le _) (hr _ (List.getElem_mem (List.length_pos_of_ne_nil hne)))
  have h := H.best_of_groups hmono h0 hd hn hsep hr hl hcov (le_refl 0) (fun m hm x hx hg => ?_) hno hor hol
  · simpa using h
  · obtain ⟨b, hb, rfl⟩ := List.getElem_of_mem hm
    by_cases hxb : x = med[b]
    · rw [hxb, add_zero]
    · refine H.best_of_swap hmono h0 hd hsep hr hl hcov hb hx hg ?_
      rw [add_zero]
      exact hopt b x hb hx fun hxm => hxb (hcov.unique hl hxm (List.getElem_mem hb) hg)

/-- The labels of the PAM family are nearest medoids. -/
theorem IsPamRun.nearest {mat : Mat N} (hm : IsMatrix mat n d) (hd : Dissim n d) {med : List Nat} (hv : ValidMeds n med)
    (hnd : med.Nodup) {maxiter : Nat} {r : SwapResult L} (hr : IsPamRun mat n med maxiter r) :
    NearestAssignment n d r.med r.assi := by
  rcases hr with h | ⟨seq, hseq, h⟩ | h | h
  · exact C07_fasterpam hm hd hv hnd maxiter h
  · exact C07_rand_fasterpam hm hd hv hnd maxiter (fun j hj => List.mem_range.mp (hseq.mem_iff.mp hj)) h
  · exact C07_pam_swap hm hd hv hnd maxiter h
  · exact C07_fastpam1 hm hd hv hnd maxiter h

/-- **C113, PAM family.** A converged run of FasterPAM (any order of the objects), PAM or FastPAM1 from any `k` distinct
medoids finds the groups, and its loss is a global optimum. -/
theorem C113_pam_family {mat : Mat N} (hm : IsMatrix mat n d) (hd : Dissim n d) (hmet : IsMetric (conv : N → L) n d)
    (H : Separated (conv : N → L) n k s d g δ S) (hsep : (n - 1) • δ < s • S) {med : List Nat} (hv : ValidMeds n med)
    (hnd : med.Nodup) (hl : med.length = k) {maxiter : Nat} {r : SwapResult L} (hr : IsPamRun mat n med maxiter r)
    (hlt : r.nIter < maxiter) :
    FindsGroups n k g r.med r.assi ∧
    ∀ other : List Nat, other ≠ [] → (∀ m ∈ other, m < n) → other.length ≤ k →
      r.loss ≤ totalDev (conv : N → L) n d other := by
  have h := hr.outcome hm hd hv hnd fun _ => hmet.symm
  have hrl : r.med.length = k := h.chain.length.trans hl
  have hne : r.med ≠ [] := List.ne_nil_of_length_pos (by rw [h.chain.length]; exact hv.sizes.pos)
  have hrr := h.chain.range hv.range
  have hcov := C113_swapOptimal hd hmet H hsep hne hrr hrl (h.opt hlt)
  refine ⟨C113_labels hd H hsep hrr hrl.le hcov (hr.nearest hm hd hv hnd), fun other h1 h2 h3 => ?_⟩
  rw [h.loss]
  exact C113_optimum hd H hsep hne hrr hrl.le hcov (h.opt hlt) h1 h2 h3

/-- **C113, a start with a medoid in every group.** The groups are then found for every limit `max_iter`; the triangle
inequality is not needed. -/
theorem C113_any_limit {mat : Mat N} (hm : IsMatrix mat n d) {med : List Nat} (hd : Dissim n d) (hsym : med.length = 1 → Symm n d)
    (H : Separated (conv : N → L) n k s d g δ S) (hsep : (n - 1) • δ < s • S) (hv : ValidMeds n med)
    (hnd : med.Nodup) (hl : med.length = k) (hcov : Covers k g med) {maxiter : Nat} {r : SwapResult L}
    (hr : IsPamRun mat n med maxiter r) :
    FindsGroups n k g r.med r.assi ∧
    (r.nIter < maxiter → ∀ other : List Nat, other ≠ [] → (∀ m ∈ other, m < n) → other.length ≤ k →
      r.loss ≤ totalDev (conv : N → L) n d other) := by
  have hmono : Monotone (conv : N → L) := LawfulFrom.strictMono.monotone
  have h0 : (conv (0 : N) : L) = 0 := LawfulFrom.map_zero
  have h := hr.outcome hm hd hv hnd hsym
  have hn : 0 < n := lt_of_lt_of_le hv.sizes.pos hv.sizes.le
  have hrl : r.med.length = k := h.chain.length.trans hl
  have hne : r.med ≠ [] := List.ne_nil_of_length_pos (by rw [h.chain.length]; exact hv.sizes.pos)
  have hrr := h.chain.range hv.range
  have hcov' := H.covers_of_le hmono h0 hd hn hsep hne hrr
    (h.chain.le.trans (H.covered_le hmono h0 hd hn hv.range hcov))
  refine ⟨C113_labels hd H hsep hrr hrl.le hcov' (hr.nearest hm hd hv hnd), fun hlt other h1 h2 h3 => ?_⟩
  rw [h.loss]
  exact C113_optimum hd H hsep hne hrr hrl.le hcov' (h.opt hlt) h1 h2 h3

/-- **C113, parallel FasterPAM**, for every schedule of the workers. -/
theorem C113_par_fasterpam (sc0 : Sched) {scF scS : Nat → Nat → Sched} (hF : ∀ i j, (scF i j).Ok) {mat : Mat N}
    (hm : IsMatrix mat n d) (hd : Dissim n d) (hmet : IsMetric (conv : N → L) n d)
    (H : Separated (conv : N → L) n k s d g δ S) (hsep : (n - 1) • δ < s • S)
    {med : List Nat} (hv : ValidMeds n med) (hnd : med.Nodup) (hl : med.length = k) {maxiter : Nat} {seq : List Nat}
    (hseq : seq.Perm (List.range n)) {r : SwapResult L}
    (hr : parFasterpam L sc0 scF scS mat med maxiter seq = .ok r) (hlt : r.nIter < maxiter) :
    FindsGroups n k g r.med r.assi ∧
    ∀ other : List Nat, other ≠ [] → (∀ m ∈ other, m < n) → other.length ≤ k →
      r.loss ≤ totalDev (conv : N → L) n d other := by
  have hlt' : ∀ j ∈ seq, j < n := fun j hj => List.mem_range.mp (hseq.mem_iff.mp hj)
  rw [parFasterpam_eq (L := L) sc0 (scS := scS) hF hm hd hv hnd maxiter hlt', ← randFasterpam_eq hm hv maxiter hlt'] at hr
  exact C113_pam_family hm hd hmet H hsep hv hnd hl (.inr (.inl ⟨seq, hseq, hr⟩)) hlt

/-- **C113, pam_build.** BUILD finds the groups. -/
theorem C113_pam_build {mat : Mat N} (hm : IsMatrix mat n d) (hd : Dissim n d) (hmet : IsMetric (conv : N → L) n d) (hs : Sizes n k)
    (H : Separated (conv : N → L) n k s d g δ S) (hsep : (n - 1) • δ < s • S) {r : BuildResult L} (hr : pamBuild L mat k = .ok r) :
    FindsGroups n k g r.med r.assi ∧ Covers k g r.med := by
  have hmono : Monotone (conv : N → L) := LawfulFrom.strictMono.monotone
  have h0 : (conv (0 : N) : L) = 0 := LawfulFrom.map_zero
  have hn : 0 < n := lt_of_lt_of_le hs.pos hs.le
  obtain ⟨a1, a2, a3, a4, a5, a6⟩ := C19_pam_build hm hd hs hr
  have hne : r.med ≠ [] := List.ne_nil_of_length_pos a1
  have hnodup := H.greedy_nodup hmono h0 hd hsep hmet a4 a2 (C21_pam_build hm hd hs hr).2 r.med.length (le_refl _)
  rw [List.take_length] at hnodup
  have hlk : r.med.length = k := by
    by_contra h
    have hT := (C20_pam_build hm hd hs hr).1 (by omega)
    have hcov := H.covers_of_le hmono h0 hd hn hsep hne a4 (hT.le.trans (nsmul_nonneg (H.nonneg h0 hd hn) _))
    exact h (hcov.inj a2).2
  have hcov := Covers.of_nodup (fun m hm => H.group m (a4 m hm)) hnodup hlk.ge
  exact ⟨C113_labels hd H hsep a4 a2 hcov a5, hcov⟩

/-- **C113, PAM with BUILD.** `pam` finds the groups for every limit `max_iter`. A converged run, in particular every run
with a limit above the number of sets of `k` medoids, returns a global optimum. -/
theorem C113_pam {mat : Mat N} (hm : IsMatrix mat n d) (hd : Dissim n d) (hmet : IsMetric (conv : N → L) n d) (hs : Sizes n k)
    (H : Separated (conv : N → L) n k s d g δ S) (hsep : (n - 1) • δ < s • S) {maxiter : Nat} {r : SwapResult L}
    (hr : pam L mat k maxiter = .ok r) :
    FindsGroups n k g r.med r.assi ∧
    (r.nIter < maxiter ∨ Nat.choose n k < maxiter → ∀ other : List Nat, other ≠ [] → (∀ m ∈ other, m < n) → other.length ≤ k →
      r.loss ≤ totalDev (conv : N → L) n d other) := by
  have hb := pamBuild_eq (L := L) hm hs
  obtain ⟨a1, a2, a3, a4, -, -⟩ := C19_pam_build hm hd hs hb
  obtain ⟨hf, hcov⟩ := C113_pam_build hm hd hmet hs H hsep hb
  obtain ⟨e, -⟩ := C22_pam hm hd hs maxiter hb
  rw [e] at hr
  have hv : ValidMeds n (pamBuildP L d n k).med := ⟨⟨a1, a2.trans hs.le, hs.n_le, lt_of_le_of_lt a2 hs.k_lt⟩, a4⟩
  obtain ⟨h1, h2⟩ := C113_any_limit hm hd (fun _ => hmet.symm) H hsep hv a3 hf.count hcov (.inr (.inr (.inl hr)))
  refine ⟨h1, fun hc => h2 (hc.elim id fun hc => ?_)⟩
  exact (C16_pam_swap hm hd hv a3 maxiter hr).2.2 (by rwa [hf.count])

theorem sum_range_list (f : Nat → L) (n : Nat) : ((List.range n).map f).sum = ∑ o ∈ Finset.range n, f o := by
  induction n with
  | zero => rfl
  | succ n ih => rw [List.range_succ, List.map_append, List.sum_append, Finset.sum_range_succ, ih]; simp

/-- The distances from an object to its cluster, when the labels are the groups. -/
theorem clusterSum_group (hs : Symm n d) {med assi : List Nat} (hr : ∀ m ∈ med, m < n) (ha : NearestAssignment n d med assi)
    (hf : FindsGroups n k g med assi) {m c : Nat} (hc : med[m]? = some c) {x : Nat} (hx : x < n) :
    clusterSum (conv : N → L) d assi m x = ∑ o ∈ groupOf n g (g c), (conv (d o x) : L) := by
  have hcn : c < n := hr c (List.mem_of_getElem? hc)
  unfold clusterSum
  rw [filter_sum]
  have e : (assi.zipIdx.map fun p => if decide (p.1 = m) = true then (conv (d x p.2) : L) else 0) =
      assi.zipIdx.map fun p => (fun o => if g o = g c then (conv (d o x) : L) else 0) p.2 := by
    refine List.map_congr_left fun p hp => ?_
    obtain ⟨a, o⟩ := p
    have hp := List.mem_zipIdx_iff_getElem?.mp hp
    simp only at hp
    have ho : o < n := by
      have := (List.getElem?_eq_some_iff.mp hp).1
      rwa [ha.length] at this
    have h1 := hf.labels.2 o c ho hcn
    rw [hp, ha.own m c hc] at h1
    simp only [Option.some.injEq] at h1
    simp only [decide_eq_true_eq, h1, hs x o hx ho]
  rw [e, ← sum_range_zipIdx assi (fun o => if g o = g c then (conv (d o x) : L) else 0), ha.length, groupOf, Finset.sum_filter]
  exact sum_range_list _ n

/-- **C113, alternating**, from medoids with one in every group, e.g. from `pam_build`: the groups are found for every limit,
and a converged run returns a global optimum. The triangle inequality is not needed. -/
theorem C113_alternating {mat : Mat N} (hm : IsMatrix mat n d) (hd : Dissim n d) (hs : Symm n d)
    (H : Separated (conv : N → L) n k s d g δ S) (hsep : (n - 1) • δ < s • S) {med : List Nat} (hv : ValidMeds n med)
    (hnd : med.Nodup) (hl : med.length = k) (hcov : Covers k g med) {maxiter : Nat} {r : AltResult L}
    (hr : alternating L mat med maxiter = .ok r) :
    FindsGroups n k g r.med r.assi ∧
    (r.nIter < maxiter → ∀ other : List Nat, other ≠ [] → (∀ m ∈ other, m < n) → other.length ≤ k →
      r.loss ≤ totalDev (conv : N → L) n d other) := by
  have hmono : Monotone (conv : N → L) := LawfulFrom.strictMono.monotone
  have h0 : (conv (0 : N) : L) = 0 := LawfulFrom.map_zero
  have hn : 0 < n := lt_of_lt_of_le hv.sizes.pos hv.sizes.le
  obtain ⟨h1, -, h3⟩ := C23_alternating hm hd hv hnd maxiter hr
  obtain ⟨hrr, hrl⟩ : (∀ m ∈ r.med, m < n) ∧ r.med.length = med.length := by
    obtain ⟨q, hq, w⟩ := C04_alternating (L := L) hm hv maxiter
    rw [hr] at hq
    cases hq
    exact ⟨w.medRange, w.medLen⟩
  have hne : r.med ≠ [] := List.ne_nil_of_length_pos (by rw [hrl]; exact hv.sizes.pos)
  have ha := C07_alternating hm hd hv hnd maxiter hr
  have hcov' := H.covers_of_le hmono h0 hd hn hsep hne hrr
    ((h1 hs).2.trans (H.covered_le hmono h0 hd hn hv.range hcov))
  have hf := C113_labels hd H hsep hrr (hrl.trans hl).le hcov' ha
  refine ⟨hf, fun hlt other k1 k2 k3 => ?_⟩
  rw [C08_alternating hm hd hv hnd maxiter hr]
  have h := H.best_of_groups hmono h0 hd hn hsep hrr (hrl.trans hl).le hcov' (le_refl 0) (fun c hc x hx hg => ?_) k1 k2 k3
  · simpa using h
  · obtain ⟨b, hb, rfl⟩ := List.getElem_of_mem hc
    have hb' := List.getElem?_eq_getElem hb
    have hcn := hrr _ hc
    have hx' : r.assi[x]? = some b := by
      rw [← ha.own b _ hb']
      exact (hf.labels.2 x _ hx hcn).mpr hg
    have := h3 hlt b _ x hb' hx'
    rw [clusterSum_group hs hrr ha hf hb' hcn, clusterSum_group hs hrr ha hf hb' hx] at this
    rw [add_zero]
    exact this

end

/-! ## what is needed -/

/-- Groups given by a list. -/
def groupList (gs : List Nat) (x : Nat) : Nat := gs.getD x 0

/-- Checking `Separated` for naturals. -/
theorem separated_nat {n k s : Nat} {d : Nat → Nat → ℕ} {g : Nat → Nat} {δ S : ℕ}
    (h : (∀ x < n, g x < k) ∧ (∀ c < k, s ≤ (groupOf n g c).card) ∧
      ∀ x < n, ∀ y < n, (g x = g y → d x y ≤ δ) ∧ (g x ≠ g y → S ≤ d x y)) :
    Separated (conv : ℕ → ℤ) n k s d g (δ : ℤ) (S : ℤ) :=
  ⟨h.1, h.2.1, fun x y hx hy e => Int.ofNat_le.mpr ((h.2.2 x hx y hy).1 e),
    fun x y hx hy e => Int.ofNat_le.mpr ((h.2.2 x hx y hy).2 e)⟩

/-- Nine objects on a line, three groups of three. -/
def threeGroups : List ℕ := [0, 1, 2, 20, 21, 22, 40, 41, 42]

/-- Non-vacuity: the groups are separated, and the runs start with all medoids in one group. -/
example : IsMatrix (lineMat threeGroups) 9 (lineD threeGroups) ∧ Dissim 9 (lineD threeGroups) ∧
    IsMetric (conv : ℕ → ℤ) 9 (lineD threeGroups) ∧
    Separated (conv : ℕ → ℤ) 9 3 3 (lineD threeGroups) (groupList [0, 0, 0, 1, 1, 1, 2, 2, 2]) ((2 : ℕ) : ℤ) ((18 : ℕ) : ℤ) ∧
    (9 - 1) • ((2 : ℕ) : ℤ) < 3 • ((18 : ℕ) : ℤ) ∧ ValidMeds 9 [0, 1, 2] ∧ [0, 1, 2].Nodup ∧
    fasterpam ℤ (lineMat threeGroups) [0, 1, 2] 9 = .ok ⟨6, [1, 1, 1, 0, 0, 0, 2, 2, 2], 2, 5, [4, 1, 7]⟩ ∧
    pam ℤ (lineMat threeGroups) 3 9 = .ok ⟨6, [1, 1, 1, 0, 0, 0, 2, 2, 2], 1, 0, [4, 1, 7]⟩ :=
  ⟨lineMat_isMatrix _, lineD_dissim _ _, lineD_metric _ _, separated_nat (by decide), by decide,
    ⟨⟨by decide, by decide, by decide, by decide⟩, by decide⟩, by decide, by decide +kernel, by decide +kernel⟩

/-- Non-vacuity of the hypotheses on the start: `[0, 3, 6]` has a medoid in every group and is improved. -/
example : Covers 3 (groupList [0, 0, 0, 1, 1, 1, 2, 2, 2]) [0, 3, 6] ∧
    alternating ℤ (lineMat threeGroups) [0, 3, 6] 9 = .ok ⟨6, [0, 0, 0, 1, 1, 1, 2, 2, 2], 2, [1, 4, 7]⟩ ∧
    pamSwap ℤ (lineMat threeGroups) [0, 3, 6] 1 = .ok ⟨8, [0, 0, 0, 1, 1, 1, 2, 2, 2], 1, 1, [1, 3, 6]⟩ :=
  ⟨by unfold Covers; decide, by decide +kernel, by decide +kernel⟩

/-- Non-vacuity for the parallel FasterPAM: two workers, the second one merges first. -/
example : (⟨2, [1, 0], .leaf⟩ : Sched).Ok ∧ [5, 3, 1, 0, 2, 4, 8, 6, 7].Perm (List.range 9) ∧
    ∃ r, parFasterpam ℤ ⟨2, [1, 0], .leaf⟩ (fun _ _ => ⟨2, [1, 0], .leaf⟩) (fun _ _ => ⟨2, [1, 0], .leaf⟩)
      (lineMat threeGroups) [0, 1, 2] 9 [5, 3, 1, 0, 2, 4, 8, 6, 7] = .ok r ∧ r.nIter < 9 ∧ r.loss = 6 :=
  ⟨⟨by decide, by decide⟩, by decide, ⟨6, [1, 1, 1, 2, 2, 2, 0, 0, 0], 3, 5, [7, 1, 4]⟩, by decide +kernel, by decide, by decide⟩

/-- **C113, alternating.** From other medoids `alternating` need not find the groups: it ends with two medoids in one group
and one for the two others, with ten times the best loss. -/
theorem C113_alternating_fails :
    alternating ℤ (lineMat threeGroups) [0, 1, 2] 9 = .ok ⟨61, [0, 1, 1, 2, 2, 2, 2, 2, 2], 2, [0, 1, 5]⟩ ∧
    ¬ FindsGroups 9 3 (groupList [0, 0, 0, 1, 1, 1, 2, 2, 2]) [0, 1, 5] [0, 1, 1, 2, 2, 2, 2, 2, 2] ∧
    totalDev (conv : ℕ → ℤ) 9 (lineD threeGroups) [1, 4, 7] = 6 :=
  ⟨by decide +kernel, fun h => absurd ((h.labels.2 3 6 (by decide) (by decide)).mp (by decide)) (by decide), by decide +kernel⟩

/-- Three groups of three; the members of the first two groups are near one member of the third one. -/
def hubD (x y : Nat) : ℕ :=
  if x = y then 0 else if x / 3 = y / 3 then 1 else if x % 3 = y % 3 ∧ (x / 3 = 2 ∨ y / 3 = 2) then 3 else 1000

/-- The matrix of `hubD`. -/
def hubMat : Mat ℕ := ofRows ((List.range 9).map fun x => (List.range 9).map fun y => hubD x y)

/-- **C113.** The triangle inequality is needed: everything else holds, and the PAM family stops at once. -/
theorem C113_needs_triangle :
    IsMatrix hubMat 9 hubD ∧ Dissim 9 hubD ∧ Symm 9 hubD ∧
    Separated (conv : ℕ → ℤ) 9 3 3 hubD (fun x => x / 3) ((1 : ℕ) : ℤ) ((3 : ℕ) : ℤ) ∧
    (9 - 1) • ((1 : ℕ) : ℤ) < 3 • ((3 : ℕ) : ℤ) ∧
    fasterpam ℤ hubMat [6, 7, 8] 9 = .ok ⟨18, [0, 1, 2, 0, 1, 2, 0, 1, 2], 1, 0, [6, 7, 8]⟩ ∧
    pamSwap ℤ hubMat [6, 7, 8] 9 = .ok ⟨18, [0, 1, 2, 0, 1, 2, 0, 1, 2], 1, 0, [6, 7, 8]⟩ ∧
    fastpam1 ℤ hubMat [6, 7, 8] 9 = .ok ⟨18, [0, 1, 2, 0, 1, 2, 0, 1, 2], 1, 0, [6, 7, 8]⟩ ∧
    ¬ FindsGroups 9 3 (fun x => x / 3) [6, 7, 8] [0, 1, 2, 0, 1, 2, 0, 1, 2] ∧
    totalDev (conv : ℕ → ℤ) 9 hubD [0, 3, 6] = 6 :=
  ⟨⟨rfl, rfl, by
      have h : ∀ x < 9, ∀ y < 9, hubMat.get x y = .ok (hubD x y) := by decide +kernel
      exact fun x y hx hy => h x hx y hy⟩,
    ⟨by decide, fun _ _ _ _ => Nat.zero_le _⟩, by
      have h : ∀ x < 9, ∀ y < 9, hubD x y = hubD y x := by decide +kernel
      exact fun x y hx hy => h x hx y hy,
    separated_nat (by decide +kernel), by decide, by decide +kernel, by decide +kernel, by decide +kernel,
    fun h => absurd ((h.labels.2 0 3 (by decide) (by decide)).mp (by decide)) (by decide), by decide +kernel⟩

/-- **C113.** The separation is needed: a group of five and one further object, with distances at most 3 and at least 4. -/
theorem C113_needs_separation :
    IsMatrix (lineMat [1, 2, 3, 3, 4, 8]) 6 (lineD [1, 2, 3, 3, 4, 8]) ∧ Dissim 6 (lineD [1, 2, 3, 3, 4, 8]) ∧
    IsMetric (conv : ℕ → ℤ) 6 (lineD [1, 2, 3, 3, 4, 8]) ∧
    Separated (conv : ℕ → ℤ) 6 2 1 (lineD [1, 2, 3, 3, 4, 8]) (groupList [0, 0, 0, 0, 0, 1]) ((3 : ℕ) : ℤ) ((4 : ℕ) : ℤ) ∧
    fasterpam ℤ (lineMat [1, 2, 3, 3, 4, 8]) [0, 4] 9 = .ok ⟨7, [0, 0, 1, 1, 1, 1], 1, 0, [0, 4]⟩ ∧
    ¬ FindsGroups 6 2 (groupList [0, 0, 0, 0, 0, 1]) [0, 4] [0, 0, 1, 1, 1, 1] ∧
    totalDev (conv : ℕ → ℤ) 6 (lineD [1, 2, 3, 3, 4, 8]) [2, 5] = 4 :=
  ⟨lineMat_isMatrix _, lineD_dissim _ _, lineD_metric _ _, separated_nat (by decide), by decide +kernel,
    fun h => absurd ((h.labels.2 4 5 (by decide) (by decide)).mp (by decide)) (by decide), by decide +kernel⟩

end KMedoids
