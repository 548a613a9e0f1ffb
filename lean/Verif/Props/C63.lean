import Verif.Props.C62
import Mathlib.Combinatorics.Pigeonhole

/-!
# C63: a perfect clustering is found whenever there is one

If some set of at most `k` medoids has total deviation zero – the data have at most `k` distinct objects – then
BUILD and every converged run of the PAM family return total deviation zero: no local optimum is bad then. This
needs only that two objects at distance zero have the same distance from every object (`ZeroTwins`), not the triangle
inequality. It is false for `alternating` and for the medoid silhouette optimisers.
-/

set_option linter.unusedSectionVars false
set_option linter.overlappingInstances false

namespace KMedoids

open RFrom (conv)

/-- Objects at distance zero cannot be told apart by distances to them. -/
def ZeroTwins {N : Type} [Zero N] (n : Nat) (d : Nat → Nat → N) : Prop :=
  ∀ x y z, x < n → y < n → z < n → d x y = 0 → d z x = d z y

/-- Some at most `k` objects have an object at distance zero for every object: a perfect clustering exists. -/
def HasPerfect {N : Type} [Zero N] (n k : Nat) (d : Nat → Nat → N) : Prop :=
  ∃ reps : List Nat, reps.length ≤ k ∧ (∀ p ∈ reps, p < n) ∧ ∀ o, o < n → ∃ p ∈ reps, d o p = 0

/-- Every symmetric matrix with the triangle inequality has this property. -/
theorem zeroTwins_of_metric {N : Type} [AddCommMonoid N] [PartialOrder N] {n : Nat} {d : Nat → Nat → N}
    (hsym : Symm n d) (htri : ∀ x y z, x < n → y < n → z < n → d x z ≤ d x y + d y z) : ZeroTwins n d := by
  intro x y z hx hy hz h
  have h' : d y x = 0 := by rw [hsym y x hy hx, h]
  apply le_antisymm
  · have := htri z y x hz hy hx
    rwa [h', add_zero] at this
  · have := htri z x y hz hx hy
    rwa [h, add_zero] at this

variable {N L : Type} [LinearOrder N] [Zero N] [RDist N] [LawfulDist N]
variable [AddCommGroup L] [LinearOrder L] [IsOrderedAddMonoid L] [RLoss L] [LawfulLoss L]
variable [RFrom N L] [LawfulFrom N L]

theorem totalDev_eq_zero_iff {n : Nat} {d : Nat → Nat → N} (hd : Dissim n d) {med : List Nat}
    (hr : ∀ m ∈ med, m < n) (h0 : med ≠ []) :
    totalDev (conv : N → L) n d med = 0 ↔ ∀ o, o < n → ∃ c ∈ med, d o c = 0 := by
  have hnn : ∀ o, o < n → 0 ≤ minDist d o med := fun o ho => by
    obtain ⟨⟨c, hc, e⟩, -⟩ := minDist_spec d o med h0
    rw [e]; exact hd.nonneg o c ho (hr c hc)
  have hc0 : (conv (0 : N) : L) = 0 := LawfulFrom.map_zero
  constructor
  · intro h o ho
    have hz : (conv (minDist d o med) : L) = 0 := by
      by_contra hne
      have hpos : (0 : L) < conv (minDist d o med) := by
        refine lt_of_le_of_ne ?_ (Ne.symm hne)
        rw [← hc0]; exact LawfulFrom.strictMono.monotone (hnn o ho)
      have : ((List.range n).map fun _ => (0 : L)).sum < totalDev (conv : N → L) n d med :=
        List.sum_lt_sum _ _ (fun i hi => by
          rw [← hc0]; exact LawfulFrom.strictMono.monotone (hnn i (List.mem_range.mp hi)))
          ⟨o, List.mem_range.mpr ho, hpos⟩
      rw [h] at this
      simp at this
    obtain ⟨⟨c, hc, e⟩, -⟩ := minDist_spec d o med h0
    refine ⟨c, hc, ?_⟩
    rw [← e]
    exact LawfulFrom.strictMono.injective (hz.trans hc0.symm)
  · intro h
    unfold totalDev
    have : (List.range n).map (fun o => (conv (minDist d o med) : L)) = (List.range n).map fun _ => 0 := by
      refine List.map_congr_left fun o ho => ?_
      have ho := List.mem_range.mp ho
      obtain ⟨c, hc, e⟩ := h o ho
      rw [minDist_eq hc (fun c' hc' => by rw [e]; exact hd.nonneg o c' ho (hr c' hc')), e, hc0]
    rw [this]; simp

theorem totalDev_ge_zero {n : Nat} {d : Nat → Nat → N} (hd : Dissim n d) {med : List Nat}
    (hr : ∀ m ∈ med, m < n) (h0 : med ≠ []) : 0 ≤ totalDev (conv : N → L) n d med := by
  refine List.sum_nonneg fun x hx => ?_
  obtain ⟨o, ho, rfl⟩ := List.mem_map.mp hx
  obtain ⟨⟨c, hc, e⟩, -⟩ := minDist_spec d o med h0
  have hc0 : (conv (0 : N) : L) = 0 := LawfulFrom.map_zero
  rw [e, ← hc0]
  exact LawfulFrom.strictMono.monotone (hd.nonneg o c (List.mem_range.mp ho) (hr c hc))

theorem totalDev_lt_of {n : Nat} {d : Nat → Nat → N} {x y : List Nat} {o : Nat} (ho : o < n)
    (hle : ∀ z, z < n → minDist d z x ≤ minDist d z y) (hlt : minDist d o x < minDist d o y) :
    totalDev (conv : N → L) n d x < totalDev (conv : N → L) n d y :=
  List.sum_lt_sum _ _ (fun i hi => LawfulFrom.strictMono.monotone (hle i (List.mem_range.mp hi)))
    ⟨o, List.mem_range.mpr ho, LawfulFrom.strictMono hlt⟩

/-- Objects that are pairwise at a non-zero distance: at most as many as there are medoids in a perfect clustering. -/
theorem exists_twins {n k : Nat} {d : Nat → Nat → N} (ht : ZeroTwins n d) (hp : HasPerfect n k d)
    (f : Nat → Nat) (hf : ∀ i, i < k + 1 → f i < n) :
    ∃ i j, i < j ∧ j < k + 1 ∧ ∀ z, z < n → d z (f i) = d z (f j) := by
  obtain ⟨reps, hl, hrep, hcov⟩ := hp
  classical
  have hch : ∀ i : Nat, ∃ p, i < k + 1 → p ∈ reps ∧ d (f i) p = 0 := fun i => by
    by_cases hi : i < k + 1
    · obtain ⟨p, h1, h2⟩ := hcov (f i) (hf i hi); exact ⟨p, fun _ => ⟨h1, h2⟩⟩
    · exact ⟨0, fun h => absurd h hi⟩
  choose g hg using hch
  have hcard : reps.toFinset.card < (Finset.range (k + 1)).card := by
    have := List.toFinset_card_le reps
    rw [Finset.card_range]; omega
  obtain ⟨i, hi, j, hj, hij, he⟩ := Finset.exists_ne_map_eq_of_card_lt_of_maps_to hcard
    (f := g) (fun i hi => by
      have := (hg i (Finset.mem_range.mp hi)).1
      simpa using this)
  have hi := Finset.mem_range.mp hi
  have hj := Finset.mem_range.mp hj
  have key : ∀ z, z < n → d z (f i) = d z (f j) := fun z hz => by
    obtain ⟨h1, h2⟩ := hg i hi
    obtain ⟨-, h4⟩ := hg j hj
    rw [ht (f i) (g i) z (hf i hi) (hrep _ h1) hz h2, he,
      ht (f j) (g j) z (hf j hj) (he ▸ hrep _ h1) hz h4]
  rcases Nat.lt_or_gt_of_ne hij with h | h
  · exact ⟨i, j, h, hj, key⟩
  · exact ⟨j, i, h, hi, fun z hz => (key z hz).symm⟩

/-- **C63, core.** Where a perfect clustering exists, every local optimum of the exchanges is one. -/
theorem C63_swapOptimal {n : Nat} {d : Nat → Nat → N} (hd : Dissim n d) (ht : ZeroTwins n d) {med : List Nat}
    (hv : ValidMeds n med) (hp : HasPerfect n med.length d) (hopt : SwapOptimal (conv : N → L) n d med) :
    totalDev (conv : N → L) n d med = 0 := by
  have h0 : med ≠ [] := List.ne_nil_of_length_pos hv.sizes.pos
  rw [totalDev_eq_zero_iff hd hv.range h0]
  intro o ho
  by_contra hcon
  have hpos : ∀ c ∈ med, 0 < d o c := fun c hc =>
    lt_of_le_of_ne (hd.nonneg o c ho (hv.range c hc)) fun e => hcon ⟨c, hc, e.symm⟩
  have hom : o ∉ med := fun h => absurd (hd.diag o ho) (ne_of_gt (hpos o h))
  obtain ⟨i, j, hij, hj, hsame⟩ := exists_twins ht hp (fun i => (med ++ [o]).getD i 0) (fun i hi => by
    have hi' : i < (med ++ [o]).length := by simpa using hi
    have : (med ++ [o]).getD i 0 ∈ med ++ [o] := by
      rw [List.getD_eq_getElem?_getD, List.getElem?_eq_getElem hi']; exact List.getElem_mem hi'
    rcases List.mem_append.mp this with h | h
    · exact hv.range _ h
    · rw [List.mem_singleton.mp h]; exact ho)
  have hik : i < med.length := by omega
  have gi : (med ++ [o]).getD i 0 = med.getD i 0 := by
    simp [List.getElem?_append_left hik]
  rw [gi] at hsame
  have hmi : med.getD i 0 ∈ med := by simp [hik]
  by_cases hjk : j = med.length
  · subst hjk
    have gj : (med ++ [o]).getD med.length 0 = o := by simp
    have := hsame o ho
    rw [gj, hd.diag o ho] at this
    exact absurd this (ne_of_gt (hpos _ hmi))
  have hjk : j < med.length := by omega
  have gj : (med ++ [o]).getD j 0 = med.getD j 0 := by
    simp [List.getElem?_append_left hjk]
  rw [gj] at hsame
  refine absurd (hopt j o hjk ho hom) (not_le.mpr ?_)
  have hset : med.set j o ≠ [] := by simpa using h0
  have homem : o ∈ med.set j o := List.mem_set hjk o
  have hr' : ∀ m ∈ med.set j o, m < n := fun m hm => (List.mem_or_eq_of_mem_set hm).elim (hv.range m) (· ▸ ho)
  refine totalDev_lt_of ho (fun z hz => ?_) ?_
  · obtain ⟨⟨c, hc, e⟩, -⟩ := minDist_spec d z med h0
    rw [e]
    obtain ⟨l, hl, rfl⟩ := List.getElem_of_mem hc
    by_cases hlj : l = j
    · subst hlj
      have e2 : med.getD l 0 = med[l] := by simp [hl]
      rw [← e2, ← hsame z hz]
      refine (minDist_spec d z _ hset).2 _ ?_
      have : (med.set l o)[i]? = some (med.getD i 0) := by
        rw [List.getElem?_set_ne (by omega)]; simp [hik]
      exact List.mem_of_getElem? this
    · refine (minDist_spec d z _ hset).2 _ ?_
      have : (med.set j o)[l]? = some med[l] := by
        rw [List.getElem?_set_ne (fun h => hlj h.symm)]; simp [hl]
      exact List.mem_of_getElem? this
  · rw [minDist_eq homem fun c' hc' => by rw [hd.diag o ho]; exact hd.nonneg o c' ho (hr' c' hc'), hd.diag o ho]
    obtain ⟨⟨c, hc, e⟩, -⟩ := minDist_spec d o med h0
    rw [e]; exact hpos c hc

/-- **C63, PAM family.** A converged run of `fasterpam`, `rand_fasterpam`, `pam_swap` or `fastpam1`, from any initial
medoids, has loss zero if a perfect clustering with at most as many medoids exists. -/
theorem C63_pam_family {mat : Mat N} {n : Nat} {d : Nat → Nat → N} (hm : IsMatrix mat n d) (hd : Dissim n d)
    (ht : ZeroTwins n d) {med : List Nat} (hv : ValidMeds n med) (hnd : med.Nodup)
    (hsym : med.length = 1 → Symm n d) (hp : HasPerfect n med.length d)
    {maxiter : Nat} {r : SwapResult L} (hr : IsPamRun mat n med maxiter r) (hlt : r.nIter < maxiter) :
    r.loss = 0 ∧ ∀ o, o < n → ∃ c ∈ r.med, d o c = 0 := by
  have h := hr.outcome hm hd hv hnd hsym
  have hv' : ValidMeds n r.med := ⟨h.chain.length ▸ hv.sizes, h.chain.range hv.range⟩
  have hz := C63_swapOptimal (L := L) hd ht hv' (h.chain.length ▸ hp) (h.opt hlt)
  exact ⟨h.loss.trans hz,
    (totalDev_eq_zero_iff (L := L) hd hv'.range (List.ne_nil_of_length_pos hv'.sizes.pos)).mp hz⟩

/-- **C63, BUILD.** `pam_build` finds a perfect clustering if there is one. -/
theorem C63_pam_build {mat : Mat N} {n k : Nat} {d : Nat → Nat → N} (hm : IsMatrix mat n d) (hd : Dissim n d)
    (ht : ZeroTwins n d) (hs : Sizes n k) (hp : HasPerfect n k d) {b : BuildResult L}
    (hb : pamBuild L mat k = .ok b) : b.loss = 0 := by
  obtain ⟨a1, a2, a3, a4, -, a6⟩ := C19_pam_build hm hd hs hb
  obtain ⟨h20, -⟩ := C20_pam_build hm hd hs hb
  obtain ⟨-, hg⟩ := C21_pam_build hm hd hs hb
  rw [a6]
  by_contra hne
  have hk : b.med.length = k := by
    by_contra h
    exact hne (h20 (lt_of_le_of_ne a2 h))
  have h0 : b.med ≠ [] := List.ne_nil_of_length_pos a1
  have hex : ∃ o, o < n ∧ ∀ c ∈ b.med, 0 < d o c := by
    by_contra hcon
    apply hne
    rw [totalDev_eq_zero_iff hd a4 h0]
    intro o ho
    by_contra h
    exact hcon ⟨o, ho, fun c hc => lt_of_le_of_ne (hd.nonneg o c ho (a4 c hc)) fun e => h ⟨c, hc, e.symm⟩⟩
  obtain ⟨o, ho, hpos⟩ := hex
  obtain ⟨i, j, hij, hj, hsame⟩ := exists_twins ht hp (fun i => (b.med ++ [o]).getD i 0) (fun i hi => by
    have hi' : i < (b.med ++ [o]).length := by simp; omega
    have : (b.med ++ [o]).getD i 0 ∈ b.med ++ [o] := by
      rw [List.getD_eq_getElem?_getD, List.getElem?_eq_getElem hi']; exact List.getElem_mem hi'
    rcases List.mem_append.mp this with h | h
    · exact a4 _ h
    · rw [List.mem_singleton.mp h]; exact ho)
  have hik : i < b.med.length := by omega
  have gi : (b.med ++ [o]).getD i 0 = b.med.getD i 0 := by
    simp [List.getElem?_append_left hik]
  rw [gi] at hsame
  have hmi : b.med.getD i 0 ∈ b.med := by simp [hik]
  by_cases hjk : j = b.med.length
  · subst hjk
    have gj : (b.med ++ [o]).getD b.med.length 0 = o := by simp
    have := hsame o ho
    rw [gj, hd.diag o ho] at this
    exact absurd this (ne_of_gt (hpos _ hmi))
  have hjk : j < b.med.length := by omega
  have gj : (b.med ++ [o]).getD j 0 = b.med.getD j 0 := by
    simp [List.getElem?_append_left hjk]
  rw [gj] at hsame
  have hcj : b.med[j]? = some (b.med.getD j 0) := by simp [hjk]
  refine absurd (hg j _ hcj o ho) (not_le.mpr ?_)
  have hit : b.med.getD i 0 ∈ b.med.take j := by
    have : (b.med.take j)[i]? = some (b.med.getD i 0) := by
      rw [List.getElem?_take_of_lt hij]; simp [hik]
    exact List.mem_of_getElem? this
  have ht0 : b.med.take j ≠ [] := List.ne_nil_of_mem hit
  refine totalDev_lt_of ho (fun z hz => ?_) ?_
  · obtain ⟨⟨c, hc, e⟩, -⟩ := minDist_spec d z (b.med.take j ++ [b.med.getD j 0]) (by simp)
    rw [e]
    rcases List.mem_append.mp hc with h | h
    · exact (minDist_spec d z _ (by simp)).2 _ (List.mem_append_left _ h)
    · rw [List.mem_singleton.mp h, ← hsame z hz]
      exact (minDist_spec d z _ (by simp)).2 _ (List.mem_append_left _ hit)
  · have hmem : ∀ c ∈ b.med.take j ++ [b.med.getD j 0], c ∈ b.med := fun c hc => by
      rcases List.mem_append.mp hc with h | h
      · exact List.mem_of_mem_take h
      · rw [List.mem_singleton.mp h]; exact List.mem_of_getElem? hcj
    have hn' : ∀ c' ∈ b.med.take j ++ [o], d o o ≤ d o c' := fun c' hc' => by
      rw [hd.diag o ho]
      rcases List.mem_append.mp hc' with h | h
      · exact hd.nonneg o c' ho (a4 _ (List.mem_of_mem_take h))
      · rw [List.mem_singleton.mp h, hd.diag o ho]
    rw [minDist_eq (List.mem_append_right _ (List.mem_singleton_self o)) hn', hd.diag o ho]
    obtain ⟨⟨c, hc, e⟩, -⟩ := minDist_spec d o (b.med.take j ++ [b.med.getD j 0]) (by simp)
    rw [e]
    exact hpos c (hmem c hc)

/-- **C63, pam.** With any limit, also 0. -/
theorem C63_pam {mat : Mat N} {n k : Nat} {d : Nat → Nat → N} (hm : IsMatrix mat n d) (hd : Dissim n d)
    (ht : ZeroTwins n d) (hs : Sizes n k) (hsym : Symm n d) (hp : HasPerfect n k d) {maxiter : Nat}
    {r : SwapResult L} (hr : pam L mat k maxiter = .ok r) : r.loss = 0 := by
  have hb := pamBuild_eq (L := L) hm hs
  obtain ⟨a1, a2, a3, a4, -, -⟩ := C19_pam_build hm hd hs hb
  obtain ⟨e, r', e', hle⟩ := C22_pam hm hd hs maxiter hb
  rw [e'] at hr
  cases hr
  have h1 := hle fun _ => hsym
  rw [C63_pam_build hm hd ht hs hp hb] at h1
  refine le_antisymm h1 ?_
  rw [e] at e'
  have hv : ValidMeds n (pamBuildP L d n k).med := ⟨⟨a1, a2.trans hs.le, hs.n_le, lt_of_le_of_lt a2 hs.k_lt⟩, a4⟩
  have h := pam_swap_outcome hm hd hv a3 (fun _ => hsym) maxiter e'
  have hl := h.chain.length
  rw [h.loss]
  exact totalDev_ge_zero hd (h.chain.range hv.range) (List.ne_nil_of_length_pos (by rw [hl]; exact a1))

/-- **C63, as many medoids as objects.** Nothing is exchanged and the loss is zero, for any limit. -/
theorem C63_all_objects {mat : Mat N} {n : Nat} {d : Nat → Nat → N} (hm : IsMatrix mat n d) (hd : Dissim n d)
    {med : List Nat} (hv : ValidMeds n med) (hnd : med.Nodup) (hk : med.length = n)
    (hsym : n = 1 → Symm n d) {maxiter : Nat} {r : SwapResult L} (hr : IsPamRun mat n med maxiter r) :
    r.nSwap = 0 ∧ r.med = med ∧ r.loss = 0 := by
  have h := hr.outcome hm hd hv hnd (hk ▸ hsym)
  have hall : ∀ j, j < n → j ∈ med := by
    have hp := (List.subperm_of_subset hnd (fun x hx => List.mem_range.mpr (hv.range x hx))).perm_of_length_le
      (l₂ := List.range n) (by simp [hk])
    exact fun j hj => hp.mem_iff.mpr (List.mem_range.mpr hj)
  have h0 : r.nSwap = 0 := SwapOptimal.chain_zero (fun m j _ hj hjm => absurd (hall j hj) hjm) h.chain
  have h1 : r.med = med := (h0 ▸ h.chain).eq_of_zero
  refine ⟨h0, h1, ?_⟩
  rw [h.loss, h1, totalDev_eq_zero_iff hd hv.range (List.ne_nil_of_length_pos hv.sizes.pos)]
  exact fun o ho => ⟨o, hall o ho, hd.diag o ho⟩

/-! ## not so for `alternating` and the medoid silhouette -/

theorem lineD_zeroTwins (ps : List ℕ) (n : Nat) : ZeroTwins n (lineD ps) := by
  intro x y z _ _ _ h
  unfold lineD at *
  omega

/-- Objects at 0, 0 and 5, two medoids at 0: `alternating` stops with loss 5, and FasterPAM would reach 0. -/
theorem C63_alternating_fails :
    alternating ℤ (lineMat [0, 0, 5]) [0, 1] 9 = .ok ⟨5, [0, 1, 0], 1, [0, 1]⟩ ∧
    HasPerfect 3 2 (lineD [0, 0, 5]) ∧ ZeroTwins 3 (lineD [0, 0, 5]) ∧
    ∃ r : SwapResult ℤ, fasterpam ℤ (lineMat [0, 0, 5]) [0, 1] 9 = .ok r ∧ r.loss = 0 :=
  ⟨by decide +kernel, ⟨[0, 2], by decide, by decide, by decide⟩, lineD_zeroTwins _ _, _, rfl, by decide +kernel⟩

/-- Four distinct points on a line, four medoids, three of them on the same point: `fastermsc` and `pammedsil_swap` see
no improving exchange, although a perfect clustering, with medoid silhouette 1, exists. -/
theorem C63_msc_fails :
    fastermsc ℚ (lineMat [100, 100, 100, 10, 9, 11]) [0, 1, 2, 3] 9 =
      .ok ⟨8069 / 8099, [0, 1, 2, 3, 3, 3], 1, 0, [0, 1, 2, 3]⟩ ∧
    pammedsilSwap ℚ (lineMat [100, 100, 100, 10, 9, 11]) [0, 1, 2, 3] 9 =
      .ok ⟨8069 / 8099, [0, 1, 2, 3, 3, 3], 1, 0, [0, 1, 2, 3]⟩ ∧
    HasPerfect 6 4 (lineD [100, 100, 100, 10, 9, 11]) ∧ ZeroTwins 6 (lineD [100, 100, 100, 10, 9, 11]) ∧
    medSil (conv : ℕ → ℚ) 6 (lineD [100, 100, 100, 10, 9, 11]) [0, 3, 4, 5] = 1 :=
  ⟨by decide +kernel, by decide +kernel, ⟨[0, 3, 4, 5], by decide, by decide, by decide⟩, lineD_zeroTwins _ _,
    by decide +kernel⟩

/-! ## examples -/

theorem lineMat7_isMatrix : IsMatrix (lineMat [3, 3, 3, 9, 5, 5, 9]) 7 (lineD [3, 3, 3, 9, 5, 5, 9]) :=
  ⟨rfl, rfl, fun x y hx hy => by
    have : ∀ x < 7, ∀ y < 7, (lineMat [3, 3, 3, 9, 5, 5, 9]).get x y = .ok (lineD [3, 3, 3, 9, 5, 5, 9] x y) := by
      decide +kernel
    exact this x hx y hy⟩

theorem line7_dissim : Dissim 7 (lineD [3, 3, 3, 9, 5, 5, 9]) :=
  ⟨by decide, fun _ _ _ _ => Nat.zero_le _⟩

/-- Seven objects on three points, three medoids on one of them: FasterPAM needs two exchanges. -/
example : ∃ r : SwapResult ℤ, fasterpam ℤ (lineMat [3, 3, 3, 9, 5, 5, 9]) [0, 1, 2] 9 = .ok r ∧ r.nSwap = 2 ∧
    r.loss = 0 ∧ totalDev (conv : ℕ → ℤ) 7 (lineD [3, 3, 3, 9, 5, 5, 9]) [0, 1, 2] = 16 := by
  have h : ∃ r : SwapResult ℤ, fasterpam ℤ (lineMat [3, 3, 3, 9, 5, 5, 9]) [0, 1, 2] 9 = .ok r ∧ r.nSwap = 2 ∧
      r.nIter < 9 := ⟨_, rfl, by decide +kernel, by decide +kernel⟩
  obtain ⟨r, hr, h1, h2⟩ := h
  exact ⟨r, hr, h1, (C63_pam_family lineMat7_isMatrix line7_dissim (lineD_zeroTwins _ _)
    ⟨⟨by decide, by decide, by decide, by decide⟩, by decide⟩ (by decide) (by simp)
    ⟨[0, 3, 4], by decide, by decide, by decide⟩ (.inl hr) h2).1, by decide +kernel⟩

/-- The same data with BUILD. -/
example : ∃ b : BuildResult ℤ, pamBuild ℤ (lineMat [3, 3, 3, 9, 5, 5, 9]) 3 = .ok b ∧ b.loss = 0 := by
  have h : ∃ b : BuildResult ℤ, pamBuild ℤ (lineMat [3, 3, 3, 9, 5, 5, 9]) 3 = .ok b := ⟨_, rfl⟩
  obtain ⟨b, hb⟩ := h
  exact ⟨b, hb, C63_pam_build lineMat7_isMatrix line7_dissim (lineD_zeroTwins _ _)
    ⟨by decide, by decide, by decide, by decide⟩ ⟨[0, 3, 4], by decide, by decide, by decide⟩ hb⟩

end KMedoids
