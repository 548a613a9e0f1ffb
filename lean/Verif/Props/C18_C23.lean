import Verif.Props.C08_C16
import Verif.Props.C06_C07

/-!
# C18 (one medoid), C19-C22 (BUILD and PAM), C23 (alternating)

Exact loss arithmetic; zero diagonal, no negative distances.
-/

set_option linter.unusedSectionVars false

namespace KMedoids

open RFrom (conv)

variable {N L : Type} [LinearOrder N] [Zero N] [RDist N] [LawfulDist N]
variable [AddCommGroup L] [LinearOrder L] [IsOrderedAddMonoid L] [RLoss L] [LawfulLoss L]
variable [RFrom N L] [LawfulFrom N L]

/-! ## C18 -/

/-- **C18.** With one medoid the functions return a global optimum: an object whose total distance to all
objects is smallest. No symmetry needed. -/
theorem C18_single {mat : Mat N} {n : Nat} {d : Nat → Nat → N} (hm : IsMatrix mat n d)
    (hd : Dissim n d) {c : Nat} (hv : ValidMeds n [c]) (maxiter : Nat) (seq : List Nat)
    {r : SwapResult L}
    (hr : randFasterpam L mat [c] maxiter seq = .ok r ∨ fasterpam L mat [c] maxiter = .ok r ∨
      fastpam1 L mat [c] maxiter = .ok r ∨ pamSwap L mat [c] maxiter = .ok r) :
    ∃ c', c' < n ∧ r.med = [c'] ∧ r.loss = distSum (conv : N → L) n d c' ∧
      (∀ x, x < n → distSum (conv : N → L) n d c' ≤ distSum (conv : N → L) n d x) ∧
      r.assi = List.replicate n 0 ∧ r.nIter = 1 ∧ (r.nSwap = 1 ∧ c' ≠ c ∨ r.nSwap = 0 ∧ c' = c) := by
  have hs := (singleCluster_eq (L := L) hm (hv.range c (by simp))).1
  have hr' : r = singleP L d n c := by
    rcases hr with h | h | h | h
    · simp only [randFasterpam, List.length_singleton, if_true, hs] at h; cases h; rfl
    · simp only [fasterpam, List.length_singleton, if_true, hs] at h; cases h; rfl
    · simp only [fastpam1, List.length_singleton, if_true, hs] at h; cases h; rfl
    · rw [pamSwap_eq hm hv maxiter] at h; cases h; rfl
  subst hr'
  obtain ⟨c', h1, h2, h3, h4, h5, h6, h7, h8⟩ := singleP_spec (L := L) hd (hv.range c (by simp))
  refine ⟨c', h1, h2, h3, h4, h8, h7, ?_⟩
  by_cases h : c' = c
  · right; exact ⟨by rw [h6, if_pos h], h⟩
  · left; exact ⟨by rw [h6, if_neg h], h⟩

/-- **C18, symmetric matrix:** the medoid minimises the total deviation over all single medoids. -/
theorem C18_single_symm {mat : Mat N} {n : Nat} {d : Nat → Nat → N} (hm : IsMatrix mat n d)
    (hd : Dissim n d) (hs : Symm n d) {c : Nat} (hv : ValidMeds n [c]) (maxiter : Nat) (seq : List Nat)
    {r : SwapResult L}
    (hr : randFasterpam L mat [c] maxiter seq = .ok r ∨ fasterpam L mat [c] maxiter = .ok r ∨
      fastpam1 L mat [c] maxiter = .ok r ∨ pamSwap L mat [c] maxiter = .ok r) :
    r.loss = totalDev (conv : N → L) n d r.med ∧
    ∀ x, x < n → totalDev (conv : N → L) n d r.med ≤ totalDev (conv : N → L) n d [x] := by
  obtain ⟨c', h1, h2, h3, h4, -⟩ := C18_single hm hd hv maxiter seq hr
  rw [h2, totalDev_single hs h1]
  exact ⟨h3, fun x hx => by rw [totalDev_single hs hx]; exact h4 x hx⟩

/-- One medoid on six objects: object 5 is replaced by object 2. -/
example : IsMatrix exMat 6 exD ∧ Dissim 6 exD ∧ Symm 6 exD ∧ ValidMeds 6 [5] ∧
    fasterpam ℤ exMat [5] 9 = .ok ⟨20, [0, 0, 0, 0, 0, 0], 1, 1, [2]⟩ ∧
    distSum (conv : ℕ → ℤ) 6 exD 5 = 38 :=
  ⟨exMat_isMatrix, exD_dissim, exD_symm, ex_valid (by decide) (by decide) (by decide), by decide +kernel,
    by decide +kernel⟩

/-! ## C19, C20, C21: BUILD -/

/-- **C19.** BUILD returns distinct medoids, a nearest-medoid assignment and the total deviation. -/
theorem C19_pam_build {mat : Mat N} {n k : Nat} {d : Nat → Nat → N} (hm : IsMatrix mat n d)
    (hd : Dissim n d) (hs : Sizes n k) {r : BuildResult L} (hr : pamBuild L mat k = .ok r) :
    1 ≤ r.med.length ∧ r.med.length ≤ k ∧ r.med.Nodup ∧ (∀ m ∈ r.med, m < n) ∧
    NearestAssignment n d r.med r.assi ∧ r.loss = totalDev (conv : N → L) n d r.med := by
  rw [pamBuild_eq hm hs] at hr; cases hr
  obtain ⟨h1, -, -, h4⟩ := buildP_ex (L := L) hd hs
  obtain ⟨hv, hnd, hdat⟩ := buildP_cache (L := L) hd hs
  refine ⟨hv.sizes.pos, h4, hnd, hv.range, ?_, h1.loss⟩
  simp only [pamBuildP]
  rw [hdat]
  have h := nearAssiP_ok hd hv hnd
  simp only [nearAssiP, nearRecP_eq] at h
  simpa only [initDataP, List.map_map, Function.comp_def] using h

/-- **C20.** Fewer than `k` medoids only if their total deviation is already 0. -/
theorem C20_pam_build {mat : Mat N} {n k : Nat} {d : Nat → Nat → N} (hm : IsMatrix mat n d)
    (hd : Dissim n d) (hs : Sizes n k) {r : BuildResult L} (hr : pamBuild L mat k = .ok r) :
    (r.med.length < k → totalDev (conv : N → L) n d r.med = 0) ∧
    ((∀ ms : List Nat, ms.length < k → ms ≠ [] → ms.Nodup → (∀ m ∈ ms, m < n) →
        totalDev (conv : N → L) n d ms ≠ 0) →
      r.med.length = k) := by
  obtain ⟨a1, a2, a3, a4, -, -⟩ := C19_pam_build hm hd hs hr
  rw [pamBuild_eq hm hs] at hr; cases hr
  obtain ⟨-, -, h3, -⟩ := buildP_ex (L := L) hd hs
  refine ⟨h3, fun h => ?_⟩
  by_contra hne
  have hlt := lt_of_le_of_ne a2 hne
  exact h _ hlt (List.length_pos_iff.mp a1) a3 a4 (h3 hlt)

/-- **C21.** BUILD is greedy: the first medoid has the smallest total deviation of all single medoids,
and every further one gives the smallest total deviation among all objects, given those before it. -/
theorem C21_pam_build {mat : Mat N} {n k : Nat} {d : Nat → Nat → N} (hm : IsMatrix mat n d)
    (hd : Dissim n d) (hs : Sizes n k) {r : BuildResult L} (hr : pamBuild L mat k = .ok r) :
    (∃ c, r.med.head? = some c ∧
      ∀ x, x < n → totalDev (conv : N → L) n d [c] ≤ totalDev (conv : N → L) n d [x]) ∧
    Greedy (totalDev (conv : N → L) n d) n r.med := by
  obtain ⟨a1, -⟩ := C19_pam_build hm hd hs hr
  rw [pamBuild_eq hm hs] at hr; cases hr
  obtain ⟨-, h2, -, -⟩ := buildP_ex (L := L) hd hs
  refine ⟨?_, h2⟩
  simp only [pamBuildP] at a1 ⊢
  cases hb : (buildP L d n k).1 with
  | nil => rw [hb] at a1; simp at a1
  | cons c cs =>
    refine ⟨c, rfl, fun x hx => ?_⟩
    have := h2 0 c (by rw [hb]; rfl) x hx
    simpa using this

/-! ## C22: PAM = BUILD + SWAP -/

/-- **C22.** `pam` returns in all components (loss, assignment, iterations, swaps, medoids) what `pam_swap`
returns for the medoids found by `pam_build`. -/
theorem C22_pam {mat : Mat N} {n k : Nat} {d : Nat → Nat → N} (hm : IsMatrix mat n d)
    (hd : Dissim n d) (hs : Sizes n k) (maxiter : Nat) {b : BuildResult L}
    (hb : pamBuild L mat k = .ok b) :
    pam L mat k maxiter = pamSwap L mat b.med maxiter ∧
    ∃ r, pam L mat k maxiter = .ok r ∧ ((b.med.length = 1 → Symm n d) → r.loss ≤ b.loss) := by
  obtain ⟨a1, a2, a3, a4, a5, a6⟩ := C19_pam_build hm hd hs hb
  rw [pamBuild_eq hm hs] at hb; cases hb
  obtain ⟨hv, hnd, -⟩ := buildP_cache (L := L) hd hs
  have he : pam L mat k maxiter = pamSwap L mat (pamBuildP L d n k).med maxiter := by
    rw [pam_eq hm hs maxiter, pamP_eq hd hs, ← pamSwap_eq hm hv]; rfl
  refine ⟨he, _, he.trans (pamSwap_eq hm hv maxiter), fun hsym => ?_⟩
  have ho := pam_swap_outcome hm hd hv hnd hsym maxiter (pamSwap_eq (L := L) hm hv maxiter)
  rw [a6, ho.loss]; exact ho.chain.le

/-- BUILD on six objects; with `k = 6` it stops early with loss 0, with `k = 3` SWAP still improves. -/
example : IsMatrix exMat 6 exD ∧ Dissim 6 exD ∧ Symm 6 exD ∧ Sizes 6 3 ∧ Sizes 6 6 ∧
    pamBuild ℤ exMat 3 = .ok ⟨3, [0, 0, 0, 1, 1, 2], [2, 4, 5]⟩ ∧
    pamBuild ℤ exMat 6 = .ok ⟨0, [3, 3, 0, 4, 1, 2], [2, 4, 5, 0, 3]⟩ ∧
    pam ℤ exMat 3 9 = .ok ⟨2, [0, 0, 0, 1, 1, 2], 2, 1, [0, 4, 5]⟩ :=
  ⟨exMat_isMatrix, exD_dissim, exD_symm, ex_sizes (by decide) (by decide), ex_sizes (by decide) (by decide),
    by decide +kernel, by decide +kernel, by decide +kernel⟩

/-! ## C23: alternating -/

/-- **C23.** On a symmetric matrix the loss does not increase; at convergence every medoid is a best member
of its cluster (also without symmetry). -/
theorem C23_alternating {mat : Mat N} {n : Nat} {d : Nat → Nat → N} (hm : IsMatrix mat n d)
    (hd : Dissim n d) {med : List Nat} (hv : ValidMeds n med) (hnd : med.Nodup) (maxiter : Nat)
    {r : AltResult L} (hr : alternating L mat med maxiter = .ok r) :
    (Symm n d → r.loss ≤ totalDev (conv : N → L) n d med ∧
      totalDev (conv : N → L) n d r.med ≤ totalDev (conv : N → L) n d med) ∧
    r.nIter ≤ maxiter ∧
    (r.nIter < maxiter → ∀ m c x : Nat, r.med[m]? = some c → r.assi[x]? = some m →
      clusterSum (conv : N → L) d r.assi m c ≤ clusterSum (conv : N → L) d r.assi m x) := by
  have ha := (alternating_good hm hd hv hnd maxiter hr).2
  rw [(alternating_eq (L := L) hm hv maxiter).1] at hr; cases hr
  have h := altLoopP_ex (L := L) hd hv hnd (nearAssiP_ok hd hv hnd) (fuel := maxiter) (iter := 0)
  unfold altP at *
  rw [nearAssiLossP_eq hd hv hnd] at *
  obtain ⟨h1, h2, h3, h4, h5⟩ := h
  refine ⟨fun hs => ⟨h2 hs, h1 ▸ h2 hs⟩, by omega, fun hc m c x hm' hx => ?_⟩
  exact h5 (by omega) m c x hm' (ha.length ▸ (List.getElem?_eq_some_iff.mp hx).1) hx

/-- The initial loss 18 drops to 6 in three iterations. -/
example : IsMatrix exMat 6 exD ∧ Dissim 6 exD ∧ Symm 6 exD ∧ ValidMeds 6 [0, 1, 2] ∧ [0, 1, 2].Nodup ∧
    totalDev (conv : ℕ → ℤ) 6 exD [0, 1, 2] = 18 ∧
    alternating ℤ exMat [0, 1, 2] 9 = .ok ⟨6, [0, 1, 0, 2, 2, 2], 3, [0, 1, 4]⟩ :=
  ⟨exMat_isMatrix, exD_dissim, exD_symm, ex_valid (by decide) (by decide) (by decide), by decide,
    by decide +kernel, by decide +kernel⟩

end KMedoids
