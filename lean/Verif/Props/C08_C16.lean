import Verif.Examples
import Verif.Proofs.Outcome
import Verif.Proofs.Chain
import Verif.Props.C04_C05_C10

/-!
# C08, C09, C11, C12, C13, C14, C15, C16: exact results of the swap-based optimisers

Distances are linearly ordered with zero diagonal and no negative entry; the arithmetic of the loss is
exact (an ordered commutative group). With a single medoid the crate reads rows instead of columns, so
there symmetry is assumed as well (`hsym`); `C08_single_needs_symmetry` shows that it is needed. C15 (second
run) and C16 hold without it.
`seq` is the order in which FasterPAM visits the objects: any permutation of all of them.
-/

set_option linter.unusedSectionVars false

namespace KMedoids

open RFrom (conv)

variable {N L : Type} [LinearOrder N] [Zero N] [RDist N] [LawfulDist N]
variable [AddCommGroup L] [LinearOrder L] [IsOrderedAddMonoid L] [RLoss L] [LawfulLoss L]
variable [RFrom N L] [LawfulFrom N L]

theorem rand_fasterpam_outcome {mat : Mat N} {n : Nat} {d : Nat → Nat → N} (hm : IsMatrix mat n d)
    (hd : Dissim n d) {med : List Nat} (hv : ValidMeds n med) (hnd : med.Nodup)
    (hsym : med.length = 1 → Symm n d) (maxiter : Nat)
    {seq : List Nat} (hseq : seq.Perm (List.range n)) {r : SwapResult L}
    (hr : randFasterpam L mat med maxiter seq = .ok r) : Outcome n d med maxiter r := by
  rw [randFasterpam_eq hm hv maxiter fun j hj => List.mem_range.mp (hseq.mem_iff.mp hj)] at hr
  cases hr
  exact fpP_outcome hd hv hnd hsym maxiter hseq

theorem fasterpam_outcome {mat : Mat N} {n : Nat} {d : Nat → Nat → N} (hm : IsMatrix mat n d)
    (hd : Dissim n d) {med : List Nat} (hv : ValidMeds n med) (hnd : med.Nodup)
    (hsym : med.length = 1 → Symm n d) (maxiter : Nat) {r : SwapResult L}
    (hr : fasterpam L mat med maxiter = .ok r) : Outcome n d med maxiter r := by
  rw [fasterpam_eq_rand, hm.len] at hr
  exact rand_fasterpam_outcome hm hd hv hnd hsym maxiter (List.Perm.refl _) hr

theorem pam_swap_outcome {mat : Mat N} {n : Nat} {d : Nat → Nat → N} (hm : IsMatrix mat n d)
    (hd : Dissim n d) {med : List Nat} (hv : ValidMeds n med) (hnd : med.Nodup)
    (hsym : med.length = 1 → Symm n d) (maxiter : Nat) {r : SwapResult L}
    (hr : pamSwap L mat med maxiter = .ok r) : Outcome n d med maxiter r := by
  rw [pamSwap_eq hm hv maxiter] at hr; cases hr
  exact pOptP_outcome hd hv hnd hsym (pamScanP_good hd) maxiter

theorem fastpam1_outcome {mat : Mat N} {n : Nat} {d : Nat → Nat → N} (hm : IsMatrix mat n d)
    (hd : Dissim n d) {med : List Nat} (hv : ValidMeds n med) (hnd : med.Nodup)
    (hsym : med.length = 1 → Symm n d) (maxiter : Nat) {r : SwapResult L}
    (hr : fastpam1 L mat med maxiter = .ok r) : Outcome n d med maxiter r := by
  rw [fastpam1_eq hm hv maxiter] at hr; cases hr
  exact pOptP_outcome hd hv hnd hsym (fastScanP_good hv.sizes.pos d) maxiter

/-! ## C08: the reported loss is the total deviation -/

/-- **C08, rand_fasterpam.** -/
theorem C08_rand_fasterpam {mat : Mat N} {n : Nat} {d : Nat → Nat → N} (hm : IsMatrix mat n d)
    (hd : Dissim n d) {med : List Nat} (hv : ValidMeds n med) (hnd : med.Nodup)
    (hsym : med.length = 1 → Symm n d) (maxiter : Nat)
    {seq : List Nat} (hseq : seq.Perm (List.range n)) {r : SwapResult L}
    (hr : randFasterpam L mat med maxiter seq = .ok r) :
    r.loss = totalDev (conv : N → L) n d r.med :=
  (rand_fasterpam_outcome hm hd hv hnd hsym maxiter hseq hr).loss

/-- **C08, fasterpam.** -/
theorem C08_fasterpam {mat : Mat N} {n : Nat} {d : Nat → Nat → N} (hm : IsMatrix mat n d)
    (hd : Dissim n d) {med : List Nat} (hv : ValidMeds n med) (hnd : med.Nodup)
    (hsym : med.length = 1 → Symm n d) (maxiter : Nat) {r : SwapResult L}
    (hr : fasterpam L mat med maxiter = .ok r) :
    r.loss = totalDev (conv : N → L) n d r.med :=
  (fasterpam_outcome hm hd hv hnd hsym maxiter hr).loss

/-- **C08, pam_swap.** -/
theorem C08_pam_swap {mat : Mat N} {n : Nat} {d : Nat → Nat → N} (hm : IsMatrix mat n d)
    (hd : Dissim n d) {med : List Nat} (hv : ValidMeds n med) (hnd : med.Nodup)
    (hsym : med.length = 1 → Symm n d) (maxiter : Nat) {r : SwapResult L}
    (hr : pamSwap L mat med maxiter = .ok r) :
    r.loss = totalDev (conv : N → L) n d r.med :=
  (pam_swap_outcome hm hd hv hnd hsym maxiter hr).loss

/-- **C08, fastpam1.** -/
theorem C08_fastpam1 {mat : Mat N} {n : Nat} {d : Nat → Nat → N} (hm : IsMatrix mat n d)
    (hd : Dissim n d) {med : List Nat} (hv : ValidMeds n med) (hnd : med.Nodup)
    (hsym : med.length = 1 → Symm n d) (maxiter : Nat) {r : SwapResult L}
    (hr : fastpam1 L mat med maxiter = .ok r) :
    r.loss = totalDev (conv : N → L) n d r.med :=
  (fastpam1_outcome hm hd hv hnd hsym maxiter hr).loss

/-- **C08, alternating.** Here no symmetry is needed, also for one medoid. -/
theorem C08_alternating {mat : Mat N} {n : Nat} {d : Nat → Nat → N} (hm : IsMatrix mat n d)
    (hd : Dissim n d) {med : List Nat} (hv : ValidMeds n med) (hnd : med.Nodup) (maxiter : Nat)
    {r : AltResult L} (hr : alternating L mat med maxiter = .ok r) :
    r.loss = totalDev (conv : N → L) n d r.med := by
  rw [(alternating_eq (L := L) hm hv maxiter).1] at hr; cases hr
  unfold altP
  rw [nearAssiLossP_eq hd hv hnd]
  exact (altLoopP_ex hd hv hnd (nearAssiP_ok hd hv hnd)).1

/-- An asymmetric 2 × 2 matrix. -/
def asymMat : Mat ℕ := ofRows [[0, 1], [2, 0]]

/-- With one medoid and an asymmetric matrix the reported loss is not the sum of the distances *to* the
medoid: the hypothesis `hsym` of C08 cannot be dropped. -/
theorem C08_single_needs_symmetry :
    ∃ d : Nat → Nat → ℕ, IsMatrix asymMat 2 d ∧ Dissim 2 d ∧ ValidMeds 2 [0] ∧
      fasterpam ℤ asymMat [0] 5 = .ok ⟨1, [0, 0], 1, 0, [0]⟩ ∧
      totalDev (conv : ℕ → ℤ) 2 d [0] = 2 := by
  refine ⟨fun x y => ([[0, 1], [2, 0]].getD x []).getD y 0, ⟨rfl, rfl, fun x y hx hy => ?_⟩,
    ⟨by decide, fun _ _ _ _ => Nat.zero_le _⟩, ⟨⟨by decide, by decide, by decide, by decide⟩, by decide⟩,
    by decide +kernel, by decide +kernel⟩
  have : ∀ x < 2, ∀ y < 2, asymMat.get x y = .ok (([[0, 1], [2, 0]].getD x []).getD y 0) := by
    decide +kernel
  exact this x hx y hy

/-! ## C09: never worse -/

/-- **C09, rand_fasterpam.** The returned medoids are reached by exactly `nSwap` strictly improving exchanges. -/
theorem C09_rand_fasterpam {mat : Mat N} {n : Nat} {d : Nat → Nat → N} (hm : IsMatrix mat n d)
    (hd : Dissim n d) {med : List Nat} (hv : ValidMeds n med) (hnd : med.Nodup)
    (hsym : med.length = 1 → Symm n d) (maxiter : Nat)
    {seq : List Nat} (hseq : seq.Perm (List.range n)) {r : SwapResult L}
    (hr : randFasterpam L mat med maxiter seq = .ok r) :
    totalDev (conv : N → L) n d r.med ≤ totalDev (conv : N → L) n d med ∧
    (0 < r.nSwap → totalDev (conv : N → L) n d r.med < totalDev (conv : N → L) n d med) ∧
    (r.nSwap = 0 → r.med = med) ∧
    SwapChain (totalDev (conv : N → L) n d) n r.nSwap med r.med := by
  have h := (rand_fasterpam_outcome hm hd hv hnd hsym maxiter hseq hr).chain
  exact ⟨h.le, fun hp => h.lt (by omega), fun h0 => (h0 ▸ h).eq_of_zero, h⟩

/-- **C09, fasterpam.** The returned medoids are reached by exactly `nSwap` strictly improving exchanges. -/
theorem C09_fasterpam {mat : Mat N} {n : Nat} {d : Nat → Nat → N} (hm : IsMatrix mat n d)
    (hd : Dissim n d) {med : List Nat} (hv : ValidMeds n med) (hnd : med.Nodup)
    (hsym : med.length = 1 → Symm n d) (maxiter : Nat) {r : SwapResult L}
    (hr : fasterpam L mat med maxiter = .ok r) :
    totalDev (conv : N → L) n d r.med ≤ totalDev (conv : N → L) n d med ∧
    (0 < r.nSwap → totalDev (conv : N → L) n d r.med < totalDev (conv : N → L) n d med) ∧
    (r.nSwap = 0 → r.med = med) ∧
    SwapChain (totalDev (conv : N → L) n d) n r.nSwap med r.med := by
  have h := (fasterpam_outcome hm hd hv hnd hsym maxiter hr).chain
  exact ⟨h.le, fun hp => h.lt (by omega), fun h0 => (h0 ▸ h).eq_of_zero, h⟩

/-- **C09, pam_swap.** The returned medoids are reached by exactly `nSwap` strictly improving exchanges. -/
theorem C09_pam_swap {mat : Mat N} {n : Nat} {d : Nat → Nat → N} (hm : IsMatrix mat n d)
    (hd : Dissim n d) {med : List Nat} (hv : ValidMeds n med) (hnd : med.Nodup)
    (hsym : med.length = 1 → Symm n d) (maxiter : Nat) {r : SwapResult L}
    (hr : pamSwap L mat med maxiter = .ok r) :
    totalDev (conv : N → L) n d r.med ≤ totalDev (conv : N → L) n d med ∧
    (0 < r.nSwap → totalDev (conv : N → L) n d r.med < totalDev (conv : N → L) n d med) ∧
    (r.nSwap = 0 → r.med = med) ∧
    SwapChain (totalDev (conv : N → L) n d) n r.nSwap med r.med := by
  have h := (pam_swap_outcome hm hd hv hnd hsym maxiter hr).chain
  exact ⟨h.le, fun hp => h.lt (by omega), fun h0 => (h0 ▸ h).eq_of_zero, h⟩

/-- **C09, fastpam1.** The returned medoids are reached by exactly `nSwap` strictly improving exchanges. -/
theorem C09_fastpam1 {mat : Mat N} {n : Nat} {d : Nat → Nat → N} (hm : IsMatrix mat n d)
    (hd : Dissim n d) {med : List Nat} (hv : ValidMeds n med) (hnd : med.Nodup)
    (hsym : med.length = 1 → Symm n d) (maxiter : Nat) {r : SwapResult L}
    (hr : fastpam1 L mat med maxiter = .ok r) :
    totalDev (conv : N → L) n d r.med ≤ totalDev (conv : N → L) n d med ∧
    (0 < r.nSwap → totalDev (conv : N → L) n d r.med < totalDev (conv : N → L) n d med) ∧
    (r.nSwap = 0 → r.med = med) ∧
    SwapChain (totalDev (conv : N → L) n d) n r.nSwap med r.med := by
  have h := (fastpam1_outcome hm hd hv hnd hsym maxiter hr).chain
  exact ⟨h.le, fun hp => h.lt (by omega), fun h0 => (h0 ▸ h).eq_of_zero, h⟩

/-! ## C11, C12: local optimum at convergence -/

/-- **C11, rand_fasterpam.** -/
theorem C11_rand_fasterpam {mat : Mat N} {n : Nat} {d : Nat → Nat → N} (hm : IsMatrix mat n d)
    (hd : Dissim n d) {med : List Nat} (hv : ValidMeds n med) (hnd : med.Nodup)
    (hsym : med.length = 1 → Symm n d) (maxiter : Nat)
    {seq : List Nat} (hseq : seq.Perm (List.range n)) {r : SwapResult L}
    (hr : randFasterpam L mat med maxiter seq = .ok r) (hconv : r.nIter < maxiter) :
    SwapOptimal (conv : N → L) n d r.med :=
  (rand_fasterpam_outcome hm hd hv hnd hsym maxiter hseq hr).opt hconv

/-- **C11, fasterpam.** -/
theorem C11_fasterpam {mat : Mat N} {n : Nat} {d : Nat → Nat → N} (hm : IsMatrix mat n d)
    (hd : Dissim n d) {med : List Nat} (hv : ValidMeds n med) (hnd : med.Nodup)
    (hsym : med.length = 1 → Symm n d) (maxiter : Nat) {r : SwapResult L}
    (hr : fasterpam L mat med maxiter = .ok r) (hconv : r.nIter < maxiter) :
    SwapOptimal (conv : N → L) n d r.med :=
  (fasterpam_outcome hm hd hv hnd hsym maxiter hr).opt hconv

/-- **C12, pam_swap.** -/
theorem C12_pam_swap {mat : Mat N} {n : Nat} {d : Nat → Nat → N} (hm : IsMatrix mat n d)
    (hd : Dissim n d) {med : List Nat} (hv : ValidMeds n med) (hnd : med.Nodup)
    (hsym : med.length = 1 → Symm n d) (maxiter : Nat) {r : SwapResult L}
    (hr : pamSwap L mat med maxiter = .ok r) (hconv : r.nIter < maxiter) :
    SwapOptimal (conv : N → L) n d r.med :=
  (pam_swap_outcome hm hd hv hnd hsym maxiter hr).opt hconv

/-- **C12, fastpam1.** -/
theorem C12_fastpam1 {mat : Mat N} {n : Nat} {d : Nat → Nat → N} (hm : IsMatrix mat n d)
    (hd : Dissim n d) {med : List Nat} (hv : ValidMeds n med) (hnd : med.Nodup)
    (hsym : med.length = 1 → Symm n d) (maxiter : Nat) {r : SwapResult L}
    (hr : fastpam1 L mat med maxiter = .ok r) (hconv : r.nIter < maxiter) :
    SwapOptimal (conv : N → L) n d r.med :=
  (fastpam1_outcome hm hd hv hnd hsym maxiter hr).opt hconv

/-- **C12, pam** (BUILD followed by SWAP). Symmetry is needed if only one medoid results. -/
theorem C12_pam {mat : Mat N} {n k : Nat} {d : Nat → Nat → N} (hm : IsMatrix mat n d)
    (hd : Dissim n d) (hs : Sizes n k) (maxiter : Nat) {r : SwapResult L}
    (hr : pam L mat k maxiter = .ok r) (hsym : r.med.length = 1 → Symm n d) (hconv : r.nIter < maxiter) :
    SwapOptimal (conv : N → L) n d r.med := by
  obtain ⟨hv, hnd, -⟩ := buildP_cache (L := L) hd hs
  rw [pam_eq hm hs maxiter, pamP_eq hd hs, ← pamSwap_eq hm hv] at hr
  have hl : r.med.length = (buildP L d n k).1.length := by
    obtain ⟨r', h1, h2⟩ := C04_pam_swap (L := L) hm hv maxiter
    rw [hr] at h1; cases h1; exact h2.medLen
  exact C12_pam_swap hm hd hv hnd (hl ▸ hsym) maxiter hr hconv

/-! ## C13: one iteration makes the best exchange -/

/-- **C13, pam_swap.** After one iteration the total deviation is the smallest among the initial medoids and
all single exchanges, and the result is one of these. -/
theorem C13_pam_swap {mat : Mat N} {n : Nat} {d : Nat → Nat → N} (hm : IsMatrix mat n d)
    (hd : Dissim n d) {med : List Nat} (hv : ValidMeds n med) (hnd : med.Nodup)
    (hsym : med.length = 1 → Symm n d) {r : SwapResult L}
    (hr : pamSwap L mat med 1 = .ok r) :
    totalDev (conv : N → L) n d r.med ≤ totalDev (conv : N → L) n d med ∧
    (∀ m x, m < med.length → x < n → x ∉ med →
      totalDev (conv : N → L) n d r.med ≤ totalDev (conv : N → L) n d (med.set m x)) ∧
    (r.med = med ∨ ∃ m x, m < med.length ∧ x < n ∧ x ∉ med ∧ r.med = med.set m x) := by
  have ho := pam_swap_outcome hm hd hv hnd hsym 1 hr
  refine ⟨ho.chain.le, ?_, ?_⟩
  · rw [pamSwap_eq hm hv 1] at hr; cases hr
    exact pOptP_one hd hv hnd hsym (pamScanP_good hd)
  · have hle : r.nSwap ≤ 1 := by
      by_cases h1 : med.length = 1
      · obtain ⟨c, rfl⟩ := List.length_eq_one_iff.mp h1
        rw [(C10_single hm hv 1 [] (.inr (.inr (.inr hr)))).2]
        split <;> omega
      · have := C10_pam_swap hm hv (by have := hv.sizes.pos; omega) 1 hr
        have h1 := this.iter
        have h2 := this.swap
        omega
    have hc := ho.chain
    generalize r.nSwap = c at hc hle
    generalize r.med = med' at hc
    cases hc with
    | refl => exact Or.inl rfl
    | step h b j hb hj hjm _ =>
      obtain rfl := Nat.le_zero.mp (Nat.le_of_succ_le_succ hle)
      obtain rfl := h.eq_of_zero
      exact Or.inr ⟨b, j, hb, hj, hjm, rfl⟩

/-- **C13, fastpam1.** After one iteration the total deviation is the smallest among the initial medoids and
all single exchanges, and the result is one of these. -/
theorem C13_fastpam1 {mat : Mat N} {n : Nat} {d : Nat → Nat → N} (hm : IsMatrix mat n d)
    (hd : Dissim n d) {med : List Nat} (hv : ValidMeds n med) (hnd : med.Nodup)
    (hsym : med.length = 1 → Symm n d) {r : SwapResult L}
    (hr : fastpam1 L mat med 1 = .ok r) :
    totalDev (conv : N → L) n d r.med ≤ totalDev (conv : N → L) n d med ∧
    (∀ m x, m < med.length → x < n → x ∉ med →
      totalDev (conv : N → L) n d r.med ≤ totalDev (conv : N → L) n d (med.set m x)) ∧
    (r.med = med ∨ ∃ m x, m < med.length ∧ x < n ∧ x ∉ med ∧ r.med = med.set m x) := by
  have ho := fastpam1_outcome hm hd hv hnd hsym 1 hr
  refine ⟨ho.chain.le, ?_, ?_⟩
  · rw [fastpam1_eq hm hv 1] at hr; cases hr
    exact pOptP_one hd hv hnd hsym (fastScanP_good hv.sizes.pos d)
  · have hle : r.nSwap ≤ 1 := by
      by_cases h1 : med.length = 1
      · obtain ⟨c, rfl⟩ := List.length_eq_one_iff.mp h1
        rw [(C10_single hm hv 1 [] (.inr (.inr (.inl hr)))).2]
        split <;> omega
      · have := C10_fastpam1 hm hv (by have := hv.sizes.pos; omega) 1 hr
        have h1 := this.iter
        have h2 := this.swap
        omega
    have hc := ho.chain
    generalize r.nSwap = c at hc hle
    generalize r.med = med' at hc
    cases hc with
    | refl => exact Or.inl rfl
    | step h b j hb hj hjm _ =>
      obtain rfl := Nat.le_zero.mp (Nat.le_of_succ_le_succ hle)
      obtain rfl := h.eq_of_zero
      exact Or.inr ⟨b, j, hb, hj, hjm, rfl⟩

/-! ## C14: FastPAM1 = PAM -/

/-- **C14.** Same result in all components: loss, assignment, iterations, swaps, medoids. -/
theorem C14_fastpam1_eq_pam_swap {mat : Mat N} {n : Nat} {d : Nat → Nat → N} (hm : IsMatrix mat n d)
    (hd : Dissim n d) {med : List Nat} (hv : ValidMeds n med) (hnd : med.Nodup) (maxiter : Nat) :
    fastpam1 L mat med maxiter = pamSwap L mat med maxiter ∧
    ∃ r, pamSwap L mat med maxiter = .ok r := by
  rw [fastpam1_eq hm hv maxiter, pamSwap_eq hm hv maxiter, fastpam1P_eq hd hv hnd maxiter]
  exact ⟨rfl, _, rfl⟩

/-! ## One medoid, no symmetry -/

/-- With one medoid all four functions do the same. -/
theorem single_run {mat : Mat N} {n : Nat} {d : Nat → Nat → N} (hm : IsMatrix mat n d) {c : Nat}
    (hv : ValidMeds n [c]) {maxiter : Nat} {seq : List Nat} {r : SwapResult L}
    (hr : randFasterpam L mat [c] maxiter seq = .ok r ∨ fasterpam L mat [c] maxiter = .ok r ∨
      fastpam1 L mat [c] maxiter = .ok r ∨ pamSwap L mat [c] maxiter = .ok r) : r = singleP L d n c := by
  have hs := (singleCluster_eq (L := L) hm (hv.range c (by simp))).1
  rcases hr with h | h | h | h
  · simp only [randFasterpam, List.length_singleton, if_true, hs] at h; cases h; rfl
  · simp only [fasterpam, List.length_singleton, if_true, hs] at h; cases h; rfl
  · simp only [fastpam1, List.length_singleton, if_true, hs] at h; cases h; rfl
  · rw [pamSwap_eq hm hv maxiter] at h; cases h; rfl

theorem single_fixed {n : Nat} {d : Nat → Nat → N} (hd : Dissim n d) {c : Nat} (hc : c < n) :
    ∃ c', c' < n ∧ (singleP L d n c).med = [c'] ∧ (singleP L d n c').nSwap = 0 ∧
      (singleP L d n c').med = [c'] ∧ (singleP L d n c').loss = (singleP L d n c).loss := by
  obtain ⟨c', h1, h2, h3, h4, -⟩ := singleP_spec (L := L) hd hc
  obtain ⟨c'', g1, g2, g3, g4, g5, g6, -⟩ := singleP_spec (L := L) hd h1
  have e : c'' = c' := by
    by_contra hne
    exact absurd (h4 c'' g1) (not_le.mpr (g5 hne))
  subst e
  exact ⟨c'', h1, h2, by rw [g6, if_pos rfl], g2, by rw [g3, h3]⟩

theorem single_count {n : Nat} {d : Nat → Nat → N} (hd : Dissim n d) {c : Nat} (hc : c < n) (maxiter : Nat) :
    (singleP L d n c).nSwap < Nat.choose n [c].length ∧ (singleP L d n c).nIter ≤ Nat.choose n [c].length ∧
    (Nat.choose n [c].length < maxiter → (singleP L d n c).nIter < maxiter) := by
  obtain ⟨c', h1, -, -, -, -, h6, h7, -⟩ := singleP_spec (L := L) hd hc
  rw [h6, h7, List.length_singleton, Nat.choose_one_right]
  refine ⟨?_, by omega, by omega⟩
  split <;> omega

/-! ## C15: converged results are fixed points -/

/-- **C15, rand_fasterpam from a local optimum** (for instance one found by another of the four functions). -/
theorem C15_rand_fasterpam_from_optimum {mat : Mat N} {n : Nat} {d : Nat → Nat → N} (hm : IsMatrix mat n d)
    (hd : Dissim n d) {med : List Nat} (hv : ValidMeds n med) (hnd : med.Nodup)
    (hsym : med.length = 1 → Symm n d) (maxiter : Nat)
    {seq : List Nat} (hseq : seq.Perm (List.range n))
    {r : SwapResult L} (hr : randFasterpam L mat med maxiter seq = .ok r)
    (hopt : SwapOptimal (conv : N → L) n d med) :
    r.nSwap = 0 ∧ r.med = med ∧ r.loss = totalDev (conv : N → L) n d med := by
  have h := rand_fasterpam_outcome hm hd hv hnd hsym maxiter hseq hr
  have h0 := hopt.chain_zero h.chain
  have h1 : r.med = med := (h0 ▸ h.chain).eq_of_zero
  exact ⟨h0, h1, h1 ▸ h.loss⟩

/-- **C15, fasterpam from a local optimum** (for instance one found by another of the four functions). -/
theorem C15_fasterpam_from_optimum {mat : Mat N} {n : Nat} {d : Nat → Nat → N} (hm : IsMatrix mat n d)
    (hd : Dissim n d) {med : List Nat} (hv : ValidMeds n med) (hnd : med.Nodup)
    (hsym : med.length = 1 → Symm n d) (maxiter : Nat)
    {r : SwapResult L} (hr : fasterpam L mat med maxiter = .ok r)
    (hopt : SwapOptimal (conv : N → L) n d med) :
    r.nSwap = 0 ∧ r.med = med ∧ r.loss = totalDev (conv : N → L) n d med := by
  have h := fasterpam_outcome hm hd hv hnd hsym maxiter hr
  have h0 := hopt.chain_zero h.chain
  have h1 : r.med = med := (h0 ▸ h.chain).eq_of_zero
  exact ⟨h0, h1, h1 ▸ h.loss⟩

/-- **C15, pam_swap from a local optimum** (for instance one found by another of the four functions). -/
theorem C15_pam_swap_from_optimum {mat : Mat N} {n : Nat} {d : Nat → Nat → N} (hm : IsMatrix mat n d)
    (hd : Dissim n d) {med : List Nat} (hv : ValidMeds n med) (hnd : med.Nodup)
    (hsym : med.length = 1 → Symm n d) (maxiter : Nat)
    {r : SwapResult L} (hr : pamSwap L mat med maxiter = .ok r)
    (hopt : SwapOptimal (conv : N → L) n d med) :
    r.nSwap = 0 ∧ r.med = med ∧ r.loss = totalDev (conv : N → L) n d med := by
  have h := pam_swap_outcome hm hd hv hnd hsym maxiter hr
  have h0 := hopt.chain_zero h.chain
  have h1 : r.med = med := (h0 ▸ h.chain).eq_of_zero
  exact ⟨h0, h1, h1 ▸ h.loss⟩

/-- **C15, fastpam1 from a local optimum** (for instance one found by another of the four functions). -/
theorem C15_fastpam1_from_optimum {mat : Mat N} {n : Nat} {d : Nat → Nat → N} (hm : IsMatrix mat n d)
    (hd : Dissim n d) {med : List Nat} (hv : ValidMeds n med) (hnd : med.Nodup)
    (hsym : med.length = 1 → Symm n d) (maxiter : Nat)
    {r : SwapResult L} (hr : fastpam1 L mat med maxiter = .ok r)
    (hopt : SwapOptimal (conv : N → L) n d med) :
    r.nSwap = 0 ∧ r.med = med ∧ r.loss = totalDev (conv : N → L) n d med := by
  have h := fastpam1_outcome hm hd hv hnd hsym maxiter hr
  have h0 := hopt.chain_zero h.chain
  have h1 : r.med = med := (h0 ▸ h.chain).eq_of_zero
  exact ⟨h0, h1, h1 ▸ h.loss⟩

/-- **C15, rand_fasterpam.** A second run on the medoids of a converged run changes nothing. -/
theorem C15_rand_fasterpam {mat : Mat N} {n : Nat} {d : Nat → Nat → N} (hm : IsMatrix mat n d)
    (hd : Dissim n d) {med : List Nat} (hv : ValidMeds n med) (hnd : med.Nodup) (maxiter : Nat)
    {seq : List Nat} (hseq : seq.Perm (List.range n))
    {r : SwapResult L} (hr : randFasterpam L mat med maxiter seq = .ok r)
    (hconv : r.nIter < maxiter) (maxiter' : Nat)
    {seq' : List Nat} (hseq' : seq'.Perm (List.range n)) {r' : SwapResult L}
    (hr' : randFasterpam L mat r.med maxiter' seq' = .ok r') :
    r'.nSwap = 0 ∧ r'.med = r.med ∧ r'.loss = r.loss := by
  by_cases h1 : med.length = 1
  · obtain ⟨c, rfl⟩ := List.length_eq_one_iff.mp h1
    have hc := hv.range c (by simp)
    obtain ⟨c', g1, g2, g3, g4, g5⟩ := single_fixed (L := L) hd hc
    have e := single_run (L := L) hm hv (.inl hr)
    rw [e, g2] at hr'
    have hv' : ValidMeds n [c'] := ⟨hv.sizes, by simpa using g1⟩
    rw [single_run (L := L) hm hv' (.inl hr'), e, g2]
    exact ⟨g3, g4, g5⟩
  have hsym : med.length = 1 → Symm n d := fun h => absurd h h1
  have h := rand_fasterpam_outcome hm hd hv hnd hsym maxiter hseq hr
  have hl := h.chain.length
  have hv' : ValidMeds n r.med := ⟨hl.symm ▸ hv.sizes, h.chain.range hv.range⟩
  obtain ⟨a, b, c⟩ := C15_rand_fasterpam_from_optimum hm hd hv' (h.chain.nodup hnd) (by rw [hl]; exact hsym)
    maxiter' hseq' hr' (h.opt hconv)
  exact ⟨a, b, c.trans h.loss.symm⟩

/-- **C15, fasterpam.** A second run on the medoids of a converged run changes nothing. -/
theorem C15_fasterpam {mat : Mat N} {n : Nat} {d : Nat → Nat → N} (hm : IsMatrix mat n d)
    (hd : Dissim n d) {med : List Nat} (hv : ValidMeds n med) (hnd : med.Nodup) (maxiter : Nat)
    {r : SwapResult L} (hr : fasterpam L mat med maxiter = .ok r)
    (hconv : r.nIter < maxiter) (maxiter' : Nat) {r' : SwapResult L}
    (hr' : fasterpam L mat r.med maxiter' = .ok r') :
    r'.nSwap = 0 ∧ r'.med = r.med ∧ r'.loss = r.loss := by
  by_cases h1 : med.length = 1
  · obtain ⟨c, rfl⟩ := List.length_eq_one_iff.mp h1
    have hc := hv.range c (by simp)
    obtain ⟨c', g1, g2, g3, g4, g5⟩ := single_fixed (L := L) hd hc
    have e := single_run (L := L) (seq := []) hm hv (.inr (.inl hr))
    rw [e, g2] at hr'
    have hv' : ValidMeds n [c'] := ⟨hv.sizes, by simpa using g1⟩
    rw [single_run (L := L) (seq := []) hm hv' (.inr (.inl hr')), e, g2]
    exact ⟨g3, g4, g5⟩
  have hsym : med.length = 1 → Symm n d := fun h => absurd h h1
  have h := fasterpam_outcome hm hd hv hnd hsym maxiter hr
  have hl := h.chain.length
  have hv' : ValidMeds n r.med := ⟨hl.symm ▸ hv.sizes, h.chain.range hv.range⟩
  obtain ⟨a, b, c⟩ := C15_fasterpam_from_optimum hm hd hv' (h.chain.nodup hnd) (by rw [hl]; exact hsym)
    maxiter' hr' (h.opt hconv)
  exact ⟨a, b, c.trans h.loss.symm⟩

/-- **C15, pam_swap.** A second run on the medoids of a converged run changes nothing. -/
theorem C15_pam_swap {mat : Mat N} {n : Nat} {d : Nat → Nat → N} (hm : IsMatrix mat n d)
    (hd : Dissim n d) {med : List Nat} (hv : ValidMeds n med) (hnd : med.Nodup) (maxiter : Nat)
    {r : SwapResult L} (hr : pamSwap L mat med maxiter = .ok r)
    (hconv : r.nIter < maxiter) (maxiter' : Nat) {r' : SwapResult L}
    (hr' : pamSwap L mat r.med maxiter' = .ok r') :
    r'.nSwap = 0 ∧ r'.med = r.med ∧ r'.loss = r.loss := by
  by_cases h1 : med.length = 1
  · obtain ⟨c, rfl⟩ := List.length_eq_one_iff.mp h1
    have hc := hv.range c (by simp)
    obtain ⟨c', g1, g2, g3, g4, g5⟩ := single_fixed (L := L) hd hc
    have e := single_run (L := L) (seq := []) hm hv (.inr (.inr (.inr hr)))
    rw [e, g2] at hr'
    have hv' : ValidMeds n [c'] := ⟨hv.sizes, by simpa using g1⟩
    rw [single_run (L := L) (seq := []) hm hv' (.inr (.inr (.inr hr'))), e, g2]
    exact ⟨g3, g4, g5⟩
  have hsym : med.length = 1 → Symm n d := fun h => absurd h h1
  have h := pam_swap_outcome hm hd hv hnd hsym maxiter hr
  have hl := h.chain.length
  have hv' : ValidMeds n r.med := ⟨hl.symm ▸ hv.sizes, h.chain.range hv.range⟩
  obtain ⟨a, b, c⟩ := C15_pam_swap_from_optimum hm hd hv' (h.chain.nodup hnd) (by rw [hl]; exact hsym)
    maxiter' hr' (h.opt hconv)
  exact ⟨a, b, c.trans h.loss.symm⟩

/-- **C15, fastpam1.** A second run on the medoids of a converged run changes nothing. -/
theorem C15_fastpam1 {mat : Mat N} {n : Nat} {d : Nat → Nat → N} (hm : IsMatrix mat n d)
    (hd : Dissim n d) {med : List Nat} (hv : ValidMeds n med) (hnd : med.Nodup) (maxiter : Nat)
    {r : SwapResult L} (hr : fastpam1 L mat med maxiter = .ok r)
    (hconv : r.nIter < maxiter) (maxiter' : Nat) {r' : SwapResult L}
    (hr' : fastpam1 L mat r.med maxiter' = .ok r') :
    r'.nSwap = 0 ∧ r'.med = r.med ∧ r'.loss = r.loss := by
  by_cases h1 : med.length = 1
  · obtain ⟨c, rfl⟩ := List.length_eq_one_iff.mp h1
    have hc := hv.range c (by simp)
    obtain ⟨c', g1, g2, g3, g4, g5⟩ := single_fixed (L := L) hd hc
    have e := single_run (L := L) (seq := []) hm hv (.inr (.inr (.inl hr)))
    rw [e, g2] at hr'
    have hv' : ValidMeds n [c'] := ⟨hv.sizes, by simpa using g1⟩
    rw [single_run (L := L) (seq := []) hm hv' (.inr (.inr (.inl hr'))), e, g2]
    exact ⟨g3, g4, g5⟩
  have hsym : med.length = 1 → Symm n d := fun h => absurd h h1
  have h := fastpam1_outcome hm hd hv hnd hsym maxiter hr
  have hl := h.chain.length
  have hv' : ValidMeds n r.med := ⟨hl.symm ▸ hv.sizes, h.chain.range hv.range⟩
  obtain ⟨a, b, c⟩ := C15_fastpam1_from_optimum hm hd hv' (h.chain.nodup hnd) (by rw [hl]; exact hsym)
    maxiter' hr' (h.opt hconv)
  exact ⟨a, b, c.trans h.loss.symm⟩

/-! ## C16: convergence -/

/-- **C16, rand_fasterpam.** -/
theorem C16_rand_fasterpam {mat : Mat N} {n : Nat} {d : Nat → Nat → N} (hm : IsMatrix mat n d)
    (hd : Dissim n d) {med : List Nat} (hv : ValidMeds n med) (hnd : med.Nodup) (maxiter : Nat)
    {seq : List Nat} (hseq : seq.Perm (List.range n)) {r : SwapResult L}
    (hr : randFasterpam L mat med maxiter seq = .ok r) :
    r.nSwap < Nat.choose n med.length ∧ r.nIter ≤ Nat.choose n med.length ∧
    (Nat.choose n med.length < maxiter → r.nIter < maxiter) := by
  by_cases h1 : med.length = 1
  · obtain ⟨c, rfl⟩ := List.length_eq_one_iff.mp h1
    rw [single_run (L := L) hm hv (.inl hr)]
    exact single_count hd (hv.range c (by simp)) maxiter
  have hsym : med.length = 1 → Symm n d := fun h => absurd h h1
  have h := rand_fasterpam_outcome hm hd hv hnd hsym maxiter hseq hr
  have hc := h.chain.count hnd hv.range fun x y hxy => totalDev_toFinset hxy
  have hi := h.iter
  exact ⟨hc, by omega, by omega⟩

/-- **C16, fasterpam.** -/
theorem C16_fasterpam {mat : Mat N} {n : Nat} {d : Nat → Nat → N} (hm : IsMatrix mat n d)
    (hd : Dissim n d) {med : List Nat} (hv : ValidMeds n med) (hnd : med.Nodup) (maxiter : Nat) {r : SwapResult L}
    (hr : fasterpam L mat med maxiter = .ok r) :
    r.nSwap < Nat.choose n med.length ∧ r.nIter ≤ Nat.choose n med.length ∧
    (Nat.choose n med.length < maxiter → r.nIter < maxiter) := by
  by_cases h1 : med.length = 1
  · obtain ⟨c, rfl⟩ := List.length_eq_one_iff.mp h1
    rw [single_run (L := L) (seq := []) hm hv (.inr (.inl hr))]
    exact single_count hd (hv.range c (by simp)) maxiter
  have hsym : med.length = 1 → Symm n d := fun h => absurd h h1
  have h := fasterpam_outcome hm hd hv hnd hsym maxiter hr
  have hc := h.chain.count hnd hv.range fun x y hxy => totalDev_toFinset hxy
  have hi := h.iter
  exact ⟨hc, by omega, by omega⟩

/-- **C16, pam_swap.** -/
theorem C16_pam_swap {mat : Mat N} {n : Nat} {d : Nat → Nat → N} (hm : IsMatrix mat n d)
    (hd : Dissim n d) {med : List Nat} (hv : ValidMeds n med) (hnd : med.Nodup) (maxiter : Nat) {r : SwapResult L}
    (hr : pamSwap L mat med maxiter = .ok r) :
    r.nSwap < Nat.choose n med.length ∧ r.nIter ≤ Nat.choose n med.length ∧
    (Nat.choose n med.length < maxiter → r.nIter < maxiter) := by
  by_cases h1 : med.length = 1
  · obtain ⟨c, rfl⟩ := List.length_eq_one_iff.mp h1
    rw [single_run (L := L) (seq := []) hm hv (.inr (.inr (.inr hr)))]
    exact single_count hd (hv.range c (by simp)) maxiter
  have hsym : med.length = 1 → Symm n d := fun h => absurd h h1
  have h := pam_swap_outcome hm hd hv hnd hsym maxiter hr
  have hc := h.chain.count hnd hv.range fun x y hxy => totalDev_toFinset hxy
  have hi := h.iter
  exact ⟨hc, by omega, by omega⟩

/-- **C16, fastpam1.** -/
theorem C16_fastpam1 {mat : Mat N} {n : Nat} {d : Nat → Nat → N} (hm : IsMatrix mat n d)
    (hd : Dissim n d) {med : List Nat} (hv : ValidMeds n med) (hnd : med.Nodup) (maxiter : Nat) {r : SwapResult L}
    (hr : fastpam1 L mat med maxiter = .ok r) :
    r.nSwap < Nat.choose n med.length ∧ r.nIter ≤ Nat.choose n med.length ∧
    (Nat.choose n med.length < maxiter → r.nIter < maxiter) := by
  by_cases h1 : med.length = 1
  · obtain ⟨c, rfl⟩ := List.length_eq_one_iff.mp h1
    rw [single_run (L := L) (seq := []) hm hv (.inr (.inr (.inl hr)))]
    exact single_count hd (hv.range c (by simp)) maxiter
  have hsym : med.length = 1 → Symm n d := fun h => absurd h h1
  have h := fastpam1_outcome hm hd hv hnd hsym maxiter hr
  have hc := h.chain.count hnd hv.range fun x y hxy => totalDev_toFinset hxy
  have hi := h.iter
  exact ⟨hc, by omega, by omega⟩

/-! ## Non-vacuity -/

/-- The hypotheses are met by six objects with duplicates; the runs make swaps and converge. -/
example : IsMatrix exMat 6 exD ∧ Dissim 6 exD ∧ Symm 6 exD ∧ ValidMeds 6 [0, 1, 2] ∧ [0, 1, 2].Nodup ∧
    ([5, 3, 1, 0, 2, 4] : List Nat).Perm (List.range 6) ∧
    totalDev (conv : ℕ → ℤ) 6 exD [0, 1, 2] = 18 ∧
    randFasterpam ℤ exMat [0, 1, 2] 9 [5, 3, 1, 0, 2, 4] = .ok ⟨2, [1, 1, 1, 2, 2, 0], 2, 2, [5, 1, 3]⟩ ∧
    fasterpam ℤ exMat [0, 1, 2] 9 = .ok ⟨2, [1, 1, 1, 0, 0, 2], 2, 3, [4, 1, 5]⟩ ∧
    fasterpam ℤ exMat [4, 1, 5] 9 = .ok ⟨2, [1, 1, 1, 0, 0, 2], 1, 0, [4, 1, 5]⟩ ∧
    pamSwap ℤ exMat [0, 1, 2] 9 = .ok ⟨2, [1, 1, 1, 0, 0, 2], 3, 2, [4, 1, 5]⟩ ∧
    pamSwap ℤ exMat [0, 1, 2] 1 = .ok ⟨5, [1, 1, 2, 0, 0, 0], 1, 1, [4, 1, 2]⟩ ∧
    pam ℤ exMat 3 9 = .ok ⟨2, [0, 0, 0, 1, 1, 2], 2, 1, [0, 4, 5]⟩ ∧
    alternating ℤ exMat [0, 1, 2] 9 = .ok ⟨6, [0, 1, 0, 2, 2, 2], 3, [0, 1, 4]⟩ :=
  ⟨exMat_isMatrix, exD_dissim, exD_symm, ex_valid (by decide) (by decide) (by decide), by decide,
    by decide, by decide +kernel, by decide +kernel, by decide +kernel, by decide +kernel, by decide +kernel,
    by decide +kernel, by decide +kernel, by decide +kernel⟩

end KMedoids
