import Verif.Proofs.SteepRun
import Verif.Props.C89

/-!
# C90: PAM, FastPAM1, FastMSC and PAMMEDSIL are the steepest search, including ties

C86 and C87 say that these runs consist of best exchanges, which leaves open which one is taken if there are
several. Here the run is equated with a function: `steepRun` tries the exchanges in the order of the object
numbers, then of the medoid numbers, and takes the first best one. This determines the medoids in their order,
and the numbers of iterations and swaps. BUILD is the greedy search `greedyBuild`, so that `pam` and `pammedsil`
are determined completely. It follows that a run can be stopped and continued without changing the result.
-/

set_option linter.unusedSectionVars false

namespace KMedoids

open RFrom (conv)

section pam

variable {N L : Type} [LinearOrder N] [Zero N] [RDist N] [LawfulDist N]
variable [AddCommGroup L] [LinearOrder L] [IsOrderedAddMonoid L] [RLoss L] [LawfulLoss L]
variable [RFrom N L] [LawfulFrom N L]

/-- **C90, pam_swap.** -/
theorem C90_pam_swap {mat : Mat N} {n : Nat} {d : Nat → Nat → N} (hm : IsMatrix mat n d)
    (hd : Dissim n d) {med : List Nat} (hv : ValidMeds n med) (hnd : med.Nodup) (hk : 2 ≤ med.length)
    (maxiter : Nat) {r : SwapResult L} (hr : pamSwap L mat med maxiter = .ok r) :
    (r.med, r.nIter, r.nSwap) = steepRun (totalDev (conv : N → L) n d) n maxiter med ∧
      r.loss = totalDev (conv : N → L) n d r.med := by
  have ho := pam_swap_outcome hm hd hv hnd (by omega) maxiter hr
  refine ⟨?_, ho.loss⟩
  rw [pamSwap_eq hm hv maxiter] at hr
  cases hr
  unfold pamSwapP
  rw [pOptP_many d n _ hk]
  have hex : PEx n med.length d (⟨med, initDataP d n med, nearLossP L (initDataP d n med), 0⟩ : PState N L) :=
    ⟨initDataP_ok hd hk hv hnd, rfl, nearLossP_eq (initDataP_ok hd hk hv hnd)⟩
  obtain ⟨h1, h2, h3⟩ := pLoopP_steep (L := L) hd maxiter 0 hex
  simp only [Nat.zero_add] at h1 h2 h3
  exact Prod.ext h1 (Prod.ext h2 h3)

/-- **C90, fastpam1.** -/
theorem C90_fastpam1 {mat : Mat N} {n : Nat} {d : Nat → Nat → N} (hm : IsMatrix mat n d)
    (hd : Dissim n d) {med : List Nat} (hv : ValidMeds n med) (hnd : med.Nodup) (hk : 2 ≤ med.length)
    (maxiter : Nat) {r : SwapResult L} (hr : fastpam1 L mat med maxiter = .ok r) :
    (r.med, r.nIter, r.nSwap) = steepRun (totalDev (conv : N → L) n d) n maxiter med ∧
      r.loss = totalDev (conv : N → L) n d r.med := by
  rw [(C14_fastpam1_eq_pam_swap hm hd hv hnd maxiter).1] at hr
  exact C90_pam_swap hm hd hv hnd hk maxiter hr

/-- **C90, pam_build:** the greedy search, with the lowest object number if there are ties. -/
theorem C90_pam_build {mat : Mat N} {n k : Nat} {d : Nat → Nat → N} (hm : IsMatrix mat n d)
    (hd : Dissim n d) (hs : Sizes n k) {r : BuildResult L} (hr : pamBuild L mat k = .ok r) :
    r.med = greedyBuild (totalDev (conv : N → L) n d) 0 n k := by
  rw [pamBuild_eq hm hs] at hr
  cases hr
  exact buildP_greedy hd hs

/-- **C90, pam:** the steepest search from the medoids of the greedy search. -/
theorem C90_pam {mat : Mat N} {n k : Nat} {d : Nat → Nat → N} (hm : IsMatrix mat n d)
    (hd : Dissim n d) (hs : Sizes n k) (maxiter : Nat)
    (hk : 2 ≤ (greedyBuild (totalDev (conv : N → L) n d) 0 n k).length) {r : SwapResult L}
    (hr : pam L mat k maxiter = .ok r) :
    (r.med, r.nIter, r.nSwap) = steepRun (totalDev (conv : N → L) n d) n maxiter
        (greedyBuild (totalDev (conv : N → L) n d) 0 n k) ∧
      r.loss = totalDev (conv : N → L) n d r.med := by
  have hb := pamBuild_eq (L := L) hm hs
  obtain ⟨a1, a2, a3, a4, -, -⟩ := C19_pam_build hm hd hs hb
  have e := C90_pam_build hm hd hs hb
  rw [(C22_pam hm hd hs maxiter hb).1] at hr
  rw [e] at hr a1 a2 a3 a4
  exact C90_pam_swap hm hd ⟨⟨a1, le_trans a2 hs.le, hs.n_le, lt_of_le_of_lt a2 hs.k_lt⟩, a4⟩ a3 hk maxiter hr

/-- **C90, stop and continue, pam_swap:** if the run is stopped after at most `a` iterations, and continued from its
medoids for at most `b` iterations, the medoids, the loss and the swaps are those of one run. The iterations are
too, except that a run that had already converged needs one more to notice. -/
theorem C90_pam_swap_resume {mat : Mat N} {n : Nat} {d : Nat → Nat → N} (hm : IsMatrix mat n d)
    (hd : Dissim n d) {med : List Nat} (hv : ValidMeds n med) (hnd : med.Nodup) (hk : 2 ≤ med.length)
    (a b : Nat) {r r1 r2 : SwapResult L} (hr : pamSwap L mat med (a + b) = .ok r)
    (hr1 : pamSwap L mat med a = .ok r1) (hr2 : pamSwap L mat r1.med b = .ok r2) :
    r2.med = r.med ∧ r2.loss = r.loss ∧ r1.nSwap + r2.nSwap = r.nSwap ∧
      (r1.nIter + r2.nIter = r.nIter ∨ r1.nIter = r.nIter ∧ r2.nSwap = 0 ∧ r2.nIter = min b 1) := by
  obtain ⟨h1, h2⟩ := C90_pam_swap hm hd hv hnd hk _ hr
  obtain ⟨g1, -⟩ := C90_pam_swap hm hd hv hnd hk _ hr1
  have hwf : ValidMeds n r1.med ∧ r1.med.Nodup ∧ 2 ≤ r1.med.length := by
    obtain ⟨r', e, hw⟩ := C04_pam_swap (L := L) hm hv a
    rw [hr1] at e
    cases e
    exact ⟨⟨by rw [hw.medLen]; exact hv.sizes, hw.medRange⟩, C06_pam_swap hm hd hv hnd a hr1,
      by rw [hw.medLen]; exact hk⟩
  obtain ⟨f1, f2⟩ := C90_pam_swap hm hd hwf.1 hwf.2.1 hwf.2.2 _ hr2
  obtain ⟨e1, e2, e3⟩ := steepRun_add (totalDev (conv : N → L) n d) n a b med
  rw [← h1, ← g1] at e1 e2 e3
  dsimp only at e1 e2 e3
  rw [← f1] at e1 e2 e3
  dsimp only at e1 e2 e3
  refine ⟨e1.symm, by rw [f2, h2, e1], by omega, ?_⟩
  rcases e3 with e3 | ⟨e3, e4⟩
  · exact Or.inl (by omega)
  · simp only [Prod.mk.injEq] at e4
    exact Or.inr ⟨e3.symm, e4.2, e4.1⟩

/-- **C90, stop and continue, fastpam1.** -/
theorem C90_fastpam1_resume {mat : Mat N} {n : Nat} {d : Nat → Nat → N} (hm : IsMatrix mat n d)
    (hd : Dissim n d) {med : List Nat} (hv : ValidMeds n med) (hnd : med.Nodup) (hk : 2 ≤ med.length)
    (a b : Nat) {r r1 r2 : SwapResult L} (hr : fastpam1 L mat med (a + b) = .ok r)
    (hr1 : fastpam1 L mat med a = .ok r1) (hr2 : fastpam1 L mat r1.med b = .ok r2) :
    r2.med = r.med ∧ r2.loss = r.loss ∧ r1.nSwap + r2.nSwap = r.nSwap ∧
      (r1.nIter + r2.nIter = r.nIter ∨ r1.nIter = r.nIter ∧ r2.nSwap = 0 ∧ r2.nIter = min b 1) := by
  have hwf : ValidMeds n r1.med ∧ r1.med.Nodup := by
    obtain ⟨r', e, hw⟩ := C04_fastpam1 (L := L) hm hv a
    rw [hr1] at e
    cases e
    exact ⟨⟨by rw [hw.medLen]; exact hv.sizes, hw.medRange⟩, C06_fastpam1 hm hd hv hnd a hr1⟩
  rw [(C14_fastpam1_eq_pam_swap hm hd hv hnd _).1] at hr hr1
  rw [(C14_fastpam1_eq_pam_swap hm hd hwf.1 hwf.2 _).1] at hr2
  exact C90_pam_swap_resume hm hd hv hnd hk a b hr hr1 hr2

end pam

/-! ## The medoid silhouette -/

section msc

variable {N L : Type} [LinearOrder N] [Zero N] [RDist N] [LawfulDist N]
variable [Field L] [LinearOrder L] [IsStrictOrderedRing L] [RLoss L] [LawfulField L]
variable [RFrom N L] [LawfulFrom N L]

theorem steepRun_negSil {n : Nat} (hn : 0 < n) (d : Nat → Nat → N) (fuel : Nat) (med : List Nat) :
    steepRun (msT L n d) n fuel med = steepRun (fun m => - medSil (conv : N → L) n d m) n fuel med :=
  (steepRun_congr (fun a b => by rw [neg_lt_neg_iff, medSil_lt_iff hn]) n fuel med).symm

/-- **C90, pammedsil_swap.** -/
theorem C90_pammedsil_swap {mat : Mat N} {n : Nat} {d : Nat → Nat → N} (hm : IsMatrix mat n d)
    (hd : Dissim n d) {med : List Nat} (hv : ValidMeds n med) (hnd : med.Nodup) (hk : 2 ≤ med.length)
    (maxiter : Nat) {r : SwapResult L} (hr : pammedsilSwap L mat med maxiter = .ok r) :
    (r.med, r.nIter, r.nSwap) = steepRun (fun m => - medSil (conv : N → L) n d m) n maxiter med ∧
      r.loss = medSil (conv : N → L) n d r.med := by
  have ho := pammedsil_swap_outcome hm hd hv hnd hk hr
  have hn : 0 < n := lt_of_lt_of_le hv.sizes.pos hv.sizes.le
  refine ⟨?_, ho.loss⟩
  rw [pammedsilSwap_eq hm hv] at hr
  cases hr
  rw [pammedsilSwapP, pmsOptP_many d n (s := mpInitP L d n med) hk, ← steepRun_negSil hn]
  obtain ⟨h1, h2, h3⟩ := msLoop_steep (L := L) hd hk hv.sizes.k_lt maxiter 0
    (s := mpInitP L d n med) (MInv.init hd hv hnd hk)
  have h0 : (mpInitP L d n med).nSwaps = 0 := rfl
  simp only [h0, Nat.zero_add] at h1 h2 h3
  exact Prod.ext h1 (Prod.ext h2 h3)

/-- **C90, fastmsc.** -/
theorem C90_fastmsc [LawfulAdd N L] {mat : Mat N} {n : Nat} {d : Nat → Nat → N} (hm : IsMatrix mat n d)
    (hd : Dissim n d) {med : List Nat} (hv : ValidMeds n med) (hnd : med.Nodup) (hk : 2 ≤ med.length)
    (maxiter : Nat) {r : SwapResult L} (hr : fastmsc L mat med maxiter = .ok r) :
    (r.med, r.nIter, r.nSwap) = steepRun (fun m => - medSil (conv : N → L) n d m) n maxiter med ∧
      r.loss = medSil (conv : N → L) n d r.med := by
  obtain ⟨r', h1, h2, h3, h4, h5⟩ := fastmsc_pammedsil hm hd hv hnd maxiter hr
  rw [h2, h3, h4, h5]
  exact C90_pammedsil_swap hm hd hv hnd hk maxiter h1

/-- **C90, BUILD of pammedsil:** the greedy search for the total deviation that does not try object 0 again. -/
theorem C90_pammedsil_build {mat : Mat N} {n k : Nat} {d : Nat → Nat → N} (hm : IsMatrix mat n d)
    (hd : Dissim n d) (hs : Sizes n k) {meds : List Nat} {data : List (Reco N)} {loss : L}
    (hb : pammedsilBuildInitialize L mat k = .ok (meds, data, loss)) :
    meds = greedyBuild (totalDev (conv : N → L) n d) 1 n k := by
  rw [(pmsBuild_eq hm hs).1] at hb
  have e : meds = (pmsBuildP L d n k).1 := by injection hb with hb; rw [hb]
  rw [e]
  exact pmsBuildP_greedy hd hs

/-- **C90, pammedsil.** -/
theorem C90_pammedsil {mat : Mat N} {n k : Nat} {d : Nat → Nat → N} (hm : IsMatrix mat n d)
    (hd : Dissim n d) (hs : Sizes n k) (maxiter : Nat)
    (hk : 2 ≤ (greedyBuild (totalDev (conv : N → L) n d) 1 n k).length) {r : SwapResult L}
    (hr : pammedsil L mat k maxiter = .ok r) :
    (r.med, r.nIter, r.nSwap) = steepRun (fun m => - medSil (conv : N → L) n d m) n maxiter
        (greedyBuild (totalDev (conv : N → L) n d) 1 n k) ∧
      r.loss = medSil (conv : N → L) n d r.med := by
  have hb : pammedsilBuildInitialize L mat k =
      .ok ((pmsBuildP L d n k).1, (pmsBuildP L d n k).2.1, (pmsBuildP L d n k).2.2) := (pmsBuild_eq hm hs).1
  obtain ⟨h1, h2, h3⟩ := C51_pammedsil hm hd hs maxiter hb
  have e := C90_pammedsil_build hm hd hs hb
  rw [h1] at hr
  rw [e] at hr h2 h3
  exact C90_pammedsil_swap hm hd h2 h3 hk maxiter hr

/-- **C90, stop and continue, pammedsil_swap.** -/
theorem C90_pammedsil_swap_resume {mat : Mat N} {n : Nat} {d : Nat → Nat → N} (hm : IsMatrix mat n d)
    (hd : Dissim n d) {med : List Nat} (hv : ValidMeds n med) (hnd : med.Nodup) (hk : 2 ≤ med.length)
    (a b : Nat) {r r1 r2 : SwapResult L} (hr : pammedsilSwap L mat med (a + b) = .ok r)
    (hr1 : pammedsilSwap L mat med a = .ok r1) (hr2 : pammedsilSwap L mat r1.med b = .ok r2) :
    r2.med = r.med ∧ r2.loss = r.loss ∧ r1.nSwap + r2.nSwap = r.nSwap ∧
      (r1.nIter + r2.nIter = r.nIter ∨ r1.nIter = r.nIter ∧ r2.nSwap = 0 ∧ r2.nIter = min b 1) := by
  obtain ⟨h1, h2⟩ := C90_pammedsil_swap hm hd hv hnd hk _ hr
  obtain ⟨g1, -⟩ := C90_pammedsil_swap hm hd hv hnd hk _ hr1
  have hwf : ValidMeds n r1.med ∧ r1.med.Nodup ∧ 2 ≤ r1.med.length := by
    obtain ⟨r', e, hw, -⟩ := C29_pammedsil_swap (L := L) hm hv hk a
    rw [hr1] at e
    cases e
    exact ⟨⟨by rw [hw.medLen]; exact hv.sizes, hw.medRange⟩,
      (pammedsil_swap_outcome hm hd hv hnd hk hr1).chain.nodup hnd, by rw [hw.medLen]; exact hk⟩
  obtain ⟨f1, f2⟩ := C90_pammedsil_swap hm hd hwf.1 hwf.2.1 hwf.2.2 _ hr2
  obtain ⟨e1, e2, e3⟩ := steepRun_add (fun m => - medSil (conv : N → L) n d m) n a b med
  rw [← h1, ← g1] at e1 e2 e3
  dsimp only at e1 e2 e3
  rw [← f1] at e1 e2 e3
  dsimp only at e1 e2 e3
  refine ⟨e1.symm, by rw [f2, h2, e1], by omega, ?_⟩
  rcases e3 with e3 | ⟨e3, e4⟩
  · exact Or.inl (by omega)
  · simp only [Prod.mk.injEq] at e4
    exact Or.inr ⟨e3.symm, e4.2, e4.1⟩

/-- **C90, stop and continue, fastmsc.** -/
theorem C90_fastmsc_resume [LawfulAdd N L] {mat : Mat N} {n : Nat} {d : Nat → Nat → N} (hm : IsMatrix mat n d)
    (hd : Dissim n d) {med : List Nat} (hv : ValidMeds n med) (hnd : med.Nodup) (hk : 2 ≤ med.length)
    (a b : Nat) {r r1 r2 : SwapResult L} (hr : fastmsc L mat med (a + b) = .ok r)
    (hr1 : fastmsc L mat med a = .ok r1) (hr2 : fastmsc L mat r1.med b = .ok r2) :
    r2.med = r.med ∧ r2.loss = r.loss ∧ r1.nSwap + r2.nSwap = r.nSwap ∧
      (r1.nIter + r2.nIter = r.nIter ∨ r1.nIter = r.nIter ∧ r2.nSwap = 0 ∧ r2.nIter = min b 1) := by
  obtain ⟨q, u1, u2, u3, u4, u5⟩ := fastmsc_pammedsil hm hd hv hnd _ hr
  obtain ⟨q1, v1, v2, v3, v4, v5⟩ := fastmsc_pammedsil hm hd hv hnd _ hr1
  have hwf : ValidMeds n r1.med ∧ r1.med.Nodup := by
    obtain ⟨r', e, hw, -⟩ := C29_pammedsil_swap (L := L) hm hv hk a
    rw [v1] at e
    cases e
    rw [v2]
    exact ⟨⟨by rw [hw.medLen]; exact hv.sizes, hw.medRange⟩,
      (pammedsil_swap_outcome hm hd hv hnd hk v1).chain.nodup hnd⟩
  obtain ⟨q2, w1, w2, w3, w4, w5⟩ := fastmsc_pammedsil hm hd hwf.1 hwf.2 _ hr2
  rw [v2] at w1
  rw [u2, u3, u4, u5, v4, v5, w2, w3, w4, w5]
  exact C90_pammedsil_swap_resume hm hd hv hnd hk a b u1 v1 w1

end msc

/-! ## Examples -/

/-- A run of three swaps, stopped after two and continued. In the first iteration from `[0, 1, 2]` the exchanges of
medoid 0 for object 4 and of medoid 2 for object 6 are equally good, and the former is taken. -/
example : IsMatrix (ofRows eagRows) 7 eagD ∧ Dissim 7 eagD ∧ ValidMeds 7 [0, 3, 5] ∧ [0, 3, 5].Nodup ∧
    pamSwap ℤ (ofRows eagRows) [0, 3, 5] 9 = .ok ⟨4, [1, 0, 2, 1, 1, 1, 1], 4, 3, [1, 4, 2]⟩ ∧
    fastpam1 ℤ (ofRows eagRows) [0, 3, 5] 9 = .ok ⟨4, [1, 0, 2, 1, 1, 1, 1], 4, 3, [1, 4, 2]⟩ ∧
    steepRun (totalDev (conv : ℕ → ℤ) 7 eagD) 7 9 [0, 3, 5] = ([1, 4, 2], 4, 3) ∧
    pamSwap ℤ (ofRows eagRows) [0, 3, 5] 2 = .ok ⟨5, [1, 0, 0, 1, 1, 2, 2], 2, 2, [1, 4, 5]⟩ ∧
    pamSwap ℤ (ofRows eagRows) [0, 1, 2] 9 = .ok ⟨4, [0, 1, 2, 0, 0, 0, 2], 2, 1, [4, 1, 2]⟩ ∧
    (neighbours 7 [0, 1, 2]).map (totalDev (conv : ℕ → ℤ) 7 eagD) = [8, 6, 6, 4, 5, 5, 7, 7, 8, 6, 5, 4] :=
  ⟨eag_isMatrix, eag_dissim, ⟨⟨by decide, by decide, by decide, by decide⟩, by decide⟩, by decide, by decide +kernel,
    by decide +kernel, by decide +kernel, by decide +kernel, by decide +kernel, by decide +kernel⟩

/-- BUILD, `pam`, and the silhouette variants. -/
example : Sizes 7 3 ∧ Sizes 6 3 ∧ greedyBuild (totalDev (conv : ℕ → ℤ) 6 exD) 0 6 3 = [2, 4, 5] ∧
    pam ℤ exMat 3 9 = .ok ⟨2, [0, 0, 0, 1, 1, 2], 2, 1, [0, 4, 5]⟩ ∧
    greedyBuild (totalDev (conv : ℕ → ℚ) 7 eagD) 1 7 3 = [4, 1, 2] ∧
    pammedsil ℚ (ofRows eagRows) 3 9 = .ok ⟨3 / 4, [2, 1, 1, 0, 0, 0, 0], 2, 1, [4, 1, 0]⟩ ∧
    pammedsilSwap ℚ (ofRows eagRows) [0, 3, 5] 9 = .ok ⟨3 / 4, [2, 0, 2, 1, 1, 1, 1], 4, 3, [1, 6, 2]⟩ ∧
    fastmsc ℚ (ofRows eagRows) [0, 3, 5] 9 = .ok ⟨3 / 4, [2, 0, 2, 1, 1, 1, 1], 4, 3, [1, 6, 2]⟩ ∧
    fastmsc ℚ (ofRows eagRows) [0, 3, 5] 1 = .ok ⟨2 / 3, [0, 1, 1, 1, 0, 2, 1], 1, 1, [0, 6, 5]⟩ ∧
    steepRun (fun m => - medSil (conv : ℕ → ℚ) 7 eagD m) 7 9 [0, 3, 5] = ([1, 6, 2], 4, 3) :=
  ⟨⟨by decide, by decide, by decide, by decide⟩, ⟨by decide, by decide, by decide, by decide⟩, by decide +kernel,
    by decide +kernel, by decide +kernel, by decide +kernel, by decide +kernel, by decide +kernel, by decide +kernel,
    by decide +kernel⟩

/-- **The labels are not part of the claim:** if several medoids are equally near, the continued run may assign an
object to another one than the uninterrupted run. -/
theorem C90_resume_labels_negation :
    ¬ ∀ (mat : Mat ℕ) (n : Nat) (d : Nat → Nat → ℕ) (med : List Nat) (a b : Nat) (r r1 r2 : SwapResult ℤ),
      IsMatrix mat n d → Dissim n d → Symm n d → ValidMeds n med → med.Nodup → 2 ≤ med.length →
      pamSwap ℤ mat med (a + b) = .ok r → pamSwap ℤ mat med a = .ok r1 → pamSwap ℤ mat r1.med b = .ok r2 →
      r2.assi = r.assi := by
  intro h
  have := h (ofRows eagRows) 7 eagD [0, 1, 2] 1 8 ⟨4, [0, 1, 2, 0, 0, 0, 2], 2, 1, [4, 1, 2]⟩
    ⟨4, [0, 1, 2, 0, 0, 0, 2], 1, 1, [4, 1, 2]⟩ ⟨4, [0, 1, 2, 0, 0, 0, 0], 1, 0, [4, 1, 2]⟩ eag_isMatrix eag_dissim
    (fun x y hx hy => by
      have : ∀ x < 7, ∀ y < 7, eagD x y = eagD y x := by decide +kernel
      exact this x hx y hy)
    ⟨⟨by decide, by decide, by decide, by decide⟩, by decide⟩ (by decide) (by decide) (by decide +kernel)
    (by decide +kernel) (by decide +kernel)
  revert this
  decide

end KMedoids
