import Verif.Props.C62
import Verif.Props.C52
import Verif.Proofs.Approx

/-!
# C64: a converged result of the PAM family is at most five times the optimum

For distances that satisfy the triangle inequality, every local optimum under exchanges of one medoid has at most five
times the total deviation of the best set of at most `k` medoids (Arya et al., Local search heuristics for k-median and
facility location problems). Hence so does every converged result of FasterPAM, PAM and FastPAM1. There is no such
factor for `alternating`, nor without the triangle inequality.
-/

set_option linter.unusedSectionVars false
set_option linter.overlappingInstances false

namespace KMedoids

open RFrom (conv)

section
variable {N L : Type} [LinearOrder N] [Zero N] [RDist N] [LawfulDist N]
variable [AddCommGroup L] [LinearOrder L] [IsOrderedAddMonoid L] [RLoss L] [LawfulLoss L]
variable [RFrom N L] [LawfulFrom N L]

/-- Symmetry and the triangle inequality, the latter in the loss type. -/
structure IsMetric (conv : N → L) (n : Nat) (d : Nat → Nat → N) : Prop where
  symm : Symm n d
  triangle : ∀ x y z, x < n → y < n → z < n → conv (d x z) ≤ conv (d x y) + conv (d y z)

theorem totalDev_eq_sum (cv : N → L) (n : Nat) (d : Nat → Nat → N) (med : List Nat) :
    totalDev cv n d med = ∑ i ∈ Finset.range n, cv (minDist d i med) := by
  unfold totalDev
  induction n with
  | zero => rfl
  | succ n ih => rw [List.range_succ, List.map_append, List.sum_append, ih, Finset.sum_range_succ]; simp

/-- Position of a nearest medoid. -/
theorem exists_nearest_pos (d : Nat → Nat → N) (o : Nat) {med : List Nat} (h : med ≠ []) :
    ∃ b : Fin med.length, minDist d o med = d o med[b] := by
  obtain ⟨⟨c, hc, e⟩, -⟩ := minDist_spec d o med h
  obtain ⟨b, hb, rfl⟩ := List.getElem_of_mem hc
  exact ⟨⟨b, hb⟩, e⟩

theorem mem_set_of_ne {med : List Nat} {b a : Nat} (ha : a < med.length) (hab : a ≠ b) (j : Nat) :
    med[a] ∈ med.set b j := by
  refine List.mem_iff_getElem?.mpr ⟨a, ?_⟩
  rw [List.getElem?_set_ne (Ne.symm hab), List.getElem?_eq_getElem ha]

/-- Exchanging a medoid for one that is a medoid already does not help either. -/
theorem SwapOptimal.le_set {n : Nat} {d : Nat → Nat → N} {med : List Nat}
    (h : SwapOptimal (conv : N → L) n d med) {b j : Nat} (hb : b < med.length) (hj : j < n) :
    totalDev (conv : N → L) n d med ≤ totalDev (conv : N → L) n d (med.set b j) := by
  by_cases hjm : j ∈ med
  · rw [totalDev_eq_sum, totalDev_eq_sum]
    refine Finset.sum_le_sum fun i _ => (LawfulFrom.strictMono (N := N) (L := L)).monotone ?_
    have hne : med.set b j ≠ [] := List.ne_nil_of_length_pos (by rw [List.length_set]; omega)
    obtain ⟨⟨c, hc, e⟩, -⟩ := minDist_spec d i (med.set b j) hne
    rw [e]
    refine (minDist_spec d i med (List.ne_nil_of_length_pos (by omega))).2 c ?_
    rcases List.mem_or_eq_of_mem_set hc with h' | rfl
    · exact h'
    · exact hjm
  · exact h b j hb hj hjm

/-- Any other at most `k` medoids can be exchanged in, one at a time, such that the changes add up to at most five times
their total deviation minus the present one. -/
theorem exchange_sum {n : Nat} {d : Nat → Nat → N} (hd : Dissim n d) (hmet : IsMetric (conv : N → L) n d)
    {med : List Nat} (hr : ∀ c ∈ med, c < n)
    {other : List Nat} (hne : other ≠ []) (hor : ∀ c ∈ other, c < n) (hk : other.length ≤ med.length) :
    ∃ τ : Fin other.length → Fin med.length,
      ∑ q, (totalDev (conv : N → L) n d (med.set (τ q) other[q]) - totalDev (conv : N → L) n d med) ≤
        5 • totalDev (conv : N → L) n d other - totalDev (conv : N → L) n d med := by
  have hpos : 0 < other.length := List.length_pos_of_ne_nil hne
  have h0 : med ≠ [] := List.ne_nil_of_length_pos (by omega)
  have hmono := (LawfulFrom.strictMono (N := N) (L := L)).monotone
  choose σ hσ using fun i => exists_nearest_pos d i h0
  choose π hπ using fun i => exists_nearest_pos d i hne
  obtain ⟨τ, hτ1, hτ2⟩ := exists_pairing hk fun q => σ other[q]
  have hmn : ∀ b : Fin med.length, med[b] < n := fun b => hr _ (List.getElem_mem b.2)
  have hon : ∀ q : Fin other.length, other[q] < n := fun q => hor _ (List.getElem_mem q.2)
  have honn : ∀ i, i < n → (0 : L) ≤ conv (minDist d i other) := fun i hi => by
    rw [hπ, ← LawfulFrom.map_zero (N := N) (L := L)]
    exact hmono (hd.nonneg _ _ hi (hon _))
  refine ⟨τ, ?_⟩
  rw [totalDev_eq_sum _ _ _ other, totalDev_eq_sum _ _ _ med]
  refine (Finset.sum_le_sum fun q _ => ?_).trans (sum_swaps_le _ _ honn σ π τ hτ2)
  rw [totalDev_eq_sum, ← Finset.sum_sub_distrib]
  refine Finset.sum_le_sum fun i hi => ?_
  have hi := Finset.mem_range.mp hi
  have hset : med.set (τ q) other[q] ≠ [] := List.ne_nil_of_length_pos (by rw [List.length_set]; omega)
  have hle := (minDist_spec d i _ hset).2
  have h2o : (0 : L) ≤ 2 • conv (minDist d i other) := nsmul_nonneg (honn i hi) 2
  by_cases hq : π i = q
  · -- the object moves to the new medoid
    have : minDist d i (med.set (τ q) other[q]) ≤ minDist d i other := by
      rw [hπ i, hq]
      exact hle _ (List.mem_set (τ q).2 _)
    rw [if_pos hq]
    calc conv (minDist d i (med.set (τ q) other[q])) - conv (minDist d i med)
        ≤ conv (minDist d i other) - conv (minDist d i med) := sub_le_sub_right (hmono this) _
      _ ≤ _ := le_add_of_nonneg_right (by split_ifs <;> [exact h2o; exact le_rfl])
  · rw [if_neg hq, zero_add, sub_le_iff_le_add]
    by_cases hb : σ i = τ q
    · -- its medoid left: it moves to the medoid closest to its medoid in the other solution
      rw [if_pos hb]
      have hne' : σ other[π i] ≠ τ q := fun e => hq (hτ1 q (π i) e)
      have hmem : med[σ other[π i]] ∈ med.set (τ q) other[q] :=
        mem_set_of_ne (σ other[π i]).2 (fun e => hne' (Fin.ext e)) _
      have hA : conv (minDist d i (med.set (τ q) other[q])) ≤ (conv (d i med[σ other[π i]]) : L) :=
        hmono (hle _ hmem)
      have hB := hmet.triangle i other[π i] med[σ other[π i]] hi (hon _) (hmn _)
      have hC : (conv (d other[π i] med[σ other[π i]]) : L) ≤ conv (d other[π i] med[σ i]) := by
        rw [← hσ]
        exact hmono ((minDist_spec d _ med h0).2 _ (List.getElem_mem (σ i).2))
      have hD := hmet.triangle other[π i] i med[σ i] (hon _) hi (hmn _)
      rw [hmet.symm _ _ (hon (π i)) hi] at hD
      rw [hσ i, hπ i] at *
      calc conv (minDist d i (med.set (τ q) other[q]))
          ≤ conv (d i other[π i]) + (conv (d i other[π i]) + conv (d i med[σ i])) :=
            hA.trans (hB.trans (add_le_add_right (hC.trans hD) _))
        _ = 2 • conv (d i other[π i]) + conv (d i med[σ i]) := by rw [two_nsmul, add_assoc]
    · -- its medoid stays
      rw [if_neg hb, zero_add, hσ i]
      exact hmono (hle _ (mem_set_of_ne (σ i).2 (fun e => hb (Fin.ext e)) _))

/-- **C64, local optima.** With the triangle inequality, a local optimum has at most five times the total deviation of
any set of at most as many medoids. -/
theorem C64_swapOptimal {n : Nat} {d : Nat → Nat → N} (hd : Dissim n d) (hmet : IsMetric (conv : N → L) n d)
    {med : List Nat} (hr : ∀ c ∈ med, c < n) (hopt : SwapOptimal (conv : N → L) n d med)
    {other : List Nat} (hne : other ≠ []) (hor : ∀ c ∈ other, c < n) (hk : other.length ≤ med.length) :
    totalDev (conv : N → L) n d med ≤ 5 • totalDev (conv : N → L) n d other := by
  obtain ⟨τ, h⟩ := exchange_sum hd hmet hr hne hor hk
  refine sub_nonneg.mp (le_trans (Finset.sum_nonneg fun q _ => ?_) h)
  exact sub_nonneg.mpr (hopt.le_set (τ q).2 (hor _ (List.getElem_mem q.2)))

/-- **C64, PAM family.** A converged run of FasterPAM (any order of the objects), PAM or FastPAM1 from any `k` distinct
medoids: the reported loss is at most five times the total deviation of any at most `k` medoids. -/
theorem C64_pam_family {mat : Mat N} {n : Nat} {d : Nat → Nat → N} (hm : IsMatrix mat n d) (hd : Dissim n d)
    (hmet : IsMetric (conv : N → L) n d) {med : List Nat} (hv : ValidMeds n med) (hnd : med.Nodup)
    {maxiter : Nat} {r : SwapResult L} (hr : IsPamRun mat n med maxiter r) (hlt : r.nIter < maxiter)
    {other : List Nat} (hne : other ≠ []) (hor : ∀ c ∈ other, c < n) (hk : other.length ≤ med.length) :
    r.loss ≤ 5 • totalDev (conv : N → L) n d other := by
  have h := hr.outcome hm hd hv hnd fun _ => hmet.symm
  rw [h.loss]
  exact C64_swapOptimal hd hmet (h.chain.range hv.range) (h.opt hlt) hne hor (h.chain.length ▸ hk)

/-- **C64, parallel FasterPAM**, for every schedule of the workers. -/
theorem C64_par_fasterpam (sc0 : Sched) {scF scS : Nat → Nat → Sched} (hF : ∀ i j, (scF i j).Ok) {mat : Mat N}
    {n : Nat} {d : Nat → Nat → N} (hm : IsMatrix mat n d) (hd : Dissim n d) (hmet : IsMetric (conv : N → L) n d)
    {med : List Nat} (hv : ValidMeds n med) (hnd : med.Nodup) {maxiter : Nat} {seq : List Nat}
    (hseq : seq.Perm (List.range n)) {r : SwapResult L}
    (hr : parFasterpam L sc0 scF scS mat med maxiter seq = .ok r) (hlt : r.nIter < maxiter)
    {other : List Nat} (hne : other ≠ []) (hor : ∀ c ∈ other, c < n) (hk : other.length ≤ med.length) :
    r.loss ≤ 5 • totalDev (conv : N → L) n d other := by
  obtain ⟨h1, h2, -, h4⟩ := C52_exact sc0 hF hm hd hv hnd (fun _ => hmet.symm) maxiter hseq hr
  rw [h1]
  exact C64_swapOptimal hd hmet (h2.range hv.range) (h4 hlt) hne hor (h2.length ▸ hk)

/-- **C64, PAM with BUILD.** A converged run of `pam` for `k` clusters, also when BUILD returns fewer than `k` medoids. -/
theorem C64_pam {mat : Mat N} {n k : Nat} {d : Nat → Nat → N} (hm : IsMatrix mat n d) (hd : Dissim n d)
    (hmet : IsMetric (conv : N → L) n d) (hs : Sizes n k) {maxiter : Nat} {r : SwapResult L}
    (hr : pam L mat k maxiter = .ok r) (hlt : r.nIter < maxiter)
    {other : List Nat} (hne : other ≠ []) (hor : ∀ c ∈ other, c < n) (hk : other.length ≤ k) :
    r.loss ≤ 5 • totalDev (conv : N → L) n d other := by
  have hb := pamBuild_eq (L := L) hm hs
  obtain ⟨a1, a2, a3, a4, -, a6⟩ := C19_pam_build hm hd hs hb
  obtain ⟨h20, -⟩ := C20_pam_build hm hd hs hb
  obtain ⟨e, r', e', hle⟩ := C22_pam hm hd hs maxiter hb
  rw [e'] at hr
  cases hr
  rw [e] at e'
  have hv : ValidMeds n (pamBuildP L d n k).med := ⟨⟨a1, a2.trans hs.le, hs.n_le, lt_of_le_of_lt a2 hs.k_lt⟩, a4⟩
  have h := pam_swap_outcome hm hd hv a3 (fun _ => hmet.symm) maxiter e'
  by_cases hkk : (pamBuildP L d n k).med.length < k
  · have h0 : (0 : L) ≤ 5 • totalDev (conv : N → L) n d other := by
      rw [totalDev_eq_sum]
      refine nsmul_nonneg (Finset.sum_nonneg fun i hi => ?_) 5
      obtain ⟨⟨c, hc, e⟩, -⟩ := minDist_spec d i other hne
      rw [e, ← LawfulFrom.map_zero (N := N) (L := L)]
      exact (LawfulFrom.strictMono (N := N) (L := L)).monotone
        (hd.nonneg _ _ (Finset.mem_range.mp hi) (hor c hc))
    exact ((hle fun _ => hmet.symm).trans (a6.trans (h20 hkk)).le).trans h0
  · rw [h.loss]
    refine C64_swapOptimal hd hmet (h.chain.range hv.range) (h.opt hlt) hne hor ?_
    rw [h.chain.length]; omega

end

/-! ## no such factor for `alternating`; the triangle inequality is needed -/

theorem lineMat_isMatrix (ps : List ℕ) : IsMatrix (lineMat ps) ps.length (lineD ps) := by
  refine ⟨by simp [lineMat, ofRows, Array2.toMat], by simp [lineMat, ofRows, Array2.toMat], fun x y hx hy => ?_⟩
  simp [lineMat, ofRows, Array2.toMat, hx, hy, lineD]

theorem lineD_dissim (ps : List ℕ) (n : Nat) : Dissim n (lineD ps) :=
  ⟨fun x _ => by simp [lineD], fun _ _ _ _ => Nat.zero_le _⟩

theorem lineD_metric (ps : List ℕ) (n : Nat) : IsMetric (conv : ℕ → ℤ) n (lineD ps) := by
  refine ⟨fun x y _ _ => Nat.add_comm _ _, fun x y z _ _ _ => ?_⟩
  show (lineD ps x z : ℤ) ≤ (lineD ps x y : ℤ) + (lineD ps y z : ℤ)
  unfold lineD
  omega

/-- Four points on a line: two close together, each with its own medoid, and two far apart that share the third. -/
def farLine (D : ℕ) : List ℕ := [0, 1, 10, 11 + D]

theorem farLine_alternating (D : ℕ) :
    alternating ℤ (lineMat (farLine D)) [0, 1, 2] 9 = .ok ⟨D + 1, [0, 1, 2, 2], 1, [0, 1, 2]⟩ := by
  rw [(alternating_eq (L := ℤ) (n := 4) (lineMat_isMatrix (farLine D))
    ⟨⟨by decide, by decide, by decide, by decide⟩, by decide⟩ 9).1]
  have e00 : lineD (farLine D) 0 0 = 0 := by simp [lineD]
  have e01 : lineD (farLine D) 0 1 = 1 := by simp [lineD, farLine]
  have e02 : lineD (farLine D) 0 2 = 10 := by simp [lineD, farLine]
  have e10 : lineD (farLine D) 1 0 = 1 := by simp [lineD, farLine]
  have e11 : lineD (farLine D) 1 1 = 0 := by simp [lineD]
  have e12 : lineD (farLine D) 1 2 = 9 := by simp [lineD, farLine]
  have e20 : lineD (farLine D) 2 0 = 10 := by simp [lineD, farLine]
  have e21 : lineD (farLine D) 2 1 = 9 := by simp [lineD, farLine]
  have e22 : lineD (farLine D) 2 2 = 0 := by simp [lineD]
  have e30 : lineD (farLine D) 3 0 = D + 11 := by simp [lineD, farLine]; omega
  have e31 : lineD (farLine D) 3 1 = D + 10 := by simp [lineD, farLine]; omega
  have e32 : lineD (farLine D) 3 2 = D + 1 := by simp [lineD, farLine]; omega
  have e23 : lineD (farLine D) 2 3 = D + 1 := by simp [lineD, farLine]; omega
  have r4 : List.range 4 = [0, 1, 2, 3] := rfl
  have hA : nearAssiP (lineD (farLine D)) 4 [0, 1, 2] = [0, 1, 2, 2] := by
    simp [nearAssiP, nearRecP, rltN, r4, e00, e01, e02, e10, e11, e12, e20, e21, e22, e30, e31, e32]
  have hL : nearAssiLossP ℤ (lineD (farLine D)) 4 [0, 1, 2] = D + 1 := by
    simp [nearAssiLossP, nearRecP, rltN, r4, e00, e01, e02, e10, e11, e12, e20, e21, e22, e30, e31, e32, sumP, reduceAdd]
    show (0 : ℤ) + 0 + 0 + ((D + 1 : ℕ) : ℤ) = D + 1
    push_cast
    omega
  have hU : altUpdateP ℤ (lineD (farLine D)) [0, 1, 2, 2] [0, 1, 2] = (false, [0, 1, 2]) := by
    have r3 : List.range 3 = [0, 1, 2] := rfl
    simp [altUpdateP, chooseP, partSumP, r3, e23, e32, rltL]
  simp only [altP, altLoopP, hA, hL, hU]
  rfl

/-- **C64 is false for `alternating`.** For every factor `c` there are four distinct points on a line, and three initial
medoids, where `alternating` converges to more than `c` times the total deviation of three other medoids. -/
theorem C64_alternating_fails (c : ℕ) :
    ∃ (ps med other : List ℕ) (r : AltResult ℤ), ps.Nodup ∧ ps.length = 4 ∧
      IsMatrix (lineMat ps) 4 (lineD ps) ∧ IsMetric (conv : ℕ → ℤ) 4 (lineD ps) ∧
      ValidMeds 4 med ∧ med.Nodup ∧ other.length = med.length ∧ (∀ x ∈ other, x < 4) ∧
      alternating ℤ (lineMat ps) med 9 = .ok r ∧ r.nIter < 9 ∧ 0 < totalDev (conv : ℕ → ℤ) 4 (lineD ps) other ∧
      c • totalDev (conv : ℕ → ℤ) 4 (lineD ps) other < r.loss := by
  have hT : totalDev (conv : ℕ → ℤ) 4 (lineD (farLine c)) [0, 2, 3] = 1 := by
    have r4 : List.range 4 = [0, 1, 2, 3] := rfl
    simp [totalDev, minDist, r4, lineD, farLine]
    have : min 1 (min 9 (1 - (11 + c) + (10 + c))) = 1 := by omega
    rw [this]
    rfl
  refine ⟨farLine c, [0, 1, 2], [0, 2, 3], _, ?_, rfl, lineMat_isMatrix _, lineD_metric _ _,
    ⟨⟨by decide, by decide, by decide, by decide⟩, by decide⟩, by decide, rfl, by decide, farLine_alternating c,
    (by show 1 < 9; decide), by rw [hT]; decide, ?_⟩
  · simp [farLine]; omega
  · rw [hT]
    show c • (1 : ℤ) < c + 1
    simp

/-- A symmetric matrix without the triangle inequality. -/
def nontriRows : List (List ℕ) :=
  [[0, 1, 1, 1, 100, 0, 1000, 0, 1000], [1, 0, 1, 1000, 100, 1000, 0, 1000, 0],
    [1, 1, 0, 1000, 0, 1000, 1000, 1, 1], [1, 1000, 1000, 0, 1000, 1, 1, 1000, 1000],
    [100, 100, 0, 1000, 0, 1000, 1000, 1000, 1000], [0, 1000, 1000, 1, 1000, 0, 1000, 1000, 1000],
    [1000, 0, 1000, 1, 1000, 1000, 0, 1000, 1000], [0, 1000, 1, 1000, 1000, 1000, 1000, 0, 1000],
    [1000, 0, 1, 1000, 1000, 1000, 1000, 1000, 0]]

def nontriD (x y : Nat) : ℕ := (nontriRows.getD x []).getD y 0

/-- Without the triangle inequality a converged run can be more than five times worse (here seventeen times): the
hypothesis cannot be dropped. -/
theorem C64_needs_triangle :
    IsMatrix (ofRows nontriRows) 9 nontriD ∧ Dissim 9 nontriD ∧ Symm 9 nontriD ∧
      fasterpam ℤ (ofRows nontriRows) [0, 1] 9 = .ok ⟨102, [0, 1, 0, 0, 0, 0, 1, 0, 1], 1, 0, [0, 1]⟩ ∧
      totalDev (conv : ℕ → ℤ) 9 nontriD [2, 3] = 6 := by
  refine ⟨⟨rfl, rfl, fun x y hx hy => ?_⟩, ⟨by decide, fun _ _ _ _ => Nat.zero_le _⟩, fun x y hx hy => ?_,
    by decide +kernel, by decide +kernel⟩
  · have : ∀ x < 9, ∀ y < 9, (ofRows nontriRows).get x y = .ok (nontriD x y) := by decide +kernel
    exact this x hx y hy
  · have : ∀ x < 9, ∀ y < 9, nontriD x y = nontriD y x := by decide +kernel
    exact this x hx y hy

/-- The factor cannot be replaced by 1: six points on a line where the three functions stop at 7, and two other medoids
have total deviation 4. The hypotheses of C64 are met. -/
theorem C64_not_optimal :
    IsMatrix (lineMat [1, 2, 3, 3, 4, 8]) 6 (lineD [1, 2, 3, 3, 4, 8]) ∧ Dissim 6 (lineD [1, 2, 3, 3, 4, 8]) ∧
      IsMetric (conv : ℕ → ℤ) 6 (lineD [1, 2, 3, 3, 4, 8]) ∧ ValidMeds 6 [0, 4] ∧ [0, 4].Nodup ∧
      fasterpam ℤ (lineMat [1, 2, 3, 3, 4, 8]) [0, 4] 9 = .ok ⟨7, [0, 0, 1, 1, 1, 1], 1, 0, [0, 4]⟩ ∧
      pamSwap ℤ (lineMat [1, 2, 3, 3, 4, 8]) [0, 4] 9 = .ok ⟨7, [0, 0, 1, 1, 1, 1], 1, 0, [0, 4]⟩ ∧
      fastpam1 ℤ (lineMat [1, 2, 3, 3, 4, 8]) [0, 4] 9 = .ok ⟨7, [0, 0, 1, 1, 1, 1], 1, 0, [0, 4]⟩ ∧
      totalDev (conv : ℕ → ℤ) 6 (lineD [1, 2, 3, 3, 4, 8]) [2, 5] = 4 :=
  ⟨lineMat_isMatrix _, lineD_dissim _ _, lineD_metric _ _, ⟨⟨by decide, by decide, by decide, by decide⟩, by decide⟩,
    by decide, by decide +kernel, by decide +kernel, by decide +kernel, by decide +kernel⟩

/-- The hypotheses of `C64_pam` are met: BUILD and SWAP reach the optimum here. -/
example : Sizes 6 2 ∧ ∃ r : SwapResult ℤ, pam ℤ (lineMat [1, 2, 3, 3, 4, 8]) 2 9 = .ok r ∧ r.nIter < 9 ∧ r.loss = 4 :=
  ⟨⟨by decide, by decide, by decide, by decide⟩, _, rfl, by decide +kernel, by decide +kernel⟩

/-- The hypotheses of `C64_par_fasterpam` are met: two workers, the second one merges first. -/
example : (⟨2, [1, 0], .leaf⟩ : Sched).Ok ∧ [5, 3, 1, 0, 2, 4].Perm (List.range 6) ∧
    parFasterpam ℤ ⟨2, [1, 0], .leaf⟩ (fun _ _ => ⟨2, [1, 0], .leaf⟩) (fun _ _ => ⟨2, [1, 0], .leaf⟩)
      (lineMat [1, 2, 3, 3, 4, 8]) [0, 4] 9 [5, 3, 1, 0, 2, 4] = .ok ⟨7, [0, 0, 1, 1, 1, 1], 1, 0, [0, 4]⟩ :=
  ⟨⟨by decide, by decide⟩, by decide, by decide +kernel⟩

end KMedoids
