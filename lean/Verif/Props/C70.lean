import Verif.Props.C69
import Verif.Props.C64
import Mathlib.Algebra.BigOperators.Ring.Finset

/-!
# C70: guarantees on the whole search space under rounding

With one medoid the returned object is a global optimum up to a rounding error (exact arithmetic: C18). With a metric, a
run that ends with a pass without exchange is at most five times the optimum, up to a rounding error (exact arithmetic:
C64); the triangle inequality may be violated by rounding, too.
-/

set_option linter.unusedSectionVars false
set_option linter.overlappingInstances false

namespace KMedoids

open RFrom (conv)

section exact
variable {N L : Type} [LinearOrder N] [Zero N] [RDist N] [LawfulDist N]
variable [AddCommGroup L] [LinearOrder L] [IsOrderedAddMonoid L] [RLoss L] [LawfulLoss L]
variable [RFrom N L] [LawfulFrom N L]

/-- **C18, par_fasterpam**, for every schedule. -/
theorem C18_par_fasterpam (sc0 : Sched) (scF scS : Nat → Nat → Sched) {mat : Mat N} {n : Nat} {d : Nat → Nat → N}
    (hm : IsMatrix mat n d) (hd : Dissim n d) {c : Nat} (hv : ValidMeds n [c]) (maxiter : Nat) (seq : List Nat)
    {r : SwapResult L} (hr : parFasterpam L sc0 scF scS mat [c] maxiter seq = .ok r) :
    ∃ c', c' < n ∧ r.med = [c'] ∧ r.loss = distSum (conv : N → L) n d c' ∧
      (∀ x, x < n → distSum (conv : N → L) n d c' ≤ distSum (conv : N → L) n d x) ∧
      r.assi = List.replicate n 0 ∧ r.nIter = 1 ∧ (r.nSwap = 1 ∧ c' ≠ c ∨ r.nSwap = 0 ∧ c' = c) :=
  C18_single hm hd hv maxiter seq (.inl (by rw [← hr]; simp [parFasterpam, randFasterpam]))

example : IsMatrix exMat 6 exD ∧ Dissim 6 exD ∧ ValidMeds 6 [5] ∧
    parFasterpam ℤ ⟨2, [1, 0], .leaf⟩ (fun _ _ => ⟨2, [1, 0], .leaf⟩) (fun _ _ => ⟨2, [0, 1], .leaf⟩) exMat [5] 9
      [0, 1, 2, 3, 4, 5] = .ok ⟨20, [0, 0, 0, 0, 0, 0], 1, 1, [2]⟩ :=
  ⟨exMat_isMatrix, exD_dissim, ex_valid (by decide) (by decide) (by decide), by decide +kernel⟩

end exact

variable {N L K : Type} [LinearOrder N] [Zero N] [RDist N] [LawfulDist N] [RLoss L] [RFrom N L]
  [Field K] [LinearOrder K] [IsStrictOrderedRing K]
variable {fin : L → Prop} {val : L → K} {u B : K}

/-! ## One medoid -/

/-- The medoid chosen within a partition has the smallest computed sum. -/
theorem chooseP_min (M : FloatLoss N fin val u B) (d : Nat → Nat → N) (assi : List Nat) (m first : Nat)
    (hf : ∀ p ∈ assi.zipIdx, p.1 = m → fin (partSumP L d assi m p.2)) (h0 : fin (partSumP L d assi m first)) :
    ∀ p ∈ assi.zipIdx, p.1 = m → val (chooseP L d assi m first).2 ≤ val (partSumP L d assi m p.2) := by
  suffices hg : ∀ xs : List (Nat × Nat), (∀ p ∈ xs, p.1 = m → fin (partSumP L d assi m p.2)) →
      let r := xs.foldl (fun (st : Nat × L) (p : Nat × Nat) =>
        if p.2 ≠ first ∧ p.1 = m then
          if rlt (partSumP L d assi m p.2) st.2 then (p.2, partSumP L d assi m p.2) else st
        else st) (first, partSumP L d assi m first)
      fin r.2 ∧ val r.2 ≤ val (partSumP L d assi m first) ∧
        ∀ p ∈ xs, p.1 = m → val r.2 ≤ val (partSumP L d assi m p.2) from (hg assi.zipIdx hf).2.2
  intro xs
  induction xs using List.reverseRecOn with
  | nil => intro _; exact ⟨h0, le_rfl, by simp⟩
  | append_singleton xs p ih =>
    intro hx
    obtain ⟨i1, i2, i3⟩ := ih fun q hq => hx q (by simp [hq])
    rw [List.foldl_append, List.foldl_cons, List.foldl_nil]
    generalize xs.foldl (fun (st : Nat × L) (p : Nat × Nat) =>
        if p.2 ≠ first ∧ p.1 = m then
          if rlt (partSumP L d assi m p.2) st.2 then (p.2, partSumP L d assi m p.2) else st
        else st) (first, partSumP L d assi m first) = r at *
    have hmem : ∀ v : K, v ≤ val r.2 → (p.1 = m → v ≤ val (partSumP L d assi m p.2)) →
        ∀ q ∈ xs ++ [p], q.1 = m → v ≤ val (partSumP L d assi m q.2) := fun v hv hv' q hq hqm => by
      rcases List.mem_append.mp hq with hq | hq
      · exact hv.trans (i3 q hq hqm)
      · rw [List.mem_singleton.mp hq] at hqm ⊢; exact hv' hqm
    dsimp only
    split
    · rename_i hc
      have hp := hx p (by simp) hc.2
      split
      · rename_i hlt
        have hlt := (M.std.rlt_iff hp i1).mp hlt
        exact ⟨hp, hlt.le.trans i2, hmem _ hlt.le fun _ => le_rfl⟩
      · rename_i hlt
        have hge := not_lt.mp fun h => hlt ((M.std.rlt_iff hp i1).mpr h)
        exact ⟨i1, i2, hmem _ le_rfl fun _ => hge⟩
    · rename_i hc
      refine ⟨i1, i2, hmem _ le_rfl fun hpm => ?_⟩
      have : p.2 = first := by by_contra h; exact hc ⟨h, hpm⟩
      rw [this]; exact i2

/-- No single medoid is better by more than a rounding error. -/
def NearlyBestSingle (val : L → K) (u : K) (n : Nat) (d : Nat → Nat → N) (med : List Nat) : Prop :=
  ∀ x < n, exactDev N val n d med ≤ exactDev N val n d [x] +
    ((1 + u) ^ (n - 1) - 1) * (exactDev N val n d med + exactDev N val n d [x])

theorem single_float (M : FloatLoss N fin val u B) {n : Nat} {d : Nat → Nat → N} (hd : Dissim n d) (hs : Symm n d)
    {c : Nat} (hc : c < n) (hB : ∀ x < n, (1 + u) ^ (n - 1) * exactDev N val n d [x] ≤ B)
    {mat : Mat N} (hm : IsMatrix mat n d) : NearlyBestSingle val u n d (singleP L d n c).med := by
  have hlt := (singleCluster_eq (L := L) hm hc).2
  have ha := fun x hx => appr_rowSum (val := val) M hd hs hx (hB x hx)
  have hz : ∀ p ∈ (List.replicate n 0).zipIdx, p.2 < n := fun p hp => by
    simpa using mem_zipIdx_lt hp
  have hmin := chooseP_min (val := val) M d (List.replicate n 0) 0 c
    (fun p hp _ => by rw [partSumP_rowSum]; exact (ha _ (hz p hp)).fin) (by rw [partSumP_rowSum]; exact (ha c hc).fin)
  rw [chooseP_sum, partSumP_rowSum] at hmin
  intro x hx
  have h1 := hmin (0, x) (List.mem_zipIdx_iff_getElem?.mpr (by simp [hx])) rfl
  rw [partSumP_rowSum] at h1
  have h2 := (abs_le.mp (ha _ hlt).err).1
  have h3 := (abs_le.mp (ha x hx).err).2
  show exactDev N val n d [_] ≤ _ + _ * (exactDev N val n d [_] + _)
  rw [mul_add]
  dsimp only at h1
  linarith

/-- **C70, one medoid**, every function of the PAM family. -/
theorem C70_single (M : FloatLoss N fin val u B) (sc0 : Sched) (scF scS : Nat → Nat → Sched) {mat : Mat N} {n : Nat}
    {d : Nat → Nat → N} (hm : IsMatrix mat n d) (hd : Dissim n d) (hs : Symm n d) {c : Nat} (hv : ValidMeds n [c])
    (hB : ∀ x < n, (1 + u) ^ (n - 1) * exactDev N val n d [x] ≤ B) (maxiter : Nat) (seq : List Nat) {r : SwapResult L}
    (hr : randFasterpam L mat [c] maxiter seq = .ok r ∨ fasterpam L mat [c] maxiter = .ok r ∨
      fastpam1 L mat [c] maxiter = .ok r ∨ pamSwap L mat [c] maxiter = .ok r ∨
      parFasterpam L sc0 scF scS mat [c] maxiter seq = .ok r) :
    NearlyBestSingle val u n d r.med := by
  have := M.saneZero
  have hs' := (singleCluster_eq (L := L) hm (hv.range c (by simp))).1
  have hr' : r = singleP L d n c := by
    rcases hr with h | h | h | h | h
    · simp only [randFasterpam, List.length_singleton, if_true, hs'] at h; cases h; rfl
    · simp only [fasterpam, List.length_singleton, if_true, hs'] at h; cases h; rfl
    · simp only [fastpam1, List.length_singleton, if_true, hs'] at h; cases h; rfl
    · rw [pamSwap_eq hm hv maxiter] at h; cases h; rfl
    · simp only [parFasterpam, List.length_singleton, if_true, hs'] at h; cases h; rfl
  subst hr'
  exact single_float M hd hs (hv.range c (by simp)) hB hm

/-! ## Factor five -/

open Finset in
/-- Adding up the exchange inequalities, each with an error `ε`, and an error `η` for each use of the triangle
inequality. -/
theorem five_of_swaps_err {n m k : ℕ} {ε η : K} (hη : 0 ≤ η)
    (s o : ℕ → K) (ho : ∀ i < n, 0 ≤ o i) (σ : ℕ → Fin k) (π : ℕ → Fin m) (τ : Fin m → Fin k)
    (hτ : ∀ b, #{q | τ q = b} ≤ 2)
    (hswap : ∀ q, -ε ≤ ∑ i ∈ range n, ((if π i = q then o i - s i else 0) +
      (if σ i = τ q then 2 * o i + 2 * η else 0))) :
    ∑ i ∈ range n, s i ≤ 5 * ∑ i ∈ range n, o i + (m * ε + n * (4 * η)) := by
  have h1 : ∑ q : Fin m, -ε ≤ ∑ q : Fin m, ∑ i ∈ range n,
      ((if π i = q then o i - s i else 0) + (if σ i = τ q then 2 * o i + 2 * η else 0)) :=
    sum_le_sum fun q _ => hswap q
  rw [sum_comm, sum_const, card_univ, Fintype.card_fin, nsmul_eq_mul] at h1
  have h2 : ∀ i ∈ range n, ∑ q : Fin m, ((if π i = q then o i - s i else 0) +
      (if σ i = τ q then 2 * o i + 2 * η else 0)) ≤ (5 * o i + 4 * η) - s i := by
    intro i hi
    have hoi := ho i (mem_range.mp hi)
    rw [sum_add_distrib, sum_ite_eq, if_pos (mem_univ _), ← sum_filter, sum_const, nsmul_eq_mul]
    have hc : #{q | σ i = τ q} ≤ 2 := by
      have := hτ (σ i)
      simpa [eq_comm] using this
    have hc' : (#{q | σ i = τ q} : K) ≤ 2 := by exact_mod_cast hc
    have h3 := mul_le_mul_of_nonneg_right hc' (show 0 ≤ 2 * o i + 2 * η by linarith)
    linarith
  have h4 := h1.trans (sum_le_sum h2)
  rw [sum_sub_distrib, sum_add_distrib, ← mul_sum, sum_const, card_range, nsmul_eq_mul] at h4
  linarith

/-- Symmetry, and the triangle inequality up to `η`. -/
structure NearMetric (val : L → K) (η : K) (n : Nat) (d : Nat → Nat → N) : Prop where
  nonneg : 0 ≤ η
  symm : Symm n d
  triangle : ∀ x y z, x < n → y < n → z < n →
    val (conv (d x z) : L) ≤ val (conv (d x y) : L) + val (conv (d y z) : L) + η

theorem exactDev_eq_sum (n : Nat) (d : Nat → Nat → N) (med : List Nat) :
    exactDev N val n d med = ∑ i ∈ Finset.range n, val (conv (minDist d i med) : L) := by
  unfold exactDev totalDev
  induction n with
  | zero => rfl
  | succ n ih => rw [List.range_succ, List.map_append, List.sum_append, ih, Finset.sum_range_succ]; simp

/-- **C70, near local optima.** -/
theorem C70_nearlyOptimal (M : FloatLoss N fin val u B) {n : Nat} {d : Nat → Nat → N} (hd : Dissim n d) {η ε : K}
    (hmet : NearMetric val η n d) {med : List Nat} (hr : ∀ c ∈ med, c < n)
    (hopt : ∀ b < med.length, ∀ j < n, exactDev N val n d med ≤ exactDev N val n d (med.set b j) + ε)
    {other : List Nat} (hne : other ≠ []) (hor : ∀ c ∈ other, c < n) (hk : other.length ≤ med.length) :
    exactDev N val n d med ≤ 5 * exactDev N val n d other + (other.length * ε + n * (4 * η)) := by
  have hpos : 0 < other.length := List.length_pos_of_ne_nil hne
  have h0 : med ≠ [] := List.ne_nil_of_length_pos (by omega)
  choose σ hσ using fun i => exists_nearest_pos d i h0
  choose π hπ using fun i => exists_nearest_pos d i hne
  obtain ⟨τ, hτ1, hτ2⟩ := exists_pairing hk fun q => σ other[q]
  have hmn : ∀ b : Fin med.length, med[b] < n := fun b => hr _ (List.getElem_mem b.2)
  have hon : ∀ q : Fin other.length, other[q] < n := fun q => hor _ (List.getElem_mem q.2)
  have honn : ∀ i, i < n → 0 ≤ val (conv (minDist d i other) : L) := fun i hi => by
    rw [hπ]; exact M.val_nonneg (hd.nonneg _ _ hi (hon _))
  have hη := hmet.nonneg
  have hsum := exactDev_eq_sum (val := val) n d
  rw [hsum med, hsum other]
  refine five_of_swaps_err hη _ _ honn σ π τ hτ2 fun q => ?_
  have h1 := hopt _ (τ q).2 _ (hon q)
  rw [hsum, hsum] at h1
  have h1' : -ε ≤ ∑ i ∈ Finset.range n, (val (conv (minDist d i (med.set (τ q) other[q])) : L) -
      val (conv (minDist d i med) : L)) := by
    rw [Finset.sum_sub_distrib]; linarith
  refine h1'.trans (Finset.sum_le_sum fun i hi => ?_)
  have hi := Finset.mem_range.mp hi
  have hset : med.set (τ q) other[q] ≠ [] := List.ne_nil_of_length_pos (by rw [List.length_set]; omega)
  have hle := (minDist_spec d i _ hset).2
  have h2o := honn i hi
  by_cases hq : π i = q
  · have : minDist d i (med.set (τ q) other[q]) ≤ minDist d i other := by
      rw [hπ i, hq]
      exact hle _ (List.mem_set (τ q).2 _)
    have h3 := M.conv_mono this
    rw [if_pos hq]
    split_ifs <;> linarith
  · rw [if_neg hq, zero_add]
    by_cases hb : σ i = τ q
    · rw [if_pos hb]
      have hne' : σ other[π i] ≠ τ q := fun e => hq (hτ1 q (π i) e)
      have hmem : med[σ other[π i]] ∈ med.set (τ q) other[q] :=
        mem_set_of_ne (σ other[π i]).2 (fun e => hne' (Fin.ext e)) _
      have hA := M.conv_mono (hle _ hmem)
      have hB := hmet.triangle i other[π i] med[σ other[π i]] hi (hon _) (hmn _)
      have hC : val (conv (d other[π i] med[σ other[π i]]) : L) ≤ val (conv (d other[π i] med[σ i]) : L) := by
        rw [← hσ]
        exact M.conv_mono ((minDist_spec d _ med h0).2 _ (List.getElem_mem (σ i).2))
      have hD := hmet.triangle other[π i] i med[σ i] (hon _) hi (hmn _)
      rw [hmet.symm _ _ (hon (π i)) hi] at hD
      rw [hσ i, hπ i]
      linarith
    · have hE : val (conv (minDist d i (med.set (τ q) other[q])) : L) ≤ val (conv (d i med[σ i]) : L) :=
        M.conv_mono (hle _ (mem_set_of_ne (σ i).2 (fun e => hb (Fin.ext e)) other[q]))
      rw [if_neg hb, hσ i]
      linarith

theorem NearlyOptimal.le_roundErr (M : FloatLoss N fin val u B) {n : Nat} {d : Nat → Nat → N} {W : K}
    (hW : AtMost val W n d) {e c : Nat} {med : List Nat} (hk : 2 ≤ med.length) (hr : ∀ c ∈ med, c < n)
    (h : NearlyOptimal val u e c n d med) :
    ∀ b < med.length, ∀ j < n, exactDev N val n d med ≤ exactDev N val n d (med.set b j) + roundErr u W e c n :=
  fun b hb j hj => by
    have h1 := h b hb j hj
    have h2 := M.std.one_le_pow e
    have h3 := mul_le_mul_of_nonneg_left (mul_le_mul_of_nonneg_left (exactDev_erase_le hW hk hr hb)
      (Nat.cast_nonneg c)) (show (0 : K) ≤ (1 + u) ^ e - 1 by linarith)
    unfold roundErr
    linarith

theorem changesFit_of (M : FloatLoss N fin val u B) {n : Nat} {d : Nat → Nat → N} {W : K}
    (hW : AtMost val W n d) {e c : Nat} {med : List Nat} (hk : 2 ≤ med.length) (hr : ∀ c ∈ med, c < n)
    (hB : (1 + u) ^ e * (c * (n * W)) ≤ B) : ChangesFit val u B e c n d med := fun b hb => by
  have h2 := M.std.one_le_pow e
  exact (mul_le_mul_of_nonneg_left (mul_le_mul_of_nonneg_left (exactDev_erase_le hW hk hr hb)
    (Nat.cast_nonneg c)) (by linarith)).trans hB

/-- **C70, FasterPAM** with any visiting order; `r0` is the result with one pass less, which made all exchanges. -/
theorem C70_rand_fasterpam (M : FloatLoss N fin val u B) {mat : Mat N} {n : Nat} {d : Nat → Nat → N}
    (hm : IsMatrix mat n d) (hd : Dissim n d) {W η : K} (hW : AtMost val W n d) (hmet : NearMetric val η n d)
    (hB : (1 + u) ^ (2 * n + 1) * (2 * (n * W)) ≤ B) {med : List Nat} (hv : ValidMeds n med) (hnd : med.Nodup)
    (hk : 2 ≤ med.length) (maxiter : Nat) {seq : List Nat} (hseq : seq.Perm (List.range n)) {r0 r : SwapResult L}
    (h0 : randFasterpam L mat med maxiter seq = .ok r0) (hr : randFasterpam L mat med (maxiter + 1) seq = .ok r)
    (hit : r.nIter = maxiter + 1) (hq : r.nSwap = r0.nSwap)
    {other : List Nat} (hne : other ≠ []) (hor : ∀ c ∈ other, c < n) (ho : other.length ≤ med.length) :
    exactDev N val n d r.med ≤ 5 * exactDev N val n d other +
      (other.length * roundErr u W (2 * n + 1) 2 n + n * (4 * η)) := by
  obtain ⟨r', hr', hw⟩ := C04_rand_fasterpam (L := L) hm hv (maxiter + 1) fun j hj => List.mem_range.mp (hseq.mem_iff.mp hj)
  rw [hr] at hr'; cases hr'
  have hl : r.med.length = med.length := hw.medLen
  have h := C67_rand_fasterpam M hm hd hv hnd hk maxiter hseq h0 hr hit hq
    (changesFit_of M hW (hk.trans hl.ge) hw.medRange (by simpa using hB))
  exact C70_nearlyOptimal M hd hmet hw.medRange (h.le_roundErr M hW (hk.trans hl.ge) hw.medRange) hne hor (hl ▸ ho)

/-- **C70, fasterpam.** -/
theorem C70_fasterpam (M : FloatLoss N fin val u B) {mat : Mat N} {n : Nat} {d : Nat → Nat → N}
    (hm : IsMatrix mat n d) (hd : Dissim n d) {W η : K} (hW : AtMost val W n d) (hmet : NearMetric val η n d)
    (hB : (1 + u) ^ (2 * n + 1) * (2 * (n * W)) ≤ B) {med : List Nat} (hv : ValidMeds n med) (hnd : med.Nodup)
    (hk : 2 ≤ med.length) (maxiter : Nat) {r0 r : SwapResult L}
    (h0 : fasterpam L mat med maxiter = .ok r0) (hr : fasterpam L mat med (maxiter + 1) = .ok r)
    (hit : r.nIter = maxiter + 1) (hq : r.nSwap = r0.nSwap)
    {other : List Nat} (hne : other ≠ []) (hor : ∀ c ∈ other, c < n) (ho : other.length ≤ med.length) :
    exactDev N val n d r.med ≤ 5 * exactDev N val n d other +
      (other.length * roundErr u W (2 * n + 1) 2 n + n * (4 * η)) := by
  rw [fasterpam_eq_rand, hm.len] at h0 hr
  exact C70_rand_fasterpam M hm hd hW hmet hB hv hnd hk maxiter (List.Perm.refl _) h0 hr hit hq hne hor ho

/-- **C70, fastpam1**; the last iteration made no exchange. -/
theorem C70_fastpam1 (M : FloatLoss N fin val u B) {mat : Mat N} {n : Nat} {d : Nat → Nat → N}
    (hm : IsMatrix mat n d) (hd : Dissim n d) {W η : K} (hW : AtMost val W n d) (hmet : NearMetric val η n d)
    (hB : (1 + u) ^ (2 * n + 1) * (2 * (n * W)) ≤ B) {med : List Nat} (hv : ValidMeds n med) (hnd : med.Nodup)
    (hk : 2 ≤ med.length) (maxiter : Nat) {r : SwapResult L} (hr : fastpam1 L mat med maxiter = .ok r)
    (hq : r.nSwap < r.nIter)
    {other : List Nat} (hne : other ≠ []) (hor : ∀ c ∈ other, c < n) (ho : other.length ≤ med.length) :
    exactDev N val n d r.med ≤ 5 * exactDev N val n d other +
      (other.length * roundErr u W (2 * n + 1) 2 n + n * (4 * η)) := by
  have := M.saneZero
  obtain ⟨r', hr', hw⟩ := C04_fastpam1 (L := L) hm hv maxiter
  rw [hr] at hr'; cases hr'
  have hl : r.med.length = med.length := hw.medLen
  have h := C67_fastpam1 M hm hd hv hnd hk maxiter hr hq
    (changesFit_of M hW (hk.trans hl.ge) hw.medRange (by simpa using hB))
  exact C70_nearlyOptimal M hd hmet hw.medRange (h.le_roundErr M hW (hk.trans hl.ge) hw.medRange) hne hor (hl ▸ ho)

/-- **C70, pam_swap.** -/
theorem C70_pam_swap (M : FloatLoss N fin val u B) {mat : Mat N} {n : Nat} {d : Nat → Nat → N}
    (hm : IsMatrix mat n d) (hd : Dissim n d) {W η : K} (hW : AtMost val W n d) (hmet : NearMetric val η n d)
    (hB : (1 + u) ^ (n + 1) * (n * W) ≤ B) {med : List Nat} (hv : ValidMeds n med) (hnd : med.Nodup)
    (hk : 2 ≤ med.length) (maxiter : Nat) {r : SwapResult L} (hr : pamSwap L mat med maxiter = .ok r)
    (hq : r.nSwap < r.nIter)
    {other : List Nat} (hne : other ≠ []) (hor : ∀ c ∈ other, c < n) (ho : other.length ≤ med.length) :
    exactDev N val n d r.med ≤ 5 * exactDev N val n d other +
      (other.length * roundErr u W (n + 1) 1 n + n * (4 * η)) := by
  have := M.saneZero
  obtain ⟨r', hr', hw⟩ := C04_pam_swap (L := L) hm hv maxiter
  rw [hr] at hr'; cases hr'
  have hl : r.med.length = med.length := hw.medLen
  have h := C67_pam_swap M hm hd hv hnd hk maxiter hr hq
    (changesFit_of M hW (hk.trans hl.ge) hw.medRange (by simpa using hB))
  exact C70_nearlyOptimal M hd hmet hw.medRange (h.le_roundErr M hW (hk.trans hl.ge) hw.medRange) hne hor (hl ▸ ho)

/-! ## Non-vacuity: points on a line, tenths, `f64` -/

theorem tenth_nearMetric : NearMetric (L := Ieee binary64) Ieee.val (1 / 10 ^ 15) 5 tenthD := by
  have hs : ∀ x < 5, ∀ y < 5, tenthD x y = tenthD y x := by decide +kernel
  have ht : ∀ x < 5, ∀ y < 5, ∀ z < 5, Ieee.val (conv (tenthD x z) : Ieee binary64) ≤
      Ieee.val (conv (tenthD x y) : Ieee binary64) + Ieee.val (conv (tenthD y z) : Ieee binary64) + 1 / 10 ^ 15 := by
    decide +kernel
  exact ⟨by norm_num, fun x y hx hy => hs x hx y hy, fun x y z hx hy hz => ht x hx y hy z hz⟩

theorem tenth_atMost : AtMost (L := Ieee binary64) Ieee.val (24 / 10) 5 tenthD := by
  have h : ∀ x < 5, ∀ y < 5, Ieee.val (conv (tenthD x y) : Ieee binary64) ≤ 24 / 10 := by decide +kernel
  exact fun x y hx hy => h x hx y hy

example : ∃ r, fasterpam (Ieee binary64) (ofRows (tenths tenthRows)) [0, 1] 2 = .ok r ∧
    ∀ other : List Nat, other ≠ [] → (∀ c ∈ other, c < 5) → other.length ≤ 2 →
      exactDev (L := Ieee binary64) (Finite binary64) Ieee.val 5 tenthD r.med ≤
        5 * exactDev (L := Ieee binary64) (Finite binary64) Ieee.val 5 tenthD other + 1 / 10 ^ 12 := by
  have h0 : fasterpam (Ieee binary64) (ofRows (tenths tenthRows)) [0, 1] 1 =
      .ok ⟨.num (3602879701896397 / 2251799813685248), [1, 1, 1, 1, 0], 1, 3, [4, 1]⟩ := by decide +kernel
  have hr : fasterpam (Ieee binary64) (ofRows (tenths tenthRows)) [0, 1] 2 =
      .ok ⟨.num (3602879701896397 / 2251799813685248), [1, 1, 1, 1, 0], 2, 3, [4, 1]⟩ := by decide +kernel
  refine ⟨_, hr, fun other hne hor hk => ?_⟩
  have h := C70_fasterpam (ieee_floatLoss binary64) tenth_isMatrix tenth_dissim tenth_atMost tenth_nearMetric
    (by decide +kernel) tenth_valid (by decide) (by decide) 1 h0 hr rfl rfl hne hor hk
  have h2 : (other.length : ℚ) ≤ 2 := by exact_mod_cast hk
  have h3 : roundErr (1 / 2 ^ 53) (24 / 10 : ℚ) 11 2 5 ≤ 1 / 10 ^ 13 := by decide +kernel
  have h4 : (0 : ℚ) ≤ roundErr (1 / 2 ^ 53) (24 / 10) 11 2 5 := by decide +kernel
  have h5 := mul_le_mul h2 h3 h4 (by norm_num)
  refine h.trans ?_
  have h6 : (other.length : ℚ) * roundErr (1 / 2 ^ binary64.p) (24 / 10) (2 * 5 + 1) 2 5 +
      ((5 : ℕ) : ℚ) * (4 * (1 / 10 ^ 15)) ≤ 1 / 10 ^ 12 := by
    refine le_trans (add_le_add_left h5 _) ?_
    norm_num
  linarith

example : ∃ r, pamSwap (Ieee binary64) (ofRows (tenths tenthRows)) [3] 9 = .ok r ∧ r.med = [2] ∧
    NearlyBestSingle (L := Ieee binary64) Ieee.val (1 / 2 ^ 53) 5 tenthD r.med := by
  have hr : pamSwap (Ieee binary64) (ofRows (tenths tenthRows)) [3] 9 =
      .ok ⟨.num (3602879701896397 / 1125899906842624), [0, 0, 0, 0, 0], 1, 1, [2]⟩ := by decide +kernel
  exact ⟨_, hr, rfl, C70_single (ieee_floatLoss binary64) ⟨2, [1, 0], .leaf⟩ (fun _ _ => ⟨2, [1, 0], .leaf⟩)
    (fun _ _ => ⟨2, [1, 0], .leaf⟩) tenth_isMatrix tenth_dissim tenth_nearMetric.symm
    ⟨⟨by decide, by decide, by decide, by decide⟩, by decide⟩ (by decide +kernel) 9 [] (.inr (.inr (.inr (.inl hr))))⟩

end KMedoids
