import Verif.Proofs.Eager
import Verif.Props.C17
import Verif.Props.C87

/-!
# C89: FasterPAM and FasterMSC are the eager local search

Whole runs in exact arithmetic. `eagerRun` (`Proofs/Eager.lean`) is the textbook description: no cache of
nearest medoids, no table of removal losses, no early end of a pass, objective computed from scratch. Medoids
(with their order), number of iterations and number of swaps of `fasterpam`, `rand_fasterpam`,
`par_fasterpam` (every schedule) and `fastermsc` are those of `eagerRun`.

Consequences: renumbering the objects together with the visiting order changes nothing, also with ties (so
shuffling as in `rand_fasterpam` is the same as permuting the matrix); a run can be stopped and continued from
its medoids.
-/

set_option linter.unusedSectionVars false

namespace KMedoids

open RFrom (conv)

/-! ## FasterPAM -/

section pam

variable {N L : Type} [LinearOrder N] [Zero N] [RDist N] [LawfulDist N]
variable [AddCommGroup L] [LinearOrder L] [IsOrderedAddMonoid L] [RLoss L] [LawfulLoss L]
variable [RFrom N L] [LawfulFrom N L]

/-- One candidate of FasterPAM, in the form of the generic loops. -/
def fpCandE (d : Nat → Nat → N) (s : FPState N L) (j : Nat) : Option (FPState N L) :=
  if ownP s.med s.data j then none
  else if rge (fbsP d s.rem s.data j).1 RLoss.zero then none
  else some (fpSwapP d s (fbsP d s.rem s.data j).2 j)

theorem fpPassP_eagerPass (d : Nat → Nat → N) (js : List Nat) (s : FPState N L) :
    fpPassP d js s = passG (·.lastswap) (fpCandE d) js s := by
  induction js generalizing s with
  | nil => rfl
  | cons j js ih =>
    unfold fpPassP passG fpCandE
    by_cases h1 : j = s.lastswap
    · rw [if_pos h1, if_pos h1]
    · rw [if_neg h1, if_neg h1]
      by_cases h2 : ownP s.med s.data j = true
      · rw [if_pos h2, if_pos h2]; exact ih s
      · rw [if_neg h2, if_neg h2]
        by_cases h3 : rge (fbsP d s.rem s.data j).1 RLoss.zero = true
        · simp only [h3, if_true]; exact ih s
        · simp only [h3, if_false, Bool.false_eq_true]; exact ih _

theorem fpLoopP_eagerLoop (d : Nat → Nat → N) (seq : List Nat) (fuel iter : Nat) (s : FPState N L) :
    fpLoopP d seq fuel iter s =
      loopG (passG (·.lastswap) (fpCandE d) seq) (·.nSwaps) (·.loss) fuel iter s := by
  induction fuel generalizing iter s with
  | zero => rfl
  | succ fuel ih =>
    unfold fpLoopP loopG
    simp only [fpPassP_eagerPass, ih]

theorem fbsP_first {n k : Nat} {d : Nat → Nat → N} {s : FPState N L} (hs : FPEx n k d s) (hk : 1 ≤ k) (j : Nat) :
    (fbsP d s.rem s.data j).2 = firstMin (fun m => totalDev (conv : N → L) n d (s.med.set m j)) s.med.length := by
  have hrem : s.rem = remP L s.data s.med.length := by rw [hs.medLen]; exact hs.rem
  obtain ⟨f1, f2, f3, f4⟩ := fbsP_spec hs.cache (by rw [hs.medLen]; exact hk) hrem j
  refine (firstMin_unique _ f1 (fun m hm => ?_) fun m hm => ?_).symm
  · have := f3 m hm
    rw [f2, changeP_eq hs.cache f1, changeP_eq hs.cache hm] at this
    exact (sub_le_sub_iff_right _).mp this
  · have := f4 m hm
    rw [f2, changeP_eq hs.cache f1, changeP_eq hs.cache (lt_trans hm f1)] at this
    exact (sub_lt_sub_iff_right _).mp this

theorem fp_eagerSpec {n k : Nat} {d : Nat → Nat → N} (hd : Dissim n d) (hk : 1 ≤ k) :
    EagerSpec (totalDev (conv : N → L) n d) n (FPEx n k d) (fun s : FPState N L => s.med) (·.lastswap)
      (·.nSwaps) (·.loss) (fpCandE d) := by
  refine ⟨⟨fun s j hs hj hc => ?_, fun s j s' hs hj hc => ?_, fun s hs => hs.loss⟩,
    fun s hs => by rw [hs.medLen]; exact hk, fun s j s' hs hj hc => ?_⟩
  · unfold fpCandE at hc
    by_cases h2 : ownP s.med s.data j = true
    · exact Or.inl ((ownP_iff hs.cache hj).mp h2)
    · have h2 : ownP s.med s.data j = false := by simpa using h2
      obtain ⟨-, ⟨-, h⟩ | ⟨h3, -, -⟩⟩ := fp_candidate hs hk hj h2
      · exact h
      · simp [h2, h3] at hc
  · unfold fpCandE at hc
    by_cases h2 : ownP s.med s.data j = true
    · simp [h2] at hc
    · have h2 : ownP s.med s.data j = false := by simpa using h2
      obtain ⟨hjm, ⟨h3, -⟩ | ⟨h3, h4, h5⟩⟩ := fp_candidate hs hk hj h2
      · simp [h3] at hc
      · simp only [h2, h3, Bool.false_eq_true, if_false, Option.some.injEq] at hc
        subst hc
        exact ⟨fpSwapP_ex hd hs h4 hj hjm, rfl, rfl, _, by rw [hs.medLen]; exact h4, hjm, rfl, h5⟩
  · unfold fpCandE at hc
    by_cases h2 : ownP s.med s.data j = true
    · simp [h2] at hc
    · by_cases h3 : rge (fbsP d s.rem s.data j).1 RLoss.zero = true
      · simp [h3] at hc
      · simp only [h2, h3, if_false, Bool.false_eq_true, Option.some.injEq] at hc
        subst hc
        show s.med.set _ j = s.med.set _ j
        rw [fbsP_first hs hk]

/-- **C89, rand_fasterpam** for every visiting order. -/
theorem C89_rand_fasterpam {mat : Mat N} {n : Nat} {d : Nat → Nat → N} (hm : IsMatrix mat n d)
    (hd : Dissim n d) {med : List Nat} (hv : ValidMeds n med) (hnd : med.Nodup) (hk : 2 ≤ med.length)
    (maxiter : Nat) {seq : List Nat} (hseq : ∀ j ∈ seq, j < n) (hsn : seq.Nodup) {r : SwapResult L}
    (hr : randFasterpam L mat med maxiter seq = .ok r) :
    (r.med, r.nIter, r.nSwap) = eagerRun (totalDev (conv : N → L) n d) seq maxiter med ∧
      r.loss = totalDev (conv : N → L) n d r.med := by
  rw [randFasterpam_eq hm hv maxiter hseq] at hr
  cases hr
  have hinit := fpInitP_ex (L := L) hd hv hk hnd
  have hl : (fpInitP L d n med).lastswap ∉ seq := fun h => by
    have := hseq _ h; simp [fpInitP] at this
  obtain ⟨h1, h2, h3⟩ := loopG_eager (fp_eagerSpec (L := L) hd (by omega : 1 ≤ med.length)) hseq hsn
    (fuel := maxiter) (iter := 0) hinit (Or.inl hl)
  have hex := (fpLoopP_ex hd (by omega : 1 ≤ med.length) hseq (fuel := maxiter) (iter := 0) hinit).1
  rw [← fpLoopP_eagerLoop] at h1 h2 h3
  rw [fpP_many d n hk]
  refine ⟨?_, hex.loss⟩
  have h3 : (fpLoopP d seq maxiter 0 (fpInitP L d n med)).1.nSwaps =
      0 + (eagerRun (totalDev (conv : N → L) n d) seq maxiter med).2.2 := h3
  dsimp only
  rw [h1, h2, h3, Nat.zero_add, Nat.zero_add]
  rfl

/-- **C89, fasterpam.** -/
theorem C89_fasterpam {mat : Mat N} {n : Nat} {d : Nat → Nat → N} (hm : IsMatrix mat n d)
    (hd : Dissim n d) {med : List Nat} (hv : ValidMeds n med) (hnd : med.Nodup) (hk : 2 ≤ med.length)
    (maxiter : Nat) {r : SwapResult L} (hr : fasterpam L mat med maxiter = .ok r) :
    (r.med, r.nIter, r.nSwap) = eagerRun (totalDev (conv : N → L) n d) (List.range n) maxiter med ∧
      r.loss = totalDev (conv : N → L) n d r.med := by
  rw [fasterpam_eq_rand, hm.len] at hr
  exact C89_rand_fasterpam hm hd hv hnd hk maxiter (fun j hj => List.mem_range.mp hj) List.nodup_range hr

/-- **C89, par_fasterpam** for every schedule of the threads. -/
theorem C89_par_fasterpam (sc0 : Sched) {scF scS : Nat → Nat → Sched} (hF : ∀ i j, (scF i j).Ok)
    {mat : Mat N} {n : Nat} {d : Nat → Nat → N} (hm : IsMatrix mat n d)
    (hd : Dissim n d) {med : List Nat} (hv : ValidMeds n med) (hnd : med.Nodup) (hk : 2 ≤ med.length)
    (maxiter : Nat) {seq : List Nat} (hseq : ∀ j ∈ seq, j < n) (hsn : seq.Nodup) {r : SwapResult L}
    (hr : parFasterpam L sc0 scF scS mat med maxiter seq = .ok r) :
    (r.med, r.nIter, r.nSwap) = eagerRun (totalDev (conv : N → L) n d) seq maxiter med ∧
      r.loss = totalDev (conv : N → L) n d r.med := by
  rw [(C17_par_fasterpam sc0 (scS := scS) hF hm hd hv hnd maxiter hseq).1] at hr
  exact C89_rand_fasterpam hm hd hv hnd hk maxiter hseq hsn hr

/-! ## Renumbering -/

theorem usnP_map (d : Nat → Nat → N) (σ : Nat → Nat) (med : List Nat) (nn b o : Nat) (doj : N) :
    usnP d (med.map σ) nn b (σ o) doj = usnP (fun x y => d (σ x) (σ y)) med nn b o doj := by
  unfold usnP
  rw [List.zipIdx_map, List.foldl_map]
  rfl

theorem swapRecP_map {n : Nat} {σ : Nat → Nat} (hσ : Renumbering n σ) (d : Nat → Nat → N) (med : List Nat)
    (b : Nat) {j o : Nat} (hj : j < n) (ho : o < n) (r : Rec N) :
    swapRecP d (med.map σ) b (σ j) (r, σ o) = swapRecP (fun x y => d (σ x) (σ y)) med b j (r, o) := by
  have h : σ o = σ j ↔ o = j := ⟨hσ.inj o j ho hj, fun h => h ▸ rfl⟩
  unfold swapRecP
  simp only [h, usnP_map]

theorem swapDataP_reordered {n : Nat} {σ : Nat → Nat} (hσ : Renumbering n σ) (d : Nat → Nat → N)
    {med' : List Nat} {data data' : List (Rec N)} (hr : Reordered n σ data data') {b j : Nat} (hj : j < n) :
    Reordered n σ (swapDataP d (med'.map σ) data b (σ j))
      (swapDataP (fun x y => d (σ x) (σ y)) med' data' b j) := by
  refine ⟨by simp [swapDataP, hr.1], by simp [swapDataP, hr.2.1], fun i hi => ?_⟩
  simp only [swapDataP, List.getElem?_map, List.getElem?_zipIdx, hr.2.2 i hi, ← List.map_set, Nat.zero_add,
    Option.map_map]
  cases data[σ i]? with
  | none => rfl
  | some r =>
    have := swapRecP_map hσ d (med'.set b j) b hj hi r
    rw [List.map_set] at this
    simp [this]

theorem initRecP_map {n : Nat} {σ : Nat → Nat} (hσ : Renumbering n σ) (d : Nat → Nat → N) {med : List Nat}
    (hr : ∀ m ∈ med, m < n) (hne : med ≠ []) {i : Nat} (hi : i < n) :
    initRecP d (med.map σ) (σ i) = initRecP (fun x y => d (σ x) (σ y)) med i := by
  unfold initRecP
  have h0 : (med.map σ).headD 0 = σ (med.headD 0) := by
    cases med with
    | nil => exact absurd rfl hne
    | cons a t => rfl
  rw [List.zipIdx_map, ← List.map_drop, List.foldl_map, h0]
  refine List.foldl_ext _ _ _ fun s p hp => ?_
  have hp1 : p.1 < n := hr _ (mem_drop_zipIdx hp).1
  have h : (σ i == σ p.1) = (i == p.1) := by
    rw [Bool.eq_iff_iff]; simp only [beq_iff_eq]; exact ⟨hσ.inj i p.1 hi hp1, fun h => h ▸ rfl⟩
  unfold initStepP
  simp only [Prod.map_fst, Prod.map_snd, id, h]

/-- Corresponding states of two runs. -/
structure FPRel (n k : Nat) (σ : Nat → Nat) (d : Nat → Nat → N) (s s' : FPState N L) : Prop where
  ex : FPEx n k d s
  ex' : FPEx n k (fun x y => d (σ x) (σ y)) s'
  med : s.med = s'.med.map σ
  data : Reordered n σ s.data s'.data
  last : ∀ j, j < n → (σ j = s.lastswap ↔ j = s'.lastswap)
  nSwaps : s.nSwaps = s'.nSwaps

theorem FPRel.loss {n k : Nat} {σ : Nat → Nat} (hσ : Renumbering n σ) {d : Nat → Nat → N} {s s' : FPState N L}
    (h : FPRel n k σ d s s') : s.loss = s'.loss := by
  rw [h.ex.loss, h.ex'.loss, h.med]
  exact (C61_totalDev hσ d (List.Perm.refl _)).symm

theorem fpCandE_rel {n k : Nat} {σ : Nat → Nat} (hσ : Renumbering n σ) {d : Nat → Nat → N} (hd : Dissim n d)
    (hk : 1 ≤ k) {s s' : FPState N L} (h : FPRel n k σ d s s') {j : Nat} (hj : j < n) :
    (fpCandE d s (σ j) = none ∧ fpCandE (fun x y => d (σ x) (σ y)) s' j = none) ∨
    ∃ s1 s1', fpCandE d s (σ j) = some s1 ∧ fpCandE (fun x y => d (σ x) (σ y)) s' j = some s1' ∧
      FPRel n k σ d s1 s1' := by
  have hd' := hd.renumber hσ
  have H := fp_eagerSpec (L := L) hd hk
  have H' := fp_eagerSpec (L := L) hd' hk
  have hσj := hσ.range j hj
  have hT : ∀ a : List Nat, totalDev (conv : N → L) n (fun x y => d (σ x) (σ y)) a =
      totalDev (conv : N → L) n d (a.map σ) := fun a => C61_totalDev hσ d (List.Perm.refl _)
  have hmem : σ j ∈ s.med ↔ j ∈ s'.med := by
    rw [h.med]
    refine ⟨fun q => ?_, fun q => List.mem_map_of_mem q⟩
    obtain ⟨x, hx, e⟩ := List.mem_map.mp q
    exact hσ.inj x j (h.ex'.cache.range x hx) hj e ▸ hx
  have hset : Settled (totalDev (conv : N → L) n d) (σ j) s.med ↔
      Settled (totalDev (conv : N → L) n (fun x y => d (σ x) (σ y))) j s'.med := by
    unfold Settled
    rw [hmem]
    simp only [hT, List.map_set, ← h.med]
    rw [h.med, List.length_map]
  have hns : ∀ {e : Nat → Nat → N} {t t1 : FPState N L} {x : Nat},
      Better (totalDev (conv : N → L) n e) x t.med t1.med →
      ¬ Settled (totalDev (conv : N → L) n e) x t.med := by
    rintro e t t1 x ⟨b, q1, q2, q3, q4⟩ (q | q)
    · exact q2 q
    · exact absurd (q b q1) (not_le.mpr (q3 ▸ q4))
  have hb : (fbsP d s.rem s.data (σ j)).2 = (fbsP (fun x y => d (σ x) (σ y)) s'.rem s'.data j).2 := by
    rw [fbsP_first h.ex hk, fbsP_first h.ex' hk]
    simp only [hT, List.map_set, ← h.med]
    rw [h.med, List.length_map]
  cases hc : fpCandE d s (σ j) with
  | none =>
    left
    refine ⟨rfl, ?_⟩
    cases hc' : fpCandE (fun x y => d (σ x) (σ y)) s' j with
    | none => rfl
    | some s1' =>
      exact absurd (hset.mp (H.base.none s _ h.ex hσj hc)) (hns (H'.base.some s' j s1' h.ex' hj hc').2.2.2)
  | some s1 =>
    right
    cases hc' : fpCandE (fun x y => d (σ x) (σ y)) s' j with
    | none =>
      exact absurd (hset.mpr (H'.base.none s' j h.ex' hj hc')) (hns (H.base.some s _ s1 h.ex hσj hc).2.2.2)
    | some s1' =>
      obtain ⟨g1, g2, g3, -⟩ := H.base.some s _ s1 h.ex hσj hc
      obtain ⟨g1', g2', g3', -⟩ := H'.base.some s' j s1' h.ex' hj hc'
      have e1 : s1 = fpSwapP d s (fbsP d s.rem s.data (σ j)).2 (σ j) := by
        unfold fpCandE at hc
        split at hc
        · cases hc
        · split at hc <;> cases hc
          rfl
      have e1' : s1' = fpSwapP (fun x y => d (σ x) (σ y)) s'
          (fbsP (fun x y => d (σ x) (σ y)) s'.rem s'.data j).2 j := by
        unfold fpCandE at hc'
        split at hc'
        · cases hc'
        · split at hc' <;> cases hc'
          rfl
      refine ⟨s1, s1', rfl, rfl, g1, g1', ?_, ?_, ?_, ?_⟩
      · rw [e1, e1', hb]
        show s.med.set _ _ = (s'.med.set _ _).map σ
        rw [List.map_set, ← h.med]
      · rw [e1, e1', hb]
        show Reordered n σ (swapDataP d s.med s.data _ _) (swapDataP _ s'.med s'.data _ _)
        rw [h.med]
        exact swapDataP_reordered hσ d h.data hj
      · intro x hx
        rw [g2, g2']
        exact ⟨hσ.inj x j hx hj, fun q => q ▸ rfl⟩
      · rw [g3, g3', h.nSwaps]

theorem fpPassP_rel {n k : Nat} {σ : Nat → Nat} (hσ : Renumbering n σ) {d : Nat → Nat → N} (hd : Dissim n d)
    (hk : 1 ≤ k) {js : List Nat} (hjs : ∀ j ∈ js, j < n) {s s' : FPState N L} (h : FPRel n k σ d s s') :
    FPRel n k σ d (fpPassP d (js.map σ) s) (fpPassP (fun x y => d (σ x) (σ y)) js s') := by
  rw [fpPassP_eagerPass, fpPassP_eagerPass]
  induction js generalizing s s' with
  | nil => exact h
  | cons j js ih =>
    have hj : j < n := hjs j (by simp)
    have ih' := fun {s s' : FPState N L} (h : FPRel n k σ d s s') => ih (fun j hj => hjs j (by simp [hj])) h
    rw [List.map_cons]
    unfold passG
    by_cases h1 : j = s'.lastswap
    · rw [if_pos h1, if_pos ((h.last j hj).mpr h1)]; exact h
    · rw [if_neg h1, if_neg (fun q => h1 ((h.last j hj).mp q))]
      rcases fpCandE_rel hσ hd hk h hj with ⟨c1, c2⟩ | ⟨s1, s1', c1, c2, h'⟩
      · rw [c1, c2]; exact ih' h
      · rw [c1, c2]; exact ih' h'

theorem fpLoopP_rel {n k : Nat} {σ : Nat → Nat} (hσ : Renumbering n σ) {d : Nat → Nat → N} (hd : Dissim n d)
    (hk : 1 ≤ k) {seq : List Nat} (hseq : ∀ j ∈ seq, j < n) {fuel iter : Nat} {s s' : FPState N L}
    (h : FPRel n k σ d s s') :
    FPRel n k σ d (fpLoopP d (seq.map σ) fuel iter s).1 (fpLoopP (fun x y => d (σ x) (σ y)) seq fuel iter s').1 ∧
      (fpLoopP d (seq.map σ) fuel iter s).2 = (fpLoopP (fun x y => d (σ x) (σ y)) seq fuel iter s').2 := by
  induction fuel generalizing iter s s' with
  | zero => exact ⟨h, rfl⟩
  | succ fuel ih =>
    have hp := fpPassP_rel hσ hd hk hseq h
    unfold fpLoopP
    dsimp only
    rw [hp.nSwaps, h.nSwaps, hp.loss hσ, h.loss hσ]
    split
    · exact ⟨hp, rfl⟩
    · exact ih hp

/-- **C89, renumbering:** on the renumbered matrix, from the renumbered medoids, in the renumbered order,
FasterPAM does the same. No assumption about ties. -/
theorem C89_renumber {n : Nat} {σ : Nat → Nat} (hσ : Renumbering n σ) {d : Nat → Nat → N} {mat mat' : Mat N}
    (hm : IsMatrix mat n d) (hm' : IsMatrix mat' n fun x y => d (σ x) (σ y)) (hd : Dissim n d) {med' : List Nat}
    (hv' : ValidMeds n med') (hnd' : med'.Nodup) (hk : 2 ≤ med'.length) {maxiter : Nat} {seq : List Nat}
    (hseq : ∀ j ∈ seq, j < n) {r r' : SwapResult L}
    (hr : randFasterpam L mat (med'.map σ) maxiter (seq.map σ) = .ok r)
    (hr' : randFasterpam L mat' med' maxiter seq = .ok r') :
    r'.med.map σ = r.med ∧ r'.nSwap = r.nSwap ∧ r'.nIter = r.nIter ∧ r'.loss = r.loss ∧
      ∀ x, x < n → r'.assi[x]? = r.assi[σ x]? := by
  have hinj := hσ.inj
  have hnd : (med'.map σ).Nodup := by
    refine (List.nodup_map_iff_inj_on hnd').mpr fun x hx y hy e => hinj x y (hv'.range x hx) (hv'.range y hy) e
  have hv : ValidMeds n (med'.map σ) := ⟨by rw [List.length_map]; exact hv'.sizes, fun m h => by
    obtain ⟨x, hx, rfl⟩ := List.mem_map.mp h
    exact hσ.range x (hv'.range x hx)⟩
  have hseq' : ∀ j ∈ seq.map σ, j < n := fun m h => by
    obtain ⟨x, hx, rfl⟩ := List.mem_map.mp h
    exact hσ.range x (hseq x hx)
  have hd' := hd.renumber hσ
  rw [randFasterpam_eq hm hv maxiter hseq'] at hr
  rw [randFasterpam_eq hm' hv' maxiter hseq] at hr'
  cases hr
  cases hr'
  have hne : med' ≠ [] := by rintro rfl; simp at hk
  have hinit : FPRel n med'.length σ d (fpInitP L d n (med'.map σ)) (fpInitP L (fun x y => d (σ x) (σ y)) n med') := by
    refine ⟨?_, fpInitP_ex hd' hv' hk hnd', rfl, ?_, ?_, rfl⟩
    · have := fpInitP_ex (L := L) hd hv (by simpa using hk) hnd
      rwa [List.length_map] at this
    · refine ⟨by simp [fpInitP, initDataP], by simp [fpInitP, initDataP], fun i hi => ?_⟩
      simp only [fpInitP, initDataP, List.getElem?_map, List.getElem?_range hi,
        List.getElem?_range (hσ.range i hi), Option.map_some, initRecP_map hσ d hv'.range hne hi]
    · intro j hj
      have := hσ.range j hj
      simp only [fpInitP]
      omega
  obtain ⟨h, hi⟩ := fpLoopP_rel hσ hd (by omega : 1 ≤ med'.length) hseq (fuel := maxiter) (iter := 0) hinit
  rw [fpP_many d n (by simpa using hk), fpP_many _ n hk]
  refine ⟨h.med.symm, h.nSwaps.symm, hi.symm, (h.loss hσ).symm, fun x hx => ?_⟩
  simp only [List.getElem?_map, h.data.2.2 x hx]

/-! ## Stop and continue -/

/-- **C89, stop and continue, FasterPAM:** `a` iterations, and then `b` more in a new call that starts with the
medoids returned, do what `a + b` iterations in one call do. The new call may need one more iteration to see
that nothing changes any more. -/
theorem C89_resume {mat : Mat N} {n : Nat} {d : Nat → Nat → N} (hm : IsMatrix mat n d)
    (hd : Dissim n d) {med : List Nat} (hv : ValidMeds n med) (hnd : med.Nodup) (hk : 2 ≤ med.length)
    (a b : Nat) {seq : List Nat} (hseq : ∀ j ∈ seq, j < n) (hsn : seq.Nodup) {r r1 r2 : SwapResult L}
    (hr : randFasterpam L mat med (a + b) seq = .ok r) (hr1 : randFasterpam L mat med a seq = .ok r1)
    (hr2 : randFasterpam L mat r1.med b seq = .ok r2) :
    r2.med = r.med ∧ r2.loss = r.loss ∧ r1.nSwap + r2.nSwap = r.nSwap ∧
      (r1.nIter + r2.nIter = r.nIter ∨ r1.nIter = r.nIter ∧ r2.nSwap = 0 ∧ r2.nIter = min b 1) := by
  obtain ⟨h1, h2⟩ := C89_rand_fasterpam hm hd hv hnd hk _ hseq hsn hr
  obtain ⟨g1, -⟩ := C89_rand_fasterpam hm hd hv hnd hk _ hseq hsn hr1
  have hwf : ValidMeds n r1.med ∧ r1.med.Nodup ∧ 2 ≤ r1.med.length := by
    obtain ⟨r', e, hw⟩ := C04_rand_fasterpam (L := L) hm hv a hseq
    rw [hr1] at e
    cases e
    refine ⟨⟨by rw [hw.medLen]; exact hv.sizes, hw.medRange⟩, ?_, by rw [hw.medLen]; exact hk⟩
    exact C06_rand_fasterpam hm hd hv hnd a hseq hr1
  obtain ⟨f1, f2⟩ := C89_rand_fasterpam hm hd hwf.1 hwf.2.1 hwf.2.2 _ hseq hsn hr2
  obtain ⟨e1, e2, e3⟩ := eagerRun_add (totalDev (conv : N → L) n d) seq a b med
  rw [← h1, ← g1] at e1 e2 e3
  dsimp only at e1 e2 e3
  rw [← f1] at e1 e2 e3
  dsimp only at e1 e2 e3
  refine ⟨e1.symm, by rw [f2, h2, e1], by omega, ?_⟩
  rcases e3 with e3 | ⟨e3, e4⟩
  · exact Or.inl (by omega)
  · simp only [Prod.mk.injEq] at e4
    exact Or.inr ⟨e3.symm, e4.2, e4.1⟩

/-- `randFasterpam` on a shuffle of the objects is `fasterpam` on the matrix with the objects in this order. -/
theorem C89_shuffle {n : Nat} {σ : Nat → Nat} (hσ : Renumbering n σ) {d : Nat → Nat → N} {mat mat' : Mat N}
    (hm : IsMatrix mat n d) (hm' : IsMatrix mat' n fun x y => d (σ x) (σ y)) (hd : Dissim n d) {med' : List Nat}
    (hv' : ValidMeds n med') (hnd' : med'.Nodup) (hk : 2 ≤ med'.length) {maxiter : Nat} {r r' : SwapResult L}
    (hr : randFasterpam L mat (med'.map σ) maxiter ((List.range n).map σ) = .ok r)
    (hr' : fasterpam L mat' med' maxiter = .ok r') :
    r'.med.map σ = r.med ∧ r'.nSwap = r.nSwap ∧ r'.nIter = r.nIter ∧ r'.loss = r.loss ∧
      ∀ x, x < n → r'.assi[x]? = r.assi[σ x]? := by
  rw [fasterpam_eq_rand, hm'.len] at hr'
  exact C89_renumber hσ hm hm' hd hv' hnd' hk (fun j hj => List.mem_range.mp hj) hr hr'

end pam

/-! ## FasterMSC -/

section msc

variable {N L : Type} [LinearOrder N] [Zero N] [RDist N] [LawfulDist N]
variable [Field L] [LinearOrder L] [IsStrictOrderedRing L] [RLoss L] [LawfulField L]
variable [RFrom N L] [LawfulFrom N L]

theorem msc_eagerSpec [LawfulAdd N L] {n k : Nat} {d : Nat → Nat → N} (hd : Dissim n d) (hk : 3 ≤ k)
    (hku : k < u32Max) :
    EagerSpec (msT L n d) n (MSCEx n k d) (fun s : MSCState N L => s.med) (·.lastswap) (·.nSwaps) (·.loss)
      (mscCandP d) := by
  refine ⟨msc_candSpec hd hk hku, fun s hs => by have := hs.inv.medLen; omega, fun s j s' hs hj hc => ?_⟩
  have gain := fun (b : Nat) (hb : b < s.med.length) =>
    hs.inv.cache.gain_eq (L := L) (by rw [hs.inv.medLen]; exact hku) hb j
  obtain ⟨f1, f2, f3, f4⟩ := mscFbsP_spec (L := L) hs.inv.cache (by rw [hs.inv.medLen]; exact hk)
    (by rw [hs.inv.medLen]; exact hku) hs.inv.idx (rem := s.rem) (by rw [hs.inv.medLen]; exact hs.rem) j
  unfold mscCandP at hc
  split at hc
  · cases hc
  · dsimp only at hc
    split at hc
    · cases hc
    · cases hc
      show s.med.set _ j = s.med.set _ j
      congr 1
      refine (firstMin_unique _ f1 (fun m hm => ?_) fun m hm => ?_).symm
      · have := f3 m hm
        rw [f2, gain _ f1, gain _ hm] at this
        exact (sub_le_sub_iff_left _).mp this
      · have := f4 m hm
        rw [f2, gain _ f1, gain _ (lt_trans hm f1)] at this
        exact (sub_lt_sub_iff_left _).mp this

theorem k2_eagerSpec {n : Nat} {d : Nat → Nat → N} (hd : Dissim n d) :
    EagerSpec (msT L n d) n (K2Ex n d) (fun s : K2State N L => s.med) (·.lastswap) (·.nSwaps) (·.loss)
      (k2CandP d) := by
  refine ⟨k2_candSpec hd, fun s hs => by have := hs.medLen; omega, fun s j s' hs hj hc => ?_⟩
  obtain ⟨f1, f2, f3⟩ := hs.fbs j
  have hb := k2FbsP_lt (L := L) d s.data j
  unfold k2CandP at hc
  split at hc
  · cases hc
  · dsimp only at hc
    split at hc
    · cases hc
    · cases hc
      show s.med.set _ j = s.med.set _ j
      congr 1
      refine (firstMin_unique _ (by rw [hs.medLen]; exact hb) (fun m hm => ?_) fun m hm => ?_).symm
      · have := f2 m (hs.medLen ▸ hm)
        rwa [f1] at this
      · have := f3 m hm
        rwa [f1] at this

theorem eagerRun_negSil {n : Nat} (hn : 0 < n) (d : Nat → Nat → N) {seq : List Nat} (hseq : ∀ j ∈ seq, j < n)
    (fuel : Nat) {med : List Nat} (hr : ∀ m ∈ med, m < n) :
    eagerRun (msT L n d) seq fuel med = eagerRun (negSil L n d) seq fuel med := by
  have := eagerRun_map (T := msT L n d) (T' := negSil L n d) (σ := id) (n := n) (k := med.length)
    (fun _ _ _ _ h => h) (fun a b _ _ => by
      unfold negSil
      rw [neg_lt_neg_iff, medSil_lt_iff hn, List.map_id, List.map_id]) hseq fuel rfl hr
  simpa only [List.map_id] using this

/-- **C89, fastermsc:** eager local search for the medoid silhouette. -/
theorem C89_fastermsc [LawfulAdd N L] {mat : Mat N} {n : Nat} {d : Nat → Nat → N} (hm : IsMatrix mat n d)
    (hd : Dissim n d) {med : List Nat} (hv : ValidMeds n med) (hnd : med.Nodup) (hk : 2 ≤ med.length)
    (maxiter : Nat) {r : SwapResult L} (hr : fastermsc L mat med maxiter = .ok r) :
    (r.med, r.nIter, r.nSwap) =
        eagerRun (fun m => - medSil (conv : N → L) n d m) (List.range n) maxiter med ∧
      r.loss = medSil (conv : N → L) n d r.med := by
  have ho := fastermsc_outcome hm hd hv hnd hk hr
  have hn : 0 < n := lt_of_lt_of_le hv.sizes.pos hv.sizes.le
  have hseq : ∀ j ∈ List.range n, j < n := fun j hj => List.mem_range.mp hj
  refine ⟨?_, ho.loss⟩
  show _ = eagerRun (negSil L n d) (List.range n) maxiter med
  rw [← eagerRun_negSil hn d hseq maxiter hv.range]
  rw [fastermsc_eq hm hv] at hr
  cases hr
  by_cases h2 : med.length = 2
  · obtain ⟨m0, m1, rfl⟩ := List.length_eq_two.mp h2
    have hinit : K2Ex n d (k2InitP L d n m0 m1 n) :=
      ⟨m0, m1, k2InitP_ok d (hv.range m0 (by simp)) (hv.range m1 (by simp)) (by simpa using hnd) n⟩
    obtain ⟨h1, h2, h3⟩ := loopG_eager (k2_eagerSpec (L := L) hd) hseq List.nodup_range
      (fuel := maxiter) (iter := 0) hinit (Or.inl (by simp [k2InitP]))
    have hmed : (k2InitP L d n m0 m1 n).med = [m0, m1] := rfl
    have h0 : (k2InitP L d n m0 m1 n).nSwaps = 0 := rfl
    simp only [hmed, h0, Nat.zero_add] at h1 h2 h3
    exact Prod.ext h1 (Prod.ext h2 h3)
  · have hinit := mscInitP_ex (L := L) hd hv hnd hk
    obtain ⟨h1, h2, h3⟩ := loopG_eager (msc_eagerSpec (L := L) hd (by omega : 3 ≤ med.length) hv.sizes.k_lt) hseq
      List.nodup_range (fuel := maxiter) (iter := 0) hinit (Or.inl (by simp [mscInitP]))
    have hmed : (mscInitP L d n med).med = med := rfl
    have h0 : (mscInitP L d n med).nSwaps = 0 := rfl
    simp only [hmed, h0, Nat.zero_add] at h1 h2 h3
    rw [fastermscP_many d n (by omega)]
    exact Prod.ext h1 (Prod.ext h2 h3)

/-- **C89, stop and continue, FasterMSC.** -/
theorem C89_fastermsc_resume [LawfulAdd N L] {mat : Mat N} {n : Nat} {d : Nat → Nat → N} (hm : IsMatrix mat n d)
    (hd : Dissim n d) {med : List Nat} (hv : ValidMeds n med) (hnd : med.Nodup) (hk : 2 ≤ med.length)
    (a b : Nat) {r r1 r2 : SwapResult L} (hr : fastermsc L mat med (a + b) = .ok r)
    (hr1 : fastermsc L mat med a = .ok r1) (hr2 : fastermsc L mat r1.med b = .ok r2) :
    r2.med = r.med ∧ r2.loss = r.loss ∧ r1.nSwap + r2.nSwap = r.nSwap ∧
      (r1.nIter + r2.nIter = r.nIter ∨ r1.nIter = r.nIter ∧ r2.nSwap = 0 ∧ r2.nIter = min b 1) := by
  obtain ⟨h1, h2⟩ := C89_fastermsc hm hd hv hnd hk _ hr
  obtain ⟨g1, -⟩ := C89_fastermsc hm hd hv hnd hk _ hr1
  have hwf : ValidMeds n r1.med ∧ r1.med.Nodup ∧ 2 ≤ r1.med.length := by
    obtain ⟨r', e, hw, -⟩ := C29_fastermsc (L := L) hm hv hk a
    rw [hr1] at e
    cases e
    exact ⟨⟨by rw [hw.medLen]; exact hv.sizes, hw.medRange⟩, (fastermsc_outcome hm hd hv hnd hk hr1).chain.nodup hnd,
      by rw [hw.medLen]; exact hk⟩
  obtain ⟨f1, f2⟩ := C89_fastermsc hm hd hwf.1 hwf.2.1 hwf.2.2 _ hr2
  obtain ⟨e1, e2, e3⟩ := eagerRun_add (fun m => - medSil (conv : N → L) n d m) (List.range n) a b med
  rw [← h1, ← g1] at e1 e2 e3
  dsimp only at e1 e2 e3
  rw [← f1] at e1 e2 e3
  dsimp only at e1 e2 e3
  refine ⟨e1.symm, by rw [f2, h2, e1], by omega, ?_⟩
  rcases e3 with e3 | ⟨e3, e4⟩
  · exact Or.inl (by omega)
  · simp only [Prod.mk.injEq] at e4
    exact Or.inr ⟨e3.symm, e4.2, e4.1⟩

end msc

/-! ## Examples -/

/-- Seven objects with many ties. -/
def eagRows : List (List ℕ) :=
  [[0, 4, 3, 4, 1, 2, 4], [4, 0, 2, 4, 4, 4, 3], [3, 2, 0, 3, 3, 3, 1], [4, 4, 3, 0, 1, 4, 1],
    [1, 4, 3, 1, 0, 1, 1], [2, 4, 3, 4, 1, 0, 1], [4, 3, 1, 1, 1, 1, 0]]

def eagD (x y : Nat) : ℕ := (eagRows.getD x []).getD y 0

theorem eag_isMatrix : IsMatrix (ofRows eagRows) 7 eagD :=
  ⟨rfl, rfl, fun x y hx hy => by
    have : ∀ x < 7, ∀ y < 7, (ofRows eagRows).get x y = .ok (eagD x y) := by decide +kernel
    exact this x hx y hy⟩

theorem eag_dissim : Dissim 7 eagD := ⟨by decide +kernel, fun _ _ _ _ => Nat.zero_le _⟩

/-- A run with three swaps in two passes and a last pass; stopped after one pass and continued. -/
example : IsMatrix (ofRows eagRows) 7 eagD ∧ Dissim 7 eagD ∧ ValidMeds 7 [0, 1, 2] ∧ [0, 1, 2].Nodup ∧
    fasterpam ℤ (ofRows eagRows) [0, 1, 2] 9 = .ok ⟨4, [0, 1, 2, 0, 0, 0, 2], 3, 3, [4, 1, 2]⟩ ∧
    eagerRun (totalDev (conv : ℕ → ℤ) 7 eagD) (List.range 7) 9 [0, 1, 2] = ([4, 1, 2], 3, 3) ∧
    randFasterpam ℤ (ofRows eagRows) [0, 1, 2] 1 (List.range 7) = .ok ⟨5, [0, 2, 2, 1, 0, 0, 2], 1, 2, [4, 3, 2]⟩ ∧
    randFasterpam ℤ (ofRows eagRows) [4, 3, 2] 8 (List.range 7) = .ok ⟨4, [0, 1, 2, 0, 0, 0, 0], 2, 1, [4, 1, 2]⟩ :=
  ⟨eag_isMatrix, eag_dissim, ⟨⟨by decide, by decide, by decide, by decide⟩, by decide⟩, by decide, by decide +kernel,
    by decide +kernel, by decide +kernel, by decide +kernel⟩

/-- Another order of the same objects: the shuffle `3, 1, 2, 4, 0` of the matrix and of the visiting order. -/
example : Renumbering 5 ordσ ∧ IsMatrix (ofRows ordRows) 5 ordD ∧
    IsMatrix (ofRows ordRows') 5 (fun x y => ordD (ordσ x) (ordσ y)) ∧ Dissim 5 ordD ∧
    ValidMeds 5 [4, 1] ∧ [4, 1].map ordσ = [0, 1] ∧ (List.range 5).map ordσ = [3, 1, 2, 4, 0] ∧
    randFasterpam ℤ (ofRows ordRows) [0, 1] 9 [3, 1, 2, 4, 0] = .ok ⟨12, [1, 1, 1, 0, 1], 2, 1, [3, 1]⟩ ∧
    fasterpam ℤ (ofRows ordRows') [4, 1] 9 = .ok ⟨12, [0, 1, 1, 1, 1], 2, 1, [0, 1]⟩ :=
  ⟨ordσ_renumbering, ordMat_isMatrix, ordMat'_isMatrix, ordD_dissim,
    ⟨⟨by decide, by decide, by decide, by decide⟩, by decide⟩, by decide, by decide, by decide +kernel, by decide +kernel⟩

/-- Two medoids (own code in the crate) and three medoids. -/
example : fastermsc ℚ (ofRows ordRows) [1, 0] 9 = .ok ⟨56 / 75, [1, 0, 0, 0, 1], 2, 1, [2, 0]⟩ ∧
    eagerRun (fun m => - medSil (conv : ℕ → ℚ) 5 ordD m) (List.range 5) 9 [1, 0] = ([2, 0], 2, 1) ∧
    fastermsc ℚ (ofRows eagRows) [0, 1, 2] 9 = .ok ⟨3 / 4, [0, 1, 1, 2, 2, 2, 2], 2, 1, [0, 1, 4]⟩ ∧
    eagerRun (fun m => - medSil (conv : ℕ → ℚ) 7 eagD m) (List.range 7) 9 [0, 1, 2] = ([0, 1, 4], 2, 1) :=
  ⟨by decide +kernel, by decide +kernel, by decide +kernel, by decide +kernel⟩


/-- **The labels are not part of the claim:** if several medoids are equally near, the continued run may assign an
object to another one than the uninterrupted run. -/
theorem C89_resume_labels_negation :
    ¬ ∀ (mat : Mat ℕ) (n : Nat) (d : Nat → Nat → ℕ) (med seq : List Nat) (a b : Nat) (r r1 r2 : SwapResult ℤ),
      IsMatrix mat n d → Dissim n d → Symm n d → ValidMeds n med → med.Nodup → 2 ≤ med.length →
      (∀ j ∈ seq, j < n) → seq.Nodup → randFasterpam ℤ mat med (a + b) seq = .ok r →
      randFasterpam ℤ mat med a seq = .ok r1 → randFasterpam ℤ mat r1.med b seq = .ok r2 → r2.assi = r.assi := by
  intro h
  have := h (ofRows eagRows) 7 eagD [0, 1, 2] (List.range 7) 1 8 ⟨4, [0, 1, 2, 0, 0, 0, 2], 3, 3, [4, 1, 2]⟩
    ⟨5, [0, 2, 2, 1, 0, 0, 2], 1, 2, [4, 3, 2]⟩ ⟨4, [0, 1, 2, 0, 0, 0, 0], 2, 1, [4, 1, 2]⟩ eag_isMatrix eag_dissim (fun x y hx hy => by
      have : ∀ x < 7, ∀ y < 7, eagD x y = eagD y x := by decide +kernel
      exact this x hx y hy)
    ⟨⟨by decide, by decide, by decide, by decide⟩, by decide⟩ (by decide) (by decide) (by decide) (by decide) (by decide +kernel)
    (by decide +kernel) (by decide +kernel)
  revert this
  decide

end KMedoids
