import Verif.Examples
import Verif.Proofs.ParAny
import Verif.Props.C06_C07
import Verif.Props.C08_C16

/-!
# C52: what holds of `par_fasterpam` for every schedule

`C17` states equality with the sequential function in exact arithmetic. Under rounding the two may differ, so
the guarantees are proved here for the parallel function itself: for every number of threads, every order of
merging, every reduction tree. Schedules are not even required to be possible ones (a worker could merge twice),
except where the exact loss matters.
-/

set_option linter.unusedSectionVars false

namespace KMedoids

open RFrom (conv)

section any

variable {N L : Type} [RDist N] [RLoss L] [RFrom N L]

/-- **C52, no panic.** Any distances, any arithmetic, any schedule, any visiting order. -/
theorem C52_no_panic (sc0 : Sched) (scF scS : Nat → Nat → Sched) {mat : Mat N} {n : Nat}
    {d : Nat → Nat → N} (hm : IsMatrix mat n d) {med : List Nat} (hv : ValidMeds n med) (maxiter : Nat)
    {seq : List Nat} (hseq : ∀ j ∈ seq, j < n) :
    ∃ r, parFasterpam L sc0 scF scS mat med maxiter seq = .ok r ∧
      WellFormed n med.length r.med r.assi := by
  obtain ⟨h1, h2, h3⟩ := parFasterpam_any (L := L) sc0 scF scS hm hv maxiter hseq
  refine ⟨_, h1, ?_⟩
  by_cases hk1 : med.length = 1
  · obtain ⟨c, rfl⟩ := List.length_eq_one_iff.mp hk1
    exact singleP_wf d mat hm (hv.range c (by simp))
  · have hk : 2 ≤ med.length := by have := hv.sizes.pos; omega
    rw [h3 hk]
    exact (h2 hk).shape.wf

/-- **C05, par_fasterpam, partial** (missing: `k = 1`). -/
theorem C05_par_fasterpam_partial (sc0 : Sched) (scF scS : Nat → Nat → Sched) {mat : Mat N} {med : List Nat}
    (h : BadCall mat med.length) (h1 : med.length ≠ 1) (maxiter : Nat) (seq : List Nat) :
    Panics (parFasterpam L sc0 scF scS mat med maxiter seq) := by
  unfold parFasterpam; rw [if_neg h1]; exact (assertSizes_panics h).bind.bind

theorem parPassP_counts (scF scS : Nat → Sched) (d : Nat → Nat → N) (n : Nat) (js : List Nat)
    (s : FPState N L) :
    s.nSwaps ≤ (parPassP scF scS d n js s).nSwaps ∧
      (parPassP scF scS d n js s).nSwaps ≤ s.nSwaps + js.length ∧
      ((parPassP scF scS d n js s).nSwaps = s.nSwaps → parPassP scF scS d n js s = s) := by
  induction js generalizing s with
  | nil => exact ⟨le_refl _, le_refl _, fun _ => rfl⟩
  | cons j js ih =>
    unfold parPassP
    split
    · simp
    · split
      · have := ih s; refine ⟨this.1, ?_, this.2.2⟩; simp only [List.length_cons]; omega
      · dsimp only
        split
        · have := ih s; refine ⟨this.1, ?_, this.2.2⟩; simp only [List.length_cons]; omega
        · have h := ih (parSwapP (scS j) d s (parFbsP (scF j) d n s.rem s.data j).2 j)
          have hn : (parSwapP (scS j) d s (parFbsP (scF j) d n s.rem s.data j).2 j).nSwaps =
            s.nSwaps + 1 := rfl
          rw [hn] at h
          simp only [List.length_cons]
          exact ⟨by omega, by omega, fun h' => absurd h' (by omega)⟩

theorem parLoopP_counts (scF scS : Nat → Nat → Sched) (d : Nat → Nat → N) (n : Nat) (seq : List Nat)
    (fuel iter : Nat) (s : FPState N L) :
    iter ≤ (parLoopP scF scS d n seq fuel iter s).2 ∧
      (parLoopP scF scS d n seq fuel iter s).2 ≤ iter + fuel ∧
      s.nSwaps ≤ (parLoopP scF scS d n seq fuel iter s).1.nSwaps ∧
      (parLoopP scF scS d n seq fuel iter s).1.nSwaps ≤
        s.nSwaps + seq.length * ((parLoopP scF scS d n seq fuel iter s).2 - iter) ∧
      ((parLoopP scF scS d n seq fuel iter s).1.nSwaps = s.nSwaps →
        (parLoopP scF scS d n seq fuel iter s).1 = s) := by
  induction fuel generalizing iter s with
  | zero => simp [parLoopP]
  | succ fuel ih =>
    obtain ⟨h1, h2, h3⟩ := parPassP_counts (scF iter) (scS iter) d n seq s
    unfold parLoopP
    dsimp only
    split
    · refine ⟨by simp, by simp, h1, ?_, h3⟩
      simp only [Nat.add_sub_cancel_left, Nat.mul_one]; exact h2
    · rename_i hc
      obtain ⟨i1, i2, i3, i4, i5⟩ := ih (iter + 1) (parPassP (scF iter) (scS iter) d n seq s)
      generalize parLoopP scF scS d n seq fuel (iter + 1) (parPassP (scF iter) (scS iter) d n seq s) = r at *
      refine ⟨by omega, by omega, by omega, ?_, ?_⟩
      · have : seq.length * (r.2 - iter) = seq.length + seq.length * (r.2 - (iter + 1)) := by
          rw [show r.2 - iter = (r.2 - (iter + 1)) + 1 by omega, Nat.mul_add]; omega
        omega
      · intro h
        have hne : (parPassP (scF iter) (scS iter) d n seq s).nSwaps ≠ s.nSwaps := by
          intro he; simp [he] at hc
        omega

/-- **C52, counters** (`k ≥ 2`), any arithmetic. -/
theorem C52_counters (sc0 : Sched) (scF scS : Nat → Nat → Sched) {mat : Mat N} {n : Nat}
    {d : Nat → Nat → N} (hm : IsMatrix mat n d) {med : List Nat} (hv : ValidMeds n med)
    (hk : 2 ≤ med.length) (maxiter : Nat) {seq : List Nat} (hseq : ∀ j ∈ seq, j < n)
    (hlen : seq.length = n) {r : SwapResult L}
    (hr : parFasterpam L sc0 scF scS mat med maxiter seq = .ok r) : CountersOk maxiter n med r := by
  obtain ⟨h1, h2, h3⟩ := parFasterpam_any (L := L) sc0 scF scS hm hv maxiter hseq
  rw [h1, h3 hk] at hr
  cases hr
  obtain ⟨-, i2, -, i4, i5⟩ := parLoopP_counts scF scS d n seq maxiter 0 (parInitP L sc0 d n med)
  have h0 : (parInitP L sc0 d n med).nSwaps = 0 := rfl
  rw [h0, hlen] at i4
  rw [h0] at i5
  refine ⟨by simpa using i2, by simpa using i4, fun h => by rw [i5 h]; rfl, ?_⟩
  rintro rfl
  exact ⟨rfl, rfl, rfl⟩

end any

section dist

variable {N L : Type} [LinearOrder N] [Zero N] [RDist N] [LawfulDist N] [RLoss L] [RFrom N L]

/-- On correct caches the closures of `do_swap` and `par_do_swap` agree. -/
theorem parSwapDataP_eq {n : Nat} {d : Nat → Nat → N} {med : List Nat} {data : List (Rec N)}
    (hc : CacheOk n d med data) (b j : Nat) : parSwapDataP d med data b j = swapDataP d med data b j := by
  refine List.map_congr_left fun p hp => ?_
  have hrec := hc.recs p hp
  unfold parSwapRecP swapRecP
  by_cases ho : p.2 = j
  · simp only [ho, if_true]
  · simp only [ho, if_false]
    by_cases h1 : p.1.near.i = b
    · simp only [h1, if_true]
    · simp only [h1, if_false]
      by_cases h2 : rlt (d p.2 j) p.1.near.d = true
      · simp only [h2, if_true]
      · simp only [h2, Bool.false_eq_true, if_false]
        by_cases h3 : p.1.seco.i = b
        · simp only [h3, if_true]
          by_cases h4 : rlt (d p.2 j) p.1.seco.d = true
          · have h4' : d p.2 j < p.1.seco.d := by simpa [rltN] using h4
            simp only [h4, if_true, usnP_new d h4' hrec.rest]
          · simp only [h4, Bool.false_eq_true, if_false]
        · simp only [h3, if_false]

theorem parSwapP_ok (sc : Sched) {n k : Nat} {d : Nat → Nat → N} (hd : Dissim n d) {s : FPState N L}
    (hs : FPOk n k d s) {b j : Nat} (hb : b < k) (hj : j < n) (hjm : j ∉ s.med) :
    FPOk n k d (parSwapP sc d s b j) := by
  have h := fpSwapP_ok hd hs hb hj hjm
  have he := parSwapDataP_eq hs.cache b j
  refine ⟨?_, h.medLen, ?_⟩
  · show CacheOk n d (s.med.set b j) (parSwapDataP d s.med s.data b j)
    rw [he]; exact h.cache
  · show (remP L (parSwapDataP d s.med s.data b j) s.rem.length).length = k
    rw [he]; exact h.remLen

theorem parPassP_ok (scF scS : Nat → Sched) {n k : Nat} {d : Nat → Nat → N} (hd : Dissim n d) (hk : 1 ≤ k)
    {js : List Nat} (hjs : ∀ j ∈ js, j < n) {s : FPState N L} (hs : FPOk n k d s) :
    FPOk n k d (parPassP scF scS d n js s) := by
  induction js generalizing s with
  | nil => exact hs
  | cons j js ih =>
    have hj : j < n := hjs j (by simp)
    have ih' := fun {s : FPState N L} (h : FPOk n k d s) => ih (fun j hj => hjs j (by simp [hj])) h
    unfold parPassP
    split
    · exact hs
    · split
      · exact ih' hs
      · rename_i hown
        dsimp only
        split
        · exact ih' hs
        · have hlen := parAccP_length (scF j) d n s.rem s.data j
          have hne : (parAccP (scF j) d n s.rem s.data j).1 ≠ [] := by
            intro h; rw [h, hs.remLen] at hlen; simp at hlen; omega
          have hb : (parFbsP (scF j) d n s.rem s.data j).2 < k := by
            have := findMinP_lt hne
            rw [hlen, hs.remLen] at this; exact this
          exact ih' (parSwapP_ok (scS j) hd hs hb hj (fun h => hown ((ownP_iff hs.cache hj).mpr h)))

theorem parLoopP_ok (scF scS : Nat → Nat → Sched) {n k : Nat} {d : Nat → Nat → N} (hd : Dissim n d)
    (hk : 1 ≤ k) {seq : List Nat} (hseq : ∀ j ∈ seq, j < n) {fuel iter : Nat} {s : FPState N L}
    (hs : FPOk n k d s) : FPOk n k d (parLoopP scF scS d n seq fuel iter s).1 := by
  induction fuel generalizing iter s with
  | zero => exact hs
  | succ fuel ih =>
    have h := parPassP_ok (scF iter) (scS iter) hd hk hseq hs
    unfold parLoopP
    dsimp only
    split
    · exact h
    · exact ih h

/-- **C52, distinct medoids and nearest assignment.** Zero diagonal, no negative distances; the arithmetic of
the loss is arbitrary (it may round or produce NaN), and so is the schedule. -/
theorem C52_nearest (sc0 : Sched) (scF scS : Nat → Nat → Sched) {mat : Mat N} {n : Nat}
    {d : Nat → Nat → N} (hm : IsMatrix mat n d) (hd : Dissim n d) {med : List Nat} (hv : ValidMeds n med)
    (hnd : med.Nodup) (maxiter : Nat) {seq : List Nat} (hseq : ∀ j ∈ seq, j < n) {r : SwapResult L}
    (hr : parFasterpam L sc0 scF scS mat med maxiter seq = .ok r) :
    r.med.Nodup ∧ NearestAssignment n d r.med r.assi := by
  obtain ⟨h1, h2, h3⟩ := parFasterpam_any (L := L) sc0 scF scS hm hv maxiter hseq
  rw [h1] at hr
  cases hr
  by_cases hk1 : med.length = 1
  · obtain ⟨c, rfl⟩ := List.length_eq_one_iff.mp hk1
    exact singleP_good hm (hv.range c (by simp))
  · have hk : 2 ≤ med.length := by have := hv.sizes.pos; omega
    rw [h3 hk]
    have hinit : FPOk n med.length d (parInitP L sc0 d n med) :=
      ⟨(fpInitP_ok (L := L) hd hv hk hnd).cache, rfl, (fpInitP_ok (L := L) hd hv hk hnd).remLen⟩
    exact (parLoopP_ok scF scS hd (by omega) hseq hinit).cache.good

/-- The hypotheses are met by six objects, even with an impossible schedule (worker 7 does not exist, worker 1
merges twice, worker 0 not at all), under which the search misjudges the candidates. -/
example : IsMatrix exMat 6 exD ∧ Dissim 6 exD ∧ ValidMeds 6 [0, 1, 2] ∧ [0, 1, 2].Nodup ∧
    (∀ j ∈ [5, 3, 1, 0, 2, 4], j < 6) ∧ [5, 3, 1, 0, 2, 4].length = 6 ∧
    parFasterpam ℤ ⟨2, [1, 7, 1], .leaf⟩ (fun _ _ => ⟨2, [1, 7, 1], .leaf⟩) (fun _ _ => ⟨2, [1, 7, 1], .leaf⟩)
      exMat [0, 1, 2] 9 [5, 3, 1, 0, 2, 4] = .ok ⟨5, [1, 1, 2, 0, 0, 0], 2, 6, [4, 1, 2]⟩ :=
  ⟨exMat_isMatrix, exD_dissim, ex_valid (by decide) (by decide) (by decide), by decide, by decide,
    by decide, by decide +kernel⟩

end dist

section exact

variable {N L : Type} [LinearOrder N] [Zero N] [RDist N] [LawfulDist N]
variable [AddCommGroup L] [LinearOrder L] [IsOrderedAddMonoid L] [RLoss L] [LawfulLoss L]
variable [RFrom N L] [LawfulFrom N L]

/-- **C52, exact arithmetic.** The reported loss is the total deviation, the medoids are reached by exactly
`nSwap` strictly improving exchanges, the search ends, and unless it was cut off the result is a local optimum. -/
theorem C52_exact (sc0 : Sched) {scF scS : Nat → Nat → Sched} (hF : ∀ i j, (scF i j).Ok) {mat : Mat N}
    {n : Nat} {d : Nat → Nat → N} (hm : IsMatrix mat n d) (hd : Dissim n d) {med : List Nat}
    (hv : ValidMeds n med) (hnd : med.Nodup) (hsym : med.length = 1 → Symm n d) (maxiter : Nat)
    {seq : List Nat} (hseq : seq.Perm (List.range n)) {r : SwapResult L}
    (hr : parFasterpam L sc0 scF scS mat med maxiter seq = .ok r) :
    r.loss = totalDev (conv : N → L) n d r.med ∧
    SwapChain (totalDev (conv : N → L) n d) n r.nSwap med r.med ∧
    (r.nSwap < Nat.choose n med.length ∧ r.nIter ≤ Nat.choose n med.length) ∧
    (r.nIter < maxiter → SwapOptimal (conv : N → L) n d r.med) := by
  have hlt : ∀ j ∈ seq, j < n := fun j hj => List.mem_range.mp (hseq.mem_iff.mp hj)
  rw [parFasterpam_eq (L := L) sc0 (scS := scS) hF hm hd hv hnd maxiter hlt,
    ← randFasterpam_eq hm hv maxiter hlt] at hr
  have h := rand_fasterpam_outcome hm hd hv hnd hsym maxiter hseq hr
  have hc := C16_rand_fasterpam hm hd hv hnd maxiter hseq hr
  exact ⟨h.loss, h.chain, ⟨hc.1, hc.2.1⟩, h.opt⟩

end exact

end KMedoids
