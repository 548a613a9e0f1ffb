import Verif.Instances
import Verif.Proofs.PurePam

/-! # C04 (no panic, any arithmetic), C05 (documented panics), C10 (counters) -/

set_option linter.unusedSectionVars false

namespace KMedoids

variable {N L : Type} [RDist N] [RLoss L] [RFrom N L]

/-! ## C04 -/

theorem singleP_wf (d : Nat → Nat → N) {n c : Nat} (mat : Mat N) (hm : IsMatrix mat n d) (hc : c < n) :
    WellFormed n 1 (singleP L d n c).med (singleP L d n c).assi := by
  refine ⟨by simp [singleP], ?_, rfl, ?_⟩
  · intro a ha; simp [singleP, List.mem_replicate] at ha; omega
  · intro m hmem
    have := (singleCluster_eq (L := L) hm hc).2
    simp [singleP] at hmem; omega

theorem Shape.wf {n k : Nat} {med : List Nat} {data : List (Rec N)} (h : Shape n k med data) :
    WellFormed n k med (data.map (·.near.i)) := by
  refine ⟨by simp [h.dataLen], ?_, h.medLen, h.medRange⟩
  intro a ha
  obtain ⟨r, hr, rfl⟩ := List.mem_map.mp ha
  exact (h.recIdx r hr).1

/-- **C04, rand_fasterpam.** No panic and a well-formed answer, for any distances, any arithmetic and
any visiting order of objects. -/
theorem C04_rand_fasterpam {mat : Mat N} {n : Nat} {d : Nat → Nat → N} (hm : IsMatrix mat n d)
    {med : List Nat} (hv : ValidMeds n med) (maxiter : Nat) {seq : List Nat}
    (hseq : ∀ j ∈ seq, j < n) :
    ∃ r, randFasterpam L mat med maxiter seq = .ok r ∧ WellFormed n med.length r.med r.assi := by
  refine ⟨_, randFasterpam_eq hm hv maxiter hseq, ?_⟩
  by_cases h1 : med.length = 1
  · obtain ⟨c, rfl⟩ := List.length_eq_one_iff.mp h1
    exact singleP_wf d mat hm (hv.range c (by simp))
  · have hk : 2 ≤ med.length := by have := hv.sizes.pos; omega
    rw [fpP_many d n hk]
    exact (fpLoop_eq hm hv.sizes.k_lt (by omega) hseq (fpInitP_shape d hv hk)).2.shape.wf

/-- **C04, fasterpam.** -/
theorem C04_fasterpam {mat : Mat N} {n : Nat} {d : Nat → Nat → N} (hm : IsMatrix mat n d)
    {med : List Nat} (hv : ValidMeds n med) (maxiter : Nat) :
    ∃ r, fasterpam L mat med maxiter = .ok r ∧ WellFormed n med.length r.med r.assi := by
  rw [fasterpam_eq_rand, hm.len]
  exact C04_rand_fasterpam hm hv maxiter (fun j hj => List.mem_range.mp hj)

/-- **C04, pam_swap.** Needs only that `0 < 0` is false in the loss type. -/
theorem C04_pam_swap [SaneZero L] {mat : Mat N} {n : Nat} {d : Nat → Nat → N} (hm : IsMatrix mat n d)
    {med : List Nat} (hv : ValidMeds n med) (maxiter : Nat) :
    ∃ r, pamSwap L mat med maxiter = .ok r ∧ WellFormed n med.length r.med r.assi := by
  refine ⟨_, pamSwap_eq hm hv maxiter, ?_⟩
  by_cases h1 : med.length = 1
  · obtain ⟨c, rfl⟩ := List.length_eq_one_iff.mp h1
    exact singleP_wf d mat hm (hv.range c (by simp))
  · have hk : 2 ≤ med.length := by have := hv.sizes.pos; omega
    rw [pamSwapP, pOptP_many d n _ hk]
    exact (pamLoop_eq (L := L) hm hv.sizes.k_lt (initDataP_shape d hv hk)).2.wf

/-- **C04, fastpam1.** -/
theorem C04_fastpam1 [SaneZero L] {mat : Mat N} {n : Nat} {d : Nat → Nat → N} (hm : IsMatrix mat n d)
    {med : List Nat} (hv : ValidMeds n med) (maxiter : Nat) :
    ∃ r, fastpam1 L mat med maxiter = .ok r ∧ WellFormed n med.length r.med r.assi := by
  refine ⟨_, fastpam1_eq hm hv maxiter, ?_⟩
  by_cases h1 : med.length = 1
  · obtain ⟨c, rfl⟩ := List.length_eq_one_iff.mp h1
    exact singleP_wf d mat hm (hv.range c (by simp))
  · have hk : 2 ≤ med.length := by have := hv.sizes.pos; omega
    rw [fastpam1P, pOptP_many d n _ hk]
    exact (fastpam1Loop_eq (L := L) hm hv.sizes.k_lt (by omega) (initDataP_shape d hv hk)).2.wf

/-- **C04, alternating.** -/
theorem C04_alternating {mat : Mat N} {n : Nat} {d : Nat → Nat → N} (hm : IsMatrix mat n d)
    {med : List Nat} (hv : ValidMeds n med) (maxiter : Nat) :
    ∃ r, alternating L mat med maxiter = .ok r ∧ WellFormed n med.length r.med r.assi := by
  obtain ⟨h1, h2, h3, h4, h5⟩ := alternating_eq (L := L) hm hv maxiter
  exact ⟨_, h1, h2, h3, h4, h5⟩

/-- **C04, pam and pam_build.** Same for the functions that choose the medoids themselves; BUILD may
return fewer than `k` medoids. -/
theorem C04_pam_build {mat : Mat N} {n k : Nat} {d : Nat → Nat → N} (hm : IsMatrix mat n d)
    (hs : Sizes n k) :
    ∃ r, pamBuild L mat k = .ok r ∧ r.med.length ≤ k ∧ 1 ≤ r.med.length ∧
      WellFormed n r.med.length r.med r.assi := by
  obtain ⟨-, h2, h3⟩ := pamBuildInitialize_eq (L := L) hm hs
  refine ⟨_, pamBuild_eq hm hs, h3, h2.pos, by simp [pamBuildP, h2.dataLen], ?_, rfl, h2.medRange⟩
  intro a ha
  obtain ⟨r, hr, rfl⟩ := List.mem_map.mp ha
  exact h2.near r hr

theorem C04_pam [SaneZero L] {mat : Mat N} {n k : Nat} {d : Nat → Nat → N} (hm : IsMatrix mat n d)
    (hs : Sizes n k) (maxiter : Nat) :
    ∃ r, pam L mat k maxiter = .ok r ∧ r.med.length ≤ k ∧ 1 ≤ r.med.length ∧
      WellFormed n r.med.length r.med r.assi := by
  obtain ⟨-, h2, h3⟩ := pamBuildInitialize_eq (L := L) hm hs
  have hv := buildP_valid (L := L) hm hs
  refine ⟨_, pam_eq hm hs maxiter, ?_⟩
  suffices h : WellFormed n (buildP L d n k).1.length (pamP L d n k maxiter).med
      (pamP L d n k maxiter).assi by
    rw [h.medLen]; exact ⟨h3, h2.pos, h⟩
  by_cases h1 : (buildP L d n k).1.length = 1
  · obtain ⟨c, hc⟩ := List.length_eq_one_iff.mp h1
    rw [hc] at hv
    rw [pamP, hc, pOptP_single]
    exact singleP_wf d mat hm (hv.range c (by simp))
  · have hk : 2 ≤ (buildP L d n k).1.length := by have := hv.sizes.pos; omega
    rw [pamP, pOptP_many d n _ hk]
    exact (pamLoop_eq (L := L) hm hv.sizes.k_lt (h2.shape hk)).2.wf

/-- C04 hypotheses: an asymmetric matrix with NaN, negative and non-zero diagonal entries, duplicate
medoids, saturating arithmetic. -/
example : IsMatrix (ofRows [[some 1, none, some (-2)], [some 0, some 0, none], [none, some 3, some 2]] :
      Mat Toy) 3 (fun x y => (([[some 1, none, some (-2)], [some 0, some 0, none],
        [none, some 3, some 2]] : List (List Toy)).getD x []).getD y none) ∧
    ValidMeds 3 [2, 2] ∧ (∀ j ∈ [2, 0, 1], j < 3) :=
  ⟨⟨rfl, rfl, fun x y hx hy => by simp [ofRows, Array2.toMat, hx, hy]; rfl⟩,
    ⟨⟨by decide, by decide, by decide, by decide⟩, by decide⟩, by decide⟩

/-! ## C05 -/

/-- The three ways to be an invalid call that the documentation lists. -/
inductive BadCall (mat : Mat N) (k : Nat) : Prop where
  | notSquare (h : mat.isSquare = .ok false)
  | kZero (h : k = 0)
  | kTooLarge (h : mat.len < k)

/-- A call that panics. -/
def Panics {α : Type} (r : Res α) : Prop := ∃ e, r = .error e

theorem Panics.bind {α β : Type} {x : Res α} {f : α → Res β} (h : Panics x) : Panics (x >>= f) := by
  obtain ⟨e, rfl⟩ := h; exact ⟨e, rfl⟩

theorem assertSizes_panics {mat : Mat N} {k : Nat} (h : BadCall mat k) : Panics (assertSizes mat k) := by
  unfold assertSizes assertSquare
  cases hsq : mat.isSquare with
  | error e => exact ⟨e, by simp⟩
  | ok b =>
    cases b with
    | false => exact ⟨_, by simp; rfl⟩
    | true =>
      cases h with
      | notSquare h => rw [hsq] at h; cases h
      | kZero h =>
        subst h
        by_cases h2 : mat.len ≤ u32Max
        · exact ⟨.assertion "invalid N", by simp [h2]⟩
        · exact ⟨.assertion "N is too large", by simp [h2]⟩
      | kTooLarge h =>
        by_cases h2 : mat.len ≤ u32Max
        · by_cases h3 : 0 < k ∧ k < u32Max
          · exact ⟨.assertion "k must be at most N", by
              simp [h2, h3.1, h3.2, show ¬ k ≤ mat.len by omega]⟩
          · refine ⟨.assertion "invalid N", ?_⟩
            have : (decide (0 < k) && decide (k < u32Max)) = false := by
              simpa using h3
            simp [h2, this]
        · exact ⟨.assertion "N is too large", by simp [h2]⟩

/-- **C05, pam_swap, alternating, pam, pam_build** panic on every bad call, as documented. -/
theorem C05_pam_swap {mat : Mat N} {med : List Nat} (h : BadCall mat med.length) (maxiter : Nat) :
    Panics (pamSwap L mat med maxiter) := (assertSizes_panics h).bind.bind
theorem C05_alternating {mat : Mat N} {med : List Nat} (h : BadCall mat med.length) (maxiter : Nat) :
    Panics (alternating L mat med maxiter) := (assertSizes_panics h).bind.bind
theorem C05_pam {mat : Mat N} {k : Nat} (h : BadCall mat k) (maxiter : Nat) :
    Panics (pam L mat k maxiter) := (assertSizes_panics h).bind
theorem C05_pam_build {mat : Mat N} {k : Nat} (h : BadCall mat k) :
    Panics (pamBuild L mat k) := (assertSizes_panics h).bind

/-- The full C05 statement for the FasterPAM functions; false, see `C05_negation`. -/
def C05_full : Prop := ∀ (mat : Mat ℕ) (med : List Nat) (maxiter : Nat), BadCall mat med.length →
  Panics (fasterpam ℤ mat med maxiter)

/-- **C05, finding.** `fasterpam` (likewise `rand_fasterpam`, `fastpam1`, `par_fasterpam`) checks
nothing when `k = 1`: a 2×3 matrix is accepted, and so is an empty data set with one medoid. -/
theorem C05_negation : ¬ C05_full := by
  intro h
  obtain ⟨e, he⟩ := h (⟨2, 3, fun x y => x + y⟩ : Array2 ℕ).toMat [0] 5 (.notSquare rfl)
  have : fasterpam ℤ (⟨2, 3, fun x y => x + y⟩ : Array2 ℕ).toMat [0] 5 =
    .ok ⟨1, [0, 0], 1, 0, [0]⟩ := by decide +kernel
  rw [this] at he; cases he

theorem C05_negation_empty : fasterpam ℤ (⟨0, 0, fun _ _ => 0⟩ : Array2 ℕ).toMat [0] 5 =
    .ok ⟨0, [], 1, 0, [0]⟩ := by decide +kernel

/-- **C05, partial** (missing: `k = 1`): rand_fasterpam, fasterpam, fastpam1. -/
theorem C05_rand_fasterpam_partial {mat : Mat N} {med : List Nat} (h : BadCall mat med.length)
    (h1 : med.length ≠ 1) (maxiter : Nat) (seq : List Nat) :
    Panics (randFasterpam L mat med maxiter seq) := by
  unfold randFasterpam; rw [if_neg h1]; exact (assertSizes_panics h).bind.bind
theorem C05_fasterpam_partial {mat : Mat N} {med : List Nat} (h : BadCall mat med.length)
    (h1 : med.length ≠ 1) (maxiter : Nat) : Panics (fasterpam L mat med maxiter) :=
  C05_rand_fasterpam_partial h h1 maxiter _
theorem C05_fastpam1_partial {mat : Mat N} {med : List Nat} (h : BadCall mat med.length)
    (h1 : med.length ≠ 1) (maxiter : Nat) : Panics (fastpam1 L mat med maxiter) := by
  unfold fastpam1; rw [if_neg h1]; exact (assertSizes_panics h).bind.bind

/-- C05 hypotheses: three medoids for two objects. -/
example : BadCall (ofRows [[0, 1], [1, 0]] : Mat ℕ) [0, 1, 0].length ∧ [0, 1, 0].length ≠ 1 :=
  ⟨.kTooLarge (by decide), by decide⟩

/-! ## C10 -/

theorem fpPassP_counts (d : Nat → Nat → N) (js : List Nat) (s : FPState N L) :
    s.nSwaps ≤ (fpPassP d js s).nSwaps ∧ (fpPassP d js s).nSwaps ≤ s.nSwaps + js.length ∧
      ((fpPassP d js s).nSwaps = s.nSwaps → fpPassP d js s = s) := by
  induction js generalizing s with
  | nil => exact ⟨le_refl _, le_refl _, fun _ => rfl⟩
  | cons j js ih =>
    unfold fpPassP
    split
    · simp
    · split
      · have := ih s; refine ⟨this.1, ?_, this.2.2⟩; simp only [List.length_cons]; omega
      · dsimp only
        split
        · have := ih s; refine ⟨this.1, ?_, this.2.2⟩; simp only [List.length_cons]; omega
        · have h := ih (fpSwapP d s (fbsP d s.rem s.data j).2 j)
          have hn : (fpSwapP d s (fbsP d s.rem s.data j).2 j).nSwaps = s.nSwaps + 1 := rfl
          rw [hn] at h
          simp only [List.length_cons]
          exact ⟨by omega, by omega, fun h' => absurd h' (by omega)⟩

theorem fpLoopP_counts (d : Nat → Nat → N) (seq : List Nat) (fuel iter : Nat) (s : FPState N L) :
    iter ≤ (fpLoopP d seq fuel iter s).2 ∧ (fpLoopP d seq fuel iter s).2 ≤ iter + fuel ∧
      s.nSwaps ≤ (fpLoopP d seq fuel iter s).1.nSwaps ∧
      (fpLoopP d seq fuel iter s).1.nSwaps ≤
        s.nSwaps + seq.length * ((fpLoopP d seq fuel iter s).2 - iter) ∧
      ((fpLoopP d seq fuel iter s).1.nSwaps = s.nSwaps → (fpLoopP d seq fuel iter s).1 = s) := by
  induction fuel generalizing iter s with
  | zero => simp [fpLoopP]
  | succ fuel ih =>
    obtain ⟨h1, h2, h3⟩ := fpPassP_counts d seq s
    unfold fpLoopP
    dsimp only
    split
    · refine ⟨by simp, by simp, h1, ?_, h3⟩
      simp only [Nat.add_sub_cancel_left, Nat.mul_one]; exact h2
    · rename_i hc
      obtain ⟨i1, i2, i3, i4, i5⟩ := ih (iter + 1) (fpPassP d seq s)
      refine ⟨by omega, by omega, by omega, ?_, ?_⟩
      · have : seq.length * ((fpLoopP d seq fuel (iter + 1) (fpPassP d seq s)).2 - iter) =
            seq.length + seq.length * ((fpLoopP d seq fuel (iter + 1) (fpPassP d seq s)).2 - (iter + 1)) := by
          rw [show (fpLoopP d seq fuel (iter + 1) (fpPassP d seq s)).2 - iter =
            ((fpLoopP d seq fuel (iter + 1) (fpPassP d seq s)).2 - (iter + 1)) + 1 by omega]
          rw [Nat.mul_add]; omega
        omega
      · intro h
        have hne : (fpPassP d seq s).nSwaps ≠ s.nSwaps := by
          intro he; simp [he] at hc
        omega

theorem pLoopP_counts (d : Nat → Nat → N) (scan : List Nat → List (Rec N) → L × Nat × Nat)
    (fuel iter : Nat) (s : PState N L) :
    iter ≤ (pLoopP d scan fuel iter s).2 ∧ (pLoopP d scan fuel iter s).2 ≤ iter + fuel ∧
      s.nSwaps ≤ (pLoopP d scan fuel iter s).1.nSwaps ∧
      (pLoopP d scan fuel iter s).1.nSwaps + iter ≤ s.nSwaps + (pLoopP d scan fuel iter s).2 ∧
      ((pLoopP d scan fuel iter s).1.nSwaps = s.nSwaps → (pLoopP d scan fuel iter s).1 = s) := by
  induction fuel generalizing iter s with
  | zero => simp [pLoopP]
  | succ fuel ih =>
    unfold pLoopP
    dsimp only
    split
    · split
      · simp [pSwapP]; omega
      · have h := ih (iter + 1) (pSwapP d s (scan s.med s.data).2.1 (scan s.med s.data).2.2
          (swapSumP L (scan s.med s.data).2.2
            (swapDataP d s.med s.data (scan s.med s.data).2.1 (scan s.med s.data).2.2)))
        obtain ⟨i1, i2, i3, i4, i5⟩ := h
        simp only [pSwapP] at i1 i2 i3 i4
        refine ⟨?_, ?_, ?_, ?_, ?_⟩ <;> simp only [pSwapP] <;> omega
    · simp

/-- What C10 claims about a swap-based function: at most `maxiter` iterations, at most `perIter` swaps in
each, and without swaps the medoids are the input medoids. -/
structure CountersOk (maxiter perIter : Nat) (med : List Nat) (r : SwapResult L) : Prop where
  iter : r.nIter ≤ maxiter
  swap : r.nSwap ≤ perIter * r.nIter
  noSwap : r.nSwap = 0 → r.med = med
  maxiterZero : maxiter = 0 → r.nIter = 0 ∧ r.nSwap = 0 ∧ r.med = med

/-- **C10, rand_fasterpam** (`k ≥ 2`): at most `n` swaps per iteration (`seq` is the shuffle). -/
theorem C10_rand_fasterpam {mat : Mat N} {n : Nat} {d : Nat → Nat → N} (hm : IsMatrix mat n d)
    {med : List Nat} (hv : ValidMeds n med) (hk : 2 ≤ med.length) (maxiter : Nat) {seq : List Nat}
    (hseq : ∀ j ∈ seq, j < n) (hlen : seq.length = n) {r : SwapResult L}
    (hr : randFasterpam L mat med maxiter seq = .ok r) : CountersOk maxiter n med r := by
  rw [randFasterpam_eq hm hv maxiter hseq, fpP_many d n hk] at hr
  cases hr
  obtain ⟨-, i2, -, i4, i5⟩ := fpLoopP_counts d seq maxiter 0 (fpInitP L d n med)
  have h0 : (fpInitP L d n med).nSwaps = 0 := rfl
  rw [h0, hlen] at i4
  rw [h0] at i5
  have hno : ∀ h : (fpLoopP d seq maxiter 0 (fpInitP L d n med)).1.nSwaps = 0,
      (fpLoopP d seq maxiter 0 (fpInitP L d n med)).1.med = med := fun h => by rw [i5 h]; rfl
  refine ⟨by simpa using i2, by simpa using i4, hno, ?_⟩
  rintro rfl
  exact ⟨rfl, rfl, rfl⟩

/-- **C10, fasterpam.** -/
theorem C10_fasterpam {mat : Mat N} {n : Nat} {d : Nat → Nat → N} (hm : IsMatrix mat n d)
    {med : List Nat} (hv : ValidMeds n med) (hk : 2 ≤ med.length) (maxiter : Nat) {r : SwapResult L}
    (hr : fasterpam L mat med maxiter = .ok r) : CountersOk maxiter n med r := by
  rw [fasterpam_eq_rand, hm.len] at hr
  exact C10_rand_fasterpam hm hv hk maxiter (fun j hj => List.mem_range.mp hj) (by simp) hr

theorem pOptP_counters (d : Nat → Nat → N) (n : Nat)
    (scan : Nat → Nat → List Nat → List (Rec N) → L × Nat × Nat) {med : List Nat}
    (hk : 2 ≤ med.length) (data : List (Rec N)) (maxiter : Nat) (loss : L) :
    CountersOk maxiter 1 med (pOptP d n scan med data maxiter loss) := by
  rw [pOptP_many d n _ hk]
  obtain ⟨-, i2, -, i4, i5⟩ := pLoopP_counts d (scan n med.length) maxiter 0 ⟨med, data, loss, 0⟩
  refine ⟨by simpa [pResultP] using i2, ?_, ?_, ?_⟩
  · simp only [pResultP, Nat.one_mul]; simpa using i4
  · intro h; simp only [pResultP] at h ⊢; rw [i5 h]
  · rintro rfl; exact ⟨rfl, rfl, rfl⟩

/-- **C10, pam_swap:** at most one swap per iteration. -/
theorem C10_pam_swap [SaneZero L] {mat : Mat N} {n : Nat} {d : Nat → Nat → N} (hm : IsMatrix mat n d)
    {med : List Nat} (hv : ValidMeds n med) (hk : 2 ≤ med.length) (maxiter : Nat) {r : SwapResult L}
    (hr : pamSwap L mat med maxiter = .ok r) : CountersOk maxiter 1 med r := by
  rw [pamSwap_eq hm hv maxiter] at hr; cases hr
  exact pOptP_counters d n _ hk _ _ _

/-- **C10, fastpam1:** at most one swap per iteration. -/
theorem C10_fastpam1 [SaneZero L] {mat : Mat N} {n : Nat} {d : Nat → Nat → N} (hm : IsMatrix mat n d)
    {med : List Nat} (hv : ValidMeds n med) (hk : 2 ≤ med.length) (maxiter : Nat) {r : SwapResult L}
    (hr : fastpam1 L mat med maxiter = .ok r) : CountersOk maxiter 1 med r := by
  rw [fastpam1_eq hm hv maxiter] at hr; cases hr
  exact pOptP_counters d n _ hk _ _ _

/-- **C10, k = 1:** one iteration; a swap is counted exactly if the medoid changed. Same for fasterpam,
rand_fasterpam, fastpam1 and pam_swap. -/
theorem C10_single [SaneZero L] {mat : Mat N} {n : Nat} {d : Nat → Nat → N} (hm : IsMatrix mat n d)
    {c : Nat} (hv : ValidMeds n [c]) (maxiter : Nat) (seq : List Nat) {r : SwapResult L}
    (hr : randFasterpam L mat [c] maxiter seq = .ok r ∨ fasterpam L mat [c] maxiter = .ok r ∨
      fastpam1 L mat [c] maxiter = .ok r ∨ pamSwap L mat [c] maxiter = .ok r) :
    r.nIter = 1 ∧ r.nSwap = if r.med = [c] then 0 else 1 := by
  have hs := (singleCluster_eq (L := L) hm (hv.range c (by simp))).1
  have hr' : r = singleP L d n c := by
    rcases hr with h | h | h | h
    · simp only [randFasterpam, List.length_singleton, if_true, hs] at h; cases h; rfl
    · simp only [fasterpam, List.length_singleton, if_true, hs] at h; cases h; rfl
    · simp only [fastpam1, List.length_singleton, if_true, hs] at h; cases h; rfl
    · rw [pamSwap_eq hm hv maxiter] at h; cases h; rfl
  subst hr'
  refine ⟨rfl, ?_⟩
  simp only [singleP, List.cons.injEq, and_true]
  by_cases h : (chooseP L d (List.replicate n 0) 0 c).1 = c <;> simp [h]

/-- C10 hypotheses are met by the matrix of the crate's tests (see also the replayed tests). -/
example : IsMatrix (ofRows [[0, 1, 5], [1, 0, 4], [5, 4, 0]] : Mat ℕ) 3
      (fun x y => (([[0, 1, 5], [1, 0, 4], [5, 4, 0]] : List (List ℕ)).getD x []).getD y 0) ∧
    ValidMeds 3 [0, 1] ∧ 2 ≤ [0, 1].length ∧
    fasterpam ℤ (ofRows [[0, 1, 5], [1, 0, 4], [5, 4, 0]] : Mat ℕ) [0, 1] 9 =
      .ok ⟨1, [1, 1, 0], 2, 1, [2, 1]⟩ :=
  ⟨⟨rfl, rfl, fun x y hx hy => by simp [ofRows, Array2.toMat, hx, hy]⟩,
    ⟨⟨by decide, by decide, by decide, by decide⟩, by decide⟩, by decide, by decide +kernel⟩

end KMedoids
