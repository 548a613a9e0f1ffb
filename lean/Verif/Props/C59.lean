import Verif.Proofs.BitK2
import Verif.Props.C29_C35
import Verif.Props.C58
import Verif.Rounded

/-!
# C59: the medoid silhouette optimisers under any arithmetic

As C58: distances are linearly ordered, the diagonal is zero and no entry is negative; the arithmetic of the loss
is arbitrary.

* All labels are nearest medoids, and the medoids are distinct. For two medoids, fastermsc and fastmsc need for
  the latter that no two objects are at distance zero, or that sums and quotients are monotone.
* The silhouette returned by fastermsc is computed from the left-to-right sum of the quotients for the returned
  medoids. For fastmsc and pammedsil_swap this is false as for PAM in C58.
-/

set_option linter.unusedSectionVars false
set_option linter.overlappingInstances false

namespace KMedoids

variable {N L : Type} [LinearOrder N] [Zero N] [RDist N] [LawfulDist N] [RLoss L] [RFrom N L]
open RFrom (conv)

/-- The average medoid silhouette as one computes it. -/
def recomputedSil (L : Type) [RLoss L] [RFrom N L] (n : Nat) (d : Nat → Nat → N) (med : List Nat) : L :=
  RLoss.sub RLoss.one (RLoss.div (leftSum (silTerms L n d med)) (RLoss.ofU32 n))

theorem toSil_eq {n : Nat} (hn : n ≤ u32Max) (x : L) :
    toSilhouette x n = RLoss.sub RLoss.one (RLoss.div x (RLoss.ofU32 n)) := by
  unfold toSilhouette asU32
  rw [Nat.mod_eq_of_lt (by unfold u32Max at hn; omega)]

/-- What is claimed of every answer. -/
structure SilAnswer (n k : Nat) (d : Nat → Nat → N) (r : SwapResult L) : Prop where
  medLen : r.med.length = k
  medRange : ∀ m ∈ r.med, m < n
  assiLen : r.assi.length = n
  nearest : ∀ o m : Nat, r.assi[o]? = some m → IsNearest d r.med o m

/-- The silhouette belongs to the returned medoids, or, if the last exchange did not lower the computed loss, to
the medoids before that exchange. -/
def SilLossUpToLast (n : Nat) (d : Nat → Nat → N) (r : SwapResult L) : Prop :=
  r.loss = recomputedSil L n d r.med ∨
    ∃ (before : List Nat) (b j : Nat), (∀ m ∈ before, m < n) ∧ b < before.length ∧ j < n ∧ r.med = before.set b j ∧
      r.loss = recomputedSil L n d before ∧
      rlt (leftSum (silTerms L n d r.med)) (leftSum (silTerms L n d before)) = false

theorem silUpToLast_result {n : Nat} (hn : n ≤ u32Max) {d : Nat → Nat → N} {r : SwapResult L} {loss : L}
    (hl : r.loss = toSilhouette loss n) (h : SilUpToLast n d r.med loss) : SilLossUpToLast n d r := by
  rcases h with h | ⟨before, b, j, h0, h1, h2, h3, h4, h5⟩
  · exact Or.inl (by rw [hl, h, toSil_eq hn]; rfl)
  · exact Or.inr ⟨before, b, j, h0, h1, h2, h3, by rw [hl, h4, toSil_eq hn]; rfl, by rw [← h4]; exact h5⟩

theorem mcache_answer {n k : Nat} {d : Nat → Nat → N} {med : List Nat} {data : List (Reco N)} {loss : L}
    {it sw : Nat} (hl : med.length = k) (hr : ∀ m ∈ med, m < n) (hc : MCache n d med data) :
    SilAnswer n k d (⟨loss, data.map (·.near.i), it, sw, med⟩ : SwapResult L) :=
  ⟨hl, hr, by simp [hc.len], fun o m h => (hc.assignment hr).nearest o m h⟩

/-! ## fastermsc -/

/-- **C59, fastermsc**, labels and medoids. -/
theorem C59_fastermsc_nearest {mat : Mat N} {n : Nat} {d : Nat → Nat → N} (hm : IsMatrix mat n d)
    (hd : Dissim n d) {med : List Nat} (hv : ValidMeds n med) (hnd : med.Nodup) (hk : 2 ≤ med.length)
    (maxiter : Nat) {r : SwapResult L} (hr : fastermsc L mat med maxiter = .ok r) :
    SilAnswer n med.length d r := by
  rw [fastermsc_eq hm hv] at hr; cases hr
  by_cases h2 : med.length = 2
  · obtain ⟨m0, m1, rfl⟩ := List.length_eq_two.mp h2
    have h := k2LoopP_A (L := L) hd (hv.range m0 (by simp)) (hv.range m1 (by simp)) maxiter
    exact ⟨h.shape.medLen, h.shape.medRange, h.shape.assiLen, h.nearest⟩
  · rw [fastermscP_many d n (by omega)]
    have h := (mscLoopP_A (L := L) hd hv hnd hk maxiter).inv
    exact mcache_answer h.medLen h.medRange h.cache

/-- **C59, fastermsc**, loss. -/
theorem C59_fastermsc {mat : Mat N} {n : Nat} {d : Nat → Nat → N} (hm : IsMatrix mat n d)
    (hd : Dissim n d) {med : List Nat} (hv : ValidMeds n med) (hnd : med.Nodup) (hk : 2 ≤ med.length)
    (maxiter : Nat) {r : SwapResult L} (hr : fastermsc L mat med maxiter = .ok r) :
    r.loss = recomputedSil L n d r.med := by
  rw [fastermsc_eq hm hv] at hr; cases hr
  by_cases h2 : med.length = 2
  · obtain ⟨m0, m1, rfl⟩ := List.length_eq_two.mp h2
    have h := k2LoopP_A (L := L) hd (hv.range m0 (by simp)) (hv.range m1 (by simp)) maxiter
    show toSilhouette _ n = _
    rw [toSil_eq hv.sizes.n_le, h.loss]
    rfl
  · rw [fastermscP_many d n (by omega)]
    have h := (mscLoopP_A (L := L) hd hv hnd hk maxiter).inv
    show toSilhouette _ n = _
    rw [toSil_eq hv.sizes.n_le, h.loss]
    rfl

/-- **C59, fastermsc**, three or more medoids: distinct, and each labelled with itself. -/
theorem C59_fastermsc_own {mat : Mat N} {n : Nat} {d : Nat → Nat → N} (hm : IsMatrix mat n d)
    (hd : Dissim n d) {med : List Nat} (hv : ValidMeds n med) (hnd : med.Nodup) (hk : 3 ≤ med.length)
    (maxiter : Nat) {r : SwapResult L} (hr : fastermsc L mat med maxiter = .ok r) :
    GoodAnswer n d r.med r.assi := by
  rw [fastermsc_eq hm hv, fastermscP_many d n hk] at hr; cases hr
  have h := (mscLoopP_A (L := L) hd hv hnd (by omega) maxiter).inv
  exact ⟨h.nodup, h.cache.assignment h.medRange⟩

/-- **C59, fastermsc**, distinct medoids. For two medoids with monotone arithmetic (NaN allowed), or without
duplicates. -/
theorem C59_fastermsc_distinct {mat : Mat N} {n : Nat} {d : Nat → Nat → N} (hm : IsMatrix mat n d)
    (hd : Dissim n d) {med : List Nat} (hv : ValidMeds n med) (hnd : med.Nodup) (hk : 2 ≤ med.length)
    (hM : 3 ≤ med.length ∨ MonoQuot N L ∨ NoDuplicates n d) (maxiter : Nat) {r : SwapResult L}
    (hr : fastermsc L mat med maxiter = .ok r) : r.med.Nodup := by
  by_cases h2 : med.length = 2
  · rw [fastermsc_eq hm hv] at hr; cases hr
    obtain ⟨m0, m1, rfl⟩ := List.length_eq_two.mp h2
    exact (k2LoopP_distinct (L := L) hd (by simpa using hM) (hv.range m0 (by simp)) (hv.range m1 (by simp))
      (by simpa using hnd) maxiter).nodup
  · exact (C59_fastermsc_own hm hd hv hnd (by omega) maxiter hr).1

/-! ## fastmsc -/

theorem fastmscK2_ok {n : Nat} {d : Nat → Nat → N} (hn : n ≤ u32Max) (h3 : 3 ≤ n) :
    ∀ s : K2State N L, K2Any n d s → K2StepOk n 2 d s :=
  fun _ hs _ => fastmscK2ScanP_found d le_rfl hn (exists_not_own h3 hs.shape)

/-- **C59, fastmsc**, labels and medoids. Two medoids on two objects are excluded (C29). -/
theorem C59_fastmsc_nearest [SaneZero L] {mat : Mat N} {n : Nat} {d : Nat → Nat → N} (hm : IsMatrix mat n d)
    (hd : Dissim n d) {med : List Nat} (hv : ValidMeds n med) (hnd : med.Nodup) (hk : 2 ≤ med.length)
    (hn2 : ¬ (med.length = 2 ∧ n = 2)) (maxiter : Nat) {r : SwapResult L}
    (hr : fastmsc L mat med maxiter = .ok r) : SilAnswer n med.length d r := by
  have hle := hv.sizes.le
  by_cases h2 : med.length = 2
  · obtain ⟨m0, m1, rfl⟩ := List.length_eq_two.mp h2
    have g0 := hv.range m0 (by simp)
    have g1 := hv.range m1 (by simp)
    rw [fastmsc_eq_2 (fastmscK2_eq3 (L := L) hm hv.sizes.n_le (by omega) g0 g1 maxiter).1] at hr
    cases hr
    have h := fastmscK2Loop_A (L := L) hd g0 g1 (fastmscK2_ok hv.sizes.n_le (by omega)) maxiter
    exact ⟨h.medLen, h.medRange, h.assiLen, h.nearest⟩
  · rw [fastmsc_eq_ne2 hm hv h2, fastmscP_many d n (by omega)] at hr; cases hr
    have h := mpLoop_A (L := L) hd hv hnd hk (fastmscScanP_sound n (by omega) d) maxiter
    exact mcache_answer h.medLen h.medRange h.cache

/-- **C59, fastmsc**, loss. Partial: up to the last exchange. -/
theorem C59_fastmsc_partial [SaneZero L] {mat : Mat N} {n : Nat} {d : Nat → Nat → N} (hm : IsMatrix mat n d)
    (hd : Dissim n d) {med : List Nat} (hv : ValidMeds n med) (hnd : med.Nodup) (hk : 2 ≤ med.length)
    (hn2 : ¬ (med.length = 2 ∧ n = 2)) (maxiter : Nat) {r : SwapResult L}
    (hr : fastmsc L mat med maxiter = .ok r) : SilLossUpToLast n d r := by
  have hle := hv.sizes.le
  by_cases h2 : med.length = 2
  · obtain ⟨m0, m1, rfl⟩ := List.length_eq_two.mp h2
    have g0 := hv.range m0 (by simp)
    have g1 := hv.range m1 (by simp)
    rw [fastmsc_eq_2 (fastmscK2_eq3 (L := L) hm hv.sizes.n_le (by omega) g0 g1 maxiter).1] at hr
    cases hr
    have h := fastmscK2Loop_A (L := L) hd g0 g1 (fastmscK2_ok hv.sizes.n_le (by omega)) maxiter
    exact silUpToLast_result hv.sizes.n_le rfl h.loss
  · rw [fastmsc_eq_ne2 hm hv h2, fastmscP_many d n (by omega)] at hr; cases hr
    have h := mpLoop_A (L := L) hd hv hnd hk (fastmscScanP_sound n (by omega) d) maxiter
    exact silUpToLast_result hv.sizes.n_le rfl h.loss

/-- **C59, fastmsc**, three or more medoids: distinct, and each labelled with itself. -/
theorem C59_fastmsc_own [SaneZero L] {mat : Mat N} {n : Nat} {d : Nat → Nat → N} (hm : IsMatrix mat n d)
    (hd : Dissim n d) {med : List Nat} (hv : ValidMeds n med) (hnd : med.Nodup) (hk : 3 ≤ med.length)
    (maxiter : Nat) {r : SwapResult L} (hr : fastmsc L mat med maxiter = .ok r) :
    GoodAnswer n d r.med r.assi := by
  rw [fastmsc_eq_ne2 hm hv (by omega), fastmscP_many d n hk] at hr; cases hr
  have h := mpLoop_A (L := L) hd hv hnd (by omega) (fastmscScanP_sound n (by omega) d) maxiter
  exact ⟨h.nodup, h.cache.assignment h.medRange⟩

/-- **C59, fastmsc**, distinct medoids. For two medoids with monotone arithmetic (NaN allowed), or without
duplicates. -/
theorem C59_fastmsc_distinct [SaneZero L] {mat : Mat N} {n : Nat} {d : Nat → Nat → N} (hm : IsMatrix mat n d)
    (hd : Dissim n d) {med : List Nat} (hv : ValidMeds n med) (hnd : med.Nodup) (hk : 2 ≤ med.length)
    (hn2 : ¬ (med.length = 2 ∧ n = 2)) (hM : 3 ≤ med.length ∨ MonoQuot N L ∨ NoDuplicates n d) (maxiter : Nat)
    {r : SwapResult L} (hr : fastmsc L mat med maxiter = .ok r) : r.med.Nodup := by
  have hle := hv.sizes.le
  by_cases h2 : med.length = 2
  · obtain ⟨m0, m1, rfl⟩ := List.length_eq_two.mp h2
    have g0 := hv.range m0 (by simp)
    have g1 := hv.range m1 (by simp)
    rw [fastmsc_eq_2 (fastmscK2_eq3 (L := L) hm hv.sizes.n_le (by omega) g0 g1 maxiter).1] at hr
    cases hr
    exact fastmscK2Loop_distinct (L := L) hd hv.sizes.n_le (fastmscK2_ok hv.sizes.n_le (by omega))
      (by simpa using hM) g0 g1 (by simpa using hnd) maxiter
  · exact (C59_fastmsc_own hm hd hv hnd (by omega) maxiter hr).1

/-- **C59, fastmsc**, loss, two medoids: not only up to the last exchange, if `0 + x = x`. -/
theorem C59_fastmsc_two [SaneZero L] (hz : ∀ x : L, RLoss.add RLoss.zero x = x) {mat : Mat N} {n : Nat}
    {d : Nat → Nat → N} (hm : IsMatrix mat n d) (hd : Dissim n d) {med : List Nat} (hv : ValidMeds n med)
    (hk : med.length = 2) (hn : n ≠ 2) (maxiter : Nat) {r : SwapResult L}
    (hr : fastmsc L mat med maxiter = .ok r) : r.loss = recomputedSil L n d r.med := by
  have hle := hv.sizes.le
  obtain ⟨m0, m1, rfl⟩ := List.length_eq_two.mp hk
  have g0 := hv.range m0 (by simp)
  have g1 := hv.range m1 (by simp)
  rw [fastmsc_eq_2 (fastmscK2_eq3 (L := L) hm hv.sizes.n_le (by omega) g0 g1 maxiter).1] at hr
  cases hr
  have h := fastmscK2Loop_loss hz hd hv.sizes.n_le (fastmscK2_ok hv.sizes.n_le (by omega)) g0 g1 maxiter
  show toSilhouette _ n = _
  rw [toSil_eq hv.sizes.n_le, h.loss]
  rfl

/-! ## pammedsil_swap -/

theorem pammedsilSwap_end [SaneZero L] {mat : Mat N} {n : Nat} {d : Nat → Nat → N} (hm : IsMatrix mat n d)
    (hd : Dissim n d) {med : List Nat} (hv : ValidMeds n med) (hnd : med.Nodup) (hk : 2 ≤ med.length)
    (maxiter : Nat) {r : SwapResult L} (hr : pammedsilSwap L mat med maxiter = .ok r) :
    GoodAnswer n d r.med r.assi ∧ SilAnswer n med.length d r ∧ SilLossUpToLast n d r := by
  rw [pammedsilSwap_eq hm hv] at hr
  cases hr
  rw [pammedsilSwapP, pmsOptP_many d n (s := mpInitP L d n med) hk]
  have h := mpLoop_A (L := L) hd hv hnd hk (pmsScanP_sound n med.length d) maxiter
  exact ⟨⟨h.nodup, h.cache.assignment h.medRange⟩, mcache_answer h.medLen h.medRange h.cache,
    silUpToLast_result hv.sizes.n_le rfl h.loss⟩

/-- **C59, pammedsil_swap**, labels and medoids. -/
theorem C59_pammedsil_swap_nearest [SaneZero L] {mat : Mat N} {n : Nat} {d : Nat → Nat → N}
    (hm : IsMatrix mat n d) (hd : Dissim n d) {med : List Nat} (hv : ValidMeds n med) (hnd : med.Nodup)
    (hk : 2 ≤ med.length) (maxiter : Nat) {r : SwapResult L}
    (hr : pammedsilSwap L mat med maxiter = .ok r) :
    GoodAnswer n d r.med r.assi ∧ SilAnswer n med.length d r := by
  have h := pammedsilSwap_end hm hd hv hnd hk maxiter hr
  exact ⟨h.1, h.2.1⟩

/-- **C59, pammedsil_swap**, loss. Partial: up to the last exchange. -/
theorem C59_pammedsil_swap_partial [SaneZero L] {mat : Mat N} {n : Nat} {d : Nat → Nat → N}
    (hm : IsMatrix mat n d) (hd : Dissim n d) {med : List Nat} (hv : ValidMeds n med) (hnd : med.Nodup)
    (hk : 2 ≤ med.length) (maxiter : Nat) {r : SwapResult L}
    (hr : pammedsilSwap L mat med maxiter = .ok r) : SilLossUpToLast n d r :=
  (pammedsilSwap_end hm hd hv hnd hk maxiter hr).2.2

/-! ## the counterexamples -/

/-- The claim of C59 about the loss for `fastmsc` and `pammedsil_swap`. It is false: `C59_negation` and
`C59_negation_pammedsil_swap`. -/
def C59_full (run : ∀ (L : Type) [RLoss L] [RFrom ℕ L], Mat ℕ → List Nat → Nat → Res (SwapResult L)) : Prop :=
  ∀ (L : Type) [RLoss L] [SaneZero L] [RFrom ℕ L]
     (mat : Mat ℕ) (n : Nat) (d : Nat → Nat → ℕ), IsMatrix mat n d → Dissim n d →
    ∀ (med : List Nat), ValidMeds n med → med.Nodup → 2 ≤ med.length → ∀ (maxiter : Nat) (r : SwapResult L),
      run L mat med maxiter = .ok r → r.loss = recomputedSil L n d r.med

def staleRows3 : List (List ℕ) :=
  [[0, 7, 6, 5, 4, 6], [7, 0, 7, 1, 7, 4], [6, 7, 0, 2, 2, 2], [5, 1, 2, 0, 2, 4], [4, 7, 2, 2, 0, 6],
    [6, 4, 2, 4, 6, 0]]

def staleRows2 : List (List ℕ) :=
  [[0, 7, 3, 4, 4, 5], [7, 0, 8, 6, 7, 7], [3, 8, 0, 8, 7, 6], [4, 6, 8, 0, 1, 5], [4, 7, 7, 1, 0, 8],
    [5, 7, 6, 5, 8, 0]]

def staleD3 (x y : Nat) : ℕ := (staleRows3.getD x []).getD y 0
def staleD2 (x y : Nat) : ℕ := (staleRows2.getD x []).getD y 0

theorem stale3_isMatrix : IsMatrix (ofRows staleRows3) 6 staleD3 :=
  ⟨rfl, rfl, fun x y hx hy => by
    have : ∀ x < 6, ∀ y < 6, (ofRows staleRows3).get x y = .ok (staleD3 x y) := by decide +kernel
    exact this x hx y hy⟩

theorem stale2_isMatrix : IsMatrix (ofRows staleRows2) 6 staleD2 :=
  ⟨rfl, rfl, fun x y hx hy => by
    have : ∀ x < 6, ∀ y < 6, (ofRows staleRows2).get x y = .ok (staleD2 x y) := by decide +kernel
    exact this x hx y hy⟩

theorem stale3_dissim : Dissim 6 staleD3 := ⟨by decide +kernel, fun _ _ _ _ => Nat.zero_le _⟩
theorem stale2_dissim : Dissim 6 staleD2 := ⟨by decide +kernel, fun _ _ _ _ => Nat.zero_le _⟩

/-- With a significand of three bits fastmsc reports 7/8 for medoids 0, 1, 4. -/
theorem stale3_run :
    fastmsc Fl (ofRows staleRows3) [0, 1, 2] 20 = .ok ⟨⟨7 / 8⟩, [0, 1, 2, 1, 2, 1], 2, 2, [0, 1, 4]⟩ := by
  decide +kernel

/-- pammedsil_swap reports 3/4 for medoids 0 and 4. -/
theorem stale2_run :
    pammedsilSwap Fl (ofRows staleRows2) [0, 1] 20 = .ok ⟨⟨3 / 4⟩, [0, 0, 0, 1, 1, 0], 1, 1, [0, 4]⟩ := by
  decide +kernel

/-- The silhouettes of these medoids are 3/4 and 1/2 in this arithmetic. -/
theorem stale_sil : recomputedSil Fl 6 staleD3 [0, 1, 4] = ⟨3 / 4⟩ ∧
    recomputedSil Fl 6 staleD2 [0, 4] = ⟨1 / 2⟩ := by
  decide +kernel

/-- The claim of C59 about the loss is false for `fastmsc`. -/
theorem C59_negation : ¬ C59_full (fun L _ _ => fastmsc L) := by
  intro h
  have := h Fl _ 6 staleD3 stale3_isMatrix stale3_dissim [0, 1, 2]
    (ex_valid (by decide) (by decide) (by decide)) (by decide) (by decide) 20 _ stale3_run
  rw [stale_sil.1] at this
  exact absurd this (by decide +kernel)

/-- The claim of C59 about the loss is false for `pammedsil_swap`, also for two medoids. -/
theorem C59_negation_pammedsil_swap : ¬ C59_full (fun L _ _ => pammedsilSwap L) := by
  intro h
  have := h Fl _ 6 staleD2 stale2_isMatrix stale2_dissim [0, 1]
    (ex_valid (by decide) (by decide) (by decide)) (by decide) (by decide) 20 _ stale2_run
  rw [stale_sil.2] at this
  exact absurd this (by decide +kernel)

/-! ## Non-vacuity -/

/-- Rounding, four exchanges. -/
example : ∃ r : SwapResult Fl, fastermsc Fl (ofRows staleRows3) [0, 1, 2] 20 = .ok r ∧ r.nSwap = 4 ∧
    r.loss = recomputedSil Fl 6 staleD3 r.med ∧ GoodAnswer 6 staleD3 r.med r.assi := by
  have hr : fastermsc Fl (ofRows staleRows3) [0, 1, 2] 20 =
      .ok ⟨⟨7 / 8⟩, [0, 1, 2, 1, 0, 2], 2, 4, [0, 1, 5]⟩ := by decide +kernel
  have hv : ValidMeds 6 [0, 1, 2] := ex_valid (by decide) (by decide) (by decide)
  exact ⟨_, hr, rfl, C59_fastermsc stale3_isMatrix stale3_dissim hv (by decide) (by decide) 20 hr,
    C59_fastermsc_own stale3_isMatrix stale3_dissim hv (by decide) (by decide) 20 hr⟩

/-- Objects 0 and 1 are duplicates, and some distances are infinite. -/
def topRows : List (List (WithTop ℕ)) :=
  [[0, 0, ⊤, 3, ⊤], [0, 0, ⊤, 3, ⊤], [⊤, ⊤, 0, 5, 1], [3, 3, 5, 0, 4], [⊤, ⊤, 1, 4, 0]]

def topD (x y : Nat) : WithTop ℕ := (topRows.getD x []).getD y 0

theorem top_isMatrix : IsMatrix (ofRows topRows) 5 topD :=
  ⟨rfl, rfl, fun x y hx hy => by
    have : ∀ x < 5, ∀ y < 5, (ofRows topRows).get x y = .ok (topD x y) := by decide +kernel
    exact this x hx y hy⟩

theorem top_dissim : Dissim 5 topD := ⟨by decide +kernel, fun _ _ _ _ => zero_le⟩

/-- The first loss is NaN; the medoids stay distinct through six exchanges. -/
example : ∃ r : SwapResult Ext, fastermsc Ext (ofRows topRows) [0, 1] 5 = .ok r ∧ r.nSwap = 6 ∧
    r.loss = .fin 1 ∧ r.med.Nodup ∧ ¬ NoDuplicates 5 topD := by
  have hr : fastermsc Ext (ofRows topRows) [0, 1] 5 = .ok ⟨.fin 1, [1, 1, 0, 0, 0], 2, 6, [3, 1]⟩ := by
    decide +kernel
  exact ⟨_, hr, rfl, rfl, C59_fastermsc_distinct top_isMatrix top_dissim
    ⟨⟨by decide, by decide, by decide, by decide⟩, by decide⟩ (by decide) (by decide) (Or.inr (Or.inl monoQuot_ext)) 5 hr,
    fun h => h 0 1 (by decide) (by decide) (by decide) rfl⟩

/-- Fixed point satisfies the hypothesis about the arithmetic. -/
example : MonoQuot ℕ (Rd eighths) := monoQuot_rounded _

end KMedoids
