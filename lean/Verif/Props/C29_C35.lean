import Verif.Examples
import Verif.Proofs.MscK2
import Verif.Proofs.Single
import Verif.Props.C04_C05_C10
import Verif.Props.C24_C28

/-!
# C29-C35: FasterMSC, FastMSC, PAMMEDSIL

C29 holds for any arithmetic. C30-C35: exact arithmetic, zero diagonal, no negative distances; the matrix
need not be symmetric.
-/

set_option linter.unusedSectionVars false

namespace KMedoids

open RFrom (conv)

/-! ## C29 -/

section any
variable {N L : Type} [RDist N] [RLoss L] [RFrom N L]

theorem MShape.wf {n k : Nat} {med : List Nat} {data : List (Reco N)} (h : MShape n k med data) :
    WellFormed n k med (data.map (·.near.i)) := by
  refine ⟨by simp [h.dataLen], ?_, h.medLen, h.medRange⟩
  intro a ha
  obtain ⟨r, hr, rfl⟩ := List.mem_map.mp ha
  exact (h.recIdx r hr).1

theorem K2Shape.wf {n : Nat} {s : K2State N L} (h : K2Shape n s) : WellFormed n 2 s.med s.assi :=
  ⟨h.assiLen, h.label, h.medLen, h.medRange⟩

/-- **C29, fastermsc.** No panic and a well-formed answer, for any distances and any arithmetic. -/
theorem C29_fastermsc {mat : Mat N} {n : Nat} {d : Nat → Nat → N} (hm : IsMatrix mat n d)
    {med : List Nat} (hv : ValidMeds n med) (hk : 2 ≤ med.length) (maxiter : Nat) :
    ∃ r, fastermsc L mat med maxiter = .ok r ∧ WellFormed n med.length r.med r.assi ∧
      r.nIter ≤ maxiter := by
  refine ⟨_, fastermsc_eq hm hv maxiter, ?_⟩
  by_cases h2 : med.length = 2
  · obtain ⟨m0, m1, rfl⟩ := List.length_eq_two.mp h2
    obtain ⟨-, g2, g3⟩ := k2Loop_eq hm (fuel := maxiter) (iter := 0)
      (k2InitP_shape (L := L) d (hv.range m0 (by simp)) (hv.range m1 (by simp)) n)
    exact ⟨g2.wf, by rw [Nat.zero_add] at g3; exact g3⟩
  · have hk3 : 3 ≤ med.length := by omega
    obtain ⟨-, g2, g3⟩ := mscLoop_eq hm hv.sizes.k_lt (by omega) (fuel := maxiter) (iter := 0)
      (mscInitP_shape (L := L) d hv (by omega))
    rw [fastermscP_many d n hk3]
    exact ⟨g2.shape.wf, by rw [Nat.zero_add] at g3; exact g3⟩

theorem mpLoop_wf {mat : Mat N} {n : Nat} {d : Nat → Nat → N} (hm : IsMatrix mat n d) {med : List Nat}
    (hv : ValidMeds n med) (hk : 2 ≤ med.length) {scan : List Nat → List (Reco N) → L × Nat × Nat}
    (hscan : ∀ med' data, ScanMaxOk n med.length (scan med' data)) (maxiter : Nat) :
    let r := mpResultP n (loopB (mpStepP d scan) maxiter 0 (mpInitP L d n med))
    WellFormed n med.length r.med r.assi ∧ r.nIter ≤ maxiter := by
  have h := loopB_inv (step := mpStepP d scan) (fun s : MPState N L => MShape n med.length s.med s.data)
    (fun s s' b hs hst => mpStepP_shape hm hv.sizes.k_lt hscan hs hst) (fuel := maxiter) (iter := 0)
    (s := mpInitP L d n med) (mscInitDataP_shape d hv hk)
  exact ⟨h.1.wf, by have := h.2; rw [Nat.zero_add] at this; exact this⟩

/-- **C29, pammedsil_swap.** -/
theorem C29_pammedsil_swap [SaneZero L] {mat : Mat N} {n : Nat} {d : Nat → Nat → N} (hm : IsMatrix mat n d)
    {med : List Nat} (hv : ValidMeds n med) (hk : 2 ≤ med.length) (maxiter : Nat) :
    ∃ r, pammedsilSwap L mat med maxiter = .ok r ∧ WellFormed n med.length r.med r.assi ∧
      r.nIter ≤ maxiter := by
  refine ⟨_, pammedsilSwap_eq hm hv maxiter, ?_⟩
  rw [pammedsilSwapP, pmsOptP_many d n (s := mpInitP L d n med) hk]
  exact mpLoop_wf hm hv hk (fun med' data => pmsScanP_ok (L := L) d n _ med' data) maxiter

/-- **C29, fastmsc, any arithmetic**, except for two medoids on two objects: see `C29_negation`. -/
theorem C29_fastmsc_partial [SaneZero L] {mat : Mat N} {n : Nat} {d : Nat → Nat → N} (hm : IsMatrix mat n d)
    {med : List Nat} (hv : ValidMeds n med) (hk : 2 ≤ med.length) (h2 : ¬ (med.length = 2 ∧ n = 2))
    (maxiter : Nat) :
    ∃ r, fastmsc L mat med maxiter = .ok r ∧ WellFormed n med.length r.med r.assi ∧ r.nIter ≤ maxiter := by
  by_cases hk2 : med.length = 2
  · obtain ⟨m0, m1, rfl⟩ := List.length_eq_two.mp hk2
    have hle := hv.sizes.le
    rw [hk2] at hle
    obtain ⟨g1, g2⟩ := fastmscK2_eq3 (L := L) hm hv.sizes.n_le (by omega) (hv.range m0 (by simp))
      (hv.range m1 (by simp)) maxiter
    refine ⟨_, fastmsc_eq_2 g1, g2.wf, ?_⟩
    have := (loopB_inv (step := fastmscK2StepP (L := L) d n 2) (fun _ => True) (fun _ _ _ _ _ => trivial)
      (fuel := maxiter) (iter := 0) (s := k2InitP L d n m0 m1 0) trivial).2
    rw [Nat.zero_add] at this
    exact this
  · have hk3 : 3 ≤ med.length := by omega
    refine ⟨_, fastmsc_eq_ne2 hm hv hk2 maxiter, ?_⟩
    rw [fastmscP_many d n hk3]
    exact mpLoop_wf hm hv hk (fun med' data => fastmscScanP_ok (L := L) d n (by omega) med' data) maxiter

/-- **C29, fastmsc, remaining case:** two medoids on two objects with a zero diagonal. All that is used of
the arithmetic is that `N::zero()` is zero and `0 + 0 = 0`. -/
theorem C29_fastmsc_two [SaneZero L] {mat : Mat N} {d : Nat → Nat → N} (hm : IsMatrix mat 2 d)
    (hz : ∀ x, x < 2 → RDist.isZero (d x x) = true) (hn0 : RDist.isZero (RDist.zero : N) = true)
    (ha : (RLoss.add RLoss.zero RLoss.zero : L) = RLoss.zero) {med : List Nat} (hv : ValidMeds 2 med)
    (hk : med.length = 2) (maxiter : Nat) :
    ∃ r, fastmsc L mat med maxiter = .ok r ∧ WellFormed 2 2 r.med r.assi ∧ r.nIter ≤ maxiter := by
  obtain ⟨m0, m1, rfl⟩ := List.length_eq_two.mp hk
  obtain ⟨g1, g2⟩ := fastmscK2_eqTwo (L := L) hm hz hn0 ha (hv.range m0 (by simp))
    (hv.range m1 (by simp)) maxiter
  refine ⟨_, fastmsc_eq_2 g1, g2.wf, ?_⟩
  have := (loopB_inv (step := fastmscK2StepP (L := L) d 2 2) (fun _ => True) (fun _ _ _ _ _ => trivial)
    (fuel := maxiter) (iter := 0) (s := k2InitP L d 2 m0 m1 0) trivial).2
  rw [Nat.zero_add] at this
  exact this

end any

/-- The full C29 statement for `fastmsc`, without a condition on the diagonal; false, see `C29_negation`. -/
def C29_full : Prop := ∀ (mat : Mat ℕ) (n : Nat) (d : Nat → Nat → ℕ), IsMatrix mat n d →
  ∀ med : List Nat, ValidMeds n med → 2 ≤ med.length → ∀ maxiter : Nat,
    ∃ r, fastmsc ℚ mat med maxiter = .ok r ∧ WellFormed n med.length r.med r.assi ∧ r.nIter ≤ maxiter

/-- **C29, finding.** `fastmsc` with two medoids on the matrix `[[1, 2], [2, 1]]` panics: no object is a
candidate, but the initial `best = 0` counts as an improvement. -/
theorem C29_negation : ¬ C29_full := by
  intro h
  have hmx : IsMatrix (ofRows [[1, 2], [2, 1]] : Mat ℕ) 2
      (fun x y => (([[1, 2], [2, 1]] : List (List ℕ)).getD x []).getD y 0) :=
    ⟨rfl, rfl, fun x y hx hy => by
      have : ∀ x < 2, ∀ y < 2, (ofRows [[1, 2], [2, 1]] : Mat ℕ).get x y =
        .ok ((([[1, 2], [2, 1]] : List (List ℕ)).getD x []).getD y 0) := by decide +kernel
      exact this x hx y hy⟩
  obtain ⟨r, hr, -⟩ := h _ 2 _ hmx [0, 1]
    ⟨⟨by decide, by decide, by decide, by decide⟩, by decide⟩ (by decide) 9
  have hp : fastmsc ℚ (ofRows [[1, 2], [2, 1]] : Mat ℕ) [0, 1] 9 =
      .error (.assertion "invalid medoid number") := by decide +kernel
  rw [hp] at hr
  cases hr

/-- Hypotheses of C29 on matrices with NaN entries and saturating arithmetic. -/
example : fastmsc Toy (ofRows [[some 0, none, some 2], [none, some 0, some 1], [some 2, some 1, some 0]]
      : Mat Toy) [0, 1] 9 = .ok ⟨some 1, [1, 1, 1], 1, 0, [0, 1]⟩ ∧
    fastmsc Toy (ofRows [[some 0, none], [some 1, some 0]] : Mat Toy) [1, 0] 9 =
      .ok ⟨some 1, [1, 0], 1, 0, [1, 0]⟩ ∧ RDist.isZero (RDist.zero : Toy) = true ∧
      (RLoss.add RLoss.zero RLoss.zero : Toy) = RLoss.zero := by decide +kernel

/-! ## C30-C33 -/

section exact
variable {N L : Type} [LinearOrder N] [Zero N] [RDist N] [LawfulDist N]
variable [Field L] [LinearOrder L] [IsStrictOrderedRing L] [RLoss L] [LawfulField L]
variable [RFrom N L] [LawfulFrom N L]

/-- No exchange of one medoid by one object that is not a medoid has a larger medoid silhouette. -/
def SilSwapOptimal (L : Type) [Field L] [LE L] [RFrom N L] (n : Nat) (d : Nat → Nat → N) (med : List Nat) :
    Prop :=
  ∀ m j, m < med.length → j < n → j ∉ med →
    medSil (conv : N → L) n d (med.set m j) ≤ medSil (conv : N → L) n d med

theorem fastermsc_outcome [LawfulAdd N L] {mat : Mat N} {n : Nat} {d : Nat → Nat → N} (hm : IsMatrix mat n d)
    (hd : Dissim n d) {med : List Nat} (hv : ValidMeds n med) (hnd : med.Nodup) (hk : 2 ≤ med.length)
    {maxiter : Nat} {r : SwapResult L} (hr : fastermsc L mat med maxiter = .ok r) :
    MOutcome n d med maxiter r := by
  rw [fastermsc_eq hm hv] at hr
  cases hr
  by_cases h2 : med.length = 2
  · obtain ⟨m0, m1, rfl⟩ := List.length_eq_two.mp h2
    exact fastermscK2P_outcome hd (hv.range m0 (by simp)) (hv.range m1 (by simp)) (by simpa using hnd)
      hv.sizes.n_le maxiter
  · rw [fastermscP_many d n (by omega)]
    exact (fastermscP_outcome hd hv hnd (by omega) maxiter).1

theorem fastmsc_eqE {mat : Mat N} {n : Nat} {d : Nat → Nat → N} (hm : IsMatrix mat n d) (hd : Dissim n d)
    {med : List Nat} (hv : ValidMeds n med) (hnd : med.Nodup) (maxiter : Nat) :
    fastmsc L mat med maxiter = .ok (fastmscP L d n med maxiter) := by
  by_cases h2 : med.length = 2
  · obtain ⟨m0, m1, rfl⟩ := List.length_eq_two.mp h2
    exact fastmsc_eq_2 (fastmscK2_eqE hm hd hv.sizes.n_le (hv.range m0 (by simp)) (hv.range m1 (by simp))
      (by simpa using hnd) maxiter)
  · exact fastmsc_eq_ne2 hm hv h2 maxiter

theorem fastmsc_outcome [LawfulAdd N L] {mat : Mat N} {n : Nat} {d : Nat → Nat → N} (hm : IsMatrix mat n d)
    (hd : Dissim n d) {med : List Nat} (hv : ValidMeds n med) (hnd : med.Nodup) (hk : 2 ≤ med.length)
    {maxiter : Nat} {r : SwapResult L} (hr : fastmsc L mat med maxiter = .ok r) :
    MOutcome n d med maxiter r := by
  rw [fastmsc_eqE hm hd hv hnd] at hr
  cases hr
  by_cases h2 : med.length = 2
  · obtain ⟨m0, m1, rfl⟩ := List.length_eq_two.mp h2
    exact fastmscK2P_outcome hd (hv.range m0 (by simp)) (hv.range m1 (by simp)) (by simpa using hnd)
      hv.sizes.n_le maxiter
  · rw [fastmscP_many d n (by omega)]
    exact (mpLoop_outcome hd hv hnd hk (fastmscScanP_good (by omega) hv.sizes.k_lt d) maxiter).1

theorem pammedsil_swap_outcome {mat : Mat N} {n : Nat} {d : Nat → Nat → N} (hm : IsMatrix mat n d)
    (hd : Dissim n d) {med : List Nat} (hv : ValidMeds n med) (hnd : med.Nodup) (hk : 2 ≤ med.length)
    {maxiter : Nat} {r : SwapResult L} (hr : pammedsilSwap L mat med maxiter = .ok r) :
    MOutcome n d med maxiter r := by
  rw [pammedsilSwap_eq hm hv] at hr
  cases hr
  rw [pammedsilSwapP, pmsOptP_many d n (s := mpInitP L d n med) hk]
  exact (mpLoop_outcome hd hv hnd hk (pmsScanP_good hk hv.sizes.k_lt hd) maxiter).1

/-- The result comes from `fastermsc`, `fastmsc` or `pammedsil_swap`. -/
def IsMscRun (mat : Mat N) (med : List Nat) (maxiter : Nat) (r : SwapResult L) : Prop :=
  fastermsc L mat med maxiter = .ok r ∨ fastmsc L mat med maxiter = .ok r ∨
    pammedsilSwap L mat med maxiter = .ok r

theorem IsMscRun.outcome [LawfulAdd N L] {mat : Mat N} {n : Nat} {d : Nat → Nat → N} (hm : IsMatrix mat n d)
    (hd : Dissim n d) {med : List Nat} (hv : ValidMeds n med) (hnd : med.Nodup) (hk : 2 ≤ med.length)
    {maxiter : Nat} {r : SwapResult L} (hr : IsMscRun mat med maxiter r) : MOutcome n d med maxiter r := by
  rcases hr with h | h | h
  · exact fastermsc_outcome hm hd hv hnd hk h
  · exact fastmsc_outcome hm hd hv hnd hk h
  · exact pammedsil_swap_outcome hm hd hv hnd hk h

/-- The returned medoids are again valid medoids. -/
theorem MOutcome.valid {n : Nat} {d : Nat → Nat → N} {med : List Nat} {maxiter : Nat} {r : SwapResult L}
    (h : MOutcome n d med maxiter r) (hv : ValidMeds n med) : ValidMeds n r.med := by
  have hl := h.chain.length
  exact ⟨by rw [hl]; exact hv.sizes, h.chain.range hv.range⟩

/-- **C30.** The returned loss is what `medoid_silhouette` gives for the returned medoids. -/
theorem C30_msc [LawfulAdd N L] {mat : Mat N} {n : Nat} {d : Nat → Nat → N} (hm : IsMatrix mat n d)
    (hd : Dissim n d) {med : List Nat} (hv : ValidMeds n med) (hnd : med.Nodup) (hk : 2 ≤ med.length)
    {maxiter : Nat} {r : SwapResult L} (hr : IsMscRun mat med maxiter r) :
    r.loss = medSil (conv : N → L) n d r.med ∧ medoidSilhouette L mat r.med false = .ok (r.loss, []) := by
  have h := hr.outcome hm hd hv hnd hk
  refine ⟨h.loss, ?_⟩
  rw [(C28_medoid_silhouette hm hd.nonneg (h.valid hv) (by rw [h.chain.length]; exact hk)).2, h.loss]

/-- **C31.** All objects are labelled with a nearest medoid, and the medoids are distinct objects. -/
theorem C31_msc [LawfulAdd N L] {mat : Mat N} {n : Nat} {d : Nat → Nat → N} (hm : IsMatrix mat n d)
    (hd : Dissim n d) {med : List Nat} (hv : ValidMeds n med) (hnd : med.Nodup) (hk : 2 ≤ med.length)
    {maxiter : Nat} {r : SwapResult L} (hr : IsMscRun mat med maxiter r) :
    r.assi.length = n ∧ (∀ o m : Nat, r.assi[o]? = some m → IsNearest d r.med o m) ∧
    r.med.length = med.length ∧ r.med.Nodup ∧ ∀ m ∈ r.med, m < n := by
  have h := hr.outcome hm hd hv hnd hk
  exact ⟨h.assiLen, h.nearest, h.chain.length, h.chain.nodup hnd, h.chain.range hv.range⟩

/-- **C31, at least three medoids:** every medoid is labelled with its own position. -/
theorem C31_msc_own [LawfulAdd N L] {mat : Mat N} {n : Nat} {d : Nat → Nat → N} (hm : IsMatrix mat n d)
    (hd : Dissim n d) {med : List Nat} (hv : ValidMeds n med) (hnd : med.Nodup) (hk : 3 ≤ med.length)
    {maxiter : Nat} {r : SwapResult L} (hr : IsMscRun mat med maxiter r) : NearestAssignment n d r.med r.assi := by
  rcases hr with h | h | h
  · rw [fastermsc_eq hm hv, fastermscP_many d n hk] at h
    cases h
    exact (fastermscP_outcome (L := L) hd hv hnd hk maxiter).2
  · rw [fastmsc_eqE hm hd hv hnd, fastmscP_many d n hk] at h
    cases h
    exact (mpLoop_outcome (L := L) hd hv hnd (by omega) (fastmscScanP_good hk hv.sizes.k_lt d) maxiter).2
  · rw [pammedsilSwap_eq hm hv, pammedsilSwapP, pmsOptP_many d n (s := mpInitP L d n med) (by show 2 ≤ med.length; omega)] at h
    cases h
    exact (mpLoop_outcome (L := L) hd hv hnd (by omega) (pmsScanP_good (by omega) hv.sizes.k_lt hd) maxiter).2

/-- **C32.** The medoid silhouette does not decrease, and increases if an exchange was made. -/
theorem C32_msc [LawfulAdd N L] {mat : Mat N} {n : Nat} {d : Nat → Nat → N} (hm : IsMatrix mat n d)
    (hd : Dissim n d) {med : List Nat} (hv : ValidMeds n med) (hnd : med.Nodup) (hk : 2 ≤ med.length)
    {maxiter : Nat} {r : SwapResult L} (hr : IsMscRun mat med maxiter r) :
    medSil (conv : N → L) n d med ≤ medSil (conv : N → L) n d r.med ∧
    (0 < r.nSwap → medSil (conv : N → L) n d med < medSil (conv : N → L) n d r.med) ∧
    (r.nSwap = 0 → r.med = med) := by
  have h := hr.outcome hm hd hv hnd hk
  have hn : 0 < n := lt_of_lt_of_le hv.sizes.pos hv.sizes.le
  refine ⟨(medSil_le_iff hn d _ _).mpr h.chain.le, fun hs => (medSil_lt_iff hn d _ _).mpr (h.chain.lt hs),
    fun hs => ?_⟩
  exact (hs ▸ h.chain).eq_of_zero

/-- **C33.** If the iteration limit was not reached, no exchange increases the medoid silhouette. -/
theorem C33_msc [LawfulAdd N L] {mat : Mat N} {n : Nat} {d : Nat → Nat → N} (hm : IsMatrix mat n d)
    (hd : Dissim n d) {med : List Nat} (hv : ValidMeds n med) (hnd : med.Nodup) (hk : 2 ≤ med.length)
    {maxiter : Nat} {r : SwapResult L} (hr : IsMscRun mat med maxiter r) (hlt : r.nIter < maxiter) :
    SilSwapOptimal L n d r.med := by
  have h := hr.outcome hm hd hv hnd hk
  have hn : 0 < n := lt_of_lt_of_le hv.sizes.pos hv.sizes.le
  intro m j hm hj hjm
  rcases h.opt hlt j hj with h' | h'
  · exact absurd h' hjm
  · exact (medSil_le_iff hn d _ _).mpr (h' m hm)

/-- **C33, counters.** -/
theorem C33_msc_counters [LawfulAdd N L] {mat : Mat N} {n : Nat} {d : Nat → Nat → N} (hm : IsMatrix mat n d)
    (hd : Dissim n d) {med : List Nat} (hv : ValidMeds n med) (hnd : med.Nodup) (hk : 2 ≤ med.length)
    {maxiter : Nat} {r : SwapResult L} (hr : IsMscRun mat med maxiter r) :
    r.nIter ≤ maxiter ∧ r.nIter ≤ r.nSwap + 1 := by
  have h := hr.outcome hm hd hv hnd hk
  exact ⟨h.iterMax, h.iter⟩

/-! ## C34 -/

/-- **C34, three or more medoids, or one:** `fastmsc` and `pammedsil_swap` return the same. -/
theorem C34_fastmsc_partial [LawfulAdd N L] {mat : Mat N} {n : Nat} {d : Nat → Nat → N}
    (hm : IsMatrix mat n d) (hd : Dissim n d) {med : List Nat} (hv : ValidMeds n med) (hnd : med.Nodup)
    (hk : med.length ≠ 2) (maxiter : Nat) : fastmsc L mat med maxiter = pammedsilSwap L mat med maxiter := by
  rw [fastmsc_eqE hm hd hv hnd, pammedsilSwap_eq hm hv]
  congr 1
  by_cases h1 : med.length = 1
  · obtain ⟨c, rfl⟩ := List.length_eq_one_iff.mp h1
    rfl
  · have hk3 : 3 ≤ med.length := by have := hv.sizes.pos; omega
    rw [fastmscP_many d n hk3, pammedsilSwapP,
      pmsOptP_many d n (s := mpInitP L d n med) (by show 2 ≤ med.length; omega)]
    congr 1
    exact mpLoop_agree hd hk3 hv.sizes.k_lt (MInv.init hd hv hnd (by omega))

/-- **C34, two medoids:** `fastmsc` and `pammedsil_swap` return the same loss, medoids and counters.
Missing: the assignment, see `C34_negation`. -/
theorem C34_fastmsc_two_partial {mat : Mat N} {n : Nat} {d : Nat → Nat → N} (hm : IsMatrix mat n d)
    (hd : Dissim n d) {med : List Nat} (hv : ValidMeds n med) (hnd : med.Nodup) (hk : med.length = 2)
    (maxiter : Nat) :
    ∃ r r' : SwapResult L, fastmsc L mat med maxiter = .ok r ∧ pammedsilSwap L mat med maxiter = .ok r' ∧
      r.med = r'.med ∧ r.loss = r'.loss ∧ r.nIter = r'.nIter ∧ r.nSwap = r'.nSwap := by
  refine ⟨_, _, fastmsc_eqE hm hd hv hnd maxiter, pammedsilSwap_eq hm hv maxiter, ?_⟩
  obtain ⟨m0, m1, rfl⟩ := List.length_eq_two.mp hk
  rw [pammedsilSwapP, pmsOptP_many d n (s := mpInitP L d n [m0, m1]) le_rfl]
  obtain ⟨h1, h2, h3, h4⟩ := k2Loop_agree (L := L) hd hv.sizes.n_le (fuel := maxiter) (iter := 0)
    (s := k2InitP L d n m0 m1 0) (t := mpInitP L d n [m0, m1])
    ⟨m0, m1, k2InitP_ok d (hv.range m0 (by simp)) (hv.range m1 (by simp)) (by simpa using hnd) 0⟩
    (MInv.init hd hv hnd le_rfl) rfl rfl
  exact ⟨h1, congrArg (toSilhouette · n) h3, h4, h2⟩

/-! ## C35 -/

/-- **C35, what is returned for one medoid:** the smallest sum of distances, not a silhouette. -/
theorem C35_single_partial {mat : Mat N} {n : Nat} {d : Nat → Nat → N} (hm : IsMatrix mat n d)
    (hd : Dissim n d) {c : Nat} (hv : ValidMeds n [c]) (maxiter : Nat) {r : SwapResult L}
    (hr : IsMscRun mat [c] maxiter r) :
    ∃ c', c' < n ∧ r.med = [c'] ∧ r.loss = distSum (conv : N → L) n d c' ∧
      (∀ x, x < n → distSum (conv : N → L) n d c' ≤ distSum (conv : N → L) n d x) ∧
      r.assi = List.replicate n 0 ∧ medoidSilhouette L mat r.med false = .ok (1, []) := by
  have hc := hv.range c (by simp)
  have hr' : r = singleP L d n c := by
    rcases hr with h | h | h
    · rw [fastermsc_eq hm hv] at h; cases h; rfl
    · rw [fastmsc_eq_ne2 hm hv (by simp)] at h; cases h; rfl
    · rw [pammedsilSwap_eq hm hv] at h; cases h; rfl
  obtain ⟨c', h1, h2, h3, h4, -, -, -, h5⟩ := singleP_spec (L := L) hd hc
  subst hr'
  refine ⟨c', h1, h2, h3, h4, h5, ?_⟩
  rw [h2, medoidSilhouette_eq (meds := [c']) hm ⟨hv.sizes, by simpa using h1⟩]
  simp [medoidSilhouetteP, oneL]

end exact

/-- The full C34 statement; false, see `C34_negation`. -/
def C34_full : Prop := ∀ (mat : Mat ℕ) (n : Nat) (d : Nat → Nat → ℕ), IsMatrix mat n d → Dissim n d →
  ∀ med : List Nat, ValidMeds n med → med.Nodup → ∀ maxiter : Nat,
    fastmsc ℚ mat med maxiter = pammedsilSwap ℚ mat med maxiter

/-- Five objects on a line at 0, 0, 10, 10, 5. -/
def exTieRows : List (List ℕ) :=
  [[0, 0, 10, 10, 5], [0, 0, 10, 10, 5], [10, 10, 0, 0, 5], [10, 10, 0, 0, 5], [5, 5, 5, 5, 0]]

def exTieMat : Mat ℕ := ofRows exTieRows
def exTieD (x y : Nat) : ℕ := (exTieRows.getD x []).getD y 0

theorem exTieMat_isMatrix : IsMatrix exTieMat 5 exTieD :=
  ⟨rfl, rfl, fun x y hx hy => by
    have : ∀ x < 5, ∀ y < 5, exTieMat.get x y = .ok (exTieD x y) := by decide +kernel
    exact this x hx y hy⟩

theorem exTieD_dissim : Dissim 5 exTieD := ⟨by decide +kernel, fun _ _ _ _ => Nat.zero_le _⟩

/-- **C34, finding.** With two medoids `fastmsc` labels an object that is equally far from both with 1,
`pammedsil_swap` labels it with 0. -/
theorem C34_negation : ¬ C34_full := by
  intro h
  have := h exTieMat 5 exTieD exTieMat_isMatrix exTieD_dissim [0, 2]
    ⟨⟨by decide, by decide, by decide, by decide⟩, by decide⟩ (by decide) 9
  revert this
  decide +kernel

/-- The full C35 statement; false, see `C35_negation`. -/
def C35_full : Prop := ∀ (mat : Mat ℕ) (n : Nat) (d : Nat → Nat → ℕ), IsMatrix mat n d → Dissim n d →
  ∀ c : Nat, ValidMeds n [c] → ∀ (maxiter : Nat) (r : SwapResult ℚ), IsMscRun mat [c] maxiter r →
    medoidSilhouette ℚ mat r.med false = .ok (r.loss, [])

/-- **C35, finding.** With one medoid the functions return the sum of distances, here 20, although the
medoid silhouette is 1. -/
theorem C35_negation : ¬ C35_full := by
  intro h
  have := h exMat 6 exD exMat_isMatrix exD_dissim 5 (ex_valid (by decide) (by decide) (by decide)) 9
    ⟨20, [0, 0, 0, 0, 0, 0], 1, 1, [2]⟩ (Or.inl (by decide +kernel))
  revert this
  decide +kernel

/-! ## concrete cases -/

/-- Three medoids: two or three exchanges, converged. -/
example : ValidMeds 6 [0, 1, 2] ∧ ([0, 1, 2] : List Nat).Nodup ∧
    fastermsc ℚ exMat [0, 1, 2] 9 = .ok ⟨14 / 15, [1, 1, 1, 0, 0, 2], 2, 3, [4, 1, 5]⟩ ∧
    fastmsc ℚ exMat [0, 1, 2] 9 = .ok ⟨14 / 15, [1, 1, 1, 0, 0, 2], 3, 2, [4, 1, 5]⟩ ∧
    pammedsilSwap ℚ exMat [0, 1, 2] 9 = .ok ⟨14 / 15, [1, 1, 1, 0, 0, 2], 3, 2, [4, 1, 5]⟩ ∧
    medSil (conv : ℕ → ℚ) 6 exD [0, 1, 2] < 14 / 15 ∧ medSil (conv : ℕ → ℚ) 6 exD [4, 1, 5] = 14 / 15 :=
  ⟨ex_valid (by decide) (by decide) (by decide), by decide, by decide +kernel, by decide +kernel,
    by decide +kernel, by decide +kernel, by decide +kernel⟩

/-- Two medoids that are duplicates of each other. -/
example : ValidMeds 6 [0, 1] ∧ ([0, 1] : List Nat).Nodup ∧
    fastermsc ℚ exMat [0, 1] 9 = .ok ⟨13 / 15, [1, 1, 1, 0, 0, 0], 2, 3, [4, 1]⟩ ∧
    fastmsc ℚ exMat [0, 1] 9 = .ok ⟨13 / 15, [1, 1, 1, 0, 0, 0], 2, 1, [4, 1]⟩ ∧
    pammedsilSwap ℚ exMat [0, 1] 9 = .ok ⟨13 / 15, [1, 1, 1, 0, 0, 0], 2, 1, [4, 1]⟩ :=
  ⟨ex_valid (by decide) (by decide) (by decide), by decide, by decide +kernel, by decide +kernel,
    by decide +kernel⟩

/-- With two medoids a medoid need not be labelled with its own position: objects 0 and 1 coincide. -/
example : fastmsc ℚ exTieMat [0, 1] 0 = .ok ⟨2 / 5, [1, 1, 1, 1, 1], 0, 0, [0, 1]⟩ := by decide +kernel

end KMedoids
