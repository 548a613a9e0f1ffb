import Verif.Props.C61
import Verif.Props.C18_C23

/-!
# C86: PAM is steepest descent, and does not depend on the order of objects and medoids

C13 describes one iteration. Here whole runs: the medoids returned by PAM and FastPAM1 are reached by
exactly `n_swap` best exchanges, and the run ends when there is no improving exchange or the limit is
reached. If in each iteration the best exchange is unique, then renumbering the objects and reordering the
medoids changes nothing: the same medoids (renumbered), loss, numbers of iterations and swaps. The same for
BUILD and `pam`. With ties, and for FasterPAM also without, the result does depend on the order.
-/

set_option linter.unusedSectionVars false

namespace KMedoids

open RFrom (conv)

/-- `med'` comes from `med` by a best exchange: none is better, and it is an improvement. -/
def BestExchange {L : Type} [LinearOrder L] (T : List Nat → L) (n : Nat) (med med' : List Nat) : Prop :=
  ∃ b j, b < med.length ∧ j < n ∧ j ∉ med ∧ med' = med.set b j ∧ T med' < T med ∧
    ∀ m x, m < med.length → x < n → x ∉ med → T med' ≤ T (med.set m x)

/-- `med'` comes from `med` by `c` best exchanges. -/
inductive Steepest {L : Type} [LinearOrder L] (T : List Nat → L) (n : Nat) : Nat → List Nat → List Nat → Prop
  | refl (med : List Nat) : Steepest T n 0 med med
  | step {c : Nat} {med med1 med2 : List Nat} : BestExchange T n med med1 → Steepest T n c med1 med2 →
      Steepest T n (c + 1) med med2

/-- All best exchanges give the same set of medoids. -/
def UniqueBest {L : Type} [LinearOrder L] (T : List Nat → L) (n : Nat) (med : List Nat) : Prop :=
  ∀ med1 med2, BestExchange T n med med1 → BestExchange T n med med2 → med1.Perm med2

/-- The best exchange is unique throughout the descent from `med`. -/
def NoTies {L : Type} [LinearOrder L] (T : List Nat → L) (n : Nat) (med : List Nat) : Prop :=
  ∀ c med', Steepest T n c med med' → UniqueBest T n med'

variable {N L : Type} [LinearOrder N] [Zero N] [RDist N] [LawfulDist N]
variable [AddCommGroup L] [LinearOrder L] [IsOrderedAddMonoid L] [RLoss L] [LawfulLoss L]
variable [RFrom N L] [LawfulFrom N L]

/-! ## Whole runs are steepest descents -/

/-- `r` is the outcome of a steepest descent from `med`. -/
structure DescentOf (n : Nat) (d : Nat → Nat → N) (med : List Nat) (maxiter : Nat) (r : SwapResult L) : Prop where
  path : Steepest (totalDev (conv : N → L) n d) n r.nSwap med r.med
  stop : (r.nSwap = maxiter ∧ r.nIter = maxiter) ∨
    (r.nSwap < maxiter ∧ r.nIter = r.nSwap + 1 ∧ SwapOptimal (conv : N → L) n d r.med)

theorem pLoopP_descent {n k : Nat} {d : Nat → Nat → N} (hd : Dissim n d)
    {scan : List Nat → List (Rec N) → L × Nat × Nat} (hscan : GoodScan n k d scan)
    (fuel iter : Nat) {s : PState N L} (hs : PEx n k d s) :
    ∃ c, (pLoopP d scan fuel iter s).1.nSwaps = s.nSwaps + c ∧
      Steepest (totalDev (conv : N → L) n d) n c s.med (pLoopP d scan fuel iter s).1.med ∧
      ((c = fuel ∧ (pLoopP d scan fuel iter s).2 = iter + fuel) ∨
        (c < fuel ∧ (pLoopP d scan fuel iter s).2 = iter + c + 1 ∧
          SwapOptimal (conv : N → L) n d (pLoopP d scan fuel iter s).1.med)) := by
  induction fuel generalizing iter s with
  | zero => exact ⟨0, rfl, .refl _, Or.inl ⟨rfl, rfl⟩⟩
  | succ fuel ih =>
    rcases pIter hd hscan hs fuel iter with ⟨h1, h2⟩ | ⟨b, j, loss', h1, h2, h3, h4, h5, h6, h7⟩
    · rw [h2]
      exact ⟨0, rfl, .refl _, Or.inr ⟨by omega, rfl, h1⟩⟩
    · rw [h7]
      obtain ⟨c, i1, i2, i3⟩ := ih (iter + 1) h6
      refine ⟨c + 1, ?_, .step ⟨b, j, h1, h2, h3, rfl, h4, h5⟩ i2, ?_⟩
      · rw [i1]; simp only [pSwapP]; omega
      · rcases i3 with ⟨q1, q2⟩ | ⟨q1, q2, q3⟩
        · exact Or.inl ⟨by omega, by rw [q2]; omega⟩
        · exact Or.inr ⟨by omega, by rw [q2]; omega, q3⟩

theorem pOptP_descent {n : Nat} {d : Nat → Nat → N} (hd : Dissim n d) {med : List Nat}
    (hv : ValidMeds n med) (hnd : med.Nodup) (hk : 2 ≤ med.length) (maxiter : Nat)
    {scan : Nat → Nat → List Nat → List (Rec N) → L × Nat × Nat}
    (hscan : GoodScan n med.length d (scan n med.length)) :
    DescentOf n d med maxiter (pOptP d n scan med (initDataP d n med) maxiter (nearLossP L (initDataP d n med))) := by
  have hc := initDataP_ok hd hk hv hnd
  rw [pOptP_many d n _ hk]
  obtain ⟨c, h1, h2, h3⟩ := pLoopP_descent hd hscan maxiter 0
    (s := ⟨med, initDataP d n med, nearLossP L (initDataP d n med), 0⟩) ⟨hc, rfl, nearLossP_eq hc⟩
  simp only [Nat.zero_add] at h1 h3
  subst h1
  exact ⟨h2, h3⟩

/-- **C86, pam_swap:** the whole run is a steepest descent. -/
theorem C86_pam_swap_descent {mat : Mat N} {n : Nat} {d : Nat → Nat → N} (hm : IsMatrix mat n d)
    (hd : Dissim n d) {med : List Nat} (hv : ValidMeds n med) (hnd : med.Nodup) (hk : 2 ≤ med.length)
    (maxiter : Nat) {r : SwapResult L} (hr : pamSwap L mat med maxiter = .ok r) :
    DescentOf n d med maxiter r := by
  rw [pamSwap_eq hm hv maxiter] at hr
  cases hr
  exact pOptP_descent hd hv hnd hk maxiter (pamScanP_good hd)

/-- **C86, fastpam1.** -/
theorem C86_fastpam1_descent {mat : Mat N} {n : Nat} {d : Nat → Nat → N} (hm : IsMatrix mat n d)
    (hd : Dissim n d) {med : List Nat} (hv : ValidMeds n med) (hnd : med.Nodup) (hk : 2 ≤ med.length)
    (maxiter : Nat) {r : SwapResult L} (hr : fastpam1 L mat med maxiter = .ok r) :
    DescentOf n d med maxiter r := by
  rw [(C14_fastpam1_eq_pam_swap hm hd hv hnd maxiter).1] at hr
  exact C86_pam_swap_descent hm hd hv hnd hk maxiter hr

/-! ## Order -/

/-- A best exchange in the renumbered problem is one in the original problem. -/
theorem BestExchange.renumber {n : Nat} {σ : Nat → Nat} (hσ : Renumbering n σ) (d : Nat → Nat → N)
    {med med' med1' : List Nat} (hr : ∀ m ∈ med', m < n) (h : (med'.map σ).Perm med)
    (hb : BestExchange (totalDev (conv : N → L) n fun x y => d (σ x) (σ y)) n med' med1') :
    ∃ med1, BestExchange (totalDev (conv : N → L) n d) n med med1 ∧ (med1'.map σ).Perm med1 ∧
      ∀ m ∈ med1', m < n := by
  obtain ⟨b, j, h1, h2, h3, rfl, h5, h6⟩ := hb
  have hl : med'.length = med.length := by simpa using h.length_eq
  obtain ⟨b', hb', hp⟩ := perm_set h (m := b) (by simpa using h1) (σ j)
  rw [← List.map_set] at hp
  have hjm : ∀ x, x < n → x ∉ med' → σ x ∉ med := by
    intro x hx hxm hm
    obtain ⟨y, hy, e⟩ := List.mem_map.mp (h.mem_iff.mpr hm)
    exact hxm (hσ.inj y x (hr y hy) hx e ▸ hy)
  refine ⟨med.set b' (σ j), ⟨b', σ j, hb', hσ.range j h2, hjm j h2 h3, rfl, ?_, ?_⟩, hp, ?_⟩
  · rw [← C61_totalDev hσ d hp, ← C61_totalDev hσ d h]
    exact h5
  · intro m x hm hx hxm
    obtain ⟨i, hi, rfl⟩ := hσ.surj hx
    obtain ⟨m', hm', hp'⟩ := perm_set h.symm hm (σ i)
    rw [List.length_map] at hm'
    rw [← List.map_set] at hp'
    rw [← C61_totalDev hσ d hp, ← C61_totalDev hσ d hp'.symm]
    refine h6 m' i hm' hi fun hmem => hxm ?_
    exact h.mem_iff.mp (List.mem_map_of_mem hmem)
  · intro m hm
    rcases List.mem_or_eq_of_mem_set hm with hm | rfl
    · exact hr m hm
    · exact h2

theorem Steepest.not_optimal {n c : Nat} {d : Nat → Nat → N} {med med' : List Nat}
    (h : Steepest (totalDev (conv : N → L) n d) n (c + 1) med med') : ¬ SwapOptimal (conv : N → L) n d med := by
  intro ho
  cases h with
  | step hb _ =>
    obtain ⟨b, j, h1, h2, h3, rfl, h5, -⟩ := hb
    exact absurd (ho b j h1 h2 h3) (not_le.mpr h5)

/-- Two descents with the same start and limit, on a problem and a renumbering of it. -/
theorem steepest_unique {n : Nat} {σ : Nat → Nat} (hσ : Renumbering n σ) {d : Nat → Nat → N}
    {c c' maxiter : Nat} {med med' e e' : List Nat} (hr : ∀ m ∈ med', m < n) (h : (med'.map σ).Perm med)
    (hu : NoTies (totalDev (conv : N → L) n d) n med)
    (hs : Steepest (totalDev (conv : N → L) n d) n c med e)
    (hs' : Steepest (totalDev (conv : N → L) n fun x y => d (σ x) (σ y)) n c' med' e')
    (ho : c = maxiter ∨ c < maxiter ∧ SwapOptimal (conv : N → L) n d e)
    (ho' : c' = maxiter ∨ c' < maxiter ∧ SwapOptimal (conv : N → L) n (fun x y => d (σ x) (σ y)) e') :
    c' = c ∧ (e'.map σ).Perm e := by
  induction c generalizing c' maxiter med med' with
  | zero =>
    cases hs
    cases c' with
    | zero => cases hs'; exact ⟨rfl, h⟩
    | succ c' =>
      exfalso
      rcases ho with ho | ⟨-, ho⟩
      · omega
      · exact hs'.not_optimal ((C61_swapOptimal hσ d hr h).mpr ho)
  | succ c ih =>
    cases c' with
    | zero =>
      exfalso
      cases hs'
      rcases ho' with ho' | ⟨-, ho'⟩
      · omega
      · exact hs.not_optimal ((C61_swapOptimal hσ d hr h).mp ho')
    | succ c' =>
      cases hs with
      | step hb hs =>
        cases hs' with
        | step hb' hs' =>
          obtain ⟨med1, q1, q2, q3⟩ := hb'.renumber hσ d hr h
          have hp := hu 0 _ (.refl _) _ _ hb q1
          obtain ⟨i1, i2⟩ := ih (maxiter := maxiter - 1) q3 (q2.trans hp.symm)
            (fun c2 m2 h2 => hu (c2 + 1) m2 (.step hb h2)) hs hs'
            (by rcases ho with ho | ho; exacts [Or.inl (by omega), Or.inr ⟨by omega, ho.2⟩])
            (by rcases ho' with ho | ho; exacts [Or.inl (by omega), Or.inr ⟨by omega, ho.2⟩])
          exact ⟨by omega, i2⟩

theorem DescentOf.order {n : Nat} {σ : Nat → Nat} (hσ : Renumbering n σ) {d : Nat → Nat → N}
    {med med' : List Nat} (hr : ∀ m ∈ med', m < n) (h : (med'.map σ).Perm med)
    (hu : NoTies (totalDev (conv : N → L) n d) n med) {maxiter : Nat} {r r' : SwapResult L}
    (hs : DescentOf n d med maxiter r) (hs' : DescentOf n (fun x y => d (σ x) (σ y)) med' maxiter r') :
    (r'.med.map σ).Perm r.med ∧ r'.nSwap = r.nSwap ∧ r'.nIter = r.nIter := by
  obtain ⟨h1, h2⟩ := steepest_unique hσ hr h hu hs.path hs'.path
    (by rcases hs.stop with q | q; exacts [Or.inl q.1, Or.inr ⟨q.1, q.2.2⟩])
    (by rcases hs'.stop with q | q; exacts [Or.inl q.1, Or.inr ⟨q.1, q.2.2⟩])
  refine ⟨h2, h1, ?_⟩
  rcases hs.stop with q | q <;> rcases hs'.stop with q' | q' <;> omega

theorem Dissim.renumber {n : Nat} {σ : Nat → Nat} (hσ : Renumbering n σ) {d : Nat → Nat → N} (hd : Dissim n d) :
    Dissim n fun x y => d (σ x) (σ y) :=
  ⟨fun x hx => hd.diag _ (hσ.range x hx), fun x y hx hy => hd.nonneg _ _ (hσ.range x hx) (hσ.range y hy)⟩

theorem nodup_of_map {σ : Nat → Nat} {med med' : List Nat} (h : (med'.map σ).Perm med) (hnd : med.Nodup) :
    med'.Nodup := List.Nodup.of_map σ (h.nodup_iff.mpr hnd)

/-- **C86, order of objects and medoids, pam_swap:** the objects are renumbered by `σ`, and the medoids are
listed in any order. If the best exchange is always unique, the result is the same. -/
theorem C86_pam_swap_order {n : Nat} {σ : Nat → Nat} (hσ : Renumbering n σ) {d : Nat → Nat → N} {mat mat' : Mat N}
    (hm : IsMatrix mat n d) (hm' : IsMatrix mat' n fun x y => d (σ x) (σ y)) (hd : Dissim n d) {med med' : List Nat}
    (hv : ValidMeds n med) (hv' : ValidMeds n med') (hnd : med.Nodup) (hk : 2 ≤ med.length)
    (h : (med'.map σ).Perm med) (hu : NoTies (totalDev (conv : N → L) n d) n med) {maxiter : Nat}
    {r r' : SwapResult L} (hr : pamSwap L mat med maxiter = .ok r) (hr' : pamSwap L mat' med' maxiter = .ok r') :
    (r'.med.map σ).Perm r.med ∧ r'.nSwap = r.nSwap ∧ r'.nIter = r.nIter ∧ r'.loss = r.loss := by
  have hl : med'.length = med.length := by simpa using h.length_eq
  have hnd' := nodup_of_map h hnd
  have hd' := hd.renumber hσ
  obtain ⟨h1, h2, h3⟩ := (C86_pam_swap_descent hm hd hv hnd hk maxiter hr).order hσ hv'.range h hu
    (C86_pam_swap_descent hm' hd' hv' hnd' (by omega) maxiter hr')
  refine ⟨h1, h2, h3, ?_⟩
  rw [(pam_swap_outcome hm hd hv hnd (by omega) maxiter hr).loss,
    (pam_swap_outcome hm' hd' hv' hnd' (by omega) maxiter hr').loss, C61_totalDev hσ d h1]

/-- **C86, order of objects and medoids, fastpam1.** -/
theorem C86_fastpam1_order {n : Nat} {σ : Nat → Nat} (hσ : Renumbering n σ) {d : Nat → Nat → N} {mat mat' : Mat N}
    (hm : IsMatrix mat n d) (hm' : IsMatrix mat' n fun x y => d (σ x) (σ y)) (hd : Dissim n d) {med med' : List Nat}
    (hv : ValidMeds n med) (hv' : ValidMeds n med') (hnd : med.Nodup) (hk : 2 ≤ med.length)
    (h : (med'.map σ).Perm med) (hu : NoTies (totalDev (conv : N → L) n d) n med) {maxiter : Nat}
    {r r' : SwapResult L} (hr : fastpam1 L mat med maxiter = .ok r) (hr' : fastpam1 L mat' med' maxiter = .ok r') :
    (r'.med.map σ).Perm r.med ∧ r'.nSwap = r.nSwap ∧ r'.nIter = r.nIter ∧ r'.loss = r.loss := by
  rw [(C14_fastpam1_eq_pam_swap hm hd hv hnd maxiter).1] at hr
  rw [(C14_fastpam1_eq_pam_swap hm' (hd.renumber hσ) hv' (nodup_of_map h hnd) maxiter).1] at hr'
  exact C86_pam_swap_order hσ hm hm' hd hv hv' hnd hk h hu hr hr'

/-- **C86, order of the medoids:** reordering the initial medoids changes nothing but the order of the result. -/
theorem C86_medoid_order {n : Nat} {d : Nat → Nat → N} {mat : Mat N} (hm : IsMatrix mat n d) (hd : Dissim n d)
    {med med' : List Nat} (hv : ValidMeds n med) (hnd : med.Nodup) (hk : 2 ≤ med.length) (h : med'.Perm med)
    (hu : NoTies (totalDev (conv : N → L) n d) n med) {maxiter : Nat} {r r' : SwapResult L}
    (hr : pamSwap L mat med maxiter = .ok r) (hr' : pamSwap L mat med' maxiter = .ok r') :
    r'.med.Perm r.med ∧ r'.nSwap = r.nSwap ∧ r'.nIter = r.nIter ∧ r'.loss = r.loss := by
  have hσ : Renumbering n id := ⟨fun _ h => h, fun _ _ _ _ h => h⟩
  have hv' : ValidMeds n med' := ⟨h.length_eq ▸ hv.sizes, fun m hm => hv.range m (h.mem_iff.mp hm)⟩
  have := C86_pam_swap_order hσ hm (mat' := mat) hm hd hv hv' hnd hk (by simpa using h) hu hr hr'
  simpa using this

/-! ## BUILD -/

/-- BUILD adds a medoid only if the loss decreases strictly. -/
theorem buildLoopP_strict {n k : Nat} {d : Nat → Nat → N} (hd : Dissim n d) (hk : k < u32Max) {cnt : Nat}
    {meds : List Nat} {data : List (Rec N)} {loss : L} (h : BuildInv n d meds data loss)
    (hcnt : meds.length + cnt ≤ k) :
    let r := buildLoopP d n k (List.range' meds.length cnt) meds data loss
    (∃ ext, r.1 = meds ++ ext) ∧
    ∀ l, meds.length ≤ l → l < r.1.length →
      totalDev (conv : N → L) n d (r.1.take (l + 1)) < totalDev (conv : N → L) n d (r.1.take l) := by
  induction cnt generalizing meds data loss with
  | zero =>
    refine ⟨⟨[], by simp [buildLoopP]⟩, fun l h1 h2 => ?_⟩
    simp only [List.range'_zero, buildLoopP] at h2
    omega
  | succ cnt ih =>
    obtain ⟨b1, b2, b3⟩ := build_next (k := k) hd h
    rw [List.range'_succ]
    unfold buildLoopP
    generalize argminP (buildSumP L d (data.map (·.near.d))) n k = best at *
    simp only [rgeL, zeroL, decide_eq_true_eq]
    split
    · exact ⟨⟨[], by simp⟩, fun l h1 h2 => absurd h2 (by simp only; omega)⟩
    · rename_i hlt
      have hlt := not_le.mp hlt
      rw [b2] at hlt
      have hlt := sub_neg.mp hlt
      have hnm : best.2 ∉ meds := fun hm => by
        rw [totalDev_append_mem hm] at hlt; exact lt_irrefl _ hlt
      have hnd : (meds ++ [best.2]).Nodup := by
        rw [List.nodup_append]
        exact ⟨h.nodup, by simp, fun a ha b hb => by
          rw [List.mem_singleton.mp hb]; rintro rfl; exact hnm ha⟩
      have hr : ∀ m ∈ meds ++ [best.2], m < n := by
        intro m hm
        rcases List.mem_append.mp hm with hm | hm
        · exact h.range m hm
        · rw [List.mem_singleton.mp hm]; exact b1
      have hdata : data.zipIdx.map (buildRecP d meds.length best.2) = initDataP d n (meds ++ [best.2]) := by
        rw [h.data, buildData_eq hd h.ne b1]
      rw [hdata]
      have hinv : BuildInv n d (meds ++ [best.2]) (initDataP d n (meds ++ [best.2]))
          (buildLoss L best.2 (initDataP d n (meds ++ [best.2]))) :=
        ⟨by simp, hnd, hr, by simp; omega, rfl,
          buildLoss_eq hd (by simp) hnd hr (by simp; omega) (by simp)⟩
      have := ih hinv (by simp; omega)
      simp only [List.length_append, List.length_singleton] at this
      obtain ⟨⟨ext, i3⟩, i4⟩ := this
      refine ⟨⟨best.2 :: ext, by rw [i3]; simp⟩, fun l h1 h2 => ?_⟩
      by_cases hl : l = meds.length
      · subst hl
        rw [i3]
        rw [List.append_assoc, List.take_left, List.singleton_append]
        rw [show (meds ++ best.2 :: ext).take (meds.length + 1) = meds ++ [best.2] by
          rw [List.take_append]; simp]
        exact hlt
      · exact i4 l (by omega) h2

/-- **C86, BUILD:** every medoid but the first was added because it decreases the total deviation strictly. -/
theorem C86_pam_build_strict {mat : Mat N} {n k : Nat} {d : Nat → Nat → N} (hm : IsMatrix mat n d)
    (hd : Dissim n d) (hs : Sizes n k) {r : BuildResult L} (hr : pamBuild L mat k = .ok r) {l : Nat} (h1 : 1 ≤ l)
    (hl : l < r.med.length) :
    totalDev (conv : N → L) n d (r.med.take (l + 1)) < totalDev (conv : N → L) n d (r.med.take l) := by
  rw [pamBuild_eq hm hs] at hr
  cases hr
  have hn : 0 < n := by have := hs.pos; have := hs.le; omega
  obtain ⟨a1, a2, a3⟩ := argminP_spec (buildFirstSumP L d n) k hn
  have hinv : BuildInv n d [(argminP (buildFirstSumP L d n) n k).2]
      (buildInitP d n (argminP (buildFirstSumP L d n) n k).2) (argminP (buildFirstSumP L d n) n k).1 :=
    ⟨by simp, by simp, by simpa using a1, by simp [u32Max], rfl, by rw [a2, buildFirstSumP_eq hd a1]⟩
  obtain ⟨-, b⟩ := buildLoopP_strict hd hs.k_lt (cnt := k - 1) hinv (by simp; have := hs.pos; omega)
  exact b l h1 hl

/-- Every choice of BUILD was the only best one. -/
def UniqueGreedy (T : List Nat → L) (n : Nat) (meds : List Nat) : Prop :=
  ∀ l c : Nat, meds[l]? = some c → ∀ x, x < n → T (meds.take l ++ [x]) ≤ T (meds.take l ++ [c]) → x = c

/-- **C86, order of the objects, pam_build:** the same medoids in the same order, and the same loss. -/
theorem C86_pam_build_order {n k : Nat} {σ : Nat → Nat} (hσ : Renumbering n σ) {d : Nat → Nat → N} {mat mat' : Mat N}
    (hm : IsMatrix mat n d) (hm' : IsMatrix mat' n fun x y => d (σ x) (σ y)) (hd : Dissim n d) (hs : Sizes n k)
    {r r' : BuildResult L} (hr : pamBuild L mat k = .ok r) (hr' : pamBuild L mat' k = .ok r')
    (hu : UniqueGreedy (totalDev (conv : N → L) n d) n r.med) :
    r'.med.map σ = r.med ∧ r'.loss = r.loss := by
  have hd' := hd.renumber hσ
  obtain ⟨a1, a2, a3, a4, a5, a6⟩ := C19_pam_build hm hd hs hr
  obtain ⟨b1, b2, b3, b4, b5, b6⟩ := C19_pam_build hm' hd' hs hr'
  have hg' := (C21_pam_build hm' hd' hs hr').2
  have pre : ∀ l, l ≤ r.med.length → l ≤ r'.med.length → (r'.med.take l).map σ = r.med.take l := by
    intro l
    induction l with
    | zero => intros; rfl
    | succ l ih =>
      intro h1 h2
      have i := ih (by omega) (by omega)
      have e1 : r.med[l]? = some r.med[l] := List.getElem?_eq_getElem (by omega)
      have e2 : r'.med[l]? = some r'.med[l] := List.getElem?_eq_getElem (by omega)
      rw [List.take_add_one, List.take_add_one, e1, e2, List.map_append, i]
      congr 1
      simp only [Option.toList_some, List.map_cons, List.map_nil, List.cons.injEq, and_true]
      obtain ⟨x, hx, ex⟩ := hσ.surj (a4 _ (List.getElem_mem (by omega : l < r.med.length)))
      refine hu l _ e1 _ (hσ.range _ (b4 _ (List.getElem_mem _))) ?_
      have := hg' l _ e2 x hx
      rw [C61_totalDev hσ d (med := r.med.take l ++ [σ r'.med[l]])
        (by rw [List.map_append, i]; exact List.Perm.refl _),
        C61_totalDev hσ d (med := r.med.take l ++ [σ x])
        (by rw [List.map_append, i]; exact List.Perm.refl _), ex] at this
      exact this
  have pos : ∀ {ms : List Nat} {e : Nat → Nat → N}, Dissim n e → (∀ m ∈ ms, m < n) → ms ≠ [] →
      0 ≤ totalDev (conv : N → L) n e ms := by
    intro ms e he hr hne
    refine List.sum_nonneg fun x hx => ?_
    obtain ⟨o, ho, rfl⟩ := List.mem_map.mp hx
    obtain ⟨⟨c, hc, e'⟩, -⟩ := minDist_spec e o ms hne
    rw [e', ← LawfulFrom.map_zero (N := N) (L := L)]
    exact LawfulFrom.strictMono.monotone (he.nonneg o c (List.mem_range.mp ho) (hr c hc))
  have hl : r'.med.length = r.med.length := by
    rcases lt_trichotomy r'.med.length r.med.length with h | h | h
    · exfalso
      have hz := (C20_pam_build hm' hd' hs hr').1 (by omega)
      have e := pre _ (le_of_lt h) (le_refl _)
      rw [List.take_length] at e
      have hst := C86_pam_build_strict hm hd hs hr (by omega) h
      rw [← e, ← C61_totalDev hσ d (List.Perm.refl _), hz] at hst
      exact absurd hst (not_lt.mpr (pos hd (fun m hm => a4 m (List.mem_of_mem_take hm))
        (fun h => by have := congrArg List.length h; simp at this; rw [this] at a1; simp at a1)))
    · exact h
    · exfalso
      have hz := (C20_pam_build hm hd hs hr).1 (by omega)
      have e := pre _ (le_refl _) (le_of_lt h)
      rw [List.take_length] at e
      have hst := C86_pam_build_strict hm' hd' hs hr' (by omega) h
      rw [C61_totalDev hσ d (List.Perm.of_eq e), hz] at hst
      exact absurd hst (not_lt.mpr (pos hd' (fun m hm => b4 m (List.mem_of_mem_take hm))
        (fun h => by have := congrArg List.length h; simp at this; rw [this] at b1; simp at b1)))
  have e := pre r.med.length (le_refl _) (by omega)
  rw [List.take_length, ← hl, List.take_length] at e
  exact ⟨e, by rw [a6, b6, C61_totalDev hσ d (List.Perm.of_eq e)]⟩

/-- **C86, order of the objects, pam.** -/
theorem C86_pam_order {n k : Nat} {σ : Nat → Nat} (hσ : Renumbering n σ) {d : Nat → Nat → N} {mat mat' : Mat N}
    (hm : IsMatrix mat n d) (hm' : IsMatrix mat' n fun x y => d (σ x) (σ y)) (hd : Dissim n d) (hs : Sizes n k)
    {b : BuildResult L} (hb : pamBuild L mat k = .ok b) (hk : 2 ≤ b.med.length)
    (hu : UniqueGreedy (totalDev (conv : N → L) n d) n b.med)
    (hu' : NoTies (totalDev (conv : N → L) n d) n b.med) {maxiter : Nat} {r r' : SwapResult L}
    (hr : pam L mat k maxiter = .ok r) (hr' : pam L mat' k maxiter = .ok r') :
    (r'.med.map σ).Perm r.med ∧ r'.nSwap = r.nSwap ∧ r'.nIter = r.nIter ∧ r'.loss = r.loss := by
  have hd' := hd.renumber hσ
  have hb' := pamBuild_eq (L := L) hm' hs
  obtain ⟨a1, a2, a3, a4, -, -⟩ := C19_pam_build hm hd hs hb
  obtain ⟨b1, b2, b3, b4, -, -⟩ := C19_pam_build hm' hd' hs hb'
  rw [(C22_pam hm hd hs maxiter hb).1] at hr
  rw [(C22_pam hm' hd' hs maxiter hb').1] at hr'
  have e := (C86_pam_build_order hσ hm hm' hd hs hb hb' hu).1
  have hv : ValidMeds n b.med := ⟨⟨by omega, by have := hs.le; omega, hs.n_le, by have := hs.k_lt; omega⟩, a4⟩
  have hl : (pamBuildP L (fun x y => d (σ x) (σ y)) n k).med.length = b.med.length := by
    rw [← e, List.length_map]
  refine C86_pam_swap_order hσ hm hm' hd hv ⟨hl ▸ hv.sizes, b4⟩ a3 hk (List.Perm.of_eq e) hu' hr hr'

/-! ## Examples -/

/-- If different sets of `k` medoids have different total deviations, there are no ties. -/
theorem noTies_of_injective {M : Type} [LinearOrder M] {T : List Nat → M} {n k : Nat}
    (hT : ∀ a b : List Nat, a.length = k → b.length = k → a.Nodup → b.Nodup → (∀ m ∈ a, m < n) → (∀ m ∈ b, m < n) →
      T a = T b → a.Perm b)
    {med : List Nat} (hl : med.length = k) (hnd : med.Nodup) (hr : ∀ m ∈ med, m < n) : NoTies T n med := by
  have step : ∀ {a a' : List Nat}, a.length = k → a.Nodup → (∀ m ∈ a, m < n) → BestExchange T n a a' →
      a'.length = k ∧ a'.Nodup ∧ ∀ m ∈ a', m < n := by
    rintro a a' h1 h2 h3 ⟨b, j, q1, q2, q3, rfl, -, -⟩
    refine ⟨by simp [h1], h2.set q3, fun m hm => ?_⟩
    rcases List.mem_or_eq_of_mem_set hm with hm | rfl
    · exact h3 m hm
    · exact q2
  intro c med' hs
  have key : med'.length = k ∧ med'.Nodup ∧ ∀ m ∈ med', m < n := by
    induction hs with
    | refl => exact ⟨hl, hnd, hr⟩
    | step hb _ ih =>
      obtain ⟨q1, q2, q3⟩ := step hl hnd hr hb
      exact ih q1 q2 q3
  obtain ⟨k1, k2, k3⟩ := key
  intro m1 m2 h1 h2
  obtain ⟨q1, q2, q3⟩ := step k1 k2 k3 h1
  obtain ⟨p1, p2, p3⟩ := step k1 k2 k3 h2
  refine hT m1 m2 q1 p1 q2 p2 q3 p3 ?_
  obtain ⟨b, j, e1, e2, e3, rfl, -, e6⟩ := h1
  obtain ⟨b', j', f1, f2, f3, rfl, -, f6⟩ := h2
  exact le_antisymm (e6 b' j' f1 f2 f3) (f6 b j e1 e2 e3)

/-- Five objects, and all pairs of medoids have different total deviations. -/
def ordRows : List (List ℕ) :=
  [[0, 3, 5, 12, 6], [3, 0, 1, 10, 8], [5, 1, 0, 4, 10], [12, 10, 4, 0, 12], [6, 8, 10, 12, 0]]

def ordD (x y : Nat) : ℕ := (ordRows.getD x []).getD y 0

/-- A renumbering of five objects. -/
def ordσ (x : Nat) : Nat := [3, 1, 2, 4, 0].getD x 0

/-- The same objects in the order `3, 1, 2, 4, 0`. -/
def ordRows' : List (List ℕ) :=
  [[0, 10, 4, 12, 12], [10, 0, 1, 8, 3], [4, 1, 0, 10, 5], [12, 8, 10, 0, 6], [12, 3, 5, 6, 0]]

theorem ordMat_isMatrix : IsMatrix (ofRows ordRows) 5 ordD :=
  ⟨rfl, rfl, fun x y hx hy => by
    have : ∀ x < 5, ∀ y < 5, (ofRows ordRows).get x y = .ok (ordD x y) := by decide +kernel
    exact this x hx y hy⟩

theorem ordMat'_isMatrix : IsMatrix (ofRows ordRows') 5 fun x y => ordD (ordσ x) (ordσ y) :=
  ⟨rfl, rfl, fun x y hx hy => by
    have : ∀ x < 5, ∀ y < 5, (ofRows ordRows').get x y = .ok (ordD (ordσ x) (ordσ y)) := by decide +kernel
    exact this x hx y hy⟩

theorem ordD_dissim : Dissim 5 ordD := ⟨by decide +kernel, fun _ _ _ _ => Nat.zero_le _⟩

theorem ordσ_renumbering : Renumbering 5 ordσ :=
  ⟨by decide +kernel, fun i j hi hj => by
    have : ∀ i < 5, ∀ j < 5, ordσ i = ordσ j → i = j := by decide +kernel
    exact this i hi j hj⟩

theorem ord_noTies {a b : Nat} (ha : a < 5) (hb : b < 5) (hab : a ≠ b) :
    NoTies (totalDev (conv : ℕ → ℤ) 5 ordD) 5 [a, b] := by
  refine noTies_of_injective (k := 2) ?_ rfl (by simpa using hab) (by
    intro m hm
    simp only [List.mem_cons, List.not_mem_nil, or_false] at hm
    omega)
  intro p q hp hq np nq rp rq e
  obtain ⟨x, y, rfl⟩ := List.length_eq_two.mp hp
  obtain ⟨u, v, rfl⟩ := List.length_eq_two.mp hq
  have key : ∀ x ∈ List.range 5, ∀ y ∈ List.range 5, ∀ u ∈ List.range 5, ∀ v ∈ List.range 5, (x ≠ y ∧ u ≠ v ∧
      totalDev (conv : ℕ → ℤ) 5 ordD [x, y] = totalDev (conv : ℕ → ℤ) 5 ordD [u, v]) →
      (x = u ∧ y = v ∨ x = v ∧ y = u) := by decide +kernel
  rcases key x (List.mem_range.mpr (rp x (by simp))) y (List.mem_range.mpr (rp y (by simp)))
    u (List.mem_range.mpr (rq u (by simp))) v (List.mem_range.mpr (rq v (by simp)))
    ⟨by simpa using np, by simpa using nq, e⟩ with ⟨rfl, rfl⟩ | ⟨rfl, rfl⟩
  · exact List.Perm.refl _
  · exact List.Perm.swap _ _ _

theorem ord_uniqueGreedy : UniqueGreedy (totalDev (conv : ℕ → ℤ) 5 ordD) 5 [2, 4] := by
  intro l c hl x hx
  match l, hl with
  | 0, hl =>
    cases hl
    have : ∀ x < 5, totalDev (conv : ℕ → ℤ) 5 ordD [x] ≤ totalDev (conv : ℕ → ℤ) 5 ordD [2] → x = 2 := by
      decide +kernel
    exact this x hx
  | 1, hl =>
    cases hl
    have : ∀ x < 5, totalDev (conv : ℕ → ℤ) 5 ordD [2, x] ≤ totalDev (conv : ℕ → ℤ) 5 ordD [2, 4] → x = 4 := by
      decide +kernel
    exact this x hx
  | l + 2, hl => simp at hl

/-- The hypotheses of the theorems on the order are met, and the runs make exchanges. -/
example : Renumbering 5 ordσ ∧ IsMatrix (ofRows ordRows) 5 ordD ∧ Dissim 5 ordD ∧
    IsMatrix (ofRows ordRows') 5 (fun x y => ordD (ordσ x) (ordσ y)) ∧
    NoTies (totalDev (conv : ℕ → ℤ) 5 ordD) 5 [0, 1] ∧ ([1, 4].map ordσ).Perm [0, 1] ∧
    pamSwap ℤ (ofRows ordRows) [0, 1] 9 = .ok ⟨10, [1, 1, 1, 1, 0], 3, 2, [4, 2]⟩ ∧
    pamSwap ℤ (ofRows ordRows') [1, 4] 9 = .ok ⟨10, [0, 0, 0, 1, 0], 3, 2, [2, 3]⟩ ∧
    UniqueGreedy (totalDev (conv : ℕ → ℤ) 5 ordD) 5 [2, 4] ∧ NoTies (totalDev (conv : ℕ → ℤ) 5 ordD) 5 [2, 4] ∧
    pamBuild ℤ (ofRows ordRows) 2 = .ok ⟨10, [0, 0, 0, 0, 1], [2, 4]⟩ ∧
    pamBuild ℤ (ofRows ordRows') 2 = .ok ⟨10, [0, 0, 0, 1, 0], [2, 3]⟩ :=
  ⟨ordσ_renumbering, ordMat_isMatrix, ordD_dissim, ordMat'_isMatrix, ord_noTies (by decide) (by decide) (by decide),
    List.Perm.swap _ _ _, by decide +kernel, by decide +kernel, ord_uniqueGreedy,
    ord_noTies (by decide) (by decide) (by decide), by decide +kernel, by decide +kernel⟩

/-! ## Where the order matters -/

/-- **C86, FasterPAM depends on the order:** there are no ties at all and the matrix is symmetric, but the
renumbered objects end with another loss, since FasterPAM takes the first improvement. -/
theorem C86_fasterpam_order_negation :
    ¬ ∀ (n : Nat) (σ : Nat → Nat) (d : Nat → Nat → ℕ) (mat mat' : Mat ℕ) (med med' : List Nat) (maxiter : Nat)
      (r r' : SwapResult ℤ), Renumbering n σ → IsMatrix mat n d → IsMatrix mat' n (fun x y => d (σ x) (σ y)) →
      Dissim n d → Symm n d → ValidMeds n med → ValidMeds n med' → med.Nodup → 2 ≤ med.length →
      (med'.map σ).Perm med → NoTies (totalDev (conv : ℕ → ℤ) n d) n med → fasterpam ℤ mat med maxiter = .ok r →
      fasterpam ℤ mat' med' maxiter = .ok r' → r'.loss = r.loss := by
  intro h
  have := h 5 ordσ ordD (ofRows ordRows) (ofRows ordRows') [0, 1] [4, 1] 9 ⟨10, [1, 1, 1, 1, 0], 2, 2, [4, 2]⟩
    ⟨12, [0, 1, 1, 1, 1], 2, 1, [0, 1]⟩ ordσ_renumbering ordMat_isMatrix ordMat'_isMatrix ordD_dissim
    (fun x y hx hy => by
      have : ∀ x < 5, ∀ y < 5, ordD x y = ordD y x := by decide +kernel
      exact this x hx y hy)
    ⟨⟨by decide, by decide, by decide, by decide⟩, by decide⟩
    ⟨⟨by decide, by decide, by decide, by decide⟩, by decide⟩ (by decide) (by decide) (List.Perm.refl _)
    (ord_noTies (by decide) (by decide) (by decide)) (by decide +kernel) (by decide +kernel)
  exact absurd this (by decide)

/-- Five objects with ties. -/
def tiedRows : List (List ℕ) :=
  [[0, 2, 1, 2, 2], [2, 0, 1, 1, 3], [1, 1, 0, 1, 2], [2, 1, 1, 0, 3], [2, 3, 2, 3, 0]]

def tiedD (x y : Nat) : ℕ := (tiedRows.getD x []).getD y 0

def tieσ (x : Nat) : Nat := [2, 4, 0, 3, 1].getD x 0

/-- The same objects in the order `2, 4, 0, 3, 1`. -/
def tiedRows' : List (List ℕ) :=
  [[0, 2, 1, 1, 1], [2, 0, 2, 3, 3], [1, 2, 0, 2, 2], [1, 3, 2, 0, 1], [1, 3, 2, 1, 0]]

/-- **C86, with ties PAM depends on the order:** the same for `pam_swap` without the assumption on ties. -/
theorem C86_ties_negation :
    ¬ ∀ (n : Nat) (σ : Nat → Nat) (d : Nat → Nat → ℕ) (mat mat' : Mat ℕ) (med med' : List Nat) (maxiter : Nat)
      (r r' : SwapResult ℤ), Renumbering n σ → IsMatrix mat n d → IsMatrix mat' n (fun x y => d (σ x) (σ y)) →
      Dissim n d → Symm n d → ValidMeds n med → ValidMeds n med' → med.Nodup → 2 ≤ med.length →
      (med'.map σ).Perm med → pamSwap ℤ mat med maxiter = .ok r →
      pamSwap ℤ mat' med' maxiter = .ok r' → r'.loss = r.loss := by
  intro h
  have := h 5 tieσ tiedD (ofRows tiedRows) (ofRows tiedRows') [3, 1] [3, 4] 9 ⟨4, [0, 1, 1, 1, 0], 2, 1, [0, 1]⟩
    ⟨3, [0, 1, 0, 0, 0], 3, 2, [0, 1]⟩
    ⟨by decide +kernel, fun i j hi hj => by
      have : ∀ i < 5, ∀ j < 5, tieσ i = tieσ j → i = j := by decide +kernel
      exact this i hi j hj⟩
    ⟨rfl, rfl, fun x y hx hy => by
      have : ∀ x < 5, ∀ y < 5, (ofRows tiedRows).get x y = .ok (tiedD x y) := by decide +kernel
      exact this x hx y hy⟩
    ⟨rfl, rfl, fun x y hx hy => by
      have : ∀ x < 5, ∀ y < 5, (ofRows tiedRows').get x y = .ok (tiedD (tieσ x) (tieσ y)) := by decide +kernel
      exact this x hx y hy⟩
    ⟨by decide +kernel, fun _ _ _ _ => Nat.zero_le _⟩
    (fun x y hx hy => by
      have : ∀ x < 5, ∀ y < 5, tiedD x y = tiedD y x := by decide +kernel
      exact this x hx y hy)
    ⟨⟨by decide, by decide, by decide, by decide⟩, by decide⟩
    ⟨⟨by decide, by decide, by decide, by decide⟩, by decide⟩ (by decide) (by decide) (List.Perm.refl _)
    (by decide +kernel) (by decide +kernel)
  exact absurd this (by decide)

end KMedoids
