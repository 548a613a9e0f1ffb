import Verif.Proofs.LeaveOne
import Verif.Props.C90
import Verif.Props.C65
import Verif.Props.C115

/-!
# C126: if all objects but one are medoids, one exchange gives a global optimum

With `k = n - 1` distinct medoids every other choice is one exchange away. Hence the PAM family finds, with at most one swap and
whatever the limit `max_iter ≥ 1` is, medoids of smallest total deviation among all sets of at most `n - 1` medoids; FasterMSC,
FastMSC and PAMMEDSIL find those of largest medoid silhouette among all sets of `n - 1`; and DynMSC returns nothing worse. For
`n - 2` medoids this is false, and for `alternating` it is false already for `n - 1`.
-/

set_option linter.unusedSectionVars false
set_option linter.overlappingInstances false

namespace KMedoids

open RFrom (conv)

section pam

variable {N L : Type} [LinearOrder N] [Zero N] [RDist N] [LawfulDist N]
variable [AddCommGroup L] [LinearOrder L] [IsOrderedAddMonoid L] [RLoss L] [LawfulLoss L]
variable [RFrom N L] [LawfulFrom N L]

theorem totalDev_setFn (n : Nat) (d : Nat → Nat → N) : SetFn (totalDev (conv : N → L) n d) n :=
  fun _ _ _ h => totalDev_toFinset (List.toFinset_eq_of_perm _ _ h)

/-- Best among `n - 1` is best among at most `n - 1`. -/
theorem BestButOne.all {n : Nat} {d : Nat → Nat → N} {med : List Nat} (h : BestButOne (totalDev (conv : N → L) n d) n med)
    {other : List Nat} (hne : other ≠ []) (hr : ∀ m ∈ other, m < n) (hl : other.length < n) :
    totalDev (conv : N → L) n d med ≤ totalDev (conv : N → L) n d other := by
  obtain ⟨x, hx, hxo⟩ := exists_not_mem hl
  have hmem : x ∈ List.range n := List.mem_range.mpr hx
  refine (h ((List.range n).erase x) ⟨?_, fun m hm => List.mem_range.mp (List.mem_of_mem_erase hm), List.nodup_range.erase x⟩).trans
    (totalDev_anti d hne fun y hy => (List.mem_erase_of_ne fun e : y = x => hxo (e ▸ hy)).mpr (List.mem_range.mpr (hr y hy)))
  rw [List.length_erase_of_mem hmem, List.length_range]
  omega

/-- **C126, swap-optimal medoids.** If no exchange improves `n - 1` distinct medoids, then no choice of at most `n - 1` medoids is
better. -/
theorem C126_swapOptimal {n : Nat} {d : Nat → Nat → N} {med : List Nat} (hl : med.length + 1 = n) (hr : ∀ m ∈ med, m < n)
    (hnd : med.Nodup) (h : SwapOptimal (conv : N → L) n d med) {other : List Nat} (hne : other ≠ [])
    (hr' : ∀ m ∈ other, m < n) (hl' : other.length < n) :
    totalDev (conv : N → L) n d med ≤ totalDev (conv : N → L) n d other :=
  ((⟨hl, hr, hnd⟩ : AllButOne n med).of_noBetter (totalDev_setFn n d) h).all hne hr' hl'

/-- **C126, PAM family:** `fasterpam`, `rand_fasterpam` in any order, `pam_swap` and `fastpam1` from `n - 1` distinct medoids. -/
theorem C126_pam_family {mat : Mat N} {n : Nat} {d : Nat → Nat → N} (hm : IsMatrix mat n d) (hd : Dissim n d) {med : List Nat}
    (hv : ValidMeds n med) (hnd : med.Nodup) (hk : 2 ≤ med.length) (hl : med.length + 1 = n) {maxiter : Nat} (hi : 1 ≤ maxiter)
    {r : SwapResult L} (hr : IsPamRun mat n med maxiter r) :
    (∀ other : List Nat, other ≠ [] → (∀ m ∈ other, m < n) → other.length < n → r.loss ≤ totalDev (conv : N → L) n d other) ∧
    r.nSwap ≤ 1 ∧ r.nIter = min maxiter (r.nSwap + 1) := by
  obtain ⟨fuel, rfl⟩ := Nat.exists_eq_add_of_le' hi
  have ha : AllButOne n med := ⟨hl, hv.range, hnd⟩
  have hT := totalDev_setFn (L := L) n d
  have key : ∀ e : List Nat × Nat × Nat, (r.med, r.nIter, r.nSwap) = e ∧ r.loss = totalDev (conv : N → L) n d r.med →
      AllButOne n e.1 ∧ BestButOne (totalDev (conv : N → L) n d) n e.1 ∧ e.2.2 ≤ 1 ∧ e.2.1 = min (fuel + 1) (e.2.2 + 1) →
      (∀ other : List Nat, other ≠ [] → (∀ m ∈ other, m < n) → other.length < n → r.loss ≤ totalDev (conv : N → L) n d other) ∧
      r.nSwap ≤ 1 ∧ r.nIter = min (fuel + 1) (r.nSwap + 1) := by
    rintro _ ⟨rfl, h2⟩ ⟨-, h4, h5, h6⟩
    exact ⟨fun other a b c => h2 ▸ BestButOne.all h4 a b c, h5, h6⟩
  rcases hr with h | ⟨seq, hs, h⟩ | h | h
  · exact key _ (C89_fasterpam hm hd hv hnd hk _ h) (eagerRun_allButOne hT ha (by omega) (fun j hj => List.mem_range.mp hj)
      (fun j hj => List.mem_range.mpr hj) fuel)
  · have hseq : ∀ j ∈ seq, j < n := fun j hj => List.mem_range.mp (hs.mem_iff.mp hj)
    exact key _ (C89_rand_fasterpam hm hd hv hnd hk _ hseq (hs.nodup_iff.mpr List.nodup_range) h)
      (eagerRun_allButOne hT ha (by omega) hseq (fun j hj => hs.mem_iff.mpr (List.mem_range.mpr hj)) fuel)
  · exact key _ (C90_pam_swap hm hd hv hnd hk _ h) (steepRun_allButOne hT ha fuel)
  · exact key _ (C90_fastpam1 hm hd hv hnd hk _ h) (steepRun_allButOne hT ha fuel)

/-- **C126, par_fasterpam,** for every schedule of the threads. -/
theorem C126_par_fasterpam (sc0 : Sched) {scF scS : Nat → Nat → Sched} (hF : ∀ i j, (scF i j).Ok) {mat : Mat N} {n : Nat}
    {d : Nat → Nat → N} (hm : IsMatrix mat n d) (hd : Dissim n d) {med : List Nat} (hv : ValidMeds n med) (hnd : med.Nodup)
    (hk : 2 ≤ med.length) (hl : med.length + 1 = n) {maxiter : Nat} (hi : 1 ≤ maxiter) {seq : List Nat}
    (hseq : seq.Perm (List.range n)) {r : SwapResult L} (hr : parFasterpam L sc0 scF scS mat med maxiter seq = .ok r) :
    (∀ other : List Nat, other ≠ [] → (∀ m ∈ other, m < n) → other.length < n → r.loss ≤ totalDev (conv : N → L) n d other) ∧
    r.nSwap ≤ 1 ∧ r.nIter = min maxiter (r.nSwap + 1) := by
  rw [(C17_par_fasterpam sc0 (scS := scS) hF hm hd hv hnd maxiter fun j hj => List.mem_range.mp (hseq.mem_iff.mp hj)).1] at hr
  exact C126_pam_family hm hd hv hnd hk hl hi (.inr (.inl ⟨seq, hseq, hr⟩))

/-- **C126, pam** with `k = n - 1`: BUILD and the exchanges together. If BUILD stops early, the loss is 0 already. -/
theorem C126_pam {mat : Mat N} {n : Nat} {d : Nat → Nat → N} (hm : IsMatrix mat n d) (hd : Dissim n d) (hsym : Symm n d)
    (hn : 3 ≤ n) (hs : Sizes n (n - 1)) {maxiter : Nat} (hi : 1 ≤ maxiter) {r : SwapResult L} (hr : pam L mat (n - 1) maxiter = .ok r)
    {other : List Nat} (hne : other ≠ []) (hro : ∀ m ∈ other, m < n) (hlo : other.length < n) :
    r.loss ≤ totalDev (conv : N → L) n d other := by
  have hb := pamBuild_eq (L := L) hm hs
  obtain ⟨a1, a2, a3, a4, -, -⟩ := C19_pam_build hm hd hs hb
  have h0 := (C20_pam_build hm hd hs hb).1
  rw [(C22_pam hm hd hs maxiter hb).1] at hr
  have hv : ValidMeds n (pamBuildP L d n (n - 1)).med := ⟨⟨a1, le_trans a2 hs.le, hs.n_le, lt_of_le_of_lt a2 hs.k_lt⟩, a4⟩
  rcases Nat.lt_or_ge (pamBuildP L d n (n - 1)).med.length (n - 1) with h | h
  · have ho := pam_swap_outcome hm hd hv a3 (fun _ => hsym) maxiter hr
    rw [ho.loss]
    exact ho.chain.le.trans (by rw [h0 h]; exact totalDev_nonneg hd hne hro)
  · exact (C126_pam_family hm hd hv a3 (by omega) (by omega) hi (.inr (.inr (.inl hr)))).1 other hne hro hlo

end pam

section msc

variable {N L : Type} [LinearOrder N] [Zero N] [RDist N] [LawfulDist N]
variable [Field L] [LinearOrder L] [IsStrictOrderedRing L] [RLoss L] [LawfulField L]
variable [RFrom N L] [LawfulFrom N L]

theorem medSil_setFn {n : Nat} (hn : 3 ≤ n) (d : Nat → Nat → N) : SetFn (fun m => - medSil (conv : N → L) n d m) n :=
  fun _ _ h hp => by
    have := h.length
    dsimp only
    rw [medSil_perm (by omega) hp (by omega)]

/-- **C126, swap-optimal medoids, medoid silhouette.** -/
theorem C126_silSwapOptimal {n : Nat} {d : Nat → Nat → N} {med : List Nat} (hk : 2 ≤ med.length) (hl : med.length + 1 = n)
    (hr : ∀ m ∈ med, m < n) (hnd : med.Nodup) (h : SilSwapOptimal L n d med) {other : List Nat} (hl' : other.length + 1 = n)
    (hr' : ∀ m ∈ other, m < n) (hnd' : other.Nodup) :
    medSil (conv : N → L) n d other ≤ medSil (conv : N → L) n d med :=
  neg_le_neg_iff.mp ((⟨hl, hr, hnd⟩ : AllButOne n med).of_noBetter (medSil_setFn (by omega) d)
    (fun m j hm hj hjm => neg_le_neg (h m j hm hj hjm)) other ⟨hl', hr', hnd'⟩)

/-- **C126, FasterMSC, FastMSC, PAMMEDSIL** from `n - 1` distinct medoids. -/
theorem C126_msc [LawfulAdd N L] {mat : Mat N} {n : Nat} {d : Nat → Nat → N} (hm : IsMatrix mat n d) (hd : Dissim n d)
    {med : List Nat} (hv : ValidMeds n med) (hnd : med.Nodup) (hk : 2 ≤ med.length) (hl : med.length + 1 = n) {maxiter : Nat}
    (hi : 1 ≤ maxiter) {r : SwapResult L} (hr : IsMscRun mat med maxiter r) :
    (∀ other : List Nat, other.length + 1 = n → (∀ m ∈ other, m < n) → other.Nodup →
      medSil (conv : N → L) n d other ≤ r.loss) ∧
    r.nSwap ≤ 1 ∧ r.nIter = min maxiter (r.nSwap + 1) := by
  obtain ⟨fuel, rfl⟩ := Nat.exists_eq_add_of_le' hi
  have ha : AllButOne n med := ⟨hl, hv.range, hnd⟩
  have hT := medSil_setFn (L := L) (n := n) (by omega) d
  have key : ∀ e : List Nat × Nat × Nat, (r.med, r.nIter, r.nSwap) = e ∧ r.loss = medSil (conv : N → L) n d r.med →
      AllButOne n e.1 ∧ BestButOne (fun m => - medSil (conv : N → L) n d m) n e.1 ∧ e.2.2 ≤ 1 ∧
        e.2.1 = min (fuel + 1) (e.2.2 + 1) →
      (∀ other : List Nat, other.length + 1 = n → (∀ m ∈ other, m < n) → other.Nodup →
        medSil (conv : N → L) n d other ≤ r.loss) ∧
      r.nSwap ≤ 1 ∧ r.nIter = min (fuel + 1) (r.nSwap + 1) := by
    rintro _ ⟨rfl, h2⟩ ⟨-, h4, h5, h6⟩
    exact ⟨fun other a b c => h2 ▸ neg_le_neg_iff.mp (h4 other ⟨a, b, c⟩), h5, h6⟩
  rcases hr with h | h | h
  · exact key _ (C89_fastermsc hm hd hv hnd hk _ h) (eagerRun_allButOne hT ha (by omega) (fun j hj => List.mem_range.mp hj)
      (fun j hj => List.mem_range.mpr hj) fuel)
  · exact key _ (C90_fastmsc hm hd hv hnd hk _ h) (steepRun_allButOne hT ha fuel)
  · exact key _ (C90_pammedsil_swap hm hd hv hnd hk _ h) (steepRun_allButOne hT ha fuel)

/-- **C126, DynMSC** from `n - 1` distinct medoids: with the number of medoids it chooses, it is at least as good as the best
choice of `n - 1` medoids. -/
theorem C126_dynmsc [LawfulAdd N L] {mat : Mat N} {n : Nat} {d : Nat → Nat → N} (hm : IsMatrix mat n d) (hd : Dissim n d)
    {med : List Nat} (hv : ValidMeds n med) (hnd : med.Nodup) (hk : 2 ≤ med.length) (hl : med.length + 1 = n) {mink maxiter : Nat}
    (hi : 1 ≤ maxiter) {r : DynResult L} (hr : dynmsc L mat med mink maxiter = .ok r) {other : List Nat}
    (hl' : other.length + 1 = n) (hr' : ∀ m ∈ other, m < n) (hnd' : other.Nodup) :
    medSil (conv : N → L) n d other ≤ r.loss := by
  have hf := fastermsc_eq (L := L) hm hv maxiter
  exact ((C126_msc hm hd hv hnd hk hl hi (.inl hf)).1 other hl' hr' hnd').trans (C48_dynmsc_ge hm hd hv hnd hk hr hf).2

end msc

/-! ## Examples -/

/-- Four objects; a metric. -/
def lvRows : List (List ℕ) := [[0, 19, 10, 14], [19, 0, 11, 14], [10, 11, 0, 19], [14, 14, 19, 0]]

theorem lv_isMatrix : IsMatrix (ofRows lvRows : Mat ℕ) 4 (rowsD lvRows) :=
  ⟨rfl, rfl, fun x y hx hy => by
    have : ∀ x < 4, ∀ y < 4, (ofRows lvRows : Mat ℕ).get x y = .ok (rowsD lvRows x y) := by decide +kernel
    exact this x hx y hy⟩

theorem lv_dissim : Dissim 4 (rowsD lvRows) :=
  ⟨fun x hx => by
    have : ∀ x < 4, rowsD lvRows x x = 0 := by decide +kernel
    exact this x hx, fun _ _ _ _ => Nat.zero_le _⟩

theorem lv_metric : ∀ x < 4, ∀ y < 4, ∀ z < 4, rowsD lvRows x y = rowsD lvRows y x ∧
    rowsD lvRows x z ≤ rowsD lvRows x y + rowsD lvRows y z := by decide +kernel

/-- The theorems apply to a run that needs its one swap: FasterPAM, PAM, FasterMSC and PAMMEDSIL from the medoids 0, 1, 2. -/
example : ValidMeds 4 [0, 1, 2] ∧ [0, 1, 2].Nodup ∧ [0, 1, 2].length + 1 = 4 ∧ Sizes 4 3 ∧
    fasterpam ℤ (ofRows lvRows : Mat ℕ) [0, 1, 2] 9 = .ok ⟨10, [2, 1, 2, 0], 2, 1, [3, 1, 2]⟩ ∧
    pamSwap ℤ (ofRows lvRows : Mat ℕ) [0, 1, 2] 1 = .ok ⟨10, [2, 1, 2, 0], 1, 1, [3, 1, 2]⟩ ∧
    pam ℤ (ofRows lvRows : Mat ℕ) 3 9 = .ok ⟨10, [0, 2, 0, 1], 1, 0, [2, 3, 1]⟩ ∧
    fastermsc ℚ (ofRows lvRows : Mat ℕ) [0, 1, 2] 9 = .ok ⟨23 / 28, [2, 1, 2, 0], 2, 1, [3, 1, 2]⟩ ∧
    pammedsilSwap ℚ (ofRows lvRows : Mat ℕ) [0, 1, 2] 9 = .ok ⟨23 / 28, [2, 1, 2, 0], 2, 1, [3, 1, 2]⟩ :=
  ⟨⟨⟨by decide, by decide, by decide, by decide⟩, by decide⟩, by decide, rfl, ⟨by decide, by decide, by decide, by decide⟩,
    by decide +kernel, by decide +kernel, by decide +kernel, by decide +kernel, by decide +kernel⟩

/-- **Two objects left out:** the claim is false for `n - 2` medoids. FasterPAM, PAM and FastPAM1 stop with the medoids 0, 1 of
total deviation 24, while 2, 3 have 21. -/
theorem C126_two_left_out_negation :
    ¬ ∀ (mat : Mat ℕ) (n : Nat) (d : Nat → Nat → ℕ) (med other : List Nat) (maxiter : Nat) (r : SwapResult ℤ),
      IsMatrix mat n d → Dissim n d → ValidMeds n med → med.Nodup → 2 ≤ med.length → med.length + 2 = n →
      (fasterpam ℤ mat med maxiter = .ok r ∨ pamSwap ℤ mat med maxiter = .ok r ∨ fastpam1 ℤ mat med maxiter = .ok r) →
      r.nIter < maxiter → other ≠ [] → (∀ m ∈ other, m < n) → other.length + 2 = n →
      r.loss ≤ totalDev (conv : ℕ → ℤ) n d other := by
  intro h
  have := h (ofRows lvRows) 4 (rowsD lvRows) [0, 1] [2, 3] 9 ⟨24, [0, 1, 0, 0], 1, 0, [0, 1]⟩ lv_isMatrix lv_dissim
    ⟨⟨by decide, by decide, by decide, by decide⟩, by decide⟩ (by decide) (by decide) rfl (.inl (by decide +kernel)) (by decide)
    (by decide) (by decide) rfl
  revert this
  decide +kernel

/-- All three of them, on a metric. -/
example : fasterpam ℤ (ofRows lvRows : Mat ℕ) [0, 1] 9 = .ok ⟨24, [0, 1, 0, 0], 1, 0, [0, 1]⟩ ∧
    pamSwap ℤ (ofRows lvRows : Mat ℕ) [0, 1] 9 = .ok ⟨24, [0, 1, 0, 0], 1, 0, [0, 1]⟩ ∧
    fastpam1 ℤ (ofRows lvRows : Mat ℕ) [0, 1] 9 = .ok ⟨24, [0, 1, 0, 0], 1, 0, [0, 1]⟩ ∧
    totalDev (conv : ℕ → ℤ) 4 (rowsD lvRows) [2, 3] = 21 :=
  ⟨by decide +kernel, by decide +kernel, by decide +kernel, by decide +kernel⟩

/-- **`alternating`** does not find the optimum for `n - 1` medoids: it stops with 14, the optimum is 10. -/
theorem C126_alternating_negation :
    ¬ ∀ (mat : Mat ℕ) (n : Nat) (d : Nat → Nat → ℕ) (med other : List Nat) (maxiter : Nat) (r : AltResult ℤ),
      IsMatrix mat n d → Dissim n d → ValidMeds n med → med.Nodup → 2 ≤ med.length → med.length + 1 = n →
      alternating ℤ mat med maxiter = .ok r → r.nIter < maxiter → other ≠ [] → (∀ m ∈ other, m < n) → other.length < n →
      r.loss ≤ totalDev (conv : ℕ → ℤ) n d other := by
  intro h
  have := h (ofRows lvRows) 4 (rowsD lvRows) [0, 1, 2] [0, 1, 3] 9 ⟨14, [0, 1, 2, 0], 1, [0, 1, 2]⟩ lv_isMatrix lv_dissim
    ⟨⟨by decide, by decide, by decide, by decide⟩, by decide⟩ (by decide) (by decide) rfl (by decide +kernel) (by decide)
    (by decide) (by decide) (by decide)
  revert this
  decide +kernel

/-- Four objects; a metric. -/
def lvsRows : List (List ℕ) := [[0, 5, 8, 8], [5, 0, 9, 8], [8, 9, 0, 7], [8, 8, 7, 0]]

/-- **Two objects left out, medoid silhouette:** FasterMSC, FastMSC and PAMMEDSIL stop with the medoids 0, 2, while 1, 3 are better. -/
theorem C126_sil_two_left_out_negation :
    ¬ ∀ (mat : Mat ℕ) (n : Nat) (d : Nat → Nat → ℕ) (med other : List Nat) (maxiter : Nat) (r : SwapResult ℚ),
      IsMatrix mat n d → Dissim n d → ValidMeds n med → med.Nodup → 2 ≤ med.length → med.length + 2 = n →
      (fastermsc ℚ mat med maxiter = .ok r ∨ fastmsc ℚ mat med maxiter = .ok r ∨ pammedsilSwap ℚ mat med maxiter = .ok r) →
      r.nIter < maxiter → other.Nodup → (∀ m ∈ other, m < n) → other.length + 2 = n →
      medSil (conv : ℕ → ℚ) n d other ≤ r.loss := by
  intro h
  have hm : IsMatrix (ofRows lvsRows : Mat ℕ) 4 (rowsD lvsRows) := ⟨rfl, rfl, fun x y hx hy => by
    have : ∀ x < 4, ∀ y < 4, (ofRows lvsRows : Mat ℕ).get x y = .ok (rowsD lvsRows x y) := by decide +kernel
    exact this x hx y hy⟩
  have hd : Dissim 4 (rowsD lvsRows) := ⟨fun x hx => by
    have : ∀ x < 4, rowsD lvsRows x x = 0 := by decide +kernel
    exact this x hx, fun _ _ _ _ => Nat.zero_le _⟩
  have := h (ofRows lvsRows) 4 (rowsD lvsRows) [0, 2] [1, 3] 9 ⟨185 / 288, [0, 0, 1, 1], 1, 0, [0, 2]⟩ hm hd
    ⟨⟨by decide, by decide, by decide, by decide⟩, by decide⟩ (by decide) (by decide) rfl (.inl (by decide +kernel)) (by decide)
    (by decide) (by decide) rfl
  revert this
  decide +kernel

/-- All three of them. -/
example : fastermsc ℚ (ofRows lvsRows : Mat ℕ) [0, 2] 9 = .ok ⟨185 / 288, [0, 0, 1, 1], 1, 0, [0, 2]⟩ ∧
    fastmsc ℚ (ofRows lvsRows : Mat ℕ) [0, 2] 9 = .ok ⟨185 / 288, [0, 0, 1, 1], 1, 0, [0, 2]⟩ ∧
    pammedsilSwap ℚ (ofRows lvsRows : Mat ℕ) [0, 2] 9 = .ok ⟨185 / 288, [0, 0, 1, 1], 1, 0, [0, 2]⟩ ∧
    medSil (conv : ℕ → ℚ) 4 (rowsD lvsRows) [1, 3] = 187 / 288 :=
  ⟨by decide +kernel, by decide +kernel, by decide +kernel, by decide +kernel⟩

end KMedoids
