import Verif.Props.C98
import Verif.Props.C39_C43

/-!
# C132: only the ranking of the solutions matters, and small errors in the distances change nothing

The searches look at the distances only to compare solutions. Two matrices, possibly with other number types and other loss types, that
rank the sets of `k` medoids in the same way lead to the same medoids after the same swaps and iterations. So errors in the distances have
no effect at all as long as they are smaller than a bound that depends on the gaps between the solutions: with an error of at most `ε` in every
distance, the total deviation of `k` medoids changes by at most `(n - k) ε`, and gaps of more than `2 (n - k) ε` are enough. This bound is
exact. That the distances themselves are ranked in the same way is not enough.
-/

set_option linter.unusedSectionVars false
set_option linter.overlappingInstances false

namespace KMedoids

open RFrom (conv)

/-- What two runs with different loss types have in common. -/
structure SameSearch {L M : Type} (r : SwapResult L) (r' : SwapResult M) : Prop where
  med : r'.med = r.med
  nIter : r'.nIter = r.nIter
  nSwap : r'.nSwap = r.nSwap

theorem SameSearch.of {L M : Type} {r : SwapResult L} {r' : SwapResult M}
    (h : (r'.med, r'.nIter, r'.nSwap) = (r.med, r.nIter, r.nSwap)) : SameSearch r r' := by
  simp only [Prod.mk.injEq] at h
  exact ⟨h.1, h.2.1, h.2.2⟩

/-! ## The ranking decides -/

section rank

variable {N N' L M : Type} [LinearOrder N] [Zero N] [RDist N] [LawfulDist N]
variable [LinearOrder N'] [Zero N'] [RDist N'] [LawfulDist N']
variable [AddCommGroup L] [LinearOrder L] [IsOrderedAddMonoid L] [RLoss L] [LawfulLoss L]
variable [AddCommGroup M] [LinearOrder M] [IsOrderedAddMonoid M] [RLoss M] [LawfulLoss M]
variable [RFrom N L] [LawfulFrom N L] [RFrom N' M] [LawfulFrom N' M]
variable {n : Nat} {d : Nat → Nat → N} {d' : Nat → Nat → N'} {mat : Mat N} {mat' : Mat N'} {med : List Nat}

/-- **C132, rand_fasterpam** with the same order of the objects. -/
theorem C132_rand_fasterpam (hm : IsMatrix mat n d) (hm' : IsMatrix mat' n d') (hd : Dissim n d) (hd' : Dissim n d')
    (hv : ValidMeds n med) (hnd : med.Nodup) (hk : 2 ≤ med.length)
    (h : SameOrder n med.length (totalDev (conv : N → L) n d) (totalDev (conv : N' → M) n d')) (maxiter : Nat) {seq : List Nat}
    (hseq : ∀ j ∈ seq, j < n) (hsn : seq.Nodup) {r : SwapResult L} {r' : SwapResult M}
    (hr : randFasterpam L mat med maxiter seq = .ok r) (hr' : randFasterpam M mat' med maxiter seq = .ok r') : SameSearch r r' := by
  refine .of ?_
  rw [(C89_rand_fasterpam hm hd hv hnd hk maxiter hseq hsn hr).1, (C89_rand_fasterpam hm' hd' hv hnd hk maxiter hseq hsn hr').1]
  exact h.eagerRun hseq maxiter (hv.distinct hnd)

/-- **C132, fasterpam.** -/
theorem C132_fasterpam (hm : IsMatrix mat n d) (hm' : IsMatrix mat' n d') (hd : Dissim n d) (hd' : Dissim n d')
    (hv : ValidMeds n med) (hnd : med.Nodup) (hk : 2 ≤ med.length)
    (h : SameOrder n med.length (totalDev (conv : N → L) n d) (totalDev (conv : N' → M) n d')) (maxiter : Nat)
    {r : SwapResult L} {r' : SwapResult M}
    (hr : fasterpam L mat med maxiter = .ok r) (hr' : fasterpam M mat' med maxiter = .ok r') : SameSearch r r' := by
  rw [fasterpam_eq_rand, hm.len] at hr
  rw [fasterpam_eq_rand, hm'.len] at hr'
  exact C132_rand_fasterpam hm hm' hd hd' hv hnd hk h maxiter (fun j hj => List.mem_range.mp hj) List.nodup_range hr hr'

/-- **C132, par_fasterpam** with the same order of the objects, for all schedules of the threads of the two runs. -/
theorem C132_par_fasterpam (sc0 sc0' : Sched) {scF scS scF' scS' : Nat → Nat → Sched} (hF : ∀ i j, (scF i j).Ok)
    (hF' : ∀ i j, (scF' i j).Ok) (hm : IsMatrix mat n d) (hm' : IsMatrix mat' n d') (hd : Dissim n d) (hd' : Dissim n d')
    (hv : ValidMeds n med) (hnd : med.Nodup) (hk : 2 ≤ med.length)
    (h : SameOrder n med.length (totalDev (conv : N → L) n d) (totalDev (conv : N' → M) n d')) (maxiter : Nat) {seq : List Nat}
    (hseq : ∀ j ∈ seq, j < n) (hsn : seq.Nodup) {r : SwapResult L} {r' : SwapResult M}
    (hr : parFasterpam L sc0 scF scS mat med maxiter seq = .ok r)
    (hr' : parFasterpam M sc0' scF' scS' mat' med maxiter seq = .ok r') : SameSearch r r' := by
  rw [(C17_par_fasterpam sc0 (scS := scS) hF hm hd hv hnd maxiter hseq).1] at hr
  rw [(C17_par_fasterpam sc0' (scS := scS') hF' hm' hd' hv hnd maxiter hseq).1] at hr'
  exact C132_rand_fasterpam hm hm' hd hd' hv hnd hk h maxiter hseq hsn hr hr'

/-- **C132, pam_swap.** -/
theorem C132_pam_swap (hm : IsMatrix mat n d) (hm' : IsMatrix mat' n d') (hd : Dissim n d) (hd' : Dissim n d')
    (hv : ValidMeds n med) (hnd : med.Nodup) (hk : 2 ≤ med.length)
    (h : SameOrder n med.length (totalDev (conv : N → L) n d) (totalDev (conv : N' → M) n d')) (maxiter : Nat)
    {r : SwapResult L} {r' : SwapResult M}
    (hr : pamSwap L mat med maxiter = .ok r) (hr' : pamSwap M mat' med maxiter = .ok r') : SameSearch r r' := by
  refine .of ?_
  rw [(C90_pam_swap hm hd hv hnd hk maxiter hr).1, (C90_pam_swap hm' hd' hv hnd hk maxiter hr').1]
  exact h.steepRun maxiter (hv.distinct hnd)

/-- **C132, fastpam1.** -/
theorem C132_fastpam1 (hm : IsMatrix mat n d) (hm' : IsMatrix mat' n d') (hd : Dissim n d) (hd' : Dissim n d')
    (hv : ValidMeds n med) (hnd : med.Nodup) (hk : 2 ≤ med.length)
    (h : SameOrder n med.length (totalDev (conv : N → L) n d) (totalDev (conv : N' → M) n d')) (maxiter : Nat)
    {r : SwapResult L} {r' : SwapResult M}
    (hr : fastpam1 L mat med maxiter = .ok r) (hr' : fastpam1 M mat' med maxiter = .ok r') : SameSearch r r' := by
  refine .of ?_
  rw [(C90_fastpam1 hm hd hv hnd hk maxiter hr).1, (C90_fastpam1 hm' hd' hv hnd hk maxiter hr').1]
  exact h.steepRun maxiter (hv.distinct hnd)

/-! ### BUILD -/

/-- If both searches can be extended they choose the same object. -/
theorem SameOrder.greedyFrom (cnt : Nat) {k : Nat} {ms : List Nat} (hs : Distinct n k ms)
    (h : ∀ i, k ≤ i → i ≤ k + cnt → SameOrder n i (totalDev (conv : N → L) n d) (totalDev (conv : N' → M) n d')) :
    KMedoids.greedyFrom (totalDev (conv : N → L) n d) 0 n cnt ms <+: KMedoids.greedyFrom (totalDev (conv : N' → M) n d') 0 n cnt ms ∨
      KMedoids.greedyFrom (totalDev (conv : N' → M) n d') 0 n cnt ms <+: KMedoids.greedyFrom (totalDev (conv : N → L) n d) 0 n cnt ms := by
  induction cnt generalizing k ms with
  | zero => exact Or.inl (List.prefix_refl _)
  | succ cnt ih =>
    by_cases hx : ∃ x < n, totalDev (conv : N → L) n d (ms ++ [x]) < totalDev (conv : N → L) n d ms
    · by_cases hx' : ∃ x < n, totalDev (conv : N' → M) n d' (ms ++ [x]) < totalDev (conv : N' → M) n d' ms
      · obtain ⟨x, hxn, hlt⟩ := hx
        obtain ⟨x', hxn', hlt'⟩ := hx'
        obtain ⟨g1, g2, g3⟩ := firstMin_spec (fun x => totalDev (conv : N → L) n d (ms ++ [x])) (k := n) (by omega)
        generalize firstMin (fun x => totalDev (conv : N → L) n d (ms ++ [x])) n = b at g1 g2 g3
        have hb := lt_of_le_of_lt (g2 x hxn) hlt
        have hbm : b ∉ ms := fun hm => by
          rw [totalDev_append_mem hm] at hb; exact lt_irrefl _ hb
        have hsb := hs.snoc g1 hbm
        have ho := h (k + 1) (by omega) (by omega)
        have hxm' : x' ∉ ms := fun hm => by
          rw [totalDev_append_mem hm] at hlt'; exact lt_irrefl _ hlt'
        have hle : ∀ y < n, y ∉ ms → totalDev (conv : N' → M) n d' (ms ++ [b]) ≤ totalDev (conv : N' → M) n d' (ms ++ [y]) :=
          fun y hy hym => not_lt.mp fun g => absurd ((ho _ _ (hs.snoc hy hym) hsb).mp g) (not_lt.mpr (g2 y hy))
        have hb' := lt_of_le_of_lt (hle x' hxn' hxm') hlt'
        rw [greedyFrom_more (Nat.zero_le b) g1 hb (fun y _ hy => g2 y hy) fun y _ hy => g3 y hy,
          greedyFrom_more (T := totalDev (conv : N' → M) n d') (Nat.zero_le b) g1 hb' (fun y _ hy => ?_) fun y _ hy => ?_]
        · exact ih hsb fun i h1 h2 => h i (by omega) (by omega)
        · by_cases hym : y ∈ ms
          · rw [totalDev_append_mem hym]; exact le_of_lt hb'
          · exact hle y hy hym
        · by_cases hym : y ∈ ms
          · rw [totalDev_append_mem hym]; exact hb'
          · exact (ho _ _ hsb (hs.snoc (by omega) hym)).mpr (g3 y hy)
      · right
        rw [greedyFrom_stop (T := totalDev (conv : N' → M) n d') fun x _ hxn => not_lt.mp fun hlt => hx' ⟨x, hxn, hlt⟩]
        exact greedyFrom_prefix _ _ _ _ _
    · left
      rw [greedyFrom_stop (T := totalDev (conv : N → L) n d) fun x _ hxn => not_lt.mp fun hlt => hx ⟨x, hxn, hlt⟩]
      exact greedyFrom_prefix _ _ _ _ _

/-- **C132, pam_build:** if all solutions with at most `k` medoids are ranked in the same way, the medoids of one of the two
results are the first medoids of the other. So they are the same if both have `k`. -/
theorem C132_pam_build (hm : IsMatrix mat n d) (hm' : IsMatrix mat' n d') (hd : Dissim n d) (hd' : Dissim n d') {k : Nat}
    (hs : Sizes n k) (h : ∀ i, 1 ≤ i → i ≤ k → SameOrder n i (totalDev (conv : N → L) n d) (totalDev (conv : N' → M) n d'))
    {b : BuildResult L} {b' : BuildResult M} (hb : pamBuild L mat k = .ok b) (hb' : pamBuild M mat' k = .ok b') :
    (b.med <+: b'.med ∨ b'.med <+: b.med) ∧ (b.med.length = k → b'.med.length = k → b'.med = b.med) := by
  have hn : 0 < n := lt_of_lt_of_le hs.pos hs.le
  have hsing : ∀ x < n, Distinct n 1 [x] := fun x hx => ⟨rfl, by simp, by simpa using hx⟩
  have h1 : firstMin (fun x => totalDev (conv : N' → M) n d' [x]) n = firstMin (fun x => totalDev (conv : N → L) n d [x]) n :=
    firstMin_congr fun x y hx hy => h 1 (le_refl _) hs.pos _ _ (hsing x hx) (hsing y hy)
  have key : b.med <+: b'.med ∨ b'.med <+: b.med := by
    rw [C90_pam_build hm hd hs hb, C90_pam_build hm' hd' hs hb']
    unfold greedyBuild
    rw [h1]
    exact SameOrder.greedyFrom (k - 1) (hsing _ (firstMin_spec _ hn).1) fun i h2 h3 => h i h2 (by have := hs.pos; omega)
  refine ⟨key, fun e1 e2 => ?_⟩
  rcases key with g | g
  · exact (g.eq_of_length (by omega)).symm
  · exact g.eq_of_length (by omega)

/-- **C132, pam,** if BUILD finds `k` medoids for both matrices. -/
theorem C132_pam (hm : IsMatrix mat n d) (hm' : IsMatrix mat' n d') (hd : Dissim n d) (hd' : Dissim n d') {k : Nat}
    (hs : Sizes n k) (hk : 2 ≤ k)
    (h : ∀ i, 1 ≤ i → i ≤ k → SameOrder n i (totalDev (conv : N → L) n d) (totalDev (conv : N' → M) n d')) (maxiter : Nat)
    {b : BuildResult L} {b' : BuildResult M} (hb : pamBuild L mat k = .ok b) (hb' : pamBuild M mat' k = .ok b')
    (hl : b.med.length = k) (hl' : b'.med.length = k) {r : SwapResult L} {r' : SwapResult M}
    (hr : pam L mat k maxiter = .ok r) (hr' : pam M mat' k maxiter = .ok r') : SameSearch r r' := by
  have e := (C132_pam_build hm hm' hd hd' hs h hb hb').2 hl hl'
  obtain ⟨-, -, a3, a4, -, -⟩ := C19_pam_build hm hd hs hb
  rw [(C22_pam hm hd hs maxiter hb).1] at hr
  rw [(C22_pam hm' hd' hs maxiter hb').1, e] at hr'
  exact C132_pam_swap hm hm' hd hd' (med := b.med) ⟨by rw [hl]; exact hs, a4⟩ a3 (by omega) (hl ▸ h k hs.pos (le_refl _)) maxiter hr hr'

end rank

/-! ## The medoid silhouette -/

section msc

variable {N N' L M : Type} [LinearOrder N] [Zero N] [RDist N] [LawfulDist N]
variable [LinearOrder N'] [Zero N'] [RDist N'] [LawfulDist N']
variable [Field L] [LinearOrder L] [IsStrictOrderedRing L] [RLoss L] [LawfulField L]
variable [Field M] [LinearOrder M] [IsStrictOrderedRing M] [RLoss M] [LawfulField M]
variable [RFrom N L] [LawfulFrom N L] [RFrom N' M] [LawfulFrom N' M]
variable {n : Nat} {d : Nat → Nat → N} {d' : Nat → Nat → N'} {mat : Mat N} {mat' : Mat N'} {med : List Nat}

theorem SameOrder.neg {k : Nat} (h : SameOrder n k (medSil (conv : N → L) n d) (medSil (conv : N' → M) n d')) :
    SameOrder n k (fun m => - medSil (conv : N → L) n d m) (fun m => - medSil (conv : N' → M) n d' m) := fun a b ha hb => by
  rw [neg_lt_neg_iff, neg_lt_neg_iff]; exact h b a hb ha

/-- **C132, fastermsc.** -/
theorem C132_fastermsc [LawfulAdd N L] [LawfulAdd N' M] (hm : IsMatrix mat n d) (hm' : IsMatrix mat' n d') (hd : Dissim n d) (hd' : Dissim n d')
    (hv : ValidMeds n med) (hnd : med.Nodup) (hk : 2 ≤ med.length)
    (h : SameOrder n med.length (medSil (conv : N → L) n d) (medSil (conv : N' → M) n d')) (maxiter : Nat)
    {r : SwapResult L} {r' : SwapResult M}
    (hr : fastermsc L mat med maxiter = .ok r) (hr' : fastermsc M mat' med maxiter = .ok r') : SameSearch r r' := by
  refine .of ?_
  rw [(C89_fastermsc hm hd hv hnd hk maxiter hr).1, (C89_fastermsc hm' hd' hv hnd hk maxiter hr').1]
  exact h.neg.eagerRun (fun j hj => List.mem_range.mp hj) maxiter (hv.distinct hnd)

/-- **C132, fastmsc.** -/
theorem C132_fastmsc [LawfulAdd N L] [LawfulAdd N' M] (hm : IsMatrix mat n d) (hm' : IsMatrix mat' n d') (hd : Dissim n d) (hd' : Dissim n d')
    (hv : ValidMeds n med) (hnd : med.Nodup) (hk : 2 ≤ med.length)
    (h : SameOrder n med.length (medSil (conv : N → L) n d) (medSil (conv : N' → M) n d')) (maxiter : Nat)
    {r : SwapResult L} {r' : SwapResult M}
    (hr : fastmsc L mat med maxiter = .ok r) (hr' : fastmsc M mat' med maxiter = .ok r') : SameSearch r r' := by
  refine .of ?_
  rw [(C90_fastmsc hm hd hv hnd hk maxiter hr).1, (C90_fastmsc hm' hd' hv hnd hk maxiter hr').1]
  exact h.neg.steepRun maxiter (hv.distinct hnd)

/-- **C132, pammedsil_swap.** -/
theorem C132_pammedsil_swap (hm : IsMatrix mat n d) (hm' : IsMatrix mat' n d') (hd : Dissim n d) (hd' : Dissim n d')
    (hv : ValidMeds n med) (hnd : med.Nodup) (hk : 2 ≤ med.length)
    (h : SameOrder n med.length (medSil (conv : N → L) n d) (medSil (conv : N' → M) n d')) (maxiter : Nat)
    {r : SwapResult L} {r' : SwapResult M}
    (hr : pammedsilSwap L mat med maxiter = .ok r) (hr' : pammedsilSwap M mat' med maxiter = .ok r') : SameSearch r r' := by
  refine .of ?_
  rw [(C90_pammedsil_swap hm hd hv hnd hk maxiter hr).1, (C90_pammedsil_swap hm' hd' hv hnd hk maxiter hr').1]
  exact h.neg.steepRun maxiter (hv.distinct hnd)

end msc

/-! ## Gaps -/

/-- Two functions of the set of medoids that differ by at most `s` compare solutions in the same way if the gaps exceed `2 s`. -/
theorem sameOrder_of_gap {L : Type} [AddCommGroup L] [LinearOrder L] [IsOrderedAddMonoid L] {n k : Nat} {T T' : List Nat → L} {s : L}
    (hT : ∀ a b, Distinct n k a → Distinct n k b → a.toFinset = b.toFinset → T a = T b)
    (hT' : ∀ a b, Distinct n k a → Distinct n k b → a.toFinset = b.toFinset → T' a = T' b)
    (hc : ∀ a, Distinct n k a → |T' a - T a| ≤ s)
    (hg : ∀ a b, Distinct n k a → Distinct n k b → a.toFinset ≠ b.toFinset → s + s < |T a - T b|) : SameOrder n k T T' := by
  have key : ∀ a b, Distinct n k a → Distinct n k b → T a < T b → T' a < T' b := fun a b ha hb hlt => by
    have hne : a.toFinset ≠ b.toFinset := fun e => absurd hlt (by rw [hT a b ha hb e]; exact lt_irrefl _)
    have h1 := hg a b ha hb hne
    rw [abs_sub_comm, abs_of_pos (sub_pos.mpr hlt)] at h1
    have h2 := (abs_le.mp (hc a ha)).2
    have h3 := (abs_le.mp (hc b hb)).1
    rw [sub_le_iff_le_add] at h2
    rw [neg_le_sub_iff_le_add] at h3
    rw [lt_sub_iff_add_lt] at h1
    refine lt_of_le_of_lt h2 (lt_of_add_lt_add_right (a := s) (lt_of_lt_of_le ?_ h3))
    calc s + T a + s = s + s + T a := by abel
      _ < _ := h1
  intro a b ha hb
  refine ⟨fun hlt => ?_, key a b ha hb⟩
  rcases lt_trichotomy (T a) (T b) with g | g | g
  · exact g
  · by_cases e : a.toFinset = b.toFinset
    · rw [hT' a b ha hb e] at hlt; exact absurd hlt (lt_irrefl _)
    · have h1 := hg a b ha hb e
      rw [g, sub_self, abs_zero] at h1
      have := le_trans (abs_nonneg _) (hc a ha)
      exact absurd h1 (not_lt.mpr (add_nonneg this this))
  · exact absurd (key b a hb ha g) (not_lt.mpr (le_of_lt hlt))

/-! ## Errors in the distances -/

section noise

variable {N N' L : Type} [LinearOrder N] [Zero N] [RDist N] [LawfulDist N]
variable [LinearOrder N'] [Zero N'] [RDist N'] [LawfulDist N']
variable [AddCommGroup L] [LinearOrder L] [IsOrderedAddMonoid L] [RLoss L] [LawfulLoss L]
variable [RFrom N L] [LawfulFrom N L] [RFrom N' L] [LawfulFrom N' L]

/-- Every distance has an error of at most `ε`. -/
def Close (n : Nat) (d : Nat → Nat → N) (d' : Nat → Nat → N') (ε : L) : Prop :=
  ∀ x y, x < n → y < n → |(conv (d' x y) : L) - conv (d x y)| ≤ ε

/-- The total deviations of different sets of `k` medoids differ by more than `g`. -/
def Gap (n k : Nat) (d : Nat → Nat → N) (g : L) : Prop :=
  ∀ a b, Distinct n k a → Distinct n k b → a.toFinset ≠ b.toFinset →
    g < |totalDev (conv : N → L) n d a - totalDev (conv : N → L) n d b|

variable {n : Nat} {d : Nat → Nat → N} {d' : Nat → Nat → N'} {ε : L}

theorem Close.minDist (h : Close n d d' ε) {med : List Nat} (hne : med ≠ []) (hr : ∀ m ∈ med, m < n) {o : Nat} (ho : o < n) :
    |(conv (minDist d' o med) : L) - conv (minDist d o med)| ≤ ε := by
  obtain ⟨⟨a, ha, e⟩, h2⟩ := minDist_spec d o med hne
  obtain ⟨⟨b, hb, e'⟩, h2'⟩ := minDist_spec d' o med hne
  have hmono := (LawfulFrom.strictMono (N := N) (L := L)).monotone
  have hmono' := (LawfulFrom.strictMono (N := N') (L := L)).monotone
  have h1 := (abs_le.mp (h o a ho (hr a ha))).2
  have h3 := (abs_le.mp (h o b ho (hr b hb))).1
  rw [abs_le]
  constructor
  · rw [e']
    refine le_trans h3 (sub_le_sub_left (hmono (h2 b hb)) _)
  · rw [e]
    exact le_trans (sub_le_sub_right (hmono' (h2' a ha)) _) h1

/-- The total deviation of `k` distinct medoids changes by at most `(n - k) ε`. -/
theorem C132_total_dev (h : Close n d d' ε) (hd : Dissim n d) (hd' : Dissim n d') {k : Nat} {med : List Nat}
    (hs : Distinct n k med) (hk : 1 ≤ k) :
    |totalDev (conv : N' → L) n d' med - totalDev (conv : N → L) n d med| ≤ (n - k) • ε := by
  have hne : med ≠ [] := fun e => by have := hs.len; rw [e] at this; simp at this; omega
  rw [totalDev_eq_sum, totalDev_eq_sum, ← Finset.sum_sub_distrib]
  refine le_trans (Finset.abs_sum_le_sum_abs _ _) ?_
  have e : ((Finset.range n).filter fun o => o ∉ med) = Finset.range n \ med.toFinset := by
    ext x; simp
  have hsub : med.toFinset ⊆ Finset.range n := fun x hx => Finset.mem_range.mpr (hs.range x (List.mem_toFinset.mp hx))
  have hsum : (∑ o ∈ Finset.range n, if o ∉ med then ε else 0) = (n - k) • ε := by
    rw [← Finset.sum_filter, Finset.sum_const, e, Finset.card_sdiff_of_subset hsub, List.toFinset_card_of_nodup hs.nodup,
      Finset.card_range, hs.len]
  rw [← hsum]
  refine Finset.sum_le_sum fun o ho => ?_
  have ho := Finset.mem_range.mp ho
  by_cases hom : o ∈ med
  · rw [if_neg (not_not.mpr hom),
      minDist_eq (d := d) hom fun c' hc' => by rw [hd.diag _ ho]; exact hd.nonneg _ _ ho (hs.range c' hc'),
      minDist_eq (d := d') hom fun c' hc' => by rw [hd'.diag _ ho]; exact hd'.nonneg _ _ ho (hs.range c' hc'), hd.diag _ ho, hd'.diag _ ho,
      LawfulFrom.map_zero, LawfulFrom.map_zero, sub_self, abs_zero]
  · rw [if_pos hom]
    exact h.minDist hne hs.range ho

/-- With gaps of more than `2 (n - k) ε` the solutions are ranked in the same way. -/
theorem C132_same_order (h : Close n d d' ε) (hd : Dissim n d) (hd' : Dissim n d') {k : Nat} (hk : 1 ≤ k)
    (hg : Gap n k d ((2 * (n - k)) • ε)) :
    SameOrder n k (totalDev (conv : N → L) n d) (totalDev (conv : N' → L) n d') :=
  sameOrder_of_gap (s := (n - k) • ε) (fun _ _ _ _ e => totalDev_toFinset e) (fun _ _ _ _ e => totalDev_toFinset e)
    (fun _ ha => C132_total_dev h hd hd' ha hk) fun a b ha hb hne => by
      have := hg a b ha hb hne
      rwa [two_mul, add_nsmul] at this

/-- Same medoids, same numbers of iterations and swaps, and a loss that is as accurate as the distances. -/
structure Unaffected (n k : Nat) (ε : L) (r r' : SwapResult L) : Prop where
  same : SameSearch r r'
  loss : |r'.loss - r.loss| ≤ (n - k) • ε

variable {mat : Mat N} {mat' : Mat N'} {med : List Nat}

/-- **C132, errors, rand_fasterpam.** -/
theorem C132_noise_rand_fasterpam (hm : IsMatrix mat n d) (hm' : IsMatrix mat' n d') (hd : Dissim n d) (hd' : Dissim n d')
    (hv : ValidMeds n med) (hnd : med.Nodup) (hk : 2 ≤ med.length) (h : Close n d d' ε)
    (hg : Gap n med.length d ((2 * (n - med.length)) • ε)) (maxiter : Nat) {seq : List Nat}
    (hseq : ∀ j ∈ seq, j < n) (hsn : seq.Nodup) {r r' : SwapResult L}
    (hr : randFasterpam L mat med maxiter seq = .ok r) (hr' : randFasterpam L mat' med maxiter seq = .ok r') :
    Unaffected n med.length ε r r' := by
  have hs := C132_rand_fasterpam hm hm' hd hd' hv hnd hk (C132_same_order h hd hd' hv.sizes.pos hg) maxiter hseq hsn hr hr'
  refine ⟨hs, ?_⟩
  obtain ⟨r0, e, hw⟩ := C04_rand_fasterpam (L := L) hm hv maxiter hseq
  rw [hr] at e
  cases e
  rw [(C89_rand_fasterpam hm hd hv hnd hk maxiter hseq hsn hr).2, (C89_rand_fasterpam hm' hd' hv hnd hk maxiter hseq hsn hr').2, hs.med]
  exact C132_total_dev h hd hd' ⟨hw.medLen, C06_rand_fasterpam hm hd hv hnd maxiter hseq hr, hw.medRange⟩ hv.sizes.pos

/-- **C132, errors, fasterpam.** -/
theorem C132_noise_fasterpam (hm : IsMatrix mat n d) (hm' : IsMatrix mat' n d') (hd : Dissim n d) (hd' : Dissim n d')
    (hv : ValidMeds n med) (hnd : med.Nodup) (hk : 2 ≤ med.length) (h : Close n d d' ε)
    (hg : Gap n med.length d ((2 * (n - med.length)) • ε)) (maxiter : Nat) {r r' : SwapResult L}
    (hr : fasterpam L mat med maxiter = .ok r) (hr' : fasterpam L mat' med maxiter = .ok r') : Unaffected n med.length ε r r' := by
  rw [fasterpam_eq_rand, hm.len] at hr
  rw [fasterpam_eq_rand, hm'.len] at hr'
  exact C132_noise_rand_fasterpam hm hm' hd hd' hv hnd hk h hg maxiter (fun j hj => List.mem_range.mp hj) List.nodup_range hr hr'

/-- **C132, errors, pam_swap.** -/
theorem C132_noise_pam_swap (hm : IsMatrix mat n d) (hm' : IsMatrix mat' n d') (hd : Dissim n d) (hd' : Dissim n d')
    (hv : ValidMeds n med) (hnd : med.Nodup) (hk : 2 ≤ med.length) (h : Close n d d' ε)
    (hg : Gap n med.length d ((2 * (n - med.length)) • ε)) (maxiter : Nat) {r r' : SwapResult L}
    (hr : pamSwap L mat med maxiter = .ok r) (hr' : pamSwap L mat' med maxiter = .ok r') : Unaffected n med.length ε r r' := by
  have hs := C132_pam_swap hm hm' hd hd' hv hnd hk (C132_same_order h hd hd' hv.sizes.pos hg) maxiter hr hr'
  refine ⟨hs, ?_⟩
  obtain ⟨r0, e, hw⟩ := C04_pam_swap (L := L) hm hv maxiter
  rw [hr] at e
  cases e
  rw [(C90_pam_swap hm hd hv hnd hk maxiter hr).2, (C90_pam_swap hm' hd' hv hnd hk maxiter hr').2, hs.med]
  exact C132_total_dev h hd hd' ⟨hw.medLen, C06_pam_swap hm hd hv hnd maxiter hr, hw.medRange⟩ hv.sizes.pos

/-- **C132, errors, fastpam1.** -/
theorem C132_noise_fastpam1 (hm : IsMatrix mat n d) (hm' : IsMatrix mat' n d') (hd : Dissim n d) (hd' : Dissim n d')
    (hv : ValidMeds n med) (hnd : med.Nodup) (hk : 2 ≤ med.length) (h : Close n d d' ε)
    (hg : Gap n med.length d ((2 * (n - med.length)) • ε)) (maxiter : Nat) {r r' : SwapResult L}
    (hr : fastpam1 L mat med maxiter = .ok r) (hr' : fastpam1 L mat' med maxiter = .ok r') : Unaffected n med.length ε r r' := by
  rw [(C14_fastpam1_eq_pam_swap hm hd hv hnd maxiter).1] at hr
  rw [(C14_fastpam1_eq_pam_swap hm' hd' hv hnd maxiter).1] at hr'
  exact C132_noise_pam_swap hm hm' hd hd' hv hnd hk h hg maxiter hr hr'

end noise

/-! ## Errors and the medoid silhouette -/

section noiseSil

variable {N N' L : Type} [LinearOrder N] [Zero N] [RDist N] [LawfulDist N]
variable [LinearOrder N'] [Zero N'] [RDist N'] [LawfulDist N']
variable [Field L] [LinearOrder L] [IsStrictOrderedRing L] [RLoss L] [LawfulField L]
variable [RFrom N L] [LawfulFrom N L] [RFrom N' L] [LawfulFrom N' L]
variable {n : Nat} {d : Nat → Nat → N} {d' : Nat → Nat → N'} {ε δ : L}

/-- The two smallest distances move by at most `ε`: one direction. -/
theorem twoMin_le_add {e : Nat → Nat → N'} {med : List Nat} {o : Nat} (h : ∀ m ∈ med, (conv (e o m) : L) ≤ conv (d o m) + ε) {a b : N} {a' b' : N'}
    (ht : TwoMin (med.map (d o)) a b) (ht' : TwoMin (med.map (e o)) a' b') :
    (conv a' : L) ≤ conv a + ε ∧ (conv b' : L) ≤ conv b + ε := by
  have hmono := (LawfulFrom.strictMono (N := N) (L := L)).monotone
  have hmono' := (LawfulFrom.strictMono (N := N') (L := L)).monotone
  obtain ⟨rest, hp, hab, hr⟩ := ht
  obtain ⟨rest', hp', hab', hr'⟩ := ht'
  constructor
  · obtain ⟨m, hm, rfl⟩ := List.mem_map.mp (hp.mem_iff.mpr (by simp : a ∈ a :: b :: rest))
    refine le_trans (hmono' ?_) (h m hm)
    have : e o m ∈ a' :: b' :: rest' := hp'.mem_iff.mp (List.mem_map_of_mem hm)
    rcases List.mem_cons.mp this with g | g
    · rw [g]
    · rcases List.mem_cons.mp g with g | g
      · rw [g]; exact hab'
      · exact le_trans hab' (hr' _ g)
  · by_contra hlt
    rw [not_le] at hlt
    have c1 : 2 ≤ (med.map (d o)).countP fun x => decide (x ≤ b) := by
      rw [hp.countP_eq, List.countP_cons, List.countP_cons]
      simp [hab]
    have c2 : (med.map (e o)).countP (fun x => decide ((conv x : L) ≤ conv b + ε)) ≤ 1 := by
      rw [hp'.countP_eq, List.countP_cons, List.countP_cons,
        List.countP_eq_zero.mpr fun x hx => by simpa using lt_of_lt_of_le hlt (hmono' (hr' x hx))]
      have : ¬ (conv b' : L) ≤ conv b + ε := not_le.mpr hlt
      simp only [this, decide_false, Bool.false_eq_true, if_false]
      split <;> omega
    rw [List.countP_map] at c1 c2
    have c3 : med.countP ((fun x => decide (x ≤ b)) ∘ d o) ≤ med.countP ((fun x => decide ((conv x : L) ≤ conv b + ε)) ∘ e o) := by
      refine List.countP_mono_left fun m hm g => ?_
      simp only [Function.comp_apply, decide_eq_true_eq] at g ⊢
      exact le_trans (h m hm) (add_le_add_left (hmono g) _)
    omega

theorem Close.medSil1 (h : Close n d d' ε) (hd : Dissim n d) (hd' : Dissim n d') {k : Nat} (hk : 2 ≤ k) {med : List Nat}
    (hs : Distinct n k med) (hδ : 0 < δ) (hsep : ∀ x y, x < n → y < n → x ≠ y → δ ≤ (conv (d x y) : L)) {o : Nat} (ho : o < n) :
    |medSil1 (conv : N' → L) d' med o - medSil1 (conv : N → L) d med o| ≤ if o ∉ med then 2 * ε / δ else 0 := by
  have hl : 2 ≤ med.length := hs.len ▸ hk
  have hmono := (LawfulFrom.strictMono (N := N) (L := L)).monotone
  have hmono' := (LawfulFrom.strictMono (N := N') (L := L)).monotone
  have ht := twoNearestP_twoMin d hl o
  have ht' := twoNearestP_twoMin d' hl o
  generalize (twoNearestP d med o).1 = a at ht
  generalize (twoNearestP d med o).2 = b at ht
  generalize (twoNearestP d' med o).1 = a' at ht'
  generalize (twoNearestP d' med o).2 = b' at ht'
  rw [medSil1_of ht, medSil1_of ht']
  have form : ∀ {P : Type} [LinearOrder P] [Zero P] [RFrom P L] (_ : (conv (0 : P) : L) = 0) (x y : P),
      (if x = 0 then (1 : L) else 1 - conv x / conv y) = 1 - conv x / conv y := by
    intro P _ _ _ h0 x y
    split
    · rename_i e; rw [e, h0]; simp
    · rfl
  rw [form (LawfulFrom.map_zero (N := N) (L := L)), form (LawfulFrom.map_zero (N := N') (L := L))]
  obtain ⟨ha, hb, hab⟩ := ht.mem
  obtain ⟨ha', hb', hab'⟩ := ht'.mem
  obtain ⟨ma, hma, ea⟩ := List.mem_map.mp ha
  obtain ⟨ma', hma', ea'⟩ := List.mem_map.mp ha'
  have ha0 : (0 : L) ≤ conv a := by
    rw [← LawfulFrom.map_zero (N := N) (L := L), ← ea]; exact hmono (hd.nonneg _ _ ho (hs.range _ hma))
  have ha0' : (0 : L) ≤ conv a' := by
    rw [← LawfulFrom.map_zero (N := N') (L := L), ← ea']; exact hmono' (hd'.nonneg _ _ ho (hs.range _ hma'))
  obtain ⟨u1, u2⟩ := twoMin_le_add (ε := ε) (fun m hm => by
    have := (abs_le.mp (h o m ho (hs.range m hm))).2
    rwa [sub_le_iff_le_add, add_comm] at this) ht ht'
  obtain ⟨v1, v2⟩ := twoMin_le_add (ε := ε) (fun m hm => by
    have := (abs_le.mp (h o m ho (hs.range m hm))).1
    rwa [neg_le_sub_iff_le_add] at this) ht' ht
  have hab := hmono hab
  have hab' := hmono' hab'
  by_cases hom : o ∈ med
  · rw [if_neg (not_not.mpr hom)]
    have z : (conv a : L) = 0 := by
      refine le_antisymm ?_ ha0
      have hz : d o o ∈ med.map (d o) := List.mem_map_of_mem hom
      obtain ⟨rest, hp, hab, hr⟩ := ht
      rw [← LawfulFrom.map_zero (N := N) (L := L), ← hd.diag o ho]
      refine hmono ?_
      rcases List.mem_cons.mp (hp.mem_iff.mp hz) with g | g
      · rw [g]
      · rcases List.mem_cons.mp g with g | g
        · rw [g]; exact hab
        · exact le_trans hab (hr _ g)
    have z' : (conv a' : L) = 0 := by
      refine le_antisymm ?_ ha0'
      have hz : d' o o ∈ med.map (d' o) := List.mem_map_of_mem hom
      obtain ⟨rest, hp, hab, hr⟩ := ht'
      rw [← LawfulFrom.map_zero (N := N') (L := L), ← hd'.diag o ho]
      refine hmono' ?_
      rcases List.mem_cons.mp (hp.mem_iff.mp hz) with g | g
      · rw [g]
      · rcases List.mem_cons.mp g with g | g
        · rw [g]; exact hab
        · exact le_trans hab (hr _ g)
    rw [z, z']; simp
  · rw [if_pos hom]
    have hδa : δ ≤ conv a := by
      rw [← ea]; exact hsep _ _ ho (hs.range _ hma) fun e => hom (e ▸ hma)
    generalize (conv a : L) = A at *
    generalize (conv b : L) = B at *
    generalize (conv a' : L) = A' at *
    generalize (conv b' : L) = B' at *
    have hB : 0 < B := lt_of_lt_of_le hδ (le_trans hδa hab)
    have hε : 0 ≤ ε := le_trans (abs_nonneg _) (h o o ho ho)
    have step : |A / B - A' / B'| ≤ 2 * ε / B := by
      rcases (le_trans ha0' hab').eq_or_lt with hz | hB'
      · have hA' : A' = 0 := le_antisymm (hz ▸ hab') ha0'
        rw [hA', zero_div, sub_zero, abs_of_nonneg (div_nonneg ha0 hB.le)]
        refine div_le_div_of_nonneg_right ?_ hB.le
        linarith
      · rw [div_sub_div _ _ hB.ne' hB'.ne', abs_div, abs_of_pos (mul_pos hB hB'), div_le_div_iff₀ (mul_pos hB hB') hB]
        have e1 : A * B' - B * A' = A' * (B' - B) + B' * (A - A') := by ring
        have e2 : |A' * (B' - B)| ≤ B' * ε := by
          rw [abs_mul, abs_of_nonneg ha0']
          exact mul_le_mul hab' (abs_le.mpr ⟨by linarith, by linarith⟩) (abs_nonneg _) hB'.le
        have e3 : |B' * (A - A')| ≤ B' * ε := by
          rw [abs_mul, abs_of_pos hB']
          exact mul_le_mul_of_nonneg_left (abs_le.mpr ⟨by linarith, by linarith⟩) hB'.le
        have e4 := abs_add_le (A' * (B' - B)) (B' * (A - A'))
        rw [e1]
        nlinarith
    rw [show 1 - A' / B' - (1 - A / B) = A / B - A' / B' by ring]
    exact le_trans step (div_le_div_of_nonneg_left (by linarith) hδ (le_trans hδa hab))

theorem sum_range_map (n : Nat) (f : Nat → L) : ((List.range n).map f).sum = ∑ o ∈ Finset.range n, f o := by
  induction n with
  | zero => rfl
  | succ n ih => rw [List.range_succ, List.map_append, List.sum_append, ih, Finset.sum_range_succ]; simp

/-- The medoid silhouette of `k` distinct medoids changes by at most `(n - k) / n * 2 ε / δ`, for distances of at least `δ`. -/
theorem C132_med_sil (h : Close n d d' ε) (hd : Dissim n d) (hd' : Dissim n d') {k : Nat} (hk : 2 ≤ k) {med : List Nat}
    (hs : Distinct n k med) (hδ : 0 < δ) (hsep : ∀ x y, x < n → y < n → x ≠ y → δ ≤ (conv (d x y) : L)) :
    |medSil (conv : N' → L) n d' med - medSil (conv : N → L) n d med| ≤ (n - k : ℕ) * (2 * ε / δ) / n := by
  unfold medSil mean
  rw [List.length_map, List.length_range, List.length_map, List.length_range, ← sub_div, abs_div, abs_of_nonneg (Nat.cast_nonneg (α := L) n), sum_range_map,
    sum_range_map, ← Finset.sum_sub_distrib]
  refine div_le_div_of_nonneg_right ?_ (Nat.cast_nonneg (α := L) n)
  refine le_trans (Finset.abs_sum_le_sum_abs _ _) (le_trans (Finset.sum_le_sum fun o ho =>
    h.medSil1 hd hd' hk hs hδ hsep (Finset.mem_range.mp ho)) ?_)
  have e : ((Finset.range n).filter fun o => o ∉ med) = Finset.range n \ med.toFinset := by
    ext x; simp
  have hsub : med.toFinset ⊆ Finset.range n := fun x hx => Finset.mem_range.mpr (hs.range x (List.mem_toFinset.mp hx))
  rw [← Finset.sum_filter, Finset.sum_const, e, Finset.card_sdiff_of_subset hsub, List.toFinset_card_of_nodup hs.nodup,
    Finset.card_range, hs.len, nsmul_eq_mul]

theorem Distinct.perm {n k : Nat} {a b : List Nat} (ha : Distinct n k a) (hb : Distinct n k b) (e : a.toFinset = b.toFinset) : a.Perm b :=
  (List.perm_ext_iff_of_nodup ha.nodup hb.nodup).mpr fun x => by rw [← List.mem_toFinset, e, List.mem_toFinset]

/-- With gaps of more than `4 (n - k) / n * ε / δ` the medoid silhouettes are ranked in the same way. -/
theorem C132_same_order_sil (h : Close n d d' ε) (hd : Dissim n d) (hd' : Dissim n d') {k : Nat} (hk : 2 ≤ k) (hδ : 0 < δ)
    (hsep : ∀ x y, x < n → y < n → x ≠ y → δ ≤ (conv (d x y) : L))
    (hg : ∀ a b, Distinct n k a → Distinct n k b → a.toFinset ≠ b.toFinset →
      2 * ((n - k : ℕ) * (2 * ε / δ) / n) < |medSil (conv : N → L) n d a - medSil (conv : N → L) n d b|) :
    SameOrder n k (medSil (conv : N → L) n d) (medSil (conv : N' → L) n d') := by
  have hn : ∀ {a : List Nat}, Distinct n k a → 0 < n := fun {a} ha => by
    obtain ⟨x, hx⟩ := List.exists_mem_of_length_pos (l := a) (by have := ha.len; omega)
    exact Nat.zero_lt_of_lt (ha.range x hx)
  refine sameOrder_of_gap (s := (n - k : ℕ) * (2 * ε / δ) / n) (fun a b ha hb e => medSil_perm (hn ha) (ha.perm hb e) (by have := ha.len; omega))
    (fun a b ha hb e => medSil_perm (hn ha) (ha.perm hb e) (by have := ha.len; omega)) (fun a ha => C132_med_sil h hd hd' hk ha hδ hsep)
    fun a b ha hb hne => ?_
  have := hg a b ha hb hne
  rwa [two_mul] at this

variable {mat : Mat N} {mat' : Mat N'} {med : List Nat}

/-- **C132, errors, fastermsc.** -/
theorem C132_noise_fastermsc [LawfulAdd N L] [LawfulAdd N' L] (hm : IsMatrix mat n d) (hm' : IsMatrix mat' n d') (hd : Dissim n d)
    (hd' : Dissim n d') (hv : ValidMeds n med) (hnd : med.Nodup) (hk : 2 ≤ med.length) (h : Close n d d' ε) (hδ : 0 < δ)
    (hsep : ∀ x y, x < n → y < n → x ≠ y → δ ≤ (conv (d x y) : L))
    (hg : ∀ a b, Distinct n med.length a → Distinct n med.length b → a.toFinset ≠ b.toFinset →
      2 * ((n - med.length : ℕ) * (2 * ε / δ) / n) < |medSil (conv : N → L) n d a - medSil (conv : N → L) n d b|) (maxiter : Nat)
    {r r' : SwapResult L} (hr : fastermsc L mat med maxiter = .ok r) (hr' : fastermsc L mat' med maxiter = .ok r') :
    SameSearch r r' ∧ |r'.loss - r.loss| ≤ (n - med.length : ℕ) * (2 * ε / δ) / n := by
  have hs := C132_fastermsc hm hm' hd hd' hv hnd hk (C132_same_order_sil h hd hd' hk hδ hsep hg) maxiter hr hr'
  have ho := fastermsc_outcome hm hd hv hnd hk hr
  obtain ⟨r0, e, hw, -⟩ := C29_fastermsc (L := L) hm hv hk maxiter
  rw [hr] at e
  cases e
  refine ⟨hs, ?_⟩
  rw [ho.loss, (fastermsc_outcome hm' hd' hv hnd hk hr').loss, hs.med]
  exact C132_med_sil h hd hd' hk ⟨hw.medLen, ho.chain.nodup hnd, hw.medRange⟩ hδ hsep

/-- **C132, errors, pammedsil_swap.** -/
theorem C132_noise_pammedsil_swap (hm : IsMatrix mat n d) (hm' : IsMatrix mat' n d') (hd : Dissim n d)
    (hd' : Dissim n d') (hv : ValidMeds n med) (hnd : med.Nodup) (hk : 2 ≤ med.length) (h : Close n d d' ε) (hδ : 0 < δ)
    (hsep : ∀ x y, x < n → y < n → x ≠ y → δ ≤ (conv (d x y) : L))
    (hg : ∀ a b, Distinct n med.length a → Distinct n med.length b → a.toFinset ≠ b.toFinset →
      2 * ((n - med.length : ℕ) * (2 * ε / δ) / n) < |medSil (conv : N → L) n d a - medSil (conv : N → L) n d b|) (maxiter : Nat)
    {r r' : SwapResult L} (hr : pammedsilSwap L mat med maxiter = .ok r) (hr' : pammedsilSwap L mat' med maxiter = .ok r') :
    SameSearch r r' ∧ |r'.loss - r.loss| ≤ (n - med.length : ℕ) * (2 * ε / δ) / n := by
  have hs := C132_pammedsil_swap hm hm' hd hd' hv hnd hk (C132_same_order_sil h hd hd' hk hδ hsep hg) maxiter hr hr'
  have ho := pammedsil_swap_outcome hm hd hv hnd hk hr
  obtain ⟨r0, e, hw, -⟩ := C29_pammedsil_swap (L := L) hm hv hk maxiter
  rw [hr] at e
  cases e
  refine ⟨hs, ?_⟩
  rw [ho.loss, (pammedsil_swap_outcome hm' hd' hv hnd hk hr').loss, hs.med]
  exact C132_med_sil h hd hd' hk ⟨hw.medLen, ho.chain.nodup hnd, hw.medRange⟩ hδ hsep

/-- **C132, errors, fastmsc.** -/
theorem C132_noise_fastmsc [LawfulAdd N L] [LawfulAdd N' L] (hm : IsMatrix mat n d) (hm' : IsMatrix mat' n d') (hd : Dissim n d)
    (hd' : Dissim n d') (hv : ValidMeds n med) (hnd : med.Nodup) (hk : 2 ≤ med.length) (h : Close n d d' ε) (hδ : 0 < δ)
    (hsep : ∀ x y, x < n → y < n → x ≠ y → δ ≤ (conv (d x y) : L))
    (hg : ∀ a b, Distinct n med.length a → Distinct n med.length b → a.toFinset ≠ b.toFinset →
      2 * ((n - med.length : ℕ) * (2 * ε / δ) / n) < |medSil (conv : N → L) n d a - medSil (conv : N → L) n d b|) (maxiter : Nat)
    {r r' : SwapResult L} (hr : fastmsc L mat med maxiter = .ok r) (hr' : fastmsc L mat' med maxiter = .ok r') :
    SameSearch r r' ∧ |r'.loss - r.loss| ≤ (n - med.length : ℕ) * (2 * ε / δ) / n := by
  obtain ⟨q, h1, h2, h3, h4, h5⟩ := fastmsc_pammedsil hm hd hv hnd maxiter hr
  obtain ⟨q', h1', h2', h3', h4', h5'⟩ := fastmsc_pammedsil hm' hd' hv hnd maxiter hr'
  obtain ⟨hs, hl⟩ := C132_noise_pammedsil_swap hm hm' hd hd' hv hnd hk h hδ hsep hg maxiter h1 h1'
  refine ⟨C132_fastmsc hm hm' hd hd' hv hnd hk (C132_same_order_sil h hd hd' hk hδ hsep hg) maxiter hr hr', ?_⟩
  rwa [h3, h3']

end noiseSil

/-! ## Examples -/

theorem Distinct.pair {n : Nat} {a : List Nat} (h : Distinct n 2 a) : ∃ x < n, ∃ y < n, x ≠ y ∧ a = [x, y] := by
  obtain ⟨x, y, rfl⟩ := List.length_eq_two.mp h.len
  exact ⟨x, h.range x (by simp), y, h.range y (by simp), by simpa using h.nodup, rfl⟩

def gapRows : List (List ℕ) :=
  [[0, 101, 131, 65, 65], [101, 0, 138, 115, 88], [131, 138, 0, 128, 9], [65, 115, 128, 0, 50], [65, 88, 9, 50, 0]]

/-- The same, with errors of at most 2. -/
def gapRows' : List (List ℕ) :=
  [[0, 103, 129, 66, 63], [103, 0, 136, 117, 90], [129, 136, 0, 127, 11], [66, 117, 127, 0, 48], [63, 90, 11, 48, 0]]

theorem gapRows_close : Close 5 (rowsD gapRows) (rowsD gapRows') (2 : ℤ) := by
  have : ∀ x < 5, ∀ y < 5, |((rowsD gapRows' x y : ℕ) : ℤ) - (rowsD gapRows x y : ℕ)| ≤ 2 := by decide +kernel
  exact fun x y hx hy => this x hx y hy

set_option synthInstance.maxSize 1024 in
set_option synthInstance.maxHeartbeats 200000 in
theorem gapRows_gap : Gap 5 2 (rowsD gapRows) ((2 * (5 - 2)) • (2 : ℤ)) := by
  have key : ∀ x < 5, ∀ y < 5, ∀ z < 5, ∀ w < 5, x ≠ y → z ≠ w → ¬ (x = z ∧ y = w ∨ x = w ∧ y = z) →
      12 < |totalDev (conv : ℕ → ℤ) 5 (rowsD gapRows) [x, y] - totalDev (conv : ℕ → ℤ) 5 (rowsD gapRows) [z, w]| := by decide +kernel
  intro a b ha hb hne
  obtain ⟨x, hx, y, hy, hxy, rfl⟩ := ha.pair
  obtain ⟨z, hz, w, hw, hzw, rfl⟩ := hb.pair
  refine key x hx y hy z hz w hw hxy hzw fun h => hne ?_
  rcases h with ⟨rfl, rfl⟩ | ⟨rfl, rfl⟩
  · rfl
  · ext v; simp [or_comm]

/-- All gaps exceed 12 = 2 (5 - 2) 2: after three swaps the medoids are the same, and the loss differs by 2. -/
example : Dissim 5 (rowsD gapRows) ∧ Dissim 5 (rowsD gapRows') ∧ Close 5 (rowsD gapRows) (rowsD gapRows') (2 : ℤ) ∧
    Gap 5 2 (rowsD gapRows) ((2 * (5 - 2)) • (2 : ℤ)) ∧
    fasterpam ℤ (fnMat 5 (rowsD gapRows)) [0, 1] 100 = .ok ⟨124, [1, 0, 1, 1, 1], 3, 3, [1, 4]⟩ ∧
    fasterpam ℤ (fnMat 5 (rowsD gapRows')) [0, 1] 100 = .ok ⟨122, [1, 0, 1, 1, 1], 3, 3, [1, 4]⟩ :=
  ⟨⟨by decide, fun _ _ _ _ => Nat.zero_le _⟩, ⟨by decide, fun _ _ _ _ => Nat.zero_le _⟩, gapRows_close, gapRows_gap,
    by decide +kernel, by decide +kernel⟩

/-- The hypotheses of the ranking theorems, for two matrices that differ by errors. -/
example : SameOrder 5 2 (totalDev (conv : ℕ → ℤ) 5 (rowsD gapRows)) (totalDev (conv : ℕ → ℤ) 5 (rowsD gapRows')) :=
  C132_same_order gapRows_close ⟨by decide, fun _ _ _ _ => Nat.zero_le _⟩ ⟨by decide, fun _ _ _ _ => Nat.zero_le _⟩ (by decide) gapRows_gap

/-- BUILD and the following search: the single objects are ranked in the same way as well. -/
example : (∀ i, 1 ≤ i → i ≤ 2 →
      SameOrder 5 i (totalDev (conv : ℕ → ℤ) 5 (rowsD gapRows)) (totalDev (conv : ℕ → ℤ) 5 (rowsD gapRows'))) ∧
    pamBuild ℤ (fnMat 5 (rowsD gapRows)) 2 = .ok ⟨124, [0, 1, 0, 0, 0], [4, 1]⟩ ∧
    pamBuild ℤ (fnMat 5 (rowsD gapRows')) 2 = .ok ⟨122, [0, 1, 0, 0, 0], [4, 1]⟩ := by
  refine ⟨fun i h1 h2 => ?_, by decide +kernel, by decide +kernel⟩
  obtain rfl | rfl : i = 1 ∨ i = 2 := by omega
  · have key : ∀ x < 5, ∀ y < 5, totalDev (conv : ℕ → ℤ) 5 (rowsD gapRows') [x] < totalDev (conv : ℕ → ℤ) 5 (rowsD gapRows') [y] ↔
        totalDev (conv : ℕ → ℤ) 5 (rowsD gapRows) [x] < totalDev (conv : ℕ → ℤ) 5 (rowsD gapRows) [y] := by decide +kernel
    intro a b ha hb
    obtain ⟨x, rfl⟩ := List.length_eq_one_iff.mp ha.len
    obtain ⟨y, rfl⟩ := List.length_eq_one_iff.mp hb.len
    exact key x (ha.range x (by simp)) y (hb.range y (by simp))
  · exact C132_same_order gapRows_close ⟨by decide, fun _ _ _ _ => Nat.zero_le _⟩ ⟨by decide, fun _ _ _ _ => Nat.zero_le _⟩ (by decide)
      gapRows_gap

/-- One distance is larger by 2. -/
def gapRows1 : List (List ℕ) :=
  [[0, 103, 131, 65, 65], [103, 0, 138, 115, 88], [131, 138, 0, 128, 9], [65, 115, 128, 0, 50], [65, 88, 9, 50, 0]]

set_option synthInstance.maxSize 1024 in
set_option synthInstance.maxHeartbeats 200000 in
/-- The medoid silhouette: the same ranking with an error in one distance. -/
example : SameOrder 5 2 (medSil (conv : ℕ → ℚ) 5 (rowsD gapRows)) (medSil (conv : ℕ → ℚ) 5 (rowsD gapRows1)) := by
  have key : ∀ x < 5, ∀ y < 5, ∀ z < 5, ∀ w < 5, x ≠ y → z ≠ w →
      (medSil (conv : ℕ → ℚ) 5 (rowsD gapRows1) [x, y] < medSil (conv : ℕ → ℚ) 5 (rowsD gapRows1) [z, w] ↔
        medSil (conv : ℕ → ℚ) 5 (rowsD gapRows) [x, y] < medSil (conv : ℕ → ℚ) 5 (rowsD gapRows) [z, w]) := by decide +kernel
  intro a b ha hb
  obtain ⟨x, hx, y, hy, hxy, rfl⟩ := ha.pair
  obtain ⟨z, hz, w, hw, hzw, rfl⟩ := hb.pair
  exact key x hx y hy z hz w hw hxy hzw

/-- A finer unit, and an error of 1 in two distances. -/
def fineD (e x y : Nat) : ℕ := 100 * rowsD gapRows x y + if x + y = 1 then e else 0

set_option synthInstance.maxSize 1024 in
set_option synthInstance.maxHeartbeats 200000 in
/-- The hypotheses for the medoid silhouette, with distances of at least 900. -/
example : Dissim 5 (fineD 0) ∧ Dissim 5 (fineD 1) ∧ Close 5 (fineD 0) (fineD 1) (1 : ℚ) ∧
    (∀ x y, x < 5 → y < 5 → x ≠ y → (900 : ℚ) ≤ conv (fineD 0 x y)) ∧
    (∀ a b, Distinct 5 2 a → Distinct 5 2 b → a.toFinset ≠ b.toFinset →
      2 * ((5 - 2 : ℕ) * (2 * 1 / 900) / (5 : ℕ)) < |medSil (conv : ℕ → ℚ) 5 (fineD 0) a - medSil (conv : ℕ → ℚ) 5 (fineD 0) b|) := by
  have hc : ∀ x < 5, ∀ y < 5, |((fineD 1 x y : ℕ) : ℚ) - (fineD 0 x y : ℕ)| ≤ 1 := by decide +kernel
  have hs : ∀ x < 5, ∀ y < 5, x ≠ y → (900 : ℚ) ≤ ((fineD 0 x y : ℕ) : ℚ) := by decide +kernel
  have key : ∀ x < 5, ∀ y < 5, ∀ z < 5, ∀ w < 5, x ≠ y → z ≠ w → ¬ (x = z ∧ y = w ∨ x = w ∧ y = z) →
      2 * ((5 - 2 : ℕ) * (2 * 1 / 900) / (5 : ℕ)) <
        |medSil (conv : ℕ → ℚ) 5 (fineD 0) [x, y] - medSil (conv : ℕ → ℚ) 5 (fineD 0) [z, w]| := by decide +kernel
  refine ⟨⟨by decide, fun _ _ _ _ => Nat.zero_le _⟩, ⟨by decide, fun _ _ _ _ => Nat.zero_le _⟩, fun x y hx hy => hc x hx y hy,
    fun x y hx hy => hs x hx y hy, fun a b ha hb hne => ?_⟩
  obtain ⟨x, hx, y, hy, hxy, rfl⟩ := ha.pair
  obtain ⟨z, hz, w, hw, hzw, rfl⟩ := hb.pair
  refine key x hx y hy z hz w hw hxy hzw fun h => hne ?_
  rcases h with ⟨rfl, rfl⟩ | ⟨rfl, rfl⟩
  · rfl
  · ext v; simp [or_comm]

set_option synthInstance.maxSize 1024 in
set_option synthInstance.maxHeartbeats 200000 in
/-- **C132, the bound is exact:** gaps of `2 (n - k) ε` are not enough. -/
theorem C132_gap_negation :
    ¬ ∀ (n maxiter : Nat) (d d' : Nat → Nat → ℕ) (med : List Nat) (ε : ℤ) (r r' : SwapResult ℤ), Dissim n d → Dissim n d' →
      ValidMeds n med → med.Nodup → 2 ≤ med.length → Close n d d' ε →
      (∀ a b, Distinct n med.length a → Distinct n med.length b → a.toFinset ≠ b.toFinset →
        (2 * (n - med.length)) • ε ≤ |totalDev (conv : ℕ → ℤ) n d a - totalDev (conv : ℕ → ℤ) n d b|) →
      fasterpam ℤ (fnMat n d) med maxiter = .ok r → fasterpam ℤ (fnMat n d') med maxiter = .ok r' → SameSearch r r' := by
  intro h
  have hc : ∀ x < 3, ∀ y < 3, |((rowsD [[0, 8, 8], [3, 0, 9], [3, 9, 0]] x y : ℕ) : ℤ) - (rowsD [[0, 8, 8], [2, 0, 9], [4, 9, 0]] x y : ℕ)| ≤ 1 := by
    decide +kernel
  have key : ∀ x < 3, ∀ y < 3, ∀ z < 3, ∀ w < 3, x ≠ y → z ≠ w → ¬ (x = z ∧ y = w ∨ x = w ∧ y = z) →
      2 ≤ |totalDev (conv : ℕ → ℤ) 3 (rowsD [[0, 8, 8], [2, 0, 9], [4, 9, 0]]) [x, y] -
        totalDev (conv : ℕ → ℤ) 3 (rowsD [[0, 8, 8], [2, 0, 9], [4, 9, 0]]) [z, w]| := by decide +kernel
  have := h 3 100 (rowsD [[0, 8, 8], [2, 0, 9], [4, 9, 0]]) (rowsD [[0, 8, 8], [3, 0, 9], [3, 9, 0]]) [0, 1] 1
    ⟨2, [0, 0, 1], 2, 1, [0, 2]⟩ ⟨3, [0, 1, 0], 1, 0, [0, 1]⟩ ⟨by decide, fun _ _ _ _ => Nat.zero_le _⟩
    ⟨by decide, fun _ _ _ _ => Nat.zero_le _⟩ ⟨⟨by decide, by decide, by decide, by decide⟩, by decide⟩ (by decide) (by decide)
    (fun x y hx hy => hc x hx y hy)
    (fun a b ha hb hne => by
      obtain ⟨x, hx, y, hy, hxy, rfl⟩ := ha.pair
      obtain ⟨z, hz, w, hw, hzw, rfl⟩ := hb.pair
      refine key x hx y hy z hz w hw hxy hzw fun h => hne ?_
      rcases h with ⟨rfl, rfl⟩ | ⟨rfl, rfl⟩
      · rfl
      · ext v; simp [or_comm])
    (by decide +kernel) (by decide +kernel)
  exact absurd this.med (by decide)

/-- **C132, the ranking of the distances is not enough:** squared distances have the same ranking, but lead to other medoids, also for
a metric. -/
theorem C132_monotone_negation :
    ¬ ∀ (n maxiter : Nat) (d d' : Nat → Nat → ℕ) (med : List Nat) (r r' : SwapResult ℤ), Dissim n d → Dissim n d' →
      ValidMeds n med → med.Nodup → 2 ≤ med.length → (∀ x y z w, d' x y < d' z w ↔ d x y < d z w) →
      fasterpam ℤ (fnMat n d) med maxiter = .ok r → fasterpam ℤ (fnMat n d') med maxiter = .ok r' → r'.med.toFinset = r.med.toFinset := by
  intro h
  have := h 5 100 (rowsD [[0, 1, 3, 3, 1], [1, 0, 3, 3, 2], [3, 3, 0, 3, 2], [3, 3, 3, 0, 2], [1, 2, 2, 2, 0]])
    (fun x y => rowsD [[0, 1, 3, 3, 1], [1, 0, 3, 3, 2], [3, 3, 0, 3, 2], [3, 3, 3, 0, 2], [1, 2, 2, 2, 0]] x y ^ 2) [0, 1]
    ⟨5, [0, 0, 1, 0, 0], 2, 1, [0, 2]⟩ ⟨9, [0, 0, 1, 0, 0], 2, 2, [4, 2]⟩ ⟨by decide, fun _ _ _ _ => Nat.zero_le _⟩
    ⟨by decide, fun _ _ _ _ => Nat.zero_le _⟩ ⟨⟨by decide, by decide, by decide, by decide⟩, by decide⟩ (by decide) (by decide)
    (fun x y z w => Nat.pow_lt_pow_iff_left (by decide)) (by decide +kernel) (by decide +kernel)
  exact absurd this (by decide)

end KMedoids
