import Verif.Proofs.DynRemoval
import Verif.Props.C89

/-!
# DynMSC without caches

The textbook description of DynMSC: optimise the medoid silhouette by eager local search, then drop one medoid,
and so on down to two medoids or to the smallest number asked for; return the best of the solutions found.
Shown here: for at most four initial medoids the code computes exactly this. With more of them the cached third
nearest medoid may be wrong after a medoid was dropped, see `C37_negation`.
-/

set_option linter.unusedSectionVars false

namespace KMedoids

open RFrom (conv)

/-! ## Definition -/

section spec
variable {L : Type} [LinearOrder L] [Neg L]

/-- The medoid at position `b` is dropped, the last one moves to its place. -/
def dropAt (med : List Nat) (b : Nat) : List Nat := (med.set b (med.getLastD 0)).dropLast

/-- The first of the medoids that leave the smallest silhouette when dropped is dropped. -/
def dropWorst (S : List Nat → L) (med : List Nat) : List Nat :=
  dropAt med (firstMin (fun b => S (med.eraseIdx b)) med.length)

/-- The solutions for `k`, `k - 1`, … medoids, down to two and to `minK`: medoids, passes, swaps. -/
def dynSteps (S : List Nat → L) (n maxiter minK : Nat) : Nat → List Nat → List (List Nat × Nat × Nat)
  | 0, _ => []
  | k + 1, med =>
    if 2 ≤ k + 1 ∧ minK ≤ k + 1 then
      let e := eagerRun (fun m => - S m) (List.range n) maxiter med
      e :: dynSteps S n maxiter minK k (dropWorst S e.1)
    else []

theorem dynSteps_more (S : List Nat → L) (n maxiter : Nat) {minK k : Nat} (h2 : 2 ≤ k + 1) (hm : minK ≤ k + 1)
    (med : List Nat) : dynSteps S n maxiter minK (k + 1) med =
      eagerRun (fun m => - S m) (List.range n) maxiter med :: dynSteps S n maxiter minK k
        (dropWorst S (eagerRun (fun m => - S m) (List.range n) maxiter med).1) := by
  conv_lhs => unfold dynSteps
  rw [if_pos ⟨h2, hm⟩]

theorem dynSteps_done (S : List Nat → L) (n maxiter : Nat) {minK k : Nat} (h : ¬ (2 ≤ k ∧ minK ≤ k))
    (med : List Nat) : dynSteps S n maxiter minK k med = [] := by
  cases k with
  | zero => rfl
  | succ k => unfold dynSteps; rw [if_neg h]

/-- The first of the solutions with the largest silhouette. -/
def bestSol (S : List Nat → L) (h : List (List Nat)) : List Nat :=
  (h.find? fun a => h.all fun b => decide (S b ≤ S a)).getD []

theorem bestSol_one (S : List Nat → L) (a : List Nat) : bestSol S [a] = a := by
  simp [bestSol]

theorem bestSol_spec (S : List Nat → L) {h : List (List Nat)} (hne : h ≠ []) :
    bestSol S h ∈ h ∧ ∀ b ∈ h, S b ≤ S (bestSol S h) := by
  have hex : ∃ a ∈ h, ∀ b ∈ h, S b ≤ S a := by
    induction h with
    | nil => exact absurd rfl hne
    | cons x xs ih =>
      by_cases hx : xs = []
      · subst hx; exact ⟨x, by simp, by simp⟩
      · obtain ⟨a, ha, hb⟩ := ih hx
        rcases le_total (S x) (S a) with h | h
        · exact ⟨a, by simp [ha], fun b hb' => by
            rcases List.mem_cons.mp hb' with rfl | hb'
            · exact h
            · exact hb b hb'⟩
        · exact ⟨x, by simp, fun b hb' => by
            rcases List.mem_cons.mp hb' with rfl | hb'
            · exact le_refl _
            · exact le_trans (hb b hb') h⟩
  unfold bestSol
  cases hf : h.find? fun a => h.all fun b => decide (S b ≤ S a) with
  | none =>
    obtain ⟨a, ha, hb⟩ := hex
    have := List.find?_eq_none.mp hf a ha
    simp only [List.all_eq_true, decide_eq_true_eq] at this
    exact absurd hb this
  | some a =>
    refine ⟨List.mem_of_find?_eq_some hf, ?_⟩
    have := List.find?_some hf
    simpa using this

/-- A new solution replaces the best so far if and only if it is strictly better. -/
theorem bestSol_snoc (S : List Nat → L) {h : List (List Nat)} (hne : h ≠ []) (a : List Nat) :
    bestSol S (h ++ [a]) = if S (bestSol S h) < S a then a else bestSol S h := by
  obtain ⟨h1, h2⟩ := bestSol_spec S hne
  split
  · rename_i hlt
    have hn : h.find? (fun x => (h ++ [a]).all fun b => decide (S b ≤ S x)) = none := by
      rw [List.find?_eq_none]
      intro x hx hall
      simp only [List.all_eq_true, decide_eq_true_eq] at hall
      exact absurd (le_trans (hall a (by simp)) (h2 x hx)) (not_le.mpr hlt)
    unfold bestSol
    rw [List.find?_append, hn, Option.none_or, List.find?_cons_of_pos]
    · rfl
    · simp only [List.all_eq_true, decide_eq_true_eq]
      intro b hb
      rcases List.mem_append.mp hb with hb | hb
      · exact le_of_lt (lt_of_le_of_lt (h2 b hb) hlt)
      · rw [List.mem_singleton.mp hb]
  · rename_i hlt
    have hcong : ∀ l : List (List Nat), (∀ x ∈ l, x ∈ h) →
        l.find? (fun x => (h ++ [a]).all fun b => decide (S b ≤ S x)) =
          l.find? (fun x => h.all fun b => decide (S b ≤ S x)) := by
      intro l
      induction l with
      | nil => intro _; rfl
      | cons x xs ih =>
        intro hl
        have e : ((h ++ [a]).all fun b => decide (S b ≤ S x)) = h.all fun b => decide (S b ≤ S x) := by
          rw [Bool.eq_iff_iff]
          simp only [List.all_eq_true, decide_eq_true_eq]
          refine ⟨fun g b hb => g b (by simp [hb]), fun g b hb => ?_⟩
          rcases List.mem_append.mp hb with hb | hb
          · exact g b hb
          · rw [List.mem_singleton.mp hb]
            exact le_trans (not_lt.mp hlt) (g _ h1)
        rw [List.find?_cons, List.find?_cons, e, ih fun y hy => hl y (by simp [hy])]
    unfold bestSol at h1 h2 ⊢
    rw [List.find?_append, hcong h (fun x hx => hx)]
    cases hf : h.find? fun x => h.all fun b => decide (S b ≤ S x) with
    | some x => rfl
    | none =>
      exfalso
      rw [hf] at h1 h2
      have := List.find?_eq_none.mp hf _ h1
      simp only [List.all_eq_true, decide_eq_true_eq] at this
      exact this h2

theorem dropAt_eq (med : List Nat) (b : Nat) : dropAt med b = removeListP med b := by
  unfold dropAt removeListP
  have e : med.getLastD 0 = med.getD (med.length - 1) 0 := by
    rw [List.getLastD_eq_getLast?, List.getLast?_eq_getElem?, List.getD_eq_getElem?_getD]
  rw [e]
  generalize med.getD (med.length - 1) 0 = x
  have := List.eraseIdx_length_sub_one (l := med.set b x)
  rw [List.length_set] at this
  exact this.symm

end spec

/-! ## The code -/

section exact
variable {N L : Type} [LinearOrder N] [Zero N] [RDist N] [LawfulDist N]
variable [Field L] [LinearOrder L] [IsStrictOrderedRing L] [RLoss L] [LawfulField L]
variable [RFrom N L] [LawfulFrom N L]

theorem chooseRemoval_first {rem : List L} (h : 0 < rem.length) :
    (chooseRemoval rem).2 = firstMin (fun b => rem.getD b 0) rem.length := by
  have := foldl_zipIdx_prefix (fun p (r : L × Nat) => 0 < p → r.1 = rem.getD r.2 0 ∧ r.2 < p ∧
      (∀ m, m < p → r.1 ≤ rem.getD m 0) ∧ ∀ m, m < r.2 → r.1 < rem.getD m 0)
    (g := fun (r : L × Nat) p => if p.2 == 0 || rlt p.1 r.1 then p else r)
    (xs := rem) (s := ((RLoss.zero : L), usizeMax)) 0 (fun p x s _ hx hI _ => by
      have hxp : rem.getD p 0 = x := by rw [List.getD_eq_getElem?_getD, hx]; rfl
      simp only [Bool.or_eq_true, beq_iff_eq, rltL, decide_eq_true_eq]
      by_cases hp : p = 0
      · rw [if_pos (Or.inl hp)]
        refine ⟨hxp.symm, by dsimp only; omega, fun m hm => ?_, fun m hm => by dsimp only at hm; omega⟩
        have : m = p := by omega
        rw [this, hxp]
      · obtain ⟨h1, h2, h3, h4⟩ := hI (by omega)
        by_cases hlt : x < s.1
        · rw [if_pos (Or.inr hlt)]
          refine ⟨hxp.symm, by dsimp only; omega, fun m hm => ?_, fun m hm => lt_of_lt_of_le hlt (h3 m hm)⟩
          by_cases hmp : m = p
          · rw [hmp, hxp]
          · exact le_of_lt (lt_of_lt_of_le hlt (h3 m (by omega)))
        · rw [if_neg (by rintro (h | h); exact hp h; exact hlt h)]
          refine ⟨h1, by omega, fun m hm => ?_, h4⟩
          by_cases hmp : m = p
          · rw [hmp, hxp]; exact not_lt.mp hlt
          · exact h3 m (by omega)) (by omega) (by omega)
  rw [List.drop_zero] at this
  obtain ⟨h1, h2, h3, h4⟩ := this h
  have h1 : (chooseRemoval rem).1 = rem.getD (chooseRemoval rem).2 0 := h1
  have h3 : ∀ m, m < rem.length → (chooseRemoval rem).1 ≤ rem.getD m 0 := h3
  have h4 : ∀ m, m < (chooseRemoval rem).2 → (chooseRemoval rem).1 < rem.getD m 0 := h4
  rw [h1] at h3 h4
  exact (firstMin_unique (fun b => rem.getD b 0) h2 h3 h4).symm

/-- The medoid that the code removes. -/
theorem removal_dropWorst {n : Nat} {d : Nat → Nat → N} {s : MSCState N L} {k : Nat} (hn : 0 < n)
    (h : MSCEx n k d s) (hk : 3 ≤ k) :
    removeListP s.med (chooseRemoval s.rem).2 = dropWorst (medSil (conv : N → L) n d) s.med := by
  have hl := h.inv.medLen
  have hrl : s.rem.length = k := by rw [h.rem, mscRemP_length]
  unfold dropWorst
  rw [dropAt_eq, chooseRemoval_first (by omega), hrl, hl]
  congr 1
  refine firstMin_congr fun a b ha hb => ?_
  have e := fun x (hx : x < s.med.length) => mscRemP_remove (L := L) h.inv.medRange h.inv.cache (by omega) hx
  rw [hl] at e
  rw [h.rem, e a ha, e b hb]
  have g : ∀ b < k, medSil (conv : N → L) n d (s.med.eraseIdx b) =
      medSil (conv : N → L) n d (removeListP s.med b) := fun b hb => by
    have hb' : b < s.med.length := by omega
    refine (medSil_perm hn (removeListP_perm hb') ?_).symm
    rw [removeListP_length hb']; omega
  rw [g a ha, g b hb, medSil_lt_iff hn]
  exact sub_lt_sub_iff_left _

/-- The swaps of one round are an eager local search. -/
theorem dynSwapP_eager [LawfulAdd N L] {n : Nat} {d : Nat → Nat → N} (hd : Dissim n d) (hn : 0 < n)
    {s : DynState N L} (h : DEx n d s) (hk : 3 ≤ s.med.length) (hku : s.med.length < u32Max)
    (hrem : s.rem.length = s.med.length) (maxiter : Nat) :
    ((dynSwapP d n maxiter s).1.med, (dynSwapP d n maxiter s).2, (dynSwapP d n maxiter s).1.nSwaps) =
      eagerRun (fun m => - medSil (conv : N → L) n d m) (List.range n) maxiter s.med := by
  have hseq : ∀ j ∈ List.range n, j < n := fun j hj => List.mem_range.mp hj
  show _ = eagerRun (negSil L n d) (List.range n) maxiter s.med
  rw [← eagerRun_negSil hn d hseq maxiter h.medRange]
  have hinit : MSCEx n s.med.length d
      (⟨s.med, s.data, mscRemP L s.data s.rem.length, s.loss, n, 0⟩ : MSCState N L) :=
    ⟨h, by rw [hrem]⟩
  obtain ⟨h1, h2, h3⟩ := loopG_eager (msc_eagerSpec (L := L) hd hk hku) hseq List.nodup_range
    (fuel := maxiter) (iter := 0) hinit (Or.inl (by simp))
  simp only [Nat.zero_add] at h1 h2 h3
  exact Prod.ext h1 (Prod.ext h2 h3)

/-- The record kept by the code tells about the solutions so far, `hist`. -/
structure DynTrack (n : Nat) (d : Nat → Nat → N) (minK : Nat) (hist : List (List Nat × Nat × Nat))
    (s : DynState N L) : Prop where
  start : hist = [] → s.bestLoss = 0
  best : hist ≠ [] → s.retMeds = bestSol (medSil (conv : N → L) n d) (hist.map (·.1)) ∧
    s.bestLoss = medSil (conv : N → L) n d s.retMeds
  iter : s.retIter = (hist.map (·.2.1)).sum
  swaps : s.retSwaps = (hist.map (·.2.2)).sum
  losses : s.retLoss = List.replicate (s.med.length + 1 - minK) 0 ++
    (hist.map fun e => medSil (conv : N → L) n d e.1).reverse

theorem set_replicate_append (a : Nat) (x : L) (t : List L) :
    (List.replicate (a + 1) 0 ++ t).set a x = List.replicate a 0 ++ x :: t := by
  rw [List.replicate_succ', List.append_assoc, List.set_append_right _ _ (by simp)]
  simp

theorem best_step {n : Nat} {d : Nat → Nat → N} {minK : Nat}
    {hist : List (List Nat × Nat × Nat)} {s : DynState N L} (ht : DynTrack n d minK hist s)
    {e : List Nat × Nat × Nat} (hpos : 0 < medSil (conv : N → L) n d e.1) {x : L}
    (hx : x = medSil (conv : N → L) n d e.1) :
    (if s.bestLoss < x then e.1 else s.retMeds) =
        bestSol (medSil (conv : N → L) n d) ((hist ++ [e]).map (·.1)) ∧
      (if s.bestLoss < x then x else s.bestLoss) =
        medSil (conv : N → L) n d (if s.bestLoss < x then e.1 else s.retMeds) := by
  subst hx
  by_cases hh : hist = []
  · rw [ht.start hh, if_pos hpos, if_pos hpos, hh]
    exact ⟨(bestSol_one _ _).symm, rfl⟩
  · obtain ⟨h1, h2⟩ := ht.best hh
    rw [List.map_append, List.map_cons, List.map_nil, bestSol_snoc _ (by simpa using hh), ← h1, ← h2]
    split
    · exact ⟨rfl, rfl⟩
    · exact ⟨rfl, h2⟩

theorem dynRoundP_track [LawfulAdd N L] {n k0 minK : Nat} {d : Nat → Nat → N} (hd : Dissim n d)
    (hn : n ≤ u32Max) (hn0 : 0 < n) (hku : k0 < u32Max) {mat : Mat N} (hm : IsMatrix mat n d) (maxiter : Nat)
    {s : DynState N L} (hs : DynShape n k0 minK s) (h : DEx n d s) (h3 : 3 ≤ s.med.length)
    (hmin : minK ≤ s.med.length) {hist : List (List Nat × Nat × Nat)} (ht : DynTrack n d minK hist s) :
    let e := eagerRun (fun m => - medSil (conv : N → L) n d m) (List.range n) maxiter s.med
    DynTrack n d minK (hist ++ [e]) (dynRoundP d n maxiter minK s) ∧
      (dynRoundP d n maxiter minK s).med = dropWorst (medSil (conv : N → L) n d) e.1 := by
  have hk : s.med.length < u32Max := lt_of_le_of_lt hs.le hku
  obtain ⟨-, -, hlen, hsw, -⟩ := dynRound_eq hm hn0 hku hs h3 hmin maxiter
  obtain ⟨hex, -⟩ := dynSwapP_ex hd h h3 hk hs.remLen maxiter
  have he := dynSwapP_eager (L := L) hd hn0 h h3 hk hs.remLen maxiter
  have hl : toSilhouette (dynSwapP d n maxiter s).1.loss n =
      medSil (conv : N → L) n d (dynSwapP d n maxiter s).1.med := by
    rw [← toSilhouette_eq hn0 hn, hex.inv.loss]
  have hpos : 0 < medSil (conv : N → L) n d (dynSwapP d n maxiter s).1.med :=
    medSil_pos hd hsw.shape.medRange (by rw [hsw.shape.medLen]; omega)
  dsimp only
  rw [← he]
  have hb := best_step (e := ((dynSwapP d n maxiter s).1.med, (dynSwapP d n maxiter s).2,
    (dynSwapP d n maxiter s).1.nSwaps)) ht hpos hl
  refine ⟨⟨fun h' => by simp at h', fun _ => ?_, ?_, ?_, ?_⟩, removal_dropWorst hn0 hex h3⟩
  · simp only [dynRoundP, rgtL, decide_eq_true_eq]
    exact hb
  · show s.retIter + _ = _
    rw [ht.iter]; simp
  · show s.retSwaps + _ = _
    rw [ht.swaps]; simp
  · rw [hlen]
    show s.retLoss.set (s.med.length - minK) _ = _
    rw [ht.losses, hl, show s.med.length + 1 - minK = (s.med.length - minK) + 1 by omega, set_replicate_append,
      show s.med.length - 1 + 1 - minK = s.med.length - minK by omega]
    simp

theorem dynLoopP_track [LawfulAdd N L] {n k0 minK : Nat} {d : Nat → Nat → N} (hd : Dissim n d)
    (hn : n ≤ u32Max) (hn0 : 0 < n) (hku : k0 < u32Max) (hk4 : k0 ≤ 4) {mat : Mat N} (hm : IsMatrix mat n d)
    (maxiter : Nat) {F : L} {fuel : Nat} {s : DynState N L} (hs : DynInv n d k0 minK F s)
    (hF : s.med.length = k0 → F = toSilhouette (dynSwapP d n maxiter s).1.loss n)
    {hist : List (List Nat × Nat × Nat)} (ht : DynTrack n d minK hist s) :
    ∃ hist', DynTrack n d minK hist' (dynLoopP d n maxiter minK fuel s) ∧
      hist' ++ dynSteps (medSil (conv : N → L) n d) n maxiter minK
          (dynLoopP d n maxiter minK fuel s).med.length (dynLoopP d n maxiter minK fuel s).med =
        hist ++ dynSteps (medSil (conv : N → L) n d) n maxiter minK s.med.length s.med := by
  induction fuel generalizing s hist with
  | zero => exact ⟨hist, ht, rfl⟩
  | succ fuel ih =>
    unfold dynLoopP
    split
    · rename_i hc
      have hinv := dynRoundP_inv hd hn hn0 hku hm maxiter hF hs hc.1 hc.2
      have hlen := (dynRound_eq hm hn0 hku hs.shape hc.1 hc.2 maxiter).2.2.1
      obtain ⟨h1, h2⟩ := dynRoundP_track hd hn hn0 hku hm maxiter hs.shape (hs.ex (Or.inr ⟨hk4, hc.1⟩)) hc.1 hc.2 ht
      obtain ⟨hist', h3, h4⟩ := ih hinv (fun h' => by have := hs.shape.le; omega) h1
      refine ⟨hist', h3, ?_⟩
      rw [h4, List.append_assoc]
      congr 1
      obtain ⟨k, hk⟩ : ∃ k, s.med.length = k + 1 := ⟨s.med.length - 1, by omega⟩
      rw [hlen, h2, hk]
      show _ = if _ then _ else _
      rw [if_pos (by omega)]
      rfl
    · exact ⟨hist, ht, rfl⟩

end exact

end KMedoids
