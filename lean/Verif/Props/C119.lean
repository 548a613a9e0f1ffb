import Verif.Proofs.PamSilFixed
import Verif.Props.C39_C43
import Verif.Props.C63

/-!
# C119: three repairs make PAMSIL sound

C41, C42 and C49 found that `pamsil_swap` can panic, that both functions can return a medoid twice, and that `pamsil` can report a loss
of 0 for other silhouettes. Here: the three places named in `Model/Repaired.lean` are the only reasons. `pamsilSwapFixed` and
`pamsilFixed` are the models with these places changed, nothing else. They are **not** the code.

The first part holds for any arithmetic in which no number is greater than itself (so also with rounding and NaN).
-/

set_option linter.unusedSectionVars false

namespace KMedoids

open RFrom (conv)

section any
variable {N L : Type} [RDist N] [RLoss L] [RFrom N L]

theorem pamsilSwapFixed_eq (hirr : ∀ x : L, rgt x x = false) {mat : Mat N} {n : Nat} {d : Nat → Nat → N} (hm : IsMatrix mat n d)
    {med : List Nat} (hv : ValidMeds n med) (hk : 2 ≤ med.length) (maxiter : Nat) :
    let r := fixPsLoopP d n med.length maxiter 0 (silM L d n med) med 0
    pamsilSwapFixed L mat med maxiter = .ok ⟨r.1, nearAssiP d n r.2.1, r.2.2.1, r.2.2.2, r.2.1⟩ := by
  obtain ⟨h1, -⟩ := fixPsLoopP_ok hirr (d := d) hv rfl (fuel := maxiter) (iter := 0) (nSwaps := 0) rfl
  unfold pamsilSwapFixed
  simp only [assignNearest_eq (L := L) hm hv, ok_bind, if_neg (show ¬ med.length = 1 by omega),
    silhouette_eq (L := L) hm (le_of_eq (nearAssiP_length d n _)), fixPsLoop_eq hirr hm hv rfl]
  show (assignNearest L mat (fixPsLoopP d n med.length maxiter 0 (silM L d n med) med 0).2.1 >>= _) = _
  rw [assignNearest_eq (L := L) hm h1, ok_bind]
  rfl

/-- **C119, repaired pamsil_swap, any arithmetic:** from two or more valid medoids it does not panic; the labels are those of
`assign_nearest` for the returned medoids, and the loss is what `silhouette` computes for them; distinct medoids stay distinct. -/
theorem C119_pamsil_swap (hirr : ∀ x : L, rgt x x = false) {mat : Mat N} {n : Nat} {d : Nat → Nat → N} (hm : IsMatrix mat n d)
    {med : List Nat} (hv : ValidMeds n med) (hk : 2 ≤ med.length) (maxiter : Nat) :
    ∃ r : SwapResult L, pamsilSwapFixed L mat med maxiter = .ok r ∧ WellFormed n med.length r.med r.assi ∧
      (med.Nodup → r.med.Nodup) ∧ (∃ loss, assignNearest L mat r.med = .ok (loss, r.assi)) ∧
      silhouette L mat r.assi false = .ok (r.loss, []) ∧ r.nIter ≤ maxiter ∧ r.nSwap ≤ r.nIter ∧ (r.nSwap = 0 → r.med = med) := by
  have h := fixPsLoopP_ok hirr (d := d) hv rfl (fuel := maxiter) (iter := 0) (nSwaps := 0) rfl
  have he := pamsilSwapFixed_eq hirr hm hv hk maxiter
  dsimp only at h he
  generalize fixPsLoopP d n med.length maxiter 0 (silM L d n med) med 0 = r at h he
  obtain ⟨h1, h2, h3, h4, -, h6, -, h8, h9⟩ := h
  obtain ⟨l, a, q1, q2⟩ := (silOf_iff hm h1).mpr h4
  rw [assignNearest_eq hm h1] at q1
  cases q1
  refine ⟨_, he, ⟨nearAssiP_length _ _ _, ?_, h2, h1.range⟩, h3, ⟨_, assignNearest_eq hm h1⟩, q2, by simpa using h6, by simpa using h8,
    h9⟩
  rw [← h2]
  exact nearAssiP_label d h1.sizes.pos

/-- **C119, the full C41 after the repair:** no panic, for any number of medoids. -/
theorem C119_no_panic (hirr : ∀ x : L, rgt x x = false) {mat : Mat N} {n : Nat} {d : Nat → Nat → N} (hm : IsMatrix mat n d)
    {med : List Nat} (hv : ValidMeds n med) (maxiter : Nat) : ∃ r, pamsilSwapFixed L mat med maxiter = .ok r := by
  by_cases hk : 2 ≤ med.length
  · obtain ⟨r, h, -⟩ := C119_pamsil_swap hirr hm hv hk maxiter
    exact ⟨r, h⟩
  · have h1 : med.length = 1 := by have := hv.sizes.pos; omega
    obtain ⟨c, rfl⟩ := List.length_eq_one_iff.mp h1
    have h := chooseMedoid_eq (L := L) hm (nearAssiP_length d n [c]) (med := [c]) (m := 0) (c := c) rfl (hv.range c (by simp))
    unfold pamsilSwapFixed
    simp only [assignNearest_eq (L := L) hm hv, ok_bind, List.length_singleton, if_true, h.1]
    exact ⟨_, rfl⟩

end any

section exactLoss
variable {N L : Type} [LinearOrder N] [Zero N] [RDist N] [LawfulDist N]
variable [AddCommGroup L] [LinearOrder L] [IsOrderedAddMonoid L] [RLoss L] [LawfulLoss L]
variable [RFrom N L] [LawfulFrom N L]

theorem rgtL' (a b : L) : rgt a b = decide (b < a) := by
  simp only [rgt, LawfulLoss.pcmp_eq]
  rcases lt_trichotomy a b with h | h | h
  · simp [compare_lt_iff_lt.mpr h, h.le]
  · simp [compare_eq_iff_eq.mpr h, h]
  · simp [compare_gt_iff_gt.mpr h, h]

theorem rgtL_irrefl (x : L) : rgt x x = false := by rw [rgtL']; simp

theorem fixCand_mono (d : Nat → Nat → N) (n : Nat) (med : List Nat) (m : Nat) (b : L × Nat × Nat) (j : Nat) :
    b.1 ≤ (fixCand d n med m b j).1 ∧ (j ∉ med → silM L d n (med.set m j) ≤ (fixCand d n med m b j).1) := by
  unfold fixCand
  split
  · exact ⟨le_rfl, fun h => absurd (by assumption) h⟩
  · rw [rleL']
    split
    · rename_i h
      exact ⟨le_rfl, fun _ => by simpa using h⟩
    · rename_i h
      exact ⟨le_of_lt (by simpa using h), fun _ => le_rfl⟩

/-- The best exchange is at least as good as every exchange. -/
theorem fixBest_ge (d : Nat → Nat → N) (n k : Nat) (med : List Nat) (b : L × Nat × Nat) :
    b.1 ≤ (fixBest d n k med b).1 ∧ ∀ m j, m < k → j < n → j ∉ med → silM L d n (med.set m j) ≤ (fixBest d n k med b).1 := by
  have inner : ∀ (m : Nat) (b : L × Nat × Nat) (js : List Nat), b.1 ≤ (js.foldl (fixCand d n med m) b).1 ∧
      ∀ j ∈ js, j ∉ med → silM L d n (med.set m j) ≤ (js.foldl (fixCand d n med m) b).1 := by
    intro m b js
    induction js generalizing b with
    | nil => exact ⟨le_rfl, by simp⟩
    | cons x js ih =>
      obtain ⟨h1, h2⟩ := ih (fixCand d n med m b x)
      obtain ⟨g1, g2⟩ := fixCand_mono (L := L) d n med m b x
      refine ⟨g1.trans h1, fun j hj hjm => ?_⟩
      rcases List.mem_cons.mp hj with rfl | hj
      · exact (g2 hjm).trans h1
      · exact h2 j hj hjm
  have outer : ∀ (ms : List Nat) (b : L × Nat × Nat),
      b.1 ≤ (ms.foldl (fun b m => (List.range n).foldl (fixCand d n med m) b) b).1 ∧
      ∀ m ∈ ms, ∀ j, j < n → j ∉ med →
        silM L d n (med.set m j) ≤ (ms.foldl (fun b m => (List.range n).foldl (fixCand d n med m) b) b).1 := by
    intro ms
    induction ms with
    | nil => exact fun b => ⟨le_rfl, by simp⟩
    | cons x ms ih =>
      intro b
      obtain ⟨h1, h2⟩ := ih ((List.range n).foldl (fixCand d n med x) b)
      obtain ⟨g1, g2⟩ := inner x b (List.range n)
      refine ⟨g1.trans h1, fun m hm j hj hjm => ?_⟩
      rcases List.mem_cons.mp hm with rfl | hm
      · exact (g2 j (List.mem_range.mpr hj) hjm).trans h1
      · exact h2 m hm j hj hjm
  obtain ⟨h1, h2⟩ := outer (List.range k) b
  exact ⟨h1, fun m j hm => h2 m (List.mem_range.mpr hm) j⟩

/-- Every exchange raises the silhouette, and at the end there is no better exchange. -/
theorem fixPsLoopP_ex {d : Nat → Nat → N} {n k : Nat} {med : List Nat} {fuel iter : Nat} {sil : L} {nSwaps : Nat} :
    let r := fixPsLoopP d n k fuel iter sil med nSwaps
    nSwaps ≤ r.2.2.2 ∧ sil ≤ r.1 ∧ (nSwaps < r.2.2.2 → sil < r.1) ∧
      (r.2.2.1 < iter + fuel ∨ r.2.2.2 - nSwaps < r.2.2.1 - iter →
        ∀ m j, m < k → j < n → j ∉ r.2.1 → silM L d n (r.2.1.set m j) ≤ r.1) := by
  induction fuel generalizing iter sil med nSwaps with
  | zero => exact ⟨le_rfl, le_rfl, fun h => absurd h (lt_irrefl _), fun h => by simp [fixPsLoopP] at h⟩
  | succ fuel ih =>
    obtain ⟨h1, h2⟩ := fixBest_ge (L := L) d n k med (sil, k, usizeMax)
    unfold fixPsLoopP
    dsimp only
    rw [rgtL']
    split
    · rename_i h
      have h : sil < (fixBest d n k med (sil, k, usizeMax)).1 := by simpa using h
      have hi := ih (iter := iter + 1) (sil := (fixBest d n k med (sil, k, usizeMax)).1) (nSwaps := nSwaps + 1)
        (med := med.set (fixBest d n k med (sil, k, usizeMax)).2.1 (fixBest d n k med (sil, k, usizeMax)).2.2)
      dsimp only at hi ⊢
      obtain ⟨i1, i2, i3, i4⟩ := hi
      exact ⟨by omega, h.le.trans i2, fun _ => lt_of_lt_of_le h i2, fun hc => i4 (by omega)⟩
    · rename_i h
      have h : (fixBest d n k med (sil, k, usizeMax)).1 ≤ sil := by simpa using h
      exact ⟨le_rfl, le_rfl, fun h => absurd h (lt_irrefl _), fun _ m j hm hj hjm => (h2 m j hm hj hjm).trans h⟩

/-- **C119, repaired pamsil_swap, exact comparisons:** the silhouette rises with every exchange, also if it is negative; if the limit
was not reached (or the last pass made no exchange), no exchange of a medoid by an object that is no medoid has a larger silhouette. -/
theorem C119_local_optimum {mat : Mat N} {n : Nat} {d : Nat → Nat → N} (hm : IsMatrix mat n d)
    {med : List Nat} (hv : ValidMeds n med) (hk : 2 ≤ med.length) {maxiter : Nat} {r : SwapResult L}
    (hr : pamsilSwapFixed L mat med maxiter = .ok r) :
    (∀ s : L, SilOf L mat med s → s ≤ r.loss ∧ (0 < r.nSwap → s < r.loss)) ∧
    (r.nIter < maxiter ∨ r.nSwap < r.nIter → ∀ m j, m < r.med.length → j < n → j ∉ r.med →
      ∀ s : L, SilOf L mat (r.med.set m j) s → s ≤ r.loss) := by
  have h := fixPsLoopP_ok rgtL_irrefl (L := L) (d := d) hv rfl (fuel := maxiter) (iter := 0) (nSwaps := 0) rfl
  have g := fixPsLoopP_ex (L := L) (d := d) (n := n) (k := med.length) (med := med) (fuel := maxiter) (iter := 0)
    (sil := silM L d n med) (nSwaps := 0)
  rw [pamsilSwapFixed_eq rgtL_irrefl hm hv hk maxiter] at hr
  cases hr
  dsimp only at h g ⊢
  obtain ⟨h1, h2, -⟩ := h
  obtain ⟨-, g1, g2, g3⟩ := g
  refine ⟨fun s hs => ?_, fun hc m j hml hj hjm s hs => ?_⟩
  · rw [(silOf_iff hm hv).mp hs]; exact ⟨g1, g2⟩
  · rw [(silOf_iff hm (h1.set m hj)).mp hs]
    exact g3 (by omega) m j (by omega) hj hjm

/-- With positive distances BUILD finds `k` distinct medoids. -/
theorem buildP_full {n k : Nat} {d : Nat → Nat → N} (hd : Dissim n d) (hpos : ∀ x y, x < n → y < n → x ≠ y → 0 < d x y)
    (hs : Sizes n k) : (buildP L d n k).1.length = k := by
  obtain ⟨-, -, h3, h4⟩ := buildP_ex (L := L) hd hs
  obtain ⟨hv, hnd, -⟩ := buildP_cache (L := L) hd hs
  by_contra hne
  have h0 := (totalDev_eq_zero_iff (L := L) hd hv.range (List.length_pos_iff.mp hv.sizes.pos)).mp (h3 (lt_of_le_of_ne h4 hne))
  have hsub : List.range n ⊆ (buildP L d n k).1 := fun o ho => by
    have ho := List.mem_range.mp ho
    obtain ⟨c, hc, e⟩ := h0 o ho
    by_cases hoc : o = c
    · exact hoc ▸ hc
    · have := hpos o c ho (hv.range c hc) hoc
      rw [e] at this
      exact absurd this (lt_irrefl _)
  have := (List.subperm_of_subset List.nodup_range hsub).length_le
  have := hs.le
  simp at *
  omega

/-- **C119, repaired pamsil**, the full C41 and C49: it does not panic, and the loss is the silhouette of the returned labels, which are
those of the returned medoids. -/
theorem C119_pamsil {mat : Mat N} {n k : Nat} {d : Nat → Nat → N} (hm : IsMatrix mat n d) (hd : Dissim n d)
    (hs : Sizes n k) (hk : 2 ≤ k) (maxiter : Nat) :
    ∃ r : SwapResult L, pamsilFixed L mat k maxiter = .ok r ∧ WellFormed n k r.med r.assi ∧
      silhouette L mat r.assi false = .ok (r.loss, []) ∧ (∃ loss, assignNearest L mat r.med = .ok (loss, r.assi)) ∧
      (∀ o m : Nat, r.assi[o]? = some m → IsNearest d r.med o m) := by
  obtain ⟨meds, h1, hv, hl, -, -⟩ := pamsil_run (L := L) hm hd hs maxiter
  obtain ⟨r, g1, g2, -, g4, g5, -⟩ := C119_pamsil_swap (L := L) rgtL_irrefl hm hv (by omega) maxiter
  refine ⟨r, ?_, hl ▸ g2, g5, g4, fun o m h => ?_⟩
  · unfold pamsilFixed
    simp only [assertSizes_ok hm hs, ok_bind, h1, g1]
  · obtain ⟨loss, g4⟩ := g4
    have hv' : ValidMeds n r.med := ⟨by rw [g2.medLen, hl]; exact hs, g2.medRange⟩
    rw [assignNearest_eq hm hv'] at g4
    injection g4 with g4
    rw [← (Prod.mk.inj g4).2] at h
    exact nearAssiP_nearest hd hv' h

/-- **C119, the full C42 after the repair:** with positive distances `pamsilFixed` returns distinct medoids. -/
theorem C119_pamsil_distinct {mat : Mat N} {n k : Nat} {d : Nat → Nat → N} (hm : IsMatrix mat n d) (hd : Dissim n d)
    (hpos : ∀ x y, x < n → y < n → x ≠ y → 0 < d x y) (hs : Sizes n k) {maxiter : Nat} {r : SwapResult L}
    (hr : pamsilFixed L mat k maxiter = .ok r) : r.med.Nodup := by
  obtain ⟨meds, h1, hv, hl, e, -⟩ := pamsil_run (L := L) hm hd hs maxiter
  have hnd : meds.Nodup := by
    rw [e, buildP_full hd hpos hs, Nat.sub_self, List.replicate_zero, List.append_nil]
    exact (buildP_cache (L := L) hd hs).2.1
  have hr : pamsilSwapFixed L mat meds maxiter = .ok r := by
    unfold pamsilFixed at hr
    simpa only [assertSizes_ok hm hs, ok_bind, h1] using hr
  by_cases hk : 2 ≤ meds.length
  · obtain ⟨r', g1, -, g3, -⟩ := C119_pamsil_swap (L := L) rgtL_irrefl hm hv hk maxiter
    rw [hr] at g1
    cases g1
    exact g3 hnd
  · have h1 : meds.length = 1 := by have := hv.sizes.pos; omega
    obtain ⟨c, rfl⟩ := List.length_eq_one_iff.mp h1
    have h := chooseMedoid_eq (L := L) hm (nearAssiP_length d n [c]) (med := [c]) (m := 0) (c := c) rfl (hv.range c (by simp))
    unfold pamsilSwapFixed at hr
    simp only [assignNearest_eq (L := L) hm hv, ok_bind, List.length_singleton, if_true, h.1] at hr
    cases hr
    simp

end exactLoss

/-! ## concrete cases -/

/-- The case in which `pamsil_swap` panics (`C41_negation`): the silhouette of `[0, 1, 2]` is negative, that of `[3, 1, 2]` is 0. -/
example : ∃ r : SwapResult ℚ, pamsilSwapFixed ℚ (ofRows exPanic : Mat ℕ) [0, 1, 2] 9 = .ok r ∧ r.loss = 0 ∧ r.nSwap = 1 ∧
    r.med.Nodup ∧ silhouette ℚ (ofRows exPanic : Mat ℕ) r.assi false = .ok (0, []) ∧
    (∃ s : ℚ, SilOf ℚ (ofRows exPanic : Mat ℕ) [0, 1, 2] s ∧ s < 0) := by
  have hv : ValidMeds 4 [0, 1, 2] := ⟨⟨by decide, by decide, by decide, by decide⟩, by decide⟩
  obtain ⟨r, h1, -, h3, -, h5, -⟩ := C119_pamsil_swap (L := ℚ) rgtL_irrefl exPanic_isMatrix hv (by decide) 9
  have h : pamsilSwapFixed ℚ (ofRows exPanic : Mat ℕ) [0, 1, 2] 9 = .ok ⟨0, [1, 1, 2, 0], 2, 1, [3, 1, 2]⟩ := by decide +kernel
  have hr := h1
  rw [h] at hr
  cases hr
  have hs := (silOf_iff (L := ℚ) exPanic_isMatrix hv).mpr rfl
  exact ⟨_, h1, rfl, rfl, h3 (by decide), h5, _, hs, ((C119_local_optimum exPanic_isMatrix hv (by decide) h1).1 _ hs).2 (by decide)⟩

theorem exDup_isMatrix : IsMatrix (ofRows exDup : Mat ℕ) 4 (rowsD exDup) :=
  ⟨rfl, rfl, fun x y hx hy => by
    have : ∀ x < 4, ∀ y < 4, (ofRows exDup : Mat ℕ).get x y = .ok (rowsD exDup x y) := by decide +kernel
    exact this x hx y hy⟩

/-- The case in which `pamsil_swap` returns the medoids `[0, 0]` (`C42_pamsil_swap_negation`): now `[0, 3]`, and no exchange is better. -/
example : pamsilSwapFixed ℚ (ofRows exDup : Mat ℕ) [0, 1] 9 = .ok ⟨83 / 240, [0, 1, 1, 1], 2, 1, [0, 3]⟩ ∧
    ∀ m j, m < 2 → j < 4 → j ∉ [0, 3] → ∀ s : ℚ, SilOf ℚ (ofRows exDup : Mat ℕ) ([0, 3].set m j) s → s ≤ 83 / 240 := by
  have h : pamsilSwapFixed ℚ (ofRows exDup : Mat ℕ) [0, 1] 9 = .ok ⟨83 / 240, [0, 1, 1, 1], 2, 1, [0, 3]⟩ := by decide +kernel
  exact ⟨h, (C119_local_optimum exDup_isMatrix ⟨⟨by decide, by decide, by decide, by decide⟩, by decide⟩ (by decide) h).2
    (Or.inl (by decide))⟩

theorem exDup2_isMatrix : IsMatrix (ofRows exDup2 : Mat ℕ) 5 (rowsD exDup2) :=
  ⟨rfl, rfl, fun x y hx hy => by
    have : ∀ x < 5, ∀ y < 5, (ofRows exDup2 : Mat ℕ).get x y = .ok (rowsD exDup2 x y) := by decide +kernel
    exact this x hx y hy⟩

/-- The case in which `pamsil` returns the medoids `[0, 0, 1, 2]` (`C42_pamsil_negation`): now `[4, 0, 1, 2]`. -/
example : ∃ r : SwapResult ℚ, pamsilFixed ℚ (ofRows exDup2 : Mat ℕ) 4 9 = .ok r ∧ r.med = [4, 0, 1, 2] ∧ r.med.Nodup ∧ r.nSwap = 1 := by
  have hd : Dissim 5 (rowsD exDup2) := ⟨by decide +kernel, fun _ _ _ _ => Nat.zero_le _⟩
  have hs : Sizes 5 4 := ⟨by decide, by decide, by decide, by decide⟩
  have hpos : ∀ x < 5, ∀ y < 5, x ≠ y → 0 < rowsD exDup2 x y := by decide +kernel
  have h : pamsilFixed ℚ (ofRows exDup2 : Mat ℕ) 4 9 = .ok ⟨11 / 40, [1, 2, 3, 3, 0], 2, 1, [4, 0, 1, 2]⟩ := by decide +kernel
  exact ⟨_, h, rfl, C119_pamsil_distinct exDup2_isMatrix hd (fun x y hx hy => hpos x hx y hy) hs h, rfl⟩

theorem exLoss_isMatrix : IsMatrix (ofRows exLoss : Mat ℕ) 5 (rowsD exLoss) :=
  ⟨rfl, rfl, fun x y hx hy => by
    have : ∀ x < 5, ∀ y < 5, (ofRows exLoss : Mat ℕ).get x y = .ok (rowsD exLoss x y) := by decide +kernel
    exact this x hx y hy⟩

/-- The case in which `pamsil` reports 0 (`C49_negation`): now 1/10, the silhouette of its labels. -/
example : ∃ r : SwapResult ℚ, pamsilFixed ℚ (ofRows exLoss : Mat ℕ) 4 9 = .ok r ∧ r.loss = 1 / 10 ∧
    silhouette ℚ (ofRows exLoss : Mat ℕ) r.assi false = .ok (1 / 10, []) := by
  obtain ⟨r, h1, -, h3, -⟩ := C119_pamsil (L := ℚ) exLoss_isMatrix ⟨by decide +kernel, fun _ _ _ _ => Nat.zero_le _⟩
    (k := 4) ⟨by decide, by decide, by decide, by decide⟩ (by decide) 9
  have h : pamsilFixed ℚ (ofRows exLoss : Mat ℕ) 4 9 = .ok ⟨1 / 10, [2, 0, 3, 1, 1], 1, 0, [1, 3, 0, 2]⟩ := by decide +kernel
  have hr := h1
  rw [h] at hr
  cases hr
  exact ⟨_, h1, rfl, h3⟩

end KMedoids
