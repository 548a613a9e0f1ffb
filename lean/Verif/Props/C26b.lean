import Verif.Props.C24_C28

/-!
# C26, further: renamings that leave labels unused

`C26_gap` says what `silhouette` returns if a label below the largest one is unused. Two labellings of the
same clustering that both have such a gap get the same result; and the result of a labelling with a gap is
never above the textbook silhouette.
-/

set_option linter.unusedSectionVars false

namespace KMedoids

open RFrom (conv)

section exact
variable {N L : Type} [LinearOrder N] [Zero N] [RDist N] [LawfulDist N]
variable [Field L] [LinearOrder L] [IsStrictOrderedRing L] [RLoss L] [LawfulField L]
variable [RFrom N L] [LawfulFrom N L]

/-- What `C26_gap` gives for the samples does not depend on the names of the labels. -/
theorem gapList_map (d : Nat → Nat → N) {assi : List Nat} {f : Nat → Nat}
    (hf : ∀ a ∈ assi, ∀ b ∈ assi, f a = f b → a = b) :
    ((assi.map f).zipIdx.map fun p =>
      if members (assi.map f) p.2 p.1 = [] ∨ meanDist (conv : N → L) d (assi.map f) p.2 p.1 = 0 then (0 : L) else -1) =
    assi.zipIdx.map fun p =>
      if members assi p.2 p.1 = [] ∨ meanDist (conv : N → L) d assi p.2 p.1 = 0 then 0 else -1 := by
  rw [List.zipIdx_map, List.map_map]
  refine List.map_congr_left fun p hp => ?_
  have hp1 := mem_zipIdx_mem hp
  simp only [Function.comp, Prod.map, id]
  have hmean : meanDist (conv : N → L) d (assi.map f) p.2 (f p.1) = meanDist (conv : N → L) d assi p.2 p.1 := by
    unfold meanDist; rw [members_map hf _ hp1]
  simp only [members_map hf _ hp1, hmean]

/-- **C26, partial** (missing: renamings that close or open a gap). Two labellings of the same clustering
that both leave a label below their largest one unused give the same average and the same samples. -/
theorem C26_both_gaps_partial {mat : Mat N} {n : Nat} {d : Nat → Nat → N} (hm : IsMatrix mat n d)
    (hnn : ∀ x y, x < n → y < n → 0 ≤ d x y) {assi : List Nat} (hl : assi.length ≤ n) (hu : n ≤ u32Max)
    (f : Nat → Nat) (hf : ∀ a ∈ assi, ∀ b ∈ assi, f a = f b → a = b)
    (hg : ¬ NoGap assi) (hg' : ¬ NoGap (assi.map f)) (samples : Bool) :
    silhouette L mat (assi.map f) samples = silhouette L mat assi samples := by
  have gap : ∀ {as : List Nat}, ¬ NoGap as → ∃ c c', c ∉ as ∧ c < c' ∧ c' ∈ as := by
    intro as h
    by_contra hc
    refine h fun c c' hcc hc' => ?_
    by_contra hn
    exact hc ⟨c, c', hn, lt_of_le_of_ne hcc (fun e => hn (e ▸ hc')), hc'⟩
  obtain ⟨c, c', h1, h2, h3⟩ := gap hg
  obtain ⟨e, e', h1', h2', h3'⟩ := gap hg'
  have hl' : (assi.map f).length ≤ n := by simpa using hl
  have h0 : assi ≠ [] := List.ne_nil_of_mem h3
  have h0' : assi.map f ≠ [] := by simpa using h0
  obtain ⟨a, ha⟩ := C26_gap (L := L) hm hnn hl h1 h2 h3
  obtain ⟨b, hb⟩ := C26_gap (L := L) hm hnn hl' h1' h2' h3'
  rw [gapList_map d hf] at hb
  have ea := (C25_silhouette_range hm hnn hl hu h0 ha).1
  have eb := (C25_silhouette_range hm hnn hl' hu h0' hb).1
  have hab : b = a := by rw [ea, eb]
  subst hab
  cases samples
  · obtain ⟨x, xs, hx1, hx2, -⟩ := C25_silhouette (L := L) hm hl
    obtain ⟨y, ys, hy1, hy2, -⟩ := C25_silhouette (L := L) hm hl'
    rw [hx2, hy2]
    rw [hx1] at ha; rw [hy1] at hb
    cases ha; cases hb; rfl
  · rw [ha, hb]

/-- **C26, one side for all labels.** Whatever the labels, with gaps or without, `silhouette` never returns
more than the textbook silhouette: neither for a single object nor on average. So a gap can make a
clustering look worse than it is, never better. -/
theorem C26_at_most_textbook {mat : Mat N} {n : Nat} {d : Nat → Nat → N} (hm : IsMatrix mat n d)
    (hnn : ∀ x y, x < n → y < n → 0 ≤ d x y) {assi : List Nat} (hl : assi.length ≤ n) (hu : n ≤ u32Max)
    (h0 : assi ≠ []) :
    ∃ (avg : L) (sil : List L), silhouette L mat assi true = .ok (avg, sil) ∧
      List.Forall₂ (· ≤ ·) sil (silList (conv : N → L) d assi) ∧
      avg ≤ mean (silList (conv : N → L) d assi) := by
  by_cases hg : NoGap assi
  · exact ⟨_, _, (C24_silhouette hm hnn hl hu h0 hg).1, List.forall₂_same.mpr fun x _ => le_refl x, le_refl _⟩
  · have : ∃ c c', c ∉ assi ∧ c < c' ∧ c' ∈ assi := by
      by_contra hc
      refine hg fun c c' hcc hc' => ?_
      by_contra hn
      exact hc ⟨c, c', hn, lt_of_le_of_ne hcc (fun e => hn (e ▸ hc')), hc'⟩
    obtain ⟨c, c', h1, h2, h3⟩ := this
    obtain ⟨a, ha⟩ := C26_gap (L := L) hm hnn hl h1 h2 h3
    have ea := (C25_silhouette_range hm hnn hl hu h0 ha).1
    have hpt : ∀ p ∈ assi.zipIdx,
        (if members assi p.2 p.1 = [] ∨ meanDist (conv : N → L) d assi p.2 p.1 = 0 then (0 : L) else -1) ≤
        silWith (conv : N → L) d assi p.2 p.1 := by
      intro p hp
      have hp2 := mem_zipIdx_lt hp
      have hnn' : ∀ j, j < assi.length → 0 ≤ d p.2 j := fun j hj => hnn _ _ (by omega) (by omega)
      have ha0 := meanDist_nonneg (L := L) (assi := assi) hnn' p.1
      unfold silWith
      by_cases hmem : members assi p.2 p.1 = []
      · simp [hmem]
      · simp only [hmem, false_or, if_false]
        cases hmin : ((assi.filter (· ≠ p.1)).map (meanDist (conv : N → L) d assi p.2)).min? with
        | none => simp only; split <;> norm_num
        | some b =>
          have hb0 : 0 ≤ b := by
            obtain ⟨e, -, rfl⟩ := List.mem_map.mp (List.min?_mem hmin)
            exact meanDist_nonneg hnn' e
          simp only
          generalize meanDist (conv : N → L) d assi p.2 p.1 = a at ha0
          by_cases hz : max a b = 0
          · rw [if_pos hz]; split <;> norm_num
          · rw [if_neg hz]
            have hpos : 0 < max a b := lt_of_le_of_ne (le_trans ha0 (le_max_left _ _)) (Ne.symm hz)
            split
            · rename_i h
              subst h
              rw [sub_zero]
              exact div_nonneg hb0 hpos.le
            · rw [le_div_iff₀ hpos]
              have := le_max_left a b
              linarith
    refine ⟨a, _, ha, ?_, ?_⟩
    · unfold silList
      rw [List.forall₂_map_left_iff, List.forall₂_map_right_iff]
      exact List.forall₂_same.mpr hpt
    · rw [ea]
      unfold mean silList
      rw [List.length_map, List.length_map]
      exact div_le_div_of_nonneg_right (List.sum_le_sum hpt) (Nat.cast_nonneg _)

end exact

/-- Labels 0, 0, 0, 2, 2, 2 and 3, 3, 3, 1, 1, 1: both have gaps, same result, below the textbook value. -/
example : ¬ NoGap [0, 0, 0, 2, 2, 2] ∧ ¬ NoGap ([0, 0, 0, 2, 2, 2].map (3 - ·)) ∧
    silhouette ℚ exMat [0, 0, 0, 2, 2, 2] false = .ok (-1, []) ∧
    silhouette ℚ exMat ([0, 0, 0, 2, 2, 2].map (3 - ·)) false = silhouette ℚ exMat [0, 0, 0, 2, 2, 2] false ∧
    mean (silList (conv : ℕ → ℚ) exD [0, 0, 0, 2, 2, 2]) = 42871 / 62118 := by
  refine ⟨fun h => absurd (h 1 2 (by decide) (by decide)) (by decide),
    fun h => absurd (h 0 1 (by decide) (by decide)) (by decide), by decide +kernel, ?_, by decide +kernel⟩
  exact C26_both_gaps_partial exMat_isMatrix (fun x y _ _ => Nat.zero_le _) (by decide) (by decide) _
    (by decide) (fun h => absurd (h 1 2 (by decide) (by decide)) (by decide))
    (fun h => absurd (h 0 1 (by decide) (by decide)) (by decide)) false

example := C26_at_most_textbook (L := ℚ) exMat_isMatrix (fun x y _ _ => Nat.zero_le _)
  (assi := [0, 0, 0, 2, 2, 2]) (by decide) (by decide) (by decide)

end KMedoids
