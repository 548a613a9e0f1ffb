import Verif.Examples
import Verif.Proofs.MedSil

/-! # C24–C28: silhouettes -/

set_option linter.unusedSectionVars false

namespace KMedoids

open RFrom (conv)

/-! ## any arithmetic -/

section any
variable {N L : Type} [RDist N] [RLoss L] [RFrom N L]

/-- **C25, any arithmetic.** `silhouette` returns, for any labels; the average does not depend on
`samples`; there is one sample per object, or none. -/
theorem C25_silhouette {mat : Mat N} {n : Nat} {d : Nat → Nat → N} (hm : IsMatrix mat n d)
    {assi : List Nat} (hl : assi.length ≤ n) :
    ∃ (avg : L) (sil : List L), silhouette L mat assi true = .ok (avg, sil) ∧
      silhouette L mat assi false = .ok (avg, []) ∧ sil.length = assi.length := by
  rw [silhouette_eq hm hl, silhouette_eq hm hl]
  unfold silhouetteP
  split
  · exact ⟨_, _, rfl, rfl, by simp⟩
  · exact ⟨_, _, rfl, rfl, by simp [silValsP]⟩

/-- **C27, partial** (missing: assignments that use label 0 only). `par_silhouette` returns the value of
`silhouette`, bit by bit, also with floating point numbers. -/
theorem C27_par_silhouette_partial {mat : Mat N} {n : Nat} {d : Nat → Nat → N} (hm : IsMatrix mat n d)
    {assi : List Nat} (hl : assi.length ≤ n) (h : ∃ a ∈ assi, a ≠ 0) (samples : Bool) :
    ∃ (avg : L) (sil : List L), parSilhouette L mat assi = .ok avg ∧
      silhouette L mat assi samples = .ok (avg, sil) := by
  obtain ⟨a, ha, h0⟩ := h
  have := lt_bufLen ha
  rw [silhouette_eq hm hl, parSilhouette_eq hm hl, silhouetteP, if_neg (by omega)]
  exact ⟨_, _, rfl, rfl⟩

end any

/-- The full C27 statement; false, see `C27_negation`. -/
def C27_full : Prop := ∀ (mat : Mat ℕ) (n : Nat) (d : Nat → Nat → ℕ), IsMatrix mat n d →
  ∀ assi : List Nat, assi.length = n → ∀ samples, ∃ (avg : ℚ) (sil : List ℚ),
    parSilhouette ℚ mat assi = .ok avg ∧ silhouette ℚ mat assi samples = .ok (avg, sil)

/-- **C27, finding.** `par_silhouette` lacks the early return of `silhouette` for a single cluster: two
objects at distance 1 in one cluster give 0 sequentially and -1 in parallel. -/
theorem C27_negation : ¬ C27_full := by
  intro h
  obtain ⟨avg, sil, h1, h2⟩ := h (ofRows [[0, 1], [1, 0]]) 2 (fun x y => if x = y then 0 else 1)
    ⟨rfl, rfl, fun x y hx hy => by
      have : ∀ x < 2, ∀ y < 2, (ofRows [[0, 1], [1, 0]] : Mat ℕ).get x y =
        .ok (if x = y then 0 else 1) := by decide +kernel
      exact this x hx y hy⟩ [0, 0] rfl false
  have e1 : parSilhouette ℚ (ofRows [[0, 1], [1, 0]] : Mat ℕ) [0, 0] = .ok (-1) := by decide +kernel
  have e2 : silhouette ℚ (ofRows [[0, 1], [1, 0]] : Mat ℕ) [0, 0] false = .ok (0, []) := by decide +kernel
  rw [e1] at h1; rw [e2] at h2
  cases h1
  have h3 : (0 : ℚ) = -1 := congrArg Prod.fst (Except.ok.inj h2)
  revert h3
  decide +kernel

/-! ## exact arithmetic -/

section exact
variable {N L : Type} [LinearOrder N] [Zero N] [RDist N] [LawfulDist N]
variable [Field L] [LinearOrder L] [IsStrictOrderedRing L] [RLoss L] [LawfulField L]
variable [RFrom N L] [LawfulFrom N L]

/-- **C24.** `silhouette` returns the mean of the textbook silhouettes, and them as samples. -/
theorem C24_silhouette {mat : Mat N} {n : Nat} {d : Nat → Nat → N} (hm : IsMatrix mat n d)
    (hnn : ∀ x y, x < n → y < n → 0 ≤ d x y) {assi : List Nat} (hl : assi.length ≤ n) (hu : n ≤ u32Max)
    (h0 : assi ≠ []) (hg : NoGap assi) :
    silhouette L mat assi true = .ok (mean (silList (conv : N → L) d assi), silList (conv : N → L) d assi) ∧
    silhouette L mat assi false = .ok (mean (silList (conv : N → L) d assi), []) := by
  have hnn' : ∀ i j, i < assi.length → j < assi.length → 0 ≤ d i j :=
    fun i j hi hj => hnn i j (by omega) (by omega)
  rw [silhouette_eq hm hl, silhouette_eq hm hl, silhouetteP_eq hg hnn' h0 (by omega),
    silhouetteP_eq hg hnn' h0 (by omega)]
  exact ⟨rfl, rfl⟩

/-- **C24, parallel version** for at least two clusters. -/
theorem C24_par_silhouette {mat : Mat N} {n : Nat} {d : Nat → Nat → N} (hm : IsMatrix mat n d)
    (hnn : ∀ x y, x < n → y < n → 0 ≤ d x y) {assi : List Nat} (hl : assi.length ≤ n) (hu : n ≤ u32Max)
    (h1 : 1 ∈ assi) (hg : NoGap assi) :
    parSilhouette L mat assi = .ok (mean (silList (conv : N → L) d assi)) := by
  have := lt_bufLen h1
  rw [parSilhouette_eq hm hl, silAvgP_eq hg (fun i j hi hj => hnn i j (by omega) (by omega))
    (List.ne_nil_of_mem h1) (by omega) (by omega)]

/-- **C25, range.** For any labels (also with gaps) the samples and the average lie in `[-1, 1]`, and the
average is the mean of the samples. -/
theorem C25_silhouette_range {mat : Mat N} {n : Nat} {d : Nat → Nat → N} (hm : IsMatrix mat n d)
    (hnn : ∀ x y, x < n → y < n → 0 ≤ d x y) {assi : List Nat} (hl : assi.length ≤ n) (hu : n ≤ u32Max)
    (h0 : assi ≠ []) {avg : L} {sil : List L} (hr : silhouette L mat assi true = .ok (avg, sil)) :
    avg = mean sil ∧ (∀ s ∈ sil, -1 ≤ s ∧ s ≤ 1) ∧ -1 ≤ avg ∧ avg ≤ 1 := by
  rw [silhouette_eq hm hl] at hr
  have h : avg = mean sil ∧ (∀ s ∈ sil, -1 ≤ s ∧ s ≤ 1) ∧ sil ≠ [] := by
    unfold silhouetteP at hr
    split at hr
    · cases hr
      refine ⟨by simp [mean, zeroL], fun s hs => ?_, by simpa using h0⟩
      rw [(List.mem_replicate.mp hs).2, zeroL]; constructor <;> norm_num
    · cases hr
      refine ⟨?_, fun s hs => ?_, by simpa [silValsP] using h0⟩
      · rw [silAvgP, sum_foldl, ofU32L, asU32_le (by omega),
          divL _ (by exact_mod_cast (List.length_pos_iff.mpr h0).ne'), mean]
        simp [silValsP]
      · obtain ⟨p, hp, rfl⟩ := List.mem_map.mp hs
        have := mem_zipIdx_lt hp
        exact silValueP_range _ (fun j hj => hnn _ _ (by omega) (by omega))
  refine ⟨h.1, h.2.1, ?_⟩
  rw [h.1]
  exact mean_range h.2.2 h.2.1

theorem members_map {assi : List Nat} {f : Nat → Nat} (hf : ∀ a ∈ assi, ∀ b ∈ assi, f a = f b → a = b)
    (i : Nat) {c : Nat} (hc : c ∈ assi) : members (assi.map f) i (f c) = members assi i c := by
  unfold members
  rw [List.length_map]
  refine List.filter_congr fun j hj => ?_
  have hj := List.mem_range.mp hj
  have e : assi[j]? = some assi[j] := List.getElem?_eq_getElem hj
  rw [List.getElem?_map, e]
  simp only [Option.map_some, Option.some.injEq]
  congr 2
  exact propext ⟨fun h => hf _ (List.getElem_mem hj) _ hc h, fun h => by rw [h]⟩

theorem silList_map (d : Nat → Nat → N) {assi : List Nat} {f : Nat → Nat}
    (hf : ∀ a ∈ assi, ∀ b ∈ assi, f a = f b → a = b) :
    silList (conv : N → L) d (assi.map f) = silList (conv : N → L) d assi := by
  unfold silList
  rw [List.zipIdx_map, List.map_map]
  refine List.map_congr_left fun p hp => ?_
  have hp1 := mem_zipIdx_mem hp
  simp only [Function.comp, Prod.map, id]
  unfold silWith
  rw [members_map hf _ hp1]
  have hmean : ∀ c ∈ assi, meanDist (conv : N → L) d (assi.map f) p.2 (f c) =
      meanDist (conv : N → L) d assi p.2 c := fun c hc => by
    unfold meanDist; rw [members_map hf _ hc]
  rw [hmean _ hp1]
  have : ((assi.map f).filter (· ≠ f p.1)).map (meanDist (conv : N → L) d (assi.map f) p.2) =
      (assi.filter (· ≠ p.1)).map (meanDist (conv : N → L) d assi p.2) := by
    rw [List.filter_map, List.map_map]
    have : assi.filter ((fun x => decide (x ≠ f p.1)) ∘ f) = assi.filter (· ≠ p.1) := by
      refine List.filter_congr fun a ha => ?_
      simp only [Function.comp, decide_eq_decide, ne_eq, not_iff_not]
      exact ⟨fun h => hf a ha _ hp1 h, fun h => by rw [h]⟩
    rw [this]
    exact List.map_congr_left fun a ha => hmean a (List.mem_of_mem_filter ha)
  rw [this]

/-- **C26, partial** (missing: renamings that leave a label unused). Renaming the labels changes neither
average nor samples. -/
theorem C26_silhouette_partial {mat : Mat N} {n : Nat} {d : Nat → Nat → N} (hm : IsMatrix mat n d)
    (hnn : ∀ x y, x < n → y < n → 0 ≤ d x y) {assi : List Nat} (hl : assi.length ≤ n) (hu : n ≤ u32Max)
    (h0 : assi ≠ []) (f : Nat → Nat) (hf : ∀ a ∈ assi, ∀ b ∈ assi, f a = f b → a = b)
    (hg : NoGap assi) (hg' : NoGap (assi.map f)) (samples : Bool) :
    silhouette L mat (assi.map f) samples = silhouette L mat assi samples := by
  have h1 := C24_silhouette (L := L) hm hnn hl hu h0 hg
  have h2 := C24_silhouette (L := L) hm hnn (assi := assi.map f) (by simpa using hl) hu (by simpa using h0) hg'
  rw [silList_map d hf] at h2
  cases samples
  · rw [h1.2, h2.2]
  · rw [h1.1, h2.1]

/-- **C26, finding, general form.** If some label below the largest one is unused, `silhouette` takes
`b = 0`: every object that is not alone in its cluster and has a positive mean distance to it gets the
worst value -1, all others 0. -/
theorem C26_gap {mat : Mat N} {n : Nat} {d : Nat → Nat → N} (hm : IsMatrix mat n d)
    (hnn : ∀ x y, x < n → y < n → 0 ≤ d x y) {assi : List Nat} (hl : assi.length ≤ n)
    {c c' : Nat} (hc : c ∉ assi) (hcc : c < c') (hc' : c' ∈ assi) :
    ∃ avg : L, silhouette L mat assi true = .ok (avg, assi.zipIdx.map fun p =>
      if members assi p.2 p.1 = [] ∨ meanDist (conv : N → L) d assi p.2 p.1 = 0 then 0 else -1) := by
  have hlt := lt_bufLen hc'
  rw [silhouette_eq hm hl, silhouetteP, if_neg (by omega)]
  refine ⟨silAvgP L d assi, ?_⟩
  simp only [if_true]
  congr 2
  refine List.map_congr_left fun p hp => ?_
  have hp2 := mem_zipIdx_lt hp
  have hnn' : ∀ j, j < assi.length → 0 ≤ d p.2 j := fun j hj => hnn _ _ (by omega) (by omega)
  have ha0 := meanDist_nonneg (L := L) (assi := assi) hnn' p.1
  unfold silValueP
  simp only [others_eq]
  simp only [bucket_eq, checkedDiv_nat, foldl_min_eq]
  by_cases hmem : members assi p.2 p.1 = []
  · rw [if_neg (by simp [hmem]), if_pos (.inl hmem), zeroL]
  · rw [if_pos (List.length_pos_iff.mpr hmem)]
    have hcm : (0 : L) ∈ ((List.range (bufLen assi)).filter (· ≠ p.1)).map
        (meanDist (conv : N → L) d assi p.2) := by
      refine List.mem_map.mpr ⟨c, ?_, ?_⟩
      · rw [List.mem_filter, List.mem_range]
        refine ⟨by omega, ?_⟩
        have : c ≠ p.1 := fun h => hc (h ▸ mem_zipIdx_mem hp)
        simpa using this
      · have : members assi p.2 c = [] := by
          rw [List.eq_nil_iff_forall_not_mem]
          exact fun j hj => hc (List.mem_of_getElem? (mem_members.mp hj).1)
        simp [meanDist, this]
    have hb : ∀ l : List L, (0 : L) ∈ l → (∀ x ∈ l, 0 ≤ x) →
        l.tail.foldl min (l.head?.getD RLoss.zero) = 0 := by
      intro l h1 h2
      cases l with
      | nil => cases h1
      | cons x xs =>
        have : (x :: xs).min? = some (0 : L) := List.min?_eq_some_iff.mpr ⟨h1, h2⟩
        exact Option.some.inj this
    rw [hb _ hcm (fun x hx => by
      obtain ⟨e, -, rfl⟩ := List.mem_map.mp hx
      exact meanDist_nonneg hnn' e)]
    have hfold : ((members assi p.2 p.1).map fun j => (conv (d p.2 j) : L)).sum /
      ((members assi p.2 p.1).length : L) = meanDist (conv : N → L) d assi p.2 p.1 := rfl
    rw [hfold]
    by_cases hz : meanDist (conv : N → L) d assi p.2 p.1 = 0
    · simp [hz, checkedDivL]
    · have h1 : ¬ (members assi p.2 p.1 = [] ∨ meanDist (conv : N → L) d assi p.2 p.1 = 0) :=
        fun h => h.elim hmem hz
      have : 0 < meanDist (conv : N → L) d assi p.2 p.1 := lt_of_le_of_ne ha0 (Ne.symm hz)
      have h2 : rgt (meanDist (conv : N → L) d assi p.2 p.1) 0 = true := by rw [rgtL]; simpa using this
      rw [if_neg h1, h2, if_pos rfl, checkedDivL, if_pos this, subL, zero_sub, neg_div, div_self hz]

/-- **C28.** For `k ≥ 2`, `medoid_silhouette` returns the mean of `1 - d₁/d₂` and the individual values. -/
theorem C28_medoid_silhouette {mat : Mat N} {n : Nat} {d : Nat → Nat → N} (hm : IsMatrix mat n d)
    (hnn : ∀ x y, x < n → y < n → 0 ≤ d x y) {meds : List Nat} (hv : ValidMeds n meds) (hk : 2 ≤ meds.length) :
    medoidSilhouette L mat meds true = .ok (medSil (conv : N → L) n d meds,
      (List.range n).map (medSil1 (conv : N → L) d meds)) ∧
    medoidSilhouette L mat meds false = .ok (medSil (conv : N → L) n d meds, []) := by
  have hn : 0 < n := lt_of_lt_of_le hv.sizes.pos hv.sizes.le
  have hnn' : ∀ i, i < n → ∀ m ∈ meds, 0 ≤ d i m := fun i hi m hmm => hnn i m hi (hv.range m hmm)
  rw [medoidSilhouette_eq hm hv, medoidSilhouette_eq hm hv, medoidSilhouetteP_eq hk hn hv.sizes.n_le hnn',
    medoidSilhouetteP_eq hk hn hv.sizes.n_le hnn']
  exact ⟨rfl, rfl⟩

/-- **C28, range.** With non-negative distances all values lie in `[0, 1]`. -/
theorem C28_medoid_silhouette_range {mat : Mat N} {n : Nat} {d : Nat → Nat → N} (hm : IsMatrix mat n d)
    (hnn : ∀ x y, x < n → y < n → 0 ≤ d x y)
    {meds : List Nat} (hv : ValidMeds n meds) (hk : 2 ≤ meds.length) {avg : L} {sil : List L}
    (hr : medoidSilhouette L mat meds true = .ok (avg, sil)) :
    0 ≤ avg ∧ avg ≤ 1 ∧ ∀ s ∈ sil, 0 ≤ s ∧ s ≤ 1 := by
  rw [(C28_medoid_silhouette hm hnn hv hk).1] at hr
  cases hr
  have hn : 0 < n := lt_of_lt_of_le hv.sizes.pos hv.sizes.le
  have h : ∀ s ∈ (List.range n).map (medSil1 (conv : N → L) d meds), 0 ≤ s ∧ s ≤ 1 := by
    intro s hs
    obtain ⟨o, ho, rfl⟩ := List.mem_map.mp hs
    exact medSil1_range hk (fun m hmm => hnn o m (List.mem_range.mp ho) (hv.range m hmm))
  have h2 := mean_range (by simp; omega) h
  exact ⟨h2.1, h2.2, h⟩

end exact

/-- The full C26 statement; false, see `C26_negation`. -/
def C26_full : Prop := ∀ (mat : Mat ℕ) (n : Nat) (d : Nat → Nat → ℕ), IsMatrix mat n d → Dissim n d →
  ∀ assi : List Nat, assi.length = n → ∀ f : Nat → Nat, (∀ a ∈ assi, ∀ b ∈ assi, f a = f b → a = b) →
    silhouette ℚ mat (assi.map f) false = silhouette ℚ mat assi false

/-- **C26, finding.** Labels 0, 0, 0, 1, 1, 1 and 0, 0, 0, 2, 2, 2 describe the same clustering; the first
has silhouette 42871/62118, the second -1. -/
theorem C26_negation : ¬ C26_full := by
  intro h
  have := h exMat 6 exD exMat_isMatrix exD_dissim [0, 0, 0, 1, 1, 1] rfl (fun a => 2 * a)
    (fun a _ b _ hab => by omega)
  revert this
  decide +kernel

/-- A clustering of the six objects with three clusters, one of them a singleton. -/
example : NoGap [0, 0, 0, 1, 1, 2] ∧ ([0, 0, 0, 1, 1, 2] : List Nat).length ≤ 6 ∧ 6 ≤ u32Max ∧
    silhouette ℚ exMat [0, 0, 0, 1, 1, 2] true =
      .ok (mean (silList (conv : ℕ → ℚ) exD [0, 0, 0, 1, 1, 2]), silList (conv : ℕ → ℚ) exD [0, 0, 0, 1, 1, 2]) ∧
    mean (silList (conv : ℕ → ℚ) exD [0, 0, 0, 1, 1, 2]) = 11453 / 16632 := by
  refine ⟨?_, by decide, by decide, by decide +kernel, by decide +kernel⟩
  intro c c' h h'
  have : c' ≤ 2 := by simp at h'; omega
  have : c = 0 ∨ c = 1 ∨ c = 2 := by omega
  rcases this with rfl | rfl | rfl <;> decide

/-- A swap of two labels. -/
example : NoGap [0, 1, 1] ∧ NoGap ([0, 1, 1].map (1 - ·)) ∧
    ∀ a ∈ [0, 1, 1], ∀ b ∈ [0, 1, 1], 1 - a = 1 - b → a = b := by
  refine ⟨fun c c' h h' => ?_, fun c c' h h' => ?_, by decide⟩ <;>
  · have : c' ≤ 1 := by simp at h'; omega
    have : c = 0 ∨ c = 1 := by omega
    rcases this with rfl | rfl <;> decide

/-- Medoids 0, 3, 5: two objects have `d₁ > 0`. -/
example : ValidMeds 6 [0, 3, 5] ∧ medoidSilhouette ℚ exMat [0, 3, 5] true =
    .ok (medSil (conv : ℕ → ℚ) 6 exD [0, 3, 5], (List.range 6).map (medSil1 (conv : ℕ → ℚ) exD [0, 3, 5])) ∧
    medSil (conv : ℕ → ℚ) 6 exD [0, 3, 5] = 11 / 12 :=
  ⟨ex_valid (by decide) (by decide) (by decide), by decide +kernel, by decide +kernel⟩

end KMedoids
