import Verif.Props.C29_C35
import Verif.Props.C24_C28

/-!
# C27 and C34, further: exactly where the two functions differ

`par_silhouette` and `silhouette` differ exactly for a single cluster (label 0 only) of objects that are not all at
distance zero. `fastmsc` and `pammedsil_swap` with two medoids differ only in the labels of objects that are equally
far from both medoids.
-/

set_option linter.unusedSectionVars false

namespace KMedoids

open RFrom (conv)

section exact
variable {N L : Type} [LinearOrder N] [Zero N] [RDist N] [LawfulDist N]
variable [Field L] [LinearOrder L] [IsStrictOrderedRing L] [RLoss L] [LawfulField L]
variable [RFrom N L] [LawfulFrom N L]

theorem members_replicate {m i j : Nat} : j ∈ members (List.replicate m 0) i 0 ↔ j < m ∧ j ≠ i := by
  rw [mem_members]
  by_cases h : j < m <;> simp [h]

/-- The value of one object in a single cluster. -/
theorem silValueP_one {d : Nat → Nat → N} {m i : Nat} (hi : i < m) (hnn : ∀ j, j < m → 0 ≤ d i j) :
    silValueP (silBufP L d (List.replicate m 0) i) 0 = if ∃ j < m, j ≠ i ∧ d i j ≠ 0 then -1 else 0 := by
  have hlen : bufLen (List.replicate m 0) = 1 := by
    have h1 := bufLen_mem (assi := List.replicate m 0) (by simp; omega)
    have := List.eq_of_mem_replicate h1.1
    omega
  unfold silValueP
  simp only [others_eq, hlen]
  simp only [bucket_eq, checkedDiv_nat]
  have hsum : ∀ js : List Nat, (∀ j ∈ js, 0 ≤ d i j) → 0 ≤ (js.map fun j => (conv (d i j) : L)).sum ∧
      ((js.map fun j => (conv (d i j) : L)).sum = 0 ↔ ∀ j ∈ js, d i j = 0) := by
    intro js
    induction js with
    | nil => simp
    | cons j js ih =>
      intro h
      obtain ⟨i1, i2⟩ := ih fun j hj => h j (by simp [hj])
      have hmono := LawfulFrom.strictMono (N := N) (L := L)
      have hj : 0 ≤ (conv (d i j) : L) := by
        rw [← LawfulFrom.map_zero (N := N) (L := L)]; exact hmono.monotone (h j (by simp))
      have hj0 : (conv (d i j) : L) = 0 ↔ d i j = 0 := by
        rw [← LawfulFrom.map_zero (N := N) (L := L)]; exact hmono.injective.eq_iff
      simp only [List.map_cons, List.sum_cons, List.forall_mem_cons]
      refine ⟨add_nonneg hj i1, ?_⟩
      rw [add_eq_zero_iff_of_nonneg hj i1, hj0, i2]
  obtain ⟨s1, s2⟩ := hsum (members (List.replicate m 0) i 0) fun j hj => hnn j (members_replicate.mp hj).1
  have hex : (∃ j < m, j ≠ i ∧ d i j ≠ 0) ↔ ¬ ∀ j ∈ members (List.replicate m 0) i 0, d i j = 0 := by
    constructor
    · rintro ⟨j, h1, h2, h3⟩ h; exact h3 (h j (members_replicate.mpr ⟨h1, h2⟩))
    · intro h
      by_contra hc
      refine h fun j hj => ?_
      by_contra h0
      exact hc ⟨j, (members_replicate.mp hj).1, (members_replicate.mp hj).2, h0⟩
  rw [← s2] at hex
  generalize ((members (List.replicate m 0) i 0).map fun j => (conv (d i j) : L)).sum = s at *
  by_cases hm0 : (members (List.replicate m 0) i 0).length = 0
  · have hnil := List.length_eq_zero_iff.mp hm0
    rw [if_neg (by omega), if_neg, zeroL]
    rintro ⟨j, h1, h2, -⟩
    have := members_replicate.mpr ⟨h1, h2⟩
    rw [hnil] at this; simp at this
  · have hpos : (0 : L) < ((members (List.replicate m 0) i 0).length : L) := by
      exact_mod_cast Nat.pos_of_ne_zero hm0
    rw [if_pos (by omega)]
    have hnil : ((List.range 1).filter (· ≠ 0)) = [] := by decide
    simp only [hnil, List.map_nil, List.tail_nil, List.foldl_nil, List.head?_nil, Option.getD_none, zeroL, rgtL, subL,
      checkedDivL]
    by_cases h : s = 0
    · have hne : ¬ ∃ j < m, j ≠ i ∧ d i j ≠ 0 := fun h' => hex.mp h' h
      rw [if_neg hne]
      simp [h]
    · have hs : 0 < s / ((members (List.replicate m 0) i 0).length : L) :=
        div_pos (lt_of_le_of_ne s1 (Ne.symm h)) hpos
      have hyes := hex.mpr h
      rw [if_pos hyes]
      simp only [hs, decide_true, if_true, zero_sub]
      rw [neg_div, div_self (ne_of_gt hs)]

/-- **C27, a single cluster**: `silhouette` returns 0, `par_silhouette` minus the fraction of the objects that have a
distance other than zero to some object of the cluster. -/
theorem C27_single_partial {mat : Mat N} {n : Nat} {d : Nat → Nat → N} (hm : IsMatrix mat n d)
    (hnn : ∀ x y, x < n → y < n → 0 ≤ d x y) {m : Nat} (hm0 : 0 < m) (hl : m ≤ n) (hu : n ≤ u32Max) :
    silhouette L mat (List.replicate m 0) false = .ok (0, []) ∧
    parSilhouette L mat (List.replicate m 0) =
      .ok (-(((List.range m).filter fun i => ∃ j < m, j ≠ i ∧ d i j ≠ 0).length : L) / (m : L)) := by
  have hlen : bufLen (List.replicate m 0) = 1 := by
    have h1 := bufLen_mem (assi := List.replicate m 0) (by simp; omega)
    have := List.eq_of_mem_replicate h1.1
    omega
  have hl' : (List.replicate m 0).length ≤ n := by simpa using hl
  rw [silhouette_eq hm hl', parSilhouette_eq hm hl']
  refine ⟨by unfold silhouetteP; rw [if_pos hlen]; simp [zeroL], ?_⟩
  congr 1
  have hvals : silValsP L d (List.replicate m 0) =
      (List.range m).map fun i => if ∃ j < m, j ≠ i ∧ d i j ≠ 0 then (-1 : L) else 0 := by
    have hz : (List.replicate m 0).zipIdx = (List.range m).map fun i => (0, i) := by
      refine List.ext_getElem? fun i => ?_
      by_cases h : i < m <;> simp [h, List.getElem?_zipIdx, List.getElem?_range]
    unfold silValsP
    rw [hz, List.map_map]
    refine List.map_congr_left fun i hi => ?_
    have hi := List.mem_range.mp hi
    exact silValueP_one hi fun j hj => hnn i j (by omega) (by omega)
  have hsum : ∀ is : List Nat, (is.map fun i => if ∃ j < m, j ≠ i ∧ d i j ≠ 0 then (-1 : L) else 0).sum =
      -((is.filter fun i => ∃ j < m, j ≠ i ∧ d i j ≠ 0).length : L) := by
    intro is
    induction is with
    | nil => simp
    | cons i is ih =>
      rw [List.map_cons, List.sum_cons, ih]
      by_cases h : ∃ j < m, j ≠ i ∧ d i j ≠ 0
      · rw [if_pos h, List.filter_cons_of_pos (by simpa using h)]; push_cast [List.length_cons]; ring
      · rw [if_neg h, List.filter_cons_of_neg (by simpa using h)]; ring
  unfold silAvgP
  rw [sum_foldl, hvals, hsum, ofU32L, List.length_replicate, asU32_le (by omega), divL]
  exact_mod_cast (by omega : m ≠ 0)

/-- **C27, exactly**: `par_silhouette` returns the value of `silhouette` if and only if some label is not 0, or all
objects of the single cluster have distance zero. -/
theorem C27_exact_partial {mat : Mat N} {n : Nat} {d : Nat → Nat → N} (hm : IsMatrix mat n d)
    (hnn : ∀ x y, x < n → y < n → 0 ≤ d x y) {assi : List Nat} (h0 : assi ≠ []) (hl : assi.length ≤ n) (hu : n ≤ u32Max) :
    (parSilhouette L mat assi = (silhouette L mat assi false).map Prod.fst) ↔
      (∃ a ∈ assi, a ≠ 0) ∨ ∀ i j, i < assi.length → j < assi.length → j ≠ i → d i j = 0 := by
  by_cases h : ∃ a ∈ assi, a ≠ 0
  · obtain ⟨avg, sil, h1, h2⟩ := C27_par_silhouette_partial (L := L) hm hl h false
    rw [h1, h2]
    exact ⟨fun _ => Or.inl h, fun _ => rfl⟩
  · have hrep : assi = List.replicate assi.length 0 :=
      List.eq_replicate_iff.mpr ⟨rfl, fun a ha => by by_contra hc; exact h ⟨a, ha, hc⟩⟩
    have hpos := List.length_pos_iff.mpr h0
    generalize hM : assi.length = m at *
    subst hrep
    obtain ⟨h1, h2⟩ := C27_single_partial (L := L) hm hnn hpos hl hu
    rw [h1, h2]
    have hm' : (m : L) ≠ 0 := by exact_mod_cast (by omega : m ≠ 0)
    constructor
    · intro heq
      right
      intro i j hi hj hji
      by_contra hd
      have heq : -(((List.range m).filter fun i => ∃ j < m, j ≠ i ∧ d i j ≠ 0).length : L) / (m : L) = 0 :=
        Except.ok.inj heq
      rw [div_eq_zero_iff, or_iff_left hm', neg_eq_zero, Nat.cast_eq_zero, List.length_eq_zero_iff,
        List.filter_eq_nil_iff] at heq
      exact heq i (List.mem_range.mpr hi) (by simpa using ⟨j, hj, hji, hd⟩)
    · rintro (hc | hc)
      · exact absurd hc h
      · have : ((List.range m).filter fun i => ∃ j < m, j ≠ i ∧ d i j ≠ 0) = [] := by
          rw [List.filter_eq_nil_iff]
          intro i hi
          have hi := List.mem_range.mp hi
          simp only [decide_eq_true_eq]
          rintro ⟨j, h1, h2, h3⟩
          exact h3 (hc i j hi h1 h2)
        rw [this]
        simp [Except.map]

/-- **C34, two medoids**, the labels: `fastmsc` and `pammedsil_swap` give an object different labels only if it is
equally far from both medoids. -/
theorem C34_fastmsc_two_labels_partial [LawfulAdd N L] {mat : Mat N} {n : Nat} {d : Nat → Nat → N}
    (hm : IsMatrix mat n d) (hd : Dissim n d) {med : List Nat} (hv : ValidMeds n med) (hnd : med.Nodup)
    (hk : med.length = 2) {maxiter : Nat} {r r' : SwapResult L} (hr : fastmsc L mat med maxiter = .ok r)
    (hr' : pammedsilSwap L mat med maxiter = .ok r') {o : Nat} (h : r.assi[o]? ≠ r'.assi[o]?) :
    ∃ c c', r.med = [c, c'] ∧ r'.med = [c, c'] ∧ d o c = d o c' := by
  obtain ⟨s, s', h1, h2, hmed, -⟩ := C34_fastmsc_two_partial (L := L) hm hd hv hnd hk maxiter
  rw [hr] at h1; cases h1
  rw [hr'] at h2; cases h2
  obtain ⟨a1, a2, a3, -⟩ := C31_msc (L := L) hm hd hv hnd (by omega) (Or.inr (Or.inl hr))
  obtain ⟨b1, b2, -⟩ := C31_msc (L := L) hm hd hv hnd (by omega) (Or.inr (Or.inr hr'))
  obtain ⟨c, c', hcc⟩ := List.length_eq_two.mp (a3.trans hk)
  refine ⟨c, c', hcc, hmed ▸ hcc, ?_⟩
  by_cases ho : o < n
  · obtain ⟨m, hm1⟩ : ∃ m, r.assi[o]? = some m := ⟨_, List.getElem?_eq_getElem (by omega)⟩
    obtain ⟨m', hm2⟩ : ∃ m', r'.assi[o]? = some m' := ⟨_, List.getElem?_eq_getElem (by omega)⟩
    rw [hm1, hm2] at h
    obtain ⟨e, e1, e2⟩ := a2 o m hm1
    obtain ⟨e', e1', e2'⟩ := b2 o m' hm2
    rw [← hmed] at e1' e2'
    rw [hcc] at e1 e2 e1' e2'
    have hle : ∀ {m : Nat} {e : Nat}, [c, c'][m]? = some e → m = 0 ∧ e = c ∨ m = 1 ∧ e = c' := by
      intro m e he
      match m with
      | 0 => exact Or.inl ⟨rfl, by simpa using he.symm⟩
      | 1 => exact Or.inr ⟨rfl, by simpa using he.symm⟩
      | m + 2 => simp at he
    rcases hle e1 with ⟨rfl, rfl⟩ | ⟨rfl, rfl⟩ <;> rcases hle e1' with ⟨rfl, rfl⟩ | ⟨rfl, rfl⟩
    · exact absurd rfl h
    · exact le_antisymm (e2 _ (by simp)) (e2' _ (by simp))
    · exact le_antisymm (e2' _ (by simp)) (e2 _ (by simp))
    · exact absurd rfl h
  · rw [List.getElem?_eq_none (by omega), List.getElem?_eq_none (by omega)] at h
    exact absurd rfl h

end exact

/-! ## concrete cases -/

theorem C27_exD_nn : ∀ x y, x < 6 → y < 6 → 0 ≤ exD x y := fun _ _ _ _ => Nat.zero_le _

example := C27_single_partial (L := ℚ) exMat_isMatrix C27_exD_nn (m := 4) (by decide) (by decide) (by decide)
-- one cluster of the duplicates 0 and 1: equal; one cluster of all objects: different
example : parSilhouette ℚ exMat [0, 0] = .ok 0 ∧ parSilhouette ℚ exMat [0, 0, 0, 0, 0, 0] = .ok (-1) := by
  decide +kernel
example := C27_exact_partial (L := ℚ) exMat_isMatrix C27_exD_nn (assi := [0, 0]) (by decide) (by decide) (by decide)

example : ∃ r r' : SwapResult ℚ, fastmsc ℚ exTieMat [0, 2] 9 = .ok r ∧ pammedsilSwap ℚ exTieMat [0, 2] 9 = .ok r' ∧
    ∃ o : Nat, r.assi[o]? ≠ r'.assi[o]? := by
  have h : ∃ o < 5, (match fastmsc ℚ exTieMat [0, 2] 9, pammedsilSwap ℚ exTieMat [0, 2] 9 with
    | .ok r, .ok r' => decide (r.assi[o]? ≠ r'.assi[o]?)
    | _, _ => false) = true := by decide +kernel
  obtain ⟨o, -, h⟩ := h
  split at h
  · rename_i r r' h1 h2
    exact ⟨r, r', h1, h2, o, by simpa using h⟩
  · cases h

end KMedoids
