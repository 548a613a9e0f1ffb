import Verif.Proofs.RowOrderMsc
import Verif.Proofs.BuildAny
import Verif.Proofs.PmsBuild

/-!
# BUILD when distances need not be comparable

As in `RowOrder.lean`, now for all rows. If the distance of every object to itself is zero, the records of BUILD are those
of the initial assignment, and the gain of an object that is already a medoid is `-0`. So BUILD stops rather than choosing
a medoid again, whatever the other gains are.
-/

set_option linter.unusedSectionVars false

namespace KMedoids

variable {N L : Type} [RDist N] [RLoss L] [RFrom N L]
variable {n : Nat} {d : Nat → Nat → N} {o : Nat}
open RFrom (conv)

theorem initRecP_first (he : RowOrder n d o) {meds : List Nat} (hne : meds ≠ []) (hr : ∀ m ∈ meds, m < n)
    (hc : meds.count o ≤ 1) (hlen : meds.length ≤ u32Max) :
    ∀ c ∈ meds, rlt (d o c) (initRecP d meds o).near.d = false := by
  intro c hcm
  rcases initRecP_row he meds hne hr hc hlen with ⟨c', h1, h2, -⟩ | ⟨-, h⟩
  · rw [h2]
    have : c = c' := by rw [h1] at hcm; simpa using hcm
    subst this
    exact he.irrefl c (hr c hcm)
  · exact h.first c hcm

theorem initRecP_self (he : RowOrder n d o) (hz : d o o = RDist.zero) {meds : List Nat} (hr : ∀ m ∈ meds, m < n)
    (hc : meds.count o ≤ 1) (hlen : meds.length ≤ u32Max) (hom : o ∈ meds) :
    (initRecP d meds o).near.d = RDist.zero := by
  rcases initRecP_row he meds (List.ne_nil_of_mem hom) hr hc hlen with ⟨c', h1, h2, -⟩ | ⟨-, h⟩
  · rw [h2]
    have : o = c' := by rw [h1] at hom; simpa using hom
    rw [← this]; exact hz
  · obtain ⟨m, hm⟩ := List.mem_iff_getElem?.mp hom
    obtain ⟨c, hc1, hc2⟩ := h.near
    rw [h.own m hm, hm] at hc1
    cases hc1
    rcases hc2 with hc2 | ⟨-, hc2⟩
    · rw [hc2, hz]
    · exact hc2

/-- A medoid is never a gain. -/
theorem buildSumP_row (he : ∀ o, o < n → RowOrder n d o) (hz : ∀ o, o < n → d o o = RDist.zero) {meds : List Nat}
    (hnd : meds.Nodup) (hr : ∀ m ∈ meds, m < n) (hlen : meds.length ≤ u32Max) {i : Nat} (hi : i ∈ meds) :
    buildSumP L d ((initDataP d n meds).map (·.near.d)) i = RLoss.neg (conv (RDist.zero : N)) := by
  have hin := hr i hi
  have hne : meds ≠ [] := List.ne_nil_of_mem hi
  have hc : ∀ o, meds.count o ≤ 1 := List.nodup_iff_count.mp hnd
  unfold buildSumP
  have hg : ((initDataP d n meds).map (·.near.d)).getD i RDist.zero = RDist.zero := by
    rw [List.getD_eq_getElem?_getD]
    simp [initDataP, hin, initRecP_self (he i hin) (hz i hin) hr (hc i) hlen hi]
  rw [hg]
  refine foldl_inv (fun s : L => s = RLoss.neg (conv (RDist.zero : N))) (fun s p hp hs => ?_) rfl
  have hpg := mem_zipIdx_get hp
  have hpn : p.2 < n := by have := mem_zipIdx_lt hp; simpa [initDataP] using this
  have hp1 : p.1 = (initRecP d meds p.2).near.d := by
    simp [initDataP, hpn] at hpg; exact hpg.symm
  have : rlt (d p.2 i) p.1 = false := by
    rw [hp1]; exact initRecP_first (he _ hpn) hne hr (hc _) hlen i hi
  simp [this, hs]

theorem buildRecP_row (hz : ∀ o, o < n → d o o = RDist.zero) (l : Nat) {c : Nat} (hc : c < n)
    (r : Rec N) : buildRecP d l c (r, o) = initStepP d o r (c, l) := by
  unfold buildRecP initStepP
  by_cases h : o = c
  · subst h; simp [hz o hc]
  · simp [h]

theorem buildData_row (hz : ∀ o, o < n → d o o = RDist.zero) {meds : List Nat}
    (hne : meds ≠ []) {c : Nat} (hc : c < n) :
    (initDataP d n meds).zipIdx.map (buildRecP d meds.length c) = initDataP d n (meds ++ [c]) := by
  apply List.ext_getElem?
  intro o
  by_cases ho : o < n
  · simp only [initDataP, List.getElem?_map, List.getElem?_zipIdx, List.getElem?_range ho,
      Option.map_some, Nat.zero_add]
    rw [initRecP_append' d hne, buildRecP_row hz _ hc]
  · rw [List.getElem?_eq_none (by simp [initDataP]; omega),
      List.getElem?_eq_none (by simp [initDataP]; omega)]

theorem nodup_snoc {meds : List Nat} (hnd : meds.Nodup) {c : Nat} (hc : c ∉ meds) : (meds ++ [c]).Nodup := by
  rw [List.nodup_append]
  exact ⟨hnd, by simp, fun a ha b hb => by rw [List.mem_singleton.mp hb]; rintro rfl; exact hc ha⟩

theorem range_snoc {meds : List Nat} (hr : ∀ m ∈ meds, m < n) {c : Nat} (hc : c < n) : ∀ m ∈ meds ++ [c], m < n := by
  intro m hm
  rcases List.mem_append.mp hm with hm | hm
  · exact hr m hm
  · rw [List.mem_singleton.mp hm]; exact hc

theorem buildLoopP_row (hneg : rge (RLoss.neg (conv (RDist.zero : N)) : L) RLoss.zero = true)
    (he : ∀ o, o < n → RowOrder n d o) (hz : ∀ o, o < n → d o o = RDist.zero) {k : Nat} (hk : k < u32Max)
    {cnt : Nat} {meds : List Nat} {loss : L} (hne : meds ≠ []) (hnd : meds.Nodup) (hr : ∀ m ∈ meds, m < n)
    (hcnt : meds.length + cnt ≤ k) :
    let r := buildLoopP d n k (List.range' meds.length cnt) meds (initDataP d n meds) loss
    r.1.Nodup ∧ r.2.1 = initDataP d n r.1 := by
  induction cnt generalizing meds loss with
  | zero => exact ⟨hnd, rfl⟩
  | succ cnt ih =>
    have hn : 0 < n := by
      obtain ⟨m, hm⟩ := List.exists_mem_of_ne_nil _ hne
      have := hr m hm; omega
    have b1 := argminP_lt (buildSumP L d ((initDataP d n meds).map (·.near.d))) k hn
    have b2 := argminP_value (buildSumP L d ((initDataP d n meds).map (·.near.d))) k hn
    rw [List.range'_succ]
    unfold buildLoopP
    generalize argminP (buildSumP L d ((initDataP d n meds).map (·.near.d))) n k = best at *
    dsimp only
    split
    · exact ⟨hnd, rfl⟩
    · rename_i hlt
      have hnm : best.2 ∉ meds := fun hm => by
        rw [b2, buildSumP_row he hz hnd hr (by omega) hm] at hlt
        exact hlt hneg
      rw [buildData_row hz hne b1]
      have := ih (meds := meds ++ [best.2]) (loss := buildLoss L best.2 (initDataP d n (meds ++ [best.2])))
        (by simp) (nodup_snoc hnd hnm) (range_snoc hr b1) (by simp; omega)
      simp only [List.length_append, List.length_singleton] at this
      exact this

/-- BUILD: distinct medoids, and the records of the initial assignment. -/
theorem buildP_row (hneg : rge (RLoss.neg (conv (RDist.zero : N)) : L) RLoss.zero = true)
    (he : ∀ o, o < n → RowOrder n d o) (hz : ∀ o, o < n → d o o = RDist.zero) {k : Nat} (hs : Sizes n k) :
    (buildP L d n k).1.Nodup ∧ (buildP L d n k).2.1 = initDataP d n (buildP L d n k).1 := by
  have hn : 0 < n := by have := hs.pos; have := hs.le; omega
  have a1 := argminP_lt (buildFirstSumP L d n) k hn
  exact buildLoopP_row hneg he hz hs.k_lt (cnt := k - 1) (meds := [(argminP (buildFirstSumP L d n) n k).2])
    (loss := (argminP (buildFirstSumP L d n) n k).1) (by simp) (by simp) (by simpa using a1)
    (by simp; have := hs.pos; omega)

/-! ## PAMMEDSIL -/

theorem argmin1P_value (f : Nat → L) (n k : Nat) :
    argmin1P f n k = (RLoss.zero, k) ∨
      (1 ≤ (argmin1P f n k).2 ∧ (argmin1P f n k).2 < n ∧ (argmin1P f n k).1 = f (argmin1P f n k).2) := by
  refine foldl_inv (fun b : L × Nat => b = (RLoss.zero, k) ∨ 1 ≤ b.2 ∧ b.2 < n ∧ b.1 = f b.2) (fun b i hi hb => ?_)
    (.inl rfl)
  rw [drop_one_range, List.mem_range'_1] at hi
  split
  · right; exact ⟨by dsimp only; omega, by dsimp only; omega, rfl⟩
  · exact hb

theorem pmsBuildRecP_row (hz : ∀ o, o < n → d o o = RDist.zero) (l : Nat) {c : Nat} (hc : c < n)
    (r : Reco N) : pmsBuildRecP d l c (r, o) = mscInitStepP d o r (c, l) := by
  unfold pmsBuildRecP mscInitStepP
  by_cases h : o = c
  · subst h; simp [hz o hc]
  · simp [h]

theorem pmsBuildData_row (hz : ∀ o, o < n → d o o = RDist.zero) {meds : List Nat}
    (hne : meds ≠ []) {c : Nat} (hc : c < n) :
    (mscInitDataP d n meds).zipIdx.map (pmsBuildRecP d meds.length c) = mscInitDataP d n (meds ++ [c]) := by
  apply List.ext_getElem?
  intro o
  by_cases ho : o < n
  · simp only [mscInitDataP, List.getElem?_map, List.getElem?_zipIdx, List.getElem?_range ho,
      Option.map_some, Nat.zero_add]
    rw [mscInitRecP_append' d hne, pmsBuildRecP_row hz _ hc]
  · rw [List.getElem?_eq_none (by simp [mscInitDataP]; omega),
      List.getElem?_eq_none (by simp [mscInitDataP]; omega)]

theorem mscInitRecP_near_eq (d : Nat → Nat → N) (meds : List Nat) (i : Nat) (hne : meds ≠ []) :
    (mscInitRecP d meds i).near = (initRecP d meds i).near := by
  induction meds using List.reverseRecOn with
  | nil => exact absurd rfl hne
  | append_singleton med c ih =>
    by_cases h : med = []
    · subst h; rfl
    · rw [initRecP_append' d h, mscInitRecP_append' d h]
      have := ih h
      unfold initStepP mscInitStepP
      rw [this]
      split
      · rfl
      · have h1 : ∀ (b : Bool) (x : DistancePair N),
            (if b = true then ({ initRecP d med i with seco := x } : Rec N) else initRecP d med i).near =
              (initRecP d med i).near := by intro b x; split <;> rfl
        rw [h1, ← this]
        split
        · rfl
        · split <;> rfl

theorem pmsBuildLoopP_row [SaneZero L] (hneg : rge (RLoss.neg (conv (RDist.zero : N)) : L) RLoss.zero = true)
    (he : ∀ o, o < n → RowOrder n d o) (hz : ∀ o, o < n → d o o = RDist.zero) {k : Nat} (hk : k < u32Max)
    {cnt : Nat} {meds : List Nat} {loss : L} (hne : meds ≠ []) (hnd : meds.Nodup) (hr : ∀ m ∈ meds, m < n)
    (hcnt : meds.length + cnt ≤ k) :
    let r := pmsBuildLoopP d n k (List.range' meds.length cnt) meds (mscInitDataP d n meds) loss
    r.1.Nodup ∧ r.2.1 = mscInitDataP d n r.1 := by
  induction cnt generalizing meds loss with
  | zero => exact ⟨hnd, rfl⟩
  | succ cnt ih =>
    have hnear : (mscInitDataP d n meds).map (·.near.d) = (initDataP d n meds).map (·.near.d) := by
      simp only [mscInitDataP, initDataP, List.map_map]
      exact List.map_congr_left fun i _ => by simp only [Function.comp, mscInitRecP_near_eq d meds i hne]
    have b := argmin1P_value (buildSumP L d ((initDataP d n meds).map (·.near.d))) n k
    rw [List.range'_succ]
    unfold pmsBuildLoopP
    rw [hnear]
    generalize argmin1P (buildSumP L d ((initDataP d n meds).map (·.near.d))) n k = best at *
    dsimp only
    split
    · exact ⟨hnd, rfl⟩
    · rename_i hlt
      rcases b with b | ⟨-, b1, b2⟩
      · rw [b] at hlt
        exact absurd (by simp [rge, SaneZero.pcmp_zero]) hlt
      have hnm : best.2 ∉ meds := fun hm => by
        rw [b2, buildSumP_row he hz hnd hr (by omega) hm] at hlt
        exact hlt hneg
      rw [pmsBuildData_row hz hne b1]
      have := ih (meds := meds ++ [best.2]) (loss := pmsBuildLoss L (mscInitDataP d n (meds ++ [best.2])))
        (by simp) (nodup_snoc hnd hnm) (range_snoc hr b1) (by simp; omega)
      simp only [List.length_append, List.length_singleton] at this
      exact this

theorem pmsBuildP_row [SaneZero L] (hneg : rge (RLoss.neg (conv (RDist.zero : N)) : L) RLoss.zero = true)
    (he : ∀ o, o < n → RowOrder n d o) (hz : ∀ o, o < n → d o o = RDist.zero) {k : Nat} (hs : Sizes n k) :
    (pmsBuildP L d n k).1.Nodup ∧ (pmsBuildP L d n k).2.1 = mscInitDataP d n (pmsBuildP L d n k).1 := by
  have hn : 0 < n := by have := hs.pos; have := hs.le; omega
  have a1 := argminP_lt (buildFirstSumP L d n) k hn
  exact pmsBuildLoopP_row hneg he hz hs.k_lt (cnt := k - 1) (meds := [(argminP (buildFirstSumP L d n) n k).2])
    (loss := (argminP (buildFirstSumP L d n) n k).1) (by simp) (by simp) (by simpa using a1)
    (by simp; have := hs.pos; omega)

end KMedoids
