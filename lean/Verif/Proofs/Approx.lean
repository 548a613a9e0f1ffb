import Verif.Proofs.Loss
import Mathlib.Algebra.BigOperators.Group.Finset.Basic
import Mathlib.Algebra.BigOperators.Group.Finset.Piecewise
import Mathlib.Algebra.Order.BigOperators.Group.Finset
import Mathlib.Data.Fintype.Card
import Mathlib.Data.Fintype.EquivFin
import Mathlib.Data.Finset.Card
import Mathlib.Tactic.Abel
import Mathlib.Tactic.SplitIfs
import Mathlib.Tactic.ByContra

/-!
# The local search bound of Arya et al.

Local search for k-median, exchanging one medoid at a time: a local optimum costs at most five times the optimum.
`exists_pairing` chooses which medoid leaves for which medoid of the other solution; `sum_swaps_le` adds up the
exchange inequalities.
-/

namespace KMedoids

open Finset

/-- Each of at most `k` objects `q` (a medoid of the other solution) is given a position `τ q` to take, such that no
position is used more than twice, and the medoid at position `τ q` is not the closest one `η q'` of another `q'`. -/
theorem exists_pairing {m k : ℕ} (h : m ≤ k) (η : Fin m → Fin k) :
    ∃ τ : Fin m → Fin k, (∀ q q', η q' = τ q → q' = q) ∧ ∀ b, #{q | τ q = b} ≤ 2 := by
  classical
  let U : Finset (Fin m) := {q | ∀ q', η q' = η q → q' = q}
  let R : Finset (Fin m) := Uᶜ
  let F : Finset (Fin k) := (univ.image η)ᶜ
  have hU : ∀ {q}, q ∈ U ↔ ∀ q', η q' = η q → q' = q := fun {q} => by simp [U]
  have hR : ∀ {q}, q ∈ R ↔ ∃ q', η q' = η q ∧ q' ≠ q := fun {q} => by simp [R, U]
  have hF : ∀ {b}, b ∈ F ↔ ∀ q, η q ≠ b := fun {b} => by simp [F]
  have hcard : #R ≤ 2 * #F := by
    have h1 : #(univ.image η) ≤ #U + #(R.image η) := by
      have : univ.image η ⊆ U.image η ∪ R.image η := by
        intro b hb
        obtain ⟨q, -, rfl⟩ := mem_image.mp hb
        by_cases hq : q ∈ U
        · exact mem_union_left _ (mem_image_of_mem _ hq)
        · exact mem_union_right _ (mem_image_of_mem _ (mem_compl.mpr hq))
      exact (card_le_card this).trans ((card_union_le _ _).trans (Nat.add_le_add_right card_image_le _))
    have h2 : 2 * #(R.image η) ≤ #R := by
      refine mul_card_image_le_card R 2 fun b hb => ?_
      obtain ⟨q, hq, rfl⟩ := mem_image.mp hb
      obtain ⟨q', he, hne⟩ := hR.mp hq
      have : ({q, q'} : Finset (Fin m)) ⊆ {x ∈ R | η x = η q} := by
        intro x hx
        rw [mem_insert, mem_singleton] at hx
        rcases hx with rfl | rfl
        · exact mem_filter.mpr ⟨hq, rfl⟩
        · exact mem_filter.mpr ⟨hR.mpr ⟨q, he.symm, hne.symm⟩, he⟩
      have h' := card_le_card this
      rwa [card_pair hne.symm] at h'
    have h3 : #U + #R = m := by
      have := card_add_card_compl U
      rwa [Fintype.card_fin] at this
    have h4 : #(univ.image η) + #F = k := by
      have := card_add_card_compl (univ.image η)
      rwa [Fintype.card_fin] at this
    omega
  have hidx : ∀ q : {q // q ∈ R}, (R.equivFin q : ℕ) / 2 < #F := fun q => by
    have := (R.equivFin q).2; omega
  let τ : Fin m → Fin k := fun q =>
    if hq : q ∈ R then (F.equivFin.symm ⟨(R.equivFin ⟨q, hq⟩ : ℕ) / 2, hidx ⟨q, hq⟩⟩ : {b // b ∈ F}) else η q
  have τU : ∀ {q}, q ∉ R → τ q = η q := fun {q} hq => by simp only [τ, dif_neg hq]
  have τR : ∀ {q}, q ∈ R → τ q ∈ F := fun {q} hq => by
    simp only [τ, dif_pos hq]; exact Subtype.coe_prop _
  refine ⟨τ, fun q q' he => ?_, fun b => ?_⟩
  · by_cases hq : q ∈ R
    · exact absurd he (hF.mp (τR hq) q')
    · rw [τU hq] at he
      have : q ∈ U := by simpa [R] using hq
      exact hU.mp this q' he
  · by_cases hb : b ∈ F
    · -- at most two objects share a free position
      let c : ℕ := F.equivFin ⟨b, hb⟩
      have hsub : ∀ q ∈ ({q | τ q = b} : Finset (Fin m)), ∃ hq : q ∈ R, (R.equivFin ⟨q, hq⟩ : ℕ) / 2 = c := by
        intro q hq
        have hq := (mem_filter.mp hq).2
        by_cases hqR : q ∈ R
        · refine ⟨hqR, ?_⟩
          simp only [τ, dif_pos hqR] at hq
          have : F.equivFin.symm ⟨(R.equivFin ⟨q, hqR⟩ : ℕ) / 2, hidx ⟨q, hqR⟩⟩ = ⟨b, hb⟩ := Subtype.ext hq
          rw [Equiv.symm_apply_eq] at this
          exact congrArg Fin.val this
        · rw [τU hqR] at hq
          exact absurd hq (hF.mp hb q)
      let f : Fin m → ℕ := fun q => if hq : q ∈ R then (R.equivFin ⟨q, hq⟩ : ℕ) else 0
      have hf : ∀ {q} (hq : q ∈ R), f q = (R.equivFin ⟨q, hq⟩ : ℕ) := fun {q} hq => by simp only [f, dif_pos hq]
      have : #({q | τ q = b} : Finset (Fin m)) ≤ #({2 * c, 2 * c + 1} : Finset ℕ) := by
        refine card_le_card_of_injOn f (fun q hq => ?_) (fun q hq q' hq' he => ?_)
        · obtain ⟨hR', e⟩ := hsub q hq
          simp only [coe_insert, coe_singleton, Set.mem_insert_iff, Set.mem_singleton_iff]
          rw [hf hR']; omega
        · obtain ⟨h1, -⟩ := hsub q hq
          obtain ⟨h2, -⟩ := hsub q' hq'
          rw [hf h1, hf h2] at he
          have := R.equivFin.injective (Fin.ext he)
          exact congrArg Subtype.val this
      exact this.trans (card_le_two)
    · -- a position that is the closest one of a single object
      have : #({q | τ q = b} : Finset (Fin m)) ≤ 1 := by
        refine card_le_one.mpr fun q hq q' hq' => ?_
        have hq := (mem_filter.mp hq).2
        have hq' := (mem_filter.mp hq').2
        have h1 : q ∉ R := fun h => hb (hq ▸ τR h)
        have h2 : q' ∉ R := fun h => hb (hq' ▸ τR h)
        rw [τU h1] at hq
        rw [τU h2] at hq'
        have : q' ∈ U := by simpa [R] using h2
        exact hU.mp this q (hq.trans hq'.symm)
      omega

/-- Adding up the changes of the exchanges. -/
theorem sum_swaps_le {L : Type} [AddCommGroup L] [LinearOrder L] [IsOrderedAddMonoid L] {n m k : ℕ}
    (s o : ℕ → L) (ho : ∀ i < n, 0 ≤ o i) (σ : ℕ → Fin k) (π : ℕ → Fin m) (τ : Fin m → Fin k)
    (hτ : ∀ b, #{q | τ q = b} ≤ 2) :
    ∑ q : Fin m, ∑ i ∈ range n, ((if π i = q then o i - s i else 0) + (if σ i = τ q then 2 • o i else 0)) ≤
      5 • (∑ i ∈ range n, o i) - ∑ i ∈ range n, s i := by
  rw [sum_comm]
  have h2 : ∀ i ∈ range n, ∑ q : Fin m, ((if π i = q then o i - s i else 0) +
      (if σ i = τ q then 2 • o i else 0)) ≤ 5 • o i - s i := by
    intro i hi
    have hoi := ho i (mem_range.mp hi)
    rw [sum_add_distrib, sum_ite_eq, if_pos (mem_univ _), ← sum_filter, sum_const]
    have hc : #{q | σ i = τ q} ≤ 2 := by
      have := hτ (σ i)
      simpa [eq_comm] using this
    have h3 : #{q | σ i = τ q} • 2 • o i ≤ 2 • 2 • o i := nsmul_le_nsmul_left (nsmul_nonneg hoi 2) hc
    calc o i - s i + #{q | σ i = τ q} • 2 • o i ≤ o i - s i + 2 • 2 • o i := by gcongr
      _ = 5 • o i - s i := by abel
  have h4 := sum_le_sum h2
  rw [sum_sub_distrib, sum_nsmul] at h4
  exact h4

end KMedoids
