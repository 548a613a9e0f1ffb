import Verif.Proofs.Separated
import Mathlib.Algebra.BigOperators.Ring.Finset
import Mathlib.Data.Finset.Max

/-! # Well-separated groups, when exchanges are judged up to an error -/

set_option linter.unusedSectionVars false
set_option linter.overlappingInstances false

namespace KMedoids

section
variable {N K : Type} [LinearOrder N] [Zero N] [Field K] [LinearOrder K] [IsStrictOrderedRing K]

/-- What is needed of the triangle inequality: the distances to two members of a group differ by at most `δ`, up to a factor. -/
def Hop (cv : N → K) (n : Nat) (d : Nat → Nat → N) (g : Nat → Nat) (ρ δ : K) : Prop :=
  ∀ o y m, o < n → y < n → m < n → g y = g m → cv (d o m) ≤ (1 + ρ) * cv (d o y) + δ

variable {cv : N → K} {n k s : Nat} {d : Nat → Nat → N} {g : Nat → Nat} {δ S ρ γ : K}

namespace Separated
variable (H : Separated cv n k s d g δ S) (hmono : Monotone cv) (h0 : cv 0 = 0) (hd : Dissim n d) (hρ : 0 ≤ ρ) (hop : Hop cv n d g ρ δ)
include H hmono h0 hd hρ hop

/-- Leaving out a medoid that has another one in its group. -/
theorem hop_le {l l0 : List Nat} (hl : l ≠ []) (hr : ∀ m ∈ l, m < n) {c m : Nat} (hc : c ∈ l) (hm : m ∈ l0)
    (hmr : m < n) (hg : g c = g m) (hsub : ∀ y ∈ l, y ≠ c → y ∈ l0) {o : Nat} (ho : o < n) :
    cv (minDist d o l0) ≤ (1 + ρ) * cv (minDist d o l) + δ := by
  have hδ := H.nonneg h0 hd (Nat.lt_of_le_of_lt (Nat.zero_le _) ho)
  have hpos := H.minDist_nonneg hmono h0 hd ho hl hr
  obtain ⟨⟨y, hy, e⟩, -⟩ := minDist_spec d o l hl
  have hle := (minDist_spec d o l0 (List.ne_nil_of_mem hm)).2
  rw [e] at hpos ⊢
  by_cases hyc : y = c
  · subst hyc
    exact (hmono (hle m hm)).trans (hop o y m ho (hr y hy) hmr hg)
  · have := hmono (hle y (hsub y hy hyc))
    nlinarith

theorem hop_dev {l l0 : List Nat} (hl : l ≠ []) (hr : ∀ m ∈ l, m < n) {c m : Nat} (hc : c ∈ l) (hm : m ∈ l0)
    (hmr : m < n) (hg : g c = g m) (hsub : ∀ y ∈ l, y ≠ c → y ∈ l0) :
    totalDev cv n d l0 ≤ (1 + ρ) * totalDev cv n d l + ((n - 1 : ℕ) : K) * δ := by
  rw [← nsmul_eq_mul, totalDev_sum, totalDev_sum, ← sum_except hmr δ, Finset.mul_sum, ← Finset.sum_add_distrib]
  refine Finset.sum_le_sum fun o ho => ?_
  have ho := Finset.mem_range.mp ho
  by_cases hom : o = m
  · rw [if_pos hom]
    subst hom
    have h1 := hmono ((minDist_spec d o l0 (List.ne_nil_of_mem hm)).2 o hm)
    rw [hd.diag o ho, h0] at h1
    have := mul_nonneg (by linarith : 0 ≤ 1 + ρ) (H.minDist_nonneg hmono h0 hd ho hl hr)
    linarith
  · rw [if_neg hom]
    exact H.hop_le hmono h0 hd hρ hop hl hr hc hm hmr hg hsub ho

/-- An object of a missing group comes in. -/
theorem hop_gain {l l0 l' : List Nat} (hl : l ≠ []) (hr : ∀ m ∈ l, m < n) {c m : Nat} (hc : c ∈ l) (hm : m ∈ l0)
    (hmr : m < n) (hg : g c = g m) (hsub : ∀ y ∈ l, y ≠ c → y ∈ l0) (hsub' : ∀ y ∈ l0, y ∈ l') {x q : Nat} (hx : x < n)
    (hxq : g x = q) (hxl : x ∈ l') :
    totalDev cv n d l' + ∑ o ∈ groupOf n g q, cv (minDist d o l) ≤ (1 + ρ) * totalDev cv n d l + ((n - 1 : ℕ) : K) * δ := by
  rw [← nsmul_eq_mul, totalDev_sum, totalDev_sum, ← sum_except hx δ, groupOf, Finset.sum_filter, Finset.mul_sum,
    ← Finset.sum_add_distrib, ← Finset.sum_add_distrib]
  refine Finset.sum_le_sum fun o ho => ?_
  have ho := Finset.mem_range.mp ho
  have hpos := H.minDist_nonneg hmono h0 hd ho hl hr
  by_cases hq : g o = q
  · rw [if_pos hq]
    have hle := hmono ((minDist_spec d o l' (List.ne_nil_of_mem hxl)).2 x hxl)
    have : cv (minDist d o l') ≤ if o = x then 0 else δ := by
      by_cases hox : o = x
      · rw [if_pos hox]
        subst hox
        rwa [hd.diag o ho, h0] at hle
      · rw [if_neg hox]
        exact hle.trans (H.within o x ho hx (hq.trans hxq.symm))
    have := mul_nonneg hρ hpos
    linarith
  · rw [if_neg hq, add_zero, if_neg (fun e : o = x => hq (by rw [e, hxq]))]
    refine le_trans (hmono ?_) (H.hop_le hmono h0 hd hρ hop hl hr hc hm hmr hg hsub ho)
    obtain ⟨⟨y, hy, e⟩, -⟩ := minDist_spec d o l0 (List.ne_nil_of_mem hm)
    rw [e]
    exact (minDist_spec d o l' (List.ne_nil_of_mem hxl)).2 y (hsub' y hy)

omit hρ hop in
/-- One of the missing groups has a large part of the total deviation. -/
theorem exists_large {l : List Nat} (hl : l ≠ []) (hr : ∀ m ∈ l, m < n) (hcov : ¬ Covers k g l) :
    ∃ q, q < k ∧ (∀ m ∈ l, g m ≠ q) ∧
      totalDev cv n d l ≤ ((k - 1 : ℕ) : K) * ∑ o ∈ groupOf n g q, cv (minDist d o l) + ((n - 1 : ℕ) : K) * δ := by
  classical
  obtain ⟨m, hm⟩ := List.exists_mem_of_ne_nil l hl
  have hmn := hr m hm
  have hδ := H.nonneg h0 hd (Nat.lt_of_le_of_lt (Nat.zero_le _) hmn)
  let A : Nat → K := fun q => ∑ o ∈ groupOf n g q, cv (minDist d o l)
  let M : Finset Nat := (Finset.range k).filter fun q => ∀ m ∈ l, g m ≠ q
  have hM : M.Nonempty := by
    unfold Covers at hcov
    push Not at hcov
    obtain ⟨c, hc, hcov⟩ := hcov
    exact ⟨c, Finset.mem_filter.mpr ⟨Finset.mem_range.mpr hc, hcov⟩⟩
  obtain ⟨q, hq, hmax⟩ := Finset.exists_max_image M A hM
  obtain ⟨hqk, hqm⟩ := Finset.mem_filter.mp hq
  refine ⟨q, Finset.mem_range.mp hqk, hqm, ?_⟩
  have hcard : M.card ≤ k - 1 := by
    have hsub : M ⊆ (Finset.range k).erase (g m) := fun c hc => by
      obtain ⟨hc, hc'⟩ := Finset.mem_filter.mp hc
      exact Finset.mem_erase.mpr ⟨fun e => hc' m hm e.symm, hc⟩
    have := Finset.card_le_card hsub
    rwa [Finset.card_erase_of_mem (Finset.mem_range.mpr (H.group m hmn)), Finset.card_range] at this
  have hA : 0 ≤ A q := Finset.sum_nonneg fun o ho => H.minDist_nonneg hmono h0 hd (mem_groupOf.mp ho).1 hl hr
  have h1 : ∑ c ∈ M, A c ≤ ((k - 1 : ℕ) : K) * A q := by
    refine (Finset.sum_le_card_nsmul M A (A q) hmax).trans ?_
    rw [nsmul_eq_mul]
    exact mul_le_mul_of_nonneg_right (by exact_mod_cast hcard) hA
  have h2 : ∑ c ∈ M, A c = ∑ o ∈ Finset.range n, if g o ∈ M then cv (minDist d o l) else 0 := by
    have := Finset.sum_fiberwise_of_maps_to (s := (Finset.range n).filter fun o => g o ∈ M) (t := M) (g := g)
      (fun o ho => (Finset.mem_filter.mp ho).2) (fun o => cv (minDist d o l))
    rw [← Finset.sum_filter, ← this]
    refine Finset.sum_congr rfl fun c hc => Finset.sum_congr ?_ fun _ _ => rfl
    ext o
    simp only [groupOf, Finset.mem_filter, Finset.mem_range]
    constructor
    · rintro ⟨a, b⟩
      exact ⟨⟨a, b ▸ hc⟩, b⟩
    · rintro ⟨⟨a, -⟩, b⟩
      exact ⟨a, b⟩
  refine le_trans ?_ (add_le_add_left h1 _)
  rw [h2, ← nsmul_eq_mul, ← sum_except hmn δ, totalDev_sum, ← Finset.sum_add_distrib]
  refine Finset.sum_le_sum fun o ho => ?_
  have ho := Finset.mem_range.mp ho
  have hle := (minDist_spec d o l hl).2
  have hδ' : 0 ≤ if o = m then 0 else δ := by split <;> simp [hδ]
  by_cases hoM : g o ∈ M
  · rw [if_pos hoM]; linarith
  · rw [if_neg hoM, zero_add]
    by_cases hom : o = m
    · rw [if_pos hom]
      subst hom
      have := hmono (hle o hm)
      rwa [hd.diag o ho, h0] at this
    · rw [if_neg hom]
      have : ∃ y ∈ l, g y = g o := by
        by_contra hno
        push Not at hno
        exact hoM (Finset.mem_filter.mpr ⟨Finset.mem_range.mpr (H.group o ho), hno⟩)
      obtain ⟨y, hy, e⟩ := this
      exact (hmono (hle y hy)).trans (H.within o y ho (hr y hy) e.symm)

omit hmono h0 hd hop H in
/-- The condition implies that of exact arithmetic. -/
theorem sep_of_cond (hδ : 0 ≤ δ) (hS : 0 ≤ S) (hγ : 0 ≤ γ)
    (hcond : (1 + γ + (ρ + γ * (1 + ρ))) * (((n - 1 : ℕ) : K) * δ) < (1 - ((k - 1 : ℕ) : K) * (ρ + γ * (1 + ρ))) * (s * S)) :
    (n - 1) • δ < s • S := by
  rw [nsmul_eq_mul, nsmul_eq_mul]
  have h1 : 0 ≤ ((n - 1 : ℕ) : K) * δ := mul_nonneg (Nat.cast_nonneg _) hδ
  have h2 : 0 ≤ (s : K) * S := mul_nonneg (Nat.cast_nonneg _) hS
  have h3 : 0 ≤ ρ + γ * (1 + ρ) := add_nonneg hρ (mul_nonneg hγ (by linarith))
  have h4 : 0 ≤ ((k - 1 : ℕ) : K) * (ρ + γ * (1 + ρ)) := mul_nonneg (Nat.cast_nonneg _) h3
  have h5 := mul_nonneg (add_nonneg hγ h3) h1
  have h6 := mul_nonneg h4 h2
  nlinarith

/-- Two medoids in one group, another group without one: some object of another group would improve by more than an error. -/
theorem must_cover (hS : 0 ≤ S) (hγ : 0 ≤ γ)
    (hcond : (1 + γ + (ρ + γ * (1 + ρ))) * (((n - 1 : ℕ) : K) * δ) < (1 - ((k - 1 : ℕ) : K) * (ρ + γ * (1 + ρ))) * (s * S))
    {l l0 : List Nat} {l' : Nat → List Nat} (hl : l ≠ []) (hr : ∀ m ∈ l, m < n) {c m : Nat} (hc : c ∈ l) (hm : m ∈ l0)
    (hmr : m < n) (hg : g c = g m) (hsub : ∀ y ∈ l, y ≠ c → y ∈ l0) (hsub' : ∀ x, x ∈ l' x ∧ ∀ y ∈ l0, y ∈ l' x)
    (hnear : ∀ x, x < n → totalDev cv n d l ≤ totalDev cv n d (l' x) + γ * totalDev cv n d l0) : Covers k g l := by
  by_contra hcov
  have hδ := H.nonneg h0 hd (Nat.lt_of_le_of_lt (Nat.zero_le _) hmr)
  have hsep := sep_of_cond (n := n) (k := k) (s := s) hρ hδ hS hγ hcond
  obtain ⟨q, hq, hqm, hlarge⟩ := H.exists_large hmono h0 hd hl hr hcov
  have hfar := H.far hmono h0 hd hl hr hq hS hqm
  rw [nsmul_eq_mul] at hfar
  have hs : 0 < (groupOf n g q).card := by
    refine Nat.lt_of_lt_of_le ?_ (H.size q hq)
    rcases Nat.eq_zero_or_pos s with rfl | h
    · rw [zero_nsmul] at hsep
      exact absurd hsep (not_lt.mpr (nsmul_nonneg hδ _))
    · exact h
  obtain ⟨x, hx⟩ := Finset.card_pos.mp hs
  obtain ⟨hx, hxq⟩ := mem_groupOf.mp hx
  have h1 := H.hop_gain hmono h0 hd hρ hop hl hr hc hm hmr hg hsub (hsub' x).2 hx hxq (hsub' x).1
  have h2 := H.hop_dev hmono h0 hd hρ hop hl hr hc hm hmr hg hsub
  have h3 := hnear x hx
  generalize (∑ o ∈ groupOf n g q, cv (minDist d o l)) = A at *
  generalize totalDev cv n d (l' x) = T' at *
  generalize totalDev cv n d l = T at *
  generalize totalDev cv n d l0 = T0 at *
  generalize hX : ((n - 1 : ℕ) : K) * δ = X at *
  have hX0 : 0 ≤ X := hX ▸ mul_nonneg (Nat.cast_nonneg _) hδ
  generalize hY : (s : K) * S = Y at *
  have hY0 : 0 ≤ Y := hY ▸ mul_nonneg (Nat.cast_nonneg _) hS
  have hθ : 0 ≤ ρ + γ * (1 + ρ) := add_nonneg hρ (mul_nonneg hγ (by linarith))
  generalize hκ : ((k - 1 : ℕ) : K) = κ at *
  have hγT := mul_le_mul_of_nonneg_left h2 hγ
  -- `A ≤ θ T + (1 + γ) X`
  have h4 : A ≤ (ρ + γ * (1 + ρ)) * T + (1 + γ) * X := by nlinarith
  have h5 := mul_le_mul_of_nonneg_left hlarge hθ
  have h6 : (1 - κ * (ρ + γ * (1 + ρ))) * A ≤ (1 + γ + (ρ + γ * (1 + ρ))) * X := by nlinarith
  have h7 : 0 < 1 - κ * (ρ + γ * (1 + ρ)) := by
    by_contra h
    have h8 := mul_nonneg (add_nonneg (add_nonneg zero_le_one hγ) hθ) hX0
    have h9 := mul_nonneg (neg_nonneg.mpr (not_lt.mp h)) hY0
    linarith
  have h8 := mul_le_mul_of_nonneg_left hfar h7.le
  linarith

/-- If no exchange improves by more than an error, every group has a medoid. -/
theorem near_covers (hS : 0 ≤ S) (hγ : 0 ≤ γ)
    (hcond : (1 + γ + (ρ + γ * (1 + ρ))) * (((n - 1 : ℕ) : K) * δ) < (1 - ((k - 1 : ℕ) : K) * (ρ + γ * (1 + ρ))) * (s * S))
    {med : List Nat} (hr : ∀ m ∈ med, m < n) (hl : k ≤ med.length) (hne : med ≠ [])
    (hnear : ∀ b < med.length, ∀ j < n,
      totalDev cv n d med ≤ totalDev cv n d (med.set b j) + γ * totalDev cv n d (med.eraseIdx b)) : Covers k g med := by
  by_contra hcov
  obtain ⟨b, b', hbb, hb, hb', e⟩ := exists_two (fun m hm => H.group m (hr m hm)) hl hcov
  refine hcov (H.must_cover hmono h0 hd hρ hop hS hγ hcond (l0 := med.eraseIdx b) (l' := fun x => med.set b x) hne hr
    (List.getElem_mem hb) (m := med[b']) ?_ (hr _ (List.getElem_mem hb')) e (fun y hy hyb => ?_) (fun x => ⟨List.mem_set hb x, fun y hy => ?_⟩)
    fun x hx => hnear b hb x hx)
  · exact List.mem_eraseIdx_iff_getElem.mpr ⟨b', hb', by omega, rfl⟩
  · obtain ⟨a, ha, rfl⟩ := List.getElem_of_mem hy
    exact List.mem_eraseIdx_iff_getElem.mpr ⟨a, ha, fun h => hyb (by subst h; rfl), rfl⟩
  · obtain ⟨a, ha, hab, rfl⟩ := List.mem_eraseIdx_iff_getElem.mp hy
    exact mem_set_of_ne ha hab x

/-- Medoids chosen greedily up to an error are in different groups. -/
theorem near_greedy_nodup (hS : 0 ≤ S) (hγ : 0 ≤ γ)
    (hcond : (1 + γ + (ρ + γ * (1 + ρ))) * (((n - 1 : ℕ) : K) * δ) < (1 - ((k - 1 : ℕ) : K) * (ρ + γ * (1 + ρ))) * (s * S))
    {med : List Nat} (hr : ∀ m ∈ med, m < n) (hl : med.length ≤ k)
    (hg : ∀ l c, 1 ≤ l → med[l]? = some c → ∀ x < n, totalDev cv n d (med.take l ++ [c]) ≤
      totalDev cv n d (med.take l ++ [x]) + γ * totalDev cv n d (med.take l)) :
    ∀ l, l ≤ med.length → ((med.take l).map g).Nodup := by
  intro l
  induction l with
  | zero => intro _; simp
  | succ l ih =>
    intro hll
    have hlt : l < med.length := by omega
    rw [← List.take_concat_get' med l hlt, List.map_append, List.nodup_append]
    refine ⟨ih (by omega), by simp, fun a ha b hb hab => ?_⟩
    simp only [List.map_cons, List.map_nil, List.mem_singleton] at hb
    subst hb
    obtain ⟨m, hm, e⟩ := List.mem_map.mp ha
    have e := e.trans hab
    have hl1 : 1 ≤ l := by
      rcases Nat.eq_zero_or_pos l with h | h
      · subst h; simp at hm
      · exact h
    have hpr : ∀ y ∈ med.take l, y < n := fun y hy => hr y (List.mem_of_mem_take hy)
    have hr' : ∀ y ∈ med.take l ++ [med[l]], y < n := fun y hy => by
      rcases List.mem_append.mp hy with hy | hy
      · exact hpr y hy
      · rw [List.mem_singleton.mp hy]; exact hr _ (List.getElem_mem hlt)
    have h := H.must_cover hmono h0 hd hρ hop hS hγ hcond (l := med.take l ++ [med[l]]) (l0 := med.take l)
      (l' := fun x => med.take l ++ [x]) (List.append_ne_nil_of_right_ne_nil _ (List.cons_ne_nil _ _)) hr'
      (c := med[l]) (m := m) (List.mem_append_right _ (List.mem_singleton_self _)) hm (hpr m hm) e.symm (fun y hy hyc => by
        rcases List.mem_append.mp hy with hy | hy
        · exact hy
        · exact absurd (List.mem_singleton.mp hy) hyc)
      (fun x => ⟨List.mem_append_right _ (List.mem_singleton_self _), fun y hy => List.mem_append_left _ hy⟩)
      fun x hx => hg l med[l] hl1 (List.getElem?_eq_getElem hlt) x hx
    have h' : Covers k g (med.take l) := fun c hc => by
      obtain ⟨y, hy, ey⟩ := h c hc
      rcases List.mem_append.mp hy with hy | hy
      · exact ⟨y, hy, ey⟩
      · rw [List.mem_singleton.mp hy] at ey
        exact ⟨m, hm, e.trans ey⟩
    have h1 := (h'.inj (by rw [List.length_take]; omega)).2
    rw [List.length_take] at h1
    omega

omit hρ hop in
/-- A small total deviation means a medoid in every group. -/
theorem covers_of_lt (hS : 0 ≤ S) {l : List Nat} (hl : l ≠ []) (hr : ∀ m ∈ l, m < n) (h : totalDev cv n d l < s * S) :
    Covers k g l := by
  by_contra hcov
  unfold Covers at hcov
  push Not at hcov
  obtain ⟨c, hc, hcov⟩ := hcov
  have h1 := H.far hmono h0 hd hl hr hc hS hcov
  rw [nsmul_eq_mul] at h1
  exact absurd h (not_lt.mpr (h1.trans (H.group_le hmono h0 hd hl hr c)))

end Separated

end

end KMedoids
