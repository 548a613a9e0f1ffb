import Verif.Props.C64

/-! # Well-separated groups -/

set_option linter.unusedSectionVars false
set_option linter.overlappingInstances false

namespace KMedoids

section
variable {N K : Type} [LinearOrder N] [Zero N] [AddCommGroup K] [LinearOrder K] [IsOrderedAddMonoid K]

/-- The total deviation as a sum. -/
theorem totalDev_sum (cv : N → K) (n : Nat) (d : Nat → Nat → N) (med : List Nat) :
    totalDev cv n d med = ∑ i ∈ Finset.range n, cv (minDist d i med) := by
  unfold totalDev
  induction n with
  | zero => rfl
  | succ n ih => rw [List.range_succ, List.map_append, List.sum_append, ih, Finset.sum_range_succ]; simp

/-- The objects of a group. -/
def groupOf (n : Nat) (g : Nat → Nat) (c : Nat) : Finset Nat := (Finset.range n).filter fun o => g o = c

/-- `g` divides the objects into `k` groups with at least `s` members; within a group distances are at most `δ`, between groups at
least `S`. -/
structure Separated (cv : N → K) (n k s : Nat) (d : Nat → Nat → N) (g : Nat → Nat) (δ S : K) : Prop where
  group : ∀ x, x < n → g x < k
  size : ∀ c, c < k → s ≤ (groupOf n g c).card
  within : ∀ x y, x < n → y < n → g x = g y → cv (d x y) ≤ δ
  between : ∀ x y, x < n → y < n → g x ≠ g y → S ≤ cv (d x y)

/-- Every group has a medoid. -/
def Covers (k : Nat) (g : Nat → Nat) (med : List Nat) : Prop := ∀ c, c < k → ∃ m ∈ med, g m = c

variable {cv : N → K} {n k s : Nat} {d : Nat → Nat → N} {g : Nat → Nat} {δ S : K}

theorem mem_groupOf {o c : Nat} : o ∈ groupOf n g c ↔ o < n ∧ g o = c := by simp [groupOf]

/-- `k` medoids for `k` groups: no group has two. -/
theorem Covers.inj {med : List Nat} (h : Covers k g med) (hl : med.length ≤ k) :
    (med.map g).Nodup ∧ med.length = k := by
  have hsub : List.range k ⊆ med.map g := fun c hc => by
    obtain ⟨m, hm, e⟩ := h c (List.mem_range.mp hc)
    exact List.mem_map.mpr ⟨m, hm, e⟩
  have hp := ((List.nodup_range (n := k)).subperm hsub).perm_of_length_le (by simpa using hl)
  refine ⟨hp.nodup_iff.mp List.nodup_range, ?_⟩
  have := hp.length_eq
  simpa using this.symm

theorem Covers.unique {med : List Nat} (h : Covers k g med) (hl : med.length ≤ k) {m m' : Nat} (hm : m ∈ med) (hm' : m' ∈ med)
    (e : g m = g m') : m = m' :=
  List.inj_on_of_nodup_map (h.inj hl).1 hm hm' e

/-- The reverse: `k` medoids in different groups. -/
theorem Covers.of_nodup {med : List Nat} (hg : ∀ m ∈ med, g m < k) (hn : (med.map g).Nodup) (hl : k ≤ med.length) :
    Covers k g med := by
  have hsub : med.map g ⊆ List.range k := fun c hc => by
    obtain ⟨m, hm, rfl⟩ := List.mem_map.mp hc
    exact List.mem_range.mpr (hg m hm)
  have hp := (hn.subperm hsub).perm_of_length_le (by simpa using hl)
  intro c hc
  obtain ⟨m, hm, e⟩ := List.mem_map.mp (hp.mem_iff.mpr (List.mem_range.mpr hc))
  exact ⟨m, hm, e⟩

/-- If a group has no medoid, another one has two. -/
theorem exists_two {med : List Nat} (hg : ∀ m ∈ med, g m < k) (hl : k ≤ med.length) (h : ¬ Covers k g med) :
    ∃ b b', b < b' ∧ ∃ (hb : b < med.length) (hb' : b' < med.length), g med[b] = g med[b'] := by
  have hn : ¬ (med.map g).Nodup := fun hn => h (Covers.of_nodup hg hn hl)
  rw [List.nodup_iff_injective_getElem] at hn
  simp only [Function.Injective] at hn
  push Not at hn
  obtain ⟨a, b, e, hab⟩ := hn
  have ha := a.2; have hb := b.2
  simp only [List.length_map] at ha hb
  simp only [Fin.getElem_fin, List.getElem_map] at e
  rcases Nat.lt_or_gt_of_ne (fun h => hab (Fin.ext h)) with h' | h'
  · exact ⟨a, b, h', ha, hb, e⟩
  · exact ⟨b, a, h', hb, ha, e.symm⟩

theorem sum_except {x : Nat} (hx : x < n) (δ : K) : ∑ o ∈ Finset.range n, (if o = x then 0 else δ) = (n - 1) • δ := by
  rw [Finset.sum_ite, Finset.sum_const_zero, zero_add, Finset.sum_const]
  congr 1
  rw [Finset.filter_ne', Finset.card_erase_of_mem (Finset.mem_range.mpr hx), Finset.card_range]

namespace Separated
variable (H : Separated cv n k s d g δ S) (hmono : Monotone cv) (h0 : cv 0 = 0) (hd : Dissim n d)
include H

theorem nonneg (h0 : cv 0 = 0) (hd : Dissim n d) (hn : 0 < n) : 0 ≤ δ := by
  have := H.within 0 0 hn hn rfl
  rwa [hd.diag 0 hn, h0] at this

include hmono h0 hd

theorem minDist_nonneg {o : Nat} (ho : o < n) {l : List Nat} (hl : l ≠ []) (hr : ∀ m ∈ l, m < n) : 0 ≤ cv (minDist d o l) := by
  obtain ⟨⟨c, hc, e⟩, -⟩ := minDist_spec d o l hl
  rw [e, ← h0]
  exact hmono (hd.nonneg o c ho (hr c hc))

/-- An object of a missing group comes in, and the other objects lose at most `δ`. -/
theorem gain {l l' : List Nat} (hl : l ≠ []) (hr : ∀ m ∈ l, m < n) {x c : Nat} (hx : x < n)
    (hxc : g x = c) (hxl : x ∈ l') (hother : ∀ o, o < n → g o ≠ c → cv (minDist d o l') ≤ cv (minDist d o l) + δ) :
    totalDev cv n d l' + ∑ o ∈ groupOf n g c, cv (minDist d o l) ≤ totalDev cv n d l + (n - 1) • δ := by
  have hn : 0 < n := by omega
  have hδ := H.nonneg h0 hd hn
  rw [totalDev_sum, totalDev_sum, ← sum_except hx δ, groupOf, Finset.sum_filter, ← Finset.sum_add_distrib, ← Finset.sum_add_distrib]
  refine Finset.sum_le_sum fun o ho => ?_
  have ho := Finset.mem_range.mp ho
  by_cases hc : g o = c
  · rw [if_pos hc, add_comm]
    refine add_le_add_right ?_ _
    have hle := (minDist_spec d o l' (List.ne_nil_of_mem hxl)).2 x hxl
    by_cases hox : o = x
    · rw [if_pos hox]
      subst hox
      have := hmono hle
      rwa [hd.diag o ho, h0] at this
    · rw [if_neg hox]
      exact (hmono hle).trans (H.within o x ho hx (hc.trans hxc.symm))
  · rw [if_neg hc, add_zero, if_neg (fun e : o = x => hc (by rw [e, hxc]))]
    exact hother o ho hc

/-- Members of a missing group are far from all medoids. -/
theorem far {l : List Nat} (hl : l ≠ []) (hr : ∀ m ∈ l, m < n) {c : Nat} (hc : c < k) (hS : 0 ≤ S) (hcov : ∀ m ∈ l, g m ≠ c) :
    s • S ≤ ∑ o ∈ groupOf n g c, cv (minDist d o l) := by
  refine (nsmul_le_nsmul_left hS (H.size c hc)).trans ?_
  refine Finset.card_nsmul_le_sum _ _ _ fun o ho => ?_
  obtain ⟨ho, e⟩ := mem_groupOf.mp ho
  obtain ⟨⟨m, hm, e'⟩, -⟩ := minDist_spec d o l hl
  rw [e']
  exact H.between o m ho (hr m hm) fun h => hcov m hm (h.symm.trans e)

theorem group_le {l : List Nat} (hl : l ≠ []) (hr : ∀ m ∈ l, m < n) (c : Nat) :
    ∑ o ∈ groupOf n g c, cv (minDist d o l) ≤ totalDev cv n d l := by
  rw [totalDev_sum]
  exact Finset.sum_le_sum_of_subset_of_nonneg (Finset.filter_subset _ _) fun o ho _ =>
    H.minDist_nonneg hmono h0 hd (Finset.mem_range.mp ho) hl hr

/-- With a medoid in every group the total deviation is small. -/
theorem covered_le (hn : 0 < n) {l : List Nat} (hr : ∀ m ∈ l, m < n) (h : Covers k g l) : totalDev cv n d l ≤ (n - 1) • δ := by
  have hδ := H.nonneg h0 hd hn
  obtain ⟨x, hx, -⟩ := h (g 0) (H.group 0 hn)
  rw [totalDev_sum, ← sum_except (hr x hx) δ]
  refine Finset.sum_le_sum fun o ho => ?_
  have ho := Finset.mem_range.mp ho
  have hle := (minDist_spec d o l (List.ne_nil_of_mem hx)).2
  by_cases hox : o = x
  · rw [if_pos hox]
    subst hox
    have := hmono (hle o hx)
    rwa [hd.diag o ho, h0] at this
  · rw [if_neg hox]
    obtain ⟨m, hm, e⟩ := h (g o) (H.group o ho)
    exact (hmono (hle m hm)).trans (H.within o m ho (hr m hm) e.symm)

/-- A medoid that has another one in its group can leave: nobody loses more than `δ`. -/
theorem replace_le (hmet : IsMetric cv n d) {l l' : List Nat} (hl : l ≠ []) (hr : ∀ m ∈ l, m < n) {c m : Nat} (hc : c ∈ l) (hm : m ∈ l')
    (hmr : m < n) (hg : g c = g m) (hsub : ∀ y ∈ l, y ≠ c → y ∈ l') {o : Nat} (ho : o < n) :
    cv (minDist d o l') ≤ cv (minDist d o l) + δ := by
  have hδ := H.nonneg h0 hd (Nat.lt_of_le_of_lt (Nat.zero_le _) ho)
  obtain ⟨⟨y, hy, e⟩, -⟩ := minDist_spec d o l hl
  have hle := (minDist_spec d o l' (List.ne_nil_of_mem hm)).2
  rw [e]
  by_cases hyc : y = c
  · subst hyc
    exact (hmono (hle m hm)).trans ((hmet.triangle o y m ho (hr y hy) hmr).trans
      (add_le_add_right (H.within y m (hr y hy) hmr hg) _))
  · exact (hmono (hle y (hsub y hy hyc))).trans (le_add_of_nonneg_right hδ)

omit hmono in
/-- Different groups are further apart than the members of a group. -/
theorem lt_of_two (hsep : (n - 1) • δ < s • S) {x y : Nat} (hx : x < n) (hy : y < n) (hxy : g x ≠ g y) : δ < S := by
  have hδ := H.nonneg h0 hd (by omega)
  by_contra h
  have h := not_lt.mp h
  have hcard : (groupOf n g (g x)).card ≤ n - 1 := by
    have hsub : groupOf n g (g x) ⊆ (Finset.range n).erase y := fun o ho => by
      obtain ⟨ho, e⟩ := mem_groupOf.mp ho
      exact Finset.mem_erase.mpr ⟨fun e' => hxy (by rw [← e, e']), Finset.mem_range.mpr ho⟩
    have := Finset.card_le_card hsub
    rwa [Finset.card_erase_of_mem (Finset.mem_range.mpr hy), Finset.card_range] at this
  have hs := (H.size (g x) (H.group x hx)).trans hcard
  exact absurd hsep (not_lt.mpr ((nsmul_le_nsmul_right h s).trans (nsmul_le_nsmul_left hδ hs)))

omit H hmono h0 hd in
theorem pos_of_sep (hδ : 0 ≤ δ) (hsep : (n - 1) • δ < s • S) : 0 < S := by
  by_contra h
  exact absurd (lt_of_le_of_lt (nsmul_nonneg hδ _) hsep) (not_lt.mpr (nsmul_nonpos (not_lt.mp h) s))

/-- A nearest medoid is in the own group. -/
theorem own_group (hsep : (n - 1) • δ < s • S) {l : List Nat} (hr : ∀ m ∈ l, m < n) (h : Covers k g l) {o : Nat} (ho : o < n)
    {m : Nat} (hm : m ∈ l) (hnear : ∀ m' ∈ l, d o m ≤ d o m') : g m = g o := by
  by_contra hne
  obtain ⟨m', hm', e⟩ := h (g o) (H.group o ho)
  have h1 := (H.between o m ho (hr m hm) (Ne.symm hne)).trans
    ((hmono (hnear m' hm')).trans (H.within o m' ho (hr m' hm') e.symm))
  exact absurd (H.lt_of_two h0 hd hsep ho (hr m hm) (Ne.symm hne)) (not_lt.mpr h1)

/-- A group without a medoid makes the total deviation large. -/
theorem covers_of_le (hn : 0 < n) (hsep : (n - 1) • δ < s • S) {l : List Nat} (hl : l ≠ []) (hr : ∀ m ∈ l, m < n)
    (h : totalDev cv n d l ≤ (n - 1) • δ) : Covers k g l := by
  by_contra hcov
  unfold Covers at hcov
  push Not at hcov
  obtain ⟨c, hc, hcov⟩ := hcov
  have hS := pos_of_sep (H.nonneg h0 hd hn) hsep
  exact absurd (lt_of_le_of_lt h hsep)
    (not_lt.mpr ((H.far hmono h0 hd hl hr hc hS.le hcov).trans (H.group_le hmono h0 hd hl hr c)))

/-- Without a medoid in every group, some exchange reduces the total deviation. -/
theorem exists_swap (hsep : (n - 1) • δ < s • S) (hmet : IsMetric cv n d) {med : List Nat} (hr : ∀ m ∈ med, m < n)
    (hl : k ≤ med.length) (hcov : ¬ Covers k g med) :
    ∃ b x c, ∃ _ : b < med.length, x < n ∧ x ∉ med ∧ g x = c ∧ (∀ m ∈ med, g m ≠ c) ∧ c < k ∧
      totalDev cv n d (med.set b x) + ∑ o ∈ groupOf n g c, cv (minDist d o med) ≤ totalDev cv n d med + (n - 1) • δ := by
  obtain ⟨b, b', hbb, hb, hb', e⟩ := exists_two (fun m hm => H.group m (hr m hm)) hl hcov
  have hne : med ≠ [] := List.ne_nil_of_length_pos (by omega)
  have hn : 0 < n := Nat.lt_of_le_of_lt (Nat.zero_le _) (hr _ (List.getElem_mem hb))
  unfold Covers at hcov
  push Not at hcov
  obtain ⟨c, hc, hcov⟩ := hcov
  have hs : 0 < (groupOf n g c).card := by
    refine Nat.lt_of_lt_of_le ?_ (H.size c hc)
    rcases Nat.eq_zero_or_pos s with rfl | h
    · rw [zero_nsmul] at hsep
      exact absurd hsep (not_lt.mpr (nsmul_nonneg (H.nonneg h0 hd hn) _))
    · exact h
  obtain ⟨x, hx⟩ := Finset.card_pos.mp hs
  obtain ⟨hx, hxc⟩ := mem_groupOf.mp hx
  have hxm : x ∉ med := fun h => hcov x h hxc
  refine ⟨b, x, c, hb, hx, hxm, hxc, hcov, hc, ?_⟩
  refine H.gain hmono h0 hd hne hr hx hxc (List.mem_set hb x) fun o ho _ => ?_
  refine H.replace_le hmono h0 hd hmet hne hr (List.getElem_mem hb) (m := med[b']) (mem_set_of_ne hb' (by omega) x)
    (hr _ (List.getElem_mem hb')) e (fun y hy hyb => ?_) ho
  obtain ⟨a, ha, rfl⟩ := List.getElem_of_mem hy
  exact mem_set_of_ne ha (fun h => hyb (by subst h; rfl)) x

/-- In every group a (nearly) best medoid: nearly the smallest total deviation. -/
theorem best_of_groups (hn : 0 < n) (hsep : (n - 1) • δ < s • S) {med : List Nat} (hr : ∀ m ∈ med, m < n) (hl : med.length ≤ k)
    (hcov : Covers k g med) {ε : K} (hε : 0 ≤ ε)
    (hbest : ∀ m ∈ med, ∀ x, x < n → g x = g m →
      ∑ o ∈ groupOf n g (g m), cv (d o m) ≤ ∑ o ∈ groupOf n g (g m), cv (d o x) + ε)
    {other : List Nat} (hne : other ≠ []) (hor : ∀ m ∈ other, m < n) (hol : other.length ≤ k) :
    totalDev cv n d med ≤ totalDev cv n d other + k • ε := by
  by_cases hoc : Covers k g other
  · have hsum : ∀ l : List Nat, totalDev cv n d l = ∑ c ∈ Finset.range k, ∑ o ∈ groupOf n g c, cv (minDist d o l) := fun l => by
      rw [totalDev_sum]
      exact (Finset.sum_fiberwise_of_maps_to (fun o ho => Finset.mem_range.mpr (H.group o (Finset.mem_range.mp ho))) _).symm
    have hone : ∀ l : List Nat, (∀ m ∈ l, m < n) → l.length ≤ k → Covers k g l → ∀ m ∈ l,
        ∑ o ∈ groupOf n g (g m), cv (minDist d o l) = ∑ o ∈ groupOf n g (g m), cv (d o m) := fun l hlr hll hlc m hm =>
      Finset.sum_congr rfl fun o ho => by
        obtain ⟨ho, e⟩ := mem_groupOf.mp ho
        obtain ⟨⟨m', hm', e'⟩, hle⟩ := minDist_spec d o l (List.ne_nil_of_mem hm)
        have := H.own_group hmono h0 hd hsep hlr hlc ho hm' fun y hy => e' ▸ hle y hy
        rw [e', hlc.unique hll hm' hm (this.trans e)]
    have hk : k • ε = ∑ _c ∈ Finset.range k, ε := by rw [Finset.sum_const, Finset.card_range]
    rw [hsum med, hsum other, hk, ← Finset.sum_add_distrib]
    refine Finset.sum_le_sum fun c hc => ?_
    have hc := Finset.mem_range.mp hc
    obtain ⟨m, hm, rfl⟩ := hcov c hc
    obtain ⟨x, hx, e⟩ := hoc (g m) hc
    have h1 := hone other hor hol hoc x hx
    rw [e] at h1
    rw [hone med hr hl hcov m hm, h1]
    exact hbest m hm x (hor x hx) e
  · by_contra h
    have h1 := H.covered_le hmono h0 hd hn hr hcov
    refine hoc (H.covers_of_le hmono h0 hd hn hsep hne hor (le_trans ?_ h1))
    exact (le_add_of_nonneg_right (nsmul_nonneg hε k)).trans (not_le.mp h).le

/-- If no exchange helps (much), every medoid is (nearly) the best one of its group. -/
theorem best_of_swap (hsep : (n - 1) • δ < s • S) {med : List Nat} (hr : ∀ m ∈ med, m < n) (hl : med.length ≤ k)
    (hcov : Covers k g med) {ε : K} {b : Nat} (hb : b < med.length) {x : Nat} (hx : x < n) (hg : g x = g med[b])
    (hopt : totalDev cv n d med ≤ totalDev cv n d (med.set b x) + ε) :
    ∑ o ∈ groupOf n g (g med[b]), cv (d o med[b]) ≤ ∑ o ∈ groupOf n g (g med[b]), cv (d o x) + ε := by
  have hne : med ≠ [] := List.ne_nil_of_length_pos (by omega)
  have hinj : ∀ a (ha : a < med.length), g med[a] = g med[b] → a = b := fun a ha e => by
    have h := (hcov.inj hl).1
    rw [List.nodup_iff_injective_getElem] at h
    have := @h ⟨a, by simpa using ha⟩ ⟨b, by simpa using hb⟩ (by simpa using e)
    exact congrArg (fun x => x.1) this
  -- after the exchange
  have h1 : totalDev cv n d (med.set b x) ≤
      ∑ o ∈ Finset.range n, (if g o = g med[b] then cv (d o x) else cv (minDist d o med)) := by
    rw [totalDev_sum]
    refine Finset.sum_le_sum fun o ho => ?_
    have ho := Finset.mem_range.mp ho
    have hle := (minDist_spec d o (med.set b x) (List.ne_nil_of_mem (List.mem_set hb x))).2
    by_cases hc : g o = g med[b]
    · rw [if_pos hc]; exact hmono (hle x (List.mem_set hb x))
    · rw [if_neg hc]
      obtain ⟨⟨m, hm, e⟩, hle'⟩ := minDist_spec d o med hne
      have hgm := H.own_group hmono h0 hd hsep hr hcov ho hm fun y hy => e ▸ hle' y hy
      obtain ⟨a, ha, rfl⟩ := List.getElem_of_mem hm
      rw [e]
      exact hmono (hle _ (mem_set_of_ne ha (fun h => hc (by subst h; exact hgm.symm)) x))
  -- before
  have h2 : totalDev cv n d med =
      ∑ o ∈ Finset.range n, (if g o = g med[b] then cv (d o med[b]) else cv (minDist d o med)) := by
    rw [totalDev_sum]
    refine Finset.sum_congr rfl fun o ho => ?_
    have ho := Finset.mem_range.mp ho
    by_cases hc : g o = g med[b]
    · rw [if_pos hc]
      obtain ⟨⟨m, hm, e⟩, hle'⟩ := minDist_spec d o med hne
      have hgm := H.own_group hmono h0 hd hsep hr hcov ho hm fun y hy => e ▸ hle' y hy
      obtain ⟨a, ha, rfl⟩ := List.getElem_of_mem hm
      have := hinj a ha (hgm.trans hc)
      subst this
      rw [e]
    · rw [if_neg hc]
  rw [Finset.sum_ite] at h1 h2
  have h3 := hopt.trans (add_le_add_left h1 ε)
  rw [h2, add_right_comm] at h3
  exact le_of_add_le_add_right h3

omit hmono h0 hd in
/-- A group has an object with a number of at least `lo`, if it is large enough. -/
theorem exists_from {lo : Nat} (hlo : lo < s) {c : Nat} (hc : c < k) : ∃ x, lo ≤ x ∧ x < n ∧ g x = c := by
  by_contra h
  push Not at h
  have hsub : groupOf n g c ⊆ Finset.range lo := fun o ho => by
    obtain ⟨ho, e⟩ := mem_groupOf.mp ho
    by_contra hlo'
    exact h o (not_lt.mp fun h' => hlo' (Finset.mem_range.mpr h')) ho e
  have := (H.size c hc).trans (Finset.card_le_card hsub)
  rw [Finset.card_range] at this
  omega

/-- Greedily chosen medoids are in different groups, also if the objects below `lo` are not tried. -/
theorem greedy_nodup_from (hsep : (n - 1) • δ < s • S) (hmet : IsMetric cv n d) {med : List Nat} (hr : ∀ m ∈ med, m < n)
    (hl : med.length ≤ k) {lo : Nat} (hlo : lo < s)
    (hg : ∀ l c : Nat, 1 ≤ l → med[l]? = some c → ∀ x, lo ≤ x → x < n →
      totalDev cv n d (med.take l ++ [c]) ≤ totalDev cv n d (med.take l ++ [x])) :
    ∀ l, l ≤ med.length → ((med.take l).map g).Nodup := by
  intro l
  induction l with
  | zero => intro _; simp
  | succ l ih =>
    intro hll
    have hlt : l < med.length := by omega
    rw [← List.take_concat_get' med l hlt, List.map_append, List.nodup_append]
    refine ⟨ih (by omega), by simp, fun a ha b hb hab => ?_⟩
    simp only [List.map_cons, List.map_nil, List.mem_singleton] at hb
    subst hb
    obtain ⟨m, hm, e⟩ := List.mem_map.mp ha
    have e := e.trans hab
    have hpr : ∀ y ∈ med.take l, y < n := fun y hy => hr y (List.mem_of_mem_take hy)
    have hn : 0 < n := Nat.lt_of_le_of_lt (Nat.zero_le _) (hr _ (List.getElem_mem hlt))
    -- a group without a medoid
    have hcov : ¬ Covers k g (med.take l ++ [med[l]]) := fun h => by
      have h' : Covers k g (med.take l) := fun c hc => by
        obtain ⟨y, hy, ey⟩ := h c hc
        rcases List.mem_append.mp hy with hy | hy
        · exact ⟨y, hy, ey⟩
        · rw [List.mem_singleton.mp hy] at ey
          exact ⟨m, hm, e.trans ey⟩
      have h1 := (h'.inj (by rw [List.length_take]; omega)).2
      rw [List.length_take] at h1
      omega
    unfold Covers at hcov
    push Not at hcov
    obtain ⟨c, hc, hcov⟩ := hcov
    have hδ := H.nonneg h0 hd hn
    have hS := pos_of_sep hδ hsep
    obtain ⟨x, hxlo, hx, hxc⟩ := H.exists_from hlo hc
    have hl1 : 1 ≤ l := by
      rcases Nat.eq_zero_or_pos l with h | h
      · rw [h] at hm; simp at hm
      · exact h
    have hr' : ∀ y ∈ med.take l ++ [med[l]], y < n := fun y hy => by
      rcases List.mem_append.mp hy with hy | hy
      · exact hpr y hy
      · rw [List.mem_singleton.mp hy]; exact hr _ (List.getElem_mem hlt)
    have hne : med.take l ++ [med[l]] ≠ [] := List.append_ne_nil_of_right_ne_nil _ (List.cons_ne_nil _ _)
    have h1 := H.gain hmono h0 hd (l' := med.take l ++ [x]) hne hr' hx hxc (by simp) fun o ho _ => by
      refine H.replace_le hmono h0 hd hmet hne hr' (c := med[l]) (m := m)
        (List.mem_append_right _ (List.mem_singleton_self _)) (List.mem_append_left _ hm) (hpr m hm) e.symm
        (fun y hy hyc => ?_) ho
      rcases List.mem_append.mp hy with hy | hy
      · exact List.mem_append_left _ hy
      · exact absurd (List.mem_singleton.mp hy) hyc
    have h2 := hg l med[l] hl1 (List.getElem?_eq_getElem hlt) x hxlo hx
    have h3 := H.far hmono h0 hd hne hr' hc hS.le hcov
    exact absurd hsep (not_lt.mpr (h3.trans (le_of_add_le_add_left (h1.trans (add_le_add_left h2 _)))))

/-- Greedily chosen medoids are in different groups. -/
theorem greedy_nodup (hsep : (n - 1) • δ < s • S) (hmet : IsMetric cv n d) {med : List Nat} (hr : ∀ m ∈ med, m < n)
    (hl : med.length ≤ k) (hg : Greedy (totalDev cv n d) n med) : ∀ l, l ≤ med.length → ((med.take l).map g).Nodup := by
  rcases Nat.eq_zero_or_pos n with rfl | hn
  · intro l _
    have : med = [] := List.eq_nil_iff_forall_not_mem.mpr fun m hm => absurd (hr m hm) (by omega)
    simp [this]
  refine H.greedy_nodup_from hmono h0 hd hsep hmet hr hl (lo := 0) ?_ fun l c _ hc x _ hx => hg l c hc x hx
  rcases Nat.eq_zero_or_pos s with rfl | h
  · rw [zero_nsmul] at hsep
    exact absurd hsep (not_lt.mpr (nsmul_nonneg (H.nonneg h0 hd hn) _))
  · exact h

end Separated

end

end KMedoids
