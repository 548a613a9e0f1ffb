import Verif.Proofs.SeparatedSilhouette
import Verif.Props.C39_C43

/-!
# C116: well-separated groups and the silhouette

The objects consist of `k ≥ 2` groups of at least `s ≥ 2` objects; distances within a group are at most `δ`, between groups at least
`S`, and all distances are at most `R`, with `n δ R < S²`. Then the groups have a larger silhouette than all other labels with at most
`k` different values, and with `n δ² < s ε S`, where distances of different objects are at least `ε`, than all other labels. So a value
of `silhouette` or `par_silhouette` above a threshold shows that the labels are the groups. `pamsil_swap` keeps groups that it has,
and `pamsil` finds the groups, also with repeated medoids and labels without members in the search. From other medoids
`pamsil_swap` may end without the groups.
-/

set_option linter.unusedSectionVars false
set_option linter.overlappingInstances false

namespace KMedoids

open RFrom (conv)

/-- If the labels of the nearest medoids are the groups, then all groups have medoids, also with repeated medoids. -/
theorem Separated.covers_near {N L : Type} [LinearOrder N] [Zero N] [RDist N] [LawfulDist N] [Field L] [LinearOrder L]
    [IsStrictOrderedRing L] {cv : N → L} {n k s : Nat} {d : Nat → Nat → N} {g : Nat → Nat} {δ S : L} (H : Separated cv n k s d g δ S)
    (hd : Dissim n d) (hs : 2 ≤ s) {med : List Nat} (hv : ValidMeds n med)
    (hsame : SameGroups n g (nearAssiP d n med)) : Covers k g med := by
  have hne : med ≠ [] := List.ne_nil_of_length_pos hv.sizes.pos
  have hlab : ∀ o, o < n → (nearAssiP d n med)[o]? = some (nearRecP d med o).1 := fun o ho => by
    simp [nearAssiP, List.getElem?_range ho]
  intro c hc
  by_contra hno
  push Not at hno
  obtain ⟨o, ho⟩ := Finset.card_pos.mp (lt_of_lt_of_le (by omega : 0 < s) (H.size c hc))
  obtain ⟨ho1, ho2⟩ := mem_groupOf.mp ho
  have hom : o ∉ med := fun h => hno o h ho2
  obtain ⟨v, hv1, -⟩ := nearRecP_nearest hd ho1 hne hv.range
  have hvm := List.mem_of_getElem? hv1
  have hvn := hv.range v hvm
  have hvl := nearRecP_ownLabel hd hvn hv.range hvm
  obtain ⟨w, hw, hwv⟩ := Finset.exists_mem_ne (lt_of_lt_of_le hs (H.size _ (H.group v hvn))) v
  obtain ⟨hw1, hw2⟩ := mem_groupOf.mp hw
  have e : (nearRecP d med w).1 = (nearRecP d med v).1 := by
    have := (hsame w v hw1 hvn).mpr hw2
    rw [hlab w hw1, hlab v hvn] at this
    injection this
  have hwm : w ∉ med := fun h => by
    have := nearRecP_ownLabel hd hw1 hv.range h
    rw [e, hvl] at this
    injection this with this
    exact hwv this.symm
  have fo := congrArg Prod.fst (nearRecP_first d o med hne hom)
  have fw := congrArg Prod.fst (nearRecP_first d w med hne hwm)
  obtain ⟨p1, -, p3⟩ := firstMin_spec (fun m => d o (med.getD m 0)) hv.sizes.pos
  obtain ⟨q1, -, q3⟩ := firstMin_spec (fun m => d w (med.getD m 0)) hv.sizes.pos
  dsimp only at fo fw
  rw [← fo] at p1 p3
  rw [← fw, e] at q1 q3
  have gp : med.getD (nearRecP d med o).1 0 = v := getD_of hv1
  have gq : med.getD (nearRecP d med v).1 0 = v := getD_of hvl
  have hpq : (nearRecP d med o).1 = (nearRecP d med v).1 := by
    rcases lt_trichotomy (nearRecP d med o).1 (nearRecP d med v).1 with h | h | h
    · have := q3 _ h
      rw [gp, gq] at this
      exact absurd this (lt_irrefl _)
    · exact h
    · have := p3 _ h
      rw [gp, gq] at this
      exact absurd this (lt_irrefl _)
  have := (hsame o v ho1 hvn).mp (by rw [hlab o ho1, hlab v hvn, hpq])
  exact hno v hvm (this.symm.trans ho2)

section
variable {N L : Type} [LinearOrder N] [Zero N] [RDist N] [LawfulDist N]
variable [Field L] [LinearOrder L] [IsStrictOrderedRing L] [RLoss L] [LawfulField L]
variable [RFrom N L] [LawfulFrom N L]
variable {n k s : Nat} {d : Nat → Nat → N} {g : Nat → Nat} {δ S R ε : L} {assi : List Nat}

/-- The average does not depend on whether the samples are wanted. -/
theorem silhouetteP_avg (d : Nat → Nat → N) (assi : List Nat) (b : Bool) :
    (silhouetteP L d assi b).1 = (silhouetteP L d assi false).1 := by
  unfold silhouetteP
  split <;> rfl

/-- The computed average: the silhouette, or with a label gap not positive. -/
theorem silhouette_cases {mat : Mat N} (hm : IsMatrix mat n d) (hd : Dissim n d) (hu : n ≤ u32Max) (hn : 0 < n) (hl : assi.length = n)
    {samples : Bool} {avg : L} {sil : List L} (hr : silhouette L mat assi samples = .ok (avg, sil)) :
    (NoGap assi → avg = mean (silList (conv : N → L) d assi)) ∧ (¬ NoGap assi → avg ≤ 0) := by
  have hne : assi ≠ [] := fun e => by rw [e] at hl; simp at hl; omega
  have e : silhouette L mat assi true = .ok (avg, (silhouetteP L d assi true).2) := by
    rw [silhouette_eq hm hl.le] at hr ⊢
    injection hr with hr
    have h1 : avg = (silhouetteP L d assi samples).1 := by rw [hr]
    rw [h1, silhouetteP_avg, ← silhouetteP_avg d assi true]
  constructor
  · intro hg
    have := (C24_silhouette (L := L) hm hd.nonneg hl.le hu hne hg).1
    rw [e] at this
    injection this with this
    exact (Prod.mk.inj this).1
  · intro hg
    unfold NoGap at hg
    push Not at hg
    obtain ⟨c, c', h1, h2, h3⟩ := hg
    have hlt : c < c' := lt_of_le_of_ne h1 fun e => h3 (e ▸ h2)
    obtain ⟨avg', h⟩ := C26_gap (L := L) hm hd.nonneg hl.le h3 hlt h2
    rw [e] at h
    injection h with h
    obtain ⟨-, h5⟩ := Prod.mk.inj h
    have hm' := (C25_silhouette_range hm hd.nonneg hl.le hu hne e).1
    rw [hm', h5]
    refine (mean_range (lo := -1) (by simpa using hne) fun x hx => ?_).2
    obtain ⟨p, -, rfl⟩ := List.mem_map.mp hx
    split
    · exact ⟨by norm_num, le_rfl⟩
    · exact ⟨le_rfl, by norm_num⟩

variable (hd : Dissim n d) (H : Separated (conv : N → L) n k s d g δ S) (hS : 0 < S) {mat : Mat N} (hm : IsMatrix mat n d)
  (hu : n ≤ u32Max) (hn : 0 < n)
include hd H hS hm hu hn

/-- **C116, mixed groups.** If two objects of different groups share a label, the silhouette is low. -/
theorem C116_mixed (hR : DistLe n d R) (hl : assi.length = n) {samples : Bool} {avg : L} {sil : List L}
    (hr : silhouette L mat assi samples = .ok (avg, sil)) (hmix : ∃ x y, x < n ∧ y < n ∧ assi[x]? = assi[y]? ∧ g x ≠ g y) :
    S ≤ n * (1 - avg) * R := by
  obtain ⟨h1, h2⟩ := silhouette_cases hm hd hu hn hl hr
  obtain ⟨x, y, hx, hy, e, hg⟩ := hmix
  by_cases hgap : NoGap assi
  · rw [h1 hgap]
    exact H.mixed_ge LawfulFrom.strictMono.monotone LawfulFrom.map_zero hd hS hR hl fun h => hg (h x y hx hy e)
  · have h3 := h2 hgap
    have hSR : S ≤ R := (H.between x y hx hy hg).trans (hR x y hx hy)
    have hR0 := hS.le.trans hSR
    have hn' : (1 : L) ≤ n := by exact_mod_cast hn
    have h4 : (1 : L) * 1 ≤ n * (1 - avg) := mul_le_mul hn' (by linarith) zero_le_one (by linarith)
    calc S ≤ R := hSR
      _ = 1 * 1 * R := by ring
      _ ≤ _ := mul_le_mul_of_nonneg_right h4 hR0

omit hS in
/-- **C116, split groups.** If groups are not mixed but a group has several labels, the silhouette is low. -/
theorem C116_split (hε : 0 < ε) (hge : DistGe n d ε) (hl : assi.length = n) {samples : Bool} {avg : L} {sil : List L}
    (hr : silhouette L mat assi samples = .ok (avg, sil)) (hpure : Pure n g assi) (hne : ¬ SameGroups n g assi) :
    s * ε ≤ n * (1 - avg) * δ := by
  obtain ⟨h1, h2⟩ := silhouette_cases hm hd hu hn hl hr
  by_cases hgap : NoGap assi
  · rw [h1 hgap]
    exact H.split_ge LawfulFrom.strictMono.monotone LawfulFrom.map_zero hd hε hge hl hpure hne
  · have h3 := h2 hgap
    unfold SameGroups at hne
    push Not at hne
    obtain ⟨x, y, hx, hy, hxy⟩ := hne
    have hxy : g x = g y ∧ x ≠ y := by
      rcases hxy with h | h
      · exact absurd (hpure x y hx hy h.1) h.2
      · exact ⟨h.2, fun e => h.1 (by rw [e])⟩
    have hεδ : ε ≤ δ := (hge x y hx hy hxy.2).trans (H.within x y hx hy hxy.1)
    have hs : s ≤ n := (H.size _ (H.group x hx)).trans
      ((Finset.card_le_card (Finset.filter_subset _ _)).trans (Finset.card_range n).le)
    have hs' : (s : L) ≤ n := by exact_mod_cast hs
    have h4 : (n : L) * 1 ≤ n * (1 - avg) := mul_le_mul_of_nonneg_left (by linarith) (Nat.cast_nonneg _)
    calc (s : L) * ε ≤ n * 1 * δ := by rw [mul_one]; exact mul_le_mul hs' hεδ hε.le (Nat.cast_nonneg _)
      _ ≤ _ := mul_le_mul_of_nonneg_right h4 (hε.le.trans hεδ)

/-- **C116, the groups have a high silhouette.** -/
theorem C116_groups (hδS : δ ≤ S) (hs : 2 ≤ s) (hk : 2 ≤ k) (hl : assi.length = n) (hg : NoGap assi) (hsame : SameGroups n g assi)
    {samples : Bool} {avg : L} {sil : List L} (hr : silhouette L mat assi samples = .ok (avg, sil)) : 1 - δ / S ≤ avg := by
  rw [(silhouette_cases hm hd hu hn hl hr).1 hg]
  have h := H.same_le LawfulFrom.strictMono.monotone LawfulFrom.map_zero hd hn hS hδS hs hk hl hsame
  have hn' : (0 : L) < n := by exact_mod_cast hn
  rw [mul_assoc] at h
  have h := le_of_mul_le_mul_left h hn'
  rw [← le_div_iff₀ hS] at h
  linarith

/-- **C116, certificate.** Labels with a silhouette above a threshold do not mix groups; they are the groups if there are at most `k`
different ones, or if the silhouette is above a second threshold. -/
theorem C116_certificate (hR : DistLe n d R) (hs : 0 < s) (hl : assi.length = n) {samples : Bool} {avg : L} {sil : List L}
    (hr : silhouette L mat assi samples = .ok (avg, sil)) (h1 : n * (1 - avg) * R < S) :
    Pure n g assi ∧
    (assi.toFinset.card ≤ k ∨ (0 < ε ∧ DistGe n d ε ∧ n * (1 - avg) * δ < s * ε) → SameGroups n g assi) := by
  have hpure : Pure n g assi := fun x y hx hy e => by
    by_contra hg
    exact absurd h1 (not_lt.mpr (C116_mixed hd H hS hm hu hn hR hl hr ⟨x, y, hx, hy, e, hg⟩))
  refine ⟨hpure, fun h => ?_⟩
  rcases h with h | ⟨hε, hge, h⟩
  · refine hpure.same hl H.group (fun c hc => ?_) h
    obtain ⟨z, hz⟩ := Finset.card_pos.mp (lt_of_lt_of_le hs (H.size c hc))
    exact ⟨z, mem_groupOf.mp hz⟩
  · by_contra hne
    exact absurd h (not_lt.mpr (C116_split hd H hm hu hn hε hge hl hr hpure hne))

/-- **C116, certificate by `par_silhouette`.** -/
theorem C116_par_certificate (hR : DistLe n d R) (hs : 0 < s) (hl : assi.length = n) (hlab : ∃ a ∈ assi, a ≠ 0) {avg : L}
    (hr : parSilhouette L mat assi = .ok avg) (h1 : n * (1 - avg) * R < S) :
    Pure n g assi ∧
    (assi.toFinset.card ≤ k ∨ (0 < ε ∧ DistGe n d ε ∧ n * (1 - avg) * δ < s * ε) → SameGroups n g assi) := by
  obtain ⟨avg', sil, e1, e2⟩ := C27_par_silhouette_partial (L := L) hm hl.le hlab false
  rw [e1] at hr
  cases hr
  exact C116_certificate hd H hS hm hu hn hR hs hl e2 h1

/-- **C116, the best labels.** The groups have a larger silhouette than all other labels with at most `k` different values, and than
all other labels if no two objects are too close. -/
theorem C116_best (hR : DistLe n d R) (hsep : n * δ * R < S * S) (hs : 2 ≤ s) (hk : 2 ≤ k) (hl : assi.length = n) (hg : NoGap assi)
    (hsame : SameGroups n g assi) {samples : Bool} {avg : L} {sil : List L} (hr : silhouette L mat assi samples = .ok (avg, sil))
    {other : List Nat} (hl' : other.length = n) (hne : ¬ SameGroups n g other) {samples' : Bool} {avg' : L} {sil' : List L}
    (hr' : silhouette L mat other samples' = .ok (avg', sil'))
    (hlab : other.toFinset.card ≤ k ∨ (0 < ε ∧ DistGe n d ε ∧ n * δ * δ < s * ε * S)) : avg' < avg := by
  have hn' : (0 : L) < n := by exact_mod_cast hn
  have hδ : 0 ≤ δ := H.nonneg LawfulFrom.map_zero hd hn
  have hSR : S ≤ R := by
    obtain ⟨x, hx⟩ := Finset.card_pos.mp (lt_of_lt_of_le (by omega : 0 < s) (H.size 0 (by omega)))
    obtain ⟨y, hy⟩ := Finset.card_pos.mp (lt_of_lt_of_le (by omega : 0 < s) (H.size 1 (by omega)))
    obtain ⟨hx1, hx2⟩ := mem_groupOf.mp hx
    obtain ⟨hy1, hy2⟩ := mem_groupOf.mp hy
    exact (H.between x y hx1 hy1 (by omega)).trans (hR x y hx1 hy1)
  have hR0 := lt_of_lt_of_le hS hSR
  have hδS : δ ≤ S := by
    by_contra h
    have h := not_le.mp h
    have h1 : (1 : L) ≤ n := by exact_mod_cast hn
    have h2 : S * S ≤ n * δ * R := mul_le_mul (h.le.trans (le_mul_of_one_le_left hδ h1)) hSR hS.le (by positivity)
    exact absurd hsep (not_lt.mpr h2)
  have hhigh := C116_groups hd H hS hm hu hn hδS hs hk hl hg hsame hr
  by_contra hle
  have hle := hhigh.trans (not_lt.mp hle)
  have h1 : (1 - avg') * S ≤ δ := by
    have : 1 - avg' ≤ δ / S := by linarith
    exact (le_div_iff₀ hS).mp this
  have h2 : n * (1 - avg') * R < S := by
    refine lt_of_mul_lt_mul_right ?_ hS.le
    calc n * (1 - avg') * R * S = n * ((1 - avg') * S) * R := by ring
      _ ≤ n * δ * R := mul_le_mul_of_nonneg_right (mul_le_mul_of_nonneg_left h1 hn'.le) hR0.le
      _ < S * S := hsep
  refine hne ((C116_certificate (ε := ε) hd H hS hm hu hn hR (by omega) hl' hr' h2).2 (hlab.imp id fun ⟨hε, hge, h⟩ => ⟨hε, hge, ?_⟩))
  refine lt_of_mul_lt_mul_right ?_ hS.le
  calc n * (1 - avg') * δ * S = n * ((1 - avg') * S) * δ := by ring
    _ ≤ n * δ * δ := mul_le_mul_of_nonneg_right (mul_le_mul_of_nonneg_left h1 hn'.le) hδ
    _ < s * ε * S := h

omit hn in
/-- Medoids in all groups: the labels of the nearest medoids are the groups, without a gap. -/
theorem Separated.near_same (hlt : δ < S) {med : List Nat} (hv : ValidMeds n med) (hl : med.length = k) (hcov : Covers k g med) :
    NoGap (nearAssiP d n med) ∧ FindsGroups n k g med (nearAssiP d n med) :=
  ⟨nearAssiP_noGap hd hv (hcov.inj hl.le).1.of_map,
    H.finds_nearest LawfulFrom.strictMono.monotone (fun _ _ _ _ _ => hlt) hv.range hl.le hcov (nearAssiP_length _ _ _) fun _ _ h => nearAssiP_nearest hd hv h⟩

omit hS hm hu hn in
/-- The silhouette of medoids and its use as a certificate. -/
theorem Separated.silM_iff (hR : DistLe n d R) (hsep : n * δ * R < S * S) (hS : 0 < S) (hs : 2 ≤ s) (hk : 2 ≤ k) (hm : IsMatrix mat n d)
    {med : List Nat} (hv : ValidMeds n med) (hl : med.length = k) : δ < S ∧ (Covers k g med ↔ 1 - δ / S ≤ silM L d n med) := by
  have hn : 0 < n := Nat.lt_of_lt_of_le hv.sizes.pos hv.sizes.le
  have hn' : (0 : L) < n := by exact_mod_cast hn
  have hδ : 0 ≤ δ := H.nonneg LawfulFrom.map_zero hd hn
  have hSR : S ≤ R := by
    obtain ⟨x, hx⟩ := Finset.card_pos.mp (lt_of_lt_of_le (by omega : 0 < s) (H.size 0 (by omega)))
    obtain ⟨y, hy⟩ := Finset.card_pos.mp (lt_of_lt_of_le (by omega : 0 < s) (H.size 1 (by omega)))
    obtain ⟨hx1, hx2⟩ := mem_groupOf.mp hx
    obtain ⟨hy1, hy2⟩ := mem_groupOf.mp hy
    exact (H.between x y hx1 hy1 (by omega)).trans (hR x y hx1 hy1)
  have hR0 := lt_of_lt_of_le hS hSR
  have hlt : δ < S := by
    by_contra h
    have h := not_lt.mp h
    have h1 : (1 : L) ≤ n := by exact_mod_cast hn
    have h2 : S * S ≤ n * δ * R := mul_le_mul (h.trans (le_mul_of_one_le_left hδ h1)) hSR hS.le (by positivity)
    exact absurd hsep (not_lt.mpr h2)
  have hr : silhouette L mat (nearAssiP d n med) false = .ok (silM L d n med, (silhouetteP L d (nearAssiP d n med) false).2) := by
    rw [silhouette_eq hm (nearAssiP_length _ _ _).le]; rfl
  refine ⟨hlt, fun hcov => ?_, fun h => ?_⟩
  · obtain ⟨h1, h2⟩ := H.near_same hd hS hm hv.sizes.n_le hlt hv hl hcov
    exact C116_groups hd H hS hm hv.sizes.n_le hn hlt.le hs hk (nearAssiP_length _ _ _) h1 h2.labels.2 hr
  · refine H.covers_near hd hs hv ((C116_certificate (ε := 1) hd H hS hm hv.sizes.n_le hn hR (by omega) (nearAssiP_length _ _ _) hr ?_).2
      (.inl ?_))
    · have h1 : (1 - silM L d n med) * S ≤ δ := by
        have : 1 - silM L d n med ≤ δ / S := by linarith
        exact (le_div_iff₀ hS).mp this
      refine lt_of_mul_lt_mul_right ?_ hS.le
      calc n * (1 - silM L d n med) * R * S = n * ((1 - silM L d n med) * S) * R := by ring
        _ ≤ n * δ * R := mul_le_mul_of_nonneg_right (mul_le_mul_of_nonneg_left h1 hn'.le) hR0.le
        _ < S * S := hsep
    · refine (Finset.card_le_card (t := Finset.range k) fun a ha => ?_).trans (Finset.card_range k).le
      exact Finset.mem_range.mpr (hl ▸ nearAssiP_label d hv.sizes.pos a (List.mem_toFinset.mp ha))

omit hu hn in
/-- **C116, PAMSIL.** Starting with a medoid in each group, `pamsil_swap` finds the groups, for every limit. -/
theorem C116_pamsil_swap (hR : DistLe n d R) (hsep : n * δ * R < S * S) (hs : 2 ≤ s) {med : List Nat} (hv : ValidMeds n med)
    (hk : 2 ≤ med.length) (hl : med.length = k) (hcov : Covers k g med) {maxiter : Nat} {r : SwapResult L}
    (hr : pamsilSwap L mat med maxiter = .ok r) :
    FindsGroups n k g r.med r.assi ∧ r.loss = mean (silList (conv : N → L) d r.assi) ∧ 1 - δ / S ≤ r.loss := by
  have hk' : 2 ≤ k := hl ▸ hk
  obtain ⟨hlt, hiff⟩ := H.silM_iff hd hR hsep hS hs hk' hm hv hl
  have h1 := (C40_pamsil_swap hm hv hk hr).1 _ ((silOf_iff hm hv).mpr rfl)
  have hge := (hiff.mp hcov).trans h1.1
  have hr0 := hr
  rw [pamsilSwap_eq hm hv] at hr
  obtain ⟨g1, g2⟩ := pamsilOptP_loop hk hr
  obtain ⟨hv', hl', -⟩ := psLoopP_ok hv rfl g1
  dsimp only at hv' hl'
  have e : r.loss = silM L d n r.med := by
    have h2 := (C39_pamsil_swap hm hv hk hr0).2.1
    rw [g2] at h2
    exact (silOf_iff hm hv').mp ⟨_, _, assignNearest_eq hm hv', h2⟩
  have hc := (H.silM_iff hd hR hsep hS hs hk' hm hv' (hl'.trans hl)).2.mpr (e ▸ hge)
  have hf := (H.near_same hd hS hm hv.sizes.n_le hlt hv' (hl'.trans hl) hc).2
  rw [← g2] at hf
  exact ⟨hf, C39_pamsil_swap_textbook hm hd hv hk hr0 (hc.inj (hl'.trans hl).le).1.of_map, hge⟩

omit hu hn in
/-- **C116, PAMSIL with BUILD.** `pamsil` finds the groups, for every limit. With at least one iteration the reported loss is the
silhouette. -/
theorem C116_pamsil (hR : DistLe n d R) (hsep : n * δ * R < S * S) (hmet : IsMetric (conv : N → L) n d)
    (hsep' : (n - 1) • δ < s • S) (hs : 2 ≤ s) (hsz : Sizes n k) (hk : 2 ≤ k) {maxiter : Nat} {r : SwapResult L}
    (hr : pamsil L mat k maxiter = .ok r) :
    FindsGroups n k g r.med r.assi ∧
    (0 < maxiter → r.loss = mean (silList (conv : N → L) d r.assi) ∧ 1 - δ / S ≤ r.loss) := by
  have hn : 0 < n := Nat.lt_of_lt_of_le hsz.pos hsz.le
  have hb := pamBuild_eq (L := L) hm hsz
  obtain ⟨hf, hcov⟩ := C113_pam_build hm hd hmet hsz H hsep' hb
  obtain ⟨meds, -, hv, hl, e, he⟩ := pamsil_run (L := L) hm hd hsz maxiter
  have e' : meds = (pamBuildP L d n k).med := by
    have := hf.count
    rw [e]; simp only [pamBuildP] at this ⊢; rw [this]; simp
  rw [← e'] at hcov
  obtain ⟨hlt, hiff⟩ := H.silM_iff hd hR hsep hS hs hk hm hv hl
  rw [he] at hr
  obtain ⟨g1, g2⟩ := pamsilOptP_loop (by omega) hr
  obtain ⟨hv', hl', -, -, -, -, g7⟩ := psLoopP_ok hv rfl g1
  rw [silhouetteP_zeros d hn] at g1 g7
  dsimp only at hv' hl' g7
  have hiff' := (H.silM_iff hd hR hsep hS hs hk hm hv' (hl'.trans hl)).2
  have key : Covers k g r.med ∧ (0 < maxiter → r.loss = silM L d n r.med) := by
    cases maxiter with
    | zero =>
      unfold psLoopP at g1
      injection g1 with g1
      have : meds = r.med := by simpa using congrArg (fun q => q.2.1) g1
      exact ⟨this ▸ hcov, fun h => absurd h (lt_irrefl _)⟩
    | succ f =>
      have hlab : ∀ a ∈ List.replicate n 0, a < meds.length := fun a ha => by rw [List.eq_of_mem_replicate ha]; omega
      obtain ⟨s1, s2, s3, s4⟩ := psScanP_cover (L := L) (d := d) hv rfl (assi := List.replicate n 0) (by simp) hlab
      -- an exchange within a group
      have h0 : 0 < meds.length := by omega
      have hin := hv.range _ (List.getElem_mem h0)
      obtain ⟨w, hw, hwv⟩ := Finset.exists_mem_ne (lt_of_lt_of_le hs (H.size _ (H.group _ hin))) meds[0]
      obtain ⟨hw1, hw2⟩ := mem_groupOf.mp hw
      have hwm : w ∉ meds := fun h => hwv (hcov.unique hl.le h (List.getElem_mem h0) hw2)
      have hcov' : Covers k g (meds.set 0 w) := fun c hc => by
        obtain ⟨m, hm', em⟩ := hcov c hc
        by_cases h : m = meds[0]
        · exact ⟨w, List.mem_set h0 w, by rw [hw2, ← h, em]⟩
        · obtain ⟨i, hi, ei⟩ := List.getElem_of_mem hm'
          have hi0 : 0 ≠ i := fun e0 => h (by subst e0; exact ei.symm)
          have : (meds.set 0 w)[i]? = some m := by rw [List.getElem?_set_ne hi0, List.getElem?_eq_getElem hi, ei]
          exact ⟨m, List.mem_of_getElem? this, em⟩
      have hbest := ((H.silM_iff hd hR hsep hS hs hk hm (hv.set 0 hw1) (by simpa using hl)).2.mp hcov').trans (s4 0 w h0 hw1 hwm)
      have hpos : 0 < 1 - δ / S := by rw [sub_pos, div_lt_one hS]; exact hlt
      unfold psLoopP at g1
      dsimp only at g1
      rw [rleL', if_neg (by simpa using lt_of_lt_of_le hpos hbest)] at g1
      obtain ⟨-, h6⟩ := psScanP_spec (L := L) (d := d) (n := n) (k := meds.length) rfl (List.replicate n 0)
      rcases h6 with e6 | ⟨b1, b2, b3⟩
      · rw [e6, zeroL] at hbest
        exact absurd (lt_of_lt_of_le hpos hbest) (lt_irrefl _)
      · rw [setIdx_lt b1, ok_bind] at g1
        have hge := hbest.trans (psLoopP_ex (hv.set _ b2) (by simp) s1.assiLen s1.label g1).1
        have hsw := (psLoopP_ok (hv.set _ b2) (by simp) g1).2.2.1
        dsimp only at hge hsw
        have e7 : r.loss = silM L d n r.med := by
          rcases g7 with ⟨h, -, -⟩ | ⟨-, h⟩
          · omega
          · exact h
        exact ⟨hiff'.mpr (e7 ▸ hge), fun _ => e7⟩
  have hns := H.near_same hd hS hm hsz.n_le hlt hv' (hl'.trans hl) key.1
  rw [← g2] at hns
  refine ⟨hns.2, fun h0 => ⟨?_, (key.2 h0) ▸ hiff'.mp key.1⟩⟩
  have e8 : silhouette L mat r.assi false = .ok (r.loss, (silhouetteP L d r.assi false).2) := by
    rw [silhouette_eq hm hns.2.labels.1.le, key.2 h0, g2]; rfl
  exact (silhouette_cases hm hd hsz.n_le hn hns.2.labels.1 e8).1 hns.1

end

/-! ## Examples -/

theorem wide_groups : Pure 9 (groupList [0, 0, 0, 1, 1, 1, 2, 2, 2]) [0, 0, 0, 1, 1, 1, 2, 2, 2] ∧
    SameGroups 9 (groupList [0, 0, 0, 1, 1, 1, 2, 2, 2]) [0, 0, 0, 1, 1, 1, 2, 2, 2] ∧ NoGap [0, 0, 0, 1, 1, 1, 2, 2, 2] := by
  have h : ∀ x < 9, ∀ y < 9, ([0, 0, 0, 1, 1, 1, 2, 2, 2][x]? = [0, 0, 0, 1, 1, 1, 2, 2, 2][y]? ↔
      groupList [0, 0, 0, 1, 1, 1, 2, 2, 2] x = groupList [0, 0, 0, 1, 1, 1, 2, 2, 2] y) := by decide
  refine ⟨fun x y hx hy => (h x hx y hy).mp, fun x y hx hy => h x hx y hy, fun c c' hc hc' => ?_⟩
  have : c' ≤ 2 := by simp at hc'; omega
  have : c = 0 ∨ c = 1 ∨ c = 2 := by omega
  rcases this with rfl | rfl | rfl <;> decide

/-- The silhouette of the nine objects certifies the groups. -/
example : silhouette ℚ (lineMat wideGroups) [0, 0, 0, 1, 1, 1, 2, 2, 2] false = .ok (364801 / 374850, []) ∧
    SameGroups 9 (groupList [0, 0, 0, 1, 1, 1, 2, 2, 2]) [0, 0, 0, 1, 1, 1, 2, 2, 2] := by
  have hr : silhouette ℚ (lineMat wideGroups) [0, 0, 0, 1, 1, 1, 2, 2, 2] false = .ok (364801 / 374850, []) := by decide +kernel
  exact ⟨hr, (C116_certificate (ε := 1) (lineD_dissim _ _) wide_separated.1 (by norm_num) (lineMat_isMatrix wideGroups) (by decide)
    (by decide) wide_separated.2.1 (by decide) (by decide) hr (by norm_num)).2
    (.inr ⟨by norm_num, wide_separated.2.2, by norm_num⟩)⟩

/-- A split group is worse. -/
example : ∃ avg : ℚ, silhouette ℚ (lineMat wideGroups) [0, 0, 0, 1, 1, 1, 2, 2, 3] false = .ok (avg, []) ∧ avg < 364801 / 374850 := by
  have hr : silhouette ℚ (lineMat wideGroups) [0, 0, 0, 1, 1, 1, 2, 2, 2] false = .ok (364801 / 374850, []) := by decide +kernel
  have hr' : silhouette ℚ (lineMat wideGroups) [0, 0, 0, 1, 1, 1, 2, 2, 3] false = .ok (2535071401 / 3599684550, []) := by
    decide +kernel
  refine ⟨_, hr', C116_best (ε := 1) (lineD_dissim _ _) wide_separated.1 (by norm_num) (lineMat_isMatrix wideGroups) (by decide)
    (by decide) wide_separated.2.1 (by norm_num) (by decide) (by decide) (by decide) wide_groups.2.2 wide_groups.2.1 hr (by decide)
    (fun h => ?_) hr' (.inr ⟨by norm_num, wide_separated.2.2, by norm_num⟩)⟩
  exact absurd ((h 7 8 (by decide) (by decide)).mpr (by decide)) (by decide)

/-- PAMSIL finds the groups. -/
example : pamsil ℚ (lineMat wideGroups) 3 9 = .ok ⟨364801 / 374850, [1, 1, 1, 0, 0, 0, 2, 2, 2], 2, 1, [3, 1, 7]⟩ ∧
    FindsGroups 9 3 (groupList [0, 0, 0, 1, 1, 1, 2, 2, 2]) [3, 1, 7] [1, 1, 1, 0, 0, 0, 2, 2, 2] := by
  have hr : pamsil ℚ (lineMat wideGroups) 3 9 = .ok ⟨364801 / 374850, [1, 1, 1, 0, 0, 0, 2, 2, 2], 2, 1, [3, 1, 7]⟩ := by decide +kernel
  exact ⟨hr, (C116_pamsil (lineD_dissim _ _) wide_separated.1 (by norm_num) (lineMat_isMatrix wideGroups) wide_separated.2.1
    (by norm_num) (lineD_metric_rat _ _) (by norm_num) (by decide) ⟨by decide, by decide, by decide, by decide⟩ (by decide) hr).1⟩

/-- PAMSIL keeps the groups. -/
example : pamsilSwap ℚ (lineMat wideGroups) [0, 3, 6] 9 = .ok ⟨364801 / 374850, [0, 0, 0, 1, 1, 1, 2, 2, 2], 1, 0, [0, 3, 6]⟩ ∧
    FindsGroups 9 3 (groupList [0, 0, 0, 1, 1, 1, 2, 2, 2]) [0, 3, 6] [0, 0, 0, 1, 1, 1, 2, 2, 2] := by
  have hr : pamsilSwap ℚ (lineMat wideGroups) [0, 3, 6] 9 = .ok ⟨364801 / 374850, [0, 0, 0, 1, 1, 1, 2, 2, 2], 1, 0, [0, 3, 6]⟩ := by
    decide +kernel
  exact ⟨hr, (C116_pamsil_swap (lineD_dissim _ _) wide_separated.1 (by norm_num) (lineMat_isMatrix wideGroups) wide_separated.2.1
    (by norm_num) (by decide) ⟨⟨by decide, by decide, by decide, by decide⟩, by decide⟩ (by decide) rfl (by unfold Covers; decide) hr).1⟩

/-- **C116.** A bound `R` for all distances is needed: the groups are separated well enough for PAM, and BUILD finds them, but PAMSIL
leaves them for labels with a larger silhouette that mix two groups. -/
theorem C116_needs_bound :
    Separated (conv : ℕ → ℚ) 8 3 2 (lineD [0, 3, 30, 33, 1000, 1000, 1003, 1003]) (groupList [0, 0, 1, 1, 2, 2, 2, 2])
      ((3 : ℕ) : ℚ) ((27 : ℕ) : ℚ) ∧
    IsMetric (conv : ℕ → ℚ) 8 (lineD [0, 3, 30, 33, 1000, 1000, 1003, 1003]) ∧ (8 - 1) • ((3 : ℕ) : ℚ) < 2 • ((27 : ℕ) : ℚ) ∧
    pamsil ℚ (lineMat [0, 3, 30, 33, 1000, 1000, 1003, 1003]) 3 9 =
      .ok ⟨370075830367 / 374070412000, [2, 2, 2, 2, 1, 1, 0, 0], 2, 1, [6, 4, 0]⟩ ∧
    ¬ Covers 3 (groupList [0, 0, 1, 1, 2, 2, 2, 2]) [6, 4, 0] ∧
    silhouette ℚ (lineMat [0, 3, 30, 33, 1000, 1000, 1003, 1003]) [0, 0, 1, 1, 2, 2, 2, 2] false =
      .ok (1424852869 / 1501672809, []) ∧ (1424852869 / 1501672809 : ℚ) < 370075830367 / 374070412000 :=
  ⟨separated_rat (by decide), lineD_metric_rat _ _, by norm_num, by decide +kernel, by unfold Covers; decide, by decide +kernel,
    by norm_num⟩

/-- Three pairs of equal objects close to each other, and three pairs of equal objects far away. -/
def pairsD (x y : Nat) : ℕ :=
  if x < 6 ∧ y < 6 then (if x / 2 = y / 2 then 0 else 1) else if x / 2 = y / 2 then 0 else 20

/-- The matrix of `pairsD`. -/
def pairsMat : Mat ℕ := ofRows ((List.range 12).map fun x => (List.range 12).map fun y => pairsD x y)

/-- **C116.** A start with medoids in all groups is needed: from other medoids `pamsil_swap` can end at once, although the groups are
separated well enough and would be better. -/
theorem C116_start_needed :
    IsMatrix pairsMat 12 pairsD ∧ Dissim 12 pairsD ∧
    Separated (conv : ℕ → ℚ) 12 4 2 pairsD (groupList [0, 0, 0, 0, 0, 0, 1, 1, 2, 2, 3, 3]) ((1 : ℕ) : ℚ) ((20 : ℕ) : ℚ) ∧
    DistLe 12 pairsD (20 : ℚ) ∧ ((12 : ℕ) : ℚ) * ((1 : ℕ) : ℚ) * 20 < ((20 : ℕ) : ℚ) * ((20 : ℕ) : ℚ) ∧
    pamsilSwap ℚ pairsMat [6, 0, 2, 4] 9 = .ok ⟨3 / 5, [1, 1, 2, 2, 3, 3, 0, 0, 0, 0, 0, 0], 1, 0, [6, 0, 2, 4]⟩ ∧
    ¬ Covers 4 (groupList [0, 0, 0, 0, 0, 0, 1, 1, 2, 2, 3, 3]) [6, 0, 2, 4] ∧
    silhouette ℚ pairsMat [0, 0, 0, 0, 0, 0, 1, 1, 2, 2, 3, 3] false = .ok (49 / 50, []) :=
  ⟨⟨rfl, rfl, by
      have h : ∀ x < 12, ∀ y < 12, pairsMat.get x y = .ok (pairsD x y) := by decide +kernel
      exact fun x y hx hy => h x hx y hy⟩,
    ⟨by decide, fun _ _ _ _ => Nat.zero_le _⟩, separated_rat (by decide +kernel), fun x y hx hy => by
      have h : ∀ x < 12, ∀ y < 12, pairsD x y ≤ 20 := by decide
      exact Nat.cast_le (α := ℚ).mpr (h x hx y hy),
    by norm_num, by decide +kernel, by unfold Covers; decide, by decide +kernel⟩

end KMedoids
