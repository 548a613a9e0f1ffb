import Verif.Proofs.SilBound
import Verif.Proofs.SeparatedSil
import Verif.Proofs.AltRun
import Verif.Proofs.PamSilDup
import Verif.Props.C115
import Verif.Props.C24_C28

/-!
# Separated groups and the silhouette
-/

set_option linter.unusedSectionVars false
set_option linter.overlappingInstances false

namespace KMedoids

open RFrom (conv)

/-- Objects with the same label are in the same group. -/
def Pure (n : Nat) (g : Nat → Nat) (assi : List Nat) : Prop :=
  ∀ x y, x < n → y < n → assi[x]? = assi[y]? → g x = g y

/-- The labels are the groups. -/
def SameGroups (n : Nat) (g : Nat → Nat) (assi : List Nat) : Prop :=
  ∀ x y, x < n → y < n → (assi[x]? = assi[y]? ↔ g x = g y)

/-- At most as many labels as groups, all groups occur, and labels do not mix groups: then the labels are the groups. -/
theorem Pure.same {n k : Nat} {g : Nat → Nat} {assi : List Nat} (h : Pure n g assi) (hl : assi.length = n)
    (hg : ∀ x, x < n → g x < k) (hocc : ∀ c, c < k → ∃ x, x < n ∧ g x = c) (hcard : assi.toFinset.card ≤ k) : SameGroups n g assi := by
  classical
  let f : Nat → Nat := fun l => if hx : ∃ j, j < n ∧ assi[j]? = some l then g hx.choose else 0
  have hf : ∀ j l, j < n → assi[j]? = some l → f l = g j := fun j l hj e => by
    have hx : ∃ j, j < n ∧ assi[j]? = some l := ⟨j, hj, e⟩
    have e' : f l = g hx.choose := dif_pos hx
    rw [e']
    exact h _ _ hx.choose_spec.1 hj (hx.choose_spec.2.trans e.symm)
  have hget : ∀ j, j < n → ∃ l, assi[j]? = some l ∧ l ∈ assi.toFinset := fun j hj => by
    have hj' : j < assi.length := hl ▸ hj
    exact ⟨assi[j], List.getElem?_eq_getElem hj', List.mem_toFinset.mpr (List.getElem_mem hj')⟩
  have hsurj : Set.SurjOn f assi.toFinset (Finset.range k) := fun c hc => by
    obtain ⟨x, hx, e⟩ := hocc c (Finset.mem_range.mp hc)
    obtain ⟨l, h1, h2⟩ := hget x hx
    exact ⟨l, h2, (hf x l hx h1).trans e⟩
  have hmaps : Set.MapsTo f assi.toFinset (Finset.range k) := fun l hl' => by
    obtain ⟨j, hj, e⟩ := List.getElem_of_mem (List.mem_toFinset.mp hl')
    have hj' : j < n := hl ▸ hj
    rw [hf j l hj' (by rw [List.getElem?_eq_getElem hj, e])]
    exact Finset.mem_coe.mpr (Finset.mem_range.mpr (hg j hj'))
  have hinj := Finset.injOn_of_surjOn_of_card_le f hmaps hsurj (by rw [Finset.card_range]; exact hcard)
  intro x y hx hy
  refine ⟨h x y hx hy, fun e => ?_⟩
  obtain ⟨l, h1, h2⟩ := hget x hx
  obtain ⟨l', h1', h2'⟩ := hget y hy
  have := hinj h2 h2' (by rw [hf x l hx h1, hf y l' hy h1', e])
  rw [h1, h1', this]

section
variable {N L : Type} [LinearOrder N] [Zero N] [RDist N] [LawfulDist N]
variable [Field L] [LinearOrder L] [IsStrictOrderedRing L]
variable {cv : N → L} {n k s : Nat} {d : Nat → Nat → N} {g : Nat → Nat} {δ S R ε : L} {assi : List Nat}

theorem exists_member (hl : assi.length = n) {i c : Nat} (hc : c ∈ assi) (hne : assi[i]? ≠ some c) : members assi i c ≠ [] := by
  obtain ⟨j, hj, e⟩ := List.getElem_of_mem hc
  have e' : assi[j]? = some c := by rw [List.getElem?_eq_getElem hj, e]
  exact List.ne_nil_of_mem (mem_members.mpr ⟨e', fun h => hne (h ▸ e')⟩)

theorem member_lt (hl : assi.length = n) {i c j : Nat} (hj : j ∈ members assi i c) : j < n :=
  hl ▸ (List.getElem?_eq_some_iff.mp (mem_members.mp hj).1).1

theorem getD_of {i c : Nat} (h : assi[i]? = some c) : assi.getD i 0 = c := by
  rw [List.getD_eq_getElem?_getD, h]; rfl

theorem meanDist_nonneg_of (hmono : Monotone cv) (h0' : cv 0 = 0) {i : Nat} (hnn : ∀ j, j < assi.length → 0 ≤ d i j) (c : Nat) :
    0 ≤ meanDist cv d assi i c := by
  refine div_nonneg (List.sum_nonneg fun x hx => ?_) (Nat.cast_nonneg _)
  obtain ⟨j, hj, rfl⟩ := List.mem_map.mp hx
  exact cv_nonneg hmono h0' (hnn j (List.getElem?_eq_some_iff.mp (mem_members.mp hj).1).1)

/-- If two objects of different groups share a label, the silhouette is not close to 1. -/
theorem Separated.mixed_ge (hmono : Monotone cv) (h0' : cv 0 = 0) (H : Separated cv n k s d g δ S) (hd : Dissim n d) (hS : 0 < S) (hR : ∀ x y, x < n → y < n → cv (d x y) ≤ R)
    (hl : assi.length = n) (hmix : ¬ Pure n g assi) : S ≤ n * (1 - mean (silList cv d assi)) * R := by
  unfold Pure at hmix
  push Not at hmix
  obtain ⟨x, y, hx, hy, exy, hg⟩ := hmix
  have hn : 0 < n := by omega
  have hSR : S ≤ R := (H.between x y hx hy hg).trans (hR x y hx hy)
  have hR0 : 0 < R := lt_of_lt_of_le hS hSR
  have hx' : x < assi.length := hl ▸ hx
  obtain ⟨c, hc⟩ : ∃ c, assi[x]? = some c := ⟨_, List.getElem?_eq_getElem hx'⟩
  have hcy : assi[y]? = some c := exy ▸ hc
  have hnn : ∀ i, i < n → ∀ j, j < assi.length → 0 ≤ d i j := fun i hi j hj => hd.nonneg i j hi (hl ▸ hj)
  have hcard : 2 ≤ (cluster n assi c).card := by
    have h2 : ({x, y} : Finset Nat) ⊆ cluster n assi c := fun z hz => by
      rcases Finset.mem_insert.mp hz with rfl | hz
      · exact Finset.mem_filter.mpr ⟨Finset.mem_range.mpr hx, hc⟩
      · rw [Finset.mem_singleton] at hz
        subst hz
        exact Finset.mem_filter.mpr ⟨Finset.mem_range.mpr hy, hcy⟩
    have := Finset.card_le_card h2
    rwa [Finset.card_pair (fun e => hg (by rw [e]))] at this
  set q : L := (((cluster n assi c).card - 1 : Nat) : L) with hq
  have hq1 : (1 : L) ≤ q := by rw [hq]; exact_mod_cast (show 1 ≤ (cluster n assi c).card - 1 by omega)
  have hq0 : 0 < q := lt_of_lt_of_le one_pos hq1
  have hSq : S / q ≤ R := ((div_le_self hS.le hq1)).trans hSR
  have hterm : ∀ i ∈ cluster n assi c, S / q / R ≤ 1 - silWith cv d assi i (assi.getD i 0) := fun i hi => by
    obtain ⟨hi1, hi2⟩ := Finset.mem_filter.mp hi
    have hi1 := Finset.mem_range.mp hi1
    rw [getD_of hi2]
    have hlen : ((members assi i c).length : L) = q := by
      rw [hq]
      have := members_card hl hi
      exact_mod_cast (show (members assi i c).length = (cluster n assi c).card - 1 by omega)
    refine one_sub_silWith_ge hR0 (div_nonneg hS.le hq0.le) hSq (fun _ => ?_) (fun b hb => ?_)
    · have hz : ∃ z, z < n ∧ assi[z]? = some c ∧ g i ≠ g z := by
        by_cases e : g i = g x
        · exact ⟨y, hy, hcy, fun e' => hg (e.symm.trans e')⟩
        · exact ⟨x, hx, hc, e⟩
      obtain ⟨z, hz, hzc, hgz⟩ := hz
      rw [← hlen]
      exact meanDist_ge_one (mem_members.mpr ⟨hzc, fun e => hgz (by rw [e])⟩) (H.between i z hi1 hz hgz)
        (fun j hj => cv_nonneg hmono h0' (hd.nonneg i j hi1 (member_lt hl hj)))
    · obtain ⟨c', hc', rfl⟩ := List.mem_map.mp (List.min?_mem hb)
      rw [List.mem_filter] at hc'
      exact meanDist_le (exists_member hl hc'.1 (by
        rw [hi2]; intro e; injection e with e; exact absurd e.symm (by simpa using hc'.2)))
        (fun j hj => hR i j hi1 (member_lt hl hj))
  have hall : ∀ i ∈ Finset.range n, 0 ≤ 1 - silWith cv d assi i (assi.getD i 0) := fun i hi =>
    silWith_le_one (meanDist_nonneg_of hmono h0' (hnn i (Finset.mem_range.mp hi)) _)
  rw [sil_deficit hn hl]
  have h1 : ((cluster n assi c).card : L) * (S / q / R) ≤
      ∑ i ∈ Finset.range n, (1 - silWith cv d assi i (assi.getD i 0)) := by
    rw [← nsmul_eq_mul]
    exact (Finset.card_nsmul_le_sum _ _ _ hterm).trans
      (Finset.sum_le_sum_of_subset_of_nonneg (Finset.filter_subset _ _) fun i hi _ => hall i hi)
  have h2 : q ≤ ((cluster n assi c).card : L) := by rw [hq]; exact_mod_cast Nat.sub_le _ _
  have h3 : q * (S / q / R) * R = S := by field_simp
  have h4 : 0 ≤ S / q / R := div_nonneg (div_nonneg hS.le hq0.le) hR0.le
  calc S = q * (S / q / R) * R := h3.symm
    _ ≤ _ := mul_le_mul_of_nonneg_right ((mul_le_mul_of_nonneg_right h2 h4).trans h1) hR0.le

/-- If a group is split and no groups are mixed, the silhouette is not close to 1. -/
theorem Separated.split_ge (hmono : Monotone cv) (h0' : cv 0 = 0) (H : Separated cv n k s d g δ S) (hd : Dissim n d) (hε : 0 < ε) (hge : ∀ x y, x < n → y < n → x ≠ y → ε ≤ cv (d x y))
    (hl : assi.length = n) (hpure : Pure n g assi) (hne : ¬ SameGroups n g assi) :
    s * ε ≤ n * (1 - mean (silList cv d assi)) * δ := by
  unfold SameGroups at hne
  push Not at hne
  obtain ⟨x, y, hx, hy, hxy⟩ := hne
  have hxy : g x = g y ∧ assi[x]? ≠ assi[y]? := by
    rcases hxy with h | h
    · exact absurd (hpure x y hx hy h.1) h.2
    · exact ⟨h.2, h.1⟩
  obtain ⟨hg, hne⟩ := hxy
  have hn : 0 < n := by omega
  have hεδ : ε ≤ δ := (hge x y hx hy fun e => hne (by rw [e])).trans (H.within x y hx hy hg)
  have hδ0 := lt_of_lt_of_le hε hεδ
  have hterm : ∀ i ∈ groupOf n g (g x), ε / δ ≤ 1 - silWith cv d assi i (assi.getD i 0) := fun i hi => by
    obtain ⟨hi1, hi2⟩ := mem_groupOf.mp hi
    have hi' : i < assi.length := hl ▸ hi1
    obtain ⟨a, ha⟩ : ∃ a, assi[i]? = some a := ⟨_, List.getElem?_eq_getElem hi'⟩
    rw [getD_of ha]
    obtain ⟨z, hz, hzg, hza⟩ : ∃ z, z < n ∧ g z = g x ∧ assi[z]? ≠ some a := by
      by_cases e : assi[x]? = some a
      · exact ⟨y, hy, hg.symm, fun e' => hne (e.trans e'.symm)⟩
      · exact ⟨x, hx, rfl, e⟩
    have hz' : z < assi.length := hl ▸ hz
    obtain ⟨c, hc⟩ : ∃ c, assi[z]? = some c := ⟨_, List.getElem?_eq_getElem hz'⟩
    have hca : c ≠ a := fun e => hza (e ▸ hc)
    refine one_sub_silWith_ge hδ0 hε.le hεδ (fun hm => meanDist_ge hm fun j hj => ?_) (fun b hb => ?_)
    · exact hge i j hi1 (member_lt hl hj) fun e => (mem_members.mp hj).2 e.symm
    · have hmem : meanDist cv d assi i c ∈ (assi.filter (· ≠ a)).map (meanDist cv d assi i) :=
        List.mem_map.mpr ⟨c, List.mem_filter.mpr ⟨List.mem_of_getElem? hc, by simpa using hca⟩, rfl⟩
      refine ((List.le_min?_iff hb).mp le_rfl _ hmem).trans (meanDist_le (exists_member hl (List.mem_of_getElem? hc) ?_) fun j hj => ?_)
      · rw [ha]; intro e; injection e with e; exact hca e.symm
      · have hj' := member_lt hl hj
        refine H.within i j hi1 hj' ?_
        rw [hi2, ← hzg]
        exact hpure z j hz hj' (hc.trans (mem_members.mp hj).1.symm)
  have hall : ∀ i ∈ Finset.range n, 0 ≤ 1 - silWith cv d assi i (assi.getD i 0) := fun i hi =>
    silWith_le_one (meanDist_nonneg_of hmono h0' (fun j hj => hd.nonneg i j (Finset.mem_range.mp hi) (hl ▸ hj)) _)
  rw [sil_deficit hn hl]
  have h1 : ((groupOf n g (g x)).card : L) * (ε / δ) ≤
      ∑ i ∈ Finset.range n, (1 - silWith cv d assi i (assi.getD i 0)) := by
    rw [← nsmul_eq_mul]
    exact (Finset.card_nsmul_le_sum _ _ _ hterm).trans
      (Finset.sum_le_sum_of_subset_of_nonneg (fun o ho => Finset.mem_range.mpr (mem_groupOf.mp ho).1) fun i hi _ => hall i hi)
  have h2 : (s : L) ≤ ((groupOf n g (g x)).card : L) := by exact_mod_cast H.size _ (H.group x hx)
  have h3 : (s : L) * (ε / δ) * δ = s * ε := by field_simp
  calc (s : L) * ε = s * (ε / δ) * δ := h3.symm
    _ ≤ _ := mul_le_mul_of_nonneg_right ((mul_le_mul_of_nonneg_right h2 (div_nonneg hε.le hδ0.le)).trans h1) hδ0.le

/-- The groups have a silhouette close to 1. -/
theorem Separated.same_le (hmono : Monotone cv) (h0' : cv 0 = 0) (H : Separated cv n k s d g δ S) (hd : Dissim n d) (hn : 0 < n) (hS : 0 < S) (hδS : δ ≤ S)
    (hs : 2 ≤ s) (hk : 2 ≤ k) (hl : assi.length = n) (hsame : SameGroups n g assi) :
    n * (1 - mean (silList cv d assi)) * S ≤ n * δ := by
  have hterm : ∀ i ∈ Finset.range n, 1 - silWith cv d assi i (assi.getD i 0) ≤ δ / S := fun i hi => by
    have hi1 := Finset.mem_range.mp hi
    have hi' : i < assi.length := hl ▸ hi1
    obtain ⟨a, ha⟩ : ∃ a, assi[i]? = some a := ⟨_, List.getElem?_eq_getElem hi'⟩
    rw [getD_of ha]
    obtain ⟨w, hw, hwi⟩ := Finset.exists_mem_ne (lt_of_lt_of_le hs (H.size _ (H.group i hi1))) i
    obtain ⟨hw1, hw2⟩ := mem_groupOf.mp hw
    have hm : members assi i a ≠ [] :=
      List.ne_nil_of_mem (mem_members.mpr ⟨((hsame w i hw1 hi1).mpr hw2).trans ha, hwi⟩)
    obtain ⟨c, hc, hci⟩ : ∃ c, c < k ∧ c ≠ g i := by
      by_cases e : g i = 0
      · exact ⟨1, by omega, by omega⟩
      · exact ⟨0, by omega, fun h => e h.symm⟩
    obtain ⟨z, hz⟩ := Finset.card_pos.mp (lt_of_lt_of_le (by omega : 0 < s) (H.size c hc))
    obtain ⟨hz1, hz2⟩ := mem_groupOf.mp hz
    have hz' : z < assi.length := hl ▸ hz1
    have hza : assi[z] ≠ a := fun e => hci (by
      rw [← hz2]
      exact (hsame z i hz1 hi1).mp (by rw [List.getElem?_eq_getElem hz', e, ha]))
    refine one_sub_silWith_le hS hδS hm (List.getElem_mem hz') hza
      (meanDist_nonneg_of hmono h0' (fun j hj => hd.nonneg i j hi1 (hl ▸ hj)) _) (meanDist_le hm fun j hj => ?_) (fun c' hc' hne => ?_)
    · have hj' := member_lt hl hj
      exact H.within i j hi1 hj' ((hsame i j hi1 hj').mp (ha.trans (mem_members.mp hj).1.symm))
    · refine meanDist_ge (exists_member hl hc' (by rw [ha]; intro e; injection e with e; exact hne e.symm)) fun j hj => ?_
      have hj' := member_lt hl hj
      refine H.between i j hi1 hj' fun e => hne ?_
      have := (hsame i j hi1 hj').mpr e
      rw [ha, (mem_members.mp hj).1] at this
      injection this with this
      exact this.symm
  rw [sil_deficit hn hl]
  have h1 := Finset.sum_le_card_nsmul _ _ _ hterm
  rw [Finset.card_range, nsmul_eq_mul] at h1
  have h2 : (n : L) * (δ / S) * S = n * δ := by field_simp
  rw [← h2]
  exact mul_le_mul_of_nonneg_right h1 hS.le

end

end KMedoids
