import Verif.Props.C113
import Verif.Proofs.SeparatedSil
import Verif.Props.C106
import Verif.Props.C39_C43

/-!
# C115: well-separated groups and the medoid silhouette

The objects consist of `k` groups of at least `s` objects; distances within a group are at most `δ`, between groups at least `S`, and
all distances are at most `R`, with `n δ R < s S²`. Then one medoid in each group is better, by the medoid silhouette, than every
other choice of two or more medoids up to `k`, and with `n δ² < ε S`, where distances of different objects are at least `ε`, also
than every choice of up to `k + s - 2` medoids. So a medoid silhouette above a threshold shows that the groups were found.
FasterMSC, FastMSC and PAMMEDSIL keep groups that they have, PAMMEDSIL finds them with its own BUILD, and DynMSC does not go below
their number. From other medoids the searches may end without the groups.
-/

set_option linter.unusedSectionVars false
set_option linter.overlappingInstances false

namespace KMedoids

open RFrom (conv)

section
variable {N L : Type} [LinearOrder N] [Zero N] [RDist N] [LawfulDist N]
variable [Field L] [LinearOrder L] [IsStrictOrderedRing L] [RLoss L] [LawfulField L]
variable [RFrom N L] [LawfulFrom N L]
variable {n k s : Nat} {d : Nat → Nat → N} {g : Nat → Nat} {δ S R ε : L}

/-- All distances are at most `R`. -/
def DistLe (n : Nat) (d : Nat → Nat → N) (R : L) : Prop := ∀ x y, x < n → y < n → (conv (d x y) : L) ≤ R

/-- Different objects have distance at least `ε`. -/
def DistGe (n : Nat) (d : Nat → Nat → N) (ε : L) : Prop := ∀ x y, x < n → y < n → x ≠ y → ε ≤ (conv (d x y) : L)

theorem msT_eq (hn : 0 < n) (med : List Nat) : msT L n d med = n * (1 - medSil (conv : N → L) n d med) := by
  have h0 : (n : L) ≠ 0 := by exact_mod_cast hn.ne'
  rw [medSil_eq_msT hn, sub_sub_cancel, mul_div_cancel₀ _ h0]

/-- If every group has a medoid, then labels by nearest medoids are the groups. -/
theorem Separated.finds_nearest {N L : Type} [LinearOrder N] [Zero N] [Field L] [LinearOrder L] [IsStrictOrderedRing L] {n k s : Nat}
    {d : Nat → Nat → N} {g : Nat → Nat} {δ S : L} {cv : N → L} (H : Separated cv n k s d g δ S) (hmono : Monotone cv)
    (hlt : ∀ x y, x < n → y < n → g x ≠ g y → δ < S) {med assi : List Nat} (hr : ∀ m ∈ med, m < n) (hl : med.length ≤ k)
    (hcov : Covers k g med) (hlen : assi.length = n) (ha : ∀ o m : Nat, assi[o]? = some m → IsNearest d med o m) :
    FindsGroups n k g med assi := by
  have hnd : med.Nodup := (hcov.inj hl).1.of_map
  have key : ∀ x, x < n → ∃ m c, assi[x]? = some m ∧ med[m]? = some c ∧ g c = g x := fun x hx => by
    have hx' : x < assi.length := by rw [hlen]; exact hx
    obtain ⟨c, hc, hle⟩ := ha x assi[x] (List.getElem?_eq_getElem hx')
    refine ⟨_, c, List.getElem?_eq_getElem hx', hc, ?_⟩
    by_contra hne
    obtain ⟨m', hm', e⟩ := hcov (g x) (H.group x hx)
    have hc' := List.mem_of_getElem? hc
    have h1 := (H.between x c hx (hr c hc') (Ne.symm hne)).trans
      ((hmono (hle m' hm')).trans (H.within x m' hx (hr m' hm') e.symm))
    exact absurd (hlt x c hx (hr c hc') (Ne.symm hne)) (not_lt.mpr h1)
  refine ⟨fun c hc => ?_, (hcov.inj hl).2, hlen, fun x y hx hy => ?_⟩
  · obtain ⟨m, hm, e⟩ := hcov c hc
    exact ⟨m, ⟨hm, e⟩, fun m' hm' => hcov.unique hl hm'.1 hm (hm'.2.trans e.symm)⟩
  · obtain ⟨a, c, e1, e2, e3⟩ := key x hx
    obtain ⟨a', c', e1', e2', e3'⟩ := key y hy
    constructor
    · intro e
      rw [e1, e1'] at e
      cases e
      rw [e2] at e2'
      cases e2'
      exact e3.symm.trans e3'
    · intro e
      have hcc := hcov.unique hl (List.mem_of_getElem? e2) (List.mem_of_getElem? e2') (e3.trans (e.trans e3'.symm))
      subst hcc
      obtain ⟨ha1, ha2⟩ := List.getElem?_eq_some_iff.mp e2
      obtain ⟨hb1, hb2⟩ := List.getElem?_eq_some_iff.mp e2'
      rw [e1, e1', (hnd.getElem_inj_iff (hi := ha1) (hj := hb1)).mp (ha2.trans hb2.symm)]

variable (hd : Dissim n d) (H : Separated (conv : N → L) n k s d g δ S) (hS : 0 < S)
include hd H

theorem Separated.lt_of_sil (hS : 0 < S) (hR : DistLe n d R) (hsep : n * δ * R < s * S * S) {x y : Nat} (hx : x < n) (hy : y < n)
    (hxy : g x ≠ g y) : δ < S := by
  have h1 : S ≤ R := (H.between x y hx hy hxy).trans (hR x y hx hy)
  have hs : s ≤ n := (H.size _ (H.group x hx)).trans
    ((Finset.card_le_card (Finset.filter_subset _ _)).trans (Finset.card_range n).le)
  have hs' : (s : L) ≤ n := by exact_mod_cast hs
  by_contra h
  have h := not_lt.mp h
  have hn : (0 : L) ≤ n := Nat.cast_nonneg _
  have h2 : (s : L) * S * S ≤ n * δ * R :=
    mul_le_mul (mul_le_mul hs' h hS.le hn) h1 hS.le (mul_nonneg hn (hS.le.trans h))
  exact absurd hsep (not_lt.mpr h2)

include hS

/-- **C115, the groups have a high medoid silhouette.** -/
theorem C115_high {med : List Nat} (hk : 2 ≤ med.length) (hr : ∀ m ∈ med, m < n) (hl : med.length ≤ k) (hcov : Covers k g med) :
    1 - δ / S ≤ medSil (conv : N → L) n d med := by
  have hn : 0 < n := Nat.lt_of_le_of_lt (Nat.zero_le _) (hr _ (List.getElem_mem (show 0 < med.length by omega)))
  have hn' : (0 : L) < n := by exact_mod_cast hn
  have h := H.msT_le hd hS hk hr hl hcov
  rw [msT_eq hn, mul_assoc] at h
  have h := le_of_mul_le_mul_left h hn'
  rw [← le_div_iff₀ hS] at h
  linarith

/-- **C115, medoids that miss a group have a low one.** -/
theorem C115_low (hR : DistLe n d R) {med : List Nat} (hk : 2 ≤ med.length) (hr : ∀ m ∈ med, m < n) (hcov : ¬ Covers k g med) :
    s * S ≤ n * (1 - medSil (conv : N → L) n d med) * R := by
  have hn : 0 < n := Nat.lt_of_le_of_lt (Nat.zero_le _) (hr _ (List.getElem_mem (show 0 < med.length by omega)))
  rw [← msT_eq hn]
  exact H.msT_ge hd hS hR hk hr hcov

/-- The comparison of the two. -/
theorem Separated.sil_lt (hR : DistLe n d R) (hsep : n * δ * R < s * S * S) {x y : L} (hx : n * (1 - x) * S ≤ n * δ)
    (hy : s * S ≤ n * (1 - y) * R) (hR0 : 0 < R) : y < x := by
  have h1 := mul_le_mul_of_nonneg_right hx hR0.le
  have h2 := mul_le_mul_of_nonneg_right hy hS.le
  have h3 : n * (1 - x) * (S * R) < n * (1 - y) * (S * R) := by nlinarith
  have h4 := lt_of_mul_lt_mul_right h3 (mul_pos hS hR0).le
  have h5 := lt_of_mul_lt_mul_left h4 (Nat.cast_nonneg n)
  linarith

/-- **C115, the best medoids.** Medoids with one in each group are better than all other choices of at most `k` medoids, and than
all other choices of at most `k + s - 2` medoids if no two objects are too close. -/
theorem C115_best (hR : DistLe n d R) (hsep : n * δ * R < s * S * S) {med : List Nat} (hk : 2 ≤ med.length) (hr : ∀ m ∈ med, m < n)
    (hl : med.length ≤ k) (hcov : Covers k g med) {other : List Nat} (hk' : 2 ≤ other.length) (hr' : ∀ m ∈ other, m < n)
    (hnd : other.Nodup) (hne : ¬ (Covers k g other ∧ other.length = k))
    (hlen : other.length ≤ k ∨ (other.length + 2 ≤ k + s ∧ 0 < ε ∧ DistGe n d ε ∧ n * δ * δ < ε * S)) :
    medSil (conv : N → L) n d other < medSil (conv : N → L) n d med := by
  have hn : 0 < n := Nat.lt_of_le_of_lt (Nat.zero_le _) (hr _ (List.getElem_mem (show 0 < med.length by omega)))
  have hT := H.msT_le hd hS hk hr hl hcov
  rw [msT_eq hn] at hT
  have hR0 : 0 < R := by
    have hinj := hcov.inj hl
    have h0 : 0 < med.length := by omega
    have h1 : 1 < med.length := by omega
    have hg : g med[0] ≠ g med[1] := fun e => by
      have h := hinj.1
      rw [List.nodup_iff_injective_getElem] at h
      have := @h ⟨0, by simpa using h0⟩ ⟨1, by simpa using h1⟩ (by simpa using e)
      exact absurd (congrArg (fun x => x.1) this) (by simp)
    exact lt_of_lt_of_le hS ((H.between _ _ (hr _ (List.getElem_mem h0)) (hr _ (List.getElem_mem h1)) hg).trans
      (hR _ _ (hr _ (List.getElem_mem h0)) (hr _ (List.getElem_mem h1))))
  by_cases hc : Covers k g other
  · have hlt : k < other.length := by
      by_contra h
      exact hne ⟨hc, (hc.inj (not_lt.mp h)).2⟩
    rcases hlen with h | ⟨h1, hε, hpos, hsep2⟩
    · omega
    · obtain ⟨o, ho, hom, htwo⟩ := H.exists_double hr' hnd hc hlt h1
      have h2 := H.msT_double hd hε hpos hk' hr' ho hom htwo
      rw [msT_eq hn] at h2
      have hδ0 := H.nonneg LawfulFrom.map_zero hd hn
      have hδ : 0 < δ := lt_of_le_of_ne hδ0 fun e => by
        rw [← e, mul_zero] at h2
        exact absurd h2 (not_le.mpr hε)
      have h3 := mul_le_mul_of_nonneg_right hT hδ.le
      have h4 := mul_le_mul_of_nonneg_right h2 hS.le
      have h5 : n * (1 - medSil (conv : N → L) n d med) * (S * δ) < n * (1 - medSil (conv : N → L) n d other) * (S * δ) := by nlinarith
      have h6 := lt_of_mul_lt_mul_right h5 (mul_pos hS hδ).le
      have h7 := lt_of_mul_lt_mul_left h6 (Nat.cast_nonneg n)
      linarith
  · exact Separated.sil_lt hd H hS hR hsep hT (C115_low hd H hS hR hk' hr' hc) hR0

/-- **C115, certificate.** Distinct medoids, at most `k + s - 2`, with a medoid silhouette above a threshold: there is one in each
group. -/
theorem C115_certificate (hR : DistLe n d R) (hε : 0 < ε) (hpos : DistGe n d ε) {med : List Nat} (hk : 2 ≤ med.length)
    (hr : ∀ m ∈ med, m < n) (hnd : med.Nodup) (hle : med.length + 2 ≤ k + s)
    (h1 : n * (1 - medSil (conv : N → L) n d med) * R < s * S) (h2 : n * (1 - medSil (conv : N → L) n d med) * δ < ε) :
    Covers k g med ∧ med.length = k := by
  have hn : 0 < n := Nat.lt_of_le_of_lt (Nat.zero_le _) (hr _ (List.getElem_mem (show 0 < med.length by omega)))
  rw [← msT_eq hn] at h1 h2
  exact H.covers_of_msT hd hS hR hε hpos hk hr hnd hle h1 h2

variable [LawfulAdd N L]

/-- **C115, FasterMSC, FastMSC, PAMMEDSIL.** Starting with a medoid in each group, they find the groups, for every limit. -/
theorem C115_msc (hR : DistLe n d R) (hsep : n * δ * R < s * S * S) {mat : Mat N} (hm : IsMatrix mat n d) {med : List Nat}
    (hv : ValidMeds n med) (hk : 2 ≤ med.length) (hl : med.length = k) (hcov : Covers k g med) {maxiter : Nat} {r : SwapResult L}
    (hr : IsMscRun mat med maxiter r) : FindsGroups n k g r.med r.assi ∧ 1 - δ / S ≤ r.loss := by
  have hnd : med.Nodup := (hcov.inj hl.le).1.of_map
  obtain ⟨h1, h2, h3, h4, h5⟩ := C31_msc hm hd hv hnd hk hr
  have hge := (C32_msc hm hd hv hnd hk hr).1
  have hc : Covers k g r.med := by
    by_contra hc
    exact absurd hge (not_le.mpr (C115_best (ε := 1) hd H hS hR hsep hk hv.range hl.le hcov (hk.trans h3.ge) h5 h4 (fun h => hc h.1)
      (.inl (h3.le.trans hl.le))))
  refine ⟨H.finds_nearest LawfulFrom.strictMono.monotone (fun x y hx hy hxy => H.lt_of_sil hd hS hR hsep hx hy hxy) h5 (h3.le.trans hl.le) hc h1 h2, ?_⟩
  rw [(C30_msc hm hd hv hnd hk hr).1]
  exact C115_high hd H hS (hk.trans h3.ge) h5 (h3.le.trans hl.le) hc

omit hd hS [LawfulAdd N L] in
/-- Objects of one group with large terms. -/
theorem Separated.sum_ge (hS : 0 ≤ S) (hR0 : 0 ≤ R) {f : Nat → L} (h0 : ∀ o, o < n → 0 ≤ f o) {c : Nat} (hc : c < k)
    (hf : ∀ o, o < n → g o = c → S ≤ f o * R) : s * S ≤ ((List.range n).map f).sum * R := by
  have e : ((List.range n).map f).sum = ∑ o ∈ Finset.range n, f o := by
    clear h0 hf H
    induction n with
    | zero => rfl
    | succ n ih => rw [List.range_succ, List.map_append, List.sum_append, ih, Finset.sum_range_succ]; simp
  rw [e, Finset.sum_mul, ← nsmul_eq_mul]
  refine (nsmul_le_nsmul_left hS (H.size c hc)).trans ((Finset.card_nsmul_le_sum (groupOf n g c) (fun o => f o * R) S fun o ho => ?_).trans
    (Finset.sum_le_sum_of_subset_of_nonneg (Finset.filter_subset _ _) fun o ho _ => mul_nonneg (h0 o (Finset.mem_range.mp ho)) hR0))
  obtain ⟨ho, e⟩ := mem_groupOf.mp ho
  exact hf o ho e

/-- **C115, DynMSC.** Starting with a medoid in each group, it returns as many medoids as there are groups and finds the groups,
whatever the smallest number of medoids to try is. -/
theorem C115_dynmsc (hR : DistLe n d R) (hsep : n * δ * R < s * S * S) {mat : Mat N} (hm : IsMatrix mat n d) {med : List Nat}
    (hv : ValidMeds n med) (hk : 2 ≤ med.length) (hl : med.length = k) (hcov : Covers k g med) {mink maxiter : Nat} {r : DynResult L}
    (hr : dynmsc L mat med mink maxiter = .ok r) :
    FindsGroups n k g r.med r.assi ∧ r.loss = medSil (conv : N → L) n d r.med ∧ 1 - δ / S ≤ r.loss := by
  have hnd : med.Nodup := (hcov.inj hl.le).1.of_map
  have hn : 0 < n := Nat.lt_of_lt_of_le hv.sizes.pos hv.sizes.le
  have hn' : (0 : L) < n := by exact_mod_cast hn
  have hf := fastermsc_eq (L := L) hm hv maxiter
  have hfl := (C115_msc hd H hS hR hsep hm hv hk hl hcov (.inl hf)).2
  have hfr := hfl.trans (C48_dynmsc_ge hm hd hv hnd hk hr hf).2
  obtain ⟨-, -, -, c1, c2, c3, c4⟩ := C36_dynmsc hm hd hv hnd hk hr
  have hrng : ∀ m ∈ r.med, m < n := c4.medRange
  have hk2 : 2 ≤ r.med.length := by omega
  have hhigh : n * (1 - r.loss) * S ≤ n * δ := by
    have h1 : 1 - r.loss ≤ δ / S := by linarith
    rw [le_div_iff₀ hS] at h1
    rw [mul_assoc]
    exact mul_le_mul_of_nonneg_left h1 hn'.le
  have hR0 : 0 < R := by
    have hinj := hcov.inj hl.le
    have h0 : 0 < med.length := by omega
    have h1 : 1 < med.length := by omega
    have hg : g med[0] ≠ g med[1] := fun e => by
      have h := hinj.1
      rw [List.nodup_iff_injective_getElem] at h
      have := @h ⟨0, by simpa using h0⟩ ⟨1, by simpa using h1⟩ (by simpa using e)
      exact absurd (congrArg (fun x => x.1) this) (by simp)
    exact lt_of_lt_of_le hS ((H.between _ _ (hv.range _ (List.getElem_mem h0)) (hv.range _ (List.getElem_mem h1)) hg).trans
      (hR _ _ (hv.range _ (List.getElem_mem h0)) (hv.range _ (List.getElem_mem h1))))
  have hexact : (med.length ≤ 4 ∨ r.med.length = med.length ∨ r.med.length = 2) → Covers k g r.med := fun hc => by
    by_contra hcv
    have h1 := (C37_dynmsc_partial hm hd hv hnd hk hr hc).1
    have h2 := C115_low hd H hS hR hk2 hrng hcv
    rw [← h1] at h2
    exact absurd (Separated.sil_lt hd H hS hR hsep hhigh h2 hR0) (lt_irrefl _)
  have hcount : r.med.length = k := by
    by_contra hne
    have hlt : r.med.length < k := by omega
    have hcv : ¬ Covers k g r.med := fun h => by have := (h.inj hlt.le).2; omega
    by_cases h3 : r.med.length = 2
    · exact hcv (hexact (.inr (.inr h3)))
    · obtain ⟨-, ⟨near, other, h1, h2⟩, -⟩ := C106_value (L := L) hm hd hv hnd hk hr (by omega)
      have hcv' := hcv
      unfold Covers at hcv'
      push Not at hcv'
      obtain ⟨c, hc, hmiss⟩ := hcv'
      have hmem : ∀ o, o < n → near o ∈ r.med ∧ other o ∈ r.med := fun o ho => by
        obtain ⟨m, m', -, e1, e2, -⟩ := h1 o ho
        exact ⟨List.mem_of_getElem? e1, List.mem_of_getElem? e2⟩
      have hT : n * (1 - r.loss) = ((List.range n).map fun o => 1 - (if d o (near o) = 0 ∨ d o (other o) = 0 then (1 : L)
          else 1 - conv (d o (near o)) / conv (d o (other o)))).sum := by
        have hms := mean_one_sub hn fun o => (if d o (near o) = 0 ∨ d o (other o) = 0 then (1 : L)
          else 1 - conv (d o (near o)) / conv (d o (other o)))
        rw [mean, List.length_map, List.length_range, ← h2] at hms
        rw [← hms, sub_sub_cancel, mul_div_cancel₀ _ hn'.ne']
      have h4 := H.sum_ge hS.le hR0.le (f := fun o => 1 - (if d o (near o) = 0 ∨ d o (other o) = 0 then (1 : L)
          else 1 - conv (d o (near o)) / conv (d o (other o)))) (fun o ho => ?_) hc fun o ho e => ?_
      · rw [← hT] at h4
        exact absurd (Separated.sil_lt hd H hS hR hsep hhigh h4 hR0) (lt_irrefl _)
      · obtain ⟨m1, m2⟩ := hmem o ho
        split
        · rw [sub_self]
        · rw [sub_sub_cancel]
          exact div_nonneg (conv_nonneg (hd.nonneg _ _ ho (hrng _ m1))) (conv_nonneg (hd.nonneg _ _ ho (hrng _ m2)))
      · obtain ⟨m1, m2⟩ := hmem o ho
        have b1 := H.between o (near o) ho (hrng _ m1) fun e' => hmiss _ m1 (e'.symm.trans e)
        have b2 := H.between o (other o) ho (hrng _ m2) fun e' => hmiss _ m2 (e'.symm.trans e)
        have n1 : d o (near o) ≠ 0 := fun e => by rw [e, LawfulFrom.map_zero] at b1; linarith
        have n2 : d o (other o) ≠ 0 := fun e => by rw [e, LawfulFrom.map_zero] at b2; linarith
        have p2 : (0 : L) < conv (d o (other o)) := lt_of_lt_of_le hS b2
        rw [if_neg (fun h => h.elim n1 n2), sub_sub_cancel, div_mul_eq_mul_div, le_div_iff₀ p2]
        exact mul_le_mul b1 (hR _ _ ho (hrng _ m2)) p2.le (hS.le.trans b1)
  have hc : med.length ≤ 4 ∨ r.med.length = med.length ∨ r.med.length = 2 := .inr (.inl (hcount.trans hl.symm))
  obtain ⟨e1, -, e3⟩ := C37_dynmsc_partial hm hd hv hnd hk hr hc
  exact ⟨H.finds_nearest LawfulFrom.strictMono.monotone (fun x y hx hy hxy => H.lt_of_sil hd hS hR hsep hx hy hxy) hrng hcount.le (hexact hc) c4.assiLen e3, e1, hfr⟩

omit hS in
/-- **C115, BUILD of PAMMEDSIL.** It finds the groups if they have at least two members. -/
theorem C115_pammedsil_build (hmet : IsMetric (conv : N → L) n d) (hsep : (n - 1) • δ < s • S) (hs2 : 2 ≤ s) {mat : Mat N}
    (hm : IsMatrix mat n d) (hs : Sizes n k) {meds : List Nat} {data : List (Reco N)} {loss : L}
    (hb : pammedsilBuildInitialize L mat k = .ok (meds, data, loss)) : Covers k g meds ∧ meds.length = k := by
  have hmono : Monotone (conv : N → L) := LawfulFrom.strictMono.monotone
  have h0 : (conv (0 : N) : L) = 0 := LawfulFrom.map_zero
  have hn : 0 < n := Nat.lt_of_lt_of_le hs.pos hs.le
  have hδ := H.nonneg h0 hd hn
  have hS := Separated.pos_of_sep hδ hsep
  obtain ⟨meds', data', loss', hb', p1, p2, p3, p4, p5, p6, p7⟩ := C43_pammedsil_build_partial (L := L) hm hd hs
  rw [hb'] at hb
  cases hb
  have hnodup := H.greedy_nodup_from hmono h0 hd hsep hmet p4 p2 (lo := 1) (by omega) (fun l c hl hc x hx hxn => (p6 l c hl hc).2 x hx hxn)
    meds.length le_rfl
  rw [List.take_length] at hnodup
  have hne : meds ≠ [] := List.ne_nil_of_length_pos p1
  have hlen : meds.length = k := by
    by_contra hlk
    have hlt : meds.length < k := by omega
    have hcv : ¬ Covers k g meds := fun h => by have := (h.inj hlt.le).2; omega
    unfold Covers at hcv
    push Not at hcv
    obtain ⟨c, hc, hmiss⟩ := hcv
    obtain ⟨x, hx1, hx, hxc⟩ := H.exists_from (lo := 1) (by omega) hc
    have h1 := H.gain hmono h0 hd (l' := meds ++ [x]) hne p4 hx hxc (by simp) fun o ho _ => by
      obtain ⟨⟨m, hm', e⟩, -⟩ := minDist_spec d o meds hne
      rw [e]
      exact (hmono ((minDist_spec d o (meds ++ [x]) (by simp)).2 m (List.mem_append_left _ hm'))).trans (le_add_of_nonneg_right hδ)
    have h2 := p7 hlt x hx1 hx
    have h3 := H.far hmono h0 hd hne p4 hc hS.le hmiss
    exact absurd hsep (not_lt.mpr (h3.trans (le_of_add_le_add_left (h1.trans (add_le_add_left h2 _)))))
  exact ⟨Covers.of_nodup (fun m hm' => H.group m (p4 m hm')) hnodup hlen.ge, hlen⟩

/-- **C115, PAMMEDSIL.** It finds the groups, for every limit. -/
theorem C115_pammedsil (hR : DistLe n d R) (hsep : n * δ * R < s * S * S) (hmet : IsMetric (conv : N → L) n d)
    (hsep' : (n - 1) • δ < s • S) (hs2 : 2 ≤ s) {mat : Mat N} (hm : IsMatrix mat n d) (hs : Sizes n k) (hk : 2 ≤ k) {maxiter : Nat}
    {r : SwapResult L} (hr : pammedsil L mat k maxiter = .ok r) : FindsGroups n k g r.med r.assi ∧ 1 - δ / S ≤ r.loss := by
  obtain ⟨meds, data, loss, hb, -⟩ := C43_pammedsil_build_partial (L := L) hm hd hs
  obtain ⟨hcov, hl⟩ := C115_pammedsil_build hd H hmet hsep' hs2 hm hs hb
  obtain ⟨e, hv, -⟩ := C51_pammedsil hm hd hs maxiter hb
  rw [e] at hr
  exact C115_msc hd H hS hR hsep hm hv (hl.ge.trans' hk) hl hcov (.inr (.inr hr))

end

/-! ## Concrete cases, and what is needed -/

/-- Checking `Separated` for naturals. -/
theorem separated_rat {n k s : Nat} {d : Nat → Nat → ℕ} {g : Nat → Nat} {δ S : ℕ}
    (h : (∀ x < n, g x < k) ∧ (∀ c < k, s ≤ (groupOf n g c).card) ∧
      ∀ x < n, ∀ y < n, (g x = g y → d x y ≤ δ) ∧ (g x ≠ g y → S ≤ d x y)) :
    Separated (conv : ℕ → ℚ) n k s d g (δ : ℚ) (S : ℚ) :=
  ⟨h.1, h.2.1, fun x y hx hy e => Nat.cast_le.mpr ((h.2.2 x hx y hy).1 e),
    fun x y hx hy e => Nat.cast_le.mpr ((h.2.2 x hx y hy).2 e)⟩

theorem lineD_metric_rat (ps : List ℕ) (n : Nat) : IsMetric (conv : ℕ → ℚ) n (lineD ps) :=
  ⟨(lineD_metric ps n).symm, fun x y z hx hy hz => by
      have h : ((lineD ps x z : ℕ) : ℤ) ≤ (lineD ps x y : ℕ) + (lineD ps y z : ℕ) := (lineD_metric ps n).triangle x y z hx hy hz
      show ((lineD ps x z : ℕ) : ℚ) ≤ (lineD ps x y : ℕ) + (lineD ps y z : ℕ)
      exact_mod_cast h⟩

/-- Nine objects on a line, three groups of three. -/
def wideGroups : List ℕ := [0, 1, 2, 50, 51, 52, 100, 101, 102]

theorem wide_separated :
    Separated (conv : ℕ → ℚ) 9 3 3 (lineD wideGroups) (groupList [0, 0, 0, 1, 1, 1, 2, 2, 2]) ((2 : ℕ) : ℚ) ((48 : ℕ) : ℚ) ∧
    DistLe 9 (lineD wideGroups) (102 : ℚ) ∧ DistGe 9 (lineD wideGroups) (1 : ℚ) := by
  refine ⟨separated_rat (by decide), fun x y hx hy => ?_, fun x y hx hy hxy => ?_⟩
  · have h : ∀ x < 9, ∀ y < 9, lineD wideGroups x y ≤ 102 := by decide
    exact Nat.cast_le (α := ℚ).mpr (h x hx y hy)
  · have h : ∀ x < 9, ∀ y < 9, x ≠ y → 1 ≤ lineD wideGroups x y := by decide
    have := Nat.cast_le (α := ℚ).mpr (h x hx y hy hxy)
    rwa [Nat.cast_one] at this

/-- The runs start with a medoid in every group, and exchange. -/
example : ∃ r : SwapResult ℚ, fastermsc ℚ (lineMat wideGroups) [0, 3, 6] 9 = .ok r ∧ r.nSwap = 3 ∧
    FindsGroups 9 3 (groupList [0, 0, 0, 1, 1, 1, 2, 2, 2]) r.med r.assi := by
  have hr : fastermsc ℚ (lineMat wideGroups) [0, 3, 6] 9 = .ok ⟨22189 / 22491, [0, 0, 0, 1, 1, 1, 2, 2, 2], 2, 3, [1, 4, 7]⟩ := by
    decide +kernel
  exact ⟨_, hr, rfl, (C115_msc (lineD_dissim _ _) wide_separated.1 (by norm_num) wide_separated.2.1 (by norm_num) (lineMat_isMatrix _)
    ⟨⟨by decide, by decide, by decide, by decide⟩, by decide⟩ (by decide) rfl (by unfold Covers; decide) (.inl hr)).1⟩

/-- DynMSC may try two medoids and one; it returns three. -/
example : ∃ r : DynResult ℚ, dynmsc ℚ (lineMat wideGroups) [0, 3, 6] 1 9 = .ok r ∧ r.losses.length = 3 ∧
    FindsGroups 9 3 (groupList [0, 0, 0, 1, 1, 1, 2, 2, 2]) r.med r.assi := by
  have hr : dynmsc ℚ (lineMat wideGroups) [0, 3, 6] 1 9 = .ok ⟨22189 / 22491, [0, 0, 0, 1, 1, 1, 2, 2, 2], 4, 6, [1, 4, 7],
      [0, 788745281 / 955404450, 22189 / 22491]⟩ := by
    decide +kernel
  exact ⟨_, hr, rfl, (C115_dynmsc (lineD_dissim _ _) wide_separated.1 (by norm_num) wide_separated.2.1 (by norm_num) (lineMat_isMatrix _)
    ⟨⟨by decide, by decide, by decide, by decide⟩, by decide⟩ (by decide) rfl (by unfold Covers; decide) hr).1⟩

/-- PAMMEDSIL. -/
example : ∃ r : SwapResult ℚ, pammedsil ℚ (lineMat wideGroups) 3 9 = .ok r ∧
    FindsGroups 9 3 (groupList [0, 0, 0, 1, 1, 1, 2, 2, 2]) r.med r.assi := by
  have hr : pammedsil ℚ (lineMat wideGroups) 3 9 = .ok ⟨22189 / 22491, [1, 1, 1, 0, 0, 0, 2, 2, 2], 1, 0, [4, 1, 7]⟩ := by
    decide +kernel
  exact ⟨_, hr, (C115_pammedsil (lineD_dissim _ _) wide_separated.1 (by norm_num) wide_separated.2.1 (by norm_num)
    (lineD_metric_rat _ _) (by norm_num) (by decide) (lineMat_isMatrix _) ⟨by decide, by decide, by decide, by decide⟩ (by decide) hr).1⟩

/-- The result of FasterMSC from three medoids in one group is certified by its value; four medoids are worse. -/
example : fastermsc ℚ (lineMat wideGroups) [0, 1, 2] 9 = .ok ⟨22189 / 22491, [1, 1, 1, 2, 2, 2, 0, 0, 0], 3, 6, [7, 1, 4]⟩ ∧
    Covers 3 (groupList [0, 0, 0, 1, 1, 1, 2, 2, 2]) [7, 1, 4] ∧
    medSil (conv : ℕ → ℚ) 9 (lineD wideGroups) [0, 3, 6, 8] < medSil (conv : ℕ → ℚ) 9 (lineD wideGroups) [7, 1, 4] := by
  have hr : fastermsc ℚ (lineMat wideGroups) [0, 1, 2] 9 = .ok ⟨22189 / 22491, [1, 1, 1, 2, 2, 2, 0, 0, 0], 3, 6, [7, 1, 4]⟩ := by
    decide +kernel
  have hv : ValidMeds 9 [0, 1, 2] := ⟨⟨by decide, by decide, by decide, by decide⟩, by decide⟩
  have h : (22189 / 22491 : ℚ) = medSil (conv : ℕ → ℚ) 9 (lineD wideGroups) [7, 1, 4] :=
    (C30_msc (L := ℚ) (lineMat_isMatrix wideGroups) (lineD_dissim _ _) hv (by decide) (by decide) (.inl hr)).1
  have hc := (C115_certificate (lineD_dissim _ _) wide_separated.1 (by norm_num) wide_separated.2.1 (ε := 1) (by norm_num)
    wide_separated.2.2 (med := [7, 1, 4]) (by decide) (by decide) (by decide) (by decide) (by rw [← h]; norm_num)
    (by rw [← h]; norm_num)).1
  exact ⟨hr, hc, C115_best (ε := 1) (lineD_dissim _ _) wide_separated.1 (by norm_num) wide_separated.2.1 (by norm_num) (by decide)
    (by decide) (by decide) hc (by decide) (by decide) (by decide) (by unfold Covers; decide)
    (.inr ⟨by decide, by norm_num, wide_separated.2.2, by norm_num⟩)⟩

/-- **C115.** A bound `R` for all distances is needed: two groups near each other and one far away, separated well enough for PAM.
PAMMEDSIL starts with one medoid in each group and leaves them. -/
theorem C115_needs_bound :
    Separated (conv : ℕ → ℚ) 6 3 2 (lineD [0, 1, 10, 11, 1000, 1001]) (groupList [0, 0, 1, 1, 2, 2]) ((1 : ℕ) : ℚ) ((9 : ℕ) : ℚ) ∧
    IsMetric (conv : ℕ → ℚ) 6 (lineD [0, 1, 10, 11, 1000, 1001]) ∧ (6 - 1) • ((1 : ℕ) : ℚ) < 2 • ((9 : ℕ) : ℚ) ∧
    (∃ data loss, pammedsilBuildInitialize ℚ (lineMat [0, 1, 10, 11, 1000, 1001]) 3 = .ok ([2, 4, 1], data, loss)) ∧
    Covers 3 (groupList [0, 0, 1, 1, 2, 2]) [2, 4, 1] ∧
    pammedsil ℚ (lineMat [0, 1, 10, 11, 1000, 1001]) 3 9 = .ok ⟨65647621 / 65867400, [0, 0, 0, 0, 1, 2], 2, 1, [2, 4, 5]⟩ ∧
    ¬ Covers 3 (groupList [0, 0, 1, 1, 2, 2]) [2, 4, 5] :=
  ⟨separated_rat (by decide), lineD_metric_rat _ _, by norm_num,
    ⟨[⟨⟨2, 1⟩, ⟨0, 10⟩, ⟨1, 1000⟩⟩, ⟨⟨2, 0⟩, ⟨0, 9⟩, ⟨1, 999⟩⟩, ⟨⟨0, 0⟩, ⟨2, 9⟩, ⟨1, 990⟩⟩, ⟨⟨0, 1⟩, ⟨2, 10⟩, ⟨1, 989⟩⟩,
      ⟨⟨1, 0⟩, ⟨0, 990⟩, ⟨2, 999⟩⟩, ⟨⟨1, 1⟩, ⟨0, 991⟩, ⟨2, 1000⟩⟩], 996 / 4955, by decide +kernel⟩, by unfold Covers; decide,
    by decide +kernel, by unfold Covers; decide⟩

/-- Three pairs of equal objects, and two objects far away. -/
def clumpD (x y : Nat) : ℕ :=
  if x < 6 ∧ y < 6 then (if x / 2 = y / 2 then 0 else 1) else if x = y then 0 else 20

/-- The matrix of `clumpD`. -/
def clumpMat : Mat ℕ := ofRows ((List.range 8).map fun x => (List.range 8).map fun y => clumpD x y)

/-- **C115.** A start with medoids in all groups is needed: from other medoids the searches can end at once, without the groups, although
the groups are separated and the distances are a metric. The groups would be better. -/
theorem C115_start_needed :
    IsMatrix clumpMat 8 clumpD ∧ Dissim 8 clumpD ∧
    Separated (conv : ℕ → ℚ) 8 3 1 clumpD (groupList [0, 0, 0, 0, 0, 0, 1, 2]) ((1 : ℕ) : ℚ) ((20 : ℕ) : ℚ) ∧
    DistLe 8 clumpD (20 : ℚ) ∧ ((8 : ℕ) : ℚ) * ((1 : ℕ) : ℚ) * 20 < ((1 : ℕ) : ℚ) * ((20 : ℕ) : ℚ) * ((20 : ℕ) : ℚ) ∧
    fastermsc ℚ clumpMat [0, 2, 4] 9 = .ok ⟨3 / 4, [0, 0, 1, 1, 2, 2, 0, 0], 1, 0, [0, 2, 4]⟩ ∧
    fastmsc ℚ clumpMat [0, 2, 4] 9 = .ok ⟨3 / 4, [0, 0, 1, 1, 2, 2, 0, 0], 1, 0, [0, 2, 4]⟩ ∧
    pammedsilSwap ℚ clumpMat [0, 2, 4] 9 = .ok ⟨3 / 4, [0, 0, 1, 1, 2, 2, 0, 0], 1, 0, [0, 2, 4]⟩ ∧
    ¬ Covers 3 (groupList [0, 0, 0, 0, 0, 0, 1, 2]) [0, 2, 4] ∧ medSil (conv : ℕ → ℚ) 8 clumpD [0, 6, 7] = 39 / 40 :=
  ⟨⟨rfl, rfl, by
      have h : ∀ x < 8, ∀ y < 8, clumpMat.get x y = .ok (clumpD x y) := by decide +kernel
      exact fun x y hx hy => h x hx y hy⟩,
    ⟨by decide, fun _ _ _ _ => Nat.zero_le _⟩, separated_rat (by decide +kernel), fun x y hx hy => by
      have h : ∀ x < 8, ∀ y < 8, clumpD x y ≤ 20 := by decide
      exact Nat.cast_le (α := ℚ).mpr (h x hx y hy),
    by norm_num, by decide +kernel, by decide +kernel, by decide +kernel, by unfold Covers; decide, by decide +kernel⟩

end KMedoids
