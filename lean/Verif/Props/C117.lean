import Verif.Props.C116
import Verif.Props.C81
import Verif.Props.C77
import Verif.Props.C114

/-!
# C117: well-separated groups and silhouettes under rounding

C115 and C116 in floating point arithmetic. With an error `E` of the average, the conditions become `n (δ / S + E) R < s S` for the
medoid silhouette and `n (δ / S + E) R < S` for the silhouette. Values computed by `medoid_silhouette`, `silhouette` and
`par_silhouette` certify the groups, and FasterMSC, FastMSC, `pammedsil_swap` and `pamsil_swap` keep groups that they have.
-/

set_option linter.unusedSectionVars false
set_option linter.overlappingInstances false
set_option exponentiation.threshold 2000

namespace KMedoids

open RFrom (conv)

section
variable {N L K : Type} [LinearOrder N] [Zero N] [RDist N] [LawfulDist N] [RLoss L] [RFrom N L]
  [Field K] [LinearOrder K] [IsStrictOrderedRing K]
variable {fin : L → Prop} {val : L → K} {u B eta v : K} {C : Nat}
variable {n k s : Nat} {d : Nat → Nat → N} {g : Nat → Nat} {δ S R ε : K}

/-! ## The medoid silhouette -/

theorem exactRatios_eq (hn : 0 < n) (med : List Nat) :
    ratioSum (fun x : N => val (conv x : L)) n d med = n * (1 - exactMedSil N val n d med) := by
  have h0 : (n : K) ≠ 0 := by exact_mod_cast hn.ne'
  rw [exactMedSil_eq hn, sub_sub_cancel, mul_div_cancel₀ _ h0]
  rfl

variable (Q : FloatLoss N fin val u B) (hd : Dissim n d) (H : Separated (fun x : N => val (conv x : L)) n k s d g δ S) (hS : 0 < S)
include Q hd H hS

/-- The groups have a high exact medoid silhouette. -/
theorem C117_high {med : List Nat} (hk : 2 ≤ med.length) (hr : ∀ m ∈ med, m < n) (hl : med.length ≤ k) (hcov : Covers k g med) :
    1 - δ / S ≤ exactMedSil N val n d med := by
  have hn : 0 < n := Nat.lt_of_le_of_lt (Nat.zero_le _) (hr _ (List.getElem_mem (show 0 < med.length by omega)))
  have hn' : (0 : K) < n := by exact_mod_cast hn
  have h := H.ratio_le Q.conv_mono (by rw [Q.conv_zero, Q.std.zero]) hd hS hk hr hl hcov
  rw [exactRatios_eq hn, mul_assoc] at h
  have h := le_of_mul_le_mul_left h hn'
  rw [← le_div_iff₀ hS] at h
  linarith

/-- Medoids with a high exact medoid silhouette are in all groups. -/
theorem C117_covers (hR : AtMost (N := N) val R n d) {med : List Nat} (hk : 2 ≤ med.length) (hr : ∀ m ∈ med, m < n) {q : K}
    (hq : q ≤ exactMedSil N val n d med) (h1 : n * (1 - q) * R < s * S) : Covers k g med := by
  have h0 := hr _ (List.getElem_mem (show 0 < med.length by omega))
  have hn : 0 < n := Nat.lt_of_le_of_lt (Nat.zero_le _) h0
  have hz : val (conv (0 : N) : L) = 0 := by rw [Q.conv_zero, Q.std.zero]
  have hR0 : 0 ≤ R := (Q.val_nonneg (hd.nonneg _ _ h0 h0)).trans (hR _ _ h0 h0)
  by_contra hcov
  have h := H.ratio_ge Q.conv_mono hz hd hS hR hk hr hcov
  rw [exactRatios_eq hn] at h
  refine absurd h1 (not_lt.mpr (h.trans (mul_le_mul_of_nonneg_right (mul_le_mul_of_nonneg_left ?_ (Nat.cast_nonneg _)) hR0)))
  linarith

omit Q in
/-- **C117, certificate by `medoid_silhouette`.** A computed value above a threshold shows that every group has a medoid. -/
theorem C117_certificate (D : QuotLoss N fin val u B eta C) (hf : MedFits u B C n) (hR : AtMost (N := N) val R n d) {mat : Mat N}
    (hm : IsMatrix mat n d) {med : List Nat} (hv : ValidMeds n med) (hk : 2 ≤ med.length) {samples : Bool} {avg : L} {sil : List L}
    (hr : medoidSilhouette L mat med samples = .ok (avg, sil)) (h1 : n * (1 - val avg + medErr u n) * R < s * S) :
    Covers k g med ∧ (med.length ≤ k → med.length = k ∧ med.Nodup) := by
  have h2 := (abs_le.mp (C78_medoid_silhouette D hm hd hv hk hf samples hr).1.2).2
  have hcov := C117_covers D.loss hd H hS hR hk hv.range (q := val avg - medErr u n) (by linarith)
    (by rwa [show 1 - (val avg - medErr u n) = 1 - val avg + medErr u n by ring])
  exact ⟨hcov, fun h => ⟨(hcov.inj h).2, (hcov.inj h).1.of_map⟩⟩

/-- Medoids that are hardly worse than medoids in all groups are in all groups, and labels by nearest medoids are the groups. -/
theorem C117_keeps {E : K} (hE : 0 ≤ E) (hR : AtMost (N := N) val R n d) (hsep : n * (δ / S + E) * R < s * S) {med : List Nat}
    (hk : 2 ≤ med.length) (hr : ∀ m ∈ med, m < n) (hl : med.length = k) (hcov : Covers k g med) {r : SwapResult L}
    (ha : SilAnswer n med.length d r) (hh : exactMedSil N val n d med ≤ exactMedSil N val n d r.med + E) :
    FindsGroups n k g r.med r.assi ∧ 1 - δ / S ≤ exactMedSil N val n d r.med := by
  have h0 := hr _ (List.getElem_mem (show 0 < med.length by omega))
  have hn : 0 < n := Nat.lt_of_le_of_lt (Nat.zero_le _) h0
  have hn' : (0 : K) ≤ n := Nat.cast_nonneg _
  have hz : val (conv (0 : N) : L) = 0 := by rw [Q.conv_zero, Q.std.zero]
  have hhigh := C117_high Q hd H hS hk hr hl.le hcov
  have hk' : 2 ≤ r.med.length := ha.medLen ▸ hk
  have hlk : r.med.length = k := ha.medLen.trans hl
  have hc := C117_covers Q hd H hS hR hk' ha.medRange (q := 1 - δ / S - E) (by linarith)
    (by rwa [show 1 - (1 - δ / S - E) = δ / S + E by ring])
  have hδ : 0 ≤ δ := H.nonneg hz hd hn
  refine ⟨H.finds_nearest Q.conv_mono (fun x y hx hy hxy => ?_) ha.medRange hlk.le hc ha.assiLen ha.nearest,
    C117_high Q hd H hS hk' ha.medRange hlk.le hc⟩
  have hSR : S ≤ R := (H.between x y hx hy hxy).trans (hR x y hx hy)
  have hs : s ≤ n := (H.size _ (H.group x hx)).trans
    ((Finset.card_le_card (Finset.filter_subset _ _)).trans (Finset.card_range n).le)
  have hs' : (s : K) ≤ n := by exact_mod_cast hs
  by_contra hle
  have hle := not_lt.mp hle
  have h1 : 1 ≤ δ / S + E := by
    have : 1 ≤ δ / S := (le_div_iff₀ hS).mpr (by linarith)
    linarith
  have h2 : (s : K) * S ≤ n * (δ / S + E) * R :=
    mul_le_mul (hs'.trans (le_mul_of_one_le_right hn' h1)) hSR hS.le (mul_nonneg hn' (by linarith))
  exact absurd hsep (not_lt.mpr h2)

variable {mat : Mat N}

omit Q in
/-- **C117, fastermsc.** -/
theorem C117_fastermsc (D : QuotLoss N fin val u B eta C) (hR : AtMost (N := N) val R n d) (hm : IsMatrix mat n d) {med : List Nat}
    (hv : ValidMeds n med) (hk : 2 ≤ med.length) (hl : med.length = k) (hcov : Covers k g med) (hf : GainFits u B n) (hv0 : 0 ≤ v)
    (hv1 : v ≤ 1 / 2) (hSum : 3 ≤ med.length → SumErr val v n d) (hsep : n * (δ / S + (n + 1) * gainErr u v n) * R < s * S)
    {maxiter : Nat} {r : SwapResult L} (hr : fastermsc L mat med maxiter = .ok r) :
    FindsGroups n k g r.med r.assi ∧ 1 - δ / S ≤ exactMedSil N val n d r.med := by
  have hnd : med.Nodup := (hcov.inj hl.le).1.of_map
  have hn : 0 < n := Nat.lt_of_lt_of_le hv.sizes.pos hv.sizes.le
  have hE : 0 ≤ n * gainErr u v n := (sumErr_gain (n := n) D.loss.std hv0).1
  have hE' : 0 ≤ gainErr u v n := nonneg_of_mul_nonneg_right hE (by exact_mod_cast hn)
  have h := (C81_fastermsc D hm hd hv hnd hk hf hv0 hv1 hSum maxiter hr).limit
  push_cast at h
  exact C117_keeps D.loss hd H hS (mul_nonneg (by positivity) hE') hR hsep hk hv.range hl hcov
    (C59_fastermsc_nearest hm hd hv hnd hk maxiter hr) h

omit Q in
/-- **C117, fastmsc.** -/
theorem C117_fastmsc (D : QuotLoss N fin val u B eta C) (hR : AtMost (N := N) val R n d) (hm : IsMatrix mat n d) {med : List Nat}
    (hv : ValidMeds n med) (hk : 2 ≤ med.length) (hn2 : ¬ (med.length = 2 ∧ n = 2)) (hl : med.length = k) (hcov : Covers k g med)
    (hf : GainFits u B n) (hf' : MedFits u B C n) (hv0 : 0 ≤ v) (hv1 : v ≤ 1 / 2) (hSum : 3 ≤ med.length → SumErr val v n d)
    (hsep : n * (δ / S + 2 * gainErr u v n) * R < s * S) {maxiter : Nat} {r : SwapResult L} (hr : fastmsc L mat med maxiter = .ok r) :
    FindsGroups n k g r.med r.assi ∧ 1 - δ / S ≤ exactMedSil N val n d r.med := by
  have := D.loss.saneZero
  have hnd : med.Nodup := (hcov.inj hl.le).1.of_map
  have hn : 0 < n := Nat.lt_of_lt_of_le hv.sizes.pos hv.sizes.le
  have hE : 0 ≤ n * gainErr u v n := (sumErr_gain (n := n) D.loss.std hv0).1
  have hE' : 0 ≤ gainErr u v n := nonneg_of_mul_nonneg_right hE (by exact_mod_cast hn)
  have h := (C81_fastmsc D hm hd hv hnd hk hn2 hf hf' hv0 hv1 hSum maxiter hr).hardly.limit
  push_cast at h
  exact C117_keeps D.loss hd H hS (mul_nonneg (by positivity) hE') hR hsep hk hv.range hl hcov
    (C59_fastmsc_nearest hm hd hv hnd hk hn2 maxiter hr) h

omit Q in
/-- **C117, pammedsil_swap.** -/
theorem C117_pammedsil_swap (D : QuotLoss N fin val u B eta C) (hR : AtMost (N := N) val R n d) (hm : IsMatrix mat n d) {med : List Nat}
    (hv : ValidMeds n med) (hk : 2 ≤ med.length) (hl : med.length = k) (hcov : Covers k g med)
    (hf : GainFits u B n) (hf' : MedFits u B C n) (hsep : n * (δ / S + 2 * pmsErr u n) * R < s * S) {maxiter : Nat} {r : SwapResult L}
    (hr : pammedsilSwap L mat med maxiter = .ok r) :
    FindsGroups n k g r.med r.assi ∧ 1 - δ / S ≤ exactMedSil N val n d r.med := by
  have := D.loss.saneZero
  have hnd : med.Nodup := (hcov.inj hl.le).1.of_map
  have hn : 0 < n := Nat.lt_of_lt_of_le hv.sizes.pos hv.sizes.le
  have hE : 0 ≤ n * pmsErr u n := (sumErr_pms (n := n) D.loss.std).1
  have hE' : 0 ≤ pmsErr u n := nonneg_of_mul_nonneg_right hE (by exact_mod_cast hn)
  have h := (C81_pammedsil_swap D hm hd hv hnd hk hf hf' maxiter hr).hardly.limit
  push_cast at h
  exact C117_keeps D.loss hd H hS (mul_nonneg (by positivity) hE') hR hsep hk hv.range hl hcov
    (C59_pammedsil_swap_nearest hm hd hv hnd hk maxiter hr).2 h

end

/-! ## The silhouette -/

section
variable {N K : Type} [LinearOrder N] [Zero N] [RDist N] [LawfulDist N] [Field K] [LinearOrder K] [IsStrictOrderedRing K]
variable {cv : N → K} {n k s : Nat} {d : Nat → Nat → N} {g : Nat → Nat} {δ S R ε : K} {assi : List Nat}

/-- With a label gap the exact value of the rule of the code is not positive. -/
theorem silExact_gap (hmono : Monotone cv) (h0 : cv 0 = 0) (hd : Dissim n d) (hl : assi.length = n) (hg : ¬ NoGap assi) :
    silExact cv d assi ≤ 0 := by
  unfold NoGap at hg
  push Not at hg
  obtain ⟨c, c', h1, h2, h3⟩ := hg
  have hlt : c < c' := lt_of_le_of_ne h1 fun e => h3 (e ▸ h2)
  have hb := lt_bufLen h2
  unfold silExact
  rw [if_neg (by omega)]
  have hlen : (silGaps cv d assi).length = n := by simp [silGaps, hl]
  unfold mean
  have hsum : ∀ l : List K, (∀ x ∈ l, x ≤ 0) → l.sum ≤ 0 := fun l => by
    induction l with
    | nil => intro _; simp
    | cons y t ih =>
      intro h
      rw [List.sum_cons]
      linarith [h y List.mem_cons_self, ih fun x hx => h x (List.mem_cons_of_mem _ hx)]
  refine div_nonpos_of_nonpos_of_nonneg (hsum _ fun x hx => ?_) (Nat.cast_nonneg _)
  obtain ⟨p, hp, rfl⟩ := List.mem_map.mp hx
  unfold silGap
  split
  · exact le_rfl
  · dsimp only
    have hp2 := mem_zipIdx_lt hp
    have ha := meanDist_nonneg_of (assi := assi) (i := p.2) hmono h0 (fun j hj => hd.nonneg p.2 j (by omega) (hl ▸ hj)) p.1
    have hmem : (0 : K) ∈ ((List.range (bufLen assi)).filter (· ≠ p.1)).map (meanDist cv d assi p.2) := by
      refine List.mem_map.mpr ⟨c, ?_, ?_⟩
      · rw [List.mem_filter, List.mem_range]
        have : c ≠ p.1 := fun h => h3 (h ▸ mem_zipIdx_mem hp)
        exact ⟨by omega, by simpa using this⟩
      · have : members assi p.2 c = [] := by
          rw [List.eq_nil_iff_forall_not_mem]
          intro j hj
          exact h3 (List.mem_of_getElem? (mem_members.mp hj).1)
        simp [meanDist, this]
    generalize ((List.range (bufLen assi)).filter (· ≠ p.1)).map (meanDist cv d assi p.2) = bs at hmem ⊢
    have hle : bs.tail.foldl min (bs.head?.getD 0) ≤ 0 := by
      cases bs with
      | nil => simp
      | cons b t =>
        simp only [List.tail_cons, List.head?_cons, Option.getD_some]
        have hfold : ∀ (t : List K) (b x : K), x ∈ b :: t → t.foldl min b ≤ x := fun t => by
          induction t with
          | nil => intro b x hx; rw [List.mem_singleton] at hx; exact hx.ge
          | cons y t ih =>
            intro b x hx
            rw [List.foldl_cons]
            rcases List.mem_cons.mp hx with rfl | hx
            · exact (ih _ _ (List.mem_cons_self)).trans (min_le_left _ _)
            · rcases List.mem_cons.mp hx with rfl | hx
              · exact (ih _ _ (List.mem_cons_self)).trans (min_le_right _ _)
              · exact ih _ _ (List.mem_cons_of_mem _ hx)
        exact hfold t b 0 hmem
    split
    · exact le_rfl
    · exact div_nonpos_of_nonpos_of_nonneg (by linarith) (ha.trans (le_max_left _ _))

/-- What a high value of the exact rule of the code says about the labels. -/
theorem Separated.silExact_certificate (hmono : Monotone cv) (h0 : cv 0 = 0) (hd : Dissim n d) (H : Separated cv n k s d g δ S)
    (hS : 0 < S) (hn : 0 < n) (hR : ∀ x y, x < n → y < n → cv (d x y) ≤ R) (hs : 0 < s) (hl : assi.length = n) {q : K}
    (hq : q ≤ silExact cv d assi) (h1 : n * (1 - q) * R < S) :
    Pure n g assi ∧ (assi.toFinset.card ≤ k ∨
      (0 < ε ∧ (∀ x y, x < n → y < n → x ≠ y → ε ≤ cv (d x y)) ∧ n * (1 - q) * δ < s * ε) → SameGroups n g assi) := by
  have hn' : (1 : K) ≤ n := by exact_mod_cast hn
  have hR0 : 0 ≤ R := (cv_nonneg hmono h0 (hd.nonneg 0 0 hn hn)).trans (hR 0 0 hn hn)
  have hδ : 0 ≤ δ := H.nonneg h0 hd hn
  have hmix : ∀ {X : K}, 0 ≤ X → n * (1 - silExact cv d assi) * X ≤ n * (1 - q) * X := fun hX =>
    mul_le_mul_of_nonneg_right (mul_le_mul_of_nonneg_left (by linarith) (by linarith)) hX
  have hpure : Pure n g assi := by
    by_contra hp
    by_cases hg : NoGap assi
    · have h2 := H.mixed_ge hmono h0 hd hS hR hl hp
      have h3 := hmix hR0
      rw [silExact_eq cv d hg] at h3
      linarith
    · unfold Pure at hp
      push Not at hp
      obtain ⟨x, y, hx, hy, -, hxy⟩ := hp
      have hSR : S ≤ R := (H.between x y hx hy hxy).trans (hR x y hx hy)
      have h2 := hq.trans (silExact_gap hmono h0 hd hl hg)
      have h4 : (1 : K) * 1 ≤ n * (1 - q) := mul_le_mul hn' (by linarith) zero_le_one (by linarith)
      have h5 := mul_le_mul_of_nonneg_right h4 hR0
      linarith
  refine ⟨hpure, fun h => ?_⟩
  rcases h with h | ⟨hε, hge, h⟩
  · refine hpure.same hl H.group (fun c hc => ?_) h
    obtain ⟨z, hz⟩ := Finset.card_pos.mp (lt_of_lt_of_le hs (H.size c hc))
    exact ⟨z, mem_groupOf.mp hz⟩
  · by_contra hne
    by_cases hg : NoGap assi
    · have h2 := H.split_ge hmono h0 hd hε hge hl hpure hne
      have h3 := hmix hδ
      rw [silExact_eq cv d hg] at h3
      linarith
    · unfold SameGroups at hne
      push Not at hne
      obtain ⟨x, y, hx, hy, hxy⟩ := hne
      have hxy : g x = g y ∧ x ≠ y := by
        rcases hxy with h | h
        · exact absurd (hpure x y hx hy h.1) h.2
        · exact ⟨h.2, fun e => h.1 (by rw [e])⟩
      have hεδ : ε ≤ δ := (hge x y hx hy hxy.2).trans (H.within x y hx hy hxy.1)
      have hsn : s ≤ n := (H.size _ (H.group x hx)).trans
        ((Finset.card_le_card (Finset.filter_subset _ _)).trans (Finset.card_range n).le)
      have hs' : (s : K) ≤ n := by exact_mod_cast hsn
      have h2 := hq.trans (silExact_gap hmono h0 hd hl hg)
      have h4 : (n : K) * 1 ≤ n * (1 - q) := mul_le_mul_of_nonneg_left (by linarith) (by linarith)
      have h5 : (s : K) * ε ≤ n * 1 * δ := by rw [mul_one]; exact mul_le_mul hs' hεδ hε.le (by linarith)
      have h6 := mul_le_mul_of_nonneg_right h4 hδ
      linarith

/-- The groups have a high exact silhouette. -/
theorem Separated.silExact_groups (hmono : Monotone cv) (h0 : cv 0 = 0) (hd : Dissim n d) (H : Separated cv n k s d g δ S)
    (hS : 0 < S) (hn : 0 < n) (hδS : δ ≤ S) (hs : 2 ≤ s) (hk : 2 ≤ k) (hl : assi.length = n) (hg : NoGap assi)
    (hsame : SameGroups n g assi) : 1 - δ / S ≤ silExact cv d assi := by
  rw [silExact_eq cv d hg]
  have h := H.same_le hmono h0 hd hn hS hδS hs hk hl hsame
  have hn' : (0 : K) < n := by exact_mod_cast hn
  rw [mul_assoc] at h
  have h := le_of_mul_le_mul_left h hn'
  rw [← le_div_iff₀ hS] at h
  linarith

end

section
variable {N L K : Type} [LinearOrder N] [Zero N] [RDist N] [LawfulDist N] [RLoss L] [RFrom N L]
  [Field K] [LinearOrder K] [IsStrictOrderedRing K]
variable {fin : L → Prop} {val : L → K} {u B eta w W : K} {C : Nat}
variable {n k s : Nat} {d : Nat → Nat → N} {g : Nat → Nat} {δ S R ε : K} {assi : List Nat} {mat : Mat N}
variable (Q : FloatLoss N fin val u B) (D : DivModel fin val u B eta C) (hsp : Spread fin val w W n d) (hf : SilFits u B eta w W C n)
  (hd : Dissim n d) (H : Separated (fun x : N => val (conv x : L)) n k s d g δ S) (hS : 0 < S) (hR : AtMost (N := N) val R n d) (hm : IsMatrix mat n d)
include Q D hsp hf hd H hS hR hm

/-- **C117, certificate by `silhouette`.** -/
theorem C117_silhouette (hn : 0 < n) (hu : n ≤ u32Max) (hs : 0 < s) (hl : assi.length = n) {samples : Bool} {avg : L} {sil : List L}
    (hr : silhouette L mat assi samples = .ok (avg, sil)) (h1 : n * (1 - val avg + silErr u n) * R < S) :
    Pure n g assi ∧ (assi.toFinset.card ≤ k ∨ (0 < ε ∧ (∀ x y, x < n → y < n → x ≠ y → ε ≤ val (conv (d x y) : L)) ∧
      n * (1 - val avg + silErr u n) * δ < s * ε) → SameGroups n g assi) := by
  have hne : assi ≠ [] := fun e => by rw [e] at hl; simp at hl; omega
  rw [silhouette_eq hm hl.le] at hr
  have h := (silhouetteP_near D (by rw [hl]; exact hsp) (by rw [hl]; exact hf) hne (by rw [hl]; exact hu) samples).2
  rw [Except.ok.inj hr, hl] at h
  have h2 := (abs_le.mp h).2
  have e : 1 - (val avg - silErr u n) = 1 - val avg + silErr u n := by ring
  have := Separated.silExact_certificate (assi := assi) (ε := ε) (q := val avg - silErr u n) Q.conv_mono
    (by rw [Q.conv_zero, Q.std.zero]) hd H hS hn hR hs hl (by dsimp only at h2; linarith) (by rw [e]; exact h1)
  rw [e] at this
  exact this

/-- **C117, certificate by `par_silhouette`.** -/
theorem C117_par_silhouette (hn : 0 < n) (hu : n ≤ u32Max) (hs : 0 < s) (hl : assi.length = n) (hlab : ∃ a ∈ assi, a ≠ 0) {avg : L}
    (hr : parSilhouette L mat assi = .ok avg) (h1 : n * (1 - val avg + silErr u n) * R < S) :
    Pure n g assi ∧ (assi.toFinset.card ≤ k ∨ (0 < ε ∧ (∀ x y, x < n → y < n → x ≠ y → ε ≤ val (conv (d x y) : L)) ∧
      n * (1 - val avg + silErr u n) * δ < s * ε) → SameGroups n g assi) := by
  obtain ⟨avg', sil, e1, e2⟩ := C27_par_silhouette_partial (L := L) hm hl.le hlab false
  rw [e1] at hr
  cases hr
  exact C117_silhouette Q D hsp hf hd H hS hR hm hn hu hs hl e2 h1

/-- The exact silhouette of medoids. -/
theorem Separated.silNear_iff (hδS : δ < S) (hs : 2 ≤ s) (hk : 2 ≤ k) {med : List Nat} (hv : ValidMeds n med) (hl : med.length = k) :
    (Covers k g med → FindsGroups n k g med (nearAssiP d n med) ∧
      1 - δ / S ≤ silExact (fun x : N => val (conv x : L)) d (nearAssiP d n med)) ∧
    (∀ q, q ≤ silExact (fun x : N => val (conv x : L)) d (nearAssiP d n med) → n * (1 - q) * R < S → Covers k g med) := by
  have hn : 0 < n := Nat.lt_of_lt_of_le hv.sizes.pos hv.sizes.le
  have hz : val (conv (0 : N) : L) = 0 := by rw [Q.conv_zero, Q.std.zero]
  refine ⟨fun hcov => ?_, fun q hq h1 => ?_⟩
  · have hf' := H.finds_nearest Q.conv_mono (fun _ _ _ _ _ => hδS) hv.range hl.le hcov (nearAssiP_length _ _ _) fun _ _ h =>
      nearAssiP_nearest hd hv h
    exact ⟨hf', H.silExact_groups Q.conv_mono hz hd hS hn hδS.le hs hk (nearAssiP_length _ _ _)
      (nearAssiP_noGap hd hv (hcov.inj hl.le).1.of_map) hf'.labels.2⟩
  · refine H.covers_near hd hs hv ((H.silExact_certificate (ε := 1) Q.conv_mono hz hd hS hn hR (by omega)
      (nearAssiP_length _ _ _) hq h1).2 (.inl ?_))
    refine (Finset.card_le_card (t := Finset.range k) fun a ha => ?_).trans (Finset.card_range k).le
    exact Finset.mem_range.mpr (hl ▸ nearAssiP_label d hv.sizes.pos a (List.mem_toFinset.mp ha))

theorem Separated.lt_of_silErr (hsep : n * (δ / S + 2 * silErr u n) * R < S) (hs : 2 ≤ s) (hk : 2 ≤ k) : δ < S := by
  obtain ⟨x, hx⟩ := Finset.card_pos.mp (lt_of_lt_of_le (by omega : 0 < s) (H.size 0 (by omega)))
  obtain ⟨y, hy⟩ := Finset.card_pos.mp (lt_of_lt_of_le (by omega : 0 < s) (H.size 1 (by omega)))
  obtain ⟨hx1, hx2⟩ := mem_groupOf.mp hx
  obtain ⟨hy1, hy2⟩ := mem_groupOf.mp hy
  have hSR : S ≤ R := (H.between x y hx1 hy1 (by omega)).trans (hR x y hx1 hy1)
  have hn : 0 < n := Nat.lt_of_le_of_lt (Nat.zero_le _) hx1
  have hn' : (1 : K) ≤ n := by exact_mod_cast hn
  have hE := silErr_nonneg (n := n) D.std hf.small
  by_contra hle
  have h1 : 1 ≤ δ / S := (le_div_iff₀ hS).mpr (by linarith [not_lt.mp hle])
  have h2 : (1 : K) * 1 ≤ n * (δ / S + 2 * silErr u n) := mul_le_mul hn' (by linarith) zero_le_one (by linarith)
  have h3 := mul_le_mul_of_nonneg_right h2 (hS.le.trans hSR)
  linarith

/-- **C117, pamsil_swap.** Starting with a medoid in each group it finds the groups, for every limit. -/
theorem C117_pamsil_swap (hsep : n * (δ / S + 2 * silErr u n) * R < S) (hs : 2 ≤ s) {med : List Nat} (hv : ValidMeds n med)
    (hk : 2 ≤ med.length) (hl : med.length = k) (hcov : Covers k g med) {maxiter : Nat} {r : SwapResult L}
    (hr : pamsilSwap L mat med maxiter = .ok r) :
    FindsGroups n k g r.med r.assi ∧ 1 - δ / S - silErr u n ≤ val r.loss := by
  have hk' : 2 ≤ k := hl ▸ hk
  have hδS := H.lt_of_silErr Q D hsp hf hd hS hR hm hsep hs hk'
  obtain ⟨⟨-, h1⟩, h2, -⟩ := C77_pamsil_swap D hm hv hk hsp hf hr
  have hr0 := hr
  rw [pamsilSwap_eq hm hv] at hr
  obtain ⟨g1, g2⟩ := pamsilOptP_loop hk hr
  obtain ⟨hv', hl', -⟩ := psLoopP_ok hv rfl g1
  dsimp only at hv' hl'
  have h3 := h2 _ _ (assignNearest_eq hm hv)
  have h4 := ((H.silNear_iff Q D hsp hf hd hS hR hm hδS hs hk' hv hl).1 hcov).2
  rw [g2] at h1 h3
  obtain ⟨i1, i2⟩ := H.silNear_iff Q D hsp hf hd hS hR hm hδS hs hk' hv' (hl'.trans hl)
  have hc := i2 (1 - δ / S - 2 * silErr u n) (by linarith)
    (by rwa [show 1 - (1 - δ / S - 2 * silErr u n) = δ / S + 2 * silErr u n by ring])
  obtain ⟨f1, f2⟩ := i1 hc
  rw [g2]
  exact ⟨f1, by linarith [(abs_le.mp h1).1]⟩

end

/-! ## `f64` -/

section f64
variable {N : Type} [LinearOrder N] [Zero N] [RDist N] [LawfulDist N] [RFrom N (Ieee binary64)]
variable {n k s : Nat} {d : Nat → Nat → N} {g : Nat → Nat} {δ S R ε v w : ℚ} {mat : Mat N}
variable (Q : QuotLoss N (Ieee.Fin (F := binary64)) Ieee.val (1 / 2 ^ 53) (2 ^ 1023) (2 ^ (-1075 : ℤ)) u32Max)
  (hd : Dissim n d) (H : Separated (fun x : N => Ieee.val (conv x : Ieee binary64)) n k s d g δ S) (hS : 0 < S)
  (hR : AtMost (N := N) (Ieee.val (F := binary64)) R n d) (hm : IsMatrix mat n d)
include Q hd H hS hR hm

/-- **C117, medoid_silhouette with `f64`.** -/
theorem C117_certificate_f64 {med : List Nat} (hv : ValidMeds n med) (hk : 2 ≤ med.length) {samples : Bool} {avg : Ieee binary64}
    {sil : List (Ieee binary64)} (hr : medoidSilhouette (Ieee binary64) mat med samples = .ok (avg, sil))
    (h1 : n * (1 - avg.val + (n + 3) / 2 ^ 52) * R < s * S) :
    Covers k g med ∧ (med.length ≤ k → med.length = k ∧ med.Nodup) := by
  have h0 := lt_of_lt_of_le hv.sizes.pos hv.sizes.le
  have hR0 : 0 ≤ R := (Q.loss.val_nonneg (hd.nonneg 0 0 h0 h0)).trans (hR 0 0 h0 h0)
  refine C117_certificate hd H hS Q (medFits64 h0 hv.sizes.n_le) hR hm hv hk hr (lt_of_le_of_lt ?_ h1)
  refine mul_le_mul_of_nonneg_right (mul_le_mul_of_nonneg_left ?_ (Nat.cast_nonneg _)) hR0
  linarith [medErr_f64 hv.sizes.n_le]

/-- **C117, fastermsc with `f64` losses.** -/
theorem C117_fastermsc_f64 {med : List Nat} (hv : ValidMeds n med) (hk : 2 ≤ med.length) (hl : med.length = k) (hcov : Covers k g med)
    (hv0 : 0 ≤ v) (hv1 : v ≤ 1 / 2) (hSum : 3 ≤ med.length → SumErr (Ieee.val (F := binary64)) v n d)
    (hsep : n * (δ / S + (n + 1) * (18 * (n + 1) / 2 ^ 52 + 2 * v)) * R < s * S) {maxiter : Nat} {r : SwapResult (Ieee binary64)}
    (hr : fastermsc (Ieee binary64) mat med maxiter = .ok r) :
    FindsGroups n k g r.med r.assi ∧ 1 - δ / S ≤ medSil (fun x : N => (conv x : Ieee binary64).val) n d r.med := by
  have hnd : med.Nodup := (hcov.inj hl.le).1.of_map
  have h := (C81_fastermsc_f64 Q hm hd hv hnd hk hv0 hv1 hSum maxiter hr).limit
  push_cast at h
  exact C117_keeps Q.loss hd H hS (by positivity) hR hsep hk hv.range hl hcov (C59_fastermsc_nearest hm hd hv hnd hk maxiter hr) h

/-- **C117, fastmsc with `f64` losses.** -/
theorem C117_fastmsc_f64 {med : List Nat} (hv : ValidMeds n med) (hk : 2 ≤ med.length) (hn2 : ¬ (med.length = 2 ∧ n = 2))
    (hl : med.length = k) (hcov : Covers k g med) (hv0 : 0 ≤ v) (hv1 : v ≤ 1 / 2)
    (hSum : 3 ≤ med.length → SumErr (Ieee.val (F := binary64)) v n d)
    (hsep : n * (δ / S + 2 * (18 * (n + 1) / 2 ^ 52 + 2 * v)) * R < s * S) {maxiter : Nat} {r : SwapResult (Ieee binary64)}
    (hr : fastmsc (Ieee binary64) mat med maxiter = .ok r) :
    FindsGroups n k g r.med r.assi ∧ 1 - δ / S ≤ medSil (fun x : N => (conv x : Ieee binary64).val) n d r.med := by
  have := Q.loss.saneZero
  have hnd : med.Nodup := (hcov.inj hl.le).1.of_map
  have h := (C81_fastmsc_f64 Q hm hd hv hnd hk hn2 hv0 hv1 hSum maxiter hr).1.limit
  push_cast at h
  exact C117_keeps Q.loss hd H hS (by positivity) hR hsep hk hv.range hl hcov (C59_fastmsc_nearest hm hd hv hnd hk hn2 maxiter hr) h

/-- **C117, pammedsil_swap with `f64` losses.** -/
theorem C117_pammedsil_swap_f64 {med : List Nat} (hv : ValidMeds n med) (hk : 2 ≤ med.length) (hl : med.length = k)
    (hcov : Covers k g med) (hsep : n * (δ / S + 6 * (n + 2) / 2 ^ 52) * R < s * S) {maxiter : Nat} {r : SwapResult (Ieee binary64)}
    (hr : pammedsilSwap (Ieee binary64) mat med maxiter = .ok r) :
    FindsGroups n k g r.med r.assi ∧ 1 - δ / S ≤ medSil (fun x : N => (conv x : Ieee binary64).val) n d r.med := by
  have := Q.loss.saneZero
  have hnd : med.Nodup := (hcov.inj hl.le).1.of_map
  have h := (C81_pammedsil_swap_f64 Q hm hd hv hnd hk maxiter hr).1.limit
  rw [show ((2 : ℕ) : ℚ) * (3 * (n + 2) / 2 ^ 52) = 6 * (n + 2) / 2 ^ 52 by push_cast; ring] at h
  exact C117_keeps Q.loss hd H hS (by positivity) hR hsep hk hv.range hl hcov
    (C59_pammedsil_swap_nearest hm hd hv hnd hk maxiter hr).2 h

variable (hw : 2 ^ (-149 : ℤ) ≤ w) (hsp : Spread (Ieee.Fin (F := binary64)) Ieee.val w (2 ^ 128) n d)
include hw hsp

/-- **C117, silhouette with `f64`.** -/
theorem C117_silhouette_f64 (hn : 0 < n) (hu : n ≤ u32Max) (hs : 0 < s) {assi : List Nat} (hl : assi.length = n) {samples : Bool}
    {avg : Ieee binary64} {sil : List (Ieee binary64)} (hr : silhouette (Ieee binary64) mat assi samples = .ok (avg, sil))
    (h1 : n * (1 - avg.val + (5 * n + 3) / 2 ^ 52) * R < S) :
    Pure n g assi ∧ (assi.toFinset.card ≤ k ∨ (0 < ε ∧ (∀ x y, x < n → y < n → x ≠ y → ε ≤ Ieee.val (conv (d x y) : Ieee binary64)) ∧
      n * (1 - avg.val + (5 * n + 3) / 2 ^ 52) * δ < s * ε) → SameGroups n g assi) := by
  have hR0 : 0 ≤ R := (Q.loss.val_nonneg (hd.nonneg 0 0 hn hn)).trans (hR 0 0 hn hn)
  have hδ : 0 ≤ δ := H.nonneg (by rw [Q.loss.conv_zero, Q.loss.std.zero]) hd hn
  have hle : ∀ {X : ℚ}, 0 ≤ X → n * (1 - avg.val + silErr (1 / 2 ^ 53 : ℚ) n) * X ≤ n * (1 - avg.val + (5 * n + 3) / 2 ^ 52) * X :=
    fun hX => mul_le_mul_of_nonneg_right (mul_le_mul_of_nonneg_left (by linarith [silErr_f64 hu]) (Nat.cast_nonneg _)) hX
  obtain ⟨h2, h3⟩ := C117_silhouette (ε := ε) Q.loss divModel64 hsp (silFits64 hw hu) hd H hS hR hm hn hu hs hl hr
    (lt_of_le_of_lt (hle hR0) h1)
  exact ⟨h2, fun h => h3 (h.imp id fun ⟨a, b, c⟩ => ⟨a, b, lt_of_le_of_lt (hle hδ) c⟩)⟩

/-- **C117, pamsil_swap with `f64` losses.** -/
theorem C117_pamsil_swap_f64 (hsep : n * (δ / S + (10 * n + 6) / 2 ^ 52) * R < S) (hs : 2 ≤ s) {med : List Nat} (hv : ValidMeds n med)
    (hk : 2 ≤ med.length) (hl : med.length = k) (hcov : Covers k g med) {maxiter : Nat} {r : SwapResult (Ieee binary64)}
    (hr : pamsilSwap (Ieee binary64) mat med maxiter = .ok r) :
    FindsGroups n k g r.med r.assi ∧ 1 - δ / S - (5 * n + 3) / 2 ^ 52 ≤ r.loss.val := by
  have hu := hv.sizes.n_le
  have hn : 0 < n := Nat.lt_of_lt_of_le hv.sizes.pos hv.sizes.le
  have hR0 : 0 ≤ R := (Q.loss.val_nonneg (hd.nonneg 0 0 hn hn)).trans (hR 0 0 hn hn)
  have he := silErr_f64 hu
  have he2 : 2 * silErr (1 / 2 ^ 53 : ℚ) n ≤ (10 * n + 6) / 2 ^ 52 := by
    calc 2 * silErr (1 / 2 ^ 53 : ℚ) n ≤ 2 * ((5 * n + 3) / 2 ^ 52) := by linarith
      _ = _ := by ring
  obtain ⟨h1, h2⟩ := C117_pamsil_swap Q.loss divModel64 hsp (silFits64 hw hu) hd H hS hR hm (lt_of_le_of_lt
    (mul_le_mul_of_nonneg_right (mul_le_mul_of_nonneg_left (by linarith) (Nat.cast_nonneg _)) hR0) hsep) hs hv hk hl hcov hr
  exact ⟨h1, by linarith⟩

end f64

/-! ## Concrete cases -/

/-- The nine objects of C115 with `u32` distances. -/
def wideU (x y : Nat) : UInt32 := (lineD wideGroups x y).toUInt32
def wideUMat : Mat UInt32 := ofRows ((List.range 9).map fun x => (List.range 9).map (wideU x))

theorem wideU_isMatrix : IsMatrix wideUMat 9 wideU := by
  have h : ∀ x < 9, ∀ y < 9, wideUMat.get x y = .ok (wideU x y) := by decide +kernel
  exact ⟨rfl, rfl, fun x y hx hy => h x hx y hy⟩

theorem wideU_dissim : Dissim 9 wideU :=
  ⟨by decide +kernel, fun x y hx hy => (by decide +kernel : ∀ x < 9, ∀ y < 9, 0 ≤ wideU x y) x hx y hy⟩

theorem wideU_small : ∀ x < 9, ∀ y < 9, (wideU x y).toNat < 2 ^ 31 := by decide +kernel

theorem wideU_valid : ValidMeds 9 [0, 3, 6] := ⟨⟨by decide, by decide, by decide, by decide⟩, by decide⟩

theorem wideU_separated : Separated (fun x : UInt32 => Ieee.val (conv x : Ieee binary64)) 9 3 3 wideU
    (groupList [0, 0, 0, 1, 1, 1, 2, 2, 2]) ((2 : ℕ) : ℚ) ((48 : ℕ) : ℚ) ∧ AtMost (N := UInt32) (Ieee.val (F := binary64)) ((102 : ℕ) : ℚ) 9 wideU := by
  have h : ∀ x < 9, ∀ y < 9, ((groupList [0, 0, 0, 1, 1, 1, 2, 2, 2]) x = (groupList [0, 0, 0, 1, 1, 1, 2, 2, 2]) y → (wideU x y).toNat ≤ 2) ∧
      ((groupList [0, 0, 0, 1, 1, 1, 2, 2, 2]) x ≠ (groupList [0, 0, 0, 1, 1, 1, 2, 2, 2]) y → 48 ≤ (wideU x y).toNat) ∧ (wideU x y).toNat ≤ 102 := by decide +kernel
  exact ⟨⟨by decide, by decide, fun x y hx hy e => Nat.cast_le.mpr ((h x hx y hy).1 e),
    fun x y hx hy e => Nat.cast_le.mpr ((h x hx y hy).2.1 e)⟩, fun x y hx hy => Nat.cast_le.mpr (h x hx y hy).2.2⟩

example : FindsGroups 9 3 (groupList [0, 0, 0, 1, 1, 1, 2, 2, 2]) [1, 4, 7] [0, 0, 0, 1, 1, 1, 2, 2, 2] :=
  (C117_fastermsc_f64 quotLoss_u32_f64 wideU_dissim wideU_separated.1 (by norm_num) wideU_separated.2 wideU_isMatrix wideU_valid
    (by decide) rfl (by unfold Covers; decide) le_rfl (by norm_num) (fun _ => sumErr_u32 wideU_small) (by norm_num) (maxiter := 9)
    (r := ⟨.num (1110781780842603 / 1125899906842624), [0, 0, 0, 1, 1, 1, 2, 2, 2], 2, 3, [1, 4, 7]⟩) (by decide +kernel)).1

example : FindsGroups 9 3 (groupList [0, 0, 0, 1, 1, 1, 2, 2, 2]) [1, 4, 7] [0, 0, 0, 1, 1, 1, 2, 2, 2] :=
  (C117_fastmsc_f64 quotLoss_u32_f64 wideU_dissim wideU_separated.1 (by norm_num) wideU_separated.2 wideU_isMatrix wideU_valid
    (by decide) (by decide) rfl (by unfold Covers; decide) le_rfl (by norm_num) (fun _ => sumErr_u32 wideU_small) (by norm_num) (maxiter := 9)
    (r := ⟨.num (1110781780842603 / 1125899906842624), [0, 0, 0, 1, 1, 1, 2, 2, 2], 4, 3, [1, 4, 7]⟩) (by decide +kernel)).1

example : FindsGroups 9 3 (groupList [0, 0, 0, 1, 1, 1, 2, 2, 2]) [1, 4, 7] [0, 0, 0, 1, 1, 1, 2, 2, 2] :=
  (C117_pammedsil_swap_f64 quotLoss_u32_f64 wideU_dissim wideU_separated.1 (by norm_num) wideU_separated.2 wideU_isMatrix wideU_valid
    (by decide) rfl (by unfold Covers; decide) (by norm_num) (maxiter := 9)
    (r := ⟨.num (1110781780842603 / 1125899906842624), [0, 0, 0, 1, 1, 1, 2, 2, 2], 4, 3, [1, 4, 7]⟩) (by decide +kernel)).1

example : FindsGroups 9 3 (groupList [0, 0, 0, 1, 1, 1, 2, 2, 2]) [0, 3, 6] [0, 0, 0, 1, 1, 1, 2, 2, 2] :=
  (C117_pamsil_swap_f64 quotLoss_u32_f64 wideU_dissim wideU_separated.1 (by norm_num) wideU_separated.2 wideU_isMatrix
    (w := 1) (by norm_num) (spread_u32 _ _) (by norm_num) (by decide) wideU_valid (by decide) rfl (by unfold Covers; decide) (maxiter := 9)
    (r := ⟨.num (2191433436927283 / 2251799813685248), [0, 0, 0, 1, 1, 1, 2, 2, 2], 1, 0, [0, 3, 6]⟩) (by decide +kernel)).1

/-- The computed silhouette shows that three labels are the groups, and the computed medoid silhouette that three medoids are in
the three groups. -/
example : SameGroups 9 (groupList [0, 0, 0, 1, 1, 1, 2, 2, 2]) [0, 0, 0, 1, 1, 1, 2, 2, 2] ∧ Covers 3 (groupList [0, 0, 0, 1, 1, 1, 2, 2, 2]) [1, 4, 7] :=
  ⟨(C117_silhouette_f64 (ε := 1) quotLoss_u32_f64 wideU_dissim wideU_separated.1 (by norm_num) wideU_separated.2 wideU_isMatrix
    (w := 1) (by norm_num) (spread_u32 _ _) (by decide) (by decide) (by decide) (samples := false)
    (avg := .num (2191433436927283 / 2251799813685248)) (sil := []) rfl (by decide +kernel)
    (by show _ * (1 - (2191433436927283 / 2251799813685248 : ℚ) + _) * _ < _; norm_num)).2 (.inl (by decide)),
  (C117_certificate_f64 quotLoss_u32_f64 wideU_dissim wideU_separated.1 (by norm_num) wideU_separated.2 wideU_isMatrix
    (med := [1, 4, 7]) ⟨⟨by decide, by decide, by decide, by decide⟩, by decide⟩ (by decide) (samples := false)
    (avg := .num (1110781780842603 / 1125899906842624)) (sil := []) (by decide +kernel)
    (by show _ * (1 - (1110781780842603 / 1125899906842624 : ℚ) + _) * _ < _; norm_num)).1⟩

end KMedoids
