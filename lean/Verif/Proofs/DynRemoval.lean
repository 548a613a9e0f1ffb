import Verif.Proofs.DynExact

/-! # DynMSC: which medoid is removed -/

set_option linter.unusedSectionVars false

namespace KMedoids

open RFrom (conv)

variable {N L : Type} [LinearOrder N] [Zero N] [RDist N] [LawfulDist N]
variable [Field L] [LinearOrder L] [IsStrictOrderedRing L] [RLoss L] [LawfulField L]
variable [RFrom N L] [LawfulFrom N L]

/-- The objective does not depend on the order of the medoids. -/
theorem msT_perm {n : Nat} {d : Nat → Nat → N} {med med' : List Nat} (h : med.Perm med') (hk : 2 ≤ med.length) :
    msT L n d med = msT L n d med' := by
  unfold msT
  congr 1
  refine List.map_congr_left fun o _ => ?_
  obtain ⟨rest, hp, hab, hr⟩ := twoNearestP_twoMin d hk o
  have h1 : TwoMin (med.map (d o)) (twoNearestP d med o).1 (twoNearestP d med o).2 := ⟨rest, hp, hab, hr⟩
  have h2 : TwoMin (med'.map (d o)) (twoNearestP d med o).1 (twoNearestP d med o).2 :=
    ⟨rest, (h.map (d o)).symm.trans hp, hab, hr⟩
  rw [ratio_of_twoMin h1, ratio_of_twoMin h2]

theorem medSil_perm {n : Nat} (hn : 0 < n) {d : Nat → Nat → N} {med med' : List Nat} (h : med.Perm med')
    (hk : 2 ≤ med.length) : medSil (conv : N → L) n d med = medSil (conv : N → L) n d med' := by
  rw [medSil_eq_msT hn, medSil_eq_msT hn, msT_perm h hk]

theorem remC_remove {d : Nat → Nat → N} {med' : List Nat} {k b l : Nat} {f : Nat → N} {p : Reco N × Nat}
    (h : Top3 k f p.1) :
    remC L p.1 b = ratio L p.1 - ratio L (removeRecP d med' l b p) := by
  unfold removeRecP remC ratio
  dsimp only
  by_cases h1 : p.1.near.i = b
  · have h2 : p.1.seco.i ≠ b := by have := h.ne; omega
    simp only [h1, h2, if_true, if_false, relabelP_d, add_zero]
  · by_cases h2 : p.1.seco.i = b
    · simp only [h1, h2, if_true, if_false, relabelP_d, zero_add]
    · simp only [h1, h2, if_false, add_zero]
      split <;> simp only [relabelP_d, sub_self]

/-- `removal_loss` is the change of the objective. -/
theorem mscRemP_remove {n : Nat} {d : Nat → Nat → N} {med : List Nat} {data : List (Reco N)}
    (hr : ∀ m ∈ med, m < n) (h : MCache n d med data) (hk : 3 ≤ med.length) {b : Nat} (hb : b < med.length) :
    (mscRemP L data med.length).getD b 0 = msT L n d med - msT L n d (removeListP med b) := by
  rw [mscRemP_getD (h.mshape hr).recIdx, h.msT_eq, ← mscLossP_remove hb hk h, mscLossP, sumP_eq, removeDataP,
    List.map_map, ← sum_map_sub, ← map_zipIdx_fst data (fun r => remC L r b)]
  congr 1
  refine List.map_congr_left fun p hp => ?_
  rw [remC_remove (d := d) (med' := removeListP med b) (l := med.length - 1) (h.recs p hp)]
  simp only [Function.comp_apply, mscLoss_eq]
  rfl

theorem chooseRemoval_spec {rem : List L} (h : 0 < rem.length) :
    ∀ m, m < rem.length → rem.getD (chooseRemoval rem).2 0 ≤ rem.getD m 0 := by
  have := foldl_zipIdx_prefix (fun p (r : L × Nat) => 0 < p → r.1 = rem.getD r.2 0 ∧
      ∀ m, m < p → r.1 ≤ rem.getD m 0)
    (g := fun (r : L × Nat) p => if p.2 == 0 || rlt p.1 r.1 then p else r)
    (xs := rem) (s := ((RLoss.zero : L), usizeMax)) 0 (fun p x s _ hx hI _ => by
      have hxp : rem.getD p 0 = x := by rw [List.getD_eq_getElem?_getD, hx]; rfl
      simp only [Bool.or_eq_true, beq_iff_eq, rltL, decide_eq_true_eq]
      by_cases hp : p = 0
      · rw [if_pos (Or.inl hp)]
        refine ⟨hxp.symm, fun m hm => ?_⟩
        have : m = p := by omega
        rw [this, hxp]
      · obtain ⟨h1, h2⟩ := hI (by omega)
        by_cases hlt : x < s.1
        · rw [if_pos (Or.inr hlt)]
          refine ⟨hxp.symm, fun m hm => ?_⟩
          by_cases hmp : m = p
          · rw [hmp, hxp]
          · exact le_of_lt (lt_of_lt_of_le hlt (h2 m (by omega)))
        · rw [if_neg (by rintro (h | h); exact hp h; exact hlt h)]
          refine ⟨h1, fun m hm => ?_⟩
          by_cases hmp : m = p
          · rw [hmp, hxp]; exact not_lt.mp hlt
          · exact h2 m (by omega)) (by omega) (by omega)
  rw [List.drop_zero] at this
  obtain ⟨h1, h2⟩ := this h
  intro m hm
  have h1 : (chooseRemoval rem).1 = rem.getD (chooseRemoval rem).2 0 := h1
  rw [← h1]; exact h2 m hm

/-- The medoid with the smallest entry of `removal_loss` is the one whose removal is worst. -/
theorem removal_worst {n : Nat} {d : Nat → Nat → N} {s : MSCState N L} {k : Nat} (hn : 0 < n)
    (h : MSCEx n k d s) (hk : 3 ≤ k) :
    (chooseRemoval s.rem).2 < k ∧ ∀ b, b < k →
      medSil (conv : N → L) n d (removeListP s.med (chooseRemoval s.rem).2) ≤
        medSil (conv : N → L) n d (s.med.eraseIdx b) := by
  have hl := h.inv.medLen
  have hrl : s.rem.length = k := by rw [h.rem, mscRemP_length]
  have hb0 := chooseRemoval_lt (rem := s.rem) (by omega)
  have hspec := chooseRemoval_spec (rem := s.rem) (by omega)
  rw [hrl] at hb0 hspec
  refine ⟨hb0, fun b hb => ?_⟩
  have hb' : b < s.med.length := by omega
  have hp := removeListP_perm hb'
  have hlen := removeListP_length hb'
  rw [← medSil_perm hn hp (by omega), medSil_le_iff hn]
  have := hspec b hb
  have e := fun x (hx : x < s.med.length) => mscRemP_remove (L := L) h.inv.medRange h.inv.cache (by omega) hx
  rw [hl] at e
  rw [h.rem, e _ (by rw [← h.rem]; exact hb0), e b hb] at this
  rw [← h.rem] at this
  exact (sub_le_sub_iff_left _).mp this

/-- Without swaps: the loss for one medoid less. -/
theorem dynmscP_zero {mat : Mat N} {n : Nat} {d : Nat → Nat → N} (hm : IsMatrix mat n d) (hd : Dissim n d) {med : List Nat}
    (hv : ValidMeds n med) (hnd : med.Nodup) (hk : 3 ≤ med.length) :
    (dynmscP L d n med (med.length - 1) 0).losses[0]? =
      some (medSil (conv : N → L) n d (removeListP med (chooseRemoval (mscRemP L (mscInitDataP d n med) med.length)).2)) := by
  have hn : 0 < n := lt_of_lt_of_le hv.sizes.pos hv.sizes.le
  have hex := mscInitP_ex (L := L) hd hv hnd (by omega)
  have hb := chooseRemoval_lt (rem := mscRemP L (mscInitDataP d n med) med.length)
    (by rw [mscRemP_length]; omega)
  rw [mscRemP_length] at hb
  have hlen := removeListP_length hb
  have hloss := mscLossP_remove (L := L) hb hk hex.inv.cache
  have hloss : mscLossP L (removeDataP d med (mscInitDataP d n med)
      (chooseRemoval (mscRemP L (mscInitDataP d n med) med.length)).2) = msT L n d (removeListP med
      (chooseRemoval (mscRemP L (mscInitDataP d n med) med.length)).2) := hloss
  have h1 : dynSwapP d n 0 (dynInitP L d n med (med.length - 1)) = (mscInitP L d n med, 0) := by
    rw [dynSwapP_init]; rfl
  have hmed : (dynRoundP d n 0 (med.length - 1) (dynInitP L d n med (med.length - 1))).med =
      removeListP med (chooseRemoval (mscRemP L (mscInitDataP d n med) med.length)).2 := by
    simp only [dynRoundP, h1]; rfl
  have hl1 : (dynRoundP d n 0 (med.length - 1) (dynInitP L d n med (med.length - 1))).loss = msT L n d (removeListP med
      (chooseRemoval (mscRemP L (mscInitDataP d n med) med.length)).2) := by
    rw [← hloss]; simp only [dynRoundP, h1]; rfl
  have hret : (dynRoundP d n 0 (med.length - 1) (dynInitP L d n med (med.length - 1))).retLoss.length = 2 := by
    simp only [dynRoundP, List.length_set, dynInitP, List.length_replicate]; omega
  have hc0 : 3 ≤ (dynInitP L d n med (med.length - 1)).med.length ∧
      med.length - 1 ≤ (dynInitP L d n med (med.length - 1)).med.length := by
    show 3 ≤ med.length ∧ med.length - 1 ≤ med.length
    omega
  have hstep := dynLoopP_step (d := d) (n := n) (maxiter := 0) (fuel := med.length) hc0 (by omega)
  have hs1 := (dynRound_eq hm hn hv.sizes.k_lt (dynInitP_shape (L := L) d hv (by omega) (med.length - 1))
    hc0.1 hc0.2 0).2.1
  unfold dynmscP
  rw [hstep]
  generalize dynRoundP d n 0 (med.length - 1) (dynInitP L d n med (med.length - 1)) = s1 at *
  have hs1len : s1.med.length = med.length - 1 := by rw [hmed, hlen]
  by_cases h3 : med.length = 3
  · have e : dynLoopP d n 0 (med.length - 1) (med.length - 1) s1 = s1 := dynLoopP_stop (by omega)
    rw [e]
    have hl2 : s1.med.length = 2 := by omega
    have e2 := list_two hl2
    have hrange : ∀ m ∈ s1.med, m < n := by
      rw [hmed]; exact fun m hm => hv.range m (removeListP_mem hb m hm)
    have hnd1 : s1.med.Nodup := by rw [hmed]; exact removeListP_nodup hb hnd
    have hne : s1.med.getD 0 0 ≠ s1.med.getD 1 0 := by
      rw [e2] at hnd1; simpa using hnd1
    have ho := fastermscK2P_outcome (L := L) hd (hrange (s1.med.getD 0 0) (by rw [e2]; simp))
      (hrange (s1.med.getD 1 0) (by rw [e2]; simp)) hne hv.sizes.n_le 0
    have hm0 : (fastermscK2P L d n (s1.med.getD 0 0) (s1.med.getD 1 0) 0).med = s1.med := by
      conv_rhs => rw [e2]
      rfl
    have hk2 := ho.loss
    rw [hm0] at hk2
    rw [h3]
    simp only [dynFinishP, dynTwoP, Nat.reduceSub, le_refl, if_true, show ¬ (2 ≤ 1) by omega, if_false]
    rw [List.getElem?_set_self (by omega), hk2, hmed, h3]
  · have hr2 := (dynRound_eq hm hn hv.sizes.k_lt hs1 (by omega) (by omega) 0).2.2.1
    rw [dynLoopP_step (by omega) (by omega), dynLoopP_stop (by omega)]
    simp only [dynFinishP, show ¬ (med.length - 1 ≤ 2) by omega, show ¬ (med.length - 1 ≤ 1) by omega, if_false]
    show (s1.retLoss.set (s1.med.length - (med.length - 1)) (toSilhouette s1.loss n))[0]? = _
    rw [hs1len, Nat.sub_self, List.getElem?_set_self (by omega), hl1, toSilhouette_eq hn hv.sizes.n_le]

end KMedoids
