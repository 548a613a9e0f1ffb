import Verif.Proofs.DynRemoval
import Verif.Props.C29_C35

/-!
# C36-C38, C47, C48: DynMSC

C47 holds for any arithmetic. The others: exact arithmetic, zero diagonal, no negative distances; the matrix
need not be symmetric. `mink` is clamped to `1 … k` by the code, so it is clamped in the statements, too.
-/

set_option linter.unusedSectionVars false

namespace KMedoids

open RFrom (conv)

/-! ## C47 -/

section any
variable {N L : Type} [RDist N] [RLoss L] [RFrom N L]

/-- Number and range of the best medoids so far, number of iterations so far. -/
structure RetShape (n k0 minK maxiter : Nat) (s : DynState N L) : Prop where
  two : 2 ≤ s.retMeds.length
  min : minK ≤ s.retMeds.length
  le : s.retMeds.length ≤ k0
  range : ∀ m ∈ s.retMeds, m < n
  iter : s.retIter ≤ (k0 - s.med.length) * maxiter
  low : minK ≤ s.med.length + 1

theorem dynLoopP_retShape {mat : Mat N} {n k0 minK : Nat} {d : Nat → Nat → N} (hm : IsMatrix mat n d) (hn : 0 < n)
    (hku : k0 < u32Max) (maxiter : Nat) {fuel : Nat} {s : DynState N L} (h : DynShape n k0 minK s)
    (hr : RetShape n k0 minK maxiter s) : RetShape n k0 minK maxiter (dynLoopP d n maxiter minK fuel s) := by
  have := dynLoopP_inv (d := d) (n := n) (maxiter := maxiter) (minK := minK)
    (fun s : DynState N L => DynShape n k0 minK s ∧ RetShape n k0 minK maxiter s) (fun s hs h3 hmin => ?_)
    (fuel := fuel) ⟨h, hr⟩
  · exact this.2
  · obtain ⟨h, hr⟩ := hs
    obtain ⟨-, h2, h4, h5, h6⟩ := dynRound_eq hm hn hku h h3 hmin maxiter
    have hle := h.le
    refine ⟨h2, ?_⟩
    have hmed : (dynRoundP d n maxiter minK s).retMeds = (dynSwapP d n maxiter s).1.med ∨
        (dynRoundP d n maxiter minK s).retMeds = s.retMeds := by
      by_cases hc : rgt (toSilhouette (dynSwapP d n maxiter s).1.loss n) s.bestLoss = true
      · left; simp only [dynRoundP, hc, if_true]
      · right; simp only [dynRoundP, hc, Bool.false_eq_true, if_false]
    have hl := h5.shape.medLen
    have hiter : (dynRoundP d n maxiter minK s).retIter = s.retIter + (dynSwapP d n maxiter s).2 := rfl
    refine ⟨?_, ?_, ?_, ?_, ?_, by omega⟩
    · rcases hmed with e | e
      · rw [e]; omega
      · rw [e]; exact hr.two
    · rcases hmed with e | e
      · rw [e]; omega
      · rw [e]; exact hr.min
    · rcases hmed with e | e
      · rw [e]; omega
      · rw [e]; exact hr.le
    · rcases hmed with e | e
      · rw [e]; exact h5.shape.medRange
      · rw [e]; exact hr.range
    · rw [hiter, h4, show k0 - (s.med.length - 1) = (k0 - s.med.length) + 1 by omega, Nat.add_mul]
      have := hr.iter
      omega

/-- **C47.** DynMSC does not panic, for any distances and any arithmetic (k ≥ 2). One loss is returned for every
number of medoids between `mink` (clamped to `1 … k`) and `k`; the returned medoids are objects, their number is in that
range and at least two; every number of medoids uses up at most `maxiter` iterations. -/
theorem C47_dynmsc {mat : Mat N} {n : Nat} {d : Nat → Nat → N} (hm : IsMatrix mat n d) {med : List Nat}
    (hv : ValidMeds n med) (hk : 2 ≤ med.length) (mink maxiter : Nat) :
    ∃ r, dynmsc L mat med mink maxiter = .ok r ∧
      r.losses.length = med.length - min (max mink 1) med.length + 1 ∧
      min (max mink 2) med.length ≤ r.med.length ∧ r.med.length ≤ med.length ∧ (∀ m ∈ r.med, m < n) ∧
      r.nIter ≤ (med.length - min (max mink 2) med.length + 1) * maxiter := by
  refine ⟨_, dynmsc_eq hm hv hk mink maxiter, ?_⟩
  have hn : 0 < n := lt_of_lt_of_le hv.sizes.pos hv.sizes.le
  generalize hmk : min (max mink 1) med.length = minK
  have h0 := dynInitP_shape (L := L) d hv hk minK
  obtain ⟨-, hs, hend⟩ := dynLoop_eq hm hn hv.sizes.k_lt maxiter (fuel := med.length) h0 le_rfl
  have hr := dynLoopP_retShape hm hn hv.sizes.k_lt maxiter (fuel := med.length) h0
    ⟨hk, by show minK ≤ med.length; omega, le_rfl, hv.range, by simp [dynInitP],
      by show minK ≤ med.length + 1; omega⟩
  unfold dynmscP
  generalize dynLoopP d n maxiter minK med.length (dynInitP L d n med minK) = s at *
  have h2 := hs.two
  have hle := hs.le
  have hrl := hs.retLen
  by_cases hm2 : minK ≤ 2
  · have hl : s.med.length = 2 := by omega
    have e := list_two hl
    have hr0 : s.med.getD 0 0 < n := hs.medRange _ (by rw [e]; simp)
    have hr1 : s.med.getD 1 0 < n := hs.medRange _ (by rw [e]; simp)
    obtain ⟨-, g2, g3⟩ := k2Loop_eq hm (fuel := maxiter) (iter := 0) (k2InitP_shape (L := L) d hr0 hr1 n)
    have gl : (fastermscK2P L d n (s.med.getD 0 0) (s.med.getD 1 0) maxiter).med.length = 2 := g2.medLen
    have gr : ∀ m ∈ (fastermscK2P L d n (s.med.getD 0 0) (s.med.getD 1 0) maxiter).med, m < n := g2.medRange
    have gi : (fastermscK2P L d n (s.med.getD 0 0) (s.med.getD 1 0) maxiter).nIter ≤ maxiter := by
      rw [Nat.zero_add] at g3; exact g3
    simp only [dynFinishP, hm2, if_true, dynTwoP]
    generalize fastermscK2P L d n (s.med.getD 0 0) (s.med.getD 1 0) maxiter = K at *
    refine ⟨?_, ?_, ?_, ?_, ?_⟩
    · split
      · rw [List.length_set, List.length_set, hrl]
      · rw [List.length_set, hrl]
    · split
      · omega
      · have := hr.two; have := hr.min; omega
    · split
      · omega
      · exact hr.le
    · split
      · exact gr
      · exact hr.range
    · have := hr.iter
      rw [hl] at this
      have e2 : min (max mink 2) med.length = 2 := by omega
      rw [e2, Nat.add_mul]
      omega
  · have hm1 : ¬ minK ≤ 1 := by omega
    simp only [dynFinishP, hm2, hm1, if_false]
    have h' : (med.length - s.med.length) * maxiter ≤ (med.length - min (max mink 2) med.length + 1) * maxiter := by
      have := hr.low
      exact Nat.mul_le_mul_right _ (by omega)
    refine ⟨hrl, ?_, hr.le, hr.range, le_trans hr.iter h'⟩
    have := hr.min
    omega

/-- **C47, one medoid.** -/
theorem C47_dynmsc_single {mat : Mat N} {n : Nat} {d : Nat → Nat → N} (hm : IsMatrix mat n d) {c : Nat}
    (hc : c < n) (mink maxiter : Nat) :
    ∃ r, dynmsc L mat [c] mink maxiter = .ok r ∧ r.losses.length = 1 ∧ WellFormed n 1 r.med r.assi ∧ r.nIter = 1 := by
  refine ⟨_, dynmsc_single hm hc mink maxiter, rfl, ?_, rfl⟩
  exact singleP_wf d mat hm hc

/-- If only `k` medoids are asked for and the first silhouette is recognised as positive, DynMSC is FasterMSC. -/
theorem dynmsc_alone {mat : Mat N} {n : Nat} {d : Nat → Nat → N} (hm : IsMatrix mat n d) {med : List Nat}
    (hv : ValidMeds n med) (hk2 : 2 ≤ med.length) {mink : Nat} (hk : med.length ≤ mink) {maxiter : Nat} {f : SwapResult L}
    (hf : fastermsc L mat med maxiter = .ok f) (hgt : rgt f.loss (RLoss.zero : L) = true) :
    dynmsc L mat med mink maxiter = .ok ⟨f.loss, f.assi, f.nIter, f.nSwap, f.med, [f.loss]⟩ := by
  have hn : 0 < n := lt_of_lt_of_le hv.sizes.pos hv.sizes.le
  rw [dynmsc_eq hm hv (by omega)]
  have e : min (max mink 1) med.length = med.length := by omega
  rw [e]
  congr 1
  rw [fastermsc_eq hm hv] at hf
  simp only [Except.ok.injEq] at hf
  unfold dynmscP
  by_cases h2 : med.length = 2
  · obtain ⟨m0, m1, rfl⟩ := List.length_eq_two.mp h2
    have hf : fastermscK2P L d n m0 m1 maxiter = f := hf
    rw [dynLoopP_stop (by simp [dynInitP])]
    simp only [dynFinishP, List.length_cons, List.length_nil, Nat.zero_add, Nat.reduceAdd, le_refl, if_true,
      dynTwoP, dynInitP, List.getD_cons_zero, List.getD_cons_succ, hf, hgt, Nat.sub_self,
      show ¬ (2 ≤ 1) by omega, if_false, List.replicate_one, List.set_cons_zero]
  · rw [fastermscP_many d n (by omega)] at hf
    have hc0 : 3 ≤ (dynInitP L d n med med.length).med.length ∧
        med.length ≤ (dynInitP L d n med med.length).med.length := by
      show 3 ≤ med.length ∧ med.length ≤ med.length
      omega
    have hl := (dynRound_eq hm hn hv.sizes.k_lt (dynInitP_shape (L := L) d hv (by omega) med.length)
      hc0.1 hc0.2 maxiter).2.2.1
    have hl : (dynRoundP d n maxiter med.length (dynInitP L d n med med.length)).med.length = med.length - 1 := hl
    rw [dynLoopP_step hc0 (by omega), dynLoopP_stop (by omega)]
    have hfl : toSilhouette (mscLoopP d n maxiter 0 (mscInitP L d n med)).1.loss n = f.loss := by rw [← hf]; rfl
    simp only [dynFinishP, show ¬ (med.length ≤ 2) by omega, show ¬ (med.length ≤ 1) by omega, if_false,
      dynRoundP, dynSwapP_init, hfl]
    simp only [dynInitP, hgt, if_true, Nat.sub_self, Nat.zero_add, List.replicate_one, List.set_cons_zero]
    rw [← hf]
    rfl

end any

section exact
variable {N L : Type} [LinearOrder N] [Zero N] [RDist N] [LawfulDist N]
variable [Field L] [LinearOrder L] [IsStrictOrderedRing L] [RLoss L] [LawfulField L]
variable [RFrom N L] [LawfulFrom N L]

theorem dynmsc_ok [LawfulAdd N L] {mat : Mat N} {n : Nat} {d : Nat → Nat → N} (hm : IsMatrix mat n d)
    (hd : Dissim n d) {med : List Nat} (hv : ValidMeds n med) (hnd : med.Nodup) (hk : 2 ≤ med.length)
    {mink maxiter : Nat} {r : DynResult L} (hr : dynmsc L mat med mink maxiter = .ok r) :
    DynOk n d med.length (min (max mink 1) med.length) r := by
  rw [dynmsc_eq hm hv hk] at hr
  cases hr
  exact (dynmscP_ok hm hd hv hnd hk (by omega) (by omega) maxiter).1

/-! ## C36 -/

/-- **C36.** The returned loss is the largest of the losses for the different numbers of medoids; the returned
medoids are distinct, their number lies between `mink` (clamped to `2 … k`) and `k`; every object has a label,
which is a position in the returned medoid list. -/
theorem C36_dynmsc [LawfulAdd N L] {mat : Mat N} {n : Nat} {d : Nat → Nat → N} (hm : IsMatrix mat n d)
    (hd : Dissim n d) {med : List Nat} (hv : ValidMeds n med) (hnd : med.Nodup) (hk : 2 ≤ med.length)
    {mink maxiter : Nat} {r : DynResult L} (hr : dynmsc L mat med mink maxiter = .ok r) :
    r.loss ∈ r.losses ∧ (∀ x ∈ r.losses, x ≤ r.loss) ∧
      r.losses.length = med.length - min (max mink 1) med.length + 1 ∧
      r.med.Nodup ∧ min (max mink 2) med.length ≤ r.med.length ∧ r.med.length ≤ med.length ∧
      WellFormed n r.med.length r.med r.assi := by
  have h := dynmsc_ok hm hd hv hnd hk hr
  obtain ⟨r', hr', h1, h2, -⟩ := C47_dynmsc (L := L) hm hv hk mink maxiter
  rw [hr] at hr'; cases hr'
  exact ⟨h.mem, h.max, h1, h.nodup, h2, h.le, h.assiLen, h.label, rfl, h.range⟩

/-! ## C37 -/

/-- **C37, part.** If the code started with at most four medoids, or the best solution has as many medoids as the
initial one, or two, then the returned loss is the medoid silhouette of the returned medoids, and every object is
labelled with a nearest medoid. Missing: the best solution has `k'` medoids, `3 ≤ k' < k` and `5 ≤ k`; then it
is false, see `C37_negation`. -/
theorem C37_dynmsc_partial [LawfulAdd N L] {mat : Mat N} {n : Nat} {d : Nat → Nat → N} (hm : IsMatrix mat n d)
    (hd : Dissim n d) {med : List Nat} (hv : ValidMeds n med) (hnd : med.Nodup) (hk : 2 ≤ med.length)
    {mink maxiter : Nat} {r : DynResult L} (hr : dynmsc L mat med mink maxiter = .ok r)
    (hc : med.length ≤ 4 ∨ r.med.length = med.length ∨ r.med.length = 2) :
    r.loss = medSil (conv : N → L) n d r.med ∧ medoidSilhouette L mat r.med false = .ok (r.loss, []) ∧
      ∀ o m : Nat, r.assi[o]? = some m → IsNearest d r.med o m := by
  have h := dynmsc_ok hm hd hv hnd hk hr
  obtain ⟨h1, h2⟩ := h.right hc
  have hv' : ValidMeds n r.med := by
    have := h.two; have := h.le; have := hv.sizes
    exact ⟨⟨by omega, by have := this.le; omega, this.n_le, by have := this.k_lt; omega⟩, h.range⟩
  exact ⟨h1, by rw [(C28_medoid_silhouette hm hd.nonneg hv' h.two).2, h1], h2⟩

/-! ## C38 -/

/-- **C38, what is done instead.** One medoid less and no swaps: the loss for `k - 1` medoids is the *smallest*
medoid silhouette among all solutions with one medoid dropped. -/
theorem C38_inverted_partial [LawfulAdd N L] {mat : Mat N} {n : Nat} {d : Nat → Nat → N} (hm : IsMatrix mat n d)
    (hd : Dissim n d) {med : List Nat} (hv : ValidMeds n med) (hnd : med.Nodup) (hk : 3 ≤ med.length)
    {r : DynResult L} (hr : dynmsc L mat med (med.length - 1) 0 = .ok r) :
    ∃ b l, b < med.length ∧ r.losses[0]? = some l ∧ l = medSil (conv : N → L) n d (med.eraseIdx b) ∧
      ∀ b', b' < med.length → l ≤ medSil (conv : N → L) n d (med.eraseIdx b') := by
  have hn : 0 < n := lt_of_lt_of_le hv.sizes.pos hv.sizes.le
  rw [dynmsc_eq hm hv (by omega)] at hr
  cases hr
  have e : min (max (med.length - 1) 1) med.length = med.length - 1 := by omega
  rw [e]
  obtain ⟨h1, h2⟩ := removal_worst hn (mscInitP_ex (L := L) hd hv hnd (by omega)) hk
  refine ⟨_, _, h1, dynmscP_zero (L := L) hm hd hv hnd hk, ?_, h2⟩
  refine medSil_perm hn (removeListP_perm h1) ?_
  have := removeListP_length h1
  have : (removeListP med (chooseRemoval (mscRemP L (mscInitDataP d n med) med.length)).2).length =
    med.length - 1 := this
  omega

/-- **C38, what is done instead, with swaps.** The first round ends with the medoids that FasterMSC finds, minus
one medoid whose removal gives the smallest medoid silhouette. -/
theorem C38_round_inverted_partial [LawfulAdd N L] {mat : Mat N} {n : Nat} {d : Nat → Nat → N}
    (hm : IsMatrix mat n d) (hd : Dissim n d) {med : List Nat} (hv : ValidMeds n med) (hnd : med.Nodup)
    (hk : 3 ≤ med.length) {maxiter minK : Nat} (hmin : minK ≤ med.length) {f : SwapResult L}
    (hf : fastermsc L mat med maxiter = .ok f) {s s' : DynState N L} (hmed : s.med = med)
    (hinit : mscInitialAssignment L mat med = .ok (s.loss, s.data)) (hrem : s.rem.length = med.length)
    (hret : s.retLoss.length = med.length - minK + 1) (hs : dynRound mat maxiter minK s = .ok s') :
    ∃ b, b < f.med.length ∧ s'.med.Perm (f.med.eraseIdx b) ∧
      ∀ b', b' < f.med.length →
        medSil (conv : N → L) n d (f.med.eraseIdx b) ≤ medSil (conv : N → L) n d (f.med.eraseIdx b') := by
  have hn : 0 < n := lt_of_lt_of_le hv.sizes.pos hv.sizes.le
  rw [mscInitialAssignment_eq hm hv] at hinit
  rw [fastermsc_eq hm hv, fastermscP_many d n hk] at hf
  simp only [Except.ok.injEq, Prod.mk.injEq] at hinit hf
  obtain ⟨hl, hda⟩ := hinit
  have hsh : DynShape n med.length minK s :=
    ⟨by rw [hmed]; omega, by rw [hmed], by rw [hmed]; exact hv.range, by rw [hmed]; exact hrem,
      by rw [← hda]; simp [mscInitDataP], by rw [hmed, ← hda]; exact fun h3 => (mscInitDataP_shape3 d hv h3).recs, hret⟩
  have hrd := dynRound_eq hm hn hv.sizes.k_lt hsh (by rw [hmed]; exact hk) (by rw [hmed]; exact hmin) maxiter
  rw [hrd.1] at hs
  cases hs
  have hsw : dynSwapP d n maxiter s = mscLoopP d n maxiter 0 (mscInitP L d n med) := by
    simp only [dynSwapP, mscInitP, hmed, hrem, ← hda, ← hl]
  have hfm : f.med = (dynSwapP d n maxiter s).1.med := by rw [← hf, hsw]; rfl
  have hdex : DEx n d s := by
    have := MInv.init (L := L) hd hv hnd (by omega)
    rw [hl, hda] at this
    unfold DEx; rw [hmed]; exact this
  have hex := (dynSwapP_ex hd hdex (by rw [hmed]; exact hk) (by rw [hmed]; exact hv.sizes.k_lt)
    (by rw [hmed]; exact hrem) maxiter).1
  obtain ⟨h1, h2⟩ := removal_worst hn hex (by rw [hmed]; exact hk)
  have hlen := hex.inv.medLen
  rw [← hlen] at h1 h2
  have hp := removeListP_perm h1
  refine ⟨_, by rw [hfm]; exact h1, by rw [hfm]; exact hp, fun b' hb' => ?_⟩
  rw [hfm] at hb' ⊢
  rw [← medSil_perm hn hp (by rw [removeListP_length h1, hlen, hmed]; omega)]
  exact h2 b' hb'

/-! ## C48 -/

/-- **C48.** If only `k` medoids are asked for, DynMSC is FasterMSC. -/
theorem C48_dynmsc_eq [LawfulAdd N L] {mat : Mat N} {n : Nat} {d : Nat → Nat → N} (hm : IsMatrix mat n d)
    (hd : Dissim n d) {med : List Nat} (hv : ValidMeds n med) (hnd : med.Nodup)
    {mink : Nat} (hk : med.length ≤ mink) {maxiter : Nat} {f : SwapResult L}
    (hf : fastermsc L mat med maxiter = .ok f) :
    dynmsc L mat med mink maxiter = .ok ⟨f.loss, f.assi, f.nIter, f.nSwap, f.med, [f.loss]⟩ := by
  have hpos := hv.sizes.pos
  by_cases h1 : med.length = 1
  · obtain ⟨c, rfl⟩ := List.length_eq_one_iff.mp h1
    rw [fastermsc_eq hm hv] at hf
    cases hf
    exact dynmsc_single hm (hv.range c (by simp)) mink maxiter
  · have hn : 0 < n := lt_of_lt_of_le hv.sizes.pos hv.sizes.le
    have hout := fastermsc_outcome hm hd hv hnd (by omega) hf
    have hgt : rgt f.loss (RLoss.zero : L) = true := by
      rw [rgtL, zeroL, decide_eq_true_eq, hout.loss]
      exact medSil_pos hd (hout.chain.range hv.range) (by rw [hout.chain.length]; omega)
    exact dynmsc_alone hm hv (by omega) hk hf hgt

/-- **C48.** DynMSC is never worse than FasterMSC from the same medoids: it reports that loss for `k` medoids, and
returns the largest loss. -/
theorem C48_dynmsc_ge [LawfulAdd N L] {mat : Mat N} {n : Nat} {d : Nat → Nat → N} (hm : IsMatrix mat n d)
    (hd : Dissim n d) {med : List Nat} (hv : ValidMeds n med) (hnd : med.Nodup) (hk : 2 ≤ med.length)
    {mink maxiter : Nat} {r : DynResult L} (hr : dynmsc L mat med mink maxiter = .ok r) {f : SwapResult L}
    (hf : fastermsc L mat med maxiter = .ok f) :
    r.losses[med.length - min (max mink 1) med.length]? = some f.loss ∧ f.loss ≤ r.loss := by
  suffices H : r.losses[med.length - min (max mink 1) med.length]? = some f.loss from
    ⟨H, (C36_dynmsc hm hd hv hnd hk hr).2.1 _ (List.mem_of_getElem? H)⟩
  rw [dynmsc_eq hm hv hk] at hr
  rw [fastermsc_eq hm hv] at hf
  simp only [Except.ok.injEq] at hr hf
  rw [← hr, ← hf]
  by_cases h2 : med.length = 2
  · have hmk : min (max mink 1) med.length ≤ 2 := by omega
    have hmk1 : 1 ≤ min (max mink 1) med.length := by omega
    generalize min (max mink 1) med.length = minK at *
    obtain ⟨m0, m1, rfl⟩ := List.length_eq_two.mp h2
    have hlen : 2 - minK < (List.replicate (2 - minK + 1) (RLoss.zero : L)).length := by simp
    unfold dynmscP
    rw [dynLoopP_stop (by simp [dynInitP])]
    simp only [dynFinishP, hmk, if_true, dynTwoP, dynInitP, List.getD_cons_zero, List.getD_cons_succ,
      List.length_cons, List.length_nil, Nat.zero_add, Nat.reduceAdd]
    split
    · rw [List.getElem?_set_ne (by omega), List.getElem?_set_self hlen]; rfl
    · rw [List.getElem?_set_self hlen]; rfl
  · exact (dynmscP_ok hm hd hv hnd hk (by omega) (by omega) maxiter).2 (by omega)

/-! ## C35 for DynMSC -/

/-- **C35, DynMSC, what is returned for one medoid:** the smallest sum of distances, not a silhouette. -/
theorem C35_dynmsc_single_partial {mat : Mat N} {n : Nat} {d : Nat → Nat → N} (hm : IsMatrix mat n d)
    (hd : Dissim n d) {c : Nat} (hv : ValidMeds n [c]) (mink maxiter : Nat) {r : DynResult L}
    (hr : dynmsc L mat [c] mink maxiter = .ok r) :
    ∃ c', c' < n ∧ r.med = [c'] ∧ r.loss = distSum (conv : N → L) n d c' ∧
      (∀ x, x < n → distSum (conv : N → L) n d c' ≤ distSum (conv : N → L) n d x) ∧
      r.assi = List.replicate n 0 ∧ r.losses = [r.loss] ∧ medoidSilhouette L mat r.med false = .ok (1, []) := by
  have hc := hv.range c (by simp)
  rw [dynmsc_single hm hc] at hr
  cases hr
  obtain ⟨c', h1, h2, h3, h4, -, -, -, h5⟩ := singleP_spec (L := L) hd hc
  refine ⟨c', h1, h2, h3, h4, h5, rfl, ?_⟩
  rw [h2, medoidSilhouette_eq (meds := [c']) hm ⟨hv.sizes, by simpa using h1⟩]
  simp [medoidSilhouetteP, oneL]

end exact

/-! ## findings -/

/-- The full C37 statement; false, see `C37_negation`. -/
def C37_full : Prop := ∀ (mat : Mat ℕ) (n : Nat) (d : Nat → Nat → ℕ), IsMatrix mat n d → Dissim n d →
  ∀ med : List Nat, ValidMeds n med → med.Nodup → 2 ≤ med.length → ∀ (mink maxiter : Nat) (r : DynResult ℚ),
    dynmsc ℚ mat med mink maxiter = .ok r → medoidSilhouette ℚ mat r.med false = .ok (r.loss, [])

/-- Seven objects, symmetric distances. -/
def exDynRows : List (List ℕ) :=
  [[0, 4, 6, 2, 1, 2, 1], [4, 0, 3, 6, 4, 1, 1], [6, 3, 0, 6, 6, 5, 2], [2, 6, 6, 0, 5, 1, 3],
   [1, 4, 6, 5, 0, 6, 1], [2, 1, 5, 1, 6, 0, 4], [1, 1, 2, 3, 1, 4, 0]]

def exDynMat : Mat ℕ := ofRows exDynRows
def exDynD (x y : Nat) : ℕ := (exDynRows.getD x []).getD y 0

theorem exDynMat_isMatrix : IsMatrix exDynMat 7 exDynD :=
  ⟨rfl, rfl, fun x y hx hy => by
    have : ∀ x < 7, ∀ y < 7, exDynMat.get x y = .ok (exDynD x y) := by decide +kernel
    exact this x hx y hy⟩

theorem exDynD_dissim : Dissim 7 exDynD := ⟨by decide +kernel, fun _ _ _ _ => Nat.zero_le _⟩

/-- **C37, finding.** Five medoids at the start: the best solution found has four medoids and reports 37/42,
but its medoid silhouette is 71/84. In `update_third_nearest_without_new` (src/dynmsc.rs:151-178) the label `b` stands
for "nothing found yet", but it is also a valid position after the last medoid has moved there. -/
theorem C37_negation : ¬ C37_full := by
  intro h
  have := h exDynMat 7 exDynD exDynMat_isMatrix exDynD_dissim [4, 6, 1, 2, 5]
    ⟨⟨by decide, by decide, by decide, by decide⟩, by decide⟩ (by decide) (by decide) 3 10
    ⟨37 / 42, [1, 2, 3, 0, 1, 0, 1], 6, 3, [5, 6, 1, 2], [11 / 14, 37 / 42, 5 / 6]⟩ (by decide +kernel)
  revert this
  decide +kernel

/-- The full C38 statement, in observable form: no swaps, one medoid is dropped. False, see `C38_negation`. -/
def C38_full : Prop := ∀ (mat : Mat ℕ) (n : Nat) (d : Nat → Nat → ℕ), IsMatrix mat n d → Dissim n d →
  ∀ med : List Nat, ValidMeds n med → med.Nodup → 3 ≤ med.length → ∀ r : DynResult ℚ,
    dynmsc ℚ mat med (med.length - 1) 0 = .ok r → ∀ b, b < med.length →
      ∀ l, r.losses[0]? = some l → medSil (conv : ℕ → ℚ) n d (med.eraseIdx b) ≤ l

/-- **C38, finding.** The medoids 0, 3, 5: to drop 5 gives 61/72, to drop 0 gives 155/216, to drop 3 gives
19/27 = 152/216, the worst. The code drops 3 (src/dynmsc.rs:115-120). -/
theorem C38_negation : ¬ C38_full := by
  intro h
  have := h exMat 6 exD exMat_isMatrix exD_dissim [0, 3, 5] (ex_valid (by decide) (by decide) (by decide))
    (by decide) (by decide)
    ⟨11 / 12, [0, 0, 0, 1, 1, 2], 0, 0, [0, 3, 5], [19 / 27, 11 / 12]⟩ (by decide +kernel) 2 (by decide) (19 / 27) rfl
  revert this
  decide +kernel

/-- The full C35 statement for DynMSC; false, see `C35_dynmsc_negation`. -/
def C35_dynmsc_full : Prop := ∀ (mat : Mat ℕ) (n : Nat) (d : Nat → Nat → ℕ), IsMatrix mat n d → Dissim n d →
  ∀ c : Nat, ValidMeds n [c] → ∀ (mink maxiter : Nat) (r : DynResult ℚ), dynmsc ℚ mat [c] mink maxiter = .ok r →
    medoidSilhouette ℚ mat r.med false = .ok (r.loss, [])

theorem C35_dynmsc_negation : ¬ C35_dynmsc_full := by
  intro h
  have := h exMat 6 exD exMat_isMatrix exD_dissim 5 (ex_valid (by decide) (by decide) (by decide)) 1 9
    ⟨20, [0, 0, 0, 0, 0, 0], 1, 1, [2], [20]⟩ (by decide +kernel)
  revert this
  decide +kernel

/-! ## concrete cases -/

/-- Four medoids down to one; `losses` are those for 1, 2, 3 and 4 medoids. FasterMSC from the same medoids has
the same loss as the last. -/
example : ValidMeds 6 [0, 1, 2, 3] ∧ ([0, 1, 2, 3] : List Nat).Nodup ∧
    dynmsc ℚ exMat [0, 1, 2, 3] 1 9 =
      .ok ⟨23 / 24, [1, 1, 2, 3, 3, 0], 6, 5, [5, 1, 2, 4], [0, 13 / 15, 14 / 15, 23 / 24]⟩ :=
  ⟨ex_valid (by decide) (by decide) (by decide), by decide, by decide +kernel⟩

/-- Only three medoids asked for. -/
example : dynmsc ℚ exMat [0, 1, 2] 3 9 = .ok ⟨14 / 15, [1, 1, 1, 0, 0, 2], 2, 3, [4, 1, 5], [14 / 15]⟩ ∧
    fastermsc ℚ exMat [0, 1, 2] 9 = .ok ⟨14 / 15, [1, 1, 1, 0, 0, 2], 2, 3, [4, 1, 5]⟩ :=
  ⟨by decide +kernel, by decide +kernel⟩

/-- C47 with distances that do not compare (NaN), and saturating losses. -/
example : dynmsc Toy (ofRows [[some 0, none, some 2], [none, some 0, some 1], [some 2, some 1, some 0]] : Mat Toy)
    [0, 1, 2] 1 9 = .ok ⟨some 1, [0, 1, 2], 10, 18, [0, 1, 2], [some 0, none, some 1]⟩ := by decide +kernel

/-- Why C36 needs exact arithmetic and a zero diagonal: without any solution that is better than zero the
initial value `vec![0, n]` (src/dynmsc.rs:80) is returned as assignment, which has two entries. -/
example : dynmsc ℚ (ofRows [[5, 5, 5], [5, 5, 5], [5, 5, 5]] : Mat ℕ) [0, 1, 2] 3 9 =
    .ok ⟨0, [0, 3], 1, 0, [0, 1, 2], [0]⟩ := by decide +kernel

end KMedoids
