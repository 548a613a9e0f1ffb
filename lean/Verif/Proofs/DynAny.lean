import Verif.Proofs.DynExact
import Verif.Proofs.BitK2

/-!
# DynMSC with an arbitrary loss arithmetic

Level 2: linearly ordered distances, nothing known about the arithmetic of the loss, except for the last section, which
assumes that the comparisons of silhouettes agree with a linear order.
-/

set_option linter.unusedSectionVars false

namespace KMedoids

variable {N L : Type} [LinearOrder N] [Zero N] [RDist N] [LawfulDist N] [RLoss L] [RFrom N L]
open RFrom (conv)

theorem mscLossP_remove_any {n : Nat} {d : Nat → Nat → N} (hd : Dissim n d) {med : List Nat} {data : List (Reco N)}
    {b : Nat} (hr : ∀ m ∈ med, m < n) (hb : b < med.length) (hk : 3 ≤ med.length) (h : MCache n d med data) :
    mscLossP L (removeDataP d med data b) = leftSum (silTerms L n d (removeListP med b)) := by
  have hlen : (removeDataP d med data b).length = n := by simp [removeDataP, h.len]
  rw [mscLossP, sumP_leftSum, ← map_zipIdx_fst (removeDataP d med data b) (fun r => mscLoss L r.near.d r.seco.d),
    silTerms, ← hlen, ← zipIdx_snd_range (removeDataP d med data b) (silTerm L d (removeListP med b))]
  congr 1
  refine List.map_congr_left fun p hp => ?_
  have h2 := (removeDataP_top2 hb hk h p.2 p.1 (mem_zipIdx_get hp)).twoMin
  refine mscLoss_term h2 ?_
  obtain ⟨m, hm, e⟩ := List.mem_map.mp h2.mem.1
  rw [← e]
  exact hd.nonneg _ _ (hlen ▸ mem_zipIdx_lt hp) (hr m (removeListP_mem hb m hm))

/-- Medoids, cache and loss are right. -/
def DExA (n : Nat) (d : Nat → Nat → N) (s : DynState N L) : Prop := MInvA n s.med.length d s.med s.data s.loss

theorem dynSwapP_any {n : Nat} {d : Nat → Nat → N} (hd : Dissim n d) {s : DynState N L} (h : DExA n d s)
    (hk : 3 ≤ s.med.length) (hku : s.med.length < u32Max) (hrem : s.rem.length = s.med.length) (maxiter : Nat) :
    MInvA n s.med.length d (dynSwapP d n maxiter s).1.med (dynSwapP d n maxiter s).1.data
      (dynSwapP d n maxiter s).1.loss := by
  have : MSCA n s.med.length d (dynSwapP d n maxiter s).1 := by
    refine (loopG_inv (MSCA n s.med.length d) (fun s' hs => ?_) (fuel := maxiter) (iter := 0)
      (s := ⟨s.med, s.data, mscRemP L s.data s.rem.length, s.loss, n, 0⟩) ⟨h, by rw [mscRemP_length, hrem]⟩).1
    refine passG_inv (MSCA n s.med.length d) (fun s j s' hj hs hc => ?_) hs
    exact mscCandP_A hd (by omega) hku (List.mem_range.mp hj) hs hc
  exact this.inv

/-- What is known about the best solution so far. -/
structure RetOkA (n : Nat) (d : Nat → Nat → N) (k0 minK : Nat) (s : DynState N L) : Prop where
  idx : ∃ i, s.retLoss[i]? = some s.bestLoss ∧ s.med.length < i + minK
  assiLen : s.retAssi.length = n
  label : ∀ a ∈ s.retAssi, a < s.retMeds.length
  range : ∀ m ∈ s.retMeds, m < n
  nodup : s.retMeds.Nodup
  own : ∀ m o : Nat, s.retMeds[m]? = some o → s.retAssi[o]? = some m
  three : 3 ≤ s.retMeds.length
  min : minK ≤ s.retMeds.length
  le : s.retMeds.length ≤ k0
  right : k0 ≤ 4 ∨ s.retMeds.length = k0 →
    s.bestLoss = toSilhouette (leftSum (silTerms L n d s.retMeds)) n ∧ NearestAssignment n d s.retMeds s.retAssi

/-- Invariant of the rounds. `F` is the loss of the first round. -/
structure DynInvA (n : Nat) (d : Nat → Nat → N) (k0 minK : Nat) (F : L) (s : DynState N L) : Prop where
  shape : DynShape n k0 minK s
  own : MOwn n s.med s.data
  ex : s.med.length = k0 ∨ k0 ≤ 4 ∧ 3 ≤ s.med.length → DExA n d s
  start : s.med.length = k0 → s.bestLoss = RLoss.zero
  ret : s.med.length < k0 → rgt F RLoss.zero = true → RetOkA n d k0 minK s
  first : s.med.length < k0 → s.retLoss[k0 - minK]? = some F

theorem MOwn.labels {n : Nat} {med : List Nat} {data : List (Reco N)} (h : MOwn n med data) (hr : ∀ m ∈ med, m < n)
    (m o : Nat) (hm : med[m]? = some o) : (data.map (·.near.i))[o]? = some m := by
  have ho : o < data.length := by rw [h.len]; exact hr o (List.mem_of_getElem? hm)
  rw [List.getElem?_map, List.getElem?_eq_getElem ho, Option.map_some,
    (h.own m o _ hm (List.getElem?_eq_getElem ho)).1]

theorem dynRoundP_any {n k0 minK : Nat} {d : Nat → Nat → N} (hd : Dissim n d) (hn0 : 0 < n) (hku : k0 < u32Max)
    {mat : Mat N} (hm : IsMatrix mat n d) (maxiter : Nat) {F : L} {s : DynState N L}
    (hF : s.med.length = k0 → F = toSilhouette (dynSwapP d n maxiter s).1.loss n)
    (h : DynInvA n d k0 minK F s) (h3 : 3 ≤ s.med.length) (hmin : minK ≤ s.med.length) :
    DynInvA n d k0 minK F (dynRoundP d n maxiter minK s) := by
  obtain ⟨-, hshape, hlen, hsw, -⟩ := dynRound_eq hm hn0 hku h.shape h3 hmin maxiter
  have hk : s.med.length < u32Max := lt_of_le_of_lt h.shape.le hku
  have hle := h.shape.le
  have hb : (chooseRemoval (dynSwapP d n maxiter s).1.rem).2 < s.med.length := by
    have := chooseRemoval_lt (rem := (dynSwapP d n maxiter s).1.rem) (by rw [hsw.remLen]; omega)
    rwa [hsw.remLen] at this
  have hbm : (chooseRemoval (dynSwapP d n maxiter s).1.rem).2 < (dynSwapP d n maxiter s).1.med.length := by
    rw [hsw.shape.medLen]; exact hb
  have hown : MOwn n (dynSwapP d n maxiter s).1.med (dynSwapP d n maxiter s).1.data :=
    mscLoopP_mown hd hk (by omega) (h.shape.msc h3) h.own
  have hex := fun h' => dynSwapP_any hd (h.ex h') h3 hk h.shape.remLen maxiter
  have hset : s.med.length - minK < s.retLoss.length := by rw [h.shape.retLen]; omega
  generalize hs' : dynRoundP d n maxiter minK s = s' at *
  have eb : s'.bestLoss = if rgt (toSilhouette (dynSwapP d n maxiter s).1.loss n) s.bestLoss then
      toSilhouette (dynSwapP d n maxiter s).1.loss n else s.bestLoss := by rw [← hs']; rfl
  have em : s'.retMeds = if rgt (toSilhouette (dynSwapP d n maxiter s).1.loss n) s.bestLoss then
      (dynSwapP d n maxiter s).1.med else s.retMeds := by rw [← hs']; rfl
  have ea : s'.retAssi = if rgt (toSilhouette (dynSwapP d n maxiter s).1.loss n) s.bestLoss then
      (dynSwapP d n maxiter s).1.data.map (·.near.i) else s.retAssi := by rw [← hs']; rfl
  have el : s'.retLoss = s.retLoss.set (s.med.length - minK)
      (toSilhouette (dynSwapP d n maxiter s).1.loss n) := by rw [← hs']; rfl
  refine ⟨hshape, ?_, ?_, ?_, ?_, ?_⟩
  · rw [← hs']; exact removeDataP_mown d hbm hown
  · intro h'
    rcases h' with h' | ⟨h', h''⟩
    · omega
    · have h4 : s.med.length = 4 := by omega
      have hi := hex (Or.inr ⟨h', h3⟩)
      have hl4 : (dynSwapP d n maxiter s).1.med.length = 4 := by rw [hsw.shape.medLen, h4]
      have hc := removeDataP_cache hd hi.medRange hi.nodup hbm hl4 hi.cache
      rw [← hs']
      exact ⟨rfl, fun m hmem => hi.medRange m (removeListP_mem hbm m hmem), removeListP_nodup hbm hi.nodup, hc,
        mscLossP_remove_any hd hi.medRange hbm (by omega) hi.cache⟩
  · intro h'; omega
  · intro _ hpos
    by_cases hc : rgt (toSilhouette (dynSwapP d n maxiter s).1.loss n) s.bestLoss = true
    · simp only [hc, if_true] at eb em ea
      refine ⟨?_, ?_, ?_, ?_, ?_, ?_, ?_, ?_, ?_, ?_⟩
      · exact ⟨s.med.length - minK, by rw [el, eb, List.getElem?_set_self hset], by omega⟩
      · rw [ea]; simp [hown.len]
      · rw [ea, em]
        intro a ha
        obtain ⟨r, hr, rfl⟩ := List.mem_map.mp ha
        rw [hsw.shape.medLen]; exact (hsw.shape.recs r hr).near
      · rw [em]; exact hsw.shape.medRange
      · rw [em]; exact hown.nodup
      · rw [em, ea]; exact hown.labels hsw.shape.medRange
      · rw [em, hsw.shape.medLen]; exact h3
      · rw [em, hsw.shape.medLen]; exact hmin
      · rw [em, hsw.shape.medLen]; exact hle
      · rw [em, eb, ea, hsw.shape.medLen]
        intro h'
        have h'' : s.med.length = k0 ∨ k0 ≤ 4 ∧ 3 ≤ s.med.length := by omega
        have hi := hex h''
        exact ⟨by rw [hi.loss], hi.cache.assignment hi.medRange⟩
    · simp only [hc, if_false, Bool.false_eq_true] at eb em ea
      have hne : s.med.length ≠ k0 := by
        intro h'
        rw [h.start h', ← hF h'] at hc
        exact hc hpos
      obtain ⟨⟨i, g2, g3⟩, g4, g5, g6, g7, g7', g8, g9, g10, g11⟩ := h.ret (by omega) hpos
      refine ⟨⟨i, ?_, by omega⟩, by rw [ea]; exact g4, by rw [ea, em]; exact g5, by rw [em]; exact g6,
        by rw [em]; exact g7, by rw [em, ea]; exact g7', by rw [em]; exact g8, by rw [em]; exact g9,
        by rw [em]; exact g10, ?_⟩
      · rw [el, eb, List.getElem?_set_ne (by omega), g2]
      · rw [em, eb, ea]; exact g11
  · intro _
    by_cases h' : s.med.length = k0
    · rw [el, h', hF h', List.getElem?_set_self (by rw [h'] at hset; exact hset)]
    · rw [el, List.getElem?_set_ne (by omega)]
      exact h.first (by omega)

theorem dynInitP_any {n : Nat} {d : Nat → Nat → N} (hd : Dissim n d) {med : List Nat} (hv : ValidMeds n med)
    (hnd : med.Nodup) (hk : 2 ≤ med.length) (minK : Nat) (F : L) :
    DynInvA n d med.length minK F (dynInitP L d n med minK) := by
  have hi := MInvA.init (L := L) hd hv hnd hk
  exact ⟨dynInitP_shape d hv hk minK, hi.cache.mown hd hv.range hnd, fun _ => hi, fun _ => rfl,
    fun h => absurd h (lt_irrefl _), fun h => absurd h (lt_irrefl _)⟩

theorem dynLoopP_any {n k0 minK : Nat} {d : Nat → Nat → N} (hd : Dissim n d) (hn0 : 0 < n) (hku : k0 < u32Max)
    {mat : Mat N} (hm : IsMatrix mat n d) (maxiter : Nat) {F : L} {fuel : Nat} {s : DynState N L}
    (hs : DynInvA n d k0 minK F s)
    (hF : 3 ≤ s.med.length → s.med.length = k0 → F = toSilhouette (dynSwapP d n maxiter s).1.loss n) :
    DynInvA n d k0 minK F (dynLoopP d n maxiter minK fuel s) := by
  induction fuel generalizing s with
  | zero => exact hs
  | succ fuel ih =>
    unfold dynLoopP
    split
    · rename_i hc
      refine ih (dynRoundP_any hd hn0 hku hm maxiter (hF hc.1) hs hc.1 hc.2) fun _ h' => ?_
      have := (dynRound_eq hm hn0 hku hs.shape hc.1 hc.2 maxiter).2.2.1
      have := hs.shape.le
      omega
    · exact hs

/-- What a run of `dynmsc` delivers whose first solution is recognised as positive. -/
structure DynAns (n : Nat) (d : Nat → Nat → N) (k0 minK : Nat) (r : DynResult L) : Prop where
  mem : r.loss ∈ r.losses
  assiLen : r.assi.length = n
  label : ∀ a ∈ r.assi, a < r.med.length
  range : ∀ m ∈ r.med, m < n
  nodup : 3 ≤ r.med.length ∨ MonoQuot N L ∨ NoDuplicates n d → r.med.Nodup
  own : 3 ≤ r.med.length → ∀ m o : Nat, r.med[m]? = some o → r.assi[o]? = some m
  two : 2 ≤ r.med.length
  min : minK ≤ r.med.length
  le : r.med.length ≤ k0
  right : k0 ≤ 4 ∨ r.med.length = k0 ∨ r.med.length = 2 →
    r.loss = toSilhouette (leftSum (silTerms L n d r.med)) n ∧
      ∀ o m : Nat, r.assi[o]? = some m → IsNearest d r.med o m

theorem dynFinishP_any {n k0 minK : Nat} {d : Nat → Nat → N} (hd : Dissim n d) (maxiter : Nat) {F : L}
    {s : DynState N L} (h : DynInvA n d k0 minK F s) (hend : ¬ (3 ≤ s.med.length ∧ minK ≤ s.med.length))
    (hmk : minK ≤ k0) (h1 : 1 ≤ minK)
    (hF : s.med.length = k0 → (fastermscK2P L d n (s.med.getD 0 0) (s.med.getD 1 0) maxiter).loss = F) :
    (rgt F RLoss.zero = true → DynAns n d k0 minK (dynFinishP d n maxiter minK s)) ∧
      (dynFinishP d n maxiter minK s).losses[k0 - minK]? = some F := by
  have h2 := h.shape.two
  have hle := h.shape.le
  by_cases hm2 : minK ≤ 2
  · have hl : s.med.length = 2 := by omega
    have e := list_two hl
    have hr0 : s.med.getD 0 0 < n := h.shape.medRange _ (by rw [e]; simp)
    have hr1 : s.med.getD 1 0 < n := h.shape.medRange _ (by rw [e]; simp)
    have hne : s.med.getD 0 0 ≠ s.med.getD 1 0 := by
      have := h.own.nodup; rw [e] at this; simpa using this
    have hA := k2LoopP_A (L := L) hd hr0 hr1 maxiter
    have hdis := fun hM => (k2LoopP_distinct (L := L) hd hM hr0 hr1 hne maxiter).nodup
    have hset : 2 - minK < s.retLoss.length := by rw [h.shape.retLen]; omega
    obtain ⟨K, hK⟩ : ∃ K, K = fastermscK2P L d n (s.med.getD 0 0) (s.med.getD 1 0) maxiter := ⟨_, rfl⟩
    have hKl : K.loss = toSilhouette (leftSum (silTerms L n d K.med)) n := by
      rw [hK]
      show toSilhouette _ n = _
      rw [hA.loss]
      rfl
    have hK2 : K.med.length = 2 := by rw [hK]; exact hA.shape.medLen
    have hKr : ∀ m ∈ K.med, m < n := by rw [hK]; exact hA.shape.medRange
    have hKa : K.assi.length = n := by rw [hK]; exact hA.shape.assiLen
    have hKn : ∀ o m : Nat, K.assi[o]? = some m → IsNearest d K.med o m := by rw [hK]; exact hA.nearest
    have hKd : MonoQuot N L ∨ NoDuplicates n d → K.med.Nodup := by rw [hK]; exact hdis
    rw [← hK] at hF
    have hfin : dynFinishP d n maxiter minK s =
        ⟨if rgt K.loss s.bestLoss then K.loss else s.bestLoss,
         if rgt K.loss s.bestLoss then K.assi else s.retAssi, s.retIter + K.nIter, s.retSwaps + K.nSwap,
         if rgt K.loss s.bestLoss then K.med else s.retMeds,
         if minK ≤ 1 then (s.retLoss.set (2 - minK) K.loss).set 0 RLoss.zero
         else s.retLoss.set (2 - minK) K.loss⟩ := by
      simp only [dynFinishP, hm2, if_true, dynTwoP, hK]
    rw [hfin]
    -- entries of the loss vector
    have hget : ∀ i, i ≠ 0 ∨ ¬ minK ≤ 1 →
        (if minK ≤ 1 then (s.retLoss.set (2 - minK) K.loss).set 0 RLoss.zero
          else s.retLoss.set (2 - minK) K.loss)[i]? = (s.retLoss.set (2 - minK) K.loss)[i]? := by
      intro i hi
      split
      · rw [List.getElem?_set_ne (by omega)]
      · rfl
    refine ⟨fun hpos => ?_, ?_⟩
    · by_cases hc : rgt K.loss s.bestLoss = true
      · simp only [hc, if_true]
        refine ⟨?_, hKa, ?_, hKr, ?_, ?_, by dsimp only; omega, by dsimp only; omega, by dsimp only; omega, fun _ => ⟨hKl, hKn⟩⟩
        · refine List.mem_of_getElem? (i := 2 - minK) ?_
          dsimp only
          rw [hget _ (by omega), List.getElem?_set_self hset]
        · intro a ha
          obtain ⟨o, ho'⟩ := List.mem_iff_getElem?.mp ha
          exact (hKn o a ho').lt
        · dsimp only
          rintro (h' | h')
          · omega
          · exact hKd h'
        · dsimp only
          intro h'
          omega
      · simp only [hc, if_false, Bool.false_eq_true]
        have hlt : s.med.length < k0 := by
          by_contra h'
          have h' : s.med.length = k0 := by omega
          rw [h.start h', hF h'] at hc
          exact hc hpos
        obtain ⟨⟨i, g2, g3⟩, g4, g5, g6, g7, g7', g8, g9, g10, g11⟩ := h.ret hlt hpos
        refine ⟨?_, g4, g5, g6, fun _ => g7, fun _ => g7', by dsimp only; omega, g9, g10, ?_⟩
        · refine List.mem_of_getElem? (i := i) ?_
          dsimp only
          rw [hget _ (by omega), List.getElem?_set_ne (by omega), g2]
        · intro h'
          dsimp only at h' ⊢
          have := g11 (by omega)
          exact ⟨this.1, this.2.nearest⟩
    · dsimp only
      by_cases hk0 : s.med.length = k0
      · rw [hget _ (by omega), ← hk0, hl, List.getElem?_set_self hset, hF hk0]
      · rw [hget _ (by omega), List.getElem?_set_ne (by omega)]
        exact h.first (by omega)
  · have hm1 : ¬ minK ≤ 1 := by omega
    have hlt : s.med.length < k0 := by omega
    have hfin : dynFinishP d n maxiter minK s =
        ⟨s.bestLoss, s.retAssi, s.retIter, s.retSwaps, s.retMeds, s.retLoss⟩ := by
      simp only [dynFinishP, hm2, hm1, if_false]
    rw [hfin]
    refine ⟨fun hpos => ?_, h.first hlt⟩
    obtain ⟨⟨i, g2, g3⟩, g4, g5, g6, g7, g7', g8, g9, g10, g11⟩ := h.ret hlt hpos
    refine ⟨List.mem_of_getElem? g2, g4, g5, g6, fun _ => g7, fun _ => g7', by dsimp only; omega, g9, g10, ?_⟩
    intro h'
    dsimp only at h' ⊢
    have := g11 (by omega)
    exact ⟨this.1, this.2.nearest⟩

/-- A run with any arithmetic. -/
theorem dynmscP_any {mat : Mat N} {n : Nat} {d : Nat → Nat → N} (hm : IsMatrix mat n d) (hd : Dissim n d)
    {med : List Nat} (hv : ValidMeds n med) (hnd : med.Nodup) (hk : 2 ≤ med.length) {minK : Nat} (h1 : 1 ≤ minK)
    (hmk : minK ≤ med.length) (maxiter : Nat) :
    (rgt (fastermscP L d n med maxiter).loss RLoss.zero = true →
      DynAns n d med.length minK (dynmscP L d n med minK maxiter)) ∧
    (dynmscP L d n med minK maxiter).losses[med.length - minK]? = some (fastermscP L d n med maxiter).loss := by
  have hn0 : 0 < n := lt_of_lt_of_le hv.sizes.pos hv.sizes.le
  have hi := dynInitP_any (L := L) hd hv hnd hk minK (fastermscP L d n med maxiter).loss
  have hl := dynLoopP_any hd hn0 hv.sizes.k_lt hm maxiter (fuel := med.length) hi (fun h3 _ => by
    have h3 : 3 ≤ med.length := h3
    rw [fastermscP_many d n h3, dynSwapP_init]; rfl)
  have he := (dynLoop_eq (L := L) hm hn0 hv.sizes.k_lt maxiter (fuel := med.length)
    (dynInitP_shape d hv hk minK) le_rfl).2.2
  refine dynFinishP_any hd maxiter hl he hmk h1 fun hlen => ?_
  have h2 : med.length = 2 := by
    by_contra h'
    have := hl.shape.two
    omega
  obtain ⟨m0, m1, rfl⟩ := List.length_eq_two.mp h2
  rfl

/-! ## the maximum -/

section order
variable {K : Type} [LinearOrder K]

/-- `>` agrees with a linear order on the values `ok`; silhouettes computed from `n` terms and zero are such values. -/
structure SilOrd (N : Type) [LinearOrder N] [Zero N] [RDist N] [RFrom N L] (n : Nat) (key : L → K) (ok P : L → Prop) :
    Prop where
  gt : ∀ x y, ok x → ok y → (rgt x y = true ↔ key y < key x)
  zero : ok RLoss.zero
  term : ∀ a b : N, 0 ≤ a → 0 ≤ b → P (mscLoss L a b)
  sum : ∀ xs : List L, xs.length = n → (∀ x ∈ xs, P x) → ok (toSilhouette (leftSum xs) n)

/-- All distances of a record are nonnegative. -/
structure RecoPos (r : Reco N) : Prop where
  near : 0 ≤ r.near.d
  seco : 0 ≤ r.seco.d
  third : 0 ≤ r.third.d

theorem foldl_keeps {α β : Type} {I : α → Prop} {g : α → β → α} {xs : List β} (h : ∀ s x, x ∈ xs → I s → I (g s x))
    {s : α} (hs : I s) : I (xs.foldl g s) := by
  induction xs generalizing s with
  | nil => exact hs
  | cons x xs ih => exact ih (fun s y hy => h s y (by simp [hy])) (h s x (by simp) hs)

section pos
variable {n : Nat} {d : Nat → Nat → N}

theorem utnP_pos (hd : Dissim n d) {med : List Nat} (hr : ∀ m ∈ med, m < n) {o : Nat} (ho : o < n) (x y b : Nat) {doj : N}
    (h : 0 ≤ doj) : 0 ≤ (utnP d med x y b o doj).d := by
  refine foldl_keeps (I := fun p : DistancePair N => 0 ≤ p.d) (fun s p hp hs => ?_) h
  split
  · exact hs
  · split
    · exact hd.nonneg _ _ ho (hr _ (mem_zipIdx_mem hp))
    · exact hs

theorem utnwP_pos (hd : Dissim n d) {med : List Nat} (hr : ∀ m ∈ med, m < n) {o : Nat} (ho : o < n) (x y b : Nat) :
    0 ≤ (utnwP d med x y b o).d := by
  refine foldl_keeps (I := fun p : DistancePair N => 0 ≤ p.d) (fun s p hp hs => ?_) (by rw [zeroN])
  split
  · exact hs
  · split
    · exact hd.nonneg _ _ ho (hr _ (mem_zipIdx_mem hp))
    · exact hs

theorem mscSwapRecP_pos (hd : Dissim n d) {med : List Nat} (hr : ∀ m ∈ med, m < n) {b j : Nat} (hj : j < n)
    {p : Reco N × Nat} (ho : p.2 < n) (h : RecoPos p.1) : RecoPos (mscSwapRecP d med b j p) := by
  obtain ⟨h1, h2, h3⟩ := h
  have hz : (0 : N) ≤ RDist.zero := by rw [zeroN]
  have hp := hd.nonneg p.2 j ho hj
  have hu := fun x y => utnP_pos hd hr ho x y b hp
  unfold mscSwapRecP
  split
  · unfold mscSwapRecJ
    split
    · exact ⟨hz, h2, h3⟩
    · split
      · exact ⟨hz, h1, h3⟩
      · exact ⟨hz, h1, h2⟩
  · unfold mscSwapRecG
    repeat' split
    all_goals constructor
    all_goals first
      | assumption
      | exact hu _ _

theorem removeRecP_pos (hd : Dissim n d) {med : List Nat} (hr : ∀ m ∈ med, m < n) (l b : Nat) {p : Reco N × Nat}
    (ho : p.2 < n) (h : RecoPos p.1) : RecoPos (removeRecP d med l b p) := by
  obtain ⟨h1, h2, h3⟩ := h
  have hu := fun x y => utnwP_pos hd hr ho x y b
  unfold removeRecP
  dsimp only
  repeat' split
  all_goals constructor
  all_goals first
    | (rw [relabelP_d]; assumption)
    | exact hu _ _

theorem mscInitDataP_pos (hd : Dissim n d) {med : List Nat} (hr : ∀ m ∈ med, m < n) (hne : med ≠ []) :
    ∀ r ∈ mscInitDataP d n med, RecoPos r := by
  intro r h
  obtain ⟨o, ho, rfl⟩ := List.mem_map.mp h
  have ho := List.mem_range.mp ho
  have hz : (0 : N) ≤ RDist.zero := by rw [zeroN]
  have h0 : 0 ≤ d o (med.headD 0) := by
    cases med with
    | nil => exact absurd rfl hne
    | cons m ms => exact hd.nonneg _ _ ho (hr m (by simp))
  refine foldl_keeps (I := RecoPos) (fun s p hp hs => ?_) ⟨h0, hz, hz⟩
  obtain ⟨h1, h2, h3⟩ := hs
  have hq := hd.nonneg o p.1 ho (hr _ (mem_zipIdx_mem (List.mem_of_mem_drop hp)))
  unfold mscInitStepP
  repeat' split
  all_goals constructor
  all_goals assumption

/-- The loss is a sum of `n` terms `P`. -/
def LossSum (P : L → Prop) (n : Nat) (x : L) : Prop := ∃ xs : List L, xs.length = n ∧ (∀ y ∈ xs, P y) ∧ x = leftSum xs

variable {key : L → K} {ok P : L → Prop}

theorem SilOrd.silTerms (H : SilOrd N n key ok P) (hd : Dissim n d) {med : List Nat} (hr : ∀ m ∈ med, m < n)
    (hk : 2 ≤ med.length) : LossSum P n (leftSum (silTerms L n d med)) := by
  refine ⟨_, by simp [KMedoids.silTerms], fun y hy => ?_, rfl⟩
  obtain ⟨o, ho, rfl⟩ := List.mem_map.mp hy
  have ho := List.mem_range.mp ho
  have h := twoNearestP_twoMin d hk o
  have hp : ∀ x ∈ med.map (d o), 0 ≤ x := fun x hx => by
    obtain ⟨m, hm, rfl⟩ := List.mem_map.mp hx
    exact hd.nonneg _ _ ho (hr m hm)
  rw [← mscLoss_term h (hp _ h.mem.1)]
  exact H.term _ _ (hp _ h.mem.1) (hp _ h.mem.2.1)

theorem SilOrd.mscLoss (H : SilOrd N n key ok P) {data : List (Reco N)} (hl : data.length = n)
    (hp : ∀ r ∈ data, RecoPos r) : LossSum P n (mscLossP L data) := by
  refine ⟨_, ?_, fun y hy => ?_, by rw [mscLossP, sumP_leftSum]⟩
  · rw [List.length_map, hl]
  · obtain ⟨r, hr, rfl⟩ := List.mem_map.mp hy
    exact H.term _ _ (hp r hr).near (hp r hr).seco

/-- Invariant of the exchanges. -/
structure MSCPos (P : L → Prop) (n : Nat) (s : MSCState N L) : Prop where
  range : ∀ m ∈ s.med, m < n
  len : s.data.length = n
  pos : ∀ r ∈ s.data, RecoPos r
  loss : LossSum P n s.loss

theorem mscCandP_pos (H : SilOrd N n key ok P) (hd : Dissim n d) {s s' : MSCState N L} {j : Nat} (hj : j < n)
    (hs : MSCPos P n s) (hc : mscCandP d s j = some s') : MSCPos P n s' := by
  unfold mscCandP at hc
  split at hc
  · cases hc
  · dsimp only at hc
    split at hc
    · cases hc
    · cases hc
      have hr := set_range hs.range (b := (mscFbsP d s.rem s.data j).2) hj
      have hlen : (mscSwapDataP d s.med s.data (mscFbsP d s.rem s.data j).2 j).length = n := by simp [mscSwapDataP, hs.len]
      have hpos : ∀ r ∈ mscSwapDataP d s.med s.data (mscFbsP d s.rem s.data j).2 j, RecoPos r := by
        intro r h
        obtain ⟨p, hp, rfl⟩ := List.mem_map.mp h
        exact mscSwapRecP_pos hd hr hj (hs.len ▸ mem_zipIdx_lt hp) (hs.pos _ (mem_zipIdx_mem hp))
      refine ⟨hr, hlen, hpos, _, ?_, fun y hy => ?_, by rw [mscSwapP, mscSwapSumP, sumP_leftSum]⟩
      · simp [hlen]
      · obtain ⟨p, hp, rfl⟩ := List.mem_map.mp hy
        unfold mscSwapLossP
        split
        · have := H.term 0 0 le_rfl le_rfl
          unfold KMedoids.mscLoss at this
          simpa [LawfulDist.isZero_eq] using this
        · have := hpos _ (mem_zipIdx_mem hp)
          exact H.term _ _ this.near this.seco

theorem dynSwapP_pos (H : SilOrd N n key ok P) (hd : Dissim n d) {s : DynState N L} (hr : ∀ m ∈ s.med, m < n)
    (hl : s.data.length = n) (hp : ∀ r ∈ s.data, RecoPos r) (hs : LossSum P n s.loss) (maxiter : Nat) :
    MSCPos P n (dynSwapP d n maxiter s).1 := by
  refine (loopG_inv (MSCPos P n) (fun s' hs => ?_) (fuel := maxiter) (iter := 0)
    (s := ⟨s.med, s.data, mscRemP L s.data s.rem.length, s.loss, n, 0⟩) ⟨hr, hl, hp, hs⟩).1
  exact passG_inv (MSCPos P n) (fun s j s' hj hs hc => mscCandP_pos H hd (List.mem_range.mp hj) hs hc) hs

/-- Invariant of the rounds: the best silhouette is the largest. -/
structure DynBnd (n : Nat) (key : L → K) (ok P : L → Prop) (s : DynState N L) : Prop where
  pos : ∀ r ∈ s.data, RecoPos r
  loss : LossSum P n s.loss
  okBest : ok s.bestLoss
  zero : key RLoss.zero ≤ key s.bestLoss
  bnd : ∀ x ∈ s.retLoss, ok x ∧ key x ≤ key s.bestLoss

theorem best_update (H : SilOrd N n key ok P) {x best : L} (hx : ok x) (hb : ok best) :
    ok (if rgt x best then x else best) ∧ key best ≤ key (if rgt x best then x else best) ∧
      key x ≤ key (if rgt x best then x else best) := by
  have := H.gt x best hx hb
  split
  · rename_i h
    exact ⟨hx, (this.mp h).le, le_rfl⟩
  · rename_i h
    exact ⟨hb, le_rfl, not_lt.mp fun h' => h (this.mpr h')⟩

theorem dynRoundP_bnd (H : SilOrd N n key ok P) (hd : Dissim n d) (hn0 : 0 < n) {k0 minK : Nat} (hku : k0 < u32Max)
    {mat : Mat N} (hm : IsMatrix mat n d) (maxiter : Nat) {s : DynState N L} (hsh : DynShape n k0 minK s)
    (h : DynBnd n key ok P s) (h3 : 3 ≤ s.med.length) (hmin : minK ≤ s.med.length) :
    DynBnd n key ok P (dynRoundP d n maxiter minK s) := by
  obtain ⟨-, -, -, hsw, -⟩ := dynRound_eq hm hn0 hku hsh h3 hmin maxiter
  have hq := dynSwapP_pos H hd hsh.medRange hsh.dataLen h.pos h.loss maxiter
  have hb : (chooseRemoval (dynSwapP d n maxiter s).1.rem).2 < (dynSwapP d n maxiter s).1.med.length := by
    have := chooseRemoval_lt (rem := (dynSwapP d n maxiter s).1.rem) (by rw [hsw.remLen]; omega)
    rw [hsw.shape.medLen]
    rwa [hsw.remLen] at this
  have hpos : ∀ r ∈ (dynRoundP d n maxiter minK s).data, RecoPos r := by
    intro r h
    obtain ⟨p, hp, rfl⟩ := List.mem_map.mp h
    exact removeRecP_pos hd (fun m hm => hq.range m (removeListP_mem hb m hm)) _ _ (hq.len ▸ mem_zipIdx_lt hp)
      (hq.pos _ (mem_zipIdx_mem hp))
  obtain ⟨xs, e1, e2, e3⟩ := hq.loss
  have hok : ok (toSilhouette (dynSwapP d n maxiter s).1.loss n) := by rw [e3]; exact H.sum xs e1 e2
  obtain ⟨b1, b2, b3⟩ := best_update H hok h.okBest
  refine ⟨hpos, H.mscLoss (by simp [removeDataP, hq.len]) hpos, b1, h.zero.trans b2, fun x hx => ?_⟩
  rcases List.mem_or_eq_of_mem_set hx with hx | rfl
  · exact ⟨(h.bnd x hx).1, (h.bnd x hx).2.trans b2⟩
  · exact ⟨hok, b3⟩

theorem dynLoopP_bnd (H : SilOrd N n key ok P) (hd : Dissim n d) (hn0 : 0 < n) {k0 minK : Nat} (hku : k0 < u32Max)
    {mat : Mat N} (hm : IsMatrix mat n d) (maxiter : Nat) {fuel : Nat} {s : DynState N L} (hsh : DynShape n k0 minK s)
    (h : DynBnd n key ok P s) : DynBnd n key ok P (dynLoopP d n maxiter minK fuel s) := by
  induction fuel generalizing s with
  | zero => exact h
  | succ fuel ih =>
    unfold dynLoopP
    split
    · rename_i hc
      exact ih (dynRound_eq hm hn0 hku hsh hc.1 hc.2 maxiter).2.1 (dynRoundP_bnd H hd hn0 hku hm maxiter hsh h hc.1 hc.2)
    · exact h

/-- The returned silhouette is the maximum of the list, and zero or more. -/
theorem dynmscP_max (H : SilOrd N n key ok P) {mat : Mat N} (hm : IsMatrix mat n d) (hd : Dissim n d)
    {med : List Nat} (hv : ValidMeds n med) (hk : 2 ≤ med.length) {minK : Nat}
    (hmk : minK ≤ med.length) (maxiter : Nat) :
    ok (dynmscP L d n med minK maxiter).loss ∧ key RLoss.zero ≤ key (dynmscP L d n med minK maxiter).loss ∧
    ∀ x ∈ (dynmscP L d n med minK maxiter).losses, ok x ∧ key x ≤ key (dynmscP L d n med minK maxiter).loss := by
  have hn0 : 0 < n := lt_of_lt_of_le hv.sizes.pos hv.sizes.le
  have hp := mscInitDataP_pos hd hv.range (List.ne_nil_of_length_pos (by omega))
  have hi : DynBnd n key ok P (dynInitP L d n med minK) :=
    ⟨hp, H.mscLoss (by simp [dynInitP, mscInitDataP]) hp, H.zero, le_rfl, fun x hx => by
      have : x = RLoss.zero := List.eq_of_mem_replicate hx
      rw [this]
      exact ⟨H.zero, le_rfl⟩⟩
  have hsh := dynInitP_shape (L := L) d hv hk minK
  have h := dynLoopP_bnd H hd hn0 hv.sizes.k_lt hm maxiter (fuel := med.length) hsh hi
  obtain ⟨-, hsh', hend⟩ := dynLoop_eq (L := L) hm hn0 hv.sizes.k_lt maxiter (fuel := med.length) hsh le_rfl
  unfold dynmscP
  generalize dynLoopP d n maxiter minK med.length (dynInitP L d n med minK) = s at *
  by_cases hm2 : minK ≤ 2
  · have hl : s.med.length = 2 := by have := hsh'.two; omega
    have e := list_two hl
    have hr0 : s.med.getD 0 0 < n := hsh'.medRange _ (by rw [e]; simp)
    have hr1 : s.med.getD 1 0 < n := hsh'.medRange _ (by rw [e]; simp)
    have hA := k2LoopP_A (L := L) hd hr0 hr1 maxiter
    obtain ⟨xs, e1, e2, e3⟩ := H.silTerms hd hA.shape.medRange (by rw [hA.shape.medLen])
    have hok : ok (fastermscK2P L d n (s.med.getD 0 0) (s.med.getD 1 0) maxiter).loss := by
      show ok (toSilhouette _ n)
      rw [hA.loss, e3]
      exact H.sum xs e1 e2
    obtain ⟨b1, b2, b3⟩ := best_update H hok h.okBest
    have hall : ∀ x ∈ (dynTwoP d n maxiter minK s).retLoss, ok x ∧ key x ≤ key (dynTwoP d n maxiter minK s).bestLoss := by
      intro x hx
      rcases List.mem_or_eq_of_mem_set hx with hx | rfl
      · exact ⟨(h.bnd x hx).1, (h.bnd x hx).2.trans b2⟩
      · exact ⟨hok, b3⟩
    have hz : key RLoss.zero ≤ key (dynTwoP d n maxiter minK s).bestLoss := h.zero.trans b2
    simp only [dynFinishP, hm2, if_true]
    refine ⟨b1, hz, fun x hx => ?_⟩
    split at hx
    · rcases List.mem_or_eq_of_mem_set hx with hx | rfl
      · exact hall x hx
      · exact ⟨H.zero, hz⟩
    · exact hall x hx
  · have hm1 : ¬ minK ≤ 1 := by omega
    simp only [dynFinishP, hm2, hm1, if_false]
    exact ⟨h.okBest, h.zero, h.bnd⟩

end pos

end order

end KMedoids
