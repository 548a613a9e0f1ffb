import Verif.Proofs.PamSilExact
import Verif.Proofs.RelErr

/-! # The scan and the loop of PAMSIL when the silhouettes are finite numbers

As in `PamSilExact.lean`, but only comparisons of finite numbers are exact; nothing is assumed about the arithmetic. -/

set_option linter.unusedSectionVars false

namespace KMedoids

variable {N L K : Type} [RDist N] [RLoss L] [RFrom N L] [Field K] [LinearOrder K] [IsStrictOrderedRing K]
variable {fin : L → Prop} {val : L → K} {u B : K} {n k m : Nat} {d : Nat → Nat → N} {med assi : List Nat}

theorem StdModel.rle_iff (M : StdModel fin val u B) {a b : L} (ha : fin a) (hb : fin b) :
    rle a b = true ↔ val a ≤ val b := by
  unfold rle
  rw [M.pcmp a b ha hb]
  rcases lt_trichotomy (val a) (val b) with h | h | h
  · simp [compare_lt_iff_lt.mpr h, h.le]
  · simp [h]
  · simp [compare_gt_iff_gt.mpr h, h]

/-- All silhouettes are finite. -/
def SilFin (fin : L → Prop) (n : Nat) (d : Nat → Nat → N) : Prop :=
  ∀ med, ValidMeds n med → fin (silM L d n med)

theorem psBest_fin (M : StdModel fin val u B) (H : SilFin fin n d) (hv : ValidMeds n med) {b : L × Nat × Nat}
    (hb : PSBest d n k med b) : fin b.1 := by
  rcases hb with rfl | ⟨-, h2, h3⟩
  · exact M.zero_fin
  · rw [h3]; exact H _ (hv.set _ h2)

theorem psStepP_monoF (M : StdModel fin val u B) (H : SilFin fin n d) (hv : ValidMeds n med) {pre : List Nat}
    {st : PSScan L} (h : PSIn d n k med m pre st) (medm : Nat) {j : Nat} (hj : j < n) :
    val st.best.1 ≤ val (psStepP d n m medm st j).best.1 := by
  unfold psStepP
  split
  · exact le_rfl
  · dsimp only
    split
    · exact le_rfl
    · rename_i h1
      rw [h.set, M.rle_iff (H _ (hv.set m hj)) (psBest_fin M H hv h.best)] at h1
      rw [h.set]
      exact (not_le.mp h1).le

theorem psStepP_triedF (M : StdModel fin val u B) (H : SilFin fin n d) (hv : ValidMeds n med) (hk : med.length = k)
    (hmk : m < k) {pre : List Nat} {st : PSScan L} (h : PSIn d n k med m pre st) (hok : PSOk n k st) {j : Nat}
    (hj : j < n) (hpre : j ∉ pre) (hjm : j ∉ med) :
    val (silM L d n (med.set m j)) ≤ val (psStepP d n m (med.getD m 0) st j).best.1 := by
  have hml : m < med.length := hk ▸ hmk
  have h1 : j ≠ med.getD m 0 := fun e => hjm (by
    rw [e, List.getD_eq_getElem?_getD, List.getElem?_eq_getElem hml]; exact List.getElem_mem _)
  have hja : j < st.assi.length := hok.assiLen ▸ hj
  have hla : st.assi[j] < st.med.length := hok.len ▸ hok.label _ (List.getElem_mem hja)
  have h2 : j ≠ st.med.getD (st.assi.getD j 0) 0 := by
    have e1 : st.assi.getD j 0 = st.assi[j] := by simp [List.getD_eq_getElem?_getD, hja]
    have e2 : st.med.getD st.assi[j] 0 = st.med[st.assi[j]] := by simp [List.getD_eq_getElem?_getD, hla]
    rw [e1, e2]
    intro e
    have hmem : j ∈ st.med := e ▸ List.getElem_mem hla
    rcases h.cur with e' | ⟨j', hj', e'⟩
    · exact hjm (e' ▸ hmem)
    · rw [e'] at hmem
      rcases List.mem_or_eq_of_mem_set hmem with h | h
      · exact hjm h
      · exact hpre (h ▸ hj')
  unfold psStepP
  rw [if_neg (by rintro (h | h); exacts [h1 h, h2 h]), h.set]
  dsimp only
  split
  · rename_i h3
    rwa [M.rle_iff (H _ (hv.set m hj)) (psBest_fin M H hv h.best)] at h3
  · exact le_rfl

theorem psMedP_coverF (M : StdModel fin val u B) (H : SilFin fin n d) (hv : ValidMeds n med) (hk : med.length = k)
    (hmk : m < k) {st : PSScan L} (hst : st.med = med) (hb : PSBest d n k med st.best) (hok : PSOk n k st) :
    val st.best.1 ≤ val (psMedP d n st m).best.1 ∧
    ∀ j, j < n → j ∉ med → val (silM L d n (med.set m j)) ≤ val (psMedP d n st m).best.1 := by
  have h := foldl_prefix (fun pre s => (PSIn (L := L) d n k med m pre s ∧ PSOk n k s) ∧
      val st.best.1 ≤ val s.best.1 ∧
      ∀ j ∈ pre, j ∉ med → val (silM L d n (med.set m j)) ≤ val s.best.1)
    (g := psStepP d n m (st.med.getD m 0)) (xs := List.range n)
    (fun pre x post s he hs => by
      have hx : x < n := by
        have : x ∈ List.range n := by rw [he]; simp
        exact List.mem_range.mp this
      have hxp : x ∉ pre := by
        have := List.nodup_range (n := n)
        rw [he, List.nodup_append] at this
        exact fun hx' => this.2.2 x hx' x (by simp) rfl
      have hmono := psStepP_monoF M H hv hs.1.1 (st.med.getD m 0) hx
      refine ⟨⟨psStepP_in hmk hs.1.1 hx _, psStepP_psok d hs.1.2 _ _ hx⟩, hs.2.1.trans hmono, fun j hj hjm => ?_⟩
      rcases List.mem_append.mp hj with hj | hj
      · exact (hs.2.2 j hj hjm).trans hmono
      · rw [List.mem_singleton.mp hj] at hjm ⊢
        rw [hst]
        exact psStepP_triedF M H hv hk hmk hs.1.1 hs.1.2 hx hxp hjm) (s := st)
    ⟨⟨⟨.inl hst, hb⟩, hok⟩, le_rfl, by simp⟩
  exact ⟨h.2.1, fun j hj => h.2.2 j (List.mem_range.mpr hj)⟩

/-- The scan finds a best exchange if that has a positive silhouette. -/
theorem psScanP_coverF (M : StdModel fin val u B) (H : SilFin fin n d) (hv : ValidMeds n med) (hk : med.length = k)
    (hl : assi.length = n) (hlab : ∀ a ∈ assi, a < k) :
    let st := psScanP (L := L) d n k med assi
    PSOk n k st ∧ 0 ≤ val st.best.1 ∧
    ∀ m j, m < k → j < n → j ∉ med → val (silM L d n (med.set m j)) ≤ val st.best.1 := by
  have h := foldl_prefix (fun pre s => (s.med = med ∧ PSBest (L := L) d n k med s.best ∧ PSOk n k s) ∧
      0 ≤ val s.best.1 ∧ ∀ m ∈ pre, ∀ j, j < n → j ∉ med → val (silM L d n (med.set m j)) ≤ val s.best.1)
    (g := psMedP d n) (xs := List.range k)
    (fun pre x post s he hs => by
      have hx : x < k := by
        have : x ∈ List.range k := by rw [he]; simp
        exact List.mem_range.mp this
      obtain ⟨⟨a1, a2, a3⟩, a4, a5⟩ := hs
      obtain ⟨c1, c2⟩ := psMedP_spec hx hk a1 a2
      obtain ⟨b2, b4⟩ := psMedP_coverF M H hv hk hx a1 a2 a3
      refine ⟨⟨c1, c2, psMedP_psok d a3 hx⟩, a4.trans b2, fun m hm j hj hjm => ?_⟩
      rcases List.mem_append.mp hm with hm | hm
      · exact (a5 m hm j hj hjm).trans b2
      · rw [List.mem_singleton.mp hm]; exact b4 j hj hjm)
    (s := ⟨med, assi, ((RLoss.zero : L), k, usizeMax)⟩)
    ⟨⟨rfl, .inl rfl, hv, hk, hl, hlab⟩, le_of_eq M.zero.symm, by simp⟩
  exact ⟨h.1.2.2, h.2.1, fun m j hm => h.2.2 m (List.mem_range.mpr hm) j⟩

/-- The main loop. -/
theorem psLoopP_float (M : StdModel fin val u B) (H : SilFin fin n d) (hv : ValidMeds n med) (hk : med.length = k)
    (hl : assi.length = n) (hlab : ∀ a ∈ assi, a < k) {fuel iter : Nat} {sil : L} (hsil : fin sil) {nSwaps : Nat}
    {r : L × List Nat × Nat × Nat} (hr : psLoopP d n k fuel iter sil med assi nSwaps = .ok r) :
    val sil ≤ val r.1 ∧ (nSwaps < r.2.2.2 → val sil < val r.1) ∧
    (r.2.2.1 < iter + fuel → ∀ m j, m < k → j < n → j ∉ r.2.1 → val (silM L d n (r.2.1.set m j)) ≤ val r.1) := by
  induction fuel generalizing iter sil med assi nSwaps with
  | zero => cases hr; exact ⟨le_rfl, fun h => absurd h (lt_irrefl _), fun h => absurd h (by simp)⟩
  | succ fuel ih =>
    obtain ⟨h1, h3, h4⟩ := psScanP_coverF M H hv hk hl hlab
    obtain ⟨-, h6⟩ := psScanP_spec (L := L) (d := d) (n := n) hk assi
    have hbf := psBest_fin M H hv h6
    unfold psLoopP at hr
    dsimp only at hr
    split at hr
    · rename_i hle
      rw [M.rle_iff hbf hsil] at hle
      cases hr
      exact ⟨le_rfl, fun h => absurd h (lt_irrefl _), fun _ m j hm hj hjm => (h4 m j hm hj hjm).trans hle⟩
    · rename_i hle
      rw [M.rle_iff hbf hsil, not_le] at hle
      rcases h6 with e | ⟨b1, b2, b3⟩
      · rw [e] at hr
        have : setIdx med k usizeMax = .error .index := by simp [setIdx, hk]
        rw [this] at hr; cases hr
      · rw [setIdx_lt (hk ▸ b1), ok_bind] at hr
        obtain ⟨i1, -, i3⟩ := ih (hv.set _ b2) (by simp [hk]) h1.assiLen h1.label hbf hr
        exact ⟨hle.le.trans i1, fun _ => hle.trans_le i1, fun h => i3 (by omega)⟩

/-- The loop returns from a non-negative silhouette, or if some exchange has a positive one. -/
theorem psLoopP_totalF (M : StdModel fin val u B) (H : SilFin fin n d) (hv : ValidMeds n med) (hk : med.length = k)
    (hl : assi.length = n) (hlab : ∀ a ∈ assi, a < k) {fuel iter : Nat} {sil : L} (hsil : fin sil) {nSwaps : Nat}
    (h0 : 0 ≤ val sil ∨ ∃ m j, m < k ∧ j < n ∧ j ∉ med ∧ 0 < val (silM L d n (med.set m j))) :
    ∃ r, psLoopP d n k fuel iter sil med assi nSwaps = .ok r := by
  induction fuel generalizing iter sil med assi nSwaps with
  | zero => exact ⟨_, rfl⟩
  | succ fuel ih =>
    obtain ⟨h1, h3, h4⟩ := psScanP_coverF M H hv hk hl hlab
    obtain ⟨-, h6⟩ := psScanP_spec (L := L) (d := d) (n := n) hk assi
    have hbf := psBest_fin M H hv h6
    unfold psLoopP
    dsimp only
    split
    · exact ⟨_, rfl⟩
    · rename_i hle
      rw [M.rle_iff hbf hsil, not_le] at hle
      have hpos : 0 < val (psScanP (L := L) d n k med assi).best.1 := by
        rcases h0 with h0 | ⟨m, j, hm, hj, hjm, h0⟩
        · exact h0.trans_lt hle
        · exact h0.trans_le (h4 m j hm hj hjm)
      rcases h6 with e | ⟨b1, b2, b3⟩
      · rw [e, M.zero] at hpos; exact absurd hpos (lt_irrefl _)
      · rw [setIdx_lt (hk ▸ b1), ok_bind]
        exact ih (hv.set _ b2) (by simp [hk]) h1.assiLen h1.label hbf (.inl hpos.le)

end KMedoids
