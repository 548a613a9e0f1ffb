import Verif.Proofs.PurePamSil
import Verif.Proofs.CacheLoops
import Verif.Proofs.Build
import Verif.Proofs.SilExact
import Verif.Proofs.MscLoops

/-! # PAMSIL: nearest labels, exact scan, BUILD -/

set_option linter.unusedSectionVars false

namespace KMedoids

open RFrom (conv)

section dist
variable {N L : Type} [LinearOrder N] [Zero N] [RDist N] [LawfulDist N] [RLoss L] [RFrom N L]

/-- The label is a nearest medoid, also with repeated medoids. -/
theorem nearRecP_nearest {n : Nat} {d : Nat → Nat → N} (hd : Dissim n d) {o : Nat} (ho : o < n)
    {med : List Nat} (hne : med ≠ []) (hr : ∀ m ∈ med, m < n) : IsNearest d med o (nearRecP d med o).1 := by
  obtain ⟨c0, cs, rfl⟩ := List.exists_cons_of_ne_nil hne
  have h : ∀ (post pre : List (Nat × Nat)) (b : Nat × N), (c0 :: cs).zipIdx = pre ++ post →
      (∃ c, (c, b.1) ∈ pre ∧ b.2 = d o c) → (∀ p ∈ pre, b.2 ≤ d o p.1) →
      let r := post.foldl (fun (best : Nat × N) (p : Nat × Nat) =>
        if rlt (d o p.1) best.2 || o == p.1 then (p.2, d o p.1) else best) b
      (∃ c, (c, r.1) ∈ (c0 :: cs).zipIdx ∧ r.2 = d o c) ∧ ∀ p ∈ (c0 :: cs).zipIdx, r.2 ≤ d o p.1 := by
    intro post
    induction post with
    | nil => intro pre b he h1 h2; rw [List.append_nil] at he; rw [he]; exact ⟨h1, h2⟩
    | cons p post ih =>
      intro pre b he h1 h2
      have hp : p ∈ (c0 :: cs).zipIdx := by rw [he]; simp
      rw [List.foldl_cons]
      apply ih (pre ++ [p]) _ (by rw [he]; simp)
      · split
        · exact ⟨p.1, by simp, rfl⟩
        · obtain ⟨c, hc, e⟩ := h1
          exact ⟨c, by simp [hc], e⟩
      · intro q hq
        rcases List.mem_append.mp hq with hq | hq
        · split
          · rename_i h
            simp only [rltN, Bool.or_eq_true, decide_eq_true_eq, beq_iff_eq] at h
            rcases h with h | h
            · exact le_trans (le_of_lt h) (h2 q hq)
            · dsimp only
              rw [← h, hd.diag o ho]
              exact hd.nonneg o _ ho (hr _ (mem_zipIdx_mem (by rw [he]; simp [hq])))
          · exact h2 q hq
        · rw [List.mem_singleton.mp hq]
          split
          · exact le_rfl
          · rename_i h
            simp only [rltN, Bool.or_eq_true, decide_eq_true_eq, beq_iff_eq, not_or] at h
            exact not_lt.mp h.1
  obtain ⟨⟨c, h1, h2⟩, h3⟩ := h (cs.zipIdx 1) [(c0, 0)] (0, d o c0) (by simp [List.zipIdx_cons])
    ⟨c0, by simp, rfl⟩ (by simp)
  have e : nearRecP d (c0 :: cs) o = (cs.zipIdx 1).foldl (fun (best : Nat × N) (p : Nat × Nat) =>
        if rlt (d o p.1) best.2 || o == p.1 then (p.2, d o p.1) else best) (0, d o c0) := by
    simp [nearRecP, List.zipIdx_cons]
  rw [e]
  refine ⟨c, mem_zipIdx_get h1, fun c' hc' => ?_⟩
  obtain ⟨m, hm⟩ := List.mem_iff_getElem?.mp hc'
  have := h3 (c', m) (List.mem_zipIdx_iff_getElem?.mpr hm)
  rw [← h2]; exact this

theorem nearAssiP_nearest {n : Nat} {d : Nat → Nat → N} (hd : Dissim n d) {med : List Nat}
    (hv : ValidMeds n med) {o m : Nat} (h : (nearAssiP d n med)[o]? = some m) : IsNearest d med o m := by
  have ho : o < n := by
    have := (List.getElem?_eq_some_iff.mp h).1
    rwa [nearAssiP_length] at this
  have : (nearRecP d med o).1 = m := by
    simpa [nearAssiP, List.getElem?_range ho] using h
  rw [← this]
  exact nearRecP_nearest hd ho (fun e => by have := hv.sizes.pos; simp [e] at this) hv.range

/-- With distinct medoids every label occurs. -/
theorem nearAssiP_noGap {n : Nat} {d : Nat → Nat → N} (hd : Dissim n d) {med : List Nat}
    (hv : ValidMeds n med) (hnd : med.Nodup) : NoGap (nearAssiP d n med) := by
  intro c c' hc hc'
  have h1 := nearAssiP_label d hv.sizes.pos c' hc'
  have hlt : c < med.length := by omega
  have := (nearAssiP_ok hd hv hnd).own c med[c] (by simp [hlt])
  exact List.mem_of_getElem? this

end dist

/-! ## The scan -/

section any
variable {N L : Type} [RDist N] [RLoss L] [RFrom N L]

theorem psStepP_psok {n k : Nat} (d : Nat → Nat → N) {st : PSScan L} (h : PSOk n k st) (m medm : Nat)
    {j : Nat} (hj : j < n) : PSOk n k (psStepP d n m medm st j) := by
  unfold psStepP
  split
  · exact h
  · have hv := h.valid.set m hj
    refine ⟨hv, by simp [h.len], nearAssiP_length _ _ _, fun a ha => ?_⟩
    have := nearAssiP_label d hv.sizes.pos a ha
    simpa [h.len] using this

theorem psMedP_psok {n k : Nat} (d : Nat → Nat → N) {st : PSScan L} (h : PSOk n k st) {m : Nat} (hmk : m < k) :
    PSOk n k (psMedP d n st m) := by
  have h2 : PSOk n k ((List.range n).foldl (psStepP d n m (st.med.getD m 0)) st) :=
    foldl_inv (PSOk n k) (fun s j hj hs => psStepP_psok d hs _ _ (List.mem_range.mp hj)) h
  have hml : m < st.med.length := h.len ▸ hmk
  refine ⟨h2.valid.set _ (h.valid.range _ ?_), (List.length_set).trans h2.len, h2.assiLen, h2.label⟩
  rw [List.getD_eq_getElem?_getD, List.getElem?_eq_getElem hml]; exact List.getElem_mem _

end any

section scan
variable {N L : Type} [RDist N]
variable [AddCommGroup L] [LinearOrder L] [IsOrderedAddMonoid L] [RLoss L] [LawfulLoss L] [RFrom N L]

theorem rleL' (a b : L) : rle a b = decide (a ≤ b) := by
  simp only [rle, LawfulLoss.pcmp_eq]
  rcases lt_trichotomy a b with h | h | h
  · simp [compare_lt_iff_lt.mpr h, h.le]
  · simp [compare_eq_iff_eq.mpr h, h]
  · simp [compare_gt_iff_gt.mpr h, h]

theorem psStepP_mono (d : Nat → Nat → N) (n m medm : Nat) (st : PSScan L) (j : Nat) :
    st.best.1 ≤ (psStepP d n m medm st j).best.1 := by
  unfold psStepP
  split
  · exact le_rfl
  · dsimp only
    split
    · exact le_rfl
    · rename_i h
      rw [rleL', decide_eq_true_eq] at h
      exact le_of_lt (not_le.mp h)

/-- An object that is no medoid is tried. -/
theorem psStepP_tried {n k : Nat} {d : Nat → Nat → N} {med : List Nat} {m : Nat} (hk : med.length = k)
    (hmk : m < k) {pre : List Nat} {st : PSScan L} (h : PSIn d n k med m pre st) (hok : PSOk n k st) {j : Nat}
    (hj : j < n) (hpre : j ∉ pre) (hjm : j ∉ med) :
    silM L d n (med.set m j) ≤ (psStepP d n m (med.getD m 0) st j).best.1 := by
  have hml : m < med.length := hk ▸ hmk
  have h1 : j ≠ med.getD m 0 := fun e => hjm (by
    rw [e, List.getD_eq_getElem?_getD, List.getElem?_eq_getElem hml]; exact List.getElem_mem _)
  have hja : j < st.assi.length := hok.assiLen ▸ hj
  have hla : st.assi[j] < st.med.length := hok.len ▸ hok.label _ (List.getElem_mem hja)
  have h2 : j ≠ st.med.getD (st.assi.getD j 0) 0 := by
    have e1 : st.assi.getD j 0 = st.assi[j] := by simp [List.getD_eq_getElem?_getD, hja]
    have e2 : st.med.getD st.assi[j] 0 = st.med[st.assi[j]] := by simp [List.getD_eq_getElem?_getD, hla]
    rw [e1, e2]
    intro e
    have hmem : j ∈ st.med := e ▸ List.getElem_mem hla
    rcases h.cur with e' | ⟨j', hj', e'⟩
    · exact hjm (e' ▸ hmem)
    · rw [e'] at hmem
      rcases List.mem_or_eq_of_mem_set hmem with h | h
      · exact hjm h
      · exact hpre (h ▸ hj')
  unfold psStepP
  rw [if_neg (by rintro (h | h); exacts [h1 h, h2 h]), h.set]
  dsimp only
  split
  · rename_i h
    rwa [rleL', decide_eq_true_eq] at h
  · exact le_rfl

/-- The best candidate is the initial one, or has positive silhouette. -/
def PSPos (k : Nat) (b : L × Nat × Nat) : Prop := b = (0, k, usizeMax) ∨ 0 < b.1

theorem psStepP_pos {k : Nat} (d : Nat → Nat → N) (n m medm : Nat) {st : PSScan L} (h : PSPos k st.best)
    (j : Nat) : PSPos k (psStepP d n m medm st j).best := by
  unfold psStepP
  split
  · exact h
  · dsimp only
    split
    · exact h
    · rename_i hlt
      rw [rleL', decide_eq_true_eq, not_le] at hlt
      right
      refine lt_of_le_of_lt ?_ hlt
      rcases h with e | h
      · rw [e]
      · exact le_of_lt h

theorem psMedP_cover {n k : Nat} {d : Nat → Nat → N} {med : List Nat} {m : Nat} (hk : med.length = k)
    (hmk : m < k) {st : PSScan L} (hst : st.med = med) (hb : PSBest d n k med st.best) (hok : PSOk n k st)
    (hp : PSPos k st.best) :
    PSOk n k (psMedP d n st m) ∧ st.best.1 ≤ (psMedP d n st m).best.1 ∧ PSPos k (psMedP d n st m).best ∧
    ∀ j, j < n → j ∉ med → silM L d n (med.set m j) ≤ (psMedP d n st m).best.1 := by
  have h := foldl_prefix (fun pre s => (PSIn (L := L) d n k med m pre s ∧ PSOk n k s) ∧
      st.best.1 ≤ s.best.1 ∧ PSPos k s.best ∧
      ∀ j ∈ pre, j ∉ med → silM L d n (med.set m j) ≤ s.best.1)
    (g := psStepP d n m (st.med.getD m 0)) (xs := List.range n)
    (fun pre x post s he hs => by
      have hx : x < n := by
        have : x ∈ List.range n := by rw [he]; simp
        exact List.mem_range.mp this
      have hxp : x ∉ pre := by
        have := List.nodup_range (n := n)
        rw [he, List.nodup_append] at this
        exact fun hx' => this.2.2 x hx' x (by simp) rfl
      refine ⟨⟨psStepP_in hmk hs.1.1 hx _, psStepP_psok d hs.1.2 _ _ hx⟩,
        le_trans hs.2.1 (psStepP_mono ..), psStepP_pos _ _ _ _ hs.2.2.1 _, fun j hj hjm => ?_⟩
      rcases List.mem_append.mp hj with hj | hj
      · exact le_trans (hs.2.2.2 j hj hjm) (psStepP_mono ..)
      · rw [List.mem_singleton.mp hj] at hjm ⊢
        rw [hst]
        exact psStepP_tried hk hmk hs.1.1 hs.1.2 hx hxp hjm) (s := st)
    ⟨⟨⟨.inl hst, hb⟩, hok⟩, le_rfl, hp, by simp⟩
  obtain ⟨⟨-, h2⟩, h3, h4, h5⟩ := h
  exact ⟨psMedP_psok d hok hmk, h3, h4, fun j hj => h5 j (List.mem_range.mpr hj)⟩

/-- The scan finds a best exchange if that has positive silhouette. -/
theorem psScanP_cover {n k : Nat} {d : Nat → Nat → N} {med assi : List Nat} (hv : ValidMeds n med)
    (hk : med.length = k) (hl : assi.length = n) (hlab : ∀ a ∈ assi, a < k) :
    let st := psScanP (L := L) d n k med assi
    PSOk n k st ∧ PSPos k st.best ∧ 0 ≤ st.best.1 ∧
    ∀ m j, m < k → j < n → j ∉ med → silM L d n (med.set m j) ≤ st.best.1 := by
  have h := foldl_prefix (fun pre s => (s.med = med ∧ PSBest (L := L) d n k med s.best ∧ PSOk n k s) ∧
      PSPos k s.best ∧ ∀ m ∈ pre, ∀ j, j < n → j ∉ med → silM L d n (med.set m j) ≤ s.best.1)
    (g := psMedP d n) (xs := List.range k)
    (fun pre x post s he hs => by
      have hx : x < k := by
        have : x ∈ List.range k := by rw [he]; simp
        exact List.mem_range.mp this
      obtain ⟨⟨a1, a2, a3⟩, a4, a5⟩ := hs
      obtain ⟨c1, c2⟩ := psMedP_spec hx hk a1 a2
      obtain ⟨b1, b2, b3, b4⟩ := psMedP_cover hk hx a1 a2 a3 a4
      refine ⟨⟨c1, c2, b1⟩, b3, fun m hm j hj hjm => ?_⟩
      rcases List.mem_append.mp hm with hm | hm
      · exact le_trans (a5 m hm j hj hjm) b2
      · rw [List.mem_singleton.mp hm]; exact b4 j hj hjm)
    (s := ⟨med, assi, ((RLoss.zero : L), k, usizeMax)⟩)
    ⟨⟨rfl, .inl rfl, hv, hk, hl, hlab⟩, .inl (by rw [zeroL]), by simp⟩
  obtain ⟨⟨-, -, h3⟩, h4, h5⟩ := h
  refine ⟨h3, h4, ?_, fun m j hm => h5 m (List.mem_range.mpr hm) j⟩
  rcases h4 with e | h
  · show 0 ≤ (psScanP (L := L) d n k med assi).best.1
    unfold psScanP; rw [e]
  · exact le_of_lt h

/-- The main loop, exactly. -/
theorem psLoopP_ex {d : Nat → Nat → N} {n k : Nat} {med assi : List Nat} (hv : ValidMeds n med)
    (hk : med.length = k) (hl : assi.length = n) (hlab : ∀ a ∈ assi, a < k)
    {fuel iter : Nat} {sil : L} {nSwaps : Nat} {r : L × List Nat × Nat × Nat}
    (hr : psLoopP d n k fuel iter sil med assi nSwaps = .ok r) :
    sil ≤ r.1 ∧ (nSwaps < r.2.2.2 → sil < r.1 ∧ 0 < r.1) ∧
    (r.2.2.1 < iter + fuel → ∀ m j, m < k → j < n → j ∉ r.2.1 → silM L d n (r.2.1.set m j) ≤ r.1) := by
  induction fuel generalizing iter sil med assi nSwaps with
  | zero => cases hr; exact ⟨le_rfl, fun h => absurd h (lt_irrefl _), fun h => absurd h (by simp)⟩
  | succ fuel ih =>
    obtain ⟨h1, h2, h3, h4⟩ := psScanP_cover (L := L) (d := d) hv hk hl hlab
    unfold psLoopP at hr
    dsimp only at hr
    rw [rleL'] at hr
    split at hr
    · rename_i hle
      rw [decide_eq_true_eq] at hle
      cases hr
      exact ⟨le_rfl, fun h => absurd h (lt_irrefl _), fun _ m j hm hj hjm => le_trans (h4 m j hm hj hjm) hle⟩
    · rename_i hle
      rw [decide_eq_true_eq, not_le] at hle
      obtain ⟨-, h6⟩ := psScanP_spec (L := L) (d := d) (n := n) hk assi
      rcases h6 with e | ⟨b1, b2, b3⟩
      · rw [e] at hr
        have : setIdx med k usizeMax = .error .index := by simp [setIdx, hk]
        rw [this] at hr; cases hr
      · rw [setIdx_lt (hk ▸ b1), ok_bind] at hr
        obtain ⟨i1, i2, i3⟩ := ih (hv.set _ b2) (by simp [hk]) h1.assiLen h1.label hr
        have hpos : 0 < (psScanP (L := L) d n k med assi).best.1 := by
          rcases h2 with e | h
          · rw [e] at b1; exact absurd b1 (lt_irrefl _)
          · exact h
        exact ⟨le_trans (le_of_lt hle) i1,
          fun _ => ⟨lt_of_lt_of_le hle i1, lt_of_lt_of_le hpos i1⟩, fun h => i3 (by omega)⟩

/-- The loop does not panic from a non-negative silhouette, or if some exchange has a positive one. -/
theorem psLoopP_total {d : Nat → Nat → N} {n k : Nat} {med assi : List Nat} (hv : ValidMeds n med)
    (hk : med.length = k) (hl : assi.length = n) (hlab : ∀ a ∈ assi, a < k)
    {fuel iter : Nat} {sil : L} {nSwaps : Nat}
    (h0 : 0 ≤ sil ∨ ∃ m j, m < k ∧ j < n ∧ j ∉ med ∧ 0 < silM L d n (med.set m j)) :
    ∃ r, psLoopP d n k fuel iter sil med assi nSwaps = .ok r := by
  induction fuel generalizing iter sil med assi nSwaps with
  | zero => exact ⟨_, rfl⟩
  | succ fuel ih =>
    obtain ⟨h1, h2, h3, h4⟩ := psScanP_cover (L := L) (d := d) hv hk hl hlab
    unfold psLoopP
    dsimp only
    rw [rleL']
    split
    · exact ⟨_, rfl⟩
    · rename_i hle
      rw [decide_eq_true_eq, not_le] at hle
      have hpos : 0 < (psScanP (L := L) d n k med assi).best.1 := by
        rcases h0 with h0 | ⟨m, j, hm, hj, hjm, h0⟩
        · exact lt_of_le_of_lt h0 hle
        · exact lt_of_lt_of_le h0 (h4 m j hm hj hjm)
      obtain ⟨-, h6⟩ := psScanP_spec (L := L) (d := d) (n := n) hk assi
      rcases h6 with e | ⟨b1, b2, b3⟩
      · rw [e, zeroL] at hpos; exact absurd hpos (lt_irrefl _)
      · rw [setIdx_lt (hk ▸ b1), ok_bind]
        exact ih (hv.set _ b2) (by simp [hk]) h1.assiLen h1.label (.inl (le_of_lt hpos))

/-- The loop panics if the silhouette is negative and no exchange has a positive one. -/
theorem psLoopP_panic {d : Nat → Nat → N} {n k : Nat} {med assi : List Nat} (hv : ValidMeds n med)
    (hk : med.length = k) (hl : assi.length = n) (hlab : ∀ a ∈ assi, a < k)
    {fuel iter : Nat} {sil : L} {nSwaps : Nat} (h0 : sil < 0)
    (hc : ∀ m j, m < k → j < n → silM L d n (med.set m j) ≤ 0) :
    psLoopP d n k (fuel + 1) iter sil med assi nSwaps = .error .index := by
  obtain ⟨h1, h2, h3, h4⟩ := psScanP_cover (L := L) (d := d) hv hk hl hlab
  obtain ⟨-, h6⟩ := psScanP_spec (L := L) (d := d) (n := n) hk assi
  have e : (psScanP (L := L) d n k med assi).best = (0, k, usizeMax) := by
    rcases h2 with e | hpos
    · exact e
    · rcases h6 with e | ⟨b1, b2, b3⟩
      · rw [e, zeroL]
      · rw [b3] at hpos
        exact absurd (hc _ _ b1 b2) (not_le.mpr hpos)
  unfold psLoopP
  dsimp only
  rw [e, rleL', if_neg (by simpa using h0)]
  have : setIdx med k usizeMax = .error .index := by simp [setIdx, hk]
  rw [this]; rfl

end scan

/-! ## Distinct medoids -/

section nodup
variable {N L : Type} [LinearOrder N] [Zero N] [RDist N] [LawfulDist N] [RLoss L] [RFrom N L]

/-- The scan for one medoid, when object 0 is not a medoid: only objects that are not medoids are tried. -/
theorem psMedP_fresh {n k : Nat} {d : Nat → Nat → N} (hd : Dissim n d) {med : List Nat}
    (hv : ValidMeds n med) (hnd : med.Nodup) (h0 : 0 ∉ med) {m : Nat} (hk : med.length = k) (hmk : m < k)
    {st : PSScan L} (hok : PSOk n k st) (hst : st.med = med) (hb : st.best.1 = RLoss.zero ∧ st.best.2.1 = k ∨ st.best.2.2 ∉ med) :
    (psMedP d n st m).best.1 = RLoss.zero ∧ (psMedP d n st m).best.2.1 = k ∨
      (psMedP d n st m).best.2.2 ∉ med := by
  have hml : m < med.length := hk ▸ hmk
  have h := foldl_prefix (fun pre s =>
      (s.best.1 = RLoss.zero ∧ s.best.2.1 = k ∨ s.best.2.2 ∉ med) ∧
      (pre = [] ∧ s = st ∨ ∃ j ∈ pre, j < n ∧ j ∉ med ∧ s.med = med.set m j ∧
        s.assi = nearAssiP d n (med.set m j)))
    (g := psStepP (L := L) d n m (st.med.getD m 0)) (xs := List.range n)
    (fun pre x post s he hs => by
      have hx : x < n := by
        have : x ∈ List.range n := by rw [he]; simp
        exact List.mem_range.mp this
      have hxp : x ∉ pre := by
        have := List.nodup_range (n := n)
        rw [he, List.nodup_append] at this
        exact fun hx' => this.2.2 x hx' x (by simp) rfl
      obtain ⟨hb, hs⟩ := hs
      have hset : s.med.set m x = med.set m x := by
        rcases hs with ⟨-, rfl⟩ | ⟨j, -, -, -, e, -⟩
        · rw [hst]
        · rw [e, List.set_set]
      by_cases hxm : x ∈ med
      · -- skipped
        have hskip : x = st.med.getD m 0 ∨ x = s.med.getD (s.assi.getD x 0) 0 := by
          obtain ⟨p, hp⟩ := List.mem_iff_getElem?.mp hxm
          by_cases hpm : p = m
          · left; rw [hst, List.getD_eq_getElem?_getD, ← hpm, hp]; rfl
          · right
            rcases hs with ⟨rfl, -⟩ | ⟨j, hjp, hj, hjm, e1, e2⟩
            · -- the first object is 0
              exfalso
              have : (List.range n)[0]? = some x := by rw [he]; rfl
              rw [List.getElem?_range (by omega)] at this
              cases this; exact h0 hxm
            · have hp' : (med.set m j)[p]? = some x := by
                rw [List.getElem?_set_ne (Ne.symm hpm), hp]
              have := (nearAssiP_ok hd (hv.set m hj) (nodup_set hnd hjm)).own p x hp'
              rw [e1, e2, List.getD_eq_getElem?_getD (l := nearAssiP d n _), this, Option.getD_some,
                List.getD_eq_getElem?_getD, hp']
              rfl
        have : psStepP d n m (st.med.getD m 0) s x = s := by unfold psStepP; rw [if_pos hskip]
        rw [this]
        refine ⟨hb, ?_⟩
        rcases hs with ⟨rfl, -⟩ | ⟨j, hj, h⟩
        · exfalso
          have : (List.range n)[0]? = some x := by rw [he]; rfl
          rw [List.getElem?_range (by omega)] at this
          cases this; exact h0 hxm
        · exact .inr ⟨j, by simp [hj], h⟩
      · unfold psStepP
        split
        · -- not skipped in fact, but either way
          rename_i hskip
          refine ⟨hb, ?_⟩
          rcases hs with ⟨rfl, rfl⟩ | ⟨j, hj, h⟩
          · exfalso
            rcases hskip with e | e
            · refine hxm ?_
              rw [e, hst, List.getD_eq_getElem?_getD, List.getElem?_eq_getElem hml]
              exact List.getElem_mem _
            · have hja : x < s.assi.length := hok.assiLen ▸ hx
              have hlt : s.assi.getD x 0 < s.med.length := by
                rw [List.getD_eq_getElem?_getD, List.getElem?_eq_getElem hja]
                exact hok.len ▸ hok.label _ (List.getElem_mem hja)
              refine hxm ?_
              rw [e, ← hst, List.getD_eq_getElem?_getD (l := s.med), List.getElem?_eq_getElem hlt]
              exact List.getElem_mem _
          · exact .inr ⟨j, by simp [hj], h⟩
        · refine ⟨?_, .inr ⟨x, by simp, hx, hxm, hset, by rw [hset]⟩⟩
          dsimp only
          split
          · exact hb
          · exact .inr hxm) (s := st) ⟨hb, .inl ⟨rfl, rfl⟩⟩
  exact h.1

theorem psScanP_fresh {n k : Nat} {d : Nat → Nat → N} (hd : Dissim n d) {med assi : List Nat}
    (hv : ValidMeds n med) (hnd : med.Nodup) (h0 : 0 ∉ med) (hk : med.length = k) (hl : assi.length = n)
    (hlab : ∀ a ∈ assi, a < k) :
    (psScanP (L := L) d n k med assi).best.1 = RLoss.zero ∧ (psScanP (L := L) d n k med assi).best.2.1 = k ∨
      (psScanP (L := L) d n k med assi).best.2.2 ∉ med := by
  have h : (psScanP (L := L) d n k med assi).med = med ∧ PSBest d n k med (psScanP (L := L) d n k med assi).best ∧
      PSOk n k (psScanP (L := L) d n k med assi) ∧
      ((psScanP (L := L) d n k med assi).best.1 = RLoss.zero ∧ (psScanP (L := L) d n k med assi).best.2.1 = k ∨
        (psScanP (L := L) d n k med assi).best.2.2 ∉ med) :=
    foldl_inv (fun s : PSScan L => s.med = med ∧ PSBest d n k med s.best ∧ PSOk n k s ∧
      (s.best.1 = RLoss.zero ∧ s.best.2.1 = k ∨ s.best.2.2 ∉ med))
    (fun s m hm hs => by
      have hm := List.mem_range.mp hm
      obtain ⟨h1, h2, h3, h4⟩ := hs
      obtain ⟨a1, a2⟩ := psMedP_spec hm hk h1 h2
      exact ⟨a1, a2, psMedP_psok d h3 hm, psMedP_fresh hd hv hnd h0 hk hm h3 h1 h4⟩)
    ⟨rfl, .inl rfl, ⟨hv, hk, hl, hlab⟩, .inl ⟨rfl, rfl⟩⟩
  exact h.2.2.2

/-- Distinct medoids after at most one swap, if object 0 is not an initial medoid. -/
theorem psLoopP_nodup {n k : Nat} {d : Nat → Nat → N} (hd : Dissim n d) {med assi : List Nat}
    (hv : ValidMeds n med) (hnd : med.Nodup) (h0 : 0 ∉ med) (hk : med.length = k) (hl : assi.length = n)
    (hlab : ∀ a ∈ assi, a < k) {fuel iter : Nat} {sil : L} {r : L × List Nat × Nat × Nat}
    (hr : psLoopP d n k fuel iter sil med assi 0 = .ok r) (h1 : r.2.2.2 ≤ 1) : r.2.1.Nodup := by
  cases fuel with
  | zero => cases hr; exact hnd
  | succ fuel =>
    have hf := psScanP_fresh (L := L) hd hv hnd h0 hk hl hlab
    unfold psLoopP at hr
    dsimp only at hr
    split at hr
    · cases hr; exact hnd
    · obtain ⟨-, h6⟩ := psScanP_spec (L := L) (d := d) (n := n) hk assi
      rcases h6 with e | ⟨b1, b2, b3⟩
      · rw [e] at hr
        have : setIdx med k usizeMax = .error .index := by simp [setIdx, hk]
        rw [this] at hr; cases hr
      · rw [setIdx_lt (hk ▸ b1), ok_bind] at hr
        obtain ⟨-, -, i3, -, -, -, i7⟩ := psLoopP_ok (hv.set _ b2) (by simp [hk]) hr
        rcases i7 with ⟨-, e, -⟩ | ⟨h, -⟩
        · rw [e]
          refine nodup_set hnd ?_
          rcases hf with ⟨-, h⟩ | h
          · omega
          · exact h
        · omega

end nodup

/-! ## BUILD of PAMSIL -/

section near
variable {N : Type} [LinearOrder N] [Zero N] [RDist N] [LawfulDist N]

theorem psBuildNear {n : Nat} {d : Nat → Nat → N} (hd : Dissim n d) {meds : List Nat} (hne : meds ≠ [])
    (hr : ∀ m ∈ meds, m < n) {c : Nat} (hc : c < n) :
    ((List.range n).map fun o => minDist d o meds).zipIdx.map (psBuildUpdateP d c) =
      (List.range n).map fun o => minDist d o (meds ++ [c]) := by
  apply List.ext_getElem?
  intro o
  by_cases ho : o < n
  · simp only [List.getElem?_map, List.getElem?_zipIdx, List.getElem?_range ho, Option.map_some, Nat.zero_add,
      minDist_append d o hne, psBuildUpdateP, rltN, decide_eq_true_eq, zeroN]
    by_cases h : o = c
    · subst h
      have : 0 ≤ minDist d o meds := by
        obtain ⟨⟨c, hc, e⟩, -⟩ := minDist_spec d o meds hne
        rw [e]; exact hd.nonneg o c ho (hr c hc)
      rw [if_pos rfl, hd.diag o ho, min_eq_right this]
    · rw [if_neg h]
      split
      · rename_i h; rw [min_eq_right (le_of_lt h)]
      · rename_i h; rw [min_eq_left (not_lt.mp h)]
  · rw [List.getElem?_eq_none (by simp; omega), List.getElem?_eq_none (by simp; omega)]

end near

section build
variable {N L : Type} [LinearOrder N] [Zero N] [RDist N] [LawfulDist N]
variable [AddCommGroup L] [LinearOrder L] [IsOrderedAddMonoid L] [RLoss L] [LawfulLoss L]
variable [RFrom N L] [LawfulFrom N L]

theorem totalDev_append_le {n : Nat} {d : Nat → Nat → N} {meds : List Nat} (hne : meds ≠ []) (c : Nat) :
    totalDev (conv : N → L) n d (meds ++ [c]) ≤ totalDev (conv : N → L) n d meds := by
  unfold totalDev
  refine List.sum_le_sum fun o _ => LawfulFrom.strictMono.monotone ?_
  rw [minDist_append d o hne]; exact min_le_left _ _

theorem totalDev_nonneg {n : Nat} {d : Nat → Nat → N} (hd : Dissim n d) {meds : List Nat} (hne : meds ≠ [])
    (hr : ∀ m ∈ meds, m < n) : 0 ≤ totalDev (conv : N → L) n d meds := by
  refine List.sum_nonneg fun x hx => ?_
  obtain ⟨o, ho, rfl⟩ := List.mem_map.mp hx
  rw [← LawfulFrom.map_zero (N := N) (L := L)]
  refine LawfulFrom.strictMono.monotone ?_
  obtain ⟨⟨c, hc, e⟩, -⟩ := minDist_spec d o meds hne
  rw [e]; exact hd.nonneg o c (List.mem_range.mp ho) (hr c hc)

theorem totalDev_zero_of_min {n : Nat} {d : Nat → Nat → N} (hd : Dissim n d) {meds : List Nat} (hne : meds ≠ [])
    (hr : ∀ m ∈ meds, m < n)
    (h : ∀ x, x < n → totalDev (conv : N → L) n d meds ≤ totalDev (conv : N → L) n d (meds ++ [x])) :
    totalDev (conv : N → L) n d meds = 0 := by
  have hnn : ∀ o, o < n → 0 ≤ minDist d o meds := by
    intro o ho
    obtain ⟨⟨c, hc, e⟩, -⟩ := minDist_spec d o meds hne
    rw [e]; exact hd.nonneg o c ho (hr c hc)
  have hz : ∀ o, o < n → minDist d o meds = 0 := by
    intro o ho
    by_contra hne'
    have hpos : 0 < minDist d o meds := lt_of_le_of_ne (hnn o ho) (Ne.symm hne')
    refine absurd (h o ho) (not_le.mpr ?_)
    unfold totalDev
    apply List.sum_lt_sum
    · intro x hx
      refine LawfulFrom.strictMono.monotone ?_
      rw [minDist_append d x hne]; exact min_le_left _ _
    · refine ⟨o, List.mem_range.mpr ho, LawfulFrom.strictMono ?_⟩
      rw [minDist_append d o hne, hd.diag o ho]
      exact lt_of_le_of_lt (min_le_right _ _) hpos
  unfold totalDev
  rw [List.map_congr_left (g := fun _ => (0 : L)) (fun o ho => by
    rw [hz o (List.mem_range.mp ho), LawfulFrom.map_zero])]
  simp

theorem argminP_zero {f : Nat → L} {n : Nat} (k : Nat) (hn : 0 < n) (hf : ∀ x, x < n → f x = 0) :
    (argminP f n k).2 = 0 := by
  unfold argminP
  obtain ⟨n, rfl⟩ := Nat.exists_eq_succ_of_ne_zero (by omega : n ≠ 0)
  rw [List.range_succ_eq_map, List.foldl_cons]
  refine (foldl_inv (fun b : L × Nat => b = (0, 0)) (fun b x hx hb => ?_) ?_ : _ = ((0 : L), 0)) ▸ rfl
  · obtain ⟨y, hy, rfl⟩ := List.mem_map.mp hx
    have := List.mem_range.mp hy
    subst hb
    simp [rltL, hf (y + 1) (by omega)]
  · simp [hf 0 (by omega)]

/-- Once the total deviation is 0, PAMSIL BUILD adds object 0 again and again. -/
theorem psBuildLoopP_zeros {n k : Nat} {d : Nat → Nat → N} (hd : Dissim n d) (hn : 0 < n) {fuel : Nat}
    {meds : List Nat} (hne : meds ≠ []) (hr : ∀ m ∈ meds, m < n)
    (hT : totalDev (conv : N → L) n d meds = 0) :
    psBuildLoopP L d n k fuel meds ((List.range n).map fun o => minDist d o meds) =
      .ok (meds ++ List.replicate fuel 0) := by
  induction fuel generalizing meds with
  | zero => simp [psBuildLoopP]
  | succ fuel ih =>
    have hT' : ∀ x, x < n → totalDev (conv : N → L) n d (meds ++ [x]) = 0 := fun x hx =>
      le_antisymm (hT ▸ totalDev_append_le hne x) (totalDev_nonneg hd (by simp) (by
        intro m hm
        rcases List.mem_append.mp hm with h | h
        · exact hr m h
        · rw [List.mem_singleton.mp h]; exact hx))
    have hs : ∀ x, x < n → buildSumP L d ((List.range n).map fun o => minDist d o meds) x = 0 := fun x hx => by
      rw [buildSumP_eq hd hne hr hx, hT, hT' x hx, sub_zero]
    obtain ⟨a1, a2, -⟩ := argminP_spec (buildSumP L d ((List.range n).map fun o => minDist d o meds)) k hn
    have h0 := argminP_zero k hn hs
    have ha : rassert (rle (argminP (buildSumP L d ((List.range n).map fun o => minDist d o meds)) n k).1 RLoss.zero)
        "assertion failed: best.0 <= L::zero()" = .ok () := by
      rw [a2, hs _ a1, rleL', zeroL]; simp [rassert]
    unfold psBuildLoopP
    dsimp only
    rw [ha, ok_bind, h0, psBuildNear hd hne hr hn, ih (by simp) (by
        intro m hm
        rcases List.mem_append.mp hm with h | h
        · exact hr m h
        · rw [List.mem_singleton.mp h]; exact hn) (hT' 0 hn)]
    rw [List.replicate_succ]; simp

/-- BUILD of PAMSIL simulates BUILD of PAM, but does not stop early. -/
theorem psBuildLoopP_sim {n k : Nat} {d : Nat → Nat → N} (hd : Dissim n d) (hk : k < u32Max) {cnt : Nat}
    {meds : List Nat} {data : List (Rec N)} {loss : L} (h : BuildInv n d meds data loss)
    (hcnt : meds.length + cnt ≤ k) :
    let r := buildLoopP d n k (List.range' meds.length cnt) meds data loss
    psBuildLoopP L d n k cnt meds ((List.range n).map fun o => minDist d o meds) =
      .ok (r.1 ++ List.replicate (meds.length + cnt - r.1.length) 0) := by
  have hn : 0 < n := by
    obtain ⟨m, hm⟩ := List.exists_mem_of_ne_nil _ h.ne
    have := h.range m hm; omega
  induction cnt generalizing meds data loss with
  | zero => simp [psBuildLoopP, buildLoopP]
  | succ cnt ih =>
    obtain ⟨b1, b2, b3⟩ := build_next (k := k) hd h
    have hnear := h.near hd
    rw [List.range'_succ]
    unfold buildLoopP
    dsimp only
    by_cases hge : rge (argminP (buildSumP L d (data.map (·.near.d))) n k).1 (RLoss.zero : L)
    · rw [if_pos hge]
      rw [rgeL, zeroL, decide_eq_true_eq] at hge
      dsimp only
      rw [psBuildLoopP_zeros hd hn h.ne h.range]
      · congr 3; omega
      · exact totalDev_zero_of_min hd h.ne h.range fun x hx => sub_nonneg.mp (le_trans hge (b3 x hx))
    · rw [if_neg hge]
      rw [rgeL, zeroL, decide_eq_true_eq, not_le] at hge
      unfold psBuildLoopP
      rw [← hnear]
      generalize hbest : argminP (buildSumP L d (data.map (·.near.d))) n k = best at *
      have ha : rassert (rle best.1 RLoss.zero) "assertion failed: best.0 <= L::zero()" = .ok () := by
        rw [rleL', zeroL]; simp [rassert, le_of_lt hge]
      dsimp only
      rw [ha, ok_bind, hnear, psBuildNear hd h.ne h.range b1]
      have hlt := hge
      rw [b2] at hlt
      have hlt := sub_neg.mp hlt
      have hnm : best.2 ∉ meds := fun hm => by
        rw [totalDev_append_mem hm] at hlt; exact lt_irrefl _ hlt
      have hnd : (meds ++ [best.2]).Nodup := by
        rw [List.nodup_append]
        exact ⟨h.nodup, by simp, fun a ha b hb => by
          rw [List.mem_singleton.mp hb]; rintro rfl; exact hnm ha⟩
      have hr : ∀ m ∈ meds ++ [best.2], m < n := by
        intro m hm
        rcases List.mem_append.mp hm with hm | hm
        · exact h.range m hm
        · rw [List.mem_singleton.mp hm]; exact b1
      have hdata : data.zipIdx.map (buildRecP d meds.length best.2) = initDataP d n (meds ++ [best.2]) := by
        rw [h.data, buildData_eq hd h.ne b1]
      rw [hdata]
      have hinv : BuildInv n d (meds ++ [best.2]) (initDataP d n (meds ++ [best.2]))
          (buildLoss L best.2 (initDataP d n (meds ++ [best.2]))) :=
        ⟨by simp, hnd, hr, by simp; omega, rfl,
          buildLoss_eq hd (by simp) hnd hr (by simp; omega) (by simp)⟩
      have := ih hinv (by simp; omega)
      simp only [List.length_append, List.length_singleton] at this
      rw [this]
      congr 3; omega

/-- BUILD of PAMSIL: the medoids of PAM BUILD, filled up with object 0. -/
theorem psBuildP_ex {n k : Nat} {d : Nat → Nat → N} (hd : Dissim n d) (hs : Sizes n k) :
    psBuildP L d n k = .ok ((buildP L d n k).1 ++ List.replicate (k - (buildP L d n k).1.length) 0) := by
  have hn : 0 < n := by have := hs.pos; have := hs.le; omega
  obtain ⟨a1, a2, a3⟩ := argminP_spec (buildFirstSumP L d n) k hn
  have hinv : BuildInv n d [(argminP (buildFirstSumP L d n) n k).2]
      (buildInitP d n (argminP (buildFirstSumP L d n) n k).2) (argminP (buildFirstSumP L d n) n k).1 :=
    ⟨by simp, by simp, by simpa using a1, by simp [u32Max], rfl, by rw [a2, buildFirstSumP_eq hd a1]⟩
  have h := psBuildLoopP_sim hd hs.k_lt (cnt := k - 1) hinv (by simp; have := hs.pos; omega)
  simp only [List.length_singleton] at h
  have hk : 1 + (k - 1) = k := by have := hs.pos; omega
  rw [hk] at h
  exact h

end build

end KMedoids
