import Verif.Proofs.PamSilExact

/-! # PAMSIL: which objects can occur twice among the medoids

Whether an object is a medoid is tested with the labels of the candidate evaluated before. As soon as one candidate was
evaluated for the present medoid position, the test is right. So an object that is already a medoid is tried only if all
objects before it are medoids too. -/

set_option linter.unusedSectionVars false

namespace KMedoids

open RFrom (conv)

section nodup
variable {N L : Type} [LinearOrder N] [Zero N] [RDist N] [LawfulDist N] [RLoss L] [RFrom N L]

/-- A medoid is labelled with itself, also with repeated medoids. -/
theorem nearRecP_ownLabel {n : Nat} {d : Nat → Nat → N} (hd : Dissim n d) {o : Nat} (ho : o < n)
    {med : List Nat} (hr : ∀ m ∈ med, m < n) (hom : o ∈ med) : med[(nearRecP d med o).1]? = some o := by
  obtain ⟨c0, cs, rfl⟩ := List.exists_cons_of_ne_nil (List.ne_nil_of_mem hom)
  have h : ∀ (post pre : List (Nat × Nat)) (b : Nat × N), (c0 :: cs).zipIdx = pre ++ post →
      ((∃ p ∈ pre, p.1 = o) → (o, b.1) ∈ pre ∧ b.2 = 0) →
      let r := post.foldl (fun (best : Nat × N) (p : Nat × Nat) =>
        if rlt (d o p.1) best.2 || o == p.1 then (p.2, d o p.1) else best) b
      (∃ p ∈ (c0 :: cs).zipIdx, p.1 = o) → (o, r.1) ∈ (c0 :: cs).zipIdx := by
    intro post
    induction post with
    | nil => intro pre b he h1 r hp; rw [List.append_nil] at he; rw [he] at hp ⊢; exact (h1 hp).1
    | cons p post ih =>
      intro pre b he h1
      have hp : p ∈ (c0 :: cs).zipIdx := by rw [he]; simp
      rw [List.foldl_cons]
      apply ih (pre ++ [p]) _ (by rw [he]; simp)
      intro hq
      by_cases hpo : o = p.1
      · rw [if_pos (by simp [hpo])]
        refine ⟨by rw [hpo]; simp, ?_⟩
        dsimp only
        rw [← hpo, hd.diag o ho]
      · have hq' : ∃ q ∈ pre, q.1 = o := by
          obtain ⟨q, hq, e⟩ := hq
          rcases List.mem_append.mp hq with hq | hq
          · exact ⟨q, hq, e⟩
          · rw [List.mem_singleton.mp hq] at e; exact absurd e.symm hpo
        obtain ⟨g1, g2⟩ := h1 hq'
        have hlt : ¬ d o p.1 < b.2 := by
          rw [g2]; exact not_lt.mpr (hd.nonneg o _ ho (hr _ (mem_zipIdx_mem hp)))
        rw [if_neg (by simp [rltN, hlt, hpo])]
        exact ⟨by simp [g1], g2⟩
  have e : nearRecP d (c0 :: cs) o = (cs.zipIdx 1).foldl (fun (best : Nat × N) (p : Nat × Nat) =>
        if rlt (d o p.1) best.2 || o == p.1 then (p.2, d o p.1) else best) (0, d o c0) := by
    simp [nearRecP, List.zipIdx_cons]
  rw [e]
  refine mem_zipIdx_get (h (cs.zipIdx 1) [(c0, 0)] (0, d o c0) (by simp [List.zipIdx_cons]) ?_ ?_)
  · rintro ⟨p, hp, rfl⟩
    rw [List.mem_singleton.mp hp]
    refine ⟨by simp, ?_⟩
    have : p.1 = c0 := by rw [List.mem_singleton.mp hp]
    dsimp only
    rw [this] at ho
    exact hd.diag c0 ho
  · obtain ⟨m, hm⟩ := List.mem_iff_getElem?.mp hom
    exact ⟨(o, m), List.mem_zipIdx_iff_getElem?.mpr hm, rfl⟩

/-- The best candidate is none, or not a medoid, or all objects up to it are medoids. -/
def PSLow (k : Nat) (med : List Nat) (b : L × Nat × Nat) : Prop :=
  b.2.1 = k ∨ b.2.2 ∉ med ∨ ∀ y ≤ b.2.2, y ∈ med

theorem psMedP_low {n k : Nat} {d : Nat → Nat → N} (hd : Dissim n d) {med : List Nat}
    (hv : ValidMeds n med) {m : Nat} (hk : med.length = k) (hmk : m < k) {st : PSScan L} (hok : PSOk n k st)
    (hst : st.med = med) (hb : PSLow k med st.best) : PSLow k med (psMedP d n st m).best := by
  have hml : m < med.length := hk ▸ hmk
  have h := foldl_prefix (fun pre s => PSOk n k s ∧ PSLow k med s.best ∧
      ((∀ y ∈ pre, y ∈ med) ∧ s.med = med ∨ ∃ j, j < n ∧ s.med = med.set m j ∧ s.assi = nearAssiP d n (med.set m j)))
    (g := psStepP (L := L) d n m (st.med.getD m 0)) (xs := List.range n)
    (fun pre x post s he hs => by
      have hx : x < n := by
        have : x ∈ List.range n := by rw [he]; simp
        exact List.mem_range.mp this
      have hpre : ∀ y < x, y ∈ pre := by
        intro y hy
        have hxl : x = pre.length := by
          have h1 : (List.range n)[pre.length]? = some x := by rw [he]; simp
          have h2 : pre.length < n := by
            have := (List.getElem?_eq_some_iff.mp h1).1; simpa using this
          rw [List.getElem?_range h2] at h1
          exact (Option.some.inj h1).symm
        have h1 : (List.range n)[y]? = some y := List.getElem?_range (by omega)
        rw [he, List.getElem?_append_left (by omega)] at h1
        exact List.mem_of_getElem? h1
      obtain ⟨ho, hb, hs⟩ := hs
      refine ⟨psStepP_psok d ho m _ hx, ?_⟩
      have hset : s.med.set m x = med.set m x := by
        rcases hs with ⟨-, e⟩ | ⟨j, -, e, -⟩
        · rw [e]
        · rw [e, List.set_set]
      unfold psStepP
      split
      · rename_i hskip
        refine ⟨hb, ?_⟩
        rcases hs with ⟨h1, h2⟩ | h
        · have hxm : x ∈ med := by
            rcases hskip with e | e
            · rw [e, hst, List.getD_eq_getElem?_getD, List.getElem?_eq_getElem hml]
              exact List.getElem_mem _
            · have hja : x < s.assi.length := ho.assiLen ▸ hx
              have hlt : s.assi.getD x 0 < s.med.length := by
                rw [List.getD_eq_getElem?_getD, List.getElem?_eq_getElem hja]
                exact ho.len ▸ ho.label _ (List.getElem_mem hja)
              rw [e, ← h2, List.getD_eq_getElem?_getD (l := s.med), List.getElem?_eq_getElem hlt]
              exact List.getElem_mem _
          exact .inl ⟨fun y hy => by
            rcases List.mem_append.mp hy with hy | hy
            · exact h1 y hy
            · rw [List.mem_singleton.mp hy]; exact hxm, h2⟩
        · exact .inr h
      · rename_i hskip
        refine ⟨?_, .inr ⟨x, hx, hset, by rw [hset]⟩⟩
        dsimp only
        split
        · exact hb
        · by_cases hxm : x ∈ med
          · right; right
            rcases hs with ⟨h1, -⟩ | ⟨j, hj, e1, e2⟩
            · intro y hy
              dsimp only at hy
              rcases Nat.lt_or_eq_of_le hy with hy | hy
              · exact h1 y (hpre y hy)
              · exact hy ▸ hxm
            · exfalso
              refine hskip ?_
              obtain ⟨p, hp⟩ := List.mem_iff_getElem?.mp hxm
              by_cases hpm : p = m
              · left; rw [hst, List.getD_eq_getElem?_getD, ← hpm, hp]; rfl
              · right
                have hmem : x ∈ med.set m j := by
                  refine List.mem_of_getElem? (i := p) ?_
                  rw [List.getElem?_set_ne (Ne.symm hpm), hp]
                have := nearRecP_ownLabel hd hx (hv.set m hj).range hmem
                rw [e1, e2]
                simp only [List.getD_eq_getElem?_getD, nearAssiP, List.getElem?_map, List.getElem?_range hx,
                  Option.map_some, Option.getD_some, this]
          · exact .inr (.inl hxm)) (s := st) ⟨hok, hb, .inl ⟨by simp, hst⟩⟩
  exact h.2.1

theorem psScanP_low {n k : Nat} {d : Nat → Nat → N} (hd : Dissim n d) {med assi : List Nat}
    (hv : ValidMeds n med) (hk : med.length = k) (hl : assi.length = n) (hlab : ∀ a ∈ assi, a < k) :
    PSOk n k (psScanP (L := L) d n k med assi) ∧ PSLow k med (psScanP (L := L) d n k med assi).best := by
  have h : (psScanP (L := L) d n k med assi).med = med ∧ PSBest d n k med (psScanP (L := L) d n k med assi).best ∧
      PSOk n k (psScanP (L := L) d n k med assi) ∧ PSLow k med (psScanP (L := L) d n k med assi).best :=
    foldl_inv (fun s : PSScan L => s.med = med ∧ PSBest d n k med s.best ∧ PSOk n k s ∧ PSLow k med s.best)
    (fun s m hm hs => by
      have hm := List.mem_range.mp hm
      obtain ⟨h1, h2, h3, h4⟩ := hs
      obtain ⟨a1, a2⟩ := psMedP_spec hm hk h1 h2
      exact ⟨a1, a2, psMedP_psok d h3 hm, psMedP_low hd hv hk hm h3 h1 h4⟩)
    ⟨rfl, .inl rfl, ⟨hv, hk, hl, hlab⟩, .inl rfl⟩
  exact h.2.2

/-- If all objects up to `c` are among `k` medoids, `c < k`. -/
theorem lt_of_prefix_mem {med : List Nat} {c : Nat} (h : ∀ y ≤ c, y ∈ med) : c < med.length := by
  have h1 : List.range (c + 1) ⊆ med := fun y hy => h y (by have := List.mem_range.mp hy; omega)
  have := (List.nodup_range.subperm h1).length_le
  rw [List.length_range] at this
  exact this

theorem count_set_le {med : List Nat} {m j c : Nat} (h : j = c → c ∉ med) (hc : med.count c ≤ 1) :
    (med.set m j).count c ≤ 1 := by
  induction med generalizing m with
  | nil => simp
  | cons a l ih =>
    cases m with
    | zero =>
      by_cases hj : j = c
      · have := h hj
        simp only [List.mem_cons, not_or] at this
        rw [List.set_cons_zero, List.count_cons, List.count_eq_zero_of_not_mem this.2]
        split <;> omega
      · rw [List.set_cons_zero, List.count_cons_of_ne hj]
        rw [List.count_cons] at hc
        omega
    | succ m =>
      rw [List.set_cons_succ, List.count_cons]
      by_cases ha : a = c
      · subst ha
        have hj : j ≠ a := fun e => h e (by simp)
        have hz : l.count a = 0 := by simpa using hc
        have : (l.set m j).count a = 0 := by
          rw [List.count_eq_zero]
          intro hmem
          rcases List.mem_or_eq_of_mem_set hmem with hm | hm
          · exact List.count_eq_zero.mp hz hm
          · exact hj hm.symm
        simp [this]
      · have := ih (m := m) (fun e => fun hm => h e (by simp [hm])) (by
          rw [List.count_cons] at hc; omega)
        simp [ha, this]

/-- Objects from number `k` on occur at most once. -/
theorem psLoopP_high {n k : Nat} {d : Nat → Nat → N} (hd : Dissim n d) {med assi : List Nat}
    (hv : ValidMeds n med) (hk : med.length = k) (hl : assi.length = n) (hlab : ∀ a ∈ assi, a < k)
    {c : Nat} (hkc : k ≤ c) (hc : med.count c ≤ 1) {fuel iter : Nat} {sil : L} {nSwaps : Nat}
    {r : L × List Nat × Nat × Nat} (hr : psLoopP d n k fuel iter sil med assi nSwaps = .ok r) :
    r.2.1.count c ≤ 1 := by
  induction fuel generalizing iter sil med assi nSwaps with
  | zero => cases hr; exact hc
  | succ fuel ih =>
    obtain ⟨hok, hlow⟩ := psScanP_low (L := L) hd hv hk hl hlab
    unfold psLoopP at hr
    dsimp only at hr
    split at hr
    · cases hr; exact hc
    · obtain ⟨-, h6⟩ := psScanP_spec (L := L) (d := d) (n := n) hk assi
      rcases h6 with e | ⟨b1, b2, b3⟩
      · rw [e] at hr
        have : setIdx med k usizeMax = .error .index := by simp [setIdx, hk]
        rw [this] at hr; cases hr
      · rw [setIdx_lt (hk ▸ b1), ok_bind] at hr
        refine ih (hv.set _ b2) (by simp [hk]) hok.assiLen hok.label (count_set_le (fun e => ?_) hc) hr
        rcases hlow with h | h | h
        · omega
        · exact e ▸ h
        · have := lt_of_prefix_mem h; omega

/-- As long as object 0 is no medoid, the medoids stay distinct. -/
theorem psLoopP_zero {n k : Nat} {d : Nat → Nat → N} (hd : Dissim n d) {med assi : List Nat}
    (hv : ValidMeds n med) (hk : med.length = k) (hl : assi.length = n) (hlab : ∀ a ∈ assi, a < k)
    (hnd : med.Nodup) {fuel iter : Nat} {sil : L} {nSwaps : Nat} {r : L × List Nat × Nat × Nat}
    (h0 : ∀ t < fuel, ∀ r, psLoopP d n k t iter sil med assi nSwaps = .ok r → 0 ∉ r.2.1)
    (hr : psLoopP d n k fuel iter sil med assi nSwaps = .ok r) : r.2.1.Nodup := by
  induction fuel generalizing iter sil med assi nSwaps with
  | zero => cases hr; exact hnd
  | succ fuel ih =>
    have hz : 0 ∉ med := h0 0 (by omega) _ rfl
    obtain ⟨hok, hlow⟩ := psScanP_low (L := L) hd hv hk hl hlab
    unfold psLoopP at hr
    dsimp only at hr
    split at hr
    · cases hr; exact hnd
    · rename_i hcond
      obtain ⟨-, h6⟩ := psScanP_spec (L := L) (d := d) (n := n) hk assi
      rcases h6 with e | ⟨b1, b2, b3⟩
      · rw [e] at hr
        have : setIdx med k usizeMax = .error .index := by simp [setIdx, hk]
        rw [this] at hr; cases hr
      · rw [setIdx_lt (hk ▸ b1), ok_bind] at hr
        refine ih (hv.set _ b2) (by simp [hk]) hok.assiLen hok.label (nodup_set hnd ?_) (fun t ht r' hr' => ?_) hr
        · rcases hlow with h | h | h
          · omega
          · exact h
          · exact absurd (h 0 (Nat.zero_le _)) hz
        · refine h0 (t + 1) (by omega) r' ?_
          unfold psLoopP
          dsimp only
          rw [if_neg hcond, setIdx_lt (hk ▸ b1), ok_bind]
          exact hr'

end nodup
end KMedoids
