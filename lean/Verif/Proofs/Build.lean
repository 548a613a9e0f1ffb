import Verif.Proofs.Single

/-! # BUILD, exact arithmetic -/

set_option linter.unusedSectionVars false

namespace KMedoids

open RFrom (conv)

variable {N L : Type} [LinearOrder N] [Zero N] [RDist N] [LawfulDist N]
variable [AddCommGroup L] [LinearOrder L] [IsOrderedAddMonoid L] [RLoss L] [LawfulLoss L]
variable [RFrom N L] [LawfulFrom N L]

theorem argminP_spec (f : Nat → L) {n : Nat} (k : Nat) (hn : 0 < n) :
    (argminP f n k).2 < n ∧ (argminP f n k).1 = f (argminP f n k).2 ∧
      ∀ x, x < n → (argminP f n k).1 ≤ f x := by
  induction n with
  | zero => omega
  | succ n ih =>
    have hstep : argminP f (n + 1) k = if n = 0 ∨ f n < (argminP f n k).1 then (f n, n)
        else argminP f n k := by
      unfold argminP
      rw [List.range_succ, List.foldl_append, List.foldl_cons, List.foldl_nil]
      simp only [rltL, Bool.or_eq_true, beq_iff_eq, decide_eq_true_eq]
    rw [hstep]
    by_cases h0 : n = 0
    · subst h0
      simp
    · obtain ⟨i1, i2, i3⟩ := ih (by omega)
      split
      · rename_i h
        refine ⟨by simp, rfl, fun x hx => ?_⟩
        by_cases hxn : x = n
        · rw [hxn]
        · rcases h with h | h
          · exact absurd h h0
          · exact le_of_lt (lt_of_lt_of_le h (i3 x (by omega)))
      · rename_i h
        rw [not_or] at h
        refine ⟨by omega, i2, fun x hx => ?_⟩
        by_cases hxn : x = n
        · rw [hxn]; exact not_lt.mp h.2
        · exact i3 x (by omega)

theorem initRecP_minDist {n : Nat} {d : Nat → Nat → N} (hd : Dissim n d) {o : Nat} (ho : o < n)
    {med : List Nat} (hm : med ≠ []) (hr : ∀ m ∈ med, m < n) (hnd : med.Nodup)
    (hlen : med.length ≤ u32Max) : (initRecP d med o).near.d = minDist d o med := by
  obtain ⟨⟨c, h1, h2⟩, h3, -⟩ := (initRecP_init hd ho med hm hr hnd hlen).nearest
  rw [← h2]
  exact (minDist_eq (List.mem_of_getElem? h1) fun c' hc' => h2 ▸ h3 c' hc').symm

theorem buildFirstSumP_eq {n : Nat} {d : Nat → Nat → N} (hd : Dissim n d) {i : Nat} (hi : i < n) :
    buildFirstSumP L d n i = totalDev (conv : N → L) n d [i] := by
  unfold buildFirstSumP totalDev minDist
  rw [foldl_add_sum (f := fun o => (conv (d o i) : L)), zeroL, zero_add]
  intro acc j _
  by_cases h : j = i
  · simp [h, hd.diag i hi, LawfulFrom.map_zero]
  · simp [h, addL]

theorem minDist_append (d : Nat → Nat → N) (o : Nat) {med : List Nat} (hm : med ≠ []) (c : Nat) :
    minDist d o (med ++ [c]) = min (minDist d o med) (d o c) := by
  obtain ⟨⟨c1, hc1, e⟩, h2⟩ := minDist_spec d o med hm
  rcases le_total (minDist d o med) (d o c) with h | h
  · rw [min_eq_left h, e]
    refine minDist_eq (by simp [hc1]) fun c' hc' => ?_
    rcases List.mem_append.mp hc' with hc' | hc'
    · rw [← e]; exact h2 c' hc'
    · rw [List.mem_singleton.mp hc', ← e]; exact h
  · rw [min_eq_right h]
    refine minDist_eq (by simp) fun c' hc' => ?_
    rcases List.mem_append.mp hc' with hc' | hc'
    · exact le_trans h (h2 c' hc')
    · rw [List.mem_singleton.mp hc']

/-- Invariant of BUILD. -/
structure BuildInv (n : Nat) (d : Nat → Nat → N) (meds : List Nat) (data : List (Rec N)) (loss : L) :
    Prop where
  ne : meds ≠ []
  nodup : meds.Nodup
  range : ∀ m ∈ meds, m < n
  len : meds.length ≤ u32Max
  data : data = initDataP d n meds
  loss : loss = totalDev (conv : N → L) n d meds

theorem BuildInv.near {n : Nat} {d : Nat → Nat → N} (hd : Dissim n d) {meds : List Nat}
    {data : List (Rec N)} {loss : L} (h : BuildInv n d meds data loss) :
    data.map (·.near.d) = (List.range n).map fun o => minDist d o meds := by
  rw [h.data, initDataP, List.map_map]
  exact List.map_congr_left fun o ho =>
    initRecP_minDist hd (List.mem_range.mp ho) h.ne h.range h.nodup h.len

theorem buildSumP_eq {n : Nat} {d : Nat → Nat → N} (hd : Dissim n d) {meds : List Nat}
    (hne : meds ≠ []) (hr : ∀ m ∈ meds, m < n) {i : Nat} (hi : i < n) :
    buildSumP L d ((List.range n).map fun o => minDist d o meds) i =
      totalDev (conv : N → L) n d (meds ++ [i]) - totalDev (conv : N → L) n d meds := by
  have hg : ((List.range n).map fun o => minDist d o meds)[i]? = some (minDist d i meds) := by
    simp [hi]
  have hnn : ∀ o, o < n → 0 ≤ minDist d o meds := by
    intro o ho
    obtain ⟨⟨c, hc, e⟩, -⟩ := minDist_spec d o meds hne
    rw [e]; exact hd.nonneg o c ho (hr c hc)
  unfold buildSumP
  generalize hnear : ((List.range n).map fun o => minDist d o meds) = near at *
  have hlen : near.length = n := by rw [← hnear]; simp
  have hat : ∀ p ∈ near.zipIdx, p.1 = minDist d p.2 meds ∧ p.2 < n := by
    intro p hp
    rw [← hnear] at hp
    obtain ⟨h1, h2⟩ := mem_range_map_zipIdx hp
    exact ⟨h2, h1⟩
  let f : N × Nat → L := fun p => conv (min p.1 (d p.2 i)) - conv p.1
  rw [foldl_add_sum (f := fun p => if p.2 = i then 0 else f p)]
  · have h1 : totalDev (conv : N → L) n d (meds ++ [i]) - totalDev (conv : N → L) n d meds =
        (near.zipIdx.map f).sum := by
      unfold totalDev
      rw [← sum_map_sub]
      have := sum_range_zipIdx near (fun o => (conv (minDist d o (meds ++ [i])) - conv (minDist d o meds) : L))
      rw [hlen] at this
      rw [this]
      congr 1
      refine List.map_congr_left fun p hp => ?_
      simp only [f, (hat p hp).1, minDist_append d p.2 hne]
    have h2 : (near.zipIdx.map f).sum = (near.zipIdx.map fun p => if p.2 = i then f p else 0).sum +
        (near.zipIdx.map fun p => if p.2 = i then 0 else f p).sum := by
      rw [← List.sum_map_add]
      congr 1
      refine List.map_congr_left fun p _ => ?_
      split <;> simp
    rw [h1, h2, sum_zipIdx_at f hg]
    congr 1
    simp only [f, hd.diag i hi, min_eq_right (hnn i hi), LawfulFrom.map_zero, zero_sub, negL]
    rw [List.getD_eq_getElem?_getD, hg]; rfl
  · intro acc p hp
    by_cases h : p.2 = i
    · simp [h]
    · simp only [ne_eq, h, not_false_eq_true, if_true, if_false, rltN, decide_eq_true_eq, addL, subL, f]
      split
      · rename_i hlt; rw [min_eq_right (le_of_lt hlt)]
      · rename_i hlt; rw [min_eq_left (not_lt.mp hlt)]; simp

theorem buildRecP_eq {n : Nat} {d : Nat → Nat → N} (hd : Dissim n d) (l : Nat) {c o : Nat} (hc : c < n)
    (r : Rec N) : buildRecP d l c (r, o) = initStepP d o r (c, l) := by
  unfold buildRecP initStepP
  by_cases h : o = c
  · subst h; simp [hd.diag o hc, zeroN]
  · simp [h]

theorem buildData_eq {n : Nat} {d : Nat → Nat → N} (hd : Dissim n d) {meds : List Nat}
    (hne : meds ≠ []) {c : Nat} (hc : c < n) :
    (initDataP d n meds).zipIdx.map (buildRecP d meds.length c) = initDataP d n (meds ++ [c]) := by
  apply List.ext_getElem?
  intro o
  by_cases ho : o < n
  · simp only [initDataP, List.getElem?_map, List.getElem?_zipIdx, List.getElem?_range ho,
      Option.map_some, Nat.zero_add]
    rw [initRecP_append d hne, buildRecP_eq hd _ hc]
  · rw [List.getElem?_eq_none (by simp [initDataP]; omega),
      List.getElem?_eq_none (by simp [initDataP]; omega)]

theorem buildLoss_eq {n : Nat} {d : Nat → Nat → N} (hd : Dissim n d) {meds : List Nat}
    (hne : meds ≠ []) (hnd : meds.Nodup) (hr : ∀ m ∈ meds, m < n) (hlen : meds.length ≤ u32Max)
    {c : Nat} (hc : c ∈ meds) :
    buildLoss L c (initDataP d n meds) = totalDev (conv : N → L) n d meds := by
  unfold buildLoss
  rw [foldl_add_sum (f := fun p => (conv p.1.near.d : L)), zeroL, zero_add,
    map_zipIdx_fst _ (fun r : Rec N => (conv r.near.d : L)), initDataP, List.map_map, totalDev]
  · congr 1
    refine List.map_congr_left fun o ho => ?_
    simp only [Function.comp, initRecP_minDist hd (List.mem_range.mp ho) hne hr hnd hlen]
  · intro acc p hp
    by_cases h : p.2 = c
    · obtain ⟨h1, h2⟩ := mem_range_map_zipIdx hp
      have : p.1.near.d = 0 := by
        rw [h2, initRecP_minDist hd h1 hne hr hnd hlen]
        rw [h] at h1 ⊢
        rw [minDist_eq hc (fun c' hc' => by rw [hd.diag c h1]; exact hd.nonneg c c' h1 (hr c' hc')),
          hd.diag c h1]
      simp [h, this, LawfulFrom.map_zero]
    · simp [h, addL]

/-- The next BUILD medoid. -/
theorem build_next {n k : Nat} {d : Nat → Nat → N} (hd : Dissim n d) {meds : List Nat}
    {data : List (Rec N)} {loss : L} (h : BuildInv n d meds data loss) :
    let best := argminP (buildSumP L d (data.map (·.near.d))) n k
    best.2 < n ∧ best.1 = totalDev (conv : N → L) n d (meds ++ [best.2]) - totalDev (conv : N → L) n d meds ∧
    (∀ x, x < n → best.1 ≤ totalDev (conv : N → L) n d (meds ++ [x]) - totalDev (conv : N → L) n d meds) := by
  have hn : 0 < n := by
    obtain ⟨m, hm⟩ := List.exists_mem_of_ne_nil _ h.ne
    have := h.range m hm; omega
  obtain ⟨a1, a2, a3⟩ := argminP_spec (buildSumP L d (data.map (·.near.d))) k hn
  rw [h.near hd] at a1 a2 a3 ⊢
  refine ⟨a1, ?_, fun x hx => ?_⟩
  · rw [a2, buildSumP_eq hd h.ne h.range a1]
  · rw [← buildSumP_eq hd h.ne h.range hx]; exact a3 x hx

theorem totalDev_append_mem {n : Nat} {d : Nat → Nat → N} {meds : List Nat} {c : Nat} (hc : c ∈ meds) :
    totalDev (conv : N → L) n d (meds ++ [c]) = totalDev (conv : N → L) n d meds := by
  refine totalDev_toFinset ?_
  ext x; simp only [List.mem_toFinset, List.mem_append, List.mem_singleton]
  constructor
  · rintro (h | rfl) <;> assumption
  · exact Or.inl

theorem greedy_append {T : List Nat → L} {n : Nat} {meds : List Nat} (h : Greedy T n meds) {c : Nat}
    (hc : ∀ x, x < n → T (meds ++ [c]) ≤ T (meds ++ [x])) : Greedy T n (meds ++ [c]) := by
  intro l x hl y hy
  rw [getElem?_append_singleton] at hl
  split at hl
  · rename_i e; subst e; cases hl
    simpa using hc y hy
  · have hlt : l < meds.length := (List.getElem?_eq_some_iff.mp hl).1
    rw [List.take_append_of_le_length (le_of_lt hlt)]
    exact h l x hl y hy

theorem buildLoopP_ex {n k : Nat} {d : Nat → Nat → N} (hd : Dissim n d) (hk : k < u32Max) {cnt : Nat}
    {meds : List Nat} {data : List (Rec N)} {loss : L} (h : BuildInv n d meds data loss)
    (hcnt : meds.length + cnt ≤ k) (hg : Greedy (totalDev (conv : N → L) n d) n meds) :
    let r := buildLoopP d n k (List.range' meds.length cnt) meds data loss
    BuildInv n d r.1 r.2.1 r.2.2 ∧ Greedy (totalDev (conv : N → L) n d) n r.1 ∧
    (∃ ext, r.1 = meds ++ ext) ∧
    (r.1.length < meds.length + cnt → ∀ x, x < n →
      totalDev (conv : N → L) n d r.1 ≤ totalDev (conv : N → L) n d (r.1 ++ [x])) ∧
    r.1.length ≤ meds.length + cnt := by
  induction cnt generalizing meds data loss with
  | zero => exact ⟨h, hg, ⟨[], by simp [buildLoopP]⟩, by simp [buildLoopP], by simp [buildLoopP]⟩
  | succ cnt ih =>
    obtain ⟨b1, b2, b3⟩ := build_next (k := k) hd h
    rw [List.range'_succ]
    unfold buildLoopP
    generalize argminP (buildSumP L d (data.map (·.near.d))) n k = best at *
    simp only [rgeL, zeroL, decide_eq_true_eq]
    split
    · rename_i hge
      refine ⟨h, hg, ⟨[], by simp⟩, fun _ x hx => ?_, by dsimp only; omega⟩
      exact sub_nonneg.mp (le_trans hge (b3 x hx))
    · rename_i hlt
      have hlt := not_le.mp hlt
      rw [b2] at hlt
      have hlt := sub_neg.mp hlt
      have hnm : best.2 ∉ meds := fun hm => by
        rw [totalDev_append_mem hm] at hlt; exact lt_irrefl _ hlt
      have hnd : (meds ++ [best.2]).Nodup := by
        rw [List.nodup_append]
        exact ⟨h.nodup, by simp, fun a ha b hb => by
          rw [List.mem_singleton.mp hb]; rintro rfl; exact hnm ha⟩
      have hr : ∀ m ∈ meds ++ [best.2], m < n := by
        intro m hm
        rcases List.mem_append.mp hm with hm | hm
        · exact h.range m hm
        · rw [List.mem_singleton.mp hm]; exact b1
      have hdata : data.zipIdx.map (buildRecP d meds.length best.2) = initDataP d n (meds ++ [best.2]) := by
        rw [h.data, buildData_eq hd h.ne b1]
      rw [hdata]
      have hinv : BuildInv n d (meds ++ [best.2]) (initDataP d n (meds ++ [best.2]))
          (buildLoss L best.2 (initDataP d n (meds ++ [best.2]))) :=
        ⟨by simp, hnd, hr, by simp; omega, rfl,
          buildLoss_eq hd (by simp) hnd hr (by simp; omega) (by simp)⟩
      have hg' : Greedy (totalDev (conv : N → L) n d) n (meds ++ [best.2]) :=
        greedy_append hg fun x hx => by
          have := b3 x hx
          rw [b2] at this
          exact (sub_le_sub_iff_right _).mp this
      have := ih hinv (by simp; omega) hg'
      simp only [List.length_append, List.length_singleton] at this
      obtain ⟨i1, i2, ⟨ext, i3⟩, i4, i5⟩ := this
      refine ⟨i1, i2, ⟨best.2 :: ext, by rw [i3]; simp⟩, fun hl => i4 (by omega), by omega⟩

/-- BUILD, exactly. -/
theorem buildP_ex {n k : Nat} {d : Nat → Nat → N} (hd : Dissim n d) (hs : Sizes n k) :
    BuildInv n d (buildP L d n k).1 (buildP L d n k).2.1 (buildP L d n k).2.2 ∧
    Greedy (totalDev (conv : N → L) n d) n (buildP L d n k).1 ∧
    ((buildP L d n k).1.length < k → totalDev (conv : N → L) n d (buildP L d n k).1 = 0) ∧
    (buildP L d n k).1.length ≤ k := by
  have hn : 0 < n := by have := hs.pos; have := hs.le; omega
  obtain ⟨a1, a2, a3⟩ := argminP_spec (buildFirstSumP L d n) k hn
  have hinit : buildInitP d n (argminP (buildFirstSumP L d n) n k).2 =
      initDataP d n [(argminP (buildFirstSumP L d n) n k).2] := rfl
  have hinv : BuildInv n d [(argminP (buildFirstSumP L d n) n k).2]
      (buildInitP d n (argminP (buildFirstSumP L d n) n k).2) (argminP (buildFirstSumP L d n) n k).1 :=
    ⟨by simp, by simp, by simpa using a1, by simp [u32Max], hinit, by rw [a2, buildFirstSumP_eq hd a1]⟩
  have hg : Greedy (totalDev (conv : N → L) n d) n [(argminP (buildFirstSumP L d n) n k).2] := by
    intro l c hl x hx
    match l, hl with
    | 0, hl =>
      simp at hl; subst hl
      simp only [List.take_zero, List.nil_append]
      rw [← buildFirstSumP_eq hd a1, ← buildFirstSumP_eq hd hx, ← a2]
      exact a3 x hx
    | l + 1, hl => simp at hl
  obtain ⟨b1, b2, -, b4, b5⟩ := buildLoopP_ex hd hs.k_lt (cnt := k - 1) hinv
    (by simp; have := hs.pos; omega) hg
  simp only [List.length_singleton] at b1 b2 b4 b5
  refine ⟨b1, b2, fun hlt => ?_, by have := hs.pos; simp only [buildP]; omega⟩
  have b4 := b4 (by simp only [buildP] at hlt; omega)
  have hnn : ∀ o, o < n → 0 ≤ minDist d o (buildP L d n k).1 := by
    intro o ho
    obtain ⟨⟨c, hc, e⟩, -⟩ := minDist_spec d o (buildP L d n k).1 b1.ne
    rw [e]; exact hd.nonneg o c ho (b1.range c hc)
  have hz : ∀ o, o < n → minDist d o (buildP L d n k).1 = 0 := by
    intro o ho
    by_contra hne
    have hpos : 0 < minDist d o (buildP L d n k).1 := lt_of_le_of_ne (hnn o ho) (Ne.symm hne)
    refine absurd (b4 o ho) (not_le.mpr ?_)
    unfold totalDev
    apply List.sum_lt_sum
    · intro x hx
      refine LawfulFrom.strictMono.monotone ?_
      rw [minDist_append d x b1.ne]; exact min_le_left _ _
    · refine ⟨o, List.mem_range.mpr ho, LawfulFrom.strictMono ?_⟩
      rw [minDist_append d o b1.ne, hd.diag o ho]
      exact lt_of_le_of_lt (min_le_right _ _) hpos
  unfold totalDev
  rw [List.map_congr_left (g := fun _ => (0 : L)) (fun o ho => by
    rw [hz o (List.mem_range.mp ho), LawfulFrom.map_zero])]
  simp

theorem buildP_cache {n k : Nat} {d : Nat → Nat → N} (hd : Dissim n d) (hs : Sizes n k) :
    ValidMeds n (buildP L d n k).1 ∧ (buildP L d n k).1.Nodup ∧
    (buildP L d n k).2.1 = initDataP d n (buildP L d n k).1 := by
  obtain ⟨h1, -, -, h4⟩ := buildP_ex (L := L) hd hs
  refine ⟨⟨⟨?_, le_trans h4 hs.le, hs.n_le, lt_of_le_of_lt h4 hs.k_lt⟩, h1.range⟩, h1.nodup, h1.data⟩
  exact List.length_pos_iff.mpr h1.ne

/-- PAM is BUILD followed by SWAP. -/
theorem pamP_eq {n k : Nat} {d : Nat → Nat → N} (hd : Dissim n d) (hs : Sizes n k) (maxiter : Nat) :
    pamP L d n k maxiter = pamSwapP L d n (buildP L d n k).1 maxiter := by
  obtain ⟨h1, -, -, h4⟩ := buildP_ex (L := L) hd hs
  obtain ⟨hv, hnd, -⟩ := buildP_cache (L := L) hd hs
  unfold pamP pamSwapP
  rw [h1.data]
  by_cases hl : (buildP L d n k).1.length = 1
  · obtain ⟨c, hc⟩ := List.length_eq_one_iff.mp hl
    rw [hc]; rfl
  · have hk : 2 ≤ (buildP L d n k).1.length := by have := hv.sizes.pos; omega
    rw [nearLossP_eq (initDataP_ok hd hk hv hnd), ← h1.loss]

end KMedoids
