import Verif.Proofs.Cache

/-!
# The caches stay correct during whole optimisation runs

Level 2 (linearly ordered distances), arbitrary loss arithmetic.
-/

set_option linter.unusedSectionVars false

namespace KMedoids

open RFrom (conv)

section any

/-! ## Facts that need no law -/

variable {N L : Type} [RDist N] [RLoss L] [RFrom N L]

theorem remP_length {data : List (Rec N)} {k : Nat} (hidx : ∀ r ∈ data, RecIdx k r) :
    (remP L data k).length = k := (updateRemovalLoss_eq hidx).2

theorem fbs_fold_length (d : Nat → Nat → N) (rem : List L) (data : List (Rec N)) (j : Nat) (acc : L) :
    (data.zipIdx.foldl (fbsStepP d j) (rem, acc)).1.length = rem.length := by
  refine foldl_inv (fun st : List L × L => st.1.length = rem.length) (fun st p _ hst => ?_) rfl
  unfold fbsStepP
  split
  · simpa using hst
  · split
    · simpa using hst
    · exact hst

theorem fbsP_lt (d : Nat → Nat → N) {rem : List L} (data : List (Rec N)) (j : Nat)
    (hk : 1 ≤ rem.length) : (fbsP d rem data j).2 < rem.length := by
  have h2 := fbs_fold_length d rem data j RLoss.zero
  have hne : (data.zipIdx.foldl (fbsStepP d j) (rem, RLoss.zero)).1 ≠ [] := by
    intro h; rw [h] at h2; simp at h2; omega
  have := findMinP_lt hne
  simp only [fbsP]; omega

theorem pamFbsP_lt [SaneZero L] (d : Nat → Nat → N) (k : Nat) (data : List (Rec N)) (j : Nat)
    (h : rlt (pamFbsP L d k data j).1 RLoss.zero = true) : (pamFbsP L d k data j).2 < k := by
  revert h
  refine foldl_inv (fun b : L × Nat => rlt b.1 RLoss.zero = true → b.2 < k) (fun b m hm hb => ?_)
    (by simp [rlt_zero_zero])
  split
  · intro _; exact List.mem_range.mp hm
  · exact hb

theorem nearRecP_eq (d : Nat → Nat → N) (med : List Nat) (i : Nat) :
    nearRecP d med i = ((initRecP d med i).near.i, (initRecP d med i).near.d) := by
  have h : ∀ (xs : List (Nat × Nat)) (r : Rec N),
      xs.foldl (fun (best : Nat × N) (p : Nat × Nat) =>
        if rlt (d i p.1) best.2 || i == p.1 then (p.2, d i p.1) else best) (r.near.i, r.near.d) =
      ((xs.foldl (initStepP d i) r).near.i, (xs.foldl (initStepP d i) r).near.d) := by
    intro xs
    induction xs with
    | nil => intro r; rfl
    | cons p xs ih =>
      intro r
      rw [List.foldl_cons, List.foldl_cons, ← ih]
      congr 1
      unfold initStepP
      dsimp only
      split
      · rfl
      · split <;> rfl
  exact h _ ⟨⟨0, d i (med.headD 0)⟩, ⟨u32Max, RDist.zero⟩⟩

/-- The chosen medoid is the old one or a member of the cluster. -/
theorem chooseP_mem (d : Nat → Nat → N) (assi : List Nat) (m c : Nat) :
    (chooseP L d assi m c).1 = c ∨ assi[(chooseP L d assi m c).1]? = some m := by
  refine foldl_inv (fun st : Nat × L => st.1 = c ∨ assi[st.1]? = some m) (fun st p hp hst => ?_)
    (Or.inl rfl)
  split
  · rename_i h
    split
    · right; rw [mem_zipIdx_get hp, h.2]
    · exact hst
  · exact hst

theorem altUpdateP_eq (d : Nat → Nat → N) (assi med : List Nat) :
    altUpdateP L d assi med = (med.zipIdx.any fun p => (chooseP L d assi p.2 p.1).1 != p.1,
      med.zipIdx.map fun p => (chooseP L d assi p.2 p.1).1) := by
  have h : ∀ (post pre : List Nat) (b : Bool),
      (List.range' pre.length post.length).foldl (fun (st : Bool × List Nat) (i : Nat) =>
        (st.1 || (chooseP L d assi i (st.2.getD i 0)).1 != st.2.getD i 0,
          st.2.set i (chooseP L d assi i (st.2.getD i 0)).1)) (b, pre ++ post) =
      (b || (post.zipIdx pre.length).any fun p => (chooseP L d assi p.2 p.1).1 != p.1,
        pre ++ (post.zipIdx pre.length).map fun p => (chooseP L d assi p.2 p.1).1) := by
    intro post
    induction post with
    | nil => intro pre b; simp
    | cons c post ih =>
      intro pre b
      have hg : (pre ++ c :: post).getD pre.length 0 = c := by simp
      rw [List.length_cons, List.range'_succ, List.foldl_cons]
      simp only [hg, List.zipIdx_cons, List.any_cons, List.map_cons]
      have hset : (pre ++ c :: post).set pre.length (chooseP L d assi pre.length c).1 =
          (pre ++ [(chooseP L d assi pre.length c).1]) ++ post := by
        simp
      rw [hset]
      have := ih (pre ++ [(chooseP L d assi pre.length c).1])
        (b || (chooseP L d assi pre.length c).1 != c)
      simp only [List.length_append, List.length_singleton] at this
      rw [this]
      simp [Bool.or_assoc]
  have := h med [] false
  simpa [altUpdateP, List.range_eq_range'] using this

theorem altUpdateP_unchanged {d : Nat → Nat → N} {assi med : List Nat}
    (h : (altUpdateP L d assi med).1 = false) : (altUpdateP L d assi med).2 = med := by
  rw [altUpdateP_eq] at h ⊢
  simp only [List.any_eq_false, bne_iff_ne, ne_eq, not_not] at h
  simp only
  rw [List.map_congr_left (g := fun p : Nat × Nat => p.1) (fun p hp => h p hp)]
  simp

end any

variable {N L : Type} [LinearOrder N] [Zero N] [RDist N] [LawfulDist N] [RLoss L] [RFrom N L]

/-! ## FasterPAM -/

/-- Invariant of the FasterPAM loop. -/
structure FPOk (n k : Nat) (d : Nat → Nat → N) (s : FPState N L) : Prop where
  cache : CacheOk n d s.med s.data
  medLen : s.med.length = k
  remLen : s.rem.length = k

theorem fpSwapP_ok {n k : Nat} {d : Nat → Nat → N} (hd : Dissim n d) {s : FPState N L}
    (hs : FPOk n k d s) {b j : Nat} (hb : b < k) (hj : j < n) (hjm : j ∉ s.med) :
    FPOk n k d (fpSwapP d s b j) := by
  have h := swapDataP_ok hd hs.cache (hs.medLen ▸ hb) hj hjm
  refine ⟨h, by simp [fpSwapP, hs.medLen], ?_⟩
  have h2 := h.shape.recIdx
  simp only [List.length_set, hs.medLen] at h2
  show (remP L (swapDataP d s.med s.data b j) s.rem.length).length = k
  rw [hs.remLen]
  exact remP_length h2

theorem fpPassP_ok {n k : Nat} {d : Nat → Nat → N} (hd : Dissim n d) (hk : 1 ≤ k) {js : List Nat}
    (hjs : ∀ j ∈ js, j < n) {s : FPState N L} (hs : FPOk n k d s) : FPOk n k d (fpPassP d js s) := by
  induction js generalizing s with
  | nil => exact hs
  | cons j js ih =>
    have hj : j < n := hjs j (by simp)
    have ih' := fun {s : FPState N L} (h : FPOk n k d s) => ih (fun j hj => hjs j (by simp [hj])) h
    unfold fpPassP
    split
    · exact hs
    · split
      · exact ih' hs
      · rename_i hown
        dsimp only
        split
        · exact ih' hs
        · have hb := fbsP_lt d (rem := s.rem) s.data j (by rw [hs.remLen]; exact hk)
          rw [hs.remLen] at hb
          exact ih' (fpSwapP_ok hd hs hb hj (fun h => hown ((ownP_iff hs.cache hj).mpr h)))

theorem fpLoopP_ok {n k : Nat} {d : Nat → Nat → N} (hd : Dissim n d) (hk : 1 ≤ k) {seq : List Nat}
    (hseq : ∀ j ∈ seq, j < n) {fuel iter : Nat} {s : FPState N L} (hs : FPOk n k d s) :
    FPOk n k d (fpLoopP d seq fuel iter s).1 := by
  induction fuel generalizing iter s with
  | zero => exact hs
  | succ fuel ih =>
    have h := fpPassP_ok hd hk hseq hs
    unfold fpLoopP
    dsimp only
    split
    · exact h
    · exact ih h

theorem fpInitP_ok {n : Nat} {d : Nat → Nat → N} (hd : Dissim n d) {med : List Nat}
    (hv : ValidMeds n med) (hk : 2 ≤ med.length) (hnd : med.Nodup) :
    FPOk n med.length d (fpInitP L d n med) :=
  ⟨initDataP_ok hd hk hv hnd, rfl, (fpInitP_shape d hv hk).remLen⟩

/-! ## PAM and FastPAM1 -/

theorem scan_fold (fbs : Nat → L × Nat) (own : Nat → Bool) (js : List Nat) (b0 : L × Nat × Nat) :
    js.foldl (scanStepP fbs own) b0 = b0 ∨
      ∃ j ∈ js, own j = false ∧ js.foldl (scanStepP fbs own) b0 = ((fbs j).1, (fbs j).2, j) := by
  induction js using List.reverseRecOn with
  | nil => left; rfl
  | append_singleton js j ih =>
    rw [List.foldl_append, List.foldl_cons, List.foldl_nil]
    have ih' : js.foldl (scanStepP fbs own) b0 = b0 ∨ ∃ j' ∈ js ++ [j], own j' = false ∧
        js.foldl (scanStepP fbs own) b0 = ((fbs j').1, (fbs j').2, j') := by
      rcases ih with ih | ⟨j', h1, h2⟩
      · exact Or.inl ih
      · exact Or.inr ⟨j', by simp [h1], h2⟩
    unfold scanStepP at ih' ⊢
    split
    · exact ih'
    · rename_i hown
      split
      · exact ih'
      · right; exact ⟨j, by simp, by simpa using hown, rfl⟩

/-- What the loop needs from the scan. -/
def ScanSound (n k : Nat) (d : Nat → Nat → N) (scan : List Nat → List (Rec N) → L × Nat × Nat) : Prop :=
  ∀ med data, CacheOk n d med data → med.length = k → rlt (scan med data).1 RLoss.zero = true →
    (scan med data).2.1 < k ∧ (scan med data).2.2 < n ∧ (scan med data).2.2 ∉ med

theorem pamScanP_sound [SaneZero L] (n k : Nat) (d : Nat → Nat → N) :
    ScanSound n k d (pamScanP (L := L) d n k) := by
  intro med data hc hlen hlt
  rcases scan_fold (pamFbsP L d k data) (ownP med data) (List.range n) (RLoss.zero, k, usizeMax) with
    h | ⟨j, hj, hown, h⟩
  · rw [pamScanP, h] at hlt; simp [rlt_zero_zero] at hlt
  · have hj := List.mem_range.mp hj
    rw [pamScanP, h] at hlt ⊢
    refine ⟨pamFbsP_lt d k data j hlt, hj, fun hmem => ?_⟩
    have := (ownP_iff hc hj).mpr hmem
    simp [hown] at this

theorem fastScanP_sound [SaneZero L] {n k : Nat} (hk : 1 ≤ k) (d : Nat → Nat → N) :
    ScanSound n k d (fastScanP (L := L) d n k) := by
  intro med data hc hlen hlt
  have hrl : (remP L data k).length = k := remP_length (hlen ▸ hc.shape.recIdx)
  rcases scan_fold (fbsP d (remP L data k) data) (ownP med data) (List.range n)
    (RLoss.zero, usizeMax, usizeMax) with h | ⟨j, hj, hown, h⟩
  · rw [fastScanP, h] at hlt; simp [rlt_zero_zero] at hlt
  · have hj := List.mem_range.mp hj
    rw [fastScanP, h]
    refine ⟨?_, hj, fun hmem => ?_⟩
    · have := fbsP_lt d (rem := remP L data k) data j (by rw [hrl]; exact hk)
      rw [hrl] at this; exact this
    · have := (ownP_iff hc hj).mpr hmem
      simp [hown] at this

theorem pLoopP_ok {n k : Nat} {d : Nat → Nat → N} (hd : Dissim n d)
    {scan : List Nat → List (Rec N) → L × Nat × Nat} (hscan : ScanSound n k d scan)
    {fuel iter : Nat} {s : PState N L} (hs : CacheOk n d s.med s.data) (hlen : s.med.length = k) :
    CacheOk n d (pLoopP d scan fuel iter s).1.med (pLoopP d scan fuel iter s).1.data ∧
      (pLoopP d scan fuel iter s).1.med.length = k := by
  induction fuel generalizing iter s with
  | zero => exact ⟨hs, hlen⟩
  | succ fuel ih =>
    unfold pLoopP
    dsimp only
    split
    · rename_i hlt
      obtain ⟨h1, h2, h3⟩ := hscan _ _ hs hlen hlt
      have h := swapDataP_ok hd hs (hlen ▸ h1) h2 h3
      have hl : (s.med.set (scan s.med s.data).2.1 (scan s.med s.data).2.2).length = k := by
        simp [hlen]
      split
      · exact ⟨h, hl⟩
      · exact ih (s := pSwapP d s _ _ _) h hl
    · exact ⟨hs, hlen⟩

/-! ## Alternating -/

/-- In every state of the initial scan the nearest medoid is correct. -/
theorem InitOk.nearest {d : Nat → Nat → N} {med : List Nat} {o : Nat} {r : Rec N}
    (h : InitOk d med o r) : (∃ c, med[r.near.i]? = some c ∧ d o c = r.near.d) ∧
      (∀ c ∈ med, r.near.d ≤ d o c) ∧ ∀ m : Nat, med[m]? = some o → r.near.i = m := by
  rcases h with ⟨c, rfl, h, -⟩ | ⟨-, h⟩
  · rw [h]
    refine ⟨⟨c, rfl, rfl⟩, by simp, fun m hm => ?_⟩
    match m, hm with
    | 0, _ => rfl
    | m + 1, hm => simp at hm
  · refine ⟨h.near, fun c hc => ?_, h.own⟩
    obtain ⟨m, hm⟩ := List.mem_iff_getElem?.mp hc
    by_cases hmi : m = r.near.i
    · obtain ⟨c', hc', hd'⟩ := h.near
      subst hmi; rw [hc'] at hm; cases hm; exact le_of_eq hd'.symm
    · exact le_trans h.le (h.rest m c hm hmi)

theorem nearAssiP_ok {n : Nat} {d : Nat → Nat → N} (hd : Dissim n d) {med : List Nat}
    (hv : ValidMeds n med) (hnd : med.Nodup) : NearestAssignment n d med (nearAssiP d n med) := by
  have hne : med ≠ [] := by intro h; have := hv.sizes.pos; simp [h] at this
  have hi : ∀ o : Nat, o < n → InitOk d med o (initRecP d med o) := fun o ho =>
    initRecP_init hd ho med hne hv.range hnd (le_of_lt hv.sizes.k_lt)
  refine ⟨by simp [nearAssiP], ?_, ?_⟩
  · intro o m hm
    have ho : o < n := by
      have := (List.getElem?_eq_some_iff.mp hm).1; simpa [nearAssiP] using this
    simp only [nearAssiP, nearRecP_eq, List.getElem?_map, List.getElem?_range ho, Option.map_some,
      Option.some.injEq] at hm
    obtain ⟨⟨c, h1, h2⟩, h3, -⟩ := (hi o ho).nearest
    exact ⟨c, hm ▸ h1, fun c' hc' => h2 ▸ h3 c' hc'⟩
  · intro m c hm
    have hc : c < n := hv.range c (List.mem_of_getElem? hm)
    simp [nearAssiP, nearRecP_eq, List.getElem?_range hc, (hi c hc).nearest.2.2 m hm]

theorem altUpdateP_nodup {n : Nat} {d : Nat → Nat → N} {assi med : List Nat}
    (ha : NearestAssignment n d med assi) : (altUpdateP L d assi med).2.Nodup := by
  rw [altUpdateP_eq]
  have hmem : ∀ (i c : Nat), med[i]? = some c → assi[(chooseP L d assi i c).1]? = some i := by
    intro i c hc
    rcases chooseP_mem (L := L) d assi i c with h | h
    · rw [h]; exact ha.own i c hc
    · exact h
  rw [List.nodup_iff_pairwise_ne, List.pairwise_iff_getElem]
  intro i j hi hj hij heq
  simp only [List.length_map, List.length_zipIdx] at hi hj
  simp only [List.getElem_map, List.getElem_zipIdx, Nat.zero_add] at heq
  have h1 := hmem i med[i] (by simp [hi])
  have h2 := hmem j med[j] (by simp [hj])
  rw [heq, h2] at h1
  simp at h1; omega

theorem altLoopP_ok {n : Nat} {d : Nat → Nat → N} (hd : Dissim n d) {fuel iter : Nat} {loss : L}
    {assi med : List Nat} (hv : ValidMeds n med) (hnd : med.Nodup)
    (ha : NearestAssignment n d med assi) :
    (altLoopP d n fuel iter loss assi med).med.Nodup ∧
      NearestAssignment n d (altLoopP d n fuel iter loss assi med).med
        (altLoopP d n fuel iter loss assi med).assi := by
  induction fuel generalizing iter loss assi med with
  | zero => exact ⟨hnd, ha⟩
  | succ fuel ih =>
    unfold altLoopP
    dsimp only
    split
    · rename_i h
      rw [altUpdateP_unchanged (by simpa using h)]
      exact ⟨hnd, ha⟩
    · have hnd' := altUpdateP_nodup (L := L) ha
      have hv' : ValidMeds n (altUpdateP L d assi med).2 := by
        rw [altUpdateP_eq]
        refine ⟨by simpa using hv.sizes, fun m hm => ?_⟩
        obtain ⟨p, hp, rfl⟩ := List.mem_map.mp hm
        rcases chooseP_mem (L := L) d assi p.2 p.1 with h | h
        · rw [h]; exact hv.range _ (mem_zipIdx_mem hp)
        · exact ha.length ▸ (List.getElem?_eq_some_iff.mp h).1
      exact ih hv' hnd' (nearAssiP_ok hd hv' hnd')

/-- The single-medoid answer is a nearest assignment. -/
theorem single_assignment {n : Nat} (d : Nat → Nat → N) {c : Nat} (hc : c < n) :
    NearestAssignment n d [c] (List.replicate n 0) := by
  refine ⟨by simp, ?_, ?_⟩
  · intro o m hm
    obtain ⟨h1, h2⟩ := List.getElem?_eq_some_iff.mp hm
    rw [List.getElem_replicate] at h2
    subst h2
    exact ⟨c, rfl, by simp⟩
  · intro m c' hm
    match m, hm with
    | 0, hm => simp at hm; subst hm; simp [hc]
    | m + 1, hm => simp at hm

end KMedoids
