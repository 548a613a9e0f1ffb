import Verif.Props.C64
import Verif.Model.PamSil
import Verif.Model.PamMedSil

/-!
# C65: more clusters

BUILD is incremental: asking for fewer medoids gives a prefix of the list, whatever the matrix and the arithmetic. So in
exact arithmetic the loss of `pam_build` does not increase with `k`. For `pam`, i.e. after the exchanges, this is false;
with the triangle inequality the loss for more clusters is at most five times the loss for fewer.
-/

set_option linter.unusedSectionVars false
set_option linter.overlappingInstances false

namespace KMedoids

open RFrom (conv)

section any
variable {N : Type} [RDist N] {L : Type} [RLoss L] [RFrom N L]

theorem mapRes_length_of_ok {α β : Type} {f : α → Res β} {l : List α} {l' : List β} (h : mapRes f l = .ok l') :
    l'.length = l.length := by
  induction l generalizing l' with
  | nil => cases h; rfl
  | cons x xs ih =>
    rw [mapRes_cons] at h
    obtain ⟨y, -, h⟩ := bind_eq_ok.mp h
    obtain ⟨ys, hys, h⟩ := bind_eq_ok.mp h
    cases h
    simp [ih hys]

/-- A search for the minimum that takes the first candidate does not look at its start value. -/
theorem firstMin_indep {n : Nat} (h : 0 < n) (f : Nat → Res L) (a b : L × Nat) :
    foldRes (fun (best : L × Nat) (i : Nat) => do
        let sum ← f i
        .ok (if i == 0 || rlt sum best.1 then (sum, i) else best)) a (List.range n) =
      foldRes (fun (best : L × Nat) (i : Nat) => do
        let sum ← f i
        .ok (if i == 0 || rlt sum best.1 then (sum, i) else best)) b (List.range n) := by
  obtain ⟨m, rfl⟩ : ∃ m, n = m + 1 := ⟨n - 1, by omega⟩
  rw [List.range_succ_eq_map, foldRes_cons, foldRes_cons]
  cases f 0 <;> rfl

theorem buildNext_indep (mat : Mat N) {near : List N} (h : near ≠ []) (k k' : Nat) :
    buildNext L mat near k = buildNext L mat near k' :=
  firstMin_indep (List.length_pos_of_ne_nil h) (buildSum L mat near) _ _

theorem buildFirst_indep {mat : Mat N} (h : 0 < mat.len) (k k' : Nat) :
    buildFirst L mat k = buildFirst L mat k' :=
  firstMin_indep h (buildFirstSum L mat) _ _

theorem buildLoop_indep (mat : Mat N) (k k' : Nat) (ls meds : List Nat) {data : List (Rec N)} (loss : L)
    (h : data ≠ []) : buildLoop mat k ls meds data loss = buildLoop mat k' ls meds data loss := by
  induction ls generalizing meds data loss with
  | nil => rfl
  | cons l ls ih =>
    unfold buildLoop
    rw [buildNext_indep mat (by simpa using h) k k']
    cases hb : buildNext L mat (data.map (·.near.d)) k' with
    | error e => rfl
    | ok best =>
      simp only [ok_bind]
      split
      · rfl
      · cases hd : mapRes (buildUpdateRec mat l best.2) data.zipIdx with
        | error e => rfl
        | ok data' =>
          simp only [ok_bind]
          have hl := mapRes_length_of_ok hd
          exact ih _ _ (by
            apply List.ne_nil_of_length_pos
            rw [hl, List.length_zipIdx]
            exact List.length_pos_of_ne_nil h)

theorem buildLoop_prefix {mat : Mat N} {k : Nat} {ls meds : List Nat} {data : List (Rec N)} {loss : L}
    {r : List Nat × List (Rec N) × L} (h : buildLoop mat k ls meds data loss = .ok r) :
    ∃ t, r.1 = meds ++ t ∧ t.length ≤ ls.length := by
  induction ls generalizing meds data loss with
  | nil => cases h; exact ⟨[], by simp, by simp⟩
  | cons l ls ih =>
    unfold buildLoop at h
    obtain ⟨best, -, h⟩ := bind_eq_ok.mp h
    split at h
    · cases h; exact ⟨[], by simp, by simp⟩
    · obtain ⟨data', -, h⟩ := bind_eq_ok.mp h
      obtain ⟨t, ht, hl⟩ := ih h
      exact ⟨best.2 :: t, by simpa using ht, by simpa using hl⟩

theorem buildLoop_append {mat : Mat N} {k : Nat} {ls ls' meds : List Nat} {data : List (Rec N)} {loss : L}
    {r : List Nat × List (Rec N) × L} (h : buildLoop mat k (ls ++ ls') meds data loss = .ok r) :
    ∃ r', buildLoop mat k ls meds data loss = .ok r' ∧ r'.1 = r.1.take (meds.length + ls.length) := by
  induction ls generalizing meds data loss with
  | nil =>
    obtain ⟨t, ht, -⟩ := buildLoop_prefix h
    exact ⟨_, rfl, by simp [ht]⟩
  | cons l ls ih =>
    rw [List.cons_append] at h
    unfold buildLoop at h ⊢
    obtain ⟨best, hb, h⟩ := bind_eq_ok.mp h
    simp only [hb, ok_bind]
    split at h
    · cases h
      rename_i hge
      rw [if_pos hge]
      exact ⟨_, rfl, by rw [List.take_of_length_le (by simp)]⟩
    · rename_i hge
      rw [if_neg hge]
      obtain ⟨data', hd, h⟩ := bind_eq_ok.mp h
      simp only [hd, ok_bind]
      obtain ⟨r', h1, h2⟩ := ih h
      refine ⟨r', h1, ?_⟩
      rw [h2]
      congr 1
      simp; omega

theorem assertSizes_ok_iff {mat : Mat N} {k : Nat} :
    assertSizes mat k = .ok () ↔ mat.isSquare = .ok true ∧ mat.len ≤ u32Max ∧ (0 < k ∧ k < u32Max) ∧ k ≤ mat.len := by
  unfold assertSizes assertSquare
  rcases mat.isSquare with e | ⟨_ | _⟩ <;> by_cases h2 : mat.len ≤ u32Max <;> by_cases h3 : 0 < k ∧ k < u32Max <;>
    by_cases h4 : k ≤ mat.len <;> simp [h2, h3, h4, rassert]

theorem range_drop_one_append {k k' : Nat} (hk : 1 ≤ k) (hkk : k ≤ k') :
    (List.range k').drop 1 = (List.range k).drop 1 ++ (List.range k').drop k := by
  obtain ⟨m, rfl⟩ : ∃ m, k' = k + m := ⟨k' - k, by omega⟩
  rw [List.range_add, List.drop_append_of_le_length (by simpa using hk)]
  congr 1
  rw [List.drop_append_of_le_length (by simp)]
  simp

theorem pamBuildInitialize_prefix {mat : Mat N} {k k' : Nat} (hn : 0 < mat.len) (hk : 1 ≤ k) (hkk : k ≤ k')
    {r' : List Nat × List (Rec N) × L} (h : pamBuildInitialize L mat k' = .ok r') :
    ∃ r, pamBuildInitialize L mat k = .ok r ∧ r.1 = r'.1.take k := by
  unfold pamBuildInitialize at h ⊢
  obtain ⟨u, hsq, h⟩ := bind_eq_ok.mp h
  obtain ⟨best, hb, h⟩ := bind_eq_ok.mp h
  obtain ⟨data, hd, h⟩ := bind_eq_ok.mp h
  rw [buildFirst_indep hn k k']
  simp only [hsq, hb, hd, ok_bind]
  have hne : data ≠ [] := by
    apply List.ne_nil_of_length_pos
    rw [mapRes_length_of_ok hd]; simpa using hn
  rw [buildLoop_indep mat k k' _ _ _ hne]
  rw [range_drop_one_append hk hkk] at h
  obtain ⟨r, h1, h2⟩ := buildLoop_append h
  refine ⟨r, h1, ?_⟩
  rw [h2]
  congr 1
  simp; omega

/-- **C65, BUILD is incremental.** For every matrix, number type and arithmetic: if `pam_build` succeeds for `k'`
clusters, it succeeds for every `1 ≤ k ≤ k'`, and its medoids are the first `k` medoids of the result for `k'`. -/
theorem C65_pam_build_prefix {mat : Mat N} {k k' : Nat} (hk : 1 ≤ k) (hkk : k ≤ k') {r' : BuildResult L}
    (h : pamBuild L mat k' = .ok r') :
    ∃ r, pamBuild L mat k = .ok r ∧ r.med = r'.med.take k := by
  unfold pamBuild at h ⊢
  obtain ⟨u, hs, h⟩ := bind_eq_ok.mp h
  obtain ⟨p, hp, h⟩ := bind_eq_ok.mp h
  obtain ⟨s1, s2, s3, s4⟩ := assertSizes_ok_iff.mp hs
  obtain ⟨q, hq1, hq2⟩ := pamBuildInitialize_prefix (by omega) hk hkk hp
  rw [assertSizes_ok_iff.mpr ⟨s1, s2, ⟨hk, by omega⟩, hkk.trans s4⟩]
  cases h
  exact ⟨⟨q.2.2, q.2.1.map (·.near.i), q.1⟩, by simp only [ok_bind, hq1], hq2⟩

/-! ### BUILD of PAMSIL and PAMMEDSIL -/

theorem psBuildLoop_prefix {mat : Mat N} {k k' f f' : Nat} {meds r' : List Nat} {near : List N} (hne : near ≠ [])
    (h : psBuildLoop L mat k' (f + f') meds near = .ok r') :
    psBuildLoop L mat k f meds near = .ok (r'.take (meds.length + f)) := by
  have key : ∀ {f : Nat} {meds r : List Nat} {near : List N}, psBuildLoop L mat k' f meds near = .ok r →
      ∃ t, r = meds ++ t := by
    intro f
    induction f with
    | zero => intro meds r near h; cases h; exact ⟨[], by simp⟩
    | succ f ih =>
      intro meds r near h
      unfold psBuildLoop at h
      obtain ⟨best, -, h⟩ := bind_eq_ok.mp h
      obtain ⟨u, -, h⟩ := bind_eq_ok.mp h
      obtain ⟨near', -, h⟩ := bind_eq_ok.mp h
      obtain ⟨t, ht⟩ := ih h
      exact ⟨best.2 :: t, by simpa using ht⟩
  induction f generalizing meds near with
  | zero =>
    obtain ⟨t, rfl⟩ := key h
    simp [psBuildLoop]
  | succ f ih =>
    rw [show f + 1 + f' = (f + f') + 1 by omega] at h
    unfold psBuildLoop at h ⊢
    obtain ⟨best, hb, h⟩ := bind_eq_ok.mp h
    obtain ⟨u, ha, h⟩ := bind_eq_ok.mp h
    obtain ⟨near', hn, h⟩ := bind_eq_ok.mp h
    rw [buildNext_indep mat hne k k']
    simp only [hb, ha, hn, ok_bind]
    rw [ih (List.ne_nil_of_length_pos (by
      rw [mapRes_length_of_ok hn, List.length_zipIdx]; exact List.length_pos_of_ne_nil hne)) h]
    congr 2
    simp; omega

/-- **C65, BUILD of PAMSIL is incremental**, with any arithmetic. -/
theorem C65_pamsil_build_prefix {mat : Mat N} {k k' : Nat} (hn : 0 < mat.len) (hk : 1 ≤ k) (hkk : k ≤ k')
    {meds' : List Nat} (h : pamsilBuildInitialize L mat k' = .ok meds') :
    pamsilBuildInitialize L mat k = .ok (meds'.take k) := by
  unfold pamsilBuildInitialize at h ⊢
  obtain ⟨best, hb, h⟩ := bind_eq_ok.mp h
  obtain ⟨near, hd, h⟩ := bind_eq_ok.mp h
  rw [buildFirst_indep hn k k']
  simp only [hb, hd, ok_bind]
  rw [show k' - 1 = (k - 1) + (k' - k) by omega] at h
  rw [psBuildLoop_prefix (k := k) (List.ne_nil_of_length_pos (by
    rw [mapRes_length_of_ok hd]; simpa using hn)) h]
  congr 2
  simp; omega

theorem pmsBuildNext_indep [SaneZero L] (mat : Mat N) (near : List N) (k k' : Nat) {b : L × Nat}
    (h : pmsBuildNext L mat near k' = .ok b) :
    ∃ b0, pmsBuildNext L mat near k = .ok b0 ∧ b0.1 = b.1 ∧ (rge b.1 RLoss.zero = false → b0 = b) := by
  unfold pmsBuildNext at h ⊢
  have key : ∀ (l : List Nat) (a a' : L × Nat), (a = a' ∨ a.1 = RLoss.zero ∧ a'.1 = RLoss.zero) → ∀ b : L × Nat,
      foldRes (fun (best : L × Nat) (i : Nat) => do
        let sum ← buildSum L mat near i
        .ok (if i == 0 || rlt sum best.1 then (sum, i) else best)) a' l = .ok b →
      ∃ b0, foldRes (fun (best : L × Nat) (i : Nat) => do
        let sum ← buildSum L mat near i
        .ok (if i == 0 || rlt sum best.1 then (sum, i) else best)) a l = .ok b0 ∧
        (b0 = b ∨ b0.1 = RLoss.zero ∧ b.1 = RLoss.zero) := by
    intro l
    induction l with
    | nil => intro a a' ha b hb; cases hb; exact ⟨a, rfl, ha⟩
    | cons i l ih =>
      intro a a' ha b hb
      rw [foldRes_cons] at hb ⊢
      obtain ⟨s, hs, hb⟩ := bind_eq_ok.mp hb
      obtain ⟨sum, hsum, hs⟩ := bind_eq_ok.mp hs
      cases hs
      rw [hsum]
      simp only [ok_bind]
      refine ih _ _ ?_ b hb
      rcases ha with rfl | ⟨h1, h2⟩
      · exact .inl rfl
      · rw [h1, h2]
        split
        · exact .inl rfl
        · exact .inr ⟨h1, h2⟩
  obtain ⟨b0, h1, h2⟩ := key _ (RLoss.zero, k) (RLoss.zero, k') (.inr ⟨rfl, rfl⟩) b h
  refine ⟨b0, h1, ?_, ?_⟩
  · rcases h2 with rfl | ⟨h2, h3⟩
    · rfl
    · rw [h2, h3]
  · intro hge
    rcases h2 with rfl | ⟨h2, h3⟩
    · rfl
    · rw [h3] at hge
      simp [rge, SaneZero.pcmp_zero] at hge

theorem pmsBuildLoop_append [SaneZero L] {mat : Mat N} {k k' : Nat} {ls ls' meds : List Nat} {data : List (Reco N)}
    {loss : L} {r : List Nat × List (Reco N) × L} (h : pmsBuildLoop mat k' (ls ++ ls') meds data loss = .ok r) :
    ∃ r', pmsBuildLoop mat k ls meds data loss = .ok r' ∧ r'.1 = r.1.take (meds.length + ls.length) := by
  have key : ∀ {ls meds : List Nat} {data : List (Reco N)} {loss : L} {r : List Nat × List (Reco N) × L},
      pmsBuildLoop mat k' ls meds data loss = .ok r → ∃ t, r.1 = meds ++ t := by
    intro ls
    induction ls with
    | nil => intro meds data loss r h; cases h; exact ⟨[], by simp⟩
    | cons l ls ih =>
      intro meds data loss r h
      unfold pmsBuildLoop at h
      obtain ⟨best, -, h⟩ := bind_eq_ok.mp h
      split at h
      · cases h; exact ⟨[], by simp⟩
      · obtain ⟨data', -, h⟩ := bind_eq_ok.mp h
        obtain ⟨t, ht⟩ := ih h
        exact ⟨best.2 :: t, by simpa using ht⟩
  induction ls generalizing meds data loss with
  | nil =>
    obtain ⟨t, ht⟩ := key h
    exact ⟨_, rfl, by simp [ht]⟩
  | cons l ls ih =>
    rw [List.cons_append] at h
    unfold pmsBuildLoop at h ⊢
    obtain ⟨best, hb, h⟩ := bind_eq_ok.mp h
    obtain ⟨b0, hb0, hz, heq⟩ := pmsBuildNext_indep mat _ k k' hb
    simp only [hb0, ok_bind, hz]
    split at h
    · cases h
      rename_i hge
      rw [if_pos hge]
      exact ⟨_, rfl, by rw [List.take_of_length_le (by simp)]⟩
    · rename_i hge
      rw [if_neg hge, heq (by simpa using hge)]
      obtain ⟨data', hd, h⟩ := bind_eq_ok.mp h
      simp only [hd, ok_bind]
      obtain ⟨r', h1, h2⟩ := ih h
      refine ⟨r', h1, ?_⟩
      rw [h2]
      congr 1
      simp; omega

/-- **C65, BUILD of PAMMEDSIL is incremental**, when `0` compares equal to itself. -/
theorem C65_pammedsil_build_prefix [SaneZero L] {mat : Mat N} {k k' : Nat} (hn : 0 < mat.len) (hk : 1 ≤ k)
    (hkk : k ≤ k') {r' : List Nat × List (Reco N) × L} (h : pammedsilBuildInitialize L mat k' = .ok r') :
    ∃ r, pammedsilBuildInitialize L mat k = .ok r ∧ r.1 = r'.1.take k := by
  unfold pammedsilBuildInitialize at h ⊢
  obtain ⟨best, hb, h⟩ := bind_eq_ok.mp h
  obtain ⟨data, hd, h⟩ := bind_eq_ok.mp h
  rw [buildFirst_indep hn k k']
  simp only [hb, hd, ok_bind]
  rw [range_drop_one_append hk hkk] at h
  obtain ⟨r, h1, h2⟩ := pmsBuildLoop_append (k := k) h
  refine ⟨r, h1, ?_⟩
  rw [h2]
  congr 1
  simp; omega

end any

section exact
variable {N : Type} [RDist N] {L : Type} [RLoss L] [RFrom N L]
  [LinearOrder N] [Zero N] [LawfulDist N] [AddCommGroup L] [LinearOrder L] [IsOrderedAddMonoid L]
  [LawfulLoss L] [LawfulFrom N L]

theorem totalDev_anti {n : Nat} (d : Nat → Nat → N) {x y : List Nat} (hx : x ≠ []) (h : x ⊆ y) :
    totalDev (conv : N → L) n d y ≤ totalDev (conv : N → L) n d x := by
  rw [totalDev_eq_sum, totalDev_eq_sum]
  refine Finset.sum_le_sum fun o _ => (LawfulFrom.strictMono (N := N) (L := L)).monotone ?_
  have hy : y ≠ [] := fun h0 => hx (List.subset_nil.mp (h0 ▸ h))
  obtain ⟨c, hc, e⟩ := (minDist_spec d o x hx).1
  exact e ▸ (minDist_spec d o y hy).2 _ (h hc)

/-- **C65, more clusters do not increase the loss of BUILD.** -/
theorem C65_pam_build_antitone {mat : Mat N} {n k k' : Nat} {d : Nat → Nat → N} (hm : IsMatrix mat n d)
    (hd : Dissim n d) (hs : Sizes n k) (hs' : Sizes n k') (hkk : k ≤ k') {r r' : BuildResult L}
    (h : pamBuild L mat k = .ok r) (h' : pamBuild L mat k' = .ok r') : r'.loss ≤ r.loss := by
  obtain ⟨r0, h0, h1⟩ := C65_pam_build_prefix hs.pos hkk h'
  rw [h] at h0
  cases h0
  obtain ⟨a1, -, -, -, -, a6⟩ := C19_pam_build hm hd hs h
  obtain ⟨-, -, -, -, -, b6⟩ := C19_pam_build hm hd hs' h'
  rw [a6, b6]
  exact totalDev_anti d (List.ne_nil_of_length_pos a1) (h1 ▸ List.take_subset _ _)

/-- **C65, the loss of PAM is bounded by BUILD with fewer clusters**, for every iteration limit. -/
theorem C65_pam_le_build {mat : Mat N} {n k k' : Nat} {d : Nat → Nat → N} (hm : IsMatrix mat n d)
    (hd : Dissim n d) (hsym : Symm n d) (hs : Sizes n k) (hs' : Sizes n k') (hkk : k ≤ k') {maxiter : Nat}
    {r : BuildResult L} {r' : SwapResult L} (h : pamBuild L mat k = .ok r) (h' : pam L mat k' maxiter = .ok r') : r'.loss ≤ r.loss := by
  have hb := pamBuild_eq (L := L) hm hs'
  obtain ⟨-, q, e', hle⟩ := C22_pam hm hd hs' maxiter hb
  rw [e'] at h'
  cases h'
  exact (hle fun _ => hsym).trans (C65_pam_build_antitone hm hd hs hs' hkk h hb)

/-- **C65, metrics.** With the triangle inequality a converged run of `pam` with more clusters has at most five times the
loss of `pam` with fewer clusters, whatever the iteration limit of the latter. -/
theorem C65_pam_metric {mat : Mat N} {n k k' : Nat} {d : Nat → Nat → N} (hm : IsMatrix mat n d) (hd : Dissim n d)
    (hmet : IsMetric (conv : N → L) n d) (hs : Sizes n k) (hs' : Sizes n k') (hkk : k ≤ k') {maxiter maxiter' : Nat}
    {r r' : SwapResult L} (h : pam L mat k maxiter = .ok r) (h' : pam L mat k' maxiter' = .ok r')
    (hlt : r'.nIter < maxiter') : r'.loss ≤ 5 • r.loss := by
  have hb := pamBuild_eq (L := L) hm hs
  obtain ⟨a1, a2, a3, a4, -, -⟩ := C19_pam_build hm hd hs hb
  obtain ⟨e, q, e', -⟩ := C22_pam hm hd hs maxiter hb
  rw [e'] at h
  cases h
  rw [e] at e'
  have hv : ValidMeds n (pamBuildP L d n k).med := ⟨⟨a1, a2.trans hs.le, hs.n_le, lt_of_le_of_lt a2 hs.k_lt⟩, a4⟩
  have ho := pam_swap_outcome hm hd hv a3 (fun _ => hmet.symm) maxiter e'
  have hlen := ho.chain.length
  rw [ho.loss]
  exact C64_pam hm hd hmet hs' h' hlt (List.ne_nil_of_length_pos (by omega)) (ho.chain.range hv.range)
    (by omega)

end exact

/-! ### The loss of PAM may increase with the number of clusters -/

def moreRows : List (List ℕ) :=
  [[0,6,4,5,7,1,4], [6,0,6,4,3,1,6], [4,6,0,3,6,9,2], [5,4,3,0,7,1,2], [7,3,6,7,0,8,8], [1,1,9,1,8,0,5],
   [4,6,2,2,8,5,0]]

def moreD (x y : Nat) : ℕ := ((moreRows.getD x []).getD y 0)

/-- Full statement "more clusters never increase the loss of a converged run of `pam`" is false: a symmetric matrix with
zeros exactly on the diagonal where three clusters give 5 and four give 6. -/
theorem C65_pam_not_antitone :
    IsMatrix (ofRows moreRows) 7 moreD ∧ Dissim 7 moreD ∧ Symm 7 moreD ∧ Sizes 7 3 ∧ Sizes 7 4 ∧
      ∃ r r' : SwapResult ℤ, pam ℤ (ofRows moreRows) 3 9 = .ok r ∧ pam ℤ (ofRows moreRows) 4 9 = .ok r' ∧
        r.nIter < 9 ∧ r'.nIter < 9 ∧ r.loss = 5 ∧ r'.loss = 6 := by
  refine ⟨⟨rfl, rfl, fun x y hx hy => ?_⟩, ⟨by decide, fun _ _ _ _ => Nat.zero_le _⟩, fun x y hx hy => ?_,
    ⟨by decide, by decide, by decide, by decide⟩, ⟨by decide, by decide, by decide, by decide⟩, _, _, rfl, rfl,
    by decide +kernel, by decide +kernel, by decide +kernel, by decide +kernel⟩
  · have : ∀ x < 7, ∀ y < 7, (ofRows moreRows).get x y = .ok (moreD x y) := by decide +kernel
    exact this x hx y hy
  · have : ∀ x < 7, ∀ y < 7, moreD x y = moreD y x := by decide +kernel
    exact this x hx y hy

/-- The hypotheses of the BUILD theorems are met; the prefix is proper. -/
example : (∃ r r' : BuildResult ℤ, pamBuild ℤ (ofRows moreRows) 2 = .ok r ∧ pamBuild ℤ (ofRows moreRows) 4 = .ok r' ∧
      r'.med.length = 4 ∧ r.med = r'.med.take 2 ∧ r'.loss < r.loss) ∧
    pamsilBuildInitialize ℚ (ofRows moreRows) 4 = .ok [3, 1, 0, 2] ∧
    (pammedsilBuildInitialize ℚ (ofRows moreRows) 4).map (·.1) = .ok [3, 1, 5, 2] :=
  ⟨⟨_, _, rfl, rfl, by decide +kernel, by decide +kernel, by decide +kernel⟩, by decide +kernel,
    by decide +kernel⟩

/-- The hypotheses of `C65_pam_metric` are met. -/
example : IsMetric (conv : ℕ → ℤ) 6 (lineD [1, 2, 3, 3, 4, 8]) ∧
    ∃ r r' : SwapResult ℤ, pam ℤ (lineMat [1, 2, 3, 3, 4, 8]) 2 9 = .ok r ∧
      pam ℤ (lineMat [1, 2, 3, 3, 4, 8]) 3 9 = .ok r' ∧ r'.nIter < 9 ∧ 0 < r'.loss ∧ r'.loss < r.loss :=
  ⟨lineD_metric _ _, _, _, rfl, rfl, by decide +kernel, by decide +kernel, by decide +kernel⟩

end KMedoids
