import Verif.Props.C70

/-!
# C74: the alternating algorithm under rounding

C23 and C55 in floating point: a run that ends by itself leaves medoids which are best in their clusters up to a rounding
error, and an iteration increases the exact total deviation at most by a rounding error. (C72: it need not end by itself.)
-/

set_option linter.unusedSectionVars false
set_option linter.overlappingInstances false

namespace KMedoids

variable {N L K : Type} [LinearOrder N] [Zero N] [RDist N] [LawfulDist N] [RLoss L] [RFrom N L]
  [Field K] [LinearOrder K] [IsStrictOrderedRing K]
open RFrom (conv)

variable {fin : L → Prop} {val : L → K} {u B : K}

/-- The exact sum of the distances from `c` to the members of cluster `m`. -/
abbrev exactCluster (N : Type) {L K : Type} [RFrom N L] [Field K] (val : L → K) (d : Nat → Nat → N) (assi : List Nat)
    (m c : Nat) : K :=
  clusterSum (fun x : N => val (conv x : L)) d assi m c

section cluster
variable {n : Nat} {d : Nat → Nat → N} {assi : List Nat} {m c : Nat}

theorem exactCluster_nonneg (M : FloatLoss N fin val u B) (hd : Dissim n d) (hl : assi.length = n) (hc : c < n) :
    0 ≤ exactCluster N val d assi m c := List.sum_nonneg fun y hy => by
  obtain ⟨p, hp, rfl⟩ := List.mem_map.mp hy
  exact M.val_nonneg (hd.nonneg c p.2 hc (hl ▸ mem_zipIdx_lt (List.mem_filter.mp hp).1))

/-- The computed sum: one rounding for each other member. -/
theorem appr_partSum (M : FloatLoss N fin val u B) (hd : Dissim n d) (hl : assi.length = n) (hc : assi[c]? = some m)
    (hB : (1 + u) ^ (assi.count m - 1) * exactCluster N val d assi m c ≤ B) :
    Appr fin val u (assi.count m - 1) (exactCluster N val d assi m c) (exactCluster N val d assi m c)
      (partSumP L d assi m c) := by
  have hcn : c < n := hl ▸ (List.getElem?_eq_some_iff.mp hc).1
  set ps := assi.zipIdx.filter fun p => decide (p.2 ≠ c ∧ p.1 = m) with hps
  have hsum : (ps.map fun p => val (conv (d c p.2) : L)).sum = exactCluster N val d assi m c := by
    unfold exactCluster clusterSum
    rw [hps, filter_sum, filter_sum]
    congr 1
    refine List.map_congr_left fun p _ => ?_
    by_cases h1 : p.1 = m
    · by_cases h2 : p.2 = c
      · simp [h1, h2, hd.diag c hcn, M.conv_zero, M.std.zero]
      · simp [h1, h2]
    · simp [h1]
  have hlen : ps.length ≤ assi.count m - 1 := by
    have h1 : ps = (assi.zipIdx.filter fun p => decide (p.1 = m)).filter fun p => decide (p.2 ≠ c) := by
      rw [hps, List.filter_filter]
      exact List.filter_congr fun p _ => by simp
    have h2 : (assi.zipIdx.filter fun p => decide (p.1 = m)).length = assi.count m := by
      have : assi.count m = (assi.zipIdx.map Prod.fst).count m := by rw [List.zipIdx_map_fst]
      rw [this, List.count, List.countP_map, List.countP_eq_length_filter]
      congr 1
    have h3 : ps.length < (assi.zipIdx.filter fun p => decide (p.1 = m)).length := by
      rw [h1, List.length_filter_lt_length_iff_exists]
      exact ⟨(m, c), List.mem_filter.mpr ⟨List.mem_zipIdx_iff_getElem?.mpr hc, by simp⟩, by simp⟩
    omega
  have hb : BracketSum ((RLoss.zero : L) :: ps.map fun p => (conv (d c p.2) : L)) (partSumP L d assi m c) := by
    have := leftSum_bracket (L := L) (xs := RLoss.zero :: ps.map fun p => (conv (d c p.2) : L)) (by simp)
    rw [leftSum, List.foldl_map] at this
    rwa [partSumP, show assi.zipIdx.foldl (fun (sum : L) (p : Nat × Nat) =>
      if p.2 ≠ c ∧ p.1 = m then RLoss.add sum (conv (d c p.2)) else sum) RLoss.zero =
        ps.foldl (fun s p => RLoss.add s (conv (d c p.2))) RLoss.zero by rw [hps, List.foldl_filter]; simp]
  have hval : ((RLoss.zero : L) :: ps.map fun p => (conv (d c p.2) : L)).map val =
      0 :: ps.map fun p => val (conv (d c p.2) : L) := by
    rw [List.map_cons, M.std.zero, List.map_map]; rfl
  have h0 := exactCluster_nonneg (m := m) M hd hl hcn
  have := hb.appr M.std (fun x hx => ?_) (by
    rw [hval, List.sum_cons, zero_add, hsum, List.length_cons, List.length_map, Nat.add_sub_cancel]
    exact (mul_le_mul_of_nonneg_right (M.std.pow_mono hlen) h0).trans hB)
  · rw [hval, List.sum_cons, zero_add, hsum, List.length_cons, List.length_map, Nat.add_sub_cancel] at this
    exact this.mono M.std hlen le_rfl
  · rcases List.mem_cons.mp hx with rfl | hx
    · exact ⟨M.std.zero_fin, M.std.zero.ge⟩
    · obtain ⟨p, hp, rfl⟩ := List.mem_map.mp hx
      exact ⟨M.conv_fin _, M.val_nonneg (hd.nonneg c p.2 hcn (hl ▸ mem_zipIdx_lt (List.mem_filter.mp hp).1))⟩

/-- The chosen member of a cluster is a best one up to rounding. -/
theorem choose_near (M : FloatLoss N fin val u B) (hd : Dissim n d) (hl : assi.length = n) (hc : assi[c]? = some m)
    (hB : ∀ x, assi[x]? = some m → (1 + u) ^ (assi.count m - 1) * exactCluster N val d assi m x ≤ B)
    {x : Nat} (hx : assi[x]? = some m) :
    assi[(chooseP L d assi m c).1]? = some m ∧
    exactCluster N val d assi m (chooseP L d assi m c).1 ≤ exactCluster N val d assi m x +
      ((1 + u) ^ (assi.count m - 1) - 1) *
        (exactCluster N val d assi m (chooseP L d assi m c).1 + exactCluster N val d assi m x) := by
  have hy : assi[(chooseP L d assi m c).1]? = some m := by
    rcases chooseP_mem (L := L) d assi m c with h | h
    · rw [h]; exact hc
    · exact h
  have ha := fun x hx => appr_partSum (val := val) M hd hl hx (hB x hx)
  have hmin := chooseP_min (val := val) M d assi m c (fun p hp hpm => (ha p.2 (hpm ▸ mem_zipIdx_get hp)).fin) (ha c hc).fin
  rw [chooseP_sum] at hmin
  have h1 := hmin (m, x) (List.mem_zipIdx_iff_getElem?.mpr hx) rfl
  have h2 := (abs_le.mp (ha _ hy).err).1
  have h3 := (abs_le.mp (ha x hx).err).2
  refine ⟨hy, ?_⟩
  rw [mul_add]
  dsimp only at h1
  linarith

end cluster

/-- Every medoid is a best member of its cluster, up to a relative error `(1 + u) ^ (s - 1) - 1` where `s` is the size of
the cluster. -/
def AltNearlyOptimal (val : L → K) (u : K) (d : Nat → Nat → N) (med assi : List Nat) : Prop :=
  ∀ m c x : Nat, med[m]? = some c → assi[x]? = some m →
    exactCluster N val d assi m c ≤ exactCluster N val d assi m x +
      ((1 + u) ^ (assi.count m - 1) - 1) * (exactCluster N val d assi m c + exactCluster N val d assi m x)

/-- The sums of distances within the clusters do not overflow. -/
def ClustersFit (val : L → K) (u B : K) (d : Nat → Nat → N) (assi : List Nat) : Prop :=
  ∀ m x : Nat, assi[x]? = some m → (1 + u) ^ (assi.count m - 1) * exactCluster N val d assi m x ≤ B

theorem altLoopP_near (M : FloatLoss N fin val u B) {n : Nat} {d : Nat → Nat → N} (hd : Dissim n d) {fuel iter : Nat}
    {loss : L} {assi med : List Nat} (hv : ValidMeds n med) (hnd : med.Nodup) (ha : NearestAssignment n d med assi)
    (hlt : (altLoopP d n fuel iter loss assi med).nIter < iter + fuel)
    (hB : ClustersFit (N := N) val u B d (altLoopP d n fuel iter loss assi med).assi) :
    AltNearlyOptimal (N := N) val u d (altLoopP d n fuel iter loss assi med).med
      (altLoopP d n fuel iter loss assi med).assi := by
  induction fuel generalizing iter loss assi med with
  | zero => simp [altLoopP] at hlt
  | succ fuel ih =>
    unfold altLoopP at hlt hB ⊢
    dsimp only at hlt hB ⊢
    split
    · rename_i h
      rw [if_pos h] at hB
      have hf : (altUpdateP L d assi med).1 = false := by simpa using h
      rw [altUpdateP_unchanged hf]
      intro m c x hm hx
      have hsame : (chooseP L d assi m c).1 = c := by
        rw [altUpdateP_eq] at hf
        simp only [List.any_eq_false, bne_iff_ne, ne_eq, not_not] at hf
        exact hf (c, m) (List.mem_zipIdx_iff_getElem?.mpr (by simpa using hm))
      have := (choose_near M hd ha.length (ha.own m c hm) (hB m) hx).2
      rwa [hsame] at this
    · rename_i h
      rw [if_neg h] at hB hlt
      have hnd' := altUpdateP_nodup (L := L) ha
      have hv' : ValidMeds n (altUpdateP L d assi med).2 := by
        rw [altUpdateP_eq]
        refine ⟨by simpa using hv.sizes, fun m hm => ?_⟩
        obtain ⟨p, hp, rfl⟩ := List.mem_map.mp hm
        rcases chooseP_mem (L := L) d assi p.2 p.1 with h | h
        · rw [h]; exact hv.range _ (mem_zipIdx_mem hp)
        · exact ha.length ▸ (List.getElem?_eq_some_iff.mp h).1
      exact ih hv' hnd' (nearAssiP_ok hd hv' hnd') (by omega) hB

/-- **C74, nearly optimal in the clusters.** Symmetry is not needed. -/
theorem C74_nearlyOptimal (M : FloatLoss N fin val u B) {mat : Mat N} {n : Nat} {d : Nat → Nat → N}
    (hm : IsMatrix mat n d) (hd : Dissim n d) {med : List Nat} (hv : ValidMeds n med) (hnd : med.Nodup) {maxiter : Nat}
    {r : AltResult L} (hr : alternating L mat med maxiter = .ok r) (hlt : r.nIter < maxiter)
    (hB : ClustersFit (N := N) val u B d r.assi) : AltNearlyOptimal (N := N) val u d r.med r.assi := by
  rw [(alternating_eq (L := L) hm hv maxiter).1] at hr; cases hr
  exact altLoopP_near M hd hv hnd (nearAssiP_ok hd hv hnd) (by simpa [altP] using hlt) hB

/-! ## Not much worse than the initial medoids -/

section step
variable {n : Nat} {d : Nat → Nat → N} {W : K}

theorem exactCluster_le (hW : AtMost val W n d) {assi : List Nat} (hl : assi.length = n) (hW0 : 0 ≤ W) (m : Nat) {c : Nat}
    (hc : c < n) : exactCluster N val d assi m c ≤ n * W := by
  have h := List.sum_le_card_nsmul ((assi.zipIdx.filter fun p => p.1 = m).map fun p => val (conv (d c p.2) : L)) W
    fun x hx => by
      obtain ⟨p, hp, rfl⟩ := List.mem_map.mp hx
      exact hW c p.2 hc (hl ▸ mem_zipIdx_lt (List.mem_filter.mp hp).1)
  rw [nsmul_eq_mul, List.length_map] at h
  refine h.trans (mul_le_mul_of_nonneg_right ?_ hW0)
  have : (assi.zipIdx.filter fun p => p.1 = m).length ≤ n := by
    have := List.length_filter_le (fun p : Nat × Nat => decide (p.1 = m)) assi.zipIdx
    rwa [List.length_zipIdx, hl] at this
  exact_mod_cast this

theorem exactDev_le_assi (M : FloatLoss N fin val u B) {med assi : List Nat} (hl : assi.length = n)
    (ha : ∀ a ∈ assi, a < med.length) :
    exactDev N val n d med ≤ (assi.zipIdx.map fun p => val (conv (d p.2 (med.getD p.1 0)) : L)).sum := by
  have h := sum_range_zipIdx assi fun o => val (conv (minDist d o med) : L)
  rw [hl] at h
  show ((List.range n).map fun o => val (conv (minDist d o med) : L)).sum ≤ _
  rw [h]
  refine List.sum_le_sum fun p hp => M.conv_mono ?_
  have hlt := ha p.1 (mem_zipIdx_mem hp)
  have hmem : med.getD p.1 0 ∈ med := by simp [hlt]
  exact (minDist_spec d p.2 med (List.ne_nil_of_mem hmem)).2 _ hmem

theorem altUpdateP_at (d : Nat → Nat → N) (assi med : List Nat) {i : Nat} (hi : i < med.length) :
    (altUpdateP L d assi med).2.getD i 0 = (chooseP L d assi i (med.getD i 0)).1 := by
  rw [altUpdateP_eq]; simp [hi]

/-- One iteration: `S` is the exact sum of the distances to the new medoids with the old assignment. -/
theorem altUpdate_near (M : FloatLoss N fin val u B) (hd : Dissim n d) (hs : Symm n d) (hW : AtMost val W n d)
    (hB : (1 + u) ^ (n - 1) * (n * W) ≤ B) {med assi : List Nat} (hr : ∀ m ∈ med, m < n) (hne : med ≠ [])
    (ha : NearestAssignment n d med assi) :
    ∃ S, exactDev N val n d (altUpdateP L d assi med).2 ≤ S ∧ S ≤ n * W ∧
      S ≤ exactDev N val n d med + ((1 + u) ^ (n - 1) - 1) * (S + exactDev N val n d med) := by
  have hn : 1 ≤ n := by
    obtain ⟨c, hc⟩ := List.exists_mem_of_ne_nil _ hne
    have := hr c hc; omega
  have hW0 := (roundErr_nonneg (u := u) M hd hn hW 0 1).1
  have hlt := ha.lt
  have hlen : (altUpdateP L d assi med).2.length = med.length := by rw [altUpdateP_eq]; simp
  have hg : ∀ m, m < med.length → med[m]? = some (med.getD m 0) := fun m hm => by simp [hm]
  have hone := M.std.one_le_pow (n - 1)
  have hfit : ∀ m x : Nat, assi[x]? = some m → (1 + u) ^ (assi.count m - 1) * exactCluster N val d assi m x ≤ B := by
    intro m x hx
    have hxn : x < n := ha.length ▸ (List.getElem?_eq_some_iff.mp hx).1
    have h1 := M.std.pow_mono (show assi.count m - 1 ≤ n - 1 by
      have := List.count_le_length (a := m) (l := assi); rw [ha.length] at this; omega)
    exact (mul_le_mul h1 (exactCluster_le hW ha.length hW0 m hxn) (exactCluster_nonneg M hd ha.length hxn)
      (by linarith)).trans hB
  have hnew : ∀ m, m < med.length → assi[(altUpdateP L d assi med).2.getD m 0]? = some m := fun m hm => by
    rw [altUpdateP_at d assi med hm]
    exact (choose_near M hd ha.length (ha.own m _ (hg m hm)) (hfit m) (ha.own m _ (hg m hm))).1
  have hin : ∀ x m : Nat, assi[x]? = some m → x < n := fun x m h => ha.length ▸ (List.getElem?_eq_some_iff.mp h).1
  refine ⟨_, exactDev_le_assi M ha.length (by rw [hlen]; exact hlt), ?_, ?_⟩
  · have h := List.sum_le_card_nsmul
      (assi.zipIdx.map fun p => val (conv (d p.2 ((altUpdateP L d assi med).2.getD p.1 0)) : L)) W fun x hx => by
        obtain ⟨p, hp, rfl⟩ := List.mem_map.mp hx
        exact hW _ _ (ha.length ▸ mem_zipIdx_lt hp) (hin _ _ (hnew p.1 (hlt p.1 (mem_zipIdx_mem hp))))
    rwa [nsmul_eq_mul, List.length_map, List.length_zipIdx, ha.length] at h
  · have key : ∀ m c, c < n →
        ((assi.zipIdx.filter fun p => p.1 = m).map fun p => val (conv (d p.2 c) : L)).sum = exactCluster N val d assi m c := by
      intro m c hc
      unfold exactCluster clusterSum
      congr 1
      refine List.map_congr_left fun p hp => ?_
      rw [hs p.2 c (ha.length ▸ mem_zipIdx_lt (List.mem_filter.mp hp).1) hc]
    have e1 : (assi.zipIdx.map fun p => val (conv (d p.2 ((altUpdateP L d assi med).2.getD p.1 0)) : L)).sum =
        ((List.range med.length).map fun m => exactCluster N val d assi m ((altUpdateP L d assi med).2.getD m 0)).sum := by
      rw [sum_by_cluster assi med.length hlt (fun m o => val (conv (d o ((altUpdateP L d assi med).2.getD m 0)) : L))]
      congr 1
      exact List.map_congr_left fun m hm => key m _ (hin _ _ (hnew m (List.mem_range.mp hm)))
    have e2 : exactDev N val n d med =
        ((List.range med.length).map fun m => exactCluster N val d assi m (med.getD m 0)).sum := by
      rw [exactDev, totalDev_assi ha,
        sum_by_cluster assi med.length hlt (fun m o => val (conv (d o (med.getD m 0)) : L))]
      congr 1
      exact List.map_congr_left fun m hm => key m _ (hin _ _ (ha.own m _ (hg m (List.mem_range.mp hm))))
    rw [e1, e2, ← List.sum_map_add, ← List.sum_map_mul_left, ← List.sum_map_add]
    refine List.sum_le_sum fun m hm => ?_
    have hm := List.mem_range.mp hm
    have ho := ha.own m _ (hg m hm)
    have h := (choose_near M hd ha.length ho (hfit m) ho).2
    rw [altUpdateP_at d assi med hm]
    have h1 := M.std.pow_mono (show assi.count m - 1 ≤ n - 1 by
      have := List.count_le_length (a := m) (l := assi); rw [ha.length] at this; omega)
    have h2 := exactCluster_nonneg (m := m) M hd ha.length (hin _ _ ho)
    have h3 := exactCluster_nonneg (m := m) M hd ha.length (hin _ _ (hnew m hm))
    rw [altUpdateP_at d assi med hm] at h3
    refine h.trans (add_le_add_right (mul_le_mul_of_nonneg_right (by linarith) (by linarith)) _)

theorem altLoopP_step (M : FloatLoss N fin val u B) (hd : Dissim n d) (hs : Symm n d) (hW : AtMost val W n d)
    (hB : (1 + u) ^ (n - 1) * (n * W) ≤ B) {fuel iter : Nat} {loss : L} {assi med : List Nat} (hv : ValidMeds n med)
    (hnd : med.Nodup) (ha : NearestAssignment n d med assi) :
    ∃ t, (altLoopP d n fuel iter loss assi med).nIter = iter + t ∧ t ≤ fuel ∧
      exactDev N val n d (altLoopP d n fuel iter loss assi med).med ≤
        exactDev N val n d med + t * roundErr u W (n - 1) 2 n ∧
      ((1 + u) ^ (n - 1) ≤ 2 → (2 - (1 + u) ^ (n - 1)) ^ t * exactDev N val n d (altLoopP d n fuel iter loss assi med).med ≤
        ((1 + u) ^ (n - 1)) ^ t * exactDev N val n d med) := by
  have hn : 1 ≤ n := hv.sizes.pos.trans hv.sizes.le
  obtain ⟨hW0, hE⟩ := roundErr_nonneg (u := u) M hd hn hW (n - 1) 2
  have hone := M.std.one_le_pow (n - 1)
  induction fuel generalizing iter loss assi med with
  | zero => exact ⟨0, rfl, le_rfl, by simp [altLoopP], by simp [altLoopP]⟩
  | succ fuel ih =>
    have hne : med ≠ [] := by intro h; have := hv.sizes.pos; simp [h] at this
    have hT : 0 ≤ exactDev N val n d med := List.sum_nonneg fun y hy => by
      obtain ⟨o, ho, rfl⟩ := List.mem_map.mp hy
      exact M.val_nonneg (minDist_nonneg hd hne hv.range (List.mem_range.mp ho))
    unfold altLoopP
    dsimp only
    split
    · rename_i h
      have hf : (altUpdateP L d assi med).1 = false := by simpa using h
      rw [altUpdateP_unchanged hf]
      refine ⟨1, rfl, by omega, ?_, fun _ => ?_⟩
      · simpa using hE
      · simp only [pow_one]
        exact mul_le_mul_of_nonneg_right (by linarith) hT
    · have hnd' := altUpdateP_nodup (L := L) ha
      have hv' : ValidMeds n (altUpdateP L d assi med).2 := by
        rw [altUpdateP_eq]
        refine ⟨by simpa using hv.sizes, fun m hm => ?_⟩
        obtain ⟨p, hp, rfl⟩ := List.mem_map.mp hm
        rcases chooseP_mem (L := L) d assi p.2 p.1 with h | h
        · rw [h]; exact hv.range _ (mem_zipIdx_mem hp)
        · exact ha.length ▸ (List.getElem?_eq_some_iff.mp h).1
      obtain ⟨S, s1, s2, s3⟩ := altUpdate_near M hd hs hW hB hv.range hne ha
      obtain ⟨t, t1, t2, t3, t4⟩ := ih (iter := iter + 1) (loss := nearAssiLossP L d n (altUpdateP L d assi med).2)
        hv' hnd' (nearAssiP_ok hd hv' hnd')
      refine ⟨t + 1, by rw [t1]; omega, by omega, ?_, fun hg => ?_⟩
      · have h1 := exactDev_le hW hne hv.range
        have h2 : ((1 + u) ^ (n - 1) - 1) * (S + exactDev N val n d med) ≤ roundErr u W (n - 1) 2 n :=
          mul_le_mul_of_nonneg_left (by push_cast; linarith) (by linarith)
        push_cast
        linarith
      · have h0 : 0 ≤ 2 - (1 + u) ^ (n - 1) := by linarith
        have h1 := mul_le_mul_of_nonneg_left s1 h0
        have h2 : (2 - (1 + u) ^ (n - 1)) * exactDev N val n d (altUpdateP L d assi med).2 ≤
            (1 + u) ^ (n - 1) * exactDev N val n d med := by linarith
        have h3 := mul_le_mul_of_nonneg_left (t4 hg) h0
        have h4 := mul_le_mul_of_nonneg_left h2 (pow_nonneg (show (0 : K) ≤ (1 + u) ^ (n - 1) by linarith) t)
        calc _ = (2 - (1 + u) ^ (n - 1)) * ((2 - (1 + u) ^ (n - 1)) ^ t * exactDev N val n d _) := by
              rw [pow_succ']; ring
          _ ≤ _ := h3
          _ = ((1 + u) ^ (n - 1)) ^ t * ((2 - (1 + u) ^ (n - 1)) * exactDev N val n d (altUpdateP L d assi med).2) := by ring
          _ ≤ _ := h4
          _ = _ := by rw [pow_succ]; ring

end step

/-- **C74, not much worse**: an absolute and a relative bound, with an error for each iteration. -/
theorem C74_not_worse (M : FloatLoss N fin val u B) {mat : Mat N} {n : Nat} {d : Nat → Nat → N} (hm : IsMatrix mat n d)
    (hd : Dissim n d) (hs : Symm n d) {W : K} (hW : AtMost val W n d) (hB : (1 + u) ^ (n - 1) * (n * W) ≤ B)
    {med : List Nat} (hv : ValidMeds n med) (hnd : med.Nodup) (maxiter : Nat) {r : AltResult L}
    (hr : alternating L mat med maxiter = .ok r) :
    exactDev N val n d r.med ≤ exactDev N val n d med + r.nIter * roundErr u W (n - 1) 2 n ∧
    ((1 + u) ^ (n - 1) ≤ 2 → (2 - (1 + u) ^ (n - 1)) ^ r.nIter * exactDev N val n d r.med ≤
      ((1 + u) ^ (n - 1)) ^ r.nIter * exactDev N val n d med) := by
  rw [(alternating_eq (L := L) hm hv maxiter).1] at hr; cases hr
  obtain ⟨t, t1, -, t3, t4⟩ := altLoopP_step M hd hs hW hB (fuel := maxiter) (iter := 0)
    (loss := nearAssiLossP L d n med) hv hnd (nearAssiP_ok hd hv hnd)
  rw [Nat.zero_add] at t1
  unfold altP
  rw [t1]
  exact ⟨t3, t4⟩

/-! ## Non-vacuity, and the errors are needed -/

def tenRows : List (List ℕ) := [[0, 8, 7, 7, 6, 6], [8, 0, 8, 8, 8, 10], [7, 8, 0, 9, 9, 9], [7, 8, 9, 0, 5, 10],
  [6, 8, 9, 5, 0, 7], [6, 10, 9, 10, 7, 0]]

def tenD (x y : Nat) : Finite binary64 := .ofRat binary64 (((tenRows.getD x []).getD y 0 : ℕ) / 10)

theorem ten_isMatrix : IsMatrix (ofRows (tenths tenRows)) 6 tenD := by
  have h : ∀ x < 6, ∀ y < 6, (ofRows (tenths tenRows)).get x y = .ok (tenD x y) := by decide +kernel
  exact ⟨rfl, rfl, fun x y hx hy => h x hx y hy⟩

theorem ten_dissim : Dissim 6 tenD := by
  have hd : ∀ x < 6, tenD x x = 0 := by decide +kernel
  have hn : ∀ x < 6, ∀ y < 6, 0 ≤ tenD x y := by decide +kernel
  exact ⟨hd, fun x y hx hy => hn x hx y hy⟩

theorem ten_symm : Symm 6 tenD := by
  have h : ∀ x < 6, ∀ y < 6, tenD x y = tenD y x := by decide +kernel
  exact fun x y hx hy => h x hx y hy

theorem ten_atMost : AtMost (L := Ieee binary64) Ieee.val 1 6 tenD := by
  have h : ∀ x < 6, ∀ y < 6, Ieee.val (conv (tenD x y) : Ieee binary64) ≤ 1 := by decide +kernel
  exact fun x y hx hy => h x hx y hy

theorem ten_valid : ValidMeds 6 [0, 5] := ⟨⟨by decide, by decide, by decide, by decide⟩, by decide⟩

theorem ten_run : alternating (Ieee binary64) (ofRows (tenths tenRows)) [0, 5] 100 =
    .ok ⟨.num (3152519739159347 / 1125899906842624), [0, 0, 0, 0, 0, 1], 2, [4, 5]⟩ := by decide +kernel

example : AltNearlyOptimal (L := Ieee binary64) Ieee.val (1 / 2 ^ 53) tenD [4, 5] [0, 0, 0, 0, 0, 1] :=
  C74_nearlyOptimal (ieee_floatLoss binary64) ten_isMatrix ten_dissim ten_valid (by decide) ten_run (by decide) (by
    have h : ∀ x < 6, ∀ m < 2, [0, 0, 0, 0, 0, 1][x]? = some m → (1 + 1 / 2 ^ 53 : ℚ) ^ ([0, 0, 0, 0, 0, 1].count m - 1) *
        exactCluster (L := Ieee binary64) (Finite binary64) Ieee.val tenD [0, 0, 0, 0, 0, 1] m x ≤
          2 ^ (binary64.emax - 1) := by decide +kernel
    intro m x hx
    obtain ⟨h1, h2⟩ := List.getElem?_eq_some_iff.mp hx
    have h3 : ∀ a ∈ [0, 0, 0, 0, 0, 1], a < 2 := by decide
    exact h x h1 m (h2 ▸ h3 _ (List.getElem_mem h1)) hx)

/-- **The errors cannot be removed**: in `f64`, with multiples of 0.1 that form a metric before rounding, alternating ends by
itself with medoids worse than those it was given, and with a medoid that is not exactly a best member of its cluster. -/
theorem C74_not_exact : ∃ (mat : Mat (Finite binary64)) (n : Nat) (d : Nat → Nat → Finite binary64) (med : List Nat)
    (r : AltResult (Ieee binary64)), IsMatrix mat n d ∧ Dissim n d ∧ Symm n d ∧ ValidMeds n med ∧ med.Nodup ∧
    alternating (Ieee binary64) mat med 100 = .ok r ∧ r.nIter < 100 ∧
    exactDev (L := Ieee binary64) (Finite binary64) Ieee.val n d med <
      exactDev (L := Ieee binary64) (Finite binary64) Ieee.val n d r.med ∧
    exactDev (L := Ieee binary64) (Finite binary64) Ieee.val n d r.med ≤
      exactDev (L := Ieee binary64) (Finite binary64) Ieee.val n d med + 1 / 10 ^ 13 ∧
    ∃ m c x, r.med[m]? = some c ∧ r.assi[x]? = some m ∧
      exactCluster (L := Ieee binary64) (Finite binary64) Ieee.val d r.assi m x <
        exactCluster (L := Ieee binary64) (Finite binary64) Ieee.val d r.assi m c := by
  refine ⟨_, 6, tenD, [0, 5], _, ten_isMatrix, ten_dissim, ten_symm, ten_valid, by decide, ten_run, by decide,
    by decide +kernel, ?_, 0, 4, 0, rfl, rfl, by decide +kernel⟩
  refine (C74_not_worse (ieee_floatLoss binary64) ten_isMatrix ten_dissim ten_symm ten_atMost (by decide +kernel) ten_valid
    (by decide) 100 ten_run).1.trans ?_
  decide +kernel

end KMedoids
