import Verif.Proofs.LossLoops

/-! # Best medoid of a cluster, exact arithmetic -/

set_option linter.unusedSectionVars false

namespace KMedoids

open RFrom (conv)

variable {N L : Type} [LinearOrder N] [Zero N] [RDist N] [LawfulDist N]
variable [AddCommGroup L] [LinearOrder L] [IsOrderedAddMonoid L] [RLoss L] [LawfulLoss L]
variable [RFrom N L] [LawfulFrom N L]

theorem filter_sum {G α : Type} [AddCommMonoid G] (l : List α) (q : α → Bool) (f : α → G) :
    ((l.filter q).map f).sum = (l.map fun p => if q p then f p else 0).sum := by
  induction l with
  | nil => rfl
  | cons p l ih =>
    rw [List.filter_cons]
    split
    · rename_i h; simp [ih, h]
    · rename_i h; simp [ih, h]

theorem partSumP_eq {n : Nat} {d : Nat → Nat → N} (hd : Dissim n d) {assi : List Nat} (m : Nat) {c : Nat}
    (hc : c < n) : partSumP L d assi m c = clusterSum (conv : N → L) d assi m c := by
  unfold partSumP clusterSum
  rw [foldl_add_sum (f := fun p => if p.1 = m then (conv (d c p.2) : L) else 0), zeroL, zero_add,
    filter_sum]
  · congr 1
    exact List.map_congr_left fun p _ => by simp
  · intro acc p _
    by_cases h1 : p.1 = m
    · by_cases h2 : p.2 = c
      · simp [h1, h2, hd.diag c hc, LawfulFrom.map_zero]
      · simp [h1, h2, addL]
    · simp [h1]

theorem clusterSum_all (n : Nat) (d : Nat → Nat → N) (c : Nat) :
    clusterSum (conv : N → L) d (List.replicate n 0) 0 c = distSum (conv : N → L) n d c := by
  unfold clusterSum distSum
  rw [filter_sum]
  have h := sum_range_zipIdx (List.replicate n 0) (fun o => (conv (d c o) : L))
  rw [List.length_replicate] at h
  rw [h]
  congr 1
  refine List.map_congr_left fun p hp => ?_
  have : p.1 = 0 := (List.mem_replicate.mp (mem_zipIdx_mem hp)).2
  simp [this]

/-- The chosen medoid is best in the cluster; the first one is kept if no member is strictly better. -/
theorem chooseP_spec {n : Nat} {d : Nat → Nat → N} (hd : Dissim n d) {assi : List Nat}
    (hl : assi.length = n) (m : Nat) {c : Nat} (hc : c < n) :
    (chooseP L d assi m c).1 < n ∧
    (chooseP L d assi m c).2 = clusterSum (conv : N → L) d assi m (chooseP L d assi m c).1 ∧
    (∀ x, assi[x]? = some m → (chooseP L d assi m c).2 ≤ clusterSum (conv : N → L) d assi m x) ∧
    (chooseP L d assi m c).2 ≤ clusterSum (conv : N → L) d assi m c ∧
    ((chooseP L d assi m c).1 ≠ c → (chooseP L d assi m c).2 < clusterSum (conv : N → L) d assi m c) := by
  have hg : ∀ xs : List (Nat × Nat), (∀ p ∈ xs, p.2 < n) →
      let r := xs.foldl (fun (st : Nat × L) (p : Nat × Nat) =>
        if p.2 ≠ c ∧ p.1 = m then
          if rlt (partSumP L d assi m p.2) st.2 then (p.2, partSumP L d assi m p.2) else st
        else st) (c, partSumP L d assi m c)
      r.1 < n ∧ r.2 = clusterSum (conv : N → L) d assi m r.1 ∧
      (∀ p ∈ xs, p.1 = m → r.2 ≤ clusterSum (conv : N → L) d assi m p.2) ∧
      r.2 ≤ clusterSum (conv : N → L) d assi m c ∧
      (r.1 ≠ c → r.2 < clusterSum (conv : N → L) d assi m c) := by
    intro xs
    induction xs using List.reverseRecOn with
    | nil =>
      intro _
      exact ⟨hc, partSumP_eq hd m hc, by simp, le_of_eq (partSumP_eq hd m hc), by simp⟩
    | append_singleton xs p ih =>
      intro hx
      obtain ⟨i0, i1, i2, i3, i4⟩ := ih (fun q hq => hx q (by simp [hq]))
      have hp : p.2 < n := hx p (by simp)
      rw [List.foldl_append, List.foldl_cons, List.foldl_nil]
      generalize xs.foldl (fun (st : Nat × L) (p : Nat × Nat) =>
        if p.2 ≠ c ∧ p.1 = m then
          if rlt (partSumP L d assi m p.2) st.2 then (p.2, partSumP L d assi m p.2) else st
        else st) (c, partSumP L d assi m c) = r at *
      simp only [partSumP_eq hd m hp, rltL, decide_eq_true_eq]
      have hmem : ∀ (v : L), v ≤ r.2 → (p.1 = m → v ≤ clusterSum (conv : N → L) d assi m p.2) →
          ∀ q ∈ xs ++ [p], q.1 = m → v ≤ clusterSum (conv : N → L) d assi m q.2 := by
        intro v hv1 hv2 q hq hqm
        rcases List.mem_append.mp hq with hq | hq
        · exact le_trans hv1 (i2 q hq hqm)
        · rw [List.mem_singleton.mp hq] at hqm ⊢; exact hv2 hqm
      split
      · rename_i h
        split
        · rename_i hlt
          exact ⟨hp, rfl, hmem _ (le_of_lt hlt) (fun _ => le_refl _), le_of_lt (lt_of_lt_of_le hlt i3),
            fun _ => lt_of_lt_of_le hlt i3⟩
        · rename_i hlt
          exact ⟨i0, i1, hmem _ (le_refl _) (fun _ => not_lt.mp hlt), i3, i4⟩
      · rename_i h
        refine ⟨i0, i1, hmem _ (le_refl _) (fun hpm => ?_), i3, i4⟩
        have : p.2 = c := by by_contra h'; exact h ⟨h', hpm⟩
        rw [this]; exact i3
  obtain ⟨g0, g1, g2, g3, g4⟩ := hg assi.zipIdx (fun p hp => hl ▸ mem_zipIdx_lt hp)
  exact ⟨g0, g1, fun x hx => g2 (m, x) (List.mem_zipIdx_iff_getElem?.mpr (by simpa using hx)) rfl, g3, g4⟩

theorem totalDev_single {n : Nat} {d : Nat → Nat → N} (hs : Symm n d) {c : Nat} (hc : c < n) :
    totalDev (conv : N → L) n d [c] = distSum (conv : N → L) n d c := by
  unfold totalDev distSum minDist
  congr 1
  exact List.map_congr_left fun o ho => by rw [hs o c (List.mem_range.mp ho) hc]

/-- The single-medoid case, exactly. -/
theorem singleP_spec {n : Nat} {d : Nat → Nat → N} (hd : Dissim n d) {c : Nat} (hc : c < n) :
    ∃ c', c' < n ∧ (singleP L d n c).med = [c'] ∧
      (singleP L d n c).loss = distSum (conv : N → L) n d c' ∧
      (∀ x, x < n → distSum (conv : N → L) n d c' ≤ distSum (conv : N → L) n d x) ∧
      (c' ≠ c → distSum (conv : N → L) n d c' < distSum (conv : N → L) n d c) ∧
      (singleP L d n c).nSwap = (if c' = c then 0 else 1) ∧ (singleP L d n c).nIter = 1 ∧
      (singleP L d n c).assi = List.replicate n 0 := by
  obtain ⟨h0, h1, h2, -, h4⟩ := chooseP_spec (L := L) hd (assi := List.replicate n 0) (by simp) 0 hc
  simp only [clusterSum_all] at h1 h2 h4
  refine ⟨_, h0, rfl, h1, fun x hx => ?_, fun h => h1 ▸ h4 h, ?_, rfl, rfl⟩
  · rw [← h1]; exact h2 x (by simp [hx])
  · simp only [singleP]
    by_cases h : (chooseP L d (List.replicate n 0) 0 c).1 = c <;> simp [h]

end KMedoids
