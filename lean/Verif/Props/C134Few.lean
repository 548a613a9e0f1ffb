import Verif.Props.C134

/-!
# C134 with few objects

For three or more clusters the medoid silhouette methods need no large data to be far from the optimum: `k` objects with distance 1 and `k - 1` objects
at distance `W` from all others are enough, five objects for three clusters. With the `k` close objects as medoids, each of the others has `d₁/d₂ = 1`. An exchange only
moves this to the close object that is no medoid any more. With one of the close objects and all others as medoids, the sum is `(k - 1)/W`.
-/

set_option linter.unusedSectionVars false

namespace KMedoids

open RFrom (conv)

section general
variable {d : Nat → Nat → ℕ} {med : List Nat} {o : Nat}

theorem d1d2_own (hk : 2 ≤ med.length) (ho : o ∈ med) (h0 : d o o = 0) : 1 - medSil1 (conv : ℕ → ℚ) d med o = 0 := by
  have h := twoNearestP_twoMin d hk o
  generalize (twoNearestP d med o).1 = a at h
  generalize (twoNearestP d med o).2 = b at h
  rw [ratio_of_twoMin (L := ℚ) h]
  obtain ⟨rest, hp, hab, hr⟩ := h
  have hm : (0 : ℕ) ∈ med.map (d o) := List.mem_map.mpr ⟨o, ho, h0⟩
  have : a ≤ 0 := by
    rcases List.mem_cons.mp (hp.mem_iff.mp hm) with h | h
    · exact h.ge
    · rcases List.mem_cons.mp h with h | h
      · rw [h]; exact hab
      · exact le_trans hab (hr 0 h)
  obtain rfl : a = 0 := by omega
  show ((0 : ℕ) : ℚ) / _ = 0
  simp

theorem d1d2_const (hk : 2 ≤ med.length) {X : ℕ} (hX : 0 < X) (h : ∀ m ∈ med, d o m = X) : 1 - medSil1 (conv : ℕ → ℚ) d med o = 1 := by
  have ht := twoNearestP_twoMin d hk o
  generalize (twoNearestP d med o).1 = a at ht
  generalize (twoNearestP d med o).2 = b at ht
  rw [ratio_of_twoMin (L := ℚ) ht]
  obtain ⟨ha, hb, -⟩ := ht.mem
  have key : ∀ w ∈ med.map (d o), w = X := fun w hw => by
    obtain ⟨z, hz, rfl⟩ := List.mem_map.mp hw
    exact h z hz
  rw [key a ha, key b hb]
  show ((X : ℕ) : ℚ) / (X : ℕ) = 1
  exact div_self (by exact_mod_cast hX.ne')

/-- Two medoids that are nearer than all others determine the quotient. -/
theorem d1d2_two {p q : Nat} (hp : p ∈ med) (hq : q ∈ med) (hpq : p ≠ q) (h1 : d o p ≤ d o q) (h2 : ∀ m ∈ med, m ≠ p → d o q ≤ d o m) (hnd : med.Nodup) :
    1 - medSil1 (conv : ℕ → ℚ) d med o = (d o p : ℚ) / d o q := by
  have e1 := List.perm_cons_erase hp
  have e2 := List.perm_cons_erase ((List.mem_erase_of_ne hpq.symm).mpr hq)
  refine ratio_of_twoMin (L := ℚ) ⟨((med.erase p).erase q).map (d o), (e1.trans (e2.cons p)).map (d o), h1, fun x hx => ?_⟩
  obtain ⟨m, hm, rfl⟩ := List.mem_map.mp hx
  have hm' := (hnd.mem_erase_iff).mp (List.mem_of_mem_erase hm)
  exact h2 m hm'.2 hm'.1

end general

/-- `1 + e` objects with distance 1, the others at distance `W` from all. -/
def nearFarD (e W x y : Nat) : ℕ := if x = y then 0 else if x < 1 + e ∧ y < 1 + e then 1 else W

section family
variable {e W : Nat}

theorem nearFarD_dissim {n : Nat} : Dissim n (nearFarD e W) := ⟨fun _ _ => if_pos rfl, fun _ _ _ _ => Nat.zero_le _⟩

theorem C134_metric_few {n : Nat} (hW : 1 ≤ W) : IsMetric (conv : ℕ → ℚ) n (nearFarD e W) where
  symm x y _ _ := by unfold nearFarD; split_ifs <;> omega
  triangle x y z _ _ _ := by
    have h : nearFarD e W x z ≤ nearFarD e W x y + nearFarD e W y z := by
      unfold nearFarD
      split_ifs <;> omega
    show ((nearFarD e W x z : ℕ) : ℚ) ≤ (nearFarD e W x y : ℕ) + (nearFarD e W y z : ℕ)
    exact_mod_cast h

theorem near_start (he : 1 ≤ e) (hW : 1 ≤ W) : d1d2Sum (1 + e + e) (nearFarD e W) (List.range (1 + e)) = e := by
  unfold d1d2Sum
  have hk : 2 ≤ (List.range (1 + e)).length := by rw [List.length_range]; omega
  have h1 : ∀ o ∈ Finset.range (1 + e), 1 - medSil1 (conv : ℕ → ℚ) (nearFarD e W) (List.range (1 + e)) o = 0 := fun o ho =>
    d1d2_own hk (List.mem_range.mpr (Finset.mem_range.mp ho)) (if_pos rfl)
  have h2 : ∀ x ∈ Finset.range e, 1 - medSil1 (conv : ℕ → ℚ) (nearFarD e W) (List.range (1 + e)) (1 + e + x) = 1 := fun x _ =>
    d1d2_const hk hW fun m hm => by
      rw [List.mem_range] at hm
      unfold nearFarD
      rw [if_neg (by omega), if_neg (by omega)]
  rw [Finset.sum_range_add, Finset.sum_eq_zero h1, Finset.sum_congr rfl h2, Finset.sum_const, Finset.card_range]
  simp

theorem near_swap (he : 2 ≤ e) (hW : 1 ≤ W) {i j : Nat} (hi : i < 1 + e) (hj : j < 1 + e + e) (hje : 1 + e ≤ j) :
    (e : ℚ) ≤ d1d2Sum (1 + e + e) (nearFarD e W) ((List.range (1 + e)).set i j) := by
  obtain ⟨med, hmed⟩ : ∃ med, med = (List.range (1 + e)).set i j := ⟨_, rfl⟩
  have hk : 2 ≤ med.length := by rw [hmed, List.length_set, List.length_range]; omega
  have hin : ∀ x, x < 1 + e → x ≠ i → x ∈ med := fun x hx hxi => by
    rw [hmed, List.mem_iff_getElem]
    exact ⟨x, by rw [List.length_set, List.length_range]; exact hx, by rw [List.getElem_set_ne (Ne.symm hxi), List.getElem_range]⟩
  have hnd : med.Nodup := by
    rw [hmed]
    exact nodup_set List.nodup_range fun h => by rw [List.mem_range] at h; omega
  have hmem : ∀ m ∈ med, m = j ∨ (m < 1 + e ∧ m ≠ i) := fun m hm => by
    rw [hmed, List.mem_iff_getElem] at hm
    obtain ⟨x, hx, rfl⟩ := hm
    rw [List.length_set, List.length_range] at hx
    rw [List.getElem_set, List.getElem_range]
    split_ifs with h
    · exact .inl rfl
    · exact .inr ⟨hx, Ne.symm h⟩
  rw [← hmed]
  have h : ∀ o ∈ Finset.range (1 + e + e), (if o = i then (1 : ℚ) else if o < 1 + e then 0 else if o = j then 0 else 1) ≤
      1 - medSil1 (conv : ℕ → ℚ) (nearFarD e W) med o := fun o _ => by
    have hnn : 0 ≤ 1 - medSil1 (conv : ℕ → ℚ) (nearFarD e W) med o := by
      have := (medSil1_range (L := ℚ) (d := nearFarD e W) (meds := med) hk (o := o) fun _ _ => Nat.zero_le _).2
      linarith
    split_ifs with h1 h2 h3
    · subst h1
      obtain ⟨p, q, hp, hq, hpq, hpo, hqo⟩ : ∃ p q, p < 1 + e ∧ q < 1 + e ∧ p ≠ q ∧ p ≠ o ∧ q ≠ o := by
        rcases (by omega : o = 0 ∨ o = 1 ∨ 2 ≤ o) with h | h | h
        · exact ⟨1, 2, by omega⟩
        · exact ⟨0, 2, by omega⟩
        · exact ⟨0, 1, by omega⟩
      have e1 : ∀ x, x < 1 + e → x ≠ o → nearFarD e W o x = 1 := fun x hx hxo => by
        unfold nearFarD
        rw [if_neg (Ne.symm hxo), if_pos ⟨hi, hx⟩]
      rw [d1d2_two (hin p hp hpo) (hin q hq hqo) hpq (by rw [e1 p hp hpo, e1 q hq hqo]) (fun m hm _ => ?_) hnd, e1 p hp hpo, e1 q hq hqo]
      · norm_num
      · rw [e1 q hq hqo]
        rcases hmem m hm with rfl | ⟨h, h'⟩
        · unfold nearFarD
          split_ifs <;> omega
        · rw [e1 m h h']
    · exact hnn
    · exact hnn
    · refine (d1d2_const hk hW fun m hm => ?_).ge
      unfold nearFarD
      have := hmem m hm
      rw [if_neg (by omega), if_neg (by omega)]
  refine le_trans (le_of_eq ?_) (Finset.sum_le_sum h)
  rw [Finset.sum_range_add]
  have s1 : ∑ x ∈ Finset.range (1 + e), (if x = i then (1 : ℚ) else if x < 1 + e then 0 else if x = j then 0 else 1) = 1 := by
    rw [Finset.sum_eq_single i (fun x hx hne => by rw [if_neg hne, if_pos (Finset.mem_range.mp hx)]) fun h => absurd (Finset.mem_range.mpr hi) h,
      if_pos rfl]
  have s2 : ∑ x ∈ Finset.range e, (if 1 + e + x = i then (1 : ℚ) else if 1 + e + x < 1 + e then 0 else if 1 + e + x = j then 0 else 1) =
      ∑ x ∈ Finset.range e, (1 - if x = j - (1 + e) then (1 : ℚ) else 0) := Finset.sum_congr rfl fun x _ => by
    rw [if_neg (by omega), if_neg (by omega)]
    by_cases hx : 1 + e + x = j
    · rw [if_pos hx, if_pos (by omega)]; norm_num
    · rw [if_neg hx, if_neg (by omega)]; norm_num
  rw [s1, s2, Finset.sum_sub_distrib, Finset.sum_ite_eq' (Finset.range e), if_pos (Finset.mem_range.mpr (by omega))]
  simp

theorem near_best (he : 1 ≤ e) (hW : 1 ≤ W) : d1d2Sum (1 + e + e) (nearFarD e W) (0 :: List.range' (1 + e) e) = e / W := by
  have hk : 2 ≤ (0 :: List.range' (1 + e) e).length := by rw [List.length_cons, List.length_range']; omega
  have hnd : (0 :: List.range' (1 + e) e).Nodup := List.nodup_cons.mpr ⟨fun h => by rw [List.mem_range'_1] at h; omega, List.nodup_range'⟩
  have hfar : ∀ x < e, 1 + e + x ∈ 0 :: List.range' (1 + e) e := fun x hx => List.mem_cons_of_mem _ (List.mem_range'_1.mpr (by omega))
  unfold d1d2Sum
  have h1 : ∀ x ∈ Finset.range e, 1 - medSil1 (conv : ℕ → ℚ) (nearFarD e W) (0 :: List.range' (1 + e) e) (1 + x) = 1 / W := fun x hx => by
    rw [Finset.mem_range] at hx
    have e0 : nearFarD e W (1 + x) 0 = 1 := by unfold nearFarD; rw [if_neg (by omega), if_pos (by omega)]
    have ef : ∀ m, 1 + e ≤ m → nearFarD e W (1 + x) m = W := fun m hm => by unfold nearFarD; rw [if_neg (by omega), if_neg (by omega)]
    rw [d1d2_two (p := 0) (q := 1 + e + 0) (List.mem_cons_self ..) (hfar 0 (by omega)) (by omega) (by rw [e0, ef _ (by omega)]; exact hW)
      (fun m hm hm0 => by
        rcases List.mem_cons.mp hm with h | h
        · exact absurd h hm0
        · rw [ef _ (by omega), ef m (List.mem_range'_1.mp h).1]) hnd, e0, ef _ (by omega), Nat.cast_one]
  rw [Finset.sum_range_add, Finset.sum_range_add, Finset.sum_congr rfl h1, Finset.sum_range_one, d1d2_own (d := nearFarD e W) hk (List.mem_cons_self ..) (if_pos rfl),
    Finset.sum_eq_zero fun x hx => d1d2_own (d := nearFarD e W) hk (hfar x (Finset.mem_range.mp hx)) (if_pos rfl), Finset.sum_const, Finset.card_range, nsmul_eq_mul]
  ring

/-- **C134, local optimum** with few objects. -/
theorem C134_local_optimum_few (he : 2 ≤ e) (hW : 1 ≤ W) : SilSwapOptimal ℚ (1 + e + e) (nearFarD e W) (List.range (1 + e)) := by
  intro i j hi hj hjm
  rw [List.length_range] at hi
  rw [List.mem_range] at hjm
  have h := near_swap he hW hi hj (by omega)
  rw [← near_start (W := W) (by omega) hW] at h
  have hn : (0 : ℚ) < (1 + e + e : ℕ) := by exact_mod_cast (by omega : 0 < 1 + e + e)
  have := div_le_div_of_nonneg_right h hn.le
  rw [← medSil_d1d2 (by omega), ← medSil_d1d2 (by omega)] at this
  linarith

end family

/-- **C134, no factor with few objects:** for three or more clusters, `2 k - 1` objects are enough for every factor. -/
theorem C134_no_factor_few (c : Nat) {k : Nat} (hk : 3 ≤ k) (hu : 2 * k - 1 ≤ u32Max) :
    ∃ (n : Nat) (d : Nat → Nat → ℕ) (med other : List Nat), n = 2 * k - 1 ∧ Dissim n d ∧ IsMetric (conv : ℕ → ℚ) n d ∧ ValidMeds n med ∧
      med.Nodup ∧ med.length = k ∧ other.length = k ∧ (∀ x ∈ other, x < n) ∧ other.Nodup ∧ 0 < 1 - medSil (conv : ℕ → ℚ) n d other ∧
      (∀ maxiter, ∀ run ∈ [fastermsc ℚ (fnMat n d) med maxiter, fastmsc ℚ (fnMat n d) med maxiter, pammedsilSwap ℚ (fnMat n d) med maxiter],
        ∃ r, run = .ok r ∧ r.nSwap = 0 ∧ r.med = med ∧ c * (1 - medSil (conv : ℕ → ℚ) n d other) < 1 - r.loss) ∧
      ∀ maxiter mink, k ≤ mink → ∃ r, dynmsc ℚ (fnMat n d) med mink maxiter = .ok r ∧ r.nSwap = 0 ∧ r.med = med ∧
        c * (1 - medSil (conv : ℕ → ℚ) n d other) < 1 - r.loss := by
  obtain ⟨e, rfl⟩ : ∃ e, k = 1 + e := ⟨k - 1, by omega⟩
  have he : 2 ≤ e := by omega
  have hW : 1 ≤ c + 1 := by omega
  have hloc := C134_local_optimum_few he hW
  have hl := near_start (by omega : 1 ≤ e) hW
  have hb := near_best (by omega : 1 ≤ e) hW
  have hmat := fnMat_isMatrix (1 + e + e) (nearFarD e (c + 1))
  have hdis : Dissim (1 + e + e) (nearFarD e (c + 1)) := nearFarD_dissim
  have hnp : 0 < 1 + e + e := by omega
  have hp : (0 : ℚ) < (1 + e + e : ℕ) := by exact_mod_cast hnp
  have hep : (0 : ℚ) < e := by exact_mod_cast (by omega : 0 < e)
  have hcp : (0 : ℚ) < ((c + 1 : ℕ) : ℚ) := by exact_mod_cast hW
  have hlen : (List.range (1 + e)).length = 1 + e := List.length_range
  have hv : ValidMeds (1 + e + e) (List.range (1 + e)) := ⟨⟨by rw [hlen]; omega, by rw [hlen]; omega, by omega, by rw [hlen]; omega⟩, fun x hx => by
    rw [List.mem_range] at hx; omega⟩
  have hnd : (List.range (1 + e)).Nodup := List.nodup_range
  refine ⟨1 + e + e, nearFarD e (c + 1), List.range (1 + e), 0 :: List.range' (1 + e) e, by omega, hdis, C134_metric_few hW, hv, hnd, hlen,
    by rw [List.length_cons, List.length_range']; omega, fun x hx => ?_,
    List.nodup_cons.mpr ⟨fun h => by rw [List.mem_range'_1] at h; omega, List.nodup_range'⟩, ?_, ?_⟩
  · rcases List.mem_cons.mp hx with h | h
    · omega
    · rw [List.mem_range'_1] at h; omega
  · rw [medSil_d1d2 hnp, hb]
    exact div_pos (div_pos hep hcp) hp
  · have key : ∀ (maxiter : Nat) (r : SwapResult ℚ), IsMscRun (fnMat (1 + e + e) (nearFarD e (c + 1))) (List.range (1 + e)) maxiter r →
        r.nSwap = 0 ∧ r.med = List.range (1 + e) ∧
          c * (1 - medSil (conv : ℕ → ℚ) (1 + e + e) (nearFarD e (c + 1)) (0 :: List.range' (1 + e) e)) < 1 - r.loss := fun maxiter r hr => by
      obtain ⟨h1, h2, h4⟩ := C54_msc_from_optimum hmat hdis hv hnd (by omega) hr hloc
      refine ⟨h1, h2, ?_⟩
      rw [h4, medSil_d1d2 hnp, medSil_d1d2 hnp, hb, hl, ← mul_div_assoc]
      refine div_lt_div_of_pos_right ?_ hp
      rw [← mul_div_assoc, div_lt_iff₀ hcp, mul_comm]
      refine mul_lt_mul_of_pos_left ?_ hep
      push_cast
      linarith
    have hne : ¬ ((List.range (1 + e)).length = 2 ∧ 1 + e + e = 2) := by omega
    refine ⟨fun maxiter run hrun => ?_, fun maxiter mink hmink => ?_⟩
    · simp only [List.mem_cons, List.not_mem_nil, or_false] at hrun
      rcases hrun with rfl | rfl | rfl
      · obtain ⟨r, h, -⟩ := C29_fastermsc (L := ℚ) hmat hv (by omega) maxiter
        exact ⟨r, h, key _ r (.inl h)⟩
      · obtain ⟨r, h, -⟩ := C29_fastmsc_partial (L := ℚ) hmat hv (by omega) hne maxiter
        exact ⟨r, h, key _ r (.inr (.inl h))⟩
      · obtain ⟨r, h, -⟩ := C29_pammedsil_swap (L := ℚ) hmat hv (by omega) maxiter
        exact ⟨r, h, key _ r (.inr (.inr h))⟩
    · obtain ⟨r, h, -⟩ := C29_fastermsc (L := ℚ) hmat hv (by omega) maxiter
      exact ⟨_, C48_dynmsc_eq hmat hdis hv hnd (by omega) h, key _ r (.inl h)⟩

/-! ## Example -/

/-- Five objects, three clusters: a medoid silhouette of `3/5`, where `1 - 2/5000` is possible. -/
example : (fastermsc ℚ (fnMat 5 (nearFarD 2 1000)) [0, 1, 2] 100).map (fun r => (r.loss, r.nSwap, r.med)) = .ok (3 / 5, 0, [0, 1, 2]) ∧
    (fastermsc ℚ (fnMat 5 (nearFarD 2 1000)) [0, 3, 4] 100).map (fun r => (r.loss, r.nSwap, r.med)) = .ok (2499 / 2500, 0, [0, 3, 4]) := by
  decide +kernel

end KMedoids
