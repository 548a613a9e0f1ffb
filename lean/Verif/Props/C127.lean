import Verif.Props.C90
import Verif.Props.C97
import Verif.Props.C64
import Verif.Props.C85
import Mathlib.Tactic.Ring

/-!
# C127: FasterPAM needs two passes where PAM needs `k + 1` iterations

`k` groups of three objects each, far from each other. In a group the object in the middle is at distance 1 from the others,
which are at distance 2. Started from an outer object of each group, the PAM family makes `k` swaps, one for each group. PAM and
FastPAM1 make one swap in each iteration and need `k + 1` of them; with a limit `f < k` they stop with loss `3 k - f`. FasterPAM, in
any order of the objects, makes all swaps in the first pass, hence returns the optimum for every limit.
-/

set_option linter.unusedSectionVars false
set_option linter.overlappingInstances false

namespace KMedoids

open RFrom (conv)

/-- The distances; object `3 i + 1` is in the middle of group `i`. -/
def trioD (k x y : Nat) : ℕ :=
  if x = y then 0 else if x / 3 = y / 3 then if x % 3 = 1 ∨ y % 3 = 1 then 1 else 2 else k + 1

theorem trioD_dissim (k n : Nat) : Dissim n (trioD k) :=
  ⟨fun x _ => by simp [trioD], fun _ _ _ _ => Nat.zero_le _⟩

theorem trioD_symm (k x y : Nat) : trioD k x y = trioD k y x := by
  unfold trioD; split_ifs <;> omega

theorem trioD_triangle {k : Nat} (hk : 2 ≤ k) (x y z : Nat) : trioD k x z ≤ trioD k x y + trioD k y z := by
  unfold trioD; split_ifs <;> omega

/-- The medoid of group `i` is object `3 i + A i`. -/
def trioMed (k : Nat) (A : Nat → Nat) : List Nat := (List.range k).map fun i => 3 * i + A i

variable {k : Nat} {A : Nat → Nat}

theorem trioMed_length (k : Nat) (A : Nat → Nat) : (trioMed k A).length = k := by simp [trioMed]

theorem mem_trioMed (hA : ∀ i, A i < 3) {x : Nat} : x ∈ trioMed k A ↔ x / 3 < k ∧ x % 3 = A (x / 3) := by
  unfold trioMed
  rw [List.mem_map]
  constructor
  · rintro ⟨i, hi, rfl⟩
    have hi := List.mem_range.mp hi
    have h := hA i
    have e : (3 * i + A i) / 3 = i := by omega
    rw [e]
    exact ⟨hi, by omega⟩
  · rintro ⟨h1, h2⟩
    exact ⟨x / 3, List.mem_range.mpr h1, by omega⟩

theorem trioMed_nodup (hA : ∀ i, A i < 3) : (trioMed k A).Nodup := by
  refine List.Nodup.map_on (fun x _ y _ h => ?_) List.nodup_range
  have := hA x
  have := hA y
  omega

theorem trioMed_range (hA : ∀ i, A i < 3) : ∀ m ∈ trioMed k A, m < 3 * k := fun m hm => by
  have := ((mem_trioMed hA).mp hm).1
  omega

theorem sum_trios (f : Nat → ℤ) (k : Nat) :
    ∑ i ∈ Finset.range (3 * k), f i = ∑ i ∈ Finset.range k, (f (3 * i) + f (3 * i + 1) + f (3 * i + 2)) := by
  induction k with
  | zero => rfl
  | succ k ih =>
    rw [show 3 * (k + 1) = 3 * k + 1 + 1 + 1 by ring, Finset.sum_range_succ, Finset.sum_range_succ, Finset.sum_range_succ, ih,
      Finset.sum_range_succ]
    ring

/-- The nearest medoid of an object is the one of its group. -/
theorem minDist_trio {x c : Nat} {med : List Nat} (hk : 2 ≤ k) (hc : c ∈ med) (hg : c / 3 = x / 3)
    (hu : ∀ m ∈ med, m / 3 = x / 3 → m = c) : minDist (trioD k) x med = trioD k x c := by
  obtain ⟨⟨m, hm, e⟩, h⟩ := minDist_spec (trioD k) x med (List.ne_nil_of_mem hc)
  refine le_antisymm (h c hc) ?_
  rw [e]
  by_cases hmg : m / 3 = x / 3
  · rw [hu m hm hmg]
  · unfold trioD; split_ifs <;> omega

/-- What a group contributes: 2 if the medoid is in the middle, otherwise 3. -/
def trioCost (a : Nat) : ℤ := if a = 1 then 2 else 3

theorem totalDev_trioMed (hk : 2 ≤ k) (hA : ∀ i, A i < 3) :
    totalDev (conv : ℕ → ℤ) (3 * k) (trioD k) (trioMed k A) = ∑ i ∈ Finset.range k, trioCost (A i) := by
  rw [totalDev_eq_sum, sum_trios]
  refine Finset.sum_congr rfl fun i hi => ?_
  have hi := Finset.mem_range.mp hi
  have ha := hA i
  have key : ∀ x, x / 3 = i → minDist (trioD k) x (trioMed k A) = trioD k x (3 * i + A i) := fun x hx => by
    have e : (3 * i + A i) / 3 = i := by omega
    refine minDist_trio hk ((mem_trioMed hA).mpr ?_) (by omega) fun m hm hmx => ?_
    · rw [e]; exact ⟨hi, by omega⟩
    · have := ((mem_trioMed hA).mp hm).2
      rw [hmx, hx] at this
      omega
  rw [key _ (by omega), key _ (by omega), key _ (by omega)]
  show ((trioD k _ _ : ℕ) : ℤ) + ((trioD k _ _ : ℕ) : ℤ) + ((trioD k _ _ : ℕ) : ℤ) = _
  generalize A i = a at *
  have h : trioD k (3 * i) (3 * i + a) + trioD k (3 * i + 1) (3 * i + a) + trioD k (3 * i + 2) (3 * i + a) =
      if a = 1 then 2 else 3 := by
    unfold trioD
    rcases (by omega : a = 0 ∨ a = 1 ∨ a = 2) with rfl | rfl | rfl <;> simp <;> split_ifs <;> omega
  unfold trioCost
  split at h <;> omega

theorem totalDev_trioMed_le (hk : 2 ≤ k) (hA : ∀ i, A i < 3) :
    totalDev (conv : ℕ → ℤ) (3 * k) (trioD k) (trioMed k A) ≤ 3 * k := by
  rw [totalDev_trioMed hk hA]
  calc _ ≤ ∑ i ∈ Finset.range k, (3 : ℤ) := Finset.sum_le_sum fun i _ => by unfold trioCost; split <;> norm_num
    _ = 3 * k := by rw [Finset.sum_const, Finset.card_range]; simp; ring

/-- Medoids that miss a group are worse than any of these. -/
theorem totalDev_missing {i : Nat} (hi : i < k) {med : List Nat} (hne : med ≠ []) (h : ∀ m ∈ med, m / 3 ≠ i) :
    (3 * k : ℤ) < totalDev (conv : ℕ → ℤ) (3 * k) (trioD k) med := by
  rw [totalDev_eq_sum, sum_trios]
  have hf : ∀ x, x / 3 = i → minDist (trioD k) x med = k + 1 := fun x hx => by
    obtain ⟨⟨m, hm, e⟩, -⟩ := minDist_spec (trioD k) x med hne
    have := h m hm
    rw [e]; unfold trioD; split_ifs <;> omega
  have h0 : ∀ x, (0 : ℤ) ≤ conv (minDist (trioD k) x med) := fun x => Int.natCast_nonneg _
  have hle := Finset.single_le_sum (f := fun i => (conv (minDist (trioD k) (3 * i) med) : ℤ) +
    conv (minDist (trioD k) (3 * i + 1) med) + conv (minDist (trioD k) (3 * i + 2) med))
    (fun i _ => by have := h0 (3 * i); have := h0 (3 * i + 1); have := h0 (3 * i + 2); omega) (Finset.mem_range.mpr hi)
  refine lt_of_lt_of_le ?_ hle
  rw [hf _ (by omega), hf _ (by omega), hf _ (by omega)]
  show (3 * k : ℤ) < ((k + 1 : ℕ) : ℤ) + ((k + 1 : ℕ) : ℤ) + ((k + 1 : ℕ) : ℤ)
  push_cast
  omega

/-- An exchange that is not within a group is no improvement. -/
theorem trio_set_other (hk : 2 ≤ k) (hA : ∀ i, A i < 3) {b j : Nat} (hb : b < k) (hbj : j / 3 ≠ b) :
    totalDev (conv : ℕ → ℤ) (3 * k) (trioD k) (trioMed k A) <
      totalDev (conv : ℕ → ℤ) (3 * k) (trioD k) ((trioMed k A).set b j) := by
  refine lt_of_le_of_lt (totalDev_trioMed_le hk hA)
    (totalDev_missing hb (List.ne_nil_of_length_pos (by rw [List.length_set, trioMed_length]; omega)) fun m hm hmb => ?_)
  obtain ⟨i, hi, e⟩ := List.getElem_of_mem hm
  rw [List.length_set, trioMed_length] at hi
  rw [List.getElem_set] at e
  split at e
  · exact hbj (e ▸ hmb)
  · rename_i hne
    simp only [trioMed, List.getElem_map, List.getElem_range] at e
    have := hA i
    omega

/-- An exchange within a group. -/
theorem trio_set_own {j : Nat} : (trioMed k A).set (j / 3) j = trioMed k (Function.update A (j / 3) (j % 3)) := by
  refine List.ext_getElem (by simp [trioMed]) fun i h1 h2 => ?_
  rw [List.getElem_set]
  simp only [trioMed, List.getElem_map, List.getElem_range]
  by_cases e : j / 3 = i
  · subst e
    rw [if_pos rfl, Function.update_self]
    omega
  · rw [if_neg e, Function.update_of_ne (Ne.symm e)]

theorem update_lt (hA : ∀ i, A i < 3) (b : Nat) {v : Nat} (hv : v < 3) : ∀ i, Function.update A b v i < 3 := fun i => by
  by_cases e : i = b
  · subst e; rw [Function.update_self]; exact hv
  · rw [Function.update_of_ne e]; exact hA i

theorem totalDev_update (hk : 2 ≤ k) (hA : ∀ i, A i < 3) {b v : Nat} (hb : b < k) (hv : v < 3) :
    totalDev (conv : ℕ → ℤ) (3 * k) (trioD k) (trioMed k (Function.update A b v)) =
      totalDev (conv : ℕ → ℤ) (3 * k) (trioD k) (trioMed k A) - trioCost (A b) + trioCost v := by
  rw [totalDev_trioMed hk hA, totalDev_trioMed hk (update_lt hA b hv),
    ← Finset.add_sum_erase _ _ (Finset.mem_range.mpr hb), ← Finset.add_sum_erase _ _ (Finset.mem_range.mpr hb), Function.update_self,
    Finset.sum_congr rfl fun i hi => by rw [Function.update_of_ne (Finset.ne_of_mem_erase hi)]]
  ring

/-- An exchange for an object that is not in the middle is no improvement. -/
theorem trio_set_outer (hk : 2 ≤ k) (hA : ∀ i, A i < 3) {b j : Nat} (hb : b < k) (hj : j % 3 ≠ 1) :
    totalDev (conv : ℕ → ℤ) (3 * k) (trioD k) (trioMed k A) ≤
      totalDev (conv : ℕ → ℤ) (3 * k) (trioD k) ((trioMed k A).set b j) := by
  by_cases e : j / 3 = b
  · subst e
    rw [trio_set_own, totalDev_update hk hA hb (Nat.mod_lt _ (by decide))]
    have : trioCost (j % 3) = 3 := by simp [trioCost, hj]
    have : trioCost (A (j / 3)) ≤ 3 := by unfold trioCost; split <;> norm_num
    omega
  · exact (trio_set_other hk hA hb e).le

/-- One for the object in the middle of a group with another medoid is. -/
theorem trio_set_mid (hk : 2 ≤ k) (hA : ∀ i, A i < 3) {j : Nat} (hj : j < 3 * k) (h1 : j % 3 = 1) (hjm : j ∉ trioMed k A) :
    totalDev (conv : ℕ → ℤ) (3 * k) (trioD k) ((trioMed k A).set (j / 3) j) =
      totalDev (conv : ℕ → ℤ) (3 * k) (trioD k) (trioMed k A) - 1 := by
  have hb : j / 3 < k := by omega
  have ha : A (j / 3) ≠ 1 := fun h => hjm ((mem_trioMed hA).mpr ⟨hb, by omega⟩)
  rw [trio_set_own, totalDev_update hk hA hb (Nat.mod_lt _ (by decide)), h1]
  have : trioCost (A (j / 3)) = 3 := by simp [trioCost, ha]
  have : trioCost 1 = 2 := by simp [trioCost]
  omega

/-! ## FasterPAM -/

theorem eagerStep_trio (hk : 2 ≤ k) (hA : ∀ i, A i < 3) (c : Nat) {j : Nat} (hj : j < 3 * k) :
    let T := totalDev (conv : ℕ → ℤ) (3 * k) (trioD k)
    ∃ A' c', eagerStep T (trioMed k A, c) j = (trioMed k A', c') ∧ (∀ i, A' i < 3) ∧
      T (trioMed k A') + c' = T (trioMed k A) + c ∧ (∀ i, A i = 1 → A' i = 1) ∧ (j % 3 = 1 → A' (j / 3) = 1) := by
  intro T
  by_cases hjm : j ∈ trioMed k A
  · refine ⟨A, c, by unfold eagerStep; rw [if_pos hjm], hA, rfl, fun _ h => h, fun h => ?_⟩
    rw [← ((mem_trioMed hA).mp hjm).2, h]
  · by_cases h1 : j % 3 = 1
    · refine ⟨Function.update A (j / 3) (j % 3), c + 1, ?_, update_lt hA _ (Nat.mod_lt _ (by decide)), ?_, fun i hi => ?_, fun _ => ?_⟩
      · have hb : j / 3 < k := by omega
        have hT := trio_set_mid hk hA hj h1 hjm
        have e : firstMin (fun m => T ((trioMed k A).set m j)) (trioMed k A).length = j / 3 := by
          rw [trioMed_length]
          have hlt : ∀ m < k, m ≠ j / 3 → T ((trioMed k A).set (j / 3) j) < T ((trioMed k A).set m j) := fun m hm hne => by
            have := trio_set_other hk hA hm (Ne.symm hne)
            show totalDev (conv : ℕ → ℤ) _ _ _ < totalDev (conv : ℕ → ℤ) _ _ _
            omega
          refine firstMin_unique _ hb (fun m hm => ?_) fun m hm => hlt m (by omega) (by omega)
          by_cases em : m = j / 3
          · rw [em]
          · exact (hlt m hm em).le
        unfold eagerStep
        rw [if_neg hjm]
        dsimp only
        rw [e, if_pos (by show totalDev (conv : ℕ → ℤ) _ _ _ < totalDev (conv : ℕ → ℤ) _ _ _; omega), trio_set_own]
      · have hT := trio_set_mid hk hA hj h1 hjm
        rw [trio_set_own] at hT
        show totalDev (conv : ℕ → ℤ) _ _ _ + _ = totalDev (conv : ℕ → ℤ) _ _ _ + _
        push_cast
        omega
      · by_cases e : i = j / 3
        · rw [e, Function.update_self, h1]
        · rw [Function.update_of_ne e, hi]
      · rw [Function.update_self, h1]
    · refine ⟨A, c, ?_, hA, rfl, fun _ h => h, fun h => absurd h h1⟩
      refine eagerStep_settled (by rw [trioMed_length]; omega) (.inr fun m hm => ?_)
      rw [trioMed_length] at hm
      exact trio_set_outer hk hA hm h1

theorem eager_trio (hk : 2 ≤ k) {js : List Nat} (hjs : ∀ j ∈ js, j < 3 * k) (hA : ∀ i, A i < 3) (c : Nat) :
    let T := totalDev (conv : ℕ → ℤ) (3 * k) (trioD k)
    ∃ A' c', js.foldl (eagerStep T) (trioMed k A, c) = (trioMed k A', c') ∧ (∀ i, A' i < 3) ∧
      T (trioMed k A') + c' = T (trioMed k A) + c ∧ (∀ i, A i = 1 → A' i = 1) ∧ ∀ j ∈ js, j % 3 = 1 → A' (j / 3) = 1 := by
  intro T
  induction js generalizing A c with
  | nil => exact ⟨A, c, rfl, hA, rfl, fun _ h => h, by simp⟩
  | cons j js ih =>
    obtain ⟨A1, c1, h1, h2, h3, h4, h5⟩ := eagerStep_trio hk hA c (hjs j (by simp))
    obtain ⟨A2, c2, g1, g2, g3, g4, g5⟩ := ih (fun x hx => hjs x (List.mem_cons_of_mem _ hx)) h2 c1
    refine ⟨A2, c2, by rw [List.foldl_cons, h1, g1], g2, g3.trans h3, fun i hi => g4 i (h4 i hi), fun x hx hx1 => ?_⟩
    rcases List.mem_cons.mp hx with rfl | hx
    · exact g4 _ (h5 hx1)
    · exact g5 x hx hx1

/-- The objects in the middle. -/
def trioBest (k : Nat) : List Nat := trioMed k fun _ => 1

theorem trioMed_eq_best (h : ∀ i < k, A i = 1) : trioMed k A = trioBest k :=
  List.map_congr_left fun i hi => by rw [h i (List.mem_range.mp hi)]

theorem totalDev_trioBest (hk : 2 ≤ k) : totalDev (conv : ℕ → ℤ) (3 * k) (trioD k) (trioBest k) = 2 * k := by
  rw [trioBest, totalDev_trioMed hk fun _ => by decide]
  simp [trioCost]
  ring

theorem totalDev_trioStart (hk : 2 ≤ k) : totalDev (conv : ℕ → ℤ) (3 * k) (trioD k) (trioMed k fun _ => 0) = 3 * k := by
  rw [totalDev_trioMed hk fun _ => by decide]
  simp [trioCost]
  ring

theorem trioBest_noBetter (hk : 2 ≤ k) : NoBetter (totalDev (conv : ℕ → ℤ) (3 * k) (trioD k)) (3 * k) (trioBest k) :=
  fun b j hb hj hjm => by
    rw [trioBest, trioMed_length] at hb
    refine trio_set_outer hk (fun _ => by decide) hb fun h1 => hjm ?_
    exact (mem_trioMed fun _ => by decide).mpr ⟨by omega, h1⟩

theorem eagerRun_trio (hk : 2 ≤ k) {seq : List Nat} (hs : seq.Perm (List.range (3 * k))) (fuel : Nat) :
    eagerRun (totalDev (conv : ℕ → ℤ) (3 * k) (trioD k)) seq (fuel + 1) (trioMed k fun _ => 0) =
      (trioBest k, min (fuel + 1) 2, k) := by
  have hseq : ∀ j ∈ seq, j < 3 * k := fun j hj => List.mem_range.mp (hs.mem_iff.mp hj)
  have hp : eagerPass (totalDev (conv : ℕ → ℤ) (3 * k) (trioD k)) seq (trioMed k fun _ => 0) = (trioBest k, k) := by
    obtain ⟨A, c, h1, h2, h3, -, h5⟩ := eager_trio hk hseq (A := fun _ => 0) (fun _ => by decide) 0
    have e : trioMed k A = trioBest k := trioMed_eq_best fun i hi => by
      have := h5 (3 * i + 1) (hs.mem_iff.mpr (List.mem_range.mpr (by omega))) (by omega)
      rwa [show (3 * i + 1) / 3 = i by omega] at this
    rw [e] at h1 h3
    rw [totalDev_trioBest hk, totalDev_trioStart hk] at h3
    unfold eagerPass
    rw [h1]
    have : c = k := by push_cast at h3; omega
    rw [this]
  rw [eagerRun_more (by rw [hp]; show k ≠ 0; omega), hp]
  cases fuel with
  | zero => simp [eagerRun]
  | succ fuel =>
    have hz : (eagerPass (totalDev (conv : ℕ → ℤ) (3 * k) (trioD k)) seq (trioBest k)).2 = 0 := by
      unfold eagerPass
      rw [eager_settled (s := (trioBest k, 0)) (by show 1 ≤ (trioBest k).length; rw [trioBest, trioMed_length]; omega) fun x hx => by
        by_cases hxm : x ∈ trioBest k
        · exact .inl hxm
        · exact .inr fun m hm => trioBest_noBetter hk m x hm (hseq x hx) hxm]
    rw [eagerRun_done hz]
    simp

/-! ## PAM -/

/-- The medoids after `t` swaps. -/
def trioAt (k t : Nat) : List Nat := trioMed k fun i => if i < t then 1 else 0

theorem trioAt_lt (t : Nat) : ∀ i, (if i < t then 1 else 0 : Nat) < 3 := fun i => by split <;> decide

theorem bestOf_trio (hk : 2 ≤ k) {t : Nat} (ht : t < k) :
    let T := totalDev (conv : ℕ → ℤ) (3 * k) (trioD k)
    bestOf T (neighbours (3 * k) (trioAt k t)) (trioAt k t) = trioAt k (t + 1) ∧ T (trioAt k (t + 1)) = T (trioAt k t) - 1 := by
  intro T
  have hA := trioAt_lt t
  have hj : 3 * t + 1 < 3 * k := by omega
  have e3 : (3 * t + 1) / 3 = t := by omega
  have hjm : 3 * t + 1 ∉ trioAt k t := fun h => by
    have := ((mem_trioMed hA).mp h).2
    rw [e3, if_neg (lt_irrefl t)] at this
    omega
  have hT := trio_set_mid hk hA hj (by omega) hjm
  have e : (trioAt k t).set t (3 * t + 1) = trioAt k (t + 1) := by
    have := trio_set_own (k := k) (A := fun i => if i < t then 1 else 0) (j := 3 * t + 1)
    rw [e3] at this
    rw [trioAt, this, trioAt]
    congr 1
    funext i
    by_cases h : i = t
    · subst h
      rw [Function.update_self, if_pos (by omega)]
      omega
    · rw [Function.update_of_ne h]
      by_cases h' : i < t
      · rw [if_pos h', if_pos (by omega)]
      · rw [if_neg h', if_neg (by omega)]
  rw [e3] at hT
  have hT' : T ((trioAt k t).set t (3 * t + 1)) = T (trioAt k t) - 1 := hT
  refine ⟨?_, by rw [← e]; exact hT'⟩
  rw [← e]
  have hl : (trioAt k t).length = k := trioMed_length _ _
  have hge : ∀ b j, b < k → j < 3 * k → j ∉ trioAt k t → T (trioAt k t) - 1 ≤ T ((trioAt k t).set b j) := fun b j hb hj hjm => by
    by_cases h1 : j % 3 = 1
    · by_cases hbj : j / 3 = b
      · have := trio_set_mid hk hA hj h1 hjm
        rw [hbj] at this
        exact this.ge
      · have := (trio_set_other hk hA hb hbj).le
        show totalDev (conv : ℕ → ℤ) _ _ (trioMed k _) - 1 ≤ totalDev (conv : ℕ → ℤ) _ _ ((trioMed k _).set b j)
        omega
    · have := trio_set_outer hk hA hb h1
      show totalDev (conv : ℕ → ℤ) _ _ (trioMed k _) - 1 ≤ totalDev (conv : ℕ → ℤ) _ _ ((trioMed k _).set b j)
      omega
  refine neighbours_first (by rw [hl]; exact ht) hj hjm (by rw [hT']; omega)
    (fun b j hb hj hjm => by rw [hT']; exact hge b j (by omega) hj hjm) fun b j hb hjm' hlt => ?_
  rw [hT', hl] at *
  by_cases hbj : j / 3 = b
  · have hj1 : j % 3 ≠ 1 := fun h1 => by
      have hjt : j / 3 < t := by omega
      exact hjm' ((mem_trioMed hA).mpr ⟨by omega, by rw [if_pos hjt]; exact h1⟩)
    have := trio_set_outer hk hA hb hj1
    show totalDev (conv : ℕ → ℤ) _ _ (trioMed k _) - 1 < totalDev (conv : ℕ → ℤ) _ _ ((trioMed k _).set b j)
    omega
  · have := trio_set_other hk hA hb hbj
    show totalDev (conv : ℕ → ℤ) _ _ (trioMed k _) - 1 < totalDev (conv : ℕ → ℤ) _ _ ((trioMed k _).set b j)
    omega

theorem steepRun_trio (hk : 2 ≤ k) (fuel : Nat) {t : Nat} (ht : t ≤ k) :
    steepRun (totalDev (conv : ℕ → ℤ) (3 * k) (trioD k)) (3 * k) fuel (trioAt k t) =
      (trioAt k (min k (t + fuel)), min (k - t + 1) fuel, min (k - t) fuel) := by
  induction fuel generalizing t with
  | zero => simp [steepRun, ht]
  | succ fuel ih =>
    rcases Nat.lt_or_ge t k with h | h
    · obtain ⟨h1, h2⟩ := bestOf_trio hk h
      rw [steepRun_more (by rw [h1, h2]; omega), h1, ih (by omega)]
      refine Prod.ext ?_ (Prod.ext ?_ ?_)
      · rw [show t + 1 + fuel = t + (fuel + 1) by omega]
      · show min (k - (t + 1) + 1) fuel + 1 = min (k - t + 1) (fuel + 1)
        omega
      · show min (k - (t + 1)) fuel + 1 = min (k - t) (fuel + 1)
        omega
    · obtain rfl : t = k := by omega
      have e : trioAt t t = trioBest t := trioMed_eq_best fun i hi => if_pos hi
      rw [e, steepRun_none (trioBest_noBetter hk), ← e]
      simp

theorem totalDev_trioAt (hk : 2 ≤ k) {t : Nat} (ht : t ≤ k) :
    totalDev (conv : ℕ → ℤ) (3 * k) (trioD k) (trioAt k t) = 3 * k - t := by
  induction t with
  | zero =>
    have := totalDev_trioStart hk
    simpa [trioAt] using this
  | succ t ih =>
    rw [(bestOf_trio hk (by omega)).2, ih (by omega)]
    push_cast
    omega

/-! ## The statements -/

/-- The first objects of the groups, with which the runs start. -/
def trioStart (k : Nat) : List Nat := (List.range k).map fun i => 3 * i

theorem trioStart_eq (k : Nat) : trioStart k = trioMed k fun _ => 0 := rfl

theorem trioStart_valid (hk : 2 ≤ k) (hn : 3 * k ≤ u32Max) : ValidMeds (3 * k) (trioStart k) ∧ (trioStart k).Nodup ∧
    (trioStart k).length = k := by
  have h0 : ∀ i, (fun _ : Nat => 0) i < 3 := fun _ => Nat.zero_lt_succ _
  rw [trioStart_eq]
  have hl := trioMed_length k fun _ => 0
  exact ⟨⟨by rw [hl]; exact ⟨by omega, by omega, hn, by omega⟩, trioMed_range h0⟩, trioMed_nodup h0, hl⟩

/-- **C127, the data** are a metric. -/
theorem C127_metric (hk : 2 ≤ k) : IsMatrix (fnMat (3 * k) (trioD k)) (3 * k) (trioD k) ∧ Dissim (3 * k) (trioD k) ∧
    IsMetric (conv : ℕ → ℤ) (3 * k) (trioD k) :=
  ⟨fnMat_isMatrix _ _, trioD_dissim _ _, fun x y _ _ => trioD_symm k x y, fun x y z _ _ _ => by
    have := trioD_triangle hk x y z
    show ((trioD k x z : ℕ) : ℤ) ≤ (trioD k x y : ℕ) + (trioD k y z : ℕ)
    omega⟩

/-- **C127, FasterPAM** in any order of the objects: `k` swaps in the first pass. -/
theorem C127_rand_fasterpam (hk : 2 ≤ k) (hn : 3 * k ≤ u32Max) {maxiter : Nat} (hi : 1 ≤ maxiter) {seq : List Nat}
    (hs : seq.Perm (List.range (3 * k))) {r : SwapResult ℤ}
    (hr : randFasterpam ℤ (fnMat (3 * k) (trioD k)) (trioStart k) maxiter seq = .ok r) :
    r.loss = 2 * k ∧ r.nSwap = k ∧ r.nIter = min maxiter 2 ∧ r.med = (List.range k).map fun i => 3 * i + 1 := by
  obtain ⟨fuel, rfl⟩ := Nat.exists_eq_add_of_le' hi
  obtain ⟨hv, hnd, hl⟩ := trioStart_valid hk hn
  obtain ⟨h1, h2⟩ := C89_rand_fasterpam (fnMat_isMatrix _ _) (trioD_dissim _ _) hv hnd (by omega) _
    (fun j hj => List.mem_range.mp (hs.mem_iff.mp hj)) (hs.nodup_iff.mpr List.nodup_range) hr
  rw [trioStart_eq, eagerRun_trio hk hs] at h1
  simp only [Prod.mk.injEq] at h1
  exact ⟨by rw [h2, h1.1, totalDev_trioBest hk], h1.2.2, h1.2.1, h1.1⟩

/-- **C127, fasterpam.** -/
theorem C127_fasterpam (hk : 2 ≤ k) (hn : 3 * k ≤ u32Max) {maxiter : Nat} (hi : 1 ≤ maxiter) {r : SwapResult ℤ}
    (hr : fasterpam ℤ (fnMat (3 * k) (trioD k)) (trioStart k) maxiter = .ok r) :
    r.loss = 2 * k ∧ r.nSwap = k ∧ r.nIter = min maxiter 2 ∧ r.med = (List.range k).map fun i => 3 * i + 1 := by
  rw [fasterpam_eq_rand, (fnMat_isMatrix (3 * k) (trioD k)).len] at hr
  exact C127_rand_fasterpam hk hn hi (List.Perm.refl _) hr

/-- **C127, PAM and FastPAM1:** one swap in each iteration. -/
theorem C127_pam (hk : 2 ≤ k) (hn : 3 * k ≤ u32Max) {maxiter : Nat} {r : SwapResult ℤ}
    (hr : pamSwap ℤ (fnMat (3 * k) (trioD k)) (trioStart k) maxiter = .ok r ∨
      fastpam1 ℤ (fnMat (3 * k) (trioD k)) (trioStart k) maxiter = .ok r) :
    r.loss = 3 * k - min k maxiter ∧ r.nSwap = min k maxiter ∧ r.nIter = min (k + 1) maxiter ∧
      r.med = (List.range k).map fun i => if i < maxiter then 3 * i + 1 else 3 * i := by
  obtain ⟨hv, hnd, hl⟩ := trioStart_valid hk hn
  have h : (r.med, r.nIter, r.nSwap) = steepRun (totalDev (conv : ℕ → ℤ) (3 * k) (trioD k)) (3 * k) maxiter (trioStart k) ∧
      r.loss = totalDev (conv : ℕ → ℤ) (3 * k) (trioD k) r.med := by
    rcases hr with hr | hr
    · exact C90_pam_swap (fnMat_isMatrix _ _) (trioD_dissim _ _) hv hnd (by omega) _ hr
    · exact C90_fastpam1 (fnMat_isMatrix _ _) (trioD_dissim _ _) hv hnd (by omega) _ hr
  obtain ⟨h1, h2⟩ := h
  have e0 : trioStart k = trioAt k 0 := by simp [trioStart_eq, trioAt]
  rw [e0, steepRun_trio hk maxiter (Nat.zero_le k)] at h1
  simp only [Prod.mk.injEq, Nat.sub_zero, Nat.zero_add] at h1
  refine ⟨?_, h1.2.2, h1.2.1, ?_⟩
  · rw [h2, h1.1, totalDev_trioAt hk (Nat.min_le_left _ _)]
  · rw [h1.1]
    refine List.map_congr_left fun i hi => ?_
    have hi := List.mem_range.mp hi
    dsimp only
    by_cases h : i < maxiter
    · rw [if_pos (by omega), if_pos h]
    · rw [if_neg (by omega), if_neg h]; rfl

/-- **C127, the optimum** is `2 k`: no `k` medoids have a smaller total deviation. -/
theorem C127_optimum (hk : 2 ≤ k) {other : List Nat} (hne : other ≠ []) (hl : other.length ≤ k) :
    (2 * k : ℤ) ≤ totalDev (conv : ℕ → ℤ) (3 * k) (trioD k) other := by
  have h0 : ∀ i ∈ Finset.range (3 * k), (1 : ℤ) - (if i ∈ other.toFinset then 1 else 0) ≤ conv (minDist (trioD k) i other) :=
    fun i _ => by
      show _ ≤ ((minDist (trioD k) i other : ℕ) : ℤ)
      by_cases hi : i ∈ other.toFinset
      · rw [if_pos hi]; omega
      · rw [if_neg hi]
        obtain ⟨⟨m, hm, e⟩, -⟩ := minDist_spec (trioD k) i other hne
        have him : i ≠ m := fun h => hi (List.mem_toFinset.mpr (h ▸ hm))
        have : 1 ≤ trioD k i m := by unfold trioD; split_ifs <;> omega
        rw [e]
        omega
  rw [totalDev_eq_sum]
  refine le_trans ?_ (Finset.sum_le_sum h0)
  rw [Finset.sum_sub_distrib, Finset.sum_ite_mem]
  have h1 : (Finset.range (3 * k) ∩ other.toFinset).card ≤ k :=
    (Finset.card_le_card Finset.inter_subset_right).trans ((List.toFinset_card_le other).trans hl)
  simp only [Finset.sum_const, Finset.card_range, nsmul_eq_mul, mul_one]
  push_cast
  omega

/-- **C127, work:** the run of FasterPAM until convergence reads at most `2 / k` times as many matrix entries as that of PAM, with the
same medoids. -/
theorem C127_reads (hk : 2 ≤ k) (hn : 3 * k ≤ u32Max) {maxiter : Nat} (hi : k < maxiter) :
    ∃ (r r' : SwapResult ℤ) (t t' : Nat),
      (fasterpamC ℤ ⟨1, 0⟩ ((fnMat (3 * k) (trioD k)).counted ⟨1, 0⟩) (trioStart k) maxiter).run = .ok (r, t) ∧
      (pamSwapC ℤ ⟨1, 0⟩ ((fnMat (3 * k) (trioD k)).counted ⟨1, 0⟩) (trioStart k) maxiter).run = .ok (r', t') ∧
      r.med = r'.med ∧ t ≤ 3 * k ^ 2 * (k + 8) ∧ 2 * k ^ 2 * (k + 1) * (3 * k - 1) ≤ t' ∧ k * t ≤ 2 * t' := by
  obtain ⟨hv, hnd, hl⟩ := trioStart_valid hk hn
  have hm := fnMat_isMatrix (3 * k) (trioD k)
  obtain ⟨r, hr, -⟩ := C04_fasterpam (L := ℤ) hm hv maxiter
  obtain ⟨r', hr', -⟩ := C04_pam_swap (L := ℤ) hm hv maxiter
  obtain ⟨-, a2, a3, a4⟩ := C127_fasterpam hk hn (by omega) hr
  obtain ⟨-, b2, b3, b4⟩ := C127_pam hk hn (.inl hr')
  obtain ⟨t, h1, h2⟩ := C85_fasterpam (w := ⟨1, 0⟩) _ (by omega) maxiter hr
  obtain ⟨t', g1, g2, -⟩ := C85_pam_swap (w := ⟨1, 0⟩) _ (by omega) maxiter hr'
  rw [hm.len, hl, a2, a3, show min maxiter 2 = 2 by omega] at h2
  rw [hm.len, hl, b3, show min (k + 1) maxiter = k + 1 by omega, show 3 * k - k = 2 * k by omega] at g2
  dsimp only at h2 g2
  have h3 : t ≤ 3 * k ^ 2 * (k + 8) := h2.trans (le_of_eq (by ring))
  have g3 : 2 * k ^ 2 * (k + 1) * (3 * k - 1) ≤ t' := le_trans (le_of_eq (by ring)) g2
  refine ⟨r, r', t, t', h1, g1, ?_, h3, g3, ?_⟩
  · rw [a4, b4]
    exact List.map_congr_left fun i hi' => by
      have := List.mem_range.mp hi'
      rw [if_pos (by omega)]
  · obtain ⟨p, rfl⟩ := Nat.exists_eq_add_of_le' hk
    rw [show 3 * (p + 2) - 1 = 3 * p + 5 by omega] at g3
    have e1 := Nat.mul_le_mul_left (p + 2) h3
    have e2 := Nat.mul_le_mul_left 2 g3
    refine e1.trans (le_trans ?_ e2)
    rw [show (p + 2) * (3 * (p + 2) ^ 2 * (p + 2 + 8)) = (p + 2) ^ 2 * (3 * (p + 2) * (p + 10)) by ring,
      show 2 * (2 * (p + 2) ^ 2 * (p + 2 + 1) * (3 * p + 5)) = (p + 2) ^ 2 * (4 * (p + 3) * (3 * p + 5)) by ring]
    exact Nat.mul_le_mul_left _ (by nlinarith [Nat.zero_le p])

/-- **C127, par_fasterpam,** for every schedule of the threads. -/
theorem C127_par_fasterpam (sc0 : Sched) {scF scS : Nat → Nat → Sched} (hF : ∀ i j, (scF i j).Ok) (hk : 2 ≤ k)
    (hn : 3 * k ≤ u32Max) {maxiter : Nat} (hi : 1 ≤ maxiter) {seq : List Nat} (hs : seq.Perm (List.range (3 * k))) {r : SwapResult ℤ}
    (hr : parFasterpam ℤ sc0 scF scS (fnMat (3 * k) (trioD k)) (trioStart k) maxiter seq = .ok r) :
    r.loss = 2 * k ∧ r.nSwap = k ∧ r.nIter = min maxiter 2 ∧ r.med = (List.range k).map fun i => 3 * i + 1 := by
  obtain ⟨hv, hnd, -⟩ := trioStart_valid hk hn
  rw [(C17_par_fasterpam sc0 (scS := scS) hF (fnMat_isMatrix _ _) (trioD_dissim _ _) hv hnd maxiter
    fun j hj => List.mem_range.mp (hs.mem_iff.mp hj)).1] at hr
  exact C127_rand_fasterpam hk hn hi hs hr

/-- The comparison, for 5 groups. -/
example : fasterpam ℤ (fnMat 15 (trioD 5)) [0, 3, 6, 9, 12] 100 =
      .ok ⟨10, [0, 0, 0, 1, 1, 1, 2, 2, 2, 3, 3, 3, 4, 4, 4], 2, 5, [1, 4, 7, 10, 13]⟩ ∧
    pamSwap ℤ (fnMat 15 (trioD 5)) [0, 3, 6, 9, 12] 100 =
      .ok ⟨10, [0, 0, 0, 1, 1, 1, 2, 2, 2, 3, 3, 3, 4, 4, 4], 6, 5, [1, 4, 7, 10, 13]⟩ ∧
    pamSwap ℤ (fnMat 15 (trioD 5)) [0, 3, 6, 9, 12] 2 =
      .ok ⟨13, [0, 0, 0, 1, 1, 1, 2, 2, 2, 3, 3, 3, 4, 4, 4], 2, 2, [1, 4, 6, 9, 12]⟩ ∧ trioStart 5 = [0, 3, 6, 9, 12] :=
  ⟨by decide +kernel, by decide +kernel, by decide +kernel, by decide⟩

end KMedoids
