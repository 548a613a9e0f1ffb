import Verif.Props.C89
import Verif.Props.C97
import Verif.Props.C39_C43
import Mathlib.Data.Set.Card
import Mathlib.Data.List.Permutation

/-!
# C130: random starts and random orders make FasterPAM independent of the order of the data

`rand_fasterpam` and `par_fasterpam` visit the objects in a random order, and `random_initialization` draws `k` different objects. If all
orders and all starts are equally likely, then the distribution of the results does not depend on the numbering of the objects: among
the draws, those with a given property of the result (medoids, clusters, loss, iterations, swaps) are as many for the renumbered data. A
random start alone, with `fasterpam`, does not give this.
-/

set_option linter.unusedSectionVars false

namespace KMedoids

open RFrom (conv)

/-- A random order of the objects and `k` random objects: all possible draws. -/
def Draws (n k : Nat) : Set (List Nat × List Nat) :=
  {p | p.1.Perm (List.range n) ∧ p.2.Nodup ∧ p.2.length = k ∧ ∀ m ∈ p.2, m < n}

/-- There are finitely many, so that they can be counted. -/
theorem Draws_finite (n k : Nat) : (Draws n k).Finite := by
  let ls := (List.range n).sublists.flatMap List.permutations
  refine ((List.finite_toSet (List.range n).permutations).prod (List.finite_toSet ls)).subset fun p hp => ?_
  obtain ⟨h1, h2, -, h4⟩ := hp
  refine Set.mem_prod.mpr ⟨List.mem_permutations.mpr h1, ?_⟩
  refine List.mem_flatMap.mpr ⟨(List.range n).filter (· ∈ p.2), List.mem_sublists.mpr List.filter_sublist, List.mem_permutations.mpr ?_⟩
  refine (List.perm_ext_iff_of_nodup h2 (List.nodup_range.filter _)).mpr fun x => ?_
  rw [List.mem_filter, List.mem_range, decide_eq_true_eq]
  exact ⟨fun hx => ⟨h4 x hx, hx⟩, fun hx => hx.2⟩

variable {n : Nat} {σ : Nat → Nat}

theorem Renumbering.inverse (h : Renumbering n σ) : ∃ τ, Renumbering n τ ∧ ∀ x < n, σ (τ x) = x := by
  classical
  have hs : ∀ x, x < n → ∃ i, i < n ∧ σ i = x := fun x hx => h.surj hx
  refine ⟨fun x => if hx : x < n then (hs x hx).choose else 0, ⟨fun i hi => ?_, fun i j hi hj e => ?_⟩, fun x hx => ?_⟩
  · rw [dif_pos hi]; exact (hs i hi).choose_spec.1
  · rw [dif_pos hi, dif_pos hj] at e
    rw [← (hs i hi).choose_spec.2, e, (hs j hj).choose_spec.2]
  · dsimp only; rw [dif_pos hx]; exact (hs x hx).choose_spec.2

theorem Draws.map {k : Nat} (h : Renumbering n σ) {p : List Nat × List Nat} (hp : p ∈ Draws n k) : (p.1.map σ, p.2.map σ) ∈ Draws n k := by
  obtain ⟨h1, h2, h3, h4⟩ := hp
  refine ⟨(h1.map σ).trans h.perm, ?_, by rw [List.length_map]; exact h3, fun m hm => ?_⟩
  · exact (List.nodup_map_iff_inj_on h2).mpr fun x hx y hy e => h.inj x y (h4 x hx) (h4 y hy) e
  · obtain ⟨x, hx, rfl⟩ := List.mem_map.mp hm
    exact h.range x (h4 x hx)

theorem map_inj_range (h : Renumbering n σ) {l l' : List Nat} (hl : ∀ x ∈ l, x < n) (hl' : ∀ x ∈ l', x < n) (e : l.map σ = l'.map σ) :
    l = l' := by
  induction l generalizing l' with
  | nil => exact (List.map_eq_nil_iff.mp e.symm).symm
  | cons a l ih =>
    cases l' with
    | nil => simp at e
    | cons b l' =>
      simp only [List.map_cons, List.cons.injEq] at e
      rw [h.inj a b (hl a (by simp)) (hl' b (by simp)) e.1,
        ih (fun x hx => hl x (List.mem_cons_of_mem _ hx)) (fun x hx => hl' x (List.mem_cons_of_mem _ hx)) e.2]

variable {N L : Type} [LinearOrder N] [Zero N] [RDist N] [LawfulDist N]
variable [AddCommGroup L] [LinearOrder L] [IsOrderedAddMonoid L] [RLoss L] [LawfulLoss L]
variable [RFrom N L] [LawfulFrom N L]
variable {d : Nat → Nat → N} {mat mat' : Mat N}

/-- A result, in the numbering by `σ`, has the property `Q` of medoids, labels, loss, iterations and swaps. -/
def Named (n : Nat) (σ : Nat → Nat) (Q : List Nat → List Nat → L → Nat → Nat → Prop) (r : SwapResult L) : Prop :=
  ∃ lab : List Nat, lab.length = n ∧ (∀ x, x < n → lab[σ x]? = r.assi[x]?) ∧ Q (r.med.map σ) lab r.loss r.nIter r.nSwap

theorem named_id (Q : List Nat → List Nat → L → Nat → Nat → Prop) {r : SwapResult L} (hl : r.assi.length = n) :
    Named n id Q r ↔ Q r.med r.assi r.loss r.nIter r.nSwap := by
  unfold Named
  rw [List.map_id]
  constructor
  · rintro ⟨lab, h1, h2, h3⟩
    have e : lab = r.assi := List.ext_getElem? fun i => by
      by_cases hi : i < n
      · exact h2 i hi
      · rw [List.getElem?_eq_none (by omega), List.getElem?_eq_none (by omega)]
    exact e ▸ h3
  · exact fun h => ⟨r.assi, hl, fun _ _ => rfl, h⟩

/-- **C130, rand_fasterpam:** for every property of the result, as many of the draws lead to it for the renumbered data as for the
original ones. -/
theorem C130_rand_fasterpam (hσ : Renumbering n σ) (hm : IsMatrix mat n d) (hm' : IsMatrix mat' n fun x y => d (σ x) (σ y))
    (hd : Dissim n d) {k : Nat} (hs : Sizes n k) (hk : 2 ≤ k) (maxiter : Nat) (Q : List Nat → List Nat → L → Nat → Nat → Prop) :
    {p ∈ Draws n k | ∃ r, randFasterpam L mat' p.2 maxiter p.1 = .ok r ∧ Named n σ Q r}.ncard =
      {p ∈ Draws n k | ∃ r, randFasterpam L mat p.2 maxiter p.1 = .ok r ∧ Q r.med r.assi r.loss r.nIter r.nSwap}.ncard := by
  obtain ⟨τ, hτ, hστ⟩ := hσ.inverse
  have key : ∀ p ∈ Draws n k, ((∃ r, randFasterpam L mat' p.2 maxiter p.1 = .ok r ∧ Named n σ Q r) ↔
      ∃ r, randFasterpam L mat (p.2.map σ) maxiter (p.1.map σ) = .ok r ∧ Q r.med r.assi r.loss r.nIter r.nSwap) := by
    intro p hp
    obtain ⟨g1, g2, g3, g4⟩ := Draws.map hσ hp
    obtain ⟨h1, h2, h3, h4⟩ := hp
    dsimp only at g1 g2 g3 g4
    have hv' : ValidMeds n p.2 := ⟨by rw [h3]; exact hs, h4⟩
    have hv : ValidMeds n (p.2.map σ) := ⟨by rw [g3]; exact hs, g4⟩
    have hseq' : ∀ j ∈ p.1, j < n := fun j hj => List.mem_range.mp (h1.mem_iff.mp hj)
    have hseq : ∀ j ∈ p.1.map σ, j < n := fun j hj => List.mem_range.mp (g1.mem_iff.mp hj)
    obtain ⟨r, hr, hw⟩ := C04_rand_fasterpam (L := L) hm hv maxiter hseq
    obtain ⟨r', hr', hw'⟩ := C04_rand_fasterpam (L := L) hm' hv' maxiter hseq'
    obtain ⟨e1, e2, e3, e4, e5⟩ := C89_renumber hσ hm hm' hd hv' h2 (by omega) hseq' hr hr'
    have hlen := hw.assiLen
    constructor
    · rintro ⟨r0, hr0, lab, l1, l2, l3⟩
      rw [hr'] at hr0
      cases hr0
      have e : lab = r.assi := List.ext_getElem? fun i => by
        by_cases hi : i < n
        · obtain ⟨x, hx, rfl⟩ := hσ.surj hi
          rw [l2 x hx, e5 x hx]
        · rw [List.getElem?_eq_none (by omega), List.getElem?_eq_none (by omega)]
      refine ⟨r, hr, ?_⟩
      rw [← e, ← e1, ← e2, ← e3, ← e4]
      exact l3
    · rintro ⟨r0, hr0, hQ⟩
      rw [hr] at hr0
      cases hr0
      refine ⟨r', hr', r.assi, hlen, fun x hx => (e5 x hx).symm, ?_⟩
      rw [e1, e2, e3, e4]
      exact hQ
  refine Set.ncard_congr (fun p _ => (p.1.map σ, p.2.map σ)) (fun p hp => ⟨Draws.map hσ hp.1, (key p hp.1).mp hp.2⟩) ?_ ?_
  · rintro ⟨a, b⟩ ⟨a', b'⟩ ⟨⟨h1, -, -, h4⟩, -⟩ ⟨⟨g1, -, -, g4⟩, -⟩ e
    simp only [Prod.mk.injEq] at e
    exact Prod.ext (map_inj_range hσ (fun x hx => List.mem_range.mp (h1.mem_iff.mp hx)) (fun x hx => List.mem_range.mp (g1.mem_iff.mp hx)) e.1)
      (map_inj_range hσ h4 g4 e.2)
  · rintro ⟨a, b⟩ ⟨hp, hQ⟩
    have back : ∀ l : List Nat, (∀ x ∈ l, x < n) → (l.map τ).map σ = l := fun l hl => by
      rw [List.map_map]
      exact (List.map_congr_left fun x hx => hστ x (hl x hx)).trans (List.map_id l)
    have ha := back a fun x hx => List.mem_range.mp (hp.1.mem_iff.mp hx)
    have hb := back b hp.2.2.2
    have hp' := Draws.map hτ hp
    exact ⟨(a.map τ, b.map τ), ⟨hp', (key _ hp').mpr (by dsimp only; rw [ha, hb]; exact hQ)⟩, by dsimp only; rw [ha, hb]⟩

/-- **C130, par_fasterpam,** with any schedules of the threads, which may be different ones for each draw. -/
theorem C130_par_fasterpam (sc0 sc0' : List Nat × List Nat → Sched) {scF scS scF' scS' : List Nat × List Nat → Nat → Nat → Sched}
    (hF : ∀ p i j, (scF p i j).Ok) (hF' : ∀ p i j, (scF' p i j).Ok) (hσ : Renumbering n σ) (hm : IsMatrix mat n d)
    (hm' : IsMatrix mat' n fun x y => d (σ x) (σ y)) (hd : Dissim n d) {k : Nat} (hs : Sizes n k) (hk : 2 ≤ k) (maxiter : Nat)
    (Q : List Nat → List Nat → L → Nat → Nat → Prop) :
    {p ∈ Draws n k | ∃ r, parFasterpam L (sc0' p) (scF' p) (scS' p) mat' p.2 maxiter p.1 = .ok r ∧ Named n σ Q r}.ncard =
      {p ∈ Draws n k | ∃ r, parFasterpam L (sc0 p) (scF p) (scS p) mat p.2 maxiter p.1 = .ok r ∧
        Q r.med r.assi r.loss r.nIter r.nSwap}.ncard := by
  have e : ∀ (mat : Mat N) (d : Nat → Nat → N) (hm : IsMatrix mat n d) (hd : Dissim n d) (sc0 : Sched) (scF scS : Nat → Nat → Sched)
      (hF : ∀ i j, (scF i j).Ok) (p : List Nat × List Nat) (hp : p ∈ Draws n k),
      parFasterpam L sc0 scF scS mat p.2 maxiter p.1 = randFasterpam L mat p.2 maxiter p.1 :=
    fun mat d hm hd sc0 scF scS hF p hp => (C17_par_fasterpam sc0 hF hm hd ⟨by rw [hp.2.2.1]; exact hs, hp.2.2.2⟩ hp.2.1 maxiter
      fun j hj => List.mem_range.mp (hp.1.mem_iff.mp hj)).1
  rw [show {p ∈ Draws n k | ∃ r, parFasterpam L (sc0' p) (scF' p) (scS' p) mat' p.2 maxiter p.1 = .ok r ∧ Named n σ Q r} =
      {p ∈ Draws n k | ∃ r, randFasterpam L mat' p.2 maxiter p.1 = .ok r ∧ Named n σ Q r} from Set.ext fun p =>
        and_congr_right fun hp => by rw [e mat' _ hm' (hd.renumber hσ) _ _ _ (hF' p) p hp],
    show {p ∈ Draws n k | ∃ r, parFasterpam L (sc0 p) (scF p) (scS p) mat p.2 maxiter p.1 = .ok r ∧
        Q r.med r.assi r.loss r.nIter r.nSwap} =
      {p ∈ Draws n k | ∃ r, randFasterpam L mat p.2 maxiter p.1 = .ok r ∧ Q r.med r.assi r.loss r.nIter r.nSwap} from Set.ext fun p =>
        and_congr_right fun hp => by rw [e mat _ hm hd _ _ _ (hF p) p hp]]
  exact C130_rand_fasterpam hσ hm hm' hd hs hk maxiter Q

/-! ## A random start alone -/

def startRows : List (List ℕ) := [[0, 3, 4, 3, 2], [3, 0, 4, 4, 3], [4, 4, 0, 4, 2], [3, 4, 4, 0, 3], [2, 3, 2, 3, 0]]

theorem startRows_dissim : Dissim 5 (rowsD startRows) := ⟨by decide, fun _ _ _ _ => Nat.zero_le _⟩

/-- The objects in reverse order. -/
def rev5 (x : Nat) : Nat := 4 - x

theorem rev5_renumbering : Renumbering 5 rev5 := ⟨fun i _ => by unfold rev5; omega, fun i j _ _ e => by unfold rev5 at e; omega⟩

/-- The starts from two different objects of five. -/
def Starts (n k : Nat) : Set (List Nat) := {l | l.Nodup ∧ l.length = k ∧ ∀ m ∈ l, m < n}

/-- Whether a run ends with a given loss. -/
def endsWith (x : ℤ) : Res (SwapResult ℤ) → Bool
  | .ok r => r.loss = x
  | _ => false

theorem endsWith_iff {x : ℤ} {o : Res (SwapResult ℤ)} : endsWith x o = true ↔ ∃ r, o = .ok r ∧ r.loss = x := by
  cases o with
  | error e => simp [endsWith]
  | ok r => simp [endsWith]

theorem starts_count (n : Nat) (f : List Nat → Res (SwapResult ℤ)) (x : ℤ) :
    {l ∈ Starts n 2 | ∃ r, f l = .ok r ∧ r.loss = x}.ncard =
      ((Finset.range n ×ˢ Finset.range n).filter fun p => p.1 ≠ p.2 ∧ endsWith x (f [p.1, p.2]) = true).card := by
  have e : {l ∈ Starts n 2 | ∃ r, f l = .ok r ∧ r.loss = x} =
      (((Finset.range n ×ˢ Finset.range n).filter fun p => p.1 ≠ p.2 ∧ endsWith x (f [p.1, p.2]) = true).image
        fun p => [p.1, p.2] : Finset (List Nat)) := by
    ext l
    simp only [Finset.coe_image, Finset.coe_filter, Set.mem_image, Set.mem_setOf_eq, Finset.mem_product, Finset.mem_range, endsWith_iff]
    constructor
    · rintro ⟨⟨h1, h2, h3⟩, hr⟩
      obtain ⟨a, b, rfl⟩ := List.length_eq_two.mp h2
      exact ⟨(a, b), ⟨⟨h3 a (by simp), h3 b (by simp)⟩, by simpa using h1, hr⟩, rfl⟩
    · rintro ⟨⟨a, b⟩, ⟨⟨ha, hb⟩, hne, hr⟩, rfl⟩
      refine ⟨⟨by simpa using hne, rfl, fun m hm => ?_⟩, hr⟩
      simp only [List.mem_cons, List.not_mem_nil, or_false] at hm
      rcases hm with rfl | rfl
      · exact ha
      · exact hb
  rw [e, Set.ncard_coe_finset, Finset.card_image_of_injective]
  rintro ⟨a, b⟩ ⟨a', b'⟩ h
  simp only [List.cons.injEq, and_true] at h
  exact Prod.ext h.1 h.2

/-- **C130, a random start alone is not enough:** for five objects and two medoids FasterPAM finds the optimum 7 from 8 of the
20 starts, and from 18 if the objects are numbered in the reverse order. -/
theorem C130_fasterpam_starts :
    {l ∈ Starts 5 2 | ∃ r, fasterpam ℤ (fnMat 5 (rowsD startRows)) l 100 = .ok r ∧ r.loss = 7}.ncard = 8 ∧
    {l ∈ Starts 5 2 | ∃ r, fasterpam ℤ (fnMat 5 fun x y => rowsD startRows (rev5 x) (rev5 y)) l 100 = .ok r ∧ r.loss = 7}.ncard = 18 := by
  rw [starts_count, starts_count]
  exact ⟨by decide +kernel, by decide +kernel⟩

theorem C130_fasterpam_negation :
    ¬ ∀ (n k maxiter : Nat) (σ : Nat → Nat) (d : Nat → Nat → ℕ) (x : ℤ), Renumbering n σ → Dissim n d → Sizes n k → 2 ≤ k →
      {l ∈ Starts n k | ∃ r, fasterpam ℤ (fnMat n fun x y => d (σ x) (σ y)) l maxiter = .ok r ∧ r.loss = x}.ncard =
        {l ∈ Starts n k | ∃ r, fasterpam ℤ (fnMat n d) l maxiter = .ok r ∧ r.loss = x}.ncard := by
  intro h
  have := h 5 2 100 rev5 (rowsD startRows) 7 rev5_renumbering startRows_dissim ⟨by decide, by decide, by decide, by decide⟩ (by decide)
  rw [C130_fasterpam_starts.1, C130_fasterpam_starts.2] at this
  exact absurd this (by decide)

/-- With random orders the chance to find the optimum is the same for both. -/
example :
    {p ∈ Draws 5 2 | ∃ r, randFasterpam ℤ (fnMat 5 fun x y => rowsD startRows (rev5 x) (rev5 y)) p.2 100 p.1 = .ok r ∧
      Named 5 rev5 (fun _ _ loss _ _ => loss = (7 : ℤ)) r}.ncard =
    {p ∈ Draws 5 2 | ∃ r, randFasterpam ℤ (fnMat 5 (rowsD startRows)) p.2 100 p.1 = .ok r ∧ r.loss = 7}.ncard :=
  C130_rand_fasterpam rev5_renumbering (fnMat_isMatrix 5 _) (fnMat_isMatrix 5 _) startRows_dissim
    ⟨by decide, by decide, by decide, by decide⟩ (by decide) 100 fun _ _ loss _ _ => loss = (7 : ℤ)

/-- It is neither none nor all of them: the first of these draws leads to the optimum, the second one does not. -/
example : (([0, 1, 2, 3, 4], [2, 4]) : List Nat × List Nat) ∈ Draws 5 2 ∧ (([0, 1, 2, 3, 4], [0, 1]) : List Nat × List Nat) ∈ Draws 5 2 ∧
    endsWith 7 (randFasterpam ℤ (fnMat 5 (rowsD startRows)) [2, 4] 100 [0, 1, 2, 3, 4]) = true ∧
    endsWith 7 (randFasterpam ℤ (fnMat 5 (rowsD startRows)) [0, 1] 100 [0, 1, 2, 3, 4]) = false := by
  refine ⟨⟨List.Perm.refl _, by decide, rfl, by decide⟩, ⟨List.Perm.refl _, by decide, rfl, by decide⟩, by decide +kernel, by decide +kernel⟩

/-! ## One medoid -/

/-- Two objects at distance 1, and a third one at distance 2 from both. -/
def pairRows : List (List ℕ) := [[0, 1, 2], [1, 0, 2], [2, 2, 0]]

/-- The first two objects exchanged, which leaves all distances as they are. -/
def swap01 (x : Nat) : Nat := if x = 0 then 1 else if x = 1 then 0 else x

theorem swap01_renumbering : Renumbering 3 swap01 :=
  ⟨fun i _ => by unfold swap01; split_ifs <;> omega, fun i j _ _ e => by unfold swap01 at e; split_ifs at e <;> omega⟩

/-- For a single medoid nothing is drawn at random: of the two best objects the first one is returned from the third one. -/
theorem C130_single_negation :
    ¬ ∀ (n k maxiter : Nat) (σ : Nat → Nat) (d : Nat → Nat → ℕ) (Q : List Nat → List Nat → ℤ → Nat → Nat → Prop), Renumbering n σ →
      Dissim n d → Sizes n k →
      {p ∈ Draws n k | ∃ r, randFasterpam ℤ (fnMat n fun x y => d (σ x) (σ y)) p.2 maxiter p.1 = .ok r ∧ Named n σ Q r}.ncard =
        {p ∈ Draws n k | ∃ r, randFasterpam ℤ (fnMat n d) p.2 maxiter p.1 = .ok r ∧ Q r.med r.assi r.loss r.nIter r.nSwap}.ncard := by
  intro h
  have := h 3 1 100 swap01 (rowsD pairRows) (fun med _ _ _ _ => med = [0]) swap01_renumbering
    ⟨by decide, fun _ _ _ _ => Nat.zero_le _⟩ ⟨by decide, by decide, by decide, by decide⟩
  have run : ∀ a m, m < 3 → ∃ r, randFasterpam ℤ (fnMat 3 (rowsD pairRows)) [m] 100 a = .ok r ∧
      r.med = [if m = 1 then 1 else 0] ∧ r.assi.length = 3 := by
    intro a m hm
    have : randFasterpam ℤ (fnMat 3 (rowsD pairRows)) [m] 100 a = singleCluster ℤ (fnMat 3 (rowsD pairRows)) [m] := rfl
    rw [this]
    have e : m = 0 ∨ m = 1 ∨ m = 2 := by omega
    rcases e with rfl | rfl | rfl <;> exact ⟨_, rfl, by decide +kernel, by decide +kernel⟩
  have run' : ∀ a m, m < 3 → ∃ r, randFasterpam ℤ (fnMat 3 fun x y => rowsD pairRows (swap01 x) (swap01 y)) [m] 100 a = .ok r ∧
      r.med = [if m = 1 then 1 else 0] ∧ r.assi = [0, 0, 0] := by
    intro a m hm
    have : randFasterpam ℤ (fnMat 3 fun x y => rowsD pairRows (swap01 x) (swap01 y)) [m] 100 a =
      singleCluster ℤ (fnMat 3 fun x y => rowsD pairRows (swap01 x) (swap01 y)) [m] := rfl
    rw [this]
    have e : m = 0 ∨ m = 1 ∨ m = 2 := by omega
    rcases e with rfl | rfl | rfl <;> exact ⟨_, rfl, by decide +kernel, by decide +kernel⟩
  have eA : {p ∈ Draws 3 1 | ∃ r, randFasterpam ℤ (fnMat 3 fun x y => rowsD pairRows (swap01 x) (swap01 y)) p.2 100 p.1 = .ok r ∧
      Named 3 swap01 (fun med _ _ _ _ => med = [0]) r} = {a : List Nat | a.Perm (List.range 3)} ×ˢ {[1]} := by
    ext ⟨a, b⟩
    constructor
    · rintro ⟨⟨h1, -, h3, h4⟩, r, hr, lab, -, -, hQ⟩
      obtain ⟨m, rfl⟩ := List.length_eq_one_iff.mp h3
      have hm : m < 3 := h4 m (by simp)
      obtain ⟨r', hr', e, -⟩ := run' a m hm
      dsimp only at hr
      rw [hr'] at hr
      cases hr
      rw [e] at hQ
      refine ⟨h1, ?_⟩
      by_cases h1 : m = 1
      · rw [h1]; rfl
      · rw [if_neg h1] at hQ; exact absurd hQ (by decide)
    · rintro ⟨h1, h2⟩
      cases h2
      obtain ⟨r', hr', e, e'⟩ := run' a 1 (by decide)
      refine ⟨⟨h1, by dsimp only; decide, rfl, by dsimp only; decide⟩, r', hr', [0, 0, 0], rfl, ?_, by rw [e]; rfl⟩
      rw [e']; decide
  have eB : {p ∈ Draws 3 1 | ∃ r, randFasterpam ℤ (fnMat 3 (rowsD pairRows)) p.2 100 p.1 = .ok r ∧ r.med = [0]} =
      {a : List Nat | a.Perm (List.range 3)} ×ˢ {[0], [2]} := by
    ext ⟨a, b⟩
    constructor
    · rintro ⟨⟨h1, -, h3, h4⟩, r, hr, hQ⟩
      obtain ⟨m, rfl⟩ := List.length_eq_one_iff.mp h3
      have hm : m < 3 := h4 m (by simp)
      obtain ⟨r', hr', e, -⟩ := run a m hm
      dsimp only at hr
      rw [hr'] at hr
      cases hr
      rw [e] at hQ
      refine ⟨h1, ?_⟩
      by_cases h1 : m = 1
      · rw [if_pos h1] at hQ; exact absurd hQ (by decide)
      · have : m = 0 ∨ m = 2 := by omega
        rcases this with rfl | rfl
        · exact Or.inl rfl
        · exact Or.inr rfl
    · rintro ⟨h1, h2⟩
      rcases h2 with h2 | h2
      · dsimp only at h2; subst h2
        obtain ⟨r', hr', e, -⟩ := run a 0 (by decide)
        exact ⟨⟨h1, by dsimp only; decide, rfl, by dsimp only; decide⟩, r', hr', e⟩
      · cases h2
        obtain ⟨r', hr', e, -⟩ := run a 2 (by decide)
        exact ⟨⟨h1, by dsimp only; decide, rfl, by dsimp only; decide⟩, r', hr', e⟩
  have hP : {a : List Nat | a.Perm (List.range 3)}.ncard ≠ 0 := by
    refine Set.ncard_ne_zero_of_mem (a := List.range 3) (List.Perm.refl _) ?_
    exact (List.finite_toSet (List.range 3).permutations).subset fun a ha => List.mem_permutations.mpr ha
  rw [eA, eB, Set.ncard_prod, Set.ncard_prod, Set.ncard_singleton, Set.ncard_pair (by decide)] at this
  omega

end KMedoids
