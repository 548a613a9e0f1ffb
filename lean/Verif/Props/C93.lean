import Verif.Proofs.SilRun
import Verif.Proofs.AltRun
import Verif.Props.C39_C43

/-!
# C93: PAMSIL is a steepest ascent for the silhouette, including ties and the panic

Exact arithmetic, zero diagonal, no negative distances; the matrix need not be symmetric. The runs are those in
which to repeat a medoid never pays (`Tame`), in particular those in which object 0 is never a medoid; in other
runs the code may repeat a medoid, see C42.
-/

set_option linter.unusedSectionVars false

namespace KMedoids

open RFrom (conv)

section exact
variable {N L : Type} [LinearOrder N] [Zero N] [RDist N] [LawfulDist N]
variable [Field L] [LinearOrder L] [IsStrictOrderedRing L] [RLoss L] [LawfulField L]
variable [RFrom N L] [LawfulFrom N L]

/-- Average silhouette of the clusters of `med`. -/
def clusterSil (L : Type) [Field L] [LinearOrder L] [RFrom N L] (n : Nat) (d : Nat → Nat → N) (med : List Nat) : L :=
  mean (silList (conv : N → L) d ((List.range n).map (nearLabel d med)))

theorem silM_clusterSil {mat : Mat N} {n : Nat} {d : Nat → Nat → N} (hm : IsMatrix mat n d) (hd : Dissim n d)
    {med : List Nat} (hv : ValidMeds n med) (hnd : med.Nodup) : silM L d n med = clusterSil L n d med := by
  have hn : 0 < n := lt_of_lt_of_le hv.sizes.pos hv.sizes.le
  have hl := nearAssiP_length d n med
  have h := (C24_silhouette (L := L) hm hd.nonneg (le_of_eq hl) hv.sizes.n_le
    (List.ne_nil_of_length_pos (by omega)) (nearAssiP_noGap hd hv hnd)).2
  rw [silhouette_eq (L := L) hm (le_of_eq hl)] at h
  injection h with h
  unfold silM clusterSil
  rw [h, nearAssiP_nearLabel hd hv hnd]

theorem valid_of {n k : Nat} (hs : Sizes n k) {c : List Nat} (hk : c.length = k) (hr : ∀ m ∈ c, m < n) : ValidMeds n c :=
  ⟨hk ▸ hs, hr⟩

/-- The SWAP phase from any labels. -/
theorem pamsilOptP_run {mat : Mat N} {n : Nat} {d : Nat → Nat → N} (hm : IsMatrix mat n d) (hd : Dissim n d)
    {med assi : List Nat} (hv : ValidMeds n med) (hnd : med.Nodup) (hk : 2 ≤ med.length) (hl : assi.length = n)
    (hlab : ∀ a ∈ assi, a < med.length) (maxiter : Nat)
    (ht : Tame (clusterSil L n d) (SilOf L mat) n maxiter (silhouetteP L d assi false).1 med) :
    pamsilOptP L d n med assi maxiter =
      match silRun (clusterSil L n d) n maxiter (silhouetteP L d assi false).1 med with
      | some r => .ok ⟨r.2.1, (List.range n).map (nearLabel d r.1), r.2.2.1, r.2.2.2, r.1⟩
      | none => .error .index := by
  have hS : ∀ c : List Nat, c.length = med.length → (∀ m ∈ c, m < n) → c.Nodup → clusterSil L n d c = silM L d n c :=
    fun c h1 h2 h3 => (silM_clusterSil hm hd (valid_of hv.sizes h1 h2) h3).symm
  have ht' := Tame_congr (S' := silM L d n) (R' := fun l s => s = silM L d n l) hS
    (fun c s h1 h2 h => (silOf_iff hm (valid_of hv.sizes h1 h2)).mpr h) rfl hv.range hnd ht
  have hrun := psLoopP_run (iter := 0) (nSwaps := 0) hd hv hnd rfl hl hlab ht'
  rw [← silRun_congr hS _ _ rfl hv.range hnd] at hrun
  unfold pamsilOptP
  rw [if_neg (by omega), hrun]
  cases he : silRun (clusterSil L n d) n maxiter (silhouetteP L d assi false).1 med with
  | none => rfl
  | some r =>
    obtain ⟨h1, h2, h3⟩ := silRun_valid rfl hv.range hnd he
    simp only [ok_bind, Nat.zero_add]
    rw [nearAssiP_nearLabel hd (valid_of hv.sizes h1 h2) h3]

/-- **C93, pamsil_swap.** It returns exactly what the steepest ascent for the silhouette gives, and panics exactly
if this reaches medoids with a negative silhouette without any exchange that has a positive one. -/
theorem C93_pamsil_swap {mat : Mat N} {n : Nat} {d : Nat → Nat → N} (hm : IsMatrix mat n d) (hd : Dissim n d)
    {med : List Nat} (hv : ValidMeds n med) (hnd : med.Nodup) (hk : 2 ≤ med.length) (maxiter : Nat)
    (ht : Tame (clusterSil L n d) (SilOf L mat) n maxiter (clusterSil L n d med) med) :
    pamsilSwap L mat med maxiter =
      match silRun (clusterSil L n d) n maxiter (clusterSil L n d med) med with
      | some r => .ok ⟨r.2.1, (List.range n).map (nearLabel d r.1), r.2.2.1, r.2.2.2, r.1⟩
      | none => .error .index := by
  have e : (silhouetteP L d (nearAssiP d n med) false).1 = clusterSil L n d med := silM_clusterSil hm hd hv hnd
  rw [pamsilSwap_eq hm hv, ← e]
  rw [← e] at ht
  exact pamsilOptP_run hm hd hv hnd hk (nearAssiP_length d n med) (nearAssiP_label d hv.sizes.pos) maxiter ht

/-- **C93, object 0 is never a medoid.** No other condition is needed then. -/
theorem C93_pamsil_swap_zero {mat : Mat N} {n : Nat} {d : Nat → Nat → N} (hm : IsMatrix mat n d) (hd : Dissim n d)
    {med : List Nat} (hv : ValidMeds n med) (hnd : med.Nodup) (hk : 2 ≤ med.length) (maxiter : Nat)
    (h0 : ∀ i < maxiter, ∀ r, silRun (clusterSil L n d) n i (clusterSil L n d med) med = some r → 0 ∉ r.1) :
    pamsilSwap L mat med maxiter =
      match silRun (clusterSil L n d) n maxiter (clusterSil L n d med) med with
      | some r => .ok ⟨r.2.1, (List.range n).map (nearLabel d r.1), r.2.2.1, r.2.2.2, r.1⟩
      | none => .error .index :=
  C93_pamsil_swap hm hd hv hnd hk maxiter (Tame_of_zero _ h0)

/-- **C93, pamsil.** The steepest ascent from the medoids of PAM BUILD, which starts with silhouette 0. It never panics. -/
theorem C93_pamsil {mat : Mat N} {n k : Nat} {d : Nat → Nat → N} (hm : IsMatrix mat n d) (hd : Dissim n d)
    (hs : Sizes n k) (hk : 2 ≤ k) {b : BuildResult L} (hb : pamBuild L mat k = .ok b) (hbk : b.med.length = k)
    (maxiter : Nat) (ht : Tame (clusterSil L n d) (SilOf L mat) n maxiter 0 b.med) :
    ∃ r, silRun (clusterSil L n d) n maxiter 0 b.med = some r ∧
      pamsil L mat k maxiter = .ok ⟨r.2.1, (List.range n).map (nearLabel d r.1), r.2.2.1, r.2.2.2, r.1⟩ := by
  have hn : 0 < n := by have := hs.pos; have := hs.le; omega
  obtain ⟨-, -, hnd, -⟩ := C19_pam_build hm hd hs hb
  have hok := C41_pamsil (L := L) hm hd hs maxiter
  rw [pamBuild_eq hm hs] at hb
  cases hb
  obtain ⟨meds, -, hv, hl, e, he⟩ := pamsil_run (L := L) hm hd hs maxiter
  have e' : meds = (pamBuildP L d n k).med := by
    rw [e]; simp only [pamBuildP] at hbk ⊢; rw [hbk]; simp
  subst e'
  have hz := silhouetteP_zeros (L := L) d hn
  have hr := pamsilOptP_run hm hd hv hnd (by omega) (assi := List.replicate n 0) (by simp)
    (fun a ha => by rw [List.eq_of_mem_replicate ha]; omega) maxiter (by rw [hz]; exact ht)
  rw [hz] at hr
  rw [he, hr] at hok
  rw [he, hr]
  cases hc : silRun (clusterSil L n d) n maxiter 0 (pamBuildP L d n k).med with
  | none =>
    rw [hc] at hok
    obtain ⟨r, h, -⟩ := hok
    cases h
  | some r => exact ⟨r, rfl, rfl⟩

/-- **C93, distinct medoids** (compare C42). -/
theorem C93_distinct {mat : Mat N} {n : Nat} {d : Nat → Nat → N} (hm : IsMatrix mat n d) (hd : Dissim n d)
    {med : List Nat} (hv : ValidMeds n med) (hnd : med.Nodup) (hk : 2 ≤ med.length) (maxiter : Nat)
    (ht : Tame (clusterSil L n d) (SilOf L mat) n maxiter (clusterSil L n d med) med) {r : SwapResult L}
    (hr : pamsilSwap L mat med maxiter = .ok r) : r.med.Nodup := by
  rw [C93_pamsil_swap hm hd hv hnd hk maxiter ht] at hr
  cases he : silRun (clusterSil L n d) n maxiter (clusterSil L n d med) med with
  | none => rw [he] at hr; cases hr
  | some q =>
    rw [he] at hr
    cases hr
    exact (silRun_valid rfl hv.range hnd he).2.2

end exact

/-! ## Examples -/

/-- Six objects. -/
def silRunRows : List (List ℕ) :=
  [[0, 3, 2, 1, 1, 2], [3, 0, 3, 1, 4, 4], [2, 3, 0, 2, 1, 2], [1, 1, 2, 0, 3, 4], [1, 4, 1, 3, 0, 4],
    [2, 4, 2, 4, 4, 0]]

theorem silRunRows_isMatrix : IsMatrix (ofRows silRunRows : Mat ℕ) 6 (rowsD silRunRows) :=
  ⟨rfl, rfl, fun x y hx hy => by
    have : ∀ x < 6, ∀ y < 6, (ofRows silRunRows : Mat ℕ).get x y = .ok (rowsD silRunRows x y) := by decide +kernel
    exact this x hx y hy⟩

/-- A run with two swaps; object 0 is never a medoid. -/
example : IsMatrix (ofRows silRunRows : Mat ℕ) 6 (rowsD silRunRows) ∧ Dissim 6 (rowsD silRunRows) ∧ ValidMeds 6 [3, 4] ∧
    (∀ i < 9, ∀ r, silRun (clusterSil ℚ 6 (rowsD silRunRows)) 6 i (clusterSil ℚ 6 (rowsD silRunRows) [3, 4]) [3, 4] = some r →
      0 ∉ r.1) ∧
    silRun (clusterSil ℚ 6 (rowsD silRunRows)) 6 9 (clusterSil ℚ 6 (rowsD silRunRows) [3, 4]) [3, 4] =
      some ([1, 2], 541 / 1260, 3, 2) ∧
    pamsilSwap ℚ (ofRows silRunRows : Mat ℕ) [3, 4] 9 = .ok ⟨541 / 1260, [1, 0, 1, 0, 1, 1], 3, 2, [1, 2]⟩ :=
  ⟨silRunRows_isMatrix, ⟨by decide +kernel, fun _ _ _ _ => Nat.zero_le _⟩,
    ⟨⟨by decide, by decide, by decide, by decide⟩, by decide⟩, fun i hi r hr => by
      have : ∀ i ∈ List.range 9, ∀ r ∈ silRun (clusterSil ℚ 6 (rowsD silRunRows)) 6 i
        (clusterSil ℚ 6 (rowsD silRunRows) [3, 4]) [3, 4], 0 ∉ r.1 := by decide +kernel
      exact this i (List.mem_range.mpr hi) r hr, by decide +kernel, by decide +kernel⟩

/-- Four objects, three medoids: the panic is part of the description. -/
def silRunRows' : List (List ℕ) := [[0, 6, 3, 5], [6, 0, 1, 1], [3, 1, 0, 1], [5, 1, 1, 0]]

example : silRun (clusterSil ℚ 4 (rowsD silRunRows')) 4 9 (clusterSil ℚ 4 (rowsD silRunRows') [1, 2, 3]) [1, 2, 3] = none ∧
    pamsilSwap ℚ (ofRows silRunRows' : Mat ℕ) [1, 2, 3] 9 = .error .index :=
  ⟨by decide +kernel, by decide +kernel⟩

/-- PAM BUILD, then three swaps; object 0 is never a medoid. -/
def silRunRows2 : List (List ℕ) :=
  [[0, 2, 2, 4, 6, 4], [2, 0, 1, 4, 1, 3], [2, 1, 0, 3, 2, 6], [4, 4, 3, 0, 3, 5], [6, 1, 2, 3, 0, 3],
    [4, 3, 6, 5, 3, 0]]

example : (pamBuild ℚ (ofRows silRunRows2 : Mat ℕ) 2).toOption.map (·.med) = some [1, 3] ∧
    Tame (clusterSil ℚ 6 (rowsD silRunRows2)) (SilOf ℚ (ofRows silRunRows2 : Mat ℕ)) 6 9 0 [1, 3] ∧
    silRun (clusterSil ℚ 6 (rowsD silRunRows2)) 6 9 0 [1, 3] = some ([4, 1], 76561 / 288288, 4, 3) ∧
    pamsil ℚ (ofRows silRunRows2 : Mat ℕ) 2 9 = .ok ⟨76561 / 288288, [1, 1, 1, 0, 0, 0], 4, 3, [4, 1]⟩ :=
  ⟨by decide +kernel, Tame_of_zero _ fun i hi r hr => by
      have : ∀ i ∈ List.range 9, ∀ r ∈ silRun (clusterSil ℚ 6 (rowsD silRunRows2)) 6 i 0 [1, 3], 0 ∉ r.1 := by
        decide +kernel
      exact this i (List.mem_range.mpr hi) r hr, by decide +kernel, by decide +kernel⟩

end KMedoids
