import Verif.Examples
import Verif.Proofs.ParAny
import Verif.Proofs.PmsBuild
import Verif.Proofs.PureDyn
import Verif.Proofs.PurePamSil
import Verif.Proofs.MedSil
import Verif.Proofs.Sil
import Verif.Props.C01_C03

/-!
# C44: results do not depend on the storage of the matrix

Two adapters that present the same `n × n` matrix (they may differ outside the range of valid indexes, and in
how they compute their answers) give the same result in every function. Any arithmetic; `SaneZero` (`0 < 0` is
false) where the code relies on it.
-/

set_option linter.unusedSectionVars false

namespace KMedoids

open RFrom (conv)

variable {N L : Type} [RDist N] [RLoss L] [RFrom N L]

/-! ## fastmsc with two medoids, which may panic -/

theorem k2DoSwap_notFound {mat : Mat N} {n : Nat} {d : Nat → Nat → N} (hm : IsMatrix mat n d)
    {s : K2State N L} (hs : K2Shape n s) {b j : Nat} (h : ¬ (b < 2 ∧ j < n)) :
    k2DoSwap L mat s.med s.assi s.data b j =
      .error (.assertion (if b < 2 then "invalid object number" else "invalid medoid number")) := by
  unfold k2DoSwap
  rw [hs.medLen, hm.len]
  by_cases hb : b < 2
  · have hj : ¬ j < n := fun hj => h ⟨hb, hj⟩
    simp only [hb, hj, decide_true, decide_false, rassert, if_true, if_false, ok_bind, Bool.false_eq_true]
    rfl
  · simp only [hb, decide_false, rassert, if_false, Bool.false_eq_true]
    rfl

theorem fastmscK2Loop_congr {mat mat' : Mat N} {n : Nat} {d : Nat → Nat → N} (hm : IsMatrix mat n d)
    (hm' : IsMatrix mat' n d) (fuel iter : Nat) {s : K2State N L} (hs : K2Shape n s) :
    fastmscK2Loop mat 2 fuel iter s = fastmscK2Loop mat' 2 fuel iter s := by
  induction fuel generalizing iter s with
  | zero => rfl
  | succ fuel ih =>
    unfold fastmscK2Loop
    simp only [fastmscK2Scan_eq (L := L) hm hs, fastmscK2Scan_eq (L := L) hm' hs, ok_bind]
    by_cases hc : rlt (fastmscK2ScanP d n 2 s).1 s.loss = true
    · simp only [hc, Bool.not_true, Bool.false_eq_true, if_false]
      by_cases hf : (fastmscK2ScanP d n 2 s).2.1 < 2 ∧ (fastmscK2ScanP d n 2 s).2.2 < n
      · obtain ⟨h1, h2⟩ := k2DoSwap_eq (L := L) hm hs hf.1 hf.2 s.lastswap
        have h1' := (k2DoSwap_eq (L := L) hm' hs hf.1 hf.2 s.lastswap).1
        simp only [h1, h1', ok_bind]
        split
        · rfl
        · exact ih _ h2
      · rw [k2DoSwap_notFound hm hs hf, k2DoSwap_notFound hm' hs hf]; rfl
    · simp only [hc, Bool.not_false, if_true]

theorem fastmscK2_congr {mat mat' : Mat N} {n m0 m1 : Nat} {d : Nat → Nat → N} (hm : IsMatrix mat n d)
    (hm' : IsMatrix mat' n d) (hn : n ≤ u32Max) (h0 : m0 < n) (h1 : m1 < n) (maxiter : Nat) :
    fastmscK2 L mat [m0, m1] maxiter = fastmscK2 L mat' [m0, m1] maxiter := by
  have hsh := k2InitP_shape (L := L) d h0 h1 0
  simp only [fastmscK2, List.length_cons, List.length_nil, Nat.zero_add, Nat.reduceAdd,
    beq_self_eq_true, rassert_true, ok_bind, k2InitialAssignment_eq (L := L) hm hn h0 h1 0,
    k2InitialAssignment_eq (L := L) hm' hn h0 h1 0, hm.len, hm'.len]
  rw [show (⟨[m0, m1], (k2InitP L d n m0 m1 0).assi, (k2InitP L d n m0 m1 0).data,
    (k2InitP L d n m0 m1 0).loss, 0, 0⟩ : K2State N L) = k2InitP L d n m0 m1 0 from rfl,
    fastmscK2Loop_congr hm hm' maxiter 0 hsh]

/-! ## C44 -/

variable {mat mat' : Mat N} {n : Nat} {d : Nat → Nat → N}

/-- **C44**, functions of the PAM family, any arithmetic. -/
theorem C44_rand_fasterpam (hm : IsMatrix mat n d) (hm' : IsMatrix mat' n d) {med : List Nat}
    (hv : ValidMeds n med) (maxiter : Nat) {seq : List Nat} (hseq : ∀ j ∈ seq, j < n) :
    randFasterpam L mat med maxiter seq = randFasterpam L mat' med maxiter seq :=
  (randFasterpam_eq hm hv maxiter hseq).trans (randFasterpam_eq hm' hv maxiter hseq).symm

theorem C44_fasterpam (hm : IsMatrix mat n d) (hm' : IsMatrix mat' n d) {med : List Nat}
    (hv : ValidMeds n med) (maxiter : Nat) : fasterpam L mat med maxiter = fasterpam L mat' med maxiter := by
  rw [fasterpam_eq_rand, fasterpam_eq_rand, hm.len, hm'.len]
  exact C44_rand_fasterpam hm hm' hv maxiter fun j hj => List.mem_range.mp hj

/-- **C44**, for the same schedule. -/
theorem C44_par_fasterpam (hm : IsMatrix mat n d) (hm' : IsMatrix mat' n d) {med : List Nat}
    (hv : ValidMeds n med) (sc0 : Sched) (scF scS : Nat → Nat → Sched) (maxiter : Nat) {seq : List Nat}
    (hseq : ∀ j ∈ seq, j < n) :
    parFasterpam L sc0 scF scS mat med maxiter seq = parFasterpam L sc0 scF scS mat' med maxiter seq :=
  (parFasterpam_any sc0 scF scS hm hv maxiter hseq).1.trans
    (parFasterpam_any sc0 scF scS hm' hv maxiter hseq).1.symm

theorem C44_pam_swap [SaneZero L] (hm : IsMatrix mat n d) (hm' : IsMatrix mat' n d) {med : List Nat}
    (hv : ValidMeds n med) (maxiter : Nat) : pamSwap L mat med maxiter = pamSwap L mat' med maxiter :=
  (pamSwap_eq hm hv maxiter).trans (pamSwap_eq hm' hv maxiter).symm

theorem C44_fastpam1 [SaneZero L] (hm : IsMatrix mat n d) (hm' : IsMatrix mat' n d) {med : List Nat}
    (hv : ValidMeds n med) (maxiter : Nat) : fastpam1 L mat med maxiter = fastpam1 L mat' med maxiter :=
  (fastpam1_eq hm hv maxiter).trans (fastpam1_eq hm' hv maxiter).symm

theorem C44_pam_build (hm : IsMatrix mat n d) (hm' : IsMatrix mat' n d) {k : Nat} (hs : Sizes n k) :
    pamBuild L mat k = pamBuild L mat' k :=
  (pamBuild_eq hm hs).trans (pamBuild_eq hm' hs).symm

theorem C44_pam [SaneZero L] (hm : IsMatrix mat n d) (hm' : IsMatrix mat' n d) {k : Nat} (hs : Sizes n k)
    (maxiter : Nat) : pam L mat k maxiter = pam L mat' k maxiter :=
  (pam_eq hm hs maxiter).trans (pam_eq hm' hs maxiter).symm

theorem C44_alternating (hm : IsMatrix mat n d) (hm' : IsMatrix mat' n d) {med : List Nat}
    (hv : ValidMeds n med) (maxiter : Nat) :
    alternating L mat med maxiter = alternating L mat' med maxiter ∧
    assignNearest L mat med = assignNearest L mat' med :=
  ⟨(alternating_eq hm hv maxiter).1.trans (alternating_eq hm' hv maxiter).1.symm,
    (assignNearest_eq hm hv).trans (assignNearest_eq hm' hv).symm⟩

/-- **C44**, evaluation functions; `assi` may be any labels. -/
theorem C44_silhouette (hm : IsMatrix mat n d) (hm' : IsMatrix mat' n d) {assi : List Nat}
    (hl : assi.length ≤ n) (samples : Bool) :
    silhouette L mat assi samples = silhouette L mat' assi samples ∧
    parSilhouette L mat assi = parSilhouette L mat' assi :=
  ⟨(silhouette_eq hm hl samples).trans (silhouette_eq hm' hl samples).symm,
    (parSilhouette_eq hm hl).trans (parSilhouette_eq hm' hl).symm⟩

theorem C44_medoid_silhouette (hm : IsMatrix mat n d) (hm' : IsMatrix mat' n d) {med : List Nat}
    (hv : ValidMeds n med) (samples : Bool) :
    medoidSilhouette L mat med samples = medoidSilhouette L mat' med samples :=
  (medoidSilhouette_eq hm hv samples).trans (medoidSilhouette_eq hm' hv samples).symm

/-- **C44**, functions of the medoid silhouette family. -/
theorem C44_fastermsc (hm : IsMatrix mat n d) (hm' : IsMatrix mat' n d) {med : List Nat}
    (hv : ValidMeds n med) (maxiter : Nat) : fastermsc L mat med maxiter = fastermsc L mat' med maxiter :=
  (fastermsc_eq hm hv maxiter).trans (fastermsc_eq hm' hv maxiter).symm

/-- Also when it panics (two medoids of two objects). -/
theorem C44_fastmsc [SaneZero L] (hm : IsMatrix mat n d) (hm' : IsMatrix mat' n d) {med : List Nat}
    (hv : ValidMeds n med) (maxiter : Nat) : fastmsc L mat med maxiter = fastmsc L mat' med maxiter := by
  by_cases h2 : med.length = 2
  · obtain ⟨m0, m1, rfl⟩ := List.length_eq_two.mp h2
    simp only [fastmsc, List.length_cons, List.length_nil, Nat.zero_add, Nat.reduceAdd, if_true,
      fastmscK2_congr (L := L) hm hm' hv.sizes.n_le (hv.range m0 (by simp)) (hv.range m1 (by simp)) maxiter]
    rfl
  · exact (fastmsc_eq_ne2 hm hv h2 maxiter).trans (fastmsc_eq_ne2 hm' hv h2 maxiter).symm

theorem C44_pammedsil_swap [SaneZero L] (hm : IsMatrix mat n d) (hm' : IsMatrix mat' n d) {med : List Nat}
    (hv : ValidMeds n med) (maxiter : Nat) :
    pammedsilSwap L mat med maxiter = pammedsilSwap L mat' med maxiter :=
  (pammedsilSwap_eq hm hv maxiter).trans (pammedsilSwap_eq hm' hv maxiter).symm

theorem C44_pammedsil [SaneZero L] (hm : IsMatrix mat n d) (hm' : IsMatrix mat' n d) {k : Nat}
    (hs : Sizes n k) (maxiter : Nat) : pammedsil L mat k maxiter = pammedsil L mat' k maxiter :=
  (pammedsil_eq hm hs maxiter).trans (pammedsil_eq hm' hs maxiter).symm

theorem C44_pamsil_swap (hm : IsMatrix mat n d) (hm' : IsMatrix mat' n d) {med : List Nat}
    (hv : ValidMeds n med) (maxiter : Nat) : pamsilSwap L mat med maxiter = pamsilSwap L mat' med maxiter :=
  (pamsilSwap_eq hm hv maxiter).trans (pamsilSwap_eq hm' hv maxiter).symm

theorem C44_pamsil (hm : IsMatrix mat n d) (hm' : IsMatrix mat' n d) {k : Nat} (hs : Sizes n k)
    (maxiter : Nat) : pamsil L mat k maxiter = pamsil L mat' k maxiter :=
  (pamsil_eq hm hs maxiter).trans (pamsil_eq hm' hs maxiter).symm

theorem C44_dynmsc (hm : IsMatrix mat n d) (hm' : IsMatrix mat' n d) {med : List Nat}
    (hv : ValidMeds n med) (mink maxiter : Nat) :
    dynmsc L mat med mink maxiter = dynmsc L mat' med mink maxiter := by
  by_cases h1 : med.length = 1
  · obtain ⟨c, rfl⟩ := List.length_eq_one_iff.mp h1
    have hc := hv.range c (by simp)
    exact (dynmsc_single hm hc mink maxiter).trans (dynmsc_single hm' hc mink maxiter).symm
  · have hk : 2 ≤ med.length := by have := hv.sizes.pos; omega
    exact (dynmsc_eq hm hv hk mink maxiter).trans (dynmsc_eq hm' hv hk mink maxiter).symm

/-- **C44, the two adapters of the crate.** A symmetric matrix with zero diagonal may be stored packed or in
full: both adapters present it, so that the theorems above apply to them. -/
theorem C44_adapters (hn : 1 ≤ n) (hs : Symm n d) (hz : ∀ x, x < n → d x x = RDist.zero) :
    IsMatrix (⟨n, packLower n d⟩ : LowerTriangle N).toMat n d ∧ IsMatrix (⟨n, n, d⟩ : Array2 N).toMat n d :=
  ⟨C02_round_trip n hn d hs hz, rfl, by simp [Array2.toMat], fun x y hx hy => by simp [Array2.toMat, hx, hy]⟩

/-- The running example in both storages; the functions return (and swap), in both. -/
example : Symm 6 exD ∧ (∀ x, x < 6 → exD x x = RDist.zero) ∧ ValidMeds 6 [0, 1, 2] ∧
    fasterpam ℤ (⟨6, packLower 6 exD⟩ : LowerTriangle ℕ).toMat [0, 1, 2] 9 =
      .ok ⟨2, [1, 1, 1, 0, 0, 2], 2, 3, [4, 1, 5]⟩ ∧
    fasterpam ℤ (⟨6, 6, exD⟩ : Array2 ℕ).toMat [0, 1, 2] 9 = .ok ⟨2, [1, 1, 1, 0, 0, 2], 2, 3, [4, 1, 5]⟩ :=
  ⟨exD_symm, fun x hx => exD_dissim.diag x hx, ex_valid (by decide) (by decide) (by decide),
    by decide +kernel, by decide +kernel⟩

end KMedoids
