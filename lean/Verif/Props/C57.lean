import Verif.Proofs.SilHom
import Verif.Proofs.Basic
import Verif.Props.C45

/-!
# C57: scale invariance and independence of the number type, silhouette family

Sums of distances are mapped by `g`, quotients of them by `h`. Then the medoids, the assignment, the counters and
the panics of FasterMSC, FastMSC, PAMMEDSIL, DynMSC and PAMSIL do not change and the loss is mapped by `h`; for a
single medoid, where the loss is a sum of distances (C35), by `g`. Nothing is assumed about the arithmetic
itself, the matrix, the medoids or the assignment.

Multiplying all distances by a positive constant is the case where `h` is the identity: silhouettes do not depend
on the unit of measurement.
-/

set_option linter.unusedSectionVars false
set_option linter.overlappingInstances false

namespace KMedoids

open RFrom (conv)
open SilHom (pick)

variable {N N' L L' : Type} [RDist N] [RDist N'] [RLoss L] [RLoss L'] [RFrom N L] [RFrom N' L']

/-- Two silhouettes that correspond; the same panic if they panic. -/
def SameSil (h : L → L') : Res (L × List L) → Res (L' × List L') → Prop
  | .ok r, .ok r' => r'.1 = h r.1 ∧ r'.2 = r.2.map h
  | .error e, .error e' => e = e'
  | _, _ => False

/-- As `SameSwap`, for DynMSC. -/
def SameDyn (g : L → L') : Res (DynResult L) → Res (DynResult L') → Prop
  | .ok r, .ok r' => r'.med = r.med ∧ r'.assi = r.assi ∧ r'.nIter = r.nIter ∧ r'.nSwap = r.nSwap ∧
      r'.loss = g r.loss ∧ r'.losses = r.losses.map g
  | .error e, .error e' => e = e'
  | _, _ => False

/-- As `SameSwap`; which of the two maps applies depends on the number of medoids returned. -/
def SameByCount (g h : L → L') : Res (SwapResult L) → Res (SwapResult L') → Prop
  | .ok r, .ok r' => r'.med = r.med ∧ r'.assi = r.assi ∧ r'.nIter = r.nIter ∧ r'.nSwap = r.nSwap ∧
      r'.loss = if r.med.length = 1 then g r.loss else h r.loss
  | .error e, .error e' => e = e'
  | _, _ => False

variable {f : N → N'} {g h : L → L'}

/-- The silhouette of an assignment, with or without samples. -/
theorem C57_silhouette (H : SilHom f g h) (mat : Mat N) (assi : List Nat) (samples : Bool) :
    SameSil h (silhouette L mat assi samples) (silhouette L' (mat.map f) assi samples) := by
  rw [H.silhouette_hom]
  cases silhouette L mat assi samples with
  | error e => exact rfl
  | ok r => exact ⟨rfl, rfl⟩

theorem C57_par_silhouette (H : SilHom f g h) (mat : Mat N) (assi : List Nat) :
    parSilhouette L' (mat.map f) assi = (parSilhouette L mat assi).map h := by
  rw [H.parSilhouette_hom]
  cases parSilhouette L mat assi <;> rfl

theorem C57_medoid_silhouette (H : SilHom f g h) (mat : Mat N) (meds : List Nat) (samples : Bool) :
    SameSil h (medoidSilhouette L mat meds samples) (medoidSilhouette L' (mat.map f) meds samples) := by
  rw [H.medoidSilhouette_hom]
  cases medoidSilhouette L mat meds samples with
  | error e => exact rfl
  | ok r => exact ⟨rfl, rfl⟩

theorem C57_fastermsc (H : SilHom f g h) (mat : Mat N) (med : List Nat) (maxiter : Nat) :
    SameSwap (if med.length = 1 then g else h) (fastermsc L mat med maxiter)
      (fastermsc L' (mat.map f) med maxiter) :=
  sameSwap_of _ (H.fastermsc_hom mat med maxiter)

theorem C57_fastmsc (H : SilHom f g h) (mat : Mat N) (med : List Nat) (maxiter : Nat) :
    SameSwap (if med.length = 1 then g else h) (fastmsc L mat med maxiter)
      (fastmsc L' (mat.map f) med maxiter) :=
  sameSwap_of _ (H.fastmsc_hom mat med maxiter)

theorem C57_pammedsil_swap (H : SilHom f g h) (mat : Mat N) (med : List Nat) (maxiter : Nat) :
    SameSwap (if med.length = 1 then g else h) (pammedsilSwap L mat med maxiter)
      (pammedsilSwap L' (mat.map f) med maxiter) :=
  sameSwap_of _ (H.pammedsilSwap_hom mat med maxiter)

theorem C57_dynmsc (H : SilHom f g h) (mat : Mat N) (med : List Nat) (mink maxiter : Nat) :
    SameDyn (if med.length = 1 then g else h) (dynmsc L mat med mink maxiter)
      (dynmsc L' (mat.map f) med mink maxiter) := by
  rw [H.dynmsc_hom]
  cases dynmsc L mat med mink maxiter with
  | error e => exact rfl
  | ok r => exact ⟨rfl, rfl, rfl, rfl, rfl, rfl⟩

theorem C57_pamsil_swap (H : SilHom f g h) (mat : Mat N) (med : List Nat) (maxiter : Nat) :
    SameSwap (if med.length = 1 then g else h) (pamsilSwap L mat med maxiter)
      (pamsilSwap L' (mat.map f) med maxiter) :=
  sameSwap_of _ (H.pamsilSwap_hom mat med maxiter)

theorem C57_pamsil (H : SilHom f g h) (mat : Mat N) (k maxiter : Nat) :
    SameSwap (if k = 1 then g else h) (pamsil L mat k maxiter) (pamsil L' (mat.map f) k maxiter) :=
  sameSwap_of _ (H.pamsil_hom mat k maxiter)

/-! ### pammedsil, where BUILD may find fewer than `k` medoids -/

theorem setIdx_length {α : Type} {l l' : List α} {i : Nat} {v : α} (h : setIdx l i v = .ok l') :
    l'.length = l.length := by
  unfold setIdx at h
  split at h
  · cases h
    exact List.length_set
  · cases h

theorem mscDoSwap_length {mat : Mat N} {med : List Nat} {data : List (Reco N)} {b j : Nat}
    {r : L × List Nat × List (Reco N)} (h : mscDoSwap L mat med data b j = .ok r) :
    r.2.1.length = med.length := by
  unfold mscDoSwap at h
  obtain ⟨_, _, h⟩ := bind_eq_ok.mp h
  obtain ⟨_, _, h⟩ := bind_eq_ok.mp h
  obtain ⟨m, hm, h⟩ := bind_eq_ok.mp h
  obtain ⟨_, _, h⟩ := bind_eq_ok.mp h
  obtain ⟨_, _, h⟩ := bind_eq_ok.mp h
  cases h
  exact setIdx_length hm

theorem pmsLoop_length {mat : Mat N} {k fuel iter : Nat} {s : MPState N L} {r : MPState N L × Nat}
    (h : pmsLoop mat k fuel iter s = .ok r) : r.1.med.length = s.med.length := by
  induction fuel generalizing iter s with
  | zero => cases h; rfl
  | succ fuel ih =>
    unfold pmsLoop at h
    obtain ⟨best, _, h⟩ := bind_eq_ok.mp h
    split at h
    · obtain ⟨⟨l, m, q⟩, hq, h⟩ := bind_eq_ok.mp h
      dsimp only at h
      split at h
      · cases h
        exact mscDoSwap_length hq
      · rw [ih h]
        exact mscDoSwap_length hq
    · cases h
      rfl

theorem pammedsilOptimize_length {mat : Mat N} {med : List Nat} {data : List (Reco N)} {maxiter : Nat} {loss : L}
    {r : SwapResult L} (h : pammedsilOptimize mat med data maxiter loss = .ok r) :
    r.med.length = med.length := by
  unfold pammedsilOptimize at h
  split at h
  · unfold singleCluster at h
    obtain ⟨q, hq, h⟩ := bind_eq_ok.mp h
    cases h
    unfold chooseMedoidWithinPartition at hq
    obtain ⟨_, _, hq⟩ := bind_eq_ok.mp hq
    obtain ⟨_, _, hq⟩ := bind_eq_ok.mp hq
    obtain ⟨_, _, hq⟩ := bind_eq_ok.mp hq
    obtain ⟨m, hm, hq⟩ := bind_eq_ok.mp hq
    cases hq
    exact setIdx_length hm
  · obtain ⟨q, hq, h⟩ := bind_eq_ok.mp h
    cases h
    exact pmsLoop_length hq

theorem C57_pammedsil (H : SilHom f g h) (mat : Mat N) (k maxiter : Nat) :
    SameByCount g h (pammedsil L mat k maxiter) (pammedsil L' (mat.map f) k maxiter) := by
  rw [H.pammedsil_hom]
  unfold pammedsil
  cases assertSizes mat k with
  | error e => exact rfl
  | ok _ =>
    rw [ok_bind, ok_bind]
    cases pammedsilBuildInitialize L mat k with
    | error e => exact rfl
    | ok b =>
      obtain ⟨meds, data, loss⟩ := b
      rw [ok_bind, ok_bind]
      dsimp only
      cases ho : pammedsilOptimize mat meds data maxiter loss with
      | error e => exact rfl
      | ok r =>
        refine ⟨rfl, rfl, rfl, rfl, ?_⟩
        rw [pammedsilOptimize_length ho]
        simp only [SwapResult.map, pick]
        split <;> rfl

/-! ## which maps qualify -/

/-- Multiplication of all distances by a positive constant, in an exact field used for distances and losses; the
silhouettes do not change. The result of a division by zero is arbitrary, except that it may not depend on the
scale either (`0/0`, `1/0` and `-1/0` may differ, as for floats). -/
theorem C57_scale {R : Type} [Field R] [LinearOrder R] [IsStrictOrderedRing R] [RDist R] [LawfulDist R]
    [RLoss R] [LawfulField R] [RFrom R R] (hconv : ∀ x : R, (conv x : R) = x)
    (hadd : ∀ x y : R, RDist.add x y = x + y) {c : R} (hc : 0 < c)
    (hdiv0 : ∀ x : R, RLoss.div (c * x) 0 = RLoss.div x 0) :
    SilHom (fun x : R => c * x) (fun l : R => c * l) id :=
  { C45_scale hconv hc with
    distIsZero := fun x => by
      rw [LawfulDist.isZero_eq, LawfulDist.isZero_eq]
      simp [hc.ne']
    distAdd := fun x y => by simp only [hadd, mul_add]
    ratCmp := fun _ _ => rfl
    ratZero := rfl
    ratOne := rfl
    ratU32 := fun _ => rfl
    ratAdd := fun _ _ => rfl
    ratSub := fun _ _ => rfl
    ratDiv := fun x y => by
      by_cases hy : y = 0
      · subst hy
        simp only [id_eq, mul_zero, hdiv0]
      · simp only [id_eq]
        rw [LawfulField.div_eq _ _ hy, LawfulField.div_eq _ _ (mul_ne_zero hc.ne' hy),
          mul_div_mul_left _ _ hc.ne']
    ratMean := fun _ _ => rfl
    distMean := fun x m hm => by
      have hm0 : (m : R) ≠ 0 := by
        rintro h0
        rw [LawfulField.ofU32_eq, h0, LawfulLoss.zero_eq, rgt, LawfulLoss.pcmp_eq,
          compare_eq_iff_eq.mpr rfl] at hm
        exact absurd hm (by decide)
      rw [LawfulField.ofU32_eq]
      simp only [LawfulField.div_eq _ _ hm0, mul_div_assoc] }

/-- Natural numbers and rational numbers as distances give the same result. -/
theorem C57_nat_rat : SilHom (fun x : ℕ => (x : ℚ)) (id : ℚ → ℚ) id :=
  { C45_embedding (N := ℕ) (N' := ℚ) (f := fun x => (x : ℚ)) (g := AddMonoidHom.id ℚ)
      (fun _ _ h => Nat.cast_lt.mpr h) Nat.cast_zero (fun _ _ h => h) (fun _ => rfl) with
    distIsZero := fun x => by
      rw [LawfulDist.isZero_eq, LawfulDist.isZero_eq]
      simp
    distAdd := fun x y => Nat.cast_add x y
    ratCmp := fun _ _ => rfl
    ratZero := rfl
    ratOne := rfl
    ratU32 := fun _ => rfl
    ratAdd := fun _ _ => rfl
    ratSub := fun _ _ => rfl
    ratDiv := fun _ _ => rfl
    ratMean := fun _ _ => rfl
    distMean := fun _ _ _ => rfl }

/-- Rationals: all distances times 7/2. -/
theorem C57_scale_rat : SilHom (fun x : ℚ => 7 / 2 * x) (fun l : ℚ => 7 / 2 * l) id :=
  C57_scale (fun _ => rfl) (fun _ _ => rfl) (by norm_num) (fun x => by
    change _ / _ = _ / _
    rw [div_zero, div_zero])

/-- Instances in which something happens: the results with all distances times 7/2 are those of `Verif/Tests`
and of the unscaled matrix. -/
example : fastermsc ℚ (exMatQ.map (7 / 2 * ·)) [0, 1, 2] 10 =
      .ok ⟨14 / 15, [1, 1, 1, 0, 0, 2], 2, 3, [4, 1, 5]⟩ ∧
    fastermsc ℚ exMatQ [0, 1, 2] 10 = .ok ⟨14 / 15, [1, 1, 1, 0, 0, 2], 2, 3, [4, 1, 5]⟩ ∧
    pamsilSwap ℚ (exMatQ.map (7 / 2 * ·)) [0, 1, 2] 10 =
      .ok ⟨11453 / 16632, [2, 2, 2, 0, 0, 1], 3, 2, [3, 5, 2]⟩ ∧
    dynmsc ℚ (exMatQ.map (7 / 2 * ·)) [0, 1, 2] 1 10 =
      .ok ⟨14 / 15, [1, 1, 1, 0, 0, 2], 4, 4, [4, 1, 5], [0, 13 / 15, 14 / 15]⟩ := by
  decide +kernel

end KMedoids
