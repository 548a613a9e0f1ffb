import Verif.Proofs.RndMono
import Verif.Proofs.RoundTerm
import Verif.Props.C52
import Verif.Props.C55
import Verif.Props.C56
import Verif.Props.C59
import Verif.Props.C71

/-!
# C72: the optimisers end by themselves, whatever the rounding

The loops of FasterPAM (also the parallel version), PAM, FastPAM1, FasterMSC, FastMSC, PAMMEDSIL and PAMSIL go on only if
the loss computed for the current medoids became strictly smaller. This loss is a function of the medoids, so no set of
medoids comes back. Of the arithmetic only this is assumed: there is a linear order such that `a >= b` fails for two
losses only if `a` is smaller (IEEE 754 without NaN). The alternating algorithm has no such test: with `f64` it can run
forever on a symmetric matrix with the triangle inequality, where exact arithmetic converges (C55).

One medoid is one iteration (C10).
-/

set_option linter.unusedSectionVars false
set_option linter.overlappingInstances false

namespace KMedoids

variable {N L K : Type} [LinearOrder N] [Zero N] [RDist N] [LawfulDist N] [RLoss L] [RFrom N L] [LinearOrder K]
open RFrom (conv)

variable {key : L → K} {good : L → Prop}

/-! ## FasterPAM -/

/-- **C72, rand_fasterpam**, for every visiting order. -/
theorem C72_rand_fasterpam (ho : OrdersBy key good) (hz : (conv (0 : N) : L) = RLoss.zero) {mat : Mat N} {n : Nat}
    {d : Nat → Nat → N} (hm : IsMatrix mat n d) (hd : Dissim n d) {med : List Nat} (hv : ValidMeds n med)
    (hnd : med.Nodup) (hk : 2 ≤ med.length) (hg : ∀ a, IsSel n med.length a → good (leftSum (devs L n d a)))
    (maxiter : Nat) {seq : List Nat} (hseq : ∀ j ∈ seq, j < n) (hlen : seq.length = n) {r : SwapResult L}
    (hr : randFasterpam L mat med maxiter seq = .ok r) :
    r.nIter ≤ Nat.choose n med.length ∧ r.nSwap ≤ n * Nat.choose n med.length := by
  have hsw := (C10_rand_fasterpam hm hv hk maxiter hseq hlen hr).swap
  rw [randFasterpam_eq hm hv maxiter hseq, fpP_many d n hk] at hr
  cases hr
  have h := fpInitP_ok (L := L) hd hv hk hnd
  obtain ⟨c, e, h1, h2⟩ := fpLoopP_rounds ho hz hd (by omega) hseq hg (fuel := maxiter) (iter := 0) h
    (nearLossP_leftSum h.cache)
  have hc := h1.count_perm (fun x y hp => by rw [devs_perm hp]) h.sel
  dsimp only at hsw ⊢
  have hit : (fpLoopP d seq maxiter 0 (fpInitP L d n med)).2 ≤ Nat.choose n med.length := by omega
  exact ⟨hit, hsw.trans (Nat.mul_le_mul_left n hit)⟩

/-- **C72, fasterpam.** -/
theorem C72_fasterpam (ho : OrdersBy key good) (hz : (conv (0 : N) : L) = RLoss.zero) {mat : Mat N} {n : Nat}
    {d : Nat → Nat → N} (hm : IsMatrix mat n d) (hd : Dissim n d) {med : List Nat} (hv : ValidMeds n med)
    (hnd : med.Nodup) (hk : 2 ≤ med.length) (hg : ∀ a, IsSel n med.length a → good (leftSum (devs L n d a)))
    (maxiter : Nat) {r : SwapResult L} (hr : fasterpam L mat med maxiter = .ok r) :
    r.nIter ≤ Nat.choose n med.length ∧ r.nSwap ≤ n * Nat.choose n med.length := by
  rw [fasterpam_eq_rand, hm.len] at hr
  exact C72_rand_fasterpam ho hz hm hd hv hnd hk hg maxiter (fun j hj => List.mem_range.mp hj) (by simp) hr

/-- **C72, par_fasterpam**, for every visiting order and every schedule. Different bracketings of one sum can have different
values, of which there are at most `catalan (n - 1)`. -/
theorem C72_par_fasterpam (ho : OrdersBy key good) (hz : (conv (0 : N) : L) = RLoss.zero) (sc0 : Sched)
    (scF scS : Nat → Nat → Sched) {mat : Mat N} {n : Nat}
    {d : Nat → Nat → N} (hm : IsMatrix mat n d) (hd : Dissim n d) {med : List Nat} (hv : ValidMeds n med)
    (hnd : med.Nodup) (hk : 2 ≤ med.length)
    (hg : ∀ a, IsSel n med.length a → ∀ v, BracketSum (devs L n d a) v → good v)
    (maxiter : Nat) {seq : List Nat} (hseq : ∀ j ∈ seq, j < n) (hlen : seq.length = n) {r : SwapResult L}
    (hr : parFasterpam L sc0 scF scS mat med maxiter seq = .ok r) :
    r.nIter ≤ catalan (n - 1) * Nat.choose n med.length ∧
      r.nSwap ≤ n * (catalan (n - 1) * Nat.choose n med.length) := by
  have hsw := (C52_counters sc0 scF scS hm hv hk maxiter hseq hlen hr).swap
  obtain ⟨h1, -, h3⟩ := parFasterpam_any (L := L) sc0 scF scS hm hv maxiter hseq
  rw [h1, h3 hk] at hr; cases hr
  have h := parInitP_ok (L := L) sc0 hd hv hk hnd
  obtain ⟨t, ht, hl⟩ := bracketSum_shape (h.loss hz)
  have ht' : t.numLeaves = n := by rw [ht]; simp [devs]
  obtain ⟨c, e, g1, g2⟩ := parLoopP_rounds ho hz scF scS hd (by omega) hseq hg (fuel := maxiter) (iter := 0) h ht' hl.symm
  have hc := Descent.count_shape (T := fun t a => key (shapeSum t (devs L n d a))) (fun t x y hp => by rw [devs_perm hp]) g1 ⟨ht', h.toFPOk.sel⟩
  dsimp only at hsw ⊢
  have hit : (parLoopP scF scS d n seq maxiter 0 (parInitP L sc0 d n med)).2 ≤
      catalan (n - 1) * Nat.choose n med.length := by omega
  exact ⟨hit, hsw.trans (Nat.mul_le_mul_left n hit)⟩

/-! ## PAM and FastPAM1 -/

theorem pOptP_rounds (ho : OrdersBy key good) (hz : (conv (0 : N) : L) = RLoss.zero) {n : Nat}
    {d : Nat → Nat → N} (hd : Dissim n d) {med : List Nat} (hv : ValidMeds n med)
    (hnd : med.Nodup) (hk : 2 ≤ med.length) (hg : ∀ a, IsSel n med.length a → good (leftSum (devs L n d a)))
    (maxiter : Nat) (scan : Nat → Nat → List Nat → List (Rec N) → L × Nat × Nat)
    (hscan : ScanSound n med.length d (scan n med.length)) :
    (pOptP d n scan med (initDataP d n med) maxiter (nearLossP L (initDataP d n med))).nIter ≤
      Nat.choose n med.length := by
  have hc := initDataP_ok hd hk hv hnd
  rw [pOptP_many d n _ hk]
  obtain ⟨c, e, h1, h2⟩ := pLoopP_rounds ho hz hd hscan hg (fuel := maxiter) (iter := 0)
    (s := ⟨med, initDataP d n med, nearLossP L (initDataP d n med), 0⟩) hc rfl (nearLossP_leftSum hc)
  have := h1.count_perm (fun x y hp => by rw [devs_perm hp]) ⟨rfl, hnd, hv.range⟩
  simp only [pResultP]
  omega

/-- **C72, pam_swap.** -/
theorem C72_pam_swap [SaneZero L] (ho : OrdersBy key good) (hz : (conv (0 : N) : L) = RLoss.zero) {mat : Mat N} {n : Nat}
    {d : Nat → Nat → N} (hm : IsMatrix mat n d) (hd : Dissim n d) {med : List Nat} (hv : ValidMeds n med)
    (hnd : med.Nodup) (hk : 2 ≤ med.length) (hg : ∀ a, IsSel n med.length a → good (leftSum (devs L n d a)))
    (maxiter : Nat) {r : SwapResult L} (hr : pamSwap L mat med maxiter = .ok r) :
    r.nIter ≤ Nat.choose n med.length ∧ r.nSwap ≤ Nat.choose n med.length := by
  have hsw := (C10_pam_swap hm hv hk maxiter hr).swap
  rw [pamSwap_eq hm hv maxiter] at hr; cases hr
  have := pOptP_rounds ho hz hd hv hnd hk hg maxiter _ (pamScanP_sound n med.length d)
  exact ⟨this, by rw [one_mul] at hsw; exact hsw.trans this⟩

/-- **C72, fastpam1.** -/
theorem C72_fastpam1 [SaneZero L] (ho : OrdersBy key good) (hz : (conv (0 : N) : L) = RLoss.zero) {mat : Mat N} {n : Nat}
    {d : Nat → Nat → N} (hm : IsMatrix mat n d) (hd : Dissim n d) {med : List Nat} (hv : ValidMeds n med)
    (hnd : med.Nodup) (hk : 2 ≤ med.length) (hg : ∀ a, IsSel n med.length a → good (leftSum (devs L n d a)))
    (maxiter : Nat) {r : SwapResult L} (hr : fastpam1 L mat med maxiter = .ok r) :
    r.nIter ≤ Nat.choose n med.length ∧ r.nSwap ≤ Nat.choose n med.length := by
  have hsw := (C10_fastpam1 hm hv hk maxiter hr).swap
  rw [fastpam1_eq hm hv maxiter] at hr; cases hr
  have := pOptP_rounds ho hz hd hv hnd hk hg maxiter _ (fastScanP_sound (n := n) (k := med.length) hv.sizes.pos d)
  exact ⟨this, by rw [one_mul] at hsw; exact hsw.trans this⟩

/-- **C72, pam**, with the medoids of BUILD (`C71_pam_eq`: adding zero changes nothing). -/
theorem C72_pam [SaneZero L] (ho : OrdersBy key good) (hn : NegZero N L) (hz : (conv (0 : N) : L) = RLoss.zero)
    {mat : Mat N} {n k : Nat} {d : Nat → Nat → N} {P : L → Prop} (ha : AddZero n d P) (hm : IsMatrix mat n d)
    (hd : Dissim n d) (hs : Sizes n k) {b : BuildResult L} (hb : pamBuild L mat k = .ok b) (hk : 2 ≤ b.med.length)
    (hg : ∀ a, IsSel n b.med.length a → good (leftSum (devs L n d a))) (maxiter : Nat) {r : SwapResult L}
    (hr : pam L mat k maxiter = .ok r) :
    r.nIter ≤ Nat.choose n b.med.length ∧ r.nSwap ≤ Nat.choose n b.med.length := by
  rw [(C71_pam_eq hn hz ha hm hd hs maxiter hb).1] at hr
  rw [pamBuild_eq hm hs] at hb; cases hb
  obtain ⟨hv, hnd, -⟩ := buildP_valid' hn hd hs
  exact C72_pam_swap ho hz hm hd hv hnd hk hg maxiter hr

/-! ## the medoid silhouette -/

/-- **C72, fastermsc.** For two medoids with monotone arithmetic (NaN allowed), or without duplicates, as in C59. -/
theorem C72_fastermsc (ho : OrdersBy key good) {mat : Mat N} {n : Nat} {d : Nat → Nat → N} (hm : IsMatrix mat n d)
    (hd : Dissim n d) {med : List Nat} (hv : ValidMeds n med) (hnd : med.Nodup) (hk : 2 ≤ med.length)
    (hM : 3 ≤ med.length ∨ MonoQuot N L ∨ NoDuplicates n d)
    (hg : ∀ a, IsSel n med.length a → good (leftSum (silTerms L n d a))) (maxiter : Nat) {r : SwapResult L}
    (hr : fastermsc L mat med maxiter = .ok r) : r.nIter ≤ Nat.choose n med.length := by
  rw [fastermsc_eq hm hv] at hr; cases hr
  by_cases h2 : med.length = 2
  · obtain ⟨m0, m1, rfl⟩ := List.length_eq_two.mp h2
    obtain ⟨c, e, h1, h3⟩ := k2LoopP_rounds (L := L) ho hd (by simpa using hM) (hv.range m0 (by simp))
      (hv.range m1 (by simp)) (by simpa using hnd) hg maxiter
    have hc := h1.count_perm (fun x y hp => by rw [silTerms_perm hp]) ⟨rfl, hnd, hv.range⟩
    show (k2LoopP d n maxiter 0 (k2InitP L d n m0 m1 n)).2 ≤ Nat.choose n 2
    omega
  · rw [fastermscP_many d n (by omega)]
    obtain ⟨c, e, h1, h3⟩ := mscLoopP_rounds (L := L) ho hd hv hnd hk hg maxiter
    have hc := h1.count_perm (fun x y hp => by rw [silTerms_perm hp]) ⟨rfl, hnd, hv.range⟩
    show (mscLoopP d n maxiter 0 (mscInitP L d n med)).2 ≤ _
    omega

/-- **C72, fastmsc.** Two medoids on two objects are excluded (C29). -/
theorem C72_fastmsc [SaneZero L] (ho : OrdersBy key good) {mat : Mat N} {n : Nat} {d : Nat → Nat → N}
    (hm : IsMatrix mat n d) (hd : Dissim n d) {med : List Nat} (hv : ValidMeds n med) (hnd : med.Nodup)
    (hk : 2 ≤ med.length) (hn2 : ¬ (med.length = 2 ∧ n = 2)) (hM : 3 ≤ med.length ∨ MonoQuot N L ∨ NoDuplicates n d)
    (hg : ∀ a, IsSel n med.length a → good (leftSum (silTerms L n d a))) (maxiter : Nat) {r : SwapResult L}
    (hr : fastmsc L mat med maxiter = .ok r) : r.nIter ≤ Nat.choose n med.length := by
  have hle := hv.sizes.le
  by_cases h2 : med.length = 2
  · obtain ⟨m0, m1, rfl⟩ := List.length_eq_two.mp h2
    have g0 := hv.range m0 (by simp)
    have g1 := hv.range m1 (by simp)
    rw [fastmsc_eq_2 (fastmscK2_eq3 (L := L) hm hv.sizes.n_le (by omega) g0 g1 maxiter).1] at hr
    cases hr
    obtain ⟨c, e, h1, h3⟩ := fastmscK2Loop_rounds (L := L) ho hd hv.sizes.n_le (fastmscK2_ok hv.sizes.n_le (by omega))
      (by simpa using hM) g0 g1 (by simpa using hnd) hg maxiter
    have hc := h1.count_perm (fun x y hp => by rw [silTerms_perm hp]) ⟨rfl, hnd, hv.range⟩
    show (loopB (fastmscK2StepP d n 2) maxiter 0 (k2InitP L d n m0 m1 0)).2 ≤ Nat.choose n 2
    omega
  · rw [fastmsc_eq_ne2 hm hv h2, fastmscP_many d n (by omega)] at hr; cases hr
    obtain ⟨c, e, h1, h3⟩ := mpLoop_rounds (L := L) ho hd hv hnd hk (fastmscScanP_sound n (by omega) d) hg maxiter
    have hc := h1.count_perm (fun x y hp => by rw [silTerms_perm hp]) ⟨rfl, hnd, hv.range⟩
    show (loopB (mpStepP d (fastmscScanP d n med.length)) maxiter 0 (mpInitP L d n med)).2 ≤ _
    omega

/-- **C72, pammedsil_swap.** -/
theorem C72_pammedsil_swap [SaneZero L] (ho : OrdersBy key good) {mat : Mat N} {n : Nat} {d : Nat → Nat → N}
    (hm : IsMatrix mat n d) (hd : Dissim n d) {med : List Nat} (hv : ValidMeds n med) (hnd : med.Nodup)
    (hk : 2 ≤ med.length) (hg : ∀ a, IsSel n med.length a → good (leftSum (silTerms L n d a))) (maxiter : Nat)
    {r : SwapResult L} (hr : pammedsilSwap L mat med maxiter = .ok r) : r.nIter ≤ Nat.choose n med.length := by
  rw [pammedsilSwap_eq hm hv] at hr
  cases hr
  rw [pammedsilSwapP, pmsOptP_many d n (s := mpInitP L d n med) hk]
  obtain ⟨c, e, h1, h3⟩ := mpLoop_rounds (L := L) ho hd hv hnd hk (pmsScanP_sound n med.length d) hg maxiter
  have hc := h1.count_perm (fun x y hp => by rw [silTerms_perm hp]) ⟨rfl, hnd, hv.range⟩
  show (loopB (mpStepP d (pmsScanP d n med.length)) maxiter 0 (mpInitP L d n med)).2 ≤ _
  omega

/-! ## PAMSIL -/

/-- **C72, pamsil_swap and pamsil.** Medoids may coincide (C42), and the order of the medoids matters here; the matrix is
arbitrary. -/
theorem C72_pamsil_swap (ho : OrdersByLe key good) {mat : Mat N} {n : Nat} {d : Nat → Nat → N} (hm : IsMatrix mat n d)
    {med : List Nat} (hv : ValidMeds n med) (hk : 2 ≤ med.length)
    (hg : ∀ a : List Nat, a.length = med.length → (∀ m ∈ a, m < n) → good (silM L d n a)) (maxiter : Nat)
    {r : SwapResult L} (hr : pamsilSwap L mat med maxiter = .ok r) :
    r.nSwap < n ^ med.length ∧ r.nIter ≤ n ^ med.length := by
  rw [pamsilSwap_eq hm hv] at hr
  obtain ⟨h1, -⟩ := pamsilOptP_loop hk hr
  obtain ⟨c, g1, g2, g3⟩ := psLoopP_rounds ho hg hv rfl rfl h1
  have hc := g1.count_list ⟨rfl, hv.range⟩
  dsimp only at g2 g3
  omega

theorem C72_pamsil (ho : OrdersByLe key good) {mat : Mat N} {n k : Nat} {d : Nat → Nat → N} (hm : IsMatrix mat n d)
    (hs : Sizes n k) (hk : 2 ≤ k)
    (hg : ∀ a : List Nat, a.length = k → (∀ m ∈ a, m < n) → good (silM L d n a)) (maxiter : Nat)
    {r : SwapResult L} (hr : pamsil L mat k maxiter = .ok r) : r.nSwap ≤ n ^ k ∧ r.nIter ≤ n ^ k + 1 := by
  rw [pamsil_eq hm hs] at hr
  cases hb : psBuildP L d n k with
  | error e => rw [hb] at hr; cases hr
  | ok med =>
    rw [hb, ok_bind] at hr
    obtain ⟨hv, hlen⟩ := psBuildP_valid hs hb
    obtain ⟨h1, -⟩ := pamsilOptP_loop (by omega) hr
    obtain ⟨g1, g2⟩ := psLoopP_rounds' ho (hlen ▸ hg) hv rfl h1
    rw [hlen] at g1 g2
    dsimp only at g1 g2
    omega

/-! ## IEEE 754 -/

/-- The order of the numbers and infinities. -/
def Ieee.rank {F : Fmt} : Ieee F → WithBot (WithTop ℚ)
  | .num q => ((q : WithTop ℚ) : WithBot (WithTop ℚ))
  | .inf => ((⊤ : WithTop ℚ) : WithBot (WithTop ℚ))
  | .negInf => ⊥
  | .nan => ⊥

def Ieee.NotNan {F : Fmt} (x : Ieee F) : Prop := x ≠ .nan

theorem ieee_ordersBy (F : Fmt) : OrdersBy (Ieee.rank (F := F)) Ieee.NotNan := by
  intro a b ha hb h
  cases a <;> cases b <;> simp [Ieee.NotNan] at ha hb <;>
    simp [rge, pcmp, RPartialOrd.pcmp, Ieee.cmp, Ieee.rank] at h ⊢
  · rename_i p q
    rcases lt_trichotomy p q with h' | h' | h'
    · exact h'
    · simp [h'] at h
    · simp [compare_gt_iff_gt.mpr h'] at h
  · exact WithBot.coe_lt_coe.mpr (WithTop.coe_lt_top _)

theorem ieee_ordersByLe (F : Fmt) : OrdersByLe (Ieee.rank (F := F)) Ieee.NotNan := by
  intro a b ha hb h
  cases a <;> cases b <;> simp [Ieee.NotNan] at ha hb <;>
    simp [rle, pcmp, RPartialOrd.pcmp, Ieee.cmp, Ieee.rank] at h ⊢
  · rename_i p q
    rcases lt_trichotomy p q with h' | h' | h'
    · simp [compare_lt_iff_lt.mpr h'] at h
    · simp [h'] at h
    · exact h'
  · exact WithBot.coe_lt_coe.mpr (WithTop.coe_lt_top _)

/-- Nonnegative numbers and infinity. -/
def Ieee.Pos {F : Fmt} : Ieee F → Prop
  | .num q => 0 ≤ q
  | .inf => True
  | _ => False

theorem Ieee.Pos.notNan {F : Fmt} {x : Ieee F} (h : x.Pos) : x.NotNan := by
  rintro rfl; exact h

theorem rnd_nonneg (F : Fmt) {x : ℚ} (h : 0 ≤ x) : 0 ≤ F.rnd x := by
  have hr : ∀ r : ℚ, 0 ≤ r → 0 ≤ roundEven r := fun r hr => by
    have := Int.floor_nonneg.mpr hr
    unfold roundEven
    dsimp only
    split_ifs <;> omega
  have hp : (0 : ℚ) < 2 ^ F.quantum x := zpow_pos two_pos _
  exact mul_nonneg (by exact_mod_cast hr _ (div_nonneg h hp.le)) hp.le

theorem ofExact_pos (F : Fmt) {x : ℚ} (h : 0 ≤ x) : (Ieee.ofExact F x).Pos := by
  have := rnd_nonneg F h
  have hp : (0 : ℚ) < 2 ^ F.emax := zpow_pos two_pos _
  unfold Ieee.ofExact
  split
  · trivial
  · rw [if_neg (by linarith)]; exact this

theorem ieee_add_pos {F : Fmt} {a b : Ieee F} (ha : a.Pos) (hb : b.Pos) : (RLoss.add a b).Pos := by
  cases a <;> cases b <;> try trivial
  exact ofExact_pos F (add_nonneg ha hb)

theorem leftSum_pos {F : Fmt} {xs : List (Ieee F)} (h : ∀ x ∈ xs, x.Pos) : (leftSum xs).Pos := by
  cases xs with
  | nil => exact le_refl (0 : ℚ)
  | cons x xs =>
    show (List.foldl RLoss.add x xs).Pos
    induction xs using List.reverseRecOn with
    | nil => exact h x (by simp)
    | append_singleton xs y ih =>
      rw [List.foldl_append, List.foldl_cons, List.foldl_nil]
      exact ieee_add_pos (ih fun z hz => h z (by simp at hz ⊢; tauto)) (h y (by simp))

theorem bracketSum_pos {F : Fmt} {xs : List (Ieee F)} {v : Ieee F} (hv : BracketSum xs v) (h : ∀ x ∈ xs, x.Pos) :
    v.Pos := by
  induction hv with
  | one x => exact h x (by simp)
  | join _ _ ih ih' =>
    exact ieee_add_pos (ih fun x hx => h x (by simp [hx])) (ih' fun x hx => h x (by simp [hx]))

/-- Distances become numbers, in the same order, and positive ones become positive. -/
def ConvNum (N : Type) (F : Fmt) [LinearOrder N] [Zero N] [RFrom N (Ieee F)] : Prop :=
  ∃ f : N → ℚ, (∀ x, (conv x : Ieee F) = .num (f x)) ∧ f 0 = 0 ∧ (∀ x y, x ≤ y → f x ≤ f y) ∧ ∀ x, 0 < x → 0 < f x

/-- Distances and losses of the same format. -/
theorem convNum_same (F : Fmt) : ConvNum (Finite F) F := ⟨(·.q), fun _ => rfl, rfl, fun _ _ h => h, fun _ h => h⟩

section ieee
variable {N : Type} [LinearOrder N] [Zero N] [RDist N] [LawfulDist N] {F : Fmt} [RFrom N (Ieee F)]

theorem ConvNum.zero (H : ConvNum N F) : (conv (0 : N) : Ieee F) = RLoss.zero := by
  obtain ⟨f, h1, h2, -, -⟩ := H
  rw [h1, h2]
  rfl

theorem ConvNum.pos (H : ConvNum N F) {x : N} (hx : 0 ≤ x) : (conv x : Ieee F).Pos := by
  obtain ⟨f, h1, h2, h3, -⟩ := H
  rw [h1]
  have := h3 0 x hx
  rw [h2] at this
  exact this

theorem ConvNum.div_pos (H : ConvNum N F) {x y : N} (hx : 0 < x) (hy : 0 ≤ y) : (RLoss.div (conv x : Ieee F) (conv y)).Pos := by
  obtain ⟨f, h1, h2, h3, h4⟩ := H
  have hfx := h4 x hx
  have hfy := h3 0 y hy
  rw [h2] at hfy
  rw [h1, h1]
  show (Ieee.div (.num (f x)) (.num (f y))).Pos
  unfold Ieee.div
  dsimp only
  split
  · unfold Ieee.infOf
    rw [if_neg hfx.ne', if_neg (not_lt.mpr hfx.le)]
    trivial
  · exact ofExact_pos F (div_nonneg hfx.le hfy)

theorem Ieee.Pos.rank {x : Ieee F} (h : x.Pos) : (.num 0 : Ieee F).rank ≤ x.rank := by
  cases x with
  | num q => exact WithBot.coe_le_coe.mpr (WithTop.coe_le_coe.mpr h)
  | inf => exact WithBot.coe_le_coe.mpr le_top
  | negInf => exact h.elim
  | nan => exact h.elim

theorem Ieee.rank_le_inf (x : Ieee F) : x.rank ≤ (.inf : Ieee F).rank := by
  cases x with
  | num q => exact WithBot.coe_le_coe.mpr le_top
  | inf => exact le_rfl
  | negInf => exact bot_le
  | nan => exact bot_le

theorem Ieee.rank_ofExact {x y : ℚ} (h : x ≤ y) : (Ieee.ofExact F x).rank ≤ (Ieee.ofExact F y).rank := by
  have hm := F.rnd_mono h
  have hp : (0 : ℚ) < 2 ^ F.emax := zpow_pos two_pos _
  unfold Ieee.ofExact
  by_cases h1 : 2 ^ F.emax ≤ F.rnd y
  · rw [if_pos h1]
    exact Ieee.rank_le_inf _
  · rw [if_neg h1, if_neg (fun h' => h1 (le_trans h' hm))]
    by_cases h2 : F.rnd x ≤ -2 ^ F.emax
    · rw [if_pos h2]
      exact bot_le
    · rw [if_neg h2, if_neg (fun h' => h2 (hm.trans h'))]
      exact WithBot.coe_le_coe.mpr (WithTop.coe_le_coe.mpr hm)

/-- Rounding to nearest is monotone, also with overflow. -/
theorem monoQuot_ieee (H : ConvNum N F) : MonoQuot N (Ieee F) := by
  have hz : (RLoss.zero : Ieee F) = .num 0 := rfl
  have hdiv : ∀ a b : N, 0 < a → a ≤ b → ∃ q, q ≤ 1 ∧ 0 ≤ q ∧ (RLoss.div (conv a : Ieee F) (conv b)) = .ofExact F q ∧
      (a = b → q = 1) := by
    obtain ⟨f, h1, h2, h3, h4⟩ := H
    intro a b ha hab
    have hfa := h4 a ha
    have hfb := hfa.trans_le (h3 a b hab)
    refine ⟨f a / f b, (div_le_one hfb).mpr (h3 a b hab), div_nonneg hfa.le hfb.le, ?_, fun e => by rw [e, div_self hfb.ne']⟩
    rw [h1, h1]
    show Ieee.div (.num (f a)) (.num (f b)) = _
    unfold Ieee.div
    dsimp only
    rw [if_neg hfb.ne']
  refine ⟨fun a b => b = .nan ∨ a.Pos ∧ b.Pos ∧ a.rank ≤ b.rank, ?_, ?_, ?_, ?_, ?_⟩
  · rintro a b (rfl | ⟨ha, hb, h⟩)
    · cases a <;> rfl
    · cases a <;> cases b <;> first | exact ha.elim | exact hb.elim | skip
      · rename_i p q
        have h : p ≤ q := WithTop.coe_le_coe.mp (WithBot.coe_le_coe.mp h)
        simp only [rlt, pcmp, RPartialOrd.pcmp, Ieee.cmp]
        rcases h.lt_or_eq with h | h
        · simp [compare_gt_iff_gt.mpr h]
        · simp [h]
      · rfl
      · rename_i p
        have h := WithBot.coe_le_coe.mp h
        exact absurd h (not_le.mpr (WithTop.coe_lt_top _))
      · rfl
  · exact .inr ⟨le_refl (0 : ℚ), le_refl (0 : ℚ), le_rfl⟩
  · rintro a a' b b' (rfl | ⟨h1, h2, h3⟩) (rfl | ⟨h4, h5, h6⟩)
    · exact .inl rfl
    · exact .inl (by cases b' <;> rfl)
    · exact .inl (by cases a' <;> rfl)
    · refine .inr ⟨ieee_add_pos h1 h4, ieee_add_pos h2 h5, ?_⟩
      cases a' with
      | negInf => exact h2.elim
      | nan => exact h2.elim
      | inf => cases b' <;> first | exact h5.elim | exact Ieee.rank_le_inf _
      | num p' =>
        cases b' with
        | negInf => exact h5.elim
        | nan => exact h5.elim
        | inf => exact Ieee.rank_le_inf _
        | num q' =>
          cases a with
          | negInf => exact h1.elim
          | nan => exact h1.elim
          | inf => exact absurd (WithBot.coe_le_coe.mp h3) (not_le.mpr (WithTop.coe_lt_top _))
          | num p =>
            cases b with
            | negInf => exact h4.elim
            | nan => exact h4.elim
            | inf => exact absurd (WithBot.coe_le_coe.mp h6) (not_le.mpr (WithTop.coe_lt_top _))
            | num q =>
              exact Ieee.rank_ofExact (add_le_add (WithTop.coe_le_coe.mp (WithBot.coe_le_coe.mp h3))
                (WithTop.coe_le_coe.mp (WithBot.coe_le_coe.mp h6)))
  · intro c hc
    obtain ⟨q, -, hq, e, -⟩ := hdiv c c hc le_rfl
    have := ofExact_pos F hq
    rw [e, hz]
    exact .inr ⟨le_refl (0 : ℚ), this, this.rank⟩
  · intro a b c ha hab hc
    have hc0 : 0 < c := by rcases hc with rfl | rfl; exact ha; exact lt_of_lt_of_le ha hab
    obtain ⟨q, h1, h0, e, -⟩ := hdiv a b ha hab
    obtain ⟨t, -, -, e', ht⟩ := hdiv c c hc0 le_rfl
    rw [e, e', ht rfl]
    exact .inr ⟨ofExact_pos F h0, ofExact_pos F zero_le_one, Ieee.rank_ofExact h1⟩

theorem devs_pos (H : ConvNum N F) {n : Nat} {d : Nat → Nat → N} (hd : Dissim n d) {k : Nat} (hk : 1 ≤ k) {a : List Nat}
    (ha : IsSel n k a) : ∀ x ∈ devs (Ieee F) n d a, x.Pos := fun x hx => by
  obtain ⟨o, ho, rfl⟩ := List.mem_map.mp hx
  obtain ⟨c, hc, h⟩ := (minDist_spec d o a (List.ne_nil_of_length_pos (by rw [ha.1]; omega))).1
  rw [h]
  exact H.pos (hd.nonneg o c (List.mem_range.mp ho) (ha.2.2 c hc))

theorem silTerms_pos (H : ConvNum N F) {n : Nat} {d : Nat → Nat → N} (hd : Dissim n d) {k : Nat} {a : List Nat}
    (ha : IsSel n k a) : ∀ x ∈ silTerms (Ieee F) n d a, x.Pos := fun x hx => by
  obtain ⟨o, ho, rfl⟩ := List.mem_map.mp hx
  unfold silTerm
  split
  · rename_i p q rest hs
    split
    · exact le_refl (0 : ℚ)
    · rename_i hp
      have hmem : ∀ y ∈ sortedDist d o a, 0 ≤ y := fun y hy => by
        unfold sortedDist at hy
        obtain ⟨m, hm, rfl⟩ := List.mem_map.mp ((List.perm_insertionSort _ _).mem_iff.mp hy)
        exact hd.nonneg o m (List.mem_range.mp ho) (ha.2.2 m hm)
      exact H.div_pos (lt_of_le_of_ne (hmem p (by rw [hs]; simp)) (Ne.symm hp)) (hmem q (by rw [hs]; simp))
  · exact le_refl (0 : ℚ)

/-- **C72, floating point**: for finite nonnegative distances, overflow allowed, nothing else is needed. -/
theorem C72_ieee (H : ConvNum N F) (sc0 : Sched) (scF scS : Nat → Nat → Sched) {mat : Mat N} {n : Nat}
    {d : Nat → Nat → N} (hm : IsMatrix mat n d) (hd : Dissim n d) {med : List Nat} (hv : ValidMeds n med)
    (hnd : med.Nodup) (hk : 2 ≤ med.length) (maxiter : Nat) {seq : List Nat} (hseq : ∀ j ∈ seq, j < n)
    (hlen : seq.length = n) {r : SwapResult (Ieee F)} :
    (randFasterpam (Ieee F) mat med maxiter seq = .ok r → r.nIter ≤ Nat.choose n med.length) ∧
    (fasterpam (Ieee F) mat med maxiter = .ok r → r.nIter ≤ Nat.choose n med.length) ∧
    (pamSwap (Ieee F) mat med maxiter = .ok r → r.nIter ≤ Nat.choose n med.length) ∧
    (fastpam1 (Ieee F) mat med maxiter = .ok r → r.nIter ≤ Nat.choose n med.length) ∧
    (parFasterpam (Ieee F) sc0 scF scS mat med maxiter seq = .ok r →
      r.nIter ≤ catalan (n - 1) * Nat.choose n med.length) ∧
    (pammedsilSwap (Ieee F) mat med maxiter = .ok r → r.nIter ≤ Nat.choose n med.length) ∧
    (fastermsc (Ieee F) mat med maxiter = .ok r → r.nIter ≤ Nat.choose n med.length) ∧
    (¬ (med.length = 2 ∧ n = 2) → fastmsc (Ieee F) mat med maxiter = .ok r → r.nIter ≤ Nat.choose n med.length) := by
  have hz := H.zero
  have ho := ieee_ordersBy F
  have hM : 3 ≤ med.length ∨ MonoQuot N (Ieee F) ∨ NoDuplicates n d := .inr (.inl (monoQuot_ieee H))
  have : SaneZero (Ieee F) := inferInstance
  have g1 : ∀ a, IsSel n med.length a → (leftSum (devs (Ieee F) n d a)).NotNan :=
    fun a ha => (leftSum_pos (devs_pos H hd (by omega) ha)).notNan
  have g2 : ∀ a, IsSel n med.length a → (leftSum (silTerms (Ieee F) n d a)).NotNan :=
    fun a ha => (leftSum_pos (silTerms_pos H hd ha)).notNan
  have g3 : ∀ a, IsSel n med.length a → ∀ v, BracketSum (devs (Ieee F) n d a) v → v.NotNan :=
    fun a ha v hv => (bracketSum_pos hv (devs_pos H hd (by omega) ha)).notNan
  exact ⟨fun hr => (C72_rand_fasterpam ho hz hm hd hv hnd hk g1 maxiter hseq hlen hr).1,
    fun hr => (C72_fasterpam ho hz hm hd hv hnd hk g1 maxiter hr).1,
    fun hr => (C72_pam_swap ho hz hm hd hv hnd hk g1 maxiter hr).1,
    fun hr => (C72_fastpam1 ho hz hm hd hv hnd hk g1 maxiter hr).1,
    fun hr => (C72_par_fasterpam ho hz sc0 scF scS hm hd hv hnd hk g3 maxiter hseq hlen hr).1,
    fun hr => C72_pammedsil_swap ho hm hd hv hnd hk g2 maxiter hr,
    fun hr => C72_fastermsc ho hm hd hv hnd hk hM g2 maxiter hr,
    fun h2 hr => C72_fastmsc ho hm hd hv hnd hk h2 hM g2 maxiter hr⟩

end ieee

/-! ## alternating need not end -/

def spinRows : List (List ℕ) :=
  [[0, 1, 2, 3, 3, 1], [1, 0, 3, 2, 2, 2], [2, 3, 0, 1, 1, 0], [3, 2, 1, 0, 3, 2], [3, 2, 1, 3, 0, 3], [1, 2, 0, 2, 3, 0]]

/-- Six objects, the distances of different objects are `1 + c 2⁻⁵²`. -/
def spinD (x y : Nat) : Finite binary64 :=
  .ofRat binary64 (if x = y then 0 else 1 + ((spinRows.getD x []).getD y 0 : ℕ) / 2 ^ 52)

def spinMat : Mat (Finite binary64) := ofRows ((List.range 6).map fun x => (List.range 6).map (spinD x))

theorem spin_isMatrix : IsMatrix spinMat 6 spinD := by
  have h : ∀ x < 6, ∀ y < 6, spinMat.get x y = .ok (spinD x y) := by decide +kernel
  exact ⟨rfl, rfl, fun x y hx hy => h x hx y hy⟩

theorem spin_dissim : Dissim 6 spinD := by
  have hd : ∀ x < 6, spinD x x = 0 := by decide +kernel
  have hn : ∀ x < 6, ∀ y < 6, 0 ≤ spinD x y := by decide +kernel
  exact ⟨hd, fun x y hx hy => hn x hx y hy⟩

theorem spin_valid : ValidMeds 6 [2, 4] := ⟨⟨by decide, by decide, by decide, by decide⟩, by decide⟩

/-- The two states the run alternates between. -/
def spinStates : List (List Nat × List Nat) := [([0, 1, 0, 0, 1, 0], [2, 4]), ([0, 0, 0, 0, 1, 0], [5, 4])]

theorem spin_step : ∀ s ∈ spinStates, ∃ s' ∈ spinStates,
    ∃ l ∈ [Ieee.num (2251799813685249 / 562949953421312), .num (4503599627370497 / 1125899906842624)],
    alternatingUpdate (Ieee binary64) spinMat s.1 s.2 = .ok (true, s'.2) ∧
      assignNearest (Ieee binary64) spinMat s'.2 = .ok (l, s'.1) := by
  decide +kernel

theorem spin_loop (fuel iter : Nat) (loss : Ieee binary64) : ∀ s ∈ spinStates,
    ∃ r, alternatingLoop spinMat fuel iter loss s.1 s.2 = .ok r ∧ r.nIter = iter + fuel := by
  induction fuel generalizing iter loss with
  | zero => exact fun s _ => ⟨_, rfl, rfl⟩
  | succ fuel ih =>
    intro s hs
    obtain ⟨s', hs', l, -, h1, h2⟩ := spin_step s hs
    obtain ⟨r, hr, he⟩ := ih (iter + 1) l s' hs'
    refine ⟨r, ?_, by omega⟩
    rw [alternatingLoop, h1]
    simp only [ok_bind, Bool.not_true, Bool.false_eq_true, if_false, h2]
    exact hr

/-- **C72, alternating does not end by itself.** Six objects with a metric, distances and losses `f64`: the run goes on
until `maxiter`, however large, although exact arithmetic would converge (C55). -/
theorem C72_alternating : ∃ (mat : Mat (Finite binary64)) (d : Nat → Nat → Finite binary64), IsMatrix mat 6 d ∧ Dissim 6 d ∧
    Symm 6 d ∧ (∀ x < 6, ∀ y < 6, x ≠ y → 0 < d x y) ∧
    (∀ x < 6, ∀ y < 6, ∀ z < 6, (d x z).q ≤ (d x y).q + (d y z).q) ∧
    ∃ med, ValidMeds 6 med ∧ med.Nodup ∧
      ∀ maxiter, ∃ r, alternating (Ieee binary64) mat med maxiter = .ok r ∧ r.nIter = maxiter := by
  refine ⟨spinMat, spinD, spin_isMatrix, spin_dissim, fun x y hx hy => ?_, by decide +kernel, by decide +kernel, [2, 4],
    spin_valid, by decide, fun maxiter => ?_⟩
  · have : ∀ x < 6, ∀ y < 6, spinD x y = spinD y x := by decide +kernel
    exact this x hx y hy
  · have h : assignNearest (Ieee binary64) spinMat [2, 4] =
        .ok (.num (4503599627370497 / 1125899906842624), [0, 1, 0, 0, 1, 0]) := by decide +kernel
    obtain ⟨r, hr, he⟩ := spin_loop maxiter 0 (.num (4503599627370497 / 1125899906842624)) _
      (by decide : ([0, 1, 0, 0, 1, 0], [2, 4]) ∈ spinStates)
    exact ⟨r, by rw [alternating, h]; exact hr, by omega⟩

/-! ## Non-vacuity -/

/-- On the same data FasterPAM ends after two iterations; the bound is 15. -/
example : ∃ r : SwapResult (Ieee binary64), fasterpam (Ieee binary64) spinMat [0, 1] 1000 = .ok r ∧ r.nIter = 2 ∧
    r.nSwap = 1 ∧ r.nIter ≤ Nat.choose 6 2 := by
  have hr : fasterpam (Ieee binary64) spinMat [0, 1] 1000 =
      .ok ⟨.num (4503599627370497 / 1125899906842624), [1, 1, 0, 0, 0, 0], 2, 1, [2, 1]⟩ := by decide +kernel
  exact ⟨_, hr, rfl, rfl, (C72_ieee (convNum_same binary64) ⟨1, [], .leaf⟩ (fun _ _ => ⟨1, [], .leaf⟩) (fun _ _ => ⟨1, [], .leaf⟩)
    spin_isMatrix spin_dissim ⟨⟨by decide, by decide, by decide, by decide⟩, by decide⟩ (by decide) (by decide) 1000
    (seq := List.range 6) (fun j hj => List.mem_range.mp hj) rfl).2.1 hr⟩

/-- FasterMSC with three medoids, distances that are multiples of 0.1. -/
example : ∃ r : SwapResult (Ieee binary64), fastermsc (Ieee binary64) (ofRows (tenths worseRows)) [0, 2, 3] 100 = .ok r ∧
    r.nIter = 2 ∧ r.nIter ≤ Nat.choose 6 3 := by
  have hr : fastermsc (Ieee binary64) (ofRows (tenths worseRows)) [0, 2, 3] 100 =
      .ok ⟨.num (7627525083181459 / 9007199254740992), [0, 2, 1, 2, 0, 1], 2, 2, [4, 2, 3]⟩ := by decide +kernel
  exact ⟨_, hr, rfl, (C72_ieee (convNum_same binary64) ⟨1, [], .leaf⟩ (fun _ _ => ⟨1, [], .leaf⟩) (fun _ _ => ⟨1, [], .leaf⟩)
    worse_isMatrix worse_dissim ⟨⟨by decide, by decide, by decide, by decide⟩, by decide⟩ (by decide) (by decide) 100
    (seq := List.range 6) (fun j hj => List.mem_range.mp hj) rfl).2.2.2.2.2.2.1 hr⟩

theorem fl_ordersByLe : OrdersByLe (fun x : Fl => x.v) fun _ => True := by
  intro a b _ _ h
  simp only [rle, pcmp, RPartialOrd.pcmp] at h
  rcases lt_trichotomy a.v b.v with h' | h' | h'
  · simp [compare_lt_iff_lt.mpr h'] at h
  · simp [h'] at h
  · exact h'

/-- PAMSIL with a significand of three bits. -/
example : ∃ r : SwapResult Fl, pamsilSwap Fl (ofRows staleRows) [0, 1] 20 = .ok r ∧ r.nSwap = 1 ∧ r.nSwap < 6 ^ 2 ∧
    r.nIter ≤ 6 ^ 2 := by
  have hr : pamsilSwap Fl (ofRows staleRows) [0, 1] 20 = .ok ⟨⟨1 / 2⟩, [0, 1, 0, 1, 1, 0], 2, 1, [0, 4]⟩ := by decide +kernel
  have h := C72_pamsil_swap fl_ordersByLe stale_isMatrix ⟨⟨by decide, by decide, by decide, by decide⟩, by decide⟩
    (by decide) (fun _ _ _ => trivial) 20 hr
  exact ⟨_, hr, rfl, h.1, h.2⟩

end KMedoids
