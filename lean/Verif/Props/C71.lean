import Verif.Proofs.FloatBuild

/-!
# C71: BUILD and PAM under rounding

Without any law for the loss beyond `-0 ≥ 0`, BUILD returns distinct medoids with a nearest assignment; if adding zero
changes nothing (as in IEEE 754), `pam` is `pam_swap` after `pam_build`. In floating point BUILD is greedy up to a rounding
error, and stops early only if the exact total deviation is zero. Exact arithmetic: C19-C22.
-/

set_option linter.unusedSectionVars false
set_option linter.overlappingInstances false

namespace KMedoids

open RFrom (conv)

section any
variable {N L : Type} [LinearOrder N] [Zero N] [RDist N] [LawfulDist N] [RLoss L] [RFrom N L]

/-- **C71, pam_build**, for any arithmetic of the loss. -/
theorem C71_pam_build_valid (hz : NegZero N L) {mat : Mat N} {n k : Nat} {d : Nat → Nat → N} (hm : IsMatrix mat n d)
    (hd : Dissim n d) (hs : Sizes n k) {r : BuildResult L} (hr : pamBuild L mat k = .ok r) :
    1 ≤ r.med.length ∧ r.med.length ≤ k ∧ r.med.Nodup ∧ (∀ m ∈ r.med, m < n) ∧ NearestAssignment n d r.med r.assi := by
  rw [pamBuild_eq hm hs] at hr; cases hr
  obtain ⟨-, h4, -⟩ := buildP_ok hz hd hs
  obtain ⟨hv, hnd, hdat⟩ := buildP_valid' hz hd hs
  refine ⟨hv.sizes.pos, h4, hnd, hv.range, ?_⟩
  simp only [pamBuildP]
  rw [hdat]
  have h := nearAssiP_ok hd hv hnd
  simp only [nearAssiP, nearRecP_eq] at h
  simpa only [initDataP, List.map_map, Function.comp_def] using h

/-- **C71, pam**, for any arithmetic of the loss. -/
theorem C71_pam_valid [SaneZero L] (hz : NegZero N L) {mat : Mat N} {n k : Nat} {d : Nat → Nat → N}
    (hm : IsMatrix mat n d) (hd : Dissim n d) (hs : Sizes n k) (maxiter : Nat) {r : SwapResult L}
    (hr : pam L mat k maxiter = .ok r) : r.med.Nodup ∧ NearestAssignment n d r.med r.assi := by
  rw [pam_eq hm hs] at hr; cases hr
  obtain ⟨hv, hnd, hdat⟩ := buildP_valid' hz hd hs
  exact pOptP_good hm hd hv (fun hk => hdat ▸ initDataP_ok hd hk hv hnd) _ (pamScanP_sound _ _ _) _ _

/-- Adding zero changes no distance and no sum of distances; `P` holds for these. -/
structure AddZero (n : Nat) (d : Nat → Nat → N) (P : L → Prop) : Prop where
  zero : P RLoss.zero
  dist : ∀ x y, x < n → y < n → P (conv (d x y))
  add : ∀ x y, P x → P y → P (RLoss.add x y)
  right : ∀ x, P x → RLoss.add x RLoss.zero = x
  left : ∀ x, P x → RLoss.add RLoss.zero x = x

theorem skipSum_leftSum (h0 : (conv (0 : N) : L) = RLoss.zero) {n : Nat} {d : Nat → Nat → N} {P : L → Prop}
    (ha : AddZero n d P) (hd : Dissim n d) {med : List Nat} (hr : ∀ c ∈ med, c < n) {c : Nat} (hc : c ∈ med) :
    skipSum L n d med c = leftSum (devs L n d med) := by
  have hcn := hr c hc
  have hmin : minDist d c med = 0 := by
    rw [minDist_eq hc fun c' hc' => by rw [hd.diag c hcn]; exact hd.nonneg c c' hcn (hr c' hc'), hd.diag c hcn]
  have hP : ∀ o < n, P (RFrom.conv (minDist d o med)) := fun o ho => by
    obtain ⟨c, hc, e⟩ := (minDist_spec d o med (List.ne_nil_of_mem hc)).1
    rw [e]; exact ha.dist o c ho (hr c hc)
  have h1 : skipSum L n d med c = (devs L n d med).foldl RLoss.add RLoss.zero := by
    unfold skipSum devs
    rw [List.foldl_map]
    suffices h : ∀ os : List Nat, (∀ o ∈ os, o < n) → ∀ acc : L, P acc →
        os.foldl (fun (loss : L) o => if o = c then loss else RLoss.add loss (RFrom.conv (minDist d o med))) acc =
        os.foldl (fun (loss : L) o => RLoss.add loss (RFrom.conv (minDist d o med))) acc from
      h _ (fun o ho => List.mem_range.mp ho) _ ha.zero
    intro os
    induction os with
    | nil => intro _ _ _; rfl
    | cons o os ih =>
      intro ho acc hacc
      have ih := ih fun o h => ho o (by simp [h])
      rw [List.foldl_cons, List.foldl_cons]
      by_cases h : o = c
      · rw [if_pos h, h, hmin, h0, ha.right acc hacc, ih acc hacc]
      · rw [if_neg h, ih _ (ha.add _ _ hacc (hP o (ho o (by simp))))]
  rw [h1]
  cases h : devs L n d med with
  | nil =>
    have : (devs L n d med).length = n := by simp [devs]
    rw [h] at this; simp at this; omega
  | cons x xs =>
    have hx : x ∈ devs L n d med := by rw [h]; simp
    obtain ⟨o, ho, rfl⟩ := List.mem_map.mp hx
    rw [leftSum, List.foldl_cons, ha.left _ (hP o (List.mem_range.mp ho))]

/-- **C71, pam is BUILD, then SWAP**, with all components of the result, for any arithmetic of the loss in which adding zero
changes nothing. -/
theorem C71_pam_eq [SaneZero L] (hz : NegZero N L) (h0 : (conv (0 : N) : L) = RLoss.zero) {mat : Mat N}
    {n k : Nat} {d : Nat → Nat → N} {P : L → Prop} (ha : AddZero n d P) (hm : IsMatrix mat n d) (hd : Dissim n d) (hs : Sizes n k) (maxiter : Nat)
    {b : BuildResult L} (hb : pamBuild L mat k = .ok b) :
    pam L mat k maxiter = pamSwap L mat b.med maxiter ∧ (2 ≤ b.med.length → b.loss = recomputed L n d b.med) := by
  rw [pamBuild_eq hm hs] at hb; cases hb
  obtain ⟨hv, hnd, hdat⟩ := buildP_valid' hz hd hs
  obtain ⟨hok, -⟩ := buildP_ok hz hd hs
  obtain ⟨c, hc, hl⟩ := hok.loss
  rw [skipSum_leftSum h0 ha hd hv.range hc] at hl
  refine ⟨?_, fun hk => by rw [recomputed_many n d hk]; exact hl⟩
  rw [pam_eq hm hs, pamP, show (pamBuildP L d n k).med = (buildP L d n k).1 from rfl, pamSwap_eq hm hv, pamSwapP, hdat, hl]
  by_cases h1 : (buildP L d n k).1.length = 1
  · obtain ⟨c, hc⟩ := List.length_eq_one_iff.mp h1
    rw [hc, pOptP_single, pOptP_single]
  · have hk : 2 ≤ (buildP L d n k).1.length := by have := hv.sizes.pos; omega
    rw [nearLossP_leftSum (L := L) (initDataP_ok hd hk hv hnd)]

end any

variable {N L K : Type} [LinearOrder N] [Zero N] [RDist N] [LawfulDist N] [RLoss L] [RFrom N L]
  [Field K] [LinearOrder K] [IsStrictOrderedRing K]
variable {fin : L → Prop} {val : L → K} {u B : K}

/-- Each medoid but the first gives, up to a rounding error, the smallest exact total deviation of all objects, given those
before it. -/
def NearlyGreedy (val : L → K) (u : K) (n : Nat) (d : Nat → Nat → N) (med : List Nat) : Prop :=
  ∀ l c, 1 ≤ l → med[l]? = some c → ∀ x < n, exactDev N val n d (med.take l ++ [c]) ≤
    exactDev N val n d (med.take l ++ [x]) + ((1 + u) ^ (n + 1) - 1) * (2 * exactDev N val n d (med.take l))

/-- **C71, pam_build in floating point.** The loss is accurate, the first medoid is a nearly best single medoid, the others are
nearly greedy, and there are fewer than `k` only if the exact total deviation is zero. -/
theorem C71_pam_build (M : FloatLoss N fin val u B) {mat : Mat N} {n k : Nat} {d : Nat → Nat → N} (hm : IsMatrix mat n d)
    (hd : Dissim n d) (hs : Sizes n k) {W : K} (hW : AtMost val W n d) (hB : (1 + u) ^ (n + 1) * (n * W) ≤ B)
    {r : BuildResult L} (hr : pamBuild L mat k = .ok r) :
    Accurate fin val u n d r.med r.loss ∧ NearlyBestSingle val u n d (r.med.take 1) ∧ NearlyGreedy val u n d r.med ∧
    (r.med.length < k → exactDev N val n d r.med = 0) := by
  have hn : 0 < n := hs.pos.trans hs.le
  rw [pamBuild_eq hm hs] at hr; cases hr
  obtain ⟨hok, -, hfirst, hnext, hstop⟩ := buildP_ok M.negZero hd hs
  simp only [pamBuildP]
  generalize buildP L d n k = b at *
  have hW0 := (roundErr_nonneg (u := u) M hd hn hW (n + 1) 1).1
  have hfit : ∀ {med : List Nat}, med ≠ [] → (∀ c ∈ med, c < n) → (1 + u) ^ (n + 1) * exactDev N val n d med ≤ B ∧
      (1 + u) ^ (n - 1) * exactDev N val n d med ≤ B := fun {med} hne hr => by
    have h1 := exactDev_le hW hne hr
    have h2 := M.std.pow_mono (show n - 1 ≤ n + 1 by omega)
    have h3 := M.std.one_le_pow (n - 1)
    have h4 : 0 ≤ (n : K) * W := by positivity
    exact ⟨(mul_le_mul_of_nonneg_left h1 (by linarith)).trans hB,
      ((mul_le_mul_of_nonneg_left h1 (by linarith)).trans (mul_le_mul_of_nonneg_right h2 h4)).trans hB⟩
  refine ⟨?_, ?_, ?_, ?_⟩
  · obtain ⟨c, hc, hl⟩ := hok.loss
    have h := appr_skipSum (val := val) M hd hok.range hc (hfit hok.ne hok.range).2
    rw [hl]
    exact ⟨h.fin, h.err⟩
  · have happ : ∀ i < n, Appr fin val u (n - 1) (exactDev N val n d [i]) (exactDev N val n d [i])
        (skipSum L n d [i] i) := fun i hi =>
      appr_skipSum (val := val) M hd (by simpa using hi) (by simp) (hfit (by simp) (by simpa using hi)).2
    obtain ⟨-, hmin⟩ := argminP_float (val := val) M.std (fun i => skipSum L n d [i] i) k hn fun x hx => (happ x hx).fin
    have hlt := argminP_lt (fun i => skipSum L n d [i] i) k hn
    have hv := argminP_value (fun i => skipSum L n d [i] i) k hn
    generalize argminP (fun i => skipSum L n d [i] i) n k = best at *
    have ht : b.1.take 1 = [best.2] := by
      cases h : b.1 with
      | nil => exact absurd h hok.ne
      | cons y t => rw [h] at hfirst; simpa using hfirst
    rw [ht]
    intro x hx
    have h1 := hmin x hx
    rw [hv] at h1
    have h2 := (abs_le.mp (happ _ hlt).err).1
    have h3 := (abs_le.mp (happ x hx).err).2
    rw [mul_add]
    linarith
  · intro l c hl hc x hx
    have e := hnext l c hl hc
    have hne : b.1.take l ≠ [] := by
      apply List.ne_nil_of_length_pos
      have := (List.getElem?_eq_some_iff.mp hc).1
      rw [List.length_take]; omega
    have hr : ∀ m ∈ b.1.take l, m < n := fun m hm => hok.range m (List.mem_of_mem_take hm)
    have happ := fun i (hi : i < n) => (appr_buildSum (val := val) (i := i) M hd hne hr hi (hfit hne hr).1).1
    obtain ⟨-, hmin⟩ := argminP_float (val := val) M.std _ k hn fun x hx => (happ x hx).fin
    have hlt := argminP_lt (buildSumP L d ((List.range n).map fun o => minDist d o (b.1.take l))) k hn
    have hv := argminP_value (buildSumP L d ((List.range n).map fun o => minDist d o (b.1.take l))) k hn
    have h1 := hmin x hx
    rw [hv, ← e] at h1
    rw [← e] at hlt
    have h2 := (abs_le.mp (happ _ hlt).err).1
    have h3 := (abs_le.mp (happ x hx).err).2
    linarith
  · intro hlt
    have hge := hstop hlt
    have happ := fun i (hi : i < n) => appr_buildSum (val := val) (i := i) M hd hok.ne hok.range hi
      (hfit hok.ne hok.range).1
    obtain ⟨hf, hmin⟩ := argminP_float (val := val) M.std _ k hn fun x hx => (happ x hx).1.fin
    rw [M.std.rge_iff hf M.std.zero_fin, M.std.zero] at hge
    unfold exactDev totalDev
    refine List.sum_eq_zero fun y hy => ?_
    obtain ⟨o, ho, rfl⟩ := List.mem_map.mp hy
    have ho := List.mem_range.mp ho
    refine le_antisymm (not_lt.mp fun hpos => ?_) (M.val_nonneg (minDist_nonneg hd hok.ne hok.range ho))
    have := (happ o ho).2 hpos
    linarith [hmin o ho]

/-- **C71, pam in floating point.** It is not worse than BUILD by more than a rounding error; with a last iteration without
exchange it is nearly a local optimum, and at most five times the optimum if the distances are nearly a metric. -/
theorem C71_pam (M : FloatLoss N fin val u B) {mat : Mat N} {n k : Nat} {d : Nat → Nat → N} {P : L → Prop} (ha : AddZero n d P)
    (hm : IsMatrix mat n d) (hd : Dissim n d) (hs : Sizes n k) {W : K} (hW : AtMost val W n d)
    (hB : (1 + u) ^ (n + 1) * (n * W) ≤ B) {b : BuildResult L} (hb : pamBuild L mat k = .ok b) (hk : 2 ≤ b.med.length)
    (maxiter : Nat) {r : SwapResult L} (hr : pam L mat k maxiter = .ok r) :
    exactDev N val n d r.med ≤ exactDev N val n d b.med + 3 * roundErr u W (n + 1) 1 n ∧
    (b.med.length < k → exactDev N val n d r.med ≤ 3 * roundErr u W (n + 1) 1 n) ∧
    (r.nSwap < r.nIter → NearlyOptimal (N := N) val u (n + 1) 1 n d r.med ∧
      ∀ η, NearMetric val η n d → ∀ other : List Nat, other ≠ [] → (∀ c ∈ other, c < n) → other.length ≤ b.med.length →
        exactDev N val n d r.med ≤ 5 * exactDev N val n d other +
          (other.length * roundErr u W (n + 1) 1 n + n * (4 * η))) := by
  have := M.saneZero
  obtain ⟨v1, v2, v3, v4, -⟩ := C71_pam_build_valid M.negZero hm hd hs hb
  have hv : ValidMeds n b.med := ⟨⟨v1, v2.trans hs.le, hs.n_le, lt_of_le_of_lt v2 hs.k_lt⟩, v4⟩
  rw [(C71_pam_eq M.negZero M.conv_zero ha hm hd hs maxiter hb).1] at hr
  have h1 := (C69_pam_swap M hm hd hW hB hv v3 hk maxiter hr).2
  refine ⟨h1, fun hlt => ?_, fun hq => ⟨?_, fun η hmet other hne hor ho => ?_⟩⟩
  · rwa [(C71_pam_build M hm hd hs hW hB hb).2.2.2 hlt, zero_add] at h1
  · obtain ⟨r', hr', hw⟩ := C04_pam_swap (L := L) hm hv maxiter
    rw [hr] at hr'; cases hr'
    have hl : r.med.length = b.med.length := hw.medLen
    exact C67_pam_swap M hm hd hv v3 hk maxiter hr hq
      (changesFit_of M hW (hk.trans hl.ge) hw.medRange (by simpa using hB))
  · exact C70_pam_swap M hm hd hW hmet hB hv v3 hk maxiter hr hq hne hor ho

/-! ## Non-vacuity: `f64` -/

/-- IEEE 754: numbers of the format, infinities and NaN. -/
def Ieee.InFmt {F : Fmt} (x : Ieee F) : Prop := ∀ q, x = .num q → F.rnd q = q ∧ |q| < 2 ^ F.emax

theorem ieee_addZero (F : Fmt) {n : Nat} {d : Nat → Nat → Finite F}
    (hd : ∀ x y, x < n → y < n → |(d x y).q| < 2 ^ F.emax) : AddZero n d (Ieee.InFmt (F := F)) := by
  have hex : ∀ {q : ℚ}, F.rnd q = q → |q| < 2 ^ F.emax → Ieee.ofExact F q = .num q := fun {q} h1 h2 => by
    unfold Ieee.ofExact
    rw [abs_lt] at h2
    rw [h1, if_neg (not_le.mpr h2.2), if_neg (not_le.mpr h2.1)]
  refine ⟨?_, ?_, ?_, ?_, ?_⟩
  · rintro q h
    cases h
    exact ⟨F.rnd_zero, by rw [abs_zero]; exact zpow_pos two_pos _⟩
  · rintro x y hx hy q h
    cases h
    exact ⟨(d x y).rep, hd x y hx hy⟩
  · intro x y hx hy q h
    have hof : ∀ {z : ℚ}, Ieee.ofExact F z = .num q → F.rnd q = q ∧ |q| < 2 ^ F.emax := fun {z} h => by
      unfold Ieee.ofExact at h
      split at h
      · cases h
      · split at h
        · cases h
        · cases h
          exact ⟨F.rnd_rnd z, abs_lt.mpr ⟨not_le.mp ‹_›, not_le.mp ‹_›⟩⟩
    cases x <;> cases y <;> first | exact hof h | cases h
  · intro x hx
    cases x with
    | num q => show Ieee.ofExact F (q + 0) = _; rw [add_zero]; exact hex (hx q rfl).1 (hx q rfl).2
    | _ => rfl
  · intro x hx
    cases x with
    | num q => show Ieee.ofExact F (0 + q) = _; rw [zero_add]; exact hex (hx q rfl).1 (hx q rfl).2
    | _ => rfl

theorem tenth_addZero : AddZero 5 tenthD (Ieee.InFmt (F := binary64)) := by
  refine ieee_addZero binary64 fun x y hx hy => ?_
  have : ∀ x < 5, ∀ y < 5, |(tenthD x y).q| < 2 ^ binary64.emax := by decide +kernel
  exact this x hx y hy

/-- BUILD on five points: the theorem applies to both medoids, and the loss is not exact. -/
example : ∃ r, pamBuild (Ieee binary64) (ofRows (tenths tenthRows)) 2 = .ok r ∧ r.med = [2, 4] ∧
    NearestAssignment 5 tenthD r.med r.assi ∧
    Ieee.val r.loss ≠ exactDev (L := Ieee binary64) (Finite binary64) Ieee.val 5 tenthD r.med ∧
    Accurate Ieee.Fin Ieee.val (1 / 2 ^ 53) 5 tenthD r.med r.loss ∧
    NearlyGreedy (L := Ieee binary64) Ieee.val (1 / 2 ^ 53) 5 tenthD r.med := by
  have hr : pamBuild (Ieee binary64) (ofRows (tenths tenthRows)) 2 =
      .ok ⟨.num (3602879701896397 / 2251799813685248), [0, 0, 0, 0, 1], [2, 4]⟩ := by decide +kernel
  have hs : Sizes 5 2 := ⟨by decide, by decide, by decide, by decide⟩
  have h := C71_pam_build (ieee_floatLoss binary64) tenth_isMatrix tenth_dissim hs tenth_atMost (by decide +kernel) hr
  exact ⟨_, hr, rfl, (C71_pam_build_valid (ieee_floatLoss binary64).negZero tenth_isMatrix tenth_dissim hs hr).2.2.2.2,
    by decide +kernel, h.1, h.2.2.1⟩

/-- Three objects, two of them at the same place: BUILD stops early. -/
def twinRows : List (List ℕ) := [[0, 3, 0], [3, 0, 3], [0, 3, 0]]

def twinD (x y : Nat) : Finite binary64 := .ofRat binary64 (((twinRows.getD x []).getD y 0 : ℕ) / 10)

theorem twin_isMatrix : IsMatrix (ofRows (tenths twinRows)) 3 twinD := by
  have h : ∀ x < 3, ∀ y < 3, (ofRows (tenths twinRows)).get x y = .ok (twinD x y) := by
    decide +kernel
  exact ⟨rfl, rfl, fun x y hx hy => h x hx y hy⟩

theorem twin_dissim : Dissim 3 twinD := by
  have hd : ∀ x < 3, twinD x x = 0 := by decide +kernel
  have hn : ∀ x < 3, ∀ y < 3, 0 ≤ twinD x y := by decide +kernel
  exact ⟨hd, fun x y hx hy => hn x hx y hy⟩

theorem twin_atMost : AtMost (L := Ieee binary64) Ieee.val (3 / 10) 3 twinD := by
  have h : ∀ x < 3, ∀ y < 3, Ieee.val (conv (twinD x y) : Ieee binary64) ≤ 3 / 10 := by decide +kernel
  exact fun x y hx hy => h x hx y hy

example : ∃ r, pamBuild (Ieee binary64) (ofRows (tenths twinRows)) 3 = .ok r ∧ r.med = [0, 1] ∧
    exactDev (L := Ieee binary64) (Finite binary64) Ieee.val 3 twinD r.med = 0 := by
  have hr : pamBuild (Ieee binary64) (ofRows (tenths twinRows)) 3 =
      .ok ⟨.num 0, [0, 1, 0], [0, 1]⟩ := by decide +kernel
  exact ⟨_, hr, rfl, (C71_pam_build (ieee_floatLoss binary64) twin_isMatrix twin_dissim
    ⟨by decide, by decide, by decide, by decide⟩ twin_atMost (by decide +kernel) hr).2.2.2 (by decide)⟩

/-- PAM on six objects. -/
theorem worse_addZero : AddZero 6 worseD (Ieee.InFmt (F := binary64)) := by
  refine ieee_addZero binary64 fun x y hx hy => ?_
  have : ∀ x < 6, ∀ y < 6, |(worseD x y).q| < 2 ^ binary64.emax := by decide +kernel
  exact this x hx y hy

example : ∃ b r, pamBuild (Ieee binary64) (ofRows (tenths worseRows)) 3 = .ok b ∧
    pam (Ieee binary64) (ofRows (tenths worseRows)) 3 9 = .ok r ∧ b.med = [0, 1, 2] ∧ r.med = [4, 1, 2] ∧
    NearestAssignment 6 worseD r.med r.assi ∧
    NearlyOptimal (L := Ieee binary64) Ieee.val (1 / 2 ^ 53) 7 1 6 worseD r.med := by
  have hb : pamBuild (Ieee binary64) (ofRows (tenths worseRows)) 3 =
      .ok ⟨.num (3602879701896397 / 4503599627370496), [0, 1, 2, 1, 0, 2], [0, 1, 2]⟩ := by decide +kernel
  have hr : pam (Ieee binary64) (ofRows (tenths worseRows)) 3 9 =
      .ok ⟨.num (1351079888211149 / 2251799813685248), [1, 1, 2, 1, 0, 2], 2, 1, [4, 1, 2]⟩ := by decide +kernel
  have hs : Sizes 6 3 := ⟨by decide, by decide, by decide, by decide⟩
  exact ⟨_, _, hb, hr, rfl, rfl,
    (C71_pam_valid (ieee_floatLoss binary64).negZero worse_isMatrix worse_dissim hs 9 hr).2,
    ((C71_pam (ieee_floatLoss binary64) worse_addZero worse_isMatrix worse_dissim hs worse_atMost (by decide +kernel) hb
      (by decide) 9 hr).2.2 (by decide)).1⟩

/-- **PAM can be worse than BUILD**, in exact terms. -/
theorem C71_pam_not_exact : ∃ (mat : Mat (Finite binary64)) (n k : Nat) (d : Nat → Nat → Finite binary64)
    (b : BuildResult (Ieee binary64)) (r : SwapResult (Ieee binary64)),
    IsMatrix mat n d ∧ Dissim n d ∧ Symm n d ∧ Sizes n k ∧ pamBuild (Ieee binary64) mat k = .ok b ∧
    pam (Ieee binary64) mat k 9 = .ok r ∧
      exactDev (L := Ieee binary64) (Finite binary64) Ieee.val n d b.med <
        exactDev (L := Ieee binary64) (Finite binary64) Ieee.val n d r.med :=
  ⟨ofRows (tenths worseRows), 6, 2, worseD,
    ⟨.num (3602879701896397 / 2251799813685248), [0, 1, 1, 1, 0, 0], [0, 1]⟩, worseResult, worse_isMatrix, worse_dissim,
    worse_symm, ⟨by decide, by decide, by decide, by decide⟩, by decide +kernel, by decide +kernel, by decide +kernel⟩

/-! ## BUILD is not exactly greedy -/

def tieRows : List (List ℕ) := [[0, 3, 5, 3], [3, 0, 8, 1], [5, 8, 0, 7], [3, 1, 7, 0]]

def tieD (x y : Nat) : Finite binary64 := .ofRat binary64 (((tieRows.getD x []).getD y 0 : ℕ) / 10)

theorem tie_isMatrix : IsMatrix (ofRows (tenths tieRows)) 4 tieD := by
  have h : ∀ x < 4, ∀ y < 4, (ofRows (tenths tieRows)).get x y = .ok (tieD x y) := by decide +kernel
  exact ⟨rfl, rfl, fun x y hx hy => h x hx y hy⟩

theorem tie_dissim : Dissim 4 tieD := by
  have hd : ∀ x < 4, tieD x x = 0 := by decide +kernel
  have hn : ∀ x < 4, ∀ y < 4, 0 ≤ tieD x y := by decide +kernel
  exact ⟨hd, fun x y hx hy => hn x hx y hy⟩

theorem tie_symm : Symm 4 tieD := by
  have hs : ∀ x < 4, ∀ y < 4, tieD x y = tieD y x := by decide +kernel
  exact fun x y hx hy => hs x hx y hy

/-- **The error cannot be removed.** Distances that are multiples of 0.1, as `f64`: the second medoid of BUILD is not the
best one. -/
theorem C71_not_greedy : ∃ (mat : Mat (Finite binary64)) (n k : Nat) (d : Nat → Nat → Finite binary64)
    (r : BuildResult (Ieee binary64)),
    IsMatrix mat n d ∧ Dissim n d ∧ Symm n d ∧ Sizes n k ∧ pamBuild (Ieee binary64) mat k = .ok r ∧ r.med.length = k ∧
    ¬ Greedy (exactDev (L := Ieee binary64) (Finite binary64) Ieee.val n d) n r.med := by
  refine ⟨ofRows (tenths tieRows), 4, 2, tieD, ⟨.num (5404319552844595 / 9007199254740992), [0, 1, 0, 1], [0, 1]⟩,
    tie_isMatrix, tie_dissim, tie_symm,
    ⟨by decide, by decide, by decide, by decide⟩, by decide +kernel, rfl, fun h => ?_⟩
  have h1 := h 1 1 rfl 2 (by decide)
  exact absurd h1 (by decide +kernel)

end KMedoids
