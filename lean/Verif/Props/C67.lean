import Verif.Proofs.FloatSwap
import Verif.Proofs.Quiet
import Verif.Props.C66

/-!
# C67: floating point runs end in nearly local optima

In floating point arithmetic (`FloatLoss`) a run of FasterPAM whose last pass made no exchange, and a run of PAM or
FastPAM1 whose last iteration made no exchange, ends with medoids for which no single exchange improves the *exact* total
deviation by more than a rounding error. The error is relative to the total deviation without the exchanged medoid.
-/

set_option linter.unusedSectionVars false
set_option linter.overlappingInstances false

namespace KMedoids

variable {N L K : Type} [LinearOrder N] [Zero N] [RDist N] [LawfulDist N] [RLoss L] [RFrom N L]
  [Field K] [LinearOrder K] [IsStrictOrderedRing K]
open RFrom (conv)

variable {fin : L → Prop} {val : L → K} {u B : K}

/-- No exchange improves the exact total deviation by more than `((1 + u) ^ e - 1) * c` times the total deviation without
the exchanged medoid. -/
def NearlyOptimal (val : L → K) (u : K) (e c : Nat) (n : Nat) (d : Nat → Nat → N) (med : List Nat) : Prop :=
  ∀ b < med.length, ∀ j < n, exactDev N val n d med ≤
    exactDev N val n d (med.set b j) + ((1 + u) ^ e - 1) * (c * exactDev N val n d (med.eraseIdx b))

/-- The computed changes do not overflow. -/
def ChangesFit (val : L → K) (u B : K) (e c : Nat) (n : Nat) (d : Nat → Nat → N) (med : List Nat) : Prop :=
  ∀ b < med.length, (1 + u) ^ e * (c * exactDev N val n d (med.eraseIdx b)) ≤ B

/-! ## Medoids as candidates -/

/-- A medoid is no better candidate. -/
theorem exactDev_le_set_mem (M : FloatLoss N fin val u B) {n : Nat} {d : Nat → Nat → N} {med : List Nat} {j : Nat}
    (hj : j ∈ med) {b : Nat} (hb : b < med.length) :
    exactDev N val n d med ≤ exactDev N val n d (med.set b j) := by
  refine List.sum_le_sum fun o _ => ?_
  refine M.conv_mono ?_
  have hne : med.set b j ≠ [] := List.ne_nil_of_length_pos (by rw [List.length_set]; omega)
  obtain ⟨c, hc, e⟩ := (minDist_spec d o (med.set b j) hne).1
  rw [e]
  refine (minDist_spec d o med (List.ne_nil_of_mem hj)).2 c ?_
  rcases List.mem_or_eq_of_mem_set hc with h | h
  · exact h
  · exact h ▸ hj

theorem exactDev_nonneg (M : FloatLoss N fin val u B) {n : Nat} {d : Nat → Nat → N} (hd : Dissim n d) {med : List Nat}
    (hne : med ≠ []) (hr : ∀ c ∈ med, c < n) : 0 ≤ exactDev N val n d med :=
  List.sum_nonneg fun x hx => by
    obtain ⟨o, ho, rfl⟩ := List.mem_map.mp hx
    exact M.val_nonneg (minDist_nonneg hd hne hr (List.mem_range.mp ho))

theorem exactDev_erase_nonneg (M : FloatLoss N fin val u B) {n : Nat} {d : Nat → Nat → N} (hd : Dissim n d)
    {med : List Nat} (hk : 2 ≤ med.length) (hr : ∀ c ∈ med, c < n) {b : Nat} (hb : b < med.length) :
    0 ≤ exactDev N val n d (med.eraseIdx b) :=
  exactDev_nonneg M hd (List.ne_nil_of_length_pos (by rw [List.length_eraseIdx_of_lt hb]; omega))
    fun c hc => hr c (List.mem_of_mem_eraseIdx hc)

theorem nearlyOptimal_of (M : FloatLoss N fin val u B) {n : Nat} {d : Nat → Nat → N} (hd : Dissim n d) {med : List Nat}
    (hk : 2 ≤ med.length) (hr : ∀ c ∈ med, c < n) {e c : Nat}
    (h : ∀ j < n, j ∉ med → ∀ b < med.length, exactDev N val n d med ≤
      exactDev N val n d (med.set b j) + ((1 + u) ^ e - 1) * (c * exactDev N val n d (med.eraseIdx b))) :
    NearlyOptimal val u e c n d med := fun b hb j hj => by
  by_cases hjm : j ∈ med
  · have h1 := exactDev_le_set_mem (n := n) (d := d) M hjm hb
    have h2 := M.std.one_le_pow e
    have h3 : 0 ≤ ((1 + u) ^ e - 1) * (c * exactDev N val n d (med.eraseIdx b)) :=
      mul_nonneg (by linarith) (mul_nonneg (Nat.cast_nonneg c) (exactDev_erase_nonneg M hd hk hr hb))
    linarith
  · exact h j hj hjm b hb

/-! ## FasterPAM -/

/-- One candidate of FasterPAM. -/
def fpCandP (d : Nat → Nat → N) (s : FPState N L) (j : Nat) : Option (FPState N L) :=
  if ownP s.med s.data j then none
  else if rge (fbsP d s.rem s.data j).1 RLoss.zero then none
  else some (fpSwapP d s (fbsP d s.rem s.data j).2 j)

theorem fpPassP_eq_passG (d : Nat → Nat → N) (js : List Nat) (s : FPState N L) :
    fpPassP d js s = passG (·.lastswap) (fpCandP d) js s := by
  induction js generalizing s with
  | nil => rfl
  | cons j js ih =>
    unfold fpPassP passG fpCandP
    by_cases h1 : j = s.lastswap
    · simp only [h1, if_true]
    · simp only [h1, if_false]
      by_cases h2 : ownP s.med s.data j = true
      · simp only [h2, if_true]; exact ih s
      · simp only [h2, if_false, Bool.false_eq_true]
        by_cases h3 : rge (fbsP d s.rem s.data j).1 RLoss.zero = true
        · simp only [h3, if_true]; exact ih s
        · simp only [h3, if_false, Bool.false_eq_true]; exact ih _

theorem fpLoopP_eq_loopG (d : Nat → Nat → N) (seq : List Nat) (fuel iter : Nat) (s : FPState N L) :
    fpLoopP d seq fuel iter s =
      loopG (passG (·.lastswap) (fpCandP d) seq) (·.nSwaps) (·.loss) fuel iter s := by
  induction fuel generalizing iter s with
  | zero => rfl
  | succ fuel ih =>
    rw [fpLoopP, loopG, fpPassP_eq_passG, ih]

/-- Object `j` is a medoid, or the computed change is not negative. -/
def FpRej (d : Nat → Nat → N) (s : FPState N L) (j : Nat) : Prop :=
  j ∈ s.med ∨ rge (fbsP d s.rem s.data j).1 RLoss.zero = true

theorem fpCand_rej {n k : Nat} {d : Nat → Nat → N} (hd : Dissim n d) (hk : 1 ≤ k) :
    CandRej n (fun s : FPState N L => FPOk n k d s ∧ s.rem = remP L s.data k) (·.lastswap) (·.nSwaps) (fpCandP d)
      (FpRej d) where
  none s j hs hj h := by
    unfold fpCandP at h
    by_cases h2 : ownP s.med s.data j = true
    · exact Or.inl ((ownP_iff hs.1.cache hj).mp h2)
    · simp only [h2, if_false, Bool.false_eq_true] at h
      by_cases h3 : rge (fbsP d s.rem s.data j).1 RLoss.zero = true
      · exact Or.inr h3
      · simp [h3] at h
  some s j s' hs hj h := by
    unfold fpCandP at h
    by_cases h2 : ownP s.med s.data j = true
    · simp [h2] at h
    · simp only [h2, if_false, Bool.false_eq_true] at h
      by_cases h3 : rge (fbsP d s.rem s.data j).1 RLoss.zero = true
      · simp [h3] at h
      · simp only [h3, if_false, Bool.false_eq_true, Option.some.injEq] at h
        subst h
        have hb : (fbsP d s.rem s.data j).2 < k := by
          have := fbsP_lt d (rem := s.rem) s.data j (by rw [hs.1.remLen]; exact hk)
          rwa [hs.1.remLen] at this
        have hjm : j ∉ s.med := fun hm => h2 ((ownP_iff hs.1.cache hj).mpr hm)
        refine ⟨⟨fpSwapP_ok hd hs.1 hb hj hjm, by simp [fpSwapP, hs.1.remLen]⟩, rfl, rfl, Or.inl ?_⟩
        exact List.mem_of_getElem? (i := (fbsP d s.rem s.data j).2) (by simp [fpSwapP, hs.1.medLen, hb])

/-- **C67, rand_fasterpam.** `r0` is the result with the iteration limit `maxiter`, `r` the result with one more pass; the
additional pass was made (`nIter`) and exchanged nothing (`nSwap`). -/
theorem C67_rand_fasterpam (M : FloatLoss N fin val u B) {mat : Mat N} {n : Nat} {d : Nat → Nat → N}
    (hm : IsMatrix mat n d) (hd : Dissim n d) {med : List Nat} (hv : ValidMeds n med) (hnd : med.Nodup)
    (hk : 2 ≤ med.length) (maxiter : Nat) {seq : List Nat} (hseq : seq.Perm (List.range n)) {r0 r : SwapResult L}
    (h0 : randFasterpam L mat med maxiter seq = .ok r0) (hr : randFasterpam L mat med (maxiter + 1) seq = .ok r)
    (hit : r.nIter = maxiter + 1) (hq : r.nSwap = r0.nSwap) (hB : ChangesFit (N := N) val u B (2 * n + 1) 2 n d r.med) :
    NearlyOptimal (N := N) val u (2 * n + 1) 2 n d r.med := by
  have hs : ∀ j ∈ seq, j < n := fun j hj => List.mem_range.mp (hseq.mem_iff.mp hj)
  rw [randFasterpam_eq hm hv _ hs, fpP_many d n hk] at h0 hr
  cases h0; cases hr
  dsimp only at *
  rw [fpLoopP_eq_loopG] at *
  rw [fpLoopP_eq_loopG] at hq
  have hI : FPOk n med.length d (fpInitP L d n med) ∧
      (fpInitP L d n med).rem = remP L (fpInitP L d n med).data med.length := ⟨fpInitP_ok hd hv hk hnd, rfl⟩
  have hh : HistR (fun s : FPState N L => s.lastswap) (FpRej d) seq (fpInitP L d n med) :=
    Or.inl fun h => lt_irrefl n (hs n h)
  obtain ⟨⟨i1, i2⟩, i3⟩ := loopG_quiet (fpCand_rej (L := L) hd (by omega)) (loss := (·.loss)) hs
    (hseq.nodup_iff.mpr List.nodup_range) hI hh (fuel := maxiter) (iter := 0) (by rw [hit, Nat.zero_add]) hq
  generalize (loopG (passG (fun s : FPState N L => s.lastswap) (fpCandP d) seq) (·.nSwaps) (·.loss) (maxiter + 1) 0
    (fpInitP L d n med)).1 = s at *
  refine nearlyOptimal_of M hd (by rw [i1.medLen]; exact hk) i1.cache.range fun j hj hjm => ?_
  rcases i3 j (hseq.mem_iff.mpr (List.mem_range.mpr hj)) with h | h
  · exact absurd h hjm
  · obtain ⟨f1, f2, -⟩ := fbsP_float (val := val) M i1.cache hd (by rw [i1.medLen]; omega) hj (fun m hm => by
      simpa using hB m hm)
    rw [i2, ← i1.medLen, M.std.rge_iff f1 M.std.zero_fin, M.std.zero] at h
    simpa using f2 h

/-- **C67, fasterpam.** -/
theorem C67_fasterpam (M : FloatLoss N fin val u B) {mat : Mat N} {n : Nat} {d : Nat → Nat → N}
    (hm : IsMatrix mat n d) (hd : Dissim n d) {med : List Nat} (hv : ValidMeds n med) (hnd : med.Nodup)
    (hk : 2 ≤ med.length) (maxiter : Nat) {r0 r : SwapResult L}
    (h0 : fasterpam L mat med maxiter = .ok r0) (hr : fasterpam L mat med (maxiter + 1) = .ok r)
    (hit : r.nIter = maxiter + 1) (hq : r.nSwap = r0.nSwap) (hB : ChangesFit (N := N) val u B (2 * n + 1) 2 n d r.med) :
    NearlyOptimal (N := N) val u (2 * n + 1) 2 n d r.med := by
  rw [fasterpam_eq_rand, hm.len] at h0 hr
  exact C67_rand_fasterpam M hm hd hv hnd hk maxiter (List.Perm.refl _) h0 hr hit hq hB

/-! ## PAM and FastPAM1 -/

/-- An iteration without exchange is the last one, and its scan found nothing. -/
theorem pLoopP_quiet (d : Nat → Nat → N) (scan : List Nat → List (Rec N) → L × Nat × Nat) {fuel iter : Nat}
    {s : PState N L} (h : (pLoopP d scan fuel iter s).1.nSwaps + iter < s.nSwaps + (pLoopP d scan fuel iter s).2) :
    rlt (scan (pLoopP d scan fuel iter s).1.med (pLoopP d scan fuel iter s).1.data).1 RLoss.zero = false := by
  induction fuel generalizing iter s with
  | zero => simp [pLoopP] at h
  | succ fuel ih =>
    unfold pLoopP at h ⊢
    dsimp only at h ⊢
    by_cases h1 : rlt (scan s.med s.data).1 RLoss.zero = true
    · simp only [h1, if_true] at h ⊢
      split at h
      · rename_i h2
        simp only [pSwapP] at h
        omega
      · rename_i h2
        rw [if_neg h2]
        refine ih ?_
        simp only [pSwapP] at h ⊢
        omega
    · simp only [h1, if_false, Bool.false_eq_true]

theorem scan_float (M : FloatLoss N fin val u B) (fbs : Nat → L × Nat) (own : Nat → Bool) {js : List Nat}
    (hf : ∀ j ∈ js, own j = false → fin (fbs j).1) (b0 : Nat × Nat) :
    fin (js.foldl (scanStepP fbs own) (RLoss.zero, b0)).1 ∧
      ∀ j ∈ js, own j = false → val (js.foldl (scanStepP fbs own) (RLoss.zero, b0)).1 ≤ val (fbs j).1 := by
  induction js using List.reverseRecOn with
  | nil => exact ⟨M.std.zero_fin, by simp⟩
  | append_singleton js j ih =>
    obtain ⟨i1, i2⟩ := ih fun x hx => hf x (by simp [hx])
    rw [List.foldl_append, List.foldl_cons, List.foldl_nil]
    generalize js.foldl (scanStepP fbs own) ((RLoss.zero : L), b0) = best at *
    unfold scanStepP
    by_cases ho : own j = true
    · simp only [ho, if_true]
      refine ⟨i1, fun x hx hxo => ?_⟩
      rcases List.mem_append.mp hx with hx | hx
      · exact i2 x hx hxo
      · rw [List.mem_singleton.mp hx, ho] at hxo; cases hxo
    · have ho : own j = false := by simpa using ho
      have hj := hf j (by simp) ho
      simp only [ho, if_false, Bool.false_eq_true]
      by_cases hc : rge (fbs j).1 best.1 = true
      · simp only [hc, if_true]
        refine ⟨i1, fun x hx hxo => ?_⟩
        rcases List.mem_append.mp hx with hx | hx
        · exact i2 x hx hxo
        · rw [List.mem_singleton.mp hx]; exact (M.std.rge_iff hj i1).mp hc
      · simp only [hc, if_false, Bool.false_eq_true]
        have hlt := not_le.mp fun h => hc ((M.std.rge_iff hj i1).mpr h)
        refine ⟨hj, fun x hx hxo => ?_⟩
        rcases List.mem_append.mp hx with hx | hx
        · exact hlt.le.trans (i2 x hx hxo)
        · rw [List.mem_singleton.mp hx]

theorem pamFbsP_float (M : FloatLoss N fin val u B) (d : Nat → Nat → N) {k : Nat} {data : List (Rec N)} {j : Nat}
    (hf : ∀ m < k, fin (pamChangeP L d data j m)) :
    fin (pamFbsP L d k data j).1 ∧ ∀ m < k, val (pamFbsP L d k data j).1 ≤ val (pamChangeP L d data j m) := by
  induction k with
  | zero => exact ⟨M.std.zero_fin, by simp⟩
  | succ k ih =>
    obtain ⟨i1, i2⟩ := ih fun m hm => hf m (by omega)
    have hk := hf k (by omega)
    have hstep : pamFbsP L d (k + 1) data j = if rlt (pamChangeP L d data j k) (pamFbsP L d k data j).1 then
        (pamChangeP L d data j k, k) else pamFbsP L d k data j := by
      simp only [pamFbsP, List.range_succ, List.foldl_append, List.foldl_cons, List.foldl_nil]; rfl
    rw [hstep]
    by_cases hc : rlt (pamChangeP L d data j k) (pamFbsP L d k data j).1 = true
    · rw [if_pos hc]
      have hlt := (M.std.rlt_iff hk i1).mp hc
      refine ⟨hk, fun m hm => ?_⟩
      by_cases hmk : m = k
      · rw [hmk]
      · exact hlt.le.trans (i2 m (by omega))
    · rw [if_neg hc]
      have hle := not_lt.mp fun h => hc ((M.std.rlt_iff hk i1).mpr h)
      refine ⟨i1, fun m hm => ?_⟩
      by_cases hmk : m = k
      · rw [hmk]; exact hle
      · exact i2 m (by omega)

theorem FloatLoss.saneZero (M : FloatLoss N fin val u B) : SaneZero L :=
  ⟨by rw [M.std.pcmp _ _ M.std.zero_fin M.std.zero_fin]; simp⟩

theorem own_false {n : Nat} {d : Nat → Nat → N} {med : List Nat} {data : List (Rec N)} (h : CacheOk n d med data)
    {j : Nat} (hj : j < n) (hjm : j ∉ med) : ownP med data j = false := by
  rw [Bool.eq_false_iff]
  exact fun ho => hjm ((ownP_iff h hj).mp ho)

/-- PAM's scan finds nothing. -/
theorem pamScan_quiet (M : FloatLoss N fin val u B) {n : Nat} {d : Nat → Nat → N} (hd : Dissim n d) {med : List Nat}
    {data : List (Rec N)} (h : CacheOk n d med data) (hk : 2 ≤ med.length)
    (hB : ChangesFit (N := N) val u B (n + 1) 1 n d med)
    (hq : rlt (pamScanP (L := L) d n med.length med data).1 RLoss.zero = false) :
    NearlyOptimal (N := N) val u (n + 1) 1 n d med := by
  have happ := fun j (hj : j < n) m (hm : m < med.length) =>
    pamChangeP_float (val := val) M h hd hm hj (by simpa using hB m hm)
  have hfbs := fun j (hj : j < n) => pamFbsP_float (val := val) M d (k := med.length) (data := data) (j := j)
    fun m hm => (happ j hj m hm).fin
  obtain ⟨s1, s2⟩ := scan_float (val := val) M (pamFbsP L d med.length data) (ownP med data) (js := List.range n)
    (fun j hj _ => (hfbs j (List.mem_range.mp hj)).1) (med.length, usizeMax)
  have h0 : 0 ≤ val (pamScanP (L := L) d n med.length med data).1 := by
    rw [← M.std.zero]
    exact not_lt.mp fun hl => Bool.false_ne_true (hq.symm.trans ((M.std.rlt_iff s1 M.std.zero_fin).mpr hl))
  refine nearlyOptimal_of M hd hk h.range fun j hj hjm b hb => ?_
  have h1 := s2 j (List.mem_range.mpr hj) (own_false h hj hjm)
  have h2 := (hfbs j hj).2 b hb
  have h3 := (abs_le.mp (happ j hj b hb).err).2
  have h4 := h0.trans (h1.trans h2)
  rw [Nat.cast_one, one_mul]
  linarith

/-- FastPAM1's scan finds nothing. -/
theorem fastScan_quiet (M : FloatLoss N fin val u B) {n : Nat} {d : Nat → Nat → N} (hd : Dissim n d) {med : List Nat}
    {data : List (Rec N)} (h : CacheOk n d med data) (hk : 2 ≤ med.length)
    (hB : ChangesFit (N := N) val u B (2 * n + 1) 2 n d med)
    (hq : rlt (fastScanP (L := L) d n med.length med data).1 RLoss.zero = false) :
    NearlyOptimal (N := N) val u (2 * n + 1) 2 n d med := by
  have hfbs := fun j (hj : j < n) => fbsP_float (val := val) M h hd (by omega) hj fun m hm => by simpa using hB m hm
  obtain ⟨s1, s2⟩ := scan_float (val := val) M (fbsP d (remP L data med.length) data) (ownP med data)
    (js := List.range n) (fun j hj _ => (hfbs j (List.mem_range.mp hj)).1) (usizeMax, usizeMax)
  have h0 : 0 ≤ val (fastScanP (L := L) d n med.length med data).1 := by
    rw [← M.std.zero]
    exact not_lt.mp fun hl => Bool.false_ne_true (hq.symm.trans ((M.std.rlt_iff s1 M.std.zero_fin).mpr hl))
  refine nearlyOptimal_of M hd hk h.range fun j hj hjm b hb => ?_
  have h1 := s2 j (List.mem_range.mpr hj) (own_false h hj hjm)
  simpa using (hfbs j hj).2.1 (h0.trans h1) b hb

/-- **C67, pam_swap**: fewer exchanges than iterations, that is, the last iteration exchanged nothing. -/
theorem C67_pam_swap (M : FloatLoss N fin val u B) {mat : Mat N} {n : Nat} {d : Nat → Nat → N}
    (hm : IsMatrix mat n d) (hd : Dissim n d) {med : List Nat} (hv : ValidMeds n med) (hnd : med.Nodup)
    (hk : 2 ≤ med.length) (maxiter : Nat) {r : SwapResult L} (hr : pamSwap L mat med maxiter = .ok r)
    (hq : r.nSwap < r.nIter) (hB : ChangesFit (N := N) val u B (n + 1) 1 n d r.med) :
    NearlyOptimal (N := N) val u (n + 1) 1 n d r.med := by
  have := M.saneZero
  rw [pamSwap_eq hm hv, pamSwapP, pOptP_many d n _ hk] at hr
  cases hr
  obtain ⟨i1, i2⟩ := pLoopP_ok hd (pamScanP_sound (L := L) n med.length d) (fuel := maxiter) (iter := 0)
    (s := ⟨med, initDataP d n med, nearLossP L (initDataP d n med), 0⟩) (initDataP_ok hd hk hv hnd) rfl
  have h := pLoopP_quiet d (pamScanP (L := L) d n med.length) (fuel := maxiter) (iter := 0)
    (s := ⟨med, initDataP d n med, nearLossP L (initDataP d n med), 0⟩) (by simpa [pResultP] using hq)
  conv at h => enter [1, 1, 1, 3]; rw [← i2]
  exact pamScan_quiet M hd i1 (hk.trans i2.ge) hB h

/-- **C67, fastpam1.** -/
theorem C67_fastpam1 (M : FloatLoss N fin val u B) {mat : Mat N} {n : Nat} {d : Nat → Nat → N}
    (hm : IsMatrix mat n d) (hd : Dissim n d) {med : List Nat} (hv : ValidMeds n med) (hnd : med.Nodup)
    (hk : 2 ≤ med.length) (maxiter : Nat) {r : SwapResult L} (hr : fastpam1 L mat med maxiter = .ok r)
    (hq : r.nSwap < r.nIter) (hB : ChangesFit (N := N) val u B (2 * n + 1) 2 n d r.med) :
    NearlyOptimal (N := N) val u (2 * n + 1) 2 n d r.med := by
  have := M.saneZero
  rw [fastpam1_eq hm hv, fastpam1P, pOptP_many d n _ hk] at hr
  cases hr
  obtain ⟨i1, i2⟩ := pLoopP_ok hd (fastScanP_sound (L := L) (n := n) (k := med.length) (by omega) d) (fuel := maxiter)
    (iter := 0) (s := ⟨med, initDataP d n med, nearLossP L (initDataP d n med), 0⟩) (initDataP_ok hd hk hv hnd) rfl
  have h := pLoopP_quiet d (fastScanP (L := L) d n med.length) (fuel := maxiter) (iter := 0)
    (s := ⟨med, initDataP d n med, nearLossP L (initDataP d n med), 0⟩) (by simpa [pResultP] using hq)
  conv at h => enter [1, 1, 1, 3]; rw [← i2]
  exact fastScan_quiet M hd i1 (hk.trans i2.ge) hB h

/-! ## Non-vacuity: `f64` -/

theorem tenth_valid : ValidMeds 5 [0, 1] := ⟨⟨by decide, by decide, by decide, by decide⟩, by decide⟩

/-- The last pass of this run exchanges nothing, and the theorem applies. -/
example : ∃ r, fasterpam (Ieee binary64) (ofRows (tenths tenthRows)) [0, 1] 2 = .ok r ∧ r.med = [4, 1] ∧
    NearlyOptimal (L := Ieee binary64) Ieee.val (1 / 2 ^ 53) 11 2 5 tenthD r.med := by
  have h0 : fasterpam (Ieee binary64) (ofRows (tenths tenthRows)) [0, 1] 1 =
      .ok ⟨.num (3602879701896397 / 2251799813685248), [1, 1, 1, 1, 0], 1, 3, [4, 1]⟩ := by decide +kernel
  have hr : fasterpam (Ieee binary64) (ofRows (tenths tenthRows)) [0, 1] 2 =
      .ok ⟨.num (3602879701896397 / 2251799813685248), [1, 1, 1, 1, 0], 2, 3, [4, 1]⟩ := by decide +kernel
  exact ⟨_, hr, rfl, C67_fasterpam (ieee_floatLoss binary64) tenth_isMatrix tenth_dissim tenth_valid (by decide)
    (by decide) 1 h0 hr rfl rfl (by unfold ChangesFit; decide +kernel)⟩

example : ∃ r, fastpam1 (Ieee binary64) (ofRows (tenths tenthRows)) [0, 1] 9 = .ok r ∧ r.med = [4, 1] ∧
    NearlyOptimal (L := Ieee binary64) Ieee.val (1 / 2 ^ 53) 11 2 5 tenthD r.med := by
  have hr : fastpam1 (Ieee binary64) (ofRows (tenths tenthRows)) [0, 1] 9 =
      .ok ⟨.num (3602879701896397 / 2251799813685248), [1, 1, 1, 1, 0], 2, 1, [4, 1]⟩ := by decide +kernel
  exact ⟨_, hr, rfl, C67_fastpam1 (ieee_floatLoss binary64) tenth_isMatrix tenth_dissim tenth_valid (by decide)
    (by decide) 9 hr (by decide) (by unfold ChangesFit; decide +kernel)⟩

example : ∃ r, pamSwap (Ieee binary64) (ofRows (tenths tenthRows)) [0, 2] 9 = .ok r ∧ r.med = [4, 2] ∧
    NearlyOptimal (L := Ieee binary64) Ieee.val (1 / 2 ^ 53) 6 1 5 tenthD r.med := by
  have hr : pamSwap (Ieee binary64) (ofRows (tenths tenthRows)) [0, 2] 9 =
      .ok ⟨.num (3602879701896397 / 2251799813685248), [1, 1, 1, 1, 0], 2, 1, [4, 2]⟩ := by decide +kernel
  exact ⟨_, hr, rfl, C67_pam_swap (ieee_floatLoss binary64) tenth_isMatrix tenth_dissim
    ⟨⟨by decide, by decide, by decide, by decide⟩, by decide⟩ (by decide)
    (by decide) 9 hr (by decide) (by unfold ChangesFit; decide +kernel)⟩

/-- **The error cannot be removed.** Distances that are multiples of 0.1, as `f64`: FasterPAM and FastPAM1 end with
medoids for which an exchange strictly improves the exact total deviation. -/
theorem C67_not_exact : ∃ (mat : Mat (Finite binary64)) (n : Nat) (d : Nat → Nat → Finite binary64) (med : List Nat)
    (r1 r2 : SwapResult (Ieee binary64)),
    IsMatrix mat n d ∧ Dissim n d ∧ ValidMeds n med ∧ med.Nodup ∧
    fasterpam (Ieee binary64) mat med 100 = .ok r1 ∧ fastpam1 (Ieee binary64) mat med 100 = .ok r2 ∧
    r1.nIter < 100 ∧ r2.nSwap < r2.nIter ∧
    ∀ r ∈ [r1, r2], ∃ b j, b < r.med.length ∧ j < n ∧
      exactDev (L := Ieee binary64) (Finite binary64) Ieee.val n d (r.med.set b j) <
        exactDev (L := Ieee binary64) (Finite binary64) Ieee.val n d r.med :=
  ⟨ofRows (tenths tenthRows), 5, tenthD, [0, 1], ⟨.num (3602879701896397 / 2251799813685248), [1, 1, 1, 1, 0], 2, 3, [4, 1]⟩,
    ⟨.num (3602879701896397 / 2251799813685248), [1, 1, 1, 1, 0], 2, 1, [4, 1]⟩,
    tenth_isMatrix, tenth_dissim, tenth_valid, by decide, by decide +kernel, by decide +kernel,
    by decide, by decide, fun r hr => by
      have h : exactDev (L := Ieee binary64) (Finite binary64) Ieee.val 5 tenthD ([4, 1].set 1 2) <
        exactDev (L := Ieee binary64) (Finite binary64) Ieee.val 5 tenthD [4, 1] := by decide +kernel
      simp only [List.mem_cons, List.not_mem_nil, or_false] at hr
      rcases hr with rfl | rfl <;> exact ⟨1, 2, by decide, by decide, h⟩⟩

/-! ## The run must end with a pass without exchange

The loops also stop when the computed loss does not decrease. In floating point this happens although exchanges were made,
if their gain is absorbed by a large loss; then far better exchanges may remain.
-/

/-- Natural numbers as `f64` distances. -/
def natMat (rows : List (List ℕ)) : Mat (Finite binary64) := ofRows (rows.map fun l => l.map fun x : ℕ => .ofRat binary64 x)

def natDist (rows : List (List ℕ)) (x y : Nat) : Finite binary64 := .ofRat binary64 ((rows.getD x []).getD y 0 : ℕ)

def earlyRows : List (List ℕ) :=
  [[0, 2 ^ 62, 1, 2 ^ 62, 2 ^ 60, 2 ^ 62],
   [2 ^ 62, 0, 2 ^ 62, 2 ^ 62, 2 ^ 62, 1],
   [1, 2 ^ 62, 0, 1, 2 ^ 62, 2 ^ 62],
   [2 ^ 62, 2 ^ 62, 1, 0, 2 ^ 62, 1],
   [2 ^ 60, 2 ^ 62, 2 ^ 62, 2 ^ 62, 0, 2 ^ 62],
   [2 ^ 62, 1, 2 ^ 62, 1, 2 ^ 62, 0]]

def earlyPamRows : List (List ℕ) :=
  [[0, 2 ^ 62, 1, 2 ^ 62, 2 ^ 62, 2 ^ 62, 2 ^ 60],
   [2 ^ 62, 0, 2 ^ 62, 1, 2 ^ 62, 2, 2 ^ 62],
   [1, 2 ^ 62, 0, 2 ^ 62, 1, 2 ^ 62, 2 ^ 62],
   [2 ^ 62, 1, 2 ^ 62, 0, 1, 1, 2 ^ 62],
   [2 ^ 62, 2 ^ 62, 1, 1, 0, 2 ^ 62, 2 ^ 62],
   [2 ^ 62, 2, 2 ^ 62, 1, 2 ^ 62, 0, 2 ^ 62],
   [2 ^ 60, 2 ^ 62, 2 ^ 62, 2 ^ 62, 2 ^ 62, 2 ^ 62, 0]]

theorem natMat_isMatrix (rows : List (List ℕ)) (h : ∀ l ∈ rows, l.length = rows.length) :
    IsMatrix (natMat rows) rows.length (natDist rows) := by
  refine ⟨by simp [natMat, ofRows, Array2.toMat], by simp [natMat, ofRows, Array2.toMat], fun x y hx hy => ?_⟩
  have h1 : (rows.map (·.map fun x : ℕ => Finite.ofRat binary64 x)).getD x [] =
      rows[x].map fun x : ℕ => Finite.ofRat binary64 x := by simp [hx]
  have h2 : y < rows[x].length := by rw [h _ (List.getElem_mem hx)]; exact hy
  simp [natMat, ofRows, Array2.toMat, natDist, hx, h2, hy]

/-- **Finding.** In `f64`, FasterPAM and FastPAM1 stop after one iteration, long before the limit, although one more
exchange would reduce the exact total deviation to less than a third. -/
theorem C67_early_stop : ∃ (mat : Mat (Finite binary64)) (n : Nat) (d : Nat → Nat → Finite binary64) (med : List Nat)
    (r1 r2 : SwapResult (Ieee binary64)),
    IsMatrix mat n d ∧ Dissim n d ∧ Symm n d ∧ ValidMeds n med ∧ med.Nodup ∧
    fasterpam (Ieee binary64) mat med 100 = .ok r1 ∧ fastpam1 (Ieee binary64) mat med 100 = .ok r2 ∧
    r1.nIter = 1 ∧ r2.nIter = 1 ∧ ∀ r ∈ [r1, r2], ∃ b j, b < r.med.length ∧ j < n ∧
      3 * exactDev (L := Ieee binary64) (Finite binary64) Ieee.val n d (r.med.set b j) <
        exactDev (L := Ieee binary64) (Finite binary64) Ieee.val n d r.med := by
  have hd : ∀ x < 6, natDist earlyRows x x = 0 := by decide +kernel
  have hn : ∀ x < 6, ∀ y < 6, 0 ≤ natDist earlyRows x y := by decide +kernel
  have hs : ∀ x < 6, ∀ y < 6, natDist earlyRows x y = natDist earlyRows y x := by decide +kernel
  refine ⟨natMat earlyRows, 6, natDist earlyRows, [1, 2], ⟨.num (2 ^ 62), [1, 0, 1, 1, 1, 0], 1, 1, [5, 2]⟩,
    ⟨.num (2 ^ 62), [1, 0, 1, 1, 1, 0], 1, 1, [5, 2]⟩, natMat_isMatrix earlyRows (by decide), ⟨hd, fun x y hx hy => hn x hx y hy⟩,
    fun x y hx hy => hs x hx y hy, ⟨⟨by decide, by decide, by decide, by decide⟩, by decide⟩, by decide, by decide +kernel,
    by decide +kernel, rfl, rfl, fun r hr => ?_⟩
  have h : 3 * exactDev (L := Ieee binary64) (Finite binary64) Ieee.val 6 (natDist earlyRows) ([5, 2].set 1 0) <
    exactDev (L := Ieee binary64) (Finite binary64) Ieee.val 6 (natDist earlyRows) [5, 2] := by decide +kernel
  simp only [List.mem_cons, List.not_mem_nil, or_false] at hr
  rcases hr with rfl | rfl <;> exact ⟨1, 0, by decide, by decide, h⟩

/-- **Finding**, the same for PAM. -/
theorem C67_early_stop_pam : ∃ (mat : Mat (Finite binary64)) (n : Nat) (d : Nat → Nat → Finite binary64) (med : List Nat)
    (r : SwapResult (Ieee binary64)),
    IsMatrix mat n d ∧ Dissim n d ∧ Symm n d ∧ ValidMeds n med ∧ med.Nodup ∧
    pamSwap (Ieee binary64) mat med 100 = .ok r ∧ r.nIter = 1 ∧ ∃ b j, b < r.med.length ∧ j < n ∧
      3 * exactDev (L := Ieee binary64) (Finite binary64) Ieee.val n d (r.med.set b j) <
        exactDev (L := Ieee binary64) (Finite binary64) Ieee.val n d r.med := by
  have hd : ∀ x < 7, natDist earlyPamRows x x = 0 := by decide +kernel
  have hn : ∀ x < 7, ∀ y < 7, 0 ≤ natDist earlyPamRows x y := by decide +kernel
  have hs : ∀ x < 7, ∀ y < 7, natDist earlyPamRows x y = natDist earlyPamRows y x := by decide +kernel
  exact ⟨natMat earlyPamRows, 7, natDist earlyPamRows, [1, 2], ⟨.num (2 ^ 62), [1, 0, 1, 0, 1, 0, 1], 1, 1, [3, 2]⟩,
    natMat_isMatrix earlyPamRows (by decide), ⟨hd, fun x y hx hy => hn x hx y hy⟩, fun x y hx hy => hs x hx y hy,
    ⟨⟨by decide, by decide, by decide, by decide⟩, by decide⟩, by decide, by decide +kernel, rfl, 1, 0, by decide, by decide,
    by decide +kernel⟩

end KMedoids
