import Verif.Proofs.FloatPar
import Verif.Props.C70

/-!
# C73: par_fasterpam under rounding, for every schedule

The guarantees C67, C69 and C70 for the parallel version. The number of threads, the order in which they merge and the
shape of the reductions may differ from call to call; `p` is the largest number of threads.
-/

set_option linter.unusedSectionVars false
set_option linter.overlappingInstances false

namespace KMedoids

variable {N L K : Type} [LinearOrder N] [Zero N] [RDist N] [LawfulDist N] [RLoss L] [RFrom N L]
  [Field K] [LinearOrder K] [IsStrictOrderedRing K]
open RFrom (conv)

variable {fin : L → Prop} {val : L → K} {u B : K}

/-- Every search runs with between one and `p` threads, each of which merges once. -/
def AtMostThreads (p : Nat) (scF : Nat → Nat → Sched) : Prop := ∀ i j, (scF i j).Ok ∧ (scF i j).parts ≤ p

/-! ## Candidates -/

/-- One candidate. -/
def parCandP (scF scS : Nat → Sched) (d : Nat → Nat → N) (n : Nat) (s : FPState N L) (j : Nat) : Option (FPState N L) :=
  if ownP s.med s.data j then none
  else if rge (parFbsP (scF j) d n s.rem s.data j).1 RLoss.zero then none
  else some (parSwapP (scS j) d s (parFbsP (scF j) d n s.rem s.data j).2 j)

theorem parPassP_eq_passG (scF scS : Nat → Sched) (d : Nat → Nat → N) (n : Nat) (js : List Nat) (s : FPState N L) :
    parPassP scF scS d n js s = passG (·.lastswap) (parCandP scF scS d n) js s := by
  induction js generalizing s with
  | nil => rfl
  | cons j js ih =>
    unfold parPassP passG parCandP
    by_cases h1 : j = s.lastswap
    · simp only [h1, if_true]
    · simp only [h1, if_false]
      by_cases h2 : ownP s.med s.data j = true
      · simp only [h2, if_true]; exact ih s
      · simp only [h2, if_false, Bool.false_eq_true]
        by_cases h3 : rge (parFbsP (scF j) d n s.rem s.data j).1 RLoss.zero = true
        · simp only [h3, if_true]; exact ih s
        · simp only [h3, if_false, Bool.false_eq_true]; exact ih _

/-- Object `j` is a medoid, or under some schedule the computed change is not negative. -/
def ParRej (p : Nat) (d : Nat → Nat → N) (n : Nat) (s : FPState N L) (j : Nat) : Prop :=
  j ∈ s.med ∨ ∃ sc : Sched, sc.Ok ∧ sc.parts ≤ p ∧ rge (parFbsP sc d n s.rem s.data j).1 RLoss.zero = true

/-- The invariant. -/
def ParInv (n k : Nat) (d : Nat → Nat → N) (s : FPState N L) : Prop := ParOk n k d s ∧ s.rem = remP L s.data k

theorem parCand_rej {p n k : Nat} {d : Nat → Nat → N} (hd : Dissim n d) (hk : 1 ≤ k) {scF scS : Nat → Sched}
    (hF : ∀ j, (scF j).Ok ∧ (scF j).parts ≤ p) :
    CandRej n (ParInv (L := L) n k d) (·.lastswap) (·.nSwaps) (parCandP scF scS d n) (ParRej p d n) where
  none s j hs hj h := by
    unfold parCandP at h
    by_cases h2 : ownP s.med s.data j = true
    · exact Or.inl ((ownP_iff hs.1.cache hj).mp h2)
    · simp only [h2, if_false, Bool.false_eq_true] at h
      by_cases h3 : rge (parFbsP (scF j) d n s.rem s.data j).1 RLoss.zero = true
      · exact Or.inr ⟨scF j, (hF j).1, (hF j).2, h3⟩
      · simp [h3] at h
  some s j s' hs hj h := by
    unfold parCandP at h
    by_cases h2 : ownP s.med s.data j = true
    · simp [h2] at h
    · simp only [h2, if_false, Bool.false_eq_true] at h
      by_cases h3 : rge (parFbsP (scF j) d n s.rem s.data j).1 RLoss.zero = true
      · simp [h3] at h
      · simp only [h3, if_false, Bool.false_eq_true, Option.some.injEq] at h
        subst h
        have hb : (parFbsP (scF j) d n s.rem s.data j).2 < k := by
          have := parFbsP_lt (scF j) d n (rem := s.rem) s.data j (by rw [hs.1.remLen]; exact hk)
          rwa [hs.1.remLen] at this
        have hjm : j ∉ s.med := fun hm => h2 ((ownP_iff hs.1.cache hj).mpr hm)
        refine ⟨⟨parSwapP_any (scS j) hd hs.1.toFPOk hb hj hjm, by simp [parSwapP, hs.1.remLen]⟩, rfl, rfl, Or.inl ?_⟩
        exact List.mem_of_getElem? (i := (parFbsP (scF j) d n s.rem s.data j).2) (by simp [parSwapP, hs.1.medLen, hb])

theorem parInitP_inv (sc : Sched) {n : Nat} {d : Nat → Nat → N} (hd : Dissim n d) {med : List Nat}
    (hv : ValidMeds n med) (hk : 2 ≤ med.length) (hnd : med.Nodup) :
    ParInv n med.length d (parInitP L sc d n med) := ⟨parInitP_ok sc hd hv hk hnd, rfl⟩

/-! ## A last pass without exchange -/

section quiet
variable {n k p : Nat} {d : Nat → Nat → N} {scF scS : Nat → Nat → Sched}

theorem parLoopP_succ {seq : List Nat} {fuel iter : Nat} {s : FPState N L}
    (h : (parLoopP scF scS d n seq (fuel + 1) iter s).2 = iter + fuel + 1) :
    (parLoopP scF scS d n seq (fuel + 1) iter s).1 =
      parPassP (scF (iter + fuel)) (scS (iter + fuel)) d n seq (parLoopP scF scS d n seq fuel iter s).1 := by
  induction fuel generalizing iter s with
  | zero =>
    simp only [parLoopP, Nat.add_zero]
    split <;> rfl
  | succ fuel ih =>
    rw [parLoopP] at h ⊢
    by_cases hc : ((parPassP (scF iter) (scS iter) d n seq s).nSwaps == s.nSwaps ||
        rge (parPassP (scF iter) (scS iter) d n seq s).loss s.loss) = true
    · rw [if_pos hc] at h; dsimp only at h; omega
    · rw [if_neg hc] at h ⊢
      rw [ih (by rw [h]; omega), show iter + 1 + fuel = iter + (fuel + 1) by omega]
      conv_rhs => rw [parLoopP]
      rw [if_neg hc]

theorem parLoopP_quiet (hd : Dissim n d) (hk : 1 ≤ k) (hF : AtMostThreads p scF) {seq : List Nat}
    (hseq : ∀ j ∈ seq, j < n) (hnd : seq.Nodup) {s : FPState N L} (hs : ParInv n k d s)
    (hh : HistR (fun s : FPState N L => s.lastswap) (ParRej p d n) seq s) {fuel iter : Nat}
    (hit : (parLoopP scF scS d n seq (fuel + 1) iter s).2 = iter + fuel + 1)
    (hq : (parLoopP scF scS d n seq (fuel + 1) iter s).1.nSwaps = (parLoopP scF scS d n seq fuel iter s).1.nSwaps) :
    ParInv n k d (parLoopP scF scS d n seq (fuel + 1) iter s).1 ∧
      ∀ x ∈ seq, ParRej p d n (parLoopP scF scS d n seq (fuel + 1) iter s).1 x := by
  have hinv : ∀ i (s : FPState N L), ParInv n k d s ∧ HistR (fun s : FPState N L => s.lastswap) (ParRej p d n) seq s →
      ParInv n k d (parPassP (scF i) (scS i) d n seq s) ∧
        HistR (fun s : FPState N L => s.lastswap) (ParRej p d n) seq (parPassP (scF i) (scS i) d n seq s) := by
    rintro i s ⟨h1, h2⟩
    have H := parCand_rej (L := L) hd hk (scS := scS i) (hF i)
    rw [parPassP_eq_passG]
    refine ⟨(passG_count H hseq h1).1, ?_⟩
    rcases passG_passR H hseq hnd h1 (done := []) rfl h2 (by simp) with ⟨e, -⟩ | ⟨-, h⟩
    · rw [e]; exact h2
    · exact h
  have hloop : ∀ (fuel iter : Nat) (s : FPState N L),
      ParInv n k d s ∧ HistR (fun s : FPState N L => s.lastswap) (ParRej p d n) seq s →
      ParInv n k d (parLoopP scF scS d n seq fuel iter s).1 ∧
        HistR (fun s : FPState N L => s.lastswap) (ParRej p d n) seq (parLoopP scF scS d n seq fuel iter s).1 := by
    intro fuel
    induction fuel with
    | zero => intro iter s h; exact h
    | succ fuel ih =>
      intro iter s h
      have h' := hinv iter s h
      unfold parLoopP
      dsimp only
      split
      · exact h'
      · exact ih _ _ h'
  obtain ⟨h1, h2⟩ := hloop fuel iter s ⟨hs, hh⟩
  rw [parLoopP_succ hit] at hq ⊢
  have H := parCand_rej (L := L) hd hk (scS := scS (iter + fuel)) (hF (iter + fuel))
  rw [parPassP_eq_passG] at hq ⊢
  rcases passG_passR H hseq hnd h1 (done := []) rfl h2 (by simp) with ⟨e, h⟩ | ⟨h, -⟩
  · rw [e]; exact ⟨h1, h⟩
  · omega

end quiet

/-- **C73, nearly local optima.** `r0` is the result with the iteration limit `maxiter`, `r` the result with one more pass;
the additional pass was made (`nIter`) and exchanged nothing (`nSwap`). -/
theorem C73_nearlyOptimal (M : FloatLoss N fin val u B) (sc0 : Sched) {scF : Nat → Nat → Sched}
    (scS : Nat → Nat → Sched) {p : Nat} (hF : AtMostThreads p scF) {mat : Mat N} {n : Nat} {d : Nat → Nat → N}
    (hm : IsMatrix mat n d) (hd : Dissim n d) {med : List Nat} (hv : ValidMeds n med) (hnd : med.Nodup)
    (hk : 2 ≤ med.length) (maxiter : Nat) {seq : List Nat} (hseq : seq.Perm (List.range n)) {r0 r : SwapResult L}
    (h0 : parFasterpam L sc0 scF scS mat med maxiter seq = .ok r0)
    (hr : parFasterpam L sc0 scF scS mat med (maxiter + 1) seq = .ok r)
    (hit : r.nIter = maxiter + 1) (hq : r.nSwap = r0.nSwap) (hB : ChangesFit (N := N) val u B (n + p + 1) 2 n d r.med) :
    NearlyOptimal (N := N) val u (n + p + 1) 2 n d r.med := by
  have hs : ∀ j ∈ seq, j < n := fun j hj => List.mem_range.mp (hseq.mem_iff.mp hj)
  obtain ⟨a1, -, a3⟩ := parFasterpam_any (L := L) sc0 scF scS hm hv maxiter hs
  obtain ⟨b1, -, b3⟩ := parFasterpam_any (L := L) sc0 scF scS hm hv (maxiter + 1) hs
  rw [a1, a3 hk] at h0
  rw [b1, b3 hk] at hr
  cases h0; cases hr
  dsimp only at *
  have hh : HistR (fun s : FPState N L => s.lastswap) (ParRej p d n) seq (parInitP L sc0 d n med) :=
    Or.inl fun h => lt_irrefl n (hs n h)
  obtain ⟨⟨i1, i2⟩, i3⟩ := parLoopP_quiet (L := L) (k := med.length) hd (by omega) hF hs
    (hseq.nodup_iff.mpr List.nodup_range) (parInitP_inv sc0 hd hv hk hnd) hh (fuel := maxiter) (iter := 0)
    (by rw [hit, Nat.zero_add]) hq
  generalize (parLoopP scF scS d n seq (maxiter + 1) 0 (parInitP L sc0 d n med)).1 = s at *
  refine nearlyOptimal_of M hd (by rw [i1.medLen]; exact hk) i1.cache.range fun j hj hjm => ?_
  rcases i3 j (hseq.mem_iff.mpr (List.mem_range.mpr hj)) with h | ⟨sc, h1, h2, h⟩
  · exact absurd h hjm
  · obtain ⟨f1, f2, -⟩ := parFbsP_float (val := val) M i1.cache hd (by rw [i1.medLen]; omega) h1 h2 hj
      (fun m hm => by simpa using hB m hm)
    rw [i2, ← i1.medLen, M.std.rge_iff f1 M.std.zero_fin, M.std.zero] at h
    simpa using f2 h

/-- **C73, factor five** for metrics. -/
theorem C73_metric (M : FloatLoss N fin val u B) (sc0 : Sched) {scF : Nat → Nat → Sched} (scS : Nat → Nat → Sched)
    {p : Nat} (hF : AtMostThreads p scF) {mat : Mat N} {n : Nat} {d : Nat → Nat → N}
    (hm : IsMatrix mat n d) (hd : Dissim n d) {W η : K} (hW : AtMost val W n d) (hmet : NearMetric val η n d)
    (hB : (1 + u) ^ (n + p + 1) * (2 * (n * W)) ≤ B) {med : List Nat} (hv : ValidMeds n med) (hnd : med.Nodup)
    (hk : 2 ≤ med.length) (maxiter : Nat) {seq : List Nat} (hseq : seq.Perm (List.range n)) {r0 r : SwapResult L}
    (h0 : parFasterpam L sc0 scF scS mat med maxiter seq = .ok r0)
    (hr : parFasterpam L sc0 scF scS mat med (maxiter + 1) seq = .ok r)
    (hit : r.nIter = maxiter + 1) (hq : r.nSwap = r0.nSwap)
    {other : List Nat} (hne : other ≠ []) (hor : ∀ c ∈ other, c < n) (ho : other.length ≤ med.length) :
    exactDev N val n d r.med ≤ 5 * exactDev N val n d other +
      (other.length * roundErr u W (n + p + 1) 2 n + n * (4 * η)) := by
  have hs : ∀ j ∈ seq, j < n := fun j hj => List.mem_range.mp (hseq.mem_iff.mp hj)
  obtain ⟨b1, b2, b3⟩ := parFasterpam_any (L := L) sc0 scF scS hm hv (maxiter + 1) hs
  have hsh := (b2 hk).shape
  have hr' := hr
  rw [b1, b3 hk] at hr'
  have hl : r.med.length = med.length := by cases hr'; exact hsh.medLen
  have hrg : ∀ c ∈ r.med, c < n := by cases hr'; exact hsh.medRange
  have h := C73_nearlyOptimal M sc0 scS hF hm hd hv hnd hk maxiter hseq h0 hr hit hq
    (changesFit_of M hW (hk.trans hl.ge) hrg (by simpa using hB))
  exact C70_nearlyOptimal M hd hmet hrg (h.le_roundErr M hW (hk.trans hl.ge) hrg) hne hor (hl ▸ ho)

/-! ## Not worse than the initial medoids -/

section step
variable {n k p : Nat} {d : Nat → Nat → N} {W : K}

theorem bracket_accurate (M : FloatLoss N fin val u B) (hd : Dissim n d) {med : List Nat}
    (hne : med ≠ []) (hr : ∀ c ∈ med, c < n) (hW : AtMost val W n d) (hB : (1 + u) ^ (n - 1) * (n * W) ≤ B) {x : L}
    (hx : BracketSum (devs L n d med) x) :
    fin x ∧ |val x - exactDev N val n d med| ≤ ((1 + u) ^ (n - 1) - 1) * (n * W) := by
  have h1 := M.std.one_le_pow (n - 1)
  have h2 := exactDev_le hW hne hr
  have h := appr_devs (val := val) M hd hne hr hx ((mul_le_mul_of_nonneg_left h2 (by linarith)).trans hB)
  exact ⟨h.fin, h.err.trans (mul_le_mul_of_nonneg_left h2 (by linarith))⟩

theorem parCand_step (M : FloatLoss N fin val u B) (hd : Dissim n d) (hk : 2 ≤ k) (hW : AtMost val W n d)
    (hB : (1 + u) ^ (n + p + 1) * (2 * (n * W)) ≤ B) {scF scS : Nat → Sched} (hF : ∀ j, (scF j).Ok ∧ (scF j).parts ≤ p)
    {s s' : FPState N L} (hs : ParInv n k d s) {j : Nat} (hj : j < n) (h : parCandP scF scS d n s j = some s') :
    exactDev N val n d s'.med ≤ exactDev N val n d s.med + roundErr u W (n + p + 1) 2 n := by
  obtain ⟨h2, hne, hr⟩ := hs.1.toFPOk.two hk
  have hrem := hs.2
  have hu := M.std.one_le_pow (n + p + 1)
  unfold parCandP at h
  by_cases h1 : ownP s.med s.data j = true
  · simp [h1] at h
  simp only [h1, if_false, Bool.false_eq_true] at h
  by_cases h3 : rge (parFbsP (scF j) d n s.rem s.data j).1 RLoss.zero = true
  · simp [h3] at h
  simp only [h3, if_false, Bool.false_eq_true, Option.some.injEq] at h
  subst h
  have hml := hs.1.medLen
  have hb : (parFbsP (scF j) d n s.rem s.data j).2 < s.med.length := by
    have := parFbsP_lt (scF j) d n (rem := s.rem) s.data j (by rw [hs.1.remLen]; omega)
    rwa [hs.1.remLen, ← hml] at this
  rw [hrem, ← hml] at h3 hb
  obtain ⟨f1, -, f3⟩ := parFbsP_float (val := val) M hs.1.cache hd (by omega) (hF j).1 (hF j).2 hj fun m hm =>
    (mul_le_mul_of_nonneg_left (mul_le_mul_of_nonneg_left (exactDev_erase_le hW h2 hr hm) (by norm_num))
      (by linarith)).trans hB
  have h0 := f3 fun h => h3 ((M.std.rge_iff f1 M.std.zero_fin).mpr (by rw [M.std.zero]; exact h))
  have h4 := mul_le_mul_of_nonneg_left (exactDev_erase_le hW h2 hr hb) (show (0 : K) ≤ 2 by norm_num)
  have h5 := mul_le_mul_of_nonneg_left h4 (show (0 : K) ≤ (1 + u) ^ (n + p + 1) - 1 by linarith)
  show exactDev N val n d (s.med.set _ j) ≤ _
  rw [hrem, ← hml, roundErr, Nat.cast_ofNat]
  linarith

/-- One pass: at most one exchange per object, each with a small error. -/
theorem parPass_step (M : FloatLoss N fin val u B) (hd : Dissim n d) (hk : 2 ≤ k) (hW : AtMost val W n d)
    (hB : (1 + u) ^ (n + p + 1) * (2 * (n * W)) ≤ B) {scF scS : Nat → Sched} (hF : ∀ j, (scF j).Ok ∧ (scF j).parts ≤ p)
    {js : List Nat} (hjs : ∀ j ∈ js, j < n) {s : FPState N L} (hs : ParInv n k d s) :
    ∃ c ≤ js.length, (parPassP scF scS d n js s).nSwaps = s.nSwaps + c ∧ ParInv n k d (parPassP scF scS d n js s) ∧
      exactDev N val n d (parPassP scF scS d n js s).med ≤
        exactDev N val n d s.med + c * roundErr u W (n + p + 1) 2 n := by
  rw [parPassP_eq_passG]
  have H := parCand_rej (L := L) hd (show 1 ≤ k by omega) (scS := scS) hF
  induction js generalizing s with
  | nil => exact ⟨0, le_rfl, rfl, hs, by simp [passG]⟩
  | cons j js ih =>
    have hj := hjs j (by simp)
    have ih' := fun {s : FPState N L} => ih (s := s) fun x hx => hjs x (by simp [hx])
    unfold passG
    split
    · exact ⟨0, Nat.zero_le _, rfl, hs, by simp⟩
    · split
      · obtain ⟨c, c1, c2⟩ := ih' hs
        exact ⟨c, c1.trans (by simp), c2⟩
      · rename_i s' hc
        obtain ⟨a1, -, a3, -⟩ := H.some s j s' hs hj hc
        obtain ⟨c, c1, c2, c3, c5⟩ := ih' a1
        have h1 := parCand_step M hd hk hW hB hF hs hj hc
        refine ⟨c + 1, by simpa using c1, by rw [c2, a3]; omega, c3, ?_⟩
        push_cast
        linarith

theorem parLoop_step (M : FloatLoss N fin val u B) (hd : Dissim n d) (hk : 2 ≤ k) (hn : 1 ≤ n) (hW : AtMost val W n d)
    (hB : (1 + u) ^ (n + p + 1) * (2 * (n * W)) ≤ B) {scF scS : Nat → Nat → Sched} (hF : AtMostThreads p scF)
    {seq : List Nat} (hseq : ∀ j ∈ seq, j < n) {fuel iter : Nat}
    {s : FPState N L} (hs : ParInv n k d s)
    {T : K} {x : L} (hx : |val x - T| ≤ ((1 + u) ^ (n - 1) - 1) * (n * W)) (hxs : val s.loss ≤ val x) :
    (∃ c, (parLoopP scF scS d n seq fuel iter s).1.nSwaps = s.nSwaps + c ∧
      exactDev N val n d (parLoopP scF scS d n seq fuel iter s).1.med ≤
        exactDev N val n d s.med + c * roundErr u W (n + p + 1) 2 n) ∧
    exactDev N val n d (parLoopP scF scS d n seq fuel iter s).1.med ≤
      T + ((seq.length : K) + 1) * roundErr u W (n + p + 1) 2 n := by
  obtain ⟨hW0, hE⟩ := roundErr_nonneg (u := u) M hd hn hW (n + p + 1) 2
  have hB' : (1 + u) ^ (n - 1) * (n * W) ≤ B := by
    have h1 := M.std.pow_mono (show n - 1 ≤ n + p + 1 by omega)
    have h2 := M.std.one_le_pow (n - 1)
    have hnW : 0 ≤ (n : K) * W := by positivity
    exact (mul_le_mul h1 (show (n : K) * W ≤ 2 * (n * W) by linarith) hnW (by linarith)).trans hB
  have acc : ∀ {s : FPState N L}, ParInv n k d s →
      fin s.loss ∧ |val s.loss - exactDev N val n d s.med| ≤ ((1 + u) ^ (n - 1) - 1) * (n * W) := fun {s} hs => by
    obtain ⟨-, hne, hr⟩ := hs.1.toFPOk.two hk
    exact bracket_accurate M hd hne hr hW hB' (hs.1.loss M.conv_zero)
  have key : ∀ {s : FPState N L}, ParInv n k d s → val s.loss ≤ val x →
      exactDev N val n d s.med ≤ T + roundErr u W (n + p + 1) 2 n := fun {s} hs hxs =>
    accurate_le M hd hn hW le_rfl (by omega) (acc hs).2 hx hxs
  induction fuel generalizing iter s with
  | zero =>
    refine ⟨⟨0, rfl, by simp [parLoopP]⟩, ?_⟩
    have h1 := key hs hxs
    have h2 : 0 ≤ (seq.length : K) * roundErr u W (n + p + 1) 2 n := mul_nonneg (Nat.cast_nonneg _) hE
    show exactDev N val n d s.med ≤ _
    linarith
  | succ fuel ih =>
    obtain ⟨c, c1, c2, c3, c5⟩ := parPass_step M hd hk hW hB (scS := scS iter) (hF iter) hseq hs
    unfold parLoopP
    dsimp only
    split
    · refine ⟨⟨c, c2, c5⟩, ?_⟩
      have h1 := key hs hxs
      have h2 : (c : K) * roundErr u W (n + p + 1) 2 n ≤ seq.length * roundErr u W (n + p + 1) 2 n :=
        mul_le_mul_of_nonneg_right (by exact_mod_cast c1) hE
      linarith
    · rename_i hc
      simp only [Bool.or_eq_true, not_or] at hc
      have hlt := not_le.mp fun h => hc.2 ((M.std.rge_iff (acc c3).1 (acc hs).1).mpr h)
      obtain ⟨⟨c', d1, d2⟩, d3⟩ := ih (iter := iter + 1) c3 (hlt.le.trans hxs)
      refine ⟨⟨c + c', by rw [d1, c2]; omega, ?_⟩, d3⟩
      push_cast
      linarith

end step

/-- **C73, not worse**: the first bound grows with the number of exchanges, the second one does not. -/
theorem C73_not_worse (M : FloatLoss N fin val u B) (sc0 : Sched) {scF : Nat → Nat → Sched} (scS : Nat → Nat → Sched)
    {p : Nat} (hF : AtMostThreads p scF) {mat : Mat N} {n : Nat} {d : Nat → Nat → N}
    (hm : IsMatrix mat n d) (hd : Dissim n d) {W : K} (hW : AtMost val W n d)
    (hB : (1 + u) ^ (n + p + 1) * (2 * (n * W)) ≤ B) {med : List Nat} (hv : ValidMeds n med) (hnd : med.Nodup)
    (hk : 2 ≤ med.length) (maxiter : Nat) {seq : List Nat} (hseq : seq.Perm (List.range n)) {r : SwapResult L}
    (hr : parFasterpam L sc0 scF scS mat med maxiter seq = .ok r) :
    exactDev N val n d r.med ≤ exactDev N val n d med + r.nSwap * roundErr u W (n + p + 1) 2 n ∧
    exactDev N val n d r.med ≤ exactDev N val n d med + (n + 1) * roundErr u W (n + p + 1) 2 n := by
  have hs : ∀ j ∈ seq, j < n := fun j hj => List.mem_range.mp (hseq.mem_iff.mp hj)
  have hn : 1 ≤ n := hv.sizes.pos.trans hv.sizes.le
  obtain ⟨b1, -, b3⟩ := parFasterpam_any (L := L) sc0 scF scS hm hv maxiter hs
  rw [b1, b3 hk] at hr
  cases hr
  have hok := parInitP_inv (L := L) sc0 hd hv hk hnd
  have hne : med ≠ [] := List.ne_nil_of_length_pos (by omega)
  have hW0 := (roundErr_nonneg (u := u) M hd hn hW (n + p + 1) 2).1
  have hB' : (1 + u) ^ (n - 1) * (n * W) ≤ B := by
    have h1 := M.std.pow_mono (show n - 1 ≤ n + p + 1 by omega)
    have h2 := M.std.one_le_pow (n - 1)
    have hnW : 0 ≤ (n : K) * W := by positivity
    exact (mul_le_mul h1 (show (n : K) * W ≤ 2 * (n * W) by linarith) hnW (by linarith)).trans hB
  have hx := (bracket_accurate M hd hne hv.range hW hB' (hok.1.loss M.conv_zero)).2
  obtain ⟨⟨c, c1, c2⟩, c3⟩ := parLoop_step M hd hk hn hW hB (scS := scS) hF hs (fuel := maxiter) (iter := 0) hok hx le_rfl
  have c1' : (parLoopP scF scS d n seq maxiter 0 (parInitP L sc0 d n med)).1.nSwaps = c := by
    rw [c1]; simp [parInitP]
  dsimp only
  rw [c1']
  refine ⟨c2, ?_⟩
  rw [hseq.length_eq, List.length_range] at c3
  exact c3

/-! ## Non-vacuity: `f64`, two or three threads depending on the object, in different orders -/

def mixF (_ j : Nat) : Sched := if j % 2 = 0 then ⟨2, [1, 0], .leaf⟩ else ⟨3, [2, 0, 1], .leaf⟩

def mixS (_ _ : Nat) : Sched := ⟨2, [], .node 2 .leaf .leaf⟩

theorem mixF_threads : AtMostThreads 3 mixF := fun i j => by
  unfold mixF
  split
  · exact ⟨⟨by decide, by decide⟩, by decide⟩
  · exact ⟨⟨by decide, by decide⟩, by decide⟩
def roadRows : List (List ℕ) := [0, 1, 3, 20, 21, 24].map fun x => [0, 1, 3, 20, 21, 24].map fun y => (x - y) + (y - x)

def roadD (x y : Nat) : Finite binary64 := .ofRat binary64 (((roadRows.getD x []).getD y 0 : ℕ) / 10)

theorem road_isMatrix : IsMatrix (ofRows (tenths roadRows)) 6 roadD := by
  have h : ∀ x < 6, ∀ y < 6, (ofRows (tenths roadRows)).get x y = .ok (roadD x y) := by decide +kernel
  exact ⟨rfl, rfl, fun x y hx hy => h x hx y hy⟩

theorem road_dissim : Dissim 6 roadD := by
  have hd : ∀ x < 6, roadD x x = 0 := by decide +kernel
  have hn : ∀ x < 6, ∀ y < 6, 0 ≤ roadD x y := by decide +kernel
  exact ⟨hd, fun x y hx hy => hn x hx y hy⟩

theorem road_valid : ValidMeds 6 [2, 5] := ⟨⟨by decide, by decide, by decide, by decide⟩, by decide⟩

theorem road_nearMetric : NearMetric (L := Ieee binary64) Ieee.val (1 / 10 ^ 15) 6 roadD := by
  have hs : ∀ x < 6, ∀ y < 6, roadD x y = roadD y x := by decide +kernel
  have ht : ∀ x < 6, ∀ y < 6, ∀ z < 6, Ieee.val (conv (roadD x z) : Ieee binary64) ≤
      Ieee.val (conv (roadD x y) : Ieee binary64) + Ieee.val (conv (roadD y z) : Ieee binary64) + 1 / 10 ^ 15 := by
    decide +kernel
  exact ⟨by norm_num, fun x y hx hy => hs x hx y hy, fun x y z hx hy hz => ht x hx y hy z hz⟩

theorem road_atMost : AtMost (L := Ieee binary64) Ieee.val (25 / 10) 6 roadD := by
  have h : ∀ x < 6, ∀ y < 6, Ieee.val (conv (roadD x y) : Ieee binary64) ≤ 25 / 10 := by decide +kernel
  exact fun x y hx hy => h x hx y hy

theorem road_run (it : Nat) (h : it = 1 ∨ it = 2) :
    parFasterpam (Ieee binary64) (mixS 0 0) mixF mixS (ofRows (tenths roadRows)) [2, 5] it (List.range 6) =
      .ok ⟨.num (6305039478318695 / 9007199254740992), [0, 0, 0, 1, 1, 1], it, 4, [1, 4]⟩ := by
  rcases h with rfl | rfl <;> decide +kernel

/-- Four exchanges, then a pass without exchange. -/
example : NearlyOptimal (L := Ieee binary64) Ieee.val (1 / 2 ^ 53) 10 2 6 roadD [1, 4] :=
  C73_nearlyOptimal (ieee_floatLoss binary64) (mixS 0 0) mixS mixF_threads road_isMatrix road_dissim road_valid
    (by decide) (by decide) 1 (List.Perm.refl _) (road_run 1 (.inl rfl)) (road_run 2 (.inr rfl)) rfl rfl
    (by unfold ChangesFit; decide +kernel)

example (other : List Nat) (hne : other ≠ []) (hor : ∀ c ∈ other, c < 6) (ho : other.length ≤ 2) :
    exactDev (L := Ieee binary64) (Finite binary64) Ieee.val 6 roadD [1, 4] ≤
      5 * exactDev (L := Ieee binary64) (Finite binary64) Ieee.val 6 roadD other +
        (other.length * roundErr (1 / 2 ^ 53) (25 / 10) 10 2 6 + (6 : ℕ) * (4 * (1 / 10 ^ 15))) :=
  C73_metric (ieee_floatLoss binary64) (mixS 0 0) mixS mixF_threads road_isMatrix road_dissim road_atMost road_nearMetric
    (by decide +kernel) road_valid (by decide) (by decide) 1 (List.Perm.refl _) (road_run 1 (.inl rfl))
    (road_run 2 (.inr rfl)) rfl rfl hne hor ho

/-- **The error cannot be removed**: two threads return medoids whose exact total deviation is larger than that of the
medoids they were given, by less than 10⁻¹². -/
theorem C73_not_exact : ∃ (mat : Mat (Finite binary64)) (n : Nat) (d : Nat → Nat → Finite binary64) (med : List Nat)
    (sc0 : Sched) (scF scS : Nat → Nat → Sched) (r : SwapResult (Ieee binary64)),
    AtMostThreads 3 scF ∧ IsMatrix mat n d ∧ Dissim n d ∧ ValidMeds n med ∧ med.Nodup ∧
    parFasterpam (Ieee binary64) sc0 scF scS mat med 100 (List.range n) = .ok r ∧
    exactDev (L := Ieee binary64) (Finite binary64) Ieee.val n d med <
      exactDev (L := Ieee binary64) (Finite binary64) Ieee.val n d r.med ∧
    exactDev (L := Ieee binary64) (Finite binary64) Ieee.val n d r.med ≤
      exactDev (L := Ieee binary64) (Finite binary64) Ieee.val n d med + 1 / 10 ^ 12 := by
  have hr : parFasterpam (Ieee binary64) (mixS 0 0) mixF mixS (ofRows (tenths worseRows)) [0, 1] 100 (List.range 6) =
    .ok worseResult := by decide +kernel
  refine ⟨ofRows (tenths worseRows), 6, worseD, [0, 1], mixS 0 0, mixF, mixS, worseResult, mixF_threads, worse_isMatrix,
    worse_dissim, worse_valid, by decide, hr, by decide +kernel, ?_⟩
  refine (C73_not_worse (ieee_floatLoss binary64) (mixS 0 0) mixS mixF_threads worse_isMatrix worse_dissim worse_atMost
    (by decide +kernel) worse_valid (by decide) (by decide) 100 (List.Perm.refl _) hr).2.trans ?_
  decide +kernel

end KMedoids
