import Verif.Props.C67

/-!
# C69: rounding can hardly make a solution worse

In floating point a computed change can be negative although the exchange does not improve the exact total deviation. The
result of FasterPAM, PAM and FastPAM1 is nevertheless not worse than the initial medoids by more than a rounding error,
which does not grow with the number of iterations: a pass whose computed loss did not decrease is the last one.
-/

set_option linter.unusedSectionVars false
set_option linter.overlappingInstances false

namespace KMedoids

variable {N L K : Type} [LinearOrder N] [Zero N] [RDist N] [LawfulDist N] [RLoss L] [RFrom N L]
  [Field K] [LinearOrder K] [IsStrictOrderedRing K]
open RFrom (conv)

variable {fin : L → Prop} {val : L → K} {u B : K}

/-- The distances are at most `W`. -/
def AtMost (val : L → K) (W : K) (n : Nat) (d : Nat → Nat → N) : Prop :=
  ∀ x y, x < n → y < n → val (conv (d x y) : L) ≤ W

theorem exactDev_le {W : K} {n : Nat} {d : Nat → Nat → N} (hW : AtMost val W n d)
    {med : List Nat} (hne : med ≠ []) (hr : ∀ c ∈ med, c < n) : exactDev N val n d med ≤ n * W := by
  have h := List.sum_le_card_nsmul ((List.range n).map fun o => val (conv (minDist d o med) : L)) W fun x hx => by
    obtain ⟨o, ho, rfl⟩ := List.mem_map.mp hx
    obtain ⟨c, hc, h⟩ := (minDist_spec d o med hne).1
    rw [h]; exact hW o c (List.mem_range.mp ho) (hr c hc)
  simpa [nsmul_eq_mul, exactDev, totalDev] using h

theorem exactDev_erase_le {W : K} {n : Nat} {d : Nat → Nat → N} (hW : AtMost val W n d) {med : List Nat}
    (hk : 2 ≤ med.length) (hr : ∀ c ∈ med, c < n) {b : Nat} (hb : b < med.length) :
    exactDev N val n d (med.eraseIdx b) ≤ n * W :=
  exactDev_le hW (List.ne_nil_of_length_pos (by rw [List.length_eraseIdx_of_lt hb]; omega))
    fun c hc => hr c (List.mem_of_mem_eraseIdx hc)

/-- The rounding error of one computed change: `c = 1`, `e = n + 1` for PAM, `c = 2`, `e = 2 n + 1` otherwise. -/
def roundErr (u W : K) (e c n : Nat) : K := ((1 + u) ^ e - 1) * (c * (n * W))

theorem leftSum_accurate (M : FloatLoss N fin val u B) {n : Nat} {d : Nat → Nat → N} (hd : Dissim n d) {med : List Nat}
    (hne : med ≠ []) (hr : ∀ c ∈ med, c < n) {W : K} (hW : AtMost val W n d) (hB : (1 + u) ^ (n - 1) * (n * W) ≤ B) :
    fin (leftSum (devs L n d med)) ∧
      |val (leftSum (devs L n d med)) - exactDev N val n d med| ≤ ((1 + u) ^ (n - 1) - 1) * (n * W) := by
  have h1 := M.std.one_le_pow (n - 1)
  have h2 := exactDev_le hW hne hr
  have hn : devs L n d med ≠ [] := by
    obtain ⟨c, hc⟩ := List.exists_mem_of_ne_nil _ hne
    have := hr c hc
    apply List.ne_nil_of_length_pos
    simp only [devs, List.length_map, List.length_range]; omega
  have h := appr_devs (val := val) M hd hne hr (leftSum_bracket hn)
    ((mul_le_mul_of_nonneg_left h2 (by linarith)).trans hB)
  exact ⟨h.fin, h.err.trans (mul_le_mul_of_nonneg_left h2 (by linarith))⟩

theorem FPOk.two {n k : Nat} {d : Nat → Nat → N} {s : FPState N L} (hs : FPOk n k d s) (hk : 2 ≤ k) :
    2 ≤ s.med.length ∧ s.med ≠ [] ∧ ∀ c ∈ s.med, c < n :=
  ⟨hs.medLen ▸ hk, List.ne_nil_of_length_pos (by rw [hs.medLen]; omega), hs.cache.range⟩

/-! ## FasterPAM -/

section fp
variable {n k : Nat} {d : Nat → Nat → N} {W : K}

theorem fpCand_step (M : FloatLoss N fin val u B) (hd : Dissim n d) (hk : 2 ≤ k) (hW : AtMost val W n d)
    (hB : (1 + u) ^ (2 * n + 1) * (2 * (n * W)) ≤ B) {s s' : FPState N L} (hs : FPOk n k d s)
    (hrem : s.rem = remP L s.data k) {j : Nat} (hj : j < n) (h : fpCandP d s j = some s') :
    exactDev N val n d s'.med ≤ exactDev N val n d s.med + roundErr u W (2 * n + 1) 2 n := by
  obtain ⟨h2, hne, hr⟩ := hs.two hk
  have hu := M.std.one_le_pow (2 * n + 1)
  unfold fpCandP at h
  by_cases h1 : ownP s.med s.data j = true
  · simp [h1] at h
  simp only [h1, if_false, Bool.false_eq_true] at h
  by_cases h3 : rge (fbsP d s.rem s.data j).1 RLoss.zero = true
  · simp [h3] at h
  simp only [h3, if_false, Bool.false_eq_true, Option.some.injEq] at h
  subst h
  have hml := hs.medLen
  have hb : (fbsP d s.rem s.data j).2 < s.med.length := by
    have := fbsP_lt d (rem := s.rem) s.data j (by rw [hs.remLen]; omega)
    rwa [hs.remLen, ← hml] at this
  rw [hrem, ← hml] at h3 hb
  obtain ⟨f1, -, f3⟩ := fbsP_float (val := val) M hs.cache hd (by omega) hj fun m hm =>
    (mul_le_mul_of_nonneg_left (mul_le_mul_of_nonneg_left (exactDev_erase_le hW h2 hr hm) (by norm_num))
      (by linarith)).trans hB
  have h0 := f3 fun h => h3 ((M.std.rge_iff f1 M.std.zero_fin).mpr (by rw [M.std.zero]; exact h))
  have h4 := mul_le_mul_of_nonneg_left (exactDev_erase_le hW h2 hr hb) (show (0 : K) ≤ 2 by norm_num)
  have h5 := mul_le_mul_of_nonneg_left h4 (show (0 : K) ≤ (1 + u) ^ (2 * n + 1) - 1 by linarith)
  show exactDev N val n d (s.med.set _ j) ≤ _
  rw [hrem, ← hml, roundErr, Nat.cast_ofNat]
  linarith

/-- One pass: at most one exchange per object, each with a small error. -/
theorem fpPass_step (M : FloatLoss N fin val u B) (hd : Dissim n d) (hk : 2 ≤ k) (hW : AtMost val W n d)
    (hB : (1 + u) ^ (2 * n + 1) * (2 * (n * W)) ≤ B) {js : List Nat} (hjs : ∀ j ∈ js, j < n) {s : FPState N L}
    (hs : FPOk n k d s) (hrem : s.rem = remP L s.data k) :
    ∃ c ≤ js.length, (fpPassP d js s).nSwaps = s.nSwaps + c ∧ FPOk n k d (fpPassP d js s) ∧
      (fpPassP d js s).rem = remP L (fpPassP d js s).data k ∧
      exactDev N val n d (fpPassP d js s).med ≤ exactDev N val n d s.med + c * roundErr u W (2 * n + 1) 2 n := by
  rw [fpPassP_eq_passG]
  have H := fpCand_rej (L := L) hd (show 1 ≤ k by omega)
  induction js generalizing s with
  | nil => exact ⟨0, le_rfl, rfl, hs, hrem, by simp [passG]⟩
  | cons j js ih =>
    have hj := hjs j (by simp)
    have ih' := fun {s : FPState N L} => ih (s := s) fun x hx => hjs x (by simp [hx])
    unfold passG
    split
    · exact ⟨0, Nat.zero_le _, rfl, hs, hrem, by simp⟩
    · split
      · obtain ⟨c, c1, c2⟩ := ih' hs hrem
        exact ⟨c, c1.trans (by simp), c2⟩
      · rename_i s' hc
        obtain ⟨⟨a1, a2⟩, -, a3, -⟩ := H.some s j s' ⟨hs, hrem⟩ hj hc
        obtain ⟨c, c1, c2, c3, c4, c5⟩ := ih' a1 a2
        have h1 := fpCand_step M hd hk hW hB hs hrem hj hc
        refine ⟨c + 1, by simpa using c1, by rw [c2, a3]; omega, c3, c4, ?_⟩
        push_cast
        linarith

theorem roundErr_nonneg (M : FloatLoss N fin val u B) (hd : Dissim n d) (hn : 1 ≤ n) (hW : AtMost val W n d) (e c : Nat) :
    0 ≤ W ∧ 0 ≤ roundErr u W e c n := by
  have h0 : 0 ≤ W := (M.val_nonneg (hd.nonneg 0 0 (by omega) (by omega))).trans (hW 0 0 (by omega) (by omega))
  have hu := M.std.one_le_pow e
  exact ⟨h0, mul_nonneg (by linarith) (by positivity)⟩

/-- Two accurate losses in the right order. -/
theorem accurate_le (M : FloatLoss N fin val u B) (hd : Dissim n d) (hn : 1 ≤ n) (hW : AtMost val W n d)
    {e c : Nat} (hc : 2 ≤ c) (he : n - 1 ≤ e) {x y : L} {S T : K} (hx : |val x - S| ≤ ((1 + u) ^ (n - 1) - 1) * (n * W))
    (hy : |val y - T| ≤ ((1 + u) ^ (n - 1) - 1) * (n * W)) (h : val x ≤ val y) : S ≤ T + roundErr u W e c n := by
  have h0 := (roundErr_nonneg (u := u) M hd hn hW e c).1
  have h1 := M.std.pow_mono he
  have h2 := M.std.one_le_pow (n - 1)
  have hnW : 0 ≤ (n : K) * W := by positivity
  have h3 : ((1 + u) ^ (n - 1) - 1) * (n * W) ≤ ((1 + u) ^ e - 1) * (n * W) :=
    mul_le_mul_of_nonneg_right (by linarith) hnW
  have h4 : ((1 + u) ^ e - 1) * (2 * (n * W)) ≤ roundErr u W e c n :=
    mul_le_mul_of_nonneg_left (mul_le_mul_of_nonneg_right (by exact_mod_cast hc) hnW) (by linarith)
  have h5 := (abs_le.mp hx).1
  have h6 := (abs_le.mp hy).2
  linarith

theorem fpLoop_step (M : FloatLoss N fin val u B) (hd : Dissim n d) (hk : 2 ≤ k) (hn : 1 ≤ n) (hW : AtMost val W n d)
    (hB : (1 + u) ^ (2 * n + 1) * (2 * (n * W)) ≤ B) {seq : List Nat} (hseq : ∀ j ∈ seq, j < n) {fuel iter : Nat}
    {s : FPState N L} (hs : FPOk n k d s) (hrem : s.rem = remP L s.data k) (hl : s.loss = leftSum (devs L n d s.med))
    {T : K} {x : L} (hx : |val x - T| ≤ ((1 + u) ^ (n - 1) - 1) * (n * W)) (hxs : val s.loss ≤ val x) :
    (∃ c, (fpLoopP d seq fuel iter s).1.nSwaps = s.nSwaps + c ∧
      exactDev N val n d (fpLoopP d seq fuel iter s).1.med ≤
        exactDev N val n d s.med + c * roundErr u W (2 * n + 1) 2 n) ∧
    exactDev N val n d (fpLoopP d seq fuel iter s).1.med ≤
      T + ((seq.length : K) + 1) * roundErr u W (2 * n + 1) 2 n := by
  have hE := (roundErr_nonneg (u := u) M hd hn hW (2 * n + 1) 2).2
  have hW0 := (roundErr_nonneg (u := u) M hd hn hW (2 * n + 1) 2).1
  have hB' : (1 + u) ^ (n - 1) * (n * W) ≤ B := by
    have h1 := M.std.pow_mono (show n - 1 ≤ 2 * n + 1 by omega)
    have h2 := M.std.one_le_pow (n - 1)
    have hnW : 0 ≤ (n : K) * W := by positivity
    exact (mul_le_mul h1 (show (n : K) * W ≤ 2 * (n * W) by linarith) hnW (by linarith)).trans hB
  have key : ∀ {s : FPState N L}, FPOk n k d s → s.loss = leftSum (devs L n d s.med) → val s.loss ≤ val x →
      exactDev N val n d s.med ≤ T + roundErr u W (2 * n + 1) 2 n := fun {s} hs hl hxs => by
    obtain ⟨-, hne, hr⟩ := hs.two hk
    have := (leftSum_accurate (val := val) M hd hne hr hW hB').2
    rw [← hl] at this
    exact accurate_le M hd hn hW le_rfl (by omega) this hx hxs
  induction fuel generalizing iter s with
  | zero =>
    refine ⟨⟨0, rfl, by simp [fpLoopP]⟩, ?_⟩
    have h1 := key hs hl hxs
    have h2 : 0 ≤ (seq.length : K) * roundErr u W (2 * n + 1) 2 n := mul_nonneg (Nat.cast_nonneg _) hE
    show exactDev N val n d s.med ≤ _
    linarith
  | succ fuel ih =>
    obtain ⟨c, c1, c2, c3, c4, c5⟩ := fpPass_step M hd hk hW hB hseq hs hrem
    have hl' := fpPassP_loss (L := L) M.conv_zero hd (by omega) hseq hs hl
    unfold fpLoopP
    dsimp only
    split
    · refine ⟨⟨c, c2, c5⟩, ?_⟩
      have h1 := key hs hl hxs
      have h2 : (c : K) * roundErr u W (2 * n + 1) 2 n ≤ seq.length * roundErr u W (2 * n + 1) 2 n :=
        mul_le_mul_of_nonneg_right (by exact_mod_cast c1) hE
      linarith
    · rename_i hc
      simp only [Bool.or_eq_true, not_or] at hc
      obtain ⟨-, hne, hr⟩ := hs.two hk
      obtain ⟨-, hne', hr'⟩ := c3.two hk
      have f1 := (leftSum_accurate (val := val) M hd hne hr hW hB').1
      have f2 := (leftSum_accurate (val := val) M hd hne' hr' hW hB').1
      rw [← hl] at f1; rw [← hl'] at f2
      have hlt := not_le.mp fun h => hc.2 ((M.std.rge_iff f2 f1).mpr h)
      obtain ⟨⟨c', d1, d2⟩, d3⟩ := ih (iter := iter + 1) c3 c4 hl' (hlt.le.trans hxs)
      refine ⟨⟨c + c', by rw [d1, c2]; omega, ?_⟩, d3⟩
      push_cast
      linarith

end fp

/-- **C69, rand_fasterpam**: the first bound grows with the number of exchanges, the second one does not. -/
theorem C69_rand_fasterpam (M : FloatLoss N fin val u B) {mat : Mat N} {n : Nat} {d : Nat → Nat → N}
    (hm : IsMatrix mat n d) (hd : Dissim n d) {W : K} (hW : AtMost val W n d)
    (hB : (1 + u) ^ (2 * n + 1) * (2 * (n * W)) ≤ B) {med : List Nat} (hv : ValidMeds n med) (hnd : med.Nodup)
    (hk : 2 ≤ med.length) (maxiter : Nat) {seq : List Nat} (hseq : seq.Perm (List.range n)) {r : SwapResult L}
    (hr : randFasterpam L mat med maxiter seq = .ok r) :
    exactDev N val n d r.med ≤ exactDev N val n d med + r.nSwap * roundErr u W (2 * n + 1) 2 n ∧
    exactDev N val n d r.med ≤ exactDev N val n d med + (n + 1) * roundErr u W (2 * n + 1) 2 n := by
  have hs : ∀ j ∈ seq, j < n := fun j hj => List.mem_range.mp (hseq.mem_iff.mp hj)
  have hn : 1 ≤ n := hv.sizes.pos.trans hv.sizes.le
  rw [randFasterpam_eq hm hv _ hs, fpP_many d n hk] at hr
  cases hr
  have hok := fpInitP_ok (L := L) hd hv hk hnd
  have hne : med ≠ [] := List.ne_nil_of_length_pos (by omega)
  have hW0 := (roundErr_nonneg (u := u) M hd hn hW (2 * n + 1) 2).1
  have hl : (fpInitP L d n med).loss = leftSum (devs L n d med) := nearLossP_leftSum hok.cache
  have hB' : (1 + u) ^ (n - 1) * (n * W) ≤ B := by
    have h1 := M.std.pow_mono (show n - 1 ≤ 2 * n + 1 by omega)
    have h2 := M.std.one_le_pow (n - 1)
    have hnW : 0 ≤ (n : K) * W := by positivity
    exact (mul_le_mul h1 (show (n : K) * W ≤ 2 * (n * W) by linarith) hnW (by linarith)).trans hB
  have hx := (leftSum_accurate (val := val) M hd hne hv.range hW hB').2
  rw [← hl] at hx
  obtain ⟨⟨c, c1, c2⟩, c3⟩ := fpLoop_step M hd hk hn hW hB hs (fuel := maxiter) (iter := 0) hok rfl hl hx le_rfl
  have c1' : (fpLoopP d seq maxiter 0 (fpInitP L d n med)).1.nSwaps = c := by
    rw [c1]; simp [fpInitP]
  dsimp only
  rw [c1']
  refine ⟨c2, ?_⟩
  rw [hseq.length_eq, List.length_range] at c3
  exact c3

/-- **C69, fasterpam.** -/
theorem C69_fasterpam (M : FloatLoss N fin val u B) {mat : Mat N} {n : Nat} {d : Nat → Nat → N}
    (hm : IsMatrix mat n d) (hd : Dissim n d) {W : K} (hW : AtMost val W n d)
    (hB : (1 + u) ^ (2 * n + 1) * (2 * (n * W)) ≤ B) {med : List Nat} (hv : ValidMeds n med) (hnd : med.Nodup)
    (hk : 2 ≤ med.length) (maxiter : Nat) {r : SwapResult L} (hr : fasterpam L mat med maxiter = .ok r) :
    exactDev N val n d r.med ≤ exactDev N val n d med + r.nSwap * roundErr u W (2 * n + 1) 2 n ∧
    exactDev N val n d r.med ≤ exactDev N val n d med + (n + 1) * roundErr u W (2 * n + 1) 2 n := by
  rw [fasterpam_eq_rand, hm.len] at hr
  exact C69_rand_fasterpam M hm hd hW hB hv hnd hk maxiter (List.Perm.refl _) hr

/-! ## PAM and FastPAM1 -/

/-- An exchange proposed by the scan is worse by at most `E`. -/
def ScanErr (val : L → K) (E : K) (n k : Nat) (d : Nat → Nat → N) (scan : List Nat → List (Rec N) → L × Nat × Nat) : Prop :=
  ∀ med data, CacheOk n d med data → med.length = k → rlt (scan med data).1 RLoss.zero = true →
    exactDev N val n d (med.set (scan med data).2.1 (scan med data).2.2) ≤ exactDev N val n d med + E

section pam
variable {n k : Nat} {d : Nat → Nat → N} {W : K}

theorem pLoop_step (M : FloatLoss N fin val u B) (hd : Dissim n d) (hk : 2 ≤ k) (hn : 1 ≤ n) (hW : AtMost val W n d)
    {e : Nat} (he : n - 1 ≤ e) (hB : (1 + u) ^ (n - 1) * (n * W) ≤ B) {E : K} (hE : 0 ≤ E)
    {scan : List Nat → List (Rec N) → L × Nat × Nat} (hscan : ScanSound n k d scan) (hsE : ScanErr val E n k d scan)
    {fuel iter : Nat} {s : PState N L} (hs : CacheOk n d s.med s.data) (hlen : s.med.length = k)
    (hl : fin s.loss ∧ |val s.loss - exactDev N val n d s.med| ≤ ((1 + u) ^ (n - 1) - 1) * (n * W)) {T : K} {x : L}
    (hx : |val x - T| ≤ ((1 + u) ^ (n - 1) - 1) * (n * W)) (hxs : val s.loss ≤ val x) :
    (∃ c, (pLoopP d scan fuel iter s).1.nSwaps = s.nSwaps + c ∧
      exactDev N val n d (pLoopP d scan fuel iter s).1.med ≤ exactDev N val n d s.med + c * E) ∧
    exactDev N val n d (pLoopP d scan fuel iter s).1.med ≤ T + roundErr u W e 2 n + E := by
  have two : ∀ {med : List Nat} {data : List (Rec N)}, CacheOk n d med data → med.length = k → med ≠ [] :=
    fun _ h => List.ne_nil_of_length_pos (by omega)
  induction fuel generalizing iter s with
  | zero =>
    have h1 := accurate_le M hd hn hW le_rfl he hl.2 hx hxs
    exact ⟨⟨0, rfl, by simp [pLoopP]⟩, by simp only [pLoopP]; linarith⟩
  | succ fuel ih =>
    have h0 := accurate_le M hd hn hW le_rfl he hl.2 hx hxs
    unfold pLoopP
    dsimp only
    split
    · rename_i hlt
      obtain ⟨h1, h2, h3⟩ := hscan _ _ hs hlen hlt
      have hstep := hsE _ _ hs hlen hlt
      have h := swapDataP_ok hd hs (hlen ▸ h1) h2 h3
      have hsum : swapSumP L (scan s.med s.data).2.2
          (swapDataP d s.med s.data (scan s.med s.data).2.1 (scan s.med s.data).2.2) =
          leftSum (devs L n d (s.med.set (scan s.med s.data).2.1 (scan s.med s.data).2.2)) := by
        rw [swapSumP, sumP_leftSum]
        exact congrArg leftSum (swapMap_devs (L := L) M.conv_zero hd h (mem_set_self (hlen ▸ h1) _))
      have hlen' : (s.med.set (scan s.med s.data).2.1 (scan s.med s.data).2.2).length = k := by
        rw [List.length_set, hlen]
      split
      · refine ⟨⟨1, rfl, ?_⟩, ?_⟩
        · simp only [pSwapP]; push_cast; linarith
        · simp only [pSwapP]; linarith
      · rename_i hc
        have f2 := leftSum_accurate (val := val) M hd (two h hlen') h.range hW hB
        rw [← hsum] at f2
        have hlt' := not_le.mp fun h => hc ((M.std.rge_iff f2.1 hl.1).mpr h)
        obtain ⟨⟨c', d1, d2⟩, d3⟩ := ih (iter := iter + 1)
          (s := pSwapP d s (scan s.med s.data).2.1 (scan s.med s.data).2.2
            (swapSumP L (scan s.med s.data).2.2
              (swapDataP d s.med s.data (scan s.med s.data).2.1 (scan s.med s.data).2.2)))
          h hlen' f2 (hlt'.le.trans hxs)
        refine ⟨⟨1 + c', by rw [d1]; simp only [pSwapP]; omega, ?_⟩, d3⟩
        simp only [pSwapP] at d2 ⊢
        push_cast
        linarith
    · exact ⟨⟨0, rfl, by simp⟩, by dsimp only; linarith⟩

/-- A negative result of PAM's evaluation is the change of the exchange it names. -/
theorem pamFbsP_value (d : Nat → Nat → N) (k : Nat) (data : List (Rec N)) (j : Nat) :
    pamFbsP L d k data j = (RLoss.zero, usizeMax) ∨
      ∃ m < k, pamFbsP L d k data j = (pamChangeP L d data j m, m) := by
  induction k with
  | zero => left; rfl
  | succ k ih =>
    have hstep : pamFbsP L d (k + 1) data j = if rlt (pamChangeP L d data j k) (pamFbsP L d k data j).1 then
        (pamChangeP L d data j k, k) else pamFbsP L d k data j := by
      simp only [pamFbsP, List.range_succ, List.foldl_append, List.foldl_cons, List.foldl_nil]; rfl
    rw [hstep]
    split
    · exact .inr ⟨k, by omega, rfl⟩
    · rcases ih with h | ⟨m, hm, h⟩
      · exact .inl h
      · exact .inr ⟨m, by omega, h⟩

theorem pamScan_err (M : FloatLoss N fin val u B) (hd : Dissim n d) (hk : 2 ≤ k) (hW : AtMost val W n d)
    (hB : (1 + u) ^ (n + 1) * (n * W) ≤ B) :
    ScanErr val (roundErr u W (n + 1) 1 n) n k d (pamScanP (L := L) d n k) := by
  have := M.saneZero
  intro med data h hlen hlt
  have h1 := M.std.one_le_pow (n + 1)
  rcases scan_fold (pamFbsP L d k data) (ownP med data) (List.range n) (RLoss.zero, k, usizeMax) with e | ⟨j, hj, -, e⟩
  · rw [pamScanP, e, rlt_zero_zero] at hlt; cases hlt
  · rw [pamScanP, e] at hlt ⊢
    rcases pamFbsP_value (L := L) d k data j with e' | ⟨m, hm, e'⟩
    · rw [e', rlt_zero_zero] at hlt; cases hlt
    · rw [e'] at hlt ⊢
      have hE := exactDev_erase_le hW (by omega) h.range (hlen ▸ hm : m < med.length)
      have ha := pamChangeP_float (val := val) M h hd (hlen ▸ hm : m < med.length) (List.mem_range.mp hj)
        ((mul_le_mul_of_nonneg_left hE (by linarith)).trans hB)
      have hneg := (M.std.rlt_iff ha.fin M.std.zero_fin).mp hlt
      rw [M.std.zero] at hneg
      have h2 := (abs_le.mp ha.err).1
      have h3 := mul_le_mul_of_nonneg_left hE (show (0 : K) ≤ (1 + u) ^ (n + 1) - 1 by linarith)
      dsimp only
      rw [roundErr, Nat.cast_one, one_mul]
      linarith

theorem fastScan_err (M : FloatLoss N fin val u B) (hd : Dissim n d) (hk : 2 ≤ k) (hW : AtMost val W n d)
    (hB : (1 + u) ^ (2 * n + 1) * (2 * (n * W)) ≤ B) :
    ScanErr val (roundErr u W (2 * n + 1) 2 n) n k d (fastScanP (L := L) d n k) := by
  have := M.saneZero
  intro med data h hlen hlt
  subst hlen
  have h1 := M.std.one_le_pow (2 * n + 1)
  have hE := fun m hm => exactDev_erase_le (b := m) hW (by omega) h.range hm
  rcases scan_fold (fbsP d (remP L data med.length) data) (ownP med data) (List.range n)
    (RLoss.zero, usizeMax, usizeMax) with e | ⟨j, hj, -, e⟩
  · rw [fastScanP, e, rlt_zero_zero] at hlt; cases hlt
  · rw [fastScanP, e] at hlt ⊢
    obtain ⟨f1, -, f3⟩ := fbsP_float (val := val) M h hd (by omega) (List.mem_range.mp hj) fun m hm =>
      (mul_le_mul_of_nonneg_left (mul_le_mul_of_nonneg_left (hE m hm) (by norm_num)) (by linarith)).trans hB
    have hneg := (M.std.rlt_iff f1 M.std.zero_fin).mp hlt
    rw [M.std.zero] at hneg
    have h2 := f3 (not_le.mpr hneg)
    have hb : (fbsP d (remP L data med.length) data j).2 < med.length := by
      have hl : (remP L data med.length).length = med.length := remP_length h.shape.recIdx
      have := fbsP_lt d (rem := remP L data med.length) data j (by rw [hl]; omega)
      rwa [hl] at this
    have h3 := mul_le_mul_of_nonneg_left (mul_le_mul_of_nonneg_left (hE _ hb) (show (0 : K) ≤ 2 by norm_num))
      (show (0 : K) ≤ (1 + u) ^ (2 * n + 1) - 1 by linarith)
    dsimp only
    rw [roundErr, Nat.cast_ofNat]
    linarith

end pam

/-- **C69, pam_swap.** -/
theorem C69_pam_swap (M : FloatLoss N fin val u B) {mat : Mat N} {n : Nat} {d : Nat → Nat → N}
    (hm : IsMatrix mat n d) (hd : Dissim n d) {W : K} (hW : AtMost val W n d)
    (hB : (1 + u) ^ (n + 1) * (n * W) ≤ B) {med : List Nat} (hv : ValidMeds n med) (hnd : med.Nodup)
    (hk : 2 ≤ med.length) (maxiter : Nat) {r : SwapResult L} (hr : pamSwap L mat med maxiter = .ok r) :
    exactDev N val n d r.med ≤ exactDev N val n d med + r.nSwap * roundErr u W (n + 1) 1 n ∧
    exactDev N val n d r.med ≤ exactDev N val n d med + 3 * roundErr u W (n + 1) 1 n := by
  have := M.saneZero
  have hn : 1 ≤ n := hv.sizes.pos.trans hv.sizes.le
  rw [pamSwap_eq hm hv, pamSwapP, pOptP_many d n _ hk] at hr
  cases hr
  have hok := initDataP_ok hd hk hv hnd
  have hne : med ≠ [] := List.ne_nil_of_length_pos (by omega)
  obtain ⟨hW0, hE⟩ := roundErr_nonneg (u := u) M hd hn hW (n + 1) 1
  have hB' : (1 + u) ^ (n - 1) * (n * W) ≤ B :=
    (mul_le_mul_of_nonneg_right (M.std.pow_mono (by omega)) (by positivity)).trans hB
  have hl : nearLossP L (initDataP d n med) = leftSum (devs L n d med) := nearLossP_leftSum hok
  have hx := leftSum_accurate (val := val) M hd hne hv.range hW hB'
  rw [← hl] at hx
  obtain ⟨⟨c, c1, c2⟩, c3⟩ := pLoop_step M hd hk hn hW (e := n + 1) (by omega) hB' hE
    (pamScanP_sound (L := L) n med.length d) (pamScan_err M hd hk hW hB) (fuel := maxiter) (iter := 0)
    (s := ⟨med, initDataP d n med, nearLossP L (initDataP d n med), 0⟩) hok rfl hx hx.2 le_rfl
  simp only [pResultP]
  rw [c1, Nat.zero_add]
  refine ⟨c2, c3.trans (le_of_eq ?_)⟩
  simp only [roundErr]; push_cast; ring

/-- **C69, fastpam1.** -/
theorem C69_fastpam1 (M : FloatLoss N fin val u B) {mat : Mat N} {n : Nat} {d : Nat → Nat → N}
    (hm : IsMatrix mat n d) (hd : Dissim n d) {W : K} (hW : AtMost val W n d)
    (hB : (1 + u) ^ (2 * n + 1) * (2 * (n * W)) ≤ B) {med : List Nat} (hv : ValidMeds n med) (hnd : med.Nodup)
    (hk : 2 ≤ med.length) (maxiter : Nat) {r : SwapResult L} (hr : fastpam1 L mat med maxiter = .ok r) :
    exactDev N val n d r.med ≤ exactDev N val n d med + r.nSwap * roundErr u W (2 * n + 1) 2 n ∧
    exactDev N val n d r.med ≤ exactDev N val n d med + 2 * roundErr u W (2 * n + 1) 2 n := by
  have := M.saneZero
  have hn : 1 ≤ n := hv.sizes.pos.trans hv.sizes.le
  rw [fastpam1_eq hm hv, fastpam1P, pOptP_many d n _ hk] at hr
  cases hr
  have hok := initDataP_ok hd hk hv hnd
  have hne : med ≠ [] := List.ne_nil_of_length_pos (by omega)
  obtain ⟨hW0, hE⟩ := roundErr_nonneg (u := u) M hd hn hW (2 * n + 1) 2
  have hB' : (1 + u) ^ (n - 1) * (n * W) ≤ B := by
    have h1 := M.std.pow_mono (show n - 1 ≤ 2 * n + 1 by omega)
    have h2 := M.std.one_le_pow (n - 1)
    have hnW : 0 ≤ (n : K) * W := by positivity
    exact (mul_le_mul h1 (show (n : K) * W ≤ 2 * (n * W) by linarith) hnW (by linarith)).trans hB
  have hl : nearLossP L (initDataP d n med) = leftSum (devs L n d med) := nearLossP_leftSum hok
  have hx := leftSum_accurate (val := val) M hd hne hv.range hW hB'
  rw [← hl] at hx
  obtain ⟨⟨c, c1, c2⟩, c3⟩ := pLoop_step M hd hk hn hW (e := 2 * n + 1) (by omega) hB' hE
    (fastScanP_sound (L := L) (n := n) (k := med.length) (by omega) d) (fastScan_err M hd hk hW hB) (fuel := maxiter)
    (iter := 0) (s := ⟨med, initDataP d n med, nearLossP L (initDataP d n med), 0⟩) hok rfl hx hx.2 le_rfl
  simp only [pResultP]
  rw [c1, Nat.zero_add]
  refine ⟨c2, c3.trans (le_of_eq ?_)⟩
  ring

/-! ## Non-vacuity: `f64` -/

def worseRows : List (List ℕ) :=
  [[0, 1, 9, 11, 3, 4], [1, 0, 7, 2, 10, 10], [9, 7, 0, 9, 12, 3], [11, 2, 9, 0, 6, 11], [3, 10, 12, 6, 0, 10],
   [4, 10, 3, 11, 10, 0]]

def worseD (x y : Nat) : Finite binary64 := .ofRat binary64 (((worseRows.getD x []).getD y 0 : ℕ) / 10)

theorem worse_isMatrix : IsMatrix (ofRows (tenths worseRows)) 6 worseD := by
  have h : ∀ x < 6, ∀ y < 6, (ofRows (tenths worseRows)).get x y = .ok (worseD x y) := by decide +kernel
  exact ⟨rfl, rfl, fun x y hx hy => h x hx y hy⟩

theorem worse_dissim : Dissim 6 worseD := by
  have hd : ∀ x < 6, worseD x x = 0 := by decide +kernel
  have hn : ∀ x < 6, ∀ y < 6, 0 ≤ worseD x y := by decide +kernel
  exact ⟨hd, fun x y hx hy => hn x hx y hy⟩

theorem worse_symm : Symm 6 worseD := by
  have hs : ∀ x < 6, ∀ y < 6, worseD x y = worseD y x := by decide +kernel
  exact fun x y hx hy => hs x hx y hy

theorem worse_valid : ValidMeds 6 [0, 1] := ⟨⟨by decide, by decide, by decide, by decide⟩, by decide⟩

theorem worse_atMost : AtMost (L := Ieee binary64) Ieee.val (13 / 10) 6 worseD := by
  have h : ∀ x < 6, ∀ y < 6, Ieee.val (conv (worseD x y) : Ieee binary64) ≤ 13 / 10 := by decide +kernel
  exact fun x y hx hy => h x hx y hy

def worseResult : SwapResult (Ieee binary64) := ⟨.num (3602879701896397 / 2251799813685248), [1, 1, 0, 1, 1, 0], 1, 1, [2, 1]⟩

/-- **The error cannot be removed.** Distances that are multiples of 0.1, as `f64`: all three return medoids whose exact
total deviation is larger than that of the medoids they were given. -/
theorem C69_not_exact : ∃ (mat : Mat (Finite binary64)) (n : Nat) (d : Nat → Nat → Finite binary64) (med : List Nat)
    (r : SwapResult (Ieee binary64)),
    IsMatrix mat n d ∧ Dissim n d ∧ Symm n d ∧ ValidMeds n med ∧ med.Nodup ∧
    fasterpam (Ieee binary64) mat med 100 = .ok r ∧ fastpam1 (Ieee binary64) mat med 100 = .ok r ∧
    pamSwap (Ieee binary64) mat med 100 = .ok r ∧
      exactDev (L := Ieee binary64) (Finite binary64) Ieee.val n d med <
        exactDev (L := Ieee binary64) (Finite binary64) Ieee.val n d r.med :=
  ⟨ofRows (tenths worseRows), 6, worseD, [0, 1], worseResult, worse_isMatrix, worse_dissim, worse_symm, worse_valid,
    by decide, by decide +kernel, by decide +kernel, by decide +kernel, by decide +kernel⟩

/-- The theorems apply to these runs: the increase is less than 10⁻¹². -/
example : exactDev (L := Ieee binary64) (Finite binary64) Ieee.val 6 worseD [2, 1] ≤
    exactDev (L := Ieee binary64) (Finite binary64) Ieee.val 6 worseD [0, 1] + 1 / 10 ^ 12 := by
  have hr : fasterpam (Ieee binary64) (ofRows (tenths worseRows)) [0, 1] 100 = .ok worseResult := by decide +kernel
  refine (C69_fasterpam (ieee_floatLoss binary64) worse_isMatrix worse_dissim worse_atMost (by decide +kernel) worse_valid
    (by decide) (by decide) 100 hr).2.trans ?_
  decide +kernel

example : ∃ r, fastpam1 (Ieee binary64) (ofRows (tenths worseRows)) [0, 1] 100 = .ok r ∧
    exactDev (L := Ieee binary64) (Finite binary64) Ieee.val 6 worseD r.med ≤
      exactDev (L := Ieee binary64) (Finite binary64) Ieee.val 6 worseD [0, 1] +
        1 * roundErr (1 / 2 ^ 53) (13 / 10) 13 2 6 := by
  have hr : fastpam1 (Ieee binary64) (ofRows (tenths worseRows)) [0, 1] 100 = .ok worseResult := by decide +kernel
  refine ⟨_, hr, ?_⟩
  have := (C69_fastpam1 (ieee_floatLoss binary64) worse_isMatrix worse_dissim worse_atMost (by decide +kernel) worse_valid
    (by decide) (by decide) 100 hr).1
  simpa [worseResult, binary64] using this

example : ∃ r, pamSwap (Ieee binary64) (ofRows (tenths worseRows)) [0, 1] 100 = .ok r ∧
    exactDev (L := Ieee binary64) (Finite binary64) Ieee.val 6 worseD r.med ≤
      exactDev (L := Ieee binary64) (Finite binary64) Ieee.val 6 worseD [0, 1] +
        1 * roundErr (1 / 2 ^ 53) (13 / 10) 7 1 6 := by
  have hr : pamSwap (Ieee binary64) (ofRows (tenths worseRows)) [0, 1] 100 = .ok worseResult := by decide +kernel
  refine ⟨_, hr, ?_⟩
  have := (C69_pam_swap (ieee_floatLoss binary64) worse_isMatrix worse_dissim worse_atMost (by decide +kernel) worse_valid
    (by decide) (by decide) 100 hr).1
  simpa [worseResult, binary64] using this

end KMedoids
