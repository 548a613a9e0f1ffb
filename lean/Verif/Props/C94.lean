import Verif.Proofs.Rate
import Verif.Props.C85

/-!
# C94: PAM and FastPAM1 approach the factor five geometrically

For distances that satisfy the triangle inequality, every iteration of `pam_swap` and `fastpam1` takes away at least the
`m`-th part of what the loss is above five times the total deviation of any other `m ≤ k` medoids. So a limited number of
iterations is enough: for integers `k (log₂ loss + 1)`, and then FastPAM1 finds a solution within a factor of five of the
optimum in polynomial time.
-/

set_option linter.unusedSectionVars false
set_option linter.overlappingInstances false

namespace KMedoids

open RFrom (conv)

section
variable {N L : Type} [LinearOrder N] [Zero N] [RDist N] [LawfulDist N]
variable [AddCommGroup L] [LinearOrder L] [IsOrderedAddMonoid L] [RLoss L] [LawfulLoss L]
variable [RFrom N L] [LawfulFrom N L]

theorem DescentOf.rate {n : Nat} {d : Nat → Nat → N} (hd : Dissim n d) (hmet : IsMetric (conv : N → L) n d)
    {med : List Nat} (hr : ∀ c ∈ med, c < n) {maxiter : Nat} {r : SwapResult L} (h : DescentOf n d med maxiter r)
    (hlen : r.med.length = med.length) (hrange : ∀ c ∈ r.med, c < n)
    {other : List Nat} (hne : other ≠ []) (hor : ∀ c ∈ other, c < n) (hk : other.length ≤ med.length) :
    totalDev (conv : N → L) n d r.med ≤ 5 • totalDev (conv : N → L) n d other ∨
    other.length ^ maxiter • (totalDev (conv : N → L) n d r.med - 5 • totalDev (conv : N → L) n d other) ≤
      (other.length - 1) ^ maxiter •
        (totalDev (conv : N → L) n d med - 5 • totalDev (conv : N → L) n d other) := by
  rcases h.stop with ⟨h1, -⟩ | ⟨-, -, h3⟩
  · refine .inr ?_
    have := h.path.rate hd hmet hr hne hor hk
    rwa [h1] at this
  · exact .inl (C64_swapOptimal hd hmet hrange h3 hne hor (hlen ▸ hk))

/-- **C94, pam_swap.** For every limit the loss is at most five times the total deviation `o` of any other `m ≤ k`
medoids, or `m^maxiter (loss - 5 o) ≤ (m - 1)^maxiter (start - 5 o)`. -/
theorem C94_pam_swap {mat : Mat N} {n : Nat} {d : Nat → Nat → N} (hm : IsMatrix mat n d) (hd : Dissim n d)
    (hmet : IsMetric (conv : N → L) n d) {med : List Nat} (hv : ValidMeds n med) (hnd : med.Nodup)
    (h2 : 2 ≤ med.length) {maxiter : Nat} {r : SwapResult L} (hr : pamSwap L mat med maxiter = .ok r)
    {other : List Nat} (hne : other ≠ []) (hor : ∀ c ∈ other, c < n) (hk : other.length ≤ med.length) :
    r.loss ≤ 5 • totalDev (conv : N → L) n d other ∨
    other.length ^ maxiter • (r.loss - 5 • totalDev (conv : N → L) n d other) ≤
      (other.length - 1) ^ maxiter •
        (totalDev (conv : N → L) n d med - 5 • totalDev (conv : N → L) n d other) := by
  have ho := pam_swap_outcome hm hd hv hnd (by omega) maxiter hr
  rw [ho.loss]
  exact (C86_pam_swap_descent hm hd hv hnd h2 maxiter hr).rate hd hmet hv.range ho.chain.length
    (ho.chain.range hv.range) hne hor hk

/-- **C94, fastpam1.** -/
theorem C94_fastpam1 {mat : Mat N} {n : Nat} {d : Nat → Nat → N} (hm : IsMatrix mat n d) (hd : Dissim n d)
    (hmet : IsMetric (conv : N → L) n d) {med : List Nat} (hv : ValidMeds n med) (hnd : med.Nodup)
    (h2 : 2 ≤ med.length) {maxiter : Nat} {r : SwapResult L} (hr : fastpam1 L mat med maxiter = .ok r)
    {other : List Nat} (hne : other ≠ []) (hor : ∀ c ∈ other, c < n) (hk : other.length ≤ med.length) :
    r.loss ≤ 5 • totalDev (conv : N → L) n d other ∨
    other.length ^ maxiter • (r.loss - 5 • totalDev (conv : N → L) n d other) ≤
      (other.length - 1) ^ maxiter •
        (totalDev (conv : N → L) n d med - 5 • totalDev (conv : N → L) n d other) := by
  rw [(C14_fastpam1_eq_pam_swap hm hd hv hnd maxiter).1] at hr
  exact C94_pam_swap hm hd hmet hv hnd h2 hr hne hor hk

/-- **C94, pam.** The same from the loss of BUILD, for any `k`, also if BUILD returns fewer than `k` medoids. -/
theorem C94_pam {mat : Mat N} {n k : Nat} {d : Nat → Nat → N} (hm : IsMatrix mat n d) (hd : Dissim n d)
    (hmet : IsMetric (conv : N → L) n d) (hs : Sizes n k) {maxiter : Nat} {b : BuildResult L}
    (hb : pamBuild L mat k = .ok b) {r : SwapResult L} (hr : pam L mat k maxiter = .ok r)
    {other : List Nat} (hne : other ≠ []) (hor : ∀ c ∈ other, c < n) (hk : other.length ≤ k) :
    r.loss ≤ 5 • totalDev (conv : N → L) n d other ∨
    other.length ^ maxiter • (r.loss - 5 • totalDev (conv : N → L) n d other) ≤
      (other.length - 1) ^ maxiter • (b.loss - 5 • totalDev (conv : N → L) n d other) := by
  obtain ⟨a1, a2, a3, a4, -, a6⟩ := C19_pam_build hm hd hs hb
  obtain ⟨h20, -⟩ := C20_pam_build hm hd hs hb
  obtain ⟨e, r', e', hle⟩ := C22_pam hm hd hs maxiter hb
  rw [e'] at hr
  cases hr
  rw [e] at e'
  have hle := hle fun _ => hmet.symm
  have h0 : (0 : L) ≤ totalDev (conv : N → L) n d other := by
    rw [totalDev_eq_sum]
    refine Finset.sum_nonneg fun i hi => ?_
    obtain ⟨⟨c, hc, e⟩, -⟩ := minDist_spec d i other hne
    rw [e, ← LawfulFrom.map_zero (N := N) (L := L)]
    exact (LawfulFrom.strictMono (N := N) (L := L)).monotone (hd.nonneg _ _ (Finset.mem_range.mp hi) (hor c hc))
  have h5 : totalDev (conv : N → L) n d other ≤ 5 • totalDev (conv : N → L) n d other := by
    conv_lhs => rw [← one_nsmul (totalDev (conv : N → L) n d other)]
    exact nsmul_le_nsmul_left h0 (by decide)
  by_cases hkk : b.med.length < k
  · exact .inl (hle.trans ((a6.trans (h20 hkk)).le.trans (h0.trans h5)))
  · have hbk : b.med.length = k := by omega
    by_cases h1 : k = 1
    · -- one medoid: BUILD is optimal
      obtain ⟨⟨c, hc, hc'⟩, -⟩ := C21_pam_build hm hd hs hb
      obtain ⟨x, rfl⟩ := List.length_eq_one_iff.mp
        (show other.length = 1 by have := List.length_pos_of_ne_nil hne; omega)
      obtain ⟨y, hy⟩ := List.length_eq_one_iff.mp (hbk.trans h1)
      rw [hy] at hc a6
      cases hc
      exact .inl (hle.trans ((a6.trans_le (hc' x (hor x (by simp)))).trans h5))
    · have hv : ValidMeds n b.med := ⟨⟨a1, a2.trans hs.le, hs.n_le, lt_of_le_of_lt a2 hs.k_lt⟩, a4⟩
      rw [a6]
      exact C94_pam_swap hm hd hmet hv a3 (by have := hs.pos; omega) e' hne hor (by omega)

end

/-! ## Integers -/

section
variable {N : Type} [LinearOrder N] [Zero N] [RDist N] [LawfulDist N] [RLoss ℤ] [LawfulLoss ℤ] [RFrom N ℤ] [LawfulFrom N ℤ]

theorem totalDev_nonneg_int {n : Nat} {d : Nat → Nat → N} (hd : Dissim n d) {med : List Nat} (hne : med ≠ [])
    (hr : ∀ c ∈ med, c < n) : 0 ≤ totalDev (conv : N → ℤ) n d med := by
  rw [totalDev_eq_sum]
  refine Finset.sum_nonneg fun i hi => ?_
  obtain ⟨⟨c, hc, e⟩, -⟩ := minDist_spec d i med hne
  rw [e, ← LawfulFrom.map_zero (N := N) (L := ℤ)]
  exact (LawfulFrom.strictMono (N := N) (L := ℤ)).monotone (hd.nonneg _ _ (Finset.mem_range.mp hi) (hr c hc))

/-- An integer that is small enough is not positive. -/
theorem int_rate {m t a : Nat} (hm : 0 < m) (ht : m * (Nat.log 2 a + 1) ≤ t) {x y : ℤ} (hy : y ≤ a)
    (h : m ^ t • x ≤ (m - 1) ^ t • y) : x ≤ 0 := by
  by_contra hx
  have h1 := pow_small hm ht
  rw [nsmul_eq_mul, nsmul_eq_mul] at h
  have h2 : ((m ^ t : ℕ) : ℤ) ≤ ((m ^ t : ℕ) : ℤ) * x := le_mul_of_one_le_right (Int.natCast_nonneg _) (by omega)
  have h3 : (((m - 1) ^ t : ℕ) : ℤ) * y ≤ (((m - 1) ^ t : ℕ) : ℤ) * a :=
    mul_le_mul_of_nonneg_left hy (Int.natCast_nonneg _)
  have h4 : (((m - 1) ^ t : ℕ) : ℤ) * a < ((m ^ t : ℕ) : ℤ) := by exact_mod_cast h1
  omega

/-- **C94, integers:** with a limit of at least `k (log₂ loss + 1)` iterations, `loss` being the loss of the initial
medoids, `pam_swap` and `fastpam1` return at most five times the total deviation of any at most `k` medoids. -/
theorem C94_integers {mat : Mat N} {n : Nat} {d : Nat → Nat → N} (hm : IsMatrix mat n d) (hd : Dissim n d)
    (hmet : IsMetric (conv : N → ℤ) n d) {med : List Nat} (hv : ValidMeds n med) (hnd : med.Nodup)
    (h2 : 2 ≤ med.length) {maxiter : Nat} {r : SwapResult ℤ}
    (hr : pamSwap ℤ mat med maxiter = .ok r ∨ fastpam1 ℤ mat med maxiter = .ok r)
    (hi : med.length * (Nat.log 2 (totalDev (conv : N → ℤ) n d med).toNat + 1) ≤ maxiter)
    {other : List Nat} (hne : other ≠ []) (hor : ∀ c ∈ other, c < n) (hk : other.length ≤ med.length) :
    r.loss ≤ 5 * totalDev (conv : N → ℤ) n d other := by
  have h : pamSwap ℤ mat med maxiter = .ok r := by
    rcases hr with h | h
    · exact h
    · rwa [(C14_fastpam1_eq_pam_swap hm hd hv hnd maxiter).1] at h
  have ho := totalDev_nonneg_int hd hne hor
  have hs := totalDev_nonneg_int hd (List.ne_nil_of_length_pos hv.sizes.pos) hv.range
  rcases C94_pam_swap hm hd hmet hv hnd h2 h hne hor hk with h | h
  · simpa using h
  · have := int_rate (List.length_pos_of_ne_nil hne) (le_trans (Nat.mul_le_mul_right _ hk) hi)
      (y := totalDev (conv : N → ℤ) n d med - 5 • totalDev (conv : N → ℤ) n d other)
      (by
        rw [Int.toNat_of_nonneg hs]
        have : (0 : ℤ) ≤ 5 • totalDev (conv : N → ℤ) n d other := nsmul_nonneg ho 5
        omega) h
    rw [nsmul_eq_mul] at this
    push_cast at this
    omega

/-- **C94, polynomial time:** with the limit `k (log₂ loss + 1)` FastPAM1 returns a solution within a factor of five of
the optimum, with at most `n (k + limit (n + k + 1))` reads and seven times as many steps. -/
theorem C94_fastpam1_polynomial (w : Weights) {mat : Mat N} {n : Nat} {d : Nat → Nat → N} (hm : IsMatrix mat n d)
    (hd : Dissim n d) (hmet : IsMetric (conv : N → ℤ) n d) {med : List Nat} (hv : ValidMeds n med) (hnd : med.Nodup)
    (h2 : 2 ≤ med.length) {limit : Nat}
    (hlim : limit = med.length * (Nat.log 2 (totalDev (conv : N → ℤ) n d med).toNat + 1)) :
    ∃ (r : SwapResult ℤ) (t : Nat), (fastpam1C ℤ w (mat.counted w) med limit).run = .ok (r, t) ∧
      fastpam1 ℤ mat med limit = .ok r ∧
      (∀ other : List Nat, other ≠ [] → (∀ c ∈ other, c < n) → other.length ≤ med.length →
        r.loss ≤ 5 * totalDev (conv : N → ℤ) n d other) ∧
      t ≤ (w.read + 7 * w.step) * (n * (med.length + limit * (n + med.length + 1))) := by
  obtain ⟨r, hr, -⟩ := C04_fastpam1 (L := ℤ) hm hv limit
  obtain ⟨t, h1, h3⟩ := C85_fastpam1 w mat (by omega) limit hr
  refine ⟨r, t, h1, hr, fun other hne hor hk =>
    C94_integers hm hd hmet hv hnd h2 (.inr hr) (by omega) hne hor hk, h3.trans (Nat.mul_le_mul_left _ ?_)⟩
  rw [hm.len]
  refine Nat.mul_le_mul_left _ ?_
  have hde := C86_fastpam1_descent hm hd hv hnd h2 limit hr
  have hi : r.nIter ≤ limit ∧ r.nSwap ≤ limit := by
    rcases hde.stop with ⟨a, b⟩ | ⟨a, b, -⟩ <;> omega
  have e1 : r.nIter * n ≤ limit * n := Nat.mul_le_mul_right _ hi.1
  have e2 : r.nSwap * (med.length + 1) ≤ limit * (med.length + 1) := Nat.mul_le_mul_right _ hi.2
  have e3 : limit * (n + med.length + 1) = limit * n + limit * (med.length + 1) := by ring
  omega

end

/-! ## Examples -/

/-- Three groups of three points on a line, all three initial medoids in the first group. After one iteration the loss is
still above five times the optimum, and bounded by the theorem: `3 (59 - 30) ≤ 2 (174 - 30)`. After at most
`3 (log₂ 174 + 1) = 24` iterations it is below. -/
example : IsMatrix (lineMat [0, 1, 2, 20, 21, 22, 40, 41, 42]) 9 (lineD [0, 1, 2, 20, 21, 22, 40, 41, 42]) ∧
    Dissim 9 (lineD [0, 1, 2, 20, 21, 22, 40, 41, 42]) ∧
    IsMetric (conv : ℕ → ℤ) 9 (lineD [0, 1, 2, 20, 21, 22, 40, 41, 42]) ∧ ValidMeds 9 [0, 1, 2] ∧
    totalDev (conv : ℕ → ℤ) 9 (lineD [0, 1, 2, 20, 21, 22, 40, 41, 42]) [0, 1, 2] = 174 ∧
    totalDev (conv : ℕ → ℤ) 9 (lineD [0, 1, 2, 20, 21, 22, 40, 41, 42]) [1, 4, 7] = 6 ∧
    pamSwap ℤ (lineMat [0, 1, 2, 20, 21, 22, 40, 41, 42]) [0, 1, 2] 1 =
      .ok ⟨59, [1, 1, 2, 2, 2, 0, 0, 0, 0], 1, 1, [6, 1, 2]⟩ ∧
    3 * (Nat.log 2 174 + 1) = 24 ∧
    (fastpam1 ℤ (lineMat [0, 1, 2, 20, 21, 22, 40, 41, 42]) [0, 1, 2] 24).map (·.loss) = .ok 6 :=
  ⟨lineMat_isMatrix _, lineD_dissim _ _, lineD_metric _ _, ⟨⟨by decide, by decide, by decide, by decide⟩, by decide⟩,
    by decide +kernel, by decide +kernel, by decide +kernel, by decide +kernel, by decide +kernel⟩

end KMedoids
