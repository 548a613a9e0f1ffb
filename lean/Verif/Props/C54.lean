import Verif.Props.C36_C38
import Verif.Props.C39_C43
import Verif.Proofs.Limit

/-!
# C54: the medoid silhouette optimisers converge, and converged results are fixed points

Exact arithmetic, zero diagonal, no negative distances, at least two distinct initial medoids. `IsMscRun`: the
result comes from `fastermsc`, `fastmsc` or `pammedsil_swap`.
-/

set_option linter.unusedSectionVars false

namespace KMedoids

open RFrom (conv)

variable {N L : Type} [LinearOrder N] [Zero N] [RDist N] [LawfulDist N]
variable [Field L] [LinearOrder L] [IsStrictOrderedRing L] [RLoss L] [LawfulField L]
variable [RFrom N L] [LawfulFrom N L]

theorem SwapChain.first {L : Type} [LT L] {T : List Nat → L} {n c : Nat} {med med' : List Nat}
    (hc : SwapChain T n c med med') :
    c = 0 ∨ ∃ m j, m < med.length ∧ j < n ∧ j ∉ med ∧ T (med.set m j) < T med := by
  induction hc with
  | refl _ => exact Or.inl rfl
  | step hch b j hb hj hjm hT ih =>
    rcases ih with hc0 | h'
    · subst hc0
      cases hch
      exact Or.inr ⟨b, j, hb, hj, hjm, hT⟩
    · exact Or.inr h'

/-- **C54, path.** The returned medoids are reached by `n_swap` exchanges of a medoid by a non-medoid, each of
which increases the medoid silhouette. -/
theorem C54_msc_chain [LawfulAdd N L] {mat : Mat N} {n : Nat} {d : Nat → Nat → N} (hm : IsMatrix mat n d)
    (hd : Dissim n d) {med : List Nat} (hv : ValidMeds n med) (hnd : med.Nodup) (hk : 2 ≤ med.length)
    {maxiter : Nat} {r : SwapResult L} (hr : IsMscRun mat med maxiter r) :
    SwapChain (fun m => -medSil (conv : N → L) n d m) n r.nSwap med r.med := by
  have hn : 0 < n := lt_of_lt_of_le hv.sizes.pos hv.sizes.le
  exact (hr.outcome hm hd hv hnd hk).chain.mono fun x y h =>
    neg_lt_neg ((medSil_lt_iff hn d y x).mpr h)

/-- **C54, convergence.** There are fewer swaps than `k`-subsets of the objects. With `maxiter` above that
number the run ends by itself, in a local optimum. -/
theorem C54_msc_converges [LawfulAdd N L] {mat : Mat N} {n : Nat} {d : Nat → Nat → N} (hm : IsMatrix mat n d)
    (hd : Dissim n d) {med : List Nat} (hv : ValidMeds n med) (hnd : med.Nodup) (hk : 2 ≤ med.length)
    {maxiter : Nat} {r : SwapResult L} (hr : IsMscRun mat med maxiter r) :
    r.nSwap < Nat.choose n med.length ∧ r.nIter ≤ Nat.choose n med.length ∧
    (Nat.choose n med.length < maxiter → r.nIter < maxiter ∧ SilSwapOptimal L n d r.med) := by
  have h := hr.outcome hm hd hv hnd hk
  have hc := h.chain.count' hnd hv.range fun x y hx hxn hyn hxy => by
    have hp := List.toFinset_eq_iff_perm_dedup.mp hxy
    rw [hxn.dedup, hyn.dedup] at hp
    exact msT_perm hp (by omega)
  have hi := h.iter
  refine ⟨hc, by omega, fun hlt => ?_⟩
  have : r.nIter < maxiter := by omega
  exact ⟨this, C33_msc hm hd hv hnd hk hr this⟩

/-- **C54, fixed points.** Started from medoids that no exchange improves, for example those of a converged run
of any of the three functions, nothing changes. -/
theorem C54_msc_from_optimum [LawfulAdd N L] {mat : Mat N} {n : Nat} {d : Nat → Nat → N} (hm : IsMatrix mat n d)
    (hd : Dissim n d) {med : List Nat} (hv : ValidMeds n med) (hnd : med.Nodup) (hk : 2 ≤ med.length)
    {maxiter : Nat} {r : SwapResult L} (hr : IsMscRun mat med maxiter r) (hopt : SilSwapOptimal L n d med) :
    r.nSwap = 0 ∧ r.med = med ∧ r.loss = medSil (conv : N → L) n d med := by
  have hn : 0 < n := lt_of_lt_of_le hv.sizes.pos hv.sizes.le
  have h := hr.outcome hm hd hv hnd hk
  have h0 : r.nSwap = 0 := by
    rcases h.chain.first with h0 | ⟨m, j, h1, h2, h3, h4⟩
    · exact h0
    · exact absurd (hopt m j h1 h2 h3) (not_le.mpr ((medSil_lt_iff hn d _ _).mpr h4))
  have h1 : r.med = med := (h0 ▸ h.chain).eq_of_zero
  exact ⟨h0, h1, h1 ▸ h.loss⟩

/-- **C54, second run.** Running any of the three functions on the medoids of a converged run of any of them
changes nothing. -/
theorem C54_msc_twice [LawfulAdd N L] {mat : Mat N} {n : Nat} {d : Nat → Nat → N} (hm : IsMatrix mat n d)
    (hd : Dissim n d) {med : List Nat} (hv : ValidMeds n med) (hnd : med.Nodup) (hk : 2 ≤ med.length)
    {maxiter : Nat} {r : SwapResult L} (hr : IsMscRun mat med maxiter r) (hlt : r.nIter < maxiter)
    {maxiter' : Nat} {r' : SwapResult L} (hr' : IsMscRun mat r.med maxiter' r') :
    r'.nSwap = 0 ∧ r'.med = r.med ∧ r'.loss = r.loss := by
  have h := hr.outcome hm hd hv hnd hk
  obtain ⟨a, b, c⟩ := C54_msc_from_optimum hm hd (h.valid hv) (h.chain.nodup hnd)
    (by rw [h.chain.length]; exact hk) hr' (C33_msc hm hd hv hnd hk hr hlt)
  exact ⟨a, b, c.trans h.loss.symm⟩

/-- **C54, pammedsil:** the same for BUILD followed by SWAP, if BUILD finds at least two medoids. -/
theorem C54_pammedsil [LawfulAdd N L] {mat : Mat N} {n k : Nat} {d : Nat → Nat → N} (hm : IsMatrix mat n d)
    (hd : Dissim n d) (hs : Sizes n k) {meds : List Nat} {data : List (Reco N)} {loss : L}
    (hb : pammedsilBuildInitialize L mat k = .ok (meds, data, loss)) (hk : 2 ≤ meds.length) {maxiter : Nat}
    {r : SwapResult L} (hr : pammedsil L mat k maxiter = .ok r) :
    r.nSwap < Nat.choose n meds.length ∧ r.nIter ≤ Nat.choose n meds.length ∧
    (Nat.choose n meds.length < maxiter → r.nIter < maxiter ∧ SilSwapOptimal L n d r.med) := by
  obtain ⟨e, hv, hnd⟩ := C51_pammedsil hm hd hs maxiter hb
  rw [e] at hr
  exact C54_msc_converges hm hd hv hnd hk (.inr (.inr hr))

/-- Six objects, three medoids: three swaps, and 21 iterations are always enough. -/
example : IsMatrix exMat 6 exD ∧ Dissim 6 exD ∧ ValidMeds 6 [0, 1, 2] ∧ [0, 1, 2].Nodup ∧
    Nat.choose 6 3 = 20 ∧
    fastermsc ℚ exMat [0, 1, 2] 21 = .ok ⟨14 / 15, [1, 1, 1, 0, 0, 2], 2, 3, [4, 1, 5]⟩ ∧
    IsMscRun (L := ℚ) exMat [4, 1, 5] 21 ⟨14 / 15, [1, 1, 1, 0, 0, 2], 1, 0, [4, 1, 5]⟩ ∧
    (∃ data loss, pammedsilBuildInitialize ℚ exMat 3 = .ok ([2, 4, 5], data, loss)) ∧
    pammedsil ℚ exMat 3 21 = .ok ⟨14 / 15, [0, 0, 0, 1, 1, 2], 2, 1, [0, 4, 5]⟩ :=
  ⟨exMat_isMatrix, exD_dissim, ex_valid (by decide) (by decide) (by decide), by decide, by decide,
    by decide +kernel, .inl (by decide +kernel),
    ⟨[⟨⟨0, 1⟩, ⟨1, 6⟩, ⟨2, 10⟩⟩, ⟨⟨0, 1⟩, ⟨1, 6⟩, ⟨2, 10⟩⟩, ⟨⟨0, 0⟩, ⟨1, 5⟩, ⟨2, 9⟩⟩, ⟨⟨1, 1⟩, ⟨0, 4⟩, ⟨2, 5⟩⟩,
      ⟨⟨1, 0⟩, ⟨2, 4⟩, ⟨0, 5⟩⟩, ⟨⟨2, 0⟩, ⟨1, 4⟩, ⟨0, 9⟩⟩], 7 / 12, by decide +kernel⟩, by decide +kernel⟩

end KMedoids
