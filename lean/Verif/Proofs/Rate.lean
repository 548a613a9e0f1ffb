import Verif.Props.C64
import Verif.Props.C86
import Mathlib.Data.Nat.Log

/-!
# How fast PAM gets close to the optimum

A best exchange of PAM is at least as good as the average of the exchanges of `exchange_sum`, so it takes away at least
the `k`-th part of what the total deviation is above five times the optimum. A step of BUILD takes away at least the
`k`-th part of what it is above the optimum (Cornuéjols, Fisher and Nemhauser).
-/

set_option linter.unusedSectionVars false
set_option linter.overlappingInstances false

namespace KMedoids

open RFrom (conv)

section
variable {N L : Type} [LinearOrder N] [Zero N] [RDist N] [LawfulDist N]
variable [AddCommGroup L] [LinearOrder L] [IsOrderedAddMonoid L] [RLoss L] [LawfulLoss L]
variable [RFrom N L] [LawfulFrom N L]

/-- From the sum of `m` changes to the ratio `(m - 1) / m`. -/
theorem ratio_step {a b o : L} {m : Nat} (hm : 0 < m) (h : m • (b - a) ≤ o - a) :
    m • (b - o) ≤ (m - 1) • (a - o) := by
  obtain ⟨m, rfl⟩ : ∃ x, m = x + 1 := ⟨m - 1, by omega⟩
  calc (m + 1) • (b - o) = (m + 1) • (b - a) + (m + 1) • (a - o) := by rw [← smul_add]; congr 1; abel
    _ ≤ (o - a) + (m + 1) • (a - o) := add_le_add_left h _
    _ = (m + 1 - 1) • (a - o) := by rw [Nat.add_sub_cancel, add_smul, one_smul]; abel

/-- Putting together `c` steps and one more. -/
theorem ratio_trans {a b e : L} {m c : Nat} (h : m • b ≤ (m - 1) • a) (h' : m ^ c • e ≤ (m - 1) ^ c • b) :
    m ^ (c + 1) • e ≤ (m - 1) ^ (c + 1) • a := by
  calc m ^ (c + 1) • e = m • (m ^ c • e) := by rw [pow_succ', mul_smul]
    _ ≤ m • ((m - 1) ^ c • b) := nsmul_le_nsmul_right h' m
    _ = (m - 1) ^ c • (m • b) := by rw [← mul_smul, ← mul_smul, Nat.mul_comm]
    _ ≤ (m - 1) ^ c • ((m - 1) • a) := nsmul_le_nsmul_right h _
    _ = (m - 1) ^ (c + 1) • a := by rw [← mul_smul, pow_succ]

/-- Exchanging a medoid for another medoid does not help. -/
theorem totalDev_le_set_mem {n : Nat} {d : Nat → Nat → N} {med : List Nat} {b j : Nat} (hb : b < med.length)
    (hjm : j ∈ med) : totalDev (conv : N → L) n d med ≤ totalDev (conv : N → L) n d (med.set b j) := by
  rw [totalDev_eq_sum, totalDev_eq_sum]
  refine Finset.sum_le_sum fun i _ => (LawfulFrom.strictMono (N := N) (L := L)).monotone ?_
  have hne : med.set b j ≠ [] := List.ne_nil_of_length_pos (by rw [List.length_set]; omega)
  obtain ⟨⟨c, hc, e⟩, -⟩ := minDist_spec d i (med.set b j) hne
  rw [e]
  refine (minDist_spec d i med (List.ne_nil_of_length_pos (by omega))).2 c ?_
  rcases List.mem_or_eq_of_mem_set hc with h' | rfl
  · exact h'
  · exact hjm

/-- One best exchange. -/
theorem BestExchange.rate {n : Nat} {d : Nat → Nat → N} (hd : Dissim n d) (hmet : IsMetric (conv : N → L) n d)
    {med med' : List Nat} (hr : ∀ c ∈ med, c < n) (hb : BestExchange (totalDev (conv : N → L) n d) n med med')
    {other : List Nat} (hne : other ≠ []) (hor : ∀ c ∈ other, c < n) (hk : other.length ≤ med.length) :
    other.length • (totalDev (conv : N → L) n d med' - 5 • totalDev (conv : N → L) n d other) ≤
      (other.length - 1) • (totalDev (conv : N → L) n d med - 5 • totalDev (conv : N → L) n d other) := by
  obtain ⟨τ, h⟩ := exchange_sum (L := L) hd hmet hr hne hor hk
  obtain ⟨-, -, -, -, -, -, hlt, hbest⟩ := hb
  refine ratio_step (List.length_pos_of_ne_nil hne) (le_trans ?_ h)
  have : ∀ q ∈ (Finset.univ : Finset (Fin other.length)),
      totalDev (conv : N → L) n d med' - totalDev (conv : N → L) n d med ≤
        totalDev (conv : N → L) n d (med.set (τ q) other[q]) - totalDev (conv : N → L) n d med := by
    intro q _
    refine sub_le_sub_right ?_ _
    by_cases hq : other[q] ∈ med
    · exact hlt.le.trans (totalDev_le_set_mem (τ q).2 hq)
    · exact hbest _ _ (τ q).2 (hor _ (List.getElem_mem q.2)) hq
  have h2 := Finset.card_nsmul_le_sum _ _ _ this
  rwa [Finset.card_univ, Fintype.card_fin] at h2

theorem BestExchange.keeps {T : List Nat → L} {n : Nat} {med med' : List Nat} (hb : BestExchange T n med med')
    (hr : ∀ c ∈ med, c < n) : med'.length = med.length ∧ ∀ c ∈ med', c < n := by
  obtain ⟨b, j, h1, h2, -, rfl, -⟩ := hb
  refine ⟨List.length_set, fun c hc => ?_⟩
  rcases List.mem_or_eq_of_mem_set hc with h | rfl
  · exact hr c h
  · exact h2

/-- `c` best exchanges. -/
theorem Steepest.rate {n : Nat} {d : Nat → Nat → N} (hd : Dissim n d) (hmet : IsMetric (conv : N → L) n d)
    {c : Nat} {med med' : List Nat} (hr : ∀ c ∈ med, c < n)
    (hs : Steepest (totalDev (conv : N → L) n d) n c med med')
    {other : List Nat} (hne : other ≠ []) (hor : ∀ c ∈ other, c < n) (hk : other.length ≤ med.length) :
    other.length ^ c • (totalDev (conv : N → L) n d med' - 5 • totalDev (conv : N → L) n d other) ≤
      (other.length - 1) ^ c • (totalDev (conv : N → L) n d med - 5 • totalDev (conv : N → L) n d other) := by
  induction hs with
  | refl med => simp
  | step hb _ ih =>
    obtain ⟨h1, h2⟩ := hb.keeps hr
    exact ratio_trans (hb.rate hd hmet hr hne hor hk) (ih h2 (h1 ▸ hk))

/-! ## BUILD -/

theorem minDist_append_le {d : Nat → Nat → N} {o : Nat} {med : List Nat} (h : med ≠ []) (c : Nat) :
    minDist d o (med ++ [c]) ≤ minDist d o med ∧ minDist d o (med ++ [c]) ≤ d o c := by
  have h' := (minDist_spec d o (med ++ [c]) (by simp)).2
  obtain ⟨⟨x, hx, e⟩, -⟩ := minDist_spec d o med h
  exact ⟨e ▸ h' x (by simp [hx]), h' c (by simp)⟩

theorem totalDev_append_le {n : Nat} {d : Nat → Nat → N} {med : List Nat} (h : med ≠ []) (c : Nat) :
    totalDev (conv : N → L) n d (med ++ [c]) ≤ totalDev (conv : N → L) n d med := by
  rw [totalDev_eq_sum, totalDev_eq_sum]
  exact Finset.sum_le_sum fun i _ => (LawfulFrom.strictMono (N := N) (L := L)).monotone (minDist_append_le h c).1

/-- The gains of adding the medoids of another solution one at a time add up to at least the difference. -/
theorem addition_sum {n : Nat} {d : Nat → Nat → N} {med : List Nat} (h : med ≠ []) {other : List Nat}
    (hne : other ≠ []) :
    ∑ q : Fin other.length, (totalDev (conv : N → L) n d (med ++ [other[q]]) - totalDev (conv : N → L) n d med) ≤
      totalDev (conv : N → L) n d other - totalDev (conv : N → L) n d med := by
  have hmono := (LawfulFrom.strictMono (N := N) (L := L)).monotone
  have h1 : ∀ q : Fin other.length,
      totalDev (conv : N → L) n d (med ++ [other[q]]) - totalDev (conv : N → L) n d med =
        ∑ i ∈ Finset.range n, ((conv (minDist d i (med ++ [other[q]])) : L) - conv (minDist d i med)) := by
    intro q
    rw [totalDev_eq_sum, totalDev_eq_sum, Finset.sum_sub_distrib]
  rw [Finset.sum_congr rfl fun q _ => h1 q, Finset.sum_comm, totalDev_eq_sum _ _ _ other, totalDev_eq_sum _ _ _ med,
    ← Finset.sum_sub_distrib]
  refine Finset.sum_le_sum fun i _ => ?_
  obtain ⟨p, hp⟩ := exists_nearest_pos d i hne
  calc ∑ q : Fin other.length, ((conv (minDist d i (med ++ [other[q]])) : L) - conv (minDist d i med))
      ≤ (conv (minDist d i (med ++ [other[p]])) : L) - conv (minDist d i med) := by
        rw [← Finset.add_sum_erase _ _ (Finset.mem_univ p)]
        refine add_le_of_nonpos_right (Finset.sum_nonpos fun q _ => ?_)
        exact sub_nonpos.mpr (hmono (minDist_append_le h _).1)
    _ ≤ _ := sub_le_sub_right (hmono ((minDist_append_le h _).2.trans_eq hp.symm)) _

/-- One greedy step. -/
theorem greedy_rate {n : Nat} {d : Nat → Nat → N} {med : List Nat} (h : med ≠ []) {c : Nat} {other : List Nat}
    (hne : other ≠ [])
    (hg : ∀ x ∈ other, totalDev (conv : N → L) n d (med ++ [c]) ≤ totalDev (conv : N → L) n d (med ++ [x])) :
    other.length • (totalDev (conv : N → L) n d (med ++ [c]) - totalDev (conv : N → L) n d other) ≤
      (other.length - 1) • (totalDev (conv : N → L) n d med - totalDev (conv : N → L) n d other) := by
  refine ratio_step (List.length_pos_of_ne_nil hne) (le_trans ?_ (addition_sum h hne))
  have : ∀ q ∈ (Finset.univ : Finset (Fin other.length)),
      totalDev (conv : N → L) n d (med ++ [c]) - totalDev (conv : N → L) n d med ≤
        totalDev (conv : N → L) n d (med ++ [other[q]]) - totalDev (conv : N → L) n d med :=
    fun q _ => sub_le_sub_right (hg _ (List.getElem_mem q.2)) _
  have h2 := Finset.card_nsmul_le_sum _ _ _ this
  rwa [Finset.card_univ, Fintype.card_fin] at h2

/-- The first `l + 1` medoids of a greedy list. -/
theorem greedy_take_rate {n : Nat} {d : Nat → Nat → N} {meds : List Nat} {other : List Nat} (hne : other ≠ [])
    (hg : ∀ l c : Nat, 1 ≤ l → meds[l]? = some c → ∀ x ∈ other,
      totalDev (conv : N → L) n d (meds.take l ++ [c]) ≤ totalDev (conv : N → L) n d (meds.take l ++ [x]))
    {l : Nat} (hl : l < meds.length) :
    other.length ^ l • (totalDev (conv : N → L) n d (meds.take (l + 1)) - totalDev (conv : N → L) n d other) ≤
      (other.length - 1) ^ l • (totalDev (conv : N → L) n d (meds.take 1) - totalDev (conv : N → L) n d other) := by
  induction l with
  | zero => simp
  | succ l ih =>
    have h1 := ih (by omega)
    have hc : meds[l + 1]? = some meds[l + 1] := List.getElem?_eq_getElem hl
    have ht : meds.take (l + 1 + 1) = meds.take (l + 1) ++ [meds[l + 1]] := by
      rw [List.take_succ_eq_append_getElem hl]
    have h2 := greedy_rate (L := L) (n := n) (d := d) (med := meds.take (l + 1))
      (List.ne_nil_of_length_pos (by rw [List.length_take]; omega)) hne (hg (l + 1) _ (by omega) hc)
    rw [ht]
    calc other.length ^ (l + 1) • _ = other.length ^ l • (other.length • _) := by rw [pow_succ, mul_smul]
      _ ≤ other.length ^ l • ((other.length - 1) • _) := nsmul_le_nsmul_right h2 _
      _ = (other.length - 1) • (other.length ^ l • _) := by rw [← mul_smul, ← mul_smul, Nat.mul_comm]
      _ ≤ (other.length - 1) • ((other.length - 1) ^ l • _) := nsmul_le_nsmul_right h1 _
      _ = _ := by rw [← mul_smul, pow_succ']

end

/-! ## Powers -/

theorem two_mul_pred_pow_le (m : Nat) (hm : 0 < m) : 2 * (m - 1) ^ m ≤ m ^ m := by
  obtain ⟨x, rfl⟩ : ∃ x, m = x + 1 := ⟨m - 1, by omega⟩
  show 2 * x ^ (x + 1) ≤ (x + 1) ^ (x + 1)
  have h : ∀ c : Nat, x ^ (c + 1) + (c + 1) * x ^ c ≤ (x + 1) ^ (c + 1) := by
    intro c
    induction c with
    | zero => simp
    | succ c ih =>
      calc x ^ (c + 1 + 1) + (c + 1 + 1) * x ^ (c + 1)
          ≤ (x ^ (c + 1) + (c + 1) * x ^ c) * (x + 1) := by
            have : (x ^ (c + 1) + (c + 1) * x ^ c) * (x + 1) =
                x ^ (c + 1 + 1) + (c + 1 + 1) * x ^ (c + 1) + (c + 1) * x ^ c := by ring
            omega
        _ ≤ (x + 1) ^ (c + 1) * (x + 1) := Nat.mul_le_mul_right _ ih
        _ = _ := (pow_succ _ _).symm
  have := h x
  have e : x ^ (x + 1) = x * x ^ x := pow_succ' _ _
  have : (x + 1) * x ^ x = x ^ (x + 1) + x ^ x := by rw [e]; ring
  omega

/-- After `m (log₂ a + 1)` steps the factor is below `1 / a`. -/
theorem pow_small {m a t : Nat} (hm : 0 < m) (ht : m * (Nat.log 2 a + 1) ≤ t) : (m - 1) ^ t * a < m ^ t := by
  have h1 : ∀ c, 2 ^ c * (m - 1) ^ (m * c) ≤ m ^ (m * c) := by
    intro c
    rw [pow_mul, pow_mul, ← Nat.mul_pow]
    exact Nat.pow_le_pow_left (two_mul_pred_pow_le m hm) c
  have h2 : a < 2 ^ (Nat.log 2 a + 1) := Nat.lt_pow_succ_log_self (by decide) a
  obtain ⟨s, rfl⟩ := Nat.exists_eq_add_of_le ht
  generalize Nat.log 2 a + 1 = c at *
  have hpos : 0 < m ^ s := Nat.pow_pos hm
  rcases Nat.eq_zero_or_pos ((m - 1) ^ (m * c + s)) with h0 | h0
  · rw [h0, Nat.zero_mul]; exact Nat.pow_pos hm
  · calc (m - 1) ^ (m * c + s) * a < (m - 1) ^ (m * c + s) * 2 ^ c := Nat.mul_lt_mul_of_pos_left h2 h0
      _ = 2 ^ c * (m - 1) ^ (m * c) * (m - 1) ^ s := by rw [pow_add]; ring
      _ ≤ m ^ (m * c) * m ^ s := Nat.mul_le_mul (h1 c) (Nat.pow_le_pow_left (by omega) s)
      _ = _ := (pow_add _ _ _).symm

end KMedoids
