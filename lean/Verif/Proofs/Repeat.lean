import Verif.Proofs.Outcome
import Verif.Proofs.Par

/-!
# Runs from starts with repeated medoids

The caches are correct also if a start names a medoid several times, except that such a medoid need not be the nearest medoid of itself
by number. The names are those of the files on starts without repetitions (Cache, CacheLoops, Loss, LossLoops), in the namespace
`Repeated`.
-/

set_option linter.unusedSectionVars false

namespace KMedoids.Repeated

open RFrom (conv)

section cache
variable {N : Type} [LinearOrder N] [Zero N] [RDist N] [LawfulDist N]

/-- The cached nearest and second nearest medoids of object `o` are correct. -/
structure RecOk (d : Nat → Nat → N) (med : List Nat) (o : Nat) (r : Rec N) : Prop where
  near : ∃ c, med[r.near.i]? = some c ∧ d o c = r.near.d
  seco : ∃ c, med[r.seco.i]? = some c ∧ d o c = r.seco.d
  ne : r.near.i ≠ r.seco.i
  le : r.near.d ≤ r.seco.d
  rest : ∀ m c : Nat, med[m]? = some c → m ≠ r.near.i → r.seco.d ≤ d o c

theorem swapRecP_ok {n : Nat} {d : Nat → Nat → N} (hd : Dissim n d) {med : List Nat} {b j o : Nat}
    (hb : b < med.length) (hj : j < n) (ho : o < n) (hr : ∀ m ∈ med, m < n)
    {r : Rec N} (h : RecOk d med o r) :
    RecOk d (med.set b j) o (swapRecP d (med.set b j) b j (r, o)) := by
  have hset := getElem?_set_lt (l := med) hb j
  have hsb : (med.set b j)[b]? = some j := by rw [hset]; simp
  obtain ⟨⟨c1, hc1, hd1⟩, ⟨c2, hc2, hd2⟩, hne, hle, hrest⟩ := h
  have hc1n : c1 < n := hr _ (List.mem_of_getElem? hc1)
  unfold swapRecP
  by_cases hoj : o = j
  · -- the object that becomes a medoid
    subst hoj
    simp only [if_true, zeroN]
    by_cases hnb : r.near.i = b
    · rw [if_neg (by simpa using hnb)]
      refine ⟨⟨o, hsb, hd.diag o ho⟩, ⟨c2, ?_, hd2⟩, ?_, ?_, ?_⟩
      · dsimp only; rw [hset, if_neg (by omega)]; exact hc2
      · dsimp only; omega
      · dsimp only; rw [← hd2]; exact hd.nonneg _ _ ho (hr _ (List.mem_of_getElem? hc2))
      · intro m c hm hmb
        dsimp only at hmb ⊢
        rw [hset, if_neg hmb] at hm
        exact hrest m c hm (by omega)
    · rw [if_pos hnb]
      refine ⟨⟨o, hsb, hd.diag o ho⟩, ⟨c1, ?_, hd1⟩, ?_, ?_, ?_⟩
      · dsimp only; rw [hset, if_neg hnb]; exact hc1
      · dsimp only; omega
      · dsimp only; rw [← hd1]; exact hd.nonneg _ _ ho hc1n
      · intro m c hm hmb
        dsimp only at hmb ⊢
        rw [hset, if_neg hmb] at hm
        by_cases hmi : m = r.near.i
        · subst hmi; rw [hc1] at hm; cases hm; exact le_of_eq hd1.symm
        · exact le_trans hle (hrest m c hm hmi)
  · simp only [hoj, if_false, rltN, decide_eq_true_eq]
    by_cases hnb : r.near.i = b
    · rw [if_pos hnb]
      by_cases h1 : d o j < r.seco.d
      · rw [if_pos h1]
        refine ⟨⟨j, hsb, rfl⟩, ⟨c2, ?_, hd2⟩, ?_, le_of_lt h1, ?_⟩
        · dsimp only; rw [hset, if_neg (by omega)]; exact hc2
        · dsimp only; omega
        · intro m c hm hmb
          dsimp only at hmb ⊢
          rw [hset, if_neg hmb] at hm
          exact hrest m c hm (by omega)
      · rw [if_neg h1]
        obtain ⟨u1, u2, u3⟩ := usnP_spec d (o := o) hsb (nn := r.seco.i) (by omega)
        have h1 := not_lt.mp h1
        refine ⟨⟨c2, ?_, hd2⟩, u1, Ne.symm u2, ?_, u3⟩
        · dsimp only; rw [hset, if_neg (by omega)]; exact hc2
        · obtain ⟨c, hc, hcd⟩ := u1
          dsimp only
          rw [← hcd]
          rw [hset] at hc
          split at hc
          · cases hc; exact h1
          · exact hrest _ c hc (by omega)
    · rw [if_neg hnb]
      by_cases h1 : d o j < r.near.d
      · rw [if_pos h1]
        refine ⟨⟨j, hsb, rfl⟩, ⟨c1, ?_, hd1⟩, ?_, le_of_lt h1, ?_⟩
        · rw [hset, if_neg hnb]; exact hc1
        · dsimp only; omega
        · intro m c hm hmb
          dsimp only at hmb ⊢
          rw [hset, if_neg hmb] at hm
          by_cases hmi : m = r.near.i
          · subst hmi; rw [hc1] at hm; cases hm; exact le_of_eq hd1.symm
          · exact le_trans hle (hrest m c hm hmi)
      · rw [if_neg h1]
        have h1 := not_lt.mp h1
        by_cases h2 : d o j < r.seco.d
        · rw [if_pos h2]
          refine ⟨⟨c1, ?_, hd1⟩, ⟨j, hsb, rfl⟩, hnb, h1, ?_⟩
          · rw [hset, if_neg hnb]; exact hc1
          · intro m c hm hmi
            rw [hset] at hm
            split at hm
            · cases hm; exact le_refl _
            · exact le_trans (le_of_lt h2) (hrest m c hm hmi)
        · rw [if_neg h2]
          have h2 := not_lt.mp h2
          by_cases h3 : r.seco.i = b
          · rw [if_pos h3]
            obtain ⟨u1, u2, u3⟩ := usnP_spec d (o := o) hsb (nn := r.near.i) hnb
            refine ⟨⟨c1, ?_, hd1⟩, u1, Ne.symm u2, ?_, u3⟩
            · rw [hset, if_neg hnb]; exact hc1
            · obtain ⟨c, hc, hcd⟩ := u1
              dsimp only
              rw [← hcd]
              rw [hset] at hc
              split at hc
              · cases hc; exact h1
              · exact le_trans hle (hrest _ c hc u2)
          · rw [if_neg h3]
            refine ⟨⟨c1, ?_, hd1⟩, ⟨c2, ?_, hd2⟩, hne, hle, ?_⟩
            · rw [hset, if_neg hnb]; exact hc1
            · rw [hset, if_neg h3]; exact hc2
            · intro m c hm hmi
              rw [hset] at hm
              split at hm
              · cases hm; exact h2
              · exact hrest m c hm hmi

/-- State of the record while the medoid list is being read. -/
def InitOk (d : Nat → Nat → N) (med : List Nat) (o : Nat) (r : Rec N) : Prop :=
  (∃ c, med = [c] ∧ r.near = ⟨0, d o c⟩ ∧ r.seco.i = u32Max) ∨ (2 ≤ med.length ∧ RecOk d med o r)

theorem initStepP_ok {n : Nat} {d : Nat → Nat → N} (hd : Dissim n d) {med : List Nat} {c o : Nat}
    (ho : o < n) (hr : ∀ m ∈ med, m < n) (hcn : c < n)
    (hlen : med.length < u32Max) {r : Rec N} (h : InitOk d med o r) :
    InitOk d (med ++ [c]) o (initStepP d o r (c, med.length)) := by
  right
  have happ := getElem?_append_singleton med c
  rcases h with ⟨c0, rfl, hnear, hsec⟩ | ⟨hl, hok⟩
  · refine ⟨by simp, ?_⟩
    have hc0 : c0 < n := hr c0 (by simp)
    have hget : ∀ m x : Nat, [c0, c][m]? = some x → (m = 0 ∧ x = c0) ∨ (m = 1 ∧ x = c) := by
      intro m x hm
      match m, hm with
      | 0, hm => left; simpa [eq_comm] using hm
      | 1, hm => right; simpa [eq_comm] using hm
      | m + 2, hm => simp at hm
    simp only [initStepP, hnear, hsec, List.length_singleton, rltN, beq_self_eq_true, Bool.true_or,
      if_true, List.singleton_append, Bool.or_eq_true, decide_eq_true_eq, beq_iff_eq]
    split
    · rename_i hc
      refine ⟨⟨c, rfl, rfl⟩, ⟨c0, rfl, rfl⟩, by simp, ?_, ?_⟩
      · rcases hc with hc | hc
        · exact le_of_lt hc
        · subst hc; dsimp only; rw [hd.diag o ho]; exact hd.nonneg _ _ ho hc0
      · intro m x hm hmi
        dsimp only at hmi ⊢
        rcases hget m x hm with ⟨rfl, rfl⟩ | ⟨rfl, rfl⟩
        · exact le_refl _
        · exact absurd rfl hmi
    · rename_i hc
      rw [not_or] at hc
      refine ⟨⟨c0, rfl, rfl⟩, ⟨c, rfl, rfl⟩, by simp, not_lt.mp hc.1, ?_⟩
      · intro m x hm hmi
        dsimp only at hmi ⊢
        rcases hget m x hm with ⟨rfl, rfl⟩ | ⟨rfl, rfl⟩
        · exact absurd rfl hmi
        · exact le_refl _
  · refine ⟨by simp; omega, ?_⟩
    obtain ⟨⟨c1, hc1, hd1⟩, ⟨c2, hc2, hd2⟩, hne, hle, hrest⟩ := hok
    have hi1 : r.near.i < med.length := (List.getElem?_eq_some_iff.mp hc1).1
    have hi2 : r.seco.i < med.length := (List.getElem?_eq_some_iff.mp hc2).1
    have hsu : (r.seco.i == u32Max) = false := by simp; omega
    have hlast : (med ++ [c])[med.length]? = some c := by rw [happ]; simp
    have h1' : (med ++ [c])[r.near.i]? = some c1 := by rw [happ, if_neg (by omega)]; exact hc1
    have h2' : (med ++ [c])[r.seco.i]? = some c2 := by rw [happ, if_neg (by omega)]; exact hc2
    have hc1n : c1 < n := hr _ (List.mem_of_getElem? hc1)
    simp only [initStepP, hsu, rltN, Bool.false_or, Bool.or_eq_true, decide_eq_true_eq, beq_iff_eq]
    split
    · rename_i hc
      refine ⟨⟨c, hlast, rfl⟩, ⟨c1, h1', hd1⟩, by dsimp only; omega, ?_, ?_⟩
      · rcases hc with hc | hc
        · exact le_of_lt hc
        · subst hc; dsimp only; rw [hd.diag o ho, ← hd1]; exact hd.nonneg _ _ ho hc1n
      · intro m x hm hmi
        dsimp only at hmi ⊢
        rw [happ, if_neg hmi] at hm
        by_cases hmn : m = r.near.i
        · subst hmn; rw [hc1] at hm; cases hm; exact le_of_eq hd1.symm
        · exact le_trans hle (hrest m x hm hmn)
    · rename_i hc
      rw [not_or] at hc
      split
      · rename_i hc2'
        refine ⟨⟨c1, h1', hd1⟩, ⟨c, hlast, rfl⟩, by dsimp only; omega, not_lt.mp hc.1, ?_⟩
        intro m x hm hmi
        rw [happ] at hm
        split at hm
        · cases hm; exact le_refl _
        · exact le_trans (le_of_lt hc2') (hrest m x hm hmi)
      · rename_i hc2'
        refine ⟨⟨c1, h1', hd1⟩, ⟨c2, h2', hd2⟩, hne, hle, ?_⟩
        intro m x hm hmi
        rw [happ] at hm
        split at hm
        · cases hm; exact not_lt.mp hc2'
        · exact hrest m x hm hmi

theorem initRecP_init {n : Nat} {d : Nat → Nat → N} (hd : Dissim n d) {o : Nat} (ho : o < n)
    (med : List Nat) (hm : med ≠ []) (hr : ∀ m ∈ med, m < n)
    (hlen : med.length ≤ u32Max) : InitOk d med o (initRecP d med o) := by
  induction med using List.reverseRecOn with
  | nil => exact absurd rfl hm
  | append_singleton med c ih =>
    by_cases hne : med = []
    · subst hne; left; exact ⟨c, rfl, rfl, rfl⟩
    · rw [initRecP_append d hne]
      have hl : med.length < u32Max := by simp at hlen; omega
      exact initStepP_ok hd ho (fun m hm => hr m (by simp [hm])) (hr c (by simp)) hl
        (ih hne (fun m hm => hr m (by simp [hm])) (le_of_lt hl))

/-- All caches are correct. -/
structure CacheOk (n : Nat) (d : Nat → Nat → N) (med : List Nat) (data : List (Rec N)) : Prop where
  range : ∀ m ∈ med, m < n
  len : data.length = n
  recs : ∀ p ∈ data.zipIdx, RecOk d med p.2 p.1

theorem initDataP_ok {n : Nat} {d : Nat → Nat → N} (hd : Dissim n d) {med : List Nat}
    (hk : 2 ≤ med.length) (hv : ValidMeds n med) :
    CacheOk n d med (initDataP d n med) := by
  refine ⟨hv.range, by simp [initDataP], fun p hp => ?_⟩
  obtain ⟨h1, h2⟩ := mem_range_map_zipIdx hp
  rw [h2]
  have hne : med ≠ [] := by intro h; simp [h] at hk
  rcases initRecP_init hd h1 med hne hv.range (le_of_lt hv.sizes.k_lt) with ⟨c, h, -, -⟩ | h
  · rw [h] at hk; simp at hk
  · exact h.2

theorem swapDataP_ok {n : Nat} {d : Nat → Nat → N} (hd : Dissim n d) {med : List Nat}
    {data : List (Rec N)} (h : CacheOk n d med data) {b j : Nat} (hb : b < med.length) (hj : j < n) : CacheOk n d (med.set b j) (swapDataP d med data b j) := by
  refine ⟨?_, by simp [swapDataP, h.len], ?_⟩
  · intro m hm
    rcases List.mem_or_eq_of_mem_set hm with h' | h'
    · exact h.range m h'
    · omega
  · intro p hp
    rw [swapDataP, zipIdx_map_zipIdx] at hp
    obtain ⟨q, hq, rfl⟩ := List.mem_map.mp hp
    have hqn : q.2 < n := h.len ▸ mem_zipIdx_lt hq
    exact swapRecP_ok hd hb hj hqn h.range (h.recs q hq)

/-- What passes the test for "is already a medoid" is one. -/
theorem ownP_mem {med : List Nat} {data : List (Rec N)} {j : Nat} (h : ownP med data j = true) : j ∈ med := by
  unfold ownP at h
  cases hj : data[j]? with
  | none => rw [hj] at h; simp at h
  | some r => rw [hj] at h; exact List.mem_of_getElem? (by simpa using h)

theorem CacheOk.shape {n : Nat} {d : Nat → Nat → N} {med : List Nat} {data : List (Rec N)}
    (h : CacheOk n d med data) : Shape n med.length med data := by
  refine ⟨rfl, h.range, h.len, fun r hr => ?_⟩
  obtain ⟨i, hi, rfl⟩ := List.mem_iff_getElem.mp hr
  have hrec := h.recs (data[i], i) (List.mem_zipIdx_iff_getElem?.mpr (by simp [hi]))
  obtain ⟨c, hc, -⟩ := hrec.near
  obtain ⟨c', hc', -⟩ := hrec.seco
  exact ⟨(List.getElem?_eq_some_iff.mp hc).1, (List.getElem?_eq_some_iff.mp hc').1⟩

/-- Correct caches name a nearest medoid of each object. -/
theorem CacheOk.nearest {n : Nat} {d : Nat → Nat → N} {med : List Nat} {data : List (Rec N)}
    (h : CacheOk n d med data) : ∀ o m : Nat, (data.map (·.near.i))[o]? = some m → IsNearest d med o m := by
  intro o m hm
  rw [List.getElem?_map] at hm
  obtain ⟨r, hr, rfl⟩ := Option.map_eq_some_iff.mp hm
  obtain ⟨⟨c1, hc1, hd1⟩, -, -, hle, hrest⟩ := h.recs (r, o) (List.mem_zipIdx_iff_getElem?.mpr (by simpa using hr))
  refine ⟨c1, hc1, fun c' hc' => ?_⟩
  obtain ⟨m', hm'⟩ := List.mem_iff_getElem?.mp hc'
  by_cases hmi : m' = r.near.i
  · subst hmi; rw [hc1] at hm'; cases hm'; exact le_refl _
  · rw [hd1]; exact le_trans hle (hrest m' c' hm' hmi)

theorem RecOk.minDist_eq {d : Nat → Nat → N} {med : List Nat} {o : Nat} {r : Rec N}
    (h : RecOk d med o r) : minDist d o med = r.near.d := by
  obtain ⟨c, hc, hd⟩ := h.near
  rw [← hd]
  refine KMedoids.minDist_eq (List.mem_of_getElem? hc) fun c' hc' => ?_
  obtain ⟨m, hm⟩ := List.mem_iff_getElem?.mp hc'
  by_cases hmi : m = r.near.i
  · subst hmi; rw [hc] at hm; cases hm; exact le_refl _
  · rw [hd]; exact le_trans h.le (h.rest m c' hm hmi)

/-- Distance to the nearest medoid after an exchange, from the caches before. -/
theorem RecOk.minDist_set {d : Nat → Nat → N} {med : List Nat} {o : Nat} {r : Rec N}
    (h : RecOk d med o r) {b : Nat} (hb : b < med.length) (j : Nat) :
    minDist d o (med.set b j) = min (d o j) (if r.near.i = b then r.seco.d else r.near.d) := by
  have hset := getElem?_set_lt hb j
  have hjm : j ∈ med.set b j := List.mem_of_getElem? (i := b) (by rw [hset]; simp)
  have hall : ∀ x : N, x ≤ d o j → (∀ m c : Nat, med[m]? = some c → m ≠ b → x ≤ d o c) →
      ∀ c ∈ med.set b j, x ≤ d o c := by
    intro x h1 h2 c hc
    obtain ⟨m, hm⟩ := List.mem_iff_getElem?.mp hc
    rw [hset] at hm
    split at hm
    · cases hm; exact h1
    · exact h2 m c hm (by assumption)
  by_cases hnb : r.near.i = b
  · rw [if_pos hnb]
    obtain ⟨c2, hc2, hd2⟩ := h.seco
    have hmem : c2 ∈ med.set b j := List.mem_of_getElem? (i := r.seco.i)
      (by rw [hset, if_neg (fun e => h.ne (hnb.trans e.symm))]; exact hc2)
    have hrest : ∀ m c : Nat, med[m]? = some c → m ≠ b → r.seco.d ≤ d o c :=
      fun m c hm hmb => h.rest m c hm (fun e => hmb (e.trans hnb))
    rcases le_total (d o j) r.seco.d with hle | hle
    · rw [min_eq_left hle]
      exact KMedoids.minDist_eq hjm (hall _ (le_refl _) fun m c hm hmb =>
        le_trans hle (hrest m c hm hmb))
    · rw [min_eq_right hle, ← hd2]
      refine KMedoids.minDist_eq hmem (hall _ (hd2 ▸ hle) fun m c hm hmb => ?_)
      rw [hd2]; exact hrest m c hm hmb
  · rw [if_neg hnb]
    obtain ⟨c1, hc1, hd1⟩ := h.near
    have hmem : c1 ∈ med.set b j := List.mem_of_getElem? (i := r.near.i)
      (by rw [hset, if_neg hnb]; exact hc1)
    have hrest : ∀ m c : Nat, med[m]? = some c → r.near.d ≤ d o c := by
      intro m c hm
      by_cases hmi : m = r.near.i
      · subst hmi; rw [hc1] at hm; cases hm; exact le_of_eq hd1.symm
      · exact le_trans h.le (h.rest m c hm hmi)
    rcases le_total (d o j) r.near.d with hle | hle
    · rw [min_eq_left hle]
      exact KMedoids.minDist_eq hjm (hall _ (le_refl _) fun m c hm _ => le_trans hle (hrest m c hm))
    · rw [min_eq_right hle, ← hd1]
      refine KMedoids.minDist_eq hmem (hall _ (hd1 ▸ hle) fun m c hm _ => ?_)
      rw [hd1]; exact hrest m c hm

end cache

variable {N L : Type} [LinearOrder N] [Zero N] [RDist N] [LawfulDist N]

/-! ## Any loss arithmetic -/

section any
variable [RLoss L] [RFrom N L]

/-- Invariant of the FasterPAM loop. -/
structure FPOk (n k : Nat) (d : Nat → Nat → N) (s : FPState N L) : Prop where
  cache : CacheOk n d s.med s.data
  medLen : s.med.length = k
  remLen : s.rem.length = k

theorem fpSwapP_ok {n k : Nat} {d : Nat → Nat → N} (hd : Dissim n d) {s : FPState N L}
    (hs : FPOk n k d s) {b j : Nat} (hb : b < k) (hj : j < n) :
    FPOk n k d (fpSwapP d s b j) := by
  have h := swapDataP_ok hd hs.cache (hs.medLen ▸ hb) hj
  refine ⟨h, by simp [fpSwapP, hs.medLen], ?_⟩
  have h2 := h.shape.recIdx
  simp only [List.length_set, hs.medLen] at h2
  show (remP L (swapDataP d s.med s.data b j) s.rem.length).length = k
  rw [hs.remLen]
  exact remP_length h2

theorem fpPassP_ok {n k : Nat} {d : Nat → Nat → N} (hd : Dissim n d) (hk : 1 ≤ k) {js : List Nat}
    (hjs : ∀ j ∈ js, j < n) {s : FPState N L} (hs : FPOk n k d s) : FPOk n k d (fpPassP d js s) := by
  induction js generalizing s with
  | nil => exact hs
  | cons j js ih =>
    have hj : j < n := hjs j (by simp)
    have ih' := fun {s : FPState N L} (h : FPOk n k d s) => ih (fun j hj => hjs j (by simp [hj])) h
    unfold fpPassP
    split
    · exact hs
    · split
      · exact ih' hs
      · dsimp only
        split
        · exact ih' hs
        · have hb := fbsP_lt d (rem := s.rem) s.data j (by rw [hs.remLen]; exact hk)
          rw [hs.remLen] at hb
          exact ih' (fpSwapP_ok hd hs hb hj)

theorem fpLoopP_ok {n k : Nat} {d : Nat → Nat → N} (hd : Dissim n d) (hk : 1 ≤ k) {seq : List Nat}
    (hseq : ∀ j ∈ seq, j < n) {fuel iter : Nat} {s : FPState N L} (hs : FPOk n k d s) :
    FPOk n k d (fpLoopP d seq fuel iter s).1 := by
  induction fuel generalizing iter s with
  | zero => exact hs
  | succ fuel ih =>
    have h := fpPassP_ok hd hk hseq hs
    unfold fpLoopP
    dsimp only
    split
    · exact h
    · exact ih h

theorem fpInitP_ok {n : Nat} {d : Nat → Nat → N} (hd : Dissim n d) {med : List Nat}
    (hv : ValidMeds n med) (hk : 2 ≤ med.length) :
    FPOk n med.length d (fpInitP L d n med) :=
  ⟨initDataP_ok hd hk hv, rfl, (fpInitP_shape d hv hk).remLen⟩

end any

/-! ## Exact loss arithmetic -/

section loss
variable [AddCommGroup L] [LinearOrder L] [RLoss L] [LawfulLoss L] [RFrom N L]

theorem totalDev_cache {n : Nat} {d : Nat → Nat → N} {med : List Nat} {data : List (Rec N)}
    (h : CacheOk n d med data) :
    totalDev (conv : N → L) n d med = (data.zipIdx.map fun p => (conv p.1.near.d : L)).sum := by
  rw [totalDev, ← h.len, sum_range_zipIdx]
  congr 1
  exact List.map_congr_left fun p hp => by rw [(h.recs p hp).minDist_eq]

theorem nearLossP_eq {n : Nat} {d : Nat → Nat → N} {med : List Nat} {data : List (Rec N)}
    (h : CacheOk n d med data) : nearLossP L data = totalDev (conv : N → L) n d med := by
  rw [totalDev_cache h, nearLossP, sumP_eq, map_zipIdx_fst data (fun r => (conv r.near.d : L))]

theorem swapSumP_eq [LawfulFrom N L] {n : Nat} {d : Nat → Nat → N} (hd : Dissim n d) {med : List Nat}
    {data : List (Rec N)} (h : CacheOk n d med data) {j : Nat} (hj : j ∈ med) :
    swapSumP L j data = totalDev (conv : N → L) n d med := by
  rw [totalDev_cache h, swapSumP, sumP_eq]
  congr 1
  refine List.map_congr_left fun p hp => ?_
  unfold swapLossP
  split
  · rename_i hpj
    have hr := h.recs p hp
    have hpn : p.2 < n := hpj ▸ h.range j hj
    have h1 : p.1.near.d ≤ 0 := by
      rw [← hr.minDist_eq, ← hd.diag _ hpn]
      exact (minDist_spec d p.2 med (List.ne_nil_of_mem hj)).2 p.2 (hpj ▸ hj)
    have h2 : 0 ≤ p.1.near.d := by
      obtain ⟨c, hc, hcd⟩ := hr.near
      exact hcd ▸ hd.nonneg _ _ hpn (h.range c (List.mem_of_getElem? hc))
    rw [le_antisymm h1 h2, LawfulFrom.map_zero, zeroL]
  · rfl

theorem changeP_eq {n : Nat} {d : Nat → Nat → N} {med : List Nat} {data : List (Rec N)}
    (h : CacheOk n d med data) {b : Nat} (hb : b < med.length) (j : Nat) :
    changeP L d data b j =
      totalDev (conv : N → L) n d (med.set b j) - totalDev (conv : N → L) n d med := by
  rw [totalDev_cache h]
  simp only [changeP, deltaP, sum_map_sub]
  congr 1
  rw [totalDev, ← h.len, sum_range_zipIdx]
  congr 1
  exact List.map_congr_left fun p hp => by rw [(h.recs p hp).minDist_set hb]

/-- PAM computes the change. -/
theorem pamChangeP_eq [LawfulFrom N L] {n : Nat} {d : Nat → Nat → N} (hd : Dissim n d) {med : List Nat}
    {data : List (Rec N)} (h : CacheOk n d med data) (m : Nat) {j : Nat} (hj : j < n) :
    pamChangeP L d data j m = changeP L d data m j := by
  have hjl : j < data.length := h.len ▸ hj
  have hg : data[j]? = some data[j] := List.getElem?_eq_getElem hjl
  have hnn : ∀ p ∈ data.zipIdx, 0 ≤ p.1.near.d ∧ 0 ≤ p.1.seco.d := by
    intro p hp
    have hpn : p.2 < n := h.len ▸ mem_zipIdx_lt hp
    obtain ⟨c, hc, hcd⟩ := (h.recs p hp).near
    have h0 : 0 ≤ p.1.near.d := hcd ▸ hd.nonneg _ _ hpn (h.range c (List.mem_of_getElem? hc))
    exact ⟨h0, le_trans h0 (h.recs p hp).le⟩
  unfold pamChangeP
  rw [foldl_add_sum (f := fun p => if p.2 = j then 0 else deltaP L p.1 m (d p.2 j))]
  · have hsplit : changeP L d data m j =
        (data.zipIdx.map fun p => if p.2 = j then deltaP L p.1 m (d p.2 j) else 0).sum +
        (data.zipIdx.map fun p => if p.2 = j then 0 else deltaP L p.1 m (d p.2 j)).sum := by
      rw [← List.sum_map_add, changeP]
      congr 1
      refine List.map_congr_left fun p _ => ?_
      split <;> simp
    rw [hsplit, sum_zipIdx_at (fun p => deltaP L p.1 m (d p.2 j)) hg]
    congr 1
    have hp := hnn (data[j], j) (List.mem_zipIdx_iff_getElem?.mpr (by simp [hg]))
    simp only [nearDP, hg, negL, deltaP, hd.diag j hj]
    rw [min_eq_left (by split; exacts [hp.2, hp.1]), LawfulFrom.map_zero, zero_sub]
  · intro acc p hp
    unfold pamStepP
    have hle := (h.recs p hp).le
    split
    · simp
    · simp only [deltaP, rltN, decide_eq_true_eq, addL, subL]
      split
      · split
        · rename_i h1; rw [min_eq_left (le_of_lt h1)]
        · rename_i h1; rw [min_eq_right (not_lt.mp h1)]
      · split
        · rename_i h1; rw [min_eq_left (le_of_lt h1)]
        · rename_i h1; rw [min_eq_right (not_lt.mp h1)]; simp

/-- FasterPAM computes the change for all medoids at once. -/
theorem fbs_fold_getD {n : Nat} {d : Nat → Nat → N} {med : List Nat} {data : List (Rec N)}
    (h : CacheOk n d med data) {rem : List L} (hr : rem = remP L data med.length) (m j : Nat) :
    (data.zipIdx.foldl (fbsStepP d j) (rem, RLoss.zero)).1.getD m 0 +
      (data.zipIdx.foldl (fbsStepP d j) (rem, RLoss.zero)).2 = changeP L d data m j := by
  have hidx := h.shape.recIdx
  have hg : ∀ (xs : List (Rec N × Nat)), (∀ p ∈ xs, p ∈ data.zipIdx) → ∀ (a : List L) (acc : L),
      a.length = med.length →
      (xs.foldl (fbsStepP d j) (a, acc)).1.getD m 0 + (xs.foldl (fbsStepP d j) (a, acc)).2 =
      a.getD m 0 + acc + (xs.map fun p => deltaP L p.1 m (d p.2 j) -
        if p.1.near.i = m then (conv p.1.seco.d - conv p.1.near.d : L) else 0).sum := by
    intro xs
    induction xs with
    | nil => intro _ a acc _; simp
    | cons p xs ih =>
      intro hx a acc ha
      have hp := hx p (by simp)
      have hle := (h.recs p hp).le
      have hi : p.1.near.i < a.length := ha ▸ (hidx _ (mem_zipIdx_mem hp)).1
      rw [List.foldl_cons]
      have hl : (fbsStepP d j (a, acc) p).1.length = med.length := by
        unfold fbsStepP
        split
        · simpa using ha
        · split
          · simpa using ha
          · exact ha
      rw [← Prod.mk.eta (p := fbsStepP d j (a, acc) p), ih (fun q hq => hx q (by simp [hq])) _ _ hl]
      simp only [List.map_cons, List.sum_cons, ← add_assoc]
      congr 1
      unfold fbsStepP deltaP
      simp only [rltN, decide_eq_true_eq, addL, subL]
      by_cases h1 : d p.2 j < p.1.near.d
      · have h2 : d p.2 j < p.1.seco.d := lt_of_lt_of_le h1 hle
        simp only [h1, if_true, addAtP_getD hi]
        by_cases h3 : p.1.near.i = m
        · simp only [h3, if_true, min_eq_left (le_of_lt h2)]; abel
        · simp only [h3, if_false, min_eq_left (le_of_lt h1)]; abel
      · simp only [h1, if_false]
        by_cases h2 : d p.2 j < p.1.seco.d
        · simp only [h2, if_true, addAtP_getD hi]
          by_cases h3 : p.1.near.i = m
          · simp only [h3, if_true, min_eq_left (le_of_lt h2)]; abel
          · simp only [h3, if_false, min_eq_right (not_lt.mp h1)]; abel
        · simp only [h2, if_false]
          by_cases h3 : p.1.near.i = m
          · simp only [h3, if_true, min_eq_right (not_lt.mp h2)]; abel
          · simp only [h3, if_false, min_eq_right (not_lt.mp h1)]; abel
  subst hr
  rw [hg data.zipIdx (fun _ h => h) _ _ (remP_length hidx), zeroL, sum_map_sub, remP_getD hidx,
    map_zipIdx_fst data (fun r => if r.near.i = m then (conv r.seco.d - conv r.near.d : L) else 0),
    changeP]
  abel

/-- `find_best_swap` returns the first best medoid to exchange and its exact change. -/
theorem fbsP_spec [IsOrderedAddMonoid L] {n : Nat} {d : Nat → Nat → N} {med : List Nat}
    {data : List (Rec N)} (h : CacheOk n d med data) (hk : 1 ≤ med.length) {rem : List L}
    (hr : rem = remP L data med.length) (j : Nat) :
    (fbsP d rem data j).2 < med.length ∧
    (fbsP d rem data j).1 = changeP L d data (fbsP d rem data j).2 j ∧
    (∀ m : Nat, m < med.length → (fbsP d rem data j).1 ≤ changeP L d data m j) ∧
    ∀ m : Nat, m < (fbsP d rem data j).2 → (fbsP d rem data j).1 < changeP L d data m j := by
  have hlen : rem.length = med.length := hr ▸ remP_length h.shape.recIdx
  have hf := fun m => fbs_fold_getD h hr m j
  have h2 := fbs_fold_length d rem data j RLoss.zero
  have hne : (data.zipIdx.foldl (fbsStepP d j) (rem, RLoss.zero)).1 ≠ [] := by
    intro h; rw [h] at h2; simp at h2; omega
  obtain ⟨f1, f2, f3⟩ := findMinP_spec hne
  refine ⟨hlen ▸ fbsP_lt d data j (by omega), ?_, ?_, ?_⟩
  · rw [← hf]; simp only [fbsP, addL]; rw [← f1]
  · intro m hm
    rw [← hf]; simp only [fbsP, addL]
    exact add_le_add (f2 m (by omega)) (le_refl _)
  · intro m hm
    rw [← hf]; simp only [fbsP, addL]
    exact add_lt_add_of_lt_of_le (f3 m hm) (le_refl _)

end loss

variable [AddCommGroup L] [LinearOrder L] [IsOrderedAddMonoid L] [RLoss L] [LawfulLoss L]
variable [RFrom N L] [LawfulFrom N L]

/-- Replacing a medoid by another one does not improve. -/
theorem totalDev_set_mem {n : Nat} {d : Nat → Nat → N} {med : List Nat} {b j : Nat} (hj : j ∈ med) :
    totalDev (conv : N → L) n d med ≤ totalDev (conv : N → L) n d (med.set b j) := by
  unfold totalDev
  refine List.sum_le_sum fun o _ => LawfulFrom.strictMono.monotone ?_
  have hne : med.set b j ≠ [] := by
    intro e
    have := congrArg List.length e
    simp only [List.length_set, List.length_nil] at this
    have := List.length_pos_of_mem hj
    omega
  obtain ⟨⟨c, hc, e⟩, -⟩ := minDist_spec d o (med.set b j) hne
  rw [e]
  refine (minDist_spec d o med (List.ne_nil_of_mem hj)).2 c ?_
  rcases List.mem_or_eq_of_mem_set hc with h | h
  · exact h
  · exact h ▸ hj

/-- Exact invariant of FasterPAM. -/
structure FPEx (n k : Nat) (d : Nat → Nat → N) (s : FPState N L) : Prop extends FPOk n k d s where
  rem : s.rem = remP L s.data k
  loss : s.loss = totalDev (conv : N → L) n d s.med

theorem fpSwapP_ex {n k : Nat} {d : Nat → Nat → N} (hd : Dissim n d) {s : FPState N L}
    (hs : FPEx n k d s) {b j : Nat} (hb : b < k) (hj : j < n) :
    FPEx n k d (fpSwapP d s b j) := by
  have h := fpSwapP_ok hd hs.toFPOk hb hj
  refine ⟨h, ?_, ?_⟩
  · simp [fpSwapP, hs.remLen]
  · refine swapSumP_eq hd h.cache ?_
    have hb' : b < s.med.length := hs.medLen ▸ hb
    exact List.mem_of_getElem? (i := b) (by simp [fpSwapP, hb'])

/-- What happens at one candidate. -/
theorem fp_candidate {n k : Nat} {d : Nat → Nat → N} {s : FPState N L} (hs : FPEx n k d s) (hk : 1 ≤ k) (j : Nat) :
    (rge (fbsP d s.rem s.data j).1 RLoss.zero = true ∧
      Settled (totalDev (conv : N → L) n d) j s.med) ∨
    (rge (fbsP d s.rem s.data j).1 RLoss.zero = false ∧ (fbsP d s.rem s.data j).2 < k ∧ j ∉ s.med ∧
      totalDev (conv : N → L) n d (s.med.set (fbsP d s.rem s.data j).2 j) <
        totalDev (conv : N → L) n d s.med) := by
  have hrem : s.rem = remP L s.data s.med.length := by rw [hs.medLen]; exact hs.rem
  obtain ⟨f1, f2, f3, -⟩ := fbsP_spec hs.cache (by rw [hs.medLen]; exact hk) hrem j
  rw [rgeL, zeroL]
  by_cases hc : 0 ≤ (fbsP d s.rem s.data j).1
  · left
    refine ⟨by simp [hc], Or.inr fun m hm => ?_⟩
    have := le_trans hc (f3 m hm)
    rw [changeP_eq hs.cache hm] at this
    exact sub_nonneg.mp this
  · right
    rw [f2, changeP_eq hs.cache f1] at hc
    have hlt := sub_neg.mp (not_le.mp hc)
    exact ⟨by rw [f2, changeP_eq hs.cache f1]; simpa using hlt, hs.medLen ▸ f1, fun h => absurd (totalDev_set_mem h) (not_le.mpr hlt), hlt⟩

theorem fpPassP_ex {n k : Nat} {d : Nat → Nat → N} (hd : Dissim n d) (hk : 1 ≤ k) {js : List Nat}
    (hjs : ∀ j ∈ js, j < n) {s : FPState N L} (hs : FPEx n k d s) :
    FPEx n k d (fpPassP d js s) ∧ ∃ c, (fpPassP d js s).nSwaps = s.nSwaps + c ∧
      SwapChain (totalDev (conv : N → L) n d) n c s.med (fpPassP d js s).med := by
  induction js generalizing s with
  | nil => exact ⟨hs, 0, rfl, .refl _⟩
  | cons j js ih =>
    have hj : j < n := hjs j (by simp)
    have ih' := fun {s : FPState N L} (h : FPEx n k d s) => ih (fun j hj => hjs j (by simp [hj])) h
    unfold fpPassP
    by_cases h1 : j = s.lastswap
    · simp only [h1, if_true]; exact ⟨hs, 0, rfl, .refl _⟩
    · simp only [h1, if_false]
      by_cases h2 : ownP s.med s.data j = true
      · simp only [h2, if_true]; exact ih' hs
      · have h2 : ownP s.med s.data j = false := by simpa using h2
        simp only [h2, Bool.false_eq_true, if_false]
        obtain ⟨h3, -⟩ | ⟨h3, h4, hjm, h5⟩ := fp_candidate hs hk j
        · simp only [h3, if_true]; exact ih' hs
        · simp only [h3, Bool.false_eq_true, if_false]
          obtain ⟨i1, c, i2, i3⟩ := ih' (fpSwapP_ex hd hs h4 hj)
          refine ⟨i1, 1 + c, ?_, ?_⟩
          · rw [i2]; simp [fpSwapP]; omega
          · refine SwapChain.trans ?_ i3
            exact .step (.refl _) _ _ (hs.medLen ▸ h4) hj hjm h5

/-- All objects after the last exchange in the visiting order are settled. -/
def Hist (n : Nat) (d : Nat → Nat → N) (seq : List Nat) (s : FPState N L) : Prop :=
  s.lastswap ∉ seq ∨ ∃ pre post, seq = pre ++ s.lastswap :: post ∧ s.lastswap ∈ s.med ∧
    ∀ x ∈ post, Settled (totalDev (conv : N → L) n d) x s.med

/-- Rest of a pass after an exchange happened in it. -/
theorem fpPassP_after {n k : Nat} {d : Nat → Nat → N} (hd : Dissim n d) (hk : 1 ≤ k) {seq : List Nat}
    (hseq : ∀ j ∈ seq, j < n) (hnd : seq.Nodup) {pre post js : List Nat} {s : FPState N L}
    (hs : FPEx n k d s) (hsplit : seq = (pre ++ s.lastswap :: post) ++ js) (hmed : s.lastswap ∈ s.med)
    (hpost : ∀ x ∈ post, Settled (totalDev (conv : N → L) n d) x s.med) :
    Hist n d seq (fpPassP d js s) := by
  induction js generalizing s pre post with
  | nil => right; exact ⟨pre, post, by simpa [fpPassP] using hsplit, hmed, hpost⟩
  | cons j js ih =>
    have hj : j < n := hseq j (by rw [hsplit]; simp)
    have h1 : j ≠ s.lastswap := by
      intro h
      rw [hsplit, List.nodup_append] at hnd
      exact hnd.2.2 s.lastswap (by simp) j (by simp) h.symm
    have hsplit' : seq = (pre ++ s.lastswap :: (post ++ [j])) ++ js := by rw [hsplit]; simp
    unfold fpPassP
    simp only [h1, if_false]
    by_cases h2 : ownP s.med s.data j = true
    · simp only [h2, if_true]
      refine ih hs hsplit' hmed fun x hx => ?_
      rcases List.mem_append.mp hx with hx | hx
      · exact hpost x hx
      · rw [List.mem_singleton.mp hx]; exact Or.inl (ownP_mem h2)
    · have h2 : ownP s.med s.data j = false := by simpa using h2
      simp only [h2, Bool.false_eq_true, if_false]
      obtain ⟨h3, hset⟩ | ⟨h3, h4, hjm, h5⟩ := fp_candidate hs hk j
      · simp only [h3, if_true]
        refine ih hs hsplit' hmed fun x hx => ?_
        rcases List.mem_append.mp hx with hx | hx
        · exact hpost x hx
        · rw [List.mem_singleton.mp hx]; exact hset
      · simp only [h3, Bool.false_eq_true, if_false]
        have h4' : (fbsP d s.rem s.data j).2 < s.med.length := hs.medLen ▸ h4
        exact ih (s := fpSwapP d s (fbsP d s.rem s.data j).2 j)
          (pre := pre ++ s.lastswap :: post) (post := []) (fpSwapP_ex hd hs h4 hj)
          (by rw [hsplit]; simp [fpSwapP])
          (List.mem_of_getElem? (i := (fbsP d s.rem s.data j).2) (by simp [fpSwapP, h4']))
          (by simp)

/-- A pass either changes nothing and settles all objects, or performs an exchange. -/
theorem fpPassP_pass {n k : Nat} {d : Nat → Nat → N} (hd : Dissim n d) (hk : 1 ≤ k) {seq : List Nat}
    (hseq : ∀ j ∈ seq, j < n) (hnd : seq.Nodup) {done js : List Nat} {s : FPState N L}
    (hs : FPEx n k d s) (hsplit : seq = done ++ js) (hh : Hist n d seq s)
    (hdone : ∀ x ∈ done, Settled (totalDev (conv : N → L) n d) x s.med) :
    (fpPassP d js s = s ∧ ∀ x ∈ seq, Settled (totalDev (conv : N → L) n d) x s.med) ∨
    (s.nSwaps < (fpPassP d js s).nSwaps ∧ Hist n d seq (fpPassP d js s)) := by
  induction js generalizing done with
  | nil => left; exact ⟨rfl, by rw [hsplit]; simpa using hdone⟩
  | cons j js ih =>
    have hj : j < n := hseq j (by rw [hsplit]; simp)
    have hsplit' : seq = (done ++ [j]) ++ js := by rw [hsplit]; simp
    unfold fpPassP
    by_cases h1 : j = s.lastswap
    · simp only [h1, if_true]
      left
      refine ⟨trivial, ?_⟩
      rcases hh with hh | ⟨pre, post, e, hmed, hpost⟩
      · exact absurd (by rw [hsplit, ← h1]; simp) hh
      · have hpj : post = js := by
          rw [← h1] at e
          exact split_unique (e ▸ hsplit) (e ▸ hnd)
        subst hpj
        intro x hx
        rw [hsplit] at hx
        rcases List.mem_append.mp hx with hx | hx
        · exact hdone x hx
        · rcases List.mem_cons.mp hx with rfl | hx
          · exact Or.inl (h1 ▸ hmed)
          · exact hpost x hx
    · simp only [h1, if_false]
      have hnext : Settled (totalDev (conv : N → L) n d) j s.med → ∀ x ∈ done ++ [j],
          Settled (totalDev (conv : N → L) n d) x s.med := by
        intro h x hx
        rcases List.mem_append.mp hx with hx | hx
        · exact hdone x hx
        · rw [List.mem_singleton.mp hx]; exact h
      by_cases h2 : ownP s.med s.data j = true
      · simp only [h2, if_true]
        exact ih hsplit' (hnext (Or.inl (ownP_mem h2)))
      · have h2 : ownP s.med s.data j = false := by simpa using h2
        simp only [h2, Bool.false_eq_true, if_false]
        obtain ⟨h3, hset⟩ | ⟨h3, h4, hjm, h5⟩ := fp_candidate hs hk j
        · simp only [h3, if_true]
          exact ih hsplit' (hnext hset)
        · simp only [h3, Bool.false_eq_true, if_false]
          right
          have hs' := fpSwapP_ex hd hs h4 hj
          have h4' : (fbsP d s.rem s.data j).2 < s.med.length := hs.medLen ▸ h4
          refine ⟨?_, ?_⟩
          · obtain ⟨-, c, e, -⟩ := fpPassP_ex hd hk (js := js)
              (fun x hx => hseq x (by rw [hsplit]; simp [hx])) hs'
            rw [e]; simp only [fpSwapP]; omega
          · exact fpPassP_after hd hk hseq hnd hs' (pre := done) (post := [])
              (by rw [hsplit]; simp [fpSwapP])
              (List.mem_of_getElem? (i := (fbsP d s.rem s.data j).2) (by simp [fpSwapP, h4']))
              (by simp)

/-- The whole loop. -/
theorem fpLoopP_ex {n k : Nat} {d : Nat → Nat → N} (hd : Dissim n d) (hk : 1 ≤ k) {seq : List Nat}
    (hseq : ∀ j ∈ seq, j < n) {fuel iter : Nat} {s : FPState N L} (hs : FPEx n k d s) :
    FPEx n k d (fpLoopP d seq fuel iter s).1 ∧ ∃ c, (fpLoopP d seq fuel iter s).1.nSwaps = s.nSwaps + c ∧
      SwapChain (totalDev (conv : N → L) n d) n c s.med (fpLoopP d seq fuel iter s).1.med ∧
      (fpLoopP d seq fuel iter s).2 ≤ iter + c + 1 := by
  induction fuel generalizing iter s with
  | zero => exact ⟨hs, 0, rfl, .refl _, by simp [fpLoopP]⟩
  | succ fuel ih =>
    obtain ⟨h1, c, h2, h3⟩ := fpPassP_ex hd hk hseq hs
    unfold fpLoopP
    dsimp only
    split
    · exact ⟨h1, c, h2, h3, by dsimp only; omega⟩
    · rename_i hc
      obtain ⟨i1, c', i2, i3, i4⟩ := ih (iter := iter + 1) h1
      refine ⟨i1, c + c', by omega, h3.trans i3, ?_⟩
      have : c ≠ 0 := by
        rintro rfl; simp [h2] at hc
      omega

/-- Converged runs end in a state in which every visited object is settled. -/
theorem fpLoopP_converged {n k : Nat} {d : Nat → Nat → N} (hd : Dissim n d) (hk : 1 ≤ k)
    {seq : List Nat} (hseq : ∀ j ∈ seq, j < n) (hnd : seq.Nodup) {fuel iter : Nat} {s : FPState N L}
    (hs : FPEx n k d s) (hh : Hist n d seq s)
    (hconv : (fpLoopP d seq fuel iter s).2 < iter + fuel) :
    ∀ x ∈ seq, Settled (totalDev (conv : N → L) n d) x (fpLoopP d seq fuel iter s).1.med := by
  induction fuel generalizing iter s with
  | zero => simp [fpLoopP] at hconv
  | succ fuel ih =>
    obtain ⟨h1, c, h2, h3⟩ := fpPassP_ex hd hk hseq hs
    rcases fpPassP_pass hd hk hseq hnd hs (done := []) (js := seq) rfl hh (by simp) with
      ⟨e, hset⟩ | ⟨hlt, hh'⟩
    · unfold fpLoopP
      simp only [e, beq_self_eq_true, Bool.true_or, if_true]
      exact hset
    · have hdec : (fpPassP d seq s).loss < s.loss := by
        rw [h1.loss, hs.loss]; exact h3.lt (by omega)
      have hcond : ((fpPassP d seq s).nSwaps == s.nSwaps || rge (fpPassP d seq s).loss s.loss) = false := by
        rw [rgeL]
        simp only [Bool.or_eq_false_iff, beq_eq_false_iff_ne, decide_eq_false_iff_not, not_le]
        exact ⟨by omega, hdec⟩
      unfold fpLoopP at hconv ⊢
      simp only [hcond, Bool.false_eq_true, if_false] at hconv ⊢
      exact ih h1 hh' (by omega)

theorem fpInitP_ex {n : Nat} {d : Nat → Nat → N} (hd : Dissim n d) {med : List Nat}
    (hv : ValidMeds n med) (hk : 2 ≤ med.length) : FPEx n med.length d (fpInitP L d n med) :=
  ⟨⟨initDataP_ok hd hk hv, rfl, (fpInitP_shape d hv hk).remLen⟩, rfl, nearLossP_eq (initDataP_ok hd hk hv)⟩

theorem scan_best {n : Nat} {d : Nat → Nat → N} {med : List Nat} {data : List (Rec N)}
    (hc : CacheOk n d med data) (fbs : Nat → L × Nat)
    (hfbs : ∀ j, j < n → FbsBest med.length (changeP L d data) fbs j) (b0 : Nat × Nat) :
    ScanBest n d med data
      ((List.range n).foldl (scanStepP fbs (ownP med data)) ((RLoss.zero : L), b0)) := by
  have hg : ∀ js : List Nat, (∀ j ∈ js, j < n) →
      let best := js.foldl (scanStepP fbs (ownP med data)) ((RLoss.zero : L), b0)
      best.1 ≤ 0 ∧ (∀ m j, m < med.length → j ∈ js → j ∉ med → best.1 ≤ changeP L d data m j) ∧
      (best.1 < 0 → best.2.1 < med.length ∧ best.2.2 < n ∧ best.2.2 ∉ med ∧
        best.1 = changeP L d data best.2.1 best.2.2) := by
    intro js
    induction js using List.reverseRecOn with
    | nil => intro _; simp [zeroL]
    | append_singleton js j ih =>
      intro hjs
      obtain ⟨i1, i2, i3⟩ := ih (fun x hx => hjs x (by simp [hx]))
      have hj : j < n := hjs j (by simp)
      rw [List.foldl_append, List.foldl_cons, List.foldl_nil]
      generalize js.foldl (scanStepP fbs (ownP med data)) ((RLoss.zero : L), b0) = best at *
      unfold scanStepP
      by_cases hown : ownP med data j = true
      · simp only [hown, if_true]
        refine ⟨i1, fun m x hm hx hxm => ?_, i3⟩
        rcases List.mem_append.mp hx with hx | hx
        · exact i2 m x hm hx hxm
        · rw [List.mem_singleton.mp hx] at hxm
          exact absurd (ownP_mem hown) hxm
      · obtain ⟨f1, f2⟩ := hfbs j hj
        have hown : ownP med data j = false := by simpa using hown
        simp only [hown, Bool.false_eq_true, if_false, rgeL]
        by_cases hle : best.1 ≤ (fbs j).1
        · simp only [hle, decide_true, if_true]
          refine ⟨i1, fun m x hm hx hxm => ?_, i3⟩
          rcases List.mem_append.mp hx with hx | hx
          · exact i2 m x hm hx hxm
          · rw [List.mem_singleton.mp hx]
            rcases f1 m hm with h | h
            · exact le_trans hle h
            · exact le_trans i1 h
        · simp only [hle, decide_false, Bool.false_eq_true, if_false]
          have hlt := not_le.mp hle
          have hneg : (fbs j).1 < 0 := lt_of_lt_of_le hlt i1
          have hjm : j ∉ med := fun h => by
            have e := (f2 hneg).2
            rw [changeP_eq hc (f2 hneg).1] at e
            exact absurd (sub_nonneg.mpr (totalDev_set_mem h)) (not_le.mpr (e ▸ hneg))
          refine ⟨le_of_lt hneg, fun m x hm hx hxm => ?_, fun _ => ⟨(f2 hneg).1, hj, hjm, (f2 hneg).2⟩⟩
          rcases List.mem_append.mp hx with hx | hx
          · exact le_of_lt (lt_of_lt_of_le hlt (i2 m x hm hx hxm))
          · rw [List.mem_singleton.mp hx]
            rcases f1 m hm with h | h
            · exact h
            · exact le_trans (le_of_lt hneg) h
  obtain ⟨g1, g2, g3⟩ := hg (List.range n) (fun j hj => List.mem_range.mp hj)
  exact ⟨g1, fun m j hm hj hjm => g2 m j hm (List.mem_range.mpr hj) hjm, g3⟩

theorem fastFbs_best {n : Nat} {d : Nat → Nat → N} {med : List Nat} {data : List (Rec N)}
    (hc : CacheOk n d med data) (hk : 1 ≤ med.length) (j : Nat) :
    FbsBest med.length (changeP L d data) (fbsP d (remP L data med.length) data) j := by
  obtain ⟨f1, f2, f3, -⟩ := fbsP_spec (L := L) hc hk rfl j
  exact ⟨fun m hm => Or.inl (f3 m hm), fun _ => ⟨f1, f2⟩⟩

/-- PAM's candidate function: the first best medoid if it improves, else `(0, usize::MAX)`. -/
theorem pamFbsP_spec {n : Nat} {d : Nat → Nat → N} (hd : Dissim n d) {med : List Nat}
    {data : List (Rec N)} (hc : CacheOk n d med data) {j : Nat} (hj : j < n) :
    (pamFbsP L d med.length data j).1 ≤ 0 ∧
    (∀ m, m < med.length → (pamFbsP L d med.length data j).1 ≤ changeP L d data m j) ∧
    ((pamFbsP L d med.length data j).1 < 0 → (pamFbsP L d med.length data j).2 < med.length ∧
      (pamFbsP L d med.length data j).1 = changeP L d data (pamFbsP L d med.length data j).2 j ∧
      ∀ m, m < (pamFbsP L d med.length data j).2 →
        (pamFbsP L d med.length data j).1 < changeP L d data m j) := by
  have hg : ∀ k : Nat, (pamFbsP L d k data j).1 ≤ 0 ∧
      (∀ m, m < k → (pamFbsP L d k data j).1 ≤ changeP L d data m j) ∧
      ((pamFbsP L d k data j).1 < 0 → (pamFbsP L d k data j).2 < k ∧
        (pamFbsP L d k data j).1 = changeP L d data (pamFbsP L d k data j).2 j ∧
        ∀ m, m < (pamFbsP L d k data j).2 → (pamFbsP L d k data j).1 < changeP L d data m j) := by
    intro k
    induction k with
    | zero => simp [pamFbsP, zeroL]
    | succ k ih =>
      obtain ⟨i1, i2, i3⟩ := ih
      have hstep : pamFbsP L d (k + 1) data j = if changeP L d data k j < (pamFbsP L d k data j).1 then
          (changeP L d data k j, k) else pamFbsP L d k data j := by
        simp only [pamFbsP, List.range_succ, List.foldl_append, List.foldl_cons, List.foldl_nil,
          pamChangeP_eq hd hc k hj, rltL, decide_eq_true_eq]
      rw [hstep]
      split
      · rename_i hlt
        have hneg : changeP L d data k j < 0 := lt_of_lt_of_le hlt i1
        refine ⟨le_of_lt hneg, fun m hm => ?_, fun _ => ⟨by simp, rfl, fun m hm => ?_⟩⟩
        · by_cases hmk : m = k
          · rw [hmk]
          · exact le_of_lt (lt_of_lt_of_le hlt (i2 m (by omega)))
        · exact lt_of_lt_of_le hlt (i2 m hm)
      · rename_i hlt
        refine ⟨i1, fun m hm => ?_, fun h => ⟨by have := (i3 h).1; omega, (i3 h).2⟩⟩
        by_cases hmk : m = k
        · rw [hmk]; exact not_lt.mp hlt
        · exact i2 m (by omega)
  exact hg med.length

theorem pamFbs_best {n : Nat} {d : Nat → Nat → N} (hd : Dissim n d) {med : List Nat}
    {data : List (Rec N)} (hc : CacheOk n d med data) {j : Nat} (hj : j < n) :
    FbsBest med.length (changeP L d data) (pamFbsP L d med.length data) j := by
  obtain ⟨-, f2, f3⟩ := pamFbsP_spec (L := L) hd hc hj
  exact ⟨fun m hm => Or.inl (f2 m hm), fun h => ⟨(f3 h).1, (f3 h).2.1⟩⟩

theorem fastScanP_best {n : Nat} {d : Nat → Nat → N} {med : List Nat} {data : List (Rec N)}
    (hc : CacheOk n d med data) (hk : 1 ≤ med.length) :
    ScanBest n d med data (fastScanP (L := L) d n med.length med data) :=
  scan_best hc _ (fun j _ => fastFbs_best hc hk j) _

theorem pamScanP_best {n : Nat} {d : Nat → Nat → N} (hd : Dissim n d) {med : List Nat}
    {data : List (Rec N)} (hc : CacheOk n d med data) :
    ScanBest n d med data (pamScanP (L := L) d n med.length med data) :=
  scan_best hc _ (fun _ hj => pamFbs_best hd hc hj) _

/-- Both scans return the same exchange, unless none improves. -/
theorem scans_agree {n : Nat} {d : Nat → Nat → N} (hd : Dissim n d) {med : List Nat}
    {data : List (Rec N)} (hc : CacheOk n d med data) (hk : 1 ≤ med.length) :
    (fastScanP (L := L) d n med.length med data).1 = (pamScanP (L := L) d n med.length med data).1 ∧
    ((pamScanP (L := L) d n med.length med data).1 < 0 →
      fastScanP (L := L) d n med.length med data = pamScanP (L := L) d n med.length med data) := by
  unfold fastScanP pamScanP
  have hg : ∀ js : List Nat, (∀ j ∈ js, j < n) →
      let a := js.foldl (scanStepP (fbsP d (remP L data med.length) data) (ownP med data))
        ((RLoss.zero : L), usizeMax, usizeMax)
      let b := js.foldl (scanStepP (pamFbsP L d med.length data) (ownP med data))
        ((RLoss.zero : L), med.length, usizeMax)
      a.1 = b.1 ∧ b.1 ≤ 0 ∧ (b.1 < 0 → a = b) := by
    intro js
    induction js using List.reverseRecOn with
    | nil => intro _; simp [zeroL]
    | append_singleton js j ih =>
      intro hjs
      obtain ⟨i1, i2, i3⟩ := ih (fun x hx => hjs x (by simp [hx]))
      have hj : j < n := hjs j (by simp)
      rw [List.foldl_append, List.foldl_cons, List.foldl_nil, List.foldl_append, List.foldl_cons,
        List.foldl_nil]
      generalize js.foldl (scanStepP (fbsP d (remP L data med.length) data) (ownP med data))
        ((RLoss.zero : L), usizeMax, usizeMax) = a at *
      generalize js.foldl (scanStepP (pamFbsP L d med.length data) (ownP med data))
        ((RLoss.zero : L), med.length, usizeMax) = b at *
      unfold scanStepP
      by_cases hown : ownP med data j = true
      · simp only [hown, if_true]; exact ⟨i1, i2, i3⟩
      · have hown : ownP med data j = false := by simpa using hown
        simp only [hown, Bool.false_eq_true, if_false, rgeL, decide_eq_true_eq, i1]
        obtain ⟨f1, f2, f3, f4⟩ := fbsP_spec (L := L) hc hk rfl j
        obtain ⟨p1, p2, p3⟩ := pamFbsP_spec (L := L) hd hc hj
        generalize fbsP d (remP L data med.length) data j = f at *
        generalize pamFbsP L d med.length data j = p at *
        by_cases hneg : f.1 < 0
        · -- both see the same improving exchange
          have hp : p.1 ≤ f.1 := by rw [f2]; exact p2 _ f1
          have hpn : p.1 < 0 := lt_of_le_of_lt hp hneg
          obtain ⟨q1, q2, q3⟩ := p3 hpn
          have hfp : f.1 = p.1 := le_antisymm (by rw [q2]; exact f3 _ q1) hp
          have hidx : f.2 = p.2 := by
            rcases lt_trichotomy f.2 p.2 with h | h | h
            · have := q3 _ h; rw [← f2, hfp] at this; exact absurd this (lt_irrefl _)
            · exact h
            · have := f4 _ h; rw [← q2, hfp] at this; exact absurd this (lt_irrefl _)
          rw [hfp, hidx]
          split
          · exact ⟨i1, i2, i3⟩
          · exact ⟨rfl, p1, fun _ => rfl⟩
        · -- neither sees an improvement
          have hf := not_lt.mp hneg
          have hp0 : p.1 = 0 := by
            by_contra h
            have hlt := lt_of_le_of_ne p1 h
            obtain ⟨q1, q2, q3⟩ := p3 hlt
            have := f3 _ q1
            rw [← q2] at this
            exact absurd (lt_of_le_of_lt this hlt) hneg
          rw [if_pos (le_trans i2 hf), if_pos (by rw [hp0]; exact i2)]
          exact ⟨i1, i2, i3⟩
  obtain ⟨g1, -, g3⟩ := hg (List.range n) (fun j hj => List.mem_range.mp hj)
  exact ⟨g1, g3⟩

/-- The scan of a loop finds best exchanges. -/
def GoodScan (n k : Nat) (d : Nat → Nat → N) (scan : List Nat → List (Rec N) → L × Nat × Nat) : Prop :=
  ∀ med data, CacheOk n d med data → med.length = k → ScanBest n d med data (scan med data)

theorem fastScanP_good {n k : Nat} (hk : 1 ≤ k) (d : Nat → Nat → N) :
    GoodScan n k d (fastScanP (L := L) d n k) := by
  rintro med data hc rfl; exact fastScanP_best hc hk

theorem pamScanP_good {n k : Nat} {d : Nat → Nat → N} (hd : Dissim n d) :
    GoodScan n k d (pamScanP (L := L) d n k) := by
  rintro med data hc rfl; exact pamScanP_best hd hc

/-- Exact invariant of PAM and FastPAM1. -/
structure PEx (n k : Nat) (d : Nat → Nat → N) (s : PState N L) : Prop where
  cache : CacheOk n d s.med s.data
  medLen : s.med.length = k
  loss : s.loss = totalDev (conv : N → L) n d s.med

/-- One iteration of PAM / FastPAM1. -/
theorem pIter {n k : Nat} {d : Nat → Nat → N} (hd : Dissim n d)
    {scan : List Nat → List (Rec N) → L × Nat × Nat} (hscan : GoodScan n k d scan)
    {s : PState N L} (hs : PEx n k d s) (fuel iter : Nat) :
    (SwapOptimal (conv : N → L) n d s.med ∧ pLoopP d scan (fuel + 1) iter s = (s, iter + 1)) ∨
    ∃ b j loss', b < s.med.length ∧ j < n ∧ j ∉ s.med ∧
      totalDev (conv : N → L) n d (s.med.set b j) < totalDev (conv : N → L) n d s.med ∧
      (∀ m x, m < s.med.length → x < n → x ∉ s.med →
        totalDev (conv : N → L) n d (s.med.set b j) ≤ totalDev (conv : N → L) n d (s.med.set m x)) ∧
      PEx n k d (pSwapP d s b j loss') ∧
      pLoopP d scan (fuel + 1) iter s = pLoopP d scan fuel (iter + 1) (pSwapP d s b j loss') := by
  have hb := hscan s.med s.data hs.cache hs.medLen
  by_cases hneg : (scan s.med s.data).1 < 0
  · right
    obtain ⟨h1, h2, h3, h4⟩ := hb.attained hneg
    have hc := swapDataP_ok hd hs.cache h1 h2
    have hjm : (scan s.med s.data).2.2 ∈ s.med.set (scan s.med s.data).2.1 (scan s.med s.data).2.2 :=
      List.mem_of_getElem? (i := (scan s.med s.data).2.1) (by simp [h1])
    have hl := swapSumP_eq (L := L) hd hc hjm
    rw [changeP_eq hs.cache h1] at h4
    have hlt : totalDev (conv : N → L) n d (s.med.set (scan s.med s.data).2.1 (scan s.med s.data).2.2) <
        totalDev (conv : N → L) n d s.med := by rw [h4] at hneg; exact sub_neg.mp hneg
    refine ⟨_, _, swapSumP L (scan s.med s.data).2.2
      (swapDataP d s.med s.data (scan s.med s.data).2.1 (scan s.med s.data).2.2), h1, h2, h3, hlt, ?_, ?_, ?_⟩
    · intro m x hm hx hxm
      have := hb.bound m x hm hx hxm
      rw [h4, changeP_eq hs.cache hm] at this
      exact (sub_le_sub_iff_right _).mp this
    · exact ⟨hc, by simp [pSwapP, hs.medLen], hl⟩
    · have h5 : rge (swapSumP L (scan s.med s.data).2.2
          (swapDataP d s.med s.data (scan s.med s.data).2.1 (scan s.med s.data).2.2)) s.loss = false := by
        rw [rgeL, hl, hs.loss]; simpa using hlt
      conv_lhs => unfold pLoopP
      simp only [rltL, zeroL, hneg, decide_true, if_true, h5, Bool.false_eq_true, if_false]
  · left
    refine ⟨fun m j hm hj hjm => ?_, ?_⟩
    · have := le_trans (not_lt.mp hneg) (hb.bound m j hm hj hjm)
      rw [changeP_eq hs.cache hm] at this
      exact sub_nonneg.mp this
    · conv_lhs => unfold pLoopP
      simp only [rltL, zeroL, hneg, decide_false, Bool.false_eq_true, if_false]

theorem pLoopP_ex {n k : Nat} {d : Nat → Nat → N} (hd : Dissim n d)
    {scan : List Nat → List (Rec N) → L × Nat × Nat} (hscan : GoodScan n k d scan)
    {fuel iter : Nat} {s : PState N L} (hs : PEx n k d s) :
    PEx n k d (pLoopP d scan fuel iter s).1 ∧
    (∃ c, (pLoopP d scan fuel iter s).1.nSwaps = s.nSwaps + c ∧
      SwapChain (totalDev (conv : N → L) n d) n c s.med (pLoopP d scan fuel iter s).1.med ∧
      (pLoopP d scan fuel iter s).2 ≤ iter + c + 1) ∧
    ((pLoopP d scan fuel iter s).2 < iter + fuel →
      SwapOptimal (conv : N → L) n d (pLoopP d scan fuel iter s).1.med) := by
  induction fuel generalizing iter s with
  | zero => exact ⟨hs, ⟨0, rfl, .refl _, by simp [pLoopP]⟩, by simp [pLoopP]⟩
  | succ fuel ih =>
    rcases pIter hd hscan hs fuel iter with ⟨h1, h2⟩ | ⟨b, j, loss', h1, h2, h3, h4, -, h6, h7⟩
    · rw [h2]
      exact ⟨hs, ⟨0, rfl, .refl _, by simp⟩, fun _ => h1⟩
    · rw [h7]
      obtain ⟨i1, ⟨c, i2, i3, i4⟩, i5⟩ := ih (iter := iter + 1) h6
      refine ⟨i1, ⟨1 + c, ?_, ?_, by omega⟩, fun h => i5 (by omega)⟩
      · rw [i2]; simp [pSwapP]; omega
      · exact SwapChain.trans (.step (.refl _) _ _ h1 h2 h3 h4) i3

/-- FastPAM1 and PAM do the same. -/
theorem pLoopP_agree {n k : Nat} {d : Nat → Nat → N} (hd : Dissim n d) (hk : 1 ≤ k) {fuel iter : Nat}
    {s : PState N L} (hs : PEx n k d s) :
    pLoopP d (fastScanP d n k) fuel iter s = pLoopP d (pamScanP d n k) fuel iter s := by
  induction fuel generalizing iter s with
  | zero => rfl
  | succ fuel ih =>
    obtain ⟨a1, a2⟩ := scans_agree (L := L) hd hs.cache (by rw [hs.medLen]; exact hk)
    rw [hs.medLen] at a1 a2
    have hb := pamScanP_good (L := L) (k := k) hd s.med s.data hs.cache hs.medLen
    unfold pLoopP
    simp only [rltL, zeroL, decide_eq_true_eq, a1]
    split
    · rename_i hneg
      rw [a2 hneg]
      split
      · rfl
      · obtain ⟨h1, h2, h3, h4⟩ := hb.attained hneg
        have hc := swapDataP_ok hd hs.cache h1 h2
        refine ih ⟨hc, by simp [pSwapP, hs.medLen], ?_⟩
        exact swapSumP_eq (L := L) hd hc (List.mem_of_getElem?
          (i := (pamScanP (L := L) d n k s.med s.data).2.1) (by simp [h1]))
    · rfl

theorem parSwapRec_eq {mat : Mat N} {n : Nat} {d : Nat → Nat → N} (hm : IsMatrix mat n d)
    {med : List Nat} {data : List (Rec N)} (hc : CacheOk n d med data) (hk : med.length < u32Max)
    {b j : Nat} (hb : b < med.length) (hj : j < n) {p : Rec N × Nat} (hp : p ∈ data.zipIdx) :
    parSwapRec (L := L) mat (med.set b j) b j p =
      .ok (swapRecP d (med.set b j) b j p, swapLossP L j (swapRecP d (med.set b j) b j p, p.2)) := by
  have hr : ∀ m ∈ med.set b j, m < n := by
    intro m hmem
    rcases List.mem_or_eq_of_mem_set hmem with h | h
    · exact hc.range m h
    · omega
  have hpn : p.2 < n := hc.len ▸ mem_zipIdx_lt hp
  have hser := (doSwapRec_eq (L := L) hm (by simp) hk hr hb hj hpn
    (hc.shape.recIdx _ (mem_zipIdx_mem hp))).1
  rw [← hser]
  unfold parSwapRec doSwapRec
  have hbu : ∀ x : N, DistancePair.new b x = ⟨b, x⟩ := fun x => by
    simp [DistancePair.new, asU32_lt (lt_trans hb hk)]
  have hbu' : asU32 b = b := asU32_lt (lt_trans hb hk)
  have husn := fun (nn : Nat) (doj : N) =>
    (updateSecondNearest_eq hm (by simp) hk hr (nn := nn) hb hpn doj).1
  have hrec := hc.recs p hp
  by_cases ho : p.2 = j
  · simp only [ho, if_true]
  · simp only [ho, if_false, hbu, hbu', hm.get _ _ hpn hj, ok_bind]
    by_cases h1 : p.1.near.i = b
    · simp only [h1, if_true]
    · simp only [h1, if_false]
      by_cases h2 : rlt (d p.2 j) p.1.near.d = true
      · simp only [h2, if_true]
      · simp only [h2, Bool.false_eq_true, if_false]
        by_cases h3 : p.1.seco.i = b
        · simp only [h3, if_true]
          by_cases h4 : rlt (d p.2 j) p.1.seco.d = true
          · have h4' : d p.2 j < p.1.seco.d := by simpa [rltN] using h4
            simp only [h4, if_true, husn, ok_bind, usnP_new d h4' hrec.rest]
          · simp only [h4, Bool.false_eq_true, if_false]
        · simp only [h3, if_false]

theorem parDoSwap_eq (sc : Sched) {mat : Mat N} {n : Nat} {d : Nat → Nat → N}
    (hm : IsMatrix mat n d) {med : List Nat} {data : List (Rec N)} (hc : CacheOk n d med data)
    (hk : med.length < u32Max) {b j : Nat} (hb : b < med.length) (hj : j < n) :
    parDoSwap L sc mat med data b j =
      .ok (swapSumP L j (swapDataP d med data b j), med.set b j, swapDataP d med data b j) := by
  have hmap := mapRes_eq fun p hp => parSwapRec_eq (L := L) hm hc hk hb hj (p := p) hp
  have hsum : (data.zipIdx.map fun p => (swapRecP d (med.set b j) b j p,
      swapLossP L j (swapRecP d (med.set b j) b j p, p.2))).map (·.2) =
      (swapDataP d med data b j).zipIdx.map (swapLossP L j) := by
    simp [swapDataP, zipIdx_map_zipIdx]
  have hne : (swapDataP d med data b j).zipIdx.map (swapLossP L j) ≠ [] := by
    intro h; have := congrArg List.length h; simp [swapDataP, hc.len] at this; omega
  have hj' : j < mat.len := hm.len ▸ hj
  simp only [parDoSwap, hb, hj', decide_true, rassert_true, ok_bind, setIdx_lt hb, hmap, hsum,
    unwrap_reduceTree sc.tree hne, swapSumP]
  simp [swapDataP, Function.comp_def]

theorem parPass_eq {scF scS : Nat → Sched} (hF : ∀ j, (scF j).Ok) {mat : Mat N} {n k : Nat}
    {d : Nat → Nat → N} (hm : IsMatrix mat n d) (hd : Dissim n d) (hk : k < u32Max) (hk1 : 1 ≤ k)
    {js : List Nat} (hjs : ∀ j ∈ js, j < n) {s : FPState N L} (hs : FPOk n k d s) :
    parPass scF scS mat js s = .ok (fpPassP d js s) := by
  induction js generalizing s with
  | nil => rfl
  | cons j js ih =>
    have hj : j < n := hjs j (by simp)
    have ih' := fun {s : FPState N L} (h : FPOk n k d s) => ih (fun j hj => hjs j (by simp [hj])) h
    have hidx := hs.cache.shape.recIdx
    rw [hs.medLen, ← hs.remLen] at hidx
    have hf := parFindBestSwap_eq (hF j) hm hj hs.cache.len (by rw [hs.remLen]; exact hk1) hidx
    have hfb := fbsP_lt d (rem := s.rem) s.data j (by rw [hs.remLen]; exact hk1)
    have hfb' : (fbsP d s.rem s.data j).2 < s.med.length := by rw [hs.medLen, ← hs.remLen]; exact hfb
    have hsw := parDoSwap_eq (L := L) (scS j) hm hs.cache (hs.medLen ▸ hk) hfb' hj
    have hown := isOwnMedoid_eq hs.cache.shape hj
    unfold parPass fpPassP
    by_cases h1 : j = s.lastswap
    · simp only [h1, if_true]
    · simp only [h1, if_false, hown, ok_bind]
      by_cases h2 : ownP s.med s.data j = true
      · simp only [h2, if_true]; exact ih' hs
      · simp only [h2, hf, ok_bind, Bool.false_eq_true, if_false]
        have hok := fpSwapP_ok hd hs (hs.remLen ▸ hfb) hj
        have hidx' := hok.cache.shape.recIdx
        rw [hok.medLen, ← hs.remLen] at hidx'
        have hrem := (updateRemovalLoss_eq (L := L) hidx').1
        by_cases h3 : rge (fbsP d s.rem s.data j).1 RLoss.zero = true
        · simp only [h3, if_true]; exact ih' hs
        · simp only [h3, hsw, ok_bind, Bool.false_eq_true, if_false]
          simp only [fpSwapP] at hrem
          rw [hrem]
          exact ih' hok

theorem parLoop_eq {scF scS : Nat → Nat → Sched} (hF : ∀ i j, (scF i j).Ok) {mat : Mat N} {n k : Nat}
    {d : Nat → Nat → N} (hm : IsMatrix mat n d) (hd : Dissim n d) (hk : k < u32Max) (hk1 : 1 ≤ k)
    {seq : List Nat} (hseq : ∀ j ∈ seq, j < n) {fuel iter : Nat} {s : FPState N L} (hs : FPOk n k d s) :
    parLoop scF scS mat seq fuel iter s = .ok (fpLoopP d seq fuel iter s) := by
  induction fuel generalizing iter s with
  | zero => rfl
  | succ fuel ih =>
    unfold parLoop fpLoopP
    simp only [parPass_eq (hF iter) hm hd hk hk1 hseq hs, ok_bind]
    split
    · rfl
    · exact ih (fpPassP_ok hd hk1 hseq hs)

theorem parFasterpam_eq (sc0 : Sched) {scF scS : Nat → Nat → Sched} (hF : ∀ i j, (scF i j).Ok)
    {mat : Mat N} {n : Nat} {d : Nat → Nat → N} (hm : IsMatrix mat n d) (hd : Dissim n d)
    {med : List Nat} (hv : ValidMeds n med) (maxiter : Nat) {seq : List Nat}
    (hseq : ∀ j ∈ seq, j < n) :
    parFasterpam L sc0 scF scS mat med maxiter seq = .ok (fpP L d n med maxiter seq) := by
  by_cases h1 : med.length = 1
  · obtain ⟨c, rfl⟩ := List.length_eq_one_iff.mp h1
    simp only [parFasterpam, h1, if_true, (singleCluster_eq hm (hv.range c (by simp))).1, fpP_single]
  · have hk : 2 ≤ med.length := by have := hv.sizes.pos; omega
    have hloop := parLoop_eq (L := L) (scS := scS) hF hm hd hv.sizes.k_lt (by omega) hseq
      (fuel := maxiter) (iter := 0) (fpInitP_ok hd hv hk)
    simp only [parFasterpam, h1, if_false, parInitialAssignment_eq sc0 hm hv, ok_bind,
      (updateRemovalLoss_eq (initDataP_shape d hv hk).recIdx).1, hm.len]
    rw [show (⟨med, initDataP d n med, remP L (initDataP d n med) med.length,
      nearLossP L (initDataP d n med), n, 0⟩ : FPState N L) = fpInitP L d n med from rfl,
      hloop, fpP_many d n hk]
    rfl

end KMedoids.Repeated
