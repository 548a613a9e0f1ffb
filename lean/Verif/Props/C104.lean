import Verif.Examples
import Verif.Proofs.ParPanic
import Verif.Proofs.PureFasterPam

/-!
# C104: panics in the worker threads

All interleavings of the tasks of `par_find_best_swap` when reading the matrix, an index or an addition may panic, the
additions under the mutex included.
-/

set_option linter.unusedSectionVars false

namespace KMedoids

open RFrom (conv)

section generic

variable {P L : Type} {step : List L × L → P → Res (List L × L)} {add : L → L → Res L} {slices : List (List P)}
  {priv shared : List L × L} {s : Scope P L}

/-- **C104, the scope ends.** Whatever panics where, no task waits for ever: while a task is running, some task can move,
every step decreases the remaining work, and the mutex is free at the end. -/
theorem C104_ends (hlen : ∀ st p st', step st p = .ok st' → st'.1.length = st.1.length)
    (hk : priv.1.length = shared.1.length) (hs : ScopeSteps step add (scopeInit slices priv shared) s) :
    (∀ t, ScopeStep step add s t → t.work < s.work) ∧
    (¬ s.ended → ∃ t, ScopeStep step add s t) ∧
    (s.ended → s.lock = none) ∧
    ∃ t, ScopeSteps step add s t ∧ t.ended := by
  have hprog : ∀ {s : Scope P L}, ScopeSteps step add (scopeInit slices priv shared) s → ¬ s.ended →
      ∃ t, ScopeStep step add s t := by
    intro s hs
    obtain ⟨o, ho⟩ := scope_reachable hlen hk hs
    exact ho.progress
  refine ⟨fun t h => h.decreases, hprog hs, fun he => ?_, ?_⟩
  · obtain ⟨o, ho⟩ := scope_reachable hlen hk hs
    cases hl : s.lock with
    | none => rfl
    | some y =>
      obtain ⟨-, ⟨base, w, -, -, hw, hh⟩, -⟩ := ho.held y hl
      have hd := he w (List.mem_of_getElem? hw)
      rcases hh with ⟨i, pre, hi, -⟩ | ⟨hi, -⟩ | ⟨hi, -⟩ <;> rw [hi] at hd <;> rcases hd with hd | hd <;> cases hd
  · have key : ∀ m (s u : Scope P L), s.work ≤ m → ScopeSteps step add (scopeInit slices priv shared) s →
        ScopeSteps step add u s → ∃ t, ScopeSteps step add u t ∧ t.ended := by
      intro m
      induction m with
      | zero =>
        intro s u hm0 hs hu
        by_cases hfin : s.ended
        · exact ⟨s, hu, hfin⟩
        · obtain ⟨t, ht⟩ := hprog hs hfin
          have := ht.decreases; omega
      | succ m ih =>
        intro s u hm0 hs hu
        by_cases hfin : s.ended
        · exact ⟨s, hu, hfin⟩
        · obtain ⟨t, ht⟩ := hprog hs hfin
          have := ht.decreases
          exact ih t u (by omega) (hs.tail ht) (hu.tail ht)
    exact key s.work s s le_rfl hs (.refl s)

/-- **C104, outcome.** When all tasks have ended, the outcome is the one of running them one after the other in some order:
without a panic and with these sums, or with a panic. -/
theorem C104_outcome (hlen : ∀ st p st', step st p = .ok st' → st'.1.length = st.1.length)
    (hk : priv.1.length = shared.1.length) (hs : ScopeSteps step add (scopeInit slices priv shared) s) (he : s.ended) :
    ∃ o, o.Perm (List.range slices.length) ∧
      ((¬ s.panics ∧ runInOrder step add slices priv shared o = .ok s.shared) ∨
        (s.panics ∧ ∃ e, runInOrder step add slices priv shared o = .error e)) := by
  obtain ⟨o, ho⟩ := scope_reachable hlen hk hs
  exact ho.final (runInOrder_snoc step add slices priv shared) he

/-- **C104, poisoning.** The mutex is poisoned only if a task panicked, so the half-merged sums behind a poisoned mutex are
never returned: `rayon::scope` panics. -/
theorem C104_poisoned (hlen : ∀ st p st', step st p = .ok st' → st'.1.length = st.1.length)
    (hk : priv.1.length = shared.1.length) (hs : ScopeSteps step add (scopeInit slices priv shared) s)
    (hp : s.poisoned = true) : s.panics := by
  obtain ⟨o, ho⟩ := scope_reachable hlen hk hs
  exact (ho.bad hp).1

/-- **C104, no half-merged sums.** A task that locks the mutex without a panic finds the complete sums of exactly the tasks
that are done, in the order in which they were merged. -/
theorem C104_visible (hlen : ∀ st p st', step st p = .ok st' → st'.1.length = st.1.length)
    (hk : priv.1.length = shared.1.length) (hs : ScopeSteps step add (scopeInit slices priv shared) s)
    (hl : s.lock = none) (hp : s.poisoned = false) :
    ∃ o : List Nat, o.Nodup ∧ (∀ x, x ∈ o ↔ ∃ w, s.tasks[x]? = some w ∧ w.phase = .done) ∧
      runInOrder step add slices priv shared o = .ok s.shared := by
  obtain ⟨o, ho⟩ := scope_reachable hlen hk hs
  refine ⟨o, ho.nodup, fun x => ⟨fun hx => ?_, fun ⟨w, hw, hd⟩ => (ho.priv x w hw).2.2.2.2.mp hd⟩, ((ho.free hl).1 hp).1⟩
  have hlt : x < s.tasks.length := by rw [ho.size]; exact ho.range x hx
  exact ⟨_, List.getElem?_eq_getElem hlt, (ho.priv x _ (List.getElem?_eq_getElem hlt)).2.2.2.2.mpr hx⟩

end generic

section total

variable {N L : Type} [RDist N] [RLoss L] [RFrom N L]

theorem parFindStep_length (mat : Mat N) (j : Nat) (st : List L × L) (p : Rec N × Nat) (st' : List L × L)
    (h : parFindStep mat j st p = .ok st') : st'.1.length = st.1.length := by
  unfold parFindStep at h
  obtain ⟨d, -, h⟩ := bind_eq_ok.mp h
  have hadd : ∀ {l l' : List L} {i : Nat} {v : L}, addAt l i v = .ok l' → l'.length = l.length := by
    intro l l' i v h
    obtain ⟨x, -, h⟩ := bind_eq_ok.mp h
    cases h; simp
  split at h
  · obtain ⟨l, hl, h⟩ := bind_eq_ok.mp h
    cases h; exact hadd hl
  · split at h
    · obtain ⟨l, hl, h⟩ := bind_eq_ok.mp h
      cases h; exact hadd hl
    · cases h; rfl

/-- The record makes the loop body panic if there are `k` medoids. -/
def stepBad (mat : Mat N) (j k : Nat) (p : Rec N × Nat) : Prop :=
  (∃ e, mat.get p.2 j = .error e) ∨
    ∃ d, mat.get p.2 j = .ok d ∧ (rlt d p.1.near.d = true ∨ rlt d p.1.seco.d = true) ∧ k ≤ p.1.near.i

theorem parFindStep_bad (mat : Mat N) (j : Nat) (st : List L × L) (p : Rec N × Nat) :
    (∃ e, parFindStep mat j st p = .error e) ↔ stepBad mat j st.1.length p := by
  unfold parFindStep stepBad
  cases hg : mat.get p.2 j with
  | error e => simp [error_bind]
  | ok d =>
    have hadd : ∀ v : L, (p.1.near.i < st.1.length ∧ ∃ l, addAt st.1 p.1.near.i v = .ok l) ∨
        (st.1.length ≤ p.1.near.i ∧ addAt st.1 p.1.near.i v = .error .index) := by
      intro v
      by_cases h : p.1.near.i < st.1.length
      · exact .inl ⟨h, _, by unfold addAt; rw [idx_lt h]; rfl⟩
      · refine .inr ⟨by omega, ?_⟩
        unfold addAt idx
        rw [List.getElem?_eq_none (by omega)]; rfl
    simp only [ok_bind]
    by_cases h1 : rlt d p.1.near.d = true
    · rcases hadd (RLoss.sub (conv p.1.near.d) (conv p.1.seco.d)) with ⟨hi, l, hl⟩ | ⟨hi, hl⟩
      · simp [h1, hl, ok_bind, not_le.mpr hi]
      · simp [h1, hl, error_bind, hi]
    · by_cases h2 : rlt d p.1.seco.d = true
      · rcases hadd (RLoss.sub (conv d) (conv p.1.seco.d)) with ⟨hi, l, hl⟩ | ⟨hi, hl⟩
        · simp [h1, h2, hl, ok_bind, not_le.mpr hi]
        · simp [h1, h2, hl, error_bind, hi]
      · simp [h1, h2]

theorem foldStep_bad (mat : Mat N) (j : Nat) (l : List (Rec N × Nat)) (st : List L × L) :
    (∃ e, foldRes (parFindStep mat j) st l = .error e) ↔ ∃ p ∈ l, stepBad mat j st.1.length p := by
  induction l generalizing st with
  | nil => simp
  | cons p l ih =>
    rw [foldRes_cons]
    cases h : parFindStep mat j st p with
    | error e =>
      have := (parFindStep_bad mat j st p).mp ⟨e, h⟩
      simp only [error_bind]
      exact ⟨fun _ => ⟨p, by simp, this⟩, fun _ => ⟨e, rfl⟩⟩
    | ok st' =>
      have hb : ¬ stepBad mat j st.1.length p := fun hc => by
        obtain ⟨e, he⟩ := (parFindStep_bad mat j st p).mpr hc
        rw [h] at he; cases he
      simp only [ok_bind]
      rw [ih st', parFindStep_length mat j st p st' h]
      simp [hb]

/-- The slices of the tasks cover all records. -/
theorem workerRange_cover {data : List (Rec N)} {n parts : Nat} (hp : 1 ≤ parts) (hl : data.length = n)
    (p : Rec N × Nat) : (∃ x < parts, p ∈ workerRange n parts x data) ↔ p ∈ data.zipIdx := by
  constructor
  · rintro ⟨x, -, h⟩
    exact List.mem_of_mem_take (List.mem_of_mem_drop h)
  · intro h
    obtain ⟨i, hi⟩ := List.mem_iff_getElem?.mp h
    have hin : i < n := by
      have := (List.getElem?_eq_some_iff.mp hi).1
      simpa [hl] using this
    set q := (n + parts - 1) / parts with hq
    have hqp : n ≤ parts * q := by
      have h1 := Nat.div_add_mod (n + parts - 1) parts
      have h2 := Nat.mod_lt (n + parts - 1) (by omega : 0 < parts)
      rw [← hq] at h1
      omega
    have hq0 : 0 < q := by
      rcases Nat.eq_zero_or_pos q with h0 | h0
      · rw [h0] at hqp; omega
      · exact h0
    have hm1 := Nat.div_add_mod i q
    have hm2 := Nat.mod_lt i hq0
    have hc : q * (i / q) = i / q * q := Nat.mul_comm _ _
    refine ⟨i / q, ?_, ?_⟩
    · rw [Nat.div_lt_iff_lt_mul hq0]; omega
    · unfold workerRange
      simp only [← hq]
      rw [List.mem_iff_getElem?]
      refine ⟨i - i / q * q, ?_⟩
      rw [List.getElem?_drop, List.getElem?_take_of_lt (by omega), show i / q * q + (i - i / q * q) = i by omega]
      exact hi

theorem mapRes_total {α β : Type} (f : α → β) (l : List α) : mapRes (fun x => Except.ok (f x)) l = (.ok (l.map f) : Res (List β)) := by
  induction l with
  | nil => rfl
  | cons x l ih => rw [mapRes_cons, ok_bind, ih]; rfl

theorem mergeR_total (st w : List L × L) : mergeR (fun a b => .ok (RLoss.add a b)) st w = .ok (parMerge st w) := by
  unfold mergeR parMerge
  rw [mapRes_total (fun p : L × L => RLoss.add p.1 p.2), ok_bind, ok_bind]
  congr 2
  induction st.1 generalizing w with
  | nil => simp
  | cons a l ih =>
    rcases w with ⟨_ | ⟨b, w1⟩, w2⟩
    · simp
    · have := ih (w1, w2)
      simp_all

/-- **C104, `par_find_best_swap`.** For any matrix, records and arithmetic, and every interleaving of any number of threads:
the parallel search panics if and only if the sequential search of the same object does. It has the outcome of
`parFindBestSwap` for one of its schedules. -/
theorem C104_par_find_best_swap {mat : Mat N} {rem : List L} {data : List (Rec N)} {j parts : Nat} (hp : 1 ≤ parts)
    (hl : data.length = mat.len) (hr : rem ≠ []) {s : Scope (Rec N × Nat) L}
    (hs : ScopeSteps (parFindStep mat j) (fun a b => .ok (RLoss.add a b)) (swapScope mat.len parts rem data) s)
    (he : s.ended) :
    (s.panics ↔ ∃ e, findBestSwap mat rem data j = .error e) ∧
    ∃ sc : Sched, sc.Ok ∧ sc.parts = parts ∧
      (s.panics → ∃ e, parFindBestSwap sc mat rem data j = .error e) ∧
      (¬ s.panics → parFindBestSwap sc mat rem data j =
        (findMin s.shared.1).bind (fun r => .ok (RLoss.add r.2 s.shared.2, r.1))) := by
  obtain ⟨o, hperm, hout⟩ := C104_outcome (parFindStep_length mat j) (by simp) hs he
  simp only [List.length_map, List.length_range] at hperm
  have hmem : ∀ x ∈ o, x < parts := fun x hx => List.mem_range.mp (hperm.mem_iff.mp hx)
  have hrun : runInOrder (parFindStep mat j) (fun a b => .ok (RLoss.add a b))
      ((List.range parts).map fun x => workerRange mat.len parts x data)
      (List.replicate rem.length RLoss.zero, RLoss.zero) (rem, RLoss.zero) o =
      foldRes (fun (st : List L × L) (x : Nat) => do
        let w ← parWorker L mat rem.length data j parts x
        .ok (parMerge st w)) (rem, RLoss.zero) o := by
    have h : ∀ (o : List Nat) (st : List L × L), (∀ x ∈ o, x < parts) →
        foldRes (fun (st : List L × L) (x : Nat) => do
          let l ← idx ((List.range parts).map fun x => workerRange mat.len parts x data) x
          let w ← foldRes (parFindStep mat j) (List.replicate rem.length RLoss.zero, RLoss.zero) l
          mergeR (fun a b => .ok (RLoss.add a b)) st w) st o =
        foldRes (fun (st : List L × L) (x : Nat) => do
          let w ← parWorker L mat rem.length data j parts x
          .ok (parMerge st w)) st o := by
      intro o
      induction o with
      | nil => intro st _; rfl
      | cons x o ih =>
        intro st hx
        have h1 : idx ((List.range parts).map fun x => workerRange mat.len parts x data) x =
            .ok (workerRange mat.len parts x data) := idx_of_get (by simp [hx x (by simp)])
        simp only [foldRes_cons, h1, ok_bind, mergeR_total]
        have h2 : foldRes (parFindStep mat j) (List.replicate rem.length RLoss.zero, RLoss.zero)
          (workerRange mat.len parts x data) = parWorker L mat rem.length data j parts x := rfl
        rw [h2]
        cases parWorker L mat rem.length data j parts x with
        | error e => rfl
        | ok w =>
          simp only [mergeR_total] at ih
          simp only [ok_bind]; exact ih _ fun y hy => hx y (by simp [hy])
    exact h o _ hmem
  rw [hrun] at hout
  have hpar : ∀ (o : List Nat) (st : List L × L), (∃ e, foldRes (fun (st : List L × L) (x : Nat) => do
        let w ← parWorker L mat rem.length data j parts x
        .ok (parMerge st w)) st o = .error e) ↔
      ∃ x ∈ o, ∃ p ∈ workerRange mat.len parts x data, stepBad mat j rem.length p := by
    intro o
    induction o with
    | nil => simp
    | cons x o ih =>
      intro st
      have hw : (∃ e, parWorker L mat rem.length data j parts x = .error e) ↔
          ∃ p ∈ workerRange mat.len parts x data, stepBad mat j rem.length p := by
        have := foldStep_bad mat j (workerRange mat.len parts x data)
          (List.replicate rem.length (RLoss.zero : L), (RLoss.zero : L))
        rw [List.length_replicate] at this
        exact this
      rw [foldRes_cons]
      cases hc : parWorker L mat rem.length data j parts x with
      | error e =>
        have := hw.mp ⟨e, hc⟩
        simp only [error_bind]
        exact ⟨fun _ => ⟨x, by simp, this⟩, fun _ => ⟨e, rfl⟩⟩
      | ok w =>
        have hn : ¬ ∃ p ∈ workerRange mat.len parts x data, stepBad mat j rem.length p := fun h => by
          obtain ⟨e, h⟩ := hw.mpr h
          rw [hc] at h; cases h
        simp only [ok_bind]
        rw [ih]
        constructor
        · rintro ⟨y, hy, h⟩; exact ⟨y, by simp [hy], h⟩
        · rintro ⟨y, hy, h⟩
          rcases List.mem_cons.mp hy with rfl | hy
          · exact absurd h hn
          · exact ⟨y, hy, h⟩
  have hseq : (∃ e, findBestSwap mat rem data j = .error e) ↔ ∃ p ∈ data.zipIdx, stepBad mat j rem.length p := by
    rw [← foldStep_bad (L := L) mat j data.zipIdx (rem, RLoss.zero)]
    have h0 : foldRes (findBestSwapStep mat j) (rem, (RLoss.zero : L)) data.zipIdx =
      foldRes (parFindStep mat j) (rem, RLoss.zero) data.zipIdx := rfl
    unfold findBestSwap
    rw [h0]
    cases hc : foldRes (parFindStep mat j) (rem, (RLoss.zero : L)) data.zipIdx with
    | error e => simp [error_bind]
    | ok st =>
      have hlen : ∀ (l : List (Rec N × Nat)) (a b : List L × L), foldRes (parFindStep mat j) a l = .ok b →
          b.1.length = a.1.length := by
        intro l
        induction l with
        | nil => intro a b h; cases h; rfl
        | cons p l ih =>
          intro a b h
          rw [foldRes_cons] at h
          obtain ⟨c, hc, h⟩ := bind_eq_ok.mp h
          rw [ih c b h, parFindStep_length mat j a p c hc]
      have hne : st.1 ≠ [] := by
        intro h
        have := hlen _ _ _ hc
        rw [h] at this
        exact hr (List.length_eq_zero_iff.mp this.symm)
      simp only [ok_bind, findMin_eq hne]
      simp
  have hiff : (∃ x ∈ o, ∃ p ∈ workerRange mat.len parts x data, stepBad mat j rem.length p) ↔
      ∃ p ∈ data.zipIdx, stepBad mat j rem.length p := by
    constructor
    · rintro ⟨x, hx, p, hm, hb⟩
      exact ⟨p, (workerRange_cover hp hl p).mp ⟨x, hmem x hx, hm⟩, hb⟩
    · rintro ⟨p, hm, hb⟩
      obtain ⟨x, hx, h⟩ := (workerRange_cover hp hl p).mpr hm
      exact ⟨x, hperm.mem_iff.mpr (List.mem_range.mpr hx), p, h, hb⟩
  refine ⟨?_, ⟨parts, o, .leaf⟩, ⟨hp, hperm⟩, rfl, fun hpan => ?_, fun hpan => ?_⟩
  · rw [hseq, ← hiff, ← hpar o (rem, RLoss.zero)]
    rcases hout with ⟨h1, h2⟩ | ⟨h1, h2⟩
    · exact ⟨fun h => absurd h h1, fun ⟨e, h⟩ => by rw [h2] at h; cases h⟩
    · exact ⟨fun _ => h2, fun _ => h1⟩
  · rcases hout with ⟨h1, -⟩ | ⟨-, e, h2⟩
    · exact absurd hpan h1
    · exact ⟨e, by simp only [parFindBestSwap, h2, error_bind]⟩
  · rcases hout with ⟨-, h2⟩ | ⟨h1, -⟩
    · simp only [parFindBestSwap, h2, ok_bind]
      rfl
    · exact absurd h1 hpan

/-- Three records per thread and an index outside of the two medoids: all interleavings end, with a panic. -/
example : ∃ s : Scope (Rec ℕ × Nat) ℤ,
    ScopeSteps (parFindStep exMat 5) (fun a b => .ok (RLoss.add a b)) (swapScope exMat.len 2 [4, 4]
      [⟨⟨0, 0⟩, ⟨1, 1⟩⟩, ⟨⟨0, 0⟩, ⟨1, 1⟩⟩, ⟨⟨1, 0⟩, ⟨0, 1⟩⟩, ⟨⟨1, 4⟩, ⟨0, 5⟩⟩, ⟨⟨7, 5⟩, ⟨0, 6⟩⟩, ⟨⟨1, 9⟩, ⟨0, 10⟩⟩]) s ∧
    s.ended ∧ s.panics := by
  obtain ⟨-, -, -, s, hs, he⟩ := C104_ends (step := parFindStep exMat 5) (add := fun a b => .ok (RLoss.add a b))
    (parFindStep_length (L := ℤ) exMat 5) (by simp) (.refl (swapScope exMat.len 2 ([4, 4] : List ℤ)
      [⟨⟨0, 0⟩, ⟨1, 1⟩⟩, ⟨⟨0, 0⟩, ⟨1, 1⟩⟩, ⟨⟨1, 0⟩, ⟨0, 1⟩⟩, ⟨⟨1, 4⟩, ⟨0, 5⟩⟩, ⟨⟨7, 5⟩, ⟨0, 6⟩⟩, ⟨⟨1, 9⟩, ⟨0, 10⟩⟩]))
  exact ⟨s, hs, he, (C104_par_find_best_swap (by decide) rfl (by simp) hs he).1.mpr ⟨.index, by rfl⟩⟩

/-- The records of the first three medoids: all interleavings end without a panic. -/
example : ∃ s : Scope (Rec ℕ × Nat) ℤ,
    ScopeSteps (parFindStep exMat 5) (fun a b => .ok (RLoss.add a b)) (swapScope exMat.len 2 [4, 4]
      [⟨⟨0, 0⟩, ⟨1, 1⟩⟩, ⟨⟨0, 0⟩, ⟨1, 1⟩⟩, ⟨⟨1, 0⟩, ⟨0, 1⟩⟩, ⟨⟨1, 4⟩, ⟨0, 5⟩⟩, ⟨⟨1, 5⟩, ⟨0, 6⟩⟩, ⟨⟨1, 9⟩, ⟨0, 10⟩⟩]) s ∧
    s.ended ∧ ¬ s.panics := by
  obtain ⟨-, -, -, s, hs, he⟩ := C104_ends (step := parFindStep exMat 5) (add := fun a b => .ok (RLoss.add a b))
    (parFindStep_length (L := ℤ) exMat 5) (by simp) (.refl (swapScope exMat.len 2 ([4, 4] : List ℤ)
      [⟨⟨0, 0⟩, ⟨1, 1⟩⟩, ⟨⟨0, 0⟩, ⟨1, 1⟩⟩, ⟨⟨1, 0⟩, ⟨0, 1⟩⟩, ⟨⟨1, 4⟩, ⟨0, 5⟩⟩, ⟨⟨1, 5⟩, ⟨0, 6⟩⟩, ⟨⟨1, 9⟩, ⟨0, 10⟩⟩]))
  refine ⟨s, hs, he, fun hp => ?_⟩
  obtain ⟨e, h⟩ := (C104_par_find_best_swap (by decide) rfl (by simp) hs he).1.mp hp
  have h2 : (findBestSwap exMat ([4, 4] : List ℤ) _ 5).toOption.isSome = true := (by decide +kernel :
    (findBestSwap exMat ([4, 4] : List ℤ)
      [⟨⟨0, 0⟩, ⟨1, 1⟩⟩, ⟨⟨0, 0⟩, ⟨1, 1⟩⟩, ⟨⟨1, 0⟩, ⟨0, 1⟩⟩, ⟨⟨1, 4⟩, ⟨0, 5⟩⟩, ⟨⟨1, 5⟩, ⟨0, 6⟩⟩, ⟨⟨1, 9⟩, ⟨0, 10⟩⟩]
      5).toOption.isSome = true)
  rw [h] at h2
  cases h2

end total

section checked

variable {N : Type} [RDist N] [RFrom N ℤ]

theorem addChk_ok {lo hi a b c : ℤ} : addChk lo hi a b = .ok c ↔ c = a + b ∧ lo ≤ a + b ∧ a + b ≤ hi := by
  unfold addChk
  split
  · rename_i h
    exact ⟨fun e => by cases e; exact ⟨rfl, h⟩, fun e => by rw [e.1]⟩
  · rename_i h
    exact ⟨(fun e => by cases e), fun e => absurd e.2 h⟩

theorem subChk_ok {lo hi a b c : ℤ} (h : subChk lo hi a b = .ok c) : c = a - b := by
  unfold subChk at h
  split at h <;> cases h
  rfl

/-- With the step that may overflow the vector keeps its length. -/
theorem parFindStepR_length {L : Type} [RFrom N L] (add sub : L → L → Res L) (mat : Mat N) (j : Nat) (st : List L × L)
    (p : Rec N × Nat) (st' : List L × L) (h : parFindStepR add sub mat j st p = .ok st') : st'.1.length = st.1.length := by
  unfold parFindStepR at h
  obtain ⟨d, -, h⟩ := bind_eq_ok.mp h
  have hadd : ∀ {l l' : List L} {i : Nat} {v : Res L}, addAtR add l i v = .ok l' → l'.length = l.length := by
    intro l l' i v h
    obtain ⟨x, -, h⟩ := bind_eq_ok.mp h
    obtain ⟨y, -, h⟩ := bind_eq_ok.mp h
    obtain ⟨c, -, h⟩ := bind_eq_ok.mp h
    cases h; simp
  split at h
  · obtain ⟨x, -, h⟩ := bind_eq_ok.mp h
    obtain ⟨y, -, h⟩ := bind_eq_ok.mp h
    obtain ⟨l, hl, h⟩ := bind_eq_ok.mp h
    cases h; exact hadd hl
  · split at h
    · obtain ⟨l, hl, h⟩ := bind_eq_ok.mp h
      cases h; exact hadd hl
    · cases h; rfl

/-- All entries are at most `c`. -/
def AllLe (c : ℤ) (st : List ℤ × ℤ) : Prop := (∀ a ∈ st.1, a ≤ c) ∧ st.2 ≤ c

theorem parFindStepR_neg {lo hi : ℤ} {mat : Mat N} {j : Nat} {p : Rec N × Nat}
    (hlt : ∀ a b : N, rlt a b = true → (conv a : ℤ) ≤ conv b) (hrec : (conv p.1.near.d : ℤ) ≤ conv p.1.seco.d)
    {st st' : List ℤ × ℤ} (h0 : AllLe 0 st)
    (h : parFindStepR (addChk lo hi) (subChk lo hi) mat j st p = .ok st') : AllLe 0 st' := by
  have hadd : ∀ {l l' : List ℤ} {i : Nat} {a b : ℤ}, (∀ x ∈ l, x ≤ 0) → a ≤ b →
      addAtR (addChk lo hi) l i (subChk lo hi a b) = .ok l' → ∀ x ∈ l', x ≤ 0 := by
    intro l l' i a b hl hab h
    obtain ⟨x, hx, h⟩ := bind_eq_ok.mp h
    obtain ⟨y, hy, h⟩ := bind_eq_ok.mp h
    obtain ⟨c, hc, h⟩ := bind_eq_ok.mp h
    cases h
    have := subChk_ok hy
    have := (addChk_ok.mp hc).1
    have := hl x (List.mem_of_getElem? (idx_ok.mp hx))
    intro z hz
    rcases List.mem_or_eq_of_mem_set hz with hz | rfl
    · exact hl z hz
    · omega
  unfold parFindStepR at h
  obtain ⟨d, -, h⟩ := bind_eq_ok.mp h
  split at h
  · rename_i h1
    obtain ⟨x, hx, h⟩ := bind_eq_ok.mp h
    obtain ⟨y, hy, h⟩ := bind_eq_ok.mp h
    obtain ⟨l, hl, h⟩ := bind_eq_ok.mp h
    cases h
    refine ⟨hadd h0.1 hrec hl, ?_⟩
    have := subChk_ok hx
    have := (addChk_ok.mp hy).1
    have := hlt _ _ h1
    have := h0.2
    show y ≤ 0
    omega
  · split at h
    · rename_i h2
      obtain ⟨l, hl, h⟩ := bind_eq_ok.mp h
      cases h
      exact ⟨hadd h0.1 (hlt _ _ h2) hl, h0.2⟩
    · cases h; exact h0

theorem mapChk_ok {lo hi : ℤ} {l v : List (ℤ)} {w : List ℤ} :
    mapRes (fun p : ℤ × ℤ => addChk lo hi p.1 p.2) (l.zip w) = .ok v ↔
      v = List.zipWith (· + ·) l w ∧ ∀ a ∈ v, lo ≤ a ∧ a ≤ hi := by
  induction l generalizing w v with
  | nil =>
    simp only [List.zip_nil_left, mapRes_nil, List.zipWith_nil_left]
    exact ⟨fun h => by cases h; simp, fun h => by rw [h.1]⟩
  | cons a l ih =>
    cases w with
    | nil =>
      simp only [List.zip_nil_right, mapRes_nil, List.zipWith_nil_right]
      exact ⟨fun h => by cases h; simp, fun h => by rw [h.1]⟩
    | cons b w =>
      simp only [List.zip_cons_cons, mapRes_cons, List.zipWith_cons_cons]
      constructor
      · intro h
        obtain ⟨c, hc, h⟩ := bind_eq_ok.mp h
        obtain ⟨u, hu, h⟩ := bind_eq_ok.mp h
        cases h
        obtain ⟨h1, h2⟩ := addChk_ok.mp hc
        obtain ⟨h3, h4⟩ := ih.mp hu
        subst h1
        refine ⟨by rw [h3], ?_⟩
        intro z hz
        rcases List.mem_cons.mp hz with rfl | hz
        · exact h2
        · exact h4 z hz
      · rintro ⟨rfl, h⟩
        rw [(addChk_ok (c := a + b)).mpr ⟨rfl, h _ (by simp)⟩, ok_bind,
          (ih (v := List.zipWith (· + ·) l w)).mpr ⟨rfl, fun z hz => h z (by simp [hz])⟩]
        rfl

theorem mergeChk_ok {lo hi : ℤ} {st w v : List ℤ × ℤ} : mergeR (addChk lo hi) st w = .ok v ↔
    v = (List.zipWith (· + ·) st.1 w.1, st.2 + w.2) ∧ (∀ a ∈ v.1, lo ≤ a ∧ a ≤ hi) ∧ lo ≤ v.2 ∧ v.2 ≤ hi := by
  unfold mergeR
  constructor
  · intro h
    obtain ⟨u, hu, h⟩ := bind_eq_ok.mp h
    obtain ⟨a, ha, h⟩ := bind_eq_ok.mp h
    cases h
    obtain ⟨h1, h2⟩ := mapChk_ok.mp hu
    obtain ⟨h3, h4⟩ := addChk_ok.mp ha
    subst h3
    exact ⟨by rw [← h1], h2, h4⟩
  · rintro ⟨h1, h2, h3⟩
    obtain ⟨v1, v2⟩ := v
    cases h1
    rw [mapChk_ok.mpr ⟨rfl, h2⟩, ok_bind, addChk_ok.mpr ⟨rfl, h3⟩]
    rfl

theorem zipWith_add_ge {l w : List ℤ} (hw : ∀ a ∈ w, a ≤ 0) {lo : ℤ}
    (h : ∀ a ∈ List.zipWith (· + ·) l w, lo ≤ a) (hlen : l.length = w.length) : ∀ a ∈ l, lo ≤ a := by
  induction l generalizing w with
  | nil => simp
  | cons x l ih =>
    cases w with
    | nil => simp at hlen
    | cons y w =>
      simp only [List.zipWith_cons_cons, List.mem_cons, forall_eq_or_imp, List.length_cons, Nat.add_right_cancel_iff] at *
      exact ⟨by omega, ih hw.2 h.2 hlen⟩

theorem zipWith_add_le {l w : List ℤ} {c : ℤ} (hw : ∀ a ∈ w, a ≤ 0) (hl : ∀ a ∈ l, a ≤ c) :
    ∀ a ∈ List.zipWith (· + ·) l w, a ≤ c := by
  induction l generalizing w with
  | nil => simp
  | cons x l ih =>
    cases w with
    | nil => simp
    | cons y w =>
      simp only [List.zipWith_cons_cons, List.mem_cons, forall_eq_or_imp] at *
      exact ⟨by omega, ih hw.2 hl.2⟩

/-- Two merges commute, failures included. -/
theorem mergeChk_comm {lo hi : ℤ} {st w u v : List ℤ × ℤ} {k : Nat} (h1 : st.1.length = k) (h2 : w.1.length = k)
    (h3 : u.1.length = k) (hst : AllLe hi st) (hw : AllLe 0 w) (hu : AllLe 0 u)
    (h : (mergeR (addChk lo hi) st w >>= fun t => mergeR (addChk lo hi) t u) = .ok v) :
    (mergeR (addChk lo hi) st u >>= fun t => mergeR (addChk lo hi) t w) = .ok v := by
  obtain ⟨t, ht, h⟩ := bind_eq_ok.mp h
  obtain ⟨e1, -, -⟩ := mergeChk_ok.mp ht
  obtain ⟨e2, b1, b2⟩ := mergeChk_ok.mp h
  subst e1
  have hz : ∀ l a b : List ℤ, List.zipWith (· + ·) (List.zipWith (· + ·) l a) b =
      List.zipWith (· + ·) (List.zipWith (· + ·) l b) a := by
    intro l
    induction l with
    | nil => simp
    | cons x l ih =>
      intro a b
      cases a with
      | nil => cases b <;> simp
      | cons y a =>
        cases b with
        | nil => simp
        | cons z b => simp only [List.zipWith_cons_cons, ih a b, add_right_comm]
  have hv : v = (List.zipWith (· + ·) (List.zipWith (· + ·) st.1 u.1) w.1, st.2 + u.2 + w.2) := by
    rw [e2]
    exact Prod.ext (hz _ _ _) (add_right_comm _ _ _)
  have c1 := zipWith_add_le (l := st.1) (w := u.1) (c := hi) hu.1 hst.1
  have c2 := zipWith_add_ge (l := List.zipWith (· + ·) st.1 u.1) (w := w.1) (lo := lo) hw.1
    (fun a ha => (b1 a (by rw [hv]; exact ha)).1) (by simp; omega)
  have := hst.2; have := hw.2; have := hu.2
  have hv2 : v.2 = st.2 + u.2 + w.2 := by rw [hv]
  have ht' : mergeR (addChk lo hi) st u = .ok (List.zipWith (· + ·) st.1 u.1, st.2 + u.2) :=
    mergeChk_ok.mpr ⟨rfl, fun a ha => ⟨c2 a ha, c1 a ha⟩, by show lo ≤ st.2 + u.2; omega, by show st.2 + u.2 ≤ hi; omega⟩
  rw [ht', ok_bind]
  exact mergeChk_ok.mpr ⟨hv, b1, b2⟩

/-- The outcome of a fold whose steps commute, failures included, does not depend on the order. -/
theorem foldRes_perm {σ α : Type} {f : σ → α → Res σ} (I : σ → Prop) (hI : ∀ s x t, I s → f s x = .ok t → I t)
    (hc : ∀ s x y v, I s → (f s x >>= fun t => f t y) = .ok v → (f s y >>= fun t => f t x) = .ok v)
    {o o' : List α} (hp : o.Perm o') : ∀ s v, I s → foldRes f s o = .ok v → foldRes f s o' = .ok v := by
  induction hp with
  | nil => intro s v _ h; exact h
  | cons x _ ih =>
    intro s v hs h
    rw [foldRes_cons] at h ⊢
    obtain ⟨t, ht, h⟩ := bind_eq_ok.mp h
    rw [ht, ok_bind]
    exact ih t v (hI s x t hs ht) h
  | swap x y l =>
    intro s v hs h
    rw [foldRes_cons] at h ⊢
    obtain ⟨t, ht, h⟩ := bind_eq_ok.mp h
    rw [foldRes_cons] at h
    obtain ⟨u, hu, h⟩ := bind_eq_ok.mp h
    have := hc s y x u hs (by rw [ht, ok_bind, hu])
    obtain ⟨t', ht', hu'⟩ := bind_eq_ok.mp this
    rw [ht', ok_bind, foldRes_cons, hu', ok_bind, h]
  | trans _ _ ih1 ih2 => intro s v hs h; exact ih2 s v hs (ih1 s v hs h)

/-- **C104, overflow checks.** With integers in `[lo, hi]` and overflow checks, also under the mutex, all interleavings agree:
either all of them end with a panic, or none does and all leave the same sums. -/
theorem C104_checked {lo hi : ℤ} (hhi : 0 ≤ hi) {mat : Mat N} {rem : List ℤ} (hrem : ∀ a ∈ rem, a ≤ hi)
    {data : List (Rec N)} {j parts : Nat} (hlt : ∀ a b : N, rlt a b = true → (conv a : ℤ) ≤ conv b)
    (hrec : ∀ r ∈ data, (conv r.near.d : ℤ) ≤ conv r.seco.d) {s t : Scope (Rec N × Nat) ℤ}
    (hs : ScopeSteps (parFindStepR (addChk lo hi) (subChk lo hi) mat j) (addChk lo hi)
      (swapScope mat.len parts rem data) s) (hse : s.ended)
    (ht : ScopeSteps (parFindStepR (addChk lo hi) (subChk lo hi) mat j) (addChk lo hi)
      (swapScope mat.len parts rem data) t) (hte : t.ended) :
    (s.panics ↔ t.panics) ∧ (¬ s.panics → s.shared = t.shared) := by
  obtain ⟨o, ho, hso⟩ := C104_outcome (parFindStepR_length _ _ mat j) (by simp) hs hse
  obtain ⟨o', ho', hto⟩ := C104_outcome (parFindStepR_length _ _ mat j) (by simp) ht hte
  have hlenF : ∀ (l : List (Rec N × Nat)) (a b : List ℤ × ℤ), (∀ p ∈ l, p.1 ∈ data) → AllLe 0 a →
      foldRes (parFindStepR (addChk lo hi) (subChk lo hi) mat j) a l = .ok b → b.1.length = a.1.length ∧ AllLe 0 b := by
    intro l
    induction l with
    | nil => intro a b _ h0 h; cases h; exact ⟨rfl, h0⟩
    | cons p l ih =>
      intro a b hl h0 h
      rw [foldRes_cons] at h
      obtain ⟨c, hc, h⟩ := bind_eq_ok.mp h
      obtain ⟨h1, h2⟩ := ih c b (fun q hq => hl q (by simp [hq]))
        (parFindStepR_neg hlt (hrec _ (hl p (by simp))) h0 hc) h
      exact ⟨by rw [h1, parFindStepR_length _ _ mat j a p c hc], h2⟩
  have hW : ∀ (x : Nat) (w : List ℤ × ℤ),
      (idx ((List.range parts).map fun x => workerRange mat.len parts x data) x >>= fun l =>
        foldRes (parFindStepR (addChk lo hi) (subChk lo hi) mat j)
          (List.replicate rem.length RLoss.zero, RLoss.zero) l) = .ok w → w.1.length = rem.length ∧ AllLe 0 w := by
    intro x w h
    obtain ⟨l, hl, h⟩ := bind_eq_ok.mp h
    have hmem := List.mem_of_getElem? (idx_ok.mp hl)
    obtain ⟨y, -, rfl⟩ := List.mem_map.mp hmem
    have := hlenF _ _ _ (fun p hp => by
      have := List.mem_of_mem_take (List.mem_of_mem_drop hp)
      exact List.fst_mem_of_mem_zipIdx this) ⟨fun a ha => (List.eq_of_mem_replicate ha).le, le_refl (0 : ℤ)⟩ h
    simpa using this
  have hperm : ∀ {o o' : List Nat}, o.Perm o' → ∀ v,
      runInOrder (parFindStepR (addChk lo hi) (subChk lo hi) mat j) (addChk lo hi)
        ((List.range parts).map fun x => workerRange mat.len parts x data)
        (List.replicate rem.length RLoss.zero, RLoss.zero) (rem, RLoss.zero) o = .ok v →
      runInOrder (parFindStepR (addChk lo hi) (subChk lo hi) mat j) (addChk lo hi)
        ((List.range parts).map fun x => workerRange mat.len parts x data)
        (List.replicate rem.length RLoss.zero, RLoss.zero) (rem, RLoss.zero) o' = .ok v := by
    intro o o' hp v h
    refine foldRes_perm (fun st : List ℤ × ℤ => st.1.length = rem.length ∧ AllLe hi st) ?_ ?_ hp _ v
      ⟨rfl, hrem, hhi⟩ h
    · rintro st x st' ⟨h1, h2⟩ h
      obtain ⟨l, hl, h⟩ := bind_eq_ok.mp h
      obtain ⟨w, hw, h⟩ := bind_eq_ok.mp h
      obtain ⟨w1, w2⟩ := hW x w (by rw [hl, ok_bind, hw])
      obtain ⟨-, b1, b2⟩ := mergeChk_ok.mp h
      exact ⟨mergeR_length h1 w1 h, fun a ha => (b1 a ha).2, b2.2⟩
    · rintro st x y v ⟨h1, h2⟩ h
      obtain ⟨st', h, h'⟩ := bind_eq_ok.mp h
      obtain ⟨l, hl, h⟩ := bind_eq_ok.mp h
      obtain ⟨w, hw, h⟩ := bind_eq_ok.mp h
      obtain ⟨m, hm, h'⟩ := bind_eq_ok.mp h'
      obtain ⟨u, hu, h'⟩ := bind_eq_ok.mp h'
      obtain ⟨w1, w2⟩ := hW x w (by rw [hl, ok_bind, hw])
      obtain ⟨u1, u2⟩ := hW y u (by rw [hm, ok_bind, hu])
      have := mergeChk_comm h1 w1 u1 h2 w2 u2 (by rw [h, ok_bind, h'])
      simp only [hl, hw, hm, hu, ok_bind]
      exact this
  have hoo : o.Perm o' := ho.trans ho'.symm
  rcases hso with ⟨a1, a2⟩ | ⟨a1, e, a2⟩ <;> rcases hto with ⟨b1, b2⟩ | ⟨b1, e', b2⟩
  · refine ⟨⟨fun h => absurd h a1, fun h => absurd h b1⟩, fun _ => ?_⟩
    have h := hperm hoo _ a2
    rw [b2] at h
    exact (Except.ok.inj h).symm
  · have h := hperm hoo _ a2
    rw [b2] at h; cases h
  · have h := hperm hoo.symm _ b2
    rw [a2] at h; cases h
  · exact ⟨⟨fun _ => b1, fun _ => a1⟩, fun h => absurd a1 h⟩

/-- Without overflow the loop body is the one of `parFindBestSwap`. -/
theorem C104_step_total {N L : Type} [RDist N] [RLoss L] [RFrom N L] (mat : Mat N) (j : Nat) (st : List L × L)
    (p : Rec N × Nat) :
    parFindStepR (fun a b => .ok (RLoss.add a b)) (fun a b => .ok (RLoss.sub a b)) mat j st p = parFindStep mat j st p := rfl

/-- Two tasks with one record each, numbers in `[-10, 10]`: the first task overflows while it holds the mutex and the second
one panics at `unwrap`. -/
example : ∃ s : Scope (Rec ℕ × Nat) ℤ,
    ScopeSteps (parFindStepR (addChk (-10) 10) (subChk (-10) 10) (ofRows [[0, 1], [1, 0]]) 0) (addChk (-10) 10)
      (swapScope 2 2 [-9] [⟨⟨0, 3⟩, ⟨0, 5⟩⟩, ⟨⟨0, 1⟩, ⟨0, 1⟩⟩]) s ∧ s.ended ∧ s.poisoned = true ∧ s.lock = none ∧
    s.tasks.map (·.phase) = [.panicked, .panicked] := by
  refine ⟨_, .tail (.tail (.tail (.tail (.tail (.refl _)
    (.work (x := 0) rfl rfl rfl rfl)) (.lock (x := 0) rfl rfl rfl rfl rfl)) (.vecPanic (x := 0) rfl rfl rfl rfl rfl))
    (.work (x := 1) rfl rfl rfl rfl)) (.lockPanic (x := 1) rfl rfl rfl rfl rfl), ?_, rfl, rfl, rfl⟩
  exact List.forall_mem_cons.mpr ⟨.inr rfl, List.forall_mem_cons.mpr ⟨.inr rfl, fun w hw => absurd hw List.not_mem_nil⟩⟩

/-- The hypotheses of `C104_checked` hold for it. -/
example : (0 : ℤ) ≤ 10 ∧ (∀ a ∈ [(-9 : ℤ)], a ≤ 10) ∧ (∀ a b : ℕ, rlt a b = true → (conv a : ℤ) ≤ conv b) ∧
    ∀ r ∈ ([⟨⟨0, 3⟩, ⟨0, 5⟩⟩, ⟨⟨0, 1⟩, ⟨0, 1⟩⟩] : List (Rec ℕ)), (conv r.near.d : ℤ) ≤ conv r.seco.d := by
  refine ⟨by decide, by decide, fun a b h => ?_, by decide⟩
  have h' : compare a b = .lt := Option.some.inj (beq_iff_eq.mp h)
  exact Int.ofNat_le.mpr (le_of_lt (compare_lt_iff_lt.mp h'))

end checked

end KMedoids
