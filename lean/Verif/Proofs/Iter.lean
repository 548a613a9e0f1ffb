import Verif.Proofs.Basic
import Verif.Model.ParFasterPam
import Verif.Model.FastPam1
import Verif.Model.Pam
import Verif.Model.Alternating
import Verif.Model.FasterMsc
import Verif.Model.FastMsc
import Verif.Model.PamMedSil
import Verif.Model.PamSil

/-!
# What the iteration limit does

All outer loops of the crate have the form `iterR`. No assumption on the arithmetic or the matrix.
-/

set_option linter.unusedSectionVars false

namespace KMedoids

/-- At most `fuel` steps; a step says whether it was the last one. -/
def iterR {S : Type} (step : Nat → S → Res (S × Bool)) : Nat → Nat → S → Res (S × Nat)
  | 0, iter, s => .ok (s, iter)
  | fuel + 1, iter, s => do
    let r ← step iter s
    if r.2 then .ok (r.1, iter + 1) else iterR step fuel (iter + 1) r.1

section generic
variable {S : Type} {step : Nat → S → Res (S × Bool)}

/-- A run that ended by itself does not depend on the limit. -/
theorem iterR_stop {fuel iter : Nat} {s t : S} {j : Nat} (h : iterR step fuel iter s = .ok (t, j))
    (hj : j < iter + fuel) {fuel' : Nat} (hf : j ≤ iter + fuel') : iterR step fuel' iter s = .ok (t, j) := by
  induction fuel generalizing iter s fuel' with
  | zero => simp only [iterR, Except.ok.injEq, Prod.mk.injEq] at h; omega
  | succ fuel ih =>
    have hji : iter + 1 ≤ j := by
      clear ih hf hj
      have hg : ∀ (fuel iter : Nat) (s : S), iterR step fuel iter s = .ok (t, j) → iter ≤ j := by
        intro fuel
        induction fuel with
        | zero => intro iter s h; simp only [iterR, Except.ok.injEq, Prod.mk.injEq] at h; omega
        | succ fuel ih =>
          intro iter s h
          unfold iterR at h
          obtain ⟨r, -, h⟩ := bind_eq_ok.mp h
          split at h
          · simp only [Except.ok.injEq, Prod.mk.injEq] at h; omega
          · have := ih _ _ h; omega
      unfold iterR at h
      obtain ⟨r, -, h⟩ := bind_eq_ok.mp h
      split at h
      · simp only [Except.ok.injEq, Prod.mk.injEq] at h; omega
      · exact hg _ _ _ h
    obtain ⟨f', rfl⟩ : ∃ f', fuel' = f' + 1 := ⟨fuel' - 1, by omega⟩
    unfold iterR at h ⊢
    obtain ⟨r, hr, h⟩ := bind_eq_ok.mp h
    rw [hr]
    dsimp only [bind, Except.bind]
    split at h
    · rename_i hb; rw [if_pos hb]; exact h
    · rename_i hb; rw [if_neg hb]; exact ih h (by omega) (by omega)

/-- A panic is not avoided by a larger limit. -/
theorem iterR_error {fuel iter : Nat} {s : S} {e : Panic} (h : iterR step fuel iter s = .error e)
    {fuel' : Nat} (hf : fuel ≤ fuel') : iterR step fuel' iter s = .error e := by
  induction fuel generalizing iter s fuel' with
  | zero => cases h
  | succ fuel ih =>
    obtain ⟨f', rfl⟩ : ∃ f', fuel' = f' + 1 := ⟨fuel' - 1, by omega⟩
    unfold iterR at h ⊢
    cases hr : step iter s with
    | error e' => rw [hr] at h; exact h
    | ok r =>
      rw [hr] at h
      dsimp only [bind, Except.bind] at h ⊢
      split at h
      · cases h
      · rename_i hb; rw [if_neg hb]; exact ih h (by omega)

end generic

variable {N L : Type} [RDist N] [RLoss L] [RFrom N L]

/-! ## the loops of the model -/

theorem fpLoop_iterR (mat : Mat N) (seq : List Nat) (fuel iter : Nat) (s : FPState N L) :
    fpLoop mat seq fuel iter s = iterR (fun _ s => do
      let s' ← fpPass mat seq s
      .ok (s', s'.nSwaps == s.nSwaps || rge s'.loss s.loss)) fuel iter s := by
  induction fuel generalizing iter s with
  | zero => rfl
  | succ fuel ih =>
    unfold fpLoop iterR
    cases fpPass mat seq s with
    | error e => rfl
    | ok s' => simp only [ih]; rfl

theorem parLoop_iterR (scF scS : Nat → Nat → Sched) (mat : Mat N) (seq : List Nat) (fuel iter : Nat)
    (s : FPState N L) :
    parLoop scF scS mat seq fuel iter s = iterR (fun iter s => do
      let s' ← parPass (scF iter) (scS iter) mat seq s
      .ok (s', s'.nSwaps == s.nSwaps || rge s'.loss s.loss)) fuel iter s := by
  induction fuel generalizing iter s with
  | zero => rfl
  | succ fuel ih =>
    unfold parLoop iterR
    cases parPass (scF iter) (scS iter) mat seq s with
    | error e => rfl
    | ok s' => simp only [ih]; rfl

theorem mscLoop_iterR (mat : Mat N) (fuel iter : Nat) (s : MSCState N L) :
    mscLoop mat fuel iter s = iterR (fun _ s => do
      let s' ← mscPass mat (List.range mat.len) s
      .ok (s', s'.nSwaps == s.nSwaps || rge s'.loss s.loss)) fuel iter s := by
  induction fuel generalizing iter s with
  | zero => rfl
  | succ fuel ih =>
    unfold mscLoop iterR
    cases mscPass mat (List.range mat.len) s with
    | error e => rfl
    | ok s' => simp only [ih]; rfl

theorem k2Loop_iterR (mat : Mat N) (fuel iter : Nat) (s : K2State N L) :
    k2Loop mat fuel iter s = iterR (fun _ s => do
      let s' ← k2Pass mat (List.range mat.len) s
      .ok (s', s'.nSwaps == s.nSwaps || rge s'.loss s.loss)) fuel iter s := by
  induction fuel generalizing iter s with
  | zero => rfl
  | succ fuel ih =>
    unfold k2Loop iterR
    cases k2Pass mat (List.range mat.len) s with
    | error e => rfl
    | ok s' => simp only [ih]; rfl

/-- Loop body of `pam_swap`. -/
def pamStep (mat : Mat N) (k : Nat) (s : PState N L) : Res (PState N L × Bool) := do
  let best ← foldRes (pamScanStep mat s.med s.data) ((RLoss.zero : L), k, usizeMax) (List.range mat.len)
  if rlt best.1 RLoss.zero then
    let r ← doSwap L mat s.med s.data best.2.1 best.2.2
    if rge r.1 s.loss then .ok (⟨r.2.1, r.2.2, s.loss, s.nSwaps + 1⟩, true)
    else .ok (⟨r.2.1, r.2.2, r.1, s.nSwaps + 1⟩, false)
  else .ok (s, true)

theorem pamLoop_iterR (mat : Mat N) (k fuel iter : Nat) (s : PState N L) :
    pamLoop mat k fuel iter s = iterR (fun _ => pamStep mat k) fuel iter s := by
  induction fuel generalizing iter s with
  | zero => rfl
  | succ fuel ih =>
    unfold pamLoop iterR pamStep
    simp only [ih]
    cases foldRes (pamScanStep mat s.med s.data) ((RLoss.zero : L), k, usizeMax) (List.range mat.len) with
    | error e => rfl
    | ok best =>
      dsimp only [bind, Except.bind]
      split
      · cases doSwap L mat s.med s.data best.2.1 best.2.2 with
        | error e => rfl
        | ok r => dsimp only; split <;> rfl
      · rfl

/-- Loop body of `fastpam1`. -/
def fastpam1Step (mat : Mat N) (k : Nat) (s : PState N L) : Res (PState N L × Bool) := do
  let rem ← updateRemovalLoss L s.data k
  let best ← foldRes (fastpam1ScanStep mat s.med s.data rem) ((RLoss.zero : L), usizeMax, usizeMax)
    (List.range mat.len)
  if rlt best.1 RLoss.zero then
    let r ← doSwap L mat s.med s.data best.2.1 best.2.2
    if rge r.1 s.loss then .ok (⟨r.2.1, r.2.2, s.loss, s.nSwaps + 1⟩, true)
    else .ok (⟨r.2.1, r.2.2, r.1, s.nSwaps + 1⟩, false)
  else .ok (s, true)

theorem fastpam1Loop_iterR (mat : Mat N) (k fuel iter : Nat) (s : PState N L) :
    fastpam1Loop mat k fuel iter s = iterR (fun _ => fastpam1Step mat k) fuel iter s := by
  induction fuel generalizing iter s with
  | zero => rfl
  | succ fuel ih =>
    unfold fastpam1Loop iterR fastpam1Step
    simp only [ih]
    cases updateRemovalLoss L s.data k with
    | error e => rfl
    | ok rem =>
      dsimp only [bind, Except.bind]
      cases foldRes (fastpam1ScanStep mat s.med s.data rem) ((RLoss.zero : L), usizeMax, usizeMax)
        (List.range mat.len) with
      | error e => rfl
      | ok best =>
        dsimp only
        split
        · cases doSwap L mat s.med s.data best.2.1 best.2.2 with
          | error e => rfl
          | ok r => dsimp only; split <;> rfl
        · rfl

/-- Loop body of `fastmsc`. -/
def fastmscStep (mat : Mat N) (k : Nat) (s : MPState N L) : Res (MPState N L × Bool) := do
  let rem ← mscUpdateRemovalLoss L s.data k
  let best ← foldRes (fastmscScanStep mat s.med s.data rem) ((RLoss.zero : L), usizeMax, usizeMax)
    (List.range mat.len)
  if rgt best.1 RLoss.zero then
    let r ← mscDoSwap L mat s.med s.data best.2.1 best.2.2
    if rge r.1 s.loss then .ok (⟨r.2.1, r.2.2, s.loss, s.nSwaps + 1⟩, true)
    else .ok (⟨r.2.1, r.2.2, r.1, s.nSwaps + 1⟩, false)
  else .ok (s, true)

theorem fastmscLoop_iterR (mat : Mat N) (k fuel iter : Nat) (s : MPState N L) :
    fastmscLoop mat k fuel iter s = iterR (fun _ => fastmscStep mat k) fuel iter s := by
  induction fuel generalizing iter s with
  | zero => rfl
  | succ fuel ih =>
    unfold fastmscLoop iterR fastmscStep
    simp only [ih]
    cases mscUpdateRemovalLoss L s.data k with
    | error e => rfl
    | ok rem =>
      dsimp only [bind, Except.bind]
      cases foldRes (fastmscScanStep mat s.med s.data rem) ((RLoss.zero : L), usizeMax, usizeMax)
        (List.range mat.len) with
      | error e => rfl
      | ok best =>
        dsimp only
        split
        · cases mscDoSwap L mat s.med s.data best.2.1 best.2.2 with
          | error e => rfl
          | ok r => dsimp only; split <;> rfl
        · rfl

/-- Loop body of `pammedsil_swap`. -/
def pmsLoopStep (mat : Mat N) (k : Nat) (s : MPState N L) : Res (MPState N L × Bool) := do
  let best ← foldRes (pmsScanStep mat k s.med s.data) ((RLoss.zero : L), k, usizeMax) (List.range mat.len)
  if rgt best.1 RLoss.zero then
    let r ← mscDoSwap L mat s.med s.data best.2.1 best.2.2
    if rge r.1 s.loss then .ok (⟨r.2.1, r.2.2, s.loss, s.nSwaps + 1⟩, true)
    else .ok (⟨r.2.1, r.2.2, r.1, s.nSwaps + 1⟩, false)
  else .ok (s, true)

theorem pmsLoop_iterR (mat : Mat N) (k fuel iter : Nat) (s : MPState N L) :
    pmsLoop mat k fuel iter s = iterR (fun _ => pmsLoopStep mat k) fuel iter s := by
  induction fuel generalizing iter s with
  | zero => rfl
  | succ fuel ih =>
    unfold pmsLoop iterR pmsLoopStep
    simp only [ih]
    cases foldRes (pmsScanStep mat k s.med s.data) ((RLoss.zero : L), k, usizeMax) (List.range mat.len) with
    | error e => rfl
    | ok best =>
      dsimp only [bind, Except.bind]
      split
      · cases mscDoSwap L mat s.med s.data best.2.1 best.2.2 with
        | error e => rfl
        | ok r => dsimp only; split <;> rfl
      · rfl

/-- Loop body of `fastmsc` for two medoids. -/
def fastmscK2Step (mat : Mat N) (k : Nat) (s : K2State N L) : Res (K2State N L × Bool) := do
  let best ← foldRes (fastmscK2ScanStep mat s.med s.assi s.data) ((RLoss.zero : L), k, usizeMax)
    (List.range mat.len)
  if !rlt best.1 s.loss then .ok (s, true)
  else
    let r ← k2DoSwap L mat s.med s.assi s.data best.2.1 best.2.2
    if !rlt r.1 s.loss then .ok (⟨r.2.1, r.2.2.1, r.2.2.2, s.loss, s.lastswap, s.nSwaps + 1⟩, true)
    else .ok (⟨r.2.1, r.2.2.1, r.2.2.2, r.1, s.lastswap, s.nSwaps + 1⟩, false)

theorem fastmscK2Loop_iterR (mat : Mat N) (k fuel iter : Nat) (s : K2State N L) :
    fastmscK2Loop mat k fuel iter s = iterR (fun _ => fastmscK2Step mat k) fuel iter s := by
  induction fuel generalizing iter s with
  | zero => rfl
  | succ fuel ih =>
    unfold fastmscK2Loop iterR fastmscK2Step
    simp only [ih]
    cases foldRes (fastmscK2ScanStep mat s.med s.assi s.data) ((RLoss.zero : L), k, usizeMax)
      (List.range mat.len) with
    | error e => rfl
    | ok best =>
      dsimp only [bind, Except.bind]
      split
      · rfl
      · cases k2DoSwap L mat s.med s.assi s.data best.2.1 best.2.2 with
        | error e => rfl
        | ok r => dsimp only; split <;> rfl

/-- Loop body of `alternating`; state `(loss, assi, med)`. -/
def altStep (L : Type) [RLoss L] [RFrom N L] (mat : Mat N) (s : L × List Nat × List Nat) :
    Res ((L × List Nat × List Nat) × Bool) := do
  let r ← alternatingUpdate L mat s.2.1 s.2.2
  if !r.1 then .ok ((s.1, s.2.1, r.2), true)
  else do
    let a ← assignNearest L mat r.2
    .ok ((a.1, a.2, r.2), false)

theorem alternatingLoop_iterR (mat : Mat N) (fuel iter : Nat) (s : L × List Nat × List Nat) :
    alternatingLoop mat fuel iter s.1 s.2.1 s.2.2 = (do
      let r ← iterR (fun _ => altStep L mat) fuel iter s
      .ok ⟨r.1.1, r.1.2.1, r.2, r.1.2.2⟩) := by
  induction fuel generalizing iter s with
  | zero => rfl
  | succ fuel ih =>
    unfold alternatingLoop iterR altStep
    cases alternatingUpdate L mat s.2.1 s.2.2 with
    | error e => rfl
    | ok r =>
      dsimp only [bind, Except.bind]
      split
      · rfl
      · cases assignNearest L mat r.2 with
        | error e => rfl
        | ok a => dsimp only; exact ih (iter + 1) (a.1, a.2, r.2)

/-- Loop body of `pamsil_optimize`; state `(sil, med, assi, n_swap)`. -/
def pamsilStep (mat : Mat N) (k : Nat) (s : L × List Nat × List Nat × Nat) :
    Res ((L × List Nat × List Nat × Nat) × Bool) := do
  let st ← foldRes (pamsilScanMed mat) (⟨s.2.1, s.2.2.1, ((RLoss.zero : L), k, usizeMax)⟩ : PSScan L)
    (List.range k)
  if rle st.best.1 s.1 then .ok ((s.1, st.med, s.2.2.1, s.2.2.2), true)
  else do
    let med ← setIdx st.med st.best.2.1 st.best.2.2
    .ok ((st.best.1, med, st.assi, s.2.2.2 + 1), false)

theorem pamsilLoop_iterR (mat : Mat N) (k fuel iter : Nat) (s : L × List Nat × List Nat × Nat) :
    pamsilLoop mat k fuel iter s.1 s.2.1 s.2.2.1 s.2.2.2 = (do
      let r ← iterR (fun _ => pamsilStep mat k) fuel iter s
      .ok (r.1.1, r.1.2.1, r.2, r.1.2.2.2)) := by
  induction fuel generalizing iter s with
  | zero => rfl
  | succ fuel ih =>
    unfold pamsilLoop iterR pamsilStep
    cases foldRes (pamsilScanMed mat) (⟨s.2.1, s.2.2.1, ((RLoss.zero : L), k, usizeMax)⟩ : PSScan L)
      (List.range k) with
    | error e => rfl
    | ok st =>
      dsimp only [bind, Except.bind]
      split
      · rfl
      · cases setIdx st.med st.best.2.1 st.best.2.2 with
        | error e => rfl
        | ok med => dsimp only; exact ih (iter + 1) (st.best.1, med, st.assi, s.2.2.2 + 1)

end KMedoids
