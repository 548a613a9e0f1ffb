import Verif.Model.Repaired
import Verif.Proofs.PurePamSil
import Verif.Proofs.Cache

/-! # The repaired PAMSIL: pure form -/

set_option linter.unusedSectionVars false

namespace KMedoids

variable {N L : Type} [RDist N] [RLoss L] [RFrom N L]

/-- One candidate exchange. -/
def fixCand (d : Nat → Nat → N) (n : Nat) (med : List Nat) (m : Nat) (b : L × Nat × Nat) (j : Nat) : L × Nat × Nat :=
  if j ∈ med then b else if rle (silM L d n (med.set m j)) b.1 then b else (silM L d n (med.set m j), m, j)

/-- The best exchange, or the initial value if no exchange is better. -/
def fixBest (d : Nat → Nat → N) (n k : Nat) (med : List Nat) (b : L × Nat × Nat) : L × Nat × Nat :=
  (List.range k).foldl (fun b m => (List.range n).foldl (fixCand d n med m) b) b

theorem fixMed_eq {mat : Mat N} {n k : Nat} {d : Nat → Nat → N} (hm : IsMatrix mat n d) {st : PSScan L}
    (hv : ValidMeds n st.med) (hk : st.med.length = k) {m : Nat} (hmk : m < k) :
    ∃ assi, fixPsMed mat st m = .ok ⟨st.med, assi, (List.range n).foldl (fixCand d n st.med m) st.best⟩ := by
  have hml : m < st.med.length := hk ▸ hmk
  have key : ∀ (post pre : List Nat) (s : PSScan L), pre ++ post = List.range n → (s.med = st.med ∨ ∃ j ∈ pre, s.med = st.med.set m j) →
      ∃ s', foldRes (fixPsStep mat m st.med[m]) s post = .ok s' ∧ (s'.med = st.med ∨ ∃ j, j < n ∧ s'.med = st.med.set m j) ∧
        s'.best = post.foldl (fixCand d n st.med m) s.best := by
    intro post
    induction post with
    | nil =>
      intro pre s he hs
      refine ⟨s, rfl, ?_, rfl⟩
      rcases hs with h | ⟨j, hj, h⟩
      · exact .inl h
      · refine .inr ⟨j, ?_, h⟩
        rw [List.append_nil] at he
        rw [he] at hj
        exact List.mem_range.mp hj
    | cons j post ih =>
      intro pre s he hs
      have hjr : j ∈ List.range n := by rw [← he]; simp
      have hj : j < n := List.mem_range.mp hjr
      have hjp : j ∉ pre := by
        have := List.nodup_range (n := n)
        rw [← he, List.nodup_append] at this
        exact fun h => this.2.2 j h j (by simp) rfl
      have hset : s.med.set m j = st.med.set m j := by
        rcases hs with h | ⟨j', -, h⟩
        · rw [h]
        · rw [h, List.set_set]
      have hsl : m < s.med.length := by
        rcases hs with h | ⟨j', -, h⟩ <;> rw [h] <;> simpa using hml
      have hiff : (j = st.med[m] ∨ j ∈ s.med) ↔ j ∈ st.med := by
        constructor
        · rintro (h | h)
          · exact h ▸ List.getElem_mem hml
          · rcases hs with e | ⟨j', hj', e⟩
            · exact e ▸ h
            · rw [e] at h
              rcases List.mem_or_eq_of_mem_set h with h | h
              · exact h
              · exact absurd (h ▸ hj') hjp
        · intro h
          by_cases hjm : j = st.med[m]
          · exact .inl hjm
          · right
            rcases hs with e | ⟨j', -, e⟩
            · exact e ▸ h
            · obtain ⟨i, hi, e2⟩ := List.mem_iff_getElem.mp h
              have him : m ≠ i := by rintro rfl; exact hjm e2.symm
              rw [e]
              refine List.mem_iff_getElem.mpr ⟨i, by simpa using hi, ?_⟩
              rw [List.getElem_set_ne him, e2]
      have hstep : ∃ s1, fixPsStep mat m st.med[m] s j = .ok s1 ∧ (s1.med = st.med ∨ ∃ x ∈ pre ++ [j], s1.med = st.med.set m x) ∧
          s1.best = fixCand d n st.med m s.best j := by
        unfold fixPsStep fixCand
        by_cases hc : j ∈ st.med
        · rw [if_pos (hiff.mpr hc), if_pos hc]
          refine ⟨s, rfl, ?_, rfl⟩
          rcases hs with h | ⟨x, hx, h⟩
          · exact .inl h
          · exact .inr ⟨x, by simp [hx], h⟩
        · rw [if_neg (fun h => hc (hiff.mp h)), if_neg hc]
          have hv' := hv.set m hj
          simp only [setIdx_lt hsl, ok_bind, hset, assignNearest_eq (L := L) hm hv',
            silhouette_eq (L := L) hm (le_of_eq (nearAssiP_length d n _))]
          exact ⟨_, rfl, .inr ⟨j, by simp, rfl⟩, rfl⟩
      obtain ⟨s1, e1, e2, e3⟩ := hstep
      obtain ⟨s', f1, f2, f3⟩ := ih (pre ++ [j]) s1 (by simpa using he) e2
      refine ⟨s', ?_, f2, by rw [f3, e3]; rfl⟩
      show (fixPsStep mat m st.med[m] s j >>= fun s => foldRes (fixPsStep mat m st.med[m]) s post) = _
      rw [e1]; exact f1
  obtain ⟨s', e1, e2, e3⟩ := key (List.range n) [] st rfl (.inl rfl)
  have hs'l : m < s'.med.length := by
    rcases e2 with h | ⟨j', -, h⟩ <;> rw [h] <;> simpa using hml
  refine ⟨s'.assi, ?_⟩
  unfold fixPsMed
  simp only [idx_lt hml, ok_bind, hm.len, e1, setIdx_lt hs'l, e3]
  have : s'.med.set m st.med[m] = st.med := by
    rcases e2 with h | ⟨j', -, h⟩ <;> rw [h]
    · simp
    · rw [List.set_set]; simp
  rw [this]

theorem fixScan_eq {mat : Mat N} {n k : Nat} {d : Nat → Nat → N} (hm : IsMatrix mat n d) {med : List Nat}
    (hv : ValidMeds n med) (hk : med.length = k) (assi : List Nat) (b : L × Nat × Nat) :
    ∃ assi', foldRes (fixPsMed mat) (⟨med, assi, b⟩ : PSScan L) (List.range k) = .ok ⟨med, assi', fixBest d n k med b⟩ := by
  have key : ∀ (ms : List Nat) (s : PSScan L), (∀ m ∈ ms, m < k) → s.med = med →
      ∃ assi', foldRes (fixPsMed mat) s ms =
        .ok ⟨med, assi', ms.foldl (fun b m => (List.range n).foldl (fixCand d n med m) b) s.best⟩ := by
    intro ms
    induction ms with
    | nil => rintro ⟨_, a, _⟩ - rfl; exact ⟨a, rfl⟩
    | cons m ms ih =>
      rintro s h rfl
      obtain ⟨a, e⟩ := fixMed_eq (L := L) hm hv hk (h m (by simp))
      obtain ⟨a', e'⟩ := ih ⟨s.med, a, (List.range n).foldl (fixCand d n s.med m) s.best⟩ (fun x hx => h x (by simp [hx])) rfl
      refine ⟨a', ?_⟩
      show (fixPsMed mat s m >>= fun s => foldRes (fixPsMed mat) s ms) = _
      rw [e]; exact e'
  exact key _ _ (fun m h => List.mem_range.mp h) rfl

/-- The best exchange is the initial value, or an exchange by an object that is no medoid. -/
theorem fixBest_spec (d : Nat → Nat → N) (n k : Nat) (med : List Nat) (b : L × Nat × Nat) :
    fixBest d n k med b = b ∨ (∃ m j, m < k ∧ j < n ∧ j ∉ med ∧ fixBest d n k med b = (silM L d n (med.set m j), m, j)) := by
  unfold fixBest
  refine foldl_inv (fun x : L × Nat × Nat => x = b ∨ ∃ m j, m < k ∧ j < n ∧ j ∉ med ∧ x = (silM L d n (med.set m j), m, j))
    (fun s m hm hs => ?_) (.inl rfl)
  refine foldl_inv (fun x : L × Nat × Nat => x = b ∨ ∃ m j, m < k ∧ j < n ∧ j ∉ med ∧ x = (silM L d n (med.set m j), m, j))
    (fun s j hj hs => ?_) hs
  unfold fixCand
  split
  · exact hs
  · split
    · exact hs
    · exact .inr ⟨m, j, List.mem_range.mp hm, List.mem_range.mp hj, by assumption, rfl⟩

/-- pure `fixPsLoop` -/
def fixPsLoopP (d : Nat → Nat → N) (n k : Nat) : Nat → Nat → L → List Nat → Nat → L × List Nat × Nat × Nat
  | 0, iter, sil, med, nSwaps => (sil, med, iter, nSwaps)
  | fuel + 1, iter, sil, med, nSwaps =>
    let b := fixBest d n k med (sil, k, usizeMax)
    if rgt b.1 sil then fixPsLoopP d n k fuel (iter + 1) b.1 (med.set b.2.1 b.2.2) (nSwaps + 1)
    else (sil, med, iter + 1, nSwaps)

theorem fixPsLoop_eq (hirr : ∀ x : L, rgt x x = false) {mat : Mat N} {n k : Nat} {d : Nat → Nat → N} (hm : IsMatrix mat n d)
    {med : List Nat} (hv : ValidMeds n med) (hk : med.length = k) (assi : List Nat) (fuel iter : Nat) (sil : L) (nSwaps : Nat) :
    fixPsLoop mat k fuel iter sil med assi nSwaps = .ok (fixPsLoopP d n k fuel iter sil med nSwaps) := by
  induction fuel generalizing iter sil med assi nSwaps with
  | zero => rfl
  | succ fuel ih =>
    obtain ⟨assi', h1⟩ := fixScan_eq (L := L) hm hv hk assi (sil, k, usizeMax)
    unfold fixPsLoop fixPsLoopP
    simp only [h1, ok_bind]
    split
    · rename_i hgt
      rcases fixBest_spec (L := L) d n k med (sil, k, usizeMax) with e | ⟨m, j, h2, h3, h4, e⟩
      · rw [e, hirr] at hgt; exact absurd hgt (by simp)
      · rw [e, setIdx_lt (hk ▸ h2), ok_bind]
        exact ih (hv.set _ h3) (by simp [hk]) _ _ _ _
    · rfl

/-- What the loop keeps, under any arithmetic. -/
theorem fixPsLoopP_ok (hirr : ∀ x : L, rgt x x = false) {d : Nat → Nat → N} {n k : Nat} {med : List Nat} (hv : ValidMeds n med)
    (hk : med.length = k) {fuel iter : Nat} {sil : L} {nSwaps : Nat} (hs : sil = silM L d n med) :
    let r := fixPsLoopP d n k fuel iter sil med nSwaps
    ValidMeds n r.2.1 ∧ r.2.1.length = k ∧ (med.Nodup → r.2.1.Nodup) ∧ r.1 = silM L d n r.2.1 ∧ iter ≤ r.2.2.1 ∧
      r.2.2.1 ≤ iter + fuel ∧ nSwaps ≤ r.2.2.2 ∧ r.2.2.2 - nSwaps ≤ r.2.2.1 - iter ∧ (r.2.2.2 = nSwaps → r.2.1 = med) := by
  induction fuel generalizing iter sil med nSwaps with
  | zero => exact ⟨hv, hk, id, hs, le_rfl, le_rfl, le_rfl, by simp [fixPsLoopP], fun _ => rfl⟩
  | succ fuel ih =>
    unfold fixPsLoopP
    dsimp only
    split
    · rename_i hgt
      rcases fixBest_spec (L := L) d n k med (sil, k, usizeMax) with e | ⟨m, j, h2, h3, h4, e⟩
      · rw [e, hirr] at hgt; exact absurd hgt (by simp)
      · rw [e]
        have hi := ih (iter := iter + 1) (nSwaps := nSwaps + 1) (hv.set m h3) (by simp [hk]) rfl
        dsimp only at hi ⊢
        obtain ⟨i1, i2, i3, i4, i5, i6, i7, i8, i9⟩ := hi
        refine ⟨i1, i2, fun hnd => i3 (nodup_set hnd h4), i4, by omega, by omega, by omega, by omega, fun h => by omega⟩
    · exact ⟨hv, hk, id, hs, Nat.le_succ _, by dsimp only; omega, le_rfl, by simp, fun _ => rfl⟩

end KMedoids
