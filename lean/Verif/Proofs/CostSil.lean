import Verif.Proofs.CostMscTotals
import Verif.Proofs.Sil

/-! # Costs of the two silhouettes and of PAMSIL -/

namespace KMedoids

set_option linter.unusedSectionVars false
variable {N L : Type} [RDist N] [RLoss L] [RFrom N L]
open RFrom (conv)

section
variable (w : Weights) (mat : Mat N)

/-- One row of the table of `silhouette`. -/
theorem cost_silBuf_aux (i : Nat) (xs : List Nat) (start : Nat) (buf : List (Nat × L)) :
    (foldC w (silBufStepC w (mat.counted w) i) buf (xs.zipIdx start)).Sat fun r t =>
      buf.length ≤ r.length ∧ (∀ a ∈ xs, a < r.length) ∧
      (∀ K, buf.length ≤ K → (∀ a ∈ xs, a < K) → r.length ≤ K) ∧
      t + buf.length * w.step = r.length * w.step
        + ((xs.zipIdx start).map fun p : Nat × Nat => w.step + if p.2 = i then 0 else w.read).sum := by
  induction xs generalizing start buf with
  | nil => exact sat_pure ⟨le_refl _, by simp, fun K h _ => h, by simp⟩
  | cons x xs ih =>
    rw [List.zipIdx_cons]
    refine sat_bind (sat_tick (sat_bind ?_))
    refine Cnt.Sat.mono (P := fun b c => b.length = max buf.length (x + 1) ∧
      c = (x + 1 - buf.length) * w.step + if start = i then 0 else w.read) ?_ fun b c h => ?_
    · refine sat_bind (sat_tick (sat_ite (fun h => ?_) fun h => sat_pure ⟨growBuf_length _ _, ?_⟩))
      · refine sat_bind (sat_get w mat fun v => sat_bind (sat_lift fun _ _ => sat_lift fun b hb => ⟨?_, ?_⟩))
        · rw [setIdx_len hb, growBuf_length]
        · rw [if_neg (Ne.symm h)]
          rfl
      · rw [if_pos (by simpa using (not_not.mp h).symm)]
    · obtain ⟨h1, h2⟩ := h
      refine (ih (start + 1) b).mono fun r t h => ?_
      obtain ⟨e1, e2, e3, e4⟩ := h
      refine ⟨by omega, ?_, ?_, ?_⟩
      · intro a ha
        rcases List.mem_cons.mp ha with rfl | ha
        · omega
        · exact e2 a ha
      · intro K hK ha
        have := ha x (by simp)
        exact e3 K (by omega) fun a h => ha a (by simp [h])
      · rw [List.map_cons, List.sum_cons]
        have e5 : b.length * w.step = buf.length * w.step + (x + 1 - buf.length) * w.step := by
          rw [← Nat.add_mul, h1]
          congr 1
          omega
        show w.step + (c + t) + buf.length * w.step = r.length * w.step
          + (w.step + (if start = i then 0 else w.read) + _)
        omega

theorem cost_silBufC (assi : List Nat) {i : Nat} (hi : i < assi.length) :
    (silBufC L w (mat.counted w) assi i).Sat fun r t =>
      (∀ a ∈ assi, a < r.length) ∧ (∀ K, (∀ a ∈ assi, a < K) → r.length ≤ K) ∧
      t = r.length * w.step + (assi.length * w.step + (assi.length - 1) * w.read) := by
  refine (cost_silBuf_aux w mat i assi 0 []).mono fun r t h => ?_
  obtain ⟨-, e2, e3, e4⟩ := h
  refine ⟨e2, fun K => e3 K (Nat.zero_le _), ?_⟩
  rw [sum_zipIdx_ne assi 0 i w.read w.step (Nat.zero_le _) (by omega)] at e4
  simpa using e4

theorem cost_silGoC (assi : List Nat) (samples : Bool) (ps : List (Nat × Nat))
    (hp : ∀ p ∈ ps, p.2 < assi.length) (lsum : L) (sil : List L) :
    (silGoC w (mat.counted w) assi samples ps lsum sil).Sat fun _ t =>
      (∀ K, (∀ a ∈ assi, a < K) → t ≤ ps.length *
        (w.step + (assi.length * w.step + (assi.length - 1) * w.read) + 2 * (K * w.step))) ∧
      ((∃ a ∈ assi, a ≠ 0) →
        ps.length * (w.step + (assi.length * w.step + (assi.length - 1) * w.read)) ≤ t) ∧
      ((∀ a ∈ assi, a = 0) →
        t ≤ 2 * w.step + (assi.length * w.step + (assi.length - 1) * w.read)) := by
  induction ps generalizing lsum sil with
  | nil =>
    unfold silGoC
    dsimp only
    exact sat_ite (fun _ => sat_bind (sat_lift fun _ _ => sat_pure ⟨by simp, by simp, by simp⟩)) fun _ =>
      sat_pure ⟨by simp, by simp, by simp⟩
  | cons p ps ih =>
    refine sat_bind (sat_tick (sat_bind ?_))
    refine (cost_silBufC w mat assi (hp p (by simp))).mono fun buf c h => ?_
    obtain ⟨h1, h2, h3⟩ := h
    generalize hA : assi.length * w.step + (assi.length - 1) * w.read = A at *
    refine sat_ite (fun hb => sat_pure ⟨?_, ?_, ?_⟩) fun hb => ?_
    · intro K hK
      have h4 : buf.length * w.step ≤ K * w.step := Nat.mul_le_mul_right _ (h2 K hK)
      rw [List.length_cons, Nat.add_mul, Nat.one_mul]
      omega
    · rintro ⟨a, ha, h0⟩
      have := h1 a ha
      omega
    · intro _
      rw [hb, Nat.one_mul] at h3
      omega
    · refine sat_bind (sat_tick (sat_bind (sat_lift fun s _ => ?_)))
      dsimp only
      have key : ∀ sil', (silGoC w (mat.counted w) assi samples ps (RLoss.add lsum s) sil').Sat fun _ t =>
          (∀ K, (∀ a ∈ assi, a < K) → w.step + (c + (buf.length * w.step + (0 + (0 + t)))) ≤ (p :: ps).length *
            (w.step + A + 2 * (K * w.step))) ∧
          ((∃ a ∈ assi, a ≠ 0) → (p :: ps).length * (w.step + A) ≤
            w.step + (c + (buf.length * w.step + (0 + (0 + t))))) ∧
          ((∀ a ∈ assi, a = 0) → w.step + (c + (buf.length * w.step + (0 + (0 + t)))) ≤ 2 * w.step + A) := by
        intro sil'
        refine (ih (fun p h => hp p (by simp [h])) _ _).mono fun _ t h => ⟨?_, ?_, ?_⟩
        · intro K hK
          have h4 : buf.length * w.step ≤ K * w.step := Nat.mul_le_mul_right _ (h2 K hK)
          have h5 := h.1 K hK
          rw [List.length_cons, Nat.add_mul, Nat.one_mul]
          omega
        · intro ha
          have h5 := h.2.1 ha
          rw [List.length_cons, Nat.add_mul, Nat.one_mul]
          omega
        · intro ha
          exfalso
          have hlt := hp p (by simp)
          have h6 := h1 _ (List.getElem_mem hlt)
          have h7 := h2 1 fun a h => by rw [ha a h]; omega
          omega
      exact sat_ite (fun _ => sat_bind (sat_lift fun sil' _ => key sil')) fun _ => sat_bind (sat_pure (key sil))

/-- Work done by `silhouette`. -/
theorem cost_silhouetteC (assi : List Nat) (samples : Bool) :
    (silhouetteC L w (mat.counted w) assi samples).Sat fun _ t =>
      (∀ K, (∀ a ∈ assi, a < K) → t ≤ assi.length * (assi.length - 1) * w.read
        + assi.length * (assi.length + 2 * K + 1) * w.step + (if samples then assi.length else 0) * w.step) ∧
      ((∃ a ∈ assi, a ≠ 0) → assi.length * ((assi.length - 1) * w.read + (assi.length + 1) * w.step) ≤ t) ∧
      ((∀ a ∈ assi, a = 0) → t ≤ (assi.length - 1) * w.read + (assi.length + 2) * w.step
        + (if samples then assi.length else 0) * w.step) := by
  refine sat_bind (sat_lift fun _ _ => sat_bind (sat_lift fun _ _ => sat_bind (sat_tick ?_)))
  refine (cost_silGoC w mat assi samples assi.zipIdx (fun p hp => ?_) _ _).mono fun r t h => ?_
  · have := List.snd_lt_of_mem_zipIdx hp
    omega
  · obtain ⟨h1, h2, h3⟩ := h
    rw [List.length_zipIdx] at h1 h2
    refine ⟨fun K hK => ?_, fun ha => ?_, fun ha => ?_⟩
    · have := h1 K hK
      calc _ ≤ 0 + (0 + ((if samples then assi.length else 0) * w.step + _)) :=
            Nat.add_le_add_left (Nat.add_le_add_left (Nat.add_le_add_left this _) _) _
        _ = _ := by ring
    · have := h2 ha
      calc _ = assi.length * (w.step + (assi.length * w.step + (assi.length - 1) * w.read)) := by ring
        _ ≤ _ := this
        _ ≤ _ := by omega
    · have := h3 ha
      rw [Nat.add_mul assi.length 2]
      omega

/-- Work done by `medoid_silhouette`. -/
theorem cost_medoidSilhouetteC (meds : List Nat) (h1 : meds.length ≠ 1) (samples : Bool) :
    (medoidSilhouetteC L w (mat.counted w) meds samples).Sat fun _ t =>
      (0 < mat.len → 2 ≤ meds.length) ∧
      t = mat.len * (meds.length * w.read + (meds.length - 1) * w.step)
        + (if samples then mat.len else 0) * w.step := by
  unfold medoidSilhouetteC
  simp only [if_neg h1]
  refine sat_bind (sat_lift fun _ _ => sat_bind (sat_lift fun _ _ => sat_bind (sat_lift fun _ _ =>
    sat_bind (sat_tick (sat_bind (sat_lift fun _ _ => sat_bind ?_))))))
  have htwo : ∀ i, (twoNearestC w (mat.counted w) meds i).Sat fun _ t => 2 ≤ meds.length ∧
      t = meds.length * w.read + (meds.length - 2) * w.step := by
    intro i
    refine sat_bind (sat_lift fun m0 _ => sat_bind (sat_get w mat fun d1 => sat_bind (sat_lift fun m1 hm =>
      sat_bind (sat_get w mat fun d2 => ?_))))
    have h2 := idx_ok_lt hm
    refine (sat_foldC (I := fun _ => True) (g := fun _ => w.read)
      (fun s x _ _ => sat_bind (sat_get w mat fun v => sat_pure ⟨trivial, rfl⟩)) trivial).mono
      fun a c hc => ⟨by omega, ?_⟩
    rw [hc.2, sum_const, List.length_drop]
    obtain ⟨m, hm⟩ := Nat.exists_eq_add_of_le (show 2 ≤ meds.length by omega)
    rw [hm, show 2 + m - 2 = m by omega]
    ring
  refine Cnt.Sat.mono (P := fun _ t => (0 < mat.len → 2 ≤ meds.length) ∧
    t = mat.len * (w.step + (meds.length * w.read + (meds.length - 2) * w.step))) ?_ fun st c hc => sat_pure ?_
  · have hgen : ∀ (js : List Nat) (st : L × List L),
        (foldC w (medoidSilStepC w (mat.counted w) meds samples) st js).Sat fun _ t =>
        (0 < js.length → 2 ≤ meds.length) ∧
        t = js.length * (w.step + (meds.length * w.read + (meds.length - 2) * w.step)) := by
      intro js
      induction js with
      | nil => exact fun st => sat_pure ⟨by simp, by simp⟩
      | cons j js ih =>
        intro st
        refine sat_bind (sat_tick (sat_bind ?_))
        refine sat_bind ((htwo j).mono fun best c hc => ?_)
        have key : ∀ st', (foldC w (medoidSilStepC (L := L) w (mat.counted w) meds samples) st' js).Sat fun _ t =>
            (0 < (j :: js).length → 2 ≤ meds.length) ∧
            w.step + (c + t) = (j :: js).length * (w.step + (meds.length * w.read + (meds.length - 2) * w.step)) := by
          intro st'
          refine (ih st').mono fun _ t ht => ⟨fun _ => hc.1, ?_⟩
          rw [List.length_cons, Nat.add_mul, Nat.one_mul, ht.2, hc.2]
          omega
        refine sat_ite (fun _ => ?_) fun _ => sat_pure ((key st).mono fun _ t h => by simpa using h)
        dsimp only
        exact sat_ite (fun _ => sat_bind (sat_lift fun sil' _ => sat_pure ((key _).mono fun _ t h => by simpa using h)))
          fun _ => sat_bind (sat_pure (sat_pure ((key _).mono fun _ t h => by simpa using h)))
    have := hgen (List.range mat.len) ((RLoss.zero, List.replicate (if samples then mat.len else 0) RLoss.one) : L × List L)
    rw [List.length_range] at this
    exact this
  · refine ⟨hc.1, ?_⟩
    rw [hc.2]
    show 0 + (0 + (0 + ((if samples then mat.len else 0) * w.step + (0 + (_ + 0))))) = _
    rcases Nat.eq_zero_or_pos mat.len with h | h
    · simp [h]
    · obtain ⟨m, hm⟩ := Nat.exists_eq_add_of_le (hc.1 h)
      rw [hm, show 2 + m - 2 = m by omega, show 2 + m - 1 = m + 1 by omega]
      ring

/-! ## PAMSIL -/

theorem sat_mapC_rel {α β : Type} {f : α → Cnt β} {Q : α → β → Prop} {xs : List α}
    (h : ∀ x ∈ xs, (f x).Sat fun y _ => Q x y) :
    (mapC w f xs).Sat fun ys _ => List.Forall₂ Q xs ys := by
  induction xs with
  | nil => exact sat_pure .nil
  | cons x xs ih =>
    refine sat_bind (sat_tick (sat_bind ?_))
    refine (h x (by simp)).mono fun y c hc => sat_bind ?_
    exact (ih fun x hx => h x (by simp [hx])).mono fun ys c' hc' => sat_pure (.cons hc hc')

theorem zipIdx_drop_one {α : Type} {a b : α} {l : List α} :
    ((a :: b :: l).zipIdx.drop 1) = (b, 1) :: l.zipIdx 2 := by
  simp [List.zipIdx_cons]

/-- The labels of `assign_nearest` are below `k`, and for two or more medoids not all are zero,
because the second medoid is not assigned to the first. -/
theorem assignNearestC_labels (med : List Nat) :
    (assignNearestC L w (mat.counted w) med).Sat fun r _ =>
      (∀ a ∈ r.2, a < med.length) ∧
      (2 ≤ med.length → (∀ x ∈ med, x < mat.len) → ∃ a ∈ r.2, a ≠ 0) := by
  refine sat_bind ((cost_assertSizesC w mat med.length).mono fun _ c0 h0 => ?_)
  refine sat_bind (sat_lift fun fc _ => sat_bind ?_)
  refine (sat_mapC_rel w (Q := fun (i : Nat) (y : Nat × N) => y.1 < med.length ∧
    (∀ h : 1 < med.length, i = med[1] → y.1 ≠ 0)) fun i _ => ?_).mono fun rs c hc => sat_pure ⟨?_, ?_⟩
  · refine sat_bind (sat_get w mat fun v => ?_)
    refine Cnt.Sat.and ?_ ?_
    · refine (sat_foldC_le (I := fun s => s.1 < med.length) (g := fun _ => w.read) (fun s x hx hs => ?_)
        h0.2.1).mono fun a c hc => hc.1
      refine sat_bind (sat_get w mat fun v => sat_pure ⟨?_, le_refl _⟩)
      have := List.snd_lt_of_mem_zipIdx (List.mem_of_mem_drop hx)
      split
      · simpa using this
      · exact hs
    · match med with
      | [] => exact fun _ _ _ h => absurd h (by simp)
      | [a] => exact fun _ _ _ h => absurd h (by simp)
      | a :: b :: l =>
        rw [zipIdx_drop_one]
        refine sat_bind (sat_tick (sat_bind (sat_bind (sat_get w mat fun d => sat_pure ?_))))
        refine (sat_foldC_le (I := fun s => i = b → s.1 ≠ 0) (g := fun _ => w.read) (fun s x hx hs => ?_)
          ?_).mono fun r c hc _ hi => hc.1 hi
        · refine sat_bind (sat_get w mat fun v => sat_pure ⟨fun hi => ?_, le_refl _⟩)
          have := List.le_snd_of_mem_zipIdx hx
          split
          · show x.2 ≠ 0
            omega
          · exact hs hi
        · intro hi
          rw [if_pos (by simp [hi])]
          simp
  · intro a ha
    obtain ⟨y, hy, rfl⟩ := List.mem_map.mp ha
    obtain ⟨j, hj, rfl⟩ := List.mem_iff_getElem.mp hy
    exact (List.Forall₂.get hc (by rw [hc.length_eq]; exact hj) hj).1
  · intro h2 hr
    have hlt := hr _ (List.getElem_mem (show 1 < med.length by omega))
    have hj : med[1] < rs.length := by rw [← hc.length_eq, List.length_range]; exact hlt
    refine ⟨rs[med[1]].1, List.mem_map.mpr ⟨_, List.getElem_mem hj, rfl⟩, ?_⟩
    have := (List.Forall₂.get hc (by rw [hc.length_eq]; exact hj) hj).2 (by omega)
    simpa using this

theorem setIdx_ok {α : Type} {a a' : List α} {i : Nat} {v : α} (h : setIdx a i v = .ok a') :
    i < a.length ∧ a' = a.set i v := by
  unfold setIdx at h
  split at h
  · cases h; exact ⟨‹_›, rfl⟩
  · cases h

theorem cnt_bind_assoc {α β γ : Type} (x : Cnt α) (f : α → Cnt β) (g : β → Cnt γ) :
    x >>= f >>= g = x >>= fun a => f a >>= g := by
  obtain ⟨x⟩ := x
  rcases x with x | ⟨a, c⟩
  · rfl
  · show Cnt.bind (Cnt.bind _ _) _ = Cnt.bind _ (fun a => Cnt.bind (f a) g)
    unfold Cnt.bind
    dsimp only
    rcases (f a).run with y | ⟨b, c'⟩
    · rfl
    · dsimp only
      rcases (g b).run with z | ⟨d, c''⟩
      · rfl
      · dsimp only
        rw [Nat.add_assoc]

theorem cnt_pure_bind {α β : Type} (a : α) (f : α → Cnt β) : (pure a : Cnt α) >>= f = f a := by
  show Cnt.bind (Cnt.pure a) f = f a
  unfold Cnt.bind Cnt.pure
  dsimp only
  generalize f a = y
  obtain ⟨y⟩ := y
  rcases y with y | ⟨b, c'⟩
  · rfl
  · dsimp only
    rw [Nat.zero_add]

/-- Work for one candidate: assigning all objects and computing the silhouette of the result. -/
theorem cost_pamsil_candidate (med : List Nat) :
    (assignNearestC L w (mat.counted w) med >>= fun q => (silhouetteC L w (mat.counted w) q.2 false >>= fun r =>
      pure (q.2, r.1))).Sat fun _ t =>
      t ≤ (w.read + 3 * w.step) * (mat.len * (mat.len + med.length)) ∧
      (2 ≤ med.length → (∀ x ∈ med, x < mat.len) →
        mat.len * ((mat.len - 1 + med.length) * (w.read + w.step)) ≤ t) := by
  refine sat_bind (((cost_assignNearestC w mat med).and (assignNearestC_labels w mat med)).mono fun q c h => ?_)
  obtain ⟨⟨h1, h2, h3, h4⟩, h5, h6⟩ := h
  refine sat_bind ((cost_silhouetteC w mat q.2 false).mono fun r t h => sat_pure ⟨?_, ?_⟩)
  · have e := h.1 med.length h5
    rw [h1] at e
    simp only [Bool.false_eq_true, if_false, Nat.zero_mul, Nat.add_zero] at e
    subst h4
    have e1 : mat.len * (mat.len - 1) * w.read ≤ mat.len * mat.len * w.read :=
      Nat.mul_le_mul_right _ (Nat.mul_le_mul_left _ (by omega))
    have a1 : mat.len ≤ mat.len * mat.len := Nat.le_mul_of_pos_right _ (by omega)
    have a2 : w.step * mat.len ≤ w.step * (mat.len * mat.len) := Nat.mul_le_mul_left _ a1
    nlinarith
  · intro hk hr
    have e := h.2.1 (h6 hk hr)
    rw [h1] at e
    subst h4
    obtain ⟨m, hm⟩ : ∃ m, mat.len = m + 1 := ⟨mat.len - 1, by omega⟩
    rw [hm] at e ⊢
    rw [show m + 1 - 1 = m by omega] at e ⊢
    nlinarith [Nat.zero_le (w.step * (m + 1))]

theorem pamsilScanStepC_eq (m medm : Nat) (st : PSScan L) (j : Nat) :
    pamsilScanStepC w (mat.counted w) m medm st j = (if j = medm then pure st
      else (do
        let a ← idx st.assi j
        let mm ← idx st.med a
        if j = mm then pure st
        else
          let med ← setIdx st.med m j
          let q ← (assignNearestC L w (mat.counted w) med >>= fun q =>
            (silhouetteC L w (mat.counted w) q.2 false >>= fun r => pure (q.2, r.1)))
          pure ⟨med, q.1, if rle q.2 st.best.1 then st.best else (q.2, m, j)⟩ : Cnt (PSScan L))) := by
  unfold pamsilScanStepC
  simp only [cnt_bind_assoc, cnt_pure_bind]

/-- The scan of all candidates for one medoid: the other medoids stay, and the slot holds one of the
candidates seen. -/
theorem cost_pamsilScan_aux {med0 : List Nat} {m medm k : Nat} (hmm : med0[m]? = some medm)
    (hk : med0.length = k) (hr : ∀ x ∈ med0, x < mat.len) (js : List Nat) (hjs : js.Nodup)
    (hjn : ∀ j ∈ js, j < mat.len) (st : PSScan L) (x : Nat) (hst : st.med = med0.set m x)
    (hx : x ∈ med0 ∨ x ∉ js) (hxn : x < mat.len) (hb : st.best.2.1 = k ∨ st.best.2.2 < mat.len) :
    (foldC w (pamsilScanStepC w (mat.counted w) m medm) st js).Sat fun st' t =>
      (∃ x', st'.med = med0.set m x') ∧ (st'.best.2.1 = k ∨ st'.best.2.2 < mat.len) ∧
      t ≤ (js.map fun _ => w.step + (w.read + 3 * w.step) * (mat.len * (mat.len + k))).sum ∧
      (2 ≤ k → (js.map fun j => w.step + if decide (j ∈ med0) then 0 else
        mat.len * ((mat.len - 1 + k) * (w.read + w.step))).sum ≤ t) := by
  induction js generalizing st x with
  | nil => exact sat_pure ⟨⟨x, hst⟩, hb, by simp, by simp⟩
  | cons j js ih =>
    have hj := List.nodup_cons.mp hjs
    refine sat_bind (sat_tick (sat_bind ?_))
    rw [pamsilScanStepC_eq]
    have hskip : j ∈ med0 → (foldC w (pamsilScanStepC w (mat.counted w) m medm) st js).Sat fun st' t =>
        (∃ x', st'.med = med0.set m x') ∧ (st'.best.2.1 = k ∨ st'.best.2.2 < mat.len) ∧
        w.step + (0 + t) ≤ ((j :: js).map fun _ => w.step + (w.read + 3 * w.step) * (mat.len * (mat.len + k))).sum ∧
        (2 ≤ k → ((j :: js).map fun j => w.step + if decide (j ∈ med0) then 0 else
          mat.len * ((mat.len - 1 + k) * (w.read + w.step))).sum ≤ w.step + (0 + t)) := by
      intro hmem
      refine (ih hj.2 (fun j h => hjn j (by simp [h])) st x hst (hx.imp id fun h h' => h (by simp [h'])) hxn hb).mono
        fun st' t h => ⟨h.1, h.2.1, ?_, fun h2 => ?_⟩
      · rw [List.map_cons, List.sum_cons]
        have := h.2.2.1
        omega
      · have := h.2.2.2 h2
        rw [List.map_cons, List.sum_cons, if_pos (by simpa using hmem)]
        omega
    have hmem : medm ∈ med0 := List.mem_of_getElem? hmm
    refine sat_ite (fun h => sat_pure (hskip (h ▸ hmem))) fun _ => ?_
    refine sat_bind (sat_lift fun a _ => sat_bind (sat_lift fun mm hmi => sat_ite (fun h => sat_pure ?_) fun _ => ?_))
    · have h1 := idx_mem hmi
      rw [hst, ← h] at h1
      have h2 : j ∈ med0 := by
        rcases List.mem_or_eq_of_mem_set h1 with h | h
        · exact h
        · rcases hx with hx | hx
          · exact h ▸ hx
          · exact absurd (by simp [h]) hx
      exact (hskip h2).mono fun _ t h => by simpa using h
    · refine sat_bind (sat_lift fun med hm => sat_bind ?_)
      obtain ⟨-, hm⟩ := setIdx_ok hm
      have hm : med = med0.set m j := by rw [hm, hst, List.set_set]
      have hr' : ∀ x ∈ med, x < mat.len := by
        intro y hy
        rw [hm] at hy
        rcases List.mem_or_eq_of_mem_set hy with h | h
        · exact hr y h
        · rw [h]; exact hjn j (by simp)
      refine (cost_pamsil_candidate w mat med).mono fun q c hc => sat_pure ?_
      rw [show med.length = k by rw [hm, List.length_set, hk]] at hc
      refine (ih hj.2 (fun j h => hjn j (by simp [h]))
        ⟨med, q.1, if rle q.2 st.best.1 then st.best else (q.2, m, j)⟩ j hm (.inr hj.1) (hjn j (by simp)) ?_).mono
        fun st' t h => ⟨h.1, h.2.1, ?_, fun h2 => ?_⟩
      · dsimp only
        split
        · exact hb
        · exact .inr (hjn j (by simp))
      · rw [List.map_cons, List.sum_cons]
        have := h.2.2.1
        have := hc.1
        omega
      · have := h.2.2.2 h2
        have h3 := hc.2 h2 hr'
        rw [List.map_cons, List.sum_cons]
        split
        · omega
        · omega

theorem cost_pamsilScanMedC {med0 : List Nat} {k : Nat} (hk : med0.length = k)
    (hr : ∀ x ∈ med0, x < mat.len) (st : PSScan L) (hst : st.med = med0) (m : Nat)
    (hb : st.best.2.1 = k ∨ st.best.2.2 < mat.len) :
    (pamsilScanMedC w (mat.counted w) st m).Sat fun st' t =>
      st'.med = med0 ∧ (st'.best.2.1 = k ∨ st'.best.2.2 < mat.len) ∧
      t ≤ mat.len * (w.step + (w.read + 3 * w.step) * (mat.len * (mat.len + k))) ∧
      (2 ≤ k → (mat.len - k) * (mat.len * ((mat.len - 1 + k) * (w.read + w.step))) ≤ t) := by
  refine sat_bind (sat_lift fun medm hm => ?_)
  rw [hst] at hm
  have hmm : med0[m]? = some medm := by
    unfold idx at hm
    split at hm
    · cases hm; assumption
    · cases hm
  have hmem : medm ∈ med0 := List.mem_of_getElem? hmm
  have hset : med0.set m medm = med0 := by
    obtain ⟨hlt, he⟩ := List.getElem?_eq_some_iff.mp hmm
    rw [← he]; exact List.set_getElem_self hlt
  refine sat_bind ((cost_pamsilScan_aux w mat hmm hk hr (List.range mat.len) List.nodup_range
    (fun j hj => List.mem_range.mp hj) st medm (hst.trans hset.symm) (.inl hmem) (hr _ hmem) hb).mono fun st' t h => ?_)
  refine sat_bind (sat_lift fun med hmd => sat_pure ⟨?_, h.2.1, ?_, fun h2 => ?_⟩)
  · obtain ⟨x', hx'⟩ := h.1
    show med = med0
    rw [(setIdx_ok hmd).2, hx', List.set_set, hset]
  · have := h.2.2.1
    rw [sum_const, List.length_range] at this
    omega
  · have h3 := h.2.2.2 h2
    have hs := sum_countP (List.range mat.len) (fun j => decide (j ∈ med0)) w.step
      (mat.len * ((mat.len - 1 + k) * (w.read + w.step)))
    have hc : (List.range mat.len).countP (fun j => decide (j ∈ med0)) ≤ k := by
      rw [List.countP_eq_length_filter, ← hk]
      refine (List.subperm_of_subset (List.nodup_range.filter _) fun j hj => ?_).length_le
      exact of_decide_eq_true (List.mem_filter.mp hj).2
    rw [List.length_range] at hs
    generalize mat.len * ((mat.len - 1 + k) * (w.read + w.step)) = K at *
    generalize hq : (List.range mat.len).countP (fun j => decide (j ∈ med0)) = q at *
    have h4 : (mat.len - k) * K + q * K ≤ mat.len * (w.step + K) := by
      rw [← Nat.add_mul]
      have hq' : q ≤ mat.len := by
        rw [← hq]
        exact (List.countP_le_length).trans (by simp)
      rcases Nat.le_total k mat.len with hl | hl
      · exact Nat.mul_le_mul (by omega) (by omega)
      · exact Nat.mul_le_mul (by omega) (by omega)
    omega

/-- The loop of PAMSIL. -/
theorem cost_pamsilLoopC {k : Nat} (fuel iter : Nat) (sil : L) (med assi : List Nat) (nSwaps : Nat)
    (hk : med.length = k) (hr : ∀ x ∈ med, x < mat.len) :
    (pamsilLoopC w (mat.counted w) k fuel iter sil med assi nSwaps).Sat fun r t =>
      r.2.1.length = k ∧ iter ≤ r.2.2.1 ∧ nSwaps ≤ r.2.2.2 ∧ r.2.2.2 - nSwaps ≤ r.2.2.1 - iter ∧
      t ≤ (r.2.2.1 - iter) * (w.step + k * (w.step +
        mat.len * (w.step + (w.read + 3 * w.step) * (mat.len * (mat.len + k))))) ∧
      (2 ≤ k → (r.2.2.1 - iter) * (k * ((mat.len - k) * (mat.len * ((mat.len - 1 + k) * (w.read + w.step))))) ≤ t) := by
  induction fuel generalizing iter sil med assi nSwaps with
  | zero => exact sat_pure ⟨hk, le_refl _, le_refl _, by simp, by simp, by simp⟩
  | succ fuel ih =>
    refine sat_bind (sat_tick (sat_bind ?_))
    have hscan : ∀ (ms : List Nat) (st : PSScan L), st.med = med → (st.best.2.1 = k ∨ st.best.2.2 < mat.len) →
        (foldC w (pamsilScanMedC w (mat.counted w)) st ms).Sat fun st' t =>
          st'.med = med ∧ (st'.best.2.1 = k ∨ st'.best.2.2 < mat.len) ∧
          t ≤ ms.length * (w.step + mat.len * (w.step + (w.read + 3 * w.step) * (mat.len * (mat.len + k)))) ∧
          (2 ≤ k → ms.length * ((mat.len - k) * (mat.len * ((mat.len - 1 + k) * (w.read + w.step)))) ≤ t) := by
      intro ms
      induction ms with
      | nil => exact fun st h1 h2 => sat_pure ⟨h1, h2, by simp, by simp⟩
      | cons m ms ihm =>
        intro st h1 h2
        refine sat_bind (sat_tick (sat_bind ?_))
        refine (cost_pamsilScanMedC w mat hk hr st h1 m h2).mono fun st' c hc => ?_
        obtain ⟨e1, e2, e3, e4⟩ := hc
        refine (ihm st' e1 e2).mono fun st'' t h => ?_
        obtain ⟨f1, f2, f3, f4⟩ := h
        refine ⟨f1, f2, ?_, fun h => ?_⟩
        · rw [List.length_cons, Nat.add_mul, Nat.one_mul]; omega
        · have := e4 h
          have := f4 h
          rw [List.length_cons, Nat.add_mul, Nat.one_mul]; omega
    refine (hscan (List.range k) _ rfl (.inl rfl)).mono fun st c h => ?_
    obtain ⟨h1, h2, h3, h4⟩ := h
    rw [List.length_range] at h3 h4
    generalize (mat.len - k) * (mat.len * ((mat.len - 1 + k) * (w.read + w.step))) = E at *
    generalize k * (w.step + mat.len * (w.step + (w.read + 3 * w.step) * (mat.len * (mat.len + k)))) = U at *
    refine sat_ite (fun _ => sat_pure ⟨h1 ▸ hk, by simp, by simp, by simp, ?_, ?_⟩) fun _ => ?_
    · simp only [Nat.add_sub_cancel_left, Nat.one_mul]
      omega
    · intro h
      have := h4 h
      simp only [Nat.add_sub_cancel_left, Nat.one_mul]
      omega
    · refine sat_bind (sat_lift fun med' hm => ?_)
      obtain ⟨hlt, hm⟩ := setIdx_ok hm
      rw [h1] at hlt hm
      have hbest : st.best.2.2 < mat.len := h2.resolve_left (by omega)
      refine (ih (iter + 1) st.best.1 med' st.assi (nSwaps + 1) (by rw [hm, List.length_set, hk]) ?_).mono
        fun r t h => ?_
      · intro y hy
        rw [hm] at hy
        rcases List.mem_or_eq_of_mem_set hy with h | h
        · exact hr y h
        · rw [h]; exact hbest
      · obtain ⟨e1, e2, e3, e4, e5, e6⟩ := h
        refine ⟨e1, by omega, by omega, by omega, ?_, fun h => ?_⟩
        · rw [show r.2.2.1 - iter = (r.2.2.1 - (iter + 1)) + 1 by omega, Nat.add_mul, Nat.one_mul]
          omega
        · have := h4 h
          have := e6 h
          rw [show r.2.2.1 - iter = (r.2.2.1 - (iter + 1)) + 1 by omega, Nat.add_mul, Nat.one_mul]
          omega

/-- Optimization by PAMSIL from given medoids and labels. -/
theorem cost_pamsilOptimizeC {med assi : List Nat} (hk : med.length ≠ 1) (hr : ∀ x ∈ med, x < mat.len)
    (ha : ∀ a ∈ assi, a < med.length) (hn : assi.length = mat.len) (maxiter : Nat) :
    (pamsilOptimizeC L w (mat.counted w) med assi maxiter).Sat fun r t =>
      r.nSwap ≤ r.nIter ∧
      r.nIter * (med.length * ((mat.len - med.length) *
        (mat.len * ((mat.len - 1 + med.length) * (w.read + w.step))))) ≤ t ∧
      t ≤ (w.read + 6 * w.step) *
        (mat.len * (mat.len + med.length) * (1 + r.nIter * (med.length * mat.len))) := by
  unfold pamsilOptimizeC
  rw [if_neg hk]
  refine sat_bind ((cost_silhouetteC w mat assi false).mono fun q c0 h0 => ?_)
  have h0 := h0.1 med.length ha
  rw [hn] at h0
  simp only [Bool.false_eq_true, if_false, Nat.zero_mul, Nat.add_zero] at h0
  refine sat_bind ((cost_pamsilLoopC w mat maxiter 0 q.1 med assi 0 rfl hr).mono fun p c1 h1 => ?_)
  obtain ⟨e1, -, -, e4, e5, e6⟩ := h1
  simp only [Nat.sub_zero] at e4 e5 e6
  refine sat_bind ((cost_assignNearestC w mat p.2.1).mono fun q2 c2 h2 => sat_pure ⟨e4, ?_, ?_⟩)
  · obtain ⟨-, f1, f2, -⟩ := h2
    have := e6 (by omega)
    show p.2.2.1 * _ ≤ _
    omega
  · obtain ⟨-, f1, f2, f3⟩ := h2
    rw [e1] at f1 f2 f3
    show c0 + (c1 + (c2 + 0)) ≤ (w.read + 6 * w.step) *
        (mat.len * (mat.len + med.length) * (1 + p.2.2.1 * (med.length * mat.len)))
    generalize p.2.2.1 = I at *
    generalize mat.len = n at *
    generalize med.length = k at *
    generalize w.read = R at *
    generalize w.step = S at *
    have g1 : n * (n - 1) * R ≤ n * n * R := Nat.mul_le_mul_right _ (Nat.mul_le_mul_left _ (by omega))
    have a1 : n ≤ n * n := Nat.le_mul_of_pos_right _ (by omega)
    have b1 : S * (n * n + 2 * (n * k) + n + n * k) ≤ S * (6 * (n * n + n * k)) := Nat.mul_le_mul_left _ (by omega)
    have a2 : 1 ≤ k * n * (n * (n + k)) := Nat.mul_pos (Nat.mul_pos (by omega) (by omega))
      (Nat.mul_pos (by omega) (by omega))
    have a3 : k ≤ k * n * (n * (n + k)) := by
      rw [Nat.mul_assoc]
      exact Nat.le_mul_of_pos_right _ (Nat.mul_pos (by omega) (Nat.mul_pos (by omega) (by omega)))
    have a4 : k * n ≤ k * n * (n * (n + k)) := Nat.le_mul_of_pos_right _ (Nat.mul_pos (by omega) (by omega))
    have b2 : (S * I) * (1 + k + k * n + 3 * (k * n * (n * (n + k)))) ≤ (S * I) * (6 * (k * n * (n * (n + k)))) :=
      Nat.mul_le_mul_left _ (by omega)
    subst f3
    nlinarith

theorem cost_pamsilSwapC {med : List Nat} (hk : med.length ≠ 1) (hr : ∀ x ∈ med, x < mat.len) (maxiter : Nat) :
    (pamsilSwapC L w (mat.counted w) med maxiter).Sat fun r t =>
      r.nSwap ≤ r.nIter ∧
      r.nIter * (med.length * ((mat.len - med.length) *
        (mat.len * ((mat.len - 1 + med.length) * (w.read + w.step))))) ≤ t ∧
      t ≤ (w.read + 6 * w.step) *
        (mat.len * (mat.len + 2 * med.length) * (1 + r.nIter * (med.length * mat.len))) := by
  refine sat_bind (((cost_assignNearestC w mat med).and (assignNearestC_labels w mat med)).mono fun q c0 h0 => ?_)
  obtain ⟨⟨h1, -, -, h2⟩, h3, -⟩ := h0
  refine (cost_pamsilOptimizeC w mat hk hr h3 h1 maxiter).mono fun r t h => ⟨h.1, by have := h.2.1; omega, ?_⟩
  have h4 := h.2.2
  generalize hX : r.nIter * (med.length * mat.len) = X at *
  subst h2
  nlinarith [Nat.zero_le (w.step * (mat.len * med.length)), Nat.zero_le (w.read * (mat.len * med.length) * X),
    Nat.zero_le (w.step * (mat.len * med.length) * X)]

/-- A search that always takes object 0 first returns an object. -/
theorem foldC_best_lt {f : L × Nat → Nat → Cnt (L × Nat)} {n : Nat} (hn : 0 < n) {s : L × Nat}
    (h0 : ∀ s, (f s 0).Sat fun s' _ => s'.2 = 0)
    (h : ∀ s, ∀ i < n, s.2 < n → (f s i).Sat fun s' _ => s'.2 < n) :
    (foldC w f s (List.range n)).Sat fun s' _ => s'.2 < n := by
  obtain ⟨m, rfl⟩ : ∃ m, n = m + 1 := ⟨n - 1, by omega⟩
  rw [List.range_succ_eq_map]
  refine sat_bind (sat_tick (sat_bind ((h0 s).mono fun s' c hs => ?_)))
  have : ∀ (xs : List Nat) (s : L × Nat), (∀ x ∈ xs, x < m + 1) → s.2 < m + 1 →
      (foldC w f s xs).Sat fun s' _ => s'.2 < m + 1 := by
    intro xs
    induction xs with
    | nil => exact fun s _ hs => sat_pure hs
    | cons x xs ih =>
      intro s hx hs
      refine sat_bind (sat_tick (sat_bind ((h s x (hx x (by simp)) hs).mono fun s' c hs' => ?_)))
      exact ih s' (fun y hy => hx y (by simp [hy])) hs'
  refine this _ s' (fun x hx => ?_) (by omega)
  obtain ⟨y, hy, rfl⟩ := List.mem_map.mp hx
  have := List.mem_range.mp hy
  omega

theorem buildFirstC_lt (hn : 0 < mat.len) (k : Nat) :
    (buildFirstC L w (mat.counted w) k).Sat fun r _ => r.2 < mat.len := by
  refine foldC_best_lt w hn (fun s => sat_bind fun sum c _ => sat_pure ?_)
    fun s i hi hs => sat_bind fun sum c _ => sat_pure ?_
  · rw [if_pos (by simp)]
  · split
    · exact hi
    · exact hs

theorem buildNextC_lt {near : List N} (hn : 0 < near.length) (k : Nat) :
    (buildNextC L w (mat.counted w) near k).Sat fun r _ => r.2 < near.length := by
  refine foldC_best_lt w hn (fun s => sat_bind fun sum c _ => sat_pure ?_)
    fun s i hi hs => sat_bind fun sum c _ => sat_pure ?_
  · rw [if_pos (by simp)]
  · split
    · exact hi
    · exact hs

theorem cost_psBuildLoopC (hn : 0 < mat.len) (k fuel : Nat) (meds : List Nat) (near : List N)
    (hd : near.length = mat.len) (hr : ∀ x ∈ meds, x < mat.len) :
    (psBuildLoopC L w (mat.counted w) k fuel meds near).Sat fun r t =>
      r.length = meds.length + fuel ∧ (∀ x ∈ r, x < mat.len) ∧
      t ≤ fuel * (w.step + (mat.len * (w.step + (mat.len * w.step + (mat.len - 1) * w.read))
        + mat.len * (w.read + w.step))) := by
  induction fuel generalizing meds near with
  | zero => exact sat_pure ⟨rfl, hr, Nat.zero_le _⟩
  | succ fuel ih =>
    refine sat_bind (sat_tick (sat_bind (((cost_buildNextC w mat near k).and
      (buildNextC_lt w mat (by omega) k)).mono fun b c h => ?_)))
    rw [hd] at h
    obtain ⟨h, hb⟩ := h
    refine sat_bind (sat_lift fun _ _ => sat_bind ?_)
    refine (sat_mapC_le (g := fun _ => w.read) fun x _ => ?_).mono fun near' c1 h1 => ?_
    · exact sat_ite (fun _ => sat_pure (Nat.zero_le _)) fun _ => sat_bind (sat_get w mat fun v =>
        sat_pure (le_refl _))
    · rw [List.length_zipIdx, hd] at h1
      refine (ih (meds ++ [b.2]) near' h1.1 ?_).mono fun r t h2 => ⟨?_, h2.2.1, ?_⟩
      · intro x hx
        rcases List.mem_append.mp hx with h | h
        · exact hr x h
        · rw [List.mem_singleton.mp h]; exact hb
      · rw [h2.1, List.length_append, List.length_singleton]; omega
      · have h3 := h1.2
        rw [sum_const, List.length_zipIdx, hd, Nat.add_comm w.step w.read] at h3
        have h4 := h2.2.2
        rw [Nat.add_mul, Nat.one_mul]
        omega

theorem cost_pamsilBuildInitializeC (hn : 0 < mat.len) (k : Nat) :
    (pamsilBuildInitializeC L w (mat.counted w) k).Sat fun r t =>
      r.length = 1 + (k - 1) ∧ (∀ x ∈ r, x < mat.len) ∧
      t ≤ (1 + (k - 1)) * (w.step + (mat.len * (w.step + (mat.len * w.step + (mat.len - 1) * w.read))
        + mat.len * (w.read + w.step))) := by
  refine sat_bind (((cost_buildFirstC w mat k).and (buildFirstC_lt w mat hn k)).mono fun best c0 h0 => sat_bind ?_)
  refine (sat_mapC (g := fun _ => w.read) fun x _ => sat_get w mat fun v => rfl).mono fun near c1 h1 => ?_
  have hl : near.length = mat.len := by
    have := h1.1
    rw [List.length_range] at this
    exact this
  refine (cost_psBuildLoopC w mat hn k (k - 1) [best.2] near hl ?_).mono fun r t h => ⟨h.1, h.2.1, ?_⟩
  · intro x hx
    rw [List.mem_singleton.mp hx]; exact h0.2
  · have h2 := h1.2
    have h3 := h.2.2
    have h4 := h0.1
    rw [sum_const, List.length_range, show (mat.counted w).len = mat.len from rfl,
      Nat.add_comm w.step w.read] at h2
    rw [Nat.add_mul, Nat.one_mul]
    omega

theorem cost_pamsilC {k : Nat} (hk1 : k ≠ 1) (maxiter : Nat) :
    (pamsilC L w (mat.counted w) k maxiter).Sat fun r t =>
      r.nSwap ≤ r.nIter ∧
      r.nIter * (k * ((mat.len - k) * (mat.len * ((mat.len - 1 + k) * (w.read + w.step))))) ≤ t ∧
      t ≤ (w.read + 6 * w.step) *
        (mat.len * (k * mat.len) + mat.len * (mat.len + k) * (1 + r.nIter * (k * mat.len))) := by
  refine sat_bind ((cost_assertSizesC w mat k).mono fun _ c0 h0 => sat_bind ?_)
  obtain ⟨hc0, hk0, hkn⟩ := h0
  have hn : 0 < mat.len := by omega
  refine (cost_pamsilBuildInitializeC w mat hn k).mono fun meds c1 h1 => sat_bind (sat_tick ?_)
  rw [show 1 + (k - 1) = k by omega] at h1
  obtain ⟨g1, g2, g3⟩ := h1
  refine (cost_pamsilOptimizeC w mat (by omega) g2 (fun a ha => ?_) (by simp) maxiter).mono fun r t h => ?_
  · rw [List.eq_of_mem_replicate ha]; omega
  · rw [g1] at h
    obtain ⟨e1, e2, e3⟩ := h
    refine ⟨e1, by omega, ?_⟩
    rw [Nat.mul_add]
    have a1 : mat.len ≤ mat.len * k := Nat.le_mul_of_pos_right _ hk0
    have a2 : mat.len ≤ mat.len * mat.len := Nat.le_mul_of_pos_right _ hn
    have a3 : mat.len * k ≤ mat.len * mat.len * k := Nat.mul_le_mul_right _ a2
    have a4 : k ≤ mat.len * k := Nat.le_mul_of_pos_left _ hn
    have b1 : w.step * (k + mat.len * k + mat.len * mat.len * k + mat.len * k + mat.len)
        ≤ w.step * (6 * (mat.len * mat.len * k)) := Nat.mul_le_mul_left _ (by omega)
    have b2 : (k * mat.len) * ((mat.len - 1) * w.read + w.read) = (k * mat.len) * (mat.len * w.read) := by
      congr 1
      obtain ⟨m, hm⟩ : ∃ m, mat.len = m + 1 := ⟨mat.len - 1, by omega⟩
      rw [hm, Nat.add_sub_cancel, Nat.add_mul, Nat.one_mul]
    have hB : c1 + mat.len * w.step ≤ (w.read + 6 * w.step) * (mat.len * (k * mat.len)) := by nlinarith
    show c0 + (c1 + (mat.len * w.step + t)) ≤ _
    omega

end

end KMedoids
