import Verif.Proofs.RowOrder
import Verif.Proofs.PureMsc2

/-!
# The cache of three medoids when distances need not be comparable

As `RowOrder.lean`, for the medoid silhouette: the cache holds three medoids per object.
-/

set_option linter.unusedSectionVars false

namespace KMedoids

variable {N L : Type} [RDist N] [RLoss L] [RFrom N L]
open RFrom (conv)
variable {n : Nat} {d : Nat → Nat → N} {o : Nat}

/-- The cached medoids of object `o`: no medoid is closer than the first, none of the others closer than the second, and none
of the rest closer than the third (which is missing if there are only two). -/
structure RecoW (d : Nat → Nat → N) (med : List Nat) (o : Nat) (r : Reco N) : Prop where
  two : RecW d med o ⟨r.near, r.seco⟩
  third : (r.third.i = u32Max ∧ med.length = 2) ∨ ((∃ c, med[r.third.i]? = some c ∧ r.third.d = d o c) ∧
    r.near.i ≠ r.third.i ∧ r.seco.i ≠ r.third.i ∧
    ∀ m c : Nat, med[m]? = some c → m ≠ r.near.i → m ≠ r.seco.i → rlt (d o c) r.third.d = false)

theorem utnP_row (h : RowOrder n d o) {med : List Nat} (hr : ∀ m ∈ med, m < n) {nn s b j : Nat}
    (hb : med[b]? = some j) (hnb : nn ≠ b) (hsb : s ≠ b) :
    (∃ c, med[(utnP d med nn s b o (d o j)).i]? = some c ∧ (utnP d med nn s b o (d o j)).d = d o c) ∧
    nn ≠ (utnP d med nn s b o (d o j)).i ∧ s ≠ (utnP d med nn s b o (d o j)).i ∧
    (∀ m c : Nat, med[m]? = some c → m ≠ nn → m ≠ s → rlt (d o c) (utnP d med nn s b o (d o j)).d = false) := by
  have hjn : j < n := hr j (List.mem_of_getElem? hb)
  have key : ∀ xs : List (Nat × Nat), (∀ p ∈ xs, med[p.2]? = some p.1) → ∀ t : DistancePair N,
      (∃ c, med[t.i]? = some c ∧ t.d = d o c) → nn ≠ t.i → s ≠ t.i →
      let t' := xs.foldl (fun (dist : DistancePair N) (p : Nat × Nat) =>
        if p.2 = nn ∨ p.2 = b ∨ p.2 = s then dist
        else if rlt (d o p.1) dist.d then ⟨p.2, d o p.1⟩ else dist) t
      (∃ c, med[t'.i]? = some c ∧ t'.d = d o c) ∧ nn ≠ t'.i ∧ s ≠ t'.i ∧
        (∀ x, x < n → rlt (d o x) t.d = false → rlt (d o x) t'.d = false) ∧
        ∀ p ∈ xs, p.2 ≠ nn → p.2 ≠ s → p.2 ≠ b → rlt (d o p.1) t'.d = false := by
    intro xs
    induction xs with
    | nil => intro _ t h1 h2 h3; exact ⟨h1, h2, h3, fun x _ hx => hx, by simp⟩
    | cons p xs ih =>
      intro hmem t h1 h2 h3
      have hp := hmem p (by simp)
      have hpn : p.1 < n := hr _ (List.mem_of_getElem? hp)
      have ih := ih (fun q hq => hmem q (by simp [hq]))
      simp only [List.foldl_cons]
      by_cases hc : p.2 = nn ∨ p.2 = b ∨ p.2 = s
      · simp only [if_pos hc]
        obtain ⟨a1, a2, a3, a4, a5⟩ := ih t h1 h2 h3
        refine ⟨a1, a2, a3, a4, ?_⟩
        intro q hq hq1 hq2 hq3
        rcases List.mem_cons.mp hq with rfl | hq
        · exfalso; omega
        · exact a5 q hq hq1 hq2 hq3
      · simp only [if_neg hc]
        obtain ⟨cs, hcs, hds⟩ := h1
        have hcsn : cs < n := hr _ (List.mem_of_getElem? hcs)
        by_cases hlt : rlt (d o p.1) t.d = true
        · simp only [hlt, if_true]
          obtain ⟨a1, a2, a3, a4, a5⟩ := ih ⟨p.2, d o p.1⟩ ⟨p.1, hp, rfl⟩ (by dsimp only; omega) (by dsimp only; omega)
          have hdown : ∀ x, x < n → rlt (d o x) t.d = false → rlt (d o x) (d o p.1) = false := by
            intro x hx hxs
            rw [hds] at hxs hlt
            exact h.below hx hpn hcsn hxs hlt
          refine ⟨a1, a2, a3, fun x hx hxs => a4 x hx (hdown x hx hxs), ?_⟩
          intro q hq hq1 hq2 hq3
          rcases List.mem_cons.mp hq with rfl | hq
          · exact a4 _ hpn (h.irrefl _ hpn)
          · exact a5 q hq hq1 hq2 hq3
        · simp only [hlt, Bool.false_eq_true, if_false]
          obtain ⟨a1, a2, a3, a4, a5⟩ := ih t ⟨cs, hcs, hds⟩ h2 h3
          refine ⟨a1, a2, a3, a4, ?_⟩
          intro q hq hq1 hq2 hq3
          rcases List.mem_cons.mp hq with rfl | hq
          · exact a4 _ hpn (by simpa using hlt)
          · exact a5 q hq hq1 hq2 hq3
  obtain ⟨a1, a2, a3, a4, a5⟩ := key med.zipIdx (fun p hp => mem_zipIdx_get hp) ⟨b, d o j⟩ ⟨j, hb, rfl⟩ hnb hsb
  refine ⟨a1, a2, a3, ?_⟩
  intro m c hm hmn hms
  by_cases hmb : m = b
  · subst hmb
    rw [hb] at hm; cases hm
    exact a4 _ hjn (h.irrefl _ hjn)
  · exact a5 (c, m) (List.mem_zipIdx_iff_getElem?.mpr (by simpa using hm)) hmn hms hmb

/-- The record after an exchange. -/
theorem mscSwapRecP_row (h : RowOrder n d o) {med : List Nat} {b j : Nat} (hb : b < med.length) (hj : j < n)
    (hr : ∀ m ∈ med, m < n) (hlen : med.length ≤ u32Max) (hjo : o = j → j ∉ med) {r : Reco N} (hrec : RecoW d med o r) :
    RecoW d (med.set b j) o (mscSwapRecP d (med.set b j) b j (r, o)) := by
  have hset := getElem?_set_lt' (l := med) hb j
  have hsb : (med.set b j)[b]? = some j := by rw [hset]; simp
  obtain ⟨⟨⟨c1, hc1, hd1⟩, ⟨c2, hc2, hd2⟩, hne, hfirst, hsecond, hown⟩, hthird⟩ := hrec
  dsimp only at hc1 hd1 hc2 hd2 hne hfirst hsecond hown
  have hi1 : r.near.i < med.length := (List.getElem?_eq_some_iff.mp hc1).1
  have hi2 : r.seco.i < med.length := (List.getElem?_eq_some_iff.mp hc2).1
  have hc1n : c1 < n := hr _ (List.mem_of_getElem? hc1)
  have hc2n : c2 < n := hr _ (List.mem_of_getElem? hc2)
  have hr' : ∀ m ∈ med.set b j, m < n := by
    intro m hm
    rcases List.mem_or_eq_of_mem_set hm with hm | hm
    · exact hr m hm
    · omega
  -- positions of the new list
  have hget : ∀ m c : Nat, (med.set b j)[m]? = some c → (m = b ∧ c = j) ∨ (m ≠ b ∧ med[m]? = some c) := by
    intro m c hm
    rw [hset] at hm
    split at hm
    · left; cases hm; exact ⟨by assumption, rfl⟩
    · exact Or.inr ⟨by assumption, hm⟩
  have hkeep : ∀ m c : Nat, m ≠ b → med[m]? = some c → (med.set b j)[m]? = some c := by
    intro m c hmb hm; rw [hset, if_neg hmb]; exact hm
  have hlt : ∀ m c : Nat, med[m]? = some c → m < med.length := fun m c hm => (List.getElem?_eq_some_iff.mp hm).1
  have hfirst' : ∀ m c : Nat, med[m]? = some c → rlt (d o c) r.near.d = false :=
    fun m c hm => hfirst c (List.mem_of_getElem? hm)
  have hmemn : ∀ m c : Nat, med[m]? = some c → c < n := fun m c hm => hr c (List.mem_of_getElem? hm)
  -- a statement about all medoids is one about all positions
  have hall : ∀ {x : N}, (∀ m c : Nat, (med.set b j)[m]? = some c → rlt (d o c) x = false) →
      ∀ c ∈ med.set b j, rlt (d o c) x = false := by
    intro x hx c hc
    obtain ⟨m, hm⟩ := List.mem_iff_getElem?.mp hc
    exact hx m c hm
  unfold mscSwapRecP
  by_cases hoj : o = j
  · have hjm : ∀ m : Nat, med[m]? ≠ some j := fun m h => hjo hoj (List.mem_of_getElem? h)
    have hc1o : c1 ≠ o := fun e => hjm _ (by rw [hc1, e, hoj])
    have hd1 : r.near.d = d o c1 := by
      rcases hd1 with hd1 | hd1
      · exact hd1
      · exact absurd hd1.1 hc1o
    subst hoj
    simp only [if_true]
    have hownj : ∀ m : Nat, (med.set b o)[m]? = some o → b = m := by
      intro m hm
      rcases hget m o hm with ⟨e, -⟩ | ⟨-, hm⟩
      · exact e.symm
      · exact absurd hm (hjm m)
    unfold mscSwapRecJ
    by_cases hnb : r.near.i = b
    · rw [if_pos hnb]
      refine ⟨⟨⟨o, hsb, Or.inr ⟨rfl, rfl⟩⟩, ⟨c2, hkeep _ _ (by (try dsimp only); omega) hc2, hd2⟩, by dsimp only; omega,
        fun c hc => h.zero c (hr' c hc), ?_, hownj⟩, ?_⟩
      · intro m c hm hmb
        dsimp only at hmb ⊢
        rcases hget m c hm with ⟨e, -⟩ | ⟨-, hm⟩
        · exact absurd e hmb
        · exact hsecond m c hm (by omega)
      · rcases hthird with ⟨h1, h2⟩ | ⟨⟨c3, hc3, hd3⟩, h1, h2, h3⟩
        · exact Or.inl ⟨h1, by simpa using h2⟩
        · right
          refine ⟨⟨c3, hkeep _ _ (by (try dsimp only); omega) hc3, hd3⟩, by dsimp only; omega, h2, ?_⟩
          intro m c hm hmb hms
          dsimp only at hmb hms ⊢
          rcases hget m c hm with ⟨e, -⟩ | ⟨-, hm⟩
          · exact absurd e hmb
          · exact h3 m c hm (by omega) hms
    · rw [if_neg hnb]
      by_cases hsb' : r.seco.i = b
      · rw [if_pos hsb']
        refine ⟨⟨⟨o, hsb, Or.inr ⟨rfl, rfl⟩⟩, ⟨c1, hkeep _ _ hnb hc1, hd1⟩, by dsimp only; omega,
          fun c hc => h.zero c (hr' c hc), ?_, hownj⟩, ?_⟩
        · intro m c hm hmb
          dsimp only at hmb ⊢
          rcases hget m c hm with ⟨e, -⟩ | ⟨-, hm⟩
          · exact absurd e hmb
          · exact hfirst' m c hm
        · rcases hthird with ⟨h1, h2⟩ | ⟨⟨c3, hc3, hd3⟩, h1, h2, h3⟩
          · exact Or.inl ⟨h1, by simpa using h2⟩
          · right
            refine ⟨⟨c3, hkeep _ _ (by (try dsimp only); omega) hc3, hd3⟩, by dsimp only; omega, h1, ?_⟩
            intro m c hm hmb hms
            dsimp only at hmb hms ⊢
            rcases hget m c hm with ⟨e, -⟩ | ⟨-, hm⟩
            · exact absurd e hmb
            · exact h3 m c hm hms (by omega)
      · rw [if_neg hsb']
        refine ⟨⟨⟨o, hsb, Or.inr ⟨rfl, rfl⟩⟩, ⟨c1, hkeep _ _ hnb hc1, hd1⟩, by dsimp only; omega,
          fun c hc => h.zero c (hr' c hc), ?_, hownj⟩, Or.inr ⟨⟨c2, hkeep _ _ hsb' hc2, hd2⟩, by dsimp only; omega, hne, ?_⟩⟩
        · intro m c hm hmb
          dsimp only at hmb ⊢
          rcases hget m c hm with ⟨e, -⟩ | ⟨-, hm⟩
          · exact absurd e hmb
          · exact hfirst' m c hm
        · intro m c hm hmb hms
          dsimp only at hmb hms ⊢
          rcases hget m c hm with ⟨e, -⟩ | ⟨-, hm⟩
          · exact absurd e hmb
          · exact hsecond m c hm hms
  · simp only [hoj, if_false]
    have hown' : ∀ m : Nat, (med.set b j)[m]? = some o → m ≠ b ∧ r.near.i = m := by
      intro m hm
      rcases hget m o hm with ⟨-, e⟩ | ⟨hmb, hm⟩
      · exact absurd e hoj
      · exact ⟨hmb, hown m hm⟩
    -- if the new medoid is closer than the first, the first is not the object itself
    have hnear : rlt (d o j) r.near.d = true → r.near.d = d o c1 ∧ ∀ m : Nat, (med.set b j)[m]? = some o → b = m := by
      intro h1
      have hd1' : r.near.d = d o c1 := by
        rcases hd1 with hd1 | ⟨-, hd1⟩
        · exact hd1
        · rw [hd1, h.zero j hj] at h1; cases h1
      refine ⟨hd1', fun m hm => ?_⟩
      have h2 := hown' m hm
      rcases hget m o hm with ⟨-, e⟩ | ⟨-, hm⟩
      · exact absurd e hoj
      · rw [h2.2, hm] at hc1
        cases hc1
        rw [hd1', h.self j hj] at h1
        cases h1
    unfold mscSwapRecG
    by_cases hnb : r.near.i = b
    · simp only [if_pos hnb]
      have hownseco : ∀ m : Nat, (med.set b j)[m]? ≠ some o := by
        intro m hm
        have := hown' m hm
        omega
      by_cases h1 : rlt (d o j) r.seco.d = true
      · simp only [if_pos h1]
        refine ⟨⟨⟨j, hsb, Or.inl rfl⟩, ⟨c2, hkeep _ _ (by (try dsimp only); omega) hc2, hd2⟩, by dsimp only; omega, hall ?_, ?_,
          fun m hm => absurd hm (hownseco m)⟩, ?_⟩
        · intro m c hm
          rcases hget m c hm with ⟨-, rfl⟩ | ⟨hmb, hm⟩
          · exact h.irrefl _ hj
          · have := hsecond m c hm (by omega)
            rw [hd2] at this h1
            exact h.below (hmemn m c hm) hj hc2n this h1
        · intro m c hm hmb
          dsimp only at hmb ⊢
          rcases hget m c hm with ⟨e, -⟩ | ⟨-, hm⟩
          · exact absurd e hmb
          · exact hsecond m c hm (by omega)
        · rcases hthird with ⟨h1, h2⟩ | ⟨⟨c3, hc3, hd3⟩, h1, h2, h3⟩
          · exact Or.inl ⟨h1, by simpa using h2⟩
          · right
            refine ⟨⟨c3, hkeep _ _ (by (try dsimp only); omega) hc3, hd3⟩, by dsimp only; omega, h2, ?_⟩
            intro m c hm hmb hms
            dsimp only at hmb hms ⊢
            rcases hget m c hm with ⟨e, -⟩ | ⟨-, hm⟩
            · exact absurd e hmb
            · exact h3 m c hm (by omega) hms
      · have h1f : rlt (d o j) r.seco.d = false := by simpa using h1
        simp only [if_neg h1]
        have hf : ∀ m c : Nat, (med.set b j)[m]? = some c → rlt (d o c) r.seco.d = false := by
          intro m c hm
          rcases hget m c hm with ⟨-, rfl⟩ | ⟨hmb, hm⟩
          · exact h1f
          · exact hsecond m c hm (by omega)
        by_cases h2 : (r.third.i == u32Max || rlt (d o j) r.third.d) = true
        · simp only [if_pos h2]
          rcases hthird with ⟨t1, t2⟩ | ⟨⟨c3, hc3, hd3⟩, t1, t2, t3⟩
          · refine ⟨⟨⟨c2, hkeep _ _ (by (try dsimp only); omega) hc2, Or.inl hd2⟩, ⟨j, hsb, rfl⟩, by dsimp only; omega, hall hf, ?_,
              fun m hm => absurd hm (hownseco m)⟩, Or.inl ⟨t1, by simpa using t2⟩⟩
            intro m c hm hmb
            dsimp only at hmb ⊢
            rcases hget m c hm with ⟨-, rfl⟩ | ⟨hmb', hm⟩
            · exact h.irrefl _ hj
            · exfalso; have := hlt m c hm; omega
          · have hi3 := hlt _ _ hc3
            have h2' : rlt (d o j) (d o c3) = true := by
              rcases Bool.or_eq_true_iff.mp h2 with e | e
              · simp at e; omega
              · rw [← hd3]; exact e
            have hc3n := hmemn _ _ hc3
            refine ⟨⟨⟨c2, hkeep _ _ (by (try dsimp only); omega) hc2, Or.inl hd2⟩, ⟨j, hsb, rfl⟩, by dsimp only; omega, hall hf, ?_,
              fun m hm => absurd hm (hownseco m)⟩,
              Or.inr ⟨⟨c3, hkeep _ _ (by (try dsimp only); omega) hc3, hd3⟩, t2, by dsimp only; omega, ?_⟩⟩
            · intro m c hm hmb
              dsimp only at hmb ⊢
              rcases hget m c hm with ⟨-, rfl⟩ | ⟨hmb', hm⟩
              · exact h.irrefl _ hj
              · have := t3 m c hm (by omega) hmb
                rw [hd3] at this
                exact h.below (hmemn m c hm) hj hc3n this h2'
            · intro m c hm hmb hms
              dsimp only at hmb hms ⊢
              rcases hget m c hm with ⟨e, -⟩ | ⟨-, hm⟩
              · exact absurd e hms
              · exact t3 m c hm (by omega) hmb
        · simp only [if_neg h2]
          rw [Bool.or_eq_true, not_or] at h2
          rcases hthird with ⟨t1, t2⟩ | ⟨⟨c3, hc3, hd3⟩, t1, t2, t3⟩
          · exact absurd (by simp [t1]) h2.1
          · have hs' := hkeep _ _ (by omega : r.third.i ≠ b) hc3
            have hu := utnP_row h hr' hsb (nn := r.seco.i) (s := r.third.i) (by omega) (by omega)
            refine ⟨⟨⟨c2, hkeep _ _ (by (try dsimp only); omega) hc2, Or.inl hd2⟩, ⟨c3, hs', hd3⟩, t2, hall hf, ?_,
              fun m hm => absurd hm (hownseco m)⟩, Or.inr hu⟩
            intro m c hm hmb
            dsimp only at hmb ⊢
            rcases hget m c hm with ⟨-, rfl⟩ | ⟨hmb', hm⟩
            · simpa using h2.2
            · exact t3 m c hm (by omega) hmb
    · simp only [if_neg hnb]
      have hn : ∃ c, (med.set b j)[r.near.i]? = some c ∧ (r.near.d = d o c ∨ c = o ∧ r.near.d = RDist.zero) :=
        ⟨c1, hkeep _ _ hnb hc1, hd1⟩
      by_cases hsb' : r.seco.i = b
      · simp only [if_pos hsb']
        by_cases h1 : rlt (d o j) r.near.d = true
        · simp only [if_pos h1]
          obtain ⟨hd1', ho⟩ := hnear h1
          refine ⟨⟨⟨j, hsb, Or.inl rfl⟩, ⟨c1, hkeep _ _ hnb hc1, hd1'⟩, by dsimp only; omega, hall ?_, ?_, ho⟩, ?_⟩
          · intro m c hm
            rcases hget m c hm with ⟨-, rfl⟩ | ⟨hmb, hm⟩
            · exact h.irrefl _ hj
            · have := hfirst' m c hm
              rw [hd1'] at this h1
              exact h.below (hmemn m c hm) hj hc1n this h1
          · intro m c hm hmb
            dsimp only at hmb ⊢
            rcases hget m c hm with ⟨e, -⟩ | ⟨-, hm⟩
            · exact absurd e hmb
            · exact hfirst' m c hm
          · rcases hthird with ⟨h1, h2⟩ | ⟨⟨c3, hc3, hd3⟩, h1, h2, h3⟩
            · exact Or.inl ⟨h1, by simpa using h2⟩
            · right
              refine ⟨⟨c3, hkeep _ _ (by (try dsimp only); omega) hc3, hd3⟩, by dsimp only; omega, h1, ?_⟩
              intro m c hm hmb hms
              dsimp only at hmb hms ⊢
              rcases hget m c hm with ⟨e, -⟩ | ⟨-, hm⟩
              · exact absurd e hmb
              · exact h3 m c hm hms (by omega)
        · have h1f : rlt (d o j) r.near.d = false := by simpa using h1
          simp only [if_neg h1]
          have hf : ∀ m c : Nat, (med.set b j)[m]? = some c → rlt (d o c) r.near.d = false := by
            intro m c hm
            rcases hget m c hm with ⟨-, rfl⟩ | ⟨hmb, hm⟩
            · exact h1f
            · exact hfirst' m c hm
          by_cases h2 : (r.third.i == u32Max || rlt (d o j) r.third.d) = true
          · simp only [if_pos h2]
            rcases hthird with ⟨t1, t2⟩ | ⟨⟨c3, hc3, hd3⟩, t1, t2, t3⟩
            · refine ⟨⟨hn, ⟨j, hsb, rfl⟩, by dsimp only; omega, hall hf, ?_, fun m hm => (hown' m hm).2⟩,
                Or.inl ⟨t1, by simpa using t2⟩⟩
              intro m c hm hmb
              dsimp only at hmb ⊢
              rcases hget m c hm with ⟨-, rfl⟩ | ⟨hmb', hm⟩
              · exact h.irrefl _ hj
              · exfalso; have := hlt m c hm; omega
            · have hi3 := hlt _ _ hc3
              have h2' : rlt (d o j) (d o c3) = true := by
                rcases Bool.or_eq_true_iff.mp h2 with e | e
                · simp at e; omega
                · rw [← hd3]; exact e
              have hc3n := hmemn _ _ hc3
              refine ⟨⟨hn, ⟨j, hsb, rfl⟩, by dsimp only; omega, hall hf, ?_, fun m hm => (hown' m hm).2⟩,
                Or.inr ⟨⟨c3, hkeep _ _ (by (try dsimp only); omega) hc3, hd3⟩, t1, by dsimp only; omega, ?_⟩⟩
              · intro m c hm hmb
                dsimp only at hmb ⊢
                rcases hget m c hm with ⟨-, rfl⟩ | ⟨hmb', hm⟩
                · exact h.irrefl _ hj
                · have := t3 m c hm hmb (by omega)
                  rw [hd3] at this
                  exact h.below (hmemn m c hm) hj hc3n this h2'
              · intro m c hm hmb hms
                dsimp only at hmb hms ⊢
                rcases hget m c hm with ⟨e, -⟩ | ⟨-, hm⟩
                · exact absurd e hms
                · exact t3 m c hm hmb (by omega)
          · simp only [if_neg h2]
            rw [Bool.or_eq_true, not_or] at h2
            rcases hthird with ⟨t1, t2⟩ | ⟨⟨c3, hc3, hd3⟩, t1, t2, t3⟩
            · exact absurd (by simp [t1]) h2.1
            · have hs' := hkeep _ _ (by omega : r.third.i ≠ b) hc3
              have hu := utnP_row h hr' hsb (nn := r.near.i) (s := r.third.i) (by omega) (by omega)
              refine ⟨⟨hn, ⟨c3, hs', hd3⟩, t1, hall hf, ?_, fun m hm => (hown' m hm).2⟩, Or.inr hu⟩
              intro m c hm hmb
              dsimp only at hmb ⊢
              rcases hget m c hm with ⟨-, rfl⟩ | ⟨hmb', hm⟩
              · simpa using h2.2
              · exact t3 m c hm hmb (by omega)
      · simp only [if_neg hsb']
        have hs : ∃ c, (med.set b j)[r.seco.i]? = some c ∧ r.seco.d = d o c := ⟨c2, hkeep _ _ hsb' hc2, hd2⟩
        have h3len : (∃ c, med[r.third.i]? = some c ∧ r.third.d = d o c) ∧
            r.near.i ≠ r.third.i ∧ r.seco.i ≠ r.third.i ∧
            ∀ m c : Nat, med[m]? = some c → m ≠ r.near.i → m ≠ r.seco.i → rlt (d o c) r.third.d = false := by
          rcases hthird with ⟨t1, t2⟩ | ht
          · exfalso; omega
          · exact ht
        obtain ⟨⟨c3, hc3, hd3⟩, t1, t2, t3⟩ := h3len
        have hi3 := hlt _ _ hc3
        have hc3n := hmemn _ _ hc3
        by_cases h1 : rlt (d o j) r.near.d = true
        · simp only [if_pos h1]
          obtain ⟨hd1', ho⟩ := hnear h1
          refine ⟨⟨⟨j, hsb, Or.inl rfl⟩, ⟨c1, hkeep _ _ hnb hc1, hd1'⟩, by dsimp only; omega, hall ?_, ?_, ho⟩,
            Or.inr ⟨hs, by dsimp only; omega, hne, ?_⟩⟩
          · intro m c hm
            rcases hget m c hm with ⟨-, rfl⟩ | ⟨hmb, hm⟩
            · exact h.irrefl _ hj
            · have := hfirst' m c hm
              rw [hd1'] at this h1
              exact h.below (hmemn m c hm) hj hc1n this h1
          · intro m c hm hmb
            dsimp only at hmb ⊢
            rcases hget m c hm with ⟨e, -⟩ | ⟨-, hm⟩
            · exact absurd e hmb
            · exact hfirst' m c hm
          · intro m c hm hmb hms
            dsimp only at hmb hms ⊢
            rcases hget m c hm with ⟨e, -⟩ | ⟨-, hm⟩
            · exact absurd e hmb
            · exact hsecond m c hm hms
        · have h1f : rlt (d o j) r.near.d = false := by simpa using h1
          simp only [if_neg h1]
          have hf : ∀ m c : Nat, (med.set b j)[m]? = some c → rlt (d o c) r.near.d = false := by
            intro m c hm
            rcases hget m c hm with ⟨-, rfl⟩ | ⟨hmb, hm⟩
            · exact h1f
            · exact hfirst' m c hm
          by_cases h2 : rlt (d o j) r.seco.d = true
          · simp only [if_pos h2]
            refine ⟨⟨hn, ⟨j, hsb, rfl⟩, by dsimp only; omega, hall hf, ?_, fun m hm => (hown' m hm).2⟩,
              Or.inr ⟨hs, hne, by dsimp only; omega, ?_⟩⟩
            · intro m c hm hmb
              dsimp only at hmb ⊢
              rcases hget m c hm with ⟨-, rfl⟩ | ⟨hmb', hm⟩
              · exact h.irrefl _ hj
              · have := hsecond m c hm hmb
                rw [hd2] at this h2
                exact h.below (hmemn m c hm) hj hc2n this h2
            · intro m c hm hmb hms
              dsimp only at hmb hms ⊢
              rcases hget m c hm with ⟨e, -⟩ | ⟨-, hm⟩
              · exact absurd e hms
              · exact hsecond m c hm hmb
          · have h2f : rlt (d o j) r.seco.d = false := by simpa using h2
            simp only [if_neg h2]
            have hsec : ∀ m c : Nat, (med.set b j)[m]? = some c → m ≠ r.near.i → rlt (d o c) r.seco.d = false := by
              intro m c hm hmb
              rcases hget m c hm with ⟨-, rfl⟩ | ⟨hmb', hm⟩
              · exact h2f
              · exact hsecond m c hm hmb
            have htwo : RecW d (med.set b j) o ⟨r.near, r.seco⟩ :=
              ⟨hn, hs, hne, hall hf, hsec, fun m hm => (hown' m hm).2⟩
            by_cases h3 : (r.third.i == u32Max || rlt (d o j) r.third.d) = true
            · simp only [if_pos h3]
              have h3' : rlt (d o j) (d o c3) = true := by
                rcases Bool.or_eq_true_iff.mp h3 with e | e
                · simp at e; omega
                · rw [← hd3]; exact e
              refine ⟨htwo, Or.inr ⟨⟨j, hsb, rfl⟩, hnb, hsb', ?_⟩⟩
              intro m c hm hmb hms
              dsimp only at hmb hms ⊢
              rcases hget m c hm with ⟨-, rfl⟩ | ⟨-, hm⟩
              · exact h.irrefl _ hj
              · have := t3 m c hm hmb hms
                rw [hd3] at this
                exact h.below (hmemn m c hm) hj hc3n this h3'
            · simp only [if_neg h3]
              rw [Bool.or_eq_true, not_or] at h3
              by_cases h4 : r.third.i = b
              · simp only [if_pos h4]
                exact ⟨htwo, Or.inr (utnP_row h hr' hsb hnb hsb')⟩
              · simp only [if_neg h4]
                refine ⟨htwo, Or.inr ⟨⟨c3, hkeep _ _ h4 hc3, hd3⟩, t1, t2, ?_⟩⟩
                intro m c hm hmb hms
                rcases hget m c hm with ⟨-, rfl⟩ | ⟨-, hm⟩
                · simpa using h3.2
                · exact t3 m c hm hmb hms

/-! ## initial assignment -/

/-- State of the record while the medoid list is being read. -/
def InitW3 (d : Nat → Nat → N) (med : List Nat) (o : Nat) (r : Reco N) : Prop :=
  (∃ c, med = [c] ∧ r.near = ⟨0, d o c⟩ ∧ r.seco.i = u32Max ∧ r.third.i = u32Max) ∨ (2 ≤ med.length ∧ RecoW d med o r)

/-- The first two medoids are found as in `initial_assignment` of FasterPAM. -/
theorem mscInitStepP_two (d : Nat → Nat → N) (o : Nat) (r : Reco N) (p : Nat × Nat) :
    (⟨(mscInitStepP d o r p).near, (mscInitStepP d o r p).seco⟩ : Rec N) = initStepP d o ⟨r.near, r.seco⟩ p := by
  unfold mscInitStepP initStepP
  dsimp only
  split
  · rfl
  · split
    · rfl
    · split <;> rfl

theorem mscInitStepP_row (h : RowOrder n d o) {med : List Nat} {c : Nat} (hr : ∀ m ∈ med, m < n)
    (hcn : c < n) (hco : o = c → c ∉ med) (hlen : med.length < u32Max) {r : Reco N} (hi : InitW3 d med o r) :
    InitW3 d (med ++ [c]) o (mscInitStepP d o r (c, med.length)) := by
  right
  have htwo : InitW d med o ⟨r.near, r.seco⟩ := by
    rcases hi with ⟨c0, h1, h2, h3, -⟩ | ⟨h1, h2⟩
    · exact Or.inl ⟨c0, h1, h2, h3⟩
    · exact Or.inr ⟨h1, h2.two⟩
  have hpos : med ≠ [] := by
    rcases hi with ⟨c0, rfl, -⟩ | ⟨h1, -⟩
    · simp
    · intro e; simp [e] at h1
  have hl2 : 2 ≤ (med ++ [c]).length := by
    have := List.length_pos_of_ne_nil hpos; simp; omega
  refine ⟨hl2, ?_, ?_⟩
  · rw [mscInitStepP_two]
    rcases initStepP_row h hr hcn hco hlen htwo with ⟨c0, h1, -⟩ | ⟨-, h2⟩
    · rw [h1] at hl2; simp at hl2
    · exact h2
  · have happ := getElem?_append_one med c
    have hlast : (med ++ [c])[med.length]? = some c := by rw [happ]; simp
    have hget : ∀ m x : Nat, (med ++ [c])[m]? = some x → (m = med.length ∧ x = c) ∨ (m ≠ med.length ∧ med[m]? = some x) := by
      intro m x hm
      rw [happ] at hm
      split at hm
      · left; cases hm; exact ⟨by assumption, rfl⟩
      · exact Or.inr ⟨by assumption, hm⟩
    have hkeep : ∀ m x : Nat, med[m]? = some x → (med ++ [c])[m]? = some x := by
      intro m x hm
      have := (List.getElem?_eq_some_iff.mp hm).1
      rw [happ, if_neg (by omega)]; exact hm
    rcases hi with ⟨c0, rfl, h2, h3, h4⟩ | ⟨h1, ⟨⟨c1, hc1, hd1⟩, ⟨c2, hc2, hd2⟩, hne, hfirst, hsecond, hown⟩, hthird⟩
    · left
      refine ⟨?_, rfl⟩
      unfold mscInitStepP
      split
      · exact h3
      · simp only [h3, beq_self_eq_true, Bool.true_or, if_true]
    · dsimp only at hc1 hd1 hc2 hd2 hne hfirst hsecond hown
      right
      have hi1 : r.near.i < med.length := (List.getElem?_eq_some_iff.mp hc1).1
      have hi2 : r.seco.i < med.length := (List.getElem?_eq_some_iff.mp hc2).1
      have hsu : (r.seco.i == u32Max) = false := by simp; omega
      simp only [mscInitStepP, hsu, Bool.false_or]
      split
      · refine ⟨⟨c2, hkeep _ _ hc2, hd2⟩, by dsimp only; omega, hne, ?_⟩
        intro m x hm hm1 hm2
        dsimp only at hm1 hm2 ⊢
        rcases hget m x hm with ⟨e, -⟩ | ⟨-, hm⟩
        · exact absurd e hm1
        · exact hsecond m x hm hm2
      · split
        · refine ⟨⟨c2, hkeep _ _ hc2, hd2⟩, hne, by dsimp only; omega, ?_⟩
          intro m x hm hm1 hm2
          dsimp only at hm1 hm2 ⊢
          rcases hget m x hm with ⟨e, -⟩ | ⟨-, hm⟩
          · exact absurd e hm2
          · exact hsecond m x hm hm1
        · rcases hthird with ⟨t1, t2⟩ | ⟨⟨c3, hc3, hd3⟩, t1, t2, t3⟩
          · simp only [t1, beq_self_eq_true, Bool.true_or, if_true]
            refine ⟨⟨c, hlast, rfl⟩, by omega, by omega, ?_⟩
            intro m x hm hm1 hm2
            rcases hget m x hm with ⟨-, rfl⟩ | ⟨-, hm⟩
            · exact h.irrefl _ hcn
            · exfalso
              have := (List.getElem?_eq_some_iff.mp hm).1
              omega
          · have hi3 : r.third.i < med.length := (List.getElem?_eq_some_iff.mp hc3).1
            have htu : (r.third.i == u32Max) = false := by simp; omega
            have hc3n : c3 < n := hr _ (List.mem_of_getElem? hc3)
            simp only [htu, Bool.false_or]
            split
            · rename_i hlt
              refine ⟨⟨c, hlast, rfl⟩, by dsimp only; omega, by dsimp only; omega, ?_⟩
              intro m x hm hm1 hm2
              dsimp only at hm1 hm2 ⊢
              rcases hget m x hm with ⟨-, rfl⟩ | ⟨-, hm⟩
              · exact h.irrefl _ hcn
              · have := t3 m x hm hm1 hm2
                rw [hd3] at this hlt
                exact h.below (hr _ (List.mem_of_getElem? hm)) hcn hc3n this hlt
            · rename_i hlt
              refine ⟨⟨c3, hkeep _ _ hc3, hd3⟩, t1, t2, ?_⟩
              intro m x hm hm1 hm2
              rcases hget m x hm with ⟨-, rfl⟩ | ⟨-, hm⟩
              · simpa using hlt
              · exact t3 m x hm hm1 hm2

theorem mscInitRecP_append' (d : Nat → Nat → N) {med : List Nat} (hm : med ≠ []) (c o : Nat) :
    mscInitRecP d (med ++ [c]) o = mscInitStepP d o (mscInitRecP d med o) (c, med.length) := by
  obtain ⟨a, t, rfl⟩ := List.exists_cons_of_ne_nil hm
  simp only [mscInitRecP, List.cons_append, List.zipIdx_cons, List.drop_one, List.tail_cons, List.headD_cons]
  rw [List.zipIdx_append, List.foldl_append]
  simp [Nat.add_comm]

/-- The record of an object that occurs at most once among the medoids. -/
theorem mscInitRecP_row (h : RowOrder n d o) (med : List Nat) (hm : med ≠ []) (hr : ∀ m ∈ med, m < n)
    (hc : med.count o ≤ 1) (hlen : med.length ≤ u32Max) : InitW3 d med o (mscInitRecP d med o) := by
  induction med using List.reverseRecOn with
  | nil => exact absurd rfl hm
  | append_singleton med c ih =>
    by_cases hne : med = []
    · subst hne; left; exact ⟨c, rfl, rfl, rfl, rfl⟩
    · rw [mscInitRecP_append' d hne]
      have hl : med.length < u32Max := by simp at hlen; omega
      rw [List.count_append] at hc
      refine mscInitStepP_row h (fun m hm => hr m (by simp [hm])) (hr c (by simp)) (fun e hcm => ?_) hl
        (ih hne (fun m hm => hr m (by simp [hm])) (by omega) (le_of_lt hl))
      subst e
      have := List.count_pos_iff.mpr hcm
      simp at hc
      omega

/-! ## The invariant -/

/-- The cached record of object `o` is correct. -/
def ObjW3 (d : Nat → Nat → N) (o : Nat) (med : List Nat) (data : List (Reco N)) : Prop :=
  ∃ r, data[o]? = some r ∧ RecoW d med o r

theorem ObjW3.own_iff {med : List Nat} {data : List (Reco N)} (h : ObjW3 d o med data) :
    mscOwnP med data o = true ↔ o ∈ med := by
  obtain ⟨r, hr, hok⟩ := h
  simp only [mscOwnP, hr, beq_iff_eq]
  constructor
  · exact fun h' => List.mem_of_getElem? h'
  · intro h'
    obtain ⟨m, hm⟩ := List.mem_iff_getElem?.mp h'
    have := hok.two.own m hm
    dsimp only at this
    rw [this]; exact hm

theorem mscSwapDataP_row (he : RowOrder n d o) {k : Nat} (hk : k ≤ u32Max) {med : List Nat} {data : List (Reco N)}
    (hs : MShape n k med data) (h : ObjW3 d o med data) {b j : Nat} (hb : b < k) (hj : j < n)
    (hown : mscOwnP med data j = false) : ObjW3 d o (med.set b j) (mscSwapDataP d med data b j) := by
  have hjo : o = j → j ∉ med := by
    rintro rfl hm
    rw [h.own_iff.mpr hm] at hown; simp at hown
  obtain ⟨r, hr, hok⟩ := h
  exact ⟨_, zipIdx_map_get hr _, mscSwapRecP_row he (hs.medLen ▸ hb) hj hs.medRange (hs.medLen ▸ hk) hjo hok⟩

theorem mscInitDataP_row (he : RowOrder n d o) (ho : o < n) {med : List Nat} (hk : 2 ≤ med.length)
    (hv : ValidMeds n med) (hc : med.count o ≤ 1) : ObjW3 d o med (mscInitDataP d n med) := by
  have hne : med ≠ [] := by intro h; simp [h] at hk
  refine ⟨mscInitRecP d med o, by simp [mscInitDataP, ho], ?_⟩
  rcases mscInitRecP_row he med hne hv.range hc (le_of_lt hv.sizes.k_lt) with ⟨c, h, -⟩ | h
  · rw [h] at hk; simp at hk
  · exact h.2

theorem ObjW3.best (he : RowOrder n d o) {med : List Nat} {data : List (Reco N)} (hr : ∀ m ∈ med, m < n)
    (h : ObjW3 d o med data) : ObjBest d o med (data.map (·.near.i)) := by
  obtain ⟨r, hg, hrec⟩ := h
  obtain ⟨c, hc, hb⟩ := hrec.two.best he hr
  exact ⟨r.near.i, c, by simp [hg], hc, hb, fun m' hm' => (hrec.two.own m' hm').symm⟩

/-! ## Loops -/

theorem mscLoopP_row {mat : Mat N} (hm : IsMatrix mat n d) (he : RowOrder n d o) {k : Nat} (hk : k < u32Max)
    (hk1 : 1 ≤ k) {fuel iter : Nat} {s : MSCState N L} (hs : MSCShape n k s) (h : ObjW3 d o s.med s.data) :
    MSCShape n k (mscLoopP d n fuel iter s).1 ∧
      ObjW3 d o (mscLoopP d n fuel iter s).1.med (mscLoopP d n fuel iter s).1.data := by
  refine (loopG_inv (fun s : MSCState N L => MSCShape n k s ∧ ObjW3 d o s.med s.data) (fun s hs => ?_)
    (fuel := fuel) (iter := iter) ⟨hs, h⟩).1
  refine passG_inv (fun s : MSCState N L => MSCShape n k s ∧ ObjW3 d o s.med s.data) (fun s j s' hj hs hc => ?_) hs
  have hj := List.mem_range.mp hj
  unfold mscCandP at hc
  split at hc
  · cases hc
  · rename_i hown
    dsimp only at hc
    split at hc
    · cases hc
    · cases hc
      have hb := mscFbsP_lt d (rem := s.rem) s.data j (by rw [hs.1.remLen]; exact hk1)
      rw [hs.1.remLen] at hb
      exact ⟨mscSwapP_shape hm hs.1 hk hb hj, mscSwapDataP_row he (le_of_lt hk) hs.1.shape hs.2 hb hj (by simpa using hown)⟩

/-- What the loop needs from the scan, without laws. -/
def ScanMaxFine (n k : Nat) (scan : List Nat → List (Reco N) → L × Nat × Nat) : Prop :=
  ∀ med data, rgt (scan med data).1 RLoss.zero = true →
    (scan med data).2.1 < k ∧ (scan med data).2.2 < n ∧ mscOwnP med data (scan med data).2.2 = false

theorem fastmscScanP_fine [SaneZero L] (n : Nat) {k : Nat} (hk : 1 ≤ k) (d : Nat → Nat → N) :
    ScanMaxFine n k (fastmscScanP (L := L) d n k) := by
  intro med data hgt
  have h0 := fastmscScanP_ok (L := L) d n hk med data hgt
  refine ⟨h0.1, h0.2, ?_⟩
  rcases scanMax_fold (mscFbsP d (mscRemP L data k) data) (mscOwnP med data) (List.range n)
    (RLoss.zero, usizeMax, usizeMax) with h | ⟨j, -, hown, h⟩
  · rw [fastmscScanP, h] at hgt; simp [rgt_zero_zero] at hgt
  · rw [fastmscScanP, h]; exact hown

theorem pmsScanP_fine [SaneZero L] (n k : Nat) (d : Nat → Nat → N) :
    ScanMaxFine n k (pmsScanP (L := L) d n k) := by
  intro med data hgt
  have h0 := pmsScanP_ok (L := L) d n k med data hgt
  refine ⟨h0.1, h0.2, ?_⟩
  rcases scanMax_fold (pmsFbsP L d k data) (mscOwnP med data) (List.range n)
    (RLoss.zero, k, usizeMax) with h | ⟨j, -, hown, h⟩
  · rw [pmsScanP, h] at hgt; simp [rgt_zero_zero] at hgt
  · rw [pmsScanP, h]; exact hown

theorem mpLoopP_row {mat : Mat N} (hm : IsMatrix mat n d) (he : RowOrder n d o) {k : Nat} (hk : k < u32Max)
    {scan : List Nat → List (Reco N) → L × Nat × Nat} (hscan : ScanMaxFine n k scan) {fuel iter : Nat}
    {s : MPState N L} (hs : MShape n k s.med s.data) (h : ObjW3 d o s.med s.data) :
    MShape n k (loopB (mpStepP d scan) fuel iter s).1.med (loopB (mpStepP d scan) fuel iter s).1.data ∧
      ObjW3 d o (loopB (mpStepP d scan) fuel iter s).1.med (loopB (mpStepP d scan) fuel iter s).1.data := by
  refine (loopB_inv (fun s : MPState N L => MShape n k s.med s.data ∧ ObjW3 d o s.med s.data)
    (fun s s' b hs h => ?_) ⟨hs, h⟩).1
  have hsh := mpStepP_shape (L := L) hm hk (scan := scan)
    (fun med data hgt => ⟨(hscan med data hgt).1, (hscan med data hgt).2.1⟩) hs.1 h
  refine ⟨hsh, ?_⟩
  unfold mpStepP at h
  dsimp only at h
  split at h
  · rename_i hgt
    obtain ⟨h1, h2, h3⟩ := hscan _ _ hgt
    have := mscSwapDataP_row he (le_of_lt hk) hs.1 hs.2 h1 h2 h3
    split at h
    · cases h; exact this
    · cases h; exact this
  · cases h

/-! ## two medoids -/

/-- Equality within row `o`, and with zero: equal distances are not smaller than each other. -/
structure RowEq (n : Nat) (d : Nat → Nat → N) (o : Nat) : Prop where
  eq : ∀ x y, x < n → y < n → req (d o x) (d o y) = true → rlt (d o y) (d o x) = false
  zero : ∀ x, x < n → req (d o x) (RDist.zero : N) = true → rlt (d o o) (d o x) = false

/-- Object `o` in the functions for two medoids: its two distances, and no medoid is closer than that of its label. -/
def ObjK2 (d : Nat → Nat → N) (o : Nat) (s : K2State N L) : Prop :=
  ∃ m0 m1 a : Nat, ∃ p0 p1 : N, s.med = [m0, m1] ∧ s.assi[o]? = some a ∧ s.data[o]? = some (p0, p1) ∧
    (p0 = d o m0 ∨ m0 = o ∧ p0 = RDist.zero) ∧ (p1 = d o m1 ∨ m1 = o ∧ p1 = RDist.zero) ∧
    (a = 0 ∧ rlt (d o m1) (d o m0) = false ∨ a = 1 ∧ rlt (d o m0) (d o m1) = false)

theorem RowOrder.asymm (h : RowOrder n d o) {x y : Nat} (hx : x < n) (hy : y < n) (hlt : rlt (d o x) (d o y) = true) :
    rlt (d o y) (d o x) = false :=
  h.below hy hx hy (h.irrefl _ hy) hlt

theorem k2InitP_row (h : RowOrder n d o) (ho : o < n) {m0 m1 : Nat} (h0 : m0 < n) (h1 : m1 < n) (last : Nat) :
    ObjK2 d o (k2InitP L d n m0 m1 last) := by
  refine ⟨m0, m1, (k2InitRecP L d m0 m1 o).1, d o m0, d o m1, rfl, by simp [k2InitP, ho], ?_, Or.inl rfl, Or.inl rfl, ?_⟩
  · simp only [k2InitP, List.map_map, List.getElem?_map, List.getElem?_range ho, Option.map_some, Function.comp,
      k2InitRecP]
    split <;> rfl
  · unfold k2InitRecP
    split
    · rename_i hlt; exact Or.inl ⟨rfl, h.asymm h0 h1 hlt⟩
    · rename_i hlt; exact Or.inr ⟨rfl, by simpa using hlt⟩

/-- The label given to an object by an exchange: `x` is the new medoid, `y` the other, `p` the cached distance to it. -/
theorem k2_label (h : RowOrder n d o) (hq : RowEq n d o) {x y : Nat} (hx : x < n) (hy : y < n) {p : N}
    (hp : p = d o y ∨ y = o ∧ p = RDist.zero) :
    ((rlt (d o x) p = true ∨ req (d o x) p = true) → rlt (d o y) (d o x) = false) ∧
    (rlt (d o x) p = false → rlt (d o x) (d o y) = false) := by
  rcases hp with rfl | ⟨rfl, rfl⟩
  · exact ⟨fun hc => hc.elim (fun hc => h.asymm hx hy hc) (fun hc => hq.eq _ _ hx hy hc), fun hc => hc⟩
  · refine ⟨fun hc => hc.elim (fun hc => ?_) (fun hc => hq.zero _ hx hc), fun _ => h.self _ hx⟩
    rw [h.zero _ hx] at hc; cases hc

theorem k2SwapP_row (h : RowOrder n d o) (hq : RowEq n d o) {s : K2State N L} (hs : K2Shape n s)
    (hw : ObjK2 d o s) {b j : Nat} (hb : b < 2) (hj : j < n) (last : Nat) : ObjK2 d o (k2SwapP d s b j last) := by
  obtain ⟨m0, m1, a, p0, p1, hmed, ha, hp, hp0, hp1, hl⟩ := hw
  have hm0 : m0 < n := hs.medRange m0 (by simp [hmed])
  have hm1 : m1 < n := hs.medRange m1 (by simp [hmed])
  have hz : (s.assi.zip s.data)[o]? = some (a, (p0, p1)) := by
    rw [List.getElem?_zip_eq_some]; exact ⟨ha, hp⟩
  have hrs := zipIdx_map_get hz (k2SwapRecP L d b j)
  have hset : (k2SwapP d s b j last).med = s.med.set b j := rfl
  have hga : (k2SwapP d s b j last).assi[o]? = some (k2SwapRecP L d b j ((a, (p0, p1)), o)).1 := by
    simp only [k2SwapP, List.getElem?_map (l := List.map (k2SwapRecP L d b j) _), hrs, Option.map_some]
  have hgd : (k2SwapP d s b j last).data[o]? = some (k2SwapRecP L d b j ((a, (p0, p1)), o)).2.1 := by
    simp only [k2SwapP, List.getElem?_map (l := List.map (k2SwapRecP L d b j) _), hrs, Option.map_some]
  obtain rfl | rfl : b = 0 ∨ b = 1 := by omega
  · refine ⟨j, m1, _, (k2SwapRecP L d 0 j ((a, (p0, p1)), o)).2.1.1, p1, by rw [hset, hmed]; rfl, hga, ?_, ?_, hp1, ?_⟩
    · rw [hgd]; unfold k2SwapRecP; dsimp only
      simp only [if_true]
      split
      · rfl
      · split <;> rfl
    · unfold k2SwapRecP; dsimp only
      simp only [if_true]
      split
      · rename_i e; exact Or.inr ⟨e.symm, rfl⟩
      · split <;> exact Or.inl rfl
    · obtain ⟨l1, l2⟩ := k2_label h hq hj hm1 hp1
      unfold k2SwapRecP; dsimp only
      simp only [if_true]
      split
      · rename_i e; subst e; exact Or.inl ⟨rfl, h.self _ hm1⟩
      · split
        · rename_i hc
          refine Or.inl ⟨rfl, l1 ?_⟩
          simp only [Bool.or_eq_true, Bool.and_eq_true] at hc
          exact hc.imp id And.left
        · rename_i hc
          refine Or.inr ⟨rfl, l2 ?_⟩
          simp only [Bool.or_eq_true, Bool.and_eq_true, not_or] at hc
          simpa using hc.1
  · refine ⟨m0, j, _, p0, (k2SwapRecP L d 1 j ((a, (p0, p1)), o)).2.1.2, by rw [hset, hmed]; rfl, hga, ?_, hp0, ?_, ?_⟩
    · rw [hgd]; unfold k2SwapRecP; dsimp only
      simp only [one_ne_zero, if_false]
      split
      · rfl
      · split <;> rfl
    · unfold k2SwapRecP; dsimp only
      simp only [one_ne_zero, if_false]
      split
      · rename_i e; exact Or.inr ⟨e.symm, rfl⟩
      · split <;> exact Or.inl rfl
    · obtain ⟨l1, l2⟩ := k2_label h hq hj hm0 hp0
      unfold k2SwapRecP; dsimp only
      simp only [one_ne_zero, if_false]
      split
      · rename_i e; subst e; exact Or.inr ⟨rfl, h.self _ hm0⟩
      · split
        · rename_i hc
          refine Or.inr ⟨rfl, l1 ?_⟩
          simp only [Bool.or_eq_true, Bool.and_eq_true] at hc
          exact hc.imp id And.left
        · rename_i hc
          refine Or.inl ⟨rfl, l2 ?_⟩
          simp only [Bool.or_eq_true, Bool.and_eq_true, not_or] at hc
          simpa using hc.1

theorem ObjK2.best (h : RowOrder n d o) {s : K2State N L} (hs : K2Shape n s) (hw : ObjK2 d o s) :
    ∃ m c : Nat, s.assi[o]? = some m ∧ s.med[m]? = some c ∧ ∀ c' ∈ s.med, rlt (d o c') (d o c) = false := by
  obtain ⟨m0, m1, a, p0, p1, hmed, ha, -, -, -, hl⟩ := hw
  have hm0 : m0 < n := hs.medRange m0 (by simp [hmed])
  have hm1 : m1 < n := hs.medRange m1 (by simp [hmed])
  rcases hl with ⟨rfl, hl⟩ | ⟨rfl, hl⟩
  · exact ⟨0, m0, ha, by simp [hmed], by simp [hmed, hl, h.irrefl _ hm0]⟩
  · exact ⟨1, m1, ha, by simp [hmed], by simp [hmed, hl, h.irrefl _ hm1]⟩

theorem k2LoopP_row {mat : Mat N} (hm : IsMatrix mat n d) (h : RowOrder n d o) (hq : RowEq n d o) {fuel iter : Nat}
    {s : K2State N L} (hs : K2Shape n s) (hw : ObjK2 d o s) :
    K2Shape n (k2LoopP d n fuel iter s).1 ∧ ObjK2 d o (k2LoopP d n fuel iter s).1 := by
  refine (loopG_inv (fun s : K2State N L => K2Shape n s ∧ ObjK2 d o s) (fun s hs => ?_)
    (fuel := fuel) (iter := iter) ⟨hs, hw⟩).1
  refine passG_inv (fun s : K2State N L => K2Shape n s ∧ ObjK2 d o s) (fun s j s' hj hs hc => ?_) hs
  have hj := List.mem_range.mp hj
  unfold k2CandP at hc
  split at hc
  · cases hc
  · dsimp only at hc
    split at hc
    · cases hc
    · cases hc
      have hb := k2FbsP_lt (L := L) d s.data j
      exact ⟨(k2DoSwap_eq (L := L) hm hs.1 hb hj j).2, k2SwapP_row h hq hs.1 hs.2 hb hj j⟩

theorem fastmscK2_row {mat : Mat N} (hm : IsMatrix mat n d) (h : RowOrder n d o) (hq : RowEq n d o)
    (hn : n ≤ u32Max) (h3 : 3 ≤ n) {fuel iter : Nat} {s : K2State N L} (hs : K2Shape n s) (hw : ObjK2 d o s) :
    K2Shape n (loopB (fastmscK2StepP d n 2) fuel iter s).1 ∧ ObjK2 d o (loopB (fastmscK2StepP d n 2) fuel iter s).1 := by
  have hok : ∀ s : K2State N L, K2Shape n s → K2StepOk n 2 d s := fun s hs _ =>
    fastmscK2ScanP_found d le_rfl hn (exists_not_own h3 hs)
  refine (loopB_inv (fun s : K2State N L => K2Shape n s ∧ ObjK2 d o s) (fun s s' b hs hst => ?_) ⟨hs, hw⟩).1
  refine ⟨fastmscK2StepP_shape hm hs.1 (hok s hs.1) hst, ?_⟩
  unfold fastmscK2StepP at hst
  dsimp only at hst
  split at hst
  · cases hst
  · rename_i hc
    have hf := hok s hs.1 (by simpa using hc)
    have := k2SwapP_row (L := L) h hq hs.1 hs.2 hf.1 hf.2 s.lastswap
    split at hst
    · cases hst; exact this
    · cases hst; exact this

end KMedoids
