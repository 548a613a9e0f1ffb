import Verif.Proofs.PureMsc2
import Verif.Proofs.Cache
import Mathlib.Data.List.Nodup

/-!
# The caches of the medoid silhouette functions are correct

Level 2: distances are linearly ordered, nothing is assumed about the loss type.
-/

set_option linter.unusedSectionVars false

namespace KMedoids

variable {N : Type} [LinearOrder N] [Zero N] [RDist N] [LawfulDist N]

/-- `f m` is the distance to medoid number `m < k`. The record holds the three nearest medoids; for
`k = 2` the third is marked as missing. -/
structure Top3 (k : Nat) (f : Nat → N) (r : Reco N) : Prop where
  near_lt : r.near.i < k
  near_d : f r.near.i = r.near.d
  seco_lt : r.seco.i < k
  seco_d : f r.seco.i = r.seco.d
  ne : r.near.i ≠ r.seco.i
  le : r.near.d ≤ r.seco.d
  third : (r.third.i < k ∧ f r.third.i = r.third.d ∧ r.third.i ≠ r.near.i ∧ r.third.i ≠ r.seco.i ∧
      r.seco.d ≤ r.third.d ∧ ∀ m, m < k → m ≠ r.near.i → m ≠ r.seco.i → r.third.d ≤ f m) ∨
    (k = 2 ∧ r.third.i = u32Max)

theorem Top3.seco_le {k : Nat} {f : Nat → N} {r : Reco N} (h : Top3 k f r) {m : Nat} (hm : m < k)
    (hmn : m ≠ r.near.i) : r.seco.d ≤ f m := by
  by_cases hms : m = r.seco.i
  · rw [hms, h.seco_d]
  · rcases h.third with ⟨_, _, _, _, h5, h6⟩ | ⟨hk, _⟩
    · exact le_trans h5 (h6 m hm hmn hms)
    · have := h.near_lt; have := h.seco_lt; have := h.ne; omega

theorem Top3.near_le {k : Nat} {f : Nat → N} {r : Reco N} (h : Top3 k f r) {m : Nat} (hm : m < k) :
    r.near.d ≤ f m := by
  by_cases hmn : m = r.near.i
  · rw [hmn, h.near_d]
  · exact le_trans h.le (h.seco_le hm hmn)

theorem Top3.third_cases {k : Nat} {f : Nat → N} {r : Reco N} (h : Top3 k f r) (hk : k < u32Max) :
    (r.third.i ≠ u32Max ∧ r.third.i < k ∧ f r.third.i = r.third.d ∧ r.third.i ≠ r.near.i ∧
      r.third.i ≠ r.seco.i ∧ r.seco.d ≤ r.third.d ∧
      ∀ m, m < k → m ≠ r.near.i → m ≠ r.seco.i → r.third.d ≤ f m) ∨
    (k = 2 ∧ r.third.i = u32Max) := by
  rcases h.third with h' | h'
  · left; exact ⟨by omega, h'⟩
  · right; exact h'

/-- Three medoids are known when there are at least three. -/
theorem Top3.third_of {k : Nat} {f : Nat → N} {r : Reco N} (h : Top3 k f r) (hk : 3 ≤ k) :
    r.third.i < k ∧ f r.third.i = r.third.d ∧ r.third.i ≠ r.near.i ∧ r.third.i ≠ r.seco.i ∧
      r.seco.d ≤ r.third.d ∧ ∀ m, m < k → m ≠ r.near.i → m ≠ r.seco.i → r.third.d ≤ f m := by
  rcases h.third with h' | h'
  · exact h'
  · omega

/-- What the search for the third nearest medoid must deliver. -/
def UtnOk (k : Nat) (f : Nat → N) (b : Nat) (utn : Nat → Nat → DistancePair N) : Prop :=
  ∀ x y, x ≠ b → y ≠ b → (utn x y).i < k ∧ f (utn x y).i = (utn x y).d ∧ (utn x y).i ≠ x ∧
    (utn x y).i ≠ y ∧ ∀ m, m < k → m ≠ x → m ≠ y → (utn x y).d ≤ f m

theorem mscSwapRecG_top3 {k b : Nat} (hk : k < u32Max) (hb : b < k) {f f' : Nat → N} {x : N}
    (hfb : f' b = x) (hfm : ∀ m, m ≠ b → f' m = f m) {utn : Nat → Nat → DistancePair N}
    (hu : UtnOk k f' b utn) {r : Reco N} (h : Top3 k f r) : Top3 k f' (mscSwapRecG utn b x r) := by
  have hnd := h.near_d; have hsd := h.seco_d; have hnl := h.near_lt; have hsl := h.seco_lt
  have hne := h.ne; have hle := h.le
  have ht := h.third_cases hk
  have hsecole := fun m (hm : m < k) (h1 : m ≠ r.near.i) => h.seco_le hm h1
  unfold mscSwapRecG
  simp only [rltN, decide_eq_true_eq, Bool.or_eq_true, beq_iff_eq]
  split
  · -- nearest is replaced
    rename_i hnb
    have hsb : r.seco.i ≠ b := by omega
    split
    · rename_i hx
      refine ⟨hb, hfb, hsl, by rw [hfm _ hsb]; exact hsd, by dsimp only; omega, le_of_lt hx, ?_⟩
      rcases ht with ⟨_, t1, t2, t3, t4, t5, t6⟩ | ⟨t1, t2⟩
      · left
        refine ⟨t1, by rw [hfm _ (by dsimp only; omega)]; exact t2, by dsimp only; omega, t4, t5, fun m hm h1 h2 => ?_⟩
        dsimp only at h1 h2
        rw [hfm m h1]; exact t6 m hm (by omega) h2
      · right; exact ⟨t1, t2⟩
    · rename_i hx
      rw [not_lt] at hx
      split
      · rename_i hc
        refine ⟨hsl, by rw [hfm _ hsb]; exact hsd, hb, hfb, hsb, hx, ?_⟩
        rcases ht with ⟨tu, t1, t2, t3, t4, t5, t6⟩ | ⟨t1, t2⟩
        · left
          rcases hc with hc | hc
          · exact absurd hc tu
          · refine ⟨t1, by rw [hfm _ (by dsimp only; omega)]; exact t2, t4, by dsimp only; omega, le_of_lt hc,
              fun m hm h1 h2 => ?_⟩
            dsimp only at h1 h2
            rw [hfm m h2]; exact t6 m hm (by omega) h1
        · right; exact ⟨t1, t2⟩
      · rename_i hc
        rw [not_or] at hc
        rcases ht with ⟨tu, t1, t2, t3, t4, t5, t6⟩ | ⟨t1, t2⟩
        · have htb : r.third.i ≠ b := by omega
          obtain ⟨u1, u2, u3, u4, u5⟩ := hu r.seco.i r.third.i hsb htb
          refine ⟨hsl, by rw [hfm _ hsb]; exact hsd, t1, by rw [hfm _ htb]; exact t2, Ne.symm t4, t5, ?_⟩
          left
          refine ⟨u1, u2, u3, u4, ?_, u5⟩
          dsimp only
          rw [← u2]
          by_cases hub : (utn r.seco.i r.third.i).i = b
          · rw [hub, hfb]; exact not_lt.mp hc.2
          · rw [hfm _ hub]; exact t6 _ u1 (by omega) u3
        · exact absurd t2 hc.1
  · rename_i hnb
    split
    · -- second is replaced
      rename_i hsb
      split
      · rename_i hx
        refine ⟨hb, hfb, hnl, by rw [hfm _ hnb]; exact hnd, by dsimp only; omega, le_of_lt hx, ?_⟩
        rcases ht with ⟨_, t1, t2, t3, t4, t5, t6⟩ | ⟨t1, t2⟩
        · left
          refine ⟨t1, by rw [hfm _ (by dsimp only; omega)]; exact t2, by dsimp only; omega, t3, le_trans hle t5,
            fun m hm h1 h2 => ?_⟩
          dsimp only at h1 h2
          rw [hfm m h1]; exact t6 m hm h2 (by omega)
        · right; exact ⟨t1, t2⟩
      · rename_i hx
        rw [not_lt] at hx
        split
        · rename_i hc
          refine ⟨hnl, by rw [hfm _ hnb]; exact hnd, hb, hfb, hnb, hx, ?_⟩
          rcases ht with ⟨tu, t1, t2, t3, t4, t5, t6⟩ | ⟨t1, t2⟩
          · left
            rcases hc with hc | hc
            · exact absurd hc tu
            · refine ⟨t1, by rw [hfm _ (by dsimp only; omega)]; exact t2, t3, by dsimp only; omega, le_of_lt hc,
                fun m hm h1 h2 => ?_⟩
              dsimp only at h1 h2
              rw [hfm m h2]; exact t6 m hm h1 (by omega)
          · right; exact ⟨t1, t2⟩
        · rename_i hc
          rw [not_or] at hc
          rcases ht with ⟨tu, t1, t2, t3, t4, t5, t6⟩ | ⟨t1, t2⟩
          · have htb : r.third.i ≠ b := by omega
            obtain ⟨u1, u2, u3, u4, u5⟩ := hu r.near.i r.third.i hnb htb
            refine ⟨hnl, by rw [hfm _ hnb]; exact hnd, t1, by rw [hfm _ htb]; exact t2, Ne.symm t3,
              le_trans hle t5, ?_⟩
            left
            refine ⟨u1, u2, u3, u4, ?_, u5⟩
            dsimp only
            rw [← u2]
            by_cases hub : (utn r.near.i r.third.i).i = b
            · rw [hub, hfb]; exact not_lt.mp hc.2
            · rw [hfm _ hub]; exact t6 _ u1 u3 (by omega)
          · exact absurd t2 hc.1
    · rename_i hsb
      split
      · rename_i hx
        refine ⟨hb, hfb, hnl, by rw [hfm _ hnb]; exact hnd, by dsimp only; omega, le_of_lt hx, ?_⟩
        left
        refine ⟨hsl, by rw [hfm _ hsb]; exact hsd, hsb, by dsimp only; omega, hle, fun m hm h1 h2 => ?_⟩
        dsimp only at h1 h2 ⊢
        rw [hfm m h1]; exact hsecole m hm h2
      · rename_i hx
        rw [not_lt] at hx
        split
        · rename_i hx2
          refine ⟨hnl, by rw [hfm _ hnb]; exact hnd, hb, hfb, hnb, hx, ?_⟩
          left
          refine ⟨hsl, by rw [hfm _ hsb]; exact hsd, by dsimp only; omega, hsb, le_of_lt hx2, fun m hm h1 h2 => ?_⟩
          dsimp only at h1 h2 ⊢
          rw [hfm m h2]; exact hsecole m hm h1
        · rename_i hx2
          rw [not_lt] at hx2
          rcases ht with ⟨tu, t1, t2, t3, t4, t5, t6⟩ | ⟨t1, t2⟩
          swap
          · omega
          split
          · rename_i hc
            refine ⟨hnl, by rw [hfm _ hnb]; exact hnd, hsl, by rw [hfm _ hsb]; exact hsd, hne, hle, ?_⟩
            left
            rcases hc with hc | hc
            · exact absurd hc tu
            · refine ⟨hb, hfb, by dsimp only; omega, by dsimp only; omega, hx2, fun m hm h1 h2 => ?_⟩
              dsimp only at h1 h2 ⊢
              by_cases hmb : m = b
              · rw [hmb, hfb]
              · rw [hfm m hmb]; exact le_trans (le_of_lt hc) (t6 m hm h1 h2)
          · rename_i hc
            rw [not_or, not_lt] at hc
            split
            · obtain ⟨u1, u2, u3, u4, u5⟩ := hu r.near.i r.seco.i hnb hsb
              refine ⟨hnl, by rw [hfm _ hnb]; exact hnd, hsl, by rw [hfm _ hsb]; exact hsd, hne, hle, ?_⟩
              left
              refine ⟨u1, u2, u3, u4, ?_, u5⟩
              dsimp only
              rw [← u2]
              by_cases hub : (utn r.near.i r.seco.i).i = b
              · rw [hub, hfb]; exact hx2
              · rw [hfm _ hub]; exact hsecole _ u1 u3
            · rename_i htb
              refine ⟨hnl, by rw [hfm _ hnb]; exact hnd, hsl, by rw [hfm _ hsb]; exact hsd, hne, hle, ?_⟩
              left
              refine ⟨t1, by rw [hfm _ htb]; exact t2, t3, t4, t5, fun m hm h1 h2 => ?_⟩
              by_cases hmb : m = b
              · rw [hmb, hfb]; exact hc.2
              · rw [hfm m hmb]; exact t6 m hm h1 h2

theorem mscSwapRecJ_top3 {k b : Nat} (hk : k < u32Max) (hb : b < k) {f f' : Nat → N}
    (hfb : f' b = 0) (hfm : ∀ m, m ≠ b → f' m = f m) {r : Reco N}
    (h : Top3 k f r) (h0 : ∀ m, m < k → 0 ≤ f m) : Top3 k f' (mscSwapRecJ b r) := by
  have hnd := h.near_d; have hsd := h.seco_d; have hnl := h.near_lt; have hsl := h.seco_lt
  have hne := h.ne; have hle := h.le
  have ht := h.third_cases hk
  have hn0 : 0 ≤ r.near.d := hnd ▸ h0 _ hnl
  unfold mscSwapRecJ
  simp only [zeroN]
  split
  · rename_i hnb
    have hsb : r.seco.i ≠ b := by omega
    refine ⟨hb, hfb, hsl, by rw [hfm _ hsb]; exact hsd, by dsimp only; omega, le_trans hn0 hle, ?_⟩
    rcases ht with ⟨_, t1, t2, t3, t4, t5, t6⟩ | ⟨t1, t2⟩
    · left
      refine ⟨t1, by rw [hfm _ (by dsimp only; omega)]; exact t2, by dsimp only; omega, t4, t5, fun m hm h1 h2 => ?_⟩
      dsimp only at h1 h2
      rw [hfm m h1]; exact t6 m hm (by omega) h2
    · right; exact ⟨t1, t2⟩
  · rename_i hnb
    split
    · rename_i hsb
      refine ⟨hb, hfb, hnl, by rw [hfm _ hnb]; exact hnd, by dsimp only; omega, hn0, ?_⟩
      rcases ht with ⟨_, t1, t2, t3, t4, t5, t6⟩ | ⟨t1, t2⟩
      · left
        refine ⟨t1, by rw [hfm _ (by dsimp only; omega)]; exact t2, by dsimp only; omega, t3, le_trans hle t5,
          fun m hm h1 h2 => ?_⟩
        dsimp only at h1 h2
        rw [hfm m h1]; exact t6 m hm h2 (by omega)
      · right; exact ⟨t1, t2⟩
    · rename_i hsb
      refine ⟨hb, hfb, hnl, by rw [hfm _ hnb]; exact hnd, by dsimp only; omega, hn0, ?_⟩
      left
      refine ⟨hsl, by rw [hfm _ hsb]; exact hsd, hsb, by dsimp only; omega, hle, fun m hm h1 h2 => ?_⟩
      dsimp only at h1 h2 ⊢
      rw [hfm m h1]; exact h.seco_le hm h2

/-- Records after the first pass of the initial assignment, `p ≥ 1` medoids seen. -/
def Top3Init (p : Nat) (f : Nat → N) (r : Reco N) : Prop :=
  (p = 1 ∧ r.near.i = 0 ∧ r.near.d = f 0 ∧ r.seco.i = u32Max ∧ r.third.i = u32Max) ∨
    (2 ≤ p ∧ Top3 p f r)

theorem mscInitStepP_top3 {d : Nat → Nat → N} {i c p : Nat} {f : Nat → N} (hp1 : 1 ≤ p) (hp : p < u32Max)
    (hf : f p = d i c) (hown : i = c → ∀ m, m ≤ p → f p ≤ f m) {r : Reco N} (h : Top3Init p f r) :
    Top3Init (p + 1) f (mscInitStepP d i r (c, p)) := by
  right
  refine ⟨by omega, ?_⟩
  unfold mscInitStepP
  simp only [rltN, decide_eq_true_eq, Bool.or_eq_true, beq_iff_eq, ← hf]
  rcases h with ⟨rfl, h1, h2, h3, h4⟩ | ⟨hp2, h⟩
  · split
    · rename_i hc
      refine ⟨by simp, rfl, by dsimp only; omega, by rw [h1, h2], by dsimp only; omega, ?_, Or.inr ⟨rfl, h3⟩⟩
      rcases hc with hc | hc
      · exact le_of_lt hc
      · dsimp only; rw [h2]; exact hown hc 0 (by omega)
    · rename_i hc
      rw [not_or, not_lt] at hc
      rw [if_pos (Or.inl h3)]
      exact ⟨by dsimp only; omega, by rw [h1, h2], by simp, rfl, by dsimp only; omega, hc.1, Or.inr ⟨rfl, h3⟩⟩
  · have hnd := h.near_d; have hsd := h.seco_d; have hnl := h.near_lt; have hsl := h.seco_lt
    have hne := h.ne; have hle := h.le
    have ht := h.third_cases hp
    split
    · rename_i hc
      have hle' : f p ≤ r.near.d := by
        rcases hc with hc | hc
        · exact le_of_lt hc
        · rw [← hnd]; exact hown hc _ (by omega)
      refine ⟨by simp, rfl, by dsimp only; omega, hnd, by dsimp only; omega, hle', ?_⟩
      left
      refine ⟨by dsimp only; omega, hsd, by dsimp only; omega, by dsimp only; omega, hle, fun m hm h1 h2 => ?_⟩
      exact h.seco_le (by dsimp only at h1; omega) h2
    · rename_i hc
      rw [not_or, not_lt] at hc
      have hsu : r.seco.i ≠ u32Max := by omega
      split
      · rename_i hc2
        rcases hc2 with hc2 | hc2
        · exact absurd hc2 hsu
        refine ⟨by dsimp only; omega, hnd, by simp, rfl, by dsimp only; omega, hc.1, ?_⟩
        left
        refine ⟨by dsimp only; omega, hsd, by dsimp only; omega, by dsimp only; omega, le_of_lt hc2, fun m hm h1 h2 => ?_⟩
        exact h.seco_le (by dsimp only at h2; omega) h1
      · rename_i hc2
        rw [not_or, not_lt] at hc2
        split
        · rename_i hc3
          refine ⟨by dsimp only; omega, hnd, by dsimp only; omega, hsd, hne, hle, ?_⟩
          left
          refine ⟨by simp, rfl, by dsimp only; omega, by dsimp only; omega, hc2.2, fun m hm h1 h2 => ?_⟩
          dsimp only at h1 h2 ⊢
          by_cases hmp : m = p
          · rw [hmp]
          · rcases ht with ⟨tu, t1, t2, t3, t4, t5, t6⟩ | ⟨t1, t2⟩
            · rcases hc3 with hc3 | hc3
              · exact absurd hc3 tu
              · exact le_trans (le_of_lt hc3) (t6 m (by omega) h1 h2)
            · omega
        · rename_i hc3
          rw [not_or, not_lt] at hc3
          rcases ht with ⟨tu, t1, t2, t3, t4, t5, t6⟩ | ⟨t1, t2⟩
          · refine ⟨by omega, hnd, by omega, hsd, hne, hle, ?_⟩
            left
            refine ⟨by omega, t2, t3, t4, t5, fun m hm h1 h2 => ?_⟩
            by_cases hmp : m = p
            · rw [hmp]; exact hc3.2
            · exact t6 m (by omega) h1 h2
          · exact absurd t2 hc3.1

/-! ## the whole cache -/

/-- distance of object `o` to medoid number `m` -/
def medDist (d : Nat → Nat → N) (med : List Nat) (o m : Nat) : N := d o (med.getD m 0)

theorem medDist_get {d : Nat → Nat → N} {med : List Nat} {o m c : Nat} (h : med[m]? = some c) :
    medDist d med o m = d o c := by
  simp [medDist, List.getD_eq_getElem?_getD, h]

theorem medDist_set {d : Nat → Nat → N} {med : List Nat} {b j o : Nat} (hb : b < med.length) :
    medDist d (med.set b j) o b = d o j ∧ ∀ m, m ≠ b → medDist d (med.set b j) o m = medDist d med o m := by
  refine ⟨?_, fun m hm => ?_⟩
  · exact medDist_get (by rw [getElem?_set_lt hb]; simp)
  · simp only [medDist, List.getD_eq_getElem?_getD, getElem?_set_lt hb, if_neg hm]

theorem medDist_nonneg {n : Nat} {d : Nat → Nat → N} (hd : Dissim n d) {med : List Nat}
    (hr : ∀ m ∈ med, m < n) {o : Nat} (ho : o < n) {m : Nat} (hm : m < med.length) :
    0 ≤ medDist d med o m := by
  rw [medDist_get (List.getElem?_eq_getElem hm)]
  exact hd.nonneg _ _ ho (hr _ (List.getElem_mem hm))

/-- All records are right, and every medoid is its own nearest. -/
structure MCache (n : Nat) (d : Nat → Nat → N) (med : List Nat) (data : List (Reco N)) : Prop where
  len : data.length = n
  reco : ∀ (o : Nat) (r : Reco N), data[o]? = some r → Top3 med.length (medDist d med o) r
  own : ∀ (m o : Nat) (r : Reco N), med[m]? = some o → data[o]? = some r → r.near.i = m

theorem foldl_zipIdx_prefix {α σ : Type} (I : Nat → σ → Prop) {g : σ → α × Nat → σ} {xs : List α} {s : σ}
    (a : Nat)
    (h : ∀ (i : Nat) (x : α) (s : σ), a ≤ i → xs[i]? = some x → I i s → I (i + 1) (g s (x, i)))
    (ha : a ≤ xs.length) (hs : I a s) : I xs.length ((xs.zipIdx.drop a).foldl g s) := by
  suffices H : ∀ m i s, i + m = xs.length → a ≤ i → I i s → I xs.length ((xs.zipIdx.drop i).foldl g s) from
    H (xs.length - a) a s (by omega) le_rfl hs
  intro m
  induction m with
  | zero =>
    intro i s hi _ hI
    rw [List.drop_eq_nil_of_le (by simp; omega)]
    have : i = xs.length := by omega
    subst this; exact hI
  | succ m ih =>
    intro i s hi hai hI
    have hlt : i < xs.length := by omega
    rw [List.drop_eq_getElem_cons (by simpa using hlt)]
    simp only [List.getElem_zipIdx, Nat.zero_add, List.foldl_cons]
    exact ih (i + 1) _ (by omega) (by omega) (h i _ s hai (List.getElem?_eq_getElem hlt) hI)

theorem mscInitRecP_top3 {n : Nat} {d : Nat → Nat → N} (hd : Dissim n d) {med : List Nat}
    (hv : ValidMeds n med) (hk : 2 ≤ med.length) {o : Nat} (ho : o < n) :
    Top3 med.length (medDist d med o) (mscInitRecP d med o) := by
  have := foldl_zipIdx_prefix (fun p r => Top3Init p (medDist d med o) r) (g := mscInitStepP d o)
    (xs := med) (s := ⟨⟨0, d o (med.headD 0)⟩, ⟨u32Max, RDist.zero⟩, ⟨u32Max, RDist.zero⟩⟩) 1
    (fun i x s hi hx hI => mscInitStepP_top3 hi
      (lt_trans (List.getElem?_eq_some_iff.mp hx).1 hv.sizes.k_lt) (medDist_get hx) (fun e m hm => by
        rw [medDist_get hx, ← e, hd.diag o ho]
        have := (List.getElem?_eq_some_iff.mp hx).1
        exact medDist_nonneg hd hv.range ho (by omega)) hI) (by omega) (Or.inl ⟨rfl, rfl, ?_, rfl, rfl⟩)
  · rcases this with ⟨h, _⟩ | ⟨_, h⟩
    · omega
    · exact h
  · cases med with
    | nil => simp at hk
    | cons a t => simp [medDist]

theorem mscInitRecP_own {n : Nat} {d : Nat → Nat → N} (hd : Dissim n d) {med : List Nat}
    (hv : ValidMeds n med) (hnd : med.Nodup) {o m : Nat} (hm : med[m]? = some o) :
    (mscInitRecP d med o).near.i = m := by
  have ho : o < n := hv.range o (List.mem_of_getElem? hm)
  have hlt := (List.getElem?_eq_some_iff.mp hm).1
  have := foldl_zipIdx_prefix (fun p (r : Reco N) => m < p → r.near.i = m ∧ r.near.d = 0)
    (g := mscInitStepP d o) (xs := med)
    (s := ⟨⟨0, d o (med.headD 0)⟩, ⟨u32Max, RDist.zero⟩, ⟨u32Max, RDist.zero⟩⟩) 1
    (fun i x s hi hx hI hmi => ?_) (by omega) (fun h => ?_)
  · exact (this hlt).1
  · unfold mscInitStepP
    simp only [rltN, decide_eq_true_eq, Bool.or_eq_true, beq_iff_eq]
    by_cases hmi' : m = i
    · subst hmi'
      rw [hm] at hx; cases hx
      rw [if_pos (Or.inr rfl)]
      exact ⟨rfl, hd.diag o ho⟩
    · obtain ⟨h1, h2⟩ := hI (by omega)
      have hxn : x < n := hv.range x (List.mem_of_getElem? hx)
      have hne : o ≠ x := by
        intro e
        rw [← e] at hx
        obtain ⟨l1, e1⟩ := List.getElem?_eq_some_iff.mp hm
        obtain ⟨l2, e2⟩ := List.getElem?_eq_some_iff.mp hx
        exact hmi' ((List.Nodup.getElem_inj_iff hnd).mp (e1.trans e2.symm))
      rw [if_neg (by
        rintro (h | h)
        · rw [h2] at h; exact absurd (hd.nonneg o x ho hxn) (not_le.mpr h)
        · exact hne h)]
      split
      · exact ⟨h1, h2⟩
      · split <;> exact ⟨h1, h2⟩
  · have : m = 0 := by omega
    subst this
    cases med with
    | nil => simp at hm
    | cons a t =>
      simp at hm
      subst hm
      exact ⟨rfl, hd.diag a ho⟩

theorem mscInitDataP_cache {n : Nat} {d : Nat → Nat → N} (hd : Dissim n d) {med : List Nat}
    (hv : ValidMeds n med) (hnd : med.Nodup) (hk : 2 ≤ med.length) :
    MCache n d med (mscInitDataP d n med) := by
  have hget : ∀ (o : Nat) (r : Reco N), (mscInitDataP d n med)[o]? = some r → o < n ∧ r = mscInitRecP d med o := by
    intro o r h
    have := List.getElem?_eq_some_iff.mp h
    obtain ⟨h1, h2⟩ := this
    simp [mscInitDataP] at h1 h2
    exact ⟨h1, h2.symm⟩
  refine ⟨by simp [mscInitDataP], fun o r h => ?_, fun m o r hm h => ?_⟩
  · obtain ⟨ho, rfl⟩ := hget o r h
    exact mscInitRecP_top3 hd hv hk ho
  · obtain ⟨ho, rfl⟩ := hget o r h
    exact mscInitRecP_own hd hv hnd hm

theorem utnP_ok (d : Nat → Nat → N) {med : List Nat} {b o j : Nat} (hb : med[b]? = some j) :
    UtnOk med.length (medDist d med o) b (fun x y => utnP d med x y b o (d o j)) := by
  intro x y hx hy
  have hbl := (List.getElem?_eq_some_iff.mp hb).1
  have := foldl_zipIdx_prefix (fun p (s : DistancePair N) => s.i < med.length ∧ medDist d med o s.i = s.d ∧
      s.i ≠ x ∧ s.i ≠ y ∧ s.d ≤ medDist d med o b ∧
      ∀ m, m < p → m ≠ x → m ≠ y → s.d ≤ medDist d med o m)
    (g := fun (dist : DistancePair N) (p : Nat × Nat) =>
      if p.2 = x ∨ p.2 = b ∨ p.2 = y then dist
      else if rlt (d o p.1) dist.d then ⟨p.2, d o p.1⟩ else dist) (xs := med) (s := ⟨b, d o j⟩) 0
    (fun i c s _ hc hI => ?_) (Nat.zero_le _) ?_
  · obtain ⟨h1, h2, h3, h4, _, h5⟩ := this
    exact ⟨h1, h2, h3, h4, h5⟩
  · obtain ⟨h1, h2, h3, h4, h5, h6⟩ := hI
    have hil := (List.getElem?_eq_some_iff.mp hc).1
    have hr := rltN (d o c) s.d
    dsimp only
    split
    · rename_i hcase
      refine ⟨h1, h2, h3, h4, h5, fun m hm hmx hmy => ?_⟩
      by_cases hmi : m = i
      · subst hmi
        rcases hcase with h | h | h
        · exact absurd h hmx
        · rw [h]; exact h5
        · exact absurd h hmy
      · exact h6 m (by omega) hmx hmy
    · rename_i hcase
      rw [not_or, not_or] at hcase
      rw [hr]
      by_cases hlt : d o c < s.d
      · simp only [hlt, decide_true, if_true]
        refine ⟨hil, medDist_get hc, hcase.1, hcase.2.2, le_trans (le_of_lt hlt) h5, fun m hm hmx hmy => ?_⟩
        by_cases hmi : m = i
        · subst hmi; rw [medDist_get hc]
        · exact le_trans (le_of_lt hlt) (h6 m (by omega) hmx hmy)
      · simp only [hlt, decide_false, Bool.false_eq_true, if_false]
        refine ⟨h1, h2, h3, h4, h5, fun m hm hmx hmy => ?_⟩
        by_cases hmi : m = i
        · subst hmi; rw [medDist_get hc]; exact not_lt.mp hlt
        · exact h6 m (by omega) hmx hmy
  · exact ⟨hbl, medDist_get hb, Ne.symm hx, Ne.symm hy, by rw [medDist_get hb], by intro m hm; omega⟩

theorem mscSwapDataP_get {d : Nat → Nat → N} {med : List Nat} {data : List (Reco N)} {b j o : Nat}
    {r' : Reco N} (h : (mscSwapDataP d med data b j)[o]? = some r') :
    ∃ r, data[o]? = some r ∧ r' = mscSwapRecP d (med.set b j) b j (r, o) := by
  obtain ⟨h1, h2⟩ := List.getElem?_eq_some_iff.mp h
  simp [mscSwapDataP] at h1 h2
  exact ⟨data[o], List.getElem?_eq_getElem h1, h2.symm⟩

theorem mscSwapDataP_cache {n : Nat} {d : Nat → Nat → N} (hd : Dissim n d) {med : List Nat}
    {data : List (Reco N)} (hku : med.length < u32Max) (hr : ∀ m ∈ med, m < n) {b j : Nat} (hb : b < med.length)
    (hj : j < n) (hjm : j ∉ med) (h : MCache n d med data) :
    MCache n d (med.set b j) (mscSwapDataP d med data b j) := by
  have hlen : (med.set b j).length = med.length := by simp
  have hsb : (med.set b j)[b]? = some j := by rw [getElem?_set_lt hb]; simp
  refine ⟨by simp [mscSwapDataP, h.len], fun o r' hr' => ?_, fun m o r' hm hr' => ?_⟩
  · obtain ⟨r, hget, rfl⟩ := mscSwapDataP_get hr'
    have ho : o < n := h.len ▸ (List.getElem?_eq_some_iff.mp hget).1
    obtain ⟨hs1, hs2⟩ := medDist_set (d := d) (j := j) (o := o) hb
    unfold mscSwapRecP
    rw [hlen]
    by_cases hoj : o = j
    · subst hoj
      rw [if_pos rfl]
      exact mscSwapRecJ_top3 hku hb (by rw [hs1, hd.diag o ho]) hs2 (h.reco o r hget)
        (fun m hm => medDist_nonneg hd hr ho hm)
    · rw [if_neg hoj]
      have hu := utnP_ok d (o := o) hsb
      rw [hlen] at hu
      exact mscSwapRecG_top3 hku hb hs1 hs2 hu (h.reco o r hget)
  · obtain ⟨r, hget, rfl⟩ := mscSwapDataP_get hr'
    have ho : o < n := h.len ▸ (List.getElem?_eq_some_iff.mp hget).1
    rw [getElem?_set_lt hb] at hm
    unfold mscSwapRecP
    dsimp only
    by_cases hmb : m = b
    · subst hmb
      simp at hm
      subst hm
      rw [if_pos rfl]
      unfold mscSwapRecJ
      split
      · rfl
      · split <;> rfl
    · rw [if_neg hmb] at hm
      have hoj : o ≠ j := by
        rintro rfl; exact hjm (List.mem_of_getElem? hm)
      rw [if_neg hoj]
      have hn := h.own m o r hm hget
      have ht := h.reco o r hget
      have hz : r.near.d = 0 := by
        rw [← ht.near_d, hn, medDist_get hm, hd.diag o ho]
      have hnl : ¬ d o j < r.near.d := by rw [hz]; exact not_lt.mpr (hd.nonneg o j ho hj)
      unfold mscSwapRecG
      simp only [rltN, decide_eq_true_eq, Bool.or_eq_true, beq_iff_eq, hnl, if_false]
      rw [if_neg (by omega)]
      split
      · split <;> exact hn
      · split
        · exact hn
        · split
          · exact hn
          · split <;> exact hn

theorem MCache.get {n : Nat} {d : Nat → Nat → N} {med : List Nat} {data : List (Reco N)}
    (h : MCache n d med data) {o : Nat} (ho : o < n) : ∃ r, data[o]? = some r :=
  ⟨data[o]'(h.len ▸ ho), List.getElem?_eq_getElem _⟩

theorem MCache.mshape {n : Nat} {d : Nat → Nat → N} {med : List Nat} {data : List (Reco N)}
    (h : MCache n d med data) (hr : ∀ m ∈ med, m < n) : MShape n med.length med data := by
  refine ⟨rfl, hr, h.len, fun r hmem => ?_⟩
  obtain ⟨o, ho⟩ := List.mem_iff_getElem?.mp hmem
  have := h.reco o r ho
  exact ⟨this.near_lt, this.seco_lt, by rcases this.third with t | t; exact Or.inl t.1; exact Or.inr t.2⟩

theorem MCache.assignment {n : Nat} {d : Nat → Nat → N} {med : List Nat} {data : List (Reco N)}
    (h : MCache n d med data) (hr : ∀ m ∈ med, m < n) : NearestAssignment n d med (data.map (·.near.i)) := by
  refine ⟨by simp [h.len], fun o m hm => ?_, fun m c hm => ?_⟩
  · rw [List.getElem?_map] at hm
    obtain ⟨r, hget, rfl⟩ := Option.map_eq_some_iff.mp hm
    have ht := h.reco o r hget
    refine ⟨med[r.near.i]'ht.near_lt, List.getElem?_eq_getElem _, fun c hc => ?_⟩
    obtain ⟨m, hm⟩ := List.mem_iff_getElem?.mp hc
    rw [← medDist_get (d := d) (o := o) (List.getElem?_eq_getElem ht.near_lt), ht.near_d,
      ← medDist_get (d := d) (o := o) hm]
    exact ht.near_le (List.getElem?_eq_some_iff.mp hm).1
  · obtain ⟨r, hget⟩ := h.get (hr c (List.mem_of_getElem? hm))
    rw [List.getElem?_map, hget, Option.map_some, h.own m c r hm hget]

/-- A candidate is skipped exactly if it is a medoid. -/
theorem MCache.ownP {n : Nat} {d : Nat → Nat → N} {med : List Nat} {data : List (Reco N)}
    (h : MCache n d med data) {j : Nat} (hj : j < n) : mscOwnP med data j = true ↔ j ∈ med := by
  obtain ⟨r, hget⟩ := h.get hj
  simp only [mscOwnP, hget, beq_iff_eq]
  constructor
  · exact fun h' => List.mem_of_getElem? h'
  · intro h'
    obtain ⟨m, hm⟩ := List.mem_iff_getElem?.mp h'
    rw [h.own m j r hm hget]; exact hm

end KMedoids
