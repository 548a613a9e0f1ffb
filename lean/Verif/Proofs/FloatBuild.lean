import Verif.Proofs.BuildAny
import Verif.Props.C70

/-! # BUILD in floating point arithmetic -/

set_option linter.unusedSectionVars false
set_option linter.overlappingInstances false

namespace KMedoids

open RFrom (conv)

section sums
variable {G : Type} [AddCommGroup G]

theorem sum_sub_map {α : Type} (xs : List α) (f g : α → G) :
    (xs.map fun x => f x - g x).sum = (xs.map f).sum - (xs.map g).sum := by
  induction xs with
  | nil => simp
  | cons x xs ih => simp only [List.map_cons, List.sum_cons, ih]; abel

/-- Split off the term of one object. -/
theorem sum_split_at {α : Type} (l : List α) (f : α × Nat → G) (s : Nat) {j : Nat} {x : α} (h : l[j]? = some x) :
    ((l.zipIdx s).map f).sum = f (x, s + j) + ((l.zipIdx s).map fun p => if p.2 = s + j then 0 else f p).sum := by
  induction l generalizing s j with
  | nil => simp at h
  | cons y l ih =>
    simp only [List.zipIdx_cons, List.map_cons, List.sum_cons]
    cases j with
    | zero =>
      simp only [List.getElem?_cons_zero, Option.some.injEq] at h
      subst h
      have : ((l.zipIdx (s + 1)).map fun p => if p.2 = s + 0 then 0 else f p) = (l.zipIdx (s + 1)).map f :=
        List.map_congr_left fun p hp => by
          have := List.le_snd_of_mem_zipIdx hp
          rw [if_neg (by omega)]
      rw [this]; simp
    | succ j =>
      rw [ih (s + 1) (by simpa using h), if_neg (by simp), show s + 1 + j = s + (j + 1) by omega]
      abel

theorem sum_range_at {α : Type} (l : List α) (f : Nat → G) :
    ((List.range l.length).map f).sum = (l.zipIdx.map fun p => f p.2).sum := by
  have : (l.zipIdx.map fun p => f p.2) = (List.range l.length).map f := by
    rw [List.range_eq_range', ← List.zipIdx_map_snd 0 l, List.map_map]; rfl
  rw [this]

end sums

variable {N L K : Type} [LinearOrder N] [Zero N] [RDist N] [LawfulDist N] [RLoss L] [RFrom N L]
  [Field K] [LinearOrder K] [IsStrictOrderedRing K]
variable {fin : L → Prop} {val : L → K} {u B : K}

theorem FloatLoss.negZero (M : FloatLoss N fin val u B) : NegZero N L := by
  obtain ⟨h1, h2⟩ := M.std.neg _ (M.conv_fin (0 : N))
  refine (M.std.rge_iff h1 M.std.zero_fin).mpr ?_
  rw [h2, M.conv_zero, M.std.zero, neg_zero]

theorem argminP_float (M : StdModel fin val u B) (f : Nat → L) {n : Nat} (k : Nat) (hn : 0 < n)
    (hf : ∀ x < n, fin (f x)) : fin (argminP f n k).1 ∧ ∀ x < n, val (argminP f n k).1 ≤ val (f x) := by
  induction n with
  | zero => omega
  | succ n ih =>
    have hstep : argminP f (n + 1) k = if (n == 0 || rlt (f n) (argminP f n k).1) = true then (f n, n)
        else argminP f n k := by
      unfold argminP
      rw [List.range_succ, List.foldl_append, List.foldl_cons, List.foldl_nil]
    rw [hstep]
    by_cases h0 : n = 0
    · subst h0
      exact ⟨by simpa using hf 0 (by omega), fun x hx => by simp [show x = 0 by omega]⟩
    · obtain ⟨i1, i2⟩ := ih (by omega) fun x hx => hf x (by omega)
      have hfn := hf n (by omega)
      split
      · rename_i h
        simp only [beq_iff_eq, h0, Bool.or_eq_true, false_or, M.rlt_iff hfn i1] at h
        refine ⟨hfn, fun x hx => ?_⟩
        by_cases hxn : x = n
        · rw [hxn]
        · exact h.le.trans (i2 x (by omega))
      · rename_i h
        simp only [beq_iff_eq, h0, Bool.or_eq_true, false_or, M.rlt_iff hfn i1, not_lt] at h
        refine ⟨i1, fun x hx => ?_⟩
        by_cases hxn : x = n
        · rw [hxn]; exact h
        · exact i2 x (by omega)

/-- The loss of BUILD is accurate. -/
theorem appr_skipSum (M : FloatLoss N fin val u B) {n : Nat} {d : Nat → Nat → N} (hd : Dissim n d) {med : List Nat}
    (hr : ∀ c ∈ med, c < n) {c : Nat} (hc : c ∈ med) (hB : (1 + u) ^ (n - 1) * exactDev N val n d med ≤ B) :
    Appr fin val u (n - 1) (exactDev N val n d med) (exactDev N val n d med) (skipSum L n d med c) := by
  have hcn := hr c hc
  have hne : med ≠ [] := List.ne_nil_of_mem hc
  have hx : ∀ o, o < n → 0 ≤ val (conv (minDist d o med) : L) := fun o ho => M.val_nonneg (minDist_nonneg hd hne hr ho)
  have h0 : minDist d c med = 0 := by
    rw [minDist_eq hc fun c' hc' => by rw [hd.diag c hcn]; exact hd.nonneg c c' hcn (hr c' hc'), hd.diag c hcn]
  have hsum : ((((List.range n).filter (· ≠ c)).map fun o => val (conv (minDist d o med) : L))).sum =
      exactDev N val n d med := by
    have h1 : ∀ l : List Nat, (((l.filter (· ≠ c)).map fun o => val (conv (minDist d o med) : L))).sum =
          (l.map fun o => val (conv (minDist d o med) : L)).sum := by
      intro l
      induction l with
      | nil => rfl
      | cons o l ih =>
        rw [List.map_cons, List.sum_cons, ← ih]
        by_cases h : o = c
        · subst h
          rw [List.filter_cons_of_neg (by simp), h0, M.conv_zero, M.std.zero, zero_add]
        · rw [List.filter_cons_of_pos (by simpa using h), List.map_cons, List.sum_cons]
    exact h1 _
  have hlen : ((List.range n).filter (· ≠ c)).length = n - 1 := by
    have h1 : (List.range n).filter (· ≠ c) = (List.range n).erase c := by
      rw [List.nodup_range.erase_eq_filter]
      exact List.filter_congr fun x _ => by by_cases h : x = c <;> simp [h]
    rw [h1, List.length_erase_of_mem (List.mem_range.mpr hcn), List.length_range]
  have hb : BracketSum ((RLoss.zero : L) :: ((List.range n).filter (· ≠ c)).map fun o => (conv (minDist d o med) : L))
      (skipSum L n d med c) := by
    have := leftSum_bracket (L := L)
      (xs := RLoss.zero :: ((List.range n).filter (· ≠ c)).map fun o => (conv (minDist d o med) : L)) (by simp)
    rw [leftSum, List.foldl_map, List.foldl_filter] at this
    have e : (fun (x : L) (y : Nat) => if decide (y ≠ c) = true then RLoss.add x (conv (minDist d y med)) else x) =
        fun x y => if y = c then x else RLoss.add x (conv (minDist d y med)) := by
      funext x y
      by_cases h : y = c <;> simp [h]
    rwa [e] at this
  have hval : ((RLoss.zero : L) :: ((List.range n).filter (· ≠ c)).map fun o => (conv (minDist d o med) : L)).map val =
      0 :: ((List.range n).filter (· ≠ c)).map fun o => val (conv (minDist d o med) : L) := by
    rw [List.map_cons, M.std.zero, List.map_map]; rfl
  have := hb.appr M.std (fun x hx' => ?_) (by
    rw [hval, List.sum_cons, zero_add, hsum, List.length_cons, List.length_map, hlen, Nat.add_sub_cancel]; exact hB)
  · rwa [hval, List.sum_cons, zero_add, hsum, List.length_cons, List.length_map, hlen, Nat.add_sub_cancel] at this
  · rcases List.mem_cons.mp hx' with rfl | hx'
    · exact ⟨M.std.zero_fin, M.std.zero.ge⟩
    · obtain ⟨o, ho, rfl⟩ := List.mem_map.mp hx'
      exact ⟨M.conv_fin _, hx o (List.mem_range.mp (List.mem_filter.mp ho).1)⟩

/-- A loop that adds terms that are not positive to a negative number. -/
theorem Appr.foldl_neg (M : StdModel fin val u B) {α : Type} {step : L → α → L} {S A : α → K} {ps : List α}
    (hstep : ∀ p ∈ ps, 0 ≤ A p ∧ ((S p = 0 ∧ ∀ acc, step acc p = acc) ∨
      ∃ t, Appr fin val u 1 (S p) (A p) t ∧ val t ≤ 0 ∧ ∀ acc, step acc p = RLoss.add acc t))
    {m : Nat} (hm : 1 ≤ m) {s a : K} {x : L} (h : Appr fin val u m s a x)
    (hB : (1 + u) ^ (m + ps.length) * (a + (ps.map A).sum) ≤ B) (hx : val x < 0) : val (ps.foldl step x) < 0 := by
  induction ps generalizing m s a x with
  | nil => simpa using hx
  | cons p ps ih =>
    obtain ⟨hA, hp⟩ := hstep p (by simp)
    have hrest : 0 ≤ (ps.map A).sum := List.sum_nonneg fun y hy => by
      obtain ⟨q, hq, rfl⟩ := List.mem_map.mp hy
      exact (hstep q (by simp [hq])).1
    have ha := h.nonneg
    rw [List.foldl_cons]
    rw [List.map_cons, List.sum_cons, ← add_assoc, List.length_cons,
      show m + (ps.length + 1) = (m + 1) + ps.length by omega] at hB
    have hstep' := fun q (hq : q ∈ ps) => hstep q (by simp [hq])
    rcases hp with ⟨h0, hs⟩ | ⟨t, ht, htn, hs⟩
    · rw [hs]
      exact ih hstep' (by omega) (h.mono M (Nat.le_succ m) (show a ≤ a + A p by linarith)) hB hx
    · rw [hs]
      have hB' : (1 + u) ^ m * (a + A p) ≤ B := by
        refine le_trans ?_ hB
        have h1 : (1 + u) ^ m ≤ (1 + u) ^ (m + 1 + ps.length) := M.pow_mono (by omega)
        calc (1 + u) ^ m * (a + A p) ≤ (1 + u) ^ (m + 1 + ps.length) * (a + A p) :=
              mul_le_mul_of_nonneg_right h1 (by linarith)
          _ ≤ _ := mul_le_mul_of_nonneg_left (by linarith) (by linarith [M.one_le_pow (m + 1 + ps.length)])
      have ht' := ht.mono M hm le_rfl
      refine ih hstep' (by omega) (h.add M ht' hB') hB ?_
      have hb : |val x + val t| ≤ B := by
        refine le_trans ?_ hB'
        calc |val x + val t| ≤ |val x| + |val t| := abs_add_le _ _
          _ ≤ _ := by rw [mul_add]; exact add_le_add h.abs_val ht'.abs_val
      by_contra hn
      have := (M.add_sign h.fin ht.fin hb).mp (not_lt.mp hn)
      linarith

section build
variable {n : Nat} {d : Nat → Nat → N} {meds : List Nat} {i : Nat}

/-- The rounded gain of a candidate, and its sign. -/
theorem appr_buildSum (M : FloatLoss N fin val u B) (hd : Dissim n d) (hne : meds ≠ []) (hr : ∀ m ∈ meds, m < n)
    (hi : i < n) (hB : (1 + u) ^ (n + 1) * exactDev N val n d meds ≤ B) :
    Appr fin val u (n + 1) (exactDev N val n d (meds ++ [i]) - exactDev N val n d meds) (exactDev N val n d meds)
      (buildSumP L d ((List.range n).map fun o => minDist d o meds) i) ∧
    (0 < val (conv (minDist d i meds) : L) →
      val (buildSumP L d ((List.range n).map fun o => minDist d o meds) i) < 0) := by
  have hg : ((List.range n).map fun o => minDist d o meds)[i]? = some (minDist d i meds) := by
    simp [hi]
  have hnn : ∀ o, o < n → 0 ≤ val (conv (minDist d o meds) : L) := fun o ho =>
    M.val_nonneg (minDist_nonneg hd hne hr ho)
  unfold buildSumP
  rw [List.getD_eq_getElem?_getD, hg, Option.getD_some]
  generalize hnear : ((List.range n).map fun o => minDist d o meds) = near at *
  have hlen : near.length = n := by rw [← hnear]; simp
  have hlz : near.zipIdx.length = n := by rw [List.length_zipIdx, hlen]
  have hat : ∀ p ∈ near.zipIdx, p.1 = minDist d p.2 meds ∧ p.2 < n := by
    intro p hp
    rw [← hnear] at hp
    obtain ⟨h1, h2⟩ := mem_range_map_zipIdx hp
    exact ⟨h2, h1⟩
  let f : N × Nat → K := fun p => val (conv (min p.1 (d p.2 i)) : L) - val (conv p.1 : L)
  let g : N × Nat → K := fun p => val (conv p.1 : L)
  let S : N × Nat → K := fun p => if p.2 = i then 0 else f p
  let A : N × Nat → K := fun p => if p.2 = i then 0 else g p
  have split : ∀ f : N × Nat → K, (near.zipIdx.map f).sum = f (minDist d i meds, i) +
      (near.zipIdx.map fun p => if p.2 = i then 0 else f p).sum := fun f => by
    simpa using sum_split_at near f 0 hg
  have hT : exactDev N val n d meds = (near.zipIdx.map g).sum := by
    have h := sum_range_at near (fun o => val (conv (minDist d o meds) : L))
    rw [hlen] at h
    unfold exactDev totalDev
    rw [h]
    congr 1
    exact List.map_congr_left fun p hp => by simp only [g, (hat p hp).1]
  have hS : exactDev N val n d (meds ++ [i]) - exactDev N val n d meds = (near.zipIdx.map f).sum := by
    have h := sum_range_at near
      (fun o => val (conv (minDist d o (meds ++ [i])) : L) - val (conv (minDist d o meds) : L))
    rw [hlen] at h
    unfold exactDev totalDev
    rw [← sum_sub_map, h]
    congr 1
    exact List.map_congr_left fun p hp => by simp only [f, (hat p hp).1, minDist_append d p.2 hne]
  have hT' := hT.trans (split g)
  have hS' := hS.trans (split f)
  have hA0 : ∀ p ∈ near.zipIdx, 0 ≤ A p := fun p hp => by
    simp only [A, g]
    split
    · exact le_rfl
    · rw [(hat p hp).1]; exact hnn _ (hat p hp).2
  have hAsum : 0 ≤ (near.zipIdx.map A).sum := List.sum_nonneg fun x hx => by
    obtain ⟨p, hp, rfl⟩ := List.mem_map.mp hx
    exact hA0 p hp
  have hi0 := hnn i hi
  have hTB : exactDev N val n d meds ≤ B := by
    have := M.std.one_le_pow (n + 1)
    have h0 : 0 ≤ exactDev N val n d meds := by rw [hT']; exact add_nonneg hi0 hAsum
    nlinarith
  obtain ⟨n1, n2⟩ := M.std.neg _ (M.conv_fin (minDist d i meds))
  have hfi : f (minDist d i meds, i) = val (RLoss.neg (conv (minDist d i meds) : L)) := by
    simp only [f, hd.diag i hi, min_eq_right (minDist_nonneg hd hne hr hi), M.conv_zero, M.std.zero, zero_sub, n2]
  have hgi : g (minDist d i meds, i) = |val (RLoss.neg (conv (minDist d i meds) : L))| := by
    rw [n2, abs_neg, abs_of_nonneg hi0]
  have h0 : Appr fin val u 1 (f (minDist d i meds, i)) (g (minDist d i meds, i))
      (RLoss.neg (conv (minDist d i meds) : L)) := by
    rw [hfi, hgi]
    exact (Appr.exact n1).mono M.std (Nat.zero_le 1) le_rfl
  have hB1 : (1 + u) ^ (1 + near.zipIdx.length) * (g (minDist d i meds, i) + (near.zipIdx.map A).sum) ≤ B := by
    rw [hlz, ← hT', Nat.add_comm]; exact hB
  have hstep : ∀ p ∈ near.zipIdx, 0 ≤ A p ∧ ((S p = 0 ∧ ∀ acc : L, (if p.2 ≠ i then
      if rlt (d p.2 i) p.1 then RLoss.add acc (RLoss.sub (conv (d p.2 i)) (conv p.1)) else acc else acc) = acc) ∨
      ∃ t, Appr fin val u 1 (S p) (A p) t ∧ val t ≤ 0 ∧ ∀ acc : L, (if p.2 ≠ i then
      if rlt (d p.2 i) p.1 then RLoss.add acc (RLoss.sub (conv (d p.2 i)) (conv p.1)) else acc else acc) =
        RLoss.add acc t) := fun p hp => by
    refine ⟨hA0 p hp, ?_⟩
    by_cases hpi : p.2 = i
    · left; exact ⟨by simp [S, hpi], fun acc => by simp [hpi]⟩
    · by_cases hlt : d p.2 i < p.1
      · right
        have h1 : 0 ≤ val (conv (d p.2 i) : L) := M.val_nonneg (hd.nonneg _ _ (hat p hp).2 hi)
        have h2 : val (conv (d p.2 i) : L) ≤ val (conv p.1) := M.conv_mono hlt.le
        have hAp : A p = val (conv p.1 : L) := by simp [A, g, hpi]
        have hle : A p ≤ B := by
          refine le_trans ?_ hTB
          rw [hT']
          have := List.single_le_sum (l := near.zipIdx.map A) (fun x hx => by
            obtain ⟨q, hq, rfl⟩ := List.mem_map.mp hx; exact hA0 q hq) _ (List.mem_map.mpr ⟨p, hp, rfl⟩)
          have : A p ≤ (near.zipIdx.map A).sum := this
          have hg0 : 0 ≤ g (minDist d i meds, i) := hi0
          linarith
        have habs : |val (conv (d p.2 i) : L) - val (conv p.1 : L)| ≤ A p := by
          rw [abs_sub_comm, abs_of_nonneg (by linarith), hAp]; linarith
        have ht := appr_diff M (d p.2 i) p.1 habs hle
        refine ⟨RLoss.sub (conv (d p.2 i)) (conv p.1), ?_, ?_, fun acc => by simp [hpi, rltN, hlt]⟩
        · simpa [S, f, hpi, min_eq_right hlt.le] using ht
        · have hu := M.std.u_lt_one
          obtain ⟨-, hsub⟩ := M.std.sub _ _ (M.conv_fin (d p.2 i)) (M.conv_fin p.1) (habs.trans hle)
          have := (abs_le.mp hsub).2
          rw [abs_sub_comm (val (conv (d p.2 i) : L)), abs_of_nonneg (show 0 ≤ val (conv p.1 : L) - val (conv (d p.2 i) : L) by linarith)] at this
          nlinarith
      · left
        refine ⟨by simp [S, f, hpi, min_eq_left (not_lt.mp hlt)], fun acc => by simp [rltN, hlt]⟩
  constructor
  · have key := Appr.foldl M.std (ps := near.zipIdx) (S := S) (A := A) (fun p hp => by
      obtain ⟨h1, h2 | ⟨t, h2, -, h3⟩⟩ := hstep p hp
      · exact ⟨h1, .inl h2⟩
      · exact ⟨h1, .inr ⟨t, h2, h3⟩⟩) le_rfl h0 hB1
    rw [hlz, ← hS', ← hT', Nat.add_comm] at key
    exact key
  · intro hpos
    exact Appr.foldl_neg M.std (ps := near.zipIdx) (S := S) (A := A) hstep le_rfl h0 hB1 (by rw [n2]; linarith)

end build

end KMedoids
