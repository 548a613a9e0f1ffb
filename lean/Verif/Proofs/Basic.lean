import Verif.Rust.Prelude

/-! # Lemmas about the panic monad, loops and slices -/

namespace KMedoids

variable {α β σ : Type}

@[simp] theorem ok_bind (a : α) (f : α → Res β) : ((Except.ok a : Res α) >>= f) = f a := rfl
@[simp] theorem error_bind (e : Panic) (f : α → Res β) :
    ((Except.error e : Res α) >>= f) = .error e := rfl

theorem bind_eq_ok {x : Res α} {f : α → Res β} {b : β} :
    (x >>= f) = .ok b ↔ ∃ a, x = .ok a ∧ f a = .ok b := by
  cases x <;> simp

@[simp] theorem rassert_true (msg : String) : rassert true msg = .ok () := rfl
@[simp] theorem rassert_false (msg : String) : rassert false msg = .error (.assertion msg) := rfl

theorem idx_of_get {a : List α} {i : Nat} {x : α} (h : a[i]? = some x) : idx a i = .ok x := by
  simp [idx, h]

theorem idx_lt {a : List α} {i : Nat} (h : i < a.length) : idx a i = .ok a[i] := by
  simp [idx, h]

theorem idx_ok {a : List α} {i : Nat} {x : α} : idx a i = .ok x ↔ a[i]? = some x := by
  unfold idx; split <;> simp_all

theorem setIdx_lt {a : List α} {i : Nat} {v : α} (h : i < a.length) :
    setIdx a i v = .ok (a.set i v) := by simp [setIdx, h]

@[simp] theorem foldRes_nil (f : σ → α → Res σ) (s : σ) : foldRes f s [] = .ok s := rfl
@[simp] theorem foldRes_cons (f : σ → α → Res σ) (s : σ) (x : α) (xs : List α) :
    foldRes f s (x :: xs) = (f s x >>= fun s' => foldRes f s' xs) := rfl
@[simp] theorem mapRes_nil (f : α → Res β) : mapRes f [] = .ok [] := rfl
@[simp] theorem mapRes_cons (f : α → Res β) (x : α) (xs : List α) :
    mapRes f (x :: xs) = (f x >>= fun y => mapRes f xs >>= fun ys => .ok (y :: ys)) := rfl

/-- A loop whose body never panics (under an invariant) is a fold. -/
theorem foldRes_eq (I : σ → Prop) {f : σ → α → Res σ} {g : σ → α → σ} {xs : List α}
    (h : ∀ s x, x ∈ xs → I s → f s x = .ok (g s x) ∧ I (g s x)) {s : σ} (hs : I s) :
    foldRes f s xs = .ok (xs.foldl g s) ∧ I (xs.foldl g s) := by
  induction xs generalizing s with
  | nil => exact ⟨rfl, hs⟩
  | cons x xs ih =>
    have := h s x (by simp) hs
    simp only [foldRes_cons, this.1, ok_bind, List.foldl_cons]
    exact ih (fun s y hy => h s y (by simp [hy])) this.2

theorem foldRes_eq' {f : σ → α → Res σ} {g : σ → α → σ} {xs : List α}
    (h : ∀ s x, x ∈ xs → f s x = .ok (g s x)) (s : σ) :
    foldRes f s xs = .ok (xs.foldl g s) :=
  (foldRes_eq (fun _ => True) (fun s x hx _ => ⟨h s x hx, trivial⟩) trivial).1

/-- A parallel/sequential map whose closure never panics. -/
theorem mapRes_eq {f : α → Res β} {g : α → β} {xs : List α} (h : ∀ x ∈ xs, f x = .ok (g x)) :
    mapRes f xs = .ok (xs.map g) := by
  induction xs with
  | nil => rfl
  | cons x xs ih =>
    simp [h x (by simp), ih (fun y hy => h y (by simp [hy]))]

/-- Induction principle for `foldl` with an invariant. -/
theorem foldl_inv (I : σ → Prop) {g : σ → α → σ} {xs : List α}
    (h : ∀ s x, x ∈ xs → I s → I (g s x)) {s : σ} (hs : I s) : I (xs.foldl g s) := by
  induction xs generalizing s with
  | nil => exact hs
  | cons x xs ih => exact ih (fun s y hy => h s y (by simp [hy])) (h s x (by simp) hs)

/-- Induction principle for `foldl` with an invariant that knows the processed prefix. -/
theorem foldl_prefix (I : List α → σ → Prop) {g : σ → α → σ} {xs : List α}
    (h : ∀ pre x post s, xs = pre ++ x :: post → I pre s → I (pre ++ [x]) (g s x)) {s : σ}
    (hs : I [] s) : I xs (xs.foldl g s) := by
  suffices H : ∀ post pre s, xs = pre ++ post → I pre s → I xs (post.foldl g s) from
    H xs [] s rfl hs
  intro post
  induction post with
  | nil => intro pre s e hI; simpa [e] using hI
  | cons x post ih =>
    intro pre s e hI
    exact ih (pre ++ [x]) _ (by simp [e]) (h pre x post s e hI)

theorem mem_zipIdx_get {l : List α} {p : α × Nat} (h : p ∈ l.zipIdx) : l[p.2]? = some p.1 := by
  have := List.mem_zipIdx_iff_getElem?.mp h; simpa using this

theorem mem_zipIdx_lt {l : List α} {p : α × Nat} (h : p ∈ l.zipIdx) : p.2 < l.length := by
  have := mem_zipIdx_get h
  exact (List.getElem?_eq_some_iff.mp this).1

theorem mem_zipIdx_mem {l : List α} {p : α × Nat} (h : p ∈ l.zipIdx) : p.1 ∈ l :=
  List.mem_of_getElem? (mem_zipIdx_get h)

theorem asU32_lt {m : Nat} (h : m < u32Max) : asU32 m = m := by
  unfold asU32 u32Max at *; omega

end KMedoids
