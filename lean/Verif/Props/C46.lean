import Verif.Examples
import Verif.Proofs.BoundedPar
import Verif.Props.C45

/-!
# C46: no overflow

`BHom f ι U B`: the loss type computes exactly on integers of magnitude at most `B` and does anything at all
beyond, and the distances are integers from `0` to `U`. If `3 (n + 1) U ≤ B`, every function of the PAM family
gives the result of unbounded integer arithmetic. So what the type does on overflow (wrap, saturate, poison)
is never visible. For `u32` distances and `i64` losses this holds up to `n = 2^29` objects.
-/

set_option linter.unusedSectionVars false

namespace KMedoids

open RFrom (conv)

variable {N N' L' : Type} [RDist N] [RFrom N ℤ] [RDist N'] [RLoss L'] [RFrom N' L']
variable {f : N → N'} {ι : ℤ → L'} {U B : ℤ}

theorem C46_fasterpam (H : BHom f ι U B) (mat : Mat N) (hB : 3 * ((mat.len : ℤ) + 1) * U ≤ B)
    (med : List Nat) (maxiter : Nat) :
    SameSwap ι (fasterpam ℤ mat med maxiter) (fasterpam L' (mat.map f) med maxiter) :=
  sameSwap_of ι (H.fasterpamB mat med maxiter (by push_cast; linarith)).1

theorem C46_rand_fasterpam (H : BHom f ι U B) (mat : Mat N) (hB : 3 * ((mat.len : ℤ) + 1) * U ≤ B)
    (med : List Nat) (maxiter : Nat) (seq : List Nat) :
    SameSwap ι (randFasterpam ℤ mat med maxiter seq) (randFasterpam L' (mat.map f) med maxiter seq) :=
  sameSwap_of ι (H.randFasterpamB mat med maxiter seq (by push_cast; linarith)).1

/-- For every schedule; the bound does not depend on it. -/
theorem C46_par_fasterpam (H : BHom f ι U B) (sc0 : Sched) {scF scS : Nat → Nat → Sched} (hF : ∀ i j, (scF i j).Ok)
    (mat : Mat N) (hB : 3 * ((mat.len : ℤ) + 1) * U ≤ B) (med : List Nat) (maxiter : Nat) (seq : List Nat) :
    SameSwap ι (parFasterpam ℤ sc0 scF scS mat med maxiter seq)
      (parFasterpam L' sc0 scF scS (mat.map f) med maxiter seq) :=
  sameSwap_of ι (H.parFasterpamB sc0 hF mat med maxiter seq (by push_cast; linarith)).1

theorem C46_fastpam1 (H : BHom f ι U B) (mat : Mat N) (hB : 3 * ((mat.len : ℤ) + 1) * U ≤ B)
    (med : List Nat) (maxiter : Nat) :
    SameSwap ι (fastpam1 ℤ mat med maxiter) (fastpam1 L' (mat.map f) med maxiter) :=
  sameSwap_of ι (H.fastpam1B mat (by push_cast; linarith) med maxiter).1

theorem C46_pam_swap (H : BHom f ι U B) (mat : Mat N) (hB : 3 * ((mat.len : ℤ) + 1) * U ≤ B)
    (med : List Nat) (maxiter : Nat) :
    SameSwap ι (pamSwap ℤ mat med maxiter) (pamSwap L' (mat.map f) med maxiter) :=
  sameSwap_of ι (H.pamSwapB mat (by push_cast; linarith) med maxiter).1

theorem C46_pam (H : BHom f ι U B) (mat : Mat N) (hB : 3 * ((mat.len : ℤ) + 1) * U ≤ B) (k maxiter : Nat) :
    SameSwap ι (pam ℤ mat k maxiter) (pam L' (mat.map f) k maxiter) :=
  sameSwap_of ι (H.pamB mat (by push_cast; linarith) k maxiter).1

theorem C46_pam_build (H : BHom f ι U B) (mat : Mat N) (hB : 3 * ((mat.len : ℤ) + 1) * U ≤ B) (k : Nat) :
    SameBuild ι (pamBuild ℤ mat k) (pamBuild L' (mat.map f) k) := by
  rw [(H.pamBuildB mat (by push_cast; linarith) k).1]
  cases pamBuild ℤ mat k with
  | error e => exact rfl
  | ok r => exact ⟨rfl, rfl, rfl⟩

theorem C46_alternating (H : BHom f ι U B) (mat : Mat N) (hB : 3 * ((mat.len : ℤ) + 1) * U ≤ B)
    (med : List Nat) (maxiter : Nat) :
    SameAlt ι (alternating ℤ mat med maxiter) (alternating L' (mat.map f) med maxiter) := by
  rw [(H.alternatingB mat (by push_cast; linarith) med maxiter).1]
  cases alternating ℤ mat med maxiter with
  | error e => exact rfl
  | ok r => exact ⟨rfl, rfl, rfl, rfl⟩

/-! ## u32 distances, i64 losses -/

instance : RDist UInt32 where
  pcmp a b := some (compare a.toNat b.toNat)
  zero := 0
  isZero a := decide (a = 0)
  add := (· + ·)

/-- Rust's `i64` in a release build: two's complement, wrapping. -/
instance : RLoss Int64 where
  pcmp a b := some (compare a.toInt b.toInt)
  zero := 0
  one := 1
  add := (· + ·)
  sub := (· - ·)
  neg := (- ·)
  div := (· / ·)
  ofU32 n := Int64.ofInt n

instance : RFrom UInt32 Int64 := ⟨fun x => Int64.ofInt x.toNat⟩
instance : RFrom UInt32 ℤ := ⟨fun x => (x.toNat : ℤ)⟩

/-- `i64` with overflow checks: `none` marks a value that was computed with an overflow. -/
structure CheckedI64 where
  /-- the value -/
  val : Option ℤ
  deriving DecidableEq, Repr

/-- `none` unless in the range of `i64` -/
def CheckedI64.ofInt (x : ℤ) : CheckedI64 := ⟨if -2 ^ 63 ≤ x ∧ x < 2 ^ 63 then some x else none⟩

/-- an operation with overflow check -/
def CheckedI64.op (o : ℤ → ℤ → ℤ) (a b : CheckedI64) : CheckedI64 :=
  match a.val, b.val with
  | some x, some y => .ofInt (o x y)
  | _, _ => ⟨none⟩

instance : RLoss CheckedI64 where
  pcmp a b := a.val.bind fun x => b.val.map fun y => compare x y
  zero := .ofInt 0
  one := .ofInt 1
  add := CheckedI64.op (· + ·)
  sub := CheckedI64.op (· - ·)
  neg a := CheckedI64.op (· - ·) ⟨some 0⟩ a
  div := CheckedI64.op (· / ·)
  ofU32 n := .ofInt n

instance : RFrom UInt32 CheckedI64 := ⟨fun x => .ofInt x.toNat⟩

theorem Mat.map_id' {N : Type} (mat : Mat N) : mat.map id = mat := by
  cases mat with
  | mk len sq get =>
    simp only [Mat.map, Mat.mk.injEq, true_and]
    funext x y
    cases get x y <;> rfl

/-- Wrapping `i64` is exact within its range. -/
theorem C46_wrapping : BHom (N := UInt32) id Int64.ofInt (2 ^ 32 - 1) (2 ^ 63 - 1) where
  distCmp _ _ := rfl
  distZero := rfl
  lossCmp x y hx hy := by
    obtain ⟨h1, h2⟩ := hx; obtain ⟨h3, h4⟩ := hy
    show some (compare (Int64.ofInt x).toInt (Int64.ofInt y).toInt) = _
    rw [Int64.toInt_ofInt_of_le (by omega) (by omega), Int64.toInt_ofInt_of_le (by omega) (by omega)]
  lossZero := rfl
  lossAdd x y _ _ _ := Int64.ofInt_add x y
  lossSub x y _ _ _ := Int64.ofInt_sub x y
  lossNeg x _ _ := Int64.ofInt_neg x
  lossConv _ := rfl
  convNonneg x := Int.natCast_nonneg _
  convLe x := by have := x.toNat_lt; show (x.toNat : ℤ) ≤ _; omega

theorem CheckedI64.ofInt_val {x : ℤ} (h : Bd (2 ^ 63 - 1) x) : (CheckedI64.ofInt x).val = some x := by
  obtain ⟨h1, h2⟩ := h
  simp only [CheckedI64.ofInt]
  rw [if_pos ⟨by omega, by omega⟩]

/-- Checked `i64` is exact within its range. -/
theorem C46_checked : BHom (N := UInt32) id CheckedI64.ofInt (2 ^ 32 - 1) (2 ^ 63 - 1) where
  distCmp _ _ := rfl
  distZero := rfl
  lossCmp x y hx hy := by
    show (CheckedI64.ofInt x).val.bind (fun a => (CheckedI64.ofInt y).val.map fun b => compare a b) = _
    rw [CheckedI64.ofInt_val hx, CheckedI64.ofInt_val hy]; rfl
  lossZero := rfl
  lossAdd x y hx hy _ := by
    show _ = CheckedI64.op (· + ·) (CheckedI64.ofInt x) (CheckedI64.ofInt y)
    simp only [CheckedI64.op, CheckedI64.ofInt_val hx, CheckedI64.ofInt_val hy]
  lossSub x y hx hy _ := by
    show _ = CheckedI64.op (· - ·) (CheckedI64.ofInt x) (CheckedI64.ofInt y)
    simp only [CheckedI64.op, CheckedI64.ofInt_val hx, CheckedI64.ofInt_val hy]
  lossNeg x hx _ := by
    show _ = CheckedI64.op (· - ·) ⟨some 0⟩ (CheckedI64.ofInt x)
    simp only [CheckedI64.op, CheckedI64.ofInt_val hx, zero_sub]
  lossConv _ := rfl
  convNonneg x := Int.natCast_nonneg _
  convLe x := by have := x.toNat_lt; show (x.toNat : ℤ) ≤ _; omega

/-- `fasterpam` on up to 2^29 objects, wrapping `i64`: the result is the exact one. -/
theorem C46_u32_i64 (mat : Mat UInt32) (hn : mat.len ≤ 2 ^ 29) (med : List Nat) (maxiter : Nat) :
    SameSwap Int64.ofInt (fasterpam ℤ mat med maxiter) (fasterpam Int64 mat med maxiter) := by
  have := C46_fasterpam C46_wrapping mat (by omega) med maxiter
  rwa [Mat.map_id'] at this

/-- The same with overflow checks: nothing is ever marked, the result is the exact one. -/
theorem C46_u32_i64_checked (mat : Mat UInt32) (hn : mat.len ≤ 2 ^ 29) (med : List Nat) (maxiter : Nat) :
    SameSwap CheckedI64.ofInt (fasterpam ℤ mat med maxiter) (fasterpam CheckedI64 mat med maxiter) ∧
      ∀ r, fasterpam CheckedI64 mat med maxiter = .ok r → r.loss.val ≠ none := by
  have h := C46_checked.fasterpamB mat med maxiter (by omega)
  have h1 := C46_fasterpam C46_checked mat (by omega) med maxiter
  rw [Mat.map_id'] at h h1
  refine ⟨h1, fun r hr => ?_⟩
  have h2 := h.1
  rw [hr] at h2
  cases he : fasterpam ℤ mat med maxiter with
  | error e => rw [he] at h2; cases h2
  | ok r' =>
    rw [he] at h2
    cases h2
    have hb := (h.2 r' he).mono (show (mat.len : ℤ) * (2 ^ 32 - 1) ≤ 2 ^ 63 - 1 by omega)
    rw [show (SwapResult.map CheckedI64.ofInt r').loss = CheckedI64.ofInt r'.loss from rfl,
      CheckedI64.ofInt_val hb]
    exact Option.some_ne_none _

/-! ## examples -/

/-- Distances near the maximum of `u32`. -/
def exBig : Mat UInt32 := ofRows
  [[0, 4294967295, 4294967294, 7], [4294967295, 0, 5, 4294967293], [4294967294, 5, 0, 4294967292],
    [7, 4294967293, 4294967292, 0]]

example : exBig.len ≤ 2 ^ 29 ∧ fasterpam ℤ exBig [0, 3] 10 = .ok ⟨12, [1, 0, 0, 1], 2, 1, [1, 3]⟩ ∧
    fasterpam CheckedI64 exBig [0, 3] 10 = .ok ⟨⟨some 12⟩, [1, 0, 0, 1], 2, 1, [1, 3]⟩ := by decide +kernel

/-- An 8-bit loss type, wrapping, for distances that fit into 7 bits. -/
instance : RLoss Int8 where
  pcmp a b := some (compare a.toInt b.toInt)
  zero := 0
  one := 1
  add := (· + ·)
  sub := (· - ·)
  neg := (- ·)
  div := (· / ·)
  ofU32 n := Int8.ofInt n

instance : RFrom ℕ Int8 := ⟨fun x => Int8.ofInt x⟩

/-- Three objects, distances up to 100. -/
def exNarrow : Mat ℕ := ofRows [[0, 60, 60], [60, 0, 100], [60, 100, 0]]

/-- A bound is needed: with distances up to 100 and an 8-bit loss, `fasterpam` for one cluster chooses another
medoid than exact arithmetic. -/
theorem C46_bound_needed : fasterpam ℤ exNarrow [0] 10 = .ok ⟨120, [0, 0, 0], 1, 0, [0]⟩ ∧
    fasterpam Int8 exNarrow [0] 10 = .ok ⟨-96, [0, 0, 0], 1, 1, [1]⟩ := by decide +kernel

end KMedoids
