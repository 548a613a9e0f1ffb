import Verif.Model.OrlibExample

/-! # Model of `examples/mnist-kmedoids.rs`

The example program reads the MNIST images and runs `fasterpam` with the Euclidean distances. -/

namespace KMedoids

/-- `read_u32::<BigEndian>()` from a slice of bytes; the second component is the rest of the slice. -/
def readU32 : List Nat → Res (Nat × List Nat)
  | a :: b :: c :: d :: rest => .ok (((a * 256 + b) * 256 + c) * 256 + d, rest)
  | _ => .error .unwrapNone

/-- The operations of `f64` the program uses. -/
structure PixelOps (N : Type) where
  /-- `x as f64 / 256.0` for a byte -/
  ofByte : Nat → N
  /-- `0.0` -/
  zero : N
  /-- `a + b` -/
  add : N → N → N
  /-- `a - b` -/
  sub : N → N → N
  /-- `dot` of two vectors -/
  dot : List N → List N → N
  /-- `sqrt` -/
  sqrt : N → N

section
variable {N : Type} (ops : PixelOps N)

/-- `train_data.row(m)` -/
def Array2.row (a : Array2 N) (m : Nat) : Res (List N) :=
  if m < a.rows then .ok ((List.range a.cols).map fun j => a.val m j) else .error .index

/-- Body of the inner loop of `read_mnist` (examples/mnist-kmedoids.rs:42-46). -/
def mnistCell (train : Array2 N) (m : Nat) (mat : Array2 N) (n : Nat) : Res (Array2 N) := do
  let r ← train.row m
  let s ← train.row n
  let dist := List.zipWith ops.sub r s
  let l2sum := ops.add ops.zero (ops.sqrt (ops.dot dist dist))
  let mat ← mat.set m n l2sum
  mat.set n m l2sum

/-- `for n in m..len` (examples/mnist-kmedoids.rs:41-47) -/
def mnistRow (train : Array2 N) (len : Nat) (mat : Array2 N) (m : Nat) : Res (Array2 N) :=
  foldRes (mnistCell ops train m) mat (List.range' m (len - m))

/-- `read_mnist` (examples/mnist-kmedoids.rs:16-51) for the bytes of the file. `Array2::from_shape_vec` succeeds if the
number of bytes fits; as the number of bytes is less than 2⁶⁴, an overflow of the product of the sizes is an error as well. -/
def readMnist (content : List Nat) : Res (Array2 N) := do
  let (_, file) ← readU32 content
  let (len, file) ← readU32 file
  let (rows, file) ← readU32 file
  let (cols, file) ← readU32 file
  let train : Array2 N ←
    if file.length = len * (rows * cols) then
      .ok ⟨len, rows * cols, fun i j => ops.ofByte (file.getD (i * (rows * cols) + j) 0)⟩
    else .error .unwrapNone
  foldRes (mnistRow ops train len) ⟨len, len, fun _ _ => ops.zero⟩ (List.range len)

/-- `main` (examples/mnist-kmedoids.rs:53-66) without the output. `sample` stands for `random_initialization`. -/
def mnistMain [RDist N] (L : Type) [RLoss L] [RFrom N L] (sample : Nat → Nat → List Nat) (content : List Nat) :
    Res (SwapResult L) := do
  let mat ← readMnist ops content
  fasterpam L mat.toMat (sample mat.rows 10) 100

end

end KMedoids
