import Verif.Rust.Prelude

/-! # Model of `src/initialization.rs`

`random_initialization` (src/initialization.rs:18-22) is a call to `rand::seq::index::sample`; it is not
modelled (RNG), its documented contract (k distinct indexes below n) appears as a hypothesis. -/

namespace KMedoids

/-- `first_k` (src/initialization.rs:37-40). -/
def firstK (k : Nat) : List Nat := List.range k

end KMedoids
