# Formal model of kno10/rust-kmedoids in Lean 4

## Layout

* `lean/Verif/Rust/Prelude.lean` – the fragment of Rust semantics that the crate uses: a panic monad
  (`Res α = Except Panic α`), slices as lists with checked indexing, `PartialOrd` as
  `partial_cmp : α → α → Option Ordering` (so NaN-like values exist in the model), `as u32`
  truncation, `reduce`, loops as structural recursion.
* `lean/Verif/Model/` – the code, function by function, generic over the number types `N` (distance)
  and `L` (loss) exactly as the Rust code is; every definition cites the lines it models.
  `Model/Cost.lean` (and `Model/CostMsc.lean` for the silhouette family) is a second copy of the PAM family in a monad that counts matrix accesses and loop
  bodies (code outside of loops is free; iterator chains such as `map(..).reduce(..)` are one loop).
* `lean/Verif/Spec.lean`, `SpecSil.lean` – small, independent vocabulary for stating properties (total
  deviation, nearest medoid, textbook silhouette, medoid silhouette, valid input). They do not mention
  the model of the algorithms.
* `lean/Verif/Laws.lean`, `Instances.lean` – the assumptions on number types and types that satisfy them
  (`ℕ`, `ℤ`, `ℚ`, `UInt32`, `Int64`, a deliberately inexact `Toy` type, …). `Fl.lean` – a float with three significant bits, rounding to even; `Ext.lean` –
  infinities and NaN; `Rounded.lean` – any monotone rounding of the rationals; `Ieee.lean` –
  IEEE 754 binary formats.
* `lean/Verif/Proofs/` – lemmas. `lean/Verif/Props/` – the property theorems `C01_…`, `C02_…`, with
  `example`s showing that the hypotheses are met by concrete cases.
* `lean/Verif/Tests.lean` – the crate's own unit tests, replayed on the model (tests, not proofs:
  they only guard the fidelity of the model). `Examples.lean` – the concrete inputs. `ExampleRuns.lean` and
  `Applied/` apply the theorems to concrete runs, so that their hypotheses are seen to be satisfiable.
* `MANIFEST.json` is generated by `tools/manifest.py` (status and notes in `tools/notes.json`),
  `AXIOMS.txt` by `tools/axioms.py`. `seeded/` – mutation tests of the theorems (`LOG.jsonl`).

### Number types

Three levels of assumptions are used, and each theorem says which by its type class arguments:

1. **any arithmetic** – `RDist N`, `RLoss L`, `RFrom N L` are bare operations with no laws (some theorems
   need `SaneZero L`: zero compares equal to itself). Covers floats with rounding and NaN, wrapping
   integers, everything.
2. **ordered distances** – distances form a linear order (`LawfulDist`), losses are still arbitrary.
   Covers f64 without NaN as distance, any rounding in the losses.
3. **exact** – losses form a linearly ordered abelian group / field (`LawfulLoss`, `LawfulField`),
   `From` is a strictly monotone map with `conv 0 = 0` (`LawfulFrom`), and for silhouettes additive
   (`LawfulAdd`). The result of a division by zero is left open (`LawfulField.div_eq` has `b ≠ 0`), so
   these theorems also say that no result depends on one. Covers big integers and rationals, and by C46 also machine integers as long as the
   stated bound holds. Floating-point rounding is *not* covered by level 3 theorems.

   Between levels 2 and 3 (written 2½): `FloatLoss N fin val u B` – the standard model of floating point arithmetic
   (`StdModel`, `Proofs/RelErr.lean`): values `val` of finite numbers in an ordered field, sums and differences with a
   relative error of at most `u` as long as they stay below the overflow threshold `B`, comparisons exact, a monotone
   finite conversion. `Ieee.lean` models IEEE 754 formats (rational value, infinities, NaN, gradual underflow, round to
   nearest even; `binary32`, `binary64`) and proves that they satisfy it (`Ieee.stdModel`, `ieee_floatLoss`).

### What is modelled as a parameter

* the random shuffle `rand::seq::index::sample(rng, n, n)` – an arbitrary list `seq`, assumed to be a
  permutation of `0..n` where a theorem needs it;
* rayon – the thread count, the order in which workers take the mutex, and the reduction trees are
  arbitrary parameters (`Sched`). `Model/ParMutex.lean` additionally models the merge as a small-step
  system of workers competing for the mutex and C17 proves that every interleaving gives one of those
  schedules' results;
* the array adapter – an arbitrary `Mat` record (`len`, `is_square`, `get`, each may panic); the two
  adapters of the crate are modelled separately (`ndarray` only through its contract).

### Modelled code

| source | model |
|--------|-------|
| src/arrayadapter.rs | `ArrayAdapter.lean` |
| src/util.rs | `Util.lean`, `Assertions.lean` (feature `assertions`) |
| src/initialization.rs | `Initialization.lean` (`first_k`; `random_initialization` through its contract) |
| src/fasterpam.rs | `FasterPam.lean` |
| src/par_fasterpam.rs | `ParFasterPam.lean`, `ParMutex.lean`, `ParPanic.lean` (panics, poisoning) |
| src/fastpam1.rs | `FastPam1.lean` |
| src/pam.rs | `Pam.lean` |
| src/alternating.rs | `Alternating.lean` |
| src/silhouette.rs, src/par_silhouette.rs | `Silhouette.lean` |
| src/fastermsc.rs (with the k = 2 variant) | `FasterMsc.lean` |
| src/fastmsc.rs | `FastMsc.lean` |
| src/pammedsil.rs | `PamMedSil.lean` |
| src/pamsil.rs | `PamSil.lean` |
| src/dynmsc.rs | `DynMsc.lean` |
| examples/orlib-kmedoids.rs | `OrlibExample.lean` |
| examples/mnist-kmedoids.rs | `MnistExample.lean` |
| benches/bench.rs | `Bench.lean` |
| the PAM family with overflow checks (debug build) | `Checked.lean` |

`Repaired.lean` is not a model of the code: it holds variants with suggested repairs of the findings below, on which the full statements
can be proved (C118, C119; `Model/Repaired2.lean`: C120; `Model/Repaired3.lean`: C121; `Model/Repaired4.lean`: C122; `Model/Repaired5.lean`: C124).

### Not modelled

Memory safety and allocation, performance, RNG quality, the internals of rayon/ndarray/rand, time measurement, input and output. Overflow of `L` is covered by C46,
C111 and C112 only; overflow of the `usize` counters is excluded by the sizes of memory (they count loop iterations).

## Proof architecture

* For each model function `f` there is a pure function `fP` that reads a plain function
  `d : Nat → Nat → N`, and a lemma `f_eq`: on a matrix presenting `d` (`IsMatrix mat n d`) and valid
  medoids, `f mat … = .ok (fP d …)`. This gives freedom from panics (C04, C29, C47, C52) and storage
  independence (C44) at level 1.
* Invariants at level 2: `RecOk`/`CacheOk` (two nearest medoids) and `Top3`/`MCache` (three nearest).
* At level 3 the cached losses are the total deviation (or the sum of `d1/d2`), so that the searches are
  arg-min/arg-max over all exchanges.
* `Proofs/Hom.lean`: the model commutes with maps of the number types (C45), panics included.
  `Proofs/Bounded.lean`: the same with a bound on all intermediate values (C46).

## Findings about the code

Properties that the code violates; each is proved as a negation with a concrete witness, beside the
strongest true variant found.

* **C05** – for `k = 1` fasterpam, rand_fasterpam, fastpam1 and par_fasterpam skip the size checks; an
  empty `LowerTriangle` underflows in `is_square`.
* **C08** – for `k = 1` the loss is a column sum, so symmetry is needed (`C08_single_needs_symmetry`).
* **C26** – an unused label makes `b = 0` for every object in `silhouette`.
* **C27** – `par_silhouette` lacks the early return for a single cluster.
* **C29** – fastmsc panics for two medoids on two objects with a non-zero diagonal.
* **C34** – for `k = 2` and ties fastmsc and pammedsil_swap give different labels.
* **C35** – for `k = 1` the medoid silhouette functions return a sum of distances.
* **C37** – dynmsc: after a removal the cached third nearest can be wrong (src/dynmsc.rs:151-178), so that
  for `k ≥ 5` the reported loss may differ from the medoid silhouette of the answer.
* **C38** – dynmsc removes the medoid whose removal is *worst* (src/dynmsc.rs:115-120, inverted
  comparison). Also `vec![0, n]` at src/dynmsc.rs:80 instead of `vec![0; n]`.
* **C41** – pamsil_swap writes `med[k]` when the initial silhouette is negative and no exchange has a
  positive one.
* **C42** – pamsil_swap and pamsil can return the same medoid twice.
* **C43** – the BUILD phase of pammedsil never considers object 0 (`skip(1)`). Hence the result of pammedsil depends on the order of the objects even without ties (C87).
* **C49** – pamsil reports loss 0 when no swap was made.
* **C53** – with the feature `assertions`, pammedsil_swap, pammedsil and dynmsc panic for two medoids:
  `debug_assert_assignment_th` reads `med[u32::MAX]`.
* **C55** – on an asymmetric matrix `alternating` can cycle for ever (`C55_needs_symmetry`: a ring of three
  objects, period six), so that it always uses up `max_iter`.
* **C58** – with rounding, pam_swap and fastpam1 can report a loss that is not that of the returned medoids:
  the loop applies the exchange to the medoids, recomputes the loss and leaves without storing it if it did not
  decrease (`stale_run`: reported 10, true 11, computed 12 with three significant bits).
* **C59** – the same for fastmsc with three or more medoids and pammedsil_swap.
* **C60** – with rounding, FasterPAM can return a worse result with a larger `max_iter` (`C60_longer_needs_exact`:
  loss 10 with limit 0, loss 12 from limit 1 on, three significant bits).
* **C62** – on asymmetric matrices `alternating` can leave an optimum of PAM for a worse solution: it adds up rows of
  the matrix, everything else columns (`C62_needs_symmetry`).
* **C63** – with at most `k` distinct objects PAM, FastPAM1 and FasterPAM always reach loss zero; `alternating` and the
  medoid silhouette optimisers can get stuck (`C63_alternating_fails`, `C63_msc_fails`).
* **C64** – for metrics every local optimum of the PAM family is within a factor of five of the optimum; `alternating` has
  no constant factor at all (`C64_alternating_fails`: for every `c`, four points on a line).
* **C65** – BUILD is incremental in `k`, but `pam` with more clusters can end with a larger loss
  (`C65_pam_not_antitone`: 5 for three clusters, 6 for four).
* **C66** – in floating point the losses of FasterPAM and of the alternating algorithm are as accurate as one sum
  of `n` numbers: rounding errors do not accumulate over exchanges, because the loss is recomputed.
* **C67** – in floating point the returned medoids need not be a local optimum, not even if the last pass made no
  exchange; what is missed is then at most a rounding error. If the run stops because the computed loss did not decrease,
  an exchange can remain which divides the total deviation by more than three (`C67_early_stop`).
* **C68** – with integers or fixed-point data and enough bits the floating point runs are exact; it is not enough that
  the distances themselves are exact (`C68_bound_needed`: `f32`, four objects). In general `par_fasterpam` is not
  deterministic in `f64`: the order in which two threads enter the critical section can decide between total deviations
  of 0.4 and 0.5 (`C68_par_race`).
* **C69** – in floating point FasterPAM, FastPAM1 and PAM can return medoids that are worse than their input, even for
  multiples of 0.1 in `f64` (`C69_not_exact`); the increase is at most a rounding error, however many iterations are made.
* **C71** – in `f64` BUILD is not exactly greedy (`C71_not_greedy`), and `pam` can return medoids worse than those of
  `pam_build` (`C71_pam_not_exact`), by a rounding error only. BUILD stops early only with exact total deviation zero.
* **C72** – all optimisers end by themselves under any rounding, except **alternating**: with `f64` it can run forever on a
  metric (`C72_alternating`, six objects, two states), because it stops only when no medoid changes.
* **C73** – `par_fasterpam` keeps the guarantees of C67, C69 and C70 under every schedule, with an error that grows with the
  number of threads only as `(1+u)^(n+p+1)`; like the sequential one it can make a solution slightly worse (`C73_not_exact`).
* **C74** – `alternating` in `f64` can end with medoids worse than its input (`C74_not_exact`), by a rounding error for each
  iteration; the bound proved grows with the number of iterations, since no loss is compared.
* **C75** – finite `f64` distances for which `fasterpam` exchanges a medoid for a much worse one: the loss and the sums
  overflow, the change is `inf - inf = NaN`, and `NaN >= 0` is false (`C75_f64_overflow`). Impossible with `f32` or `u32`
  distances and an `f64` loss.
* **C76** – with subnormal `f64` distances a mean can be rounded to twice its value, and the silhouette of labels is 1/8
  instead of 1/4 (`C76_underflow`); impossible with `f32` or `u32` distances and `f64` losses.
* **Unchecked calls** (`Props/C84.lean`). `fastermsc` with two medoids lacks the check `k <= n` and accepts one object with the
  medoids `[0, 0]`. With one medoid nothing is checked: a `LowerTriangle` with more data than `n(n-1)/2` can return a medoid
  index `>= n` (`C84_single_outside`), and a wide `ndarray` is accepted. All other calls that return were valid.
* **C100** (example program) – `orlib-kmedoids` uses `i32::MAX` for pairs without an edge and then adds two entries: unless
  object 1 is adjacent to (almost) all others, a debug build panics and a release build clusters negative distances. A
  blank line at the end of the file is a panic, too.
* **C105, C107, C108** – distances that cannot be compared (NaN): the nearest-medoid guarantees survive for all algorithms,
  but with two medoids fastermsc and fastmsc can give a medoid the label of the other one, and with NaN on the diagonal
  BUILD can choose an object twice and `pamsil` panics.
* **C123** – stopping `pamsil_swap` and continuing from its medoids can change the result, because the labels of the last candidate
  decide which objects are skipped (`C123_negation`: silhouette 43/189 with a medoid twice, against 23/90).
* **C125** – if every object occurs twice, the medoid silhouette methods can exchange a medoid for the copy of another one
  (`C125_pammedsil_fails`); PAM, FastPAM1 and BUILD treat copies as weights.
* **C133, C134, C135** – no bugs, but limits of the methods as implemented: `alternating` can stop at once with any multiple of the optimal loss, for every
  `k ≥ 2` and with a metric (`C133_no_factor`), and local optima of the medoid silhouette methods can be any multiple of the best mean of `d₁/d₂`, also
  with a metric (`C134_no_factor`; `2k - 1` objects are enough for `k ≥ 3`: `C134_no_factor_few`). The same holds for PAMSIL and `1 -` the silhouette, for `k ≥ 2` (`C135_no_factor_all`). The PAM family stays within a factor of five (C64).
  The optimum of the total deviation can be arbitrarily bad for the medoid silhouette, and vice versa (C136).
* **C137** – no bug, but a limit of use: `dynmsc` prefers more medoids in a tie, so started with all objects (or with a medoid at distance zero from
  every object) it removes nothing from its answer, whatever `mink` is.
* **C109** – `silhouette::<_, u32, i64>` and `medoid_silhouette::<_, u32, i64>` compile, but divisions truncate: without
  duplicates every clustering has silhouette 0 and every choice of medoids medoid silhouette 1.
* **Scope** (`Props/Scope.lean`) – which hypotheses are needed: with a non-zero diagonal or negative entries
  C06, C08, C09, C14 and C17 fail, with concrete matrices. There `par_do_swap` and `do_swap`, which test
  their cases in a different order, give different answers even on one thread.

## Plan per property

| id | level | proof idea |
|----|-------|-----------|
| C01–C02 | 1 | triangular-number arithmetic, injectivity by `nlinarith`, list packing by induction |
| C03 | – | list lemmas |
| C04 | 1 | state invariant (lengths, index ranges) through every loop |
| C05 | 1 | unfold to the assertion; negation + partial |
| C06, C07 | 2 | invariant `CacheOk` |
| C08, C09 | 3 | sum of cached = total deviation; change of swap = difference of total deviations |
| C10 | 1 | loop counters |
| C11–C13 | 3 | `find_best_swap` = argmin of total-deviation differences; pass invariant for `lastswap` |
| C14 | 3 | both searches compute the same first argmin |
| C15, C16 | 3 | from C11/C12; strictly decreasing potential on k-subsets; no symmetry needed |
| C17 | 3 | per-chunk sums are permutation/association invariant; small-step mutex model |
| C18 | 3 | argmin loop |
| C19–C22 | 2/3 | BUILD loop invariant |
| C23 | 3 | within-cluster argmin, reassign decreases |
| C24–C28 | 3 | bucket sums = filtered sums |
| C29–C34 | 1/2/3 | invariant `MCache` with three cached medoids; k = 2 special code |
| C35 | 3 | negation + what is returned |
| C36–C38, C47, C48 | 1–3 | removal loop |
| C39–C42, C49, C50 | 1–3 | PAMSIL recomputes assignments; bookkeeping of the stale assignment |
| C43, C51 | 3 | BUILD of pammedsil |
| C44 | 1 | from `f_eq` for both adapters |
| C45 | 1 | homomorphism lemma per function |
| C46 | 1 | bounded homomorphism |
| C52 | 1–3 | `par_fasterpam` itself, arbitrary schedule |
| C53 | 2 | the initial caches satisfy what is checked |
| C54 | 3 | increasing chain of exchanges of the medoid silhouette, counted on k-subsets |
| C55 | 2/3 | decreasing chain of assignments (`Descent`), fixed point after convergence |
| C56 | 3 | increasing chain of silhouettes |
| C57 | 1 | homomorphism lemmas with separate maps for sums and quotients |
| C58 | 2 | the cached distances are those of the returned medoids; the sum is recomputed after each exchange |
| C59 | 2 | as C58 with three cached medoids; k = 2: the second medoid is always labelled with itself, and its replacement by the first is never offered |
| C60 | 1, 3 | every loop is `iterR step`, which is a prefix-stable iteration; the limit never enters a step. Larger limit: split the loop at the smaller limit, the rest is again a chain of improving exchanges |
| C61 | 2, 3 | renumbering permutes the summands; two smallest distances and the minimum are functions of the multiset of medoids, so the order of the medoids does not matter for any loss arithmetic |
| C62 | 3 | exchanging a medoid by a better member of its cluster would improve the total deviation (symmetry) |
| C63 | 3 | pigeonhole: two medoids are twins, exchange one of them by an uncovered object; same for BUILD with the greedy property |
| C64 | 3 | exchange argument of Arya et al.: pair the optimal medoids with own ones such that each own one is used at most twice (`Proofs/Approx.lean`), sum the test swaps |
| C65 | 1, 3 | induction over the BUILD loop: the start value of the search is never used; antitone by C19 and set inclusion; metric case from C64 |
| C66 | 2½ | C58 (the loss is recomputed, bit for bit), induction over the summation tree: a sum of `n` non-negative numbers has at most `n - 1` roundings on every path |
| C67 | 2½ | the accumulators of one candidate as explicit sums (`fbs_slot`), their exact values (`exact_change`), backward error per slot (`appr_slot`); a pass without exchange evaluates every candidate in the final state (`loopG_quiet`) |
| C68 | 2½ | `rnd_of_rep`: numbers `z * 2 ^ e` with `|z| ≤ 2 ^ p` are not rounded; hence a `BHom` (C46) to IEEE arithmetic; transfer of the exact outcome (C08, C09, C11, C12, C14) back to the floating point matrix |
| C69 | 2½ | one pass adds at most the errors of its exchanges (`fpPass_step`, `pamScan_err`, `fastScan_err`, from C67's `fbsP_float`, `pamChangeP_float`); induction over the loop with the invariant that the computed loss is at most the initial one, which is accurate (C66) |
| C70 | 2½ | smallest computed row sum (`chooseP_min`) with C66's accuracy; the exchange argument of C64 with an error per exchange and per use of the triangle inequality (`five_of_swaps_err`), applied to C67's near local optima |
| C71 | 2, 2½ | invariant of BUILD without loss arithmetic (`buildLoopP_ok`: a medoid has the gain `-0`, so it is not added twice); gains with error `((1+u)^(n+1)-1)·T` and the right sign (`appr_buildSum`); `pam` reduced to `pam_swap` (`C71_pam_eq`) |
| C72 | 2 | generic loops (`loopG_descends`, `loopB_descends`): an iteration that goes on lowers a function of the medoids; count of sets (`Descent.count_perm`), of bracketings (`bracketSum_shape`, Catalan numbers), of lists; `C72_alternating` by a cycle |
| C73 | 2½ | the thread-local sums are rounded sums of chunks (`chunk_sums`), merging adds one rounding per thread (`parFbsP_float`); then as C67, C69, C70 with the generic pass of `Quiet.lean` |
| C74 | 2½ | rounded cluster sums with one rounding per other member (`appr_partSum`), smallest computed sum (`choose_near`), sums grouped by cluster (`altUpdate_near`), induction over the iterations |
| C75 | 2½ | `FloatLoss` for `f32`/`u32` distances with `f64` losses; all sums below `2^200`, `(1+u)^e - 1 <= 2eu` (`pow_simple`) |
| C76 | 2½ | `DivModel` (adds rounded division and exact small integers to `StdModel`); `Near`: non-negative values with relative error; `(b-a)/max(a,b)` changes by at most `2g/(1-g)` if `a`, `b` change by a factor `1±g` |
| C77 | 2½ | the scan of PAMSIL over finite computed silhouettes (`PamSilFloat.lean`), each within `silErr` of the exact one (C76) |
| C78 | 2½ | one rounded quotient per object (`MscErr.lean`), the sum as in C66, C59 for FasterMSC |
| C79 | IEEE formats | monotonicity of rounding (`RndMono.lean`), sums bounded by representable numbers |
| C80 | 2½ | error of the decomposed gain (`MscFloat.lean`, `MscFloat2.lean`), quiet passes (`Quiet.lean`) |
| C81 | 2½ | error per exchange and stopping rule (`LoopErr.lean`, `MscFloat3.lean`) |
| C82 | 2½ | error of the last exchange from both sides: accepted by its computed change, rejected by the computed loss |
| C83 | 2 and IEEE formats | invariants of the rounds without laws (`DynAny.lean`); rounded sums of fewer than `n` terms against the rounded count (`Counts.gap`) |
| C84 | 1 | a loop succeeds iff its steps do; assertions plus the reads of the first row; bounds of the triangle cells |
| C85 | 1 (comparison: 3) | copies in a counting monad (`Model/Cost.lean`), erased to the model; rules for the cost of a loop; at most `k` candidates are skipped |
| C86 | 3 | whole runs as chains of best exchanges (`Steepest`); two chains on a problem and its renumbering in lockstep |
| C87 | 3 | as C86 for the medoid silhouette, with a general objective and its renumbering (`Corresponds`) |
| C88 | 1 (comparison: 3) | as C85, counted copy in `Model/CostMsc.lean`; the last comparison uses C34 |
| C89 | 3 | whole runs equal a cache-free search `eagerRun` written down in `Proofs/Eager.lean`; renumbering and stop-and-continue |
| C90 | 3 | whole runs equal the cache-free searches `steepRun` and `greedyBuild` in `Proofs/SteepRun.lean`; stop-and-continue |
| C91 | 3 | whole runs of `alternating` equal `altRun` in `Proofs/AltRun.lean`; stop-and-continue; order independence without ties |
| C92 | 3 | whole runs of `dynmsc` from at most four medoids equal `dynSteps`/`bestSol` in `Proofs/DynRun.lean`; false from five on |
| C93 | 3 | whole runs of `pamsil_swap` and `pamsil` equal `silRun` in `Proofs/SilRun.lean`, panics included, if to repeat a medoid never pays (`Tame`) |
| C94 | 3 | rate of PAM and FastPAM1 against five times the optimum (`Proofs/Rate.lean`), polynomial-time bound with C85 |
| C95 | 3 | BUILD against any other medoids (greedy maximisation of a submodular function) |
| C96 | 3 | swaps bounded by improvement over resolution; pseudo-polynomial work of FasterPAM with C85 |
| C97 | 3 | two families of worst cases: BUILD on a seesaw, local optima on a subdivided complete bipartite graph |
| C98 | 3 | two searches that compare `k` distinct medoids in the same way are the same (via C89-C91) |
| C99 | 3 | Floyd's algorithm in place: entries are lengths of walks, and the triangle inequality through treated objects is kept |
| C100 | 3, `i32` | the matrix written by the lines; the first row and column during the first pass |
| C101 | 1, 2½, 3 | symmetric writes of the double loop; sums of multiples of 2⁻¹⁶ below 2³⁷ are exact in any order |
| C102 | 2½ | computed distances are a metric up to 4us; C66, C70 for the computed matrix, then back to the exact distances |
| C103 | 3 | a wheel and triples: the test swaps of C64's proof are tight except for lower-order terms; local optimality by a lower bound per vertex class and exchange |
| C104 | 1, last part integers with overflow checks | invariant of the interleavings with panics and a poison flag; refinement to a sequential order; merges of non-positive sums commute, failures included |
| C105 | 1 with the contract of PartialOrd for one row | invariant of one object's record through all updates of the cache |
| C106 | exact; one part with any losses | invariant: labels differ and carry their distances, through swaps and removals |
| C107 | 1 with the contract of PartialOrd for one row | invariant of one object's record of three medoids; pair of distances for k = 2 |
| C108 | 1 with the contract of PartialOrd for one row; f64 | invariant of one object's record in BUILD; a gain that is not NaN and not positive for PAMSIL |
| C109 | integers with truncating division (`TruncLoss`), instance i64 | values of all buckets and quotients |
| C110 | any arithmetic with `NegZero`, `ZeroAdd`; floating point | invariant of BUILD: its records are those of the initial assignment; C59, C72, C79-C81 for SWAP |
| C111 | `i32` | positions of the draws by induction; C46 with `ℤ` and with `i32`; then C04-C23 for `ℤ` |
| C112 | checked integers | as C46, for operations in `Res`; erasure by `rfl` and induction |
| C113 | exact | local optima: gain of an object of a missing group against a medoid with a second one in its group; optimum group by group |
| C114 | floating point | C113 with a relative error of the triangle inequality and of the comparison of exchanges; f64 for points in a metric space |
| C115 | exact | bounds of the medoid silhouette for medoids that cover, miss or double a group; runs never decrease it |
| C116 | exact | bounds of the silhouette for labels that are, mix or split the groups; labels of repeated medoids; first iteration of PAMSIL |
| C117 | floating point | error bounds of C81 and C101 with the separation bounds of C115 and C116 over the converted distances |
| C118 | exact | the repaired DynMSC of `Model/Repaired.lean`; pure mirror, the cached triples are the three nearest medoids after every removal |
| C119 | any / exact | the repaired PAMSIL of `Model/Repaired.lean`: the scan is a fold over all exchanges by objects that are no medoids |
| C120 | any | the repaired loops of `Model/Repaired2.lean`: the invariants of C58 and C59, which now also hold after the last exchange |
| C121 | any / exact | the repaired silhouettes of `Model/Repaired3.lean`: a bucket is non-empty exactly when the cluster has another object |
| C122 | any / exact | the repaired BUILD of `Model/Repaired4.lean` in lockstep with that of PAM; a search that skips an object which is not the best finds the same |
| C123 | any | the loop of the repaired PAMSIL is a function of medoids and loss, and the loss is that of the medoids, so `a + b` iterations split; a run of the code as counterexample |
| C124 | ordered distances | the check of `Model/Repaired5.lean` unfolded to a statement about caches; the first cache satisfies it |
| C125 | exact | the searches of C89 and C90 on copies: the objective depends on the originals only, the first copy comes first among ties, and a copy of a medoid does not improve |
| C126 | exact | every set of n - 1 objects is one exchange away from every other; the searches of C89 and C90 take the best exchange of the only object that is left out |
| C127 | exact (integers) | a family of metrics; improving exchanges stay within a group and lower the loss by 1, so that the runs of C89 and C90 can be followed for every k |
| C128 | exact (integers for the existence) | C98 with a constant as large as all distances |
| C129 | exact (rationals) | the data of C127; with one medoid per group the medoid silhouette is an affine function of the total deviation |
| C130 | exact (ordered group) | the draws are counted, no probability space; the renumbering theorem of C89 gives a bijection between them |
| C131 | exact (ordered group) | medoid lists with repetitions; cache invariant without the clause that a medoid is its own nearest one |
| C132 | exact (ordered group; ordered field for the medoid silhouette), two number types and two loss types | the comparisons of the textbook searches (C89, C90) depend only on the order of the objective |
| C133 | exact integers (a witness family over the naturals) | fixed point of the textbook round (C91), for all k and R |
| C134 | exact rationals (a witness family over the naturals) | sums by type of object, for all exchanges of the family |
| C135 | exact rationals (a witness family over the naturals) | the clusters after any exchange, bounds of the silhouettes by mean distances |
| C136 | exact rationals (a witness family over the naturals) | both criteria for all pairs of medoids, by the groups they are in; isolated objects for more clusters |
| C137 | exact, `Dissim` | invariant of the rounds: what is returned so far is the first maximum |
| C138 | exact, `Dissim` (symmetric for one medoid) | the nearest distance decreases with more medoids, and runs do not increase the loss |

## Trusted base

* The Lean 4.33.0 kernel and the Mathlib definitions used in statements.
* Axioms: each property theorem depends on at most `propext`, `Classical.choice`, `Quot.sound`;
  `AXIOMS.txt` lists them theorem by theorem. No axioms are added, no `sorry`, no `native_decide`, no
  `bv_decide`.
* The faithfulness of the hand-written model (cited line by line); the code was read, not run.
* The contracts of rand, rayon and ndarray named above.
