{
 "C04": [
  "proved",
  "any arithmetic; also pam_build and pam"
 ],
 "C05": [
  "partial",
  "The full statement (C05_full) is false for the code: with a single medoid fasterpam, rand_fasterpam and fastpam1 skip the size checks (C05_negation), and an empty LowerTriangle makes is_square itself underflow (C05_negation_empty). Proved in full for pam_swap, alternating, pam, pam_build; for the others for k != 1."
 ],
 "C08": [
  "proved",
  "symmetry assumed where k = 1, as in the statement; C08_single_needs_symmetry shows it is needed"
 ],
 "C16": [
  "proved",
  "also without symmetry for k = 1"
 ],
 "C24": [
  "proved",
  "non-negative distances; labels without gaps; also for the single-cluster case and par_silhouette with at least two clusters"
 ],
 "C26": [
  "partial",
  "The full statement (C26_full) is false for the code: an unused label makes b = 0 for every object (C26_negation, and C26_gap in general). Proved for renamings after which again all labels 0..K-1 occur, and for renamings between two labellings that both have a gap (C26_both_gaps_partial); whatever the labels, the result is never above the textbook silhouette (C26_at_most_textbook)."
 ],
 "C27": [
  "partial",
  "The full statement (C27_full) is false for the code: par_silhouette lacks the early return for a single cluster (C27_negation). Proved for all other assignments, in any arithmetic; for a single cluster C27_single_partial gives both values, and C27_exact_partial says exactly when they agree."
 ],
 "C29": [
  "partial",
  "Proved in any arithmetic for fastermsc and pammedsil_swap and pammedsil (BUILD and SWAP), and for fastmsc except for two medoids on two objects with a non-zero diagonal, where the code panics (C29_negation of C29_full). C29_fastmsc_two covers two objects with a zero diagonal."
 ],
 "C30": [
  "proved",
  "k >= 2, exact arithmetic, zero diagonal; the sum of two distances must convert exactly (LawfulAdd)"
 ],
 "C31": [
  "proved",
  "k >= 2; for k >= 3 also: every medoid has its own label (false for k = 2 with duplicates, see the example)"
 ],
 "C34": [
  "partial",
  "The full statement (C34_full) is false for the code: for k = 2 an object equally far from both medoids gets label 1 from fastmsc and 0 from pammedsil_swap (C34_negation). Proved: everything equal for k != 2; for k = 2 medoids, loss and counters are equal, and labels differ only for objects equally far from both medoids (C34_fastmsc_two_labels_partial)."
 ],
 "C35": [
  "partial",
  "The full statement (C35_full) is false for the code: for k = 1 the sum of distances is returned instead of a silhouette (C35_negation). Proved: what exactly is returned. Same for dynmsc (C35_dynmsc_negation, C35_dynmsc_single_partial)."
 ],
 "C36": [
  "proved",
  "k >= 2; exact arithmetic, zero diagonal. An example shows that without a zero diagonal the returned assignment can have two entries (vec![0, n])."
 ],
 "C37": [
  "partial",
  "The full statement (C37_full) is false for the code: after a removal the cached third nearest medoid can be wrong if more than three medoids remain (C37_negation). Proved when k <= 4, or when the returned solution has k or 2 medoids."
 ],
 "C38": [
  "partial",
  "The full statement (C38_full) is false for the code: it removes the medoid whose removal is worst (C38_negation). Proved: the removed medoid always has the smallest medoid silhouette after removal, without swaps (C38_inverted_partial) and after any number of swaps in the first round (C38_round_inverted_partial)."
 ],
 "C47": [
  "proved",
  "any arithmetic"
 ],
 "C48": [
  "proved",
  "exact arithmetic, zero diagonal"
 ],
 "C39": [
  "proved",
  "Loss and assignment in any arithmetic whenever pamsil_swap returns; nearest labels when distances are ordered; the textbook silhouette when the returned medoids are distinct. For pamsil see C49."
 ],
 "C40": [
  "proved",
  "Exact arithmetic; silhouettes as computed by assign_nearest and silhouette, which are the textbook ones for distinct medoids (C39_pamsil_swap_textbook, C24)."
 ],
 "C41": [
  "partial",
  "The full statement (C41_full) is false for pamsil_swap: the code writes med[k] when the initial silhouette is negative and no exchange has a positive one (C41_negation, in general C41_pamsil_swap_panics). Proved: otherwise it returns, and this index panic is the only one in any arithmetic. pamsil never panics in exact arithmetic (C41_pamsil)."
 ],
 "C42": [
  "partial",
  "The full statements (C42_swap_full, C42_pamsil_full) are false for the code: medoid tests use the assignment of the previous candidate (C42_pamsil_swap_negation, C42_pamsil_negation). Proved for any number of swaps: objects with number k or larger occur at most once (C42_pamsil_swap_high_partial, C42_pamsil_high_partial; C42_bound_sharp: object k-1 can occur twice), and the medoids are distinct as long as object 0 is no medoid (C42_*_zero_partial); earlier form: object 0 not an initial medoid and at most one swap."
 ],
 "C43": [
  "partial",
  "The full statement (C43_full) is false for the code: object 0 is skipped (C43_negation), which can also leave a single medoid (C43_pammedsil_one_medoid). Proved: what BUILD does, i.e. the best first medoid and then the best of objects 1..n-1."
 ],
 "C49": [
  "partial",
  "The full statement (C49_full) is false for the code: without a swap the loss is 0, the silhouette of the all-0 assignment (C49_negation). Proved when a swap was made; assignment, counters and local optimality in all cases."
 ],
 "C50": [
  "proved",
  ""
 ],
 "C51": [
  "proved",
  ""
 ],
 "C44": [
  "proved",
  "any arithmetic (SaneZero where the code relies on 0 < 0 being false); covers fasterpam, rand_fasterpam, par_fasterpam, pam_swap, pam, pam_build, fastpam1, alternating, assign_nearest, silhouette, par_silhouette, medoid_silhouette, fastermsc, fastmsc (also where it panics), pammedsil_swap, pammedsil, pamsil_swap, pamsil, dynmsc; C44_adapters shows that LowerTriangle and Array2 present the same matrix"
 ],
 "C52": [
  "proved",
  ""
 ],
 "C45": [
  "proved",
  "PAM family including par_fasterpam; any arithmetic, any matrix, panics included."
 ],
 "C46": [
  "proved",
  "Stated for any loss type that is exact up to a bound B with 3(n+1)U <= B, for the whole sequential PAM family; instances for u32/i64 with wrapping and with checked arithmetic."
 ],
 "C53": [
  "partial",
  "Proved in full for the PAM family, fastermsc and fastmsc. The claim is false for pammedsil_swap, pammedsil and dynmsc with two medoids: debug_assert_assignment_th indexes the medoids with u32::MAX (the mark of a missing third nearest) and panics; proved as C53_*_panics for every input, with concrete counterexamples C53_*_false. C53_check and C53_check_th say exactly what is checked."
 ],
 "C15": [
  "proved",
  "second run without symmetry; from an arbitrary local optimum symmetry is assumed where k = 1"
 ],
 "C54": [
  "proved",
  ""
 ],
 "C55": [
  "proved",
  "C55_needs_symmetry: a run that never converges; C55_alternating_twice needs no assumption on the matrix or the loss arithmetic"
 ],
 "C56": [
  "proved",
  ""
 ],
 "C57": [
  "proved",
  "C57_scale, C57_nat_rat: maps that qualify. For a single medoid the loss is a sum of distances (C35) and is scaled."
 ],
 "C58": [
  "partial",
  "Proved for fasterpam, rand_fasterpam, par_fasterpam, alternating. For pam_swap and fastpam1 the claim (C58_full) is false: C58_negation, with a float of three significant bits; they satisfy it up to the last exchange (the _partial theorems) and for one medoid."
 ],
 "C59": [
  "partial",
  "The loss claim (C59_full) is false for fastmsc with k >= 3 and for pammedsil_swap (C59_negation, C59_negation_pammedsil_swap): the loss is that before the last exchange if rounding hides the improvement. All other parts are proved. fastmsc: two medoids on two objects are excluded (C29)."
 ],
 "C60": [
  "proved",
  "The panic half for pamsil and pamsil_swap needs a square matrix and valid medoids, because the labels are computed after the loop. dynmsc is not included: its limit holds per number of clusters. C60_longer_needs_exact shows that the second part fails with rounding."
 ],
 "C61": [
  "proved",
  "C61_objects_need_exact shows that with rounding the order of the objects does matter."
 ],
 "C62": [
  "proved",
  "The converse fails (C62_converse_fails): alternating stops in points that FasterPAM improves. Symmetry is needed (C62_needs_symmetry)."
 ],
 "C63": [
  "proved",
  "False for alternating (C63_alternating_fails) and for the medoid silhouette optimisers (C63_msc_fails), with concrete data; these are not part of the statement."
 ],
 "C64": [
  "proved",
  "For alternating no constant factor holds (C64_alternating_fails, for every constant); without the triangle inequality the bound fails (C64_needs_triangle); the factor cannot be 1 (C64_not_optimal)."
 ],
 "C65": [
  "proved",
  "The loss of pam itself can increase with k: C65_pam_not_antitone, a symmetric 7x7 matrix with loss 5 for three and 6 for four clusters."
 ],
 "C66": [
  "proved",
  "Level 2.5: any StdModel arithmetic, with Ieee.stdModel proving that IEEE 754 is one. Examples show real binary64 runs: the error is not zero, and without the bound the loss overflows to infinity. One medoid needs symmetry (column sums); par_fasterpam for k >= 2."
 ],
 "C67": [
  "proved",
  "Level 2.5. C67_not_exact, C67_early_stop and C67_early_stop_pam are binary64 runs which show that the rounding term and the hypothesis on the last pass are both needed. The last pass of FasterPAM is identified by comparing with the run whose limit is one smaller (C60)."
 ],
 "C68": [
  "proved",
  "Through C46 (arithmetic exact within bounds): IEEE arithmetic of precision p is exact on multiples of 2^e up to 2^p. C68_bound_needed: the bound cannot be dropped."
 ],
 "C69": [
  "proved",
  "Each accepted exchange costs at most the rounding error of its computed change; while the loop continues the computed losses decrease, so all but the last pass are controlled by the accuracy of the loss (C66). C69_not_exact: the error term cannot be dropped."
 ],
 "C70": [
  "proved",
  "C67 combined with the exchange argument of C64, both with error terms; C18 with rounded row sums."
 ],
 "C71": [
  "proved",
  "Invariant of BUILD without loss arithmetic (a medoid as a candidate has the value -0, so it is never added twice); forward error analysis of the gains; sign of the gains for the early stop. Negations of the exact statements: C71_not_greedy, C71_pam_not_exact."
 ],
 "C72": [
  "proved",
  "The loss at the end of each iteration is a fixed function of the medoids (C58, C59), so the iterations that go on form a strictly descending chain of medoid sets. Parallel sums: one of catalan(n-1) bracketings. C72_alternating is the counterexample for alternating, a cycle of two states."
 ],
 "C73": [
  "proved",
  "Error analysis of the merged thread-local sums (parFbsP_float) with exponent n+p+1, then the arguments of C67, C69, C70. k = 1 is C70. C73_not_exact shows the error term is needed."
 ],
 "C74": [
  "proved",
  "Rounded cluster sums (appr_partSum), the chosen member has the smallest computed sum (C70's chooseP_min), then sums over the clusters. C74_not_exact shows the errors are needed."
 ],
 "C75": [
  "proved",
  "C66, C69, C70, C73 for N = f32 or u32, L = f64; FloatLoss for the mixed types, and the sums stay below 2^200. C75_f64_overflow is the witness for f64 distances."
 ],
 "C76": [
  "proved",
  "bucket sums (Appr), means and minima (Near), the quotient (b-a)/max (frac_near), the average; general over a DivModel, instantiated for binary64. silhouetteP_near also covers labels with gaps (the code's rule). C76_underflow is the witness for f64 distances."
 ],
 "C77": [
  "proved",
  "silhouettes are finite for all valid medoids (C76, also for labels with gaps), so the scan is exact on computed values (PamSilFloat); BUILD's assertion holds because computed gains are not positive (build_nonpos). C77_not_exact is the witness."
 ],
 "C78": [
  "proved",
  "one term is one correctly rounded quotient in [0,1] (MscErr); C59 says the reported silhouette is the left-to-right sum for the returned medoids whatever the history, so errors do not add up over exchanges."
 ],
 "C79": [
  "proved",
  "rounding to nearest even is monotone and odd (RndMono) and 2^p + 1 rounds to 2^p, so a sum of n values up to 1 is at most min(n, 2^p), and the rounded n is at least that. fastmsc excludes two medoids on two objects, where it panics (C29)."
 ],
 "C80": [
  "proved",
  "error analysis of the decomposed gains (removal loss, shared and per-medoid parts, MscFloat, MscFloat2) against the exact difference of the sums of ratios; the first-improvement loop may stop at the last exchanged object, so all candidates were rejected with the final medoids (Quiet). The arbitrary hypothesis SumErr on sums of distances is proved for u32, f32 and f64."
 ],
 "C81": [
  "proved",
  "an accepted exchange is at most E worse (C80's error analysis); a pass or step is only followed by another one if the computed sum of ratios, accurate to ((1+u)^n-1) n, decreased (LoopErr)."
 ],
 "C82": [
  "proved",
  "the last exchange was accepted because its computed change was negative, so the exact total deviation is hardly larger (scan error, C69); the computed loss did not decrease, so it is hardly smaller. Concrete f64 run with a loss different from the recomputed one (decide +kernel)."
 ],
 "C83": [
  "proved",
  "any arithmetic: invariants of DynAny.lean. Formats: two zero terms, the sum of the others is at most min(n-2, 2^p), the rounded count exceeds it by a factor 1 - 2^-p. The condition on the format is necessary: run with two bits (decide +kernel)."
 ],
 "C84": [
  "proved",
  "Equivalences. Converse: the assertions and the reads of the first row. The full equivalence is false for fastermsc with k = 2 (C84_fastermsc_negation; exact condition in C84_fastermsc_two) and for the k == 1 shortcut (exact condition in C84_single; C05)."
 ],
 "C85": [
  "proved",
  "The functions are copied into a monad which adds up the charges; the matrix can be read only through it. C85_same: forgetting the charges gives the model functions, panics included. Bounds by a small program logic (Cnt.Sat). C85_speedup uses C14 (same result) and the lower bound for PAM."
 ],
 "C86": [
  "proved",
  "Induction over the loop with the invariant of C12 (one iteration makes a best exchange); two descents from renumbered starts stay renumberings of each other. Negations with witnesses: C86_ties_negation, C86_fasterpam_order_negation."
 ],
 "C87": [
  "proved",
  "Induction over the loop with the first-best specification of one iteration; two ascents from renumbered starts stay renumberings of each other; fastmsc follows via C34. Negations with witnesses: C87_ties_negation, C87_fastermsc_order_negation, C87_pammedsil_order_negation."
 ],
 "C88": [
  "proved",
  "Counting monad and a program logic for costs, as C85; C88_same shows that the counted copy computes the same; lower bound for PAMSIL by an invariant of the scan (the slot holds a candidate seen before) and because assign_nearest never labels the second medoid with zero."
 ],
 "C89": [
  "proved",
  "Generic lemma on the first-improvement loops (Proofs/Eager.lean): up to the first swap of a pass, and after the last one, all objects are settled, so ending a pass at the last swap loses nothing; the slot found by find_best_swap is the first minimum. Renumbering by a relation between the states of both runs."
 ],
 "C90": [
  "proved",
  "Sharpens C86 and C87, which leave ties open. Proofs/SteepRun.lean defines the searches and shows that the scans find the first best exchange."
 ],
 "C91": [
  "proved",
  "Sharpens C23 and C55. Proofs/AltRun.lean defines altRun and shows that the labels and the chosen medoids are the first best ones."
 ],
 "C92": [
  "proved",
  "Sharpens C36-C38. Proofs/DynRun.lean defines dynSteps and bestSol; the bound of four medoids is part of the claim, C92_negation shows that it is needed."
 ],
 "C93": [
  "proved",
  "Sharpens C39-C42. Proofs/SilRun.lean defines silRun and the condition Tame; C93_pamsil_swap_zero is the case that object 0 is never a medoid."
 ],
 "C94": [
  "proved",
  "Complements C64 (converged runs) and C16 (exponential bound on iterations); uses C86 (steepest descent) and C85 (work)."
 ],
 "C95": [
  "proved",
  "Complements C21 (greedy) and C65 (incremental)."
 ],
 "C96": [
  "proved",
  "Sharpens C16 and C55 for data of limited resolution; attained with equality in the example. Uses C85 for the work."
 ],
 "C97": [
  "proved",
  "Complements C64 (upper bound five), C94 and C95. Whether the constant is three or five (or between) for these functions is left open here."
 ],
 "C98": [
  "proved",
  "Exact arithmetic. The labels of the swap algorithms are not compared, since for ties they depend on the caches; every label is a nearest medoid (C07). Examples show that BUILD can return fewer medoids without the constant."
 ],
 "C99": [
  "proved",
  "Addition is a parameter (exact, i32 checked, i32 wrapping)."
 ],
 "C100": [
  "proved",
  "The statement includes its own limit: the correctness for default values in the range, and the failure for i32::MAX for all graphs described. Reading the file, splitting at white space and parsing numbers are parameters; losses are exact integers."
 ],
 "C101": [
  "proved",
  "The header fields must fit in 32 bits (they are u32). The dot product is any function that adds the products in some order and grouping; the square root of f64 is a parameter with stated laws, met by an example."
 ],
 "C102": [
  "proved",
  "Whether the last pass made no exchange is stated by comparison with the run with one pass less, since fasterpam also stops if the computed loss does not decrease."
 ],
 "C103": [
  "proved",
  "Strengthens the lower bound three of C97 to the exact constant."
 ],
 "C104": [
  "proved",
  "The first part holds for any loop body and any addition that may fail. rayon::scope waiting for all tasks and re-raising a panic, and std's poisoning, are part of the model."
 ],
 "C105": [
  "proved",
  "BUILD is left out: with NaN sums it may choose an object twice. The last sentence is C105_not_nearest_defined and C105_nan_runs_on."
 ],
 "C106": [
  "partial",
  "The first sentence is false for five or more initial medoids (C106_negation: eleven objects, symmetric distances); C106_labels_partial proves it for at most four initial medoids, and whenever k or two medoids are returned. The second sentence is proved for three or more returned medoids in C106_value (C106_value_any for any arithmetic of the losses); for two medoids see C37."
 ],
 "C107": [
  "proved",
  "C107_fastermsc, C107_fastmsc, C107_pammedsil_swap: labels, also of the medoids; C107_fastermsc_two, C107_fastmsc_two: two medoids; C107_distinct; C107_f64; C107_own_two_negation: the run with two medoids in which a medoid gets the other label."
 ],
 "C108": [
  "proved",
  "C108_pam_build, C108_pam, C108_pammedsil: distinct medoids and labels; C108_f64_distinct: f64; C108_pamsil_build: no failed assertion in f64; C108_pamsil_labels: labels of PAMSIL; C108_nan_diagonal: a repeated medoid and a panic when the diagonal contains NaN."
 ],
 "C109": [
  "proved",
  "C109_silhouette, C109_par_silhouette, C109_medoid_silhouette: any truncating integer type; C109_i64_constant: u32 distances and i64 results. The documentation says that the functions always return a float; the types do not enforce it."
 ],
 "C110": [
  "proved",
  "C110_build_valid, C110_pammedsil_eq, C110_pammedsil_valid, C110_pammedsil_iters: any arithmetic; C110_build: floating point; C110_ieee: all formats; C110_f64: f64 losses. Extends C43/C51 (exact arithmetic) and C72, C79, C80, C81 (pammedsil_swap)."
 ],
 "C111": [
  "proved",
  "C111_matrix and C111_own_number: the loop that fills the matrix; C111_i32, C111_overflow: i32 losses; C111_fasterpam ... C111_alternating: the benchmarks; C111_bound_needed: without the bound. These theorems say that no value computed with an overflow has an influence; that no overflow check fires is C112."
 ],
 "C112": [
  "proved",
  "Model/Checked.lean: the PAM family with operations that may panic. C112_erase: the text is that of the other model files. C112_exact, C112_general: no check fires; C112_u32_i64, C112_i32; C112_bench, C112_bench_returns: the benchmarks; C112_bound_needed, C112_lost_sum: without the bound."
 ],
 "C113": [
  "proved",
  "Proofs/Separated.lean and Props/C113.lean. C113_swapOptimal: local optima have a medoid in every group; C113_optimum: they are global optima; C113_labels. C113_pam_family, C113_par_fasterpam, C113_any_limit, C113_pam_build, C113_pam, C113_alternating: the functions; C113_alternating_fails, C113_needs_triangle, C113_needs_separation: what is needed."
 ],
 "C114": [
  "proved",
  "Proofs/SeparatedFloat.lean and Props/C114.lean. C114_pam_family, C114_pam_build, C114_pam: any arithmetic with the standard model; C114_points, C114_points_build: points in a metric space, f64. Examples: tenths in f64."
 ],
 "C115": [
  "proved",
  "Proofs/SeparatedSil.lean and Props/C115.lean. C115_high, C115_low, C115_best, C115_certificate: the objective; C115_msc, C115_dynmsc, C115_pammedsil_build, C115_pammedsil: the runs; C115_needs_bound, C115_start_needed: the hypotheses are needed. Examples: nine objects on a line."
 ],
 "C116": [
  "proved",
  "Proofs/SilBound.lean, Proofs/SeparatedSilhouette.lean and Props/C116.lean. C116_mixed, C116_split, C116_groups, C116_best, C116_certificate, C116_par_certificate: the objective; C116_pamsil_swap, C116_pamsil: the runs; C116_needs_bound, C116_start_needed: the hypotheses are needed. Examples: nine objects on a line."
 ],
 "C117": [
  "proved",
  "Proofs/SeparatedSil.lean, Proofs/SeparatedSilhouette.lean and Props/C117.lean. C117_high, C117_covers, C117_certificate: the medoid silhouette; C117_keeps, C117_fastermsc, C117_fastmsc, C117_pammedsil_swap: the runs; C117_silhouette, C117_par_silhouette, C117_pamsil_swap: the silhouette; _f64: explicit constants. Examples: nine objects with u32 distances and f64 losses. Not stated: BUILD starts under rounding."
 ],
 "C118": [
  "proved",
  "Model/Repaired.lean (a repaired variant, not the code), Proofs/DynFixed.lean and Props/C118.lean. C118_dynmsc: exact specification for any number of medoids; C118_loss: the full C37; C118_drop and C118_drop_first: the full C38. Examples: the counterexamples of C37_negation and C38_negation. This is about a suggested repair: C37 and C38 stay partial for the code itself."
 ],
 "C119": [
  "proved",
  "Model/Repaired.lean (a repaired variant, not the code), Proofs/PamSilFixed.lean and Props/C119.lean. C119_pamsil_swap, C119_no_panic: any arithmetic; C119_local_optimum: exact comparisons; C119_pamsil, C119_pamsil_distinct: with BUILD. Examples: the counterexamples of C41, C42 and C49. C41, C42 and C49 stay partial for the code itself."
 ],
 "C120": [
  "proved",
  "Model/Repaired2.lean (repaired variants, not the code), Proofs/LossFixed.lean and Props/C120.lean. C120_*_same: nothing but the loss changes; C120_pam_swap, C120_fastpam1, C120_fastmsc, C120_pammedsil_swap: the loss; C120_fastmsc_no_panic. Examples: the counterexamples of C58, C59 and C29. These stay partial for the code itself."
 ],
 "C121": [
  "proved",
  "Model/Repaired3.lean (repaired variants, not the code), Proofs/SilFixed.lean and Props/C121.lean. C121_silhouette, C121_rename (full C26), C121_par (full C27), C121_same. Examples: the counterexamples of C26 and C27. These stay partial for the code itself."
 ],
 "C122": [
  "proved",
  "Model/Repaired4.lean (repaired variant, not the code), Proofs/PmsBuildFixed.lean and Props/C122.lean. C122_build (lockstep with pam_build), C122_greedy (full C43), C122_pammedsil, C122_same, C122_pammedsil_no_panic. Examples: the counterexamples of C43. C43 stays partial for the code itself."
 ],
 "C123": [
  "proved",
  "Props/C123.lean: C123_resume and C123_limit for the repaired function of C119 (Model/Repaired.lean, not the code); C123_negation: the statement for the code (C123_full_for_the_code) is false, one run ends with a medoid twice and silhouette 43/189, the interrupted one with 23/90."
 ],
 "C124": [
  "proved",
  "Model/Repaired5.lean (repaired variant, not the code) and Props/C124.lean: C124_check, C124_same, C124_fastermsc, C124_fastmsc, C124_pammedsil_swap, C124_pammedsil, C124_dynmsc. Examples: the panics of C53. C53 stays partial for the code itself."
 ],
 "C125": [
  "proved",
  "Proofs/Copies.lean and Props/C125.lean, through the descriptions of the searches in C89 and C90. C125_pam_swap_weights, C125_fastpam1_weights, C125_pam_build_weights, C125_pam_weights, C125_rand_fasterpam_weights, C125_fasterpam_weights (any numbers of copies); C125_pam_swap, C125_fastpam1, C125_pam, C125_fasterpam (c copies each). C125_order_matters: FasterPAM with a second copy of the data behind the first; C125_pammedsil_fails: PAMMEDSIL exchanges a medoid for the copy of another one."
 ],
 "C126": [
  "proved",
  "Proofs/LeaveOne.lean and Props/C126.lean. C126_swapOptimal, C126_pam_family, C126_par_fasterpam, C126_pam, C126_silSwapOptimal, C126_msc, C126_dynmsc; C126_two_left_out_negation, C126_sil_two_left_out_negation and C126_alternating_negation show where it ends."
 ],
 "C127": [
  "proved",
  "Props/C127.lean. C127_metric, C127_rand_fasterpam, C127_fasterpam, C127_par_fasterpam, C127_pam (pam_swap and fastpam1), C127_optimum, C127_reads."
 ],
 "C128": [
  "proved",
  "Props/C128.lean, a consequence of C98. C128_metric, C128_triangle; what does not hold: C128_build_stop_negation, C128_msc_negation."
 ],
 "C129": [
  "proved",
  "Props/C129.lean. C129_fastermsc, C129_fastmsc (fastmsc and pammedsil_swap), C129_optimum, C129_reads; the data and that they are a metric: C127_metric."
 ],
 "C130": [
  "proved",
  "Props/C130.lean. C130_rand_fasterpam, C130_par_fasterpam; C130_fasterpam_negation with the counts in C130_fasterpam_starts, C130_single_negation. That the random generator draws uniformly is not part of the model."
 ],
 "C131": [
  "proved",
  "Props/C131.lean, with Proofs/Repeat.lean. C131_fasterpam, C131_rand_fasterpam, C131_par_fasterpam, C131_pam (structure RepeatOutcome); C131_zero_loss and C131_limit show that the exceptions occur; C131_alternating_negation, C131_msc, C131_msc_negation for the functions without this repair."
 ],
 "C132": [
  "proved",
  "Props/C132.lean. C132_rand_fasterpam, C132_fasterpam, C132_par_fasterpam, C132_pam_swap, C132_fastpam1, C132_pam_build, C132_pam, C132_fastermsc, C132_fastmsc, C132_pammedsil_swap for the ranking; C132_total_dev, C132_same_order, C132_noise_* and C132_med_sil, C132_same_order_sil for errors; C132_gap_negation (the bound is exact), C132_monotone_negation."
 ],
 "C133": [
  "proved",
  "Props/C133.lean. C133_no_factor is the claim; C133_metric, C133_alternating, C133_optimum, C133_pam_family its parts for the family lastPairD."
 ],
 "C134": [
  "proved",
  "Props/C134.lean. C134_no_factor is the claim; C134_metric, C134_local_optimum, C134_local_optimum_k its parts for the family midD (two groups, an object in the middle and a remote object, which are the medoids of the local optimum; isolated objects for more clusters). Props/C134Few.lean: C134_no_factor_few, with C134_metric_few and C134_local_optimum_few for the family nearFarD (2k-1 objects, k >= 3)."
 ],
 "C135": [
  "proved",
  "Props/C135.lean, Props/C135Three.lean, Props/C135Two.lean. C135_no_factor_all is the claim; C135_no_factor is k >= 4, with C135_metric and C135_local_optimum for the family pairRestD (k-1 pairs and k-1 remote objects); C135_no_factor_three is k = 3, with C135_metric_three and C135_local_optimum_three for the family subD (a large group with two subgroups, and two small groups); C135_no_factor_two is k = 2, with C135_metric_two and C135_local_optimum_two for the family remoteD (two groups and two remote objects)."
 ],
 "C136": [
  "proved",
  "Props/C136.lean, Props/C136All.lean. C136_medoid_silhouette_all and C136_total_deviation_all are the two directions for every k ≥ 2, with k - 2 isolated objects; C136_medoid_silhouette and C136_total_deviation are for two clusters without them; C136_metric is for the family duoD (two groups and a remote object). That the runs do not panic is C04 and C29."
 ],
 "C137": [
  "proved",
  "Props/C137.lean. C137_ties is the rule for ties, C137_perfect and C137_all_objects are the consequences. That the run does not panic is C47."
 ],
 "C138": [
  "proved",
  "Props/C138.lean. C138_more_medoids for the PAM family, C138_any_method also with par_fasterpam and alternating, C138_msc_negation for the medoid silhouette."
 ]
}