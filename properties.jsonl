{"id": "C01", "title": "LowerTriangle accesses stay in bounds", "statement": "For a LowerTriangle of size n whose is_square() is true, get(x,y) never panics for any x,y < n, and conversely is_square() is exactly the condition that data holds n(n-1)/2 cells.", "quantifier": "all n, all data vectors, all index pairs", "why_tests_cant": "unit tests use n=5 only; the index arithmetic must be in bounds for every n", "anchors": ["src/arrayadapter.rs: LowerTriangle::{len,is_square,get}"]}
{"id": "C02", "title": "LowerTriangle is a faithful symmetric zero-diagonal matrix", "statement": "get is symmetric, zero on the diagonal, two different unordered pairs never share a storage cell, every cell is reachable by some pair, and packing any symmetric zero-diagonal matrix row by row and reading it back returns the matrix.", "quantifier": "all n, all matrices, all pairs", "why_tests_cant": "aliasing of cells would only show for particular n and pairs", "anchors": ["src/arrayadapter.rs: LowerTriangle::get"]}
{"id": "C03", "title": "first_k gives valid initial medoids", "statement": "first_k(k) returns k pairwise distinct indexes, all smaller than n whenever k <= n, so it is accepted by every clustering function.", "quantifier": "all k and n", "why_tests_cant": "needs to hold for every k", "anchors": ["src/initialization.rs: first_k"]}
{"id": "C04", "title": "No panic and well-formed output for the PAM family under any arithmetic", "statement": "With a square n x n matrix, 1 <= k <= n (k < u32::MAX, n <= u32::MAX) and medoid indexes < n, fasterpam, rand_fasterpam, fastpam1, pam_swap and alternating do not panic, whatever the distances (asymmetric, negative, non-zero diagonal, NaN) and however addition rounds; the assignment has length n with every label < k, the medoid list keeps length k and every medoid is an index < n.", "quantifier": "all matrices, all medoid lists (also with duplicates), all maxiter, all number types including ones with incomparable values", "why_tests_cant": "a panic could hide behind one particular tie / NaN / swap order", "anchors": ["src/fasterpam.rs: fasterpam, rand_fasterpam, initial_assignment, find_best_swap, do_swap", "src/fastpam1.rs: fastpam1", "src/pam.rs: pam_swap, pam_optimize", "src/alternating.rs: alternating"]}
{"id": "C05", "title": "Documented panics happen", "statement": "fasterpam, rand_fasterpam, fastpam1, pam_swap, alternating, pam, pam_build panic when the matrix is not square and when k is 0 or larger than N.", "quantifier": "all invalid inputs", "why_tests_cant": "each function has several paths to the checks; tests contain no invalid input", "anchors": ["src/fasterpam.rs: initial_assignment", "src/alternating.rs: assign_nearest", "src/pam.rs: pam, pam_build, pam_build_initialize"]}
{"id": "C06", "title": "Medoids stay pairwise distinct", "statement": "Started from pairwise distinct medoids on a matrix with zero diagonal and non-negative distances, fasterpam, rand_fasterpam, fastpam1, pam_swap and alternating return pairwise distinct medoids (also in the presence of duplicate objects at distance 0).", "quantifier": "all matrices, initial medoids, maxiter", "why_tests_cant": "the test for 'already a medoid' looks only at the nearest medoid, so ties and zero distances matter", "anchors": ["src/fasterpam.rs: fasterpam, do_swap", "src/pam.rs: pam_optimize", "src/alternating.rs: alternating"]}
{"id": "C07", "title": "Every object is assigned to a nearest medoid", "statement": "For fasterpam, rand_fasterpam, fastpam1, pam_swap, alternating: in the returned assignment every object o is labelled with a position m such that d(o, med[m]) <= d(o, med[m']) for all m', and each medoid is labelled with its own position.", "quantifier": "all zero-diagonal non-negative matrices, all distinct initial medoids, all maxiter, any loss arithmetic", "why_tests_cant": "the assignment is maintained incrementally over an arbitrary history of swaps", "anchors": ["src/fasterpam.rs: initial_assignment, do_swap, update_second_nearest"]}
{"id": "C08", "title": "Reported loss is the total deviation of the returned medoids", "statement": "The loss returned by fasterpam, rand_fasterpam, fastpam1, pam_swap and alternating equals the sum over all objects of the distance to the nearest returned medoid.", "quantifier": "all zero-diagonal non-negative matrices (symmetric where k=1), initial medoids, maxiter, exact loss arithmetic", "why_tests_cant": "loss is recomputed incrementally; must agree after any number of swaps", "anchors": ["src/fasterpam.rs: do_swap, fasterpam", "src/pam.rs: pam_optimize", "src/fastpam1.rs: fastpam1"]}
{"id": "C09", "title": "Optimisation never makes the solution worse", "statement": "The total deviation of the returned medoids is at most that of the initial medoids, and is strictly smaller when n_swap > 0; when n_swap = 0 the medoids are unchanged.", "quantifier": "all zero-diagonal non-negative matrices (symmetric where k = 1), distinct initial medoids, maxiter; exact loss arithmetic", "why_tests_cant": "must hold for every swap in every history", "anchors": ["src/fasterpam.rs: fasterpam, find_best_swap", "src/pam.rs: pam_optimize, find_best_swap_pam", "src/fastpam1.rs"]}
{"id": "C10", "title": "Iteration and swap counters are consistent", "statement": "n_iter <= maxiter for k >= 2 (and 1 for k = 1); pam_swap and fastpam1 perform at most one swap per iteration; fasterpam performs at most n swaps per iteration; maxiter = 0 returns the input medoids with 0 swaps.", "quantifier": "all inputs and maxiter, any arithmetic", "why_tests_cant": "depends on the loop structure for arbitrarily many iterations", "anchors": ["src/fasterpam.rs: fasterpam", "src/pam.rs: pam_optimize", "src/fastpam1.rs: fastpam1"]}
{"id": "C11", "title": "FasterPAM stops only at a local optimum", "statement": "If fasterpam or rand_fasterpam returns with n_iter < maxiter then no exchange of one medoid by one non-medoid reduces the total deviation.", "quantifier": "all zero-diagonal non-negative matrices (symmetric where k = 1), distinct initial medoids, maxiter, visiting orders; exact loss arithmetic", "why_tests_cant": "the 'lastswap' early stop splits one full scan over two passes; a wrong boundary would skip candidates only in rare histories", "anchors": ["src/fasterpam.rs: fasterpam, rand_fasterpam (lastswap)"]}
{"id": "C12", "title": "PAM and FastPAM1 stop only at a local optimum", "statement": "If pam_swap, fastpam1 or pam returns with n_iter < maxiter then no exchange of one medoid by one non-medoid reduces the total deviation.", "quantifier": "all zero-diagonal non-negative matrices (symmetric where k = 1), distinct initial medoids, maxiter; exact loss arithmetic", "why_tests_cant": "universally quantified over exchanges and inputs", "anchors": ["src/pam.rs: pam_optimize, find_best_swap_pam", "src/fastpam1.rs: fastpam1"]}
{"id": "C13", "title": "PAM performs the best swap", "statement": "One iteration of pam_swap or fastpam1 (maxiter = 1) yields the smallest total deviation among the initial medoids and all single exchanges.", "quantifier": "all zero-diagonal non-negative matrices (symmetric where k = 1), distinct initial medoids; exact loss arithmetic", "why_tests_cant": "minimum over all k(n-k) exchanges", "anchors": ["src/pam.rs: pam_optimize, find_best_swap_pam", "src/fastpam1.rs", "src/fasterpam.rs: find_best_swap"]}
{"id": "C14", "title": "FastPAM1 gives the same result as PAM", "statement": "fastpam1 and pam_swap return identical loss, assignment, iteration count, swap count and medoids.", "quantifier": "all zero-diagonal non-negative matrices, all distinct initial medoids with k >= 1, all maxiter", "why_tests_cant": "documented equivalence of two different algorithms including tie-breaking", "anchors": ["src/fastpam1.rs: fastpam1", "src/pam.rs: pam_swap"]}
{"id": "C15", "title": "Converged results are fixed points", "statement": "Running fasterpam (or pam_swap/fastpam1) again on medoids returned by a converged run performs no swap and returns the same medoids and loss.", "quantifier": "all zero-diagonal non-negative matrices, all converged runs; exact loss arithmetic", "why_tests_cant": "history independent statement about the second run", "anchors": ["src/fasterpam.rs: fasterpam", "src/pam.rs: pam_optimize"]}
{"id": "C16", "title": "Convergence in finitely many iterations", "statement": "With exact arithmetic the number of swaps is smaller than the number of k-subsets of the n objects, hence with maxiter above that number fasterpam, rand_fasterpam, pam_swap and fastpam1 return converged (n_iter < maxiter), whatever the distances (no triangle inequality, no symmetry).", "quantifier": "all zero-diagonal non-negative matrices, distinct initial medoids; exact loss arithmetic", "why_tests_cant": "termination argument over all histories", "anchors": ["src/fasterpam.rs: fasterpam", "src/pam.rs: pam_optimize"]}
{"id": "C17", "title": "Parallel FasterPAM equals the sequential one for every schedule", "statement": "For the same shuffle, par_fasterpam returns exactly what rand_fasterpam returns (medoids, loss, assignment, counters) for every number of threads, every order in which worker threads merge their partial sums, and every reduction tree.", "quantifier": "all zero-diagonal non-negative matrices, distinct initial medoids, thread counts, merge orders, reduction trees; exact loss arithmetic", "why_tests_cant": "the scheduler is not controllable by tests", "anchors": ["src/par_fasterpam.rs: par_fasterpam, par_find_best_swap, par_do_swap, par_initial_assignment", "src/fasterpam.rs: rand_fasterpam"]}
{"id": "C18", "title": "k = 1 returns the global optimum", "statement": "With one medoid fasterpam, rand_fasterpam, par_fasterpam, fastpam1 and pam_swap return an object minimising the total distance to all objects, its total distance as loss, assignment all 0, n_iter 1, and n_swap 1 exactly if the medoid changed.", "quantifier": "all zero-diagonal non-negative matrices and initial medoids; exact loss arithmetic", "why_tests_cant": "global minimum over all objects", "anchors": ["src/util.rs: choose_medoid_within_partition"]}
{"id": "C19", "title": "BUILD output is a valid clustering", "statement": "pam_build returns between 1 and k pairwise distinct medoids < n, an assignment of every object to a nearest returned medoid (each medoid to itself), and the total deviation of these medoids as loss.", "quantifier": "all zero-diagonal non-negative matrices, all 1 <= k <= n", "why_tests_cant": "incremental construction over k steps", "anchors": ["src/pam.rs: pam_build, pam_build_initialize"]}
{"id": "C20", "title": "BUILD returns fewer than k medoids only for loss zero", "statement": "If pam_build returns fewer than k medoids then the total deviation of the returned medoids is 0; in particular it returns exactly k medoids whenever some choice of fewer objects cannot reach total deviation 0.", "quantifier": "all zero-diagonal non-negative matrices, all k; exact loss arithmetic", "why_tests_cant": "documented in CHANGELOG 0.3.2; depends on duplicates", "anchors": ["src/pam.rs: pam_build_initialize"]}
{"id": "C21", "title": "BUILD is greedy", "statement": "The first BUILD medoid is an optimal 1-medoid, and every further medoid gives the largest possible reduction of total deviation among all objects given the previous ones.", "quantifier": "all zero-diagonal non-negative matrices, all steps; exact loss arithmetic", "why_tests_cant": "argmin over all objects at every step", "anchors": ["src/pam.rs: pam_build_initialize"]}
{"id": "C22", "title": "PAM = BUILD followed by SWAP", "statement": "pam(mat,k,maxiter) returns the same loss, medoids and counters as pam_swap started from the medoids of pam_build(mat,k), and its loss is at most the BUILD loss.", "quantifier": "all zero-diagonal non-negative matrices, all k and maxiter; exact loss arithmetic", "why_tests_cant": "the two paths start SWAP from differently computed nearest/second-nearest caches", "anchors": ["src/pam.rs: pam, pam_build, pam_swap"]}
{"id": "C23", "title": "Alternating never increases the loss and stops at an alternating optimum", "statement": "On a symmetric matrix the loss of alternating is at most the initial one; if n_iter < maxiter every returned medoid minimises the sum of distances to the members of its cluster among the members of its cluster.", "quantifier": "all zero-diagonal non-negative matrices, distinct initial medoids, maxiter; exact loss arithmetic", "why_tests_cant": "all histories", "anchors": ["src/alternating.rs: alternating, assign_nearest", "src/util.rs: choose_medoid_within_partition"]}
{"id": "C24", "title": "Silhouette equals its definition", "statement": "For an assignment whose labels 0..K-1 all occur (K >= 2), silhouette returns the mean of s(i) = (b-a)/max(a,b), a = mean distance to own cluster, b = smallest mean distance to another cluster, s = 0 for singletons, with 0 for max(a,b) = 0.", "quantifier": "all non-negative matrices and assignments with no empty cluster; exact arithmetic", "why_tests_cant": "definition must hold for every clustering", "anchors": ["src/silhouette.rs: silhouette, checked_div"]}
{"id": "C25", "title": "Silhouette range and sample consistency", "statement": "With non-negative distances the average silhouette and each sample lie in [-1,1]; samples=true and samples=false give the same average; with samples=true exactly one value per object is returned and the average is their mean; with samples=false none.", "quantifier": "all matrices and assignments", "why_tests_cant": "bound for all inputs", "anchors": ["src/silhouette.rs: silhouette"]}
{"id": "C26", "title": "Silhouette ignores unused labels", "statement": "Renaming cluster labels (in particular leaving label gaps) does not change the silhouette.", "quantifier": "all injective renamings", "why_tests_cant": "metamorphic property over all renamings", "anchors": ["src/silhouette.rs: silhouette"]}
{"id": "C27", "title": "par_silhouette equals silhouette", "statement": "par_silhouette(mat, assi) returns the same value as silhouette(mat, assi, _).0.", "quantifier": "all matrices and assignments, all schedules", "why_tests_cant": "parallel code duplicated from the sequential one", "anchors": ["src/par_silhouette.rs: par_silhouette", "src/silhouette.rs: silhouette"]}
{"id": "C28", "title": "Medoid silhouette equals its definition", "statement": "medoid_silhouette returns 1 - mean(d1/d2) (0/0 := 0), d1,d2 the two smallest medoid distances of each object, lies in [0,1], and the samples are the individual 1 - d1/d2.", "quantifier": "all non-negative matrices, all medoid lists with k >= 2", "why_tests_cant": "two-smallest selection for every k", "anchors": ["src/silhouette.rs: medoid_silhouette"]}
{"id": "C29", "title": "FasterMSC/FastMSC/PAMMEDSIL: no panic, well-formed output", "statement": "On valid input (2 <= k <= n) fastermsc, fastmsc, pammedsil_swap do not panic, the assignment has length n and labels < k, medoids stay in range and keep their number, n_iter <= maxiter.", "quantifier": "all inputs, any arithmetic", "why_tests_cant": "index arithmetic with a u32::MAX sentinel for the missing third medoid", "anchors": ["src/fastermsc.rs", "src/fastmsc.rs", "src/pammedsil.rs"]}
{"id": "C30", "title": "FasterMSC/FastMSC/PAMMEDSIL report the medoid silhouette of the returned medoids", "statement": "For k >= 2 the loss returned by fastermsc, fastmsc, pammedsil_swap equals medoid_silhouette(mat, returned medoids).0.", "quantifier": "all zero-diagonal non-negative matrices, distinct initial medoids, maxiter", "why_tests_cant": "three cached distances per object are updated incrementally through arbitrary swap histories", "anchors": ["src/fastermsc.rs: do_swap, do_swap_k2, update_third_nearest", "src/fastmsc.rs", "src/pammedsil.rs: pammedsil_optimize", "src/silhouette.rs: medoid_silhouette"]}
{"id": "C31", "title": "FasterMSC/FastMSC/PAMMEDSIL assign to the nearest medoid", "statement": "For k >= 2 every object is labelled with a nearest returned medoid; the medoids stay pairwise distinct.", "quantifier": "all zero-diagonal non-negative matrices, distinct initial medoids, maxiter", "why_tests_cant": "incremental update over all histories", "anchors": ["src/fastermsc.rs: initial_assignment, do_swap, do_swap_k2"]}
{"id": "C32", "title": "Medoid silhouette optimisation never makes the solution worse", "statement": "The medoid silhouette of the medoids returned by fastermsc, fastmsc, pammedsil_swap is at least that of the initial medoids, strictly larger if a swap was made.", "quantifier": "all zero-diagonal non-negative matrices, at least two distinct initial medoids, maxiter; exact arithmetic", "why_tests_cant": "all histories", "anchors": ["src/fastermsc.rs: find_best_swap, find_best_swap_k2", "src/pammedsil.rs: find_best_swap_pammedsil"]}
{"id": "C33", "title": "Medoid silhouette optimisation stops only at a local optimum", "statement": "If fastermsc, fastmsc or pammedsil_swap returns with n_iter < maxiter (k >= 2), no exchange of one medoid by one non-medoid increases the medoid silhouette.", "quantifier": "all zero-diagonal non-negative matrices, at least two distinct initial medoids, maxiter; exact arithmetic", "why_tests_cant": "all exchanges, all histories", "anchors": ["src/fastermsc.rs", "src/fastmsc.rs", "src/pammedsil.rs"]}
{"id": "C34", "title": "FastMSC gives the same result as PAMMEDSIL", "statement": "fastmsc and pammedsil_swap return identical loss, assignment, counters and medoids.", "quantifier": "all zero-diagonal non-negative matrices, distinct initial medoids, k >= 1, maxiter", "why_tests_cant": "documented equivalence of two algorithms including ties", "anchors": ["src/fastmsc.rs: fastmsc, fastmsc_k2", "src/pammedsil.rs: pammedsil_swap"]}
{"id": "C35", "title": "MSC functions return a silhouette also for k = 1", "statement": "For k = 1 the loss returned by fastermsc, fastmsc, pammedsil, dynmsc is the medoid silhouette of the returned medoid.", "quantifier": "all inputs with k = 1", "why_tests_cant": "expected by analogy with k >= 2", "anchors": ["src/fastermsc.rs: fastermsc (k == 1)", "src/silhouette.rs: medoid_silhouette (k == 1)"]}
{"id": "C36", "title": "DynMSC returns the best solution it saw", "statement": "For k >= 2 the loss returned by dynmsc is the maximum of the reported per-k losses, the returned assignment has length n, the returned medoids are distinct, their number lies between mink (clamped to 2..k) and the initial k, and the per-k vector has k - mink + 1 entries (mink clamped to 1..k).", "quantifier": "all zero-diagonal non-negative matrices, distinct initial medoids, all mink and maxiter", "why_tests_cant": "selection over a history of k values", "anchors": ["src/dynmsc.rs: dynmsc"]}
{"id": "C37", "title": "DynMSC reports the medoid silhouette of the returned medoids", "statement": "The loss returned by dynmsc equals medoid_silhouette(mat, returned medoids).0 for k >= 2.", "quantifier": "all zero-diagonal non-negative matrices", "why_tests_cant": "cached nearest/second/third distances must survive medoid removal", "anchors": ["src/dynmsc.rs: dynmsc, remove_med, update_third_nearest_without_new"]}
{"id": "C38", "title": "DynMSC drops the least useful medoid", "statement": "When DynMSC decreases k it removes a medoid whose removal gives the best medoid silhouette among all k candidates.", "quantifier": "all zero-diagonal non-negative matrices, distinct medoids; exact arithmetic", "why_tests_cant": "argmax over candidates", "anchors": ["src/dynmsc.rs: dynmsc (choice of r)"]}
{"id": "C39", "title": "PAMSIL returns the silhouette of its assignment", "statement": "For k >= 2 the loss returned by pamsil_swap equals silhouette(mat, returned assignment), and the returned assignment is the nearest-medoid assignment of the returned medoids.", "quantifier": "all inputs where it returns, any arithmetic", "why_tests_cant": "all histories", "anchors": ["src/pamsil.rs: pamsil_swap, pamsil_optimize"]}
{"id": "C40", "title": "PAMSIL improves and stops only at a local optimum", "statement": "The silhouette returned by pamsil_swap is at least that of the initial medoids; if n_iter < maxiter no exchange of one medoid by a non-medoid gives a larger silhouette.", "quantifier": "all inputs where it returns", "why_tests_cant": "all exchanges", "anchors": ["src/pamsil.rs: pamsil_optimize"]}
{"id": "C41", "title": "PAMSIL does not panic on valid input", "statement": "pamsil_swap and pamsil do not panic on a valid square matrix with 1 <= k <= n and valid distinct medoids.", "quantifier": "all valid inputs", "why_tests_cant": "depends on the sign of the silhouette of every candidate", "anchors": ["src/pamsil.rs: pamsil_optimize"]}
{"id": "C42", "title": "PAMSIL keeps medoids pairwise distinct", "statement": "pamsil_swap started from distinct medoids, and pamsil, return pairwise distinct medoids.", "quantifier": "all valid inputs", "why_tests_cant": "the medoid test uses a stale assignment", "anchors": ["src/pamsil.rs: pamsil_optimize, pamsil_build_initialize"]}
{"id": "C43", "title": "PAMMEDSIL BUILD considers every object", "statement": "Each further medoid chosen by the BUILD phase of pammedsil gives the largest possible reduction of total deviation among all objects.", "quantifier": "all zero-diagonal non-negative matrices, all k; exact arithmetic", "why_tests_cant": "argmin over all objects", "anchors": ["src/pammedsil.rs: pammedsil_build_initialize"]}
{"id": "C44", "title": "Results do not depend on the storage of the matrix", "statement": "Two array adapters that present the same n x n matrix (for example a LowerTriangle and a full ndarray) give identical results in every clustering and evaluation function.", "quantifier": "all pairs of adapters", "why_tests_cant": "relational property over all inputs", "anchors": ["src/arrayadapter.rs: ArrayAdapter", "all algorithms"]}
{"id": "C45", "title": "Scale invariance and independence of the number type", "statement": "Multiplying all distances by a positive constant, or switching to number types related by an order- and addition-preserving embedding (e.g. u32/i64 to exact integers), changes none of medoids, assignment and counters of the PAM family, and scales the loss.", "quantifier": "all inputs, all embeddings", "why_tests_cant": "metamorphic relation over all inputs", "anchors": ["src/fasterpam.rs", "src/pam.rs", "src/fastpam1.rs", "src/alternating.rs"]}
{"id": "C46", "title": "No overflow with u32 distances and i64 loss", "statement": "With u32 distances and i64 losses and n at most 2^29 objects, no intermediate value of fasterpam overflows, so the result is the exact one.", "quantifier": "all matrices of that size", "why_tests_cant": "overflow only shows for huge inputs", "anchors": ["src/fasterpam.rs: find_best_swap, update_removal_loss, do_swap"]}
{"id": "C47", "title": "DynMSC does not panic", "statement": "dynmsc does not panic on a valid square matrix with 1 <= k <= n valid medoids, whatever the distances and the arithmetic (NaN, overflow). It reports one loss per number of medoids from mink (clamped to 1..k) to k, the returned medoids are objects, and at most maxiter iterations are used per number of medoids.", "quantifier": "all inputs, all mink and maxiter, any arithmetic", "why_tests_cant": "labels are renumbered on every removal and u32::MAX / b are used as sentinels, over arbitrary swap histories", "anchors": ["src/dynmsc.rs: dynmsc, remove_med, update_third_nearest_without_new"]}
{"id": "C48", "title": "DynMSC extends FasterMSC", "statement": "With mink >= k dynmsc returns exactly what fastermsc returns (loss, assignment, counters, medoids). For every mink, the loss it reports for k medoids is the loss of fastermsc from the same medoids, and its returned loss is at least that.", "quantifier": "all zero-diagonal non-negative matrices, distinct initial medoids, all mink and maxiter", "why_tests_cant": "equality of two programs over all inputs", "anchors": ["src/dynmsc.rs: dynmsc", "src/fastermsc.rs: fastermsc"]}
{"id": "C49", "title": "pamsil reports the silhouette of its answer", "statement": "For k >= 2 the loss returned by pamsil (BUILD and SWAP) is the silhouette of the returned assignment, which is the nearest-medoid assignment of the returned medoids; if n_iter < maxiter no exchange of a medoid by a non-medoid has a larger silhouette.", "quantifier": "all zero-diagonal non-negative matrices, all k and maxiter", "why_tests_cant": "only fails when no exchange beats the silhouette of the all-0 assignment", "anchors": ["src/pamsil.rs: pamsil, pamsil_optimize, pamsil_build_initialize"]}
{"id": "C50", "title": "PAMSIL BUILD against PAM BUILD", "statement": "The BUILD phase of pamsil selects the same medoids as pam_build, followed by copies of object 0 when pam_build stops early (with total deviation 0).", "quantifier": "all zero-diagonal non-negative matrices, all k", "why_tests_cant": "equality of two programs over all inputs", "anchors": ["src/pamsil.rs: pamsil_build_initialize", "src/pam.rs: pam_build_initialize"]}
{"id": "C51", "title": "PAMMEDSIL is BUILD followed by SWAP", "statement": "pammedsil returns in all components what pammedsil_swap returns for the medoids found by its BUILD phase, so the incrementally built three-nearest cache equals the one computed from scratch. The BUILD medoids are distinct; if different objects have positive distance and k < n there are exactly k of them.", "quantifier": "all zero-diagonal non-negative matrices, all k and maxiter", "why_tests_cant": "equality of an incremental and a from-scratch cache over all histories", "anchors": ["src/pammedsil.rs: pammedsil, pammedsil_build_initialize, pammedsil_swap"]}
{"id": "C52", "title": "par_fasterpam keeps all guarantees for every schedule and under rounding", "statement": "For every number of threads, order of merging and reduction tree: par_fasterpam does not panic and returns a well-formed answer (any arithmetic); n_iter <= maxiter, at most n swaps per iteration, no swaps means unchanged medoids; with zero diagonal and non-negative distances the medoids stay distinct and every object is labelled with a nearest medoid even if the loss arithmetic rounds differently in every run; in exact arithmetic the loss is the total deviation of the returned medoids, n_swap strictly improving exchanges lead to them, fewer than C(n,k) swaps happen and a run with n_iter < maxiter ends in a local optimum.", "quantifier": "all matrices, medoid lists, schedules, visiting orders, maxiter, number types", "why_tests_cant": "schedules and rounding differ from run to run", "anchors": ["src/par_fasterpam.rs: par_fasterpam, par_initial_assignment, par_find_best_swap, par_do_swap"]}
{"id": "C53", "title": "The consistency checks of the feature `assertions` never fire and change nothing", "statement": "Built with the feature `assertions`, every optimiser checks its cache before the search (nearest and second nearest, for the medoid silhouette also third nearest: they exist, have the cached distance, are in order). On a matrix with zero diagonal and non-negative entries and for medoids in range the check passes and the function behaves as without the feature.", "quantifier": "all matrices, medoid lists (even with repetitions), k, maxiter, schedules, loss types", "why_tests_cant": "the feature is off by default and its checks run on the caches of all objects; that they can never fire is a claim about all inputs", "anchors": ["src/util.rs: debug_assert_assignment, debug_assert_assignment_th", "src/fasterpam.rs:56,139", "src/fastpam1.rs:59", "src/par_fasterpam.rs:61", "src/pam.rs:168", "src/fastermsc.rs:68", "src/fastmsc.rs:63", "src/pammedsil.rs:128", "src/dynmsc.rs:76"]}
{"id": "C54", "title": "The medoid silhouette optimisers converge", "statement": "For k >= 2 every swap of fastermsc, fastmsc and pammedsil_swap is an exchange of a medoid by a non-medoid that increases the medoid silhouette. There are fewer than C(n,k) swaps and at most C(n,k) iterations, so with a larger maxiter the run ends by itself in a local optimum. Started from a local optimum, for example the result of a converged run of any of the three, none of them changes anything. The same bounds hold for pammedsil.", "quantifier": "all zero-diagonal non-negative matrices, at least two distinct initial medoids, maxiter; exact arithmetic", "why_tests_cant": "termination argument over all histories", "anchors": ["src/fastermsc.rs: fastermsc, fastermsc_k2", "src/fastmsc.rs: fastmsc, fastmsc_k2", "src/pammedsil.rs: pammedsil_swap, pammedsil"]}
{"id": "C55", "title": "Alternating converges on symmetric matrices", "statement": "On a symmetric matrix every iteration of alternating except the last strictly decreases the total deviation, so it uses at most C(n,k) iterations and with a larger maxiter ends with every medoid a best member of its cluster. Without symmetry this fails: there are three objects with an asymmetric distance satisfying the triangle inequality on which it runs until maxiter, however large. On any matrix and with any rounding, running it again on the medoids of a converged run takes one iteration and changes nothing.", "quantifier": "all zero-diagonal non-negative symmetric matrices, distinct initial medoids, maxiter; exact loss arithmetic", "why_tests_cant": "termination argument over all histories; the counterexample needs all values of maxiter", "anchors": ["src/alternating.rs: alternating, assign_nearest", "src/util.rs: choose_medoid_within_partition"]}
{"id": "C56", "title": "PAMSIL converges", "statement": "For k >= 2 pamsil_swap makes fewer than n^k swaps and uses at most n^k iterations (pamsil: one more), so with a larger maxiter it ends by itself, if it does not panic.", "quantifier": "all matrices and initial medoids (pamsil: zero-diagonal non-negative matrices)", "why_tests_cant": "termination argument over all histories", "anchors": ["src/pamsil.rs: pamsil_swap, pamsil, pamsil_optimize"]}
{"id": "C57", "title": "Silhouettes and the silhouette optimisers do not depend on the unit or the number type", "statement": "Multiplying all distances by a positive constant changes nothing at all in the results of silhouette, par_silhouette, medoid_silhouette and (for k >= 2) fastermsc, fastmsc, pammedsil_swap, pammedsil, dynmsc, pamsil_swap and pamsil: medoids, labels, counters, losses, panics. More generally for every map of the number types that respects the operations the code uses, with sums of distances and their quotients mapped separately.", "quantifier": "all matrices, medoids, assignments, maxiter; all maps of the number types that respect the operations; no assumption on the arithmetic", "why_tests_cant": "metamorphic relation over all inputs and number types", "anchors": ["src/silhouette.rs", "src/par_silhouette.rs", "src/fastermsc.rs", "src/fastmsc.rs", "src/pammedsil.rs", "src/dynmsc.rs", "src/pamsil.rs"]}
{"id": "C58", "title": "No rounding error accumulates in the reported loss", "statement": "Whatever the arithmetic of the loss type (rounding, not associative), the loss returned by fasterpam, rand_fasterpam and alternating is, operation by operation, the left-to-right sum of the distances to the nearest returned medoid (par_fasterpam: the sum in some bracketing), however many exchanges were made. For pam_swap and fastpam1 this is false: if the last exchange does not lower the computed loss they return the new medoids with the loss of the old ones; it holds up to that last exchange.", "quantifier": "all loss types, all square non-negative matrices with zero diagonal, all distinct valid medoids, all maxiter, all visiting orders and schedules", "why_tests_cant": "over all arithmetics and all chains of exchanges; the stale loss needs an exchange that looks better and is not, by rounding", "anchors": ["src/fasterpam.rs:226-280", "src/par_fasterpam.rs", "src/alternating.rs", "src/pam.rs", "src/fastpam1.rs"]}
{"id": "C59", "title": "The medoid silhouette optimisers under any arithmetic", "statement": "Whatever the arithmetic of the loss type, fastermsc, fastmsc and pammedsil_swap (k >= 2) label every object with a nearest medoid and return distinct medoids in range; for k = 2 in fastermsc and fastmsc the medoids are distinct if no two objects are at distance zero or if sums and quotients are monotone (any rounding mode; infinities and NaN). The silhouette fastermsc reports is computed from the left-to-right sum of nearest/second nearest for the returned medoids. For fastmsc (k >= 3) and pammedsil_swap this is false in the same way as for PAM; it holds up to the last exchange.", "quantifier": "all loss types, all square non-negative matrices with zero diagonal, all distinct valid medoids, all maxiter", "why_tests_cant": "over all arithmetics and all chains of exchanges", "anchors": ["src/fastermsc.rs", "src/fastmsc.rs", "src/pammedsil.rs"]}
{"id": "C60", "title": "max_iter only truncates the run, and a larger limit never gives a worse result", "statement": "For fasterpam, rand_fasterpam, par_fasterpam, fastpam1, pam_swap, pam, alternating, fastermsc, fastmsc, pammedsil_swap, pammedsil, pamsil_swap and pamsil: a run that reports fewer iterations than its limit is returned, unchanged in every field, for every limit not below the reported number of iterations; a panic met within some limit is met with every larger limit. With exact arithmetic the medoids returned with a larger limit are reached from those returned with the smaller one by improving exchanges, exactly as many as the swap counters differ, so the loss is not larger, and equal only if nothing was exchanged in between. With rounding the second part is false.", "quantifier": "first part: all matrices (square or not), all arithmetics, all medoid lists, all pairs of limits (pamsil: panic part for square matrices and valid medoids); second part: exact arithmetic, non-negative matrices with zero diagonal, distinct valid medoids", "why_tests_cant": "relates runs for all pairs of limits, including limits that no test can exhaust, over all number types and also for panicking runs", "anchors": ["src/fasterpam.rs", "src/par_fasterpam.rs", "src/fastpam1.rs", "src/pam.rs", "src/alternating.rs", "src/fastermsc.rs", "src/fastmsc.rs", "src/pammedsil.rs", "src/pamsil.rs"]}
{"id": "C61", "title": "Quality measures do not depend on the order of objects and medoids", "statement": "Renumbering the objects (rows and columns of the matrix, labels, medoids) leaves the average of silhouette, par_silhouette and medoid_silhouette unchanged and permutes the samples; total deviation and local optimality do not change either, so two runs of the PAM family, or of the medoid silhouette optimisers, on the data in different orders that end with the same medoids report the same loss. The order in which the medoids are listed does not matter even with rounding: medoid_silhouette, and the losses reported by fasterpam, rand_fasterpam and alternating, are equal bit for bit for the same set of medoids.", "quantifier": "all permutations of the objects, all matrices, all labels (also with unused ones), exact arithmetic; for the order of medoids all loss arithmetics", "why_tests_cant": "over all permutations and all pairs of runs", "anchors": ["src/silhouette.rs", "src/par_silhouette.rs", "src/fasterpam.rs", "src/alternating.rs", "src/fastermsc.rs"]}
{"id": "C62", "title": "The functions agree on what a local optimum is", "statement": "The medoids of a converged run of fasterpam, rand_fasterpam, pam_swap or fastpam1, given to any other of them, are returned with the same loss and without an exchange; on symmetric matrices alternating returns them unchanged, too, after one iteration. Conversely, the exchanges of the PAM family after alternating never make the result worse.", "quantifier": "all non-negative matrices with zero diagonal (alternating: symmetric), all distinct initial medoids, all limits, all pairs of functions", "why_tests_cant": "over all inputs and pairs of runs", "anchors": ["src/fasterpam.rs", "src/pam.rs", "src/fastpam1.rs", "src/alternating.rs"]}
{"id": "C63", "title": "A perfect clustering is found whenever there is one", "statement": "If some at most k objects are at distance zero from all objects (the data have at most k distinct objects), then pam_build, pam and every converged run of fasterpam, rand_fasterpam, pam_swap and fastpam1, from any initial medoids, return loss zero: local optima are global. With k = n no exchange is made and the loss is zero for any limit.", "quantifier": "all non-negative matrices with zero diagonal in which objects at distance zero have equal distances (no triangle inequality), all initial medoids, all visiting orders", "why_tests_cant": "a statement about all local optima of all data sets", "anchors": ["src/fasterpam.rs", "src/pam.rs", "src/fastpam1.rs"]}
{"id": "C64", "title": "Local optima are within a factor of five of the optimum for metrics", "statement": "If the dissimilarity satisfies the triangle inequality, every converged run of fasterpam, rand_fasterpam, pam_swap, fastpam1, par_fasterpam (any schedule) and pam ends with a loss of at most five times the total deviation of any non-empty choice of at most k medoids, hence of the global optimum.", "quantifier": "all symmetric dissimilarities with triangle inequality, all initial medoids, all visiting orders, all n and k", "why_tests_cant": "the global optimum is NP-hard to compute, and the claim is about all local optima", "anchors": ["src/fasterpam.rs", "src/pam.rs", "src/fastpam1.rs", "src/par_fasterpam.rs"]}
{"id": "C65", "title": "More clusters: BUILD is incremental and its loss does not increase", "statement": "The medoids chosen by pam_build for k clusters are the first k of those chosen for any k' >= k, for any matrix and any arithmetic; the same holds for the BUILD of pamsil and (if zero compares equal to itself) of pammedsil. In exact arithmetic the loss of pam_build does not increase with k, and the loss of pam for k' clusters is at most the loss of pam_build for k <= k' clusters. With the triangle inequality a converged pam with k' clusters has at most five times the loss of pam with k clusters.", "quantifier": "all matrices, all k <= k', all limits; prefix property for all arithmetics", "why_tests_cant": "over all pairs of cluster numbers, all inputs and all roundings", "anchors": ["src/pam.rs:237-307", "src/pamsil.rs:149-216", "src/pammedsil.rs:262-336"]}
{"id": "C66", "title": "The reported loss is accurate in floating point", "statement": "In floating point arithmetic with unit roundoff u (relative rounding error at most u in additions and subtractions below the overflow threshold B, exact comparisons; IEEE 754 binary32/binary64 with round to nearest even are proved to be instances), the loss returned by fasterpam, rand_fasterpam (any order), par_fasterpam (any schedule and reduction tree) and alternating is finite and differs from the exact total deviation of the returned medoids by at most ((1+u)^(n-1) - 1) times it, regardless of the number of exchanges, provided (1+u)^(n-1) times the total deviation is at most B.", "quantifier": "all non-negative dissimilarities, all initial medoids, all visiting orders, schedules and iteration limits, all n and k, every floating point format", "why_tests_cant": "rounding errors depend on the data and on the order of the operations; an error bound for all inputs cannot be sampled", "anchors": ["src/fasterpam.rs:44-110", "src/fasterpam.rs:225-260", "src/par_fasterpam.rs", "src/alternating.rs"]}
{"id": "C67", "title": "In floating point, a run that ends with a pass without exchange ends in a nearly local optimum", "statement": "In floating point arithmetic (unit roundoff u, below the overflow threshold), if the last pass of fasterpam or rand_fasterpam, or the last iteration of pam_swap or fastpam1, made no exchange, then no exchange of one medoid improves the exact total deviation of the returned medoids by more than a rounding error: ((1+u)^(2n+1)-1) times twice the total deviation without the exchanged medoid for FasterPAM and FastPAM1, ((1+u)^(n+1)-1) times it for PAM. Exact local optimality fails in f64, and a run that stops because its computed loss did not decrease can miss an exchange that divides the total deviation by more than three.", "quantifier": "all non-negative dissimilarities, all valid initial medoids, all visiting orders and iteration limits, all n and k >= 2, every floating point format", "why_tests_cant": "whether rounding hides a profitable exchange depends on the data and the order of the operations; the bound holds for all of them", "anchors": ["src/fasterpam.rs:44-110", "src/fasterpam.rs:112-222", "src/pam.rs", "src/fastpam1.rs"]}
{"id": "C68", "title": "Floating point runs on fixed-point data are exact", "statement": "If all distances are multiples z * 2^e of a power of two with 0 <= z <= U (integers, or a fixed number of binary digits) and 3 (n+1) U <= 2^p for an IEEE 754 format of precision p whose range contains the grid, then fasterpam, rand_fasterpam, par_fasterpam (every schedule), fastpam1, pam_swap, pam, pam_build and alternating in floating point return exactly the result of integer arithmetic, panics included. Hence the loss is the exact total deviation, every exchange is an improvement, runs that stop before the limit end in local optima, fastpam1 equals pam_swap, and par_fasterpam equals rand_fasterpam bit for bit for every schedule. For u32 distances and f64 losses this holds for n <= 699049. With f32 and integers up to 2^24 it fails already for four objects, and without a grid par_fasterpam in f64 is not deterministic: the order in which two threads lock can decide between total deviations of 0.4 and 0.5.", "quantifier": "all matrices on the grid, all medoids (valid or not), orders and iteration limits, all n and k, every floating point format", "why_tests_cant": "absence of rounding in every intermediate result of every run cannot be sampled; the bound relates n, the range of the data and the precision", "anchors": ["src/fasterpam.rs", "src/pam.rs", "src/fastpam1.rs", "src/alternating.rs", "src/par_fasterpam.rs"]}
{"id": "C69", "title": "Rounding hardly makes a solution worse", "statement": "In floating point with unit roundoff u and distances at most W without overflow, the exact total deviation of the medoids returned by fasterpam, rand_fasterpam, fastpam1 and pam_swap (k >= 2) exceeds that of the initial medoids by at most E per exchange made, and by at most (n+1) E (fasterpam, any order), 2 E (fastpam1), 3 E' (pam_swap) in total, where E = ((1+u)^(2n+1) - 1) 2 n W and E' = ((1+u)^(n+1) - 1) n W. The second bound does not depend on the number of iterations. An increase is possible: in f64, with distances that are multiples of 0.1, all three return medoids that are strictly worse than their input.", "quantifier": "all matrices with zero diagonal and non-negative distances, all distinct initial medoids, orders and iteration limits, all n and k >= 2, every arithmetic with the standard model of rounding (IEEE 754 included)", "why_tests_cant": "the bound must hold for every sequence of rounded decisions; rounding effects of this kind are below the tolerance used in tests", "anchors": ["src/fasterpam.rs", "src/pam.rs", "src/fastpam1.rs"]}
{"id": "C70", "title": "Global guarantees survive rounding", "statement": "In floating point with unit roundoff u and without overflow: (1) with one medoid and symmetric distances, fasterpam, rand_fasterpam, par_fasterpam, fastpam1 and pam_swap return an object whose exact total deviation T satisfies T <= T_x + ((1+u)^(n-1) - 1)(T + T_x) for every object x. (2) If distances are symmetric, at most W, and satisfy the triangle inequality up to eta, then the result of fasterpam or rand_fasterpam whose last pass made no exchange, and of fastpam1 or pam_swap whose last iteration made none, has an exact total deviation of at most 5 times that of any set of at most k medoids, plus k times the rounding error of one computed change, plus 4 n eta.", "quantifier": "all matrices with zero diagonal and non-negative distances, all distinct initial medoids, orders and iteration limits, all n and k, all competing medoid sets, every arithmetic with the standard model of rounding (IEEE 754 included)", "why_tests_cant": "a comparison with every other solution, for every sequence of rounded decisions", "anchors": ["src/fasterpam.rs", "src/pam.rs", "src/fastpam1.rs", "src/par_fasterpam.rs", "src/alternating.rs"]}
{"id": "C71", "title": "BUILD and PAM under rounding", "statement": "(1) For any arithmetic of the loss in which -0 >= 0 holds, pam_build returns between 1 and k distinct medoids with a nearest-medoid assignment, and pam returns distinct medoids with a nearest-medoid assignment. (2) If, in addition, adding zero changes no sum of distances (true in IEEE 754), pam returns in all components what pam_swap returns for the medoids of pam_build. (3) In floating point with unit roundoff u and without overflow, the loss of pam_build has relative error at most (1+u)^(n-1)-1, its first medoid is a best single medoid up to a rounding error, each further medoid is the greedy choice up to 2((1+u)^(n+1)-1) times the exact deviation before it, and fewer than k medoids are returned only if the exact total deviation is zero. (4) pam is not worse than pam_build by more than three times the rounding error of one computed change, and has the guarantees of C67 and C70. Exactly greedy, or never worse than BUILD, they are not: there are f64 inputs with multiples of 0.1 where BUILD picks a worse second medoid, and where pam is worse than pam_build.", "quantifier": "all matrices with zero diagonal and non-negative distances, all n and k, all iteration limits, every arithmetic with the stated laws (IEEE 754 of every format included)", "why_tests_cant": "statements about all sequences of rounded comparisons; the exact deviation is not observable in floating point", "anchors": ["src/pam.rs:82-150", "src/pam.rs:238-312"]}
{"id": "C72", "title": "The optimisers end by themselves, whatever the rounding; alternating need not", "statement": "For two or more distinct initial medoids, without any assumption about rounding: rand_fasterpam, fasterpam, pam_swap, fastpam1, pam, fastermsc, fastmsc and pammedsil_swap perform at most C(n,k) iterations, par_fasterpam at most catalan(n-1)*C(n,k) for every schedule, pamsil_swap and pamsil at most n^k (+1), however large maxiter is. Assumed is only that losses other than NaN are compared by some linear order and that the loss of no k medoids is NaN; for finite non-negative floating point distances (overflow allowed) this holds for all but PAMSIL. (For fastermsc and fastmsc with two medoids duplicates are excluded or rounding is monotone, as in every IEEE format; fastmsc not with n = k = 2.) The alternating algorithm, which has no test for a smaller loss, does not have this property: there are six objects with an f64 metric on which it performs maxiter iterations for every maxiter.", "quantifier": "all matrices with zero diagonal and non-negative distances, all n, k >= 2, all initial medoids, visiting orders and schedules, all iteration limits, every arithmetic with a linear order", "why_tests_cant": "termination for every input and every rounding; the number of iterations is bounded by a function of the number of medoid sets, not by testing", "anchors": ["src/fasterpam.rs:80", "src/fasterpam.rs:165", "src/par_fasterpam.rs:87", "src/pam.rs:187", "src/fastpam1.rs:80", "src/fastermsc.rs:93", "src/fastermsc.rs:335", "src/fastmsc.rs:85", "src/fastmsc.rs:134", "src/pammedsil.rs:151", "src/pamsil.rs:138", "src/alternating.rs:40-70"]}
{"id": "C73", "title": "par_fasterpam keeps its guarantees under rounding, for every schedule", "statement": "In floating point with unit roundoff u and without overflow, with at most p threads per search, whatever the number of threads, their order of merging and the shape of the reductions in each call: (1) when a pass of par_fasterpam exchanges nothing, no exchange of a medoid m by an object lowers the exact total deviation by more than ((1+u)^(n+p+1) - 1) * 2 * (total deviation without m). (2) If in addition the distances are at most W and form a metric up to an error eta, the result is at most five times that of any k medoids plus a rounding error. (3) Also when stopped early, the exact total deviation of the result is at most that of the initial medoids plus E per exchange, and plus (n+1)*E however many exchanges were made, where E = ((1+u)^(n+p+1) - 1) * 2 n W. The rounding error cannot be removed: there are six objects in f64 where par_fasterpam returns medoids worse than those given.", "quantifier": "all zero-diagonal non-negative matrices, all n, k >= 2, all initial medoids, visiting orders, schedules with at most p threads, iteration limits, all floating point formats", "why_tests_cant": "a race decides the rounding; tests see one schedule on one machine", "anchors": ["src/par_fasterpam.rs:54-93", "src/par_fasterpam.rs:134-176", "src/par_fasterpam.rs:180-230"]}
{"id": "C74", "title": "Alternating under rounding", "statement": "In floating point with unit roundoff u and without overflow: (1) if alternating ends before maxiter iterations, every medoid c of a cluster with s members has an exact sum S(c) of distances to the members with S(c) <= S(x) + ((1+u)^(s-1) - 1)(S(c) + S(x)) for every member x; symmetry is not needed. (2) On symmetric matrices, whether or not it ended by itself, after t iterations the exact total deviation is at most the initial one plus t * ((1+u)^(n-1) - 1) * 2 n W if all distances are at most W, and, with g = (1+u)^(n-1) - 1 <= 1, (1-g)^t * final <= (1+g)^t * initial. The errors cannot be removed: in f64 there are six objects with multiples of 0.1 where alternating ends by itself with medoids worse than the given ones and with a medoid that is not a best member of its cluster.", "quantifier": "all zero-diagonal non-negative matrices (symmetric in (2)), all n, k, distinct initial medoids, iteration limits, all floating point formats", "why_tests_cant": "error bounds for every input size and every format; the tests compare one data set with integer distances", "anchors": ["src/alternating.rs:40-95", "src/fasterpam.rs: choose_medoid_within_partition"]}
{"id": "C75", "title": "f32 or u32 distances with f64 losses need no overflow assumption", "statement": "With f32 distances (bounded by the f32 range) or any u32 distances and an f64 loss, nothing overflows for any accepted number of objects, and: (1) FasterPAM (every order), par_fasterpam (every schedule) and alternating report a finite loss within a relative error n 2^-52 of the exact total deviation of the returned medoids; (2) the exact total deviation of the medoids FasterPAM returns is at most that of the given ones plus (n+1)(2n+1) 2^-52 * 2 n W where W bounds the distances, and for par_fasterpam with at most p threads the same with n+p+1 for 2n+1; (3) on a metric, if the last pass exchanged nothing, it is at most 5 times that of any other at most k medoids plus k (2n+1) 2^-52 * 2 n W. With f64 distances (1) and (2) are false: finite distances exist for which the losses overflow and FasterPAM exchanges, because the computed change is NaN, a medoid for a much worse one.", "quantifier": "all zero-diagonal non-negative f32 / u32 matrices, all n, k >= 2 (k >= 1 for the accuracy of FasterPAM and alternating), distinct initial medoids, iteration limits, orders, schedules", "why_tests_cant": "bounds for every size up to u32::MAX and every matrix; the tests use integer losses", "anchors": ["src/fasterpam.rs:18-135", "src/par_fasterpam.rs", "src/alternating.rs:40-95"]}
{"id": "C76", "title": "Silhouettes under rounding", "statement": "With rounding losses (relative error u per operation, gradual underflow below eta in division), distances that are 0 or at least w and at most W, and n u, underflow and overflow small against these, silhouette returns a finite average within 2g/(1-g) + (1+u)^(n+3) - 1 of the exact average silhouette of the labels, g = (1+u)^n - 1, and every per-object value within 2g/(1-g) + (1+u)^2 - 1 of the exact one; par_silhouette likewise for at least two clusters. In particular, for u32 distances, or f32 distances in range, with f64 losses, the error of the average is at most (5n+3) 2^-52 for every accepted n. With f64 distances it is false: subnormal distances exist for which the average is 1/8 instead of 1/4.", "quantifier": "all matrices meeting the range conditions (non-negative, not necessarily symmetric or zero diagonal), all labels without gaps, all n up to u32::MAX", "why_tests_cant": "an error bound for every matrix, labelling and size; the tests compare a few decimal literals", "anchors": ["src/silhouette.rs:42-189"]}
{"id": "C77", "title": "PAMSIL under rounding", "statement": "Under the conditions of C76 with E its bound on the error of one average silhouette: if pamsil_swap (k >= 2) returns, its loss is finite and within E of the exact silhouette of its assignment; that is at least the exact silhouette of the given medoids' assignment minus 2E; and if it stopped before the iteration limit, no exchange of a medoid for a non-medoid has an exact silhouette above it by more than 2E. The errors do not add up over the exchanges. pamsil (BUILD and SWAP) always returns; after at least one exchange its loss is positive and within E, and before the limit no exchange has a silhouette above the loss plus E. For u32 or f32 distances with f64 losses and distinct medoids E <= (5n+3) 2^-52 and the silhouettes are the textbook ones. The term cannot be dropped: a u32 matrix exists for which pamsil_swap stops at medoids that are not an exact local optimum.", "quantifier": "all matrices meeting the range conditions, all n, k >= 2, initial medoids, iteration limits", "why_tests_cant": "relation between floating-point decisions and exact silhouettes for every input; the tests compare one run with decimal literals", "anchors": ["src/pamsil.rs:37-200"]}
{"id": "C78", "title": "Medoid silhouettes under rounding", "statement": "In a floating-point loss type with unit roundoff u (monotone sums and quotients, underflow allowed), for a square nonnegative matrix with zero diagonal and k >= 2 valid medoids: medoid_silhouette returns a finite average within (1+u)^(n+3)-1 of the exact average of 1 - nearest/second nearest over the converted distances, and each sample is within the same bound; the silhouette reported by fastermsc is finite and within this bound of the exact medoid silhouette of the returned medoids. No bound on the distances is needed: quotients cannot overflow, and their underflow is harmless. For f64 losses (u32, f32 or f64 distances) the bound is at most (n+3) 2^-52.", "quantifier": "all floating-point formats, matrices, n, k >= 2, medoids, iteration limits", "why_tests_cant": "an error bound for every input and every chain of exchanges", "anchors": ["src/silhouette.rs", "src/fastermsc.rs"]}
{"id": "C79", "title": "Silhouettes stay in their range under rounding", "statement": "In every IEEE binary format with at least two bits of precision and nonnegative distances, no silhouette is a number outside [-1, 1] and no medoid silhouette is a number outside [0, 1], not even by a rounding error: this holds for all samples and averages of silhouette, par_silhouette and medoid_silhouette, and for the values reported by pamsil_swap, fastermsc, fastmsc and pammedsil_swap (k >= 2). There is no condition on the size of the distances; if sums overflow a value can be NaN. The number of objects need not be exact in the loss type.", "quantifier": "all formats, nonnegative matrices (for the medoid silhouettes with zero diagonal), labels, medoids, iteration limits", "why_tests_cant": "excluding an excess by one unit in the last place for every input", "anchors": ["src/silhouette.rs", "src/par_silhouette.rs", "src/pamsil.rs", "src/fastermsc.rs", "src/fastmsc.rs", "src/pammedsil.rs"]}
{"id": "C80", "title": "Floating-point runs of the medoid silhouette methods end in nearly local optima", "statement": "In a floating-point loss type with unit roundoff u, where the sum of two distances of an object, computed in the distance type, has relative error at most v <= 1/2 (needed for k >= 3 in fastermsc and fastmsc only), for a square nonnegative matrix with zero diagonal and k >= 2 distinct valid medoids: if an additional pass of fastermsc exchanged nothing, or fastmsc (not with k = n = 2) made fewer exchanges than iterations, then no exchange of one returned medoid for a non-medoid improves the exact average medoid silhouette of the converted distances by more than 9((1+u)^(2n+2)-1) + 2v; for pammedsil_swap by more than 3((1+u)^(n+2)-1). For f64 losses these are at most 18(n+1) 2^-52 + 2v and 3(n+2) 2^-52, with v = 0 for u32 distances below 2^31, 2^-24 for f32 and 2^-53 for f64 distances whose sums do not overflow.", "quantifier": "all floating-point formats, matrices, n, k >= 2, initial medoids, iteration limits", "why_tests_cant": "the bound must hold for every candidate at the end of every run and every rounding", "anchors": ["src/fastermsc.rs", "src/fastmsc.rs", "src/pammedsil.rs"]}
{"id": "C81", "title": "Medoid silhouette methods under rounding hardly make the medoids worse and report accurate values", "statement": "Under the assumptions of C80 and with its error E: for fastermsc, fastmsc (not with k = n = 2) and pammedsil_swap the exact average medoid silhouette of the returned medoids is at most E per exchange made below that of the initial medoids, and at most (n+1) E (fastermsc) or 2 E (fastmsc, pammedsil_swap) below it whatever the number of exchanges. The value reported by fastmsc and pammedsil_swap is finite and within (1+u)^(n+3)-1 + E of the exact average medoid silhouette of the returned medoids, even if it is the value before the last exchange (C59).", "quantifier": "all floating-point formats, matrices, n, k >= 2, initial medoids, iteration limits", "why_tests_cant": "a bound over every chain of exchanges of any length under every rounding", "anchors": ["src/fastermsc.rs", "src/fastmsc.rs", "src/pammedsil.rs"]}
{"id": "C82", "title": "PAM and FastPAM1 report an accurate loss in floating point", "statement": "In a floating-point loss type with unit roundoff u, for a square nonnegative matrix with zero diagonal, converted entries at most W (sums of n of them must not overflow) and k >= 2 distinct valid medoids: the loss returned by pam_swap is finite and within 2((1+u)^(n+1)-1) nW of the exact total deviation of the medoids returned, that of fastpam1 within 3((1+u)^(2n+1)-1) nW, although it can be the loss before the last exchange (C58); pam as pam_swap if adding zero changes no sum and BUILD gives at least two medoids. One medoid, symmetric matrix: relative error (1+u)^(n-1)-1. f64 losses for f32 or u32 distances: 2(n+1) 2^-52 nW and 3(2n+1) 2^-52 nW without any assumption on overflow. There are f64 runs whose reported loss is not the loss computed for the medoids returned.", "quantifier": "all floating-point formats, matrices, n, k, initial medoids, iteration limits", "why_tests_cant": "a bound for every chain of exchanges and every rounding, including the runs where the last exchange did not lower the computed loss", "anchors": ["src/pam.rs:40-80", "src/pam.rs:131-160", "src/fastpam1.rs:42-90"]}
{"id": "C83", "title": "DynMSC in floating point returns the best solution it found", "statement": "Square nonnegative matrix with zero diagonal, k >= 2 distinct valid medoids. Any loss arithmetic: the entry of the returned list for k medoids is the silhouette of fastermsc; if that is recognised as greater than zero, then the returned value is in the list, the labels are well-formed, three or more medoids are labelled with themselves, their number lies between mink (clamped to 2..k) and k, and in the cases of C37 (k <= 4, or k or 2 medoids returned) the value is the one recomputed from the medoids returned and every label is nearest; with mink >= k the result is that of fastermsc. Binary floating-point formats (at least two bits, 1 - 2^-p representable; f32 and f64), finite distances of the same type, or u32 or f32 distances with f64 losses: the computed medoid silhouette of two or more distinct medoids is a number between 2^-p and 1, for every number of objects up to 2^32 even if it is not exact in the format; hence dynmsc without any condition returns distinct medoids and the maximum of the list, which contains no NaN; for f64 in the cases of C37 the value is within (n+3) 2^-52 of the exact medoid silhouette. There is a format, with 1 - 2^-p not representable, for which dynmsc returns the labels [0, n].", "quantifier": "all loss arithmetics or binary formats, matrices, n, k, initial medoids, mink, iteration limits", "why_tests_cant": "positivity for all sums of up to 2^32 rounded quotients decides if a solution is returned at all; the failing format is not one a test would use", "anchors": ["src/dynmsc.rs:53-150", "src/fastermsc.rs:48-100"]}
{"id": "C84", "title": "Calls are accepted exactly if they are valid", "statement": "Any distances and arithmetic (0 < 0 false for the loss where SWAP searches start from zero), ndarray and LowerTriangle storage. With other than one medoid, fasterpam, rand_fasterpam, par_fasterpam (all schedules), fastpam1, dynmsc, and with any number pam_swap, alternating, pammedsil_swap return exactly if the matrix is square, n <= u32::MAX, 1 <= k <= n, k < u32::MAX and every medoid is an index below n; pam, pam_build and pammedsil exactly if the sizes are valid; fastermsc and fastmsc the same for three or more medoids, and for two medoids if n is not 1 (fastmsc: n >= 3). pamsil_swap and pamsil return only for valid calls. fastermsc with two medoids accepts exactly the square matrices with both medoids below n, so also k = 2 > n = 1. With one medoid the functions testing k == 1 first accept exactly the calls whose reads succeed: for ndarray no rows, or the medoid a row and (one row or at least as many columns as rows); a LowerTriangle with surplus data can return a medoid that does not exist.", "quantifier": "all matrices (square or not), storages, medoid lists (any length and entries), number types, iteration limits", "why_tests_cant": "tests make valid calls only; a read outside the triangle could succeed silently because the cells are numbered consecutively", "anchors": ["src/arrayadapter.rs:18-71", "src/fasterpam.rs:182-185", "src/par_fasterpam.rs:105-108", "src/alternating.rs:74-77", "src/fastermsc.rs:111-114", "src/fastermsc.rs:352-354", "src/pam.rs:89-92", "src/pam.rs:138-141", "src/pammedsil.rs:98-101", "src/pamsil.rs:89-92"]}
{"id": "C85", "title": "Work: FasterPAM evaluates all k exchanges of a candidate with n reads; PAM needs k (n - 1)", "statement": "Count matrix reads and executions of loop bodies. For every matrix, any distances and arithmetic: find_best_swap takes exactly n reads and n + 2k steps, find_best_swap_pam exactly k (n - 1) reads and k (n + 1) steps, do_swap at most n (k + 1) reads. Whole runs with k other than 1: fasterpam and rand_fasterpam at most n (k + n_iter n + n_swap (k + 1)) reads and five times as many steps, fastpam1 the same with factor seven, pam_swap between n_iter (n - k) k (n - 1) and n (k + n_iter (k + 1) n + n_swap (k + 1)) reads, pam_build k n^2, alternating n (k + n_iter (n + 2k)), one medoid n (n + 1). With exact arithmetic, k >= 2, 2k <= n and at least one iteration, fastpam1 returns the same result as pam_swap with at most 8/k times the reads, and at most 56/k times the cost for any price of a read and a step.", "quantifier": "all matrices, start medoids, number types, iteration limits, visiting orders and prices", "why_tests_cant": "tests do not count operations, and a slow evaluation returns the same result", "anchors": ["README.md:15-20", "src/fasterpam.rs:39-172", "src/fasterpam.rs:175-330", "src/fastpam1.rs:42-95", "src/pam.rs:40-80", "src/pam.rs:82-130", "src/pam.rs:131-235", "src/pam.rs:238-310", "src/alternating.rs:40-100"]}
{"id": "C86", "title": "PAM is steepest descent and does not depend on the order of objects and medoids", "statement": "Exact arithmetic, k >= 2. The medoids returned by pam_swap and fastpam1 are reached from the initial ones by exactly n_swap best improving exchanges, and either n_swap = n_iter = maxiter, or n_swap < maxiter, n_iter = n_swap + 1 and no improving exchange is left. Hence, if the best exchange is unique (as a set of medoids) in each iteration, renumbering the objects and reordering the initial medoids gives the same medoids (renumbered, in some order), loss, n_iter and n_swap. pam_build adds each further medoid because it strictly decreases the total deviation; if each choice is unique, the renumbered problem gives the same medoids in the same order. The same for pam. Without uniqueness the final loss of pam_swap can depend on the order, and that of fasterpam can depend on it even when all sets of medoids have different losses.", "quantifier": "all dissimilarity matrices (also asymmetric), renumberings, start medoids and their orders, limits", "why_tests_cant": "tests fix one order; dependence on the order needs all permutations of all inputs", "anchors": ["src/pam.rs:40-80", "src/pam.rs:150-235", "src/pam.rs:238-310", "src/fastpam1.rs:42-95", "src/fasterpam.rs:39-118"]}
{"id": "C87", "title": "FastMSC and PAMMEDSIL are steepest ascent and do not depend on the order of objects and medoids", "statement": "Exact arithmetic, k >= 2. The medoids returned by fastmsc and pammedsil_swap are reached from the initial ones by exactly n_swap exchanges, each with the largest mean medoid silhouette of all exchanges and an improvement, and either n_swap = n_iter = maxiter, or n_swap < maxiter, n_iter = n_swap + 1 and no improving exchange is left. Hence, if the best exchange is unique (as a set of medoids) in each iteration, renumbering the objects and reordering the initial medoids gives the same medoids (renumbered, in some order), silhouette, n_iter and n_swap. Without uniqueness the result of fastmsc can depend on the order; that of fastermsc can even without ties; and that of pammedsil can even if all BUILD choices and all exchanges are unique, because its BUILD phase ignores object 0.", "quantifier": "all dissimilarity matrices (also asymmetric), renumberings, start medoids and their orders, limits", "why_tests_cant": "tests fix one order; dependence on the order needs all permutations of all inputs", "anchors": ["src/fastmsc.rs:43-140", "src/pammedsil.rs:49-88", "src/pammedsil.rs:110-261", "src/pammedsil.rs:263-336", "src/fastermsc.rs:48-130"]}
{"id": "C88", "title": "Work done by the silhouette family", "statement": "Counting accesses to the matrix (reads) and loop bodies (steps) in a copy of the code that provably computes the same: one candidate costs exactly n reads in fastermsc/fastmsc and k(n-1) in pammedsil; fastermsc and fastmsc take at most n(k + n_iter n + n_swap(k+1)) reads and 5 resp. 7 times that many steps; pammedsil_swap takes at least n_iter (n-k) k (n-1) reads; dynmsc takes n(k(k+2) + n_iter n + n_swap(k+1)) reads for all numbers of clusters together; silhouette takes exactly n(n-1) reads unless all labels are zero, medoid_silhouette exactly n k (documented as a reduction from O(N^2) to O(Nk)); an iteration of pamsil_swap takes between k(n-k)n(n-1+k) and about k n^2 (n+2k) reads. In exact arithmetic with k >= 3 and 2k <= n fastmsc returns the same as pammedsil_swap with at most 8/k times the reads and 56/k times the total cost.", "quantifier": "all matrices, medoids, labels, limits, all weights of reads and steps; no assumption on the arithmetic except for the last comparison", "why_tests_cant": "tests time single inputs; bounds for all n, k, iterations and swaps need a proof", "anchors": ["src/fastermsc.rs:48-102", "src/fastmsc.rs:15", "src/fastmsc.rs:45-130", "src/pammedsil.rs:45-336", "src/dynmsc.rs", "src/silhouette.rs:40-170", "src/silhouette.rs:102", "src/pamsil.rs"]}
{"id": "C89", "title": "FasterPAM and FasterMSC are exactly the eager local search", "statement": "In exact arithmetic whole runs of fasterpam, rand_fasterpam (every visiting order), par_fasterpam (every order and schedule) and fastermsc (two and more medoids) return the medoids in the same order, the number of iterations and the number of swaps of the textbook search: visit the objects in order; for a non-medoid find the first best medoid to replace, with the objective computed from scratch; replace it if that is an improvement; repeat complete passes until one changes nothing or the limit is reached. Neither the caches nor the early end of a pass at the last swap change the result. Consequences: renumbering objects, medoids and visiting order together changes nothing in any component, including labels and with ties; a run can be stopped after a iterations and continued for b from the medoids returned, with the same medoids, loss and total number of swaps as one run of a+b, and the iterations add up except for one more pass if the first run had finished. Labels may differ after continuing if there are ties (negation).", "quantifier": "all matrices with zero diagonal and non-negative entries (also asymmetric), all sets of at least two distinct medoids, all visiting orders, schedules and limits; exact arithmetic", "why_tests_cant": "equality of whole runs with a cache-free search and invariance under all n! renumberings cannot be enumerated", "anchors": ["src/fasterpam.rs:39-165", "src/par_fasterpam.rs:43-95", "src/fastermsc.rs:48-102"]}
{"id": "C90", "title": "PAM, FastPAM1, FastMSC and PAMMEDSIL are exactly the steepest search, including ties", "statement": "In exact arithmetic whole runs of pam_swap, fastpam1, pammedsil_swap and fastmsc with at least two medoids return the medoids in the same order, the number of iterations and the number of swaps of the textbook search: list all exchanges by object number, then medoid number; take the first one with the best objective, computed from scratch; perform it if that is an improvement, else stop. BUILD of PAM is the greedy search that takes the lowest object number among the best and stops if nothing improves; BUILD of PAMMEDSIL is the same without trying object 0 again. So pam and pammedsil are determined completely. A run can be stopped after a iterations and continued for b from the medoids returned, with the same medoids, loss and total number of swaps as one run of a+b; the iterations add up except for one more if the first run had finished. Labels may differ after continuing if there are ties (negation).", "quantifier": "all matrices with zero diagonal and non-negative entries (also asymmetric), all sets of at least two distinct medoids, all k for the BUILD variants, all limits; exact arithmetic", "why_tests_cant": "equality of whole runs with a cache-free search for all inputs including all patterns of ties cannot be enumerated", "anchors": ["src/pam.rs:40-307", "src/fastpam1.rs:42-90", "src/pammedsil.rs:49-336", "src/fastmsc.rs:43-140"]}
{"id": "C91", "title": "Alternating is exactly the textbook alternation, including ties", "statement": "In exact arithmetic a whole run of alternating returns exactly what this cache-free description gives: assign every object to its nearest medoid (a medoid to itself, the first medoid if several are nearest); replace every medoid by the member of its cluster with the smallest sum of distances to the cluster (kept if none is better, the lowest number among several best); repeat until no medoid changes or the limit is reached. The returned assignment is that of the returned medoids, the loss is their total deviation. A run can be stopped after a iterations and continued for b with the same medoids, assignment and loss as one run of a+b. If no ties occur in the run, renumbering the objects and reordering the medoids gives the same medoids (renumbered), iterations and loss; with ties the order of the initial medoids can change the loss (negation).", "quantifier": "all matrices with zero diagonal and non-negative entries (also asymmetric), all lists of distinct medoids, all limits, all renumberings; exact arithmetic", "why_tests_cant": "equality of whole runs with a cache-free description for all inputs including all patterns of ties cannot be enumerated", "anchors": ["src/alternating.rs:40-95", "src/util.rs:108-145"]}
{"id": "C92", "title": "DynMSC from at most four medoids is exactly the textbook algorithm, including ties", "statement": "In exact arithmetic a whole run of dynmsc that starts with two, three or four distinct medoids returns exactly what this cache-free description gives: for the current number of medoids run the eager local search for the medoid silhouette (objects in order, the first best medoid to replace, strict improvement, until a pass changes nothing or the limit is reached); then drop the first medoid whose removal leaves the smallest medoid silhouette, the last medoid moving to its place; repeat down to two medoids or the minimum asked for. The returned medoids are those of the first solution with the largest silhouette; the returned loss is that silhouette; iterations and swaps are the totals; the list of losses holds the silhouettes of all solutions by number of medoids, with 0 for one medoid if that was asked for. Started with five medoids the code can differ from this description (negation).", "quantifier": "all matrices with zero diagonal and non-negative entries (also asymmetric), all lists of two to four distinct medoids, all minima and limits; exact arithmetic", "why_tests_cant": "equality of whole runs with a cache-free description for all inputs including all patterns of ties cannot be enumerated", "anchors": ["src/dynmsc.rs:54-145", "src/dynmsc.rs:175-243", "src/fastermsc.rs:54-140"]}
{"id": "C93", "title": "PAMSIL is exactly a steepest ascent for the silhouette, including ties and the panic", "statement": "In exact arithmetic a whole run of pamsil_swap from distinct medoids returns exactly what this cache-free description gives: among all exchanges of a medoid for an object that is not a medoid, ordered by position of the medoid and then by number of the object, take the first one with the largest average silhouette of the nearest-medoid clusters, if it is larger than the present one and positive; repeat until there is none or the limit is reached. The code panics exactly if this run arrives at medoids with a negative silhouette for which no exchange has a positive one. pamsil gives the same from the medoids of PAM BUILD, starting with silhouette 0, and never panics. The medoids stay distinct. Condition: at no step of the run does it pay to repeat a medoid that comes before the first non-medoid; it holds in particular if object 0 is never a medoid. Without it the code may repeat a medoid (C42).", "quantifier": "all matrices with zero diagonal and non-negative entries (also asymmetric), all lists of at least two distinct medoids, all limits; exact arithmetic; runs that meet the condition", "why_tests_cant": "equality of whole runs with a cache-free description for all inputs, including all patterns of ties and the exact condition of the panic", "anchors": ["src/pamsil.rs:37-52", "src/pamsil.rs:82-147", "src/alternating.rs:66-95", "src/silhouette.rs:41-96"]}
{"id": "C94", "title": "PAM and FastPAM1 approach the factor five geometrically; FastPAM1 is a polynomial-time approximation", "statement": "Triangle inequality, exact arithmetic, k >= 2. Let o be the total deviation of any other m <= k medoids. For every limit maxiter the loss returned by pam_swap and fastpam1 is at most 5 o, or m^maxiter (loss - 5 o) <= (m-1)^maxiter (start - 5 o), start being the loss of the initial medoids: each iteration takes away at least the m-th part of the excess. The same for pam, with the loss of BUILD as start, for every k. For integer losses a limit of k (log2(start) + 1) iterations gives a loss of at most 5 o; with this limit FastPAM1 reads at most n (k + limit (n + k + 1)) entries, so it finds a solution within a factor of five of the optimum in polynomial time.", "quantifier": "all metric matrices of any size, all initial medoids, all limits, all other choices of medoids", "why_tests_cant": "a bound against the unknown optimum for every limit and every input; the optimum is infeasible to compute for more than tiny inputs", "anchors": ["src/pam.rs:40-52", "src/pam.rs:150-197", "src/fastpam1.rs:42-90"]}
{"id": "C95", "title": "BUILD gets a fixed part of the possible improvement", "statement": "Exact arithmetic, no triangle inequality and no symmetry needed. Let o be the total deviation of any m medoids and s that of any single medoid. pam_build for k clusters returns a loss with m^(k-1) (loss - o) <= (m-1)^(k-1) (s - o), so for m = k all but the part (1 - 1/k)^(k-1) of the possible improvement. The same for the final loss of pam. For integers, BUILD with more than m (log2(s) + 1) medoids is at least as good as any m medoids. The BUILD of pammedsil has the same guarantee for the total deviation against medoids other than object 0, which it does not try again.", "quantifier": "all matrices with zero diagonal and non-negative entries, all k, all other choices of medoids", "why_tests_cant": "a bound against the unknown optimum for every input", "anchors": ["src/pam.rs:237-307", "src/pam.rs:82-147", "src/pammedsil.rs:263-336"]}
{"id": "C96", "title": "The number of swaps is bounded by the improvement divided by the resolution of the data", "statement": "Exact arithmetic. If all distances are integer multiples of some delta > 0 (integers: delta = 1), then for fasterpam, rand_fasterpam in every order, pam_swap, fastpam1 and par_fasterpam under every schedule: loss + n_swap * delta <= loss of the initial medoids, and n_iter <= n_swap + 1. For alternating on symmetric matrices: loss + (n_iter - 1) * delta <= loss of the initial medoids. For integers a limit above the initial loss plus one is never reached and the result is a local optimum, and FasterPAM gets there with at most n (k + (start + 1) n + start (k + 1)) reads: pseudo-polynomial, where the bound by the number of k-subsets (C16) is exponential. No triangle inequality is needed.", "quantifier": "all matrices with zero diagonal and non-negative multiples of delta, all delta, all distinct initial medoids, all limits, orders and schedules", "why_tests_cant": "a bound on the length of every run on every input", "anchors": ["src/fasterpam.rs:39-86", "src/pam.rs:150-197", "src/fastpam1.rs:42-90", "src/par_fasterpam.rs:43-93", "src/alternating.rs:40-61"]}
{"id": "C97", "title": "BUILD alone has no constant factor, and the factor of the search is at least three", "statement": "Limits of C64 and C95, all with the triangle inequality and exact arithmetic. For every p the data with one object in the middle and p objects at distance one on either side: pam_build for two clusters returns loss p, while two other medoids have total deviation 1, so BUILD without the search can be (n-1)/2 times worse than the optimum. For every t >= 2 there are t^2 + 2t objects and t initial medoids with total deviation t (3t^2 + 2t - 2) from which fasterpam, rand_fasterpam in every order, pam_swap and fastpam1 make no swap, while t other medoids have total deviation t (t^2 + 4t - 2): the factor five of C64 cannot be replaced by any number below three.", "quantifier": "all p, all t, all orders and limits", "why_tests_cant": "a worst case over unbounded families of inputs; no finite set of runs shows that a factor cannot be improved", "anchors": ["src/pam.rs:238-307", "src/fasterpam.rs:39-86", "src/pam.rs:150-197", "src/fastpam1.rs:42-90"]}
{"id": "C98", "title": "A constant added to all distances between different objects changes nothing but the loss", "statement": "Let two matrices, possibly of different number types, have zero diagonals and nonnegative entries, and let every distance between two different objects be larger by c in the second one (c may be negative). From the same distinct medoids, with the same order of the objects, fasterpam, rand_fasterpam, par_fasterpam (for all thread schedules), pam_swap and fastpam1 return the same medoids, n_iter and n_swap for both matrices, and alternating also the same assignment; the loss is larger by exactly (n - k) c. For c >= 0 the medoids of pam_build are the first ones of those for the larger distances, the same if there are k of them (then pam agrees too), and for c > 0 pam_build always returns k medoids.", "quantifier": "all n, k >= 1, matrices, constants, medoids, orders, schedules and iteration limits", "why_tests_cant": "a relation between two runs for all matrices and all constants, including all ties; tests sample pairs of runs", "anchors": ["src/fasterpam.rs:39-86", "src/fasterpam.rs:121-171", "src/par_fasterpam.rs:43-93", "src/pam.rs:40-52", "src/pam.rs:82-98", "src/pam.rs:131-147", "src/fastpam1.rs:42-90", "src/alternating.rs:40-61"]}
{"id": "C99", "title": "all_pairs_shortest_path of the ORLib example computes the shortest-path metric", "statement": "For a symmetric matrix with zero diagonal and nonnegative entries all_pairs_shortest_path does not panic, and every entry of the result is the length of a shortest walk (it is the length of some walk, and no walk is shorter). The result is symmetric with zero diagonal and satisfies the triangle inequality, a matrix that satisfies it already is not changed, and a converged fasterpam on the result is within the factor five of C64. With i32 all this holds, with and without overflow checks, if no entry is above i32::MAX / 2; with one more, the function panics or returns negative distances.", "quantifier": "all n and all matrices; any number type whose sums are right in a downward closed range", "why_tests_cant": "optimality over the infinitely many walks of every graph of every size, and the exact range of i32 without overflow", "anchors": ["examples/orlib-kmedoids.rs:19-37"]}
{"id": "C100", "title": "The ORLib example clusters graph distances, but overflows with its default value i32::MAX", "statement": "For a header n p k and lines that are edges between two different objects 1..n, read_orlib returns k and the lengths of the shortest walks, where the weight listed last counts and pairs that are not listed have the default value; if all objects are connected by walks of listed edges that are not longer than the default value, these are the distances in the graph. main then ends normally, the loss is the sum of the graph distances to the nearest medoid, and unless it stopped after 100 iterations it is at most five times that of any k objects. A line with fewer than three words (such as a blank last line), a loop or an unknown object makes read_orlib panic. The program itself does not meet this condition, since main passes i32::MAX as default value: if object 1 has no edge to some z and no edge of weight zero to some other z', then with overflow checks the program panics on the first pass, and without them the distance of z and z' is negative. With i32::MAX / 2 instead it is correct in both profiles.", "quantifier": "all n, k, files, weights, start medoids", "why_tests_cant": "all graphs of all sizes, and both overflow profiles; a test on complete graphs would not show the overflow", "anchors": ["examples/orlib-kmedoids.rs:39-81", "examples/orlib-kmedoids.rs:83-96"]}
{"id": "C101", "title": "The MNIST example clusters the Euclidean distances of the images, and its f64 distances keep their order", "statement": "read_mnist returns a len x len matrix exactly if the file has a header of 16 bytes followed by len * rows * cols bytes, otherwise it panics. With any arithmetic the matrix is symmetric. With exact numbers the entries are the Euclidean distances of the images, so that main returns ten distinct images, their exact loss, and (unless stopped after 100 iterations) a loss of at most five times that of any ten images. With f64, and up to 2^37 pixels per image, differences, squares and sums are exact in whatever order dot adds, so the only rounding is that of the square root: the distance is zero exactly for equal images, the distances are never in the wrong order, and each has a relative error of at most that of the square root.", "quantifier": "all files, sizes, pixel values, orders of summation, square root functions that are monotone and accurate", "why_tests_cant": "the order in which dot adds depends on the version of the library and the hardware; exactness for all images cannot be sampled", "anchors": ["examples/mnist-kmedoids.rs:15-51", "examples/mnist-kmedoids.rs:53-66"]}
{"id": "C102", "title": "Points in a metric space, with rounded distances and rounded losses: the guarantees hold for the exact distances", "statement": "Let the matrix contain the distances of n points of a metric space, at most s, computed with relative error u (in f32 or f64), and let the losses be f64. Then the loss reported by FasterPAM differs from the exact total deviation of the points at most by the factor u + n 2^-52 (1 + u), and if a run of FasterPAM, PAM or FastPAM1 ends with a pass without exchange, (1 - u) times the exact total deviation is at most 5 (1 + u) times that of any k objects plus k (2n + 1) 2^-51 n (1 + u) s + 16 n u s. In particular the MNIST example in f64 (any order of summation, any square root with the accuracy of IEEE 754) on up to 60000 images of 28 x 28 pixels reports the loss up to 1/10000, and its exact loss is at most five times the optimum plus 1/1000 when the last pass made no exchange.", "quantifier": "all metric spaces, points, n, k, distances with the given error, start medoids, visiting orders; all image files", "why_tests_cant": "the exact optimum over all k-subsets of 60000 images cannot be computed, and the rounding depends on the library", "anchors": ["src/fasterpam.rs:39-86", "src/fasterpam.rs:121-171", "src/pam.rs:40-52", "src/pam.rs:131-197", "src/fastpam1.rs:42-90", "examples/mnist-kmedoids.rs:15-66"]}
{"id": "C103", "title": "The factor five of the search is the best possible", "statement": "For every b >= 1 there is a metric with distances 0 to 4 on 5(b+1)^2 - 2(b+1) objects such that fasterpam, rand_fasterpam in every order, pam_swap and fastpam1, started with the first 2b+1 objects (as first_k gives them), make no swap and return the loss 5b^2 + 6b + 3, while 2b+1 other medoids have total deviation b^2 + 5b + 3. So for every q there are local optima of more than 5 - 1/q times the optimum, and the factor five of C64 cannot be replaced by any smaller number.", "quantifier": "all b, all orders, all iteration limits; all q", "why_tests_cant": "a worst case over an unbounded family of inputs; the factor is approached only for large inputs, and no finite set of runs shows that a bound cannot be improved", "anchors": ["src/fasterpam.rs:39-86", "src/fasterpam.rs:121-171", "src/pam.rs:150-197", "src/fastpam1.rs:42-90", "src/initialization.rs:37-40"]}
{"id": "C104", "title": "Panics in the worker threads: no deadlock, no half-merged result, same panics as the sequential search", "statement": "Every step of the tasks of par_find_best_swap may panic: reading the matrix, an index, and with overflow checks each addition, also under the mutex, which is then poisoned so that later lock().unwrap() calls panic. For every interleaving: the scope ends, the mutex is free at the end, the outcome is that of running the tasks one after the other in some order, and a poisoned mutex implies that the scope panics. With arithmetic that does not panic, the parallel search panics if and only if find_best_swap does on the same input. With integers in [lo, hi] and overflow checks all interleavings agree: all panic, or none does and all give the same sums.", "quantifier": "all interleavings, numbers of threads, matrices (also ones whose reads panic), records, removal losses; any loop body and any partial addition for the first part", "why_tests_cant": "a test sees a few interleavings, and a panic while another thread waits for the mutex is a rare one; absence of deadlock is about all of them", "anchors": ["src/par_fasterpam.rs:132-176"]}
{"id": "C105", "title": "Undefined distances (NaN): no object has a closer medoid than that of its cluster", "statement": "For an object whose row of distances satisfies the contract of PartialOrd (smaller-than is irreflexive and transitive there) with nothing smaller than zero or than the distance to itself - NaN allowed anywhere - fasterpam, rand_fasterpam, par_fasterpam, pam_swap, fastpam1 and alternating return a label such that no other medoid is strictly closer, and a medoid is labelled with itself. If all rows are such, the medoids stay distinct. Nothing is assumed about the losses, nor about the rows of other objects. In f64: the distance of an object to its medoid is NaN or the smallest of those that are not NaN. It can be NaN although the distance to another medoid is not, and then the loop may go on until max_iter, for every max_iter.", "quantifier": "all matrices, all arithmetics (any addition, any loss type; for pam_swap and fastpam1 zero losses compare as equal), all initial medoids in which the object occurs at most once, all limits, all visiting orders; all schedules for par_fasterpam", "why_tests_cant": "NaN compares as false with everything; which entries are NaN and in which order they are met gives exponentially many cases", "anchors": ["src/fasterpam.rs:39-338", "src/par_fasterpam.rs:43-235", "src/pam.rs:40-80", "src/pam.rs:150-236", "src/fastpam1.rs:42-92", "src/alternating.rs:40-98"]}
{"id": "C106", "title": "DynMSC: labels of the returned solution, and what its loss means for any number of medoids", "statement": "Every object is labelled with a nearest one of the medoids dynmsc returns. For any number of medoids: the returned medoids are labelled with themselves, and the returned loss is the average over all objects of 1 - a/b, where a is the distance to the medoid of the label and b is the distance to another one of the returned medoids; it is positive and at most one.", "quantifier": "all matrices with zero diagonal and no negative distances, all distinct initial medoids, all minimum numbers of medoids, all iteration limits", "why_tests_cant": "the cache of three nearest medoids goes wrong only with five or more initial medoids, and the wrong label is returned only if a solution with fewer medoids is the best; random tests with few medoids never get there", "anchors": ["src/dynmsc.rs:50-147", "src/dynmsc.rs:151-178", "src/dynmsc.rs:180-247", "src/fastermsc.rs:208-338"]}
{"id": "C107", "title": "Undefined distances (NaN) in the medoid silhouette algorithms", "statement": "If some distances cannot be compared (NaN), fastermsc, fastmsc and pammedsil_swap still return a solution in which no medoid is strictly closer to an object than the medoid of its label: in f64, the distance to the medoid of the cluster is NaN or the least of the distances to medoids that are not NaN. With a number of medoids other than two (for pammedsil_swap any number) medoids are labelled with themselves and remain distinct. With two medoids a medoid can get the label of the other one: fastermsc and fastmsc have separate code for two medoids that does not test for the object itself.", "quantifier": "all matrices whose rows obey the contract of PartialOrd (f64: entries NaN, infinite or not negative, diagonal NaN or zero), all valid initial medoids (count of the object at most one), all iteration limits, any arithmetic of the losses", "why_tests_cant": "tests use matrices without NaN; a NaN makes both a < b and a >= b false, so every branch of the cache update has a third outcome that ordinary data never takes", "anchors": ["src/fastermsc.rs:48-142", "src/fastermsc.rs:199-300", "src/fastermsc.rs:302-460", "src/fastmsc.rs:43-140", "src/pammedsil.rs:49-90", "src/pammedsil.rs:110-260"]}
{"id": "C108", "title": "Undefined distances (NaN) in BUILD, PAM, PAMMEDSIL and PAMSIL", "statement": "If some distances cannot be compared (NaN) but the distance of each object to itself is zero, pam_build, pam and pammedsil return distinct medoids, label each medoid with itself, and no medoid is strictly closer to an object than the medoid of its label. BUILD of PAMSIL finds valid initial medoids in f64 without a failed assertion, and in a result of pamsil or pamsil_swap no medoid is strictly closer than that of the label. With NaN on the diagonal both fail: pam_build can choose the same object twice, and pamsil panics.", "quantifier": "all matrices whose rows obey the contract of PartialOrd (f64: entries NaN, infinite or not negative) with zero diagonal, all k, all iteration limits, any arithmetic of the losses in which minus zero is at least zero (labels of PAMSIL: any arithmetic)", "why_tests_cant": "tests use matrices without NaN; BUILD sums gains over all objects, and a single NaN decides which comparisons of the search for the best candidate succeed", "anchors": ["src/pam.rs:82-147", "src/pam.rs:237-307", "src/pammedsil.rs:91-107", "src/pammedsil.rs:262-336", "src/pamsil.rs:37-98", "src/pamsil.rs:101-216"]}
{"id": "C109", "title": "Silhouettes computed with an integer type carry no information", "statement": "The type bounds of silhouette, par_silhouette and medoid_silhouette admit i64. Divisions then truncate: each sample of silhouette is -1, 0 or 1 (1 exactly if the mean distance to the own cluster is below one and all others are not), and the average is 1 only if all samples are 1, -1 only if all are -1, and otherwise 0; medoid_silhouette returns 1 for all medoids. With u32 distances that are not zero between different objects every clustering has silhouette 0 and every choice of medoids has medoid silhouette 1.", "quantifier": "all matrices with row sums in the range of the type, all clusterings without unused labels and with at least two clusters, all valid medoids; any integer arithmetic that is exact in its range and truncates in divisions (i64 is an instance), no assumption on division by zero", "why_tests_cant": "the tests of the crate use f64; that no input at all gives a useful value, and that no division by zero occurs on the way, is a statement about all inputs", "anchors": ["src/silhouette.rs:41-96", "src/silhouette.rs:135-189", "src/par_silhouette.rs:44-95"]}
{"id": "C110", "title": "PAMMEDSIL with its own BUILD start under rounding", "statement": "BUILD of pammedsil chooses at least one and at most k different objects, labels each object with a nearest one, and never chooses object 0 after the first step, whatever the arithmetic of the loss, as long as minus zero is not negative. If adding a quotient to zero does not change it, pammedsil is pammedsil_swap from the medoids of BUILD, bit by bit; hence its medoids are different, its labels are nearest, and in IEEE arithmetic with finite nonnegative distances it ends after at most (n choose k') iterations with a value that is NaN or in [0, 1]. With f64 losses it is nearly a local optimum, hardly worse than BUILD, and its value is within (4n+9)/2^52 of the exact medoid silhouette. The choices of BUILD are nearly greedy among the objects other than 0, and with fewer than k medoids all objects other than 0 have distance zero to a medoid.", "quantifier": "all valid inputs, all iteration limits; any arithmetic with the stated laws, all IEEE formats; f64 for the error bounds", "why_tests_cant": "tests cannot show that incremental caches and sums of BUILD agree in every bit with those computed from scratch, nor bounds for all inputs", "anchors": ["src/pammedsil.rs:91-162", "src/pammedsil.rs:262-336"]}
{"id": "C111", "title": "The benchmarks, and i32 losses", "statement": "The loop of the benchmarks fills a symmetric matrix with zeros on the diagonal; every pair of objects gets its own random number, each number is used once. If i32 distances are from 0 to U and 3(n+1)U < 2^31, then fasterpam, rand_fasterpam, par_fasterpam, fastpam1, pam_swap, pam, pam_build and alternating with i32 losses give the results of unbounded integers, whatever an overflow does. Hence every benchmark returns for all random numbers, shuffles and schedules; it returns five different medoids, nearest labels and the true loss, not more than that of the start; fasterpam, rand_fasterpam, par_fasterpam, fastpam1, pam_swap and pam are local optima unless 100 iterations were made; par_fasterpam returns what rand_fasterpam does and fastpam1 what pam_swap does; pam_build is greedy and never stops early; alternating has a best medoid in every cluster unless the limit was reached. Without the bound the result can be wrong.", "quantifier": "all random numbers 1..9999, all shuffles, all schedules; all i32 matrices within the bound", "why_tests_cant": "the benchmarks check nothing about what they compute, and use one seed; overflow for other seeds is not seen", "anchors": ["benches/bench.rs:14-162", "src/fasterpam.rs: update_removal_loss, find_best_swap"]}
{"id": "C112", "title": "Overflow checks never fire", "statement": "Let every +, - and unary - on losses panic if the result does not fit into the type, as in a debug build. If the distances are from 0 to U, the type represents -B..B and 3(n+1)U <= B, then no such check fires in fasterpam, rand_fasterpam, par_fasterpam (all schedules), fastpam1, pam_swap, pam, pam_build and alternating, for all inputs: the outcome is that of the release build and that of unbounded integers, including all other panics. This covers every intermediate sum, also those that lose all comparisons. So it holds for u32 distances with i64 losses up to 2^29 objects and for i32 with 3(n+1)U < 2^31, and all benchmarks return with overflow checks, for all random numbers, shuffles and schedules. Without a bound a check can fire, also when the wrapped result is the exact one.", "quantifier": "all matrices within the bound, all starts, limits, orders and schedules", "why_tests_cant": "an overflow depends on the input and on the intermediate sums of all candidates", "anchors": ["src/util.rs:86-145", "src/fasterpam.rs:36-330", "src/par_fasterpam.rs:25-257", "src/pam.rs:24-260", "src/fastpam1.rs:24-113", "src/alternating.rs:25-117", "benches/bench.rs:14-162"]}
{"id": "C113", "title": "Well-separated groups are found, with a global optimum", "statement": "Let the objects consist of k groups of at least s objects, with distances at most delta within a group and at least S between groups, (n-1) delta < s S, and let the triangle inequality hold. Then every converged run of fasterpam, rand_fasterpam (all orders), par_fasterpam (all schedules), pam_swap and fastpam1 from any k distinct medoids has exactly one medoid in each group, gives two objects the same label if and only if they are in the same group, and its loss is at most the total deviation of every set of at most k medoids. pam_build finds the groups; pam finds them for every max_iter, and returns a global optimum if it converges or max_iter exceeds the number of sets of k medoids. alternating keeps the groups of a start with a medoid in each of them, and converges to a global optimum then. From other starts alternating can end without the groups. The triangle inequality and the separation are needed.", "quantifier": "all separated data in exact arithmetic, all starts, orders, schedules and limits", "why_tests_cant": "a global optimum over all sets of k medoids cannot be enumerated, and the start decides which local optimum is reached", "anchors": ["src/fasterpam.rs:36-330", "src/par_fasterpam.rs:25-250", "src/pam.rs:24-260", "src/fastpam1.rs:24-113", "src/alternating.rs:25-117"]}
{"id": "C114", "title": "Well-separated groups are found under rounding", "statement": "Let points in a metric space form k groups of at least s points, with distances at most delta within a group and at least S between groups and 2 (n-1) delta < s S. Let the distances be computed with relative error u, k u <= 1/32, and the losses be f64 with k (2n+t+1) <= 2^47. Then a run of fasterpam, rand_fasterpam (all orders), par_fasterpam (all schedules with at most t threads) whose last pass made no exchange, and a run of pam_swap or fastpam1 whose last iteration made none, from any k distinct medoids, has exactly one medoid in each group and labels the points by their groups, and no set of at most k medoids has a smaller exact total deviation, up to the errors. pam_build finds the groups as well. For any arithmetic with the standard model of rounding errors the same holds with the separation in terms of the computed distances, also for pam with every max_iter.", "quantifier": "all separated data and roundings in the model of floating point, all starts, orders, schedules and limits", "why_tests_cant": "rounding errors of every operation could hide a gain or make a useless exchange look good; tests try few data sets", "anchors": ["src/fasterpam.rs:36-330", "src/par_fasterpam.rs:25-250", "src/pam.rs:24-260", "src/fastpam1.rs:24-113"]}
{"id": "C115", "title": "Well-separated groups and the medoid silhouette", "statement": "Let n objects form k groups of at least s objects, with distances at most delta within a group, at least S between groups and at most R in all, and n delta R < s S^2. In exact arithmetic medoids with one in each group have a larger medoid silhouette than every other choice of 2 to k medoids, and, if different objects have distance at least eps and n delta^2 < eps S, than every other choice of up to k+s-2 distinct medoids; so a value above a threshold certifies that the groups were found. fastermsc, fastmsc and pammedsil_swap started with one medoid in each group end with one in each group and label the objects by their groups, with a result of at least 1 - delta/S, for every max_iter; dynmsc started this way returns k medoids and the groups for every min_k; pammedsil finds the groups with its own start if s >= 2, the distances are a metric and (n-1) delta < s S. From other starts a search can end without the groups, and without the bound R even from a start with one medoid in each group.", "quantifier": "all separated data, all starts with one medoid in each group, all limits", "why_tests_cant": "data with obvious groups is what tests use, but each test fixes one data set and one start; the condition that makes it true for all, and the failures without it, need a proof", "anchors": ["src/fastermsc.rs:30-506", "src/fastmsc.rs:30-186", "src/pammedsil.rs:25-403", "src/dynmsc.rs:30-276"]}
{"id": "C116", "title": "Well-separated groups and the silhouette", "statement": "Let n objects form k >= 2 groups of at least s >= 2 objects, with distances at most delta within a group, at least S between groups and at most R in all, and n delta R < S^2. In exact arithmetic the groups, labelled without gaps, have a silhouette of at least 1 - delta/S and larger than every other labelling with at most k different labels (with or without gaps), and, if different objects have distance at least eps and n delta^2 < s eps S, than every other labelling. A result of silhouette or par_silhouette above a threshold certifies that labels do not mix groups, or are the groups. pamsil_swap started with one medoid in each group returns the groups for every max_iter, reports their silhouette, and does not end with repeated medoids; pamsil finds the groups for every max_iter if the distances are a metric and (n-1) delta < s S. From other starts pamsil_swap can end without the groups, and without the bound R pamsil can leave them.", "quantifier": "all separated data, all labellings, all starts with one medoid in each group, all limits", "why_tests_cant": "the claim compares with all labellings, and the search passes through repeated medoids and unused labels, for which the code computes other values than the silhouette", "anchors": ["src/silhouette.rs:20-120", "src/par_silhouette.rs:20-95", "src/pamsil.rs:20-276"]}
{"id": "C117", "title": "Well-separated groups and the silhouettes under rounding", "statement": "Let n objects form k groups of at least s objects, with converted distances at most delta within a group, at least S > 0 between groups and at most R in all. With losses that round (the floating-point model of C81 and C101), if n (delta/S + E) R < s S for the error E of the search, fastermsc, fastmsc and pammedsil_swap started with one medoid in each group return the groups for every max_iter, and the exact medoid silhouette of their medoids is at least 1 - delta/S. If n (delta/S + 2 e) R < S for the error e of the silhouette and s >= 2, so does pamsil_swap, and its reported loss is at least 1 - delta/S - e. A computed medoid silhouette above 1 - s S/(n R) + e certifies that every group has a medoid, and a computed silhouette (serial or parallel, any order of summation) above 1 - S/(n R) + e certifies that the labels do not mix groups, and are the groups if there are at most k labels. For f64 losses all errors are explicit multiples of (n+c)/2^52.", "quantifier": "all separated data of any distance type, all loss types of the floating-point model, all starts with one medoid in each group, all limits", "why_tests_cant": "the claim is about all roundings of all runs; a test sees one matrix and cannot exclude that rounding leads another search out of the groups", "anchors": ["src/fastermsc.rs:20-506", "src/fastmsc.rs:20-186", "src/pammedsil.rs:20-403", "src/pamsil.rs:20-276", "src/silhouette.rs:20-189", "src/par_silhouette.rs:20-95"]}
{"id": "C118", "title": "Two repairs make DynMSC the textbook algorithm", "statement": "Let dynmscFixed be the model of dynmsc with two places changed: the marker for 'no third nearest medoid yet' is not a valid medoid position, and the medoid dropped is the one with the largest removal entry instead of the smallest. Then, for exact arithmetic and any number of initial medoids from two on, it does not panic and is the textbook algorithm including ties: eager search, drop the medoid that leaves the largest medoid silhouette, and so on; it returns the first of the best solutions with its silhouette, the total passes and swaps, and the silhouettes of all solutions. So the full statements of C37 and C38, which are false for the code, hold with these two changes, and every object is labelled with a nearest medoid.", "quantifier": "all matrices with zero diagonal and no negative distances (symmetric or not), all distinct valid medoids (any number from two on), all minimum_k and limits", "why_tests_cant": "that the two changes suffice is a claim about all inputs; a test of a patched program shows single runs", "anchors": ["src/dynmsc.rs:30-276"]}
{"id": "C119", "title": "Three repairs make PAMSIL sound", "statement": "Let pamsilSwapFixed and pamsilFixed be the models of pamsil_swap and pamsil with three places changed: membership is looked up in the medoids instead of in the labels of the previous candidate; the search starts with the current silhouette instead of 0 and exchanges only if that is exceeded; pamsil assigns the objects after BUILD. In any arithmetic in which no number is greater than itself, pamsilSwapFixed does not panic on valid medoids, keeps distinct medoids distinct, returns the labels of its medoids and the silhouette of these labels. With exact comparisons the silhouette rises with every exchange, also from negative values, and at the end no exchange is better. pamsilFixed never panics, its loss is the silhouette of its labels, and its medoids are distinct if the distances are positive. So the full statements of C41, C42 and C49, which are false for the code, hold with these changes.", "quantifier": "all matrices, all valid medoids or all k, all limits; any arithmetic in the first part", "why_tests_cant": "that the changes suffice is a claim about all inputs; a test of a patched program shows single runs", "anchors": ["src/pamsil.rs:37-216"]}
{"id": "C120", "title": "Storing the loss before leaving the loop repairs the stale loss", "statement": "Let pamSwapFixed, fastpam1Fixed, fastmscFixed and pammedsilSwapFixed be the models with one change: the loss after an exchange is stored before the loop is left because it did not fall; fastmscFixed also leaves the loop when the search for two medoids has found no candidate. Then for any matrix, medoids and arithmetic, whenever the code returns, the changed function returns the same medoids, labels and counters. In any arithmetic (0 converted to 0 for PAM) the loss of the changed function is, operation by operation, the left-to-right sum for the returned medoids (silhouettes: computed from it), so the full C58 and C59, false for the code, hold with the change. fastmscFixed never panics on valid input, for any distances: the full C29.", "quantifier": "all matrices, valid medoids, limits and arithmetics", "why_tests_cant": "the wrong loss needs rounding in the last exchange; that one change suffices and changes nothing else is a claim about all runs", "anchors": ["src/pam.rs:170-194", "src/fastpam1.rs:62-87", "src/fastmsc.rs:67-92", "src/fastmsc.rs:113-137", "src/pammedsil.rs:130-158"]}
{"id": "C121", "title": "Skipping empty clusters repairs the silhouettes", "statement": "Let silhouetteFixed and parSilhouetteFixed be the models with one change: the average distance to another cluster is taken only if that cluster has an object, and the value is 0 if there is no other cluster (this replaces the early return for one cluster). Then with exact arithmetic, for all labels, also with unused ones, both return the mean of the textbook silhouettes (and them as samples), so renaming the labels in any way that keeps different labels different changes nothing: the full C24 and C26. In any arithmetic the parallel value is the sequential one for all labels: the full C27. In any arithmetic, with at least two clusters and no unused label, both return what the code returns.", "quantifier": "all matrices, labels and renamings; the last two parts for all arithmetics", "why_tests_cant": "that the change suffices for all labellings and changes nothing where the code was right are statements about all inputs", "anchors": ["src/silhouette.rs:70-86", "src/par_silhouette.rs:50-80"]}
{"id": "C122", "title": "Considering object 0 repairs the BUILD phase of PAMMEDSIL", "statement": "Let pammedsilFixed be the model of pammedsil with .skip(1) removed from the search for further medoids. In any arithmetic and for any distances its BUILD phase returns the medoids and labels of pam_build, in the same order, and the whole function does not panic. With exact arithmetic every medoid gives the smallest total deviation among all objects (the full C43), fewer than k are returned only if their total deviation is 0, they are those of the greedy search with the lowest number among ties, and the function is pammedsil_swap started from them. If the greedy search does not take object 0 as a further medoid, BUILD and the whole function are those of the code.", "quantifier": "all matrices, k and limits; the first part for all arithmetics", "why_tests_cant": "the search without object 0 is wrong only if object 0 is the best choice; that the change suffices and is otherwise invisible is a claim about all inputs", "anchors": ["src/pammedsil.rs:294-334", "src/pam.rs:270-305"]}
{"id": "C123", "title": "Stopping and continuing PAMSIL", "statement": "Let pamsilSwapFixed be the repaired pamsil_swap of C119. In any arithmetic in which no value exceeds itself, for every matrix and two or more valid medoids: a run of at most a iterations, continued from its medoids for at most b iterations, gives the medoids, the loss, the labels and the number of swaps of one run of at most a + b iterations; the iterations add up too, unless the first run had ended by itself, and then the second uses one iteration (if it may) and makes no swap. If a run ends before its limit, every larger limit gives the same result. For the code of pamsil_swap the first statement is false even for the loss and for positive symmetric distances: the labels left by the last candidate of an iteration decide which objects are tried in the next.", "quantifier": "all matrices, starting medoids and pairs of limits; all arithmetics", "why_tests_cant": "equality of two runs over all interruption points; the failure in the code needs a run of several iterations with stale labels", "anchors": ["src/pamsil.rs:102-153"]}
{"id": "C124", "title": "Checking the third medoid only if there is one repairs the feature `assertions`", "statement": "Let the checks of the third nearest medoid in debug_assert_assignment_th be made only if med.len() > 2. Then, for distances with zero diagonal and no negative entry, any loss arithmetic and any number of valid medoids, fastermsc, fastmsc, pammedsil_swap, pammedsil and dynmsc with the check give what they give without it (the full C53). The repaired check accepts a cache exactly if for every object the nearest and second nearest medoid exist, have the stored distances and are in order, and with three or more medoids the third too; with three or more medoids it accepts exactly what the check of the code accepts.", "quantifier": "all matrices, medoids, limits and caches; all loss arithmetics", "why_tests_cant": "the debug check fails only with two medoids and only with the feature; that the repair loses nothing is a claim about all caches", "anchors": ["src/util.rs:171-199", "src/pammedsil.rs:128", "src/dynmsc.rs:76"]}
{"id": "C125", "title": "Copies of objects act as weights", "statement": "Let a data set of n' objects consist of copies of n different ones (any number of copies of each, the first copies in the order of the originals, d'(x,y) = d(cls x, cls y)). With exact losses, started from the first copies of the medoids, pam_swap and fastpam1 do on it exactly what the steepest search does on the n different objects for the objective that counts every object as often as it occurs: medoids (as first copies), their order, loss, iterations and swaps; pam_build is the weighted greedy search for every k up to n, and pam its composition with pam_swap. The same holds for fasterpam if the copies are next to each other, and for rand_fasterpam if they are so in the visiting order. If every object occurs c times, the results are those without copies and the loss is multiplied by c. For fasterpam with copies elsewhere, and for pammedsil_swap, this is false.", "quantifier": "all data sets, numbers and positions of copies, starting medoids (at least two), limits; all exact loss types", "why_tests_cant": "a relation between two runs for all inputs and numbers of copies; a copy of a medoid as candidate is a tie or an exchange for nothing, which random data never have", "anchors": ["src/fasterpam.rs:39-87", "src/fastpam1.rs:42-93", "src/pam.rs:150-235", "src/pam.rs:238-310"]}
{"id": "C126", "title": "All objects but one as medoids: one swap gives a global optimum", "statement": "With exact losses and k = n - 1 >= 2 distinct starting medoids, fasterpam, rand_fasterpam (any order), par_fasterpam (any schedule), pam_swap and fastpam1 return, for every limit max_iter >= 1, medoids of the smallest total deviation among all sets of at most n - 1 medoids, with at most one swap, and n_iter = min(max_iter, n_swap + 1); so does pam with k = n - 1. fastermsc, fastmsc and pammedsil_swap likewise return the largest medoid silhouette among all sets of n - 1 distinct medoids, and dynmsc from such medoids a silhouette at least as large. For n - 2 medoids (either objective), and for alternating with n - 1, a converged run need not be optimal.", "quantifier": "all n, dissimilarities, starting medoids, limits, visiting orders, schedules; all exact loss types", "why_tests_cant": "global optimality over all subsets for all n; a test can enumerate subsets for a few small matrices only", "anchors": ["src/fasterpam.rs:39-87", "src/pam.rs:131-235", "src/fastpam1.rs:42-93", "src/fastermsc.rs:48-102", "src/fastmsc.rs:43-98"]}
{"id": "C127", "title": "FasterPAM needs two passes where PAM needs k + 1 iterations", "statement": "For every k >= 2 there is a metric on n = 3k objects (k groups of an object in the middle and two outer ones) and k starting medoids such that, with exact losses: fasterpam, rand_fasterpam in every order and par_fasterpam for every schedule make k swaps in the first pass and return the optimum 2k for every limit max_iter >= 1, with n_iter = min(max_iter, 2); pam_swap and fastpam1 make one swap per iteration, n_iter = min(k+1, max_iter), n_swap = min(k, max_iter), and return loss 3k - min(k, max_iter), so they need k + 1 iterations for the same medoids. 2k is the smallest total deviation of any at most k medoids. Counting matrix reads, FasterPAM takes at most 3 k^2 (k+8) and PAM at least 2 k^2 (k+1)(3k-1), a factor of k/2.", "quantifier": "all k with 3k <= u32::MAX, all limits, visiting orders, schedules", "why_tests_cant": "the growth with k of the advantage that the documentation claims for eager swapping; a benchmark shows it for single data sets", "anchors": ["src/fasterpam.rs:39-87", "src/fasterpam.rs:121-172", "src/pam.rs:150-235", "src/fastpam1.rs:42-93"]}
{"id": "C128", "title": "For the PAM family the triangle inequality is no restriction", "statement": "Every symmetric dissimilarity of n objects (natural numbers, zero diagonal) has a metric such that, with exact losses, fasterpam, rand_fasterpam, par_fasterpam (all schedules), pam_swap and fastpam1 make the same run on both from every start with every limit and visiting order: the same medoids in the same order, n_iter and n_swap, the loss shifted by (n - k) c; alternating also the same assignment; pam too if BUILD finds k medoids. Any constant c that is at least as large as all distances, added between different objects, gives such a metric. If BUILD stops early its medoids differ, and for fastermsc, fastmsc and pammedsil_swap a constant added to the distances does change the medoids.", "quantifier": "all n, symmetric dissimilarities, starting medoids (k >= 1), limits, orders, schedules", "why_tests_cant": "existence of a metric that serves all runs at once, for every dissimilarity", "anchors": ["src/fasterpam.rs:39-87", "src/fasterpam.rs:121-172", "src/par_fasterpam.rs:43-93", "src/pam.rs:40-52", "src/pam.rs:131-147", "src/fastpam1.rs:42-93", "src/alternating.rs:40-61", "src/fastermsc.rs:48-102", "src/fastmsc.rs:43-98"]}
{"id": "C129", "title": "FasterMSC needs two passes where FastMSC and PAMMEDSIL need k + 1 iterations", "statement": "On the data of C127 (k >= 2 groups of an object in the middle and two outer ones, a metric on n = 3k objects), started from an outer object of each group, with exact losses: fastermsc makes k swaps in the first pass and returns the medoid silhouette 1 - 2/(3(k+1)) for every limit max_iter >= 1, with n_iter = min(max_iter, 2); fastmsc and pammedsil_swap make one swap per iteration, n_iter = min(k+1, max_iter), n_swap = min(k, max_iter), and return 1 - (3k - min(k, max_iter))/(3k(k+1)). No k medoids have a larger medoid silhouette than 1 - 2/(3(k+1)). Counting matrix reads, FasterMSC takes at most 3 k^2 (k+8) and PAMMEDSIL at least 2 k^2 (k+1)(3k-1), a factor of k/2.", "quantifier": "all k with 3k <= u32::MAX, all limits", "why_tests_cant": "the growth with k of the advantage of eager swapping over best-improvement swapping for the medoid silhouette", "anchors": ["src/fastermsc.rs:48-102", "src/fastmsc.rs:43-98", "src/pammedsil.rs:49-61"]}
{"id": "C130", "title": "Random starts and random orders make FasterPAM independent of the numbering of the data", "statement": "Consider all draws of an order of the n objects and of k >= 2 different objects as the start. For every property Q of the result (medoids, labels, loss, iterations, swaps, read in the original numbering), exactly as many draws lead rand_fasterpam to a result with Q for the renumbered data as for the original data, whatever ties there are; the same holds for par_fasterpam with any thread schedules, which may differ from draw to draw. So with uniform draws the distribution of the results does not depend on the numbering. A random start with fasterpam does not suffice: for 5 objects and k = 2 it finds the optimum from 8 of the 20 starts, and from 18 in the reverse numbering. For k = 1, where no order is used, the claim is false as well: of two equally good medoids the first one is preferred.", "quantifier": "all data with zero diagonal and nonnegative dissimilarities, all renumberings, all k >= 2, all limits, all properties of the result, all thread schedules", "why_tests_cant": "a statement on the number of draws out of n! * n!/(n-k)! for every data set and every event", "anchors": ["src/fasterpam.rs:121-172", "src/fasterpam.rs:39-87", "src/par_fasterpam.rs:43-93", "src/initialization.rs:18-22"]}
{"id": "C131", "title": "Starts that name a medoid several times", "statement": "No function checks that the initial medoids are different. For any start of k >= 2 object numbers below n, repetitions allowed, and exact losses, fasterpam, rand_fasterpam, par_fasterpam (any schedule), pam_swap and fastpam1 do not panic; every object is labelled with a nearest medoid; the loss is the total deviation; the medoids are reached by n_swap strictly improving exchanges with objects that are not medoids; the number of different medoids does not decrease; n_iter <= n^k; and a run with n_iter < max_iter ends at a local optimum with pairwise different medoids, or with loss zero. par_fasterpam equals rand_fasterpam and fastpam1 equals pam_swap also for such starts. Repetitions can remain with loss zero or when the limit is reached. alternating, fastermsc, fastmsc and pammedsil_swap do not repair repetitions: there are runs that end by themselves with a medoid named twice although the loss is not zero (the medoid silhouette is below 1).", "quantifier": "all data with zero diagonal and nonnegative dissimilarities, all starts with repetitions, all limits, orders and schedules", "why_tests_cant": "invariants of the caches for invalid starts that no test tries, and optimality of every terminated run", "anchors": ["src/fasterpam.rs:39-87", "src/fasterpam.rs:121-172", "src/par_fasterpam.rs:43-93", "src/pam.rs:40-52", "src/pam.rs:131-147", "src/fastpam1.rs:42-93", "src/alternating.rs:40-61", "src/fastermsc.rs:48-102"]}
{"id": "C132", "title": "Only the ranking of the solutions matters, and small errors in the distances change nothing", "statement": "Let two matrices, possibly with different number types and loss types, rank the sets of k >= 2 medoids in the same way: T'(A) < T'(B) iff T(A) < T(B) for all lists A, B of k distinct objects, with T the total deviation. Then rand_fasterpam and par_fasterpam (same order, any schedules), fasterpam, pam_swap and fastpam1 return the same medoids with the same n_iter and n_swap; likewise fastermsc, fastmsc and pammedsil_swap if the medoid silhouettes are ranked in the same way. If all sets of 1..k medoids are ranked in the same way, the medoids of one BUILD are a prefix of those of the other, and pam returns the same medoids if both BUILDs find k. With an error of at most eps in every distance, the total deviation of k medoids changes by at most (n-k) eps; if different sets of k medoids have total deviations that differ by more than 2 (n-k) eps, the errors have no effect on the medoids and the counters, and the loss changes by at most (n-k) eps. Gaps of exactly 2 (n-k) eps are not enough. For the medoid silhouette and distances of at least delta > 0 the bound is (n-k)/n * 2 eps/delta, and gaps of twice this bound are enough. That the distances are ranked in the same way is not enough: squared distances can lead to other medoids.", "quantifier": "all pairs of matrices with zero diagonal and nonnegative dissimilarities, all number and loss types with exact arithmetic, all starts of at least two distinct medoids, all limits, orders and schedules", "why_tests_cant": "a statement about all pairs of inputs that are close, and about all intermediate decisions of the two runs", "anchors": ["src/fasterpam.rs:39-87", "src/fasterpam.rs:121-172", "src/par_fasterpam.rs:43-93", "src/pam.rs:40-52", "src/pam.rs:131-147", "src/pam.rs:238-310", "src/fastpam1.rs:42-93", "src/fastermsc.rs:48-102", "src/fastmsc.rs:43-98", "src/pammedsil.rs:49-61"]}
{"id": "C133", "title": "Alternating has no constant factor, for any number of clusters", "statement": "For every k >= 2 and every factor c there are a metric on k+1 objects and a start with k distinct medoids such that alternating, with any maxiter >= 1, ends by itself after one iteration with a loss greater than c times the total deviation of other k medoids, which is positive. In the family used (all distances R, only the last two objects at distance 1) the optimum is 1, alternating ends with loss R, and rand_fasterpam, fasterpam, par_fasterpam, pam_swap and fastpam1 from the same start end with loss at most 1 after at most one swap. So the factor of 5 that C64 proves for the exchange methods has no counterpart for alternating.", "quantifier": "all k >= 2 (with k+1 at most u32::MAX), all factors, all maxiter >= 1", "why_tests_cant": "a statement about every factor and every number of clusters", "anchors": ["src/alternating.rs:40-61", "src/fasterpam.rs:39-87", "src/fasterpam.rs:121-172", "src/par_fasterpam.rs:43-93", "src/pam.rs:40-52", "src/fastpam1.rs:42-93"]}
{"id": "C134", "title": "The medoid silhouette methods have no constant factor, even on metrics", "statement": "The mean of d1/d2 over the objects is 1 minus the medoid silhouette. For every k >= 2 and every factor c (as far as 12c+4+k objects can be numbered with u32) there are a metric on 12c+4+k objects and a start with k distinct medoids that is a local optimum: fastermsc, fastmsc and pammedsil_swap, with any maxiter, return it without a swap, although its mean of d1/d2 is more than c times that of other k medoids, which is positive. The same holds for dynmsc with mink >= k. For every k >= 3 a metric on 2k-1 objects is enough, whatever the factor (five objects for three clusters). So C64 (factor five for the total deviation) has no counterpart for the medoid silhouette.", "quantifier": "all k >= 2, all factors c, all maxiter", "why_tests_cant": "a statement about every factor and every number of clusters, on instances of growing size", "anchors": ["src/fastermsc.rs:48-102", "src/fastmsc.rs:43-98", "src/pammedsil.rs:49-61", "src/dynmsc.rs:53-149"]}
{"id": "C135", "title": "PAMSIL has no constant factor, even on metrics", "statement": "The deficit of a solution is 1 minus its average silhouette. For every k >= 2 (as far as 3(k-1) objects, for k = 2 1248c+70 objects, can be numbered with u32) and every factor c there are a metric and a start with k distinct medoids that is a local optimum: pamsil_swap, with any maxiter, returns it without a panic and without a swap, although its deficit is more than c times that of k other medoids, which is positive. For k >= 4 there are 3(k-1) objects, for k = 3 there are 11, for k = 2 there are 1248c+70. So C64 (factor five for the total deviation) has no counterpart for the silhouette either.", "quantifier": "all k >= 2, all factors c, all maxiter", "why_tests_cant": "a statement about every factor and every number of clusters, on a family of metrics with an unbounded parameter", "anchors": ["src/pamsil.rs:37-53", "src/pamsil.rs:101-148", "src/silhouette.rs:41-96"]}
{"id": "C136", "title": "The optimum of one criterion can be arbitrarily bad for the other", "statement": "For every factor c and every number of clusters k ≥ 2 (as far as 2(4c+4)^2 + k is at most the u32 maximum) there is a metric such that all sets of k medoids with the largest medoid silhouette of all such sets (there is one) have a total deviation of more than c times that of another set of k medoids, which is positive; fastermsc, fastmsc and pammedsil_swap started with an optimal set return it without a swap. Conversely, for every factor c and every k ≥ 2 (6c + 4 + k at most the u32 maximum) there is a metric such that for all sets of k medoids with the least total deviation (there is one), 1 minus the medoid silhouette is more than c times that of another set, which is positive; fasterpam, rand_fasterpam, pam_swap and fastpam1 started with an optimal set return it without a swap. So neither family of methods can replace the other, even if it finds the global optimum.", "quantifier": "all factors c, all numbers of clusters k ≥ 2, all sets of medoids, all maxiter, all orders", "why_tests_cant": "a statement about every factor and about all optimal solutions, on instances of growing size", "anchors": ["src/fastermsc.rs:48-102", "src/fastmsc.rs:43-98", "src/pammedsil.rs:49-61", "src/fasterpam.rs:39-172", "src/pam.rs:40-52", "src/fastpam1.rs:42-93"]}
{"id": "C137", "title": "DynMSC keeps the larger number of medoids in a tie, so superfluous medoids remain", "statement": "In exact arithmetic (zero diagonal, no negative distances, at least two distinct medoids at the start, any mink and maxiter): the number of medoids dynmsc returns is the largest number whose entry in the returned list of losses equals the returned loss; every entry for more medoids is strictly smaller. If no medoid was removed, medoids and labels are those of fastermsc from the same start. Hence if every object is at distance zero from a starting medoid, then dynmsc returns 1 and exactly the starting medoids, with every object labelled with a nearest one, even if fewer medoids have the same silhouette; in particular, started with all objects as medoids it returns all objects. So the number of clusters it finds is only meaningful if the starting number is well below that of the distinct objects.", "quantifier": "all matrices, all lists of at least two distinct medoids, all mink, all maxiter", "why_tests_cant": "ties are rare in random data, and the claim is about every input, every mink and the whole sequence of rounds", "anchors": ["src/dynmsc.rs:53-150"]}
{"id": "C138", "title": "Adding medoids to a result decreases the loss of the PAM family, but not the medoid silhouette methods", "statement": "In exact arithmetic (zero diagonal, no negative distances; symmetric if one medoid): let further distinct objects be added to the medoids returned by fasterpam, rand_fasterpam, pam_swap or fastpam1, and run any of these methods from there, with any limit. The loss returned is at most the first one, and strictly smaller if one of the added objects has nonzero distance to all medoids returned first. With symmetric distances the same holds if either run or both are par_fasterpam (any schedule) or alternating. So a sequence of runs with more and more medoids gives decreasing losses. This does not hold for the medoid silhouette: there is a matrix where fastermsc returns two medoids and every object that is added leads to a strictly worse result with three.", "quantifier": "all matrices, all initial medoids, all added objects, all limits, all orders, all schedules", "why_tests_cant": "a relation of two runs for all inputs; tests only compare losses of single runs", "anchors": ["src/fasterpam.rs:39-172", "src/par_fasterpam.rs: par_fasterpam", "src/pam.rs:40-52", "src/fastpam1.rs:42-93", "src/alternating.rs: alternating", "src/fastermsc.rs:48-102"]}
