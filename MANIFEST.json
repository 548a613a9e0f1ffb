{
 "claims": [
  {
   "property": "C01",
   "status": "proved",
   "theorems": [
    "KMedoids.C01_get_in_bounds",
    "KMedoids.C01_is_square_iff",
    "KMedoids.C01_is_square_zero",
    "KMedoids.C01_no_usize_overflow"
   ],
   "note": ""
  },
  {
   "property": "C02",
   "status": "proved",
   "theorems": [
    "KMedoids.C02_symmetric",
    "KMedoids.C02_diagonal",
    "KMedoids.C02_cell",
    "KMedoids.C02_no_aliasing",
    "KMedoids.C02_every_cell_used",
    "KMedoids.C02_round_trip",
    "KMedoids.C02_presents"
   ],
   "note": ""
  },
  {
   "property": "C03",
   "status": "proved",
   "theorems": [
    "KMedoids.C03_first_k",
    "KMedoids.C03_first_k_entries"
   ],
   "note": ""
  },
  {
   "property": "C04",
   "status": "proved",
   "theorems": [
    "KMedoids.C04_rand_fasterpam",
    "KMedoids.C04_fasterpam",
    "KMedoids.C04_pam_swap",
    "KMedoids.C04_fastpam1",
    "KMedoids.C04_alternating",
    "KMedoids.C04_pam_build",
    "KMedoids.C04_pam"
   ],
   "note": "any arithmetic; also pam_build and pam"
  },
  {
   "property": "C05",
   "status": "partial",
   "theorems": [
    "KMedoids.C05_pam_swap",
    "KMedoids.C05_alternating",
    "KMedoids.C05_pam",
    "KMedoids.C05_pam_build",
    "KMedoids.C05_negation",
    "KMedoids.C05_negation_empty",
    "KMedoids.C05_rand_fasterpam_partial",
    "KMedoids.C05_fasterpam_partial",
    "KMedoids.C05_fastpam1_partial",
    "KMedoids.C05_par_fasterpam_partial"
   ],
   "note": "The full statement (C05_full) is false for the code: with a single medoid fasterpam, rand_fasterpam and fastpam1 skip the size checks (C05_negation), and an empty LowerTriangle makes is_square itself underflow (C05_negation_empty). Proved in full for pam_swap, alternating, pam, pam_build; for the others for k != 1."
  },
  {
   "property": "C06",
   "status": "proved",
   "theorems": [
    "KMedoids.C06_rand_fasterpam",
    "KMedoids.C06_fasterpam",
    "KMedoids.C06_pam_swap",
    "KMedoids.C06_fastpam1",
    "KMedoids.C06_alternating",
    "KMedoids.C06_par_fasterpam",
    "KMedoids.C06_needs_zero_diagonal",
    "KMedoids.C06_needs_nonneg"
   ],
   "note": ""
  },
  {
   "property": "C07",
   "status": "proved",
   "theorems": [
    "KMedoids.C07_rand_fasterpam",
    "KMedoids.C07_fasterpam",
    "KMedoids.C07_pam_swap",
    "KMedoids.C07_fastpam1",
    "KMedoids.C07_alternating",
    "KMedoids.C07_par_fasterpam"
   ],
   "note": ""
  },
  {
   "property": "C08",
   "status": "proved",
   "theorems": [
    "KMedoids.C08_rand_fasterpam",
    "KMedoids.C08_fasterpam",
    "KMedoids.C08_pam_swap",
    "KMedoids.C08_fastpam1",
    "KMedoids.C08_alternating",
    "KMedoids.C08_single_needs_symmetry",
    "KMedoids.C08_needs_nonneg"
   ],
   "note": "symmetry assumed where k = 1, as in the statement; C08_single_needs_symmetry shows it is needed"
  },
  {
   "property": "C09",
   "status": "proved",
   "theorems": [
    "KMedoids.C09_rand_fasterpam",
    "KMedoids.C09_fasterpam",
    "KMedoids.C09_pam_swap",
    "KMedoids.C09_fastpam1",
    "KMedoids.C09_needs_zero_diagonal",
    "KMedoids.C09_needs_nonneg"
   ],
   "note": ""
  },
  {
   "property": "C10",
   "status": "proved",
   "theorems": [
    "KMedoids.C10_rand_fasterpam",
    "KMedoids.C10_fasterpam",
    "KMedoids.C10_pam_swap",
    "KMedoids.C10_fastpam1",
    "KMedoids.C10_single"
   ],
   "note": ""
  },
  {
   "property": "C11",
   "status": "proved",
   "theorems": [
    "KMedoids.C11_rand_fasterpam",
    "KMedoids.C11_fasterpam"
   ],
   "note": ""
  },
  {
   "property": "C12",
   "status": "proved",
   "theorems": [
    "KMedoids.C12_pam_swap",
    "KMedoids.C12_fastpam1",
    "KMedoids.C12_pam"
   ],
   "note": ""
  },
  {
   "property": "C13",
   "status": "proved",
   "theorems": [
    "KMedoids.C13_pam_swap",
    "KMedoids.C13_fastpam1"
   ],
   "note": ""
  },
  {
   "property": "C14",
   "status": "proved",
   "theorems": [
    "KMedoids.C14_fastpam1_eq_pam_swap",
    "KMedoids.C14_needs_zero_diagonal",
    "KMedoids.C14_needs_nonneg"
   ],
   "note": ""
  },
  {
   "property": "C15",
   "status": "proved",
   "theorems": [
    "KMedoids.C15_rand_fasterpam_from_optimum",
    "KMedoids.C15_fasterpam_from_optimum",
    "KMedoids.C15_pam_swap_from_optimum",
    "KMedoids.C15_fastpam1_from_optimum",
    "KMedoids.C15_rand_fasterpam",
    "KMedoids.C15_fasterpam",
    "KMedoids.C15_pam_swap",
    "KMedoids.C15_fastpam1"
   ],
   "note": "second run without symmetry; from an arbitrary local optimum symmetry is assumed where k = 1"
  },
  {
   "property": "C16",
   "status": "proved",
   "theorems": [
    "KMedoids.C16_rand_fasterpam",
    "KMedoids.C16_fasterpam",
    "KMedoids.C16_pam_swap",
    "KMedoids.C16_fastpam1"
   ],
   "note": "also without symmetry for k = 1"
  },
  {
   "property": "C17",
   "status": "proved",
   "theorems": [
    "KMedoids.C17_par_fasterpam",
    "KMedoids.C17_pool_result",
    "KMedoids.C17_pool_refines",
    "KMedoids.C17_pool_completes",
    "KMedoids.C17_needs_zero_diagonal",
    "KMedoids.C17_needs_nonneg"
   ],
   "note": ""
  },
  {
   "property": "C18",
   "status": "proved",
   "theorems": [
    "KMedoids.C18_single",
    "KMedoids.C18_single_symm",
    "KMedoids.C18_par_fasterpam"
   ],
   "note": ""
  },
  {
   "property": "C19",
   "status": "proved",
   "theorems": [
    "KMedoids.C19_pam_build"
   ],
   "note": ""
  },
  {
   "property": "C20",
   "status": "proved",
   "theorems": [
    "KMedoids.C20_pam_build"
   ],
   "note": ""
  },
  {
   "property": "C21",
   "status": "proved",
   "theorems": [
    "KMedoids.C21_pam_build"
   ],
   "note": ""
  },
  {
   "property": "C22",
   "status": "proved",
   "theorems": [
    "KMedoids.C22_pam"
   ],
   "note": ""
  },
  {
   "property": "C23",
   "status": "proved",
   "theorems": [
    "KMedoids.C23_alternating"
   ],
   "note": ""
  },
  {
   "property": "C24",
   "status": "proved",
   "theorems": [
    "KMedoids.C24_silhouette",
    "KMedoids.C24_par_silhouette"
   ],
   "note": "non-negative distances; labels without gaps; also for the single-cluster case and par_silhouette with at least two clusters"
  },
  {
   "property": "C25",
   "status": "proved",
   "theorems": [
    "KMedoids.C25_silhouette",
    "KMedoids.C25_silhouette_range"
   ],
   "note": ""
  },
  {
   "property": "C26",
   "status": "partial",
   "theorems": [
    "KMedoids.C26_silhouette_partial",
    "KMedoids.C26_gap",
    "KMedoids.C26_negation",
    "KMedoids.C26_both_gaps_partial",
    "KMedoids.C26_at_most_textbook"
   ],
   "note": "The full statement (C26_full) is false for the code: an unused label makes b = 0 for every object (C26_negation, and C26_gap in general). Proved for renamings after which again all labels 0..K-1 occur, and for renamings between two labellings that both have a gap (C26_both_gaps_partial); whatever the labels, the result is never above the textbook silhouette (C26_at_most_textbook)."
  },
  {
   "property": "C27",
   "status": "partial",
   "theorems": [
    "KMedoids.C27_par_silhouette_partial",
    "KMedoids.C27_negation",
    "KMedoids.C27_single_partial",
    "KMedoids.C27_exact_partial",
    "KMedoids.C27_exD_nn"
   ],
   "note": "The full statement (C27_full) is false for the code: par_silhouette lacks the early return for a single cluster (C27_negation). Proved for all other assignments, in any arithmetic; for a single cluster C27_single_partial gives both values, and C27_exact_partial says exactly when they agree."
  },
  {
   "property": "C28",
   "status": "proved",
   "theorems": [
    "KMedoids.C28_medoid_silhouette",
    "KMedoids.C28_medoid_silhouette_range"
   ],
   "note": ""
  },
  {
   "property": "C29",
   "status": "partial",
   "theorems": [
    "KMedoids.C29_fastermsc",
    "KMedoids.C29_pammedsil_swap",
    "KMedoids.C29_fastmsc_partial",
    "KMedoids.C29_fastmsc_two",
    "KMedoids.C29_negation",
    "KMedoids.C29_pammedsil"
   ],
   "note": "Proved in any arithmetic for fastermsc and pammedsil_swap and pammedsil (BUILD and SWAP), and for fastmsc except for two medoids on two objects with a non-zero diagonal, where the code panics (C29_negation of C29_full). C29_fastmsc_two covers two objects with a zero diagonal."
  },
  {
   "property": "C30",
   "status": "proved",
   "theorems": [
    "KMedoids.C30_msc"
   ],
   "note": "k >= 2, exact arithmetic, zero diagonal; the sum of two distances must convert exactly (LawfulAdd)"
  },
  {
   "property": "C31",
   "status": "proved",
   "theorems": [
    "KMedoids.C31_msc",
    "KMedoids.C31_msc_own"
   ],
   "note": "k >= 2; for k >= 3 also: every medoid has its own label (false for k = 2 with duplicates, see the example)"
  },
  {
   "property": "C32",
   "status": "proved",
   "theorems": [
    "KMedoids.C32_msc"
   ],
   "note": ""
  },
  {
   "property": "C33",
   "status": "proved",
   "theorems": [
    "KMedoids.C33_msc",
    "KMedoids.C33_msc_counters"
   ],
   "note": ""
  },
  {
   "property": "C34",
   "status": "partial",
   "theorems": [
    "KMedoids.C34_fastmsc_two_labels_partial",
    "KMedoids.C34_fastmsc_partial",
    "KMedoids.C34_fastmsc_two_partial",
    "KMedoids.C34_negation"
   ],
   "note": "The full statement (C34_full) is false for the code: for k = 2 an object equally far from both medoids gets label 1 from fastmsc and 0 from pammedsil_swap (C34_negation). Proved: everything equal for k != 2; for k = 2 medoids, loss and counters are equal, and labels differ only for objects equally far from both medoids (C34_fastmsc_two_labels_partial)."
  },
  {
   "property": "C35",
   "status": "partial",
   "theorems": [
    "KMedoids.C35_single_partial",
    "KMedoids.C35_negation",
    "KMedoids.C35_dynmsc_single_partial",
    "KMedoids.C35_dynmsc_negation"
   ],
   "note": "The full statement (C35_full) is false for the code: for k = 1 the sum of distances is returned instead of a silhouette (C35_negation). Proved: what exactly is returned. Same for dynmsc (C35_dynmsc_negation, C35_dynmsc_single_partial)."
  },
  {
   "property": "C36",
   "status": "proved",
   "theorems": [
    "KMedoids.C36_dynmsc"
   ],
   "note": "k >= 2; exact arithmetic, zero diagonal. An example shows that without a zero diagonal the returned assignment can have two entries (vec![0, n])."
  },
  {
   "property": "C37",
   "status": "partial",
   "theorems": [
    "KMedoids.C37_dynmsc_partial",
    "KMedoids.C37_negation"
   ],
   "note": "The full statement (C37_full) is false for the code: after a removal the cached third nearest medoid can be wrong if more than three medoids remain (C37_negation). Proved when k <= 4, or when the returned solution has k or 2 medoids."
  },
  {
   "property": "C38",
   "status": "partial",
   "theorems": [
    "KMedoids.C38_inverted_partial",
    "KMedoids.C38_round_inverted_partial",
    "KMedoids.C38_negation"
   ],
   "note": "The full statement (C38_full) is false for the code: it removes the medoid whose removal is worst (C38_negation). Proved: the removed medoid always has the smallest medoid silhouette after removal, without swaps (C38_inverted_partial) and after any number of swaps in the first round (C38_round_inverted_partial)."
  },
  {
   "property": "C39",
   "status": "proved",
   "theorems": [
    "KMedoids.C39_pamsil_swap",
    "KMedoids.C39_pamsil_swap_nearest",
    "KMedoids.C39_pamsil_swap_textbook"
   ],
   "note": "Loss and assignment in any arithmetic whenever pamsil_swap returns; nearest labels when distances are ordered; the textbook silhouette when the returned medoids are distinct. For pamsil see C49."
  },
  {
   "property": "C40",
   "status": "proved",
   "theorems": [
    "KMedoids.C40_pamsil_swap"
   ],
   "note": "Exact arithmetic; silhouettes as computed by assign_nearest and silhouette, which are the textbook ones for distinct medoids (C39_pamsil_swap_textbook, C24)."
  },
  {
   "property": "C41",
   "status": "partial",
   "theorems": [
    "KMedoids.C41_pamsil_swap_only_index_partial",
    "KMedoids.C41_pamsil_swap_partial",
    "KMedoids.C41_pamsil_swap_panics",
    "KMedoids.C41_pamsil",
    "KMedoids.C41_negation"
   ],
   "note": "The full statement (C41_full) is false for pamsil_swap: the code writes med[k] when the initial silhouette is negative and no exchange has a positive one (C41_negation, in general C41_pamsil_swap_panics). Proved: otherwise it returns, and this index panic is the only one in any arithmetic. pamsil never panics in exact arithmetic (C41_pamsil)."
  },
  {
   "property": "C42",
   "status": "partial",
   "theorems": [
    "KMedoids.C42_pamsil_swap_partial",
    "KMedoids.C42_pamsil_partial",
    "KMedoids.C42_pamsil_swap_negation",
    "KMedoids.C42_pamsil_negation",
    "KMedoids.C42_pamsil_swap_high_partial",
    "KMedoids.C42_pamsil_swap_zero_partial",
    "KMedoids.C42_pamsil_high_partial",
    "KMedoids.C42_pamsil_zero_partial",
    "KMedoids.C42_bound_sharp"
   ],
   "note": "The full statements (C42_swap_full, C42_pamsil_full) are false for the code: medoid tests use the assignment of the previous candidate (C42_pamsil_swap_negation, C42_pamsil_negation). Proved for any number of swaps: objects with number k or larger occur at most once (C42_pamsil_swap_high_partial, C42_pamsil_high_partial; C42_bound_sharp: object k-1 can occur twice), and the medoids are distinct as long as object 0 is no medoid (C42_*_zero_partial); earlier form: object 0 not an initial medoid and at most one swap."
  },
  {
   "property": "C43",
   "status": "partial",
   "theorems": [
    "KMedoids.C43_pammedsil_build_partial",
    "KMedoids.C43_negation",
    "KMedoids.C43_pammedsil_one_medoid"
   ],
   "note": "The full statement (C43_full) is false for the code: object 0 is skipped (C43_negation), which can also leave a single medoid (C43_pammedsil_one_medoid). Proved: what BUILD does, i.e. the best first medoid and then the best of objects 1..n-1."
  },
  {
   "property": "C44",
   "status": "proved",
   "theorems": [
    "KMedoids.C44_rand_fasterpam",
    "KMedoids.C44_fasterpam",
    "KMedoids.C44_par_fasterpam",
    "KMedoids.C44_pam_swap",
    "KMedoids.C44_fastpam1",
    "KMedoids.C44_pam_build",
    "KMedoids.C44_pam",
    "KMedoids.C44_alternating",
    "KMedoids.C44_silhouette",
    "KMedoids.C44_medoid_silhouette",
    "KMedoids.C44_fastermsc",
    "KMedoids.C44_fastmsc",
    "KMedoids.C44_pammedsil_swap",
    "KMedoids.C44_pammedsil",
    "KMedoids.C44_pamsil_swap",
    "KMedoids.C44_pamsil",
    "KMedoids.C44_dynmsc",
    "KMedoids.C44_adapters"
   ],
   "note": "any arithmetic (SaneZero where the code relies on 0 < 0 being false); covers fasterpam, rand_fasterpam, par_fasterpam, pam_swap, pam, pam_build, fastpam1, alternating, assign_nearest, silhouette, par_silhouette, medoid_silhouette, fastermsc, fastmsc (also where it panics), pammedsil_swap, pammedsil, pamsil_swap, pamsil, dynmsc; C44_adapters shows that LowerTriangle and Array2 present the same matrix"
  },
  {
   "property": "C45",
   "status": "proved",
   "theorems": [
    "KMedoids.C45_fasterpam",
    "KMedoids.C45_rand_fasterpam",
    "KMedoids.C45_par_fasterpam",
    "KMedoids.C45_fastpam1",
    "KMedoids.C45_pam_swap",
    "KMedoids.C45_pam",
    "KMedoids.C45_pam_build",
    "KMedoids.C45_alternating",
    "KMedoids.C45_embedding",
    "KMedoids.C45_scale",
    "KMedoids.C45_scale_int",
    "KMedoids.C45_int_rat"
   ],
   "note": "PAM family including par_fasterpam; any arithmetic, any matrix, panics included."
  },
  {
   "property": "C46",
   "status": "proved",
   "theorems": [
    "KMedoids.C46_fasterpam",
    "KMedoids.C46_rand_fasterpam",
    "KMedoids.C46_par_fasterpam",
    "KMedoids.C46_fastpam1",
    "KMedoids.C46_pam_swap",
    "KMedoids.C46_pam",
    "KMedoids.C46_pam_build",
    "KMedoids.C46_alternating",
    "KMedoids.C46_wrapping",
    "KMedoids.C46_checked",
    "KMedoids.C46_u32_i64",
    "KMedoids.C46_u32_i64_checked",
    "KMedoids.C46_bound_needed"
   ],
   "note": "Stated for any loss type that is exact up to a bound B with 3(n+1)U <= B, for the whole sequential PAM family; instances for u32/i64 with wrapping and with checked arithmetic."
  },
  {
   "property": "C47",
   "status": "proved",
   "theorems": [
    "KMedoids.C47_dynmsc",
    "KMedoids.C47_dynmsc_single"
   ],
   "note": "any arithmetic"
  },
  {
   "property": "C48",
   "status": "proved",
   "theorems": [
    "KMedoids.C48_dynmsc_eq",
    "KMedoids.C48_dynmsc_ge"
   ],
   "note": "exact arithmetic, zero diagonal"
  },
  {
   "property": "C49",
   "status": "partial",
   "theorems": [
    "KMedoids.C49_pamsil_partial",
    "KMedoids.C49_negation"
   ],
   "note": "The full statement (C49_full) is false for the code: without a swap the loss is 0, the silhouette of the all-0 assignment (C49_negation). Proved when a swap was made; assignment, counters and local optimality in all cases."
  },
  {
   "property": "C50",
   "status": "proved",
   "theorems": [
    "KMedoids.C50_pamsil_build"
   ],
   "note": ""
  },
  {
   "property": "C51",
   "status": "proved",
   "theorems": [
    "KMedoids.C51_pammedsil",
    "KMedoids.C51_pammedsil_count"
   ],
   "note": ""
  },
  {
   "property": "C52",
   "status": "proved",
   "theorems": [
    "KMedoids.C52_no_panic",
    "KMedoids.C52_counters",
    "KMedoids.C52_nearest",
    "KMedoids.C52_exact"
   ],
   "note": ""
  },
  {
   "property": "C53",
   "status": "partial",
   "theorems": [
    "KMedoids.C53_check",
    "KMedoids.C53_check_th",
    "KMedoids.C53_rand_fasterpam",
    "KMedoids.C53_fasterpam",
    "KMedoids.C53_par_fasterpam",
    "KMedoids.C53_fastpam1",
    "KMedoids.C53_pam_swap",
    "KMedoids.C53_pam",
    "KMedoids.C53_fastermsc",
    "KMedoids.C53_fastmsc",
    "KMedoids.C53_pammedsil_swap_partial",
    "KMedoids.C53_pammedsil_swap_panics",
    "KMedoids.C53_pammedsil_partial",
    "KMedoids.C53_pammedsil_panics",
    "KMedoids.C53_dynmsc_partial",
    "KMedoids.C53_dynmsc_panics",
    "KMedoids.C53_pammedsil_swap_false",
    "KMedoids.C53_pammedsil_false",
    "KMedoids.C53_diagonal_needed"
   ],
   "note": "Proved in full for the PAM family, fastermsc and fastmsc. The claim is false for pammedsil_swap, pammedsil and dynmsc with two medoids: debug_assert_assignment_th indexes the medoids with u32::MAX (the mark of a missing third nearest) and panics; proved as C53_*_panics for every input, with concrete counterexamples C53_*_false. C53_check and C53_check_th say exactly what is checked."
  },
  {
   "property": "C54",
   "status": "proved",
   "theorems": [
    "KMedoids.C54_msc_chain",
    "KMedoids.C54_msc_converges",
    "KMedoids.C54_msc_from_optimum",
    "KMedoids.C54_msc_twice",
    "KMedoids.C54_pammedsil"
   ],
   "note": ""
  },
  {
   "property": "C55",
   "status": "proved",
   "theorems": [
    "KMedoids.C55_alternating",
    "KMedoids.C55_alternating_twice",
    "KMedoids.C55_needs_symmetry"
   ],
   "note": "C55_needs_symmetry: a run that never converges; C55_alternating_twice needs no assumption on the matrix or the loss arithmetic"
  },
  {
   "property": "C56",
   "status": "proved",
   "theorems": [
    "KMedoids.C56_pamsil_swap",
    "KMedoids.C56_pamsil"
   ],
   "note": ""
  },
  {
   "property": "C57",
   "status": "proved",
   "theorems": [
    "KMedoids.C57_silhouette",
    "KMedoids.C57_par_silhouette",
    "KMedoids.C57_medoid_silhouette",
    "KMedoids.C57_fastermsc",
    "KMedoids.C57_fastmsc",
    "KMedoids.C57_pammedsil_swap",
    "KMedoids.C57_dynmsc",
    "KMedoids.C57_pamsil_swap",
    "KMedoids.C57_pamsil",
    "KMedoids.C57_pammedsil",
    "KMedoids.C57_scale",
    "KMedoids.C57_nat_rat",
    "KMedoids.C57_scale_rat"
   ],
   "note": "C57_scale, C57_nat_rat: maps that qualify. For a single medoid the loss is a sum of distances (C35) and is scaled."
  },
  {
   "property": "C58",
   "status": "partial",
   "theorems": [
    "KMedoids.C58_rand_fasterpam",
    "KMedoids.C58_fasterpam",
    "KMedoids.C58_fasterpam_recompute",
    "KMedoids.C58_alternating",
    "KMedoids.C58_par_fasterpam",
    "KMedoids.C58_pam_swap_partial",
    "KMedoids.C58_fastpam1_partial",
    "KMedoids.C58_pam_swap_single",
    "KMedoids.C58_negation"
   ],
   "note": "Proved for fasterpam, rand_fasterpam, par_fasterpam, alternating. For pam_swap and fastpam1 the claim (C58_full) is false: C58_negation, with a float of three significant bits; they satisfy it up to the last exchange (the _partial theorems) and for one medoid."
  },
  {
   "property": "C59",
   "status": "partial",
   "theorems": [
    "KMedoids.C59_fastermsc_nearest",
    "KMedoids.C59_fastermsc",
    "KMedoids.C59_fastermsc_own",
    "KMedoids.C59_fastermsc_distinct",
    "KMedoids.C59_fastmsc_nearest",
    "KMedoids.C59_fastmsc_partial",
    "KMedoids.C59_fastmsc_own",
    "KMedoids.C59_fastmsc_distinct",
    "KMedoids.C59_fastmsc_two",
    "KMedoids.C59_pammedsil_swap_nearest",
    "KMedoids.C59_pammedsil_swap_partial",
    "KMedoids.C59_negation",
    "KMedoids.C59_negation_pammedsil_swap"
   ],
   "note": "The loss claim (C59_full) is false for fastmsc with k >= 3 and for pammedsil_swap (C59_negation, C59_negation_pammedsil_swap): the loss is that before the last exchange if rounding hides the improvement. All other parts are proved. fastmsc: two medoids on two objects are excluded (C29)."
  },
  {
   "property": "C60",
   "status": "proved",
   "theorems": [
    "KMedoids.C60_fasterpam",
    "KMedoids.C60_rand_fasterpam",
    "KMedoids.C60_par_fasterpam",
    "KMedoids.C60_fastpam1",
    "KMedoids.C60_pam_swap",
    "KMedoids.C60_pam",
    "KMedoids.C60_alternating",
    "KMedoids.C60_fastermsc",
    "KMedoids.C60_fastmsc",
    "KMedoids.C60_pammedsil_swap",
    "KMedoids.C60_pammedsil",
    "KMedoids.C60_pamsil_swap_stop",
    "KMedoids.C60_pamsil_stop",
    "KMedoids.C60_pamsil_swap",
    "KMedoids.C60_pamsil",
    "KMedoids.C60_rand_fasterpam_longer",
    "KMedoids.C60_fasterpam_longer",
    "KMedoids.C60_par_fasterpam_longer",
    "KMedoids.C60_fastpam1_longer",
    "KMedoids.C60_pam_swap_longer",
    "KMedoids.C60_pam_longer",
    "KMedoids.C60_loss",
    "KMedoids.C60_alternating_longer",
    "KMedoids.C60_msc_longer",
    "KMedoids.C60_pamsil_swap_longer",
    "KMedoids.C60_pamsil_longer",
    "KMedoids.C60_longer_needs_exact"
   ],
   "note": "The panic half for pamsil and pamsil_swap needs a square matrix and valid medoids, because the labels are computed after the loop. dynmsc is not included: its limit holds per number of clusters. C60_longer_needs_exact shows that the second part fails with rounding."
  },
  {
   "property": "C61",
   "status": "proved",
   "theorems": [
    "KMedoids.C61_medoid_silhouette_order",
    "KMedoids.C61_rand_fasterpam_order",
    "KMedoids.C61_fasterpam_order",
    "KMedoids.C61_alternating_order",
    "KMedoids.C61_totalDev",
    "KMedoids.C61_swapOptimal",
    "KMedoids.C61_loss",
    "KMedoids.C61_silhouette",
    "KMedoids.C61_par_silhouette",
    "KMedoids.C61_medoid_silhouette",
    "KMedoids.C61_msc",
    "KMedoids.C61_objects_need_exact"
   ],
   "note": "C61_objects_need_exact shows that with rounding the order of the objects does matter."
  },
  {
   "property": "C62",
   "status": "proved",
   "theorems": [
    "KMedoids.C62_swapOptimal_cluster",
    "KMedoids.C62_alternating",
    "KMedoids.C62_pam_family",
    "KMedoids.C62_pam_then_alternating",
    "KMedoids.C62_alternating_then_pam",
    "KMedoids.C62_converse_fails",
    "KMedoids.C62_needs_symmetry"
   ],
   "note": "The converse fails (C62_converse_fails): alternating stops in points that FasterPAM improves. Symmetry is needed (C62_needs_symmetry)."
  },
  {
   "property": "C63",
   "status": "proved",
   "theorems": [
    "KMedoids.C63_swapOptimal",
    "KMedoids.C63_pam_family",
    "KMedoids.C63_pam_build",
    "KMedoids.C63_pam",
    "KMedoids.C63_all_objects",
    "KMedoids.C63_alternating_fails",
    "KMedoids.C63_msc_fails"
   ],
   "note": "False for alternating (C63_alternating_fails) and for the medoid silhouette optimisers (C63_msc_fails), with concrete data; these are not part of the statement."
  },
  {
   "property": "C64",
   "status": "proved",
   "theorems": [
    "KMedoids.C64_swapOptimal",
    "KMedoids.C64_pam_family",
    "KMedoids.C64_par_fasterpam",
    "KMedoids.C64_pam",
    "KMedoids.C64_alternating_fails",
    "KMedoids.C64_needs_triangle",
    "KMedoids.C64_not_optimal"
   ],
   "note": "For alternating no constant factor holds (C64_alternating_fails, for every constant); without the triangle inequality the bound fails (C64_needs_triangle); the factor cannot be 1 (C64_not_optimal)."
  },
  {
   "property": "C65",
   "status": "proved",
   "theorems": [
    "KMedoids.C65_pam_build_prefix",
    "KMedoids.C65_pamsil_build_prefix",
    "KMedoids.C65_pammedsil_build_prefix",
    "KMedoids.C65_pam_build_antitone",
    "KMedoids.C65_pam_le_build",
    "KMedoids.C65_pam_metric",
    "KMedoids.C65_pam_not_antitone"
   ],
   "note": "The loss of pam itself can increase with k: C65_pam_not_antitone, a symmetric 7x7 matrix with loss 5 for three and 6 for four clusters."
  },
  {
   "property": "C66",
   "status": "proved",
   "theorems": [
    "KMedoids.C66_rand_fasterpam",
    "KMedoids.C66_fasterpam",
    "KMedoids.C66_par_fasterpam",
    "KMedoids.C66_alternating"
   ],
   "note": "Level 2.5: any StdModel arithmetic, with Ieee.stdModel proving that IEEE 754 is one. Examples show real binary64 runs: the error is not zero, and without the bound the loss overflows to infinity. One medoid needs symmetry (column sums); par_fasterpam for k >= 2."
  },
  {
   "property": "C67",
   "status": "proved",
   "theorems": [
    "KMedoids.C67_rand_fasterpam",
    "KMedoids.C67_fasterpam",
    "KMedoids.C67_pam_swap",
    "KMedoids.C67_fastpam1",
    "KMedoids.C67_not_exact",
    "KMedoids.C67_early_stop",
    "KMedoids.C67_early_stop_pam"
   ],
   "note": "Level 2.5. C67_not_exact, C67_early_stop and C67_early_stop_pam are binary64 runs which show that the rounding term and the hypothesis on the last pass are both needed. The last pass of FasterPAM is identified by comparing with the run whose limit is one smaller (C60)."
  },
  {
   "property": "C68",
   "status": "proved",
   "theorems": [
    "KMedoids.C68_fasterpam",
    "KMedoids.C68_rand_fasterpam",
    "KMedoids.C68_par_fasterpam",
    "KMedoids.C68_fastpam1",
    "KMedoids.C68_pam_swap",
    "KMedoids.C68_pam",
    "KMedoids.C68_pam_build",
    "KMedoids.C68_alternating",
    "KMedoids.C68_u32_f64",
    "KMedoids.C68_rand_fasterpam_exact",
    "KMedoids.C68_fasterpam_exact",
    "KMedoids.C68_pam_swap_exact",
    "KMedoids.C68_fastpam1_exact",
    "KMedoids.C68_par_deterministic",
    "KMedoids.C68_pam_exact",
    "KMedoids.C68_bound_needed",
    "KMedoids.C68_par_race"
   ],
   "note": "Through C46 (arithmetic exact within bounds): IEEE arithmetic of precision p is exact on multiples of 2^e up to 2^p. C68_bound_needed: the bound cannot be dropped."
  },
  {
   "property": "C69",
   "status": "proved",
   "theorems": [
    "KMedoids.C69_rand_fasterpam",
    "KMedoids.C69_fasterpam",
    "KMedoids.C69_pam_swap",
    "KMedoids.C69_fastpam1",
    "KMedoids.C69_not_exact"
   ],
   "note": "Each accepted exchange costs at most the rounding error of its computed change; while the loop continues the computed losses decrease, so all but the last pass are controlled by the accuracy of the loss (C66). C69_not_exact: the error term cannot be dropped."
  },
  {
   "property": "C70",
   "status": "proved",
   "theorems": [
    "KMedoids.C70_single",
    "KMedoids.C70_nearlyOptimal",
    "KMedoids.C70_rand_fasterpam",
    "KMedoids.C70_fasterpam",
    "KMedoids.C70_fastpam1",
    "KMedoids.C70_pam_swap"
   ],
   "note": "C67 combined with the exchange argument of C64, both with error terms; C18 with rounded row sums."
  },
  {
   "property": "C71",
   "status": "proved",
   "theorems": [
    "KMedoids.C71_pam_build_valid",
    "KMedoids.C71_pam_valid",
    "KMedoids.C71_pam_eq",
    "KMedoids.C71_pam_build",
    "KMedoids.C71_pam",
    "KMedoids.C71_pam_not_exact",
    "KMedoids.C71_not_greedy"
   ],
   "note": "Invariant of BUILD without loss arithmetic (a medoid as a candidate has the value -0, so it is never added twice); forward error analysis of the gains; sign of the gains for the early stop. Negations of the exact statements: C71_not_greedy, C71_pam_not_exact."
  },
  {
   "property": "C72",
   "status": "proved",
   "theorems": [
    "KMedoids.C72_rand_fasterpam",
    "KMedoids.C72_fasterpam",
    "KMedoids.C72_par_fasterpam",
    "KMedoids.C72_pam_swap",
    "KMedoids.C72_fastpam1",
    "KMedoids.C72_pam",
    "KMedoids.C72_fastermsc",
    "KMedoids.C72_fastmsc",
    "KMedoids.C72_pammedsil_swap",
    "KMedoids.C72_pamsil_swap",
    "KMedoids.C72_pamsil",
    "KMedoids.C72_ieee",
    "KMedoids.C72_alternating"
   ],
   "note": "The loss at the end of each iteration is a fixed function of the medoids (C58, C59), so the iterations that go on form a strictly descending chain of medoid sets. Parallel sums: one of catalan(n-1) bracketings. C72_alternating is the counterexample for alternating, a cycle of two states."
  },
  {
   "property": "C73",
   "status": "proved",
   "theorems": [
    "KMedoids.C73_nearlyOptimal",
    "KMedoids.C73_metric",
    "KMedoids.C73_not_worse",
    "KMedoids.C73_not_exact"
   ],
   "note": "Error analysis of the merged thread-local sums (parFbsP_float) with exponent n+p+1, then the arguments of C67, C69, C70. k = 1 is C70. C73_not_exact shows the error term is needed."
  },
  {
   "property": "C74",
   "status": "proved",
   "theorems": [
    "KMedoids.C74_nearlyOptimal",
    "KMedoids.C74_not_worse",
    "KMedoids.C74_not_exact"
   ],
   "note": "Rounded cluster sums (appr_partSum), the chosen member has the smallest computed sum (C70's chooseP_min), then sums over the clusters. C74_not_exact shows the errors are needed."
  },
  {
   "property": "C75",
   "status": "proved",
   "theorems": [
    "KMedoids.C75_rand_fasterpam",
    "KMedoids.C75_fasterpam",
    "KMedoids.C75_par_fasterpam",
    "KMedoids.C75_alternating",
    "KMedoids.C75_rand_fasterpam_not_worse",
    "KMedoids.C75_par_fasterpam_not_worse",
    "KMedoids.C75_metric",
    "KMedoids.C75_f64_overflow"
   ],
   "note": "C66, C69, C70, C73 for N = f32 or u32, L = f64; FloatLoss for the mixed types, and the sums stay below 2^200. C75_f64_overflow is the witness for f64 distances."
  },
  {
   "property": "C76",
   "status": "proved",
   "theorems": [
    "KMedoids.C76_silhouette",
    "KMedoids.C76_par_silhouette",
    "KMedoids.C76_u32",
    "KMedoids.C76_f32",
    "KMedoids.C76_underflow"
   ],
   "note": "bucket sums (Appr), means and minima (Near), the quotient (b-a)/max (frac_near), the average; general over a DivModel, instantiated for binary64. silhouetteP_near also covers labels with gaps (the code's rule). C76_underflow is the witness for f64 distances."
  },
  {
   "property": "C77",
   "status": "proved",
   "theorems": [
    "KMedoids.C77_pamsil_swap",
    "KMedoids.C77_textbook",
    "KMedoids.C77_pamsil",
    "KMedoids.C77_pamsil_swap_f64",
    "KMedoids.C77_pamsil_f64",
    "KMedoids.C77_not_exact"
   ],
   "note": "silhouettes are finite for all valid medoids (C76, also for labels with gaps), so the scan is exact on computed values (PamSilFloat); BUILD's assertion holds because computed gains are not positive (build_nonpos). C77_not_exact is the witness."
  },
  {
   "property": "C78",
   "status": "proved",
   "theorems": [
    "KMedoids.C78_medoid_silhouette",
    "KMedoids.C78_fastermsc",
    "KMedoids.C78_medoid_silhouette_f64",
    "KMedoids.C78_fastermsc_f64"
   ],
   "note": "one term is one correctly rounded quotient in [0,1] (MscErr); C59 says the reported silhouette is the left-to-right sum for the returned medoids whatever the history, so errors do not add up over exchanges."
  },
  {
   "property": "C79",
   "status": "proved",
   "theorems": [
    "KMedoids.C79_silhouette",
    "KMedoids.C79_par_silhouette",
    "KMedoids.C79_pamsil_swap",
    "KMedoids.C79_medoid_silhouette",
    "KMedoids.C79_fastermsc",
    "KMedoids.C79_fastmsc",
    "KMedoids.C79_pammedsil_swap"
   ],
   "note": "rounding to nearest even is monotone and odd (RndMono) and 2^p + 1 rounds to 2^p, so a sum of n values up to 1 is at most min(n, 2^p), and the rounded n is at least that. fastmsc excludes two medoids on two objects, where it panics (C29)."
  },
  {
   "property": "C80",
   "status": "proved",
   "theorems": [
    "KMedoids.C80_fastermsc",
    "KMedoids.C80_fastmsc",
    "KMedoids.C80_pammedsil_swap",
    "KMedoids.C80_fastermsc_f64",
    "KMedoids.C80_fastmsc_f64",
    "KMedoids.C80_pammedsil_swap_f64"
   ],
   "note": "error analysis of the decomposed gains (removal loss, shared and per-medoid parts, MscFloat, MscFloat2) against the exact difference of the sums of ratios; the first-improvement loop may stop at the last exchanged object, so all candidates were rejected with the final medoids (Quiet). The arbitrary hypothesis SumErr on sums of distances is proved for u32, f32 and f64."
  },
  {
   "property": "C81",
   "status": "proved",
   "theorems": [
    "KMedoids.C81_fastermsc",
    "KMedoids.C81_fastmsc",
    "KMedoids.C81_pammedsil_swap",
    "KMedoids.C81_fastermsc_f64",
    "KMedoids.C81_fastmsc_f64",
    "KMedoids.C81_pammedsil_swap_f64"
   ],
   "note": "an accepted exchange is at most E worse (C80's error analysis); a pass or step is only followed by another one if the computed sum of ratios, accurate to ((1+u)^n-1) n, decreased (LoopErr)."
  },
  {
   "property": "C82",
   "status": "proved",
   "theorems": [
    "KMedoids.C82_pam_swap",
    "KMedoids.C82_fastpam1",
    "KMedoids.C82_pam",
    "KMedoids.C82_single",
    "KMedoids.C82_pam_swap_f64",
    "KMedoids.C82_fastpam1_f64",
    "KMedoids.C82_not_recomputed"
   ],
   "note": "the last exchange was accepted because its computed change was negative, so the exact total deviation is hardly larger (scan error, C69); the computed loss did not decrease, so it is hardly smaller. Concrete f64 run with a loss different from the recomputed one (decide +kernel)."
  },
  {
   "property": "C83",
   "status": "proved",
   "theorems": [
    "KMedoids.C83_dynmsc_any",
    "KMedoids.C83_dynmsc_eq_any",
    "KMedoids.C83_silhouette_pos",
    "KMedoids.C83_fastermsc",
    "KMedoids.C83_dynmsc",
    "KMedoids.C83_dynmsc_f32",
    "KMedoids.C83_dynmsc_f64"
   ],
   "note": "any arithmetic: invariants of DynAny.lean. Formats: two zero terms, the sum of the others is at most min(n-2, 2^p), the rounded count exceeds it by a factor 1 - 2^-p. The condition on the format is necessary: run with two bits (decide +kernel)."
  },
  {
   "property": "C84",
   "status": "proved",
   "theorems": [
    "KMedoids.C84_storage_array2",
    "KMedoids.C84_storage_lower",
    "KMedoids.C84_rand_fasterpam",
    "KMedoids.C84_fasterpam",
    "KMedoids.C84_par_fasterpam",
    "KMedoids.C84_fastpam1",
    "KMedoids.C84_pam_swap",
    "KMedoids.C84_alternating",
    "KMedoids.C84_pam_build",
    "KMedoids.C84_pam",
    "KMedoids.C84_fastermsc",
    "KMedoids.C84_fastmsc",
    "KMedoids.C84_fastermsc_two",
    "KMedoids.C84_fastermsc_two_valid",
    "KMedoids.C84_fastmsc_two",
    "KMedoids.C84_fastmsc_two_valid",
    "KMedoids.C84_pammedsil_swap",
    "KMedoids.C84_pammedsil",
    "KMedoids.C84_dynmsc",
    "KMedoids.C84_pamsil_swap",
    "KMedoids.C84_pamsil",
    "KMedoids.C84_single",
    "KMedoids.C84_single_array2",
    "KMedoids.C84_single_lower",
    "KMedoids.C84_single_square",
    "KMedoids.C84_single_functions",
    "KMedoids.C84_fastermsc_negation",
    "KMedoids.C84_single_outside"
   ],
   "note": "Equivalences. Converse: the assertions and the reads of the first row. The full equivalence is false for fastermsc with k = 2 (C84_fastermsc_negation; exact condition in C84_fastermsc_two) and for the k == 1 shortcut (exact condition in C84_single; C05)."
  },
  {
   "property": "C85",
   "status": "proved",
   "theorems": [
    "KMedoids.C85_same",
    "KMedoids.C85_find_best_swap",
    "KMedoids.C85_find_best_swap_pam",
    "KMedoids.C85_do_swap",
    "KMedoids.C85_rand_fasterpam",
    "KMedoids.C85_fasterpam",
    "KMedoids.C85_fastpam1",
    "KMedoids.C85_pam_swap",
    "KMedoids.C85_pam_build",
    "KMedoids.C85_pam",
    "KMedoids.C85_alternating",
    "KMedoids.C85_single",
    "KMedoids.C85_speedup_reads",
    "KMedoids.C85_speedup"
   ],
   "note": "The functions are copied into a monad which adds up the charges; the matrix can be read only through it. C85_same: forgetting the charges gives the model functions, panics included. Bounds by a small program logic (Cnt.Sat). C85_speedup uses C14 (same result) and the lower bound for PAM."
  },
  {
   "property": "C86",
   "status": "proved",
   "theorems": [
    "KMedoids.C86_pam_swap_descent",
    "KMedoids.C86_fastpam1_descent",
    "KMedoids.C86_pam_swap_order",
    "KMedoids.C86_fastpam1_order",
    "KMedoids.C86_medoid_order",
    "KMedoids.C86_pam_build_strict",
    "KMedoids.C86_pam_build_order",
    "KMedoids.C86_pam_order",
    "KMedoids.C86_fasterpam_order_negation",
    "KMedoids.C86_ties_negation"
   ],
   "note": "Induction over the loop with the invariant of C12 (one iteration makes a best exchange); two descents from renumbered starts stay renumberings of each other. Negations with witnesses: C86_ties_negation, C86_fasterpam_order_negation."
  },
  {
   "property": "C87",
   "status": "proved",
   "theorems": [
    "KMedoids.C87_pammedsil_swap_ascent",
    "KMedoids.C87_fastmsc_ascent",
    "KMedoids.C87_pammedsil_swap_order",
    "KMedoids.C87_fastmsc_order",
    "KMedoids.C87_medoid_order",
    "KMedoids.C87_fastermsc_order_negation",
    "KMedoids.C87_ties_negation",
    "KMedoids.C87_pammedsil_order_negation"
   ],
   "note": "Induction over the loop with the first-best specification of one iteration; two ascents from renumbered starts stay renumberings of each other; fastmsc follows via C34. Negations with witnesses: C87_ties_negation, C87_fastermsc_order_negation, C87_pammedsil_order_negation."
  },
  {
   "property": "C88",
   "status": "proved",
   "theorems": [
    "KMedoids.C88_same",
    "KMedoids.C88_find_best_swap",
    "KMedoids.C88_find_best_swap_pammedsil",
    "KMedoids.C88_fastermsc",
    "KMedoids.C88_fastmsc",
    "KMedoids.C88_pammedsil_swap",
    "KMedoids.C88_pammedsil",
    "KMedoids.C88_dynmsc",
    "KMedoids.C88_single",
    "KMedoids.C88_silhouette",
    "KMedoids.C88_silhouette_reads",
    "KMedoids.C88_medoid_silhouette",
    "KMedoids.C88_medoid_silhouette_reads",
    "KMedoids.C88_pamsil_swap",
    "KMedoids.C88_pamsil",
    "KMedoids.C88_speedup_reads",
    "KMedoids.C88_speedup"
   ],
   "note": "Counting monad and a program logic for costs, as C85; C88_same shows that the counted copy computes the same; lower bound for PAMSIL by an invariant of the scan (the slot holds a candidate seen before) and because assign_nearest never labels the second medoid with zero."
  },
  {
   "property": "C89",
   "status": "proved",
   "theorems": [
    "KMedoids.C89_rand_fasterpam",
    "KMedoids.C89_fasterpam",
    "KMedoids.C89_par_fasterpam",
    "KMedoids.C89_renumber",
    "KMedoids.C89_resume",
    "KMedoids.C89_shuffle",
    "KMedoids.C89_fastermsc",
    "KMedoids.C89_fastermsc_resume",
    "KMedoids.C89_resume_labels_negation"
   ],
   "note": "Generic lemma on the first-improvement loops (Proofs/Eager.lean): up to the first swap of a pass, and after the last one, all objects are settled, so ending a pass at the last swap loses nothing; the slot found by find_best_swap is the first minimum. Renumbering by a relation between the states of both runs."
  },
  {
   "property": "C90",
   "status": "proved",
   "theorems": [
    "KMedoids.C90_pam_swap",
    "KMedoids.C90_fastpam1",
    "KMedoids.C90_pam_build",
    "KMedoids.C90_pam",
    "KMedoids.C90_pam_swap_resume",
    "KMedoids.C90_fastpam1_resume",
    "KMedoids.C90_pammedsil_swap",
    "KMedoids.C90_fastmsc",
    "KMedoids.C90_pammedsil_build",
    "KMedoids.C90_pammedsil",
    "KMedoids.C90_pammedsil_swap_resume",
    "KMedoids.C90_fastmsc_resume",
    "KMedoids.C90_resume_labels_negation"
   ],
   "note": "Sharpens C86 and C87, which leave ties open. Proofs/SteepRun.lean defines the searches and shows that the scans find the first best exchange."
  },
  {
   "property": "C91",
   "status": "proved",
   "theorems": [
    "KMedoids.C91_alternating",
    "KMedoids.C91_resume",
    "KMedoids.C91_order",
    "KMedoids.C91_order_negation"
   ],
   "note": "Sharpens C23 and C55. Proofs/AltRun.lean defines altRun and shows that the labels and the chosen medoids are the first best ones."
  },
  {
   "property": "C92",
   "status": "proved",
   "theorems": [
    "KMedoids.C92_dynmsc",
    "KMedoids.C92_negation"
   ],
   "note": "Sharpens C36-C38. Proofs/DynRun.lean defines dynSteps and bestSol; the bound of four medoids is part of the claim, C92_negation shows that it is needed."
  },
  {
   "property": "C93",
   "status": "proved",
   "theorems": [
    "KMedoids.C93_pamsil_swap",
    "KMedoids.C93_pamsil_swap_zero",
    "KMedoids.C93_pamsil",
    "KMedoids.C93_distinct"
   ],
   "note": "Sharpens C39-C42. Proofs/SilRun.lean defines silRun and the condition Tame; C93_pamsil_swap_zero is the case that object 0 is never a medoid."
  },
  {
   "property": "C94",
   "status": "proved",
   "theorems": [
    "KMedoids.C94_pam_swap",
    "KMedoids.C94_fastpam1",
    "KMedoids.C94_pam",
    "KMedoids.C94_integers",
    "KMedoids.C94_fastpam1_polynomial"
   ],
   "note": "Complements C64 (converged runs) and C16 (exponential bound on iterations); uses C86 (steepest descent) and C85 (work)."
  },
  {
   "property": "C95",
   "status": "proved",
   "theorems": [
    "KMedoids.C95_pam_build",
    "KMedoids.C95_pam",
    "KMedoids.C95_pammedsil_build",
    "KMedoids.C95_more_medoids"
   ],
   "note": "Complements C21 (greedy) and C65 (incremental)."
  },
  {
   "property": "C96",
   "status": "proved",
   "theorems": [
    "KMedoids.C96_swaps",
    "KMedoids.C96_par_fasterpam",
    "KMedoids.C96_alternating",
    "KMedoids.C96_integers",
    "KMedoids.C96_fasterpam_work"
   ],
   "note": "Sharpens C16 and C55 for data of limited resolution; attained with equality in the example. Uses C85 for the work."
  },
  {
   "property": "C97",
   "status": "proved",
   "theorems": [
    "KMedoids.C97_build",
    "KMedoids.C97_runs",
    "KMedoids.C97_factor"
   ],
   "note": "Complements C64 (upper bound five), C94 and C95. Whether the constant is three or five (or between) for these functions is left open here."
  },
  {
   "property": "C98",
   "status": "proved",
   "theorems": [
    "KMedoids.C98_alternating",
    "KMedoids.C98_rand_fasterpam",
    "KMedoids.C98_fasterpam",
    "KMedoids.C98_par_fasterpam",
    "KMedoids.C98_pam_swap",
    "KMedoids.C98_fastpam1",
    "KMedoids.C98_pam_build",
    "KMedoids.C98_pam"
   ],
   "note": "Exact arithmetic. The labels of the swap algorithms are not compared, since for ties they depend on the caches; every label is a nearest medoid (C07). Examples show that BUILD can return fewer medoids without the constant."
  },
  {
   "property": "C99",
   "status": "proved",
   "theorems": [
    "KMedoids.C99_shortest_paths",
    "KMedoids.C99_metric_unchanged",
    "KMedoids.C99_metric",
    "KMedoids.C99_fasterpam",
    "KMedoids.C99_i32",
    "KMedoids.C99_i32_sharp"
   ],
   "note": "Addition is a parameter (exact, i32 checked, i32 wrapping)."
  },
  {
   "property": "C100",
   "status": "proved",
   "theorems": [
    "KMedoids.C100_read",
    "KMedoids.C100_graph",
    "KMedoids.C100_main",
    "KMedoids.C100_bad_line",
    "KMedoids.C100_blank_line",
    "KMedoids.C100_i32_max",
    "KMedoids.C100_main_i32_max",
    "KMedoids.C100_remedy"
   ],
   "note": "The statement includes its own limit: the correctness for default values in the range, and the failure for i32::MAX for all graphs described. Reading the file, splitting at white space and parsing numbers are parameters; losses are exact integers."
  },
  {
   "property": "C101",
   "status": "proved",
   "theorems": [
    "KMedoids.C101_symmetric",
    "KMedoids.C101_files",
    "KMedoids.C101_wrong_size",
    "KMedoids.C101_short",
    "KMedoids.C101_euclidean",
    "KMedoids.C101_main",
    "KMedoids.C101_f64_sum",
    "KMedoids.C101_f64"
   ],
   "note": "The header fields must fit in 32 bits (they are u32). The dot product is any function that adds the products in some order and grouping; the square root of f64 is a parameter with stated laws, met by an example."
  },
  {
   "property": "C102",
   "status": "proved",
   "theorems": [
    "KMedoids.C102_rand_fasterpam_loss",
    "KMedoids.C102_rand_fasterpam",
    "KMedoids.C102_pam",
    "KMedoids.C102_mnist",
    "KMedoids.C102_mnist_60000"
   ],
   "note": "Whether the last pass made no exchange is stated by comparison with the run with one pass less, since fasterpam also stops if the computed loss does not decrease."
  },
  {
   "property": "C103",
   "status": "proved",
   "theorems": [
    "KMedoids.C103_runs",
    "KMedoids.C103_factor"
   ],
   "note": "Strengthens the lower bound three of C97 to the exact constant."
  },
  {
   "property": "C104",
   "status": "proved",
   "theorems": [
    "KMedoids.C104_ends",
    "KMedoids.C104_outcome",
    "KMedoids.C104_poisoned",
    "KMedoids.C104_visible",
    "KMedoids.C104_par_find_best_swap",
    "KMedoids.C104_checked",
    "KMedoids.C104_step_total"
   ],
   "note": "The first part holds for any loop body and any addition that may fail. rayon::scope waiting for all tasks and re-raising a panic, and std's poisoning, are part of the model."
  },
  {
   "property": "C105",
   "status": "proved",
   "theorems": [
    "KMedoids.C105_rand_fasterpam",
    "KMedoids.C105_fasterpam",
    "KMedoids.C105_par_fasterpam",
    "KMedoids.C105_pam_swap",
    "KMedoids.C105_fastpam1",
    "KMedoids.C105_alternating",
    "KMedoids.C105_distinct",
    "KMedoids.C105_f64_fasterpam",
    "KMedoids.C105_not_nearest_defined",
    "KMedoids.C105_nan_runs_on"
   ],
   "note": "BUILD is left out: with NaN sums it may choose an object twice. The last sentence is C105_not_nearest_defined and C105_nan_runs_on."
  },
  {
   "property": "C106",
   "status": "partial",
   "theorems": [
    "KMedoids.C106_value_any",
    "KMedoids.C106_value",
    "KMedoids.C106_labels_partial",
    "KMedoids.C106_negation"
   ],
   "note": "The first sentence is false for five or more initial medoids (C106_negation: eleven objects, symmetric distances); C106_labels_partial proves it for at most four initial medoids, and whenever k or two medoids are returned. The second sentence is proved for three or more returned medoids in C106_value (C106_value_any for any arithmetic of the losses); for two medoids see C37."
  },
  {
   "property": "C107",
   "status": "proved",
   "theorems": [
    "KMedoids.C107_fastermsc",
    "KMedoids.C107_fastmsc",
    "KMedoids.C107_pammedsil_swap",
    "KMedoids.C107_fastermsc_two",
    "KMedoids.C107_fastmsc_two",
    "KMedoids.C107_distinct",
    "KMedoids.C107_f64",
    "KMedoids.C107_own_two_negation"
   ],
   "note": "C107_fastermsc, C107_fastmsc, C107_pammedsil_swap: labels, also of the medoids; C107_fastermsc_two, C107_fastmsc_two: two medoids; C107_distinct; C107_f64; C107_own_two_negation: the run with two medoids in which a medoid gets the other label."
  },
  {
   "property": "C108",
   "status": "proved",
   "theorems": [
    "KMedoids.C108_pam_build",
    "KMedoids.C108_pam",
    "KMedoids.C108_pammedsil",
    "KMedoids.C108_pamsil_labels",
    "KMedoids.C108_f64_distinct",
    "KMedoids.C108_pamsil_build",
    "KMedoids.C108_nan_diagonal"
   ],
   "note": "C108_pam_build, C108_pam, C108_pammedsil: distinct medoids and labels; C108_f64_distinct: f64; C108_pamsil_build: no failed assertion in f64; C108_pamsil_labels: labels of PAMSIL; C108_nan_diagonal: a repeated medoid and a panic when the diagonal contains NaN."
  },
  {
   "property": "C109",
   "status": "proved",
   "theorems": [
    "KMedoids.C109_silhouette",
    "KMedoids.C109_par_silhouette",
    "KMedoids.C109_medoid_silhouette",
    "KMedoids.C109_i64_constant"
   ],
   "note": "C109_silhouette, C109_par_silhouette, C109_medoid_silhouette: any truncating integer type; C109_i64_constant: u32 distances and i64 results. The documentation says that the functions always return a float; the types do not enforce it."
  },
  {
   "property": "C110",
   "status": "proved",
   "theorems": [
    "KMedoids.C110_build_valid",
    "KMedoids.C110_pammedsil_eq",
    "KMedoids.C110_pammedsil_valid",
    "KMedoids.C110_pammedsil_iters",
    "KMedoids.C110_build",
    "KMedoids.C110_ieee",
    "KMedoids.C110_f64"
   ],
   "note": "C110_build_valid, C110_pammedsil_eq, C110_pammedsil_valid, C110_pammedsil_iters: any arithmetic; C110_build: floating point; C110_ieee: all formats; C110_f64: f64 losses. Extends C43/C51 (exact arithmetic) and C72, C79, C80, C81 (pammedsil_swap)."
  },
  {
   "property": "C111",
   "status": "proved",
   "theorems": [
    "KMedoids.C111_matrix",
    "KMedoids.C111_own_number",
    "KMedoids.C111_i32",
    "KMedoids.C111_overflow",
    "KMedoids.C111_bound_needed",
    "KMedoids.C111_fasterpam",
    "KMedoids.C111_rand_fasterpam",
    "KMedoids.C111_par_fasterpam",
    "KMedoids.C111_pam_swap",
    "KMedoids.C111_pam_build",
    "KMedoids.C111_pam",
    "KMedoids.C111_alternating"
   ],
   "note": "C111_matrix and C111_own_number: the loop that fills the matrix; C111_i32, C111_overflow: i32 losses; C111_fasterpam ... C111_alternating: the benchmarks; C111_bound_needed: without the bound. These theorems say that no value computed with an overflow has an influence; that no overflow check fires is C112."
  },
  {
   "property": "C112",
   "status": "proved",
   "theorems": [
    "KMedoids.C112_erase",
    "KMedoids.C112_exact",
    "KMedoids.C112_general",
    "KMedoids.C112_u32_i64",
    "KMedoids.C112_i32",
    "KMedoids.C112_bound_needed",
    "KMedoids.C112_lost_sum",
    "KMedoids.C112_bench",
    "KMedoids.C112_bench_returns"
   ],
   "note": "Model/Checked.lean: the PAM family with operations that may panic. C112_erase: the text is that of the other model files. C112_exact, C112_general: no check fires; C112_u32_i64, C112_i32; C112_bench, C112_bench_returns: the benchmarks; C112_bound_needed, C112_lost_sum: without the bound."
  },
  {
   "property": "C113",
   "status": "proved",
   "theorems": [
    "KMedoids.C113_labels",
    "KMedoids.C113_swapOptimal",
    "KMedoids.C113_optimum",
    "KMedoids.C113_pam_family",
    "KMedoids.C113_any_limit",
    "KMedoids.C113_par_fasterpam",
    "KMedoids.C113_pam_build",
    "KMedoids.C113_pam",
    "KMedoids.C113_alternating",
    "KMedoids.C113_alternating_fails",
    "KMedoids.C113_needs_triangle",
    "KMedoids.C113_needs_separation"
   ],
   "note": "Proofs/Separated.lean and Props/C113.lean. C113_swapOptimal: local optima have a medoid in every group; C113_optimum: they are global optima; C113_labels. C113_pam_family, C113_par_fasterpam, C113_any_limit, C113_pam_build, C113_pam, C113_alternating: the functions; C113_alternating_fails, C113_needs_triangle, C113_needs_separation: what is needed."
  },
  {
   "property": "C114",
   "status": "proved",
   "theorems": [
    "KMedoids.C114_pam_family",
    "KMedoids.C114_pam_build",
    "KMedoids.C114_pam",
    "KMedoids.C114_points",
    "KMedoids.C114_points_build"
   ],
   "note": "Proofs/SeparatedFloat.lean and Props/C114.lean. C114_pam_family, C114_pam_build, C114_pam: any arithmetic with the standard model; C114_points, C114_points_build: points in a metric space, f64. Examples: tenths in f64."
  },
  {
   "property": "C115",
   "status": "proved",
   "theorems": [
    "KMedoids.C115_high",
    "KMedoids.C115_low",
    "KMedoids.C115_best",
    "KMedoids.C115_certificate",
    "KMedoids.C115_msc",
    "KMedoids.C115_dynmsc",
    "KMedoids.C115_pammedsil_build",
    "KMedoids.C115_pammedsil",
    "KMedoids.C115_needs_bound",
    "KMedoids.C115_start_needed"
   ],
   "note": "Proofs/SeparatedSil.lean and Props/C115.lean. C115_high, C115_low, C115_best, C115_certificate: the objective; C115_msc, C115_dynmsc, C115_pammedsil_build, C115_pammedsil: the runs; C115_needs_bound, C115_start_needed: the hypotheses are needed. Examples: nine objects on a line."
  },
  {
   "property": "C116",
   "status": "proved",
   "theorems": [
    "KMedoids.C116_mixed",
    "KMedoids.C116_split",
    "KMedoids.C116_groups",
    "KMedoids.C116_certificate",
    "KMedoids.C116_par_certificate",
    "KMedoids.C116_best",
    "KMedoids.C116_pamsil_swap",
    "KMedoids.C116_pamsil",
    "KMedoids.C116_needs_bound",
    "KMedoids.C116_start_needed"
   ],
   "note": "Proofs/SilBound.lean, Proofs/SeparatedSilhouette.lean and Props/C116.lean. C116_mixed, C116_split, C116_groups, C116_best, C116_certificate, C116_par_certificate: the objective; C116_pamsil_swap, C116_pamsil: the runs; C116_needs_bound, C116_start_needed: the hypotheses are needed. Examples: nine objects on a line."
  },
  {
   "property": "C117",
   "status": "proved",
   "theorems": [
    "KMedoids.C117_high",
    "KMedoids.C117_covers",
    "KMedoids.C117_certificate",
    "KMedoids.C117_keeps",
    "KMedoids.C117_fastermsc",
    "KMedoids.C117_fastmsc",
    "KMedoids.C117_pammedsil_swap",
    "KMedoids.C117_silhouette",
    "KMedoids.C117_par_silhouette",
    "KMedoids.C117_pamsil_swap",
    "KMedoids.C117_certificate_f64",
    "KMedoids.C117_fastermsc_f64",
    "KMedoids.C117_fastmsc_f64",
    "KMedoids.C117_pammedsil_swap_f64",
    "KMedoids.C117_silhouette_f64",
    "KMedoids.C117_pamsil_swap_f64"
   ],
   "note": "Proofs/SeparatedSil.lean, Proofs/SeparatedSilhouette.lean and Props/C117.lean. C117_high, C117_covers, C117_certificate: the medoid silhouette; C117_keeps, C117_fastermsc, C117_fastmsc, C117_pammedsil_swap: the runs; C117_silhouette, C117_par_silhouette, C117_pamsil_swap: the silhouette; _f64: explicit constants. Examples: nine objects with u32 distances and f64 losses. Not stated: BUILD starts under rounding."
  },
  {
   "property": "C118",
   "status": "proved",
   "theorems": [
    "KMedoids.C118_dynmsc",
    "KMedoids.C118_loss",
    "KMedoids.C118_drop",
    "KMedoids.C118_drop_first"
   ],
   "note": "Model/Repaired.lean (a repaired variant, not the code), Proofs/DynFixed.lean and Props/C118.lean. C118_dynmsc: exact specification for any number of medoids; C118_loss: the full C37; C118_drop and C118_drop_first: the full C38. Examples: the counterexamples of C37_negation and C38_negation. This is about a suggested repair: C37 and C38 stay partial for the code itself."
  },
  {
   "property": "C119",
   "status": "proved",
   "theorems": [
    "KMedoids.C119_pamsil_swap",
    "KMedoids.C119_no_panic",
    "KMedoids.C119_local_optimum",
    "KMedoids.C119_pamsil",
    "KMedoids.C119_pamsil_distinct"
   ],
   "note": "Model/Repaired.lean (a repaired variant, not the code), Proofs/PamSilFixed.lean and Props/C119.lean. C119_pamsil_swap, C119_no_panic: any arithmetic; C119_local_optimum: exact comparisons; C119_pamsil, C119_pamsil_distinct: with BUILD. Examples: the counterexamples of C41, C42 and C49. C41, C42 and C49 stay partial for the code itself."
  },
  {
   "property": "C120",
   "status": "proved",
   "theorems": [
    "KMedoids.C120_pam_swap_same",
    "KMedoids.C120_fastpam1_same",
    "KMedoids.C120_fastmsc_same",
    "KMedoids.C120_pammedsil_swap_same",
    "KMedoids.C120_fastmsc_no_panic",
    "KMedoids.C120_pam_swap",
    "KMedoids.C120_fastpam1",
    "KMedoids.C120_fastmsc",
    "KMedoids.C120_pammedsil_swap"
   ],
   "note": "Model/Repaired2.lean (repaired variants, not the code), Proofs/LossFixed.lean and Props/C120.lean. C120_*_same: nothing but the loss changes; C120_pam_swap, C120_fastpam1, C120_fastmsc, C120_pammedsil_swap: the loss; C120_fastmsc_no_panic. Examples: the counterexamples of C58, C59 and C29. These stay partial for the code itself."
  },
  {
   "property": "C121",
   "status": "proved",
   "theorems": [
    "KMedoids.C121_par",
    "KMedoids.C121_same",
    "KMedoids.C121_silhouette",
    "KMedoids.C121_rename"
   ],
   "note": "Model/Repaired3.lean (repaired variants, not the code), Proofs/SilFixed.lean and Props/C121.lean. C121_silhouette, C121_rename (full C26), C121_par (full C27), C121_same. Examples: the counterexamples of C26 and C27. These stay partial for the code itself."
  },
  {
   "property": "C122",
   "status": "proved",
   "theorems": [
    "KMedoids.C122_build",
    "KMedoids.C122_pammedsil_no_panic",
    "KMedoids.C122_greedy",
    "KMedoids.C122_pammedsil",
    "KMedoids.C122_same"
   ],
   "note": "Model/Repaired4.lean (repaired variant, not the code), Proofs/PmsBuildFixed.lean and Props/C122.lean. C122_build (lockstep with pam_build), C122_greedy (full C43), C122_pammedsil, C122_same, C122_pammedsil_no_panic. Examples: the counterexamples of C43. C43 stays partial for the code itself."
  },
  {
   "property": "C123",
   "status": "proved",
   "theorems": [
    "KMedoids.C123_resume",
    "KMedoids.C123_limit",
    "KMedoids.C123_negation"
   ],
   "note": "Props/C123.lean: C123_resume and C123_limit for the repaired function of C119 (Model/Repaired.lean, not the code); C123_negation: the statement for the code (C123_full_for_the_code) is false, one run ends with a medoid twice and silhouette 43/189, the interrupted one with 23/90."
  },
  {
   "property": "C124",
   "status": "proved",
   "theorems": [
    "KMedoids.C124_check",
    "KMedoids.C124_same",
    "KMedoids.C124_fastermsc",
    "KMedoids.C124_fastmsc",
    "KMedoids.C124_pammedsil_swap",
    "KMedoids.C124_pammedsil",
    "KMedoids.C124_dynmsc"
   ],
   "note": "Model/Repaired5.lean (repaired variant, not the code) and Props/C124.lean: C124_check, C124_same, C124_fastermsc, C124_fastmsc, C124_pammedsil_swap, C124_pammedsil, C124_dynmsc. Examples: the panics of C53. C53 stays partial for the code itself."
  },
  {
   "property": "C125",
   "status": "proved",
   "theorems": [
    "KMedoids.C125_pam_swap_weights",
    "KMedoids.C125_fastpam1_weights",
    "KMedoids.C125_pam_build_weights",
    "KMedoids.C125_pam_weights",
    "KMedoids.C125_rand_fasterpam_weights",
    "KMedoids.C125_fasterpam_weights",
    "KMedoids.C125_pam_swap",
    "KMedoids.C125_fastpam1",
    "KMedoids.C125_pam",
    "KMedoids.C125_fasterpam",
    "KMedoids.C125_order_matters",
    "KMedoids.C125_pammedsil_fails"
   ],
   "note": "Proofs/Copies.lean and Props/C125.lean, through the descriptions of the searches in C89 and C90. C125_pam_swap_weights, C125_fastpam1_weights, C125_pam_build_weights, C125_pam_weights, C125_rand_fasterpam_weights, C125_fasterpam_weights (any numbers of copies); C125_pam_swap, C125_fastpam1, C125_pam, C125_fasterpam (c copies each). C125_order_matters: FasterPAM with a second copy of the data behind the first; C125_pammedsil_fails: PAMMEDSIL exchanges a medoid for the copy of another one."
  },
  {
   "property": "C126",
   "status": "proved",
   "theorems": [
    "KMedoids.C126_swapOptimal",
    "KMedoids.C126_pam_family",
    "KMedoids.C126_par_fasterpam",
    "KMedoids.C126_pam",
    "KMedoids.C126_silSwapOptimal",
    "KMedoids.C126_msc",
    "KMedoids.C126_dynmsc",
    "KMedoids.C126_two_left_out_negation",
    "KMedoids.C126_alternating_negation",
    "KMedoids.C126_sil_two_left_out_negation"
   ],
   "note": "Proofs/LeaveOne.lean and Props/C126.lean. C126_swapOptimal, C126_pam_family, C126_par_fasterpam, C126_pam, C126_silSwapOptimal, C126_msc, C126_dynmsc; C126_two_left_out_negation, C126_sil_two_left_out_negation and C126_alternating_negation show where it ends."
  },
  {
   "property": "C127",
   "status": "proved",
   "theorems": [
    "KMedoids.C127_metric",
    "KMedoids.C127_rand_fasterpam",
    "KMedoids.C127_fasterpam",
    "KMedoids.C127_pam",
    "KMedoids.C127_optimum",
    "KMedoids.C127_reads",
    "KMedoids.C127_par_fasterpam"
   ],
   "note": "Props/C127.lean. C127_metric, C127_rand_fasterpam, C127_fasterpam, C127_par_fasterpam, C127_pam (pam_swap and fastpam1), C127_optimum, C127_reads."
  },
  {
   "property": "C128",
   "status": "proved",
   "theorems": [
    "KMedoids.C128_metric",
    "KMedoids.C128_triangle",
    "KMedoids.C128_build_stop_negation",
    "KMedoids.C128_msc_negation"
   ],
   "note": "Props/C128.lean, a consequence of C98. C128_metric, C128_triangle; what does not hold: C128_build_stop_negation, C128_msc_negation."
  },
  {
   "property": "C129",
   "status": "proved",
   "theorems": [
    "KMedoids.C129_fastermsc",
    "KMedoids.C129_fastmsc",
    "KMedoids.C129_optimum",
    "KMedoids.C129_reads"
   ],
   "note": "Props/C129.lean. C129_fastermsc, C129_fastmsc (fastmsc and pammedsil_swap), C129_optimum, C129_reads; the data and that they are a metric: C127_metric."
  },
  {
   "property": "C130",
   "status": "proved",
   "theorems": [
    "KMedoids.C130_rand_fasterpam",
    "KMedoids.C130_par_fasterpam",
    "KMedoids.C130_fasterpam_starts",
    "KMedoids.C130_fasterpam_negation",
    "KMedoids.C130_single_negation"
   ],
   "note": "Props/C130.lean. C130_rand_fasterpam, C130_par_fasterpam; C130_fasterpam_negation with the counts in C130_fasterpam_starts, C130_single_negation. That the random generator draws uniformly is not part of the model."
  },
  {
   "property": "C131",
   "status": "proved",
   "theorems": [
    "KMedoids.C131_rand_fasterpam",
    "KMedoids.C131_fasterpam",
    "KMedoids.C131_par_fasterpam",
    "KMedoids.C131_pam",
    "KMedoids.C131_zero_loss",
    "KMedoids.C131_limit",
    "KMedoids.C131_alternating_negation",
    "KMedoids.C131_msc",
    "KMedoids.C131_msc_negation"
   ],
   "note": "Props/C131.lean, with Proofs/Repeat.lean. C131_fasterpam, C131_rand_fasterpam, C131_par_fasterpam, C131_pam (structure RepeatOutcome); C131_zero_loss and C131_limit show that the exceptions occur; C131_alternating_negation, C131_msc, C131_msc_negation for the functions without this repair."
  },
  {
   "property": "C132",
   "status": "proved",
   "theorems": [
    "KMedoids.C132_rand_fasterpam",
    "KMedoids.C132_fasterpam",
    "KMedoids.C132_par_fasterpam",
    "KMedoids.C132_pam_swap",
    "KMedoids.C132_fastpam1",
    "KMedoids.C132_pam_build",
    "KMedoids.C132_pam",
    "KMedoids.C132_fastermsc",
    "KMedoids.C132_fastmsc",
    "KMedoids.C132_pammedsil_swap",
    "KMedoids.C132_total_dev",
    "KMedoids.C132_same_order",
    "KMedoids.C132_noise_rand_fasterpam",
    "KMedoids.C132_noise_fasterpam",
    "KMedoids.C132_noise_pam_swap",
    "KMedoids.C132_noise_fastpam1",
    "KMedoids.C132_med_sil",
    "KMedoids.C132_same_order_sil",
    "KMedoids.C132_noise_fastermsc",
    "KMedoids.C132_noise_pammedsil_swap",
    "KMedoids.C132_noise_fastmsc",
    "KMedoids.C132_gap_negation",
    "KMedoids.C132_monotone_negation"
   ],
   "note": "Props/C132.lean. C132_rand_fasterpam, C132_fasterpam, C132_par_fasterpam, C132_pam_swap, C132_fastpam1, C132_pam_build, C132_pam, C132_fastermsc, C132_fastmsc, C132_pammedsil_swap for the ranking; C132_total_dev, C132_same_order, C132_noise_* and C132_med_sil, C132_same_order_sil for errors; C132_gap_negation (the bound is exact), C132_monotone_negation."
  },
  {
   "property": "C133",
   "status": "proved",
   "theorems": [
    "KMedoids.C133_metric",
    "KMedoids.C133_alternating",
    "KMedoids.C133_optimum",
    "KMedoids.C133_pam_family",
    "KMedoids.C133_par_fasterpam",
    "KMedoids.C133_no_factor"
   ],
   "note": "Props/C133.lean. C133_no_factor is the claim; C133_metric, C133_alternating, C133_optimum, C133_pam_family its parts for the family lastPairD."
  },
  {
   "property": "C134",
   "status": "proved",
   "theorems": [
    "KMedoids.C134_metric",
    "KMedoids.C134_local_optimum",
    "KMedoids.C134_local_optimum_k",
    "KMedoids.C134_no_factor",
    "KMedoids.C134_metric_few",
    "KMedoids.C134_local_optimum_few",
    "KMedoids.C134_no_factor_few"
   ],
   "note": "Props/C134.lean. C134_no_factor is the claim; C134_metric, C134_local_optimum, C134_local_optimum_k its parts for the family midD (two groups, an object in the middle and a remote object, which are the medoids of the local optimum; isolated objects for more clusters). Props/C134Few.lean: C134_no_factor_few, with C134_metric_few and C134_local_optimum_few for the family nearFarD (2k-1 objects, k >= 3)."
  },
  {
   "property": "C135",
   "status": "proved",
   "theorems": [
    "KMedoids.C135_metric",
    "KMedoids.C135_local_optimum",
    "KMedoids.C135_no_factor",
    "KMedoids.C135_metric_three",
    "KMedoids.C135_local_optimum_three",
    "KMedoids.C135_no_factor_three",
    "KMedoids.C135_metric_two",
    "KMedoids.C135_local_optimum_two",
    "KMedoids.C135_no_factor_two",
    "KMedoids.C135_no_factor_all"
   ],
   "note": "Props/C135.lean, Props/C135Three.lean, Props/C135Two.lean. C135_no_factor_all is the claim; C135_no_factor is k >= 4, with C135_metric and C135_local_optimum for the family pairRestD (k-1 pairs and k-1 remote objects); C135_no_factor_three is k = 3, with C135_metric_three and C135_local_optimum_three for the family subD (a large group with two subgroups, and two small groups); C135_no_factor_two is k = 2, with C135_metric_two and C135_local_optimum_two for the family remoteD (two groups and two remote objects)."
  },
  {
   "property": "C136",
   "status": "proved",
   "theorems": [
    "KMedoids.C136_metric",
    "KMedoids.C136_medoid_silhouette",
    "KMedoids.C136_total_deviation",
    "KMedoids.C136_medoid_silhouette_all",
    "KMedoids.C136_total_deviation_all"
   ],
   "note": "Props/C136.lean, Props/C136All.lean. C136_medoid_silhouette_all and C136_total_deviation_all are the two directions for every k ≥ 2, with k - 2 isolated objects; C136_medoid_silhouette and C136_total_deviation are for two clusters without them; C136_metric is for the family duoD (two groups and a remote object). That the runs do not panic is C04 and C29."
  },
  {
   "property": "C137",
   "status": "proved",
   "theorems": [
    "KMedoids.C137_ties",
    "KMedoids.C137_perfect",
    "KMedoids.C137_all_objects"
   ],
   "note": "Props/C137.lean. C137_ties is the rule for ties, C137_perfect and C137_all_objects are the consequences. That the run does not panic is C47."
  },
  {
   "property": "C138",
   "status": "proved",
   "theorems": [
    "KMedoids.C138_more_medoids",
    "KMedoids.C138_any_method",
    "KMedoids.C138_msc_negation"
   ],
   "note": "Props/C138.lean. C138_more_medoids for the PAM family, C138_any_method also with par_fasterpam and alternating, C138_msc_negation for the medoid silhouette."
  }
 ]
}