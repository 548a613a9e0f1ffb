KMedoids.C01_get_in_bounds: propext, Classical.choice, Quot.sound
KMedoids.C01_is_square_iff: propext, Classical.choice, Quot.sound
KMedoids.C01_is_square_zero: propext
KMedoids.C01_no_usize_overflow: propext, Classical.choice, Quot.sound
KMedoids.C02_symmetric: propext
KMedoids.C02_diagonal: propext, Classical.choice, Quot.sound
KMedoids.C02_cell: propext
KMedoids.C02_no_aliasing: propext, Classical.choice, Quot.sound
KMedoids.C02_every_cell_used: propext, Classical.choice, Quot.sound
KMedoids.C02_round_trip: propext, Classical.choice, Quot.sound
KMedoids.C02_presents: propext, Classical.choice, Quot.sound
KMedoids.C03_first_k: propext, Classical.choice, Quot.sound
KMedoids.C03_first_k_entries: propext
KMedoids.C04_rand_fasterpam: propext, Classical.choice, Quot.sound
KMedoids.C04_fasterpam: propext, Classical.choice, Quot.sound
KMedoids.C04_pam_swap: propext, Classical.choice, Quot.sound
KMedoids.C04_fastpam1: propext, Classical.choice, Quot.sound
KMedoids.C04_alternating: propext, Quot.sound
KMedoids.C04_pam_build: propext, Classical.choice, Quot.sound
KMedoids.C04_pam: propext, Classical.choice, Quot.sound
KMedoids.C05_pam_swap: propext, Quot.sound
KMedoids.C05_alternating: propext, Quot.sound
KMedoids.C05_pam: propext, Quot.sound
KMedoids.C05_pam_build: propext, Quot.sound
KMedoids.C05_negation: propext
KMedoids.C05_negation_empty: propext
KMedoids.C05_rand_fasterpam_partial: propext, Quot.sound
KMedoids.C05_fasterpam_partial: propext, Quot.sound
KMedoids.C05_fastpam1_partial: propext, Quot.sound
KMedoids.C05_par_fasterpam_partial: propext, Quot.sound
KMedoids.C06_rand_fasterpam: propext, Classical.choice, Quot.sound
KMedoids.C06_fasterpam: propext, Classical.choice, Quot.sound
KMedoids.C06_pam_swap: propext, Classical.choice, Quot.sound
KMedoids.C06_fastpam1: propext, Classical.choice, Quot.sound
KMedoids.C06_alternating: propext, Classical.choice, Quot.sound
KMedoids.C06_par_fasterpam: propext, Classical.choice, Quot.sound
KMedoids.C06_needs_zero_diagonal: propext
KMedoids.C06_needs_nonneg: propext, Classical.choice, Quot.sound
KMedoids.C07_rand_fasterpam: propext, Classical.choice, Quot.sound
KMedoids.C07_fasterpam: propext, Classical.choice, Quot.sound
KMedoids.C07_pam_swap: propext, Classical.choice, Quot.sound
KMedoids.C07_fastpam1: propext, Classical.choice, Quot.sound
KMedoids.C07_alternating: propext, Classical.choice, Quot.sound
KMedoids.C07_par_fasterpam: propext, Classical.choice, Quot.sound
KMedoids.C08_rand_fasterpam: propext, Classical.choice, Quot.sound
KMedoids.C08_fasterpam: propext, Classical.choice, Quot.sound
KMedoids.C08_pam_swap: propext, Classical.choice, Quot.sound
KMedoids.C08_fastpam1: propext, Classical.choice, Quot.sound
KMedoids.C08_alternating: propext, Classical.choice, Quot.sound
KMedoids.C08_single_needs_symmetry: propext
KMedoids.C08_needs_nonneg: propext, Classical.choice, Quot.sound
KMedoids.C09_rand_fasterpam: propext, Classical.choice, Quot.sound
KMedoids.C09_fasterpam: propext, Classical.choice, Quot.sound
KMedoids.C09_pam_swap: propext, Classical.choice, Quot.sound
KMedoids.C09_fastpam1: propext, Classical.choice, Quot.sound
KMedoids.C09_needs_zero_diagonal: propext
KMedoids.C09_needs_nonneg: propext, Classical.choice, Quot.sound
KMedoids.C10_rand_fasterpam: propext, Classical.choice, Quot.sound
KMedoids.C10_fasterpam: propext, Classical.choice, Quot.sound
KMedoids.C10_pam_swap: propext, Classical.choice, Quot.sound
KMedoids.C10_fastpam1: propext, Classical.choice, Quot.sound
KMedoids.C10_single: propext, Classical.choice, Quot.sound
KMedoids.C11_rand_fasterpam: propext, Classical.choice, Quot.sound
KMedoids.C11_fasterpam: propext, Classical.choice, Quot.sound
KMedoids.C12_pam_swap: propext, Classical.choice, Quot.sound
KMedoids.C12_fastpam1: propext, Classical.choice, Quot.sound
KMedoids.C12_pam: propext, Classical.choice, Quot.sound
KMedoids.C13_pam_swap: propext, Classical.choice, Quot.sound
KMedoids.C13_fastpam1: propext, Classical.choice, Quot.sound
KMedoids.C14_fastpam1_eq_pam_swap: propext, Classical.choice, Quot.sound
KMedoids.C14_needs_zero_diagonal: propext
KMedoids.C14_needs_nonneg: propext, Classical.choice, Quot.sound
KMedoids.C15_rand_fasterpam_from_optimum: propext, Classical.choice, Quot.sound
KMedoids.C15_fasterpam_from_optimum: propext, Classical.choice, Quot.sound
KMedoids.C15_pam_swap_from_optimum: propext, Classical.choice, Quot.sound
KMedoids.C15_fastpam1_from_optimum: propext, Classical.choice, Quot.sound
KMedoids.C15_rand_fasterpam: propext, Classical.choice, Quot.sound
KMedoids.C15_fasterpam: propext, Classical.choice, Quot.sound
KMedoids.C15_pam_swap: propext, Classical.choice, Quot.sound
KMedoids.C15_fastpam1: propext, Classical.choice, Quot.sound
KMedoids.C16_rand_fasterpam: propext, Classical.choice, Quot.sound
KMedoids.C16_fasterpam: propext, Classical.choice, Quot.sound
KMedoids.C16_pam_swap: propext, Classical.choice, Quot.sound
KMedoids.C16_fastpam1: propext, Classical.choice, Quot.sound
KMedoids.C17_par_fasterpam: propext, Classical.choice, Quot.sound
KMedoids.C17_pool_result: propext, Classical.choice, Quot.sound
KMedoids.C17_pool_refines: propext, Classical.choice, Quot.sound
KMedoids.C17_pool_completes: propext, Classical.choice, Quot.sound
KMedoids.C17_needs_zero_diagonal: propext, Classical.choice, Quot.sound
KMedoids.C17_needs_nonneg: propext, Classical.choice, Quot.sound
KMedoids.C18_single: propext, Classical.choice, Quot.sound
KMedoids.C18_single_symm: propext, Classical.choice, Quot.sound
KMedoids.C18_par_fasterpam: propext, Classical.choice, Quot.sound
KMedoids.C19_pam_build: propext, Classical.choice, Quot.sound
KMedoids.C20_pam_build: propext, Classical.choice, Quot.sound
KMedoids.C21_pam_build: propext, Classical.choice, Quot.sound
KMedoids.C22_pam: propext, Classical.choice, Quot.sound
KMedoids.C23_alternating: propext, Classical.choice, Quot.sound
KMedoids.C24_silhouette: propext, Classical.choice, Quot.sound
KMedoids.C24_par_silhouette: propext, Classical.choice, Quot.sound
KMedoids.C25_silhouette: propext, Classical.choice, Quot.sound
KMedoids.C25_silhouette_range: propext, Classical.choice, Quot.sound
KMedoids.C26_silhouette_partial: propext, Classical.choice, Quot.sound
KMedoids.C26_gap: propext, Classical.choice, Quot.sound
KMedoids.C26_negation: propext, Classical.choice, Quot.sound
KMedoids.C26_both_gaps_partial: propext, Classical.choice, Quot.sound
KMedoids.C26_at_most_textbook: propext, Classical.choice, Quot.sound
KMedoids.C27_par_silhouette_partial: propext, Classical.choice, Quot.sound
KMedoids.C27_negation: propext, Classical.choice, Quot.sound
KMedoids.C27_single_partial: propext, Classical.choice, Quot.sound
KMedoids.C27_exact_partial: propext, Classical.choice, Quot.sound
KMedoids.C27_exD_nn: propext
KMedoids.C28_medoid_silhouette: propext, Classical.choice, Quot.sound
KMedoids.C28_medoid_silhouette_range: propext, Classical.choice, Quot.sound
KMedoids.C29_fastermsc: propext, Classical.choice, Quot.sound
KMedoids.C29_pammedsil_swap: propext, Classical.choice, Quot.sound
KMedoids.C29_fastmsc_partial: propext, Classical.choice, Quot.sound
KMedoids.C29_fastmsc_two: propext, Classical.choice, Quot.sound
KMedoids.C29_negation: propext, Classical.choice, Quot.sound
KMedoids.C29_pammedsil: propext, Classical.choice, Quot.sound
KMedoids.C30_msc: propext, Classical.choice, Quot.sound
KMedoids.C31_msc: propext, Classical.choice, Quot.sound
KMedoids.C31_msc_own: propext, Classical.choice, Quot.sound
KMedoids.C32_msc: propext, Classical.choice, Quot.sound
KMedoids.C33_msc: propext, Classical.choice, Quot.sound
KMedoids.C33_msc_counters: propext, Classical.choice, Quot.sound
KMedoids.C34_fastmsc_two_labels_partial: propext, Classical.choice, Quot.sound
KMedoids.C34_fastmsc_partial: propext, Classical.choice, Quot.sound
KMedoids.C34_fastmsc_two_partial: propext, Classical.choice, Quot.sound
KMedoids.C34_negation: propext, Classical.choice, Quot.sound
KMedoids.C35_single_partial: propext, Classical.choice, Quot.sound
KMedoids.C35_negation: propext, Classical.choice, Quot.sound
KMedoids.C35_dynmsc_single_partial: propext, Classical.choice, Quot.sound
KMedoids.C35_dynmsc_negation: propext, Classical.choice, Quot.sound
KMedoids.C36_dynmsc: propext, Classical.choice, Quot.sound
KMedoids.C37_dynmsc_partial: propext, Classical.choice, Quot.sound
KMedoids.C37_negation: propext, Classical.choice, Quot.sound
KMedoids.C38_inverted_partial: propext, Classical.choice, Quot.sound
KMedoids.C38_round_inverted_partial: propext, Classical.choice, Quot.sound
KMedoids.C38_negation: propext, Classical.choice, Quot.sound
KMedoids.C39_pamsil_swap: propext, Classical.choice, Quot.sound
KMedoids.C39_pamsil_swap_nearest: propext, Classical.choice, Quot.sound
KMedoids.C39_pamsil_swap_textbook: propext, Classical.choice, Quot.sound
KMedoids.C40_pamsil_swap: propext, Classical.choice, Quot.sound
KMedoids.C41_pamsil_swap_only_index_partial: propext, Classical.choice, Quot.sound
KMedoids.C41_pamsil_swap_partial: propext, Classical.choice, Quot.sound
KMedoids.C41_pamsil_swap_panics: propext, Classical.choice, Quot.sound
KMedoids.C41_pamsil: propext, Classical.choice, Quot.sound
KMedoids.C41_negation: propext, Classical.choice, Quot.sound
KMedoids.C42_pamsil_swap_partial: propext, Classical.choice, Quot.sound
KMedoids.C42_pamsil_partial: propext, Classical.choice, Quot.sound
KMedoids.C42_pamsil_swap_negation: propext, Classical.choice, Quot.sound
KMedoids.C42_pamsil_negation: propext, Classical.choice, Quot.sound
KMedoids.C42_pamsil_swap_high_partial: propext, Classical.choice, Quot.sound
KMedoids.C42_pamsil_swap_zero_partial: propext, Classical.choice, Quot.sound
KMedoids.C42_pamsil_high_partial: propext, Classical.choice, Quot.sound
KMedoids.C42_pamsil_zero_partial: propext, Classical.choice, Quot.sound
KMedoids.C42_bound_sharp: propext, Classical.choice, Quot.sound
KMedoids.C43_pammedsil_build_partial: propext, Classical.choice, Quot.sound
KMedoids.C43_negation: propext, Classical.choice, Quot.sound
KMedoids.C43_pammedsil_one_medoid: propext, Classical.choice, Quot.sound
KMedoids.C44_rand_fasterpam: propext, Classical.choice, Quot.sound
KMedoids.C44_fasterpam: propext, Classical.choice, Quot.sound
KMedoids.C44_par_fasterpam: propext, Classical.choice, Quot.sound
KMedoids.C44_pam_swap: propext, Classical.choice, Quot.sound
KMedoids.C44_fastpam1: propext, Classical.choice, Quot.sound
KMedoids.C44_pam_build: propext, Classical.choice, Quot.sound
KMedoids.C44_pam: propext, Classical.choice, Quot.sound
KMedoids.C44_alternating: propext, Quot.sound
KMedoids.C44_silhouette: propext, Classical.choice, Quot.sound
KMedoids.C44_medoid_silhouette: propext, Quot.sound
KMedoids.C44_fastermsc: propext, Classical.choice, Quot.sound
KMedoids.C44_fastmsc: propext, Classical.choice, Quot.sound
KMedoids.C44_pammedsil_swap: propext, Classical.choice, Quot.sound
KMedoids.C44_pammedsil: propext, Classical.choice, Quot.sound
KMedoids.C44_pamsil_swap: propext, Classical.choice, Quot.sound
KMedoids.C44_pamsil: propext, Classical.choice, Quot.sound
KMedoids.C44_dynmsc: propext, Classical.choice, Quot.sound
KMedoids.C44_adapters: propext, Classical.choice, Quot.sound
KMedoids.C45_fasterpam: propext, Quot.sound
KMedoids.C45_rand_fasterpam: propext, Quot.sound
KMedoids.C45_par_fasterpam: propext, Quot.sound
KMedoids.C45_fastpam1: propext, Quot.sound
KMedoids.C45_pam_swap: propext, Quot.sound
KMedoids.C45_pam: propext, Quot.sound
KMedoids.C45_pam_build: propext, Quot.sound
KMedoids.C45_alternating: propext, Quot.sound
KMedoids.C45_embedding: propext, Classical.choice, Quot.sound
KMedoids.C45_scale: propext, Classical.choice, Quot.sound
KMedoids.C45_scale_int: propext, Classical.choice, Quot.sound
KMedoids.C45_int_rat: propext, Classical.choice, Quot.sound
KMedoids.C46_fasterpam: propext, Classical.choice, Quot.sound
KMedoids.C46_rand_fasterpam: propext, Classical.choice, Quot.sound
KMedoids.C46_par_fasterpam: propext, Classical.choice, Quot.sound
KMedoids.C46_fastpam1: propext, Classical.choice, Quot.sound
KMedoids.C46_pam_swap: propext, Classical.choice, Quot.sound
KMedoids.C46_pam: propext, Classical.choice, Quot.sound
KMedoids.C46_pam_build: propext, Classical.choice, Quot.sound
KMedoids.C46_alternating: propext, Classical.choice, Quot.sound
KMedoids.C46_wrapping: propext, Quot.sound
KMedoids.C46_checked: propext, Quot.sound
KMedoids.C46_u32_i64: propext, Classical.choice, Quot.sound
KMedoids.C46_u32_i64_checked: propext, Classical.choice, Quot.sound
KMedoids.C46_bound_needed: propext
KMedoids.C47_dynmsc: propext, Classical.choice, Quot.sound
KMedoids.C47_dynmsc_single: propext, Quot.sound
KMedoids.C48_dynmsc_eq: propext, Classical.choice, Quot.sound
KMedoids.C48_dynmsc_ge: propext, Classical.choice, Quot.sound
KMedoids.C49_pamsil_partial: propext, Classical.choice, Quot.sound
KMedoids.C49_negation: propext, Classical.choice, Quot.sound
KMedoids.C50_pamsil_build: propext, Classical.choice, Quot.sound
KMedoids.C51_pammedsil: propext, Classical.choice, Quot.sound
KMedoids.C51_pammedsil_count: propext, Classical.choice, Quot.sound
KMedoids.C52_no_panic: propext, Classical.choice, Quot.sound
KMedoids.C52_counters: propext, Classical.choice, Quot.sound
KMedoids.C52_nearest: propext, Classical.choice, Quot.sound
KMedoids.C52_exact: propext, Classical.choice, Quot.sound
KMedoids.C53_check: propext, Classical.choice, Quot.sound
KMedoids.C53_check_th: propext, Classical.choice, Quot.sound
KMedoids.C53_rand_fasterpam: propext, Classical.choice, Quot.sound
KMedoids.C53_fasterpam: propext, Classical.choice, Quot.sound
KMedoids.C53_par_fasterpam: propext, Classical.choice, Quot.sound
KMedoids.C53_fastpam1: propext, Classical.choice, Quot.sound
KMedoids.C53_pam_swap: propext, Classical.choice, Quot.sound
KMedoids.C53_pam: propext, Classical.choice, Quot.sound
KMedoids.C53_fastermsc: propext, Classical.choice, Quot.sound
KMedoids.C53_fastmsc: propext, Classical.choice, Quot.sound
KMedoids.C53_pammedsil_swap_partial: propext, Classical.choice, Quot.sound
KMedoids.C53_pammedsil_swap_panics: propext, Classical.choice, Quot.sound
KMedoids.C53_pammedsil_partial: propext, Classical.choice, Quot.sound
KMedoids.C53_pammedsil_panics: propext, Classical.choice, Quot.sound
KMedoids.C53_dynmsc_partial: propext, Classical.choice, Quot.sound
KMedoids.C53_dynmsc_panics: propext, Classical.choice, Quot.sound
KMedoids.C53_pammedsil_swap_false: propext, Classical.choice, Quot.sound
KMedoids.C53_pammedsil_false: propext, Classical.choice, Quot.sound
KMedoids.C53_diagonal_needed: propext
KMedoids.C54_msc_chain: propext, Classical.choice, Quot.sound
KMedoids.C54_msc_converges: propext, Classical.choice, Quot.sound
KMedoids.C54_msc_from_optimum: propext, Classical.choice, Quot.sound
KMedoids.C54_msc_twice: propext, Classical.choice, Quot.sound
KMedoids.C54_pammedsil: propext, Classical.choice, Quot.sound
KMedoids.C55_alternating: propext, Classical.choice, Quot.sound
KMedoids.C55_alternating_twice: propext, Classical.choice, Quot.sound
KMedoids.C55_needs_symmetry: propext, Quot.sound
KMedoids.C56_pamsil_swap: propext, Classical.choice, Quot.sound
KMedoids.C56_pamsil: propext, Classical.choice, Quot.sound
KMedoids.C57_silhouette: propext, Quot.sound
KMedoids.C57_par_silhouette: propext, Quot.sound
KMedoids.C57_medoid_silhouette: propext, Quot.sound
KMedoids.C57_fastermsc: propext, Quot.sound
KMedoids.C57_fastmsc: propext, Quot.sound
KMedoids.C57_pammedsil_swap: propext, Quot.sound
KMedoids.C57_dynmsc: propext, Quot.sound
KMedoids.C57_pamsil_swap: propext, Quot.sound
KMedoids.C57_pamsil: propext, Classical.choice, Quot.sound
KMedoids.C57_pammedsil: propext, Classical.choice, Quot.sound
KMedoids.C57_scale: propext, Classical.choice, Quot.sound
KMedoids.C57_nat_rat: propext, Classical.choice, Quot.sound
KMedoids.C57_scale_rat: propext, Classical.choice, Quot.sound
KMedoids.C58_rand_fasterpam: propext, Classical.choice, Quot.sound
KMedoids.C58_fasterpam: propext, Classical.choice, Quot.sound
KMedoids.C58_fasterpam_recompute: propext, Classical.choice, Quot.sound
KMedoids.C58_alternating: propext, Classical.choice, Quot.sound
KMedoids.C58_par_fasterpam: propext, Classical.choice, Quot.sound
KMedoids.C58_pam_swap_partial: propext, Classical.choice, Quot.sound
KMedoids.C58_fastpam1_partial: propext, Classical.choice, Quot.sound
KMedoids.C58_pam_swap_single: propext, Classical.choice, Quot.sound
KMedoids.C58_negation: propext, Classical.choice, Quot.sound
KMedoids.C59_fastermsc_nearest: propext, Classical.choice, Quot.sound
KMedoids.C59_fastermsc: propext, Classical.choice, Quot.sound
KMedoids.C59_fastermsc_own: propext, Classical.choice, Quot.sound
KMedoids.C59_fastermsc_distinct: propext, Classical.choice, Quot.sound
KMedoids.C59_fastmsc_nearest: propext, Classical.choice, Quot.sound
KMedoids.C59_fastmsc_partial: propext, Classical.choice, Quot.sound
KMedoids.C59_fastmsc_own: propext, Classical.choice, Quot.sound
KMedoids.C59_fastmsc_distinct: propext, Classical.choice, Quot.sound
KMedoids.C59_fastmsc_two: propext, Classical.choice, Quot.sound
KMedoids.C59_pammedsil_swap_nearest: propext, Classical.choice, Quot.sound
KMedoids.C59_pammedsil_swap_partial: propext, Classical.choice, Quot.sound
KMedoids.C59_negation: propext, Classical.choice, Quot.sound
KMedoids.C59_negation_pammedsil_swap: propext, Classical.choice, Quot.sound
KMedoids.C60_fasterpam: propext, Classical.choice, Quot.sound
KMedoids.C60_rand_fasterpam: propext, Classical.choice, Quot.sound
KMedoids.C60_par_fasterpam: propext, Classical.choice, Quot.sound
KMedoids.C60_fastpam1: propext, Classical.choice, Quot.sound
KMedoids.C60_pam_swap: propext, Classical.choice, Quot.sound
KMedoids.C60_pam: propext, Classical.choice, Quot.sound
KMedoids.C60_alternating: propext, Classical.choice, Quot.sound
KMedoids.C60_fastermsc: propext, Classical.choice, Quot.sound
KMedoids.C60_fastmsc: propext, Classical.choice, Quot.sound
KMedoids.C60_pammedsil_swap: propext, Classical.choice, Quot.sound
KMedoids.C60_pammedsil: propext, Classical.choice, Quot.sound
KMedoids.C60_pamsil_swap_stop: propext, Classical.choice, Quot.sound
KMedoids.C60_pamsil_stop: propext, Classical.choice, Quot.sound
KMedoids.C60_pamsil_swap: propext, Classical.choice, Quot.sound
KMedoids.C60_pamsil: propext, Classical.choice, Quot.sound
KMedoids.C60_rand_fasterpam_longer: propext, Classical.choice, Quot.sound
KMedoids.C60_fasterpam_longer: propext, Classical.choice, Quot.sound
KMedoids.C60_par_fasterpam_longer: propext, Classical.choice, Quot.sound
KMedoids.C60_fastpam1_longer: propext, Classical.choice, Quot.sound
KMedoids.C60_pam_swap_longer: propext, Classical.choice, Quot.sound
KMedoids.C60_pam_longer: propext, Classical.choice, Quot.sound
KMedoids.C60_loss: propext, Classical.choice, Quot.sound
KMedoids.C60_alternating_longer: propext, Classical.choice, Quot.sound
KMedoids.C60_msc_longer: propext, Classical.choice, Quot.sound
KMedoids.C60_pamsil_swap_longer: propext, Classical.choice, Quot.sound
KMedoids.C60_pamsil_longer: propext, Classical.choice, Quot.sound
KMedoids.C60_longer_needs_exact: propext, Classical.choice, Quot.sound
KMedoids.C61_medoid_silhouette_order: propext, Classical.choice, Quot.sound
KMedoids.C61_rand_fasterpam_order: propext, Classical.choice, Quot.sound
KMedoids.C61_fasterpam_order: propext, Classical.choice, Quot.sound
KMedoids.C61_alternating_order: propext, Classical.choice, Quot.sound
KMedoids.C61_totalDev: propext, Classical.choice, Quot.sound
KMedoids.C61_swapOptimal: propext, Classical.choice, Quot.sound
KMedoids.C61_loss: propext, Classical.choice, Quot.sound
KMedoids.C61_silhouette: propext, Classical.choice, Quot.sound
KMedoids.C61_par_silhouette: propext, Classical.choice, Quot.sound
KMedoids.C61_medoid_silhouette: propext, Classical.choice, Quot.sound
KMedoids.C61_msc: propext, Classical.choice, Quot.sound
KMedoids.C61_objects_need_exact: propext, Classical.choice, Quot.sound
KMedoids.C62_swapOptimal_cluster: propext, Classical.choice, Quot.sound
KMedoids.C62_alternating: propext, Classical.choice, Quot.sound
KMedoids.C62_pam_family: propext, Classical.choice, Quot.sound
KMedoids.C62_pam_then_alternating: propext, Classical.choice, Quot.sound
KMedoids.C62_alternating_then_pam: propext, Classical.choice, Quot.sound
KMedoids.C62_converse_fails: propext, Quot.sound
KMedoids.C62_needs_symmetry: propext
KMedoids.C63_swapOptimal: propext, Classical.choice, Quot.sound
KMedoids.C63_pam_family: propext, Classical.choice, Quot.sound
KMedoids.C63_pam_build: propext, Classical.choice, Quot.sound
KMedoids.C63_pam: propext, Classical.choice, Quot.sound
KMedoids.C63_all_objects: propext, Classical.choice, Quot.sound
KMedoids.C63_alternating_fails: propext, Quot.sound
KMedoids.C63_msc_fails: propext, Classical.choice, Quot.sound
KMedoids.C64_swapOptimal: propext, Classical.choice, Quot.sound
KMedoids.C64_pam_family: propext, Classical.choice, Quot.sound
KMedoids.C64_par_fasterpam: propext, Classical.choice, Quot.sound
KMedoids.C64_pam: propext, Classical.choice, Quot.sound
KMedoids.C64_alternating_fails: propext, Classical.choice, Quot.sound
KMedoids.C64_needs_triangle: propext
KMedoids.C64_not_optimal: propext, Classical.choice, Quot.sound
KMedoids.C65_pam_build_prefix: propext, Classical.choice, Quot.sound
KMedoids.C65_pamsil_build_prefix: propext, Quot.sound
KMedoids.C65_pammedsil_build_prefix: propext, Classical.choice, Quot.sound
KMedoids.C65_pam_build_antitone: propext, Classical.choice, Quot.sound
KMedoids.C65_pam_le_build: propext, Classical.choice, Quot.sound
KMedoids.C65_pam_metric: propext, Classical.choice, Quot.sound
KMedoids.C65_pam_not_antitone: propext
KMedoids.C66_rand_fasterpam: propext, Classical.choice, Quot.sound
KMedoids.C66_fasterpam: propext, Classical.choice, Quot.sound
KMedoids.C66_par_fasterpam: propext, Classical.choice, Quot.sound
KMedoids.C66_alternating: propext, Classical.choice, Quot.sound
KMedoids.C67_rand_fasterpam: propext, Classical.choice, Quot.sound
KMedoids.C67_fasterpam: propext, Classical.choice, Quot.sound
KMedoids.C67_pam_swap: propext, Classical.choice, Quot.sound
KMedoids.C67_fastpam1: propext, Classical.choice, Quot.sound
KMedoids.C67_not_exact: propext, Classical.choice, Quot.sound
KMedoids.C67_early_stop: propext, Classical.choice, Quot.sound
KMedoids.C67_early_stop_pam: propext, Classical.choice, Quot.sound
KMedoids.C68_fasterpam: propext, Classical.choice, Quot.sound
KMedoids.C68_rand_fasterpam: propext, Classical.choice, Quot.sound
KMedoids.C68_par_fasterpam: propext, Classical.choice, Quot.sound
KMedoids.C68_fastpam1: propext, Classical.choice, Quot.sound
KMedoids.C68_pam_swap: propext, Classical.choice, Quot.sound
KMedoids.C68_pam: propext, Classical.choice, Quot.sound
KMedoids.C68_pam_build: propext, Classical.choice, Quot.sound
KMedoids.C68_alternating: propext, Classical.choice, Quot.sound
KMedoids.C68_u32_f64: propext, Classical.choice, Quot.sound
KMedoids.C68_rand_fasterpam_exact: propext, Classical.choice, Quot.sound
KMedoids.C68_fasterpam_exact: propext, Classical.choice, Quot.sound
KMedoids.C68_pam_swap_exact: propext, Classical.choice, Quot.sound
KMedoids.C68_fastpam1_exact: propext, Classical.choice, Quot.sound
KMedoids.C68_par_deterministic: propext, Classical.choice, Quot.sound
KMedoids.C68_pam_exact: propext, Classical.choice, Quot.sound
KMedoids.C68_bound_needed: propext, Classical.choice, Quot.sound
KMedoids.C68_par_race: propext, Classical.choice, Quot.sound
KMedoids.C69_rand_fasterpam: propext, Classical.choice, Quot.sound
KMedoids.C69_fasterpam: propext, Classical.choice, Quot.sound
KMedoids.C69_pam_swap: propext, Classical.choice, Quot.sound
KMedoids.C69_fastpam1: propext, Classical.choice, Quot.sound
KMedoids.C69_not_exact: propext, Classical.choice, Quot.sound
KMedoids.C70_single: propext, Classical.choice, Quot.sound
KMedoids.C70_nearlyOptimal: propext, Classical.choice, Quot.sound
KMedoids.C70_rand_fasterpam: propext, Classical.choice, Quot.sound
KMedoids.C70_fasterpam: propext, Classical.choice, Quot.sound
KMedoids.C70_fastpam1: propext, Classical.choice, Quot.sound
KMedoids.C70_pam_swap: propext, Classical.choice, Quot.sound
KMedoids.C71_pam_build_valid: propext, Classical.choice, Quot.sound
KMedoids.C71_pam_valid: propext, Classical.choice, Quot.sound
KMedoids.C71_pam_eq: propext, Classical.choice, Quot.sound
KMedoids.C71_pam_build: propext, Classical.choice, Quot.sound
KMedoids.C71_pam: propext, Classical.choice, Quot.sound
KMedoids.C71_pam_not_exact: propext, Classical.choice, Quot.sound
KMedoids.C71_not_greedy: propext, Classical.choice, Quot.sound
KMedoids.C72_rand_fasterpam: propext, Classical.choice, Quot.sound
KMedoids.C72_fasterpam: propext, Classical.choice, Quot.sound
KMedoids.C72_par_fasterpam: propext, Classical.choice, Quot.sound
KMedoids.C72_pam_swap: propext, Classical.choice, Quot.sound
KMedoids.C72_fastpam1: propext, Classical.choice, Quot.sound
KMedoids.C72_pam: propext, Classical.choice, Quot.sound
KMedoids.C72_fastermsc: propext, Classical.choice, Quot.sound
KMedoids.C72_fastmsc: propext, Classical.choice, Quot.sound
KMedoids.C72_pammedsil_swap: propext, Classical.choice, Quot.sound
KMedoids.C72_pamsil_swap: propext, Classical.choice, Quot.sound
KMedoids.C72_pamsil: propext, Classical.choice, Quot.sound
KMedoids.C72_ieee: propext, Classical.choice, Quot.sound
KMedoids.C72_alternating: propext, Classical.choice, Quot.sound
KMedoids.C73_nearlyOptimal: propext, Classical.choice, Quot.sound
KMedoids.C73_metric: propext, Classical.choice, Quot.sound
KMedoids.C73_not_worse: propext, Classical.choice, Quot.sound
KMedoids.C73_not_exact: propext, Classical.choice, Quot.sound
KMedoids.C74_nearlyOptimal: propext, Classical.choice, Quot.sound
KMedoids.C74_not_worse: propext, Classical.choice, Quot.sound
KMedoids.C74_not_exact: propext, Classical.choice, Quot.sound
KMedoids.C75_rand_fasterpam: propext, Classical.choice, Quot.sound
KMedoids.C75_fasterpam: propext, Classical.choice, Quot.sound
KMedoids.C75_par_fasterpam: propext, Classical.choice, Quot.sound
KMedoids.C75_alternating: propext, Classical.choice, Quot.sound
KMedoids.C75_rand_fasterpam_not_worse: propext, Classical.choice, Quot.sound
KMedoids.C75_par_fasterpam_not_worse: propext, Classical.choice, Quot.sound
KMedoids.C75_metric: propext, Classical.choice, Quot.sound
KMedoids.C75_f64_overflow: propext, Classical.choice, Quot.sound
KMedoids.C76_silhouette: propext, Classical.choice, Quot.sound
KMedoids.C76_par_silhouette: propext, Classical.choice, Quot.sound
KMedoids.C76_u32: propext, Classical.choice, Quot.sound
KMedoids.C76_f32: propext, Classical.choice, Quot.sound
KMedoids.C76_underflow: propext, Classical.choice, Quot.sound
KMedoids.C77_pamsil_swap: propext, Classical.choice, Quot.sound
KMedoids.C77_textbook: propext, Classical.choice, Quot.sound
KMedoids.C77_pamsil: propext, Classical.choice, Quot.sound
KMedoids.C77_pamsil_swap_f64: propext, Classical.choice, Quot.sound
KMedoids.C77_pamsil_f64: propext, Classical.choice, Quot.sound
KMedoids.C77_not_exact: propext, Classical.choice, Quot.sound
KMedoids.C78_medoid_silhouette: propext, Classical.choice, Quot.sound
KMedoids.C78_fastermsc: propext, Classical.choice, Quot.sound
KMedoids.C78_medoid_silhouette_f64: propext, Classical.choice, Quot.sound
KMedoids.C78_fastermsc_f64: propext, Classical.choice, Quot.sound
KMedoids.C79_silhouette: propext, Classical.choice, Quot.sound
KMedoids.C79_par_silhouette: propext, Classical.choice, Quot.sound
KMedoids.C79_pamsil_swap: propext, Classical.choice, Quot.sound
KMedoids.C79_medoid_silhouette: propext, Classical.choice, Quot.sound
KMedoids.C79_fastermsc: propext, Classical.choice, Quot.sound
KMedoids.C79_fastmsc: propext, Classical.choice, Quot.sound
KMedoids.C79_pammedsil_swap: propext, Classical.choice, Quot.sound
KMedoids.C80_fastermsc: propext, Classical.choice, Quot.sound
KMedoids.C80_fastmsc: propext, Classical.choice, Quot.sound
KMedoids.C80_pammedsil_swap: propext, Classical.choice, Quot.sound
KMedoids.C80_fastermsc_f64: propext, Classical.choice, Quot.sound
KMedoids.C80_fastmsc_f64: propext, Classical.choice, Quot.sound
KMedoids.C80_pammedsil_swap_f64: propext, Classical.choice, Quot.sound
KMedoids.C81_fastermsc: propext, Classical.choice, Quot.sound
KMedoids.C81_fastmsc: propext, Classical.choice, Quot.sound
KMedoids.C81_pammedsil_swap: propext, Classical.choice, Quot.sound
KMedoids.C81_fastermsc_f64: propext, Classical.choice, Quot.sound
KMedoids.C81_fastmsc_f64: propext, Classical.choice, Quot.sound
KMedoids.C81_pammedsil_swap_f64: propext, Classical.choice, Quot.sound
KMedoids.C82_pam_swap: propext, Classical.choice, Quot.sound
KMedoids.C82_fastpam1: propext, Classical.choice, Quot.sound
KMedoids.C82_pam: propext, Classical.choice, Quot.sound
KMedoids.C82_single: propext, Classical.choice, Quot.sound
KMedoids.C82_pam_swap_f64: propext, Classical.choice, Quot.sound
KMedoids.C82_fastpam1_f64: propext, Classical.choice, Quot.sound
KMedoids.C82_not_recomputed: propext, Classical.choice, Quot.sound
KMedoids.C83_dynmsc_any: propext, Classical.choice, Quot.sound
KMedoids.C83_dynmsc_eq_any: propext, Classical.choice, Quot.sound
KMedoids.C83_silhouette_pos: propext, Classical.choice, Quot.sound
KMedoids.C83_fastermsc: propext, Classical.choice, Quot.sound
KMedoids.C83_dynmsc: propext, Classical.choice, Quot.sound
KMedoids.C83_dynmsc_f32: propext, Classical.choice, Quot.sound
KMedoids.C83_dynmsc_f64: propext, Classical.choice, Quot.sound
KMedoids.C84_storage_array2: propext, Quot.sound
KMedoids.C84_storage_lower: propext, Classical.choice, Quot.sound
KMedoids.C84_rand_fasterpam: propext, Classical.choice, Quot.sound
KMedoids.C84_fasterpam: propext, Classical.choice, Quot.sound
KMedoids.C84_par_fasterpam: propext, Classical.choice, Quot.sound
KMedoids.C84_fastpam1: propext, Classical.choice, Quot.sound
KMedoids.C84_pam_swap: propext, Classical.choice, Quot.sound
KMedoids.C84_alternating: propext, Classical.choice, Quot.sound
KMedoids.C84_pam_build: propext, Classical.choice, Quot.sound
KMedoids.C84_pam: propext, Classical.choice, Quot.sound
KMedoids.C84_fastermsc: propext, Classical.choice, Quot.sound
KMedoids.C84_fastmsc: propext, Classical.choice, Quot.sound
KMedoids.C84_fastermsc_two: propext, Classical.choice, Quot.sound
KMedoids.C84_fastermsc_two_valid: propext, Classical.choice, Quot.sound
KMedoids.C84_fastmsc_two: propext, Quot.sound
KMedoids.C84_fastmsc_two_valid: propext, Classical.choice, Quot.sound
KMedoids.C84_pammedsil_swap: propext, Classical.choice, Quot.sound
KMedoids.C84_pammedsil: propext, Classical.choice, Quot.sound
KMedoids.C84_dynmsc: propext, Classical.choice, Quot.sound
KMedoids.C84_pamsil_swap: propext, Classical.choice, Quot.sound
KMedoids.C84_pamsil: propext, Quot.sound
KMedoids.C84_single: propext, Quot.sound
KMedoids.C84_single_array2: propext, Quot.sound
KMedoids.C84_single_lower: propext, Classical.choice, Quot.sound
KMedoids.C84_single_square: propext, Quot.sound
KMedoids.C84_single_functions: propext, Quot.sound
KMedoids.C84_fastermsc_negation: propext, Classical.choice, Quot.sound
KMedoids.C84_single_outside: propext
KMedoids.C85_same: propext, Quot.sound
KMedoids.C85_find_best_swap: propext, Quot.sound
KMedoids.C85_find_best_swap_pam: propext, Quot.sound
KMedoids.C85_do_swap: propext, Quot.sound
KMedoids.C85_rand_fasterpam: propext, Classical.choice, Quot.sound
KMedoids.C85_fasterpam: propext, Classical.choice, Quot.sound
KMedoids.C85_fastpam1: propext, Classical.choice, Quot.sound
KMedoids.C85_pam_swap: propext, Classical.choice, Quot.sound
KMedoids.C85_pam_build: propext, Classical.choice, Quot.sound
KMedoids.C85_pam: propext, Classical.choice, Quot.sound
KMedoids.C85_alternating: propext, Classical.choice, Quot.sound
KMedoids.C85_single: propext, Classical.choice, Quot.sound
KMedoids.C85_speedup_reads: propext, Classical.choice, Quot.sound
KMedoids.C85_speedup: propext, Classical.choice, Quot.sound
KMedoids.C86_pam_swap_descent: propext, Classical.choice, Quot.sound
KMedoids.C86_fastpam1_descent: propext, Classical.choice, Quot.sound
KMedoids.C86_pam_swap_order: propext, Classical.choice, Quot.sound
KMedoids.C86_fastpam1_order: propext, Classical.choice, Quot.sound
KMedoids.C86_medoid_order: propext, Classical.choice, Quot.sound
KMedoids.C86_pam_build_strict: propext, Classical.choice, Quot.sound
KMedoids.C86_pam_build_order: propext, Classical.choice, Quot.sound
KMedoids.C86_pam_order: propext, Classical.choice, Quot.sound
KMedoids.C86_fasterpam_order_negation: propext, Quot.sound
KMedoids.C86_ties_negation: propext
KMedoids.C87_pammedsil_swap_ascent: propext, Classical.choice, Quot.sound
KMedoids.C87_fastmsc_ascent: propext, Classical.choice, Quot.sound
KMedoids.C87_pammedsil_swap_order: propext, Classical.choice, Quot.sound
KMedoids.C87_fastmsc_order: propext, Classical.choice, Quot.sound
KMedoids.C87_medoid_order: propext, Classical.choice, Quot.sound
KMedoids.C87_fastermsc_order_negation: propext, Classical.choice, Quot.sound
KMedoids.C87_ties_negation: propext, Classical.choice, Quot.sound
KMedoids.C87_pammedsil_order_negation: propext, Classical.choice, Quot.sound
KMedoids.C88_same: propext, Quot.sound
KMedoids.C88_find_best_swap: propext, Quot.sound
KMedoids.C88_find_best_swap_pammedsil: propext, Quot.sound
KMedoids.C88_fastermsc: propext, Classical.choice, Quot.sound
KMedoids.C88_fastmsc: propext, Classical.choice, Quot.sound
KMedoids.C88_pammedsil_swap: propext, Classical.choice, Quot.sound
KMedoids.C88_pammedsil: propext, Classical.choice, Quot.sound
KMedoids.C88_dynmsc: propext, Classical.choice, Quot.sound
KMedoids.C88_single: propext, Classical.choice, Quot.sound
KMedoids.C88_silhouette: propext, Classical.choice, Quot.sound
KMedoids.C88_silhouette_reads: propext, Classical.choice, Quot.sound
KMedoids.C88_medoid_silhouette: propext, Classical.choice, Quot.sound
KMedoids.C88_medoid_silhouette_reads: propext, Classical.choice, Quot.sound
KMedoids.C88_pamsil_swap: propext, Classical.choice, Quot.sound
KMedoids.C88_pamsil: propext, Classical.choice, Quot.sound
KMedoids.C88_speedup_reads: propext, Classical.choice, Quot.sound
KMedoids.C88_speedup: propext, Classical.choice, Quot.sound
KMedoids.C89_rand_fasterpam: propext, Classical.choice, Quot.sound
KMedoids.C89_fasterpam: propext, Classical.choice, Quot.sound
KMedoids.C89_par_fasterpam: propext, Classical.choice, Quot.sound
KMedoids.C89_renumber: propext, Classical.choice, Quot.sound
KMedoids.C89_resume: propext, Classical.choice, Quot.sound
KMedoids.C89_shuffle: propext, Classical.choice, Quot.sound
KMedoids.C89_fastermsc: propext, Classical.choice, Quot.sound
KMedoids.C89_fastermsc_resume: propext, Classical.choice, Quot.sound
KMedoids.C89_resume_labels_negation: propext
KMedoids.C90_pam_swap: propext, Classical.choice, Quot.sound
KMedoids.C90_fastpam1: propext, Classical.choice, Quot.sound
KMedoids.C90_pam_build: propext, Classical.choice, Quot.sound
KMedoids.C90_pam: propext, Classical.choice, Quot.sound
KMedoids.C90_pam_swap_resume: propext, Classical.choice, Quot.sound
KMedoids.C90_fastpam1_resume: propext, Classical.choice, Quot.sound
KMedoids.C90_pammedsil_swap: propext, Classical.choice, Quot.sound
KMedoids.C90_fastmsc: propext, Classical.choice, Quot.sound
KMedoids.C90_pammedsil_build: propext, Classical.choice, Quot.sound
KMedoids.C90_pammedsil: propext, Classical.choice, Quot.sound
KMedoids.C90_pammedsil_swap_resume: propext, Classical.choice, Quot.sound
KMedoids.C90_fastmsc_resume: propext, Classical.choice, Quot.sound
KMedoids.C90_resume_labels_negation: propext
KMedoids.C91_alternating: propext, Classical.choice, Quot.sound
KMedoids.C91_resume: propext, Classical.choice, Quot.sound
KMedoids.C91_order: propext, Classical.choice, Quot.sound
KMedoids.C91_order_negation: propext, Classical.choice, Quot.sound
KMedoids.C92_dynmsc: propext, Classical.choice, Quot.sound
KMedoids.C92_negation: propext, Classical.choice, Quot.sound
KMedoids.C93_pamsil_swap: propext, Classical.choice, Quot.sound
KMedoids.C93_pamsil_swap_zero: propext, Classical.choice, Quot.sound
KMedoids.C93_pamsil: propext, Classical.choice, Quot.sound
KMedoids.C93_distinct: propext, Classical.choice, Quot.sound
KMedoids.C94_pam_swap: propext, Classical.choice, Quot.sound
KMedoids.C94_fastpam1: propext, Classical.choice, Quot.sound
KMedoids.C94_pam: propext, Classical.choice, Quot.sound
KMedoids.C94_integers: propext, Classical.choice, Quot.sound
KMedoids.C94_fastpam1_polynomial: propext, Classical.choice, Quot.sound
KMedoids.C95_pam_build: propext, Classical.choice, Quot.sound
KMedoids.C95_pam: propext, Classical.choice, Quot.sound
KMedoids.C95_pammedsil_build: propext, Classical.choice, Quot.sound
KMedoids.C95_more_medoids: propext, Classical.choice, Quot.sound
KMedoids.C96_swaps: propext, Classical.choice, Quot.sound
KMedoids.C96_par_fasterpam: propext, Classical.choice, Quot.sound
KMedoids.C96_alternating: propext, Classical.choice, Quot.sound
KMedoids.C96_integers: propext, Classical.choice, Quot.sound
KMedoids.C96_fasterpam_work: propext, Classical.choice, Quot.sound
KMedoids.C97_build: propext, Classical.choice, Quot.sound
KMedoids.C97_runs: propext, Classical.choice, Quot.sound
KMedoids.C97_factor: propext, Classical.choice, Quot.sound
KMedoids.C98_alternating: propext, Classical.choice, Quot.sound
KMedoids.C98_rand_fasterpam: propext, Classical.choice, Quot.sound
KMedoids.C98_fasterpam: propext, Classical.choice, Quot.sound
KMedoids.C98_par_fasterpam: propext, Classical.choice, Quot.sound
KMedoids.C98_pam_swap: propext, Classical.choice, Quot.sound
KMedoids.C98_fastpam1: propext, Classical.choice, Quot.sound
KMedoids.C98_pam_build: propext, Classical.choice, Quot.sound
KMedoids.C98_pam: propext, Classical.choice, Quot.sound
KMedoids.C99_shortest_paths: propext, Classical.choice, Quot.sound
KMedoids.C99_metric_unchanged: propext, Classical.choice, Quot.sound
KMedoids.C99_metric: propext, Classical.choice, Quot.sound
KMedoids.C99_fasterpam: propext, Classical.choice, Quot.sound
KMedoids.C99_i32: propext, Classical.choice, Quot.sound
KMedoids.C99_i32_sharp: propext, Classical.choice, Quot.sound
KMedoids.C100_read: propext, Classical.choice, Quot.sound
KMedoids.C100_graph: propext, Classical.choice, Quot.sound
KMedoids.C100_main: propext, Classical.choice, Quot.sound
KMedoids.C100_bad_line: propext, Classical.choice, Quot.sound
KMedoids.C100_blank_line: propext, Classical.choice, Quot.sound
KMedoids.C100_i32_max: propext, Classical.choice, Quot.sound
KMedoids.C100_main_i32_max: propext, Classical.choice, Quot.sound
KMedoids.C100_remedy: propext, Classical.choice, Quot.sound
KMedoids.C101_symmetric: propext, Classical.choice, Quot.sound
KMedoids.C101_files: propext, Classical.choice, Quot.sound
KMedoids.C101_wrong_size: propext, Quot.sound
KMedoids.C101_short: propext, Quot.sound
KMedoids.C101_euclidean: propext, Classical.choice, Quot.sound
KMedoids.C101_main: propext, Classical.choice, Quot.sound
KMedoids.C101_f64_sum: propext, Classical.choice, Quot.sound
KMedoids.C101_f64: propext, Classical.choice, Quot.sound
KMedoids.C102_rand_fasterpam_loss: propext, Classical.choice, Quot.sound
KMedoids.C102_rand_fasterpam: propext, Classical.choice, Quot.sound
KMedoids.C102_pam: propext, Classical.choice, Quot.sound
KMedoids.C102_mnist: propext, Classical.choice, Quot.sound
KMedoids.C102_mnist_60000: propext, Classical.choice, Quot.sound
KMedoids.C103_runs: propext, Classical.choice, Quot.sound
KMedoids.C103_factor: propext, Classical.choice, Quot.sound
KMedoids.C104_ends: propext, Classical.choice, Quot.sound
KMedoids.C104_outcome: propext, Classical.choice, Quot.sound
KMedoids.C104_poisoned: propext, Quot.sound
KMedoids.C104_visible: propext, Quot.sound
KMedoids.C104_par_find_best_swap: propext, Classical.choice, Quot.sound
KMedoids.C104_checked: propext, Classical.choice, Quot.sound
KMedoids.C104_step_total: propext
KMedoids.C105_rand_fasterpam: propext, Classical.choice, Quot.sound
KMedoids.C105_fasterpam: propext, Classical.choice, Quot.sound
KMedoids.C105_par_fasterpam: propext, Classical.choice, Quot.sound
KMedoids.C105_pam_swap: propext, Classical.choice, Quot.sound
KMedoids.C105_fastpam1: propext, Classical.choice, Quot.sound
KMedoids.C105_alternating: propext, Classical.choice, Quot.sound
KMedoids.C105_distinct: propext, Classical.choice, Quot.sound
KMedoids.C105_f64_fasterpam: propext, Classical.choice, Quot.sound
KMedoids.C105_not_nearest_defined: propext, Classical.choice, Quot.sound
KMedoids.C105_nan_runs_on: propext, Classical.choice, Quot.sound
KMedoids.C106_value_any: propext, Classical.choice, Quot.sound
KMedoids.C106_value: propext, Classical.choice, Quot.sound
KMedoids.C106_labels_partial: propext, Classical.choice, Quot.sound
KMedoids.C106_negation: propext, Classical.choice, Quot.sound
KMedoids.C107_fastermsc: propext, Classical.choice, Quot.sound
KMedoids.C107_fastmsc: propext, Classical.choice, Quot.sound
KMedoids.C107_pammedsil_swap: propext, Classical.choice, Quot.sound
KMedoids.C107_fastermsc_two: propext, Classical.choice, Quot.sound
KMedoids.C107_fastmsc_two: propext, Classical.choice, Quot.sound
KMedoids.C107_distinct: propext, Classical.choice, Quot.sound
KMedoids.C107_f64: propext, Classical.choice, Quot.sound
KMedoids.C107_own_two_negation: propext, Classical.choice, Quot.sound
KMedoids.C108_pam_build: propext, Classical.choice, Quot.sound
KMedoids.C108_pam: propext, Classical.choice, Quot.sound
KMedoids.C108_pammedsil: propext, Classical.choice, Quot.sound
KMedoids.C108_pamsil_labels: propext, Classical.choice, Quot.sound
KMedoids.C108_f64_distinct: propext, Classical.choice, Quot.sound
KMedoids.C108_pamsil_build: propext, Classical.choice, Quot.sound
KMedoids.C108_nan_diagonal: propext, Classical.choice, Quot.sound
KMedoids.C109_silhouette: propext, Classical.choice, Quot.sound
KMedoids.C109_par_silhouette: propext, Classical.choice, Quot.sound
KMedoids.C109_medoid_silhouette: propext, Classical.choice, Quot.sound
KMedoids.C109_i64_constant: propext, Classical.choice, Quot.sound
KMedoids.C110_build_valid: propext, Classical.choice, Quot.sound
KMedoids.C110_pammedsil_eq: propext, Classical.choice, Quot.sound
KMedoids.C110_pammedsil_valid: propext, Classical.choice, Quot.sound
KMedoids.C110_pammedsil_iters: propext, Classical.choice, Quot.sound
KMedoids.C110_build: propext, Classical.choice, Quot.sound
KMedoids.C110_ieee: propext, Classical.choice, Quot.sound
KMedoids.C110_f64: propext, Classical.choice, Quot.sound
KMedoids.C111_matrix: propext, Classical.choice, Quot.sound
KMedoids.C111_own_number: propext, Classical.choice, Quot.sound
KMedoids.C111_i32: propext, Classical.choice, Quot.sound
KMedoids.C111_overflow: propext, Classical.choice, Quot.sound
KMedoids.C111_bound_needed: propext
KMedoids.C111_fasterpam: propext, Classical.choice, Quot.sound
KMedoids.C111_rand_fasterpam: propext, Classical.choice, Quot.sound
KMedoids.C111_par_fasterpam: propext, Classical.choice, Quot.sound
KMedoids.C111_pam_swap: propext, Classical.choice, Quot.sound
KMedoids.C111_pam_build: propext, Classical.choice, Quot.sound
KMedoids.C111_pam: propext, Classical.choice, Quot.sound
KMedoids.C111_alternating: propext, Classical.choice, Quot.sound
KMedoids.C112_erase: propext, Quot.sound
KMedoids.C112_exact: propext, Classical.choice, Quot.sound
KMedoids.C112_general: propext, Classical.choice, Quot.sound
KMedoids.C112_u32_i64: propext, Classical.choice, Quot.sound
KMedoids.C112_i32: propext, Classical.choice, Quot.sound
KMedoids.C112_bound_needed: propext
KMedoids.C112_lost_sum: propext
KMedoids.C112_bench: propext, Classical.choice, Quot.sound
KMedoids.C112_bench_returns: propext, Classical.choice, Quot.sound
KMedoids.C113_labels: propext, Classical.choice, Quot.sound
KMedoids.C113_swapOptimal: propext, Classical.choice, Quot.sound
KMedoids.C113_optimum: propext, Classical.choice, Quot.sound
KMedoids.C113_pam_family: propext, Classical.choice, Quot.sound
KMedoids.C113_any_limit: propext, Classical.choice, Quot.sound
KMedoids.C113_par_fasterpam: propext, Classical.choice, Quot.sound
KMedoids.C113_pam_build: propext, Classical.choice, Quot.sound
KMedoids.C113_pam: propext, Classical.choice, Quot.sound
KMedoids.C113_alternating: propext, Classical.choice, Quot.sound
KMedoids.C113_alternating_fails: propext
KMedoids.C113_needs_triangle: propext, Classical.choice, Quot.sound
KMedoids.C113_needs_separation: propext, Classical.choice, Quot.sound
KMedoids.C114_pam_family: propext, Classical.choice, Quot.sound
KMedoids.C114_pam_build: propext, Classical.choice, Quot.sound
KMedoids.C114_pam: propext, Classical.choice, Quot.sound
KMedoids.C114_points: propext, Classical.choice, Quot.sound
KMedoids.C114_points_build: propext, Classical.choice, Quot.sound
KMedoids.C115_high: propext, Classical.choice, Quot.sound
KMedoids.C115_low: propext, Classical.choice, Quot.sound
KMedoids.C115_best: propext, Classical.choice, Quot.sound
KMedoids.C115_certificate: propext, Classical.choice, Quot.sound
KMedoids.C115_msc: propext, Classical.choice, Quot.sound
KMedoids.C115_dynmsc: propext, Classical.choice, Quot.sound
KMedoids.C115_pammedsil_build: propext, Classical.choice, Quot.sound
KMedoids.C115_pammedsil: propext, Classical.choice, Quot.sound
KMedoids.C115_needs_bound: propext, Classical.choice, Quot.sound
KMedoids.C115_start_needed: propext, Classical.choice, Quot.sound
KMedoids.C116_mixed: propext, Classical.choice, Quot.sound
KMedoids.C116_split: propext, Classical.choice, Quot.sound
KMedoids.C116_groups: propext, Classical.choice, Quot.sound
KMedoids.C116_certificate: propext, Classical.choice, Quot.sound
KMedoids.C116_par_certificate: propext, Classical.choice, Quot.sound
KMedoids.C116_best: propext, Classical.choice, Quot.sound
KMedoids.C116_pamsil_swap: propext, Classical.choice, Quot.sound
KMedoids.C116_pamsil: propext, Classical.choice, Quot.sound
KMedoids.C116_needs_bound: propext, Classical.choice, Quot.sound
KMedoids.C116_start_needed: propext, Classical.choice, Quot.sound
KMedoids.C117_high: propext, Classical.choice, Quot.sound
KMedoids.C117_covers: propext, Classical.choice, Quot.sound
KMedoids.C117_certificate: propext, Classical.choice, Quot.sound
KMedoids.C117_keeps: propext, Classical.choice, Quot.sound
KMedoids.C117_fastermsc: propext, Classical.choice, Quot.sound
KMedoids.C117_fastmsc: propext, Classical.choice, Quot.sound
KMedoids.C117_pammedsil_swap: propext, Classical.choice, Quot.sound
KMedoids.C117_silhouette: propext, Classical.choice, Quot.sound
KMedoids.C117_par_silhouette: propext, Classical.choice, Quot.sound
KMedoids.C117_pamsil_swap: propext, Classical.choice, Quot.sound
KMedoids.C117_certificate_f64: propext, Classical.choice, Quot.sound
KMedoids.C117_fastermsc_f64: propext, Classical.choice, Quot.sound
KMedoids.C117_fastmsc_f64: propext, Classical.choice, Quot.sound
KMedoids.C117_pammedsil_swap_f64: propext, Classical.choice, Quot.sound
KMedoids.C117_silhouette_f64: propext, Classical.choice, Quot.sound
KMedoids.C117_pamsil_swap_f64: propext, Classical.choice, Quot.sound
KMedoids.C118_dynmsc: propext, Classical.choice, Quot.sound
KMedoids.C118_loss: propext, Classical.choice, Quot.sound
KMedoids.C118_drop: propext, Classical.choice, Quot.sound
KMedoids.C118_drop_first: propext, Classical.choice, Quot.sound
KMedoids.C119_pamsil_swap: propext, Classical.choice, Quot.sound
KMedoids.C119_no_panic: propext, Classical.choice, Quot.sound
KMedoids.C119_local_optimum: propext, Classical.choice, Quot.sound
KMedoids.C119_pamsil: propext, Classical.choice, Quot.sound
KMedoids.C119_pamsil_distinct: propext, Classical.choice, Quot.sound
KMedoids.C120_pam_swap_same: propext, Quot.sound
KMedoids.C120_fastpam1_same: propext, Quot.sound
KMedoids.C120_fastmsc_same: propext, Classical.choice, Quot.sound
KMedoids.C120_pammedsil_swap_same: propext, Quot.sound
KMedoids.C120_fastmsc_no_panic: propext, Classical.choice, Quot.sound
KMedoids.C120_pam_swap: propext, Classical.choice, Quot.sound
KMedoids.C120_fastpam1: propext, Classical.choice, Quot.sound
KMedoids.C120_fastmsc: propext, Classical.choice, Quot.sound
KMedoids.C120_pammedsil_swap: propext, Classical.choice, Quot.sound
KMedoids.C121_par: propext, Classical.choice, Quot.sound
KMedoids.C121_same: propext, Classical.choice, Quot.sound
KMedoids.C121_silhouette: propext, Classical.choice, Quot.sound
KMedoids.C121_rename: propext, Classical.choice, Quot.sound
KMedoids.C122_build: propext, Classical.choice, Quot.sound
KMedoids.C122_pammedsil_no_panic: propext, Classical.choice, Quot.sound
KMedoids.C122_greedy: propext, Classical.choice, Quot.sound
KMedoids.C122_pammedsil: propext, Classical.choice, Quot.sound
KMedoids.C122_same: propext, Classical.choice, Quot.sound
KMedoids.C123_resume: propext, Classical.choice, Quot.sound
KMedoids.C123_limit: propext, Classical.choice, Quot.sound
KMedoids.C123_negation: propext, Classical.choice, Quot.sound
KMedoids.C124_check: propext, Classical.choice, Quot.sound
KMedoids.C124_same: propext, Classical.choice, Quot.sound
KMedoids.C124_fastermsc: propext, Classical.choice, Quot.sound
KMedoids.C124_fastmsc: propext, Classical.choice, Quot.sound
KMedoids.C124_pammedsil_swap: propext, Classical.choice, Quot.sound
KMedoids.C124_pammedsil: propext, Classical.choice, Quot.sound
KMedoids.C124_dynmsc: propext, Classical.choice, Quot.sound
KMedoids.C125_pam_swap_weights: propext, Classical.choice, Quot.sound
KMedoids.C125_fastpam1_weights: propext, Classical.choice, Quot.sound
KMedoids.C125_pam_build_weights: propext, Classical.choice, Quot.sound
KMedoids.C125_pam_weights: propext, Classical.choice, Quot.sound
KMedoids.C125_rand_fasterpam_weights: propext, Classical.choice, Quot.sound
KMedoids.C125_fasterpam_weights: propext, Classical.choice, Quot.sound
KMedoids.C125_pam_swap: propext, Classical.choice, Quot.sound
KMedoids.C125_fastpam1: propext, Classical.choice, Quot.sound
KMedoids.C125_pam: propext, Classical.choice, Quot.sound
KMedoids.C125_fasterpam: propext, Classical.choice, Quot.sound
KMedoids.C125_order_matters: propext
KMedoids.C125_pammedsil_fails: propext, Classical.choice, Quot.sound
KMedoids.C126_swapOptimal: propext, Classical.choice, Quot.sound
KMedoids.C126_pam_family: propext, Classical.choice, Quot.sound
KMedoids.C126_par_fasterpam: propext, Classical.choice, Quot.sound
KMedoids.C126_pam: propext, Classical.choice, Quot.sound
KMedoids.C126_silSwapOptimal: propext, Classical.choice, Quot.sound
KMedoids.C126_msc: propext, Classical.choice, Quot.sound
KMedoids.C126_dynmsc: propext, Classical.choice, Quot.sound
KMedoids.C126_two_left_out_negation: propext
KMedoids.C126_alternating_negation: propext
KMedoids.C126_sil_two_left_out_negation: propext, Classical.choice, Quot.sound
KMedoids.C127_metric: propext, Classical.choice, Quot.sound
KMedoids.C127_rand_fasterpam: propext, Classical.choice, Quot.sound
KMedoids.C127_fasterpam: propext, Classical.choice, Quot.sound
KMedoids.C127_pam: propext, Classical.choice, Quot.sound
KMedoids.C127_optimum: propext, Classical.choice, Quot.sound
KMedoids.C127_reads: propext, Classical.choice, Quot.sound
KMedoids.C127_par_fasterpam: propext, Classical.choice, Quot.sound
KMedoids.C128_metric: propext, Classical.choice, Quot.sound
KMedoids.C128_triangle: propext, Classical.choice, Quot.sound
KMedoids.C128_build_stop_negation: propext
KMedoids.C128_msc_negation: propext, Classical.choice, Quot.sound
KMedoids.C129_fastermsc: propext, Classical.choice, Quot.sound
KMedoids.C129_fastmsc: propext, Classical.choice, Quot.sound
KMedoids.C129_optimum: propext, Classical.choice, Quot.sound
KMedoids.C129_reads: propext, Classical.choice, Quot.sound
KMedoids.C130_rand_fasterpam: propext, Classical.choice, Quot.sound
KMedoids.C130_par_fasterpam: propext, Classical.choice, Quot.sound
KMedoids.C130_fasterpam_starts: propext, Classical.choice, Quot.sound
KMedoids.C130_fasterpam_negation: propext, Classical.choice, Quot.sound
KMedoids.C130_single_negation: propext, Classical.choice, Quot.sound
KMedoids.C131_rand_fasterpam: propext, Classical.choice, Quot.sound
KMedoids.C131_fasterpam: propext, Classical.choice, Quot.sound
KMedoids.C131_par_fasterpam: propext, Classical.choice, Quot.sound
KMedoids.C131_pam: propext, Classical.choice, Quot.sound
KMedoids.C131_zero_loss: propext
KMedoids.C131_limit: propext
KMedoids.C131_alternating_negation: propext
KMedoids.C131_msc: propext, Classical.choice, Quot.sound
KMedoids.C131_msc_negation: propext, Classical.choice, Quot.sound
KMedoids.C132_rand_fasterpam: propext, Classical.choice, Quot.sound
KMedoids.C132_fasterpam: propext, Classical.choice, Quot.sound
KMedoids.C132_par_fasterpam: propext, Classical.choice, Quot.sound
KMedoids.C132_pam_swap: propext, Classical.choice, Quot.sound
KMedoids.C132_fastpam1: propext, Classical.choice, Quot.sound
KMedoids.C132_pam_build: propext, Classical.choice, Quot.sound
KMedoids.C132_pam: propext, Classical.choice, Quot.sound
KMedoids.C132_fastermsc: propext, Classical.choice, Quot.sound
KMedoids.C132_fastmsc: propext, Classical.choice, Quot.sound
KMedoids.C132_pammedsil_swap: propext, Classical.choice, Quot.sound
KMedoids.C132_total_dev: propext, Classical.choice, Quot.sound
KMedoids.C132_same_order: propext, Classical.choice, Quot.sound
KMedoids.C132_noise_rand_fasterpam: propext, Classical.choice, Quot.sound
KMedoids.C132_noise_fasterpam: propext, Classical.choice, Quot.sound
KMedoids.C132_noise_pam_swap: propext, Classical.choice, Quot.sound
KMedoids.C132_noise_fastpam1: propext, Classical.choice, Quot.sound
KMedoids.C132_med_sil: propext, Classical.choice, Quot.sound
KMedoids.C132_same_order_sil: propext, Classical.choice, Quot.sound
KMedoids.C132_noise_fastermsc: propext, Classical.choice, Quot.sound
KMedoids.C132_noise_pammedsil_swap: propext, Classical.choice, Quot.sound
KMedoids.C132_noise_fastmsc: propext, Classical.choice, Quot.sound
KMedoids.C132_gap_negation: propext, Classical.choice, Quot.sound
KMedoids.C132_monotone_negation: propext, Classical.choice, Quot.sound
KMedoids.C133_metric: propext, Classical.choice, Quot.sound
KMedoids.C133_alternating: propext, Classical.choice, Quot.sound
KMedoids.C133_optimum: propext, Classical.choice, Quot.sound
KMedoids.C133_pam_family: propext, Classical.choice, Quot.sound
KMedoids.C133_par_fasterpam: propext, Classical.choice, Quot.sound
KMedoids.C133_no_factor: propext, Classical.choice, Quot.sound
KMedoids.C134_metric: propext, Classical.choice, Quot.sound
KMedoids.C134_local_optimum: propext, Classical.choice, Quot.sound
KMedoids.C134_local_optimum_k: propext, Classical.choice, Quot.sound
KMedoids.C134_no_factor: propext, Classical.choice, Quot.sound
KMedoids.C134_metric_few: propext, Classical.choice, Quot.sound
KMedoids.C134_local_optimum_few: propext, Classical.choice, Quot.sound
KMedoids.C134_no_factor_few: propext, Classical.choice, Quot.sound
KMedoids.C135_metric: propext, Classical.choice, Quot.sound
KMedoids.C135_local_optimum: propext, Classical.choice, Quot.sound
KMedoids.C135_no_factor: propext, Classical.choice, Quot.sound
KMedoids.C135_metric_three: propext, Classical.choice, Quot.sound
KMedoids.C135_local_optimum_three: propext, Classical.choice, Quot.sound
KMedoids.C135_no_factor_three: propext, Classical.choice, Quot.sound
KMedoids.C135_metric_two: propext, Classical.choice, Quot.sound
KMedoids.C135_local_optimum_two: propext, Classical.choice, Quot.sound
KMedoids.C135_no_factor_two: propext, Classical.choice, Quot.sound
KMedoids.C135_no_factor_all: propext, Classical.choice, Quot.sound
KMedoids.C136_metric: propext, Classical.choice, Quot.sound
KMedoids.C136_medoid_silhouette: propext, Classical.choice, Quot.sound
KMedoids.C136_total_deviation: propext, Classical.choice, Quot.sound
KMedoids.C136_medoid_silhouette_all: propext, Classical.choice, Quot.sound
KMedoids.C136_total_deviation_all: propext, Classical.choice, Quot.sound
KMedoids.C137_ties: propext, Classical.choice, Quot.sound
KMedoids.C137_perfect: propext, Classical.choice, Quot.sound
KMedoids.C137_all_objects: propext, Classical.choice, Quot.sound
KMedoids.C138_more_medoids: propext, Classical.choice, Quot.sound
KMedoids.C138_any_method: propext, Classical.choice, Quot.sound
KMedoids.C138_msc_negation: propext, Classical.choice, Quot.sound
