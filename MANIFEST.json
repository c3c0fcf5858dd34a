{
 "claims": [
  {
   "property": "C01",
   "status": "proved",
   "theorems": [
    "Verif.Props.C01_iteration_budget",
    "Verif.Props.C01_exit_only_after_76",
    "Verif.Props.C01_passes"
   ],
   "note": ""
  },
  {
   "property": "C02",
   "status": "proved",
   "theorems": [
    "Verif.Props.C02_stops_at_first_small_change"
   ],
   "note": ""
  },
  {
   "property": "C03",
   "status": "proved",
   "theorems": [
    "Verif.Props.C03_energy_of_returned_amplitudes"
   ],
   "note": ""
  },
  {
   "property": "C04",
   "status": "partial",
   "theorems": [
    "Verif.Props.C04_violated_no_raise",
    "Verif.Props.C04_violated_returns_unconverged",
    "Verif.Props.C04_nonconvergence_reported_partial",
    "Verif.Props.C04_driveCC_partial"
   ],
   "note": "UltT2CC.kernel violates it (C04_violated_*); the partial theorems cover the legacy driver and DriveCC, which do report."
  },
  {
   "property": "C05",
   "status": "proved",
   "theorems": [
    "Verif.Props.C05_fixed_point_iff"
   ],
   "note": ""
  },
  {
   "property": "C06",
   "status": "partial",
   "theorems": [
    "Verif.Props.C06_violated",
    "Verif.Props.C06_settings_honoured_partial"
   ],
   "note": "violated for ccdType (ccd_main overwrites the settings); the partial theorem covers the two other keys."
  },
  {
   "property": "C07",
   "status": "partial",
   "theorems": [
    "Verif.Props.C07_defaults",
    "Verif.Props.C07_start_cycle_default_violated"
   ],
   "note": "the defaults are proved; a diis_size without diis_start_cycle fails although the latter has a documented default (violated theorem)."
  },
  {
   "property": "C08",
   "status": "partial",
   "theorems": [
    "Verif.Props.C08_consistent_iff_partial",
    "Verif.Props.C08_violated"
   ],
   "note": "violated when ccdTypeSlow is combined with another method key; the partial theorem says exactly when the dispatchers agree."
  },
  {
   "property": "C09",
   "status": "partial",
   "theorems": [
    "Verif.Props.C09_violated",
    "Verif.Props.C09_total_is_reference_plus_correlation_partial",
    "Verif.Props.C09_legacy_violated"
   ],
   "note": "violated for the five (Qf) names and by the legacy report; the partial theorem says exactly where it holds."
  },
  {
   "property": "C10",
   "status": "proved",
   "theorems": [
    "Verif.Props.C10_history_window"
   ],
   "note": ""
  },
  {
   "property": "C11",
   "status": "proved",
   "theorems": [
    "Verif.Props.C11_warmup"
   ],
   "note": ""
  },
  {
   "property": "C12",
   "status": "proved",
   "theorems": [
    "Verif.Props.C12_affine_combination",
    "Verif.Props.C12_constant_history",
    "Verif.Props.C12_first_extrapolation"
   ],
   "note": ""
  },
  {
   "property": "C13",
   "status": "proved",
   "theorems": [
    "Verif.Props.C13_minimises_error"
   ],
   "note": ""
  },
  {
   "property": "C14",
   "status": "proved",
   "theorems": [
    "Verif.Props.C14_solvable_iff",
    "Verif.Props.C14_too_many_vectors",
    "Verif.Props.C14_repeated_error",
    "Verif.Props.C14_zero_vectors"
   ],
   "note": ""
  },
  {
   "property": "C15",
   "status": "proved",
   "theorems": [
    "Verif.Props.C15_linear_symmetry_preserved"
   ],
   "note": ""
  },
  {
   "property": "C16",
   "status": "proved",
   "theorems": [
    "Verif.Props.C16_flatten_reshape",
    "Verif.Props.C16_roundtrip_doubles",
    "Verif.Props.C16_roundtrip_ucc4",
    "Verif.Props.C16_roundtrip_ccdq",
    "Verif.Props.C16_unpack_pack",
    "Verif.Props.C16_unpacked_entries"
   ],
   "note": ""
  },
  {
   "property": "C17",
   "status": "partial",
   "theorems": [
    "Verif.Props.C17_diis_usable_iff_partial",
    "Verif.Props.C17_same_blocks",
    "Verif.Props.C17_violated_ccdType",
    "Verif.Props.C17_violated_full"
   ],
   "note": "violated for spin-integrated (Qf) methods and for fullCCType names without CCDQ; the partial theorem says exactly when an iteration with DIIS gets through."
  },
  {
   "property": "C18",
   "status": "partial",
   "theorems": [
    "Verif.Props.C18_violated_full",
    "Verif.Props.C18_violated_documented_key",
    "Verif.Props.C18_violated_slowQf",
    "Verif.Props.C18_violated_QfHf",
    "Verif.Props.C18_slow_correction_partial"
   ],
   "note": "several documented names fail (violated theorems); partial theorem: exactly when a spin-orbital correction is evaluated."
  },
  {
   "property": "C19",
   "status": "proved",
   "theorems": [
    "Verif.Props.C19_orders",
    "Verif.Props.C19_absent_iff"
   ],
   "note": ""
  },
  {
   "property": "C20",
   "status": "proved",
   "theorems": [
    "Verif.Props.C20_one_evaluation",
    "Verif.Props.C20_reads_are_fresh"
   ],
   "note": ""
  },
  {
   "property": "C21",
   "status": "partial",
   "theorems": [
    "Verif.Props.C21_violated",
    "Verif.Props.C21_fresh_partial"
   ],
   "note": "violated through the shared default dictionaries; partial theorem for histories that set before they update."
  },
  {
   "property": "C22",
   "status": "proved",
   "theorems": [
    "Verif.Props.C22_lookup",
    "Verif.Props.C22_most_recent"
   ],
   "note": ""
  },
  {
   "property": "C23",
   "status": "proved",
   "theorems": [
    "Verif.Props.C23_doubles",
    "Verif.Props.C23_D2ab_entry"
   ],
   "note": ""
  },
  {
   "property": "C24",
   "status": "partial",
   "theorems": [
    "Verif.Props.C24_violated",
    "Verif.Props.C24_higher_partial"
   ],
   "note": "violated for unrestricted references (mixed-spin arrays, D1bb); partial: right for restricted references and for the same-spin arrays."
  },
  {
   "property": "C25",
   "status": "partial",
   "theorems": [
    "Verif.Props.C25_negative",
    "Verif.Props.C25_equal_occupation_partial",
    "Verif.Props.C25_sorted_partial",
    "Verif.Props.C25_violated"
   ],
   "note": "violated only by D1bb with more beta than alpha electrons; everything else proved."
  },
  {
   "property": "C26",
   "status": "proved",
   "theorems": [
    "Verif.Props.C26_spin_integrated",
    "Verif.Props.C26_spin_orbital"
   ],
   "note": ""
  },
  {
   "property": "C27",
   "status": "proved",
   "theorems": [
    "Verif.Props.C27_spin_block_tei",
    "Verif.Props.C27_same_integrals",
    "Verif.Props.C27_same_fock",
    "Verif.Props.C27_spinorb_one",
    "Verif.Props.C27_spinorb_two",
    "Verif.Props.C27_slow_integrals",
    "Verif.Props.C27_slow_fock"
   ],
   "note": ""
  },
  {
   "property": "C28",
   "status": "partial",
   "theorems": [
    "Verif.Props.C28_rhf",
    "Verif.Props.C28_uhf_partial",
    "Verif.Props.C28_violated"
   ],
   "note": "violated for different numbers of alpha and beta electrons; the partial theorem says exactly when the counts are right."
  },
  {
   "property": "C29",
   "status": "proved",
   "theorems": [
    "Verif.Props.C29_antisym_T2",
    "Verif.Props.C29_wicked_antisym_T2",
    "Verif.Props.C29_antisymmetrize_residual_2_2",
    "Verif.Props.C29_antisym_T3",
    "Verif.Props.C29_wicked_antisym_T3",
    "Verif.Props.C29_t4resids_antisym_T3",
    "Verif.Props.C29_antisym_T4",
    "Verif.Props.C29_antisym_t4_residual"
   ],
   "note": ""
  },
  {
   "property": "C30",
   "status": "proved",
   "theorems": [
    "Verif.Props.C30_antisym_T2",
    "Verif.Props.C30_wicked_antisym_T2",
    "Verif.Props.C30_antisymmetrize_residual_2_2",
    "Verif.Props.C30_antisym_T3",
    "Verif.Props.C30_wicked_antisym_T3",
    "Verif.Props.C30_t4resids_antisym_T3",
    "Verif.Props.C30_antisym_T4",
    "Verif.Props.C30_antisym_t4_residual"
   ],
   "note": ""
  },
  {
   "property": "C31",
   "status": "proved",
   "theorems": [
    "Verif.Props.C31_antisym_T2",
    "Verif.Props.C31_wicked_antisym_T2",
    "Verif.Props.C31_antisymmetrize_residual_2_2",
    "Verif.Props.C31_antisym_T3",
    "Verif.Props.C31_wicked_antisym_T3",
    "Verif.Props.C31_t4resids_antisym_T3",
    "Verif.Props.C31_antisym_T4",
    "Verif.Props.C31_antisym_t4_residual"
   ],
   "note": ""
  },
  {
   "property": "C32",
   "status": "proved",
   "theorems": [
    "Verif.Props.C32_ccd_residual",
    "Verif.Props.C32_lccd_offset",
    "Verif.Props.C32_step",
    "Verif.Props.C32_iterates"
   ],
   "note": ""
  },
  {
   "property": "C33",
   "status": "proved",
   "theorems": [
    "Verif.Props.C33_residual",
    "Verif.Props.C33_step",
    "Verif.Props.C33_iterates"
   ],
   "note": ""
  },
  {
   "property": "C34",
   "status": "proved",
   "theorems": [
    "Verif.Props.C34_residual",
    "Verif.Props.C34_energy",
    "Verif.Props.C34_step",
    "Verif.Props.C34_iterates",
    "Verif.Props.C34_closed_shell"
   ],
   "note": ""
  },
  {
   "property": "C35",
   "status": "proved",
   "theorems": [
    "Verif.Props.C35_ccd_energy",
    "Verif.Props.C35_qf_energy"
   ],
   "note": ""
  },
  {
   "property": "C36",
   "status": "proved",
   "theorems": [
    "Verif.Props.C36_ccd_residual",
    "Verif.Props.C36_qf1_residual",
    "Verif.Props.C36_qf2_residual",
    "Verif.Props.C36_step",
    "Verif.Props.C36_iterates"
   ],
   "note": ""
  },
  {
   "property": "C37",
   "status": "proved",
   "theorems": [
    "Verif.Props.C37_ccd_two_forms"
   ],
   "note": ""
  },
  {
   "property": "C38",
   "status": "proved",
   "theorems": [
    "Verif.Props.C38_ccsdt_t1",
    "Verif.Props.C38_ccsdt_t2",
    "Verif.Props.C38_ccdq_t2",
    "Verif.Props.C38_ccsd_t2"
   ],
   "note": ""
  },
  {
   "property": "C39",
   "status": "proved",
   "theorems": [
    "Verif.Props.C39_residual",
    "Verif.Props.C39_first_update",
    "Verif.Props.C39_mp2_energy"
   ],
   "note": ""
  },
  {
   "property": "C40",
   "status": "proved",
   "theorems": [
    "Verif.Props.C40_energy",
    "Verif.Props.C40_energy_spin",
    "Verif.Props.C40_residual",
    "Verif.Props.C40_residual_spin",
    "Verif.Props.C40_step",
    "Verif.Props.C40_iterates"
   ],
   "note": ""
  },
  {
   "property": "C41",
   "status": "proved",
   "theorems": [
    "Verif.Props.C41_residual",
    "Verif.Props.C41_residual_spin",
    "Verif.Props.C41_energy",
    "Verif.Props.C41_energy_spin",
    "Verif.Props.C41_step",
    "Verif.Props.C41_iterates"
   ],
   "note": ""
  },
  {
   "property": "C42",
   "status": "proved",
   "theorems": [
    "Verif.Props.C42_so_ccd",
    "Verif.Props.C42_so_ccsd",
    "Verif.Props.C42_so_ccsdt",
    "Verif.Props.C42_so_ccdq",
    "Verif.Props.C42_so_qf",
    "Verif.Props.C42_so_triples",
    "Verif.Props.C42_so_ucc4",
    "Verif.Props.C42_si_ccd",
    "Verif.Props.C42_si_qf",
    "Verif.Props.C42_si_ccsdt",
    "Verif.Props.C42_si_ccdq",
    "Verif.Props.C42_si_t4",
    "Verif.Props.C42_si_triples",
    "Verif.Props.C42_si_test",
    "Verif.Props.C42_step_so",
    "Verif.Props.C42_step_si",
    "Verif.Props.C42_iterates"
   ],
   "note": ""
  },
  {
   "property": "C43",
   "status": "proved",
   "theorems": [
    "Verif.Props.C43_residual",
    "Verif.Props.C43_energy",
    "Verif.Props.C43_spin",
    "Verif.Props.C43_iterates"
   ],
   "note": ""
  },
  {
   "property": "C44",
   "status": "proved",
   "theorems": [
    "Verif.Props.C44_lccd_affine",
    "Verif.Props.C44_offset_quadratic",
    "Verif.Props.C44_ccd_polynomial"
   ],
   "note": ""
  },
  {
   "property": "C45",
   "status": "partial",
   "theorems": [
    "Verif.Props.C45_shape_safe_partial",
    "Verif.Props.C45_table_length",
    "Verif.Props.C45_table_calls",
    "Verif.Props.C45_ccd_partial",
    "Verif.Props.C45_pccd_violated",
    "Verif.Props.C45_open_energy_violated",
    "Verif.Props.C45_open_residual_violated"
   ],
   "note": "116 functions with 18258 calls proved for all orbital counts (restricted case). Violated by pccd_t2resid (unused) and, for different numbers of alpha and beta electrons, by the spin-integrated functions."
  },
  {
   "property": "C46",
   "status": "partial",
   "theorems": [
    "Verif.Props.C46_antisymmetric_partial",
    "Verif.Props.C46_violated"
   ],
   "note": "violated by records with coinciding indices; partial theorem: antisymmetric after every file whose doubles records have distinct indices."
  },
  {
   "property": "C47",
   "status": "proved",
   "theorems": [
    "Verif.Props.C47_doubles",
    "Verif.Props.C47_doubles_absent",
    "Verif.Props.C47_singles",
    "Verif.Props.C47_integrals"
   ],
   "note": ""
  },
  {
   "property": "C48",
   "status": "partial",
   "theorems": [
    "Verif.Props.C48_projection",
    "Verif.Props.C48_violated",
    "Verif.Props.C48_pccdEnergy_violated"
   ],
   "note": "the projection is proved; the claim of a non-trivial energy is violated for every system with antisymmetric arrays (C48_violated)."
  },
  {
   "property": "C49",
   "status": "partial",
   "theorems": [
    "Verif.Props.C49_doubles_partial",
    "Verif.Props.C49_violated_singles",
    "Verif.Props.C49_violated_occupied_first",
    "Verif.Props.C49_violated_ambiguous"
   ],
   "note": "violated for singles files and for occupied-first doubles files; partial theorem for virtual-first doubles files."
  },
  {
   "property": "C50",
   "status": "partial",
   "theorems": [
    "Verif.Props.C50_pdagq_partial",
    "Verif.Props.C50_wicked",
    "Verif.Props.C50_violated"
   ],
   "note": "violated: line 41 is overwritten in line 44. Partial theorem: the returned number is the doubles part; the wicked route prints the full sum (C50_wicked)."
  },
  {
   "property": "C51",
   "status": "proved",
   "theorems": [
    "Verif.Props.C51_wicked",
    "Verif.Props.C51_approx",
    "Verif.Props.C51_energy"
   ],
   "note": ""
  },
  {
   "property": "C52",
   "status": "partial",
   "theorems": [
    "Verif.Props.C52_violated",
    "Verif.Props.C52_l2_partial"
   ],
   "note": "violated: the stored de-excitation amplitudes are one update old."
  },
  {
   "property": "C53",
   "status": "proved",
   "theorems": [
    "Verif.Props.C53_setters",
    "Verif.Props.C53_last_call_wins"
   ],
   "note": ""
  },
  {
   "property": "C54",
   "status": "partial",
   "theorems": [
    "Verif.Props.C54_violated",
    "Verif.Props.C54_drive_total_partial"
   ],
   "note": "the stored total is purely electronic; partial theorem gives what is stored."
  },
  {
   "property": "C55",
   "status": "partial",
   "theorems": [
    "Verif.Props.C55_lookups",
    "Verif.Props.C55_violated",
    "Verif.Props.C55_consistent_partial"
   ],
   "note": "violated: CCSDTQ and CCSDQ names select the CCSDT and CCSD equations silently; partial theorem for the other names."
  },
  {
   "property": "C56",
   "status": "partial",
   "theorems": [
    "Verif.Props.C56_alpha_ranges_partial",
    "Verif.Props.C56_closed_shell_partial",
    "Verif.Props.C56_violated",
    "Verif.Props.C56_reference_violated"
   ],
   "note": "violated: the beta slices are ignored. Partial theorem: the returned value for any slices, and correctness for equal ranges."
  },
  {
   "property": "C57",
   "status": "proved",
   "theorems": [
    "Verif.Props.C57_ccd_energy",
    "Verif.Props.C57_linear"
   ],
   "note": ""
  },
  {
   "property": "C58",
   "status": "proved",
   "theorems": [
    "Verif.Props.C58_aliasing",
    "Verif.Props.C58_backup_is_no_copy"
   ],
   "note": "heap model of the names and in-place updates; contents of the arrays are arbitrary functions. The unread name resid_aaaaBKUP is excepted (C58_backup_is_no_copy)."
  },
  {
   "property": "C60",
   "status": "partial",
   "theorems": [
    "Verif.Props.C60_t3_residual",
    "Verif.Props.C60_t2_pieces",
    "Verif.Props.C60_step_partial",
    "Verif.Props.C60_violated"
   ],
   "note": "violated for the doubles (virtual indices); partial theorem: triples fully, doubles in the occupied indices."
  },
  {
   "property": "C64",
   "status": "proved",
   "theorems": [
    "Verif.Props.C64_ccsd_energy",
    "Verif.Props.C64_squareT",
    "Verif.Props.C64_ccsdt_t1_aa",
    "Verif.Props.C64_ccsdt_t1_bb",
    "Verif.Props.C64_ccsdt_t2_aaaa",
    "Verif.Props.C64_ccsdt_t2_abab",
    "Verif.Props.C64_ccsdt_t2_bbbb",
    "Verif.Props.C64_ccdq_t2_aaaa",
    "Verif.Props.C64_ccdq_t2_abab",
    "Verif.Props.C64_ccdq_t2_bbbb",
    "Verif.Props.C64_approxT3_aaaaaa",
    "Verif.Props.C64_approxT3_aabaab",
    "Verif.Props.C64_approxT3_abbabb",
    "Verif.Props.C64_approxT3_bbbbbb"
   ],
   "note": ""
  },
  {
   "property": "C65",
   "status": "proved",
   "theorems": [
    "Verif.Props.C65_qf1",
    "Verif.Props.C65_qf2",
    "Verif.Props.C65_triples"
   ],
   "note": ""
  },
  {
   "property": "C66",
   "status": "proved",
   "theorems": [
    "Verif.Props.C66_pdagq",
    "Verif.Props.C66_wicked"
   ],
   "note": ""
  },
  {
   "property": "C59",
   "status": "partial",
   "theorems": [
    "Verif.Props.C59_occupied_places",
    "Verif.Props.C59_violated"
   ],
   "note": "violated when a beta orbital lies below an occupied alpha orbital without being occupied; proved whenever all occupied spin orbitals lie below all virtual ones (theorem C59_occupied_places)."
  },
  {
   "property": "C70",
   "status": "proved",
   "theorems": [
    "Verif.Props.C70_same_calculation"
   ],
   "note": ""
  },
  {
   "property": "C71",
   "status": "partial",
   "theorems": [
    "Verif.Props.C71_violated",
    "Verif.Props.C71_exchange_partial"
   ],
   "note": "violated for unrestricted orbitals; partial theorem for arrays which have the symmetry themselves."
  },
  {
   "property": "C69",
   "status": "partial",
   "theorems": [
    "Verif.Props.C69_violated",
    "Verif.Props.C69_triples_partial"
   ],
   "note": "violated for every input; the partial theorem says exactly when a value is returned at all."
  },
  {
   "property": "C72",
   "status": "partial",
   "theorems": [
    "Verif.Props.C72_violated",
    "Verif.Props.C72_finish_partial"
   ],
   "note": "violated by names with a parenthesis other than (qf) and by runs without convergence; partial theorem for the rest."
  },
  {
   "property": "C73",
   "status": "partial",
   "theorems": [
    "Verif.Props.C73_argument_after",
    "Verif.Props.C73_violated",
    "Verif.Props.C73_unchanged_partial"
   ],
   "note": "violated for every array with a non-zero neighbouring entry; C73_argument_after gives the exact effect."
  },
  {
   "property": "C74",
   "status": "partial",
   "theorems": [
    "Verif.Props.C74_difference_partial",
    "Verif.Props.C74_violated"
   ],
   "note": "violated: the diagonal integrals are taken from the occupied block; the partial theorem gives the exact difference."
  },
  {
   "property": "C75",
   "status": "proved",
   "theorems": [
    "Verif.Props.C75_ccsd_t2_antisymm_v",
    "Verif.Props.C75_ccsd_t2_antisymm_o",
    "Verif.Props.C75_ccd",
    "Verif.Props.C75_ccd_energy",
    "Verif.Props.C75_ccsd_t1",
    "Verif.Props.C75_ccsd_t2",
    "Verif.Props.C75_ccsd_energy",
    "Verif.Props.C75_ccsdt_t1",
    "Verif.Props.C75_ccsdt_t2",
    "Verif.Props.C75_ccsdt_energy",
    "Verif.Props.C75_ccdq_t2",
    "Verif.Props.C75_ccdq_energy",
    "Verif.Props.C75_t3_roundoff",
    "Verif.Props.C75_t4_roundoff",
    "Verif.Props.C75_ccsdt_t3",
    "Verif.Props.C75_ccdq_t4"
   ],
   "note": ""
  },
  {
   "property": "C76",
   "status": "proved",
   "theorems": [
    "Verif.Props.C76_eigenstate",
    "Verif.Props.C76_two_electrons",
    "Verif.Props.C76_three_electrons"
   ],
   "note": ""
  },
  {
   "property": "C77",
   "status": "proved",
   "theorems": [
    "Verif.Props.C77_lccd_offset",
    "Verif.Props.C77_ucc4_t1",
    "Verif.Props.C77_ucc4_t3",
    "Verif.Props.C77_ucc4_t1t3",
    "Verif.Props.C77_ucc4_sq",
    "Verif.Props.C77_T3",
    "Verif.Props.C77_T3_third",
    "Verif.Props.C77_netT1",
    "Verif.Props.C77_netT1_third",
    "Verif.Props.C77_netT2",
    "Verif.Props.C77_T1bar",
    "Verif.Props.C77_squareT",
    "Verif.Props.C77_parenT",
    "Verif.Props.C77_pertQf_double",
    "Verif.Props.C77_optWnT3",
    "Verif.Props.C77_wnT2T3",
    "Verif.Props.C77_T4",
    "Verif.Props.C77_T4_t2t3",
    "Verif.Props.C77_t4_roundoff",
    "Verif.Props.C77_residQf1",
    "Verif.Props.C77_residQf2"
   ],
   "note": ""
  },
  {
   "property": "C78",
   "status": "proved",
   "theorems": [
    "Verif.Wick.C78_order5",
    "Verif.Wick.C78_order6",
    "Verif.Wick.C78_order7",
    "Verif.Wick.C78_order7_roundoff",
    "Verif.Wick.C78_energy5",
    "Verif.Wick.C78_energy6",
    "Verif.Wick.C78_add_energy",
    "Verif.Wick.C78_order5_residQf1",
    "Verif.Wick.C78_order6_residQf2",
    "Verif.Wick.C78_ccdqf2_iff",
    "Verif.Wick.C78_energy5_pertQf",
    "Verif.Wick.C78_qf_routes"
   ],
   "note": "orders 5, 6 and 7; orders 8 and 9 of build_XCCDbase are not modelled."
  },
  {
   "property": "C63",
   "status": "proved",
   "theorems": [
    "Verif.Props.C63_ccsd",
    "Verif.Props.C63_ccsdt",
    "Verif.Props.C63_ccdq",
    "Verif.Props.C63_triples",
    "Verif.Props.C63_ucc4",
    "Verif.Props.C63_quadruples",
    "Verif.Props.C63_xccd",
    "Verif.Props.C63_spin_ccsdt",
    "Verif.Props.C63_spin_ccdq",
    "Verif.Props.C63_spin_pert",
    "Verif.Props.C63_spin_t4",
    "Verif.Props.C63_ccsd_solutions",
    "Verif.Props.C63_ccsdt_solutions",
    "Verif.Props.C63_ccdq_solutions",
    "Verif.Props.C63_spin_ccsdt_solutions",
    "Verif.Props.C63_spin_ccdq_solutions"
   ],
   "note": ""
  },
  {
   "property": "C79",
   "status": "proved",
   "theorems": [
    "Verif.Props.C79_ccd",
    "Verif.Props.C79_energy",
    "Verif.Props.C79_ccsdt_t1",
    "Verif.Props.C79_ccsdt_t2",
    "Verif.Props.C79_ccdq_t2",
    "Verif.Props.C79_qf",
    "Verif.Props.C79_ccd_stationary"
   ],
   "note": ""
  },
  {
   "property": "C68",
   "status": "proved",
   "theorems": [
    "Verif.Props.C68_ccd",
    "Verif.Props.C68_qf",
    "Verif.Props.C68_spin_ccd",
    "Verif.Props.C68_spin_qf",
    "Verif.Props.C68_ccsd",
    "Verif.Props.C68_ccsdt",
    "Verif.Props.C68_ccdq",
    "Verif.Props.C68_triples",
    "Verif.Props.C68_ucc4",
    "Verif.Props.C68_quadruples",
    "Verif.Props.C68_xccd",
    "Verif.Props.C68_spin_ccsdt",
    "Verif.Props.C68_spin_ccdq",
    "Verif.Props.C68_spin_pert",
    "Verif.Props.C68_spin_t4",
    "Verif.Props.C68_ccd_solutions",
    "Verif.Props.C68_spin_ccd_solutions",
    "Verif.Props.C68_ccsd_solutions",
    "Verif.Props.C68_ccsdt_solutions",
    "Verif.Props.C68_ccdq_solutions",
    "Verif.Props.C68_spin_ccsdt_solutions",
    "Verif.Props.C68_pair_energy_not_invariant"
   ],
   "note": ""
  },
  {
   "property": "C61",
   "status": "partial",
   "theorems": [
    "Verif.Props.C61_mp2_partial",
    "Verif.Props.C61_mp3_partial",
    "Verif.Props.C61_lccd_partial",
    "Verif.Props.C61_kill_anti",
    "Verif.Props.C61_mp2Off_partial",
    "Verif.Props.C61_lccdOff_partial",
    "Verif.Props.C61_mp3_violated",
    "Verif.Props.C61_lccd_violated"
   ],
   "note": "MP2 values proved right. MP3 and LCCD values are minus the right ones, proved for all systems, violation with witness."
  },
  {
   "property": "C80",
   "status": "proved",
   "theorems": [
    "Verif.Props.C80_routes"
   ],
   "note": ""
  },
  {
   "property": "C81",
   "status": "proved",
   "theorems": [
    "Verif.Props.C81_residual",
    "Verif.Props.C81_step",
    "Verif.Props.C81_iterates",
    "Verif.Props.C81_energy",
    "Verif.Props.C81_rhf"
   ],
   "note": ""
  },
  {
   "property": "C67",
   "status": "proved",
   "theorems": [
    "Verif.Props.C67_ccd",
    "Verif.Props.C67_qf",
    "Verif.Props.C67_spin_ccd",
    "Verif.Props.C67_spin_qf",
    "Verif.Props.C67_ccsd",
    "Verif.Props.C67_ccsdt",
    "Verif.Props.C67_ccdq",
    "Verif.Props.C67_triples",
    "Verif.Props.C67_ucc4",
    "Verif.Props.C67_quadruples",
    "Verif.Props.C67_xccd",
    "Verif.Props.C67_spin_ccsdt",
    "Verif.Props.C67_spin_ccdq",
    "Verif.Props.C67_spin_pert",
    "Verif.Props.C67_spin_t4",
    "Verif.Props.C67_step_slow",
    "Verif.Props.C67_step_ucc4",
    "Verif.Props.C67_step",
    "Verif.Props.C67_iterates",
    "Verif.Props.C67_iterates_slow",
    "Verif.Props.C67_iterates_ucc4"
   ],
   "note": ""
  },
  {
   "property": "C62",
   "status": "proved",
   "theorems": [
    "Verif.Props.C62_antisymmetry",
    "Verif.Props.C62_singlet",
    "Verif.Props.C62_selection",
    "Verif.Props.C62_rhf",
    "Verif.Props.C62_returns",
    "Verif.Props.C62_ccdq_diis_fails"
   ],
   "note": ""
  },
  {
   "property": "C82",
   "status": "proved",
   "theorems": [
    "Verif.Props.C82_spin_exchange",
    "Verif.Props.C82_orbital_order",
    "Verif.Props.C82_spin_report",
    "Verif.Props.C82_order_report"
   ],
   "note": ""
  },
  {
   "property": "C83",
   "status": "proved",
   "theorems": [
    "Verif.Props.C83_ccsdt_t3_aaaaaa",
    "Verif.Props.C83_ccsdt_t3_aaaaaa_roundoff",
    "Verif.Props.C83_ccsdt_t3_aabaab",
    "Verif.Props.C83_ccsdt_t3_aabaab_roundoff",
    "Verif.Props.C83_ccsdt_t3_abbabb",
    "Verif.Props.C83_ccsdt_t3_abbabb_roundoff",
    "Verif.Props.C83_ccsdt_t3_bbbbbb",
    "Verif.Props.C83_ccsdt_t3_bbbbbb_roundoff",
    "Verif.Props.C83_ccdq_t4_aaaaaaaa",
    "Verif.Props.C83_ccdq_t4_aaaaaaaa_roundoff",
    "Verif.Props.C83_ccdq_t4_aaabaaab",
    "Verif.Props.C83_ccdq_t4_aaabaaab_roundoff",
    "Verif.Props.C83_ccdq_t4_aabbaabb",
    "Verif.Props.C83_ccdq_t4_aabbaabb_roundoff",
    "Verif.Props.C83_ccdq_t4_abbbabbb",
    "Verif.Props.C83_ccdq_t4_abbbabbb_roundoff",
    "Verif.Props.C83_ccdq_t4_bbbbbbbb",
    "Verif.Props.C83_ccdq_t4_bbbbbbbb_roundoff",
    "Verif.Props.C83_ccsdt_t3_aaaaaa_projected",
    "Verif.Props.C83_ccsdt_t3_aabaab_projected",
    "Verif.Props.C83_ccsdt_t3_abbabb_projected",
    "Verif.Props.C83_ccsdt_t3_bbbbbb_projected",
    "Verif.Props.C83_ccdq_t4_aaaaaaaa_projected",
    "Verif.Props.C83_ccdq_t4_aaabaaab_projected",
    "Verif.Props.C83_ccdq_t4_aabbaabb_projected",
    "Verif.Props.C83_ccdq_t4_abbbabbb_projected",
    "Verif.Props.C83_ccdq_t4_bbbbbbbb_projected",
    "Verif.Props.C83_ccsdtq_t4_aaaaaaaa",
    "Verif.Props.C83_ccsdtq_t4_aaabaaab",
    "Verif.Props.C83_ccsdtq_t4_aabbaabb",
    "Verif.Props.C83_ccsdtq_t4_abbbabbb",
    "Verif.Props.C83_ccsdtq_t4_bbbbbbbb",
    "Verif.Props.C83_ccsdtqT2cubed_t4_aaaaaaaa",
    "Verif.Props.C83_ccsdtqT2cubed_t4_aaabaaab",
    "Verif.Props.C83_ccsdtqT2cubed_t4_aabbaabb",
    "Verif.Props.C83_ccsdtqT2cubed_t4_abbbabbb",
    "Verif.Props.C83_ccsdtqT2cubed_t4_bbbbbbbb",
    "Verif.Props.C83_test_t2_aaaa",
    "Verif.Props.C83_test_t2_abab",
    "Verif.Props.C83_test_t2_bbbb",
    "Verif.Props.C83_pertQf_t4"
   ],
   "note": ""
  },
  {
   "property": "C84",
   "status": "proved",
   "theorems": [
    "Verif.Props.C84_correction",
    "Verif.Props.C84_triples",
    "Verif.Props.C84_energy",
    "Verif.Props.C84_routes"
   ],
   "note": ""
  },
  {
   "property": "C85",
   "status": "proved",
   "theorems": [
    "Verif.Props.C85_diis",
    "Verif.Props.C85_antisymmetry",
    "Verif.Props.C85_routes",
    "Verif.Props.C85_ut2",
    "Verif.Props.C85_xccd_energy",
    "Verif.Props.C85_xccd_equations",
    "Verif.Props.C85_returns"
   ],
   "note": ""
  },
  {
   "property": "C86",
   "status": "proved",
   "theorems": [
    "Verif.Props.C86_degenerate",
    "Verif.Props.C86_report",
    "Verif.Props.C86_orbitals"
   ],
   "note": ""
  },
  {
   "property": "C87",
   "status": "proved",
   "theorems": [
    "Verif.Props.C87_ccdq_t2",
    "Verif.Props.C87_doubles_antisymmetry",
    "Verif.Props.C87_doubles_flip",
    "Verif.Props.C87_quadruples_flip",
    "Verif.Props.C87_quadruples_antisymmetry",
    "Verif.Props.C87_step_antisymmetry",
    "Verif.Props.C87_antisymmetry",
    "Verif.Props.C87_no_singles_no_triples",
    "Verif.Props.C87_step_flip",
    "Verif.Props.C87_spin_exchange",
    "Verif.Props.C87_orbital_order",
    "Verif.Props.C87_selection",
    "Verif.Props.C87_two_electrons",
    "Verif.Props.C87_other_names",
    "Verif.Props.C87_returns",
    "Verif.Props.C87_report",
    "Verif.Props.C87_stationary",
    "Verif.Props.C87_energy"
   ],
   "note": ""
  },
  {
   "property": "C88",
   "status": "proved",
   "theorems": [
    "Verif.Props.C88_weak_coupling",
    "Verif.Props.C88_calculations"
   ],
   "note": ""
  },
  {
   "property": "C89",
   "status": "partial",
   "theorems": [
    "Verif.Props.C89_singles",
    "Verif.Props.C89_triples",
    "Verif.Props.C89_energy",
    "Verif.Props.C89_diis",
    "Verif.Props.C89_step_occupied",
    "Verif.Props.C89_antisymmetry_partial",
    "Verif.Props.C89_two_electrons",
    "Verif.Props.C89_selection",
    "Verif.Props.C89_orbital_order",
    "Verif.Props.C89_returns",
    "Verif.Props.C89_report",
    "Verif.Props.C89_stationary",
    "Verif.Props.C89_equations",
    "Verif.Props.C89_violated"
   ],
   "note": "antisymmetry of the returned doubles in the virtual orbitals is violated (C89_violated); partial theorem: occupied orbitals. The other claims are proved."
  },
  {
   "property": "C90",
   "status": "partial",
   "theorems": [
    "Verif.Props.C90_ccd",
    "Verif.Props.C90_ccd_slow",
    "Verif.Props.C90_ccdq",
    "Verif.Props.C90_full_energy",
    "Verif.Props.C90_ucc4_partial",
    "Verif.Props.C90_ucc4_violated"
   ],
   "note": "Violated for UCC(4): a term of its energy has no dimension. All other methods are covered in full; for UCC(4) the amplitudes are."
  },
  {
   "property": "C91",
   "status": "proved",
   "theorems": [
    "Verif.Props.C91_result",
    "Verif.Props.C91_antisymmetry",
    "Verif.Props.C91_selection",
    "Verif.Props.C91_orbital_order",
    "Verif.Props.C91_units",
    "Verif.Props.C91_fragments",
    "Verif.Props.C91_stationary",
    "Verif.Props.C91_two_electrons",
    "Verif.Props.C91_ccsdt_few",
    "Verif.Props.C91_ccdq_few",
    "Verif.Props.C91_kernel",
    "Verif.Props.C91_report"
   ],
   "note": "All parts proved for the real-number model of the driver; non-convergence is the NameError of C72."
  },
  {
   "property": "C92",
   "status": "partial",
   "theorems": [
    "Verif.Props.C92_quadratic",
    "Verif.Props.C92_triples",
    "Verif.Props.C92_t2t3",
    "Verif.Props.C92_cubic_partial",
    "Verif.Props.C92_cubic_violated",
    "Verif.Props.C92_squareT",
    "Verif.Props.C92_units_partial",
    "Verif.Props.C92_units_violated",
    "Verif.Props.C92_whole"
   ],
   "note": "The quadratic, triples and WnT2T3 numbers agree for all inputs; the two WnT2^3 numbers do not (they differ by exactly the WnT2^2 number), and some numbers do not scale with the unit of energy (the exact law is proved)."
  },
  {
   "property": "C93",
   "status": "proved",
   "theorems": [
    "Verif.Props.C93_caps",
    "Verif.Props.C93_square",
    "Verif.Props.C93_matrix",
    "Verif.Props.C93_first",
    "Verif.Props.C93_units",
    "Verif.Props.C93_sign",
    "Verif.Props.C93_fragments"
   ],
   "note": ""
  },
  {
   "property": "C94",
   "status": "proved",
   "theorems": [
    "Verif.Props.C94_weak_coupling",
    "Verif.Props.C94_calculations",
    "Verif.Props.C94_methods_agree"
   ],
   "note": ""
  },
  {
   "property": "C95",
   "status": "partial",
   "theorems": [
    "Verif.Props.C95_orders",
    "Verif.Props.C95_agree_iff",
    "Verif.Props.C95_violated"
   ],
   "note": "the corrections are determined through fifth order (C95_orders); the claim that the noniterative and the iterative method agree through fifth order is violated, and C95_agree_iff says exactly for which systems it holds."
  },
  {
   "property": "C96",
   "status": "proved",
   "theorems": [
    "Verif.Props.C96_ccd",
    "Verif.Props.C96_history",
    "Verif.Props.C96_ccdq"
   ],
   "note": ""
  }
 ]
}