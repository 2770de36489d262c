{
 "claims": [
  {
   "property": "C01",
   "status": "proved",
   "theorems": [
    "Verif.Mat.C01_set_get",
    "Verif.Mat.C01_set_get_2",
    "Verif.Mat.C01_set_get_1",
    "Verif.Mat.C01_reads_agree"
   ],
   "note": ""
  },
  {
   "property": "C02",
   "status": "proved",
   "theorems": [
    "Verif.Mat.C02_get",
    "Verif.Mat.C02_set",
    "Verif.Mat.C02_degenerate_ub"
   ],
   "note": ""
  },
  {
   "property": "C03",
   "status": "proved",
   "theorems": [
    "Verif.Mat.C03_history"
   ],
   "note": ""
  },
  {
   "property": "C04",
   "status": "proved",
   "theorems": [
    "Verif.Mat.C04_mk3",
    "Verif.Mat.C04_mk2",
    "Verif.Mat.C04_mk1",
    "Verif.Mat.C04_default",
    "Verif.Mat.C04_ofVec",
    "Verif.Mat.C04_ofIntVec",
    "Verif.Mat.C04_ofVecVec"
   ],
   "note": ""
  },
  {
   "property": "C05",
   "status": "proved",
   "theorems": [
    "Verif.Mat.C05_resize"
   ],
   "note": ""
  },
  {
   "property": "C06",
   "status": "proved",
   "theorems": [
    "Verif.Mat.C06_assign",
    "Verif.Mat.C06_assign_multishelf"
   ],
   "note": ""
  },
  {
   "property": "C07",
   "status": "partial",
   "theorems": [
    "Verif.Heap.C07_independent_partial",
    "Verif.Heap.C07_self_assign",
    "Verif.Heap.C07_refuted_write",
    "Verif.Heap.C07_refuted_resize",
    "Verif.Heap.C07_refuted_general"
   ],
   "note": "False of the code for copy construction (implicit copy constructor shares the buffer): C07_refuted_write/_resize/_general. Proved for every program built from construction, Matrix_copy, operator=, writes and resizes without copy construction (C07_independent_partial); self assignment is C07_self_assign."
  },
  {
   "property": "C08",
   "status": "proved",
   "theorems": [
    "Verif.Mat.C08_copy"
   ],
   "note": ""
  },
  {
   "property": "C09",
   "status": "proved",
   "theorems": [
    "Verif.Mat.C09_invert",
    "Verif.Mat.C09_invert_refused"
   ],
   "note": ""
  },
  {
   "property": "C10",
   "status": "proved",
   "theorems": [
    "Verif.Mat.C10_product_order",
    "Verif.Mat.C10_product",
    "Verif.Mat.C10_refused",
    "Verif.Mat.C10_assoc",
    "Verif.Mat.C10_invert_mul"
   ],
   "note": ""
  },
  {
   "property": "C11",
   "status": "proved",
   "theorems": [
    "Verif.Mat.C11_concat_rows",
    "Verif.Mat.C11_concat_cols",
    "Verif.Mat.C11_mismatch"
   ],
   "note": ""
  },
  {
   "property": "C12",
   "status": "proved",
   "theorems": [
    "Verif.Mat.C12_diag",
    "Verif.Mat.C12_reject"
   ],
   "note": ""
  },
  {
   "property": "C13",
   "status": "proved",
   "theorems": [
    "Verif.Mat.C13_set_row",
    "Verif.Mat.C13_reject"
   ],
   "note": ""
  },
  {
   "property": "C14",
   "status": "partial",
   "theorems": [
    "Verif.Mat.C14_refuted",
    "Verif.Mat.C14_set_col_partial",
    "Verif.Mat.C14_tall_throws"
   ],
   "note": "False of the code for non-square matrices: set_col compares the vector's length with cols (C14_refuted, C14_tall_throws). Proved for square matrices. The behaviour on every shape is the separate claim C93."
  },
  {
   "property": "C15",
   "status": "partial",
   "theorems": [
    "Verif.Mat.C15_swap_row",
    "Verif.Mat.C15_swap_col_refuted",
    "Verif.Mat.C15_swap_col_partial"
   ],
   "note": "Rows: proved without restriction (C15_swap_row). Columns: false of the code for non-square matrices, where swap_col always throws or ends the process (C15_swap_col_refuted); proved for square ones."
  },
  {
   "property": "C16",
   "status": "proved",
   "theorems": [
    "Verif.Mat.C16_move_row"
   ],
   "note": ""
  },
  {
   "property": "C17",
   "status": "partial",
   "theorems": [
    "Verif.Mat.C17_refuted",
    "Verif.Mat.C17_refuted_witness",
    "Verif.Mat.C17_set_rows_partial",
    "Verif.Mat.C17_negative"
   ],
   "note": "False of the code when the number of rows grows: the whole matrix becomes 0 (C17_refuted, for all matrices). Proved when it does not grow, and that negative numbers are refused. The outcome for every shape is C94."
  },
  {
   "property": "C18",
   "status": "partial",
   "theorems": [
    "Verif.Mat.C18_shrink_overflow",
    "Verif.Mat.C18_grow_refuted",
    "Verif.Mat.C18_set_cols_partial",
    "Verif.Mat.C18_negative"
   ],
   "note": "False of the code: shrinking a matrix of two or more rows writes outside the buffer (C18_shrink_overflow), growing loses everything (C18_grow_refuted). Proved for an unchanged number and for one-row matrices that shrink. The outcome for every shape is C94."
  },
  {
   "property": "C19",
   "status": "partial",
   "theorems": [
    "Verif.Mat.C19_shrink_overflow",
    "Verif.Mat.C19_grow_refuted",
    "Verif.Mat.C19_set_shel_partial"
   ],
   "note": "False of the code: same defects as C18 for shelves. Proved for an unchanged number and for 1 x 1 matrices that shrink. The outcome for every shape is C94."
  },
  {
   "property": "C20",
   "status": "proved",
   "theorems": [
    "Verif.Mat.C20_getRow"
   ],
   "note": ""
  },
  {
   "property": "C21",
   "status": "partial",
   "theorems": [
    "Verif.Mat.C21_refuted_tall",
    "Verif.Mat.C21_refuted_wide",
    "Verif.Mat.C21_getCol_partial"
   ],
   "note": "False of the code for non-square matrices (C21_refuted_tall, C21_refuted_wide, for all such matrices). Proved for square ones; invalid columns are refused for every shape. The outcome for every shape and number is C93."
  },
  {
   "property": "C22",
   "status": "proved",
   "theorems": [
    "Verif.Mat.C22_matchCol",
    "Verif.Mat.C22_matchRow",
    "Verif.Mat.C22_shelves",
    "Verif.Mat.C22_reject"
   ],
   "note": ""
  },
  {
   "property": "C23",
   "status": "proved",
   "theorems": [
    "Verif.Mat.C23_matchCol_recovers"
   ],
   "note": ""
  },
  {
   "property": "C24",
   "status": "proved",
   "theorems": [
    "Verif.QC.C24_swap_schedule",
    "Verif.QC.C24_swap_schedule_one",
    "Verif.QC.C24_match_lists"
   ],
   "note": ""
  },
  {
   "property": "C25",
   "status": "partial",
   "theorems": [
    "Verif.QC.C25_refuted_loop",
    "Verif.QC.C25_refuted",
    "Verif.QC.C25_terminates_partial",
    "Verif.QC.C25_terminates_one_partial"
   ],
   "note": "False of the code: an atom matched to itself and a later atom matched to the same one loop forever (C25_refuted). Proved: the scheduling ends whenever targets are shared only outside the positions being filled, in particular for all lists without repetitions, whatever the number of unmatched atoms."
  },
  {
   "property": "C26",
   "status": "partial",
   "theorems": [
    "Verif.QC.C26_refuted",
    "Verif.QC.C26_refuted_one"
   ],
   "note": "False of the code for every input it speaks about: an unmatched atom always leads to undefined behaviour or an endless loop and is never reported (C26_refuted, C26_refuted_one)."
  },
  {
   "property": "C27",
   "status": "proved",
   "theorems": [
    "Verif.QC.C27_split_merge_cols",
    "Verif.QC.C27_split_merge_rows",
    "Verif.QC.C27_blocks"
   ],
   "note": ""
  },
  {
   "property": "C28",
   "status": "proved",
   "theorems": [
    "Verif.QC.C28_rejects",
    "Verif.QC.C28_direction"
   ],
   "note": ""
  },
  {
   "property": "C29",
   "status": "proved",
   "theorems": [
    "Verif.QC.C29_C30_unscramble",
    "Verif.QC.C29_C30_unscramble_one",
    "Verif.QC.C29_complete"
   ],
   "note": ""
  },
  {
   "property": "C30",
   "status": "proved",
   "theorems": [
    "Verif.QC.C29_C30_unscramble",
    "Verif.QC.C29_C30_unscramble_one",
    "Verif.QC.C30_symmetric"
   ],
   "note": ""
  },
  {
   "property": "C31",
   "status": "proved",
   "theorems": [
    "Verif.QC.C31_coef",
    "Verif.QC.C31_coef_one",
    "Verif.QC.C31_overlap",
    "Verif.QC.C31_overlap_one",
    "Verif.QC.C31_transfer_complex",
    "Verif.QC.C31_transfer_complex_cp"
   ],
   "note": ""
  },
  {
   "property": "C32",
   "status": "proved",
   "theorems": [
    "Verif.QC.C32_report_rows",
    "Verif.QC.C32_selected_rows"
   ],
   "note": ""
  },
  {
   "property": "C33",
   "status": "proved",
   "theorems": [
    "Verif.QC.C33_rejects_mon1",
    "Verif.QC.C33_rejects_mon2",
    "Verif.QC.C33_accepted_in_range",
    "Verif.QC.C33_missing"
   ],
   "note": ""
  },
  {
   "property": "C34",
   "status": "partial",
   "theorems": [
    "Verif.QC.C34_ctor",
    "Verif.QC.C34_completes_partial",
    "Verif.QC.C34_refuted_general",
    "Verif.QC.C34_refuted",
    "Verif.QC.C34_refuted_energies"
   ],
   "note": "The checks the constructor does make are characterised exactly (C34_ctor). False of the code: other inconsistent dimensions pass and calcJ then terminates the process (C34_refuted_general: for all of them). Proved: consistent dimensions always complete."
  },
  {
   "property": "C35",
   "status": "proved",
   "theorems": [
    "Verif.QC.C35_formula",
    "Verif.QC.C35_equation",
    "Verif.QC.C35_calcJ"
   ],
   "note": ""
  },
  {
   "property": "C36",
   "status": "proved",
   "theorems": [
    "Verif.QC.C36_symmetric",
    "Verif.QC.C36_symmetric_blocks"
   ],
   "note": ""
  },
  {
   "property": "C37",
   "status": "proved",
   "theorems": [
    "Verif.QC.C37_dimer_phase"
   ],
   "note": ""
  },
  {
   "property": "C38",
   "status": "proved",
   "theorems": [
    "Verif.QC.C38_sign_first",
    "Verif.QC.C38_sign_second",
    "Verif.QC.C38_sign_both"
   ],
   "note": ""
  },
  {
   "property": "C39",
   "status": "proved",
   "theorems": [
    "Verif.QC.C39_scale",
    "Verif.QC.C39_add",
    "Verif.QC.C39_shift",
    "Verif.QC.C39_shift_normalised"
   ],
   "note": ""
  },
  {
   "property": "C40",
   "status": "proved",
   "theorems": [
    "Verif.QC.C40_relabelling"
   ],
   "note": ""
  },
  {
   "property": "C41",
   "status": "partial",
   "theorems": [
    "Verif.QC.C41_refuted",
    "Verif.QC.C41_refuted_beta",
    "Verif.QC.C41_rank_partial"
   ],
   "note": "False of the code for every column of two or more energies, alpha or beta: the process ends (C41_refuted, C41_refuted_beta). Proved for square matrices, in particular single energies."
  },
  {
   "property": "C42",
   "status": "proved",
   "theorems": [
    "Verif.Strings.C42_layout",
    "Verif.Strings.C42_roundtrip",
    "Verif.Strings.C42_tokens"
   ],
   "note": ""
  },
  {
   "property": "C43",
   "status": "proved",
   "theorems": [
    "Verif.Strings.C43_path",
    "Verif.Strings.C43_path_unique"
   ],
   "note": ""
  },
  {
   "property": "C44",
   "status": "proved",
   "theorems": [
    "Verif.Strings.C44_in_range",
    "Verif.Strings.C44_out_of_range"
   ],
   "note": ""
  },
  {
   "property": "C45",
   "status": "proved",
   "theorems": [
    "Verif.Strings.C45_trim",
    "Verif.Strings.C45_trim_unique",
    "Verif.Strings.C45_idempotent"
   ],
   "note": ""
  },
  {
   "property": "C46",
   "status": "proved",
   "theorems": [
    "Verif.Strings.C46_first",
    "Verif.Strings.C46_first_none",
    "Verif.Strings.C46_found"
   ],
   "note": ""
  },
  {
   "property": "C47",
   "status": "partial",
   "theorems": [
    "Verif.Strings.C47_refuted",
    "Verif.Strings.C47_refuted_general",
    "Verif.Strings.C47_last_partial",
    "Verif.Strings.C47_last_none"
   ],
   "note": "False of the code for separators of two or more characters: find_last_of looks for any of the characters (C47_refuted_general). Proved for one-character separators, the only kind the program passes. The behaviour for every pattern is C96."
  },
  {
   "property": "C48",
   "status": "proved",
   "theorems": [
    "Verif.Params.C48_setter",
    "Verif.Params.C48_invariant",
    "Verif.Params.C48_citation_uninitialised"
   ],
   "note": ""
  },
  {
   "property": "C49",
   "status": "proved",
   "theorems": [
    "Verif.Args.C49_int"
   ],
   "note": ""
  },
  {
   "property": "C50",
   "status": "partial",
   "theorems": [
    "Verif.Args.C50_range_partial",
    "Verif.Args.C50_refuted",
    "Verif.Args.C50_always"
   ],
   "note": "False of the code for NaN, which every range accepts (C50_refuted). Proved for all other values. C50_always: exactly which values are accepted, NaN included."
  },
  {
   "property": "C51",
   "status": "proved",
   "theorems": [
    "Verif.Args.C51_length",
    "Verif.Args.C51_set",
    "Verif.Args.C51_default",
    "Verif.Args.C51_argument_cannot_set"
   ],
   "note": ""
  },
  {
   "property": "C52",
   "status": "proved",
   "theorems": [
    "Verif.Args.C52_empty_undefined",
    "Verif.Args.C52_choice",
    "Verif.Args.C52_set",
    "Verif.Args.C52_single_choice_throws"
   ],
   "note": ""
  },
  {
   "property": "C53",
   "status": "proved",
   "theorems": [
    "Verif.Args.C53_switch",
    "Verif.Args.C53_switch_int"
   ],
   "note": ""
  },
  {
   "property": "C54",
   "status": "proved",
   "theorems": [
    "Verif.Args.C54_ext"
   ],
   "note": ""
  },
  {
   "property": "C55",
   "status": "partial",
   "theorems": [
    "Verif.Args.C55_some_partial",
    "Verif.Args.C55_first_partial",
    "Verif.Args.C55_must",
    "Verif.Args.C55_refuted",
    "Verif.Args.C55_ctor_refuted",
    "Verif.Args.C55_ctor"
   ],
   "note": "False of the code: once an existing file was seen, later missing ones are reported as existing (C55_refuted). Proved: FILE_DOES_EXIST is 1 exactly when some validated path existed; FILE_MUST_EXIST rejects missing files (C55_must). Its effect on calc_J: C124."
  },
  {
   "property": "C56",
   "status": "proved",
   "theorems": [
    "Verif.Args.C56_sister"
   ],
   "note": ""
  },
  {
   "property": "C57",
   "status": "partial",
   "theorems": [
    "Verif.Args.C57_unknown_partial",
    "Verif.Args.C57_unknown_property_partial",
    "Verif.Args.C57_refuted",
    "Verif.Args.C57_refuted_internal"
   ],
   "note": "False of the code: the argument calls the non-virtual base setter, so illegal values are stored (C57_refuted, C57_refuted_internal). Proved: unknown properties or options are rejected. An unknown property is rejected by every overload (C57_unknown_property_partial)."
  },
  {
   "property": "C58",
   "status": "proved",
   "theorems": [
    "Verif.Args.C58_unknown",
    "Verif.Args.C58_any_parser"
   ],
   "note": ""
  },
  {
   "property": "C59",
   "status": "proved",
   "theorems": [
    "Verif.Args.C59_last_wins",
    "Verif.Args.C59_accepted"
   ],
   "note": ""
  },
  {
   "property": "C60",
   "status": "partial",
   "theorems": [
    "Verif.Args.C60_abbrev_partial",
    "Verif.Args.C60_refuted"
   ],
   "note": "False of the code for -v / --version only (C60_refuted). Proved for all other flags, for whole command lines."
  },
  {
   "property": "C61",
   "status": "partial",
   "theorems": [
    "Verif.Args.C61_alone_partial",
    "Verif.Args.C61_refuted"
   ],
   "note": "False of the code: an explicit value after a switch is never accepted (C61_refuted, for all command lines). Proved: a switch alone turns it on."
  },
  {
   "property": "C62",
   "status": "partial",
   "theorems": [
    "Verif.Args.C62_off_partial",
    "Verif.Args.C62_refuted",
    "Verif.Args.C62_refuted_instance"
   ],
   "note": "False of the code for every switch that was given: getInt 1, getStr OFF (C62_refuted). Proved for switches not given."
  },
  {
   "property": "C63",
   "status": "proved",
   "theorems": [
    "Verif.Args.C63_valid",
    "Verif.Args.C63_outcomes"
   ],
   "note": ""
  },
  {
   "property": "C64",
   "status": "partial",
   "theorems": [
    "Verif.Args.C64_files_partial",
    "Verif.Args.C64_sister_pun",
    "Verif.Args.C64_refuted_blank",
    "Verif.Args.C64_refuted_repeated"
   ],
   "note": "Proved as an equivalence for file names without white space and file flags given at most once. False of the code otherwise (C64_refuted_blank, C64_refuted_repeated). What happens on every command line is C124."
  },
  {
   "property": "C65",
   "status": "partial",
   "theorems": [
    "Verif.Args.C65_refuted",
    "Verif.Args.C65_refuted_instance",
    "Verif.Args.C65_pun_partial"
   ],
   "note": "False of the code for .orb and .7 in general (C65_refuted); proved for .pun. What calc_J does with such names is C124."
  },
  {
   "property": "C66",
   "status": "proved",
   "theorems": [
    "Verif.Args.C66_sign",
    "Verif.Args.C66_invalid"
   ],
   "note": ""
  },
  {
   "property": "C67",
   "status": "proved",
   "theorems": [
    "Verif.Args.C67_stoi",
    "Verif.Args.C67_roundtrip",
    "Verif.Args.C67_trailing"
   ],
   "note": ""
  },
  {
   "property": "C68",
   "status": "proved",
   "theorems": [
    "Verif.Readers.C68_other_lines_skipped",
    "Verif.Readers.C68_dispatch",
    "Verif.Readers.C68_registration",
    "Verif.Readers.C68_log_and_pun"
   ],
   "note": ""
  },
  {
   "property": "C69",
   "status": "partial",
   "theorems": [
    "Verif.Readers.C69_log_partial",
    "Verif.Readers.C69_log_well_formed_partial",
    "Verif.Readers.C69_pun_partial",
    "Verif.Readers.C69_pun_well_formed_partial",
    "Verif.Readers.C69_refuted_energies",
    "Verif.Readers.C69_refuted_populations",
    "Verif.Readers.C69_refuted_coordinates",
    "Verif.Readers.C69_refuted_pun"
   ],
   "note": "False of the code for four kinds of file (C69_refuted_*). Proved: reading ends for every file outside these kinds as stated in C69_log_partial and C69_pun_partial, in particular for every well-formed file."
  },
  {
   "property": "C70",
   "status": "partial",
   "theorems": [
    "Verif.Readers.C70_accepted_partial",
    "Verif.Readers.C70_refuted",
    "Verif.Readers.C70_refuted_blank"
   ],
   "note": "The exact set of accepted names is C70_accepted_partial. False of the code for names with a further dot and with trailing blanks."
  },
  {
   "property": "C71",
   "status": "proved",
   "theorems": [
    "Verif.Readers.C71_energies"
   ],
   "note": ""
  },
  {
   "property": "C72",
   "status": "partial",
   "theorems": [
    "Verif.Readers.C72_split_partial",
    "Verif.Readers.C72_same_partial",
    "Verif.Readers.C72_refuted"
   ],
   "note": "Proved for at most five energies per line (all Gaussian prints) and for longer lines that do not have nine blank-separated words; false of the code for the others (C72_refuted)."
  },
  {
   "property": "C73",
   "status": "partial",
   "theorems": [
    "Verif.Readers.C73_overlap_partial",
    "Verif.Readers.C73_refuted"
   ],
   "note": "Proved for tables of more than five columns, and for smaller ones followed by a blank line or a line that starts with an integer; false of the code for small tables followed by another line (C73_refuted)."
  },
  {
   "property": "C74",
   "status": "proved",
   "theorems": [
    "Verif.Readers.C74_coords"
   ],
   "note": ""
  },
  {
   "property": "C75",
   "status": "proved",
   "theorems": [
    "Verif.Readers.C75_fields",
    "Verif.Readers.C75_every_line"
   ],
   "note": ""
  },
  {
   "property": "C76",
   "status": "partial",
   "theorems": [
    "Verif.Readers.C76_coefs_partial",
    "Verif.Readers.C76_refuted"
   ],
   "note": "Proved for well-formed pun files; false of the code for a file whose last table has a single orbital, which is never read to its end (C76_refuted)."
  },
  {
   "property": "C77",
   "status": "partial",
   "theorems": [
    "Verif.Readers.C77_separated_partial",
    "Verif.Readers.C77_refuted"
   ],
   "note": "Proved if another line stands between the two tables; false of the code when the Beta table follows immediately (C77_refuted), as in Gaussian's output."
  },
  {
   "property": "C78",
   "status": "partial",
   "theorems": [
    "Verif.Readers.C78_counts_partial",
    "Verif.Readers.C78_no_table",
    "Verif.Readers.C78_refuted_labels",
    "Verif.Readers.C78_refuted_tables"
   ],
   "note": "Proved if tables agree and labels are unique per atom; otherwise false of the code (C78_refuted_labels, C78_refuted_tables)."
  },
  {
   "property": "C79",
   "status": "proved",
   "theorems": [
    "Verif.C79_plain",
    "Verif.C79_aligned",
    "Verif.C79_aligned_cp",
    "Verif.C79_determined",
    "Verif.C79_sound"
   ],
   "note": ""
  },
  {
   "property": "C80",
   "status": "partial",
   "theorems": [
    "Verif.C80_readers",
    "Verif.C80_causes_partial",
    "Verif.C80_refuted_overlap",
    "Verif.C80_refuted_atom"
   ],
   "note": "False of the code for two causes (C80_refuted_overlap, C80_refuted_atom). Proved, for arbitrary command lines and file contents: these are the only causes of undefined behaviour (C80_causes_partial), and the readers have none (C80_readers). C122_undefined says exactly when it happens."
  },
  {
   "property": "C81",
   "status": "partial",
   "theorems": [
    "Verif.Tos.C81_text",
    "Verif.Tos.C81_same_partial",
    "Verif.Tos.C81_close",
    "Verif.Tos.C81_refuted_zero",
    "Verif.Tos.C81_refuted_large",
    "Verif.Tos.C81_matchCol_partial",
    "Verif.Tos.C81_refuted_atom"
   ],
   "note": "Proved for numbers below 10^6 units of the last decimal and apart from the sign of zero (C81_same_partial, C81_matchCol_partial); false of the code for the others (C81_refuted_zero, C81_refuted_large)."
  },
  {
   "property": "C82",
   "status": "proved",
   "theorems": [
    "Verif.C82_sound",
    "Verif.C82_last_line",
    "Verif.C82_text",
    "Verif.C82_same_outcome",
    "Verif.C82_numbers",
    "Verif.C82_consistent",
    "Verif.C82_label_homo",
    "Verif.C82_label_lumo",
    "Verif.C82_label"
   ],
   "note": ""
  },
  {
   "property": "C83",
   "status": "partial",
   "theorems": [
    "Verif.Mat.C83_one_shelf_partial",
    "Verif.Mat.C83_always",
    "Verif.Mat.C83_refuted_shelves"
   ],
   "note": "Proved for matrices of one shelf; C83_always gives the text for every matrix; false of the code for several shelves, where shelf 1 is printed each time (C83_refuted_shelves)."
  },
  {
   "property": "C84",
   "status": "partial",
   "theorems": [
    "Verif.Mat.C84_in_range_partial",
    "Verif.Mat.C84_refuted",
    "Verif.Mat.C84_always"
   ],
   "note": "Proved within the matrix; false of the code outside, where nothing is checked (C84_refuted). C84_always: exactly what happens for every row and column."
  },
  {
   "property": "C85",
   "status": "partial",
   "theorems": [
    "Verif.Args.C85_words_partial",
    "Verif.Args.C85_width_partial",
    "Verif.Args.C85_refuted_long",
    "Verif.Args.C85_refuted_hang",
    "Verif.Args.C85_calcJ",
    "Verif.Args.C85_refuted_width",
    "Verif.Args.C85_always"
   ],
   "note": "Proved when every flag has an abbreviation; false of the code otherwise (C85_refuted_long, C85_refuted_hang). The width limit is false even for calc_J's own flags (C85_refuted_width); proved: at most 80 characters and one word. C85_always: what happens for every parser - exactly when printing never ends, and otherwise exactly which words the text has."
  },
  {
   "property": "C86",
   "status": "proved",
   "theorems": [
    "Verif.Args.C86_accepts",
    "Verif.Args.C86_rejects",
    "Verif.Args.C86_only_declared",
    "Verif.Args.C86_registered",
    "Verif.Args.C86_last"
   ],
   "note": ""
  },
  {
   "property": "C87",
   "status": "partial",
   "theorems": [
    "Verif.Args.C87_orbital_types_partial",
    "Verif.Args.C87_refuted_spin"
   ],
   "note": "Proved for the orbital types; false of the code for the spin flags (C87_refuted_spin)."
  },
  {
   "property": "C88",
   "status": "proved",
   "theorems": [
    "Verif.C88_symmetric",
    "Verif.C88_symmetric_cp"
   ],
   "note": ""
  },
  {
   "property": "C89",
   "status": "proved",
   "theorems": [
    "Verif.Args.C89_options",
    "Verif.Args.C89_properties",
    "Verif.Args.C89_defaults"
   ],
   "note": ""
  },
  {
   "property": "C90",
   "status": "proved",
   "theorems": [
    "Verif.Args.C90_write",
    "Verif.Args.C90_write_text",
    "Verif.Args.C90_object",
    "Verif.Args.C90_options"
   ],
   "note": ""
  },
  {
   "property": "C91",
   "status": "partial",
   "theorems": [
    "Verif.Args.C91_int_partial",
    "Verif.Args.C91_text_partial",
    "Verif.Args.C91_texts_partial",
    "Verif.Args.C91_refuted_double",
    "Verif.Args.C91_double"
   ],
   "note": "Proved for integer, text, switch and file arguments (C91_int_partial, C91_text_partial, C91_texts_partial); false of the code for double arguments, whose options can be set but never read (C91_refuted_double). What happens with double arguments instead: C91_double."
  },
  {
   "property": "C92",
   "status": "partial",
   "theorems": [
    "Verif.Args.C92_add_partial",
    "Verif.Args.C92_unknown",
    "Verif.Args.C92_refuted_double",
    "Verif.Args.C92_double"
   ],
   "note": "Proved for integer, text, switch and file arguments and unknown kinds; false of the code for double arguments (C92_refuted_double). What happens with double arguments instead: C92_double."
  },
  {
   "property": "C93",
   "status": "proved",
   "theorems": [
    "Verif.Mat.C93_get_col",
    "Verif.Mat.C93_get_row",
    "Verif.Mat.C93_set_col",
    "Verif.Mat.C93_set_row",
    "Verif.Mat.C93_swap_col",
    "Verif.Mat.C93_swap_row",
    "Verif.Mat.C93_move_col",
    "Verif.Mat.C93_move_row",
    "Verif.Mat.C93_getCol"
   ],
   "note": ""
  },
  {
   "property": "C94",
   "status": "proved",
   "theorems": [
    "Verif.Mat.C94_set_rows",
    "Verif.Mat.C94_set_cols",
    "Verif.Mat.C94_set_shel"
   ],
   "note": ""
  },
  {
   "property": "C95",
   "status": "proved",
   "theorems": [
    "Verif.Strings.C95_removeSpace",
    "Verif.Strings.C95_isAlphabetical",
    "Verif.Strings.C95_one_sided"
   ],
   "note": ""
  },
  {
   "property": "C96",
   "status": "proved",
   "theorems": [
    "Verif.Strings.C96_last_of"
   ],
   "note": ""
  },
  {
   "property": "C97",
   "status": "proved",
   "theorems": [
    "Verif.Args.C97_ext_default",
    "Verif.Args.C97_ext_one",
    "Verif.Args.C97_ext_set",
    "Verif.Args.C97_ext_validates",
    "Verif.Args.C97_ext_setters",
    "Verif.Args.C97_sister_setters",
    "Verif.Args.C97_sister_supported"
   ],
   "note": ""
  },
  {
   "property": "C98",
   "status": "proved",
   "theorems": [
    "Verif.Mat.C98_set_elem",
    "Verif.Mat.C98_total"
   ],
   "note": ""
  },
  {
   "property": "C99",
   "status": "proved",
   "theorems": [
    "Verif.C99_files",
    "Verif.C99_files_cp",
    "Verif.C99_report",
    "Verif.C99_calcJ",
    "Verif.C99_plain",
    "Verif.C99_aligned",
    "Verif.C99_aligned_cp"
   ],
   "note": ""
  },
  {
   "property": "C100",
   "status": "proved",
   "theorems": [
    "Verif.C100_atom_order",
    "Verif.C100_atom_order_cp"
   ],
   "note": ""
  },
  {
   "property": "C101",
   "status": "proved",
   "theorems": [
    "Verif.C101_dimer_phases",
    "Verif.C101_dimer_phases_cp",
    "Verif.C101_first_phase",
    "Verif.C101_second_phase",
    "Verif.C101_first_phase_cp",
    "Verif.C101_second_phase_cp"
   ],
   "note": ""
  },
  {
   "property": "C102",
   "status": "proved",
   "theorems": [
    "Verif.Args.C102_values",
    "Verif.Args.C102_defaults",
    "Verif.Args.C102_switch_default",
    "Verif.Args.C102_unset"
   ],
   "note": ""
  },
  {
   "property": "C103",
   "status": "proved",
   "theorems": [
    "Verif.C103_numbers",
    "Verif.C103_numbers_cp"
   ],
   "note": ""
  },
  {
   "property": "C104",
   "status": "proved",
   "theorems": [
    "Verif.C104_order",
    "Verif.C104_rearranged"
   ],
   "note": ""
  },
  {
   "property": "C105",
   "status": "proved",
   "theorems": [
    "Verif.C105_report",
    "Verif.C105_calcJ",
    "Verif.C105_exact",
    "Verif.C105_numbers",
    "Verif.C105_numbers_cp"
   ],
   "note": ""
  },
  {
   "property": "C106",
   "status": "proved",
   "theorems": [
    "Verif.Args.C106_accepts",
    "Verif.Args.C106_outcomes",
    "Verif.Args.C106_set_int",
    "Verif.Args.C106_set_double",
    "Verif.Args.C106_set_choices",
    "Verif.Args.C106_set_must",
    "Verif.Args.C106_set_exts",
    "Verif.Args.C106_defaults"
   ],
   "note": ""
  },
  {
   "property": "C107",
   "status": "proved",
   "theorems": [
    "Verif.QC.C107_order_one",
    "Verif.QC.C107_order",
    "Verif.QC.C107_unscramble_one",
    "Verif.QC.C107_unscramble"
   ],
   "note": ""
  },
  {
   "property": "C108",
   "status": "proved",
   "theorems": [
    "Verif.Heap.C108_names",
    "Verif.Heap.C108_stay_equal"
   ],
   "note": ""
  },
  {
   "property": "C109",
   "status": "proved",
   "theorems": [
    "Verif.QC.C109_rank",
    "Verif.QC.C109_rank_alpha"
   ],
   "note": ""
  },
  {
   "property": "C110",
   "status": "proved",
   "theorems": [
    "Verif.QC.C110_calcJ",
    "Verif.QC.C110_job"
   ],
   "note": ""
  },
  {
   "property": "C111",
   "status": "proved",
   "theorems": [
    "Verif.Readers.C111_readers",
    "Verif.C111_outcome",
    "Verif.C111_seen"
   ],
   "note": ""
  },
  {
   "property": "C112",
   "status": "proved",
   "theorems": [
    "Verif.Readers.C112_pun",
    "Verif.Readers.C112_log",
    "Verif.C112_run"
   ],
   "note": ""
  },
  {
   "property": "C113",
   "status": "proved",
   "theorems": [
    "Verif.Ints.C113_access",
    "Verif.Ints.C113_constructor",
    "Verif.Ints.C113_operations",
    "Verif.Ints.C113_transfer",
    "Verif.Ints.C113_calcJ",
    "Verif.Ints.C113_limit"
   ],
   "note": ""
  },
  {
   "property": "C114",
   "status": "proved",
   "theorems": [
    "Verif.Readers.C114_items",
    "Verif.Readers.C114_pieces"
   ],
   "note": ""
  },
  {
   "property": "C115",
   "status": "proved",
   "theorems": [
    "Verif.Readers.C115_overlap",
    "Verif.Readers.C115_energies",
    "Verif.Readers.C115_atoms",
    "Verif.Readers.C115_coefs"
   ],
   "note": ""
  },
  {
   "property": "C116",
   "status": "proved",
   "theorems": [
    "Verif.QC.C116_merge_cols",
    "Verif.QC.C116_merge_cols_fails",
    "Verif.QC.C116_merge_rows",
    "Verif.QC.C116_merge_rows_fails",
    "Verif.QC.C116_split_cols",
    "Verif.QC.C116_split_rows",
    "Verif.QC.C116_merge_target"
   ],
   "note": ""
  },
  {
   "property": "C117",
   "status": "proved",
   "theorems": [
    "Verif.Readers.C117_bad_row",
    "Verif.Readers.C117_endless",
    "Verif.Readers.C117_cases"
   ],
   "note": ""
  },
  {
   "property": "C118",
   "status": "proved",
   "theorems": [
    "Verif.Readers.C118_parts"
   ],
   "note": ""
  },
  {
   "property": "C119",
   "status": "proved",
   "theorems": [
    "Verif.Readers.C119_says",
    "Verif.Readers.C119_fails",
    "Verif.Readers.C119_endless",
    "Verif.Readers.C119_cases",
    "Verif.Readers.C119_one"
   ],
   "note": ""
  },
  {
   "property": "C120",
   "status": "proved",
   "theorems": [
    "Verif.LogLines.C120_says",
    "Verif.LogLines.C120_fails",
    "Verif.LogLines.C120_endless",
    "Verif.LogLines.C120_cases",
    "Verif.LogLines.C120_one"
   ],
   "note": ""
  },
  {
   "property": "C121",
   "status": "proved",
   "theorems": [
    "Verif.QC.C121_coef_one",
    "Verif.QC.C121_overlap_one",
    "Verif.QC.C121_coef_two",
    "Verif.QC.C121_overlap_two"
   ],
   "note": ""
  },
  {
   "property": "C122",
   "status": "proved",
   "theorems": [
    "Verif.Run.C122_reading",
    "Verif.Run.C122_run",
    "Verif.Run.C122_edges",
    "Verif.Run.C122_undefined",
    "Verif.Run.C122_spins",
    "Verif.Run.C122_command_line",
    "Verif.Run.C122_total"
   ],
   "note": ""
  },
  {
   "property": "C123",
   "status": "proved",
   "theorems": [
    "Verif.Readers.C123_pun",
    "Verif.Readers.C123_pun_stops",
    "Verif.Readers.C123_pun_cases",
    "Verif.Readers.C123_pun_again",
    "Verif.Readers.C123_failed",
    "Verif.LogLines.C123_log",
    "Verif.LogLines.C123_log_stops",
    "Verif.LogLines.C123_log_cases",
    "Verif.LogLines.C123_log_again",
    "Verif.LogLines.C123_log_lost"
   ],
   "note": ""
  },
  {
   "property": "C124",
   "status": "proved",
   "theorems": [
    "Verif.Run.C124_takes",
    "Verif.Run.C124_parameters",
    "Verif.Run.C124_line",
    "Verif.Run.C124_total"
   ],
   "note": ""
  },
  {
   "property": "C125",
   "status": "proved",
   "theorems": [
    "Verif.Ints.C125_calculation",
    "Verif.Ints.C125_limit",
    "Verif.Ints.C125_calcJ"
   ],
   "note": ""
  },
  {
   "property": "C126",
   "status": "proved",
   "theorems": [
    "Verif.Tos.C126_precision",
    "Verif.Tos.C126_text",
    "Verif.Tos.C126_exact",
    "Verif.Tos.C126_same",
    "Verif.Tos.C126_close",
    "Verif.Tos.C126_matchCol"
   ],
   "note": ""
  },
  {
   "property": "C127",
   "status": "proved",
   "theorems": [
    "Verif.Run.C127_line",
    "Verif.Run.C127_still",
    "Verif.Run.C127_matters",
    "Verif.Run.C127_success",
    "Verif.Run.C127_unopened"
   ],
   "note": ""
  },
  {
   "property": "C128",
   "status": "proved",
   "theorems": [
    "Verif.Run.C128_writes",
    "Verif.Run.C128_total",
    "Verif.Run.C128_same",
    "Verif.Run.C128_version_first",
    "Verif.Run.C128_nothing",
    "Verif.Run.C128_help"
   ],
   "note": ""
  },
  {
   "property": "C129",
   "status": "proved",
   "theorems": [
    "Verif.Heap.C129_same",
    "Verif.Heap.C129_sound"
   ],
   "note": ""
  },
  {
   "property": "C130",
   "status": "proved",
   "theorems": [
    "Verif.Heap.C130_integral",
    "Verif.Heap.C130_calcJ",
    "Verif.Heap.C130_again",
    "Verif.Heap.C130_unscramble"
   ],
   "note": ""
  },
  {
   "property": "C131",
   "status": "proved",
   "theorems": [
    "Verif.Args.C131_throws",
    "Verif.Args.C131_unique",
    "Verif.Args.C131_sorts"
   ],
   "note": ""
  },
  {
   "property": "C132",
   "status": "proved",
   "theorems": [
    "Verif.C132_fock",
    "Verif.C132_run",
    "Verif.C132_loewdin",
    "Verif.C132_defined",
    "Verif.C132_splitting",
    "Verif.C132_returned"
   ],
   "note": ""
  },
  {
   "property": "C133",
   "status": "proved",
   "theorems": [
    "Verif.Ints.C133_limit_pun",
    "Verif.Ints.C133_ends",
    "Verif.Ints.C133_pun",
    "Verif.Ints.C133_log",
    "Verif.Ints.C133_limit",
    "Verif.Ints.C133_calcJ",
    "Verif.Ints.C133_short",
    "Verif.Ints.C133_little",
    "Verif.Ints.C133_short_run"
   ],
   "note": ""
  },
  {
   "property": "C134",
   "status": "proved",
   "theorems": [
    "Verif.Args.C134_result",
    "Verif.Args.C134_left",
    "Verif.Args.C134_beginning",
    "Verif.Args.C134_retry",
    "Verif.Args.C134_not_atomic",
    "Verif.Args.C134_switch_text",
    "Verif.Args.C134_wrong_path",
    "Verif.Args.C134_argument",
    "Verif.Args.C134_setters"
   ],
   "note": ""
  },
  {
   "property": "C135",
   "status": "proved",
   "theorems": [
    "Verif.Args.C135_lasting",
    "Verif.Args.C135_apart",
    "Verif.Args.C135_copied",
    "Verif.Args.C135_values",
    "Verif.Args.C135_unshared",
    "Verif.Args.C135_objects",
    "Verif.Args.C135_leak",
    "Verif.Args.C135_call",
    "Verif.Args.C135_read",
    "Verif.Args.C135_others",
    "Verif.Args.C135_reached",
    "Verif.Args.C135_self",
    "Verif.Args.C135_make",
    "Verif.Args.C135_copy",
    "Verif.Args.C135_assign",
    "Verif.Args.C135_shares",
    "Verif.Args.C135_agree",
    "Verif.Args.C135_not_independent",
    "Verif.Args.C135_not_same",
    "Verif.Args.C135_renewed",
    "Verif.Args.C135_lost"
   ],
   "note": ""
  },
  {
   "property": "C136",
   "status": "proved",
   "theorems": [
    "Verif.C136_counterpoise",
    "Verif.C136_monomers"
   ],
   "note": ""
  },
  {
   "property": "C137",
   "status": "proved",
   "theorems": [
    "Verif.C137_rechosen"
   ],
   "note": ""
  },
  {
   "property": "C138",
   "status": "proved",
   "theorems": [
    "Verif.C138_halves",
    "Verif.C138_range",
    "Verif.C138_run"
   ],
   "note": ""
  },
  {
   "property": "C139",
   "status": "proved",
   "theorems": [
    "Verif.C139_localised",
    "Verif.C139_fock"
   ],
   "note": ""
  },
  {
   "property": "C140",
   "status": "proved",
   "theorems": [
    "Verif.QC.C140_agrees",
    "Verif.QC.C140_stays",
    "Verif.QC.C140_checked",
    "Verif.QC.C140_questions",
    "Verif.QC.C140_warning",
    "Verif.TransferLeftEx.C140_not_twice",
    "Verif.TransferLeftEx.C140_not_retry",
    "Verif.TransferLeftEx.C140_silent",
    "Verif.QC.C140_throws",
    "Verif.QC.C140_throws_cp",
    "Verif.QC.C140_retry",
    "Verif.QC.C140_in_order",
    "Verif.QC.C140_in_order_cp",
    "Verif.C140_run"
   ],
   "note": ""
  },
  {
   "property": "C141",
   "status": "proved",
   "theorems": [
    "Verif.Crlf.C141_pun",
    "Verif.Crlf.C141_log_same",
    "Verif.Crlf.C141_log_never",
    "Verif.Crlf.C141_log_refused",
    "Verif.Crlf.C141_short",
    "Verif.Crlf.C141_calc_J"
   ],
   "note": ""
  },
  {
   "property": "C142",
   "status": "proved",
   "theorems": [
    "Verif.CutOff.C142_cut",
    "Verif.CutOff.C142_pun_between",
    "Verif.CutOff.C142_pun_line_end",
    "Verif.CutOff.C142_pun_title",
    "Verif.CutOff.C142_pun_again",
    "Verif.CutOff.C142_log_between",
    "Verif.CutOff.C142_log_refused",
    "Verif.CutOff.C142_log_energies",
    "Verif.CutOff.C142_log_energy_line",
    "Verif.CutOff.C142_log_no_row",
    "Verif.CutOff.C142_log_fewer_rows",
    "Verif.CutOff.C142_log_zeros",
    "Verif.CutOff.C142_wrong_coefs",
    "Verif.CutOff.C142_no_end",
    "Verif.CutOff.C142_fewer_energies",
    "Verif.CutOff.C142_half_number",
    "Verif.CutOff.C142_zero_norm",
    "Verif.CutOff.C142_two_rows"
   ],
   "note": ""
  },
  {
   "property": "C143",
   "status": "proved",
   "theorems": [
    "Verif.C143_two_levels",
    "Verif.C143_levels",
    "Verif.C143_loewdin",
    "Verif.C143_run"
   ],
   "note": ""
  },
  {
   "property": "C144",
   "status": "proved",
   "theorems": [
    "Verif.C144_rounded",
    "Verif.C144_zero",
    "Verif.C144_close",
    "Verif.C144_coefs",
    "Verif.C144_energies",
    "Verif.C144_run",
    "Verif.C144_run_rounded"
   ],
   "note": ""
  },
  {
   "property": "C145",
   "status": "proved",
   "theorems": [
    "Verif.C145_report",
    "Verif.C145_calcJ",
    "Verif.C145_size",
    "Verif.C145_numbers",
    "Verif.C145_numbers_cp"
   ],
   "note": ""
  },
  {
   "property": "C146",
   "status": "proved",
   "theorems": [
    "Verif.C146_sound",
    "Verif.C146_run",
    "Verif.C146_accurate",
    "Verif.C146_true"
   ],
   "note": ""
  },
  {
   "property": "C147",
   "status": "proved",
   "theorems": [
    "Verif.C147_report",
    "Verif.C147_run"
   ],
   "note": ""
  },
  {
   "property": "C148",
   "status": "proved",
   "theorems": [
    "Verif.C148_run",
    "Verif.C148_calcJ"
   ],
   "note": ""
  },
  {
   "property": "C149",
   "status": "proved",
   "theorems": [
    "Verif.C149_swap",
    "Verif.C149_assoc",
    "Verif.C149_report_cp",
    "Verif.C149_report",
    "Verif.ExchangeEx.C149_inexact",
    "Verif.C149_numbers"
   ],
   "note": ""
  },
  {
   "property": "C150",
   "status": "proved",
   "theorems": [
    "Verif.C150_report",
    "Verif.C150_run",
    "Verif.C150_close"
   ],
   "note": ""
  },
  {
   "property": "C151",
   "status": "proved",
   "theorems": [
    "Verif.C151_same",
    "Verif.C151_nan",
    "Verif.C151_run",
    "Verif.C151_report",
    "Verif.C151_run_when"
   ],
   "note": ""
  },
  {
   "property": "C152",
   "status": "proved",
   "theorems": [
    "Verif.Run.C152_parameters",
    "Verif.Run.C152_mistake",
    "Verif.Run.C152_reads",
    "Verif.Run.C152_listed"
   ],
   "note": ""
  },
  {
   "property": "C153",
   "status": "proved",
   "theorems": [
    "Verif.C153_report",
    "Verif.C153_run"
   ],
   "note": ""
  },
  {
   "property": "C154",
   "status": "proved",
   "theorems": [
    "Verif.Chatter.C154_inserted",
    "Verif.Chatter.C154_pun",
    "Verif.Chatter.C154_log",
    "Verif.Chatter.C154_run",
    "Verif.Chatter.C154_heading"
   ],
   "note": ""
  },
  {
   "property": "C155",
   "status": "proved",
   "theorems": [
    "Verif.SameContents.C155_same",
    "Verif.SameContents.C155_outcomes"
   ],
   "note": ""
  },
  {
   "property": "C156",
   "status": "proved",
   "theorems": [
    "Verif.Joined.C156_pun",
    "Verif.Joined.C156_log",
    "Verif.Joined.C156_pun_read",
    "Verif.Joined.C156_log_read",
    "Verif.Joined.C156_run"
   ],
   "note": ""
  },
  {
   "property": "C157",
   "status": "proved",
   "theorems": [
    "Verif.Sectioned.C157_pun",
    "Verif.Sectioned.C157_log",
    "Verif.Sectioned.C157_run"
   ],
   "note": ""
  }
 ]
}