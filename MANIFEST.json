{
 "claims": [
  {
   "property": "C01",
   "status": "proved",
   "theorems": [
    "Wulfric.C01_meaning",
    "Wulfric.C01_default",
    "Wulfric.C01_reject",
    "Wulfric.C01_trichotomy",
    "Wulfric.C01_complement",
    "Wulfric.C01_swap",
    "Wulfric.C01_trans",
    "Wulfric.C01_mono",
    "Wulfric.C01_eq_not_transitive"
   ],
   "note": "over every linearly ordered field"
  },
  {
   "property": "C02",
   "status": "proved",
   "theorems": [
    "Wulfric.C02_error_iff",
    "Wulfric.C02_dual_unique"
   ],
   "note": ""
  },
  {
   "property": "C03",
   "status": "proved",
   "theorems": [
    "Wulfric.C03_involution",
    "Wulfric.C03_volume",
    "Wulfric.C03_change_of_basis"
   ],
   "note": ""
  },
  {
   "property": "C04",
   "status": "proved",
   "theorems": [
    "Wulfric.C04_recovers",
    "Wulfric.C04_compose",
    "Wulfric.C04_identity",
    "Wulfric.C04_error_iff"
   ],
   "note": ""
  },
  {
   "property": "C05",
   "status": "proved",
   "theorems": [
    "Wulfric.C05_realises",
    "Wulfric.C05_errors"
   ],
   "note": "exact real arithmetic"
  },
  {
   "property": "C06",
   "status": "proved",
   "theorems": [
    "Wulfric.C06_metric",
    "Wulfric.C06_defined"
   ],
   "note": "exact real arithmetic"
  },
  {
   "property": "C07",
   "status": "proved",
   "theorems": [
    "Wulfric.C07_forms_agree",
    "Wulfric.C07_nonneg",
    "Wulfric.C07_lattice_invariant",
    "Wulfric.C07_count"
   ],
   "note": "the six-argument form for every cell get_params accepts"
  },
  {
   "property": "C08",
   "status": "proved",
   "theorems": [
    "Wulfric.C08_error_iff",
    "Wulfric.C08_spec",
    "Wulfric.C08_radians",
    "Wulfric.C08_symm",
    "Wulfric.C08_rescale",
    "Wulfric.C08_supplement"
   ],
   "note": ""
  },
  {
   "property": "C09",
   "status": "proved",
   "theorems": [
    "Wulfric.C09_exact",
    "Wulfric.C09_sound",
    "Wulfric.C09_monotone",
    "Wulfric.C09_raise",
    "Wulfric.C09_order"
   ],
   "note": ""
  },
  {
   "property": "C10",
   "status": "proved",
   "theorems": [
    "Wulfric.C10_accuracy",
    "Wulfric.C10_reconstruct",
    "Wulfric.C10_on_axis",
    "Wulfric.C10_degrees",
    "Wulfric.C10_not_orthogonal"
   ],
   "note": "for orthogonal polar axis and radial line; C10_not_orthogonal shows what happens otherwise"
  },
  {
   "property": "C11",
   "status": "proved",
   "theorems": [
    "Wulfric.C11_core",
    "Wulfric.C11_same_lattice"
   ],
   "note": "all cells, tolerances, limits and paths"
  },
  {
   "property": "C12",
   "status": "proved",
   "theorems": [
    "Wulfric.C12_limit",
    "Wulfric.C12_monotone",
    "Wulfric.C12_negative"
   ],
   "note": ""
  },
  {
   "property": "C13",
   "status": "partial",
   "theorems": [
    "Wulfric.C13_reduced_partial",
    "Wulfric.C13_getNiggli_partial",
    "Wulfric.C13_not_reduced"
   ],
   "note": "proved for separated (commensurate) scalar products and, for every cell, below a cell-dependent tolerance (C14_small_tolerance); refuted in general by C13_not_reduced with the default tolerance"
  },
  {
   "property": "C14",
   "status": "proved",
   "theorems": [
    "Wulfric.C14_total",
    "Wulfric.C14_getNiggli",
    "Wulfric.C14_small_tolerance",
    "Wulfric.C14_never_returns"
   ],
   "note": "plus C14_small_tolerance for every cell; C14_never_returns shows that the separation hypothesis is needed"
  },
  {
   "property": "C15",
   "status": "partial",
   "theorems": [
    "Wulfric.C15_handedness_partial",
    "Wulfric.C15_flips"
   ],
   "note": "proved for separated scalar products; refuted in general by C15_flips"
  },
  {
   "property": "C16",
   "status": "proved",
   "theorems": [
    "Wulfric.C16_fixed_point",
    "Wulfric.C16_fixed_point_exact",
    "Wulfric.C16_idempotent",
    "Wulfric.C16_margin",
    "Wulfric.C16_margin_getNiggli"
   ],
   "note": "C16_margin and C16_margin_getNiggli: the same without commensurability, for cells that meet the conditions with a margin above the tolerance"
  },
  {
   "property": "C17",
   "status": "proved",
   "theorems": [
    "Wulfric.C17_shortest",
    "Wulfric.C17_lengths_invariant"
   ],
   "note": ""
  },
  {
   "property": "C18",
   "status": "proved",
   "theorems": [
    "Wulfric.C18_errors"
   ],
   "note": ""
  },
  {
   "property": "C19",
   "status": "proved",
   "theorems": [
    "Wulfric.C19_flat",
    "Wulfric.C19_mem",
    "Wulfric.C19_nodup",
    "Wulfric.C19_nested"
   ],
   "note": ""
  },
  {
   "property": "C20",
   "status": "proved",
   "theorems": [
    "Wulfric.C20_inversion",
    "Wulfric.C20_centre"
   ],
   "note": "what the code hands to scipy's Voronoi; the Voronoi tessellation itself is not modelled"
  },
  {
   "property": "C21",
   "status": "proved",
   "theorems": [
    "Wulfric.C21_wellformed",
    "Wulfric.C21_answers"
   ],
   "note": "for any tessellation data; the empty edge set raises IndexError"
  },
  {
   "property": "C22",
   "status": "proved",
   "theorems": [
    "Wulfric.C22_contents",
    "Wulfric.C22_reads_agree",
    "Wulfric.C22_attr",
    "Wulfric.C22_plain_dict",
    "Wulfric.C22_shadowed",
    "Wulfric.C22_delete_missing"
   ],
   "note": "for keys that are not names of dict methods; C22_shadowed and C22_delete_missing show the exceptions"
  },
  {
   "property": "C23",
   "status": "proved",
   "theorems": [
    "Wulfric.C23_add",
    "Wulfric.C23_remove",
    "Wulfric.C23_inverse",
    "Wulfric.C23_not_dict"
   ],
   "note": ""
  },
  {
   "property": "C24",
   "status": "proved",
   "theorems": [
    "Wulfric.C24_wrapped",
    "Wulfric.C24_same_crystal",
    "Wulfric.C24_idempotent",
    "Wulfric.C24_no_positions"
   ],
   "note": ""
  },
  {
   "property": "C25",
   "status": "proved",
   "theorems": [
    "Wulfric.C25_minimal",
    "Wulfric.C25_nonneg",
    "Wulfric.C25_unchanged",
    "Wulfric.C25_idempotent",
    "Wulfric.C25_single_list"
   ],
   "note": "C25_single_list: a single atom given as a list raises TypeError"
  },
  {
   "property": "C26",
   "status": "proved",
   "theorems": [
    "Wulfric.C26_centre",
    "Wulfric.C26_absolute",
    "Wulfric.C26_errors",
    "Wulfric.C26_idempotent"
   ],
   "note": ""
  },
  {
   "property": "C27",
   "status": "proved",
   "theorems": [
    "Wulfric.C27_defined",
    "Wulfric.C27_value",
    "Wulfric.C27_additive",
    "Wulfric.C27_antisymm",
    "Wulfric.C27_shift",
    "Wulfric.C27_distance_symm",
    "Wulfric.C27_distance_zero",
    "Wulfric.C27_triangle"
   ],
   "note": ""
  },
  {
   "property": "C28",
   "status": "proved",
   "theorems": [
    "Wulfric.C28_decides",
    "Wulfric.C28_raises",
    "Wulfric.C28_modes",
    "Wulfric.C28_species"
   ],
   "note": "python values are modelled as a tree of lists, arrays, strings, numbers"
  },
  {
   "property": "C29",
   "status": "proved",
   "theorems": [
    "Wulfric.C29_elements",
    "Wulfric.C29_every_element",
    "Wulfric.C29_two_letters",
    "Wulfric.C29_one_letter",
    "Wulfric.C29_none",
    "Wulfric.C29_sound",
    "Wulfric.C29_indexed",
    "Wulfric.C29_atoms"
   ],
   "note": "for any lower-casing function"
  },
  {
   "property": "C30",
   "status": "partial",
   "theorems": [
    "Wulfric.C30_strategy",
    "Wulfric.C30_already_unique",
    "Wulfric.C30_all_shape",
    "Wulfric.C30_repeated_shape",
    "Wulfric.C30_all_partial",
    "Wulfric.C30_all_short_partial",
    "Wulfric.C30_repeated_partial",
    "Wulfric.C30_all_collision",
    "Wulfric.C30_repeated_collision"
   ],
   "note": "false in general (C30_all_collision, C30_repeated_collision); proved for names that do not end with a digit"
  },
  {
   "property": "C31",
   "status": "proved",
   "theorems": [
    "Wulfric.C31_identifiers",
    "Wulfric.C31_rank",
    "Wulfric.C31_equal",
    "Wulfric.C31_range",
    "Wulfric.C31_given",
    "Wulfric.C31_missing"
   ],
   "note": ""
  },
  {
   "property": "C32",
   "status": "proved",
   "theorems": [
    "Wulfric.C32_iff",
    "Wulfric.C32_same",
    "Wulfric.C32_order"
   ],
   "note": ""
  },
  {
   "property": "C33",
   "status": "proved",
   "theorems": [
    "Wulfric.C33_values",
    "Wulfric.C33_others",
    "Wulfric.C33_symbols"
   ],
   "note": "the whole tables, every integer key"
  },
  {
   "property": "C34",
   "status": "partial",
   "theorems": [
    "Wulfric.C34_hpkot_partial",
    "Wulfric.C34_sc",
    "Wulfric.C34_hR_wrong"
   ],
   "note": "proved for every Bravais type except HPKOT hR, where it is false (C34_hR_wrong)"
  },
  {
   "property": "C35",
   "status": "proved",
   "theorems": [
    "Wulfric.C35_rint",
    "Wulfric.C35_round",
    "Wulfric.C35_kept",
    "Wulfric.C35_wrong_number",
    "Wulfric.C35_defined",
    "Wulfric.C35_not_transitive",
    "Wulfric.C35_not_periodic"
   ],
   "note": "C35_not_transitive and C35_not_periodic show where closeness is not an equivalence"
  },
  {
   "property": "C36",
   "status": "proved",
   "theorems": [
    "Wulfric.C36_crystal",
    "Wulfric.C36_lattice",
    "Wulfric.C36_triclinic_hpkot",
    "Wulfric.C36_types",
    "Wulfric.C36_unchanged",
    "Wulfric.C36_unsupported",
    "Wulfric.C36_defined"
   ],
   "note": "HPKOT triclinic: the lattice is kept when the Niggli reduction keeps it, and the handedness follows that of the reduction (C36_triclinic_hpkot)"
  },
  {
   "property": "C37",
   "status": "proved",
   "theorems": [
    "Wulfric.C37_orthorhombic",
    "Wulfric.C37_base_centred",
    "Wulfric.C37_monoclinic",
    "Wulfric.C37_monoclinic_error"
   ],
   "note": "ties raise PotentialBugError; a monoclinic C cell whose unique axis is not spglib's raises (C37_monoclinic_error)"
  },
  {
   "property": "C38",
   "status": "proved",
   "theorems": [
    "Wulfric.C38_sc",
    "Wulfric.C38_hpkot"
   ],
   "note": "HPKOT: given that the Niggli reduction returns; lengths above machine epsilon"
  },
  {
   "property": "C39",
   "status": "partial",
   "theorems": [
    "Wulfric.C39_equal_angles_partial",
    "Wulfric.C39_raises",
    "Wulfric.C39_third_branch",
    "Wulfric.C39_lengths",
    "Wulfric.C39_witness"
   ],
   "note": "false for one of the sign patterns (C39_raises, C39_witness); proved for the others"
  },
  {
   "property": "C40",
   "status": "proved",
   "theorems": [
    "Wulfric.C40_symbol",
    "Wulfric.C40_total",
    "Wulfric.C40_unique",
    "Wulfric.C40_prefix",
    "Wulfric.C40_oF3",
    "Wulfric.C40_oF3_order"
   ],
   "note": "the definition of oF3 in the paper needs a <= b (C40_oF3); without it the code returns oF3 although the inequality fails (C40_oF3_order)"
  },
  {
   "property": "C41",
   "status": "proved",
   "theorems": [
    "Wulfric.C41_variation",
    "Wulfric.C41_boundary",
    "Wulfric.C41_mclc",
    "Wulfric.C41_unique",
    "Wulfric.C41_prefix",
    "Wulfric.C41_tri_alone"
   ],
   "note": "C41_tri_alone: the triclinic helper alone can return None or TRI; unreachable through the API"
  },
  {
   "property": "C42",
   "status": "proved",
   "theorems": [
    "Wulfric.C42_list_string_list",
    "Wulfric.C42_string_list_string",
    "Wulfric.C42_meaning",
    "Wulfric.C42_rejected",
    "Wulfric.C42_total",
    "Wulfric.C42_empty",
    "Wulfric.C42_path_string"
   ],
   "note": "the empty string is rejected although get_path_as_string([]) returns it (C42_empty)"
  },
  {
   "property": "C43",
   "status": "partial",
   "theorems": [
    "Wulfric.C43_plottable_partial",
    "Wulfric.C43_relative",
    "Wulfric.C43_same_label",
    "Wulfric.C43_aP2_origin"
   ],
   "note": "all but the distinct coordinates of neighbours (C59 says exactly when they differ), which is false for aP2: its point Z is at the origin and the path has the step GAMMA-Z (C43_aP2_origin); the labels of F3 and F4 are equal (C43_same_label) but no table has both"
  },
  {
   "property": "C44",
   "status": "proved",
   "theorems": [
    "Wulfric.C44_inversion",
    "Wulfric.C44_doubled"
   ],
   "note": ""
  },
  {
   "property": "C45",
   "status": "proved",
   "theorems": [
    "Wulfric.C45_history",
    "Wulfric.C45_no_removal",
    "Wulfric.C45_assign",
    "Wulfric.C45_assign_string",
    "Wulfric.C45_unknown",
    "Wulfric.C45_add",
    "Wulfric.C45_remove_breaks",
    "Wulfric.C45_repeated",
    "Wulfric.C45_shared",
    "Wulfric.C45_few_points",
    "Wulfric.C45_from_crystal",
    "Wulfric.C45_spglib"
   ],
   "note": "C45_remove_breaks, C45_repeated and C45_shared show how the invariant is lost: removing a point of the path, repeated names, two objects sharing one list of names"
  },
  {
   "property": "C46",
   "status": "proved",
   "theorems": [
    "Wulfric.C46_n",
    "Wulfric.C46_steps",
    "Wulfric.C46_points",
    "Wulfric.C46_ends",
    "Wulfric.C46_absolute",
    "Wulfric.C46_small",
    "Wulfric.C46_flat",
    "Wulfric.C46_increments"
   ],
   "note": "for n >= 0; C46_small gives the outcome for negative n and for an empty path"
  },
  {
   "property": "C47",
   "status": "proved",
   "theorems": [
    "Wulfric.C47_ticks",
    "Wulfric.C47_aligned",
    "Wulfric.C47_labels",
    "Wulfric.C47_same_length"
   ],
   "note": ""
  },
  {
   "property": "C48",
   "status": "proved",
   "theorems": [
    "Wulfric.C48_precision",
    "Wulfric.C48_round_trip",
    "Wulfric.C48_carriage_return",
    "Wulfric.C48_number_species",
    "Wulfric.C48_unknown_name"
   ],
   "note": "character by character, for species that are single words and not all numbers; C48_precision gives the rounding of other numbers; C48_carriage_return, C48_number_species and C48_unknown_name show where the code fails"
  },
  {
   "property": "C49",
   "status": "partial",
   "theorems": [
    "Wulfric.C49_positive_partial",
    "Wulfric.C49_negative_wrong",
    "Wulfric.C49_three_wrong"
   ],
   "note": "proved for positive scales; refuted for a negative scale (C49_negative_wrong) and for three scales (C49_three_wrong)"
  },
  {
   "property": "C50",
   "status": "proved",
   "theorems": [
    "Wulfric.C50_terminates",
    "Wulfric.C50_removes",
    "Wulfric.C50_types",
    "Wulfric.C50_result",
    "Wulfric.C50_delta",
    "Wulfric.C50_sound",
    "Wulfric.C50_worst_twin",
    "Wulfric.C50_zero_tolerance",
    "Wulfric.C50_rotation",
    "Wulfric.C50_elongated"
   ],
   "note": "C50_elongated and C50_worst_twin show why tall tetragonal cells are reported as monoclinic or triclinic; C50_zero_tolerance: TRI for every lattice. The exceptions the code raises for other determinants are modelled as errors"
  },
  {
   "property": "C51",
   "status": "proved",
   "theorems": [
    "Wulfric.C51_primitive",
    "Wulfric.C51_lattice",
    "Wulfric.C51_params",
    "Wulfric.C51_rhombohedral",
    "Wulfric.C51_rhombohedral_error",
    "Wulfric.C51_triclinic",
    "Wulfric.C51_names",
    "Wulfric.C51_variation"
   ],
   "note": "Every constructor gives a primitive cell of the lattice whose conventional cell has the requested parameters; RHL for every angle, with the error branch; TRI through the cell from parameters, with and without input_reciprocal. sc_get_example accepts exactly the documented names in any case. Every example outside TRI has its variation by the definition of the convention. The variation of the four TRI examples is not proved: it depends on the Niggli reduction of spglib, and TRI1a sits on a tie of that reduction."
  },
  {
   "property": "C52",
   "status": "proved",
   "theorems": [
    "Wulfric.C52_criterion",
    "Wulfric.C52_brillouin",
    "Wulfric.C52_reduced",
    "Wulfric.C52_lattice",
    "Wulfric.C52_not_general"
   ],
   "note": "C52_reduced, C52_criterion, C52_brillouin; C52_not_general: false for a very skew cell with the code's n = 10"
  },
  {
   "property": "C53",
   "status": "partial",
   "theorems": [
    "Wulfric.C53_lattice_partial",
    "Wulfric.C53_atoms",
    "Wulfric.C53_spglib"
   ],
   "note": "lattice: false for HPKOT hR (C34_hR_wrong), proved for every other type and for SC; atoms: proved"
  },
  {
   "property": "C54",
   "status": "proved",
   "theorems": [
    "Wulfric.C54_scalar_products",
    "Wulfric.C54_invariant"
   ],
   "note": ""
  },
  {
   "property": "C55",
   "status": "partial",
   "theorems": [
    "Wulfric.C55_hpkot",
    "Wulfric.C55_sc_partial",
    "Wulfric.C55_niggli",
    "Wulfric.C55_F3_outside",
    "Wulfric.C55_N_outside",
    "Wulfric.C55_oF3_outside",
    "Wulfric.C55_from_spglib_partial"
   ],
   "note": "HPKOT: proved for all lattices with spglib's cell in its standard setting (StandardCell), the triclinic ones when the Niggli reduction returns a reduced cell (C55_niggli); C55_oF3_outside shows that the condition on oF cells is needed. SC: proved with the conventional cell in the SC shape (ScCell) and off the wrong side of the variations that stand for an equality (TieMet); the exceptions are refuted by C55_F3_outside and C55_N_outside"
  },
  {
   "property": "C56",
   "status": "proved",
   "theorems": [
    "Wulfric.C56_lines",
    "Wulfric.C56_load"
   ],
   "note": "The mode line must not start with the Kelvin sign, whose lower case letter is k"
  },
  {
   "property": "C57",
   "status": "proved",
   "theorems": [
    "Wulfric.C57_cubic",
    "Wulfric.C57_tetragonal",
    "Wulfric.C57_orthorhombic",
    "Wulfric.C57_hexagonal",
    "Wulfric.C57_rhombohedral",
    "Wulfric.C57_examples"
   ],
   "note": "The monoclinic and triclinic types are those of C58; the centred tetragonal and orthorhombic types are stated for the standard primitive cells"
  },
  {
   "property": "C58",
   "status": "partial",
   "theorems": [
    "Wulfric.C58_triclinic",
    "Wulfric.C58_centred_partial",
    "Wulfric.C58_primitive_partial",
    "Wulfric.C58_difference",
    "Wulfric.C58_example_mcl",
    "Wulfric.C58_unit",
    "Wulfric.C58_example_wrong",
    "Wulfric.C58_examples"
   ],
   "note": "proved for axes that are a vector of the cell, a sum of two, or have an index 2, and for lengths above the square root of twice the tolerance; refuted outside by C58_difference (with C58_example_wrong) and C58_unit; a centred lattice whose axis is a vector of the cell, with another one perpendicular to it, is missed (C92_monoclinic_missed)"
  },
  {
   "property": "C59",
   "status": "proved",
   "theorems": [
    "Wulfric.C59_hpkot",
    "Wulfric.C59_sc"
   ],
   "note": "Monoclinic lattices: with the cell in the standard shape of the convention (StandardCell for mC of HPKOT, ScCell for SC, which C60 derives from StandardCell)"
  },
  {
   "property": "C60",
   "status": "proved",
   "theorems": [
    "Wulfric.C60_shape",
    "Wulfric.C60_segments",
    "Wulfric.C60_near_right"
   ],
   "note": "Monoclinic lattices: with an angle that is exactly right or not right within the tolerance; C60_near_right shows that the condition is needed"
  },
  {
   "property": "C61",
   "status": "proved",
   "theorems": [
    "Wulfric.C61_unique",
    "Wulfric.C61_small_tolerance",
    "Wulfric.C61_decides",
    "Wulfric.C61_params"
   ],
   "note": "Separated scalar products (C61_decides, C61_params) or tolerances below a threshold (C61_small_tolerance); C61_unique holds for all reduced cells"
  },
  {
   "property": "C62",
   "status": "proved",
   "theorems": [
    "Wulfric.C62_spglib_data",
    "Wulfric.C62_cells",
    "Wulfric.C62_symbols",
    "Wulfric.C62_path_and_points",
    "Wulfric.C62_kpoints",
    "Wulfric.C62_niggli",
    "Wulfric.C62_lepage"
   ],
   "note": "get_symmetry_dataset and find_primitive of spglib are parameters; that they treat a turned input as documented is the hypothesis SameStandard (Spec/Turn.lean)"
  },
  {
   "property": "C63",
   "status": "proved",
   "theorems": [
    "Wulfric.C63_conventional",
    "Wulfric.C63_primitive",
    "Wulfric.C63_data",
    "Wulfric.C63_species",
    "Wulfric.C63_same_crystal"
   ],
   "note": "What spglib documents is the hypothesis Documented (Spec/Turn.lean). HPKOT rhombohedral primitive cells are excluded in the statement of the property (C34_hR_wrong)"
  },
  {
   "property": "C64",
   "status": "proved",
   "theorems": [
    "Wulfric.C64_only_adds",
    "Wulfric.C64_session",
    "Wulfric.C64_vector",
    "Wulfric.C64_cell",
    "Wulfric.C64_wigner_seitz",
    "Wulfric.C64_brillouin_zone",
    "Wulfric.C64_kpath",
    "Wulfric.C64_kpath_empty",
    "Wulfric.C64_kpoints",
    "Wulfric.C64_lattice",
    "Wulfric.C64_atoms",
    "Wulfric.C64_legend",
    "Wulfric.C64_no_points"
   ],
   "note": "plotly only receives the traces; scipy's Voronoi and the ordering of a set of edges are parameters"
  },
  {
   "property": "C65",
   "status": "partial",
   "theorems": [
    "Wulfric.C65_inside_partial",
    "Wulfric.C65_visible_partial",
    "Wulfric.C65_origin_partial",
    "Wulfric.C65_limits",
    "Wulfric.C65_proportion_partial",
    "Wulfric.C65_flat",
    "Wulfric.C65_legend_position",
    "Wulfric.C65_offset_hidden",
    "Wulfric.C65_kpath_hidden"
   ],
   "note": "False in general: C65_offset_hidden, C65_kpath_hidden, C65_flat. C65_visible_partial gives the exact condition for visibility whenever the points of the earlier pieces of k-paths are drawn by something else too"
  },
  {
   "property": "C66",
   "status": "proved",
   "theorems": [
    "Wulfric.C66_readable",
    "Wulfric.C66_grey",
    "Wulfric.C66_monotone",
    "Wulfric.C66_colour_only",
    "Wulfric.C66_default_colours",
    "Wulfric.C66_default_from_names",
    "Wulfric.C66_one_colour_rejected",
    "Wulfric.C66_given_colours",
    "Wulfric.C66_short_rejected",
    "Wulfric.C66_text_colours",
    "Wulfric.C66_default_table"
   ],
   "note": "The defects are part of the statement: C66_default_colours, C66_one_colour_rejected"
  },
  {
   "property": "C67",
   "status": "proved",
   "theorems": [
    "Wulfric.C67_wigner_seitz",
    "Wulfric.C67_reduced",
    "Wulfric.C67_brillouin",
    "Wulfric.C67_not_skew",
    "Wulfric.C67_drawn",
    "Wulfric.C67_drawn_brillouin"
   ],
   "note": "scipy's Voronoi is a parameter; that it describes the faces around the origin is the hypothesis VoronoiAround (Spec/Polyhedron.lean), shown to hold for the simple cubic lattice (C67_Example.lean)"
  },
  {
   "property": "C68",
   "status": "proved",
   "theorems": [
    "Wulfric.C68_convex",
    "Wulfric.C68_hpkot",
    "Wulfric.C68_sc",
    "Wulfric.C68_zone_of_lattice",
    "Wulfric.C68_drawn"
   ],
   "note": "The exceptions (SC with mC or aP) are part of the statement; they are real, see C55. Uses the standard setting of spglib's cells as a hypothesis, like C55"
  },
  {
   "property": "C69",
   "status": "proved",
   "theorems": [
    "Wulfric.C69_table",
    "Wulfric.C69_split",
    "Wulfric.C69_aligned",
    "Wulfric.C69_errors",
    "Wulfric.C69_header",
    "Wulfric.C69_default"
   ],
   "note": "The header's misalignment for short names or few decimals is part of the statement (C69_header)"
  },
  {
   "property": "C70",
   "status": "proved",
   "theorems": [
    "Wulfric.C70_logo_only",
    "Wulfric.C70_info",
    "Wulfric.C70_logo_first",
    "Wulfric.C70_rotated",
    "Wulfric.C70_not_in_order",
    "Wulfric.C70_comment"
   ],
   "note": "The defects are part of the statement: C70_rotated, C70_not_in_order, C70_comment"
  },
  {
   "property": "C71",
   "status": "proved",
   "theorems": [
    "Wulfric.C71_supported",
    "Wulfric.C71_value_error",
    "Wulfric.C71_missing_file",
    "Wulfric.C71_crystal",
    "Wulfric.C71_inversion",
    "Wulfric.C71_centring",
    "Wulfric.C71_family",
    "Wulfric.C71_short"
   ],
   "note": "The POSCAR files of the package are part of the model, character by character; every file is read by the model of load_poscar and checked in the kernel, and the checks are lifted to all inversion points and translations. That spglib assigns the extended symbol is not claimed"
  },
  {
   "property": "C72",
   "status": "partial",
   "theorems": [
    "Wulfric.C72_params",
    "Wulfric.C72_reciprocal",
    "Wulfric.C72_spglib_data",
    "Wulfric.C72_cells",
    "Wulfric.C72_symbol",
    "Wulfric.C72_variation_partial",
    "Wulfric.C72_path_and_points_partial",
    "Wulfric.C72_kpoints_partial",
    "Wulfric.C72_hpkot_unconditional",
    "Wulfric.C72_niggli_partial",
    "Wulfric.C72_niggli_refuted",
    "Wulfric.C72_lepage_partial",
    "Wulfric.C72_orcf_refuted",
    "Wulfric.C72_niggli_at"
   ],
   "note": "Missing: the variation of face-centred orthorhombic lattices with |1/a^2-1/b^2-1/c^2| below symprec in one of the units (false: C72_orcf_refuted); get_niggli for scalar products that are not separated from each other by more than the tolerance (false: C72_niggli_refuted); lepage up to the exchange of MCL, MCLC and TRI"
  },
  {
   "property": "C73",
   "status": "proved",
   "theorems": [
    "Wulfric.C73_cells",
    "Wulfric.C73_path_and_points",
    "Wulfric.C73_kpoints",
    "Wulfric.C73_atoms",
    "Wulfric.C73_species"
   ],
   "note": "That spglib returns the same standardised cells for two descriptions of one crystal is the hypothesis (SameFrame for cells, SameReply with the atoms); everything wulfric does with the answers is proved to depend on nothing else"
  },
  {
   "property": "C74",
   "status": "proved",
   "theorems": [
    "Wulfric.C74_precomputed",
    "Wulfric.C74_error",
    "Wulfric.C74_refused",
    "Wulfric.C74_convention"
   ],
   "note": "Equality of results, errors included; the data are those of get_spglib_data for the same crystal"
  },
  {
   "property": "C75",
   "status": "proved",
   "theorems": [
    "Wulfric.C75_accepted",
    "Wulfric.C75_conventional",
    "Wulfric.C75_primitive",
    "Wulfric.C75_primitive_of_conventional"
   ],
   "note": "Hypothesis: spglib gives the same answer for the returned crystal. For get_primitive also that every type of the given atoms is among the returned ones"
  },
  {
   "property": "C76",
   "status": "partial",
   "theorems": [
    "Wulfric.C76_hpkot",
    "Wulfric.C76_aP2_partial",
    "Wulfric.C76_aP2_missing",
    "Wulfric.C76_sc",
    "Wulfric.C76_aP2_witness"
   ],
   "note": "Missing: HPKOT crystals with symbol aP2, where half the third reciprocal vector is not in the table; C76_aP2_partial has the other seven classes, C76_aP2_missing refutes the rest and C76_aP2_witness is a crystal. Equivalence is that of the lattice (translations and point symmetries of the reciprocal lattice), not of the space group"
  },
  {
   "property": "C77",
   "status": "proved",
   "theorems": [
    "Wulfric.C77_conventional",
    "Wulfric.C77_primitive",
    "Wulfric.C77_spglib",
    "Wulfric.C77_hpkot_conventional",
    "Wulfric.C77_hpkot",
    "Wulfric.C77_sc",
    "Wulfric.C77_sc_conventional",
    "Wulfric.C77_sc_refused",
    "Wulfric.C77_kpoints",
    "Wulfric.C77_data"
   ],
   "note": "What spglib documents is the hypothesis SoundData; C77_data derives it from the model of get_spglib_data and Documented. HPKOT rhombohedral crystals are excluded in the statement (C34_hR_wrong). C77_sc_refused has the orthorhombic crystals that are refused"
  },
  {
   "property": "C78",
   "status": "proved",
   "theorems": [
    "Wulfric.C78_hpkot",
    "Wulfric.C78_sc"
   ],
   "note": "Equivalence is that of the lattice (translations and point symmetries of the reciprocal lattice), not of the space group"
  },
  {
   "property": "C79",
   "status": "partial",
   "theorems": [
    "Wulfric.C79_hpkot",
    "Wulfric.C79_aP2_partial",
    "Wulfric.C79_sc"
   ],
   "note": "Missing: HPKOT crystals with symbol aP2, where one class is not in the table (C76_aP2_missing); C79_aP2_partial has the other seven"
  },
  {
   "property": "C80",
   "status": "proved",
   "theorems": [
    "Wulfric.C80_once"
   ],
   "note": "No hypothesis beyond the call having returned"
  },
  {
   "property": "C81",
   "status": "proved",
   "theorems": [
    "Wulfric.C81_cell",
    "Wulfric.C81_crystal",
    "Wulfric.C81_never",
    "Wulfric.C81_reciprocal",
    "Wulfric.C81_T",
    "Wulfric.C81_returned",
    "Wulfric.C81_wrong"
   ],
   "note": "The statement describes a defect; C81_wrong refutes the documented promise for every crystal with one atom in a rhombohedral cell, C81_returned shows that the call returns for them"
  },
  {
   "property": "C82",
   "status": "proved",
   "theorems": [
    "Wulfric.C82_conventional",
    "Wulfric.C82_niggli",
    "Wulfric.C82_symbol",
    "Wulfric.C82_path"
   ],
   "note": "ReducesReciprocal is the hypothesis on the reduction; C82_niggli derives it for get_niggli from separated scalar products"
  },
  {
   "property": "C83",
   "status": "proved",
   "theorems": [
    "Wulfric.C83_primitive",
    "Wulfric.C83_conventions"
   ],
   "note": "The hypothesis on spglib is SoundData of C77 and that the primitive cell generates the centred lattice of the conventional one"
  },
  {
   "property": "C84",
   "status": "proved",
   "theorems": [
    "Wulfric.C84_unique",
    "Wulfric.C84_lists",
    "Wulfric.C84_hpkot",
    "Wulfric.C84_sc"
   ],
   "note": "Hypotheses on the shape of the cell as in C55. The lists of places are part of the specification (Spec/Places.lean); they were found by a numerical search and are proved here against the formulas of the code. Z of aP2 and F3 of MCLC1/MCLC2 are excluded in the statement; C43_aP2_origin and C55_F3_outside say where they are"
  },
  {
   "property": "C85",
   "status": "proved",
   "theorems": [
    "Wulfric.C85_again",
    "Wulfric.C85_forever"
   ],
   "note": "Hypotheses as in C48: species from the table, a time stamp that is one line, the rounded cell not flat"
  },
  {
   "property": "C86",
   "status": "proved",
   "theorems": [
    "Wulfric.C86_hpkot",
    "Wulfric.C86_sc"
   ],
   "note": "Hypotheses on the shape of the cells as in C84. Z of aP2 and F3 of MCLC1/MCLC2 are excluded in the statement. It is about exact results of nearby crystals, it does not bound the rounding errors of numpy"
  },
  {
   "property": "C87",
   "status": "partial",
   "theorems": [
    "Wulfric.C87_joined",
    "Wulfric.C87_names_partial",
    "Wulfric.C87_path",
    "Wulfric.C87_F3",
    "Wulfric.C87_readable",
    "Wulfric.C87_F3_witness"
   ],
   "note": "all names but F3 and F3_P, for which the claim is false (C87_F3); the statement on the labels of the ticks is proved in full, because no default path goes through F3"
  },
  {
   "property": "C88",
   "status": "proved",
   "theorems": [
    "Wulfric.C88_wigner_seitz",
    "Wulfric.C88_reduced",
    "Wulfric.C88_brillouin",
    "Wulfric.C88_same_lattice"
   ],
   "note": "Hypothesis on scipy's Voronoi as in C67; the volume is Lebesgue measure of the convex hull of the returned points"
  },
  {
   "property": "C89",
   "status": "proved",
   "theorems": [
    "Wulfric.C89_hpkot",
    "Wulfric.C89_sc",
    "Wulfric.C89_hpkot_points",
    "Wulfric.C89_sc_points"
   ],
   "note": "Hypotheses on the shape of the cells as in C55 and on scipy's Voronoi as in C67; the exceptions for the points are part of the statement"
  },
  {
   "property": "C90",
   "status": "proved",
   "theorems": [
    "Wulfric.C90_hpkot",
    "Wulfric.C90_sc",
    "Wulfric.C90_conventions_cell",
    "Wulfric.C90_conventions_zone"
   ],
   "note": "Hypotheses as in C89; triclinic: the Niggli reduction returns a Niggli-reduced cell (HPKOT), spglib's cell is Niggli reduced (SC). That both primitive cells are bases of one lattice is C83_conventions"
  },
  {
   "property": "C91",
   "status": "proved",
   "theorems": [
    "Wulfric.C91_commensurate",
    "Wulfric.C91_limit_needed",
    "Wulfric.C91_shortest",
    "Wulfric.C91_default_small_tolerance",
    "Wulfric.C91_getNiggli_default",
    "Wulfric.C91_default_fails"
   ],
   "note": "C91_commensurate and C91_shortest are the two bounds, C91_default_small_tolerance and C91_getNiggli_default the default limit, C91_limit_needed and C91_default_fails that no limit is enough in general. The bounds are not sharp: 6 passes per shortening"
  },
  {
   "property": "C92",
   "status": "proved",
   "theorems": [
    "Wulfric.C92_axis_range",
    "Wulfric.C92_monoclinic_primitive",
    "Wulfric.C92_monoclinic_centred",
    "Wulfric.C92_monoclinic_missed",
    "Wulfric.C92_example_centred",
    "Wulfric.C92_axes_orthorhombic",
    "Wulfric.C92_axes_tetragonal",
    "Wulfric.C92_no_pseudo",
    "Wulfric.C92_example_rectangular",
    "Wulfric.C92_example_oblique",
    "Wulfric.C92_example_symmetric",
    "Wulfric.C92_getNiggli",
    "Wulfric.C92_small_tolerance",
    "Wulfric.C92_lattice",
    "Wulfric.C92_orthorhombic",
    "Wulfric.C92_base_centred",
    "Wulfric.C92_tetragonal",
    "Wulfric.C92_cubic",
    "Wulfric.C92_hexagonal",
    "Wulfric.C92_rhombohedral",
    "Wulfric.C92_triclinic",
    "Wulfric.C92_monoclinic",
    "Wulfric.C92_rhombohedral_general",
    "Wulfric.C92_hexagonal_flat",
    "Wulfric.C92_example_flat"
   ],
   "note": "All 14 lattice types are covered. C92_monoclinic_centred and C92_monoclinic_missed together say for every centred monoclinic lattice what is returned; the second is a bug of the code (the perpendicular plane is searched with indices -1, 0, 1 only), with C92_example_centred as an instance. C92_axis_range: the search with indices up to 2 misses no axis. C92_axes_orthorhombic, C92_axes_tetragonal and C92_no_pseudo are sufficient conditions for the two hypotheses on the lattice; C92_example_rectangular, C92_example_oblique, C92_example_symmetric, C92_example_flat and C92_example_centred show a lattice of each type, for every basis"
  }
 ]
}