# Formal model of wulfric: design

Source: `/repo` (python package `wulfric`, pinned commit). Nothing is executed; the model is a reading
of the source text. Every definition in `lean/Verif/Model/*` carries the file and lines that it models
and says there what is simplified.

## Layout

* `lean/Verif/Model/*.lean` – the model, function by function, branch by branch. Exceptions are values
  (`Except Err α`). Methods that change an object return the object afterwards together with the outcome.
* `lean/Verif/Spec/*.lean` – small specifications that do not use the model: lattices, reduced cells,
  angles, centring, Brillouin zones, Wigner-Seitz regions, definitions of the two conventions, path
  strings, attribute histories, valid dictionaries.
* `lean/Verif/Lemmas/*.lean` – helper lemmas.
* `lean/Verif/Props/*.lean` – the property theorems. They are named `Cnn_...` after the property they
  belong to, and are listed in `MANIFEST.json`. Beside them there is an `example` that meets the hypotheses
  with a non-trivial input.
* `properties.jsonl` – the properties in English. `seeded/LOG.jsonl` – wrong programs tried against the theorems.

Build: `cd lean && lake build` (Lean 4.33.0, Mathlib modules imported one at a time, no other dependency).

## Trusted base

1. Lean's kernel.
2. The axioms `propext`, `Classical.choice` and `Quot.sound` (see "Axioms"). No `sorry`, no `native_decide`, no
   `bv_decide`, no own axioms. Statements over complete finite tables (space groups, point tables,
   atom names) are evaluated by the kernel (`decide +kernel`) and then lifted to all inputs by a lemma.
3. The reading of the python source, definition by definition.
4. The idealisations below.

### Idealisations

* Arithmetic is exact. Floats are elements of an ordered field: any linearly ordered field where no
  roots are needed (tolerance comparison, Niggli steps, atom manipulation), `ℝ` where lengths, angles and
  trigonometry occur, `ℚ` in POSCAR files. Rounding, overflow, NaN and infinities are outside of the model.
  All tolerances of the code (`eps`, `distance_tolerance`, `angle_tolerance`, `atol`, `rtol`) are
  explicit. Statements "for all tolerances" include zero unless a hypothesis says otherwise.
* numpy and the math module have their mathematical meaning (`inv`, `det`, `norm`, `arccos`, `arctan`, `sort`).
  A singular matrix is `LinAlgError`. Division by zero is an error value where the code can
  reach it, and otherwise excluded by an invariant.
* Python containers: a `dict` is an association list in insertion order, a `list` is a `List`, a `str` is a
  `String` or a list of characters. `str.lower` of all of Unicode is a parameter where it matters
  (C29), and the list of code points with a given lower case where it is decisive (C56).
* Sharing by reference is modelled where the code has an aliasing effect: the heap of dictionaries in C22/C23, the
  shared list of names in C45.

### External code that is a parameter

* spglib: `get_symmetry_dataset`, `find_primitive` and `niggli_reduce`. Its results are the record `SpglibData`; in C62 the two functions are a parameter (`SpglibLib`) and the record is built from them as the code does. Theorems
  state what they need of it, for example `StandardCell` (the standardised cell has the shape of
  the standard setting) or that the Niggli function returns a cell of the same lattice.
* `scipy.spatial.Voronoi`: its arrays are arguments of the model. C52 proves separately that the finite
  set of points is sufficient for the mathematical Voronoi cell. C67 assumes what its documentation says about
  the ridges around one point (`Spec.VoronoiAround`: the vertices of a bounded ridge are listed around the common
  face of its two points, and every bounded common face with an area has a ridge).
* plotly: the figure is the list of traces handed over and the limits of the axes.
* The iteration order of python sets.

### Code that is not modelled

* What plotly does with a figure; hover texts, marker sizes and other fixed looks of the traces in `_plotly_engine.py`. `__main__.py`, `_osfix.py` and the rest of `_package_info.py` (text output).
* `_exceptions.py` (only the exception classes; each is a constructor of `Err`; the messages are not modelled).
* `Kpoints.copy` (a deep copy is an equal value), warnings of all functions.
* Opening and searching for files in `load_poscar`/`dump_poscar`; their text level is modelled character by character.
* Deprecated aliases and checks of python types other than those in `validate_atoms`.

### Modelled code

| file in `src/wulfric` | model |
|---|---|
| `_numerical.py` | `Numerical.lean` |
| `geometry/_geometry.py`, `cell/_basic_manipulation.py` | `Geometry.lean` |
| `cell/_niggli.py` | `Niggli.lean` |
| `cell/_voronoi.py` | `Voronoi.lean` |
| `cell/_sc_examples.py` | `Examples.lean` |
| `_syntactic_sugar.py` | `Sugar.lean` |
| `crystal/_basic_manipulation.py` | `Atoms.lean` |
| `crystal/_crystal_validation.py` | `Validation.lean` |
| `crystal/_atoms.py`, `_spglib_interface.py` | `Species.lean`, `Conventional.lean`, `Spglib.lean` (construction of `SpglibData`) |
| `crystal/_conventional.py`, `crystal/_primitive.py` | `Conventional.lean`, `Unique.lean` |
| `crystal/_hpkot_extended_bl_symbol.py`, `crystal/_sc_variation.py` | `Symbols.lean` |
| `constants/*.py` | `SpaceGroups.lean`, `AtomTables.lean`, `Conventions.lean`, `Points.lean` |
| `kpoints/*.py` | `Points.lean`, `Paths.lean`, `PathPoints.lean` |
| `_kpoints_class.py` | `Kpoints.lean`, `Table.lean` (`hs_table`) |
| `_package_info.py`: `logo` | `Logo.lean` |
| `crystal/_hpkot_examples` with its POSCAR files | `HpkotExamples.lean` |
| `io/_vasp.py` | `Poscar.lean` |
| `_lepage.py` | `Lepage.lean` |
| `_plotly_engine.py` | `Plot.lean` |

## Axioms

`#print axioms` of every theorem in `MANIFEST.json` gives a subset of `propext`, `Classical.choice`, `Quot.sound`.
Purely combinatorial theorems (path strings, dictionaries) need `propext` and `Quot.sound` only; everything over `ℝ` or with `simp`
over ordered fields uses all three.

## Where the code does not do what the documentation says

Each item is a theorem with a concrete witness, or a note at the model definition.

* `load_poscar`: a negative scale is used as `-scale/volume` without the cube root, so the cell gets a wrong volume
  (C49_negative_wrong). Three scale factors scale the vectors instead of the components (C49_three_wrong).
* `dump_poscar`: an atom whose type cannot be deduced raises KeyError instead of the intended ValueError
  (C48_unknown_name). A comment with a carriage return breaks the file (C48_carriage_return). Species that are all numbers
  are read back as counts (C48_number_species).
* `cure_negative` raises TypeError for a single atom given as a plain list (C25_single_list).
* `get_unique_names` can produce repeated names (C30_all_collision, C30_repeated_collision).
* The HPKOT conventional-to-primitive matrix of hR gives a "primitive" cell with 9/8 of the volume of the conventional one, and of
  another lattice (C34_hR_wrong). Its vectors are 3/2 of the right ones (C81_cell), so the crystal returned is not the given one
  (C81_crystal, C81_never, C81_wrong) and the k-points are 2/3 of what they should be (C81_reciprocal, C81_T). No error is raised,
  because the ratio 8/9 of the volumes is rounded to 1 (C81_returned).
* `_get_unique`: closeness is not transitive (C35_not_transitive), and is not periodic (C35_not_periodic).
* The SC conventional cell of rhombohedral crystals: the third branch repeats a condition, so that one
  pattern of signs raises (C39_third_branch, C39_raises, C39_witness).
* oPFI/oC cells with equal lengths, and C-centred monoclinic cells with another unique axis, raise PotentialBugError
  (C37_monoclinic_error).
* HPKOT oF3 is returned although the inequality of the paper fails when the cell is not ordered (C40_oF3_order), and its point Y may then be outside
  of the Brillouin zone (C55_oF3_outside).
* The SC variation of BCT raises for a = c (C41_boundary); the triclinic helper alone can return None (C41_tri_alone).
* `get_path_as_list("")` raises although `get_path_as_string([])` returns the empty string (C42_empty).
* HPKOT aP2: the point Z is at the origin (C43_aP2_origin). `HS_PLOT_NAMES["F3"]` is the label of F4 (C43_same_label).
* A monoclinic cell whose angle beta differs from 90 degrees by no more than the angle tolerance keeps its unique axis in the SC convention (it is not moved to the first vector), so the SC points, which assume the unique axis a, are those of a different lattice (C60_near_right). With the default tolerance of 1e-4 degrees the error is small; with a larger one it is not.
* For lattices exactly on the border of two symbols the default path has a segment of zero length (C59_hpkot, C59_sc); for aP2 always, because
  its Z is the origin.
* SC: F3 of MCLC1 is outside of the Brillouin zone (C55_F3_outside); so is N of TRI1b for some cells (C55_N_outside). The triclinic cell
  is reduced in direct space, and its reciprocal cell may be unreduced.
* `Kpoints`: removing a point of the path breaks the object (C45_remove_breaks); repeated names (C45_repeated) and the shared list of names
  (C45_shared) break it too; an object with fewer than two points cannot be created without a path (C45_few_points); an empty path is accepted, and then `points()` is None (C46_small).
* `lepage`: a primitive monoclinic lattice is reported as MCLC when the unique axis is a difference of two vectors of the cell or
  a combination of all three (C58_difference, C58_example_wrong): doubled indices are halved only when their set is `{0, 2}`.
* `lepage`: a centred monoclinic lattice is reported as TRI when the vector along the axis is in the Niggli-reduced basis and another
  vector of the basis is perpendicular to it (C92_monoclinic_missed, C92_example_centred): vectors perpendicular to the axis are
  searched with indices -1, 0, 1 only, and there is just one pair of them.
* `lepage`: the angle tolerance is compared with a scalar product of two lattice vectors, so a monoclinic cell becomes TRI when its
  lengths are given in a large unit (C58_unit).
* `lepage`: of the twins of an axis the one with the largest deviation is kept (C50_worst_twin), so that exact tall tetragonal
  lattices are not recognised (C50_elongated); up to a quotient of 7 they are (C57). Zero tolerance gives TRI for every lattice (C50_zero_tolerance). A determinant other than the expected ones
  leaves `result` unbound.
* `get_niggli`: with the default tolerance the result may be unreduced (C13_not_reduced), may flip the handedness (C15_flips), and
  for some cells and tolerances the loop never ends by itself (C14_never_returns). The limit lets one more iteration pass.
* `compare_with_tolerance`: equality is not transitive (C01_eq_not_transitive), as for any tolerance.
* `voronoi_cell`: the fixed range of 10 is not enough for unreduced cells (C52_not_general); an empty set of edges raises IndexError (C21).
* Syntactic sugar: keys that are names of dict methods are shadowed (C22_shadowed); deleting a missing attribute raises
  KeyError instead of AttributeError (C22_delete_missing).
* `get_spherical` does not orthogonalise its axes (C10_not_orthogonal).
* `validate_atoms` rejects positions = [] and numpy integers as spglib types.
* `plot_kpath` updates the range of the axes with the last sub-path only (C65_kpath_hidden); an empty path raises UnboundLocalError (C64_kpath_empty).
* The limits of the axes are the range of the coordinates times 1.05, which cuts points off when all values of a coordinate have the same sign
  (C65_visible_partial, C65_offset_hidden); a flat figure divides by zero in the aspect ratio (C65_flat).
* `plot_atoms`: a single string for `colors`, as documented, always raises (C66_one_colour_rejected), and so do short names and `#rgb` in a list (C66_short_rejected).
* `ATOM_COLORS["Pd"]` is `#6985` and `ATOM_COLORS["Er"]` is `#`: the default colours fail for palladium and erbium (C66_default_colours). The unit test
  of the table accepts them.
* `hs_table`: the header is longer than the lines when all names have fewer than four letters or there are fewer than three decimals
  (C69_header); an object without points raises ValueError (C69_errors).
* `logo`: nine or more lines of information are printed in a rotated order (C70_rotated, C70_not_in_order); `comment=False` writes "False"
  before every line (C70_comment).
* SC: the variation of a face-centred orthorhombic lattice depends on the unit of length: `1/a² - 1/b² - 1/c²` is compared
  with `symprec`, a length (C72_orcf_refuted: ORCF1 becomes ORCF3). `get_niggli` compares scalar products with a length:
  a cell of a cubic lattice is reduced in angstrom and fails in a unit 20 times larger (C72_niggli_refuted). `lepage` compares a
  scalar product with an angle (only to tell MCL, MCLC and TRI apart).
* The table of points of the HPKOT symbol aP2 has no point equivalent to half the third reciprocal vector: seven of the eight
  time-reversal-invariant momenta are named (C76_aP2_missing).
* `hpkot_get_example("oA", with_inversion=True)` raises FileNotFoundError (C71_missing_file). The example of hR2 with inversion is given in a
  primitive rhombohedral cell, all others in conventional cells (C71_centring).
* Documentation only: the formula of SC_RHL lacks a factor a; `get_primitive` says that names come from the last atom, the code takes the first;
  `sc_get_example` has unreachable branches.

## Properties

Method: algebra of matrices over a field (C02–C04, C34, C36, C53), trigonometric identities (C05–C10, C51, C54), invariants and lexicographic
measures of loops (C11–C18, C50), list induction (C19–C32, C35, C42, C45–C48, C56), kernel evaluation of complete tables lifted to all inputs
(C33, C34, C43, C55, C57), decision logic (C01, C28, C37–C41), geometry of reduced cells and quadratic forms (C17, C52, C55).

| id | status | theorems | note |
|---|---|---|---|
| C01 | proved | C01_meaning, C01_default, C01_reject, C01_trichotomy, C01_complement, C01_swap, C01_trans, C01_mono, C01_eq_not_transitive | over every linearly ordered field |
| C02 | proved | C02_error_iff, C02_dual_unique |  |
| C03 | proved | C03_involution, C03_volume, C03_change_of_basis |  |
| C04 | proved | C04_recovers, C04_compose, C04_identity, C04_error_iff |  |
| C05 | proved | C05_realises, C05_errors | exact real arithmetic |
| C06 | proved | C06_metric, C06_defined | exact real arithmetic |
| C07 | proved | C07_forms_agree, C07_nonneg, C07_lattice_invariant, C07_count | the six-argument form for every cell get_params accepts |
| C08 | proved | C08_error_iff, C08_spec, C08_radians, C08_symm, C08_rescale, C08_supplement |  |
| C09 | proved | C09_exact, C09_sound, C09_monotone, C09_raise, C09_order |  |
| C10 | proved | C10_accuracy, C10_reconstruct, C10_on_axis, C10_degrees, C10_not_orthogonal | for orthogonal polar axis and radial line; C10_not_orthogonal shows what happens otherwise |
| C11 | proved | C11_core, C11_same_lattice | all cells, tolerances, limits and paths |
| C12 | proved | C12_limit, C12_monotone, C12_negative |  |
| C13 | partial | C13_reduced_partial, C13_getNiggli_partial, C13_not_reduced | proved for separated (commensurate) scalar products and, for every cell, below a cell-dependent tolerance (C14_small_tolerance); refuted in general by C13_not_reduced with the default tolerance |
| C14 | proved | C14_total, C14_getNiggli, C14_small_tolerance, C14_never_returns | plus C14_small_tolerance for every cell; C14_never_returns shows that the separation hypothesis is needed |
| C15 | partial | C15_handedness_partial, C15_flips | proved for separated scalar products; refuted in general by C15_flips |
| C16 | proved | C16_fixed_point, C16_fixed_point_exact, C16_idempotent, C16_margin, C16_margin_getNiggli | C16_margin and C16_margin_getNiggli: the same without commensurability, for cells that meet the conditions with a margin above the tolerance |
| C17 | proved | C17_shortest, C17_lengths_invariant |  |
| C18 | proved | C18_errors |  |
| C19 | proved | C19_flat, C19_mem, C19_nodup, C19_nested |  |
| C20 | proved | C20_inversion, C20_centre | what the code hands to scipy's Voronoi; the Voronoi tessellation itself is not modelled |
| C21 | proved | C21_wellformed, C21_answers | for any tessellation data; the empty edge set raises IndexError |
| C22 | proved | C22_contents, C22_reads_agree, C22_attr, C22_plain_dict, C22_shadowed, C22_delete_missing | for keys that are not names of dict methods; C22_shadowed and C22_delete_missing show the exceptions |
| C23 | proved | C23_add, C23_remove, C23_inverse, C23_not_dict |  |
| C24 | proved | C24_wrapped, C24_same_crystal, C24_idempotent, C24_no_positions |  |
| C25 | proved | C25_minimal, C25_nonneg, C25_unchanged, C25_idempotent, C25_single_list | C25_single_list: a single atom given as a list raises TypeError |
| C26 | proved | C26_centre, C26_absolute, C26_errors, C26_idempotent |  |
| C27 | proved | C27_defined, C27_value, C27_additive, C27_antisymm, C27_shift, C27_distance_symm, C27_distance_zero, C27_triangle |  |
| C28 | proved | C28_decides, C28_raises, C28_modes, C28_species | python values are modelled as a tree of lists, arrays, strings, numbers |
| C29 | proved | C29_elements, C29_every_element, C29_two_letters, C29_one_letter, C29_none, C29_sound, C29_indexed, C29_atoms | for any lower-casing function |
| C30 | partial | C30_strategy, C30_already_unique, C30_all_shape, C30_repeated_shape, C30_all_partial, C30_all_short_partial, C30_repeated_partial, C30_all_collision, C30_repeated_collision | false in general (C30_all_collision, C30_repeated_collision); proved for names that do not end with a digit |
| C31 | proved | C31_identifiers, C31_rank, C31_equal, C31_range, C31_given, C31_missing |  |
| C32 | proved | C32_iff, C32_same, C32_order |  |
| C33 | proved | C33_values, C33_others, C33_symbols | the whole tables, every integer key |
| C34 | partial | C34_hpkot_partial, C34_sc, C34_hR_wrong | proved for every Bravais type except HPKOT hR, where it is false (C34_hR_wrong) |
| C35 | proved | C35_rint, C35_round, C35_kept, C35_wrong_number, C35_defined, C35_not_transitive, C35_not_periodic | C35_not_transitive and C35_not_periodic show where closeness is not an equivalence |
| C36 | proved | C36_crystal, C36_lattice, C36_triclinic_hpkot, C36_types, C36_unchanged, C36_unsupported, C36_defined | HPKOT triclinic: the lattice is kept when the Niggli reduction keeps it, and the handedness follows that of the reduction (C36_triclinic_hpkot) |
| C37 | proved | C37_orthorhombic, C37_base_centred, C37_monoclinic, C37_monoclinic_error | ties raise PotentialBugError; a monoclinic C cell whose unique axis is not spglib's raises (C37_monoclinic_error) |
| C38 | proved | C38_sc, C38_hpkot | HPKOT: given that the Niggli reduction returns; lengths above machine epsilon |
| C39 | partial | C39_equal_angles_partial, C39_raises, C39_third_branch, C39_lengths, C39_witness | false for one of the sign patterns (C39_raises, C39_witness); proved for the others |
| C40 | proved | C40_symbol, C40_total, C40_unique, C40_prefix, C40_oF3, C40_oF3_order | the definition of oF3 in the paper needs a <= b (C40_oF3); without it the code returns oF3 although the inequality fails (C40_oF3_order) |
| C41 | proved | C41_variation, C41_boundary, C41_mclc, C41_unique, C41_prefix, C41_tri_alone | C41_tri_alone: the triclinic helper alone can return None or TRI; unreachable through the API |
| C42 | proved | C42_list_string_list, C42_string_list_string, C42_meaning, C42_rejected, C42_total, C42_empty, C42_path_string | the empty string is rejected although get_path_as_string([]) returns it (C42_empty) |
| C43 | partial | C43_plottable_partial, C43_relative, C43_same_label, C43_aP2_origin | all but the distinct coordinates of neighbours (C59 says exactly when they differ), which is false for aP2: its point Z is at the origin and the path has the step GAMMA-Z (C43_aP2_origin); the labels of F3 and F4 are equal (C43_same_label) but no table has both |
| C44 | proved | C44_inversion, C44_doubled |  |
| C45 | proved | C45_history, C45_no_removal, C45_assign, C45_assign_string, C45_unknown, C45_add, C45_remove_breaks, C45_repeated, C45_shared, C45_few_points, C45_from_crystal, C45_spglib | C45_remove_breaks, C45_repeated and C45_shared show how the invariant is lost: removing a point of the path, repeated names, two objects sharing one list of names |
| C46 | proved | C46_n, C46_steps, C46_points, C46_ends, C46_absolute, C46_small, C46_flat, C46_increments | for n >= 0; C46_small gives the outcome for negative n and for an empty path |
| C47 | proved | C47_ticks, C47_aligned, C47_labels, C47_same_length |  |
| C48 | proved | C48_precision, C48_round_trip, C48_carriage_return, C48_number_species, C48_unknown_name | character by character, for species that are single words and not all numbers; C48_precision gives the rounding of other numbers; C48_carriage_return, C48_number_species and C48_unknown_name show where the code fails |
| C49 | partial | C49_positive_partial, C49_negative_wrong, C49_three_wrong | proved for positive scales; refuted for a negative scale (C49_negative_wrong) and for three scales (C49_three_wrong) |
| C50 | proved | C50_terminates, C50_removes, C50_types, C50_result, C50_delta, C50_sound, C50_worst_twin, C50_zero_tolerance, C50_rotation, C50_elongated | C50_elongated and C50_worst_twin show why tall tetragonal cells are reported as monoclinic or triclinic; C50_zero_tolerance: TRI for every lattice. The exceptions the code raises for other determinants are modelled as errors |
| C51 | proved | C51_primitive, C51_lattice, C51_params, C51_rhombohedral, C51_rhombohedral_error, C51_triclinic, C51_names, C51_variation | Every constructor gives a primitive cell of the lattice whose conventional cell has the requested parameters; RHL for every angle, with the error branch; TRI through the cell from parameters, with and without input_reciprocal. sc_get_example accepts exactly the documented names in any case. Every example outside TRI has its variation by the definition of the convention. The variation of the four TRI examples is not proved: it depends on the Niggli reduction of spglib, and TRI1a sits on a tie of that reduction. |
| C52 | proved | C52_criterion, C52_brillouin, C52_reduced, C52_lattice, C52_not_general | C52_reduced, C52_criterion, C52_brillouin; C52_not_general: false for a very skew cell with the code's n = 10 |
| C53 | partial | C53_lattice_partial, C53_atoms, C53_spglib | lattice: false for HPKOT hR (C34_hR_wrong), proved for every other type and for SC; atoms: proved |
| C54 | proved | C54_scalar_products, C54_invariant |  |
| C55 | partial | C55_hpkot, C55_sc_partial, C55_niggli, C55_F3_outside, C55_N_outside, C55_oF3_outside, C55_from_spglib_partial | HPKOT: proved for all lattices with spglib's cell in its standard setting (StandardCell), the triclinic ones when the Niggli reduction returns a reduced cell (C55_niggli); C55_oF3_outside shows that the condition on oF cells is needed. SC: proved with the conventional cell in the SC shape (ScCell) and off the wrong side of the variations that stand for an equality (TieMet); the exceptions are refuted by C55_F3_outside and C55_N_outside |
| C56 | proved | C56_lines, C56_load | The mode line must not start with the Kelvin sign, whose lower case letter is k |
| C57 | proved | C57_cubic, C57_tetragonal, C57_orthorhombic, C57_hexagonal, C57_rhombohedral, C57_examples | The monoclinic and triclinic types are those of C58; the centred tetragonal and orthorhombic types are stated for the standard primitive cells |
| C58 | partial | C58_triclinic, C58_centred_partial, C58_primitive_partial, C58_difference, C58_example_mcl, C58_unit, C58_example_wrong, C58_examples | proved for axes that are a vector of the cell, a sum of two, or have an index 2, and for lengths above the square root of twice the tolerance; refuted outside by C58_difference (with C58_example_wrong) and C58_unit; a centred lattice whose axis is a vector of the cell, with another one perpendicular to it, is missed (C92_monoclinic_missed) |
| C59 | proved | C59_hpkot, C59_sc | Monoclinic lattices: with the cell in the standard shape of the convention (StandardCell for mC of HPKOT, ScCell for SC, which C60 derives from StandardCell) |
| C60 | proved | C60_shape, C60_segments, C60_near_right | Monoclinic lattices: with an angle that is exactly right or not right within the tolerance; C60_near_right shows that the condition is needed |
| C61 | proved | C61_unique, C61_small_tolerance, C61_decides, C61_params | Separated scalar products (C61_decides, C61_params) or tolerances below a threshold (C61_small_tolerance); C61_unique holds for all reduced cells |
| C62 | proved | C62_spglib_data, C62_cells, C62_symbols, C62_path_and_points, C62_kpoints, C62_niggli, C62_lepage | get_symmetry_dataset and find_primitive of spglib are parameters; that they treat a turned input as documented is the hypothesis SameStandard (Spec/Turn.lean) |
| C63 | proved | C63_conventional, C63_primitive, C63_data, C63_species, C63_same_crystal | What spglib documents is the hypothesis Documented (Spec/Turn.lean). HPKOT rhombohedral primitive cells are excluded in the statement of the property (C34_hR_wrong) |
| C64 | proved | C64_only_adds, C64_session, C64_vector, C64_cell, C64_wigner_seitz, C64_brillouin_zone, C64_kpath, C64_kpath_empty, C64_kpoints, C64_lattice, C64_atoms, C64_legend, C64_no_points | plotly only receives the traces; scipy's Voronoi and the ordering of a set of edges are parameters |
| C65 | partial | C65_inside_partial, C65_visible_partial, C65_origin_partial, C65_limits, C65_proportion_partial, C65_flat, C65_legend_position, C65_offset_hidden, C65_kpath_hidden | False in general: C65_offset_hidden, C65_kpath_hidden, C65_flat. C65_visible_partial gives the exact condition for visibility whenever the points of the earlier pieces of k-paths are drawn by something else too |
| C66 | proved | C66_readable, C66_grey, C66_monotone, C66_colour_only, C66_default_colours, C66_default_from_names, C66_one_colour_rejected, C66_given_colours, C66_short_rejected, C66_text_colours, C66_default_table | The defects are part of the statement: C66_default_colours, C66_one_colour_rejected |
| C67 | proved | C67_wigner_seitz, C67_reduced, C67_brillouin, C67_not_skew, C67_drawn, C67_drawn_brillouin | scipy's Voronoi is a parameter; that it describes the faces around the origin is the hypothesis VoronoiAround (Spec/Polyhedron.lean), shown to hold for the simple cubic lattice (C67_Example.lean) |
| C68 | proved | C68_convex, C68_hpkot, C68_sc, C68_zone_of_lattice, C68_drawn | The exceptions (SC with mC or aP) are part of the statement; they are real, see C55. Uses the standard setting of spglib's cells as a hypothesis, like C55 |
| C69 | proved | C69_table, C69_split, C69_aligned, C69_errors, C69_header, C69_default | The header's misalignment for short names or few decimals is part of the statement (C69_header) |
| C70 | proved | C70_logo_only, C70_info, C70_logo_first, C70_rotated, C70_not_in_order, C70_comment | The defects are part of the statement: C70_rotated, C70_not_in_order, C70_comment |
| C71 | proved | C71_supported, C71_value_error, C71_missing_file, C71_crystal, C71_inversion, C71_centring, C71_family, C71_short | The POSCAR files of the package are part of the model, character by character; every file is read by the model of load_poscar and checked in the kernel, and the checks are lifted to all inversion points and translations. That spglib assigns the extended symbol is not claimed |
| C72 | partial | C72_params, C72_reciprocal, C72_spglib_data, C72_cells, C72_symbol, C72_variation_partial, C72_path_and_points_partial, C72_kpoints_partial, C72_hpkot_unconditional, C72_niggli_partial, C72_niggli_refuted, C72_lepage_partial, C72_orcf_refuted, C72_niggli_at | Missing: the variation of face-centred orthorhombic lattices with \|1/a^2-1/b^2-1/c^2\| below symprec in one of the units (false: C72_orcf_refuted); get_niggli for scalar products that are not separated from each other by more than the tolerance (false: C72_niggli_refuted); lepage up to the exchange of MCL, MCLC and TRI |
| C73 | proved | C73_cells, C73_path_and_points, C73_kpoints, C73_atoms, C73_species | That spglib returns the same standardised cells for two descriptions of one crystal is the hypothesis (SameFrame for cells, SameReply with the atoms); everything wulfric does with the answers is proved to depend on nothing else |
| C74 | proved | C74_precomputed, C74_error, C74_refused, C74_convention | Equality of results, errors included; the data are those of get_spglib_data for the same crystal |
| C75 | proved | C75_accepted, C75_conventional, C75_primitive, C75_primitive_of_conventional | Hypothesis: spglib gives the same answer for the returned crystal. For get_primitive also that every type of the given atoms is among the returned ones |
| C76 | partial | C76_hpkot, C76_aP2_partial, C76_aP2_missing, C76_sc, C76_aP2_witness | Missing: HPKOT crystals with symbol aP2, where half the third reciprocal vector is not in the table; C76_aP2_partial has the other seven classes, C76_aP2_missing refutes the rest and C76_aP2_witness is a crystal. Equivalence is that of the lattice (translations and point symmetries of the reciprocal lattice), not of the space group |
| C77 | proved | C77_conventional, C77_primitive, C77_spglib, C77_hpkot_conventional, C77_hpkot, C77_sc, C77_sc_conventional, C77_sc_refused, C77_kpoints, C77_data | What spglib documents is the hypothesis SoundData; C77_data derives it from the model of get_spglib_data and Documented. HPKOT rhombohedral crystals are excluded in the statement (C34_hR_wrong). C77_sc_refused has the orthorhombic crystals that are refused |
| C78 | proved | C78_hpkot, C78_sc | Equivalence is that of the lattice (translations and point symmetries of the reciprocal lattice), not of the space group |
| C79 | partial | C79_hpkot, C79_aP2_partial, C79_sc | Missing: HPKOT crystals with symbol aP2, where one class is not in the table (C76_aP2_missing); C79_aP2_partial has the other seven |
| C80 | proved | C80_once | No hypothesis beyond the call having returned |
| C81 | proved | C81_cell, C81_crystal, C81_never, C81_reciprocal, C81_T, C81_returned, C81_wrong | The statement describes a defect; C81_wrong refutes the documented promise for every crystal with one atom in a rhombohedral cell, C81_returned shows that the call returns for them |
| C82 | proved | C82_conventional, C82_niggli, C82_symbol, C82_path | ReducesReciprocal is the hypothesis on the reduction; C82_niggli derives it for get_niggli from separated scalar products |
| C83 | proved | C83_primitive, C83_conventions | The hypothesis on spglib is SoundData of C77 and that the primitive cell generates the centred lattice of the conventional one |
| C84 | proved | C84_unique, C84_lists, C84_hpkot, C84_sc | Hypotheses on the shape of the cell as in C55. The lists of places are part of the specification (Spec/Places.lean); they were found by a numerical search and are proved here against the formulas of the code. Z of aP2 and F3 of MCLC1/MCLC2 are excluded in the statement; C43_aP2_origin and C55_F3_outside say where they are |
| C85 | proved | C85_again, C85_forever | Hypotheses as in C48: species from the table, a time stamp that is one line, the rounded cell not flat |
| C86 | proved | C86_hpkot, C86_sc | Hypotheses on the shape of the cells as in C84. Z of aP2 and F3 of MCLC1/MCLC2 are excluded in the statement. It is about exact results of nearby crystals, it does not bound the rounding errors of numpy |
| C87 | partial | C87_joined, C87_names_partial, C87_path, C87_F3, C87_readable, C87_F3_witness | all names but F3 and F3_P, for which the claim is false (C87_F3); the statement on the labels of the ticks is proved in full, because no default path goes through F3 |
| C88 | proved | C88_wigner_seitz, C88_reduced, C88_brillouin, C88_same_lattice | Hypothesis on scipy's Voronoi as in C67; the volume is Lebesgue measure of the convex hull of the returned points |
| C89 | proved | C89_hpkot, C89_sc, C89_hpkot_points, C89_sc_points | Hypotheses on the shape of the cells as in C55 and on scipy's Voronoi as in C67; the exceptions for the points are part of the statement |
| C90 | proved | C90_hpkot, C90_sc, C90_conventions_cell, C90_conventions_zone | Hypotheses as in C89; triclinic: the Niggli reduction returns a Niggli-reduced cell (HPKOT), spglib's cell is Niggli reduced (SC). That both primitive cells are bases of one lattice is C83_conventions |
| C91 | proved | C91_commensurate, C91_limit_needed, C91_shortest, C91_default_small_tolerance, C91_getNiggli_default, C91_default_fails | C91_commensurate and C91_shortest are the two bounds, C91_default_small_tolerance and C91_getNiggli_default the default limit, C91_limit_needed and C91_default_fails that no limit is enough in general. The bounds are not sharp: 6 passes per shortening |
| C92 | proved | C92_axis_range, C92_monoclinic_primitive, C92_monoclinic_centred, C92_monoclinic_missed, C92_example_centred, C92_axes_orthorhombic, C92_axes_tetragonal, C92_no_pseudo, C92_example_rectangular, C92_example_oblique, C92_example_symmetric, C92_getNiggli, C92_small_tolerance, C92_lattice, C92_orthorhombic, C92_base_centred, C92_tetragonal, C92_cubic, C92_hexagonal, C92_rhombohedral, C92_triclinic, C92_monoclinic, C92_rhombohedral_general, C92_hexagonal_flat, C92_example_flat | All 14 lattice types are covered. C92_monoclinic_centred and C92_monoclinic_missed together say for every centred monoclinic lattice what is returned; the second is a bug of the code (the perpendicular plane is searched with indices -1, 0, 1 only), with C92_example_centred as an instance. C92_axis_range: the search with indices up to 2 misses no axis. C92_axes_orthorhombic, C92_axes_tetragonal and C92_no_pseudo are sufficient conditions for the two hypotheses on the lattice; C92_example_rectangular, C92_example_oblique, C92_example_symmetric, C92_example_flat and C92_example_centred show a lattice of each type, for every basis |
