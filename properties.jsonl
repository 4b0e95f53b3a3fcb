{"id": "C01", "title": "Tolerance comparison is a coherent order", "statement": "compare_with_tolerance with any eps>=0: exactly one of '<', '==', '>' holds; '<=' is the negation of '>', '>=' of '<', '!=' of '=='; swapping the arguments swaps '<' with '>' and '<=' with '>=' and keeps '==' and '!='; any other condition string raises ValueError; with eps=None the tolerance is atol+rtol*|y|.", "quantifier": "all numbers x, y, all tolerances eps>=0 (and the default), all condition strings", "why_tests_cant": "Universally quantified over real triples and strings; tests only sample them.", "anchors": ["src/wulfric/_numerical.py:compare_with_tolerance"]}
{"id": "C02", "title": "Reciprocal cell is dual to the direct cell", "statement": "For every non-degenerate cell, row i of get_reciprocal(cell) has scalar product 2*pi with row i of cell and 0 with the others, and it is the only matrix with that property.", "quantifier": "all non-singular 3x3 real cells", "why_tests_cant": "Needs an algebraic argument over all cells, not samples.", "anchors": ["src/wulfric/cell/_basic_manipulation.py:get_reciprocal"]}
{"id": "C03", "title": "Reciprocal is an involution and inverts volume", "statement": "get_reciprocal(get_reciprocal(cell)) == cell and get_volume(get_reciprocal(cell)) * get_volume(cell) == (2*pi)^3, and reciprocation turns a change of basis M into its inverse transpose, for every non-degenerate cell.", "quantifier": "all non-singular cells (and all invertible changes of basis)", "why_tests_cant": "Identity over a continuum of inputs.", "anchors": ["src/wulfric/cell/_basic_manipulation.py:get_reciprocal", "src/wulfric/geometry/_geometry.py:get_volume"]}
{"id": "C04", "title": "Transformation matrix recovers the change of basis", "statement": "get_transformation_matrix(original, transformed) returns the unique M with transformed = M.T @ original (column convention) whenever original is non-degenerate; it composes: M(a,c)=M(a,b)@M(b,c), and M(a,a)=identity.", "quantifier": "all non-singular originals and all transformed cells", "why_tests_cant": "Identity over all matrices.", "anchors": ["src/wulfric/cell/_basic_manipulation.py:get_transformation_matrix"]}
{"id": "C05", "title": "from_params realises its parameters", "statement": "Whenever from_params accepts (a,b,c,alpha,beta,gamma) the returned cell has exactly those lengths and angles (get_params returns them back), the square-root argument is positive, a1 is along +x, a2 in the xy plane with positive y, and the cell is right-handed and non-degenerate.", "quantifier": "all six-tuples of reals accepted by the check", "why_tests_cant": "Trigonometric identity over an open 6-dimensional domain.", "anchors": ["src/wulfric/cell/_basic_manipulation.py:from_params", "src/wulfric/cell/_basic_manipulation.py:get_params", "src/wulfric/geometry/_geometry.py:parallelepiped_check"]}
{"id": "C06", "title": "get_params then from_params preserves the metric", "statement": "For every non-degenerate cell, a cell rebuilt from get_params(cell) has the same matrix of scalar products as the original one (so it differs only by an orthogonal transformation) and the same volume.", "quantifier": "all non-singular cells whose parameters pass the check", "why_tests_cant": "Continuum of inputs.", "anchors": ["src/wulfric/cell/_basic_manipulation.py:get_params", "src/wulfric/cell/_basic_manipulation.py:from_params"]}
{"id": "C07", "title": "The three forms of get_volume agree", "statement": "get_volume(cell), get_volume(v1,v2,v3) and get_volume(a,b,c,alpha,beta,gamma) with the parameters of the same cell return the same non-negative number, invariant under unimodular changes of basis; any other number of arguments raises ValueError.", "quantifier": "all cells, all argument counts", "why_tests_cant": "Continuum of inputs.", "anchors": ["src/wulfric/geometry/_geometry.py:get_volume"]}
{"id": "C08", "title": "get_angle is a genuine angle", "statement": "get_angle is within [0,180] degrees, symmetric, unchanged by positive rescaling, supplements when one vector is negated, has the cosine v1.v2/(|v1||v2|), degrees and radians forms agree, and raises ValueError exactly if a norm does not exceed machine epsilon.", "quantifier": "all pairs of vectors", "why_tests_cant": "Continuum of inputs.", "anchors": ["src/wulfric/geometry/_geometry.py:get_angle"]}
{"id": "C09", "title": "parallelepiped_check is exact", "statement": "With zero tolerances parallelepiped_check returns True if and only if some non-degenerate cell has these lengths and angles; with positive tolerances acceptance still implies such a cell exists; with raise_error=True it raises exactly when it would return False; the answer does not depend on the order of the three (length, angle) pairs.", "quantifier": "all six-tuples of reals, all non-negative tolerances, both raise_error values", "why_tests_cant": "An iff over a 6-dimensional continuum.", "anchors": ["src/wulfric/geometry/_geometry.py:parallelepiped_check"]}
{"id": "C10", "title": "get_spherical coordinates reconstruct the vector", "statement": "For orthonormal polar axis e_p and radial zero e_r, and a vector not within the closeness tolerance of the axis, (r,theta,phi) satisfy v = r(cos theta e_p + sin theta(cos phi e_r + sin phi e_p x e_r)), 0<=theta<=pi, 0<=phi<2pi; on the axis the documented values are returned.", "quantifier": "all non-zero vectors and all orthonormal frames", "why_tests_cant": "Continuum of inputs.", "anchors": ["src/wulfric/geometry/_geometry.py:get_spherical"]}
{"id": "C11", "title": "Niggli reduction returns a basis of the same lattice", "statement": "Whatever the cell, tolerance and iteration limit, if get_niggli(implementation='wulfric') returns, the rows of the result are integer combinations of the rows of the input and vice versa (the transformation is an integer matrix of determinant +-1), so the lattice and the volume are unchanged.", "quantifier": "all cells, all eps_relative, all iteration limits, every execution path", "why_tests_cant": "The loop is unbounded in its input; needs an invariant.", "anchors": ["src/wulfric/cell/_niggli.py:get_niggli"]}
{"id": "C12", "title": "Niggli loop always stops; its limit is honoured and monotone", "statement": "The loop performs at most max_iterations+1 passes and then raises NiggliReductionFailed; if it returns with one limit it returns the same cell with any larger limit.", "quantifier": "all cells, tolerances and limits", "why_tests_cant": "Universal statement about iteration.", "anchors": ["src/wulfric/cell/_niggli.py:get_niggli"]}
{"id": "C13", "title": "Niggli result satisfies the reduced-cell conditions", "statement": "When get_niggli returns, the scalar products of the returned cell satisfy the Niggli conditions (main and special) within the tolerance.", "quantifier": "all cells whose scalar products are well separated from the tolerance (e.g. commensurate metrics); shown to fail in general", "why_tests_cant": "Loop exit property combined with a metric-tracking invariant.", "anchors": ["src/wulfric/cell/_niggli.py:_niggli_step_1 .. _niggli_step_8", "src/wulfric/cell/_niggli.py:get_niggli"]}
{"id": "C14", "title": "Niggli reduction succeeds for a large enough limit", "statement": "For every non-degenerate cell with commensurate scalar products and a tolerance below their spacing there is a limit from which on get_niggli returns instead of raising.", "quantifier": "all such cells, no bound on the size of the entries", "why_tests_cant": "Termination for unbounded inputs needs a well-founded measure.", "anchors": ["src/wulfric/cell/_niggli.py:get_niggli"]}
{"id": "C15", "title": "Niggli reduction preserves handedness", "statement": "The determinant of the result has the same sign as that of the input.", "quantifier": "all cells (holds when scalar products are separated from the tolerance; shown false in general)", "why_tests_cant": "Needs an invariant over all executions.", "anchors": ["src/wulfric/cell/_niggli.py:_niggli_step_3", "src/wulfric/cell/_niggli.py:_niggli_step_4"]}
{"id": "C16", "title": "Niggli reduction is idempotent on reduced cells", "statement": "If the scalar products of a cell already satisfy the Niggli conditions, get_niggli returns that very cell after a single pass.", "quantifier": "all reduced cells with separated scalar products", "why_tests_cant": "Continuum of inputs.", "anchors": ["src/wulfric/cell/_niggli.py:get_niggli"]}
{"id": "C17", "title": "Niggli vectors are the shortest lattice vectors", "statement": "In a cell satisfying the Niggli conditions the first vector is a shortest non-zero lattice vector, the second is shortest among those independent of the first, the third among those outside the plane of the first two; hence the reduced lengths do not depend on the basis supplied.", "quantifier": "all reduced cells, all integer combinations", "why_tests_cant": "Quantifies over infinitely many lattice vectors.", "anchors": ["src/wulfric/cell/_niggli.py:get_niggli"]}
{"id": "C18", "title": "Niggli error branches", "statement": "A cell of zero volume raises ValueError, an implementation name other than (case-insensitively) 'spglib' or 'wulfric' raises ValueError, and these checks precede any iteration.", "quantifier": "all cells and all strings", "why_tests_cant": "Strings and cells unbounded.", "anchors": ["src/wulfric/cell/_niggli.py:get_niggli"]}
{"id": "C19", "title": "get_lattice_points enumerates the box exactly once", "statement": "The flat list has N1*N2*N3 points and contains exactly the integer points with |r_i|<=range[i] (times the cell when relative=False), each once, in row-major order; the flat and nested forms agree.", "quantifier": "all cells, all non-negative ranges, both relative and both flat values", "why_tests_cant": "Unbounded ranges.", "anchors": ["src/wulfric/cell/_voronoi.py:get_lattice_points"]}
{"id": "C20", "title": "Voronoi centre index is the origin and the point set is inversion symmetric", "statement": "Element ((2n+1)^3-1)//2 of the generated point list is the zero vector, and element N-1-i is the negative of element i, for every n and cell.", "quantifier": "all n, all cells", "why_tests_cant": "Unbounded n.", "anchors": ["src/wulfric/cell/_voronoi.py:_get_voronoi_cell"]}
{"id": "C21", "title": "Voronoi edges are well-formed", "statement": "Every returned edge refers to existing vertices, every returned vertex is used by an edge, no undirected edge is returned twice, and the undirected edges are exactly the sides of the bounded faces around the origin.", "quantifier": "all outputs of the external Voronoi routine", "why_tests_cant": "All possible ridge lists.", "anchors": ["src/wulfric/cell/_voronoi.py:_get_voronoi_cell"]}
{"id": "C22", "title": "Attribute and item access of sugared dictionaries are interchangeable", "statement": "After any sequence of item/attribute set and delete operations on a SyntacticSugar object, attribute read and item read agree for every key that is not the name of a method of dict (same value, or AttributeError/KeyError respectively), and the contents equal those of a plain dict after the same operations written with items only.", "quantifier": "all histories of operations, all keys and values", "why_tests_cant": "All histories.", "anchors": ["src/wulfric/_syntactic_sugar.py:SyntacticSugar"]}
{"id": "C23", "title": "add_sugar and remove_sugar copy faithfully", "statement": "add_sugar/remove_sugar return a new dictionary with the same keys in the same order and the same values; they are mutually inverse, do not modify or alias the key table of the argument; a non-dict raises ValueError.", "quantifier": "all dictionaries", "why_tests_cant": "Unbounded size.", "anchors": ["src/wulfric/_syntactic_sugar.py:add_sugar", "src/wulfric/_syntactic_sugar.py:remove_sugar"]}
{"id": "C24", "title": "ensure_000 wraps positions into the unit cell", "statement": "ensure_000 returns positions in [0,1) that differ from the originals by integers (so it is the same crystal), keeps the number and order of atoms and all other keys, and is idempotent.", "quantifier": "all atom lists and positions", "why_tests_cant": "Continuum and unbounded size.", "anchors": ["src/wulfric/crystal/_basic_manipulation.py:ensure_000"]}
{"id": "C25", "title": "cure_negative makes positions non-negative by a common shift", "statement": "cure_negative returns positions with no negative component obtained by adding one common vector to all atoms, the smallest possible one; it changes nothing if nothing is negative and is idempotent.", "quantifier": "all atom lists and positions", "why_tests_cant": "Continuum and unbounded size.", "anchors": ["src/wulfric/crystal/_basic_manipulation.py:cure_negative"]}
{"id": "C26", "title": "shift_atoms centres the atoms on the gravity point", "statement": "After shift_atoms the middle of the bounding box of the Cartesian/relative coordinates is the requested gravity point, all interatomic vectors are unchanged, and repeating the call changes nothing.", "quantifier": "all atom lists, cells and gravity points, relative or absolute", "why_tests_cant": "Continuum and unbounded size.", "anchors": ["src/wulfric/crystal/_basic_manipulation.py:shift_atoms"]}
{"id": "C27", "title": "Interatomic vectors form a consistent field", "statement": "get_vector(a1,a2,R) is additive (v(a,b,R)+v(b,c,S)=v(a,c,R+S)), antisymmetric (v(a,b,R)=-v(b,a,-R)), invariant under a common shift of all atoms, and get_distance is its norm: symmetric, non-negative, zero iff the sites coincide, obeying the triangle inequality.", "quantifier": "all cells, atoms, indices and lattice translations", "why_tests_cant": "Continuum of inputs.", "anchors": ["src/wulfric/crystal/_basic_manipulation.py:get_vector", "src/wulfric/crystal/_basic_manipulation.py:get_distance"]}
{"id": "C28", "title": "validate_atoms decides exactly the documented conditions", "statement": "validate_atoms(raise_errors=False) returns True iff all required keys are present, and each recognised key is well typed with equal lengths; with raise_errors=True it raises (ValueError or TypeError) exactly when the other mode returns False.", "quantifier": "all atom dictionaries, required keys, both modes", "why_tests_cant": "All dictionaries.", "anchors": ["src/wulfric/crystal/_crystal_validation.py:validate_atoms"]}
{"id": "C29", "title": "Species deduction is sound and total", "statement": "get_atom_species returns either an element of ATOM_SPECIES that occurs in the name case-insensitively (a two-letter one in preference to one-letter ones) or 'X' exactly when none occurs (or raises FailedToDeduceAtomSpecies if asked to); get_atoms_species maps it over all atoms in order.", "quantifier": "all strings", "why_tests_cant": "All strings.", "anchors": ["src/wulfric/crystal/_atoms.py:get_atom_species", "src/wulfric/crystal/_atoms.py:get_atoms_species"]}
{"id": "C30", "title": "get_unique_names returns pairwise different names", "statement": "The returned names are pairwise different, each is the old name followed by a positive integer (or the old name itself in 'repeated-only' mode when it occurred once), for every list of names and both strategies. The unchanged code violates this.", "quantifier": "all lists of names, both strategies", "why_tests_cant": "All lists; collisions only show for special names.", "anchors": ["src/wulfric/crystal/_atoms.py:get_unique_names"]}
{"id": "C31", "title": "get_spglib_types is a canonical labelling", "statement": "Two atoms get the same spglib type iff they have the same identifier (species, or deduced species, or the name if deduction fails); types are exactly 1..k without gaps, ordered as the identifiers; user-supplied spglib_types are returned unchanged; with none of the keys it raises ValueError; the labelling is independent of atom order.", "quantifier": "all atom dictionaries", "why_tests_cant": "All lists of names.", "anchors": ["src/wulfric/_spglib_interface.py:get_spglib_types"]}
{"id": "C32", "title": "validate_spglib_data accepts exactly matching data", "statement": "validate_spglib_data passes silently iff cell and positions agree within numpy tolerance and spglib types are equal; data created from the same structure is always accepted; errors are reported in the order cell, positions, types.", "quantifier": "all structures and datasets", "why_tests_cant": "All inputs.", "anchors": ["src/wulfric/_spglib_interface.py:validate_spglib_data"]}
{"id": "C33", "title": "Space-group tables are consistent", "statement": "For every space-group number 1..230 the tables give a crystal family and centring whose concatenation is one of the 14(+oA) Bravais lattice symbols present in both conventional-to-primitive tables; no other number is accepted.", "quantifier": "all integers (finite table plus rejection outside)", "why_tests_cant": "Full table coverage plus all integers outside.", "anchors": ["src/wulfric/constants/_space_groups.py", "src/wulfric/constants/_bravais_lattices.py"]}
{"id": "C34", "title": "Conventional-to-primitive matrices describe the centring", "statement": "For every Bravais lattice symbol in both conventions the primitive cell built from the conventional one spans exactly the centred lattice (conventional lattice plus centring translations) and its volume is 1/(number of lattice points) of the conventional volume. False for HPKOT hR.", "quantifier": "all cells and all Bravais lattice types", "why_tests_cant": "Quantifies over all cells and infinitely many lattice vectors.", "anchors": ["src/wulfric/constants/_hpkot_convention.py:HPKOT_CONVENTIONAL_TO_PRIMITIVE", "src/wulfric/constants/_sc_convention.py:SC_CONVENTIONAL_TO_PRIMITIVE", "src/wulfric/crystal/_primitive.py:get_primitive"]}
{"id": "C35", "title": "Duplicate removal in get_primitive", "statement": "Given atoms each having exactly r twins under a transitive coincidence relation, the result keeps exactly N/r atoms, no two of them coincide, every input atom coincides with one kept, and kept ones are the first of each group in the original order; any other multiplicity raises ValueError. Without transitivity N/r can fail.", "quantifier": "all lists of positions, all tolerances, all r>=1", "why_tests_cant": "All lists.", "anchors": ["src/wulfric/crystal/_primitive.py:_get_unique"]}
{"id": "C36", "title": "get_conventional keeps the lattice, volume, handedness and Cartesian positions", "statement": "For every spglib dataset and convention the returned conventional cell is an integer unimodular (determinant +1) combination of the spglib conventional (or for SC rhombohedral: primitive) cell (HPKOT triclinic: if the Niggli reduction of the reciprocal cell keeps lattice and handedness), and every atom keeps its Cartesian position and type.", "quantifier": "all datasets, all three conventions", "why_tests_cant": "All cells and branches.", "anchors": ["src/wulfric/crystal/_conventional.py:get_conventional"]}
{"id": "C37", "title": "SC orthorhombic and monoclinic conventional cells meet the convention", "statement": "The SC conventional cell of an orthorhombic lattice satisfies a<b<c (a<b for C/A centring) whenever the lengths are distinct, and raises PotentialBugError exactly on ties; the monoclinic one satisfies b<=c (P), alpha<=90, beta=gamma=90, within the angle tolerance.", "quantifier": "all orthorhombic / monoclinic cells", "why_tests_cant": "Continuum, all branches.", "anchors": ["src/wulfric/crystal/_conventional.py:_sc_get_conventional_oPFI", "src/wulfric/crystal/_conventional.py:_sc_get_conventional_oC", "src/wulfric/crystal/_conventional.py:_sc_get_conventional_m"]}
{"id": "C38", "title": "Triclinic conventional cells have all-acute or all-obtuse reciprocal angles", "statement": "For every triclinic cell neither convention raises (HPKOT: if the Niggli reduction returns a cell) and the reciprocal angles of the result are all <90 or all >=90; SC: gamma is the extreme one; HPKOT: |a*.b*| is the smallest product.", "quantifier": "all non-singular cells", "why_tests_cant": "Case coverage over a continuum including right angles.", "anchors": ["src/wulfric/crystal/_conventional.py:_hpkot_get_conventional_a", "src/wulfric/crystal/_conventional.py:_sc_get_conventional_a"]}
{"id": "C39", "title": "SC rhombohedral conventional cell has equal angles", "statement": "For every cell with equal lengths whose angles can be made equal by reversing vectors, the function returns a cell with three equal angles. The unchanged code raises for one of the three sign patterns.", "quantifier": "all rhombohedral primitive cells", "why_tests_cant": "One sign pattern out of four; tests use only some.", "anchors": ["src/wulfric/crystal/_conventional.py:_sc_get_conventional_hR"]}
{"id": "C40", "title": "HPKOT extended symbol is total and correct", "statement": "For every dataset with a space group in 1..230 the symbol returned is a member of HPKOT_EXTENDED_BL_SYMBOLS with the right family/centring prefix, decided by the published inequalities on lattice parameters; no branch is left unreturned.", "quantifier": "all datasets", "why_tests_cant": "All parameters including ties.", "anchors": ["src/wulfric/crystal/_hpkot_extended_bl_symbol.py:hpkot_get_extended_bl_symbol"]}
{"id": "C41", "title": "SC variation is total and consistent", "statement": "For every dataset the variation returned belongs to SC_BRAVAIS_LATTICE_VARIATIONS, starts with the short name of the Bravais type and satisfies the published inequalities of that variation, which exclude each other; it is never None. ValueError is raised exactly when the cell lies on an excluded boundary (body-centred tetragonal with a=c, face-centred orthorhombic without a<b<c, rhombohedral with alpha=90, triclinic with a reciprocal alpha or beta of 90, all within the tolerances).", "quantifier": "all datasets", "why_tests_cant": "Boundary cases of a continuum.", "anchors": ["src/wulfric/crystal/_sc_variation.py:sc_get_variation"]}
{"id": "C42", "title": "k-path strings and lists convert back and forth", "statement": "get_path_as_list(get_path_as_string(p)) == p for every non-degenerate list of lists of names without separators, and get_path_as_string(get_path_as_list(s)) == s for every well-formed string; malformed sub-paths of fewer than two points are rejected.", "quantifier": "all paths", "why_tests_cant": "All strings.", "anchors": ["src/wulfric/kpoints/_path_and_points.py:get_path_as_list", "src/wulfric/kpoints/_path_and_points.py:get_path_as_string"]}
{"id": "C43", "title": "Every default path refers only to defined, plottable points", "statement": "For every extended symbol / variation and every value of the lattice parameters, each point of the path returned is in the returned hs_points, every point has a plot label that no other returned point has, GAMMA is present and at the origin, neighbours on the path have different names and different coordinates, and the relative coordinates times the reciprocal cell of the given cell are the absolute ones.", "quantifier": "all symbols, both conventions, all lattice parameters", "why_tests_cant": "Tables with parameter-dependent coordinates.", "anchors": ["src/wulfric/kpoints/_path_and_points.py:get_path_and_points", "src/wulfric/kpoints/_sc_points.py", "src/wulfric/kpoints/_hpkot_points.py", "src/wulfric/constants/_kpoints.py:HS_PLOT_NAMES"]}
{"id": "C44", "title": "Time-reversal extension of the path", "statement": "If the crystal has neither inversion symmetry nor time reversal, the path is doubled: the primed part visits the negatives of the same points in the same order, with GAMMA shared; otherwise the default path is returned unchanged; all names stay defined.", "quantifier": "all symbols and all space groups", "why_tests_cant": "All cases.", "anchors": ["src/wulfric/kpoints/_path_and_points.py:get_path_and_points"]}
{"id": "C45", "title": "Kpoints path stays within the defined points", "statement": "After any sequence of add_hs_point and successful path assignments starting from construction, every point in the path has coordinates and a label; assigning a path with an unknown name raises and leaves the object unchanged. remove_hs_point breaks the invariant when the point is in the path.", "quantifier": "all histories", "why_tests_cant": "All histories.", "anchors": ["src/wulfric/_kpoints_class.py:Kpoints"]}
{"id": "C46", "title": "Kpoints sampling has the documented shape", "statement": "points() and flat_points() have exactly sum over segments of (n+2) entries, the first and last of each segment are the end points, intermediate ones are equally spaced; flat_points is non-decreasing, starts at 0 and constant across '|' breaks.", "quantifier": "all paths, all n, all cells", "why_tests_cant": "Unbounded n and path length.", "anchors": ["src/wulfric/_kpoints_class.py:Kpoints.points", "src/wulfric/_kpoints_class.py:Kpoints.flat_points"]}
{"id": "C47", "title": "Kpoints ticks and labels line up", "statement": "ticks() and labels have the same length, ticks are non-decreasing, start at 0 and end at the last flat point, and a label 'A|B' appears exactly at a break.", "quantifier": "all paths", "why_tests_cant": "Unbounded paths.", "anchors": ["src/wulfric/_kpoints_class.py:Kpoints.ticks", "src/wulfric/_kpoints_class.py:Kpoints.labels"]}
{"id": "C48", "title": "POSCAR dump/load round trip", "statement": "Loading what was dumped gives the same cell, the same multiset of (species, position) with atoms of one species contiguous and in original relative order, in both direct and Cartesian modes, for every structure with representable numbers.", "quantifier": "all structures, both modes", "why_tests_cant": "All structures.", "anchors": ["src/wulfric/io/_vasp.py:dump_poscar", "src/wulfric/io/_vasp.py:load_poscar"]}
{"id": "C49", "title": "POSCAR scale factors", "statement": "A positive scale multiplies lattice vectors and Cartesian coordinates; a negative scale sets the cell volume to its absolute value; three scales multiply the x,y,z components. The unchanged code violates the last two.", "quantifier": "all files", "why_tests_cant": "Continuum.", "anchors": ["src/wulfric/io/_vasp.py:load_poscar"]}
{"id": "C50", "title": "Le Page search terminates and classifies", "statement": "lepage terminates for every cell, tolerance and limit, each pass of its outer loop strictly removing axes; every type it reports is one of the 14 Bravais types; the returned type is decided by exactly the axes within the tolerance; an axis without deviation is a twofold axis of the lattice; the result does not depend on the orientation of the cell. (False: that an exact tetragonal lattice is recognised whatever its aspect ratio; and zero tolerance gives TRI for every lattice.)", "quantifier": "all cells and tolerances", "why_tests_cant": "Unbounded loop.", "anchors": ["src/wulfric/_lepage.py:lepage"]}
{"id": "C51", "title": "SC example cells have the advertised metric", "statement": "Each SC_* constructor returns a primitive cell whose lattice parameters/metric are those of the requested lattice for every admissible parameter (a rhombohedral angle above 120 degrees is an error); sc_get_example accepts exactly the documented names, in any letter case, and raises ValueError otherwise; the example named after a variation of a lattice that is not triclinic has that variation.", "quantifier": "all parameters", "why_tests_cant": "Continuum.", "anchors": ["src/wulfric/cell/_sc_examples.py"]}
{"id": "C52", "title": "The finite point set determines the Wigner-Seitz cell", "statement": "The Voronoi region of the origin among the lattice points that voronoi_cell generates (indices -10..10) is the Wigner-Seitz cell of the infinite lattice whenever the cell is Niggli-reduced; with any n >= 1 in fact. The same holds in reciprocal space, for the reciprocal cell of a Niggli-reduced cell, and for every cell (d the dual basis) with sum_j |d_i.d_j| |a_j|^2 <= n for each i. It is false for some very skew cells.", "quantifier": "all Niggli-reduced cells, all n >= 1; all cells under the bound", "why_tests_cant": "Continuum of cells and an infinite lattice.", "anchors": ["src/wulfric/cell/_voronoi.py:get_lattice_points", "src/wulfric/cell/_voronoi.py:_get_voronoi_cell"]}
{"id": "C53", "title": "get_primitive returns the primitive cell of the centred lattice and every atom once", "statement": "For the HPKOT and SC conventions the cell returned by get_primitive generates exactly the lattice of the conventional cell with its centring translations, its volume is the conventional one divided by the number of centring translations, every atom of the conventional cell is represented by exactly one returned atom up to a primitive lattice vector, and names and species are inherited from an original atom of the same type. (False for the lattice of HPKOT rhombohedral crystals.)", "quantifier": "all datasets, all Bravais lattice types, any number of atoms", "why_tests_cant": "All symmetries and all atoms; tests compare a few structures.", "anchors": ["src/wulfric/crystal/_primitive.py:get_primitive"]}
{"id": "C54", "title": "Scalar products agree with the lattice parameters", "statement": "get_scalar_products returns b.c, a.c and a.b in this order, equal to bc cos(alpha), ac cos(beta), ab cos(gamma) with the values of get_params for the same cell; two cells have the same lengths and the same scalar products exactly when an orthogonal transformation of space takes one to the other.", "quantifier": "all cells", "why_tests_cant": "Continuum; a swapped pair passes any test on a cell with two equal products.", "anchors": ["src/wulfric/cell/_basic_manipulation.py:get_scalar_products"]}
{"id": "C55", "title": "High-symmetry points lie in the first Brillouin zone", "statement": "For every crystal whose standardised cell has the standard shape of its lattice type, every absolute point that get_path_and_points returns lies in the first Brillouin zone of the primitive cell that get_primitive returns for the same convention and, GAMMA aside, on the boundary of this zone. (False: Z of aP2 is the origin; in the SC convention F3 of MCLC1 and, for some cells, N of TRI1b are outside of the zone; so is Y of HPKOT oF3 for cells with a short b.)", "quantifier": "all space groups, both conventions, all lattice parameters, time reversal on and off", "why_tests_cant": "The coordinates are functions of the lattice parameters and the zone is defined by all points of an infinite lattice.", "anchors": ["src/wulfric/kpoints/_path_and_points.py:get_path_and_points", "src/wulfric/kpoints/_sc_points.py", "src/wulfric/kpoints/_hpkot_points.py"]}
{"id": "C56", "title": "Meaning of a POSCAR file", "statement": "For every well-formed text (comment, a positive scale, three vectors, an optional line of species, a line of counts, an optional selective-dynamics line, a mode line, atoms, anything after), load_poscar returns the scaled cell, the stripped comment and, in file order, each species repeated its count (X1, X2, ... without a species line); positions in a file whose mode line starts with c, C, k or K are those that the returned cell takes to the scaled Cartesian coordinates, and otherwise the numbers of the file.", "quantifier": "all well-formed files, any number of species and atoms", "why_tests_cant": "Unbounded number of species and atoms; each of the optional lines changes the meaning of all that follow.", "anchors": ["src/wulfric/io/_vasp.py:load_poscar"]}
{"id": "C57", "title": "The Le Page search recognises the lattice type", "statement": "For a cell in any orientation with the lengths and angles of a cubic, tetragonal, orthorhombic, hexagonal or rhombohedral lattice (primitive, or the primitive cell of the face-, body- or base-centred lattice), away from lattices of higher symmetry, lepage reports in one pass exactly that type: CUB, FCC, BCC, TET, BCT, ORC, ORCF, ORCI, ORCC, HEX or RHL, for every non-zero tolerance up to one degree and every limit up to two degrees. In particular every example cell of these types but RHL2 gets its own type.", "quantifier": "all lattice constants with quotients up to 7 (14 for HEX), all orientations, all tolerances and limits in the range", "why_tests_cant": "Continuum of cells; the search compares 15625 pairs of vectors for each of them and any one of them can add a spurious axis.", "anchors": ["src/wulfric/_lepage.py:lepage", "src/wulfric/cell/_sc_examples.py:sc_get_example"]}
{"id": "C58", "title": "The Le Page search recognises monoclinic and triclinic lattices", "statement": "For a cell without pseudosymmetry (no lattice row is within the limit of a reciprocal row unless they are parallel): if no lattice row is a twofold axis lepage reports TRI; if exactly one is, b, it reports MCL when the lattice consists of multiples of b and vectors perpendicular to b, and MCLC otherwise. False: MCLC is reported for a primitive lattice when b is a difference of two vectors of the cell or a combination of all three, and TRI for a monoclinic cell whose lengths are small compared with the square root of the angle tolerance, and for a centred lattice when b is a vector of the cell and another one is perpendicular to it.", "quantifier": "all cells, orientations, tolerances and limits up to 90 degrees; the axis with indices in -2..2", "why_tests_cant": "Continuum of cells; the two wrong outcomes depend on the choice of the basis and on the unit of length, which the tests never vary.", "anchors": ["src/wulfric/_lepage.py:lepage"]}
{"id": "C59", "title": "Segments of zero length on the default paths", "statement": "Two neighbours on the path returned by get_path_and_points are the same point only for lattices on a border: HPKOT when the conventional cell satisfies the equality that separates two extended symbols (for example a = c of tI, a = b of oC, b = a sin(beta) of mC) or the symbol is aP2; SC when a = c or b = c of ORCI, a = b of ORCC, and for the monoclinic variations at alpha = 90 degrees or when one of the two axes is at the limit of its reduction. At these borders the path does have such a segment. All other crystals have none, with time reversal or without, in relative or absolute coordinates, whatever the input cell.", "quantifier": "all space groups, both conventions, all lattice parameters", "why_tests_cant": "The coordinates are functions of the lattice parameters; equality of two of them is a condition on a continuum that random or tabulated cells never hit.", "anchors": ["src/wulfric/kpoints/_path_and_points.py:get_path_and_points", "src/wulfric/kpoints/_sc_points.py", "src/wulfric/kpoints/_hpkot_points.py", "src/wulfric/_kpoints_class.py:Kpoints"]}
{"id": "C60", "title": "The SC conventional cell has the shape its tables of points assume", "statement": "If spglib returns its cells in the standard setting (right angles, equal edges, unique axis b with an obtuse angle and reduced a and c; a primitive rhombohedral cell with equal edges and angles), get_conventional with convention SC returns a cell with the shape and the order that the SC tables need: a and b not longer than c for oI, a not longer than b for oC and oA, unique axis a, alpha not obtuse and b, c reduced for the monoclinic lattices, equal angles for hR. Hence the statements on the Brillouin zone and on zero-length segments hold for the SC convention given the shape of spglib's cells alone. False if a monoclinic angle differs from 90 degrees by no more than the angle tolerance: the unique axis then stays b or becomes c.", "quantifier": "all space groups, all standard cells, all tolerances", "why_tests_cant": "Continuum; the permutation is chosen by comparisons with a tolerance and only the shape of the result makes the tables of points meaningful.", "anchors": ["src/wulfric/crystal/_conventional.py:get_conventional", "src/wulfric/kpoints/_path_and_points.py:get_path_and_points"]}
{"id": "C61", "title": "The Niggli cell is a property of the lattice", "statement": "Two Niggli-reduced bases of one lattice, possibly rotated or reflected, have the same scalar products. Hence, for cells whose scalar products are multiples of a spacing above the tolerances, get_niggli returns cells with the same get_params for every basis and orientation of one lattice, and two cells span the same lattice up to a rotation or reflection exactly when the results agree in lengths and scalar products. For any other lattice the same holds for all small enough tolerances.", "quantifier": "all bases of all lattices, all orientations; every limit from some limit on", "why_tests_cant": "A lattice has infinitely many bases; a missing tie-breaking condition shows only on lattices where two candidates have equal lengths.", "anchors": ["src/wulfric/cell/_niggli.py:get_niggli"]}
{"id": "C62", "title": "Turning the crystal turns the results", "statement": "For a rotation or reflection Q of space, if spglib standardises cell and cell @ Q to the same crystal (its rotation matrix being the only difference): get_conventional and get_primitive return the cells times Q with the same atoms, the extended Bravais lattice symbol and the variation are the same, get_path_and_points returns the same path, the same relative coordinates and the absolute coordinates times Q, and Kpoints.from_crystal differs in the reciprocal cell alone, times Q. Errors are the same too. get_niggli commutes with Q for every tolerance and limit, and lepage returns the same list.", "quantifier": "all cells, atoms, tolerances, conventions; all orthogonal Q", "why_tests_cant": "Continuum of orientations; a transposed rotation matrix cannot be seen when the crystal is in the standard orientation, as the examples of tests are.", "anchors": ["src/wulfric/_spglib_interface.py:SpglibData", "src/wulfric/crystal/_conventional.py:get_conventional", "src/wulfric/crystal/_primitive.py:get_primitive", "src/wulfric/kpoints/_path_and_points.py:get_path_and_points", "src/wulfric/_kpoints_class.py:Kpoints.from_crystal", "src/wulfric/cell/_niggli.py:get_niggli", "src/wulfric/_lepage.py:lepage"]}
{"id": "C63", "title": "The returned crystal is the given crystal", "statement": "If spglib's standardised and primitive cells, turned back by its rotation matrix, describe the given crystal (up to the origin) and have the centring of the space group, then so do the results of get_conventional and get_primitive, for every convention: the set of all atoms (species and Cartesian positions, all lattice translations included) of the returned cell and atoms dictionary is that of the arguments, moved by one vector. For get_primitive with HPKOT or SC each atom is reproduced up to 0.5e-8 in relative coordinates (the positions are rounded) if different atoms are further apart than the tolerance. (False for get_primitive of HPKOT rhombohedral crystals.) get_spglib_data stores the given structure, the family and centring letter of the space group, and cells with the lattice parameters of spglib's.", "quantifier": "all cells, any number of atoms, all space groups, all conventions", "why_tests_cant": "The statement is about infinitely many atoms of every crystal; a wrong permutation shows only for the lattices where the centring or the multiplicity notices it.", "anchors": ["src/wulfric/crystal/_conventional.py:get_conventional", "src/wulfric/crystal/_primitive.py:get_primitive", "src/wulfric/_spglib_interface.py:get_spglib_data"]}
{"id": "C64", "title": "A figure shows what was asked for", "statement": "Every plotting method of PlotlyEngine only adds to the figure: everything drawn before stays, and all new items are in the requested subplot and legend group. plot_cell draws exactly the twelve edges of the cell (shifted), the vectors are drawn from the shift with labels beyond their tips; plot_wigner_seitz_cell and plot_brillouin_zone draw exactly the edges of the Voronoi cell around the origin of the lattice (of the reciprocal lattice); plot_kpath draws each sub-path through the Cartesian positions of its points, with an error for an empty path; plot_kpoints one marker for each point (or each point of the path); plot_lattice the translations in the given range; plot_atoms each atom at its Cartesian position with its name. A call makes at most one legend entry, with its label.", "quantifier": "all cells, k-point objects, atoms, shifts, flags, and all sequences of calls", "why_tests_cant": "A figure is looked at, not compared; the statements are about all arguments and all sequences of calls on one figure.", "anchors": ["src/wulfric/_plotly_engine.py:PlotlyEngine.plot_cell", "src/wulfric/_plotly_engine.py:PlotlyEngine.plot_brillouin_zone", "src/wulfric/_plotly_engine.py:PlotlyEngine.plot_wigner_seitz_cell", "src/wulfric/_plotly_engine.py:PlotlyEngine.plot_kpath", "src/wulfric/_plotly_engine.py:PlotlyEngine.plot_kpoints", "src/wulfric/_plotly_engine.py:PlotlyEngine.plot_atoms", "src/wulfric/_plotly_engine.py:PlotlyEngine.plot_lattice"]}
{"id": "C65", "title": "The axes show everything that was drawn, in true proportion", "statement": "PlotlyEngine.show and save set the axes of every subplot such that all points drawn there are visible and a unit of length is equally long on the three axes. (Proved: with the points drawn by anything but earlier pieces of a k-path, everything is visible if and only if every coordinate takes values on both sides of zero, in particular if the origin is drawn. False in general: points all on one side of zero are cut off, earlier pieces of a k-path do not count, and a flat figure has no aspect ratio.)", "quantifier": "all sequences of plotting calls with all arguments", "why_tests_cant": "The limits depend on the whole history of calls; tests do not compare axes at all.", "anchors": ["src/wulfric/_plotly_engine.py:PlotlyEngine.show", "src/wulfric/_plotly_engine.py:PlotlyEngine.save", "src/wulfric/_plotly_engine.py:PlotlyEngine._update_range", "src/wulfric/_plotly_engine.py:PlotlyEngine._update_fig_aspect_range"]}
{"id": "C66", "title": "Atoms are drawn in their colours with readable names", "statement": "plot_atoms draws each atom in the given colour or, by default, in the colour of its species, and writes its name in black or white such that the luminance of text and disc differ by more than a fifth of the scale; a brighter disc never gets brighter text; on greys the change is in the middle of the scale. With default colours it succeeds exactly if every species is known and is not palladium or erbium, whose entries in the table are not colours. A single colour string, documented as possible, is always rejected.", "quantifier": "all 2^24 colours in either case, all atoms dictionaries", "why_tests_cant": "The choice is a threshold in a three-dimensional space of colours; an error in one entry of the table is seen only with that element.", "anchors": ["src/wulfric/_plotly_engine.py:PlotlyEngine.plot_atoms", "src/wulfric/_plotly_engine.py:_get_good_contrast", "src/wulfric/constants/_atoms.py:ATOM_COLORS"]}
{"id": "C67", "title": "The edges of the Wigner-Seitz cell and of the Brillouin zone", "statement": "If scipy's Voronoi describes the faces around the origin as its documentation says, get_wigner_seitz_cell of a Niggli-reduced (or not too skew) cell returns exactly the edges of the Wigner-Seitz cell of the infinite lattice, and get_brillouin_zone of a Niggli-reduced cell exactly those of the first Brillouin zone: every returned pair of points is an edge, every edge is returned, once, the points are different from each other and each is an end of an edge. plot_wigner_seitz_cell and plot_brillouin_zone draw exactly these edges.", "quantifier": "all Niggli-reduced cells, all cells under the bound of C52; all answers of scipy with the documented meaning, in any order", "why_tests_cant": "Continuum of lattices; an edge is a set that is extreme in an intersection of infinitely many half-spaces. A missing or a doubled edge is not seen by counting on examples.", "anchors": ["src/wulfric/cell/_voronoi.py:get_wigner_seitz_cell", "src/wulfric/cell/_voronoi.py:get_brillouin_zone", "src/wulfric/cell/_voronoi.py:_get_voronoi_cell", "src/wulfric/_plotly_engine.py:PlotlyEngine.plot_brillouin_zone", "src/wulfric/_plotly_engine.py:PlotlyEngine.plot_wigner_seitz_cell"]}
{"id": "C68", "title": "The default path stays in the first Brillouin zone", "statement": "All points of Kpoints.points() on the default path of Kpoints.from_crystal, not only the named ones, are in the first Brillouin zone of the primitive lattice, in Cartesian coordinates of the given crystal, for every number of points between the named ones, with time reversal or without: for HPKOT and every space group, and for SC with the exception of mC and aP lattices, if spglib returns its cells in the standard setting. The zone is that of any primitive cell of the lattice, also of the user's. plot_kpath draws no line that leaves the zone. More generally, points() of any Kpoints object stays in every convex set that holds the named points of its path.", "quantifier": "all space groups, lattice parameters, atoms, numbers of points", "why_tests_cant": "Continuum of lattices; the statement is about all points of the segments and infinitely many reciprocal lattice vectors.", "anchors": ["src/wulfric/_kpoints_class.py:Kpoints.from_crystal", "src/wulfric/_kpoints_class.py:Kpoints.points", "src/wulfric/kpoints/_path_and_points.py:get_path_and_points", "src/wulfric/_plotly_engine.py:PlotlyEngine.plot_kpath"]}
{"id": "C69", "title": "The table of points can be read back", "statement": "Kpoints.hs_table returns a header and one line for each name, in the order of hs_names, even with a name that contains spaces or with huge numbers: the line begins with the name and shows the three relative and the three absolute coordinates, each rounded to the given number of decimals (half a unit of the last decimal at most from the exact value), with a space between any two numbers. Splitting a line of the default points at spaces gives the name and the six numbers back. While the numbers are below ten in absolute value all lines have the same length and each column starts at a fixed place; the header has that length exactly when a name has four letters or more and there are three decimals or more. ValueError without points, an error for a negative number of decimals.", "quantifier": "all points, names, coordinates, reciprocal cells and numbers of decimals", "why_tests_cant": "The width of the printed numbers depends on their values; a number that fills its column must still be separated from the next one.", "anchors": ["src/wulfric/_kpoints_class.py:Kpoints.hs_table"]}
{"id": "C70", "title": "The logo keeps the lines of information", "statement": "logo succeeds for every list of lines, length and comment. All lines of its result have the same length (the length of the comment sign plus the line length asked for, or the width of the logo if this is larger) if no line of information is longer than the logo is wide less twelve. Without information it is the logo alone; with at most eight lines of information these appear complete, in the given order, in consecutive lines next to the cat. A comment sign stands before every line and changes nothing else. (False: with nine lines or more the order is rotated; comment=False writes 'False' before every line.)", "quantifier": "all lists of lines, all lengths, both logos, all comment signs", "why_tests_cant": "The place of each line of information is computed from the number of lines; tests look at one number of lines.", "anchors": ["src/wulfric/_package_info.py:logo"]}
{"id": "C71", "title": "The examples of the HPKOT convention are what their symbols say", "statement": "hpkot_get_example returns a crystal exactly for the 29 extended symbols and the 15 two-letter symbols, except with_inversion=True and oF2, oI2, oA1, oA2, oA; it raises ValueError otherwise (FileNotFoundError for oA with inversion, which is not documented). Whatever it returns is a right-handed cell of non-zero volume with at least one atom, as many positions as names, all names chemical symbols. The crystal has an inversion about some point, within 1e-4 in relative coordinates, exactly if with_inversion is True. Its translations, within the same tolerance, are exactly those of the centring that the second letter stands for, and the cell has the shape of the crystal family of the first letter (hR2 with inversion: a primitive rhombohedral cell). A two-letter symbol gives the example of one of its extended symbols.", "quantifier": "all strings, with and without inversion; all inversion points and all translations", "why_tests_cant": "Absence of an inversion is a statement about all points of space, and absence of further translations about all vectors; tests check only that the function returns.", "anchors": ["src/wulfric/crystal/_hpkot_examples/__init__.py:hpkot_get_example", "src/wulfric/crystal/_hpkot_examples/POSCAR-files"]}
{"id": "C72", "title": "The unit of length does not matter", "statement": "If spglib finds the same symmetry (with its standardised cells s times larger), then for the crystal with all lengths multiplied by s > 0, whenever both calls return: get_params gives lengths times s and the same angles; get_reciprocal is divided by s; get_spglib_data, get_conventional and get_primitive give cells times s with the same atoms; the extended symbol (HPKOT) and the variation (SC) are the same; get_path_and_points gives the same path, names and relative coordinates, and absolute coordinates divided by s; Kpoints.from_crystal the same object with the reciprocal cell divided by s. get_niggli and lepage commute with the change of the unit. (False: the variation of face-centred orthorhombic lattices in SC, because 1/a^2-1/b^2-1/c^2 is compared with a length; get_niggli with its default tolerance fails in a larger unit; lepage may exchange MCL, MCLC and TRI.)", "quantifier": "all cells, atoms, conventions, tolerances; all s > 0", "why_tests_cant": "Continuum of cells and units; a tolerance in the wrong unit is only seen in the other unit, and all examples of tests are in angstrom.", "anchors": ["src/wulfric/cell/_basic_manipulation.py:get_params", "src/wulfric/cell/_basic_manipulation.py:get_reciprocal", "src/wulfric/crystal/_conventional.py:get_conventional", "src/wulfric/crystal/_primitive.py:get_primitive", "src/wulfric/crystal/_sc_variation.py:sc_get_variation", "src/wulfric/crystal/_hpkot_extended_bl_symbol.py:hpkot_get_extended_bl_symbol", "src/wulfric/kpoints/_path_and_points.py:get_path_and_points", "src/wulfric/_kpoints_class.py:Kpoints.from_crystal", "src/wulfric/cell/_niggli.py:get_niggli", "src/wulfric/_lepage.py:lepage"]}
{"id": "C73", "title": "The result does not depend on the description of the crystal", "statement": "Two descriptions of one crystal (another cell of the same lattice, a supercell, atoms shifted or in another order) for which spglib returns the same standardised cells give the same conventional and primitive cell in every convention, the same extended symbol and variation, the same path and the same points in Cartesian coordinates (relative coordinates stand for the same vectors of the reciprocal space), and Kpoints.from_crystal gives the same names, labels, path, points(), ticks() and flat_points() in Cartesian coordinates; errors correspond to errors. With the same standardised atoms, every type present in the second description, and names and species that follow the types, the returned atoms are the same too. If types are derived from species, the two descriptions need only have the same set of species.", "quantifier": "all pairs of descriptions, all conventions, all replies of spglib", "why_tests_cant": "Infinitely many cells of one lattice; a use of the given cell where the standardised one is meant is invisible as long as the tests start from standard cells.", "anchors": ["src/wulfric/crystal/_conventional.py:get_conventional", "src/wulfric/crystal/_primitive.py:get_primitive", "src/wulfric/crystal/_hpkot_extended_bl_symbol.py:hpkot_get_extended_bl_symbol", "src/wulfric/crystal/_sc_variation.py:sc_get_variation", "src/wulfric/kpoints/_path_and_points.py:get_path_and_points", "src/wulfric/_kpoints_class.py:Kpoints.from_crystal"]}
{"id": "C74", "title": "Precomputed symmetry data change nothing but the work", "statement": "Passing spglib_data=get_spglib_data(cell, atoms) to get_conventional, get_primitive, hpkot_get_extended_bl_symbol, sc_get_variation, get_path_and_points or Kpoints.from_crystal gives exactly the result of the call without it, values and errors alike. With given data spglib is not asked, whatever it would answer now. Data of another crystal are refused by all six functions with the error of validate_spglib_data. The name of the convention is read without regard to case.", "quantifier": "all cells, atoms, conventions, tolerances, all replies of spglib", "why_tests_cant": "The data pass through nested calls; one that drops them asks spglib again with its own tolerances, which is seen only for crystals near a symmetry.", "anchors": ["src/wulfric/crystal/_conventional.py:get_conventional", "src/wulfric/crystal/_primitive.py:get_primitive", "src/wulfric/crystal/_hpkot_extended_bl_symbol.py:hpkot_get_extended_bl_symbol", "src/wulfric/crystal/_sc_variation.py:sc_get_variation", "src/wulfric/kpoints/_path_and_points.py:get_path_and_points", "src/wulfric/_kpoints_class.py:Kpoints.from_crystal"]}
{"id": "C75", "title": "Standardising twice is standardising once", "statement": "get_conventional and get_primitive return atoms that all functions accept (if spglib's lists of positions and types have the same length). If spglib gives the same answer for the returned crystal as for the given one, get_conventional of its own result returns that result: cell, positions, types, names and species; so does get_primitive, if no type of atoms was lost; and get_primitive of the conventional crystal has the cell, the positions and the types of get_primitive of the given one.", "quantifier": "all crystals, all conventions, all replies of spglib", "why_tests_cant": "The statement is about all crystals and both functions together; names are taken from the first or the last atom of a type, and the wrong one shows only with several names for a type.", "anchors": ["src/wulfric/crystal/_conventional.py:get_conventional", "src/wulfric/crystal/_primitive.py:get_primitive", "src/wulfric/_spglib_interface.py:get_spglib_data"]}
{"id": "C76", "title": "Every time-reversal-invariant momentum is among the named points", "statement": "Every wave vector k that differs from -k by a vector of the reciprocal lattice of the primitive cell is equivalent, by a translation and a symmetry of the reciprocal lattice, to one of the points returned by get_path_and_points: for HPKOT and all extended symbols but aP2, and for SC for all lattices, if spglib returns its cells in the standard setting. (False for aP2: half the third reciprocal vector is missing from its table; if that vector is the shortest of the lattice, as in a crystal given in the proof, no named point is equivalent to its half. All other such momenta are there.)", "quantifier": "all space groups, lattice parameters, atoms, all such wave vectors", "why_tests_cant": "Continuum of lattices and a symmetry to be found for each; the missing point of one table is only noticed by counting all eight classes for that table.", "anchors": ["src/wulfric/kpoints/_path_and_points.py:get_path_and_points", "src/wulfric/kpoints/_hpkot_points.py", "src/wulfric/kpoints/_sc_points.py"]}
{"id": "C77", "title": "No crystal that spglib understands is refused, except on stated boundaries", "statement": "If spglib describes the crystal as it documents (its cells are the given crystal, not flat, each atom listed once), then: with convention 'spglib' get_conventional and get_primitive always return. With HPKOT get_conventional returns (for triclinic crystals, if the Niggli reduction does), and if different atoms are further apart than the tolerance, get_primitive, get_path_and_points and Kpoints.from_crystal return for every crystal that is not rhombohedral, with or without time reversal, in relative or absolute coordinates. With SC get_conventional returns if the edges to be sorted differ, one monoclinic axis is orthogonal to the others and the rhombohedral edges and angles are equal (orthorhombic crystals with equal edges get PotentialBugError); get_primitive returns; get_path_and_points and Kpoints.from_crystal return exactly if the cell is not on the boundary between two variations, where ValueError is raised.", "quantifier": "all crystals, all replies of spglib with the documented meaning, all space groups", "why_tests_cant": "The chain of functions has two dozen internal consistency checks that raise; that none of them is ever hit is a statement about all crystals.", "anchors": ["src/wulfric/crystal/_conventional.py:get_conventional", "src/wulfric/crystal/_primitive.py:get_primitive", "src/wulfric/crystal/_primitive.py:_get_unique", "src/wulfric/kpoints/_path_and_points.py:get_path_and_points", "src/wulfric/_kpoints_class.py:Kpoints.from_crystal", "src/wulfric/crystal/_sc_variation.py:sc_get_variation"]}
{"id": "C78", "title": "Points of the same letter are the same point of the crystal", "statement": "Among the points returned by get_path_and_points, any two whose names begin with the same capital letters (X and X1, Z and Z0, H and H2, F and F0; Z and Z_P of crystals without inversion) are equivalent: a translation of the reciprocal lattice and a symmetry of that lattice take one into the other. For both conventions, all extended symbols and variations, with or without time reversal, if spglib returns its cells in the standard setting.", "quantifier": "all space groups, lattice parameters, atoms; all pairs of names", "why_tests_cant": "Continuum of lattices, and a symmetry to be found for each pair of points in 54 tables whose coordinates depend on the lattice parameters.", "anchors": ["src/wulfric/kpoints/_path_and_points.py:get_path_and_points", "src/wulfric/kpoints/_hpkot_points.py", "src/wulfric/kpoints/_sc_points.py"]}
{"id": "C79", "title": "The default path passes through every time-reversal-invariant momentum", "statement": "For every wave vector k that differs from -k by a vector of the reciprocal lattice of the primitive cell, the default path returned by get_path_and_points passes through a point equivalent to k: for HPKOT and all extended symbols but aP2, and for SC for all lattices. (False for aP2, whose table lacks one such momentum; the path passes through the other seven.)", "quantifier": "all space groups, lattice parameters, atoms, all such wave vectors", "why_tests_cant": "The path is one string for each of 54 kinds of lattice and the momenta are eight classes of infinitely many vectors; that none is missed by the path is seen only by a search over all symmetries of all lattices of a kind.", "anchors": ["src/wulfric/kpoints/_path_and_points.py:get_path_and_points", "src/wulfric/constants/_hpkot_convention.py:HPKOT_DEFAULT_K_PATHS", "src/wulfric/constants/_sc_convention.py:SC_DEFAULT_K_PATHS"]}
{"id": "C80", "title": "No part of the default path is followed twice", "statement": "The path returned by get_path_and_points can be read back by get_path_as_list, every section of it has at least two points, and no segment between two consecutive points occurs twice in it, in either direction. For every crystal and both conventions, including the path doubled for crystals without inversion and time reversal.", "quantifier": "all crystals, all replies of spglib, both conventions, with and without time reversal", "why_tests_cant": "The doubled path is computed from the default one by a rule; a segment that the rule maps to itself would be followed twice, in one of 54 paths.", "anchors": ["src/wulfric/kpoints/_path_and_points.py:get_path_and_points", "src/wulfric/constants/_hpkot_convention.py:HPKOT_DEFAULT_K_PATHS", "src/wulfric/constants/_sc_convention.py:SC_DEFAULT_K_PATHS"]}
{"id": "C81", "title": "The HPKOT cell of a rhombohedral crystal is three halves of the primitive one", "statement": "For every rhombohedral crystal get_primitive with convention HPKOT, if it returns, returns 3/2 times the vectors of the obverse primitive cell that the convention prescribes (and whose lattice is that of the crystal), of 27/8 times its volume. The returned crystal is the given one only if the given one has in addition the translation by half a vector of the primitive cell, up to the rounding; never for crystals with one atom per primitive cell, for which the call does return. The reciprocal vectors and thus the points of get_path_and_points are 2/3 of the right ones: T, which time reversal leaves in place in the paper, is returned where it does not. (The documentation promises a cell that describes the same crystal.)", "quantifier": "all rhombohedral crystals, all replies of spglib", "why_tests_cant": "The promise is about the infinite crystal; the code checks counts of atoms after rounding the ratio 8/9 of the volumes to 1, and no error is raised.", "anchors": ["src/wulfric/crystal/_primitive.py:get_primitive", "src/wulfric/constants/_hpkot_convention.py:HPKOT_CONVENTIONAL_TO_PRIMITIVE", "src/wulfric/kpoints/_path_and_points.py:get_path_and_points"]}
{"id": "C82", "title": "A triclinic crystal has one HPKOT path, whatever basis it is given in", "statement": "Two triclinic crystals of the same space group, whose standardised cells from spglib are any two bases of one lattice, rotated or reflected in between: hpkot_get_extended_bl_symbol returns the same symbol, get_path_and_points with convention HPKOT returns the same path, and the points in absolute coordinates are the same up to one isometry of space; the conventional cells are equal up to that isometry. For every Niggli reduction that returns reduced cells; get_niggli is one when the scalar products of the reciprocal vectors are separated by more than the tolerances.", "quantifier": "all triclinic lattices, all pairs of bases, all isometries, all atoms", "why_tests_cant": "Every lattice has infinitely many bases; the reduction takes a different route for each of them, and a choice that depends on the route is only noticed if the same lattice is tested in the right two bases.", "anchors": ["src/wulfric/crystal/_conventional.py:get_conventional", "src/wulfric/cell/_niggli.py:get_niggli", "src/wulfric/crystal/_hpkot_extended_bl_symbol.py:hpkot_get_extended_bl_symbol", "src/wulfric/kpoints/_path_and_points.py:get_path_and_points"]}
{"id": "C83", "title": "All conventions return one lattice and the same atoms per primitive cell", "statement": "get_primitive with convention spglib, HPKOT (rhombohedral crystals excepted, see C81) and SC: whichever two of them are called for one crystal, the returned cells are bases of one lattice, so they have the same volume and the same first Brillouin zone, and the returned dictionaries have the same number of atoms of each type, and of each species and name. This number is the number of atoms of the given crystal per cell of its lattice.", "quantifier": "all crystals of the 230 space groups whose different atoms are further apart than the tolerance, all conventions, all documented replies of spglib", "why_tests_cant": "The three code paths share little: spglib's own cell, two tables of matrices, two ways of choosing the conventional cell, and a loop that removes duplicates; tests compare each of them to stored values for a few crystals.", "anchors": ["src/wulfric/crystal/_primitive.py:get_primitive", "src/wulfric/crystal/_primitive.py:_get_unique", "src/wulfric/constants/_hpkot_convention.py:HPKOT_CONVENTIONAL_TO_PRIMITIVE", "src/wulfric/constants/_sc_convention.py:SC_CONVENTIONAL_TO_PRIMITIVE"]}
{"id": "C84", "title": "Every named point is where the geometry of the lattice puts it", "statement": "Each name of the table of an extended symbol (HPKOT) or variation (SC) stands for one place that is described by vectors of the reciprocal lattice alone: the origin, half of a vector (centre of a face of the Brillouin zone), the centre of the circle through the origin and two vectors, the centre of the sphere through the origin and three vectors (a corner), or the middle of two corners; the vectors have the same integer indices in the reciprocal primitive cell for all lattices of that symbol. get_path_and_points returns a point for each name, at that place, and a primed point X_P at the opposite place, and no other point; so the formulas with lattice parameters in the tables are those of these places, for every lattice of the shape of the convention. A place determines the point. (Two names have no such place: Z of aP2, which is at the origin, and F3 of MCLC1 and MCLC2, which is outside of the zone.)", "quantifier": "all space groups, lattice parameters, atoms; all 54 tables and all names in them", "why_tests_cant": "Continuum of lattices; an error in one coefficient of one of the some five hundred formulas is seen only by comparing with the geometry for that lattice, and a test with a wrong stored number does not see it at all.", "anchors": ["src/wulfric/kpoints/_path_and_points.py:get_path_and_points", "src/wulfric/kpoints/_hpkot_points.py", "src/wulfric/kpoints/_sc_points.py"]}
{"id": "C85", "title": "Saving and loading again and again changes nothing more", "statement": "A crystal written by dump_poscar and read back by load_poscar, written and read back once more with the same mode and number of decimals, is exactly the crystal that was read the first time: cell, names, positions and comment. However often the file is loaded and written again, its text is the same from the second time on. So rounding, sorting by species and stripping of the comment happen once and do not accumulate.", "quantifier": "all crystals with species of the table, all comments, both modes, all numbers of decimals, any number of repetitions", "why_tests_cant": "Rounding of coordinates through a matrix inverse could drift at each step; only a statement for all crystals and all numbers of repetitions excludes this.", "anchors": ["src/wulfric/io/_vasp.py:dump_poscar", "src/wulfric/io/_vasp.py:load_poscar"]}
{"id": "C86", "title": "Small errors change neither the symbol nor the path, and move the points little", "statement": "Let get_path_and_points return for a crystal that is not on the border of two extended symbols (HPKOT) or variations (SC, where the tolerances are part of the border). For every delta there is an epsilon such that for every crystal of the same space group (SC: and tolerances) whose get_conventional cell differs by less than epsilon in each number and for which the call returns: hpkot_get_extended_bl_symbol or sc_get_variation returns the same value, get_path_and_points returns the same path and the same names of points, and each point differs by less than delta in each coordinate. (But for Z of aP2 and F3 of MCLC1 and MCLC2.) On a border this is false.", "quantifier": "all space groups, lattice parameters off the border, all delta; all nearby crystals", "why_tests_cant": "A statement on neighbourhoods of every point of a continuum of lattices; it is what carries exact formulas over to computed numbers with rounding errors.", "anchors": ["src/wulfric/kpoints/_path_and_points.py:get_path_and_points", "src/wulfric/crystal/_hpkot_extended_bl_symbol.py:hpkot_get_extended_bl_symbol", "src/wulfric/crystal/_sc_variation.py:sc_get_variation", "src/wulfric/kpoints/_hpkot_points.py", "src/wulfric/kpoints/_sc_points.py"]}
{"id": "C87", "title": "The labels show the names", "statement": "In the object created by Kpoints.from_crystal the label of every point is its name in LaTeX: digits as a subscript, _P as a prime, GAMMA, DELTA, LAMBDA and SIGMA as the Greek letter. (False for F3 and F3_P, which the crystals of variation MCLC1 and MCLC2 have: their label is that of F4.) No default path goes through F3; the labels of the ticks, joined by hyphens, can be read by get_path_as_list and are the path with its names in LaTeX. So two figures with the same labels show the same path, for any two crystals and conventions.", "quantifier": "all crystals, both conventions, with and without time reversal; all pairs of crystals", "why_tests_cant": "A table of two hundred strings, a loop that merges labels at the bars, and paths put together from names by a rule: the claim is about all paths it can produce, and about pairs of them.", "anchors": ["src/wulfric/_kpoints_class.py:Kpoints.from_crystal", "src/wulfric/_kpoints_class.py:Kpoints.labels", "src/wulfric/constants/_kpoints.py:HS_PLOT_NAMES", "src/wulfric/kpoints/_path_and_points.py:get_path_and_points"]}
{"id": "C88", "title": "The zone that is returned fills space exactly once and has the right volume", "statement": "get_wigner_seitz_cell returns, each once, the corners of one body: none of the returned points is between others, and with each point the opposite one is returned. The body between them consists of the points of space that no other lattice point is nearer to. Its copies at all lattice points cover space and overlap nowhere but at their surfaces, and its volume is what get_volume returns for the cell. For get_brillouin_zone of a Niggli-reduced cell the same holds with the reciprocal lattice, and the volume of the zone is (2 pi)^3 divided by the volume of the cell. Two cells of one lattice give the same corners and the same edges.", "quantifier": "all cells for which the lattice points with indices up to 10 are enough, among them all Niggli-reduced ones; every Voronoi routine that does what its documentation says", "why_tests_cant": "A measure of a set with an unknown number of corners in general position, and a covering of all of space by infinitely many copies; a test can only compare corners with stored values for some cells.", "anchors": ["src/wulfric/cell/_voronoi.py:get_wigner_seitz_cell", "src/wulfric/cell/_voronoi.py:get_brillouin_zone", "src/wulfric/geometry/_geometry.py:get_volume"]}
{"id": "C89", "title": "The Brillouin zone of the package's own primitive cell is right, and the path's points lie on it", "statement": "For the cell that get_primitive returns with convention HPKOT or SC, get_brillouin_zone returns the corners and the edges of the first Brillouin zone of its lattice, although the cell need not be reduced: the body between the corners consists of the wave vectors that are not nearer to another reciprocal lattice vector than to the origin, its copies fill reciprocal space, and its volume is (2 pi)^3 divided by the volume of the primitive cell. Every point that get_path_and_points returns in absolute coordinates with the same convention lies in the drawn body, and all but GAMMA lie on its surface. (Exceptions: Z of aP2, which is at the origin; for SC those of C55: F3 of MCLC, N of TRI1b for some cells, and cells within the tolerance on the wrong side of ORCF3, MCLC4, MCLC2, TRI2a, TRI2b.)", "quantifier": "all crystals of the 230 space groups whose standardised cell has the standard shape of its lattice type, both conventions; every Voronoi routine that does what its documentation says", "why_tests_cant": "Whether lattice points with indices up to 10 suffice depends on how skewed the cell is, and the primitive cells of the tables are skewed without bound as the ratio of the axes grows; no sample of cells settles it.", "anchors": ["src/wulfric/cell/_voronoi.py:get_brillouin_zone", "src/wulfric/crystal/_primitive.py:get_primitive", "src/wulfric/kpoints/_path_and_points.py:get_path_and_points", "src/wulfric/constants/_hpkot_convention.py:HPKOT_CONVENTIONAL_TO_PRIMITIVE", "src/wulfric/constants/_sc_convention.py:SC_CONVENTIONAL_TO_PRIMITIVE"]}
{"id": "C90", "title": "The Wigner-Seitz cell of the package's own primitive cell is right, and one picture serves both conventions", "statement": "For the cell that get_primitive returns with convention HPKOT or SC, get_wigner_seitz_cell returns the corners and the edges of the Wigner-Seitz cell of its lattice, although the cell need not be reduced: the body between the corners consists of the points of space that are not nearer to another lattice point than to the origin, its copies fill space, and its volume is what get_volume returns for the primitive cell. The cells that get_primitive returns for one crystal with HPKOT (rhombohedral crystals excepted, see C81) and with SC give the same corners and the same edges, both with get_wigner_seitz_cell and with get_brillouin_zone.", "quantifier": "all crystals of the 230 space groups whose standardised cell has the standard shape of its lattice type, both conventions; every Voronoi routine that does what its documentation says", "why_tests_cant": "Whether lattice points with indices up to 10 suffice depends on how skewed the cell is; the two conventions give different, skewed bases of one lattice, and equality of the pictures is a statement on all lattices.", "anchors": ["src/wulfric/cell/_voronoi.py:get_wigner_seitz_cell", "src/wulfric/cell/_voronoi.py:get_brillouin_zone", "src/wulfric/crystal/_primitive.py:get_primitive", "src/wulfric/constants/_hpkot_convention.py:HPKOT_CONVENTIONAL_TO_PRIMITIVE", "src/wulfric/constants/_sc_convention.py:SC_CONVENTIONAL_TO_PRIMITIVE"]}
{"id": "C91", "title": "The limit of the reduction is enough for cells that are not too elongated, and is reached by others", "statement": "get_niggli with implementation wulfric returns the Niggli cell within max_iterations if the scalar products are integer multiples of one number that the tolerances are below, and six times the sum of the squared lengths of the three given vectors is at most max_iterations in units of that number; or if the sum is at most r^2 times the square of the shortest lattice vector and 9 (2r + 1)^3 is at most max_iterations. For the default limit of 100000: if the sum is at most 16666 units, or at most 112 times the square of the shortest lattice vector; the latter for every lattice if the tolerances are small enough. No limit is enough for all cells of one lattice: (1,0,0), (0,0,1), (-n,1,0) spans the simple cubic lattice and is reduced if and only if max_iterations is at least n; for n > 100000 the call with the default limit raises NiggliReductionFailed.", "quantifier": "all non-degenerate cells, all limits, all tolerances below the threshold", "why_tests_cant": "A bound on the number of passes of a loop with eight steps, valid for a continuum of cells; the loop has passes that do not shorten any vector, and how many of them may follow each other is not seen from runs.", "anchors": ["src/wulfric/cell/_niggli.py:get_niggli"]}
{"id": "C92", "title": "The Le Page search with its Niggli reduction depends on the lattice alone and recognises it from any basis", "statement": "lepage with give_all_results off and no_niggli off returns the same for two cells that span the same lattice up to a rotation, whenever the Niggli reduction succeeds for both. Given any cell of the lattice it returns CUB, FCC, BCC; HEX for lengths with c between a/14 and 14 a; and, when the lattice has no pseudosymmetry within the angular limit and no twofold axes other than those of its type, RHL (for angles between 60 and 109.47 degrees away from the cubic ones without this condition), ORC, ORCF, ORCI, ORCC, TET, BCT (c^2 = 2 a^2 excepted, where the lattice is cubic), MCL, TRI, and MCLC with an exception: if the vector along the twofold axis is one of the Niggli-reduced basis and another one of that basis is perpendicular to it, the centred monoclinic lattice is reported as TRI, always. The range of the search is enough: in the reduced basis every twofold axis of the lattice is along a direct and along a reciprocal vector with indices from -2 to 2.", "quantifier": "all lattices of the named types, all of the infinitely many cells of each, every reduction that returns a Niggli-reduced cell of the same lattice (that of the package does so for every cell, with tolerances small and the limit large), all tolerances up to 1, all angular limits up to 2 degrees (90 for RHL with the condition, MCL, MCLC and TRI)", "why_tests_cant": "Infinitely many bases of one lattice lead to the reduced form, which is one of several for each type depending on the ratios of the lengths; existing tests call the routine on the example cells.", "anchors": ["src/wulfric/_lepage.py:lepage", "src/wulfric/cell/_niggli.py:get_niggli"]}
