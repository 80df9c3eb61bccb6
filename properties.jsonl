{"id": "C01", "title": "Product is composition of operations", "statement": "For symmetry operations a and b, the product a * b maps every fractional coordinate x to a(b(x)) up to a whole-cell (integer) translation.", "quantifier": "all pairs of Seitz matrices with bottom row (0,0,0,1) and arbitrary integer rotation/translation entries, all rational points x", "why_tests_cant": "the claim ranges over infinitely many matrices and all points; a test multiplies a handful", "anchors": ["src/hall_symbols/matrix_symbol/matrices/seitz_mat_impl.rs: impl Mul for SeitzMatrix"]}
{"id": "C02", "title": "Equality means same operation modulo whole-cell translations", "statement": "a == b holds exactly when a and b act identically on every point up to one fixed integer translation; hence == is reflexive, symmetric and transitive, and * and + respect it.", "quantifier": "all pairs/triples of Seitz matrices with last row (0,0,0,1), any sign and size of translation", "why_tests_cant": "congruence and transitivity are universally quantified; signs of % make corner cases easy to miss", "anchors": ["src/hall_symbols/matrix_symbol/matrices/seitz_mat_impl.rs: impl PartialEq for SeitzMatrix"]}
{"id": "C03", "title": "Multiplication is a monoid up to ==", "statement": "(a*b)*c == a*(b*c), identity()*a == a == a*identity(), and inversion()*inversion() == identity().", "quantifier": "all triples of Seitz matrices with last row (0,0,0,1)", "why_tests_cant": "universally quantified algebraic law", "anchors": ["src/hall_symbols/matrix_symbol/matrices/seitz_mat_impl.rs: Mul, identity, inversion"]}
{"id": "C04", "title": "Translations stay reduced", "statement": "Every translation component of a*b and of a+v lies strictly between -12 and 12, whatever the operands, and the last row stays (0,0,0,1).", "quantifier": "all operands", "why_tests_cant": "range claim over all integers, sign of % matters", "anchors": ["src/hall_symbols/matrix_symbol/matrices/seitz_mat_impl.rs: impl Mul, impl Add<Vector3<i32>>"]}
{"id": "C05", "title": "try_inverse yields the inverse operation", "statement": "For every crystallographic operation m, try_inverse returns Some(n) with m*n == identity and n*m == identity.", "quantifier": "all operations whose rotation part is one of the crystallographic point-group matrices and any reduced translation", "why_tests_cant": "64 rotations times all translations; float truncation fails only on some of them", "anchors": ["src/hall_symbols/matrix_symbol/matrices/seitz_mat_impl.rs: try_inverse, to_f64_mat"]}
{"id": "C06", "title": "powi obeys the exponent laws", "statement": "powi(0) is the identity, powi(1) == m, powi(a+b) == powi(a)*powi(b) for all a,b >= 0, and powi(-n) is the inverse of powi(n).", "quantifier": "all operations and all exponents", "why_tests_cant": "infinitely many exponents", "anchors": ["src/hall_symbols/matrix_symbol/matrices/seitz_mat_impl.rs: powi"]}
{"id": "C07", "title": "Eq and Hash agree", "statement": "If two Seitz matrices compare equal they feed the same data to the hasher, so a HashSet/HashMap never holds two equal keys.", "quantifier": "all pairs of Seitz matrices", "why_tests_cant": "contract over all pairs of values", "anchors": ["src/hall_symbols/matrix_symbol/matrices/seitz_mat_impl.rs: impl Hash, impl PartialEq"]}
{"id": "C08", "title": "PartialOrd agrees with PartialEq", "statement": "partial_cmp(a,b) == Some(Equal) exactly when a == b.", "quantifier": "all pairs of Seitz matrices", "why_tests_cant": "contract over all pairs of values", "anchors": ["src/hall_symbols/matrix_symbol/matrices/mod.rs: derive(PartialOrd) on SeitzMatrix", "src/hall_symbols/matrix_symbol/matrices/seitz_mat_impl.rs: impl PartialEq"]}
{"id": "C09", "title": "Rotation classification is correct", "statement": "For every operation whose rotation part has finite order (over the integers), rotation_type succeeds, returns an improper type exactly when the determinant is -1, and equiv_num is the exact order of the rotation part (of minus the rotation part when improper).", "quantifier": "all 3x3 integer matrices of finite multiplicative order, any translation", "why_tests_cant": "infinitely many integer matrices (all changes of basis)", "anchors": ["src/hall_symbols/matrix_symbol/matrices/seitz_mat_impl.rs: rotation_type, equiv_num, det, trace"]}
{"id": "C10", "title": "Rotation classification rejects non-rotations and ignores translation", "statement": "rotation_type depends only on the rotation part; it returns an error exactly when (determinant, trace) is not one of the ten crystallographic pairs, in particular for every singular matrix.", "quantifier": "all Seitz matrices with last row (0,0,0,1) and any integer entries", "why_tests_cant": "unbounded domain", "anchors": ["src/hall_symbols/matrix_symbol/matrices/seitz_mat_impl.rs: rotation_type"]}
{"id": "C11", "title": "eigenvector returns the rotation axis", "statement": "eigenvector returns a non-zero vector left invariant (up to the determinant's sign) by the rotation part, in the canonical half space (z>0, or z=0,y>0, or z=y=0,x>0), for every operation of every tabulated space group.", "quantifier": "all Seitz matrices with rotation entries up to 700 in absolute value / all tabulated operations", "why_tests_cant": "panics only for some axis directions", "anchors": ["src/hall_symbols/matrix_symbol/matrices/seitz_mat_impl.rs: eigenvector"]}
{"id": "C12", "title": "RotationType has a total order", "statement": "cmp on RotationType is a total order: reflexive, antisymmetric, transitive, and consistent with ==.", "quantifier": "all pairs and triples of rotation types", "why_tests_cant": "needs every triple", "anchors": ["src/hall_symbols/matrix_symbol/notations/mod.rs: impl Ord for RotationType"]}
{"id": "C13", "title": "Jones-faithful text determines the operation", "statement": "Reading jones_faithful_repr back as three affine expressions in x,y,z gives exactly the rotation part and the translation (reduced modulo 1, sign kept), so two operations print the same text only if they are the same operation modulo 1.", "quantifier": "all operations with rotation entries in {-1,0,1} and arbitrary integer translations", "why_tests_cant": "3^9 rotations times unbounded translations", "anchors": ["src/hall_symbols/matrix_symbol/matrices/seitz_mat_impl.rs: jones_faithful_repr, rotation_jf_repr"]}
{"id": "C14", "title": "Rotation text is faithful to the rotation", "statement": "jones_faithful_repr_rot does not depend on the translation and different rotation parts print different text.", "quantifier": "all operations with rotation entries in {-1,0,1}", "why_tests_cant": "all pairs of matrices", "anchors": ["src/hall_symbols/matrix_symbol/matrices/seitz_mat_impl.rs: jones_faithful_repr_rot, set_translation_part"]}
{"id": "C15", "title": "Parsing always terminates and never panics", "statement": "try_from_str returns Ok or Err for every input string; every accepted matrix symbol consumes at least one character.", "quantifier": "all strings", "why_tests_cant": "all inputs, including unbounded repetition", "anchors": ["src/hall_symbols/mod.rs: try_from_str", "src/hall_symbols/parser.rs: parse_hall_symbol", "src/hall_symbols/matrix_symbol/parser.rs: parse_hall_matrix_symbol"]}
{"id": "C16", "title": "Exactly which strings are rejected", "statement": "try_from_str fails exactly when the text does not begin with an optional '-' and one of P A B C I R F, or when the text after the matrix symbols is a parenthesised list of one or two integers.", "quantifier": "all strings", "why_tests_cant": "exact characterisation over all strings", "anchors": ["src/hall_symbols/parser.rs: parse_hall_symbol", "src/hall_symbols/lattice_symbol/parser.rs: parse_lattice_symbol", "src/hall_symbols/origin_shift/parser.rs: parse_origin_shift"]}
{"id": "C17", "title": "The whole input is used", "statement": "If try_from_str succeeds, every character of the input contributed to the notation (nothing is silently ignored).", "quantifier": "all strings", "why_tests_cant": "all inputs", "anchors": ["src/hall_symbols/parser.rs: parse_hall_symbol"]}
{"id": "C18", "title": "Display and parse round-trip", "statement": "For every notation n obtained by parsing, parsing the Display text of n succeeds, consumes all of it and gives n back.", "quantifier": "all strings that parse", "why_tests_cant": "all inputs", "anchors": ["src/hall_symbols/mod.rs: Display for HallSymbolNotation", "src/hall_symbols/matrix_symbol/mod.rs: Display for MatrixSymbol", "src/hall_symbols/parser.rs: parse_hall_symbol"]}
{"id": "C19", "title": "Display preserves the group", "statement": "For every notation n obtained by parsing, the notation re-read from its Display text has the same general positions.", "quantifier": "all strings that parse", "why_tests_cant": "all inputs", "anchors": ["src/hall_symbols/mod.rs: Display, general_positions"]}
{"id": "C20", "title": "Default axes follow the Hall rules", "statement": "After parsing, a first symbol without axis has axis c; a second 2-fold without axis has axis a after a 2 or 4 and direction a-b after a 3 or 6; a third 3-fold has direction a+b+c.", "quantifier": "all strings that parse", "why_tests_cant": "all inputs", "anchors": ["src/hall_symbols/parser.rs: restore_information_in_matrix_symbols"]}
{"id": "C21", "title": "Explicit axes are honoured", "statement": "An axis written explicitly (x, y, z) on any matrix symbol is the axis of the resulting rotation.", "quantifier": "all strings that parse", "why_tests_cant": "all inputs", "anchors": ["src/hall_symbols/parser.rs: restore_information_in_matrix_symbols", "src/hall_symbols/matrix_symbol/parser.rs: parse_axis"]}
{"id": "C22", "title": "Origin shift text is read as written", "statement": "If the text after the matrix symbols has the form (i j k) with three 32-bit integers separated by blanks, the notation's origin shift is congruent to i,j,k modulo 12; without a parenthesis it is zero.", "quantifier": "all triples of 32-bit integers, all spacings, all preceding symbols", "why_tests_cant": "unbounded integers", "anchors": ["src/hall_symbols/origin_shift/parser.rs: parse_origin_shift", "src/hall_symbols/origin_shift/mod.rs: OriginShift::new"]}
{"id": "C23", "title": "Origin shift normalisation", "statement": "OriginShift::new keeps each component congruent modulo 12, is idempotent, and produces components strictly between -12 and 12.", "quantifier": "all i32 triples", "why_tests_cant": "all integers", "anchors": ["src/hall_symbols/origin_shift/mod.rs: OriginShift::new"]}
{"id": "C24", "title": "A matrix symbol yields an operation exactly when it is well formed", "statement": "seitz_matrix returns Ok exactly for the documented fold/axis/diagonal/subscript combinations; the result has determinant +1 or -1 according to the minus sign, and last row (0,0,0,1).", "quantifier": "all matrix symbols incl. arbitrary translation lists", "why_tests_cant": "all field combinations and unbounded translation lists", "anchors": ["src/hall_symbols/matrix_symbol/matrices/mod.rs: seitz_matrix", "src/hall_symbols/matrix_symbol/matrices/rotation_matrices.rs: get_rotation_matrix, set_transform, set_inversion"]}
{"id": "C25", "title": "Rotation symbols denote the right rotations", "statement": "For every accepted fold N and axis, the rotation part fixes the stated axis direction, has exact order N, preserves the lattice metric and turns counter-clockwise about the axis.", "quantifier": "all accepted symbols", "why_tests_cant": "geometry of every table entry", "anchors": ["src/hall_symbols/matrix_symbol/matrices/rotation_matrices.rs: Rotation<N,D,A>::rotation_matrix"]}
{"id": "C26", "title": "Screw subscripts denote T/N translations", "statement": "A subscript T on an N-fold symbol (0<T<N) about x, y or z adds the translation T/N along that axis, and the N-th power of the operation is a whole-cell translation.", "quantifier": "all N, T, axes, translation lists", "why_tests_cant": "all combinations", "anchors": ["src/hall_symbols/matrix_symbol/matrices/rotation_matrices.rs: set_transform"]}
{"id": "C27", "title": "Translation letters add modulo 1 in any order", "statement": "The translation contributed by a list of translation letters is the componentwise sum modulo 1 and does not depend on their order.", "quantifier": "all lists of translation letters, all permutations", "why_tests_cant": "unbounded lists", "anchors": ["src/hall_symbols/matrix_symbol/matrices/rotation_matrices.rs: set_translation_from_symbols", "src/hall_symbols/translation_symbol.rs: translation_vector"]}
{"id": "C28", "title": "Minus sign composes with inversion", "statement": "A symbol with a minus sign gives the same translation and the negated rotation part of the symbol without it.", "quantifier": "all matrix symbols", "why_tests_cant": "all symbols", "anchors": ["src/hall_symbols/matrix_symbol/matrices/rotation_matrices.rs: set_inversion", "src/hall_symbols/matrix_symbol/matrices/mod.rs: seitz_matrix"]}
{"id": "C29", "title": "Origin shift is a change of origin", "statement": "shifted_matrix maps x to m(x - v) + v modulo whole-cell translations; it preserves products and equality.", "quantifier": "all operations, all shifts, all points", "why_tests_cant": "unbounded domain", "anchors": ["src/hall_symbols/origin_shift/mod.rs: shifted_matrix"]}
{"id": "C30", "title": "A shifted symbol gives the shifted group", "statement": "The operations of a symbol written with origin shift v are exactly the operations of the symbol without it, conjugated by the translation v/12.", "quantifier": "all parsed symbols", "why_tests_cant": "all symbols and shifts", "anchors": ["src/hall_symbols/mod.rs: generate_positions", "src/hall_symbols/origin_shift/mod.rs: shifted_matrix"]}
{"id": "C31", "title": "Every general position belongs to the group", "statement": "Every operation in derive_full_sets is a composition of the symbol's generators, centring translations, inversion (for '-') and whole-cell translations.", "quantifier": "all notations, any number of closure rounds", "why_tests_cant": "unbounded closure process", "anchors": ["src/hall_symbols/mod.rs: generate_positions, add_to_list"]}
{"id": "C32", "title": "General positions are pairwise distinct", "statement": "No two operations of derive_full_sets are equal modulo whole-cell translations, and no two core positions are equal modulo the centring translations.", "quantifier": "all notations", "why_tests_cant": "unbounded closure process", "anchors": ["src/hall_symbols/mod.rs: add_to_list", "src/hall_symbols/general_positions.rs: derive_full_sets"]}
{"id": "C33", "title": "General positions are normalised", "statement": "Every core position and every derived position has last row (0,0,0,1); core translations have components in 0..12 and derived ones in 0..12; the first core position is the identity.", "quantifier": "all notations", "why_tests_cant": "all executions", "anchors": ["src/hall_symbols/mod.rs: generate_positions, translation_minimal_repr", "src/hall_symbols/general_positions.rs: derive_full_sets"]}
{"id": "C34", "title": "General positions are complete", "statement": "If the symbol's generators describe a space group whose pure translations are exactly the lattice translations, then an operation belongs to the group iff it is one of derive_full_sets up to a whole-cell translation.", "quantifier": "all notations satisfying the stated consistency", "why_tests_cant": "unbounded: every symbol and every composition length", "anchors": ["src/hall_symbols/mod.rs: generate_positions"]}
{"id": "C35", "title": "General positions form a group", "statement": "For consistent symbols the listed operations are closed under product and inverse modulo lattice translations and their number is the order of the point group.", "quantifier": "all consistent notations", "why_tests_cant": "all pairs of operations of all symbols", "anchors": ["src/hall_symbols/mod.rs: generate_positions", "src/hall_symbols/general_positions.rs: core_position_set, num_of_general_pos"]}
{"id": "C36", "title": "Generators are never lost", "statement": "Every generator written in the symbol is, modulo lattice translations, one of the general positions.", "quantifier": "all notations", "why_tests_cant": "all symbols", "anchors": ["src/hall_symbols/mod.rs: add_to_list"]}
{"id": "C37", "title": "general_positions terminates", "statement": "If every matrix symbol denotes an operation and the memory requested is not too large, position generation stops after finitely many rounds exactly when the rotation parts of the symbol's group form a finite set; otherwise it stops at once, with a panic.", "quantifier": "all notations", "why_tests_cant": "non-termination cannot be observed by a test", "anchors": ["src/hall_symbols/mod.rs: generate_positions"]}
{"id": "C38", "title": "general_positions never panics on parsed symbols", "statement": "If try_from_str succeeds then general_positions returns without panicking.", "quantifier": "all strings that parse", "why_tests_cant": "all inputs", "anchors": ["src/hall_symbols/mod.rs: general_positions, get_matrice_order, sort_general_positions"]}
{"id": "C39", "title": "Output order is the reference order", "statement": "core_position_set is a rearrangement of the generated operations in which the positions of the rotation texts in the reference list never decrease; operations sharing a rotation keep their generation order.", "quantifier": "all notations for which generation succeeds", "why_tests_cant": "all executions", "anchors": ["src/hall_symbols/mod.rs: sort_general_positions, get_matrice_order", "src/database/sym_ops_order.rs"]}
{"id": "C40", "title": "Full sets are the core set translated", "statement": "derive_full_sets has one set per centring translation, in order, each of num_of_general_pos operations, the k-th being the k-th core operation followed by that centring translation.", "quantifier": "all general position sets", "why_tests_cant": "all sizes", "anchors": ["src/hall_symbols/general_positions.rs: derive_full_sets, num_of_general_pos"]}
{"id": "C41", "title": "Text listing is complete and consecutively numbered", "statement": "text_format lists, per centring translation, a heading and the operations numbered consecutively from 1 to sets x core size without gaps or repeats, with the same texts, in the same order, as pure_txt.", "quantifier": "all general position sets", "why_tests_cant": "all sizes", "anchors": ["src/hall_symbols/general_positions.rs: text_format, pure_txt"]}
{"id": "C42", "title": "Minimal translation representative", "statement": "The translation stored for a general position is equivalent, modulo the lattice, to the one it was computed from, has components in 0..12 and is never longer than the plain reduction; moreover it is the shortest equivalent translation.", "quantifier": "all lattices, all integer translations", "why_tests_cant": "unbounded integers", "anchors": ["src/hall_symbols/mod.rs: translation_minimal_repr", "src/utils/mod.rs: positive_mod_stbn_i32"]}
{"id": "C43", "title": "positive_mod is the non-negative remainder", "statement": "Reducing a translation component to its stored form gives the remainder in 0..12 congruent to it modulo 12.", "quantifier": "all integers", "why_tests_cant": "all integers; wrong only at negative multiples of 12", "anchors": ["src/utils/mod.rs: positive_mod_stbn_i32"]}
{"id": "C44", "title": "Lattice translations form a group", "statement": "The centring translations of each lattice symbol are zero and those the International Tables list for its letter, include zero, are distinct, are closed under addition and negation modulo 1, and their number is num_of_translations.", "quantifier": "all lattice symbols", "why_tests_cant": "finite but complete", "anchors": ["src/hall_symbols/lattice_symbol/mod.rs: get_translations, num_of_translations"]}
{"id": "C45", "title": "Centrosymmetric lattices contain the inversion", "statement": "For a symbol starting with '-', the inversion at the origin is one of the general positions.", "quantifier": "all such notations", "why_tests_cant": "all symbols", "anchors": ["src/hall_symbols/lattice_symbol/mod.rs: seitz_matrices", "src/hall_symbols/mod.rs: generate_positions"]}
{"id": "C46", "title": "No i32 overflow on crystallographic input", "statement": "While generating positions of a notation whose generators are all symmetries of one cubic or one hexagonal cell, whose origin shift was made by OriginShift::new and whose matrix symbols have at most 357913941 translation letters each (the limit is sharp), no intermediate value of any product, sum or negation leaves the range of i32, so the result is that of exact integer arithmetic.", "quantifier": "all such notations, all rounds", "why_tests_cant": "all executions", "anchors": ["src/hall_symbols/matrix_symbol/matrices/seitz_mat_impl.rs: Mul, Add", "src/hall_symbols/mod.rs: generate_positions"]}
{"id": "C47", "title": "Index lookups are total on range", "statement": "For each table, the three index lookups return Some exactly for indices below the table length, and the three columns have the same length.", "quantifier": "all indices", "why_tests_cant": "unbounded indices", "anchors": ["src/database/space_group_table.rs: LookUpSpaceGroup"]}
{"id": "C48", "title": "Lookup by Hermann-Mauguin symbol inverts lookup by index", "statement": "For every row i of a table, looking up the space-group number by the row's HM symbol gives the row's number; unknown symbols give None.", "quantifier": "all rows, all strings", "why_tests_cant": "all strings", "anchors": ["src/database/space_group_table.rs: get_space_group_number_by_hm"]}
{"id": "C49", "title": "Lookup by Hall symbol inverts lookup by index", "statement": "For every row i of a table, looking up the space-group number by the row's Hall symbol gives the row's number; unknown symbols give None.", "quantifier": "all rows, all strings", "why_tests_cant": "all strings", "anchors": ["src/database/space_group_table.rs: get_space_group_number_by_hall"]}
{"id": "C50", "title": "Every tabulated Hall symbol is usable", "statement": "Every Hall symbol of both tables parses completely, and its general positions are produced without panic and form a group of the order of the point group of its space-group number.", "quantifier": "all 760 rows", "why_tests_cant": "the crate's own test only prints mismatches and needs files not in the repo", "anchors": ["src/database/space_group_table.rs: HALL_NAME, DEFAULT_HALL_NAME", "src/hall_symbols/mod.rs: general_positions"]}
{"id": "C51", "title": "Enum variants name their table row", "statement": "For each SpaceGroupHallSymbol variant the table row it selects is in range, its Hall symbol is the one the variant's name spells, and conversion to HallSymbolNotation never panics.", "quantifier": "all 530 variants", "why_tests_cant": "complete table", "anchors": ["src/database/mod.rs: SpaceGroupHallSymbol, get_hall_symbol", "src/hall_symbols/mod.rs: From<SpaceGroupHallSymbol>"]}
{"id": "C52", "title": "The two tables agree", "statement": "Every number code of the default table occurs in the full table, and the two Hall symbols listed under it describe the same group.", "quantifier": "all 230 rows", "why_tests_cant": "complete table, group equality over all operations", "anchors": ["src/database/space_group_table.rs: DEFAULT_SPACE_GROUP_SYMBOLS, FULL_SPACE_GROUP_SYMBOLS"]}
{"id": "C53", "title": "Different space-group numbers are different group types", "statement": "No Hall symbol listed under one space-group number describes a group of the same type as a Hall symbol listed under a different number: no orientation-preserving change of basis and origin turns one group into the other.", "quantifier": "all pairs of rows", "why_tests_cant": "complete table; the change of basis ranges over infinitely many matrices and the groups are infinite", "anchors": ["src/database/space_group_table.rs: NUMBER_AND_CHOICE, HALL_NAME"]}
{"id": "C54", "title": "Printing positions never panics", "statement": "For every tabulated Hall symbol, the Display text of its general positions (and of each operation) can be produced.", "quantifier": "all tabulated symbols", "why_tests_cant": "panic only for some axis directions", "anchors": ["src/hall_symbols/matrix_symbol/matrices/seitz_mat_impl.rs: Display for SeitzMatrix, eigenvector", "src/hall_symbols/general_positions.rs: Display for GeneralPositions"]}
{"id": "C55", "title": "Generation stops for every parsed symbol", "statement": "general_positions returns, panics or is stopped by an overflow after finitely many rounds for every string that try_from_str accepts (debug build; with exact integers it would run forever on some of them).", "quantifier": "all strings that parse", "why_tests_cant": "non-termination cannot be observed by a finite test; infinitely many symbols", "anchors": ["src/hall_symbols/mod.rs: generate_positions"]}
{"id": "C56", "title": "Quote marks select the face diagonals perpendicular to c", "statement": "On a 2-fold in second place, a single quote denotes the direction a-b and a double quote a+b, as in the Hall notation rules.", "quantifier": "all strings that parse", "why_tests_cant": "infinitely many symbols share the rule", "anchors": ["src/hall_symbols/matrix_symbol/parser.rs", "src/hall_symbols/parser.rs"]}
{"id": "C57", "title": "Exactly when general_positions succeeds", "statement": "general_positions returns positions exactly when the notation has at least one matrix symbol, every matrix symbol denotes an operation whose rotation is a symmetry of the cell the first symbol selects (cubic, hexagonal or rhombohedral order list), and the requested allocation fits in memory; otherwise it panics or never returns.", "quantifier": "every HallSymbolNotation value", "why_tests_cant": "ranges over all (infinitely many) notations, and one of the failures is non-termination", "anchors": ["src/hall_symbols/mod.rs: general_positions, generate_positions, get_matrice_order, sort_general_positions, max_equiv_pos"]}
{"id": "C58", "title": "A space-group number names one group type", "statement": "All Hall symbols listed under the same space-group number, in either table and any setting, describe groups that an orientation-preserving change of basis and origin turns into each other.", "quantifier": "all pairs of rows of both tables with the same space-group number; the groups are infinite sets of maps of space", "why_tests_cant": "equality of infinite groups under a change of basis is not observable by evaluating finitely many operations", "anchors": ["src/database/space_group_table.rs: HALL_NAME, DEFAULT_HALL_NAME, NUMBER_AND_CHOICE"]}
{"id": "C59", "title": "Overflow never changes an answer (debug builds)", "statement": "Whenever general_positions returns or panics for a reason other than overflow in a build with overflow checks, the outcome is the one exact integer arithmetic gives.", "quantifier": "all notations, all numbers of rounds", "why_tests_cant": "all inputs, including those whose intermediate values leave the range of i32", "anchors": ["src/hall_symbols/mod.rs: generate_positions, add_to_list", "src/hall_symbols/matrix_symbol/matrices/seitz_mat_impl.rs: Mul", "src/hall_symbols/origin_shift/mod.rs: shifted_matrix"]}
{"id": "C60", "title": "Generation always ends in a debug build", "statement": "There is a number of rounds after which general_positions has ended on every notation in a build with overflow checks; if exact arithmetic would never end, it is an overflow that stops the program.", "quantifier": "all notations", "why_tests_cant": "non-termination cannot be observed by a test; infinitely many notations", "anchors": ["src/hall_symbols/mod.rs: generate_positions"]}
{"id": "C61", "title": "Overflow of single operations", "statement": "In a build with overflow checks *, +, == and powi return the exact result whenever they return; * does not overflow on matrices with entries up to 23170 and == up to 1073741823 in absolute value; derive_full_sets of returned positions never overflows; == and powi can overflow on larger entries.", "quantifier": "all matrices, vectors and exponents", "why_tests_cant": "ranges over all matrices", "anchors": ["src/hall_symbols/matrix_symbol/matrices/seitz_mat_impl.rs: Mul, Add, PartialEq, powi", "src/hall_symbols/general_positions.rs: derive_full_sets"]}
{"id": "C62", "title": "The default table names every type exactly once", "statement": "Two rows of the default table describe groups of the same type (up to an orientation-preserving change of basis and origin) only if they are the same row; so the 230 rows name 230 different types.", "quantifier": "all pairs of rows of the default table, all changes of basis and origin", "why_tests_cant": "changes of basis and operations are infinitely many", "anchors": ["src/database/space_group_table.rs: DEFAULT_SPACE_GROUP_SYMBOLS, DEFAULT_HALL_NAME"]}
{"id": "C63", "title": "The Hermann-Mauguin symbol of a row names the row's group", "statement": "For every row of the full table (and every SpaceGroupHallSymbol variant) the Hermann-Mauguin symbol, read by the conventions of the International Tables, is a name of the group the row's Hall symbol generates: same centring translations, every rotation a symmetry of the cell the name implies, an operation of the group for every axis, screw axis, mirror and glide plane the name lists in its direction, and all rotations products of the named ones.", "quantifier": "all 530 rows; each group is an infinite set of maps of space, and presence of an operation quantifies over all of them", "why_tests_cant": "whether an infinite group contains an operation with a given screw or glide part is not observable from finitely many evaluations", "anchors": ["src/database/space_group_table.rs: HM_FULL, HALL_NAME, get_hm_full_notation", "src/database/mod.rs: get_hm_symbol, get_hall_symbol"]}
{"id": "C64", "title": "The default table's Hermann-Mauguin symbols name the rows' groups", "statement": "The same for every row of the default table.", "quantifier": "all 230 rows, all operations of the infinite groups", "why_tests_cant": "as C63", "anchors": ["src/database/space_group_table.rs: DEFAULT_HM_FULL, DEFAULT_HALL_NAME"]}
{"id": "C65", "title": "A Hermann-Mauguin symbol identifies the space-group number", "statement": "A listed Hermann-Mauguin symbol that names the group of its own row names no group listed under another space-group number, in either table and any setting.", "quantifier": "all pairs of a row and a Hall symbol of the tables; all operations of the infinite groups", "why_tests_cant": "absence of an operation from an infinite group cannot be tested by evaluation", "anchors": ["src/database/space_group_table.rs: HM_FULL, DEFAULT_HM_FULL, get_space_group_number_by_hm"]}
{"id": "C66", "title": "The two tables answer lookups by Hermann-Mauguin symbol alike", "statement": "If both tables know a Hermann-Mauguin symbol, looking it up gives the same space-group number.", "quantifier": "all strings", "why_tests_cant": "ranges over all strings", "anchors": ["src/database/space_group_table.rs: get_space_group_number_by_hm, DEFAULT_HM_FULL, HM_FULL"]}
{"id": "C67", "title": "The release build agrees with the debug build", "statement": "Whatever a debug build returns from general_positions, a release build (wrapping arithmetic) returns after the same number of rounds; a panic of the debug build that is neither an overflow nor a capacity overflow is also the panic of the release build.", "quantifier": "all notations, all runs", "why_tests_cant": "all notations and all intermediate values of unbounded runs", "anchors": ["src/hall_symbols/mod.rs: general_positions, generate_positions, add_to_list", "src/hall_symbols/matrix_symbol/matrices/seitz_mat_impl.rs: Mul"]}
{"id": "C68", "title": "The release build always ends", "statement": "In a release build general_positions returns or panics on every notation, including those whose exact group is infinite.", "quantifier": "all notations", "why_tests_cant": "non-termination cannot be observed, and the bound is astronomically large", "anchors": ["src/hall_symbols/mod.rs: generate_positions"]}
{"id": "C69", "title": "Positions returned by a release build are the exact ones", "statement": "If every symbol has at most 357913941 translation letters, the origin shift was made by OriginShift::new and the requested capacity is addressable, a release build returns positions exactly when exact integer arithmetic does, and they are the same positions; otherwise it panics. Wrapping never leads to a wrong answer.", "quantifier": "all notations satisfying the stated limits, all runs", "why_tests_cant": "wrong answers would need a wrapped product among unboundedly many", "anchors": ["src/hall_symbols/mod.rs: general_positions, sort_general_positions", "src/hall_symbols/matrix_symbol/matrices/seitz_mat_impl.rs: rotation_jf_repr"]}
{"id": "C70", "title": "Operations on matrices in a release build", "statement": "powi with an exponent >= 0 gives the exact power modulo 2^32, hence the exact power when that has i32 entries; * is exact for entries up to 23170, == for entries up to 1073741823; the full sets derived from returned positions are exact.", "quantifier": "all matrices, all exponents", "why_tests_cant": "infinitely many matrices and exponents", "anchors": ["src/hall_symbols/matrix_symbol/matrices/seitz_mat_impl.rs: powi, Mul, PartialEq", "src/hall_symbols/general_positions.rs: derive_full_sets"]}
{"id": "C71", "title": "The builder returns what was set", "statement": "For every chain of MatrixSymbolBuilder setter calls in any order, build() returns the symbol whose fields are the arguments of the last call of each setter, or the defaults (no sign, no subscript, no diagonal, axis z, no translations); it fails with IncompleteFields exactly when set_nfold_body was never called; every MatrixSymbol can be built, in every order of the six calls; the setters of a finished MatrixSymbol act like later calls on the builder.", "quantifier": "all finite sequences of setter calls", "why_tests_cant": "call sequences are unbounded", "anchors": ["src/hall_symbols/matrix_symbol/builder.rs: MatrixSymbolBuilder", "src/hall_symbols/matrix_symbol/mod.rs: MatrixSymbol::new_builder, set_*"]}
{"id": "C72", "title": "The positions depend on the group only", "statement": "Two consistent Hall symbols denote the same group if and only if their general positions have the same lattice translations and the same full list of operations up to order; with the same reference list the core positions agree one by one up to lattice translations, and are identical.", "quantifier": "all pairs of consistent symbols with positions", "why_tests_cant": "pairs of symbols: infinitely many, unboundedly many generators", "anchors": ["src/hall_symbols/mod.rs: general_positions, generate_positions, sort_general_positions", "src/hall_symbols/general_positions.rs: derive_full_sets"]}
{"id": "C73", "title": "== on general positions", "statement": "== on two GeneralPositions compares the lattice translations literally and the operations pairwise as maps up to whole cells; on results of general_positions it is identity of all stored numbers, equal results mean equal groups, and (primitive lattice, same reference list) equal groups mean equal results.", "quantifier": "all pairs of GeneralPositions; all pairs of Hall symbols with positions", "why_tests_cant": "infinitely many values", "anchors": ["src/hall_symbols/general_positions.rs: GeneralPositions (derived PartialEq)", "src/hall_symbols/matrix_symbol/matrices/seitz_mat_impl.rs: PartialEq for SeitzMatrix"]}
{"id": "C74", "title": "From the text of a Hall symbol to its group", "statement": "A text written by the published rules of the notation (sign, lattice letter, symbols with order, axis mark, subscript and letters, shift) has exactly one reading, is accepted, and the group of the result is the group the rules prescribe: generated by the lattice, the inversion after a leading minus, and for each symbol the unique rotation of its order about its axis, with the axis found from the mark, the place and the preceding symbol, and with its screw and letter translations, all moved by the shift. The listed operations are exactly that group.", "quantifier": "all written texts: any number of symbols, letters, blanks, digits", "why_tests_cant": "infinitely many texts; the denoted groups are infinite", "anchors": ["src/hall_symbols/mod.rs: HallSymbolNotation::try_from_str, general_positions", "src/hall_symbols/parser.rs: parse_hall_symbol, restore_information_in_matrix_symbols", "src/hall_symbols/matrix_symbol/mod.rs: seitz_matrix"]}
{"id": "C75", "title": "The tables, end to end", "statement": "Every Hall symbol of both tables is written by the published rules, and the operations listed for it are exactly the operations of the group the rules prescribe for that text.", "quantifier": "all entries of both tables; all maps of space", "why_tests_cant": "equality of infinite groups of maps", "anchors": ["src/database/space_group_table.rs", "src/hall_symbols/mod.rs: general_positions"]}
{"id": "C76", "title": "Equivalent points: orbits, multiplicities, general position", "statement": "For a consistent symbol with general positions, the points symmetry-equivalent to any point are, up to whole cells, exactly its images under the listed operations, equally under the triplets printed by pure_txt; every equivalent site is hit by the same number of listed operations (the order of the site symmetry), and number of sites times that order is the number of listed operations; the point (0.01, 0.001, 0.0001) is in general position for every group: all listed operations take it to different sites.", "quantifier": "all consistent symbols with positions, all rational points", "why_tests_cant": "infinitely many points and symbols", "anchors": ["src/hall_symbols/mod.rs: general_positions", "src/hall_symbols/general_positions.rs: derive_full_sets, pure_txt", "src/hall_symbols/matrix_symbol/matrices/seitz_mat_impl.rs: jones_faithful_repr"]}
{"id": "C77", "title": "Comparisons of notations and positions", "statement": "cmp on NFold, NFoldSub, NFoldDiag, RotationAxis, TranslationSymbol, Lattices, LatticeSymbol, OriginShift and MatrixSymbol is a lawful total order (Equal exactly on equal values, reverses under swap, transitive) following the declared order of variants and fields lexicographically; partial_cmp of HallSymbolNotation always answers and is a lawful total order; partial_cmp of GeneralPositions is Equal exactly on identical stored numbers, hence exactly on == for results of general_positions; the Display names of rotation types are distinct and carry the bar exactly for improper types.", "quantifier": "all pairs and triples of values of these types, lists of any length", "why_tests_cant": "transitivity and totality over infinitely many notations", "anchors": ["src/hall_symbols/matrix_symbol/notations/mod.rs", "src/hall_symbols/matrix_symbol/mod.rs: MatrixSymbol", "src/hall_symbols/lattice_symbol/mod.rs", "src/hall_symbols/origin_shift/mod.rs", "src/hall_symbols/mod.rs: HallSymbolNotation", "src/hall_symbols/general_positions.rs: GeneralPositions"]}
{"id": "C78", "title": "What every text is read as", "statement": "For every string, try_from_str returns exactly the notation the string stands for under a complete description of the reading (longest runs, skipped marks, stray backslashes, one subscript digit, letters, default axes, shift, ignored rest), and fails exactly when it stands for none. MatrixSymbol::try_from_str, LatticeSymbol::try_from_str and OriginShift::try_from_str do so for the front of a string and leave exactly what follows; printed lattice symbols and shifts are read back.", "quantifier": "all strings", "why_tests_cant": "infinitely many strings, including malformed ones", "anchors": ["src/hall_symbols/parser.rs", "src/hall_symbols/matrix_symbol/parser.rs", "src/hall_symbols/lattice_symbol/parser.rs", "src/hall_symbols/origin_shift/parser.rs"]}
{"id": "C79", "title": "Sums, differences, parts and fractions of operations", "statement": "+ and - of matrices are a commutative group; a == b exactly when a - b has zero rotation part and whole-cell translation; the sum or difference of two operations is never an operation; set_translation_part changes the translation only; is_unique_rotation is symmetric, ignores translations and is false exactly when the rotations agree up to one sign; to_fraction multiplied with (x,y,z,1) is the image of the point, exactly, and determines the matrix.", "quantifier": "all matrices, vectors and rational points", "why_tests_cant": "infinitely many matrices and points", "anchors": ["src/hall_symbols/matrix_symbol/matrices/seitz_mat_impl.rs: Add, Sub, set_translation_part, is_unique_rotation, to_fraction"]}
{"id": "C80", "title": "What every written Hall symbol means to this library", "statement": "For every text of the grammar (any lattice, signs, orders, axis marks, subscripts, letters and shift) try_from_str succeeds, and the group of the result is the one the documented reading prescribes: the axis of each symbol by its place and mark (with the library's defaults: a second 2 after 2 or 4 about a, after 3 or 6 about a face diagonal, a third 3 about a+b+c, otherwise c), its screw translation along its cell edge, the inversion in the origin, everything else moved by the shift. A symbol is refused by seitz_matrix exactly when no rotation of its order about its axis exists or its subscript is not a screw of the notation. The listed operations are exactly that group.", "quantifier": "all written symbol lists, all shifts, all points", "why_tests_cant": "Infinitely many texts and points; the deviations from the published rules occur only for unusual mark combinations.", "anchors": ["src/hall_symbols/parser.rs: parse_hall_symbol, restore_information_in_matrix_symbols", "src/hall_symbols/matrix_symbol/matrices/mod.rs: seitz_matrix", "src/hall_symbols/mod.rs: general_positions"]}
{"id": "C81", "title": "Naming more symbols gives a larger group and a longer list", "statement": "If everything one notation names (centring, leading minus, matrix symbols in any order) is also named by another with the same origin shift, its group is contained in the other's; with the same lattice letter it is consistent when the other is; every operation listed for it is listed, as the same matrix, for the other, and the numbers of general positions (core and full) divide one another. The lattice letter and the origin shift influence neither the listed rotations nor their order.", "quantifier": "all pairs of notations", "why_tests_cant": "infinitely many notations", "anchors": ["src/hall_symbols/mod.rs: general_positions, generate_positions", "src/hall_symbols/general_positions.rs: num_of_general_pos, derive_full_sets"]}
{"id": "C82", "title": "The number of general positions divides the symmetries of the cell", "statement": "For a consistent symbol num_of_general_pos divides 24 when the first symbol is of order 6, or 3 about a cell edge, 12 when it is 3*, 48 otherwise; so it is one of 1, 2, 3, 4, 6, 8, 12, 16, 24, 48.", "quantifier": "all consistent notations with positions", "why_tests_cant": "infinitely many notations", "anchors": ["src/hall_symbols/mod.rs: general_positions", "src/hall_symbols/general_positions.rs: num_of_general_pos"]}
{"id": "C83", "title": "What a leading minus adds", "statement": "For a symbol that stays consistent with a leading minus, the group with the minus consists of the operations of the group without it and of those operations preceded by the inversion at the origin; the number of general positions is unchanged when an operation with rotation part -1 is listed without the minus, and doubles otherwise.", "quantifier": "all notations, all maps of space", "why_tests_cant": "infinitely many notations and maps", "anchors": ["src/hall_symbols/lattice_symbol/mod.rs", "src/hall_symbols/mod.rs: general_positions"]}
{"id": "C84", "title": "Consistency can be read off the result", "statement": "A symbol with general positions is consistent (its only translations are those of its lattice) exactly when its result shows it: every matrix symbol's operation, moved by the origin shift, is in the full list; the full list is closed under products up to ==; and no rotation part occurs twice among the core positions.", "quantifier": "all notations with positions", "why_tests_cant": "infinitely many notations; the group is infinite", "anchors": ["src/hall_symbols/mod.rs: general_positions, generate_positions, add_to_list", "src/hall_symbols/general_positions.rs: derive_full_sets"]}
{"id": "C85", "title": "The proper part of an operation", "statement": "For an operation whose rotation part has finite order, proper_rotation is absent exactly for the identity and the inversion; otherwise it is the rotation part or, for an improper one, minus the rotation part, has determinant 1 and exact order equiv_num > 1, and fixes a vector exactly when the operation's rotation part maps it to its determinant times itself.", "quantifier": "all operations with last row (0,0,0,1) and a rotation part of finite order with entries up to 100000 in absolute value, all vectors", "why_tests_cant": "infinitely many matrices and vectors", "anchors": ["src/hall_symbols/matrix_symbol/matrices/seitz_mat_impl.rs: proper_rotation"]}
{"id": "C86", "title": "How many passes general_positions needs", "statement": "The closure loop of general_positions never runs more passes than the result has general positions. For a consistent symbol 48 passes always suffice; for any symbol, consistent or not, there are at most 48*1728 positions and that many passes decide whether there is a result.", "quantifier": "all notations", "why_tests_cant": "infinitely many notations; a bound on a loop holds for all of them or is no bound", "anchors": ["src/hall_symbols/mod.rs: general_positions, generate_positions"]}
{"id": "C87", "title": "Renaming the axes", "statement": "Renaming a to b, b to c and c to a in a notation (axes, letters a b c u v w, lattice A B C, origin shift; any lattice but R) renames them in the group: an operation belongs to the new group exactly when it belongs to the old one in renamed coordinates; consistency, the number of general positions and the list correspond; for a first symbol that is not a 3 or 6 about an axis, the renamed notation has positions exactly when the original has.", "quantifier": "all notations with a lattice other than R, all maps of space", "why_tests_cant": "infinitely many notations and maps", "anchors": ["src/hall_symbols/matrix_symbol/matrices/rotation_matrices.rs", "src/hall_symbols/translation_symbol.rs", "src/hall_symbols/lattice_symbol/mod.rs", "src/hall_symbols/origin_shift/mod.rs", "src/hall_symbols/mod.rs: general_positions"]}
{"id": "C88", "title": "Mirror images", "statement": "Replacing every screw subscript T of an N-fold symbol by N-T (3_1/3_2, 4_1/4_3, 6_1/6_5, 6_2/6_4) and the origin shift by its opposite, in a notation whose translation letters are a, b, c, n, gives the mirror image: an operation belongs to the new group exactly when its conjugate under the inversion at the origin belongs to the old one; consistency and existence of positions agree, the same rotations are listed in the same order, and the lists are mirror images.", "quantifier": "all notations with letters a, b, c, n only, all maps of space", "why_tests_cant": "infinitely many notations and maps", "anchors": ["src/hall_symbols/matrix_symbol/matrices/rotation_matrices.rs: set_transform", "src/hall_symbols/mod.rs: general_positions"]}
{"id": "C89", "title": "What the lattice letter adds", "statement": "The group of a consistent notation consists exactly of the operations of the same notation with lattice letter P, each followed by each centring translation of the lattice. If both are consistent, their core positions have the same rotation parts in the same order and the full list is as many times longer as there are centring translations.", "quantifier": "all consistent notations, all maps of space", "why_tests_cant": "infinitely many notations; the groups are infinite", "anchors": ["src/hall_symbols/lattice_symbol/mod.rs: translations", "src/hall_symbols/mod.rs: general_positions", "src/hall_symbols/general_positions.rs: derive_full_sets"]}
{"id": "C90", "title": "Display shows an operation exactly", "statement": "The Display text of a Seitz matrix determines all its sixteen entries; the Display text of general positions determines the lattice translations and the full list of operations, set by set and entry by entry. A displayed matrix is one line with coordinates and axis followed by a frame of six lines of equal length.", "quantifier": "all matrices and all GeneralPositions whose display does not panic", "why_tests_cant": "infinitely many matrices and texts", "anchors": ["src/hall_symbols/matrix_symbol/matrices/seitz_mat_impl.rs: Display for SeitzMatrix, to_fraction", "src/hall_symbols/general_positions.rs: Display for GeneralPositions"]}
{"id": "C91", "title": "Printing settles", "statement": "Printing a parsed notation and reading the text back gives a notation whose printed text is the same from then on; after a second reading the notation itself does not change any more.", "quantifier": "all texts that parse", "why_tests_cant": "infinitely many texts", "anchors": ["src/hall_symbols/parser.rs: parse_hall_symbol, restore_information_in_matrix_symbols", "src/hall_symbols/mod.rs: Display for HallSymbolNotation"]}
{"id": "C92", "title": "Setting codes mean what they say", "statement": "After the colon a number code of the full table names a setting: new axes in terms of the old ones (cab, bca, ba-c, -cba, a-cb, with an origin digit in front where there are two origins), unique axis, sign and cell choice of a monoclinic group, or rhombohedral axes. The Hall symbol of such a row describes exactly the group of the row in the base setting of the same number, written in the axes the code names, with the same origin.", "quantifier": "all 530 rows of the full table and all motions of space", "why_tests_cant": "compares infinite groups of motions, for every row", "anchors": ["src/database/space_group_table.rs: NUMBER_AND_CHOICE, HALL_NAME", "src/database/space_group_table.rs: FULL_SPACE_GROUP_SYMBOLS"]}
{"id": "C93", "title": "Origin choices", "statement": "Exactly 24 numbers have rows of origin choice 1 and 2 in the full table. The two rows describe the same group in the same axes, and the origin of choice 1 lies where the International Tables put it seen from that of choice 2. Choice 2 has an inversion centre at the origin, choice 1 has not.", "quantifier": "all pairs of rows with the two origin choices and all motions of space", "why_tests_cant": "compares infinite groups of motions, and says that an operation is absent from an infinite group", "anchors": ["src/database/space_group_table.rs: NUMBER_AND_CHOICE, HALL_NAME"]}
{"id": "C94", "title": "Printed positions identify the group", "statement": "The texts pure_txt prints for the positions of a notation are pairwise different, and two consistent notations denote the same space group exactly when pure_txt prints the same set of texts for both, in whatever order (the comparison of hash sets the project itself uses). The text of text_format, read back, determines the lattice translations and the printed texts with their order, for any positions; for computed positions two texts are equal exactly when the positions are.", "quantifier": "all notations whose positions are computed, all positions with any integer entries", "why_tests_cant": "an equivalence between equality of printed texts and equality of infinite groups, over unboundedly many notations", "anchors": ["src/hall_symbols/general_positions.rs: pure_txt, text_format", "src/hall_symbols/mod.rs: test_all"]}
{"id": "C95", "title": "Crystal systems", "statement": "CrystalSystem is totally ordered from triclinic (the default and least) to cubic, and prints as the lower-case names, all different. Every consistent notation belongs to exactly one crystal system, read off the rotation types of its listed operations; for a tabulated row it is the system the International Tables give its number, so the systems increase weakly with the numbers.", "quantifier": "all pairs and triples of systems; all consistent notations whose positions are computed; all rows of both tables", "why_tests_cant": "that no notation falls between the systems or in two of them is a statement about unboundedly many notations, most of them not tabulated", "anchors": ["src/database/crystal_system.rs: CrystalSystem, Display", "src/hall_symbols/general_positions.rs: GeneralPositions", "src/database/space_group_table.rs: DEFAULT_SPACE_GROUP_SYMBOLS"]}
{"id": "C96", "title": "Every result belongs to one of the 32 crystal classes", "statement": "For every consistent notation, tabulated or not, the operations of core_position_set counted by rotation_type are exactly those of one of the 32 crystal classes, and num_of_general_pos is the order of that class.", "quantifier": "all notations whose positions are computed, with any generators, translations and origin shifts", "why_tests_cant": "ranges over unboundedly many notations in arbitrary orientations; the crystallographic restriction is a theorem about all subgroups, not about samples", "anchors": ["src/hall_symbols/general_positions.rs: GeneralPositions", "src/hall_symbols/matrix_symbol/matrices/seitz_mat_impl.rs: rotation_type"]}
{"id": "C97", "title": "Debug texts and error messages identify the value", "statement": "The {:?} text of a HallSymbolNotation, a MatrixSymbol, a GeneralPositions and a SeitzMatrix determines the value, field by field and entry by entry (the {} text of a symbol does not). seitz_matrix fails with an error that holds the very symbol, build with IncompleteFields exactly when no fold was set, rotation_type with the very matrix; and the message of each error determines the error and the symbol or matrix in it.", "quantifier": "all symbols, notations, positions and matrices with any integer entries, all lists of letters and symbols", "why_tests_cant": "injectivity of an unbounded text format; a missing separator or an ambiguous name shows only on particular pairs", "anchors": ["src/hall_symbols/matrix_symbol/mod.rs: MatrixSymbolError, Display", "src/hall_symbols/matrix_symbol/matrices/mod.rs: SeitzMatrixError, seitz_matrix", "src/hall_symbols/matrix_symbol/builder.rs: build", "src/hall_symbols/mod.rs: HallSymbolNotation"]}
{"id": "C98", "title": "Every result is of exactly one of the 230 tabulated types", "statement": "For every notation, tabulated or not, consistent or not, whose positions are computed there is exactly one space-group number from 1 to 230 such that an orientation-preserving change of basis and origin turns the group of the notation into the group of the symbol the default table lists under that number; two such notations are of the same type exactly when they have the same number.", "quantifier": "all notations whose positions are computed, with any generators, translations, origin shifts and lattice letters", "why_tests_cant": "it is the completeness of the classification of three-dimensional space groups over unboundedly many notations; no sample can show that the tables miss no type", "anchors": ["src/database/space_group_table.rs: DEFAULT_HALL_NAME, DEFAULT_NUMBER_AND_CHOICE", "src/hall_symbols/general_positions.rs: GeneralPositions"]}
{"id": "C99", "title": "Handedness", "statement": "For notations whose positions are computed: an orientation-reversing change of basis and origin turns one group into the other exactly when the space-group number of the second is the mirror number of the first, i.e. its partner in one of the eleven enantiomorphic pairs (76/78, 91/95, 92/96, 144/145, 151/153, 152/154, 169/170, 171/172, 178/179, 180/181, 212/213) or else the number itself. A group is no mirror image of itself exactly for these 22 numbers, and then only proper rotations are listed. Replacing every screw subscript T by N-T and the origin shift by its opposite (letters a, b, c, n only) turns the number into the mirror number.", "quantifier": "all notations whose positions are computed, tabulated or not, consistent or not, and all changes of basis", "why_tests_cant": "says that no change of basis whatever relates the two groups of a pair, over unboundedly many notations", "anchors": ["src/hall_symbols/matrix_symbol/matrices/rotation_matrices.rs: set_transform", "src/hall_symbols/general_positions.rs: GeneralPositions", "src/database/space_group_table.rs: DEFAULT_HALL_NAME"]}
{"id": "C100", "title": "Site symmetry", "statement": "For a consistent notation whose positions are computed and any point p: the listed operations that take p to itself up to whole cells correspond one to one to the operations of the group that leave p in place, which are known by their rotation parts; counted by rotation_type they are the operations of one of the 32 crystal classes, whose order divides num_of_general_pos. An operation of the group that takes p to q turns the symmetries of p into those of q, so equivalent points have the same counts.", "quantifier": "all consistent notations whose positions are computed, all rational points", "why_tests_cant": "ranges over all points of space, infinitely many in every position of every group", "anchors": ["src/hall_symbols/general_positions.rs: GeneralPositions::derive_full_sets", "src/hall_symbols/mod.rs: HallSymbolNotation::general_positions", "src/hall_symbols/matrix_symbol/matrices/seitz_mat_impl.rs: rotation_type"]}
{"id": "C101", "title": "Redundant symbols", "statement": "Matrix symbols whose operations already belong to the group of the others can be added, repeated or left out: both notations denote the same group, one is consistent exactly when the other is and (same first symbol, memory request not too large) has positions exactly when the other has; the listed operations are then the same, and for a primitive lattice the results are equal.", "quantifier": "all notations and all lists of redundant symbols in any order after the first", "why_tests_cant": "unboundedly many notations name the same group", "anchors": ["src/hall_symbols/mod.rs: HallSymbolNotation::general_positions, generate_positions", "src/hall_symbols/general_positions.rs: GeneralPositions"]}
{"id": "C102", "title": "What the number says", "statement": "The space-group number of a notation (the one the default table lists a group of the same type under) settles its operations: the rotation parts of its group are, kind by kind, as many as the crystal class of the number has. For a consistent notation the core positions counted by rotation_type are those of that class, num_of_general_pos is its order, and the crystal system read off the counts is that of the number.", "quantifier": "all notations whose positions are computed, tabulated or not", "why_tests_cant": "ranges over unboundedly many notations of each type, related by arbitrary changes of basis", "anchors": ["src/hall_symbols/mod.rs: HallSymbolNotation::general_positions", "src/hall_symbols/general_positions.rs: GeneralPositions::derive_full_sets, num_of_general_pos", "src/database/space_group_table.rs: DEFAULT_HALL_NAME", "src/hall_symbols/matrix_symbol/matrices/seitz_mat_impl.rs: rotation_type"]}
{"id": "C103", "title": "Points of full symmetry", "statement": "For a notation whose positions are computed: some point is such that, wherever an operation of the group takes it, a translation of the group takes it back, exactly when the space-group number is one of the 73 symmorphic ones. For a consistent notation this is the same as: some point is returned to its place, up to whole cells, by num_of_general_pos of the operations of derive_full_sets; at no point is it by more.", "quantifier": "all notations whose positions are computed, tabulated or not, all rational points", "why_tests_cant": "says of the other 157 types that no point whatever, in any notation, has full symmetry", "anchors": ["src/hall_symbols/mod.rs: HallSymbolNotation::general_positions", "src/hall_symbols/general_positions.rs: GeneralPositions::derive_full_sets, num_of_general_pos", "src/database/space_group_table.rs: DEFAULT_HALL_NAME"]}
{"id": "C104", "title": "Groups without special positions", "statement": "For a notation whose positions are computed: no operation of the group but the identity leaves a point where it is exactly when the space-group number is one of 1, 4, 7, 9, 19, 29, 33, 76, 78, 144, 145, 169, 170. For a consistent notation this is the same as: every point is returned to its place, up to whole cells, by exactly one of the operations of derive_full_sets, so that all equivalent sites listed are different.", "quantifier": "all notations whose positions are computed, tabulated or not, all rational points", "why_tests_cant": "ranges over all points of space and unboundedly many notations", "anchors": ["src/hall_symbols/mod.rs: HallSymbolNotation::general_positions", "src/hall_symbols/general_positions.rs: GeneralPositions::derive_full_sets, num_of_general_pos", "src/database/space_group_table.rs: DEFAULT_HALL_NAME"]}
{"id": "C105", "title": "Inversion centres, proper groups and polar directions", "statement": "For a notation whose positions are computed the space-group number settles: whether some operation of its group is the inversion at some point (exactly for the 92 centrosymmetric numbers), whether all its operations keep the hand (the 65 Sohncke numbers), and whether some displacement other than zero is kept by all operations (the 68 polar numbers). The same is read off core_position_set: an operation whose rotation_type is I is listed, all listed rotations have determinant 1, some non-zero integer vector is fixed by all listed rotations.", "quantifier": "all notations whose positions are computed, tabulated or not, consistent or not; all points and displacements", "why_tests_cant": "ranges over infinite groups, all directions of space and unboundedly many notations", "anchors": ["src/hall_symbols/mod.rs: HallSymbolNotation::general_positions", "src/hall_symbols/general_positions.rs: GeneralPositions::derive_full_sets, num_of_general_pos", "src/database/space_group_table.rs: DEFAULT_HALL_NAME", "src/hall_symbols/matrix_symbol/matrices/seitz_mat_impl.rs: rotation_type"]}
{"id": "C106", "title": "When positions can be displayed", "statement": "For every notation whose positions are computed, Display of the positions gives a text exactly when no listed operation is a 2-fold rotation or a mirror about the axis [210] or [120], and panics otherwise; it always gives a text unless the first symbol is of order 6, or of order 3 about a cell edge.", "quantifier": "all notations whose positions are computed, tabulated or not, consistent or not", "why_tests_cant": "ranges over unboundedly many notations, with any translations and origin shifts", "anchors": ["src/hall_symbols/general_positions.rs: Display for GeneralPositions", "src/hall_symbols/matrix_symbol/matrices/seitz_mat_impl.rs: eigenvector, Display for SeitzMatrix"]}
{"id": "C107", "title": "Equivalent origin shifts", "statement": "Two notations that differ only in the origin shift, by d twelfths, denote the same group - and for consistent ones their positions have the same lattice translations and list the same operations (for a primitive lattice they are equal) - exactly when for every matrix symbol d minus its image under the symbol's rotation is a lattice translation. In particular shifts that differ by a whole cell or a centring vector, or along a direction every rotation leaves alone, are interchangeable, for every notation.", "quantifier": "all pairs of notations that differ only in the origin shift, any difference; 'only if' for consistent ones", "why_tests_cant": "ranges over all notations and all integer shifts", "anchors": ["src/hall_symbols/origin_shift/mod.rs: OriginShift::shifted_matrix", "src/hall_symbols/mod.rs: HallSymbolNotation::general_positions", "src/hall_symbols/general_positions.rs: GeneralPositions::derive_full_sets"]}
{"id": "C108", "title": "Reflections", "statement": "For every consistent notation whose positions are computed: the structure sum of a reflection hkl over the listed operations (unit scatterers at all listed images of a point) vanishes for every point exactly when some operation of the group keeps the planes hkl and moves them by a fraction of their distance, and this can be read off the listed operations (h R = h and h t not a multiple of 12); reflections related by an operation of the group have the same intensity, and one is forbidden exactly when the other is; with a leading minus all structure sums are real. For every notation a centring vector forbids the reflections on which it is not a whole number.", "quantifier": "all consistent notations whose positions are computed, all reflections hkl, all points", "why_tests_cant": "ranges over all notations, all integer hkl and all points of space", "anchors": ["src/hall_symbols/mod.rs: HallSymbolNotation::general_positions", "src/hall_symbols/general_positions.rs: GeneralPositions::derive_full_sets", "src/hall_symbols/lattice_symbol/mod.rs: LatticeSymbol::get_translations"]}
{"id": "C109", "title": "Cells and rigid motions", "statement": "For every row of both tables: the operations of its group keep all distances in a unit cell exactly when the cell's lengths and angles meet the restrictions of the crystal system of the row's number (for monoclinic rows with the unique axis named by the setting code, for trigonal rows with rhombohedral axes for R and hexagonal ones otherwise). For every notation whose positions are computed, whether a cell fits can be read off the listed operations, and the first symbol names cells that fit: every hexagonal cell for a 6 or a 3 about an edge, every rhombohedral one for 3*, every cubic one for any other.", "quantifier": "all 760 rows and all cells (real lengths and angles); all notations whose positions are computed", "why_tests_cant": "ranges over all real cells and all pairs of points, and over unboundedly many notations", "anchors": ["src/database/space_group_table.rs: FULL_SPACE_GROUP_SYMBOLS, DEFAULT_SPACE_GROUP_SYMBOLS", "src/database/crystal_system.rs: CrystalSystem", "src/hall_symbols/mod.rs: HallSymbolNotation::general_positions"]}
{"id": "C110", "title": "Densities", "statement": "For every consistent notation whose positions are computed: a function on space has the symmetry of the group exactly when it has the period of the cell and the listed operations leave it alone; summing a cell-periodic function (values in any commutative additive monoid) over the images under the listed operations gives a function with the symmetry; and for a function that already has it, this sum is the function times the number of listed operations.", "quantifier": "all consistent notations whose positions are computed, all functions on space with values in any set or commutative additive monoid", "why_tests_cant": "ranges over all functions on the infinite set of points and over unboundedly many notations", "anchors": ["src/hall_symbols/mod.rs: HallSymbolNotation::general_positions", "src/hall_symbols/general_positions.rs: GeneralPositions::derive_full_sets"]}
{"id": "C111", "title": "Piezoelectric groups", "statement": "For every notation whose positions are computed, consistent or not: some third-rank tensor other than zero (a real number for every three displacements, additive in each, symmetric in the last two) is left alone by all operations of the group exactly when the type number of the group is one of the 130 numbers of the 20 piezoelectric crystal classes (all classes without a centre, but 432); and whether a given function of three displacements is left alone can be read off the core positions.", "quantifier": "all notations whose positions are computed, all third-rank tensors", "why_tests_cant": "ranges over unboundedly many notations and over all real tensors", "anchors": ["src/hall_symbols/mod.rs: HallSymbolNotation::general_positions", "src/database/space_group_table.rs: DEFAULT_SPACE_GROUP_SYMBOLS"]}
{"id": "C112", "title": "Second-rank tensors and optical activity", "statement": "For every row of both tables: a symmetric second-rank tensor (a real number for every two displacements) is left alone by all operations of the group exactly when its values on the cell edges meet the relations of the crystal system of the row's number (unique axis and rhombohedral axes by the setting code). For every notation whose positions are computed: some symmetric second-rank tensor other than zero is left alone by the operations that keep the hand and changes sign under those that change it (optical activity) exactly when the type number is one of the 105 numbers of the 15 optically active classes.", "quantifier": "all 760 rows and all symmetric second-rank tensors; all notations whose positions are computed", "why_tests_cant": "ranges over all real tensors and over unboundedly many notations", "anchors": ["src/database/space_group_table.rs: FULL_SPACE_GROUP_SYMBOLS, DEFAULT_SPACE_GROUP_SYMBOLS", "src/hall_symbols/mod.rs: HallSymbolNotation::general_positions"]}
{"id": "C113", "title": "Reflection conditions of the lattice", "statement": "For every notation: reflections that break the condition of the lattice letter (A: k+l even; B: h+l even; C: h+k even; I: h+k+l even; F: all three sums even; R: -h+k+l a multiple of 3) are forbidden. For every consistent notation: a general reflection (no operation but translations keeps its planes) is forbidden exactly when it breaks the condition of the lattice letter. Every notation with general positions has general reflections.", "quantifier": "all notations, all reflections", "why_tests_cant": "ranges over unboundedly many notations and all triples of integers", "anchors": ["src/hall_symbols/lattice_symbol/mod.rs: LatticeSymbol", "src/hall_symbols/mod.rs: HallSymbolNotation::general_positions"]}
{"id": "C114", "title": "Reflection conditions read off names", "statement": "The Hermann-Mauguin name of a row tells reflections its group forbids: for a screw axis n_s in the name, reflections along the axis d with s(h·d) not a multiple of n; for a glide plane, reflections of its zone whose planes the glide does not move by whole distances. This holds for every notation with positions and every Hermann-Mauguin name of its group, and for every row of the full table (except the misnamed row of number 90, whose name forbids 0 0 1 although its group does not) and every row of the default table but the 40 misnamed ones.", "quantifier": "all notations and names of their groups, all rows, all symbols of the name, all reflections", "why_tests_cant": "ranges over all triples of integers and unboundedly many notations", "anchors": ["src/database/space_group_table.rs: FULL_SPACE_GROUP_SYMBOLS, DEFAULT_SPACE_GROUP_SYMBOLS", "src/hall_symbols/mod.rs: HallSymbolNotation::general_positions"]}
{"id": "C115", "title": "Reflections forbidden by more than the lattice", "statement": "For every notation whose positions are computed: the group forbids some reflection that its translations alone do not forbid exactly when its type number is neither one of the 73 symmorphic numbers nor 24 (I 21 21 21) nor 199 (I 21 3).", "quantifier": "all notations whose positions are computed; all reflections", "why_tests_cant": "ranges over unboundedly many notations, and for each over all triples of integers", "anchors": ["src/hall_symbols/mod.rs: HallSymbolNotation::general_positions", "src/database/space_group_table.rs: DEFAULT_SPACE_GROUP_SYMBOLS"]}
{"id": "C116", "title": "Multiplicities of reflections", "statement": "For every notation with general positions: the number of reflections equivalent to a reflection (what it looks like through the operations of the group) times the number of rotations that keep it is the number of rotations of the group; every reflection is equivalent to its opposite exactly when the group has a centre of inversion. For every consistent notation: the number of equivalents divides the number of core positions, and general reflections have as many equivalents as there are core positions.", "quantifier": "all notations with general positions, all reflections", "why_tests_cant": "ranges over unboundedly many notations and all triples of integers", "anchors": ["src/hall_symbols/mod.rs: HallSymbolNotation::general_positions", "src/hall_symbols/general_positions.rs: GeneralPositions::num_of_general_pos"]}
