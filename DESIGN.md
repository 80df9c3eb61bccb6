# Formal model of crystallographic-group: design

The code under study is `/repo` (Rust). The model and proofs are in `lean/Verif`.

## Layout

* `Verif/Model/*`  executable model, function by function, each definition citing file:lines.
  `Linear` (3-vectors, 3x3 and 4x4 integer matrices), `Notation` (enums and their Display), `Rotations` (rotation
  tables), `Seitz` (SeitzMatrix, rotation types, eigenvector, texts), `Parser` (winnow parsers), `Generate` (position
  generation), `Positions` (GeneralPositions), `Database` (tables, lookups), `Float` (try_inverse/powi/determinant in
  binary64), `Fraction` (to_fraction), `Order` (derived comparisons), `Builder`, `Checked` (the same arithmetic with the i32 overflow checks of a debug build).
* `Verif/Data/*`   the constant tables of the crate, transcribed mechanically from the Rust source (`Tables`, `Orders`),
  and two generated certificates (`Codes`, `Functionals`) that are checked by the kernel and not trusted.
* `Verif/Spec/*`   small independent specifications: rational points, affine maps and congruence modulo the cell
  (`Affine`), space groups as sets of maps and their point groups (`Group`), rotations and orders (`Rotation`), the written
  form of Hall symbols (`Syntax`, `Symbol`, `Reading`), a reader of `x,y,z` texts (`Text`), crystal classes of the 230
  numbers and sameness of group types (`CrystalClass`), reference rows (`Reference`), binary64 (`Float`), what a
  Hermann-Mauguin name says (`HermannMauguin`), the group a written Hall symbol denotes (`HallGroup`), sites and equivalent
  points (`Orbit`), lawful comparisons (`Order`), the reading of arbitrary texts (`AnyText`), the library's own reading of written symbols (`AsRead`), site symmetry
  (`Site`), mirror images (`Hand`), points of full symmetry (`Symmorphic`), fixed points (`FixedPoint`), centres and polar directions (`Polar`),
  reflections (`Diffraction`, `Conditions`, `NameConditions`, `ExtraAbsences`, `Multiplicity`), unit cells (`Cell`), densities (`Density`), tensors (`Tensor`).
* `Verif/Proofs/*` helper lemmas. `Verif/Rows/*`: one kernel-checked certificate per tabulated Hall symbol (generated
  text, checked by `decide +kernel` against a checker proved sound in `Proofs/RowCheck`, `Proofs/RowFacts`).
* `Verif/Props/*`  the property theorems (one file per area), each with a non-vacuity `example` or witness.
* `seeded/`        seeded-bug runs (`run.py`, `seeds*.py`, `LOG.jsonl`); `tools/` generators of data, rows, manifest.

## Modelling decisions

* Integers. The main model (`Seitz`, `Generate`, ...) computes with unbounded `Int`; Rust `%` on integers is `Int.tmod`.
  `Model/Checked` is a second model in which every addition, product and negation of the Rust code is checked against the
  `i32` range and an out-of-range result stops the program, as in a debug build. `Props/Overflow` proves that the second
  refines the first (C59: same answer unless it overflows), that it never overflows on crystallographic input (C46), and
  that it always ends (C60). `Model/Wrapped` is a third model in which each of these operations is taken modulo 2^32, as
  in a release build; `Props/Release` proves that it agrees with the second (C67), always ends (C68) and never returns
  wrong positions (C69). Parsing of integers keeps the `i32` range check (out-of-range text is a parse failure).
* A `nalgebra::Matrix4<i32>` is stored in blocks (3x3 `rot`, column `tr`, row `bot`, corner `w`), which
  is all sixteen entries; products are the block form of the 4x4 product.
* Text is `List Char`; a string slice being consumed is the remaining `List Char`.
* winnow 0.7 combinators (`alt`, `preceded`, `one_of`, `repeat`, `take_escaped`, `separated`, `dec_int`,
  `space0/1`) are external: their behaviour is modelled from their documented/published semantics,
  including the fact that a failed `preceded`/`take_escaped` may leave input consumed.
* `HashMap`/`HashSet` are only queried and inserted into, never iterated: association lists.
* A panic (`unwrap`, `expect`, `panic!`) is an explicit `Except.error`; the unbounded `loop` of
  `generate_positions` takes a number of rounds, and "ends" means "some number of rounds suffices". A theorem about all
  runs quantifies over all numbers of rounds.
* `f64`: a finite `f64` is its rational value and every operation is followed by a round-to-nearest-even to 53 bits
  (`rnd`). The determinant in `det` is exact for entries up to 700 (`det_exact`), so `Seitz.M4.det` is the integer
  determinant; `Model/FloatType` has the f64 determinant itself (C09, C10, C85: exact up to entries of 100000, wrong at nine digits); `try_inverse` is the real rounding computation, because C05/C06 depend on it. `norm_squared` is of
  integers of at most 12, hence exact.
* `slice::sort_by` is stable; its comparator panics as soon as it is called on an unknown text, and with
  two or more elements every element is compared at least once.
* `fraction::GenericFraction<i32>` Display is modelled as reduced `n` or `n/d` with sign.

## Trusted base

* Lean 4.33 kernel. Axioms of the theorems: at most `propext`, `Classical.choice`, `Quot.sound` (vcheck prints them).
  No own axioms, no compiled evaluation; tables are evaluated by the kernel (`decide +kernel`).
* This reading of the Rust source: every definition cites the lines it models.
* The behaviour of the external crates, written down from memory of their sources because they are not in the sandbox:
  winnow 0.7 (see above), nalgebra's `do_inverse4`, `Display` and `Debug` of matrices, 3x3 determinant and integer matrix product (in `Checked` the partial sums
  of a product entry are taken from left to right), `fraction`'s Display, std's stable sort and collections.
* The Spec files, in particular the crystal classes of the 230 numbers and the reading of Hermann-Mauguin
  names (from the International Tables).

## Not modelled

winnow's error values and context strings, `{:#?}` and `Debug` of the builder, enum and iterators, hash values (only what is fed
to the hasher), memory and performance (capacity requests are modelled as a number; their `usize` product wraps in `Model/Wrapped` only),
the order in which a failing sort meets unknown texts, signed zero, NaN, infinities and subnormal `f64` (not reached from
entries below nine digits).

## Findings (properties that are false of the code; each has a kernel-checked witness)

| id | finding | witness |
|----|---------|---------|
| C09, C10 | `rotation_type` computes the determinant in f64: for entries of nine digits it can be wrong, and a fourfold rotation is then rejected | `rotation_type_large_wrong` |
| C05, C06 | `try_inverse`/`powi(-1)` are off by 1/12 for some hexagonal operations (f64 truncation) | `try_inverse_wrong`, `powi_minus_one_wrong` |
| C07 | equal Seitz matrices can hash differently | `eq_hash_disagree` |
| C08 | `partial_cmp` is not `Equal` on some equal matrices | `cmp_eq_disagree` |
| C11, C54 | `eigenvector`, hence Display, panics on hexagonal 2-folds along [210] etc.; 25 numbers cannot be displayed | `eigenvector_panics_hexagonal`, `display_panics` |
| C12 | `Ord` of RotationType is not an order | `rotation_type_order_broken` |
| C17 | text after the notation is ignored silently | `junk_ignored` |
| C18, C19 | Display of a parsed notation may read back as another notation, even another group | `display_not_faithful`, `display_changes_group` |
| C21 | explicit axes on a second 2-fold / third 3-fold are overridden | `explicit_axis_overridden` |
| C23, C43 | 12 (and -12) are not reduced to 0 | `shift_out_of_range`, `positive_mod_twelve` |
| C26 | 2_1 ignored, 4_2 and 6_3 rejected, 3* screws in the wrong direction | `screw_missing`, `screw_body_diagonal_wrong` |
| C30 | the origin shift does not move the inversion of a `-` lattice | `shift_ignores_inversion` |
| C36 | inconsistent symbols lose generators silently | `generator_lost` |
| C38, C55 | accepted symbols can panic, and with exact integers run forever | `parsed_symbols_panic`, `generation_diverges` |
| C42 | the "minimal" translation is not the shortest | `minimal_translation_not_shortest` |
| C48, C49 | ambiguous HM / Hall symbols | `default_hm_ambiguous`, `hall_lookup_ambiguous` |
| C51-C53, C58 | row 123 (number 24) holds number 23's group | `variant_123`, `tables_differ_24`, `wrong_row_24`, `wrong_type_24` |
| C52 | 24 origin-choice-1 codes of the default table are listed at origin choice 2 of the full table | `origin_choice_ignored` |
| C56 | after a 4, quote marks select other directions | `diagonal_after_four` |
| C46 | 357913942 translation letters overflow | `letters_overflow` |
| C63, C64 | number 90 is listed as `P 42 1 2`; 40 names of the default table are cut at `/` or run together | `hm_90_wrong`, `default_hm_names_partial` |
| C66 | the default table answers `P 4` with 83, `P 6` with 175, ...: it pads the right names with blanks | `hm_lookups_disagree` |

## Plan per property

| id | model / proof plan |
|----|--------------------|
| C01-C04 | `Model/Seitz`: `mul`, `eq`, `addV`; action on rational points in `Spec/Affine`; ring identities + `tmod` congruence |
| C05 | `Model/Float`: binary64 rounding on rationals; proved for the 48 cubic matrices and reduced translations; counterexample for a hexagonal matrix (float truncation) |
| C06 | induction on the exponent; negative exponents via the inverse (partial) |
| C07, C08 | stated as contracts; refuted by witness (12-shifted translation); partial on reduced translations |
| C09 | crystallographic restriction through Mathlib: finite order => roots of unity => trace/det pair; order from Cayley-Hamilton; f64 determinant exact for entries up to 100000 (Model/FloatType, Props/LargeEntries), counterexample beyond |
| C10 | direct from definition against an independent table of pairs; as computed (f64) for entries up to 100000, counterexample beyond |
| C11, C54 | exact characterisation of when the search succeeds; refuted for hexagonal [210] axes; proved for cubic ones |
| C12 | refuted by witness; what does hold is proved |
| C13, C14 | independent reader of `x,y,z` texts; finite case analysis on rows lifted to all translations |
| C15-C22 | parser model as total functions with remaining input; consumption lemmas, exact failure conditions, round trip by induction over symbols |
| C23, C43 | integer lemmas; documented range refuted at 12 resp. -12 |
| C24-C28 | case analysis over symbol fields, induction over translation lists |
| C29, C30 | conjugation identities on rational points; C30 for lattices without '-', refuted with '-' |
| C31-C36 | invariants of the closure loop by induction over generators, inner/outer loops and rounds; completeness via a transversal lemma |
| C37 | bound by pigeonhole on (rotation, translation) pairs; converse through closure of the final list; divergence of `P 6 4` |
| C38 | refuted by witnesses; success characterised |
| C39-C41 | stable insertion sort; list lemmas |
| C42, C44 | lattice tables; integer lemmas; `Props/FullSets`: the translations are the vectors of the letter (C44), and the full sets are the core set moved by them (C40) |
| C45 | invariant that the inversion is inserted first and never removed |
| C46, C59-C61 | `Model/Checked`: refinement lemma function by function; interval bounds preserved by the closure loop; an i32-bounded list is finite, so the loop ends |
| C47-C53 | tables as data, `decide +kernel` on the complete table through certificates proved sound once for all |
| C50, C53, C54, C58 | per-row certificates: the generated list, its class counts and a basis change to the reference row of its number, checked by the kernel; a linear functional of the translations separates numbers with equal point groups |
| C53, C58, C62 | invariants of a type: number of operations of each kind; sentences ("the group has operations f, g of given kinds whose words satisfy given equations modulo m times the lattice for some choice of lattice translations"), proved invariant under every change of basis (`SameType.sentence`) and evaluated by a procedure proved correct (`Sentence.holdsB_iff`) on all 230 reference groups by the kernel; for the 11 enantiomorphic pairs the sense of a screw (`SameType.screw`, `screw_true`, `screw_false`) |
| C63-C65 | `Spec/HermannMauguin`: a reader of names and what they claim of an infinite group; a boolean form of each claim proved equivalent for a group given by a certified list (`Proofs/HermannMauguin`, `Proofs/NameCheck`), evaluated for all 545 symbols by the kernel; two groups with the same name have the same lattice and rotations (at most one turn of a cell about a direction), so only those need be separated, by a symbol one group has no operation for |
| C66 | string codes, complete comparison of the two columns |
| C52, C51 | row matching between the tables; spelling function for variant names with listed exceptions |
| C67-C70 | `Model/Wrapped`: the same functions with every operation modulo 2^32; where the checked function succeeds the wrapped one agrees (function by function), offering to the list never wraps, so an i32-bounded list ends the loop (C68); every listed rotation of a successful run has a tabulated text, so by induction over the rounds no product of listed matrices wrapped (C69) |
| C71 | `Model/Builder`: setters and `build` as state changes, a chain of calls as a list; induction over the list from the right |
| C72 | from completeness (C34), distinctness (C32), normalisation (C33) both lists have the same members without repetition; the order is strict on rotations because texts are injective (C14), so the sorted lists of rotations coincide; counterexample for centred cells |
| C73 | `GeneralPositions.eqv` (derived `PartialEq`) by induction over the lists; combined with C33 and C72 |
| C74 | `Spec/HallGroup`: the published rules as a generated group of maps, without parser, matrices or defaults; rotation matrices are unique given order, axis and cell (uniqueness by solving the metric equations); the axes read agree with the prescribed ones exactly under `AxesAsRead`; the grammar is unambiguous (cutting a text after a maximal run of characters is unique); combined with C34 |
| C75 | a scanner finds the written form of each table entry, the kernel checks it by writing it again; then C74 and completeness; `F 2 -2yd` (read with axis x) by an explicit comparison of the two groups |
| C76 | `Spec/Orbit`; composition with a fixed operation is an injection of the listed operations (C32, C34), so all fibres of the orbit map have the same size; double counting; for the generic point the three coordinates separate the entries of a rotation (digits) |
| C77 | `Model/Order` spells out what `derive(PartialOrd, Ord)` generates; `Spec/Order` says what a lawful `cmp` is; one lemma lifts lawfulness through "compare by this key, then by that one", one through lists; positions via C33 (reduced form) |
| C78 | `Spec/AnyText` describes the reading of any text without the parser (runs, cuts, rests); every text has such a decomposition (induction on its length) and the parser follows every decomposition (induction on the run), so both sides agree |
| C79 | entrywise identities (`ring`), basis vectors for statements about all vectors |
| C80 | `Spec/AsRead` describes the library's reading of a written symbol (axis, screw direction, acceptance, group) on top of the rotations of `Spec/HallGroup`; the restored symbols realise it place by place (case analysis), a rotation of an order about an axis exists exactly for the combinations of the code (enumeration of the two holohedries), the groups agree by induction on both sides |
| C81 | `Spec/Subgroup`; containment by induction on the generated group; same matrices by C33 and C34; divisibility by Lagrange's theorem for sets of unimodular matrices (`Proofs/Lagrange`, subgroups of the units of the matrix monoid) |
| C82 | the rotations fit the cell of the first symbol (C57); Lagrange inside the group of its 48, 24 or 12 symmetries |
| C83 | conjugation by the inversion changes an operation by a translation, which is a lattice translation by consistency; induction on the generated group; cardinality of a union of two cosets |
| C84 | a closed finite list with the generators contains the generated group (induction; inverses because multiplication permutes the list, distinct by C32); distinct rotations leave the identity as the only core position with rotation part 1 |
| C85 | case split on the rotation type of C11/C12 (`rotation_type_correct`): determinant and order of the proper part, and the fixed vectors by expanding `mulVec` |
| C86 | every pass that goes on lengthens the list, which only grows; the length is bounded by distinctness of rotation (and translation) and C82 |
| C87 | the operation of a renamed symbol is the renamed operation (all symbols, any letters: induction on the letters); transport of the generated group along a bijection of space |
| C88 | the operation of a mirrored symbol has the same rotation and, modulo cells, the opposite translation; same transport, with the inversion |
| C89 | induction on membership: every operation has a partner with the same rotation in the primitive group; consistency makes the difference a lattice translation |
| C90 | `Model/Display`: complete text with nalgebra's frame; the text is cut at blanks and line ends, each matrix gives 33 pieces, the 16 fractions are read back; headings start with a bracket, coordinates never do |
| C91 | the reading of a printed text (C18) applied three times; the default-axis rules reach a fixed point position by position |
| C92 | `Spec/Setting` lists the axes each setting name stands for; `tools/gen_settings.py` writes one record per derived row (places, symbols), the kernel checks that the change of axes maps generators and lattice of each group into the other; the spec, not the record, fixes the axes |
| C93 | the same with a shift of the origin fixed by `Spec/Setting.originOne`; absence of the inversion from the certificate of C50 |
| C94 | texts of listed operations are read back (C13), listed matrices are normalised, so texts are injective; sets of texts against completeness (C03); the words of `text_format` are read back set by set |
| C95 | case analysis on the variants; the system of a class is a finite check over the 230 numbers; C96 and C49 |
| C96 | every multiplicatively closed set of rotations of the cubic or hexagonal cell containing 1 is one of the listed subgroups: `tools/gen_subgroups.py` writes a tree of generated subgroups, the kernel checks that it is closed under adding a generator (`Proofs/Subgroups`), then the counts of each leaf are those of a crystal class |
| C97 | each text is read back from the front of a longer text (`PF`), type by type; the box of C90 for matrices |
| C98 | the classification itself: (1) the rotations of a notation are carried by a change of basis to one of 73 arithmetic classes over whole cells (every subgroup of C96 is checked in the kernel, `Proofs/ArithPair`, `Data/ArithPairs`), and the translations of the group, which lie between the whole vectors and the twelfths, are turned into the whole vectors in three steps, by 2, 2 and 3 (every invariant subgroup of (ℤ/p)³ for every class is checked, `Proofs/Superlattice`, `Data/Superlattice`, written by `tools/gen_superlattice.py`); consistency is not needed; (2) per class, the translation parts of the generators satisfy the relators modulo whole cells, a certificate (`Data/Arith`, checked by `Cls.check`, sound by `Cls.sound`) shows that a shift of origin and a normaliser element bring them to one of 230 listed representatives in all; (3) the 230 rows of the default table are pairwise of different type (C58), each has a representative, so by the pigeonhole principle every representative is that of a row. The data are written by `tools/gen_classification*.py` and trusted in nothing |
| C99 | changes of basis compose; a group with an improper generator is its own mirror image; for the 65 other rows of the default table a change of basis of negative determinant (`tools/gen_mirror.py`) is checked in the kernel; then C98 |
| C100 | `Spec/Site`; a listed operation that keeps the site is corrected by a unique cell translation; rotations of a site are closed under products, so C96's enumeration of subgroups and Lagrange apply; conjugation keeps trace and determinant |
| C101 | the generated groups agree by induction; success by C57, results by C72 |
| C102 | the change of basis carries rotations to rotations of the same kind (`SameType.kinds`), the row of the default table has the class of its number by C50; C95 for the system |
| C103 | `Spec/Symmorphic`; points of full symmetry are carried along by changes of basis; a group with one has the first representative of its arithmetic class (C98), of which there are 73; the 73 rows have no translations in their symbols, so they fill the classes |
| C104 | `Spec/FixedPoint`; invariant under changes of basis; for 217 rows an operation with a fixed point (`tools/gen_fixed.py`), for 13 rows an axis along which every operation moves by part of a cell, both checked in the kernel; then C98 |
| C105 | `Spec/Polar`; centres and improper operations by the counts of C102 (a class has an inversion or an improper kind exactly for the listed numbers); kept displacements are carried along by changes of basis, and for the 230 default rows the generators have a common fixed vector or three independent equations, checked in the kernel |
| C106 | `Display` succeeds exactly when `eigenvector` does for every rotation part (C11, C54); the four matrices without an axis in -1..1 are found by enumerating both holohedries |
| C107 | the moved generator is the generator followed by the translation d minus its image; induction on the group in both directions, and consistency for the converse; the lists through C72 |
| C108 | `Spec/Diffraction` (waves as complex exponentials); composing with an operation permutes the listed ones mod cells, so the sum is multiplied by a phase; conversely, independence of characters (Mathlib) makes the amplitude of the wave hkl itself vanish, which is a count of listed operations unless one of them moves the planes by a fraction |
| C109 | `Spec/Cell`; an operation keeps distances exactly when its rotation keeps the six products of the cell edges (linear equations); the rows have 39 different lists of generator rotations, for each the equations are solved (linear arithmetic), and a kernel check matches rows, lists and codes; angles through cosines |
| C110 | `Spec/Density`; every group operation is one listed operation up to a cell translation (C24), so composing with a group operation permutes the listed operations up to cell translations, which a periodic function does not see |
| C111 | `Spec/Tensor`; the property does not change under a change of basis, so the default row of the number decides (one of 230 types): nine integer tensors, one of which the generators of each piezoelectric row keep (kernel check of all rows), a centre turns every such tensor into its negative, and the generators of the rows of class 432 force all coefficients to vanish |
| C112 | `Spec/Tensor`; additive functions of rational displacements are linear, so a tensor is its six values on the edges; the linear equations of C109 decide the rows; optical activity as in C111 (six tensors, a centre, nine lists of generators whose equations force zero) |
| C113 | `Spec/Conditions`; the letter's translations give the forbidden reflections; consistency turns every translation of the group into a lattice letter translation; 1 7 49 is kept by no rotation of the cubic or hexagonal lists but the identity |
| C114 | `Spec/NameConditions`; a rotation that keeps the metric and the axis keeps reflections along it; `1 - r` has rank one for a mirror; the n-th power of the named operation is the named translation, so its phase is an n-th of that of the translation; partial: misnamed rows (C63, C64) |
| C115 | `Spec/ExtraAbsences`; a change of axes carries reflections along (their coordinates stay whole because translations move the planes by whole distances); a point of full symmetry leaves none; for 24 and 199 every listed operation keeps a point up to translations; a reflection and a product of generators for each of the 155 others |
| C116 | `Spec/Multiplicity`; equivalents are the images of `h` under the rotations; every fibre is a coset of the rotations that keep `h`; 1 7 49 is turned into its opposite only by the inversion |
| C55 | from C60 |
| C56 | case analysis on the second symbol |
| C57 | success condition from the order lists and C37 |
