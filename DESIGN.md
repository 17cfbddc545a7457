# Design of the formal model of autoGR

The model is in Lean 4 (`/verif/lean/Verif`).  The code modelled is the Python package
`/repo/support/python_dev/opf_python` and the Fortran program in `/repo/src`.

## Layout

| Folder | Contents |
|---|---|
| `Verif/Spec/` | small specifications: HNF, symmetric supercell, Niggli classes, binary64 and 32-bit arithmetic, tolerances |
| `Verif/Model/` | the code, one definition per function, each citing file and lines |
| `Verif/Lemmas/` | helper lemmas |
| `Verif/Props/` | the property theorems, each with an `example` showing its hypotheses are met |

`properties.jsonl` has the English properties, `MANIFEST.json` the theorems of each, `seeded/LOG.jsonl`
the wrong programs the theorems were tested against.

## How each property is modelled and proved

Spec used by C02-C29 and C57.  A lattice of Niggli class k is given by its metric in the Niggli basis
(A,B,C,D,E,F, International Tables 9.2.5.1).  The symmetries of class k are the integer matrices X
with `XᵀGX = G` for the metric G of *every* lattice of the class, written in autoGR's canonical
basis through the transformation `Co` (`O*Co = No`).  A supercell H keeps X when `X*H = H*Y` for an
integer matrix Y, i.e. X maps the sublattice spanned by the columns of H into itself.  The theorem
for a generator g is: for all n ≥ 1 and all H, `H ∈ g n` iff H is an HNF of determinant n and every
symmetry of the class keeps H; and `(g n).Nodup`.

Proof of each: (1) the class symmetries are enumerated completely (a symmetry of one well chosen
metric has bounded entries; the kernel checks the finite table), (2) they are generated by two to
four matrices, (3) "H is kept by the generators" is turned into divisibility conditions and these
are shown equivalent to the tests of the code for all n.

| Property | Model | Proof |
|---|---|---|
| C01 | `getHNFDiagonals` | membership lemma for nested ranges; order by induction |
| C02-C29 | one definition per generator | as above |
| C30 | `tric_31_44` | membership of nested ranges |
| C31 | cubic generators | from C02-C04 |
| C32 | every generator takes a rounding function `fl` | each tested quotient is an integer or fails the test before and after rounding |
| C33-C36 | `find_volumes` with the float cube root as a parameter | loop invariants |
| C37-C40 | `find_supercells` dispatch, loop with `count == 5` | case analysis over the number; list induction |
| C41, C42 | `transform_supercells` over a field, exact inverse | matrix algebra |
| C43 | `reduced_cell` over arbitrary (lawless) arithmetic | invariant `det C = 1` |
| C44, C45 | `reduced_cell` over ℚ | unfold the check; negate the step tests |
| C46, C47, C55 | same | witnesses; termination by a decreasing measure on the metric |
| C48-C50 | `niggli_id` over a metric tensor | case analysis of the decision tree |
| C51 | table of canonical bases, run through the model | kernel evaluation of a complete finite table |
| C52 | `smallest_prime` | induction on the search |
| C53, C56 | `basis_check.py` | membership of the loops; case analysis over the number |
| C54 | `IsHNF` and the column span | existence by the Euclidean algorithm, uniqueness by comparing entries |
| C57, C59 | `sp_hnfs.f90`, one definition per subroutine | the same divisibility conditions as C02-C30; permutation from equal membership and `Nodup` |
| C58 | every 32-bit operation followed by `w` | all intermediate results bounded by the determinant |
| C60 | the counters of `sp_hnfs.f90` | counting lemmas |
| C61, C62, C66 | `niggli.f90` | as C43-C47, C55 |
| C63-C65 | `id_cell` | as C48-C50 |
| C67 | `id_cell` and its table with the user's tolerance | finite table over an interval of tolerances: the tests are monotone in it |
| C68, C69 | `get_kpd_cubic`, `get_kpd_tric` | invariants of the insertion and of the loop |
| C70, C71 | `compare_grids`, `grid_selection`; lengths and the k-point library are parameters | fold invariants; witnesses |
| C72-C76 | `find_grid` for all three kinds of lattice | invariants of the loops; existence from scaled cells |
| C77 | the metric of any reduced cell, over ℝ | entries of a symmetry are -1, 0, 1; for each choice of columns the equations and the Niggli conditions are contradictory or give the equalities of a class, by sums of inequalities with factors checked by the kernel |
| C78 | `check_sym`; the number of point symmetries is a parameter | C77 and the complete list of symmetries of one metric of each class |
| C79, C80 | `transform_supercell`, the grid before reduction, `find_grid`; exact inverses, `nint` kept, the reduced basis is a parameter with the assumption that it spans the same grid | algebra of the change of basis; C67, C72-C75, C77 |
| C81 | `get_offsets`; comparisons of lengths are parameters | case distinction; witness |
| C82, C83 | `get_inputs` from the label to the defaults; list-directed `read` is a parameter; the specification of a line is `Spec.Sets` | induction over the file, then over the settings from the end |
| C84, C85 | `read_POSCAR`, `parse_line_for_numbers`, `split_str`; each list-directed `read` takes one line; what a failed `read` leaves in its variable is a parameter | induction over the words of a line and over the species; algebra |
| C86, C87 | `delint` and its routines over ℝ; `equal` is a parameter; NaN is an error value | the rotation is orthogonal (QR of the basis); one lemma per class for the formulas |
| C88, C89 | `find_grid` from its start and the driver up to the grid; the libraries are the fields of `Env` | C78, C80, C82, C84 put together; the scale cancels |
| C90 | loops, buffer and comparison of `get_srHNFs`, lines of the driver | the candidates are all Hermite normal forms; the comparison decides whether adj(H) X H is divisible by det H |
| C91 | C90 and the generators of the fast code | both list the symmetric supercells without repetition, so they are permutations of each other |
| C92, C93 | `test_set` with what lies behind it, passes, combinations | a finite part of a group closed under left multiplication is all that is generated; table of two or three generators for each class, checked in the kernel |
| C94 | nothing of the code but the lists of the generators | for each class a form that the symmetries keep and whose lattice is packed at 0.6 in `λ₁³/det`; its square root relative to the lattice, averaged over the group and rounded, commutes with the symmetries, and for large multiples the packing converges |
| C95 | `find_grid` and the program, as in C72–C75, C88 | C94 gives accepted densities beyond any bound; the loop keeps at least one more entry at each, so it ends |
| C96 | the packing test of `compare_grids`, with `minkowski_reduce_basis` and `sqrt` as parameters | the first vector is a shortest one, so `temp_rmin` is the shortest length up to 1e-3 and the packing fraction is right up to 1 %; the sign of the determinant gives the negative part |
| C97 | writing of `KPOINTS` in `driver.f90`: edit descriptors `I` and `F`, list-directed output | reader in `Spec/Kpoints`; a field that fits is one word and its digits give the number back; a field that does not is stars |
| C98 | the same, with points of the first Brillouin zone | the faces of the zone bound the components along the reciprocal vectors; `ABC <= 4 det` for reduced cells turns this into `|t| <= 4`; a skewed basis is the counterexample |
| C99 | `Model/FortranDriver`: the whole of `driver.f90`; the three calls to `kgridGen`/`symlib` are parameters (`OutLib`, contract `OutRight`) | the grid from C88/C95; irreducible points of a grid as classes (`Spec/Irreducible`); weights add up to `|det|` by counting `ℤ³/Nℤ³`, each is at most 48 by the order of the point group (C78), so that it fits the format; then C97 and C98 |
| C100 | `findGrid`, `program` as in C73, C88 | a densely packed symmetric supercell `H` (C94) and all its multiples `m H` are accepted, so five answers exist up to `D (m+4)³`; an invariant of the loop says that it has stopped by then; for the triclinic lattices the first loop starts at 100 points or fewer |
| C101 | reduction and identification, as in C43–C51, C71; a cell of the same crystal is `Spec/SameCrystal` | two Niggli bases of one lattice are both made of successive minima; a tree of sums of inequalities, checked by the kernel, shows that the change of basis keeps the six numbers |
| C102 | `find_grid` for two cells of one crystal (`Spec/SameCrystal`: `SameCrystal`, `SameGrid`) | the two runs are related step by step: same class (C101), same supercells, same grids up to the turn (`gridOf_same`), same packing, same number of irreducible points; for a triclinic lattice the two lists hold the same grids in a different order, and what is selected does not depend on the order except on ties (`tryHNFs_alike`); false with automatic shifts (`offsets_depend`) |
| C103 | the program from the input files (C88), with a reduction and a square root as in C96; the wishes are `Spec/Density` (`Meets`) | a reduced basis has a product of lengths at most `√2` times the volume (`reduced_product`), which bounds the shortest vector from above, and with the packing fraction the spanning vectors and the reciprocal lattice; a cubic grid is its own class (`many_cubic`) |
| C104 | `find_supercells` and `find_grid` as in C77, C79; the grids are sets of points (`Spec/AllGrids`: `gridPoints`, `ListsGrids`) | a symmetric grid is dual to a sublattice of the crystal lattice that every point symmetry keeps (`sublattice_of_grid`), and dual sublattices have the same points exactly if they are equal; then C77 |
| C105 | the program from the input files (C88); the candidates are `Spec/AllGrids` (`Candidate`) | by C104 every candidate is the grid of a supercell that the search compares (C74); the number of irreducible points depends only on the set of points and not on the unit of length (`IrrScale`); the default fails for a cube (`ratio_ignored`), because the grid of 8 points has two equivalent points |
| C106 | `find_supercells` as in C38; `Spec/SameCrystal` (`SameCrystal`, `SameGrid`) | both cells have the same class and reduced cells of the same shape (C101), so the same forms are selected; the change from one reduced cell to the other is a point symmetry, which the supercells keep (`same_super_of`). In exact mode, and for triclinic lattices, both lists are complete (C77), so their members correspond (`lists_perm`) |
| C107 | the program from the input files (C88); the grids compared are `Spec/Widest` (`Widest`, `SeveralGrids`) | by C104 the grid is the one of a supercell; its reduced basis shows the smallest distance (`rmin_eq`) and the packing (`compareGeom_packed`), so it is in the first list (C70) and its number is not below the one selected (C71), to which the grid returned is preferred (C72, `findGrid_own`) |
| C108 | `offsetsTried` (`get_offsets` with the lengths of the vectors); the shifts are `Spec/RegularShift` (`KeepsSymmetry`) | a symmetry permutes perpendicular vectors up to the sign (`signed_perm`), keeps the axis of a hexagonal lattice (`hex_axis`: otherwise `4 q q' = 3` for integers); the condition on the shift is `Y s - s` integer; the inversion, an exchange and a mirror give the converse |
| C109 | the program from the input files (C88); the grids are those of a multiple of the cell (`Spec/Widest`, `Spec/Packing`) | the supercells tried list all grids of the larger cell, each once (`grids_tric_multiple`); a number of points is passed over only if none of its grids is packed densely (`tric_none_unpacked`); then as C107 (`widest_list`) |
| C110 | the program from the input files (C88); the shifts are `Spec/Shift` and `Spec/HalfShift`, the library counts the points of a shifted grid that has the symmetries of the crystal and may fail for others (`CountsShifted`) | as C105, C107 and C109, with every offset of the list (`widest_list_offsets`, `tryHNFs_some_offsets`); the eight half shifts of one basis are those of every basis of the same grid (`half_basis`) |
| C111 | `get_kpd_cubic`, `findGrid`, `program` as in C68, C74, C88 | the list has at least five numbers exactly up to the limit (`get_kpd_cubic_enough`, `get_kpd_cubic_short`); an invariant of the loop over the numbers: what is stored comes from one of the first five, and the number 0 ends the loop with an error |
| C112 | the program from the input files (C88); the crystal that is meant is a real cell `U0`, and the vectors read are recognised as its vectors (`RecognisedAs`): exact cells (`Recognised.as`) and cells close to it (`recognisedAs_close`, C113) are; the grid in fractions is `Spec/Fractions` | as C79, C80 and C88: the supercell is an integer matrix times the vectors, and this matrix is kept by the point symmetries of `U0`; the dual of `U0` times this matrix has the same fractions as the grid returned |
| C113 | `reduceCell` and `idCell` over any arithmetic with an absolute error bound (`Spec/Accurate`): exact rationals and rationals rounded after every operation (`Model/Rounded`) are instances; the cell is within `δ` of an ideal real cell (`Spec/ErrorBounds`), the ideal metric has a gap (`Spec/Gap`) | error bounds for each product, scalar product and determinant; each comparison of the code, with the errors, has the outcome of the exact comparison; the ideal cell then meets the Niggli conditions and the conditions of the class over the reals |
| C114 | list-directed reading (`Model/ListRead`, the behaviour of the Fortran system, not code of the repository); the notation of numbers is `Spec/Numeral` | the parser accepts a word exactly if the grammar does and gives its value (`parseReal_iff`); the words of a line are found one by one |
| C115 | `transform_supercell` over any arithmetic (`Model/RoundedTransform`), with `matrix_inverse` of the library as a parameter of known accuracy and `nint` as the nearest integer; arithmetic with a relative error and the error bounds are in `Spec/Relative` | each entry of a product of matrices is within an error that is carried along with a bound on its size; the exact value is an integer; the sizes of the stored bases and of their inverses are checked by the kernel for the whole table; `transformK_exact` is the link to the exact model |
| C116 | `read_input` and `co_ca` of the brute force program (`Model/StructEnum`) as a sequence of statements on the lines that are left; list-directed reading as for C114; what a file says is in `Spec/StructEnum` | each statement commutes with deleting comment lines (`Clean`); then one step for each line of the layout, the lines of the sites by induction; the output from C90 |
| C117 | the same | inversion of a run that ends well: each check that was passed gives its part of the claim. False for labels after the `k`-th one of a site, which are not looked at: `site_extra_labels` |
| C118 | `reduce_cell` over any arithmetic with a bounded error (`Spec/Accurate`), applied to the stored bases; an over-approximation of one pass that takes every comparison within the error both ways (`Lemmas/MayPass`) | a pass of the rounded program is one of the passes of the over-approximation on the exact literals (`pass_may`); for each class a finite set of transformations is closed under it for a whole interval of tolerances, which the kernel checks (`Lemmas/MayTable`); the transformations at which a run can end give the class the same symmetries (`storedGood_sym`). For class 6 the tolerances from `1.08e-5` to `1.23e-5` are excluded: there it is false (`canonical_class_6`), and for large tolerances as well (`canonical_large_eps`) |
| C119 | the chain `id_cell`, `transform_supercell`, `find_grid` with numbers of binary64 (`Rounded fl`); `matrix_inverse` and the reduction of the grid are library code of known accuracy (`InverseStored`, `LibClose`) | C113 for the class, C118 for the canonical basis, C115 for the change of basis (the rounded integer matrix is the exact one); the selection among the grids does not look at the numbers in them, so the theorems of C72–C75 apply as they are; `supercellK_exact` is the link to the exact model, `libClose_exists` shows that every library has some accuracy |
| C120 | as C118, with `condition_check` and the count of passes | `runs` follows all ways the loop can go, `mustCheck` is the check with all comparisons certain (`Lemmas/MayCheck`); the kernel evaluates them for each class on intervals of tolerances that cover the range but for nine short intervals (`criticalTol`). In these the claim is false: in binary64 the program stops on its own basis of class 16 with `1.159737238008116e-3` because the check fails (`canonical_class_16_stops`), and on that of class 6 with `1.2186625465288e-5` after 1000 passes, by a cycle of two (`canonical_class_6_stops`) |
| C121 | `find_grid` in any arithmetic (`Model/RoundedMain`), the same text as in `Model/FortranMain` (`find_gridK_exact`) | `TypedCell` says what is typed; `idCell_returns` puts C113, C118 and C120 together: `id_cell` returns the class of the crystal. Then the check of the point group is passed (the library counts the symmetries of the crystal: hypothesis), and C119 applies to the grid. No hypothesis says that a step of the program succeeds |
| C122 | `reduced_cell` and `niggli_id` in any arithmetic (`Model/Niggli`, `Model/LatId`), with `Spec.Accurate`, `Spec.Tolerated` and, for the relative part of `np.allclose`, `Spec.RelTolerated` | The parameters and the tests of the loop are those of C113. The last pass of the loop changed nothing, so all its tests failed, and within the gap this says that the ideal cell is a Niggli cell (`conds_ideal`); `_niggli_check` is not used for this, because it looks at the last condition only when two numbers agree to `1e-8`. It accepts a Niggli cell (`niggliCheck_ideal`). Each `np.allclose` of the search for the class comes out as the equality in the ideal metric (`pyAtoms_ideal`). The determinant, which only scales the tolerance, is expanded; numpy factorises |
| C123 | `find_supercells` and `transform_supercells` in any arithmetic (`Model/RoundedUniversal`), `Spec.floatBackErr` for the error of the last product; `np.linalg.inv` is a parameter with a stated accuracy on the three matrices it is given | The reduction of the 42 stored bases: a pass of the Python loop is a pass of the Fortran loop (`niggliPass_eq`), so the search over all branches rounding could take (C118) serves here too; run by the kernel for tolerances from `99/10^7` to `101/10^7`, it ends for every class with the matrix of exact arithmetic, and `_niggli_check` accepts (`Lemmas/MayPy`). The selection of the HNFs is that of C38, C39, C33 and C35 with binary64 divisions. The products: `changeF_near` bounds the error of `F`, which Python does not round, and `transformOneK_close` that of the supercell. In exact arithmetic the model is the `findSupercells` of the other theorems (`findSupercellsK_exact`). |
| C124 | The expressions for `vol`, `r_vol` and `nkpts` in any arithmetic (`Model/RoundedInput`); `determinant` and `matrix_inverse` are in `symlib`: the first is expanded along a row, the second is a parameter with a stated accuracy. `Spec.RelativeOps`: each operation has a relative error `u`; `Spec.densityPoints`, `spacingPoints`, `distancePoints`: the numbers meant | Numbers that are right up to a factor (`Within`) are multiplied and divided; determinants by a bound on the absolute error. `points_exact` shows that in exact arithmetic the numbers are those of the model of `get_inputs`. `kspacing_other`: the witness that the number can differ by one |
| C125 | As in C119 (`supercellK`, `RecognisedIn`); the complete lists are `Spec.ListsSublattices` and `Spec.ListsGrids`, the correspondence up to rounding is `SupercellsOf` | The supercell made from a Hermite normal form `H` is near `U0 T` with `T = P H Q`, `P`, `Q` inverse integer matrices that do not depend on `H` (`transform_of_exact`), so the complete list of the generator (C37–C44) goes to a complete list of sublattices of the crystal; the grids by C104 |
| C126 | `norms`, `temp_rmin`, `pac_frac` and the test against `0.3` in any arithmetic (`Model/RoundedPack`); the square root is a parameter with a relative error, `determinant` (`symlib`) is expanded along a row. `Spec/PackErr`: `RootRight`, `LengthRight`, `CellRight`, `packFactor`; what is meant is `Spec.PackedAtLeast` of C96 | Sums of squares have a relative error; the error of the basis moves each length by at most `2γ` (triangle inequality), the determinant by a bound on the absolute error; then factors are multiplied as in C124. `packedK_exact` shows that in exact arithmetic this is the model of C96 |
| C127 | The end of `find_grid` with the ratios formed and compared in any arithmetic (`Model/RoundedChoice`); the comparison of lengths before it stays as in C72 | Two different quotients of integers up to `2^26` differ by at least `2^-52`, more than the two roundings; by induction `MINLOC` finds the same entry; every entry stored is moderate because a symmetric grid with `n` points has at most `n` irreducible ones (`irreducible_le`). `choice_limit`: the witness beyond the limit |
| C128 | `compare_grids` from the comparison on, and the end of the generators, with lengths in any arithmetic (`Model/RoundedCompare`); `equal` (`symlib`) is a parameter with two bounds. `Spec/Longest`: `Longest`, `SecondLongest`, `SmallestDistance`, `FactorsRight`, `FactorsApart`, `EqualRight` | The comparisons agree with the true lengths (`told_of_factors`, errors as factors from C126); each length is replaced by its place among the lengths, and the run simulates the exact comparison of places, for which C70 gives the lists. `compareGridsK_rat`: in exact arithmetic this is the model of C70. `cube_lists`: two roundings of one third are kept together |
| C129 | `find_grid` after the identification of the cell with every real number in one arithmetic (`Model/RoundedFind`), made of the models of C127 and C128; `Spec/Longest`: `LongestIn`, `SecondLongestIn` | The loops are those of C72, C75 and C79; what each number of points yields is C128, what is chosen is C127. `findGridR_rounded` puts the errors of the bases in the hypotheses; the examples run the search in binary64 in the kernel |
| C130 | `find_grid` from the typed cell to the grid with every real number in one arithmetic (`Model/RoundedSearch`), made of the models of C121 and C129; `Spec/NearlyWidest`: `NearlyWidest`, `WidestBetween`, `GridsApart` | C121 recognises the cell, C125 gives a change of basis between the Hermite normal forms tried and the symmetric supercells of the crystal that is meant, C126 bounds the packing fraction, C129 is the search. For the cubic classes (`Props/RoundedCubicSearch`) no lengths are compared, and the search of C74 is transferred. For the triclinic classes (`Props/RoundedTricSearch`) the grids are those of the crystal enlarged `m` times. Not covered here: crystals two of whose grids have almost, but not exactly, equal smallest distances (`GridsApart`). The examples are a tetragonal, a cubic and a triclinic crystal in binary64 |

## Code modelled

Python (`/repo/support/python_dev/opf_python`)

| File | Modelled | Not modelled |
|---|---|---|
| `sc.py fcc.py bcc.py hx.py rhom.py stet.py body_tet.py so.py body_ortho.py face_ortho.py base_ortho.py base_mono.py sm.py` | every generator | nothing |
| `universal.py` | `get_HNF_diagonals`, `find_volumes`, `find_supercells`, `transform_supercells`, `tric` | reading of arguments |
| `pyniggli.py` | `reduced_cell` completely: set-up, `_niggli_reduction`, the four helper functions, `_niggli_check` | printing |
| `niggli_lat_id.py` | `niggli_id` with its table of bases | printing |
| `basis_check.py` | density lists, choice of generator in `cell_test` | printing |
| `gengrid.py` | nothing | a script that imports `find_srBs`, which `universal.py` does not define, so it cannot run |

Brute force (`/repo/support/brute_force`)

| File | Modelled | Not modelled |
|---|---|---|
| `srHNF_brute.f90` | every routine | printing |
| `driver.f90` | all but the name of the file on the command line | times and other output to the screen |
| `io_utils.f90` | `read_input`, `co_ca` | the file `readcheck_enum.out`; a value that is missing in a line is not looked for in the next one; words in quotation marks |
| `general_approach.py` | `forms_group`, `find_gens_of_pg` | `div_HNF`, `cdivs`, `fdivs`, which use undefined names and raise `NameError` |

Fortran (`/repo/src`)

| File | Modelled | Not modelled |
|---|---|---|
| `sp_hnfs.f90` | every generator, its buffers and counters | printing |
| `niggli.f90` | `reduce_cell`, its helper routines, `id_cell` with its table | printing |
| `find_kgrids.f90` | `find_grid`, `get_kpd_cubic`, `get_kpd_tric`, `check_sym`, `get_offsets` | printing |
| `grid_utils.f90` | `transform_supercell`, `compare_grids`, `grid_selection` | geometry of a grid (Minkowski reduction, norms) is a parameter of the search; norms, `temp_rmin` and the packing fraction are modelled apart in `Model/FortranPack` (C96), with `minkowski_reduce_basis` and `sqrt` as parameters; `grid_metrics` is never called |
| `control_file.f90` | `get_inputs`, `read_POSCAR`, `parse_line_for_numbers`, `split_str` | list-directed reading of numbers is a parameter of the theorems, `Model/ListRead` is an instance (C114); the message for skipped lines |
| `delinter.f90` | `delint`, `symmetrize`, `cell2basis`, `basis2cell` | printing; the program does not call `delint` |
| `driver.f90` | all | the irreducible k-points of the grid and their translation into the first zone come from `kgridGen` (parameters); the lines written to unit 5, which no `open` connects to a file: what happens there depends on the compiler |
| other drivers | nothing | tests that print |

The libraries `symlib` and `kgridGen` are git submodules whose sources are not in the repository.
What they compute is a parameter of the model, with no assumption beyond those written in a theorem:
`minkowski_reduce_basis`, `generateIrredKpointList`, `get_lattice_pointGroup` (its size), `norm`, `equal`.

Simplifications, each repeated at the definition it concerns:

* Python floats in the generators: exact rational arithmetic followed by a rounding function; theorems hold for exact
  arithmetic and for round-to-nearest with 53 bits (C32).  Overflow to infinity and NaN are not modelled.
* Floats in the Niggli code: an arbitrary type with arbitrary operations (C43, C37, C61), or exact rationals.  In the rational
  instance the cube root in the tolerance is cut after 15 decimals.  For C113 a third instance rounds after every operation
  (`Model/Rounded`), and the theorems hold for every arithmetic with an absolute error bound.
* Fortran default integers: an arbitrary wrap function `w`, with `w = id` or 32-bit wrap-around.  64-bit integers are unbounded.
* Fortran arrays: lists; an access out of bounds is an error value of the model.
* Printing and timing are left out.

## Places where the code does not do what a user would expect

Each is a theorem with a concrete witness.

| Property | Finding | Theorem |
|---|---|---|
| C34 | cubic lattices: a smaller admissible volume is skipped (density 217 for sc and bcc, 65 for fcc) | `findVolumes_cubic_smallest_false` |
| C46 | the Niggli reduction depends on the unit of length | `reducedCell_not_scale_invariant` |
| C47, C62 | a reduced cell can be refused | `reducedCell_rejects_reduced`, `reduceCell_rejects_reduced` |
| C48 | the name of class 43 is misspelled | `latType_misspelled` |
| C49 | `niggli_id` raises `UnboundLocalError` for some cells with E = F | `niggliId_gap` |
| C53 | the density lists contain only cubes | `kps_miss` |
| C55, C66 | skewed cells of volume 1 are refused after 1000 passes | `reducedCell_gives_up`, `reduceCell_gives_up` |
| C56 | `cell_test` raises for thirteen classes | `cellTest_raises` |
| C58 | 32-bit overflow loses supercells, determinant 46342 | `Fortran.basecm_28_overflow` |
| C67 | tolerances outside 1e-5 .. 0.1 spoil the canonical basis | `canonical_small_eps`, `canonical_class_6`, `canonical_large_eps` |
| C68 | the density list for cubic lattices is wrong for large densities | `Fortran.get_kpd_cubic_false`, `Fortran.get_kpd_cubic_five_false` |
| C69 | triclinic grids can have fewer points than asked for | `Fortran.get_kpd_tric_short` |
| C70 | the candidate lists depend on the order of the supercells | `Fortran.compareAll_order` |
| C71 | wrong index, and the chosen symmetries are not passed on, for the second list | `Fortran.gridSelection_second_list`, `Fortran.gridSelection_symmetry` |
| C74 | an array is read out of bounds when the library fails | `Fortran.findGrid_cubic_bounds` |
| C88, C111 | a cubic lattice gets no grid for more than 21882096 (face centred) or 4499456 points: the zero matrix is inverted | `Fortran.findGrid_cubic_large`, `Fortran.program_cubic_fails` |
| C81 | an offset is listed twice and another is missing for one orientation of base-centred lattices | `Fortran.offsets_duplicate` |
| C81 | an offset offered for the simple cubic lattice does not keep its symmetry | `Fortran.offsets_cubic_wrong` |
| C82 | `MIN_IRR_KPTS=FALSE` after `TRUE` has no effect, an unknown value of `USE_SYMMETRY` is ignored, and so is a keyword after a blank | `Fortran.get_inputs_correct` |
| C83 | a value that cannot be read silently ends the input, and the number of points may be undefined | `Fortran.get_inputs_unreadable_ends`, `Fortran.get_inputs_unreadable_nkpts` |
| C85 | Cartesian positions are not multiplied by the scale of the `POSCAR` file, so they are wrong unless the scale is 1 | `Fortran.read_POSCAR_places_iff` |
| C87 | `delint` gives vectors outside the class for every basis of ten classes, and for nearly every one of class 43: wrong signs and swapped lengths | `Fortran.delint_wrong`, `Fortran.delint_wrong_43` |
| C92 | `forms_group` reads up to nine times the length of its array; a copy of the group behind it makes any two elements count as generators | `Brute.find_pg_gens_wrong` |
| C96 | the packing fraction is computed from the signed determinant: if `minkowski_reduce_basis` ever returns a left-handed basis no grid is accepted, and the search then never ends | `Fortran.compareGeom_left_handed`, `Fortran.findGrid_runs` |
| C98 | a lattice given by strongly skewed vectors gets stars instead of coordinates in `KPOINTS` | `Fortran.kpoints_skewed` |
| C102 | the shifts tried automatically are counted along the vectors of the cell the user chose: another cell of the same crystal has other shifts | `Fortran.offsets_depend` |
| C103 | `RMIN = r` does not ensure a minimal distance `r` in real space: for a cube with the side 4 and `RMIN = 5` the distance is 4 | `Fortran.rmin_short` |
| C105 | `README.md`: by default the grid with the best ratio of irreducible points to all points is taken. `find_kgrids.f90:522` looks at the ratio only if more than 500 points are asked for | `Fortran.ratio_ignored` |
| C108 | six of the eight shifts for the simple cubic lattice break its symmetry; six of the eight possible shifts of a triclinic lattice are never tried; a hexagonal lattice whose axis is as long as the other vectors gets a shift along the wrong vector unless the axis is the third | `Fortran.shifts_cubic_partial`, `Fortran.shifts_tric`, `Fortran.shifts_hexagonal_wrong` |
| C116 | the first volume in `struct_enum.in` is ignored: the output always begins with volume 1 | `Brute.bruteProgram_congr` |
| C117 | labels after the `k`-th one of a site are accepted whatever they are, and the number of labels is then stored as `k + 1` | `Brute.site_extra_labels` |
| C117 | `bulk` after a blank is refused, a title beginning with `#` is taken for a comment, coordinates separated by tabulators or commas are not read, lines with 50 leading blanks are skipped, and the test for surfaces is not the one its message describes | `Brute.readInput_surprises` |
| C120 | the check of a reduced cell asks `x < y - eps` or `abs(x - y) < eps` and fails if the tolerance is equal to the difference; with such tolerances the program stops on the canonical cells it has stored itself, or goes round in a circle until 1000 passes are over | `canonical_class_16_stops`, `canonical_class_6_stops` |

## Agreement of the model with recorded results

A proof about the model says something about the code only as far as the model is right. The
project's test suites hold inputs and outputs recorded from the real code.
`conformance/run.py` evaluates the model on those inputs and compares; it proves nothing, it
is a check on the translation. `conformance/report.txt` is its last report:

* Fortran: 135 of 136 recorded lists of the generators agree (matrices and order), and all of
  60 reductions, 44 identifications, 16 parameter sets, 14 `condition_check`, the sign tables
  and the numbers of points.
* Python: for all generators the number of supercells for n = 1..150, 200 or 500 is the recorded one
  and every supercell is in the recorded list; all assertions on `niggli_id`, `reduced_cell`,
  `find_volumes` agree, and 29 of 30 on `find_supercells`.
* The two differences are recorded files that do not belong to the present code; the report says why.

## Trusted base

Lean's kernel.  Every theorem depends on at most the axioms `propext`, `Classical.choice` and `Quot.sound`.  There are no axioms of our
own, no `sorry`, no `native_decide` and no `bv_decide`.  Complete finite tables are checked by `decide +kernel`, which is evaluation in the kernel.

Also trusted: that the definitions under `Verif/Model` say what the cited lines of `/repo` do, and that those under `Verif/Spec` say what the
English properties mean.
