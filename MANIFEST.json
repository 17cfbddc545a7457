{
 "claims": [
  {
   "property": "C01",
   "status": "proved",
   "theorems": [
    "AutoGR.getHNFDiagonals_correct"
   ],
   "note": ""
  },
  {
   "property": "C02",
   "status": "proved",
   "theorems": [
    "AutoGR.sc_3_correct"
   ],
   "note": ""
  },
  {
   "property": "C03",
   "status": "proved",
   "theorems": [
    "AutoGR.bcc_5_correct"
   ],
   "note": ""
  },
  {
   "property": "C04",
   "status": "proved",
   "theorems": [
    "AutoGR.fcc_1_correct"
   ],
   "note": ""
  },
  {
   "property": "C05",
   "status": "proved",
   "theorems": [
    "AutoGR.hex_12_correct"
   ],
   "note": ""
  },
  {
   "property": "C06",
   "status": "proved",
   "theorems": [
    "AutoGR.hex_22_correct"
   ],
   "note": ""
  },
  {
   "property": "C07",
   "status": "proved",
   "theorems": [
    "AutoGR.rhom_9_24_correct"
   ],
   "note": ""
  },
  {
   "property": "C08",
   "status": "proved",
   "theorems": [
    "AutoGR.rhom_4_2_correct"
   ],
   "note": ""
  },
  {
   "property": "C09",
   "status": "proved",
   "theorems": [
    "AutoGR.stet_11_correct"
   ],
   "note": ""
  },
  {
   "property": "C10",
   "status": "proved",
   "theorems": [
    "AutoGR.stet_21_correct"
   ],
   "note": ""
  },
  {
   "property": "C11",
   "status": "proved",
   "theorems": [
    "AutoGR.body_tet_6_7_15_18_correct"
   ],
   "note": ""
  },
  {
   "property": "C12",
   "status": "proved",
   "theorems": [
    "AutoGR.so_32_correct"
   ],
   "note": ""
  },
  {
   "property": "C13",
   "status": "proved",
   "theorems": [
    "AutoGR.body_ortho_19_correct"
   ],
   "note": ""
  },
  {
   "property": "C14",
   "status": "proved",
   "theorems": [
    "AutoGR.body_ortho_8_correct"
   ],
   "note": ""
  },
  {
   "property": "C15",
   "status": "proved",
   "theorems": [
    "AutoGR.body_ortho_42_correct"
   ],
   "note": ""
  },
  {
   "property": "C16",
   "status": "proved",
   "theorems": [
    "AutoGR.face_ortho_26_correct"
   ],
   "note": ""
  },
  {
   "property": "C17",
   "status": "proved",
   "theorems": [
    "AutoGR.face_ortho_16_correct"
   ],
   "note": ""
  },
  {
   "property": "C18",
   "status": "proved",
   "theorems": [
    "AutoGR.base_ortho_38_13_correct"
   ],
   "note": ""
  },
  {
   "property": "C19",
   "status": "proved",
   "theorems": [
    "AutoGR.base_ortho_23_correct"
   ],
   "note": ""
  },
  {
   "property": "C20",
   "status": "proved",
   "theorems": [
    "AutoGR.base_ortho_40_correct"
   ],
   "note": ""
  },
  {
   "property": "C21",
   "status": "proved",
   "theorems": [
    "AutoGR.base_ortho_36_correct"
   ],
   "note": ""
  },
  {
   "property": "C22",
   "status": "proved",
   "theorems": [
    "AutoGR.base_mono_20_25_correct"
   ],
   "note": ""
  },
  {
   "property": "C23",
   "status": "proved",
   "theorems": [
    "AutoGR.base_mono_28_correct"
   ],
   "note": ""
  },
  {
   "property": "C24",
   "status": "proved",
   "theorems": [
    "AutoGR.base_mono_29_30_correct"
   ],
   "note": ""
  },
  {
   "property": "C25",
   "status": "proved",
   "theorems": [
    "AutoGR.base_mono_10_14_17_27_37_39_41_correct"
   ],
   "note": ""
  },
  {
   "property": "C26",
   "status": "proved",
   "theorems": [
    "AutoGR.base_mono_43_correct"
   ],
   "note": ""
  },
  {
   "property": "C27",
   "status": "proved",
   "theorems": [
    "AutoGR.sm_33_correct"
   ],
   "note": ""
  },
  {
   "property": "C28",
   "status": "proved",
   "theorems": [
    "AutoGR.sm_34_correct"
   ],
   "note": ""
  },
  {
   "property": "C29",
   "status": "proved",
   "theorems": [
    "AutoGR.sm_35_correct"
   ],
   "note": ""
  },
  {
   "property": "C30",
   "status": "proved",
   "theorems": [
    "AutoGR.tric_31_44_correct"
   ],
   "note": ""
  },
  {
   "property": "C31",
   "status": "proved",
   "theorems": [
    "AutoGR.cubic_volumes_sc_bcc",
    "AutoGR.cubic_volumes_fcc"
   ],
   "note": ""
  },
  {
   "property": "C32",
   "status": "proved",
   "theorems": [
    "AutoGR.generators_float_exact",
    "AutoGR.roundNearest_binary64"
   ],
   "note": "Proved for volumes up to 10^7."
  },
  {
   "property": "C33",
   "status": "proved",
   "theorems": [
    "AutoGR.findVolumes_cubic"
   ],
   "note": "root is any value with root^3 <= kpd < (root+2)^3, which covers the float cube root."
  },
  {
   "property": "C34",
   "status": "partial",
   "theorems": [
    "AutoGR.findVolumes_cubic_smallest_partial",
    "AutoGR.findVolumes_cubic_smallest_false"
   ],
   "note": "False as stated: at kpd=217 (sc, bcc) and kpd=65 (fcc) a smaller admissible volume is skipped; proved for kpd <= 215 and kpd <= 63 respectively, and the skipped volumes are the multiples of cubes below root-1."
  },
  {
   "property": "C35",
   "status": "proved",
   "theorems": [
    "AutoGR.findVolumes_triclinic"
   ],
   "note": "Exact arithmetic for every density; binary64 rounding for kpd <= 10^14."
  },
  {
   "property": "C36",
   "status": "proved",
   "theorems": [
    "AutoGR.findVolumes_other"
   ],
   "note": ""
  },
  {
   "property": "C37",
   "status": "proved",
   "theorems": [
    "AutoGR.niggliId_dispatched"
   ],
   "note": "In any arithmetic. That the branch is the right one is findSupercells_exact (C38)."
  },
  {
   "property": "C38",
   "status": "proved",
   "theorems": [
    "AutoGR.findSupercells_exact"
   ],
   "note": "Exact rational user cell; the generators with exact arithmetic for every n or binary64 rounding for n <= 10^7."
  },
  {
   "property": "C39",
   "status": "proved",
   "theorems": [
    "AutoGR.findSupercells_search"
   ],
   "note": ""
  },
  {
   "property": "C40",
   "status": "proved",
   "theorems": [
    "AutoGR.findSupercells_nonempty",
    "AutoGR.findSupercells_cubic",
    "AutoGR.findSupercells_triclinic"
   ],
   "note": ""
  },
  {
   "property": "C41",
   "status": "proved",
   "theorems": [
    "AutoGR.transformSupercells_integer"
   ],
   "note": "Over any field."
  },
  {
   "property": "C42",
   "status": "proved",
   "theorems": [
    "AutoGR.transformSupercells_symmetric"
   ],
   "note": ""
  },
  {
   "property": "C43",
   "status": "proved",
   "theorems": [
    "AutoGR.reducedCell_det",
    "AutoGR.reducedCell_same_lattice"
   ],
   "note": "For every number type and every rounding."
  },
  {
   "property": "C44",
   "status": "proved",
   "theorems": [
    "AutoGR.reducedCell_niggliUpTo"
   ],
   "note": "Exact rational cell; tolerance as in the code."
  },
  {
   "property": "C45",
   "status": "proved",
   "theorems": [
    "AutoGR.reducedCell_exact",
    "AutoGR.niggliPass_exact"
   ],
   "note": ""
  },
  {
   "property": "C46",
   "status": "partial",
   "theorems": [
    "AutoGR.reducedCell_not_scale_invariant",
    "AutoGR.reducedCell_scale_partial",
    "AutoGR.niggliLoop_scale_partial"
   ],
   "note": "False as stated (first theorem: a cell and a scale for which the result changes); the loop is scale invariant when its tolerance is scaled along, and so is reduced_cell when the tolerances do not matter."
  },
  {
   "property": "C47",
   "status": "partial",
   "theorems": [
    "AutoGR.reducedCell_rejects_reduced",
    "AutoGR.reducedCell_accepts_partial"
   ],
   "note": "False as stated (first theorem: a cell whose loop ends reduced and which is rejected); proved under separation of the compared quantities."
  },
  {
   "property": "C48",
   "status": "partial",
   "theorems": [
    "AutoGR.niggliId_near",
    "AutoGR.niggliNum_near",
    "AutoGR.latFam_right",
    "AutoGR.latType_right_partial",
    "AutoGR.latType_misspelled"
   ],
   "note": "Family numbers right for all 44 classes; names right for all but 43, which is misspelled in the file. Hence partial."
  },
  {
   "property": "C49",
   "status": "partial",
   "theorems": [
    "AutoGR.niggliId_gap",
    "AutoGR.niggliId_answers_partial"
   ],
   "note": "False as stated: UnboundLocalError for type I cells with E = F, E != A/2 (a concrete lattice is given); proved for all others."
  },
  {
   "property": "C50",
   "status": "partial",
   "theorems": [
    "AutoGR.niggliNum_exact_partial",
    "AutoGR.niggliId_exact_partial",
    "AutoGR.isClass_exists"
   ],
   "note": "Proved when the compared quantities are equal or differ by more than the tolerance, except for class 31 with E = F, where the code raises."
  },
  {
   "property": "C51",
   "status": "proved",
   "theorems": [
    "AutoGR.canonical_bases"
   ],
   "note": "Over exact rationals; the cube root in the tolerance is cut after 15 decimals."
  },
  {
   "property": "C52",
   "status": "proved",
   "theorems": [
    "AutoGR.smallestPrime_correct"
   ],
   "note": ""
  },
  {
   "property": "C53",
   "status": "partial",
   "theorems": [
    "AutoGR.kps_miss",
    "AutoGR.kps_lists_partial",
    "AutoGR.kps_zero"
   ],
   "note": "False as stated: range(1,2,4) is [1], so only cubes (and 0) are listed."
  },
  {
   "property": "C54",
   "status": "proved",
   "theorems": [
    "AutoGR.hnf_exists_unique"
   ],
   "note": ""
  },
  {
   "property": "C55",
   "status": "partial",
   "theorems": [
    "AutoGR.reducedCell_gives_up",
    "AutoGR.niggliLoop_total_partial"
   ],
   "note": "False as stated: a skewed cell needs more than 1000 passes and is refused; without the limit the loop ends for every non-singular rational cell."
  },
  {
   "property": "C56",
   "status": "partial",
   "theorems": [
    "AutoGR.cellTest_raises",
    "AutoGR.cellTest_verdict_partial"
   ],
   "note": "False for thirteen classes: the function named does not exist."
  },
  {
   "property": "C57",
   "status": "proved",
   "theorems": [
    "AutoGR.Fortran.sc_3_correct",
    "AutoGR.Fortran.fcc_1_correct",
    "AutoGR.Fortran.bcc_5_correct",
    "AutoGR.Fortran.hex_12_correct",
    "AutoGR.Fortran.hex_22_correct",
    "AutoGR.Fortran.rhom_9_24_correct",
    "AutoGR.Fortran.rhom_4_2_correct",
    "AutoGR.Fortran.st_11_correct",
    "AutoGR.Fortran.st_21_correct",
    "AutoGR.Fortran.bct_6_7_15_18_correct",
    "AutoGR.Fortran.so_32_correct",
    "AutoGR.Fortran.bco_19_correct",
    "AutoGR.Fortran.bco_8_correct",
    "AutoGR.Fortran.bco_42_correct",
    "AutoGR.Fortran.fco_26_correct",
    "AutoGR.Fortran.fco_16_correct",
    "AutoGR.Fortran.baseco_38_13_correct",
    "AutoGR.Fortran.baseco_23_correct",
    "AutoGR.Fortran.baseco_40_correct",
    "AutoGR.Fortran.baseco_36_correct",
    "AutoGR.Fortran.basecm_20_25_correct",
    "AutoGR.Fortran.basecm_28_correct",
    "AutoGR.Fortran.basecm_29_30_correct",
    "AutoGR.Fortran.basecm_10_14_17_27_37_39_41_correct",
    "AutoGR.Fortran.basecm_43_correct",
    "AutoGR.Fortran.sm_33_correct",
    "AutoGR.Fortran.sm_34_35_correct_34",
    "AutoGR.Fortran.sm_34_35_correct_35",
    "AutoGR.Fortran.tric_31_44_correct"
   ],
   "note": ""
  },
  {
   "property": "C58",
   "status": "proved",
   "theorems": [
    "AutoGR.Fortran.int32_exact",
    "AutoGR.Fortran.basecm_28_overflow"
   ],
   "note": "The second theorem shows the loss at determinant 46342."
  },
  {
   "property": "C59",
   "status": "proved",
   "theorems": [
    "AutoGR.Fortran.sc_3_py",
    "AutoGR.Fortran.fcc_1_py",
    "AutoGR.Fortran.bcc_5_py",
    "AutoGR.Fortran.hex_12_perm",
    "AutoGR.Fortran.hex_22_perm",
    "AutoGR.Fortran.rhom_9_24_perm",
    "AutoGR.Fortran.rhom_4_2_perm",
    "AutoGR.Fortran.st_11_perm",
    "AutoGR.Fortran.st_21_perm",
    "AutoGR.Fortran.bct_6_7_15_18_perm",
    "AutoGR.Fortran.so_32_perm",
    "AutoGR.Fortran.bco_19_perm",
    "AutoGR.Fortran.bco_8_perm",
    "AutoGR.Fortran.bco_42_perm",
    "AutoGR.Fortran.fco_26_perm",
    "AutoGR.Fortran.fco_16_perm",
    "AutoGR.Fortran.baseco_38_13_perm",
    "AutoGR.Fortran.baseco_23_perm",
    "AutoGR.Fortran.baseco_40_perm",
    "AutoGR.Fortran.baseco_36_perm",
    "AutoGR.Fortran.basecm_20_25_perm",
    "AutoGR.Fortran.basecm_28_perm",
    "AutoGR.Fortran.basecm_29_30_perm",
    "AutoGR.Fortran.basecm_10_14_17_27_37_39_41_perm",
    "AutoGR.Fortran.basecm_43_perm",
    "AutoGR.Fortran.sm_33_perm",
    "AutoGR.Fortran.sm_34_35_perm_34",
    "AutoGR.Fortran.sm_34_35_perm_35",
    "AutoGR.Fortran.tric_31_44_py"
   ],
   "note": ""
  },
  {
   "property": "C60",
   "status": "proved",
   "theorems": [
    "AutoGR.Fortran.tempDiag_fits",
    "AutoGR.Fortran.temp_HNFs_fits",
    "AutoGR.Fortran.tric_count"
   ],
   "note": ""
  },
  {
   "property": "C61",
   "status": "proved",
   "theorems": [
    "AutoGR.reduceCell_same_lattice",
    "AutoGR.reduceCell_niggliUpTo",
    "AutoGR.reduceCell_exact",
    "AutoGR.reduceCell_eq_reducedCell"
   ],
   "note": ""
  },
  {
   "property": "C62",
   "status": "partial",
   "theorems": [
    "AutoGR.reduceCell_rejects_reduced",
    "AutoGR.reduceCell_zero_rejects",
    "AutoGR.reduceCell_accepts_partial"
   ],
   "note": "False as stated: the final check uses < where the loop uses <=."
  },
  {
   "property": "C63",
   "status": "proved",
   "theorems": [
    "AutoGR.idNum_mem",
    "AutoGR.idCell_answers",
    "AutoGR.idCell_gap"
   ],
   "note": ""
  },
  {
   "property": "C64",
   "status": "proved",
   "theorems": [
    "AutoGR.idNum_exact",
    "AutoGR.idCell_exact",
    "AutoGR.idNum_eq_niggliNum"
   ],
   "note": ""
  },
  {
   "property": "C65",
   "status": "proved",
   "theorems": [
    "AutoGR.idNum_near",
    "AutoGR.idCell_near"
   ],
   "note": ""
  },
  {
   "property": "C66",
   "status": "partial",
   "theorems": [
    "AutoGR.reduceCell_gives_up",
    "AutoGR.fLoop_total_partial"
   ],
   "note": "False as stated: skewed cells of volume 1 exceed the limit of 1000 passes."
  },
  {
   "property": "C67",
   "status": "partial",
   "theorems": [
    "AutoGR.canonical_range_partial",
    "AutoGR.canonical_small_eps",
    "AutoGR.canonical_class_6",
    "AutoGR.canonical_large_eps"
   ],
   "note": "Proved for tolerances from 1e-5 to 0.1 (class 6: except 1.08e-5 to 1.22e-5); false outside, with witnesses."
  },
  {
   "property": "C68",
   "status": "partial",
   "theorems": [
    "AutoGR.Fortran.get_kpd_cubic_partial",
    "AutoGR.Fortran.get_kpd_cubic_five_partial",
    "AutoGR.Fortran.get_kpd_cubic_false",
    "AutoGR.Fortran.get_kpd_cubic_five_false"
   ],
   "note": "Proved up to density 1000188 (fcc) and 1030301 (sc, bcc), and for the first five numbers, which are those used, up to 1092727 and 1098500; false one above, with witnesses."
  },
  {
   "property": "C69",
   "status": "partial",
   "theorems": [
    "AutoGR.Fortran.get_kpd_tric_partial",
    "AutoGR.Fortran.get_kpd_tric_short",
    "AutoGR.Fortran.get_kpd_tric_ne_python"
   ],
   "note": "The multiplier and the quotient are characterised; false that the grid has at least the requested points."
  },
  {
   "property": "C70",
   "status": "partial",
   "theorems": [
    "AutoGR.Fortran.compareAll_total",
    "AutoGR.Fortran.compareAll_nil",
    "AutoGR.Fortran.compareAll_lists_partial",
    "AutoGR.Fortran.compareAll_order"
   ],
   "note": "Array safety without hypotheses; the contents of the lists when the tolerance tells the lengths apart. False otherwise: it depends on the order."
  },
  {
   "property": "C71",
   "status": "partial",
   "theorems": [
    "AutoGR.Fortran.gridSelection_partial",
    "AutoGR.Fortran.gridSelection_one_list",
    "AutoGR.Fortran.gridSelection_second_list",
    "AutoGR.Fortran.gridSelection_symmetry",
    "AutoGR.Fortran.gridSelection_one_offset"
   ],
   "note": "True for a single offset, up to the symmetries used (gridSelection_one_offset). False for the second list: wrong index when comparing, and the choice of symmetries is not passed on."
  },
  {
   "property": "C72",
   "status": "proved",
   "theorems": [
    "AutoGR.Fortran.findGrid_general"
   ],
   "note": "The library for the irreducible k-points and the geometry of the grids are parameters. The number of irreducible k-points is the one under the default symmetries for grids of the second list (see C71)."
  },
  {
   "property": "C73",
   "status": "proved",
   "theorems": [
    "AutoGR.Fortran.findGrid_ends",
    "AutoGR.Fortran.findGrid_runs"
   ],
   "note": "Ends when dense enough grids exist; does not end when none does."
  },
  {
   "property": "C74",
   "status": "partial",
   "theorems": [
    "AutoGR.Fortran.findGrid_cubic_partial",
    "AutoGR.Fortran.findGrid_cubic_counted_partial",
    "AutoGR.Fortran.findGrid_cubic_bounds",
    "AutoGR.Fortran.findGrid_cubic_large"
   ],
   "note": "Proved up to 1092727 points (fcc) and 1098500 (sc, bcc). False when the library fails for one of the first densities (array bounds) and for large densities, see C111."
  },
  {
   "property": "C75",
   "status": "proved",
   "theorems": [
    "AutoGR.Fortran.findGrid_tric",
    "AutoGR.Fortran.findGrid_tric_ends"
   ],
   "note": ""
  },
  {
   "property": "C76",
   "status": "proved",
   "theorems": [
    "AutoGR.Fortran.symmetric_supercell_exists",
    "AutoGR.Fortran.symmetric_supercell_exists_tric",
    "AutoGR.Fortran.generator_compares"
   ],
   "note": ""
  },
  {
   "property": "C77",
   "status": "proved",
   "theorems": [
    "AutoGR.pointSym_eq_classSym",
    "AutoGR.niggliId_pointSym",
    "AutoGR.findSupercells_pointSym",
    "AutoGR.idCell_pointSym"
   ],
   "note": "The first theorem is over the reals without conditions. The others need the reduced cell to meet the Niggli conditions exactly and the quantities of the table of classes to be equal or clearly different."
  },
  {
   "property": "C78",
   "status": "proved",
   "theorems": [
    "AutoGR.pointSym_order",
    "AutoGR.check_sym_right",
    "AutoGR.check_sym_wrong",
    "AutoGR.niggliCell_exists",
    "AutoGR.check_sym_never_stops"
   ],
   "note": "The number of point symmetries comes from an external library; the theorems say what check_sym answers when that number is right."
  },
  {
   "property": "C79",
   "status": "proved",
   "theorems": [
    "AutoGR.Fortran.transform_supercell_symmetric",
    "AutoGR.Fortran.gridOf_symmetric",
    "AutoGR.Fortran.transform_rounding"
   ],
   "note": "Exact rational arithmetic except for nint; Recognised lists the conditions on the cell."
  },
  {
   "property": "C80",
   "status": "proved",
   "theorems": [
    "AutoGR.Fortran.find_grid_symmetric_general",
    "AutoGR.Fortran.find_grid_symmetric_cubic",
    "AutoGR.Fortran.find_grid_symmetric_tric"
   ],
   "note": "The external basis reduction is assumed to return a basis of the same grid."
  },
  {
   "property": "C81",
   "status": "partial",
   "theorems": [
    "AutoGR.Fortran.offsets_zero_first",
    "AutoGR.Fortran.offsets_quarters",
    "AutoGR.Fortran.offsets_distinct_partial",
    "AutoGR.Fortran.offsets_duplicate",
    "AutoGR.Fortran.offsets_tric",
    "AutoGR.Fortran.offsets_cubic_wrong"
   ],
   "note": "False that no offset is repeated (one orientation of the base-centred lattices) and that all keep the symmetry (simple cubic); true for triclinic lattices."
  },
  {
   "property": "C82",
   "status": "proved",
   "theorems": [
    "AutoGR.Fortran.get_inputs_correct"
   ],
   "note": "List-directed reading of a number from a string is a parameter; real arithmetic is exact."
  },
  {
   "property": "C83",
   "status": "proved",
   "theorems": [
    "AutoGR.Fortran.get_inputs_unreadable_ends",
    "AutoGR.Fortran.get_inputs_unreadable_nkpts"
   ],
   "note": "States what the code does, which a user would not expect."
  },
  {
   "property": "C84",
   "status": "proved",
   "theorems": [
    "AutoGR.Fortran.read_POSCAR_lattice_types"
   ],
   "note": "Well-formed: Spec.PoscarSays. Selective dynamics and blank lines are not covered."
  },
  {
   "property": "C85",
   "status": "partial",
   "theorems": [
    "AutoGR.Fortran.read_POSCAR_places_partial",
    "AutoGR.Fortran.read_POSCAR_places_iff"
   ],
   "note": "False for Cartesian positions with a scale other than 1."
  },
  {
   "property": "C86",
   "status": "proved",
   "theorems": [
    "AutoGR.Fortran.delint_class",
    "AutoGR.Fortran.delint_keeps",
    "AutoGR.Fortran.delint_idempotent"
   ],
   "note": "Real arithmetic is exact; the matrix comparison of the library must accept the identity."
  },
  {
   "property": "C87",
   "status": "proved",
   "theorems": [
    "AutoGR.Fortran.delint_wrong",
    "AutoGR.Fortran.delint_wrong_43"
   ],
   "note": "States what the code does, which a user would not expect."
  },
  {
   "property": "C88",
   "status": "partial",
   "theorems": [
    "AutoGR.Fortran.program_general",
    "AutoGR.Fortran.program_cubic",
    "AutoGR.Fortran.program_cubic_partial",
    "AutoGR.Fortran.program_cubic_fails",
    "AutoGR.Fortran.program_tric"
   ],
   "note": "For the cubic lattices a grid is returned up to 21882096 points (fcc) or 4499456 (sc, bcc), and never beyond (program_cubic_fails). Conditions: Recognised (cell), EnvRight (libraries), Usable (settings)."
  },
  {
   "property": "C89",
   "status": "proved",
   "theorems": [
    "AutoGR.Fortran.program_refuses"
   ],
   "note": "The library is assumed to count the point symmetries of the lattice correctly."
  },
  {
   "property": "C90",
   "status": "proved",
   "theorems": [
    "AutoGR.Brute.get_srHNFs_lists",
    "AutoGR.Brute.get_srHNFs_pointGroup",
    "AutoGR.Brute.driver_lines"
   ],
   "note": "Real arithmetic is exact; the comparison separates integers from other multiples of 1/volume (separates_eps)."
  },
  {
   "property": "C91",
   "status": "proved",
   "theorems": [
    "AutoGR.Brute.brute_eq_fast"
   ],
   "note": "Real arithmetic is exact in the brute force search."
  },
  {
   "property": "C92",
   "status": "partial",
   "theorems": [
    "AutoGR.Brute.find_pg_gens_partial",
    "AutoGR.Brute.find_pg_gens_group_partial",
    "AutoGR.Brute.get_srHNFs_gens",
    "AutoGR.Brute.find_pg_gens_wrong"
   ],
   "note": "forms_group reads beyond its array; false if the group is stored there (find_pg_gens_wrong). Proved when the memory there holds no group element."
  },
  {
   "property": "C93",
   "status": "proved",
   "theorems": [
    "AutoGR.Brute.find_gens_of_pg_minimal"
   ],
   "note": "np.allclose is a parameter that tells the group elements apart."
  },
  {
   "property": "C94",
   "status": "proved",
   "theorems": [
    "AutoGR.packed_symmetric_grid_exists",
    "AutoGR.packed_symmetric_grid_exists_rat",
    "AutoGR.Fortran.packed_supercell_exists"
   ],
   "note": "Approximation of the square root of the metric by integer matrices that commute with the symmetries; a densely packed form for each class, checked in the kernel."
  },
  {
   "property": "C95",
   "status": "proved",
   "theorems": [
    "AutoGR.Fortran.findGrid_stops_general",
    "AutoGR.Fortran.findGrid_stops_tric",
    "AutoGR.Fortran.program_stops_general",
    "AutoGR.Fortran.program_stops_tric"
   ],
   "note": "Exact integers; the library must take a grid with 31% for packed densely enough (the code uses the signed determinant of the reduced basis, so that basis must be right-handed) and count the k-points. The cubic search always ends, C88."
  },
  {
   "property": "C96",
   "status": "proved",
   "theorems": [
    "AutoGR.Fortran.compareGeom_packed",
    "AutoGR.Fortran.compareGeom_left_handed",
    "AutoGR.Fortran.BuiltFrom.right"
   ],
   "note": "Square root exact to 1e-3, the rest exact arithmetic; minkowski_reduce_basis of symlib is a parameter with the contract Minkowski, which has a solution (minkowski_exists)."
  },
  {
   "property": "C97",
   "status": "proved",
   "theorems": [
    "AutoGR.Fortran.kpoints_says",
    "AutoGR.Fortran.kpoints_unreadable"
   ],
   "note": "Exact arithmetic before the rounding to 12 decimals; the gap between the two theorems is half a unit of the last decimal."
  },
  {
   "property": "C98",
   "status": "partial",
   "theorems": [
    "AutoGR.Fortran.kpoints_reduced_partial",
    "AutoGR.Fortran.kpoints_skewed"
   ],
   "note": "False in general: a skewed basis of the cubic lattice gives stars. Proved for lattice vectors that are Niggli reduced."
  },
  {
   "property": "C99",
   "status": "partial",
   "theorems": [
    "AutoGR.Fortran.driver_writes",
    "AutoGR.Fortran.driver_general",
    "AutoGR.Fortran.driver_tric",
    "AutoGR.Fortran.driver_cubic_partial"
   ],
   "note": "Missing: cubic lattices with more than 21882096 (fcc) or 4499456 points, for which no grid is found (program_cubic_fails), and cells that are not reduced, where the format can overflow (C98). generateIrredKpointList, mapKptsIntoBZ and minkowski_reduce_basis are parameters with the contract OutRight, which has a solution (outLib_exists)."
  },
  {
   "property": "C100",
   "status": "proved",
   "theorems": [
    "AutoGR.Fortran.findGrid_size_general",
    "AutoGR.Fortran.findGrid_ratio_general",
    "AutoGR.Fortran.findGrid_size_tric",
    "AutoGR.Fortran.findGrid_size_cubic",
    "AutoGR.Fortran.findGrid_size_cubic_partial",
    "AutoGR.Fortran.program_size_general",
    "AutoGR.Fortran.program_size_tric"
   ],
   "note": "findGrid_size_cubic holds for every request that is answered, with (m+13)^3 (fcc) or (m+8)^3; findGrid_size_cubic_partial is the closer bound up to a million points. Exact integers for the lattices that are neither cubic nor triclinic, or numbers up to 46000."
  },
  {
   "property": "C101",
   "status": "proved",
   "theorems": [
    "AutoGR.niggliCell_unique",
    "AutoGR.class_unique",
    "AutoGR.reducedCell_unique",
    "AutoGR.niggliId_unique",
    "AutoGR.Fortran.idCell_unique",
    "AutoGR.Fortran.idCell_unique_Co"
   ],
   "note": "With tolerance 0 for the Python reduction; with a positive tolerance under the assumption Recognised (C71), or that the cell reached is a Niggli cell."
  },
  {
   "property": "C102",
   "status": "partial",
   "theorems": [
    "AutoGR.Fortran.gridOf_same",
    "AutoGR.Fortran.find_grid_same_general_partial",
    "AutoGR.Fortran.find_grid_same_cubic_partial",
    "AutoGR.Fortran.find_grid_same_tric_partial",
    "AutoGR.Fortran.offsets_depend"
   ],
   "note": "Proved without a shift for the lattices that are not triclinic; for the triclinic ones, whose grids are enumerated in the basis of the user, the number of points, the number of irreducible points and the smallest distance are the same. Missing: of several equally good grids of a triclinic lattice another one may be taken; shifts, which are counted along the vectors of the cell that the user chose, so that the shifts tried automatically differ between two cells of one crystal (offsets_depend)."
  },
  {
   "property": "C103",
   "status": "proved",
   "theorems": [
    "AutoGR.Fortran.program_meets_general",
    "AutoGR.Fortran.program_meets_cubic",
    "AutoGR.Fortran.program_meets_tric",
    "AutoGR.Fortran.rmin_needed",
    "AutoGR.Fortran.rmin_short"
   ],
   "note": "The minimal distance of RMIN is not reached in general (rmin_short); what is guaranteed instead is proved."
  },
  {
   "property": "C104",
   "status": "proved",
   "theorems": [
    "AutoGR.Fortran.findSupercells_grids",
    "AutoGR.Fortran.grids_general",
    "AutoGR.Fortran.grids_cubic",
    "AutoGR.Fortran.grids_tric"
   ],
   "note": "Exact arithmetic. Cells as in C77 (Recognised); integers exact, or of 32 bits and numbers up to 46000."
  },
  {
   "property": "C105",
   "status": "partial",
   "theorems": [
    "AutoGR.Fortran.program_best_cubic_partial",
    "AutoGR.Fortran.ratio_ignored"
   ],
   "note": "Proved for the cubic lattices without a shift: by the ratio above 500 requested points, by the number of irreducible points otherwise, which contradicts the default of the README (ratio_ignored). The lattices that are neither cubic nor triclinic are in C107, the triclinic ones in C109, shifts in C110."
  },
  {
   "property": "C106",
   "status": "proved",
   "theorems": [
    "AutoGR.findSupercells_same_exact",
    "AutoGR.findSupercells_same_search"
   ],
   "note": "For cells whose class is recognised (Identified: the conditions of C77). Exact arithmetic in the reduction and in the change of basis."
  },
  {
   "property": "C107",
   "status": "proved",
   "theorems": [
    "AutoGR.Fortran.program_best_general"
   ],
   "note": "For numbers of points whose smallest distances the tolerance tells apart (TellsApart, as in C70). The number of irreducible points of the grid returned is the one by the level of symmetry of the user or by the default level, see C71. Packing fractions between 0.29 and 0.31 are left open (rounding)."
  },
  {
   "property": "C108",
   "status": "partial",
   "theorems": [
    "AutoGR.Fortran.shifts_rectangular",
    "AutoGR.Fortran.shifts_hexagonal_partial",
    "AutoGR.Fortran.shifts_monoclinic",
    "AutoGR.Fortran.shifts_cubic_partial",
    "AutoGR.Fortran.shifts_tric",
    "AutoGR.Fortran.shifts_hexagonal_wrong"
   ],
   "note": "Proved for orthorhombic, tetragonal and monoclinic lattices, and for hexagonal ones whose axis has not the length of the other vectors. False for the others: shifts_hexagonal_wrong, shifts_cubic_partial (no shift is missed, six are wrong), shifts_tric (none is wrong, six are missed)."
  },
  {
   "property": "C109",
   "status": "proved",
   "theorems": [
    "AutoGR.Fortran.program_best_tric"
   ],
   "note": "The last part is for numbers of points whose smallest distances the tolerance tells apart (TellsApart, as in C70). The number of irreducible points of the grid returned is the one by the level of symmetry of the user or by the default level, see C71. Packing fractions between 0.29 and 0.31 are left open (rounding)."
  },
  {
   "property": "C110",
   "status": "partial",
   "theorems": [
    "AutoGR.Fortran.program_best_shifted",
    "AutoGR.Fortran.program_best_automatic",
    "AutoGR.Fortran.program_best_cubic_shifted_partial",
    "AutoGR.Fortran.program_best_cubic_automatic_partial",
    "AutoGR.Fortran.program_best_tric_shifted"
   ],
   "note": "Proved for all lattices. The cubic theorems are partial because the lists of grids are right up to 1092727 (fcc) or 1098500 points only (get_kpd_cubic_five_false). With a line SHIFT the library must be able to count the points of the grids with that shift (htot)."
  },
  {
   "property": "C111",
   "status": "proved",
   "theorems": [
    "AutoGR.Fortran.findGrid_cubic_answers",
    "AutoGR.Fortran.findGrid_cubic_large",
    "AutoGR.Fortran.findGrid_cubic_sound",
    "AutoGR.Fortran.program_cubic_partial",
    "AutoGR.Fortran.program_cubic_fails"
   ],
   "note": "The answer needs a library that counts the points of each symmetric grid with one of the offsets; the failure does not depend on the library."
  },
  {
   "property": "C112",
   "status": "proved",
   "theorems": [
    "AutoGR.Fortran.program_ideal_general",
    "AutoGR.Fortran.program_ideal_cubic",
    "AutoGR.Fortran.program_ideal_cubic_answers",
    "AutoGR.Fortran.program_ideal_tric",
    "AutoGR.Fortran.gridOf_ideal",
    "AutoGR.Fortran.recognisedAs_close",
    "AutoGR.Fortran.Recognised.as",
    "AutoGR.Fortran.hex_program"
   ],
   "note": "Exact arithmetic after the numbers are read, and in the change of basis; that the class does not depend on the rounding in the reduction is C113. Numbers of points for cubic lattices as in C111, for triclinic ones as in C75."
  },
  {
   "property": "C113",
   "status": "proved",
   "theorems": [
    "AutoGR.idCell_ideal",
    "AutoGR.idCell_finds",
    "AutoGR.hexTyped_found",
    "AutoGR.accurate_rounded",
    "AutoGR.accurate_rat"
   ],
   "note": "For tolerances between the errors and the gap (Tolerated, CellGap). That the reduction ends within its 1000 passes is proved for cells that are already reduced up to errors; for the others the claim is about the cell returned. That the stored basis can be reduced as well is C120; C121 puts both together."
  },
  {
   "property": "C114",
   "status": "proved",
   "theorems": [
    "AutoGR.Fortran.listReader_decimals",
    "AutoGR.Fortran.parseReal_iff",
    "AutoGR.Fortran.parseInt_iff",
    "AutoGR.Fortran.realNumeral_unique",
    "AutoGR.Fortran.poscarText_says"
   ],
   "note": "List-directed reading is a model of the Fortran system; repeat counts, null values and the slash are not in it."
  },
  {
   "property": "C115",
   "status": "proved",
   "theorems": [
    "AutoGR.Fortran.supercell_exact",
    "AutoGR.Fortran.transform_close",
    "AutoGR.Fortran.supercell_stored",
    "AutoGR.Fortran.transformK_exact",
    "AutoGR.Fortran.relative_rounded",
    "AutoGR.Fortran.relative_rat"
   ],
   "note": "matrix_inverse is not in the repository: its accuracy is a hypothesis. The entries of Co and its inverse are assumed to be at most 4 (those of the canonical bases are at most 2). No overflow or underflow."
  },
  {
   "property": "C116",
   "status": "proved",
   "theorems": [
    "AutoGR.Brute.readInput_comments",
    "AutoGR.Brute.readInput_text",
    "AutoGR.Brute.bruteProgram_text",
    "AutoGR.Brute.bruteProgram_congr",
    "AutoGR.Brute.driver_lines"
   ],
   "note": "get_lattice_pointGroup and equal are functions of the library: the first is assumed to list the point group, the second to separate integers from fractions, as in C90. For a surface the second and third components of the first vector must be zero."
  },
  {
   "property": "C117",
   "status": "partial",
   "theorems": [
    "AutoGR.Brute.readInput_valid_partial",
    "AutoGR.Brute.site_extra_labels",
    "AutoGR.Brute.readInput_surprises"
   ],
   "note": "Missing: labels after the k-th one of a site are accepted whatever they are, so the claim is about the labels that are read."
  },
  {
   "property": "C118",
   "status": "partial",
   "theorems": [
    "AutoGR.canonical_rounded_partial",
    "AutoGR.canonical_binary64_partial",
    "AutoGR.reduceCell_stored",
    "AutoGR.storedGood_sym"
   ],
   "note": "Missing: class 6 with tolerances between 1.08e-5 and 1.23e-5, where the claim is false also in exact arithmetic (canonical_class_6). Tolerances above 0.1 are outside the claim; there it is false too (canonical_large_eps). The claim is about runs that return a cell; that they do is C120."
  },
  {
   "property": "C119",
   "status": "proved",
   "theorems": [
    "AutoGR.Fortran.find_grid_rounded_general",
    "AutoGR.Fortran.find_grid_rounded_cubic",
    "AutoGR.Fortran.find_grid_rounded_tric",
    "AutoGR.Fortran.supercell_rounded",
    "AutoGR.Fortran.supercell_rounded_tric",
    "AutoGR.Fortran.recognisedIn_close",
    "AutoGR.Fortran.hexTyped_recognised",
    "AutoGR.Fortran.supercellK_exact",
    "AutoGR.Fortran.libClose_exists"
   ],
   "note": "matrix_inverse and minkowski_reduce_basis are not in the repository: their accuracy is a hypothesis. The lengths that are compared to choose among the grids are whatever the library computes. For triclinic lattices the bound changeErr must be below one half."
  },
  {
   "property": "C120",
   "status": "partial",
   "theorems": [
    "AutoGR.canonical_reduced_partial",
    "AutoGR.canonical_reduced_binary64_partial",
    "AutoGR.canonical_class_16_stops",
    "AutoGR.canonical_class_6_stops"
   ],
   "note": "Missing: nine short intervals of tolerances (criticalTol) for classes 4, 6, 16, 24 and 36, in which the claim is false. equal, a function of the library, is assumed not to take a volume of 0.1 for zero."
  },
  {
   "property": "C121",
   "status": "proved",
   "theorems": [
    "AutoGR.Fortran.find_grid_float_general",
    "AutoGR.Fortran.find_grid_float_cubic",
    "AutoGR.Fortran.find_grid_float_tric",
    "AutoGR.Fortran.idCell_returns",
    "AutoGR.Fortran.find_gridK_searches",
    "AutoGR.Fortran.find_gridK_exact",
    "AutoGR.Fortran.hexTyped_typed",
    "AutoGR.Fortran.cubicTyped_typed",
    "AutoGR.Fortran.tricTyped_typed"
   ],
   "note": "The library (point group, inverse, Minkowski reduction, counting of k-points) enters with its documented accuracy as a hypothesis. Numbers of points up to a million, for cubic crystals up to cubicLimit."
  },
  {
   "property": "C122",
   "status": "proved",
   "theorems": [
    "AutoGR.niggliId_ideal",
    "AutoGR.niggliId_ideal_class",
    "AutoGR.niggliId_finds",
    "AutoGR.hexTyped_niggliId"
   ],
   "note": "The exception of C49 (class 31 with E = F raises) is part of the statement. That the reduction returns within its 1000 passes is proved for a cell that is a Niggli cell up to the typing errors; for other cells it is a hypothesis. numpy.linalg.det, used for the scale of the tolerance, is modelled by expansion."
  },
  {
   "property": "C123",
   "status": "proved",
   "theorems": [
    "AutoGR.reducedCell_canon",
    "AutoGR.reducedCanonical_rounded",
    "AutoGR.recognisedPy_close",
    "AutoGR.findSupercells_rounded",
    "AutoGR.findSupercells_rounded_search",
    "AutoGR.findSupercells_rounded_cubic",
    "AutoGR.findSupercells_rounded_tric",
    "AutoGR.findSupercells_rounded_tric_search",
    "AutoGR.findSupercellsK_exact"
   ],
   "note": "That the class and the reduction of the user cell are right is what C122 proves (recognisedPy_close); the accuracy of numpy.linalg.inv on the three matrices, and for the search modes the cube root (a hypothesis on floor(nt**(1/3)) as in C33), are hypotheses. np.dot is modelled with the sums taken from left to right, overflow and underflow do not occur."
  },
  {
   "property": "C124",
   "status": "proved",
   "theorems": [
    "AutoGR.Fortran.kpdensity_rounded",
    "AutoGR.Fortran.kspacing_rounded",
    "AutoGR.Fortran.rmin_rounded",
    "AutoGR.Fortran.points_one_off",
    "AutoGR.Fortran.points_right",
    "AutoGR.Fortran.points_share",
    "AutoGR.Fortran.volumes_exact",
    "AutoGR.Fortran.points_exact",
    "AutoGR.Fortran.kspacing_other",
    "AutoGR.Fortran.relativeOps_rounded"
   ],
   "note": "The accuracy of matrix_inverse (symlib, not in the repository) on the cell is a hypothesis; determinant (symlib) is modelled by expansion along a row. Overflow and underflow do not occur. The relative error u is at least 2^-60, so that the literal for pi counts as rounded."
  },
  {
   "property": "C125",
   "status": "proved",
   "theorems": [
    "AutoGR.Fortran.supercells_stored",
    "AutoGR.Fortran.grids_rounded_general",
    "AutoGR.Fortran.grids_rounded_cubic",
    "AutoGR.Fortran.grids_rounded_tric"
   ],
   "note": "The accuracy of matrix_inverse (symlib) is a hypothesis as in C119, for triclinic lattices also that the bound on the error in the change of basis is below one half. The lists are those of one generator call for n points; which n find_grid tries is C79 and C119."
  },
  {
   "property": "C126",
   "status": "proved",
   "theorems": [
    "AutoGR.Fortran.rmin_pack_rounded",
    "AutoGR.Fortran.packed_rounded",
    "AutoGR.Fortran.left_handed_rounded",
    "AutoGR.Fortran.find_grid_packed_rounded",
    "AutoGR.Fortran.packedK_exact",
    "AutoGR.Fortran.compares_rounded",
    "AutoGR.Fortran.root_exists"
   ],
   "note": "minkowski_reduce_basis and determinant are in symlib: the accuracy of the reduced basis is a hypothesis, the determinant is expanded along a row. Overflow and underflow do not occur."
  },
  {
   "property": "C127",
   "status": "proved",
   "theorems": [
    "AutoGR.Fortran.choice_rounded",
    "AutoGR.Fortran.choice_rounded_general",
    "AutoGR.Fortran.choice_rounded_cubic",
    "AutoGR.Fortran.choice_rounded_tric",
    "AutoGR.Fortran.findGridK_best",
    "AutoGR.Fortran.choice_limit",
    "AutoGR.Fortran.ratio_order",
    "AutoGR.Fortran.notMore_counts"
   ],
   "note": "Only the ratios are rounded here; the lengths compared in compare_grids are numbers of the library model (C126 bounds their error). The counts of irreducible points are integers."
  },
  {
   "property": "C128",
   "status": "proved",
   "theorems": [
    "AutoGR.Fortran.compareAllK_rounded",
    "AutoGR.Fortran.tryHNFsK_rounded",
    "AutoGR.Fortran.tryHNFsK_longest",
    "AutoGR.Fortran.compareAllK_told",
    "AutoGR.Fortran.told_rounded",
    "AutoGR.Fortran.told_of_factors",
    "AutoGR.Fortran.compareGridsK_rat",
    "AutoGR.Fortran.cube_lists"
   ],
   "note": "Grids are those counted as packed by the program; C126 says which these are. equal and the reduction are symlib and enter by bounds on their errors. Where lengths differ by less than the tolerance, the order of the matrices matters (C70)."
  },
  {
   "property": "C129",
   "status": "proved",
   "theorems": [
    "AutoGR.Fortran.findGridR_general",
    "AutoGR.Fortran.findGridR_rounded",
    "AutoGR.Fortran.findGridR_tric",
    "AutoGR.Fortran.findGridR_cubic",
    "AutoGR.Fortran.told_list"
   ],
   "note": "The search may run for ever if no grid is packed densely enough (C73). The reduced bases, the square root, equal and the counts of irreducible points are symlib or intrinsic and enter by their errors."
  },
  {
   "property": "C130",
   "status": "proved",
   "theorems": [
    "AutoGR.Fortran.find_grid_widest_float",
    "AutoGR.Fortran.find_grid_best_float_cubic",
    "AutoGR.Fortran.find_grid_widest_float_tric",
    "AutoGR.Fortran.grids_meant_tric",
    "AutoGR.Fortran.grids_meant_cubic",
    "AutoGR.Fortran.grids_meant",
    "AutoGR.Fortran.find_gridR_searches",
    "AutoGR.Fortran.supercells_change"
   ],
   "note": "Cubic: up to 96^3 points. Triclinic: the number reported is n m, not n m^3 (C75). The search may run for ever (C73). The library (reduced bases, counts, square root, equal) enters by its errors; the smallest distances of the grids must be equal or apart (GridsApart)."
  }
 ]
}