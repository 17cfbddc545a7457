{"id": "C01", "title": "Factor triples of the determinant", "statement": "get_HNF_diagonals(n) lists every triple [a,c,f] of positive integers with a*c*f = n, each exactly once, in lexicographic order, nothing else, and is empty for n <= 0.", "quantifier": "all integers n", "why_tests_cant": "There are infinitely many n, and the number of candidate matrices grows with n; tests compare against precomputed lists for a few n only.", "anchors": ["support/python_dev/opf_python/universal.py:get_HNF_diagonals", "src/sp_hnfs.f90:get_HNF_diagonals"]}
{"id": "C02", "title": "Simple cubic supercells", "statement": "For every n >= 1, sc_3(n) is exactly the set of all Hermite normal forms H of determinant n whose supercell keeps every symmetry operation shared by all lattices of Niggli class 3, written in autoGR's canonical basis: no symmetric supercell is missing and none of the listed ones breaks a symmetry. No matrix is listed twice.", "quantifier": "all n >= 1, all 3x3 HNF matrices of determinant n, all integer matrices X that are symmetries of the class, each class in {3}", "why_tests_cant": "There are infinitely many n, and the number of candidate matrices grows with n; tests compare against precomputed lists for a few n only.", "anchors": ["support/python_dev/opf_python/sc.py:sc_3", "src/sp_hnfs.f90"]}
{"id": "C03", "title": "Body centred cubic supercells", "statement": "For every n >= 1, bcc_5(n) is exactly the set of all Hermite normal forms H of determinant n whose supercell keeps every symmetry operation shared by all lattices of Niggli class 5, written in autoGR's canonical basis: no symmetric supercell is missing and none of the listed ones breaks a symmetry. No matrix is listed twice.", "quantifier": "all n >= 1, all 3x3 HNF matrices of determinant n, all integer matrices X that are symmetries of the class, each class in {5}", "why_tests_cant": "There are infinitely many n, and the number of candidate matrices grows with n; tests compare against precomputed lists for a few n only.", "anchors": ["support/python_dev/opf_python/bcc.py:bcc_5", "src/sp_hnfs.f90"]}
{"id": "C04", "title": "Face centred cubic supercells", "statement": "For every n >= 1, fcc_1(n) is exactly the set of all Hermite normal forms H of determinant n whose supercell keeps every symmetry operation shared by all lattices of Niggli class 1, written in autoGR's canonical basis: no symmetric supercell is missing and none of the listed ones breaks a symmetry. No matrix is listed twice.", "quantifier": "all n >= 1, all 3x3 HNF matrices of determinant n, all integer matrices X that are symmetries of the class, each class in {1}", "why_tests_cant": "There are infinitely many n, and the number of candidate matrices grows with n; tests compare against precomputed lists for a few n only.", "anchors": ["support/python_dev/opf_python/fcc.py:fcc_1", "src/sp_hnfs.f90"]}
{"id": "C05", "title": "Hexagonal supercells, setting 12", "statement": "For every n >= 1, hex_12(n) is exactly the set of all Hermite normal forms H of determinant n whose supercell keeps every symmetry operation shared by all lattices of Niggli class 12, written in autoGR's canonical basis: no symmetric supercell is missing and none of the listed ones breaks a symmetry. No matrix is listed twice.", "quantifier": "all n >= 1, all 3x3 HNF matrices of determinant n, all integer matrices X that are symmetries of the class, each class in {12}", "why_tests_cant": "There are infinitely many n, and the number of candidate matrices grows with n; tests compare against precomputed lists for a few n only.", "anchors": ["support/python_dev/opf_python/hx.py:hex_12", "src/sp_hnfs.f90"]}
{"id": "C06", "title": "Hexagonal supercells, setting 22", "statement": "For every n >= 1, hex_22(n) is exactly the set of all Hermite normal forms H of determinant n whose supercell keeps every symmetry operation shared by all lattices of Niggli class 22, written in autoGR's canonical basis: no symmetric supercell is missing and none of the listed ones breaks a symmetry. No matrix is listed twice.", "quantifier": "all n >= 1, all 3x3 HNF matrices of determinant n, all integer matrices X that are symmetries of the class, each class in {22}", "why_tests_cant": "There are infinitely many n, and the number of candidate matrices grows with n; tests compare against precomputed lists for a few n only.", "anchors": ["support/python_dev/opf_python/hx.py:hex_22", "src/sp_hnfs.f90"]}
{"id": "C07", "title": "Rhombohedral supercells, settings 9 and 24", "statement": "For every n >= 1, rhom_9_24(n) is exactly the set of all Hermite normal forms H of determinant n whose supercell keeps every symmetry operation shared by all lattices of Niggli class 9, 24, written in autoGR's canonical basis: no symmetric supercell is missing and none of the listed ones breaks a symmetry. No matrix is listed twice.", "quantifier": "all n >= 1, all 3x3 HNF matrices of determinant n, all integer matrices X that are symmetries of the class, each class in {9, 24}", "why_tests_cant": "There are infinitely many n, and the number of candidate matrices grows with n; tests compare against precomputed lists for a few n only.", "anchors": ["support/python_dev/opf_python/rhom.py:rhom_9_24", "src/sp_hnfs.f90"]}
{"id": "C08", "title": "Rhombohedral supercells, settings 2 and 4", "statement": "For every n >= 1, rhom_4_2(n) is exactly the set of all Hermite normal forms H of determinant n whose supercell keeps every symmetry operation shared by all lattices of Niggli class 2, 4, written in autoGR's canonical basis: no symmetric supercell is missing and none of the listed ones breaks a symmetry. No matrix is listed twice.", "quantifier": "all n >= 1, all 3x3 HNF matrices of determinant n, all integer matrices X that are symmetries of the class, each class in {2, 4}", "why_tests_cant": "There are infinitely many n, and the number of candidate matrices grows with n; tests compare against precomputed lists for a few n only.", "anchors": ["support/python_dev/opf_python/rhom.py:rhom_4_2", "src/sp_hnfs.f90"]}
{"id": "C09", "title": "Simple tetragonal supercells, setting 11", "statement": "For every n >= 1, stet_11(n) is exactly the set of all Hermite normal forms H of determinant n whose supercell keeps every symmetry operation shared by all lattices of Niggli class 11, written in autoGR's canonical basis: no symmetric supercell is missing and none of the listed ones breaks a symmetry. No matrix is listed twice.", "quantifier": "all n >= 1, all 3x3 HNF matrices of determinant n, all integer matrices X that are symmetries of the class, each class in {11}", "why_tests_cant": "There are infinitely many n, and the number of candidate matrices grows with n; tests compare against precomputed lists for a few n only.", "anchors": ["support/python_dev/opf_python/stet.py:stet_11", "src/sp_hnfs.f90"]}
{"id": "C10", "title": "Simple tetragonal supercells, setting 21", "statement": "For every n >= 1, stet_21(n) is exactly the set of all Hermite normal forms H of determinant n whose supercell keeps every symmetry operation shared by all lattices of Niggli class 21, written in autoGR's canonical basis: no symmetric supercell is missing and none of the listed ones breaks a symmetry. No matrix is listed twice.", "quantifier": "all n >= 1, all 3x3 HNF matrices of determinant n, all integer matrices X that are symmetries of the class, each class in {21}", "why_tests_cant": "There are infinitely many n, and the number of candidate matrices grows with n; tests compare against precomputed lists for a few n only.", "anchors": ["support/python_dev/opf_python/stet.py:stet_21", "src/sp_hnfs.f90"]}
{"id": "C11", "title": "Body centred tetragonal supercells", "statement": "For every n >= 1, body_tet_6_7_15_18(n) is exactly the set of all Hermite normal forms H of determinant n whose supercell keeps every symmetry operation shared by all lattices of Niggli class 6, 7, 15, 18, written in autoGR's canonical basis: no symmetric supercell is missing and none of the listed ones breaks a symmetry. No matrix is listed twice.", "quantifier": "all n >= 1, all 3x3 HNF matrices of determinant n, all integer matrices X that are symmetries of the class, each class in {6, 7, 15, 18}", "why_tests_cant": "There are infinitely many n, and the number of candidate matrices grows with n; tests compare against precomputed lists for a few n only.", "anchors": ["support/python_dev/opf_python/body_tet.py:body_tet_6_7_15_18", "src/sp_hnfs.f90"]}
{"id": "C12", "title": "Simple orthorhombic supercells", "statement": "For every n >= 1, so_32(n) is exactly the set of all Hermite normal forms H of determinant n whose supercell keeps every symmetry operation shared by all lattices of Niggli class 32, written in autoGR's canonical basis: no symmetric supercell is missing and none of the listed ones breaks a symmetry. No matrix is listed twice.", "quantifier": "all n >= 1, all 3x3 HNF matrices of determinant n, all integer matrices X that are symmetries of the class, each class in {32}", "why_tests_cant": "There are infinitely many n, and the number of candidate matrices grows with n; tests compare against precomputed lists for a few n only.", "anchors": ["support/python_dev/opf_python/so.py:so_32", "src/sp_hnfs.f90"]}
{"id": "C13", "title": "Body centred orthorhombic supercells, setting 19", "statement": "For every n >= 1, body_ortho_19(n) is exactly the set of all Hermite normal forms H of determinant n whose supercell keeps every symmetry operation shared by all lattices of Niggli class 19, written in autoGR's canonical basis: no symmetric supercell is missing and none of the listed ones breaks a symmetry. No matrix is listed twice.", "quantifier": "all n >= 1, all 3x3 HNF matrices of determinant n, all integer matrices X that are symmetries of the class, each class in {19}", "why_tests_cant": "There are infinitely many n, and the number of candidate matrices grows with n; tests compare against precomputed lists for a few n only.", "anchors": ["support/python_dev/opf_python/body_ortho.py:body_ortho_19", "src/sp_hnfs.f90"]}
{"id": "C14", "title": "Body centred orthorhombic supercells, setting 8", "statement": "For every n >= 1, body_ortho_8(n) is exactly the set of all Hermite normal forms H of determinant n whose supercell keeps every symmetry operation shared by all lattices of Niggli class 8, written in autoGR's canonical basis: no symmetric supercell is missing and none of the listed ones breaks a symmetry. No matrix is listed twice.", "quantifier": "all n >= 1, all 3x3 HNF matrices of determinant n, all integer matrices X that are symmetries of the class, each class in {8}", "why_tests_cant": "There are infinitely many n, and the number of candidate matrices grows with n; tests compare against precomputed lists for a few n only.", "anchors": ["support/python_dev/opf_python/body_ortho.py:body_ortho_8", "src/sp_hnfs.f90"]}
{"id": "C15", "title": "Body centred orthorhombic supercells, setting 42", "statement": "For every n >= 1, body_ortho_42(n) is exactly the set of all Hermite normal forms H of determinant n whose supercell keeps every symmetry operation shared by all lattices of Niggli class 42, written in autoGR's canonical basis: no symmetric supercell is missing and none of the listed ones breaks a symmetry. No matrix is listed twice.", "quantifier": "all n >= 1, all 3x3 HNF matrices of determinant n, all integer matrices X that are symmetries of the class, each class in {42}", "why_tests_cant": "There are infinitely many n, and the number of candidate matrices grows with n; tests compare against precomputed lists for a few n only.", "anchors": ["support/python_dev/opf_python/body_ortho.py:body_ortho_42", "src/sp_hnfs.f90"]}
{"id": "C16", "title": "Face centred orthorhombic supercells, setting 26", "statement": "For every n >= 1, face_ortho_26(n) is exactly the set of all Hermite normal forms H of determinant n whose supercell keeps every symmetry operation shared by all lattices of Niggli class 26, written in autoGR's canonical basis: no symmetric supercell is missing and none of the listed ones breaks a symmetry. No matrix is listed twice.", "quantifier": "all n >= 1, all 3x3 HNF matrices of determinant n, all integer matrices X that are symmetries of the class, each class in {26}", "why_tests_cant": "There are infinitely many n, and the number of candidate matrices grows with n; tests compare against precomputed lists for a few n only.", "anchors": ["support/python_dev/opf_python/face_ortho.py:face_ortho_26", "src/sp_hnfs.f90"]}
{"id": "C17", "title": "Face centred orthorhombic supercells, setting 16", "statement": "For every n >= 1, face_ortho_16(n) is exactly the set of all Hermite normal forms H of determinant n whose supercell keeps every symmetry operation shared by all lattices of Niggli class 16, written in autoGR's canonical basis: no symmetric supercell is missing and none of the listed ones breaks a symmetry. No matrix is listed twice.", "quantifier": "all n >= 1, all 3x3 HNF matrices of determinant n, all integer matrices X that are symmetries of the class, each class in {16}", "why_tests_cant": "There are infinitely many n, and the number of candidate matrices grows with n; tests compare against precomputed lists for a few n only.", "anchors": ["support/python_dev/opf_python/face_ortho.py:face_ortho_16", "src/sp_hnfs.f90"]}
{"id": "C18", "title": "Base centred orthorhombic supercells, settings 13 and 38", "statement": "For every n >= 1, base_ortho_38_13(n) is exactly the set of all Hermite normal forms H of determinant n whose supercell keeps every symmetry operation shared by all lattices of Niggli class 13, 38, written in autoGR's canonical basis: no symmetric supercell is missing and none of the listed ones breaks a symmetry. No matrix is listed twice.", "quantifier": "all n >= 1, all 3x3 HNF matrices of determinant n, all integer matrices X that are symmetries of the class, each class in {13, 38}", "why_tests_cant": "There are infinitely many n, and the number of candidate matrices grows with n; tests compare against precomputed lists for a few n only.", "anchors": ["support/python_dev/opf_python/base_ortho.py:base_ortho_38_13", "src/sp_hnfs.f90"]}
{"id": "C19", "title": "Base centred orthorhombic supercells, setting 23", "statement": "For every n >= 1, base_ortho_23(n) is exactly the set of all Hermite normal forms H of determinant n whose supercell keeps every symmetry operation shared by all lattices of Niggli class 23, written in autoGR's canonical basis: no symmetric supercell is missing and none of the listed ones breaks a symmetry. No matrix is listed twice.", "quantifier": "all n >= 1, all 3x3 HNF matrices of determinant n, all integer matrices X that are symmetries of the class, each class in {23}", "why_tests_cant": "There are infinitely many n, and the number of candidate matrices grows with n; tests compare against precomputed lists for a few n only.", "anchors": ["support/python_dev/opf_python/base_ortho.py:base_ortho_23", "src/sp_hnfs.f90"]}
{"id": "C20", "title": "Base centred orthorhombic supercells, setting 40", "statement": "For every n >= 1, base_ortho_40(n) is exactly the set of all Hermite normal forms H of determinant n whose supercell keeps every symmetry operation shared by all lattices of Niggli class 40, written in autoGR's canonical basis: no symmetric supercell is missing and none of the listed ones breaks a symmetry. No matrix is listed twice.", "quantifier": "all n >= 1, all 3x3 HNF matrices of determinant n, all integer matrices X that are symmetries of the class, each class in {40}", "why_tests_cant": "There are infinitely many n, and the number of candidate matrices grows with n; tests compare against precomputed lists for a few n only.", "anchors": ["support/python_dev/opf_python/base_ortho.py:base_ortho_40", "src/sp_hnfs.f90"]}
{"id": "C21", "title": "Base centred orthorhombic supercells, setting 36", "statement": "For every n >= 1, base_ortho_36(n) is exactly the set of all Hermite normal forms H of determinant n whose supercell keeps every symmetry operation shared by all lattices of Niggli class 36, written in autoGR's canonical basis: no symmetric supercell is missing and none of the listed ones breaks a symmetry. No matrix is listed twice.", "quantifier": "all n >= 1, all 3x3 HNF matrices of determinant n, all integer matrices X that are symmetries of the class, each class in {36}", "why_tests_cant": "There are infinitely many n, and the number of candidate matrices grows with n; tests compare against precomputed lists for a few n only.", "anchors": ["support/python_dev/opf_python/base_ortho.py:base_ortho_36", "src/sp_hnfs.f90"]}
{"id": "C22", "title": "Base centred monoclinic supercells, settings 20 and 25", "statement": "For every n >= 1, base_mono_20_25(n) is exactly the set of all Hermite normal forms H of determinant n whose supercell keeps every symmetry operation shared by all lattices of Niggli class 20, 25, written in autoGR's canonical basis: no symmetric supercell is missing and none of the listed ones breaks a symmetry. No matrix is listed twice.", "quantifier": "all n >= 1, all 3x3 HNF matrices of determinant n, all integer matrices X that are symmetries of the class, each class in {20, 25}", "why_tests_cant": "There are infinitely many n, and the number of candidate matrices grows with n; tests compare against precomputed lists for a few n only.", "anchors": ["support/python_dev/opf_python/base_mono.py:base_mono_20_25", "src/sp_hnfs.f90"]}
{"id": "C23", "title": "Base centred monoclinic supercells, setting 28", "statement": "For every n >= 1, base_mono_28(n) is exactly the set of all Hermite normal forms H of determinant n whose supercell keeps every symmetry operation shared by all lattices of Niggli class 28, written in autoGR's canonical basis: no symmetric supercell is missing and none of the listed ones breaks a symmetry. No matrix is listed twice.", "quantifier": "all n >= 1, all 3x3 HNF matrices of determinant n, all integer matrices X that are symmetries of the class, each class in {28}", "why_tests_cant": "There are infinitely many n, and the number of candidate matrices grows with n; tests compare against precomputed lists for a few n only.", "anchors": ["support/python_dev/opf_python/base_mono.py:base_mono_28", "src/sp_hnfs.f90"]}
{"id": "C24", "title": "Base centred monoclinic supercells, settings 29 and 30", "statement": "For every n >= 1, base_mono_29_30(n) is exactly the set of all Hermite normal forms H of determinant n whose supercell keeps every symmetry operation shared by all lattices of Niggli class 29, 30, written in autoGR's canonical basis: no symmetric supercell is missing and none of the listed ones breaks a symmetry. No matrix is listed twice.", "quantifier": "all n >= 1, all 3x3 HNF matrices of determinant n, all integer matrices X that are symmetries of the class, each class in {29, 30}", "why_tests_cant": "There are infinitely many n, and the number of candidate matrices grows with n; tests compare against precomputed lists for a few n only.", "anchors": ["support/python_dev/opf_python/base_mono.py:base_mono_29_30", "src/sp_hnfs.f90"]}
{"id": "C25", "title": "Base centred monoclinic supercells, the seven-setting generator", "statement": "For every n >= 1, base_mono_10_14_17_27_37_39_41(n) is exactly the set of all Hermite normal forms H of determinant n whose supercell keeps every symmetry operation shared by all lattices of Niggli class 10, 14, 17, 27, 37, 39, 41, written in autoGR's canonical basis: no symmetric supercell is missing and none of the listed ones breaks a symmetry. No matrix is listed twice.", "quantifier": "all n >= 1, all 3x3 HNF matrices of determinant n, all integer matrices X that are symmetries of the class, each class in {10, 14, 17, 27, 37, 39, 41}", "why_tests_cant": "There are infinitely many n, and the number of candidate matrices grows with n; tests compare against precomputed lists for a few n only.", "anchors": ["support/python_dev/opf_python/base_mono.py:base_mono_10_14_17_27_37_39_41", "src/sp_hnfs.f90"]}
{"id": "C26", "title": "Base centred monoclinic supercells, setting 43", "statement": "For every n >= 1, base_mono_43(n) is exactly the set of all Hermite normal forms H of determinant n whose supercell keeps every symmetry operation shared by all lattices of Niggli class 43, written in autoGR's canonical basis: no symmetric supercell is missing and none of the listed ones breaks a symmetry. No matrix is listed twice.", "quantifier": "all n >= 1, all 3x3 HNF matrices of determinant n, all integer matrices X that are symmetries of the class, each class in {43}", "why_tests_cant": "There are infinitely many n, and the number of candidate matrices grows with n; tests compare against precomputed lists for a few n only.", "anchors": ["support/python_dev/opf_python/base_mono.py:base_mono_43", "src/sp_hnfs.f90"]}
{"id": "C27", "title": "Simple monoclinic supercells, setting 33", "statement": "For every n >= 1, sm_33(n) is exactly the set of all Hermite normal forms H of determinant n whose supercell keeps every symmetry operation shared by all lattices of Niggli class 33, written in autoGR's canonical basis: no symmetric supercell is missing and none of the listed ones breaks a symmetry. No matrix is listed twice.", "quantifier": "all n >= 1, all 3x3 HNF matrices of determinant n, all integer matrices X that are symmetries of the class, each class in {33}", "why_tests_cant": "There are infinitely many n, and the number of candidate matrices grows with n; tests compare against precomputed lists for a few n only.", "anchors": ["support/python_dev/opf_python/sm.py:sm_33", "src/sp_hnfs.f90"]}
{"id": "C28", "title": "Simple monoclinic supercells, setting 34", "statement": "For every n >= 1, sm_34(n) is exactly the set of all Hermite normal forms H of determinant n whose supercell keeps every symmetry operation shared by all lattices of Niggli class 34, written in autoGR's canonical basis: no symmetric supercell is missing and none of the listed ones breaks a symmetry. No matrix is listed twice.", "quantifier": "all n >= 1, all 3x3 HNF matrices of determinant n, all integer matrices X that are symmetries of the class, each class in {34}", "why_tests_cant": "There are infinitely many n, and the number of candidate matrices grows with n; tests compare against precomputed lists for a few n only.", "anchors": ["support/python_dev/opf_python/sm.py:sm_34", "src/sp_hnfs.f90"]}
{"id": "C29", "title": "Simple monoclinic supercells, setting 35", "statement": "For every n >= 1, sm_35(n) is exactly the set of all Hermite normal forms H of determinant n whose supercell keeps every symmetry operation shared by all lattices of Niggli class 35, written in autoGR's canonical basis: no symmetric supercell is missing and none of the listed ones breaks a symmetry. No matrix is listed twice.", "quantifier": "all n >= 1, all 3x3 HNF matrices of determinant n, all integer matrices X that are symmetries of the class, each class in {35}", "why_tests_cant": "There are infinitely many n, and the number of candidate matrices grows with n; tests compare against precomputed lists for a few n only.", "anchors": ["support/python_dev/opf_python/sm.py:sm_35", "src/sp_hnfs.f90"]}
{"id": "C30", "title": "Triclinic supercells", "statement": "For a triclinic lattice and volume factor n, find_supercells considers every HNF of determinant n exactly once.", "quantifier": "all n >= 1, all HNF matrices of determinant n", "why_tests_cant": "There are infinitely many n, and the number of candidate matrices grows with n; tests compare against precomputed lists for a few n only.", "anchors": ["support/python_dev/opf_python/universal.py:find_supercells (31/44 branch)"]}
{"id": "C31", "title": "Which volumes a cubic lattice admits", "statement": "A simple or body centred cubic lattice has a symmetry preserving supercell of volume factor n exactly when n is k^3, 2k^3 or 4k^3; a face centred cubic one exactly when n is k^3, 4k^3 or 16k^3; and then it has exactly one.", "quantifier": "all n >= 1", "why_tests_cant": "The claim is an equivalence over all n with an existential over k.", "anchors": ["support/python_dev/opf_python/sc.py:sc_3", "support/python_dev/opf_python/bcc.py:bcc_5", "support/python_dev/opf_python/fcc.py:fcc_1"]}
{"id": "C32", "title": "Float rounding never changes the answer", "statement": "The generators divide in binary64 and test x % m == 0; for every n up to a million the list they return is the same as with exact arithmetic, for every rounding with relative error 2^-53 that is exact on integers up to 2^53.", "quantifier": "all n in 1..10^6, all rounding functions meeting the binary64 bounds, all generators", "why_tests_cant": "A wrong rounding would drop or add a matrix for some isolated n; tests sample few n and one platform.", "anchors": ["support/python_dev/opf_python/hx.py", "support/python_dev/opf_python/rhom.py", "support/python_dev/opf_python/stet.py", "support/python_dev/opf_python/body_tet.py", "support/python_dev/opf_python/body_ortho.py", "support/python_dev/opf_python/face_ortho.py", "support/python_dev/opf_python/base_ortho.py", "support/python_dev/opf_python/base_mono.py", "support/python_dev/opf_python/sm.py"]}
{"id": "C33", "title": "Volumes tried for cubic lattices", "statement": "find_volumes for lattice types 1, 3, 5 returns three volume factors in increasing order, none below the requested density, each of which the lattice admits (its generator is not empty).", "quantifier": "all densities kpd >= 1, all three cubic types", "why_tests_cant": "Universal over kpd; the float cube root may be off by one on perfect cubes.", "anchors": ["support/python_dev/opf_python/universal.py:find_volumes"]}
{"id": "C34", "title": "Cubic volumes are the closest ones", "statement": "find_volumes for a cubic lattice returns the three smallest admissible volume factors that are at least the requested density.", "quantifier": "all densities kpd >= 1", "why_tests_cant": "Needs a comparison with all admissible volumes, for every density.", "anchors": ["support/python_dev/opf_python/universal.py:find_volumes"]}
{"id": "C35", "title": "Triclinic volume and multiplier", "statement": "For types 31 and 44 find_volumes terminates and returns one factor ns[0] <= 100 and the least multiplier mult with kpd/mult^3 <= 100, with ns[0]*mult^3 <= kpd < (ns[0]+1)*mult^3.", "quantifier": "all densities kpd >= 1", "why_tests_cant": "Termination and minimality of an unbounded search.", "anchors": ["support/python_dev/opf_python/universal.py:find_volumes"]}
{"id": "C36", "title": "Volumes tried for all other lattices", "statement": "For every other lattice type find_volumes returns kpd, kpd+1, ..., kpd+10 in order and no multiplier.", "quantifier": "all densities and all remaining lattice types", "why_tests_cant": "Universal over kpd.", "anchors": ["support/python_dev/opf_python/universal.py:find_volumes"]}
{"id": "C37", "title": "Every lattice number is dispatched", "statement": "Whatever number niggli_id returns, find_supercells has a branch for it, so the 'unrecognized lattice type' ValueError is never raised, and the branch it takes is the generator written for that number.", "quantifier": "all lattices, all reachable lattice numbers", "why_tests_cant": "Needs all outcomes of a deep decision tree to be matched against another one.", "anchors": ["support/python_dev/opf_python/universal.py:find_supercells", "support/python_dev/opf_python/niggli_lat_id.py:niggli_id"]}
{"id": "C38", "title": "Exact mode returns the whole symmetric set", "statement": "find_supercells(U, n, exact=True) returns one supercell for each symmetry preserving HNF of determinant n of the identified class, no more, no fewer.", "quantifier": "all n >= 1 and all lattice numbers", "why_tests_cant": "There are infinitely many n, and the number of candidate matrices grows with n; tests compare against precomputed lists for a few n only.", "anchors": ["support/python_dev/opf_python/universal.py:find_supercells"]}
{"id": "C39", "title": "Density search of the non-exact mode", "statement": "find_supercells(U, kpd) on a non-cubic, non-triclinic lattice takes the grids of the first five densities in kpd..kpd+10 that offer more than one grid (all such densities if there are fewer than five), and nothing else.", "quantifier": "all densities kpd >= 1 and all lattice numbers", "why_tests_cant": "Depends on the grid counts of eleven consecutive densities for every kpd.", "anchors": ["support/python_dev/opf_python/universal.py:find_supercells"]}
{"id": "C40", "title": "A grid is always found", "statement": "find_supercells(U, kpd) never returns an empty list for kpd >= 1.", "quantifier": "all densities kpd >= 1 and all lattice numbers", "why_tests_cant": "Existence over an unbounded set of densities; an empty list would surface only for rare kpd.", "anchors": ["support/python_dev/opf_python/universal.py:find_supercells"]}
{"id": "C41", "title": "Supercells are integer multiples of the user's cell", "statement": "Each matrix B returned by transform_supercells equals U*M for an integer matrix M whose determinant is that of the HNF it came from, so B spans a sublattice of the user's lattice of index n.", "quantifier": "all invertible user bases U and canonical bases O, all unimodular transformation matrices, all HNFs", "why_tests_cant": "Quantifies over real bases and all integer matrices.", "anchors": ["support/python_dev/opf_python/universal.py:transform_supercells"]}
{"id": "C42", "title": "Supercells keep the user's symmetry", "statement": "If H is preserved by the class symmetries in the canonical basis then the supercell built from it in the user's basis is preserved by the class symmetries of the user's lattice.", "quantifier": "all user lattices of each class, all symmetric HNFs", "why_tests_cant": "Quantifies over all real lattices of a class.", "anchors": ["support/python_dev/opf_python/universal.py:transform_supercells", "support/python_dev/opf_python/universal.py:find_supercells"]}
{"id": "C43", "title": "Reduction keeps the lattice", "statement": "Whenever reduced_cell returns, C is an integer matrix of determinant +1, so the reduced cell spans the same lattice with the same volume and handedness. This holds whatever rounding the floating point arithmetic does and for every eps.", "quantifier": "all input cells, all tolerances, all outcomes of every float comparison", "why_tests_cant": "The path through the loop depends on arbitrary reals and rounding.", "anchors": ["support/python_dev/opf_python/pyniggli.py:reduced_cell"]}
{"id": "C44", "title": "A returned cell is Niggli reduced up to tolerance", "statement": "Whenever reduced_cell returns without raising, the metric parameters of the returned cell satisfy the Niggli inequalities (A<=B<=C, |xi|<=B, |eta|<=A, |zeta|<=A, A+B+xi+eta+zeta>=0, all of one sign) up to the tolerance eps + 1e-5*|bound|.", "quantifier": "all input cells and tolerances", "why_tests_cant": "Universal over real cells.", "anchors": ["support/python_dev/opf_python/pyniggli.py:_niggli_check"]}
{"id": "C45", "title": "Loop exit means reduced", "statement": "In exact arithmetic with eps = 0, when the reduction loop stops because nothing changed, the cell meets all Niggli conditions, main and special ones.", "quantifier": "all invertible cells", "why_tests_cant": "Universal over real cells; relates eight negated step conditions to the conditions of the definition.", "anchors": ["support/python_dev/opf_python/pyniggli.py:_niggli_reduction", "support/python_dev/opf_python/pyniggli.py:_niggli_check"]}
{"id": "C46", "title": "Reduction is independent of the unit of length", "statement": "reduced_cell gives the same C when the cell is multiplied by a positive scale factor.", "quantifier": "all cells and scale factors", "why_tests_cant": "Quantifies over all scales.", "anchors": ["support/python_dev/opf_python/pyniggli.py:reduced_cell.__init__"]}
{"id": "C47", "title": "A reduced cell is never rejected", "statement": "reduced_cell does not raise on a cell for which its own loop stops with reduced = True.", "quantifier": "all input cells and tolerances", "why_tests_cant": "The final check uses different tolerances than the loop; only special cells show it.", "anchors": ["support/python_dev/opf_python/pyniggli.py:_niggli_check"]}
{"id": "C48", "title": "The identified class is right", "statement": "If niggli_id returns number k then the reduced metric meets the equalities of Niggli class k of the International Tables, up to the tolerance, and the family number and lattice name belong to k.", "quantifier": "all lattices / metric tensors, all tolerances", "why_tests_cant": "Universal over metric tensors; 44 leaves with overlapping tolerance tests.", "anchors": ["support/python_dev/opf_python/niggli_lat_id.py:niggli_id"]}
{"id": "C49", "title": "niggli_id always answers", "statement": "niggli_id returns a number for every lattice that can be reduced.", "quantifier": "all lattices", "why_tests_cant": "A missing branch is hit only by metrics in a thin set.", "anchors": ["support/python_dev/opf_python/niggli_lat_id.py:niggli_id"]}
{"id": "C50", "title": "Exact classification", "statement": "In exact arithmetic niggli_id returns k only if k is the most special class: the metric does not satisfy the equalities of a class tested earlier, and every Niggli reduced metric satisfying the equalities of class k and of no more special class gets k.", "quantifier": "all Niggli reduced metric tensors", "why_tests_cant": "Universal over metric tensors and over pairs of classes.", "anchors": ["support/python_dev/opf_python/niggli_lat_id.py:niggli_id"]}
{"id": "C51", "title": "Canonical bases belong to their class", "statement": "For each number k other than 31 and 44, the canonical basis niggli_id returns reduces without error to a cell that niggli_id itself identifies as k.", "quantifier": "all 42 canonical bases", "why_tests_cant": "It is a statement about all entries of a table through the whole reduction and identification code.", "anchors": ["support/python_dev/opf_python/niggli_lat_id.py:niggli_id", "support/python_dev/opf_python/pyniggli.py:reduced_cell"]}
{"id": "C52", "title": "Smallest prime factor", "statement": "smallest_prime(a) is the least prime factor of a for every a >= 2.", "quantifier": "all integers a >= 2", "why_tests_cant": "Universal over integers.", "anchors": ["support/python_dev/opf_python/body_tet.py:smallest_prime"]}
{"id": "C53", "title": "Test density lists", "statement": "basis_check.sc_and_bcc_kps and fcc_kps list all densities m*k^3 a cubic lattice admits (m in {1,2,4}, respectively {1,4,16}).", "quantifier": "all bounds", "why_tests_cant": "Universal over the bound.", "anchors": ["support/python_dev/opf_python/basis_check.py:sc_and_bcc_kps", "support/python_dev/opf_python/basis_check.py:fcc_kps"]}
{"id": "C54", "title": "HNFs stand for sublattices one to one", "statement": "Every sublattice of finite index of the user's lattice has exactly one basis in the lower triangular Hermite normal form autoGR enumerates, so listing HNFs lists supercells without duplicates or omissions.", "quantifier": "all 3x3 integer matrices of non-zero determinant", "why_tests_cant": "There are infinitely many sublattices.", "anchors": ["support/python_dev/opf_python/universal.py:find_supercells", "support/python_dev/opf_python/universal.py:get_HNF_diagonals"]}
{"id": "C55", "title": "reduced_cell succeeds on every non-singular cell", "statement": "reduced_cell returns a result for every cell of non-zero volume: in exact arithmetic its loop ends, and it ends within the 1000 passes the code allows.", "quantifier": "all non-singular cells", "why_tests_cant": "Termination over an unbounded set of cells; the number of passes grows with the skew of the cell.", "anchors": ["support/python_dev/opf_python/pyniggli.py:_niggli_reduction"]}
{"id": "C56", "title": "cell_test answers for every class", "statement": "basis_check.cell_test gives a verdict for a lattice of every Niggli class, and the verdict is True exactly when the supercells of every density in its list pass the symmetry test.", "quantifier": "all classes, all bounds on the density", "why_tests_cant": "44 branches, each looping over an unbounded list; a branch that names a missing function fails only when reached.", "anchors": ["support/python_dev/opf_python/basis_check.py:cell_test"]}
{"id": "C57", "title": "The Fortran generators list exactly the symmetry-preserving supercells", "statement": "For each lattice type, the Fortran subroutine that the driver calls lists every Hermite normal form of the requested determinant that keeps all symmetries shared by the lattices of that Niggli class, no other matrix, and none twice.", "quantifier": "all determinants up to 46000 with 32-bit integers (all determinants with unlimited integers), all 44 classes", "why_tests_cant": "The set of sublattices grows without bound with the determinant; a list that is right for the determinants tried can miss a matrix at the next one.", "anchors": ["src/sp_hnfs.f90", "src/find_kgrids.f90:find_grid"]}
{"id": "C58", "title": "32-bit integers do not change the Fortran lists up to determinant 46000", "statement": "Every Fortran generator gives for determinants up to 46000 the list it would give with unlimited integers; beyond that intermediate products can exceed 32 bits and a supercell can be lost.", "quantifier": "all determinants up to 46000; one determinant beyond", "why_tests_cant": "Overflow shows only at determinants no test runs.", "anchors": ["src/sp_hnfs.f90"]}
{"id": "C59", "title": "Fortran and Python generators agree", "statement": "For each lattice type the Fortran subroutine and the Python function return the same supercells (in the same order for cubic and triclinic lattices).", "quantifier": "all determinants up to 46000 and all lattice types", "why_tests_cant": "The two codes are written differently (truncating division and MOD against float tests); agreement on samples does not settle all determinants.", "anchors": ["src/sp_hnfs.f90", "support/python_dev/opf_python"]}
{"id": "C60", "title": "The Fortran generators stay inside their buffers", "statement": "The buffer for factor triples (3n columns) and the buffer for matrices (sum of c f^2) are large enough for every determinant, and the count check of the triclinic generator never stops the program.", "quantifier": "all determinants (up to 46000 for the matrix buffer)", "why_tests_cant": "The number of divisors fluctuates with the determinant: a buffer that suffices for those tested may be too small for a highly composite one.", "anchors": ["src/sp_hnfs.f90:get_HNF_diagonals", "src/sp_hnfs.f90:tric_31_44"]}
{"id": "C61", "title": "Fortran Niggli reduction returns a reduced cell of the same lattice", "statement": "Whenever reduce_cell returns, its matrix is integer with determinant 1 and the new cell meets all Niggli conditions up to the absolute tolerance eps times the cube root of the volume (exactly for tolerance 0); it is the matrix the Python reduced_cell returns when both return.", "quantifier": "all non-singular cells and tolerances for which the subroutine returns", "why_tests_cant": "The number of reduction steps and the branches taken depend on the cell.", "anchors": ["src/niggli.f90:reduce_cell"]}
{"id": "C62", "title": "The Fortran reduction accepts every cell its loop has reduced", "statement": "If the loop of reduce_cell stops before its limit, the final condition check accepts the cell.", "quantifier": "all cells and tolerances", "why_tests_cant": "The check fails only for cells exactly at the limit of a tolerance.", "anchors": ["src/niggli.f90:reduce_cell", "src/niggli.f90:condition_check"]}
{"id": "C63", "title": "id_cell always identifies a lattice type", "statement": "id_cell stops the program only if one of its two cell reductions does; otherwise it returns one of the 42 cases with a search range.", "quantifier": "all cells and tolerances, in any arithmetic", "why_tests_cant": "A gap in a decision tree shows only for the cells that fall into it.", "anchors": ["src/niggli.f90:id_cell"]}
{"id": "C64", "title": "id_cell finds the right Niggli class", "statement": "If no two quantities of the Niggli table are nearly equal without being equal, id_cell returns the first class of the table the reduced cell belongs to, the same as the Python niggli_id.", "quantifier": "all rational cells with that separation and all tolerances", "why_tests_cant": "There are 44 characters and infinitely many metrics per character.", "anchors": ["src/niggli.f90:id_cell"]}
{"id": "C65", "title": "Every equality of the class id_cell returns nearly holds", "statement": "For every cell the equalities that define the returned class hold up to a stated tolerance, and the type (acute or obtuse) is the one of the scalar products.", "quantifier": "all rational cells and tolerances", "why_tests_cant": "Tolerant comparisons chain: one must bound the error for every input.", "anchors": ["src/niggli.f90:id_cell"]}
{"id": "C66", "title": "The Fortran reduction ends for every cell", "statement": "reduce_cell returns a reduced cell for every non-singular input.", "quantifier": "all non-singular cells", "why_tests_cant": "The number of passes is unbounded over inputs.", "anchors": ["src/niggli.f90:reduce_cell"]}
{"id": "C67", "title": "The user's tolerance does not spoil the canonical basis", "statement": "id_cell reduces the canonical basis of the class it found with the tolerance the user gave; the symmetries of the class in that basis are the ones the supercell lists are made for.", "quantifier": "all 42 classes with a canonical basis and all tolerances", "why_tests_cant": "The reduction of a fixed basis takes different courses for different tolerances, and the tolerance is a real number.", "anchors": ["src/niggli.f90:id_cell", "src/niggli.f90:reduce_cell"]}
{"id": "C68", "title": "Densities tried for a cubic lattice (Fortran)", "statement": "For a cubic lattice the Fortran program tries the ten smallest numbers of k-points, not below the requested one, for which a symmetric grid exists, in increasing order.", "quantifier": "all three cubic classes, all requested densities, both roundings of the floating point cube root", "why_tests_cant": "The densities are found by an insertion sort over a window of one hundred cubes; where the window is too small depends on the requested density, which is unbounded.", "anchors": ["src/find_kgrids.f90:get_kpd_cubic"]}
{"id": "C69", "title": "Densities tried for a triclinic lattice (Fortran)", "statement": "For a triclinic lattice the Fortran program scales supercells with at most 100 points by the least possible factor, and the resulting grid has at least the requested number of points.", "quantifier": "all requested densities", "why_tests_cant": "The factor and the quotient depend on the density, which is unbounded.", "anchors": ["src/find_kgrids.f90:get_kpd_tric"]}
{"id": "C70", "title": "The candidate grids kept for one density (Fortran)", "statement": "Among the supercells of one density the program keeps those that are packed densely enough and have the largest shortest vector, and those with the second largest, whatever the order in which they come, and never writes outside its arrays.", "quantifier": "all finite sequences of supercells, all lengths and tolerances", "why_tests_cant": "The arrays grow while the sequence is read; the result is a fold over sequences of any length.", "anchors": ["src/grid_utils.f90:compare_grids"]}
{"id": "C71", "title": "The grid selected for one density (Fortran)", "statement": "Among the candidate grids and the offsets offered the program selects one with the fewest irreducible k-points under the user's choice of symmetries.", "quantifier": "all lists of candidates, all lists of offsets and all counts of irreducible k-points", "why_tests_cant": "Two nested loops over lists of any length with shared arrays; a wrong index shows only for particular counts.", "anchors": ["src/grid_utils.f90:grid_selection"]}
{"id": "C72", "title": "The grid returned for a non-cubic lattice (Fortran)", "statement": "find_grid returns a grid with at least the requested number of k-points that has all symmetries of the lattice class, with an offset that was offered, and no density in the search range is preferable by the program's own rule; no array is overrun and no variable read before it is set.", "quantifier": "all 39 classes that are neither cubic nor triclinic, all densities, offsets and results of the external library", "why_tests_cant": "The loop runs over densities without a bound, and every density runs a generator with unbounded lists.", "anchors": ["src/find_kgrids.f90:find_grid", "src/sp_hnfs.f90", "src/grid_utils.f90:compare_grids"]}
{"id": "C73", "title": "The search for a grid ends (Fortran)", "statement": "find_grid ends after at most max(40, search range) densities if each multiple of eight has a symmetric supercell that is packed densely enough; nothing else bounds the search.", "quantifier": "all non-cubic, non-triclinic classes, all densities", "why_tests_cant": "Termination of an unbounded loop.", "anchors": ["src/find_kgrids.f90:find_grid"]}
{"id": "C74", "title": "The grid returned for a cubic lattice (Fortran)", "statement": "For a cubic lattice find_grid returns, among the five smallest densities that have a symmetric supercell and are not below the requested one, a grid with all symmetries that is preferable by the program's rule, and stays in its arrays.", "quantifier": "all three cubic classes, all densities, offsets and results of the external library", "why_tests_cant": "The result of the library and the density decide which array places are written.", "anchors": ["src/find_kgrids.f90:find_grid", "src/find_kgrids.f90:get_kpd_cubic"]}
{"id": "C75", "title": "The grid returned for a triclinic lattice (Fortran)", "statement": "For a triclinic lattice find_grid returns a scaled supercell with n*m^3 k-points, short of the requested number by less than m^3, with all symmetries of the lattice.", "quantifier": "both triclinic classes, all densities, offsets and results of the external library", "why_tests_cant": "The loop over densities is unbounded and the lists of supercells grow with the density.", "anchors": ["src/find_kgrids.f90:find_grid", "src/sp_hnfs.f90:tric_31_44"]}
{"id": "C76", "title": "Every density has a symmetric grid", "statement": "A lattice that is not cubic has at least one symmetric supercell for every number of points, and at least two for multiples of eight, so that every generator compares at least one grid.", "quantifier": "all non-cubic classes and all numbers of points", "why_tests_cant": "An existence statement for every integer.", "anchors": ["src/sp_hnfs.f90", "src/find_kgrids.f90:find_grid"]}
{"id": "C77", "title": "The class symmetries are all the symmetries of the user's lattice", "statement": "The operations that all lattices of a Niggli class have in common are all the point symmetries of each single lattice of that class, so the supercells that are returned are exactly the sublattices invariant under every orthogonal map that leaves the user's lattice unchanged.", "quantifier": "all lattices (real bases), all 44 classes, all supercell volumes", "why_tests_cant": "The lattices of a class form a continuous family, and a single lattice could have an accidental symmetry.", "anchors": ["support/python_dev/opf_python/niggli_lat_id.py:niggli_id", "support/python_dev/opf_python/universal.py:find_supercells", "src/niggli.f90:id_cell"]}
{"id": "C78", "title": "The check of the class against the number of symmetries", "statement": "Called with the true number of point symmetries of a lattice, the check accepts exactly the classes whose lattices have that number of symmetries, always accepts the lattice's own class, and never stops the program.", "quantifier": "all lattices and all class numbers", "why_tests_cant": "The number of symmetries must be known for every lattice of every class.", "anchors": ["src/find_kgrids.f90:check_sym"]}
{"id": "C79", "title": "A supercell moved to the user's basis keeps index and symmetry", "statement": "The supercell computed in the user's basis consists of vectors of the user's lattice, has the volume of the Hermite normal form it comes from, and is mapped to itself by every point symmetry of the user's lattice; the grid made from it contains the reciprocal lattice, has as many points in a reciprocal cell as the volume, and has all those symmetries. The rounding to integers gives the exact matrix whenever the errors are below one half.", "quantifier": "all cells recognised by id_cell under the stated separation, all 44 classes, all Hermite normal forms kept by the class, all bases of the grid", "why_tests_cant": "Ranges over a continuum of lattices and over all supercells.", "anchors": ["src/grid_utils.f90:transform_supercell", "src/grid_utils.f90:compare_grids", "src/niggli.f90:id_cell"]}
{"id": "C80", "title": "The grid returned is commensurate with the crystal and has all its symmetries", "statement": "The k-point grid that find_grid returns contains the reciprocal lattice of the user's crystal, has at least the requested number of points in a reciprocal cell (triclinic lattices: more than the requested number minus the cube of the multiplier), and every rotation or reflection that maps the crystal lattice to itself maps the grid to itself.", "quantifier": "all recognised cells, densities, offsets, symmetry choices and k-point libraries", "why_tests_cant": "Every lattice and every density has to be covered.", "anchors": ["src/find_kgrids.f90:find_grid", "src/grid_utils.f90:transform_supercell", "src/sp_hnfs.f90"]}
{"id": "C81", "title": "The offsets tried", "statement": "The unshifted grid is always tried and tried first, no offset is tried twice, and every offset offered keeps the symmetry of the lattice.", "quantifier": "all class numbers and all lengths of the lattice vectors", "why_tests_cant": "The choice depends on comparisons of real numbers.", "anchors": ["src/find_kgrids.f90:get_offsets"]}
{"id": "C82", "title": "The input file means what it says", "statement": "If every value in the control file can be read and fits its type, the program stops exactly if no line says how many k-points are wanted. Otherwise the last such line decides: NKPTS the number itself, KPDENSITY the density times the volume of the reciprocal cell, KSPACING one point per cube of that side, KPPRA the number per atom times the number of atoms, RMIN the cell volume of a close-packed lattice with that distance, rounded to a nearest integer. Shift, tolerance and level of symmetry are those given last, with the documented defaults; MIN_IRR_KPTS is on if any line sets it to TRUE. Lines that are not settings have no effect.", "quantifier": "all files, all readers of numbers, all non-singular lattices and scale factors, all numbers of atoms", "why_tests_cant": "Ranges over all files and all lattices.", "anchors": ["src/control_file.f90:get_inputs", "README.md"]}
{"id": "C83", "title": "A value that cannot be read", "statement": "A value that cannot be read ends the reading of the control file: no later line has an effect. If the value is a number of points, the program does not stop with the message that the number is not set but goes on with an undefined number.", "quantifier": "all files, all positions of the line, all readers of numbers", "why_tests_cant": "Ranges over all files.", "anchors": ["src/control_file.f90:get_inputs"]}
{"id": "C84", "title": "The crystal read is the crystal in the file: lattice and species", "statement": "For a well-formed POSCAR file, with or without a line of species names, the lattice vectors and the scale are those of the file, there are as many atoms and types as the counts add up to, the types are in the order of the species, and every species has exactly the number of atoms given.", "quantifier": "all well-formed files: any numbers of species and atoms, any spacing of the words, with or without names, any lines after the positions", "why_tests_cant": "Ranges over all files.", "anchors": ["src/control_file.f90:read_POSCAR", "src/control_file.f90:parse_line_for_numbers", "src/control_file.f90:split_str"]}
{"id": "C85", "title": "The crystal read is the crystal in the file: positions", "statement": "For a well-formed POSCAR file the atoms are at the places the file gives, for direct and for Cartesian positions.", "quantifier": "all well-formed files", "why_tests_cant": "Ranges over all files and lattices.", "anchors": ["src/control_file.f90:read_POSCAR"]}
{"id": "C86", "title": "Cleaning a basis: classes where it is right", "statement": "For 33 of the 44 Niggli classes the vectors returned by delint have exactly the equal lengths and angles of the class, vectors that already have them are returned unchanged, and cleaning twice is the same as cleaning once.", "quantifier": "all bases, all 33 classes", "why_tests_cant": "Ranges over all real bases.", "anchors": ["src/delinter.f90:delint", "src/delinter.f90:symmetrize", "src/delinter.f90:cell2basis", "src/delinter.f90:basis2cell"]}
{"id": "C87", "title": "Cleaning a basis: the remaining classes", "statement": "For the classes 6, 7, 8, 12, 16, 17, 24, 26, 27, 28 and 43 cleaning does not work: for no basis of the class is the result a basis of the class (for class 43: for no basis whose last two lengths and last two angles differ).", "quantifier": "all bases of one of the eleven classes", "why_tests_cant": "Ranges over all real bases.", "anchors": ["src/delinter.f90:delint", "src/delinter.f90:symmetrize"]}
{"id": "C88", "title": "From the input files to the grid", "statement": "For well-formed POSCAR and KPGEN files the program returns a k-point grid that, for the crystal of POSCAR (vectors times scale), contains the reciprocal lattice, has all point symmetries of the crystal lattice and at least the number of points that the last setting about it asks for (triclinic lattices: see C75), together with the offset of the last SHIFT, or one of the offsets of get_offsets if there is no SHIFT.", "quantifier": "all input files that say something readable, all lattices that are recognised, all libraries that do what they document", "why_tests_cant": "Ranges over all files, lattices and requested densities; it is the composition of reading, classification, generation, transformation and search.", "anchors": ["src/driver.f90:lat_id_driver", "src/control_file.f90:get_inputs", "src/find_kgrids.f90:find_grid"]}
{"id": "C89", "title": "A lattice put in a class of another symmetry is refused", "statement": "If the library counts the point symmetries of the lattice correctly, the program never stops with the message that no lattice has that number of symmetries, and whenever the class found is one whose lattices have another number of symmetries than the user's lattice, the program stops with the message that the point group does not match and returns no grid.", "quantifier": "all input files, whatever class the identification returns", "why_tests_cant": "Ranges over all lattices, in particular the nearly symmetric ones.", "anchors": ["src/find_kgrids.f90:find_grid", "src/find_kgrids.f90:check_sym"]}
{"id": "C90", "title": "The brute force search lists exactly the symmetric supercells", "statement": "Given a parent lattice and its point group, get_srHNFs returns every Hermite normal form of the given volume whose supercell keeps all point symmetries of the lattice, no other, each once, and never writes beyond its arrays; the driver writes to n_srHNFs.out one line per volume from 1 to the maximum that has such supercells, in increasing order, with their number.", "quantifier": "all lattices with linearly independent vectors, all volumes for which the comparison separates multiples of 1/volume from integers (1e-10: up to ten thousand million), all maxima", "why_tests_cant": "Ranges over all lattices and volumes; completeness of a search cannot be sampled.", "anchors": ["support/brute_force/srHNF_brute.f90:get_srHNFs", "support/brute_force/srHNF_brute.f90:symm_pres", "support/brute_force/driver.f90"]}
{"id": "C91", "title": "Brute force and the fast generators agree", "statement": "For a lattice of any of the 44 Niggli classes, in the basis of the fast code, the brute force search and the fast generator that find_grid uses for that class return the same supercells up to the order.", "quantifier": "all lattices of all 44 classes, all volumes within the range of the integers", "why_tests_cant": "The test-suite compares finitely many volumes of finitely many lattices.", "anchors": ["support/brute_force/srHNF_brute.f90:get_srHNFs", "src/find_kgrids.f90:find_grid", "src/sp_hnfs.f90"]}
{"id": "C92", "title": "find_pg_gens returns generators", "statement": "For the point group of any lattice find_pg_gens returns two or three of its elements that generate it, and the search for supercells with these generators gives the same list as with the whole group.", "quantifier": "all lattices of all classes, all orders of the group elements, any contents of the memory next to the array", "why_tests_cant": "Ranges over all groups and lattices, and over what lies in memory behind an array that is read beyond its end.", "anchors": ["support/brute_force/srHNF_brute.f90:find_pg_gens", "support/brute_force/srHNF_brute.f90:forms_group"]}
{"id": "C93", "title": "find_gens_of_pg ends with a smallest generating set", "statement": "For every finite group of matrices that the comparison tells apart, find_gens_of_pg ends and returns elements of the group that generate it, and no smaller non-empty set of elements does.", "quantifier": "all finite groups of 3\u00d73 matrices, in any order", "why_tests_cant": "Termination and minimality for all groups.", "anchors": ["support/brute_force/general_approach.py:find_gens_of_pg", "support/brute_force/general_approach.py:forms_group"]}
{"id": "C94", "title": "Every lattice has symmetric grids that are packed densely enough", "statement": "For every lattice and every number there is a grid with more points than that which contains the reciprocal lattice, has all point symmetries of the lattice, and whose spheres of half the nearest distance fill more than the 30% of space that the program demands; it can be taken from the supercells that the generators list.", "quantifier": "all non-singular cells, all numbers of points", "why_tests_cant": "an existence claim over all real lattice shapes of each class and unboundedly many points", "anchors": ["src/grid_utils.f90: compare_grids", "src/sp_hnfs.f90"]}
{"id": "C95", "title": "The search for a grid ends", "statement": "For a recognised lattice of any class, whatever number of points is requested, the program comes to an end with a grid, provided the library recognises densely packed grids and counts their points and the integers are exact: more passes of its unbounded loops never change the result.", "quantifier": "all input files of recognised non-cubic lattices (the cubic ones are in C88), all numbers of points, all libraries with the stated behaviour", "why_tests_cant": "termination of an unbounded loop for every lattice shape", "anchors": ["src/find_kgrids.f90: find_grid", "src/grid_utils.f90: compare_grids", "src/driver.f90"]}
{"id": "C96", "title": "Which grids count as densely packed", "statement": "Given a reduced basis of a grid that is right-handed and starts with a shortest vector, and a square root good to one part in a thousand, a grid whose balls fill at least 31 % of space is accepted as a candidate, and an accepted one fills at least 29 %. A left-handed reduced basis is never accepted, however dense the grid. With such a reduction and square root the library does all that C88 and C95 ask of its geometry part.", "quantifier": "all grids, all reductions and square roots with the stated accuracy", "why_tests_cant": "ranges over all grids and all lattice reductions; the left-handed case depends on the external library", "anchors": ["src/grid_utils.f90: compare_grids"]}
{"id": "C97", "title": "KPOINTS reads back", "statement": "The file KPOINTS that the program writes can be read in free format and gives the number of points, the fractional coordinates to half a unit of the twelfth decimal, and the exact weights, in order, whenever each coordinate lies strictly between -10 and 100 (half a unit aside) and each weight has at most five characters. If a coordinate is at most -10 or at least 100, or a weight is longer, the file contains stars and cannot be read.", "quantifier": "all lists of points and weights, all reciprocal vectors, all roundings to nearest", "why_tests_cant": "all numbers, including those at the edge of the field width", "anchors": ["src/driver.f90"]}
{"id": "C98", "title": "The coordinates always have room in KPOINTS", "statement": "For every lattice the coordinates of the points of the first Brillouin zone fit the format of KPOINTS. (False for strongly skewed lattice vectors; true for Niggli-reduced ones, where no coordinate exceeds 4.)", "quantifier": "all lattices, all points of the first Brillouin zone", "why_tests_cant": "an inequality over all reduced lattices and all points of the zone", "anchors": ["src/driver.f90"]}
{"id": "C99", "title": "From the input files to KPOINTS", "statement": "For a crystal whose POSCAR gives Niggli-reduced lattice vectors of a recognised lattice, and a KPGEN file that can be used, the program ends and writes a KPOINTS file. The file can be read, and it lists one point for each class of equivalent points of a commensurate, symmetric grid with the chosen offset. The coordinates are right to 12 decimals, each weight is the size of the class, and the weights add up to the number of points of the grid, which is at least the requested one (for triclinic lattices it may fall short, C75).", "quantifier": "all POSCAR and KPGEN files of that kind, all lattices, all libraries that do what they are documented to do", "why_tests_cant": "all crystals and settings; termination; the sum over all classes of equivalent points", "anchors": ["src/driver.f90", "src/find_kgrids.f90:find_grid", "src/control_file.f90:get_inputs"]}
{"id": "C100", "title": "The grid does not have many more points than asked for", "statement": "The search for a grid stops soon after the requested number of points. For every lattice that is neither cubic nor triclinic the number of points of the answer divided by the requested number tends to 1 as the request grows; there is a number D, depending only on the lattice, such that a request of at most D m^3 points gives at most D (m+4)^3 points (or fewer than the request plus the range that is always searched). For the cubic lattices a request of at most m^3 points gives at most (m+13)^3 points (at most (m+4)^3 up to about a million points). For each triclinic lattice the number of points is at most a constant times the request.", "quantifier": "all lattices, numbers of points, offsets, numbers of irreducible points, libraries that do what they are documented to do", "why_tests_cant": "limits over all requests; which grids are packed densely enough depends on the lattice", "anchors": ["src/find_kgrids.f90:find_grid", "src/grid_utils.f90:compare_grids"]}
{"id": "C101", "title": "The reduced cell and the class do not depend on the cell chosen", "statement": "Give the code two cells of the same crystal lattice: any two bases, turned or mirrored against each other, and possibly in different units of length. The lengths and angles of the two reduced cells are the same, apart from the unit of length, and the class number (and with it the range of densities searched) is the same. This holds for the reduction and identification of the Python code and for those of the program.", "quantifier": "all lattices, all bases of a lattice, all rotations and reflections, all units of length", "why_tests_cant": "a lattice has infinitely many bases; that the conditions of the reduced cell single out one shape is a theorem about all of them", "anchors": ["pyniggli.py:reduced_cell", "niggli_lat_id.py:niggli_id", "src/niggli.f90:reduce_cell", "src/niggli.f90:id_cell"]}
{"id": "C102", "title": "The grid does not depend on the cell chosen to describe the crystal", "statement": "Give the program two descriptions of one crystal: two bases of its lattice, turned or mirrored against each other. Ask for the same number of points. Then the answers are the same: both searches fail in the same way, or both give the same number of points, the same number of irreducible points, and the same grid (turned like the crystal).", "quantifier": "all crystals, all bases of the lattice, all rotations and reflections, all requested numbers of points, all libraries that do what they are documented to do", "why_tests_cant": "a lattice has infinitely many bases; the whole search, including which candidates are compared and which is kept on ties, must run the same way for all of them", "anchors": ["src/find_kgrids.f90:find_grid", "src/grid_utils.f90:compare_grids", "src/niggli.f90:id_cell"]}
{"id": "C103", "title": "What the density keywords guarantee about the grid found", "statement": "The grid that the program finds fits the wish in KPGEN, last one counting. NKPTS=n or KPPRA=m: at least n points, or m for each atom. KPDENSITY=d: at least two thirds of the density d. KSPACING=s: neighbouring points are at most 1.3 s apart, and the grid is spanned by vectors of at most 2.41 s (1.3 s for cubic lattices). RMIN=r: no two points of the real-space lattice of the grid are closer than 0.37 r (0.77 r for cubic lattices). For triclinic lattices half of the points, a third of the density, 1.63 s, 3.04 s and 0.29 r. No grid whose real-space points are all at least r apart has fewer points than RMIN=r makes the program ask for; but the grid found may have two points closer than r.", "quantifier": "all crystals whose lattice is recognised, all values of the keywords, all settings of the other keywords, all libraries that do what they are documented to do", "why_tests_cant": "the distances depend on the lattice and on the grid chosen among all candidates; bounds that hold for every lattice need a theorem about reduced bases", "anchors": ["README.md", "src/control_file.f90:get_inputs", "src/find_kgrids.f90:find_grid", "src/grid_utils.f90:compare_grids"]}
{"id": "C104", "title": "No symmetric grid is missed", "statement": "Take any set of k-points that is a lattice, contains the reciprocal lattice of the crystal with n points in each of its cells, and is mapped to itself by every rotation and reflection that maps the crystal lattice to itself. It is the grid of exactly one of the supercells that the program makes for n points; and all grids that the program makes are of this kind.", "quantifier": "all crystals whose lattice is recognised, all numbers of points n, all such grids; the Python package in exact mode and the Fortran program", "why_tests_cant": "a symmetric grid is described by infinitely many bases, and the claim is that none of all possible grids, for all n, is left out or made twice", "anchors": ["support/python_dev/opf_python/universal.py:find_supercells", "src/find_kgrids.f90:find_grid", "src/grid_utils.f90:transform_supercell"]}
{"id": "C105", "title": "The grid is the best of the candidates", "statement": "By default the program returns, among the symmetric grids with one of the first five possible numbers of points from the requested number on, one with the smallest ratio of irreducible points to all points; with MIN_IRR_KPTS=TRUE one with the fewest irreducible points. (False of the code by default: up to 500 requested points it always takes the fewest irreducible points.)", "quantifier": "all crystals with a cubic lattice that is recognised, without a shift, all settings, all symmetric grids that compete", "why_tests_cant": "the claim compares the answer with every symmetric grid of the crystal, not only with those the program has looked at", "anchors": ["README.md", "src/find_kgrids.f90:find_grid", "src/grid_utils.f90:grid_selection", "src/control_file.f90:get_inputs"]}
{"id": "C106", "title": "The supercells offered do not depend on the cell chosen", "statement": "find_supercells of the Python package returns the same supercells, seen as lattices in space, for any two cells of one crystal lattice, also if one description is rotated, mirrored or in another unit of length: to each supercell of one list corresponds exactly one of the other. In search mode they are even returned in the same order, unless the lattice is triclinic.", "quantifier": "all pairs of cells of one lattice whose class is recognised, all numbers of points, exact mode and search mode, exact numbers or binary64 rounding in the generators", "why_tests_cant": "a lattice has infinitely many cells; each is reduced by another sequence of steps and the supercells are written in the vectors of the user's cell", "anchors": ["support/python_dev/opf_python/universal.py:find_supercells", "support/python_dev/opf_python/universal.py:transform_supercells", "support/python_dev/opf_python/pyniggli.py:reduced_cell"]}
{"id": "C107", "title": "No wider grid is better", "statement": "For a lattice that is neither cubic nor triclinic the program returns a symmetric grid with at least the requested number of points and a packing fraction of at least 0.3. Take any number of points in the search range of the lattice for which there is more than one symmetric grid, or the number of the grid returned, and take of the symmetric grids with that number and a packing fraction of at least 0.3 one whose points are farthest apart. It does not have fewer irreducible points than the grid returned, or, if more than 500 points are asked for without MIN_IRR_KPTS, not a smaller ratio of irreducible points to all points.", "quantifier": "all crystals whose lattice is recognised and neither cubic nor triclinic, without a shift, all settings, all such numbers of points and grids", "why_tests_cant": "the claim compares the answer with all symmetric grids of many numbers of points, each of which has infinitely many bases and is compared by a distance in space", "anchors": ["src/find_kgrids.f90:find_grid", "src/grid_utils.f90:compare_grids", "src/grid_utils.f90:grid_selection"]}
{"id": "C108", "title": "The shifts tried are those that keep the symmetry", "statement": "For a primitive lattice that is given by vectors along its axes, the shifts that the program tries of its own accord are exactly the shifts (with components between 0 and 1) for which every rotation or reflection of the lattice maps the shifted regular grid to itself.", "quantifier": "all orthorhombic, tetragonal, hexagonal, monoclinic, cubic and triclinic primitive lattices with the vectors in any order, all regular grids that have the symmetry of the lattice without a shift, all shifts", "why_tests_cant": "Ranges over all lattices, all shifts and all symmetries; which shifts are tried depends on which of the lengths agree.", "anchors": ["src/find_kgrids.f90:get_offsets", "src/find_kgrids.f90:find_grid"]}
{"id": "C109", "title": "Which grid is taken for a triclinic lattice", "statement": "For a triclinic lattice let n be the number of points asked for and m the smallest factor for which n / m^3, rounded down, is at most 100. The program returns a grid of the cell that is m times as large in every direction, with a number of points of that cell that is at least n / m^3, and with a packing fraction of at least 0.3. No grid of that larger cell with fewer points, from n / m^3 on, has a packing fraction of 0.3; and of those with the same number of points whose points are farthest apart none has fewer irreducible points. As long as the search runs, no grid with a number of points it has passed is packed densely enough.", "quantifier": "all crystals whose lattice is recognised as triclinic, without a shift, all settings, all grids of the larger cell", "why_tests_cant": "the claim compares the answer with all grids of a range of numbers of points, each of which has infinitely many bases", "anchors": ["src/find_kgrids.f90:find_grid", "src/find_kgrids.f90:get_kpd_tric", "src/grid_utils.f90:compare_grids", "src/grid_utils.f90:grid_selection"]}
{"id": "C110", "title": "No shift that is tried is better", "statement": "The grid the program returns has a shift, the one of the line SHIFT or one of those tried for the lattice, and it is compared with shifted grids too. For a lattice that is neither cubic nor triclinic the widest grids of C107 have, with any shift that is tried and has the symmetries of the crystal, not fewer irreducible points than the grid returned (or not a smaller ratio, above 500 points). For a triclinic lattice the same holds of the grids of C109. Without a line SHIFT none of these grids is better unshifted. For a cubic lattice without a line SHIFT no candidate of C105, shifted by half a step along any of the three vectors of any basis, is better.", "quantifier": "all crystals whose lattice is recognised, all settings with or without a shift, all such grids and shifts", "why_tests_cant": "the claim compares the answer with all grids of many numbers of points and all their shifts, in every basis", "anchors": ["src/find_kgrids.f90:find_grid", "src/find_kgrids.f90:get_offsets", "src/grid_utils.f90:grid_selection", "src/control_file.f90:get_inputs"]}
{"id": "C111", "title": "Up to which number of points a cubic lattice gets a grid", "statement": "For a cubic lattice the program returns a grid for every requested number of points up to 21882096 (face centred) or 4499456 (simple and body centred), and for no larger number: there it always stops because it inverts the zero matrix. A grid that is returned has all symmetries and at least the requested number of points.", "quantifier": "all three cubic classes, all numbers of points, offsets, settings, both roundings of the cube root, all k-point libraries", "why_tests_cant": "The limit comes from the length of a table of cubes that the program tries; a test covers a few numbers of points, not that each one below the limit has five candidates and none above it has.", "anchors": ["src/find_kgrids.f90:find_grid", "src/find_kgrids.f90:get_kpd_cubic"]}
{"id": "C112", "title": "Crystals whose coordinates are rounded", "statement": "The lattice vectors of POSCAR are decimals, so the crystal that is meant (say a hexagonal one, with a square root of 3) has symmetries that the vectors in the file do not have exactly. If the vectors are recognised as those of the crystal that is meant, which is so when they are close enough to it for the tolerance, the grid returned, in fractions of the reciprocal vectors as it is written to KPOINTS, is for the crystal that is meant commensurate, has all its point symmetries and (except for triclinic lattices) at least the number of points asked for.", "quantifier": "all input files, all real crystals, all vectors recognised as theirs, all lattice classes, all libraries that count the symmetries of the crystal that is meant and reduce bases", "why_tests_cant": "the claim is about all symmetries of all crystals in a continuum, at all roundings of the coordinates", "anchors": ["src/driver.f90", "src/find_kgrids.f90:find_grid", "src/niggli.f90:id_cell", "src/grid_utils.f90:transform_supercell", "src/control_file.f90:read_POSCAR"]}
{"id": "C113", "title": "Rounded coordinates and rounded arithmetic do not change the class", "statement": "Take a crystal whose exact lattice vectors may be irrational, type them with a finite number of decimals, and compute with rounded numbers. If the tolerance is larger than the errors this causes and smaller than the differences in the exact metric, then the cell found is the Niggli cell of the exact crystal, its class is the class of the exact crystal, and the symmetries attributed to it are exactly the point symmetries of the exact crystal. A cell that is, up to such errors, already the Niggli cell is left unchanged and gets its class.", "quantifier": "all real lattices, all cells close to them, all arithmetics with an absolute error bound (in particular every rounding to binary64), all tolerances between the errors and the gap", "why_tests_cant": "the claim is about all rounding errors of all operations of the reduction and of the search for the class, for a continuum of lattices; a test sees one rounding of one cell", "anchors": ["src/niggli.f90:reduce_cell", "src/niggli.f90:id_cell", "src/niggli.f90:condition_check"]}
{"id": "C114", "title": "Numbers in the input files are read as they are written", "statement": "Integers, real numbers and triples of real numbers in POSCAR and KPGEN may be written in any decimal notation: with a sign, leading zeros, a decimal point anywhere, an exponent with e, E, d or D or without a letter, and any number of blanks before, between and after them. They are read as the numbers they stand for, up to the rounding of real numbers, and words that are not numbers are not read. A POSCAR file in this notation is read as it is written.", "quantifier": "all lines, all words, all files, all roundings", "why_tests_cant": "there are infinitely many notations of a number and combinations of blanks", "anchors": ["src/control_file.f90:read_POSCAR", "src/control_file.f90:get_inputs", "src/control_file.f90:parse_line_for_numbers"]}
{"id": "C115", "title": "Rounding in the change of basis does not change the supercell", "statement": "The change of basis from the stored basis to the user's cell rounds a matrix that is computed in floating point to integers. If the library's matrix inverse is accurate to 10^-12, these integers are exactly the entries of Co^-1 H Co for every class with a stored basis and every H with entries up to a million; so the supercell has exactly det H times the volume of the cell. For other bases (the user's own, for triclinic cells) the same holds whenever an explicit bound on the error is below one half. The supercell returned differs from the exact one by at most an explicit bound.", "quantifier": "all matrices H, all classes, all roundings to nearest, all inverses within the stated accuracy", "why_tests_cant": "the product of five matrices must be right to one half for every H and every rounding of the operations", "anchors": ["src/grid_utils.f90:transform_supercell"]}
{"id": "C116", "title": "The brute force program works on what its input file says", "statement": "For every struct_enum.in file in the documented layout (title, bulk or surf in any mixture of capitals, three vectors, the number of labels, the sites with their labels separated by slashes, an optional list of equivalencies, the range of volumes, the tolerance, full or part, optional concentrations; numbers in any usual notation, comment lines and blank lines anywhere, comments behind the sites) the program reads exactly the numbers of the file, and writes one line for each volume from 1 to the last volume of the file that has symmetric supercells of the lattice in the file, with their number. The output depends on nothing in the file but the vectors and the last volume.", "quantifier": "all files in that layout, all roundings of the numbers that are read, all lattices of nonzero volume, all last volumes for which the comparison separates integers from fractions", "why_tests_cant": "The layouts, notations and positions of comments are unbounded in number; so are the lattices.", "anchors": ["support/brute_force/io_utils.f90: read_input, co_ca", "support/brute_force/driver.f90"]}
{"id": "C117", "title": "The brute force program refuses inputs that make no sense", "statement": "If the program accepts an input file then there are as many sites as the file says, all labels of each site are between 0 and k-1, no site has a label twice or no label at all, each label from 0 to k-1 is used by some site, and the concentrations, if given, are k ranges of fractions between 0 and 1.", "quantifier": "all texts whatever", "why_tests_cant": "It is about every possible text, and about the absence of a way around the checks.", "anchors": ["support/brute_force/io_utils.f90: read_input"]}
{"id": "C118", "title": "The stored canonical cells keep their symmetries when they are reduced in floating point", "statement": "The canonical cells that the Fortran program stores for the 42 classes of non-triclinic lattices are typed in with a few decimals, and the program reduces them at run time with the user's tolerance. For every tolerance from 9.9e-6 to 0.1, in binary64 whatever the rounding does within its accuracy, and in every arithmetic as accurate, the reduced canonical cell it works with has the symmetries for which the program's lists of symmetric supercells of that class are made.", "quantifier": "all classes, all tolerances in the range, all arithmetics with the accuracy of binary64 (all rounding errors), every way the comparisons near the tolerance may come out", "why_tests_cant": "The typed decimals are wrong by about the size of the smallest tolerances, so the course of the reduction depends on the tolerance and on single rounding errors; both range over a continuum.", "anchors": ["src/niggli.f90: id_cell, reduce_cell, the stored bases O"]}
{"id": "C119", "title": "The grid of the Fortran program is right in floating point", "statement": "Run in binary64 from coordinates that are those of a crystal up to typing errors, with a tolerance above the errors and below the gaps of the crystal's metric, the program's identification of the cell, both reductions and the change of basis, all of them with rounding, give a supercell that is, up to a bounded rounding error, made of lattice vectors of the crystal that is meant, with exactly the number of points that is reported and kept by all point symmetries of the crystal. The grid returned is, up to the accuracy with which the library inverts and reduces it, a grid that contains the reciprocal lattice of the crystal, has at least the number of points requested (for triclinic crystals as in C75) and all symmetries of the crystal.", "quantifier": "all crystals and all coordinates close to them, all tolerances in the range of C118, all rounding errors of binary64, all requested numbers of points up to a million, all libraries of known accuracy, all offsets", "why_tests_cant": "One wrong comparison or one wrongly rounded integer gives another supercell; that no rounding error can cause it for any crystal cannot be sampled.", "anchors": ["src/niggli.f90: id_cell, reduce_cell", "src/grid_utils.f90: transform_supercell", "src/find_kgrids.f90: find_grid", "src/sp_hnfs.f90"]}
{"id": "C120", "title": "The stored canonical cells can be reduced in floating point", "statement": "The Fortran program reduces the canonical cell of the class it has found with the user's tolerance, and stops with an error message if the reduction does not end within 1000 passes or if the result does not pass its own check. In binary64, whatever the rounding does within its accuracy, this never happens: for every class and every tolerance from 9.9e-6 to 0.1 the reduction of the canonical cell ends and its result passes the check.", "quantifier": "all classes, all tolerances in the range, all arithmetics with the accuracy of binary64 (all rounding errors), every way the comparisons near the tolerance may come out", "why_tests_cant": "The failures occur at single tolerances, equal to a difference of two typed lengths up to rounding; testing tolerances one by one misses them, and the rounding errors range over a continuum.", "anchors": ["src/niggli.f90: id_cell, reduce_cell, condition_check, the stored bases O"]}
{"id": "C121", "title": "In floating point, find_grid answers for the Niggli cell of a crystal", "statement": "find_grid is called with the Niggli cell of a crystal, its vectors typed with finitely many digits, and with a tolerance above the errors and below the differences in the metric of the crystal; all steps are carried out in binary64. Then it never stops with an error: it recognises the class of the crystal, its check of the number of symmetries is passed, and it returns a grid, or it is still searching (not cubic), and the grid is within the accuracy of the library of one that has all symmetries of the crystal and at least the number of points asked for (for triclinic crystals, as many as C75 says). Excepted are only the tolerances of C118 and C120.", "quantifier": "all crystals, all typing errors and rounding errors within the bounds, all tolerances between the errors and the gap and outside the exceptions, all numbers of points up to the ranges of the integers, all offsets, all libraries with the stated accuracy", "why_tests_cant": "Crystals, typing errors and rounding errors range over continua; a test shows the answer for one cell with one rounding.", "anchors": ["src/find_kgrids.f90: find_grid", "src/niggli.f90: id_cell, reduce_cell", "src/sp_hnfs.f90"]}
{"id": "C122", "title": "Rounding does not change the class that the Python code finds", "statement": "reduced_cell(U,eps) and niggli_id(U,eps) are called with a cell typed with finitely many digits, and compute in floating point. If the tolerance is above the errors and below the differences in the metric of the crystal that was meant, then: if reduced_cell returns, its matrix C takes the crystal's cell to the Niggli cell of the crystal, and niggli_id returns the Niggli class of the crystal, whose symmetries are the point symmetries of the crystal; only for class 31 with E = F it raises (C49). A cell that is, up to the typing errors, the Niggli cell of the crystal is returned unchanged.", "quantifier": "all crystals, all typing errors and rounding errors within the bounds, all tolerances between the errors and the gap, every arithmetic with the stated accuracy, binary64 among them", "why_tests_cant": "Crystals, typing errors and rounding errors range over continua; a test shows the answer for one cell with one rounding.", "anchors": ["support/python_dev/opf_python/pyniggli.py:reduced_cell", "support/python_dev/opf_python/niggli_lat_id.py:niggli_id"]}
{"id": "C123", "title": "find_supercells in floating point returns the symmetric supercells of the crystal that is meant", "statement": "find_supercells(U,kpt,exact) is called with a cell typed with finitely many digits, and everything it computes (the class, both reductions, the divisions in the generators, the change of basis, which is not rounded to integers) is computed in floating point. If the class and the reduction of the user's cell are right for the crystal that is meant (C122) and numpy's inverse is accurate, then: with exact=True it returns exactly one matrix for each sublattice of index kpt that is kept by all point symmetries of the crystal; otherwise it returns those of the volumes it should look at (C33, C35, C39). Each matrix is, up to an explicit bound on the error, a basis of its sublattice. The stored basis of each class is reduced, in floating point, to the cell the generators are written for.", "quantifier": "all crystals and cells that are recognised, all classes, all numbers of points up to 10^7 (10^14 for triclinic search), both modes, all roundings with the accuracy of binary64, all inverses of the stated accuracy", "why_tests_cant": "Cells and rounding errors range over continua, and the list must be complete for every number of points.", "anchors": ["support/python_dev/opf_python/universal.py:find_supercells", "support/python_dev/opf_python/universal.py:transform_supercells", "support/python_dev/opf_python/pyniggli.py:reduced_cell", "support/python_dev/opf_python/niggli_lat_id.py:niggli_id"]}
{"id": "C124", "title": "Rounding in the density keywords changes the number of points by at most one", "statement": "KPDENSITY=d, KSPACING=s and RMIN=r in KPGEN mean d(2 pi)^3/V, 1/(s^3 V) and r^3/(V sqrt 2) points for a crystal with cells of volume V. The program computes the number in floating point, from a cell that was rounded when it was read. The number it asks for is wrong by at most 1/2 plus an explicit tiny share of the number. So it is at most one off the nearest integer, equal to it unless the exact number is close to the middle between two integers, and (if it is not 0) at least two thirds of the exact number, but for the tiny error. It can be different from the number of exact arithmetic: for KSPACING=0.02 and a cell of 1 x 1 x 16 exact arithmetic gives 7813 and binary64 gives 7812.", "quantifier": "all cells and lattice parameters, all values of the three keywords, all arithmetics in which each operation has a relative error of at most u, binary64 among them, all inverses of a stated accuracy", "why_tests_cant": "cells, values and rounding errors range over continua; the errors of a determinant grow as the cell gets flatter", "anchors": ["src/control_file.f90:get_inputs", "README.md"]}
{"id": "C125", "title": "In floating point the Fortran program misses no symmetric grid", "statement": "In binary64, from coordinates that are those of a crystal up to typing errors, the supercells that the program makes for n points (up to a million) correspond one to one to the supercells of the crystal that is meant which have n points and are kept by all its point symmetries: each symmetric supercell is made exactly once, and every matrix that is made is one of them up to a bounded rounding error. The grids of these supercells are all the grids with n points that have the symmetry of the crystal, each once. For triclinic lattices all sublattices of index n are made.", "quantifier": "all crystals recognised within the gaps of their metric, all typing errors below the tolerance, all n, all roundings to binary64, all matrix inversions of the stated accuracy", "why_tests_cant": "crystals and rounding errors range over continua, and that nothing is missed is a statement about all symmetric sublattices", "anchors": ["src/grid_utils.f90:transform_supercell", "src/find_kgrids.f90:find_grid", "src/sp_hnfs.f90"]}
{"id": "C126", "title": "Rounding hardly changes which grids count as densely packed", "statement": "compare_grids computes the distance between the points of a grid and the share of space that its balls fill in floating point, from a reduced basis that has errors itself. If the reduced basis is right-handed and contains a shortest vector, the distance is right up to an explicit factor close to one, a grid is accepted if its balls fill 0.3 f of space, and only if they fill 0.3/f, where f is the product of the factors for the errors of the basis and of at most 21 roundings. A left-handed basis is never accepted. The grid that find_grid returns for a lattice that is neither cubic nor triclinic fills 0.3/f of space.", "quantifier": "all grids and bases, all arithmetics whose operations and square root have a relative error of at most u, binary64 among them, all errors of the basis that change lengths and volume by the stated factors", "why_tests_cant": "bases and rounding errors range over continua; the error of the determinant grows as the basis gets flatter", "anchors": ["src/grid_utils.f90:compare_grids", "src/find_kgrids.f90:find_grid"]}
{"id": "C127", "title": "Rounding does not change the choice by ratio", "statement": "find_grid chooses among the grids it found by the ratio of irreducible k-points to all k-points, a quotient in double precision. As long as no more than 2^26 k-points are tried, find_grid returns the same grid, shift and numbers as with exact ratios: quotients that differ are rounded to numbers in the same order, equal ones to the same number. With a little more than 2^27 points a grid with a larger ratio can be chosen.", "quantifier": "all cells that are recognised, all numbers of k-points up to the limit, all binary64 roundings to nearest, all libraries that do not count more irreducible points than points (in particular those that count by a group of symmetries), 32-bit or unbounded integers", "why_tests_cant": "pairs of counts whose quotients are neighbouring floating point numbers are rare and are not met by sampling", "anchors": ["src/find_kgrids.f90:find_grid"]}
{"id": "C128", "title": "With rounding, the grids kept have the longest shortest vectors", "statement": "For each number of k-points, the search keeps the grids whose smallest distance between points is the largest, and those for which it is the second largest, among the symmetric grids counted as packed densely enough; one of these is chosen, and none with the largest distance has fewer irreducible k-points with any of the shifts. This holds although the distances are computed in floating point from reduced bases with errors, so that grids with the same distance get different numbers: it is enough that the tolerance exceeds the errors and that distances which differ do so by more than the tolerance.", "quantifier": "all lists of grids, all computed bases within the error of the true ones, all arithmetics with a relative error, all tolerances between the error and the gap, all shifts", "why_tests_cant": "whether equal distances are rounded apart depends on the basis; a test sees the rounding of its own cells only", "anchors": ["src/grid_utils.f90:compare_grids", "src/grid_utils.f90:grid_selection"]}
{"id": "C129", "title": "What the search returns with every number rounded", "statement": "With the distances and the ratios in double precision, find_grid returns a grid with at least the requested number of k-points whose smallest distance between points is the largest or the second largest among the densely packed symmetric grids with this number of points, a shift that was offered and the number of irreducible k-points of this grid and shift. By the rule of the program it is at least as good as every grid with the largest smallest distance, with every shift, for every number of points in the range. For triclinic lattices the same holds for the scaled supercells with the first number of points for which a grid is found; for cubic lattices the result is the one of exact arithmetic.", "quantifier": "all lattice classes, all numbers of k-points up to 2^26, all binary64 roundings to nearest, all computed bases and square roots within their errors, all shifts, 32-bit or unbounded integers", "why_tests_cant": "rounding in any of the comparisons may change the grid returned for some lattice and density; a test runs a few of them", "anchors": ["src/find_kgrids.f90:find_grid", "src/grid_utils.f90:compare_grids", "src/grid_utils.f90:grid_selection"]}
{"id": "C130", "title": "Which grid find_grid returns for the crystal that is meant, in floating point", "statement": "For a crystal typed in with rounding errors, find_grid in double precision either goes on searching or returns a grid that, up to the rounding of its basis, is a symmetric grid of the crystal that is meant with at least the requested number of k-points; it is densely packed up to rounding, and its smallest distance between points is the largest or second largest among the densely packed symmetric grids with this number of points. By the rule of the program it is at least as good as every widest symmetric grid with any number of points in the range of the search and every shift. For a cubic crystal it always returns a grid if the k-points can be counted: up to the rounding of its basis a symmetric grid with one of the five smallest possible numbers of k-points, and by the rule of the program the best of the symmetric grids with these numbers and of all shifts. For a triclinic crystal the grid that is returned is, for some n and m, a symmetric grid with n points of the crystal enlarged m times, where n m^3 falls short of the requested number by less than m^3; it is the widest or second widest such grid up to rounding, and no widest one has fewer irreducible k-points with any shift.", "quantifier": "all crystals, all errors within the tolerance of the recognition, all numbers of k-points for which the integers fit, all roundings of binary64, all libraries within their errors, all shifts", "why_tests_cant": "the recognition of the cell, the supercells, the reduced bases, the packing fraction, the comparison and the choice all round; a test sees the outcome for a few crystals", "anchors": ["src/find_kgrids.f90:find_grid", "src/niggli.f90:id_cell", "src/grid_utils.f90:compare_grids", "src/grid_utils.f90:grid_selection", "src/sp_hnfs.f90"]}
