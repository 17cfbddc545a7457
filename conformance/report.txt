DIFFERENT sp_hnfs.f90 generators st_21 n=10: model 5 0 0 0 1 0 0 1 2 5 0 0 0 1 0 1 1 2 10 0 0 0 1 0 0 0 1 | recorded 1 0 0 0 5 0 0 5 10 1 0 0 0 5 0 5 5 10 2 0 0 0 5 0 0 0 5 25 0 0 0 1 0 0 1 2 25 0 0 0 1 0 1 1 2 50 0 0 0 1 0 0 0 1
sp_hnfs.f90 generators: 135 of 136 agree
niggli.f90 reduce_cell: 60 of 60 agree
niggli.f90 id_cell: 44 of 44 agree
niggli.f90 get_params: 16 of 16 agree
niggli.f90 find_C3: 2 of 2 agree
niggli.f90 find_C4: 4 of 4 agree
niggli.f90 get_sign: 3 of 3 agree
niggli.f90 condition_check: 14 of 14 agree
find_kgrids.f90 get_kpd_cubic: 4 of 4 agree
find_kgrids.f90 get_kpd_tric: 3 of 3 agree
sc_3, n=1..500: 18 supercells, recorded number 18, 0 not in the recorded list (sc_1_500_srHNFs.out, 18 entries)
bcc_5, n=1..500: 18 supercells, recorded number 18, 0 not in the recorded list (bcc_1_500_srHNFs.out, 18 entries)
fcc_1, n=1..500: 15 supercells, recorded number 15, 0 not in the recorded list (fcc_1_500_srHNFs.out, 15 entries)
stet_11, n=1..500: 1760 supercells, recorded number 1760, 0 not in the recorded list (stet_11_1_500_srHNFs.out, 1760 entries)
stet_21, n=1..500: 1760 supercells, recorded number 1760, 0 not in the recorded list (stet_21_1_500_srHNFs.out, 1760 entries)
rhom_9_24, n=1..500: 867 supercells, recorded number 867, 0 not in the recorded list (rhom_9_1_500_srHNFs.out, 867 entries)
rhom_4_2, n=1..500: 867 supercells, recorded number 867, 0 not in the recorded list (rhom_2_1_500_srHNFs.out, 867 entries)
hex_12, n=1..500: 1047 supercells, recorded number 1047, 0 not in the recorded list (hex_12_1_500_srHNFs.out, 1047 entries)
hex_22, n=1..500: 1047 supercells, recorded number 1047, 0 not in the recorded list (hex_22_1_500_srHNFs.out, 1047 entries)
body_tet_6_7_15_18, n=1..500: 1162 supercells, recorded number 1162, 0 not in the recorded list (body_tet_6_1_500_srHNFs.out, 1162 entries)
so_32, n=1..500: 33870 supercells, recorded number 33870, 0 not in the recorded list (so_1_500_srHNFs.out, 33870 entries)
base_ortho_38_13, n=1..500: 19534 supercells, recorded number 19534, 0 not in the recorded list (base_ortho_38_1_500_srHNFs.out, 19534 entries)
base_ortho_23, n=1..500: 19534 supercells, recorded number 19534, 0 not in the recorded list (base_ortho_23_1_500_srHNFs.out, 19534 entries)
base_ortho_40, n=1..500: 19534 supercells, recorded number 19534, 0 not in the recorded list (base_ortho_40_1_500_srHNFs.out, 19534 entries)
base_ortho_36, n=1..500: 19534 supercells, recorded number 19534, 0 not in the recorded list (base_ortho_36_1_500_srHNFs.out, 19534 entries)
body_ortho_19, n=1..500: 15972 supercells, recorded number 15972, 0 not in the recorded list (body_ortho_19_1_500_srHNFs.out, 15972 entries)
body_ortho_8, n=1..500: 15972 supercells, recorded number 15972, 0 not in the recorded list (body_ortho_8_1_500_srHNFs.out, 15972 entries)
body_ortho_42, n=1..500: 15972 supercells, recorded number 15972, 0 not in the recorded list (body_ortho_42_1_500_srHNFs.out, 15972 entries)
face_ortho_26, n=1..500: 15246 supercells, recorded number 15246, 0 not in the recorded list (face_ortho_26_1_500_srHNFs.out, 15246 entries)
face_ortho_16, n=1..500: 15246 supercells, recorded number 15246, 0 not in the recorded list (face_ortho_16_1_500_srHNFs.out, 15246 entries)
sm_33, n=1..150: 52663 supercells, recorded number 52663, 0 not in the recorded list (sm_33_1_150_srHNFs.out, 52663 entries)
sm_35, n=1..150: 52663 supercells, recorded number 52663, 0 not in the recorded list (sm_35_1_150_srHNFs.out, 52663 entries)
base_mono_28, n=1..200: 53842 supercells, recorded number 53842, 0 not in the recorded list (base_mono_28_1_200_srHNFs.out, 53842 entries)
base_mono_20_25, n=1..200: 53842 supercells, recorded number 53842, 0 not in the recorded list (base_mono_20_1_200_srHNFs.out, 53842 entries)
base_mono_29_30, n=1..200: 53842 supercells, recorded number 53842, 0 not in the recorded list (base_mono_29_1_200_srHNFs.out, 53842 entries)
base_mono_10_14_17_27_37_39_41, n=1..200: 53842 supercells, recorded number 53842, 0 not in the recorded list (base_mono_37_1_200_srHNFs.out, 53842 entries)
base_mono_43, n=1..200: 53842 supercells, recorded number 53842, 0 not in the recorded list (base_mono_43_1_200_srHNFs.out, 53842 entries)
DIFFERENT find_supercells ([[1.0, 0.05875978, 0.83401491], [1.0, -3.86782784, -0.64308297], [1.0, -0.19093194, 2.80906806]], 1, False) : model -1 -2 -1 0 -1 0 0 1 1|1 0 0 0 1 0 0 0 1|1000000000000.000000e-12 1224744870000.000000e-12 -165985090000.000000e-12 1000000000000.000000e-12 -1224744870000.000000e-12 -1643082970000.000000e-12 10000000 | recorded [[[0.9999999999999993, -0.10722530999999835, 0.6680298200000002], [0.9999999999999998, -5.510910809999999, -2.286165939999999], [0.9999999999999997, 1.61813612, 4.61813612]], [[0.9999999999999997, 0.0
Python niggli_id: 48 of 48 assertions agree
Python reduced_cell: 17 of 17 assertions agree
Python _find_C3: 2 of 2 assertions agree
Python _find_C4: 4 of 4 assertions agree
Python _niggli_check: 14 of 14 assertions agree
Python find_volumes: 10 of 10 assertions agree
Python find_supercells: 29 of 30 assertions agree

Notes on the two differences:
- st_21 n=10: the recorded matrices have determinant 50, so the input file of that case (10) is not the one the output was made with.
- find_supercells, class 34: the 77 lattices are the same, in another order and other bases. HISTORY.md:131 records a change of the reference basis of class 34; the recorded file does not follow from the present one.
