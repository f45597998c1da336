{
 "claims": [
  {
   "property": "C01",
   "status": "proved",
   "theorems": [
    "CC.C01_singles",
    "CC.C01_doubles",
    "CC.C01_ccsd_stanton_eq_simple",
    "CC.C01_simple_singles_textbook",
    "CC.C01_simple_doubles_textbook",
    "CC.C01_stanton_textbook"
   ],
   "note": "Both implementations equal the textbook spin-orbital CCSD residuals (Spec.singles, Spec.doubles) for arbitrary index types, antisymmetric T2 and integrals with the two antisymmetries."
  },
  {
   "property": "C02",
   "status": "proved",
   "theorems": [
    "CC.C02_ccd_stanton_eq_simple",
    "CC.C02_ccsd_simple_T1_zero",
    "CC.C02_ccsd_stanton_T1_zero",
    "CC.C02_ccd_textbook"
   ],
   "note": "Both CCD routines agree, and equal the doubles part of CCSD at T1 = 0."
  },
  {
   "property": "C03",
   "status": "proved",
   "theorems": [
    "CC.C03_ccsd_simple",
    "CC.C03_ccsd_stanton",
    "CC.C03_ccd_simple",
    "CC.C03_ccd_stanton",
    "CC.C03_lccsd_simple",
    "CC.C03_lccd_simple",
    "CC.C03_ccd_ladder_simple",
    "CC.C03_ccd_ring_pair",
    "CC.C03_ccd_ring_not_anti",
    "CC.C03_iterates"
   ],
   "note": "All spin-orbital T2 updates except the ring-only routine preserve antisymmetry, hence so do all iterates; for the ring-only routine only pair symmetry holds and a counterexample to antisymmetry is proved."
  },
  {
   "property": "C04",
   "status": "proved",
   "theorems": [
    "CC.C04_lccsd_affine",
    "CC.C04_ccsd_eq_lccsd_add",
    "CC.C04_ccd_eq_lccd_add",
    "CC.C04_lccd_affine",
    "CC.C04_lccsd_T1_zero"
   ],
   "note": ""
  },
  {
   "property": "C05",
   "status": "proved",
   "theorems": [
    "CC.C05_opt_eq_simple",
    "CC.C05_stanton_eq_simple",
    "CC.C05_opt_int_eq_simple"
   ],
   "note": ""
  },
  {
   "property": "C06",
   "status": "proved",
   "theorems": [
    "CC.C06_expansion",
    "CC.C06_lagrangian_from_code",
    "CC.C06_lambda_is_gradient",
    "CC.C06_all_implementations",
    "CC.C06_lambda_zero_iff_stationary"
   ],
   "note": ""
  },
  {
   "property": "C07",
   "status": "proved",
   "theorems": [
    "CC.C07_ccd_lambda",
    "CC.C07_ccd_lambda_is_gradient"
   ],
   "note": ""
  },
  {
   "property": "C08",
   "status": "proved",
   "theorems": [
    "CC.C08_simple",
    "CC.C08_all",
    "CC.C08_ccd",
    "CC.C08_iterates"
   ],
   "note": ""
  },
  {
   "property": "C09",
   "status": "proved",
   "theorems": [
    "CC.C09_1rdm_ba",
    "CC.C09_1rdm_ji",
    "CC.C09_2rdm_ciab",
    "CC.C09_2rdm_jkai",
    "CC.C09_1rdm_ai",
    "CC.C09_2rdm_cdab",
    "CC.C09_2rdm_bcai",
    "CC.C09_2rdm_bjai",
    "CC.C09_2rdm_abij",
    "CC.C09_2rdm_kaij",
    "CC.C09_2rdm_klij"
   ],
   "note": ""
  },
  {
   "property": "C10",
   "status": "proved",
   "theorems": [
    "CC.C10_densities_give_lagrangian"
   ],
   "note": ""
  },
  {
   "property": "C11",
   "status": "proved",
   "theorems": [
    "CC.C11_cdab",
    "CC.C11_ciab",
    "CC.C11_bcai",
    "CC.C11_abij",
    "CC.C11_jkai",
    "CC.C11_kaij",
    "CC.C11_klij"
   ],
   "note": ""
  },
  {
   "property": "C12",
   "status": "proved",
   "theorems": [
    "CC.Num.C12_ucc_energy_numeric",
    "CC.C12_rcc_energy",
    "CC.C12_ucc_energy"
   ],
   "note": ""
  },
  {
   "property": "C13",
   "status": "proved",
   "theorems": [
    "CC.Num.C13_uccsd_numeric",
    "CC.C13_singles",
    "CC.C13_doubles",
    "CC.C13_uccsd",
    "CC.C13_uccsd_extract"
   ],
   "note": ""
  },
  {
   "property": "C14",
   "status": "proved",
   "theorems": [
    "CC.C14_singles",
    "CC.C14_doubles",
    "CC.C14_rccsd",
    "CC.C14_rccsd_iterates"
   ],
   "note": ""
  },
  {
   "property": "C15",
   "status": "proved",
   "theorems": [
    "CC.Num.C15_uccsd_lambda_numeric",
    "CC.C15_singles",
    "CC.C15_doubles",
    "CC.C15_uccsd_lambda",
    "CC.C15_uccsd_lambda_extract"
   ],
   "note": ""
  },
  {
   "property": "C16",
   "status": "proved",
   "theorems": [
    "CC.C16_singles",
    "CC.C16_doubles",
    "CC.C16_rccsd_lambda"
   ],
   "note": ""
  },
  {
   "property": "C17",
   "status": "proved",
   "theorems": [
    "CC.Num.C17_ba_numeric",
    "CC.Num.C17_ji_numeric",
    "CC.Num.C17_ai_numeric",
    "CC.C17_ba",
    "CC.C17_ji",
    "CC.C17_ai"
   ],
   "note": ""
  },
  {
   "property": "C18",
   "status": "proved",
   "theorems": [
    "CC.Num.C18_ciab_numeric",
    "CC.Num.C18_jkai_numeric",
    "CC.Num.C18_cdab_numeric",
    "CC.Num.C18_bjai_numeric",
    "CC.Num.C18_klij_numeric",
    "CC.Num.C18_bcai_numeric",
    "CC.Num.C18_kaij_numeric",
    "CC.Num.C18_abij_numeric",
    "CC.C18_ciab",
    "CC.C18_jkai",
    "CC.C18_cdab",
    "CC.C18_bjai",
    "CC.C18_klij",
    "CC.C18_bcai",
    "CC.C18_kaij",
    "CC.C18_abij"
   ],
   "note": ""
  },
  {
   "property": "C19",
   "status": "proved",
   "theorems": [
    "CC.C19_1rdm_ba",
    "CC.C19_1rdm_ji",
    "CC.C19_1rdm_ai",
    "CC.C19_2rdm_ciab",
    "CC.C19_2rdm_jkai",
    "CC.C19_2rdm_cdab",
    "CC.C19_2rdm_klij",
    "CC.C19_2rdm_bcai",
    "CC.C19_2rdm_kaij",
    "CC.C19_2rdm_bjai",
    "CC.C19_2rdm_abij"
   ],
   "note": ""
  },
  {
   "property": "C20",
   "status": "proved",
   "theorems": [
    "CC.Num.C20_T1_round_trip",
    "CC.Num.C20_T1_mixed_zero",
    "CC.Num.C20_T1_reassemble",
    "CC.Num.C20_F_round_trip",
    "CC.Num.C20_F_mixed_zero",
    "CC.Num.C20_F_reassemble",
    "CC.Num.C20_F_to_spatial_sum",
    "CC.Num.C20_T1_to_spatial_sum"
   ],
   "note": ""
  },
  {
   "property": "C21",
   "status": "proved",
   "theorems": [
    "CC.Num.C21_T2_round_trip",
    "CC.Num.C21_T2_to_spin_anti",
    "CC.Num.C21_T2_reassemble",
    "CC.Num.C21_int_round_trip",
    "CC.Num.C21_D2_to_spin",
    "CC.Num.C21_T2_to_spatial_sum",
    "CC.Num.C21_D2_to_spin_sum"
   ],
   "note": ""
  },
  {
   "property": "C22",
   "status": "proved",
   "theorems": [
    "CC.Num.C22_int_to_spin_eq_int_to_spin2",
    "CC.Num.C22_int_to_spin_elements",
    "CC.Num.C22_int_to_spin2_anti",
    "CC.Num.C22_int_to_spin_anti",
    "CC.Num.C22_int_to_spin_sum",
    "CC.Num.C22_int_to_spatial_sum"
   ],
   "note": ""
  },
  {
   "property": "C23",
   "status": "proved",
   "theorems": [
    "CC.C23_ump2_energy",
    "CC.C23_cc_energy_split"
   ],
   "note": ""
  },
  {
   "property": "C24",
   "status": "proved",
   "theorems": [
    "CC.Num.C24_full_blocks",
    "CC.Num.C24_reconstruct",
    "CC.Num.C24_unique",
    "CC.Num.C24_nine",
    "CC.Num.C24_same_errors"
   ],
   "note": ""
  },
  {
   "property": "C25",
   "status": "proved",
   "theorems": [
    "CC.Num.C25_block_diag",
    "CC.Num.C25_mul",
    "CC.Num.C25_transpose"
   ],
   "note": ""
  },
  {
   "property": "C26",
   "status": "proved",
   "theorems": [
    "CC.Num.C26_values",
    "CC.Num.C26_exchange",
    "CC.Num.C26_divide",
    "CC.Num.C26_spin",
    "CC.Num.C26_divide_spin"
   ],
   "note": ""
  },
  {
   "property": "C27",
   "status": "proved",
   "theorems": [
    "CC.Num.C27_T",
    "CC.Num.C27_L",
    "CC.Num.C27_T2_spatial",
    "CC.Num.C27_ft",
    "CC.Num.C27_F",
    "CC.Num.C27_base",
    "CC.Num.C27_I_anti",
    "CC.Num.C27_integrals",
    "CC.Num.C27_I",
    "CC.Num.C27_Itot",
    "CC.Num.C27_Ifull",
    "CC.Num.C27_I_values",
    "CC.Num.C27_I_anti_values",
    "CC.Num.C27_Itot_value",
    "CC.Num.C27_TL_values",
    "CC.Num.C27_ft_D"
   ],
   "note": ""
  },
  {
   "property": "C28",
   "status": "proved",
   "theorems": [
    "Ft.C28_complement",
    "Ft.C28_range",
    "Ft.C28_particle_hole",
    "Ft.C28_half",
    "Ft.C28_vectors",
    "Ft.C28_vectors_complement",
    "Ft.C28_accuracy"
   ],
   "note": ""
  },
  {
   "property": "C29",
   "status": "proved",
   "theorems": [
    "Ft.C29_branches",
    "Ft.C29_almost_antitone",
    "Ft.C29_not_antitone"
   ],
   "note": ""
  },
  {
   "property": "C30",
   "status": "proved",
   "theorems": [
    "Ft.C30_grand_potential",
    "Ft.C30_grand_potential_error",
    "Ft.C30_derivative",
    "Ft.C30_occupation",
    "Ft.C30_derivative_error",
    "Ft.C30_vectors"
   ],
   "note": ""
  },
  {
   "property": "C31",
   "status": "proved",
   "theorems": [
    "CI.C31_operator",
    "CI.C31_occupation",
    "CI.C31_sign",
    "CI.C31_conserved",
    "CI.C31_inverse",
    "CI.C31_equal_indices",
    "CI.C31_out_of_range"
   ],
   "note": ""
  },
  {
   "property": "C32",
   "status": "proved",
   "theorems": [
    "CI.C32_singles",
    "CI.C32_doubles",
    "CI.C32_triples",
    "CI.C32_default",
    "CI.C32_count",
    "CI.C32_level"
   ],
   "note": ""
  },
  {
   "property": "C33",
   "status": "proved",
   "theorems": [
    "CI.C33_ucis",
    "CI.C33_ucisd",
    "CI.C33_ucisdt",
    "CI.C33_reference",
    "CI.C33_gcis",
    "CI.C33_gcisd",
    "CI.C33_gcisdt",
    "CI.C33_odd",
    "CI.C33_ucisdtq",
    "CI.C33_gcisdtq",
    "CI.C33_vcis",
    "CI.C33_vcisd"
   ],
   "note": ""
  },
  {
   "property": "C34",
   "status": "partial",
   "theorems": [
    "CI.C34_members",
    "CI.C34_duplicates",
    "CI.C34_refuted",
    "CI.C34_incomplete",
    "CI.C34_sound_partial",
    "CI.C34_attribute_error",
    "CI.C34_multiplicity"
   ],
   "note": "The claim is false for the code: q_strings loops over occupation values instead of indices, so it lists each quadruple it has exactly m(n-m) times (C34_multiplicity; C34_refuted, an exact characterisation of when the list is right) and misses some with five or more electrons (C34_incomplete). Proved: exact membership and soundness."
  },
  {
   "property": "C35",
   "status": "proved",
   "theorems": [
    "CI.C35_ci_matrixel",
    "CI.C35_gci_partial",
    "CI.C35_gci_refuted"
   ],
   "note": "ci_matrixel: proved for all determinants of equal particle numbers. gci_matrixel is a second entry point; it loses a sign for some double differences: proved up to that sign (C35_gci_partial), with the wrong sign exhibited for all integrals (C35_gci_refuted)."
  },
  {
   "property": "C36",
   "status": "proved",
   "theorems": [
    "CI.C36_ci_symmetric",
    "CI.C36_gci_symmetric"
   ],
   "note": ""
  },
  {
   "property": "C37",
   "status": "proved",
   "theorems": [
    "CI.C37_makeCfromT_1",
    "CI.C37_makeCfromT_2",
    "CI.C37_makeCfromT_3",
    "CI.C37_gmakeCfromT_1",
    "CI.C37_gmakeCfromT_2",
    "CI.C37_gmakeCfromT_3",
    "CI.C37_errors",
    "CI.C37_g_errors",
    "CI.C37_g_default_refuted"
   ],
   "note": "makeCfromT and gmakeCfromT proved for the reference and orders 1-3 without size bound (gmakeCfromT when given the occupation of the reference of the basis; its default occupation always raises, C37_g_default_refuted)."
  },
  {
   "property": "C38",
   "status": "proved",
   "theorems": [
    "CI.C38_s",
    "CI.C38_d",
    "CI.C38_s_equal",
    "CI.C38_sa",
    "CI.C38_sb",
    "CI.C38_da",
    "CI.C38_db",
    "CI.C38_sasb",
    "CI.C38_H_matrix",
    "CI.C38_gH_matrix",
    "CI.C38_H",
    "CI.C38_linear"
   ],
   "note": ""
  },
  {
   "property": "C39",
   "status": "proved",
   "theorems": [
    "Eri.C39_get_chem",
    "Eri.C39_get_phys",
    "Eri.C39_get_phys_anti",
    "Eri.C39_get_chem_anti_refuted",
    "Eri.C39_get_chem_anti",
    "Eri.C39_get_chemu",
    "Eri.C39_get_phys_antiu",
    "Eri.C39_get_chemu_all",
    "Eri.C39_get_physu_all",
    "Eri.C39_anti",
    "Eri.C39_get_physu_all_gen",
    "Eri.C39_get_phys_gen"
   ],
   "note": "All molecular and gamma-point functions; get_chem_anti passes its first orbital set twice: refuted (C39_get_chem_anti_refuted) and proved when the first two sets coincide (C39_get_chem_anti)."
  },
  {
   "property": "C40",
   "status": "proved",
   "theorems": [
    "Eri.C40_eri_blocks",
    "Eri.C40_partition",
    "Eri.C40_code",
    "Eri.C40_antisymmetric"
   ],
   "note": "All codes and occupations; link to the antisymmetry hypotheses of the coupled-cluster theorems in C40_antisymmetric."
  },
  {
   "property": "C41",
   "status": "proved",
   "theorems": [
    "Eri.C41_get_chem_solk",
    "Eri.C41_get_phys_solk",
    "Eri.C41_phys_chem",
    "Eri.C41_anti",
    "Eri.C41_get_solk_integrals",
    "Eri.C41_assert",
    "Eri.C41_orders",
    "Eri.C41_h1_hermitian"
   ],
   "note": "That kconserv holds the momentum-conserving index is an assumption on PySCF (structure Conserves)."
  },
  {
   "property": "C42",
   "status": "proved",
   "theorems": [
    "Heap.C42_cc_energy_d",
    "Heap.C42_cc_energy_s1",
    "Heap.C42_cc_energy_s2",
    "Heap.C42_cc_energy_s2_a",
    "Heap.C42_cc_energy",
    "Heap.C42_mp2_energy",
    "Heap.C42_ucc_energy",
    "Heap.C42_rcc_energy",
    "Heap.C42_ump2_energy",
    "Heap.C42_lccd_simple",
    "Heap.C42_lccsd_simple",
    "Heap.C42_ccd_simple",
    "Heap.C42_ccd_ladder_simple",
    "Heap.C42_ccd_ring_simple",
    "Heap.C42_ccsd_simple",
    "Heap.C42_ccsd_stanton",
    "Heap.C42_uccsd_stanton",
    "Heap.C42_rccsd_stanton",
    "Heap.C42_ccd_stanton",
    "Heap.C42_lambda_int",
    "Heap.C42_ccd_lambda_simple",
    "Heap.C42_ccsd_lambda_opt",
    "Heap.C42_ccsd_lambda_stanton",
    "Heap.C42_ccsd_lambda_opt_int",
    "Heap.C42_uccsd_lambda_opt",
    "Heap.C42_rccsd_lambda_opt",
    "Heap.C42_ccsd_lambda_simple",
    "Heap.C42_ccsd_1rdm_ba",
    "Heap.C42_ccsd_1rdm_ji",
    "Heap.C42_ccsd_1rdm_ai",
    "Heap.C42_ccsd_2rdm_cdab",
    "Heap.C42_ccsd_2rdm_ciab",
    "Heap.C42_ccsd_2rdm_bcai",
    "Heap.C42_ccsd_2rdm_bjai",
    "Heap.C42_ccsd_2rdm_abij",
    "Heap.C42_ccsd_2rdm_jkai",
    "Heap.C42_ccsd_2rdm_kaij",
    "Heap.C42_ccsd_2rdm_klij",
    "Heap.C42_ccsd_1rdm_ai_opt",
    "Heap.C42_ccsd_2rdm_cdab_opt",
    "Heap.C42_ccsd_2rdm_bcai_opt",
    "Heap.C42_ccsd_2rdm_bjai_opt",
    "Heap.C42_ccsd_2rdm_abij_opt",
    "Heap.C42_ccsd_2rdm_kaij_opt",
    "Heap.C42_ccsd_2rdm_klij_opt",
    "Heap.C42_uccsd_1rdm_ba",
    "Heap.C42_uccsd_1rdm_ji",
    "Heap.C42_uccsd_1rdm_ai",
    "Heap.C42_rccsd_1rdm_ba",
    "Heap.C42_rccsd_1rdm_ji",
    "Heap.C42_rccsd_1rdm_ai",
    "Heap.C42_uccsd_2rdm_ciab",
    "Heap.C42_uccsd_2rdm_jkai",
    "Heap.C42_uccsd_2rdm_cdab",
    "Heap.C42_uccsd_2rdm_bjai",
    "Heap.C42_uccsd_2rdm_klij",
    "Heap.C42_uccsd_2rdm_bcai",
    "Heap.C42_uccsd_2rdm_kaij",
    "Heap.C42_uccsd_2rdm_abij",
    "Heap.C42_rccsd_2rdm_ciab",
    "Heap.C42_rccsd_2rdm_jkai",
    "Heap.C42_rccsd_2rdm_cdab",
    "Heap.C42_rccsd_2rdm_bjai",
    "Heap.C42_rccsd_2rdm_bjia",
    "Heap.C42_rccsd_2rdm_klij",
    "Heap.C42_rccsd_2rdm_bcai",
    "Heap.C42_rccsd_2rdm_kaij",
    "Heap.C42_rccsd_2rdm_abij"
   ],
   "note": "Every routine of cc_equations.py and cc_energy.py transcribed statement by statement into a language with references; soundness of an ownership check proved by induction on programs. Also proved: no unbound names, returned arrays are new, values agree with the semantics without references used by the other models."
  },
  {
   "property": "C43",
   "status": "proved",
   "theorems": [
    "CC.C43_rccsd_lambda_pair",
    "CC.C43_rccsd_lambda_iterates",
    "CC.C43_rccsd_pair",
    "CC.C43_rccsd_iterates"
   ],
   "note": ""
  },
  {
   "property": "C44",
   "status": "proved",
   "theorems": [
    "CC.C44_uccsd_lambda_anti",
    "CC.C44_uccsd_lambda_iterates",
    "CC.C44_uccsd_anti",
    "CC.C44_uccsd_iterates"
   ],
   "note": ""
  },
  {
   "property": "C45",
   "status": "proved",
   "theorems": [
    "CC.C45_update",
    "CC.C45_lambda_update",
    "CC.C45_iterates",
    "CC.C45_unbroken",
    "CC.C45_uccsd_lambda",
    "CC.C45_uccsd",
    "CC.C45_ucc_energy"
   ],
   "note": ""
  },
  {
   "property": "C46",
   "status": "partial",
   "theorems": [
    "CI.C46_order4_partial",
    "CI.C46_gmakeCfromT_4",
    "CI.C46_order4_refuted",
    "CI.C46_gcisdtq_members",
    "CI.C46_gmakeCfromT_four",
    "CI.C46_gmakeCfromT_error",
    "CI.C46_ucisdtq_members",
    "CI.C46_makeCfromT_four",
    "CI.C46_makeCfromT_error"
   ],
   "note": "False. makeCfromT: order 4 omits the term T1b^2 T2aa / 2, refuted for all T1, T2 with that term non-zero (C46_order4_refuted). All inputs are settled: with fewer than four occupied or empty orbitals per spin exactly that term is missing (C46_order4_partial); with four electrons of a spin the repeated entries of the basis are left zero as well (C46_makeCfromT_four); with five or more electrons and four or more empty orbitals of a spin ValueError is raised (C46_makeCfromT_error). gmakeCfromT: right with fewer than four occupied or virtual orbitals (C46_gmakeCfromT_4), right at the first places with four (C46_gmakeCfromT_four), ValueError beyond (C46_gmakeCfromT_error)."
  },
  {
   "property": "C47",
   "status": "proved",
   "theorems": [
    "CC.C47_ladder",
    "CC.C47_ring",
    "CC.C47_ccd_sub_ladder",
    "CC.C47_ring_antisymmetrised"
   ],
   "note": "ladder and ring values given as explicit sums; ccd_ring_simple alone is only symmetric under exchange of both pairs, its antisymmetriser is exhibited"
  },
  {
   "property": "C48",
   "status": "proved",
   "theorems": [
    "Sq.C48_energy",
    "Sq.C48_singles",
    "Sq.C48_doubles",
    "Sq.C48_stanton",
    "Sq.C48_ccd",
    "Sq.C48_lagrangian"
   ],
   "note": "proved in an arbitrary representation of the anticommutation relations with a reference state by dressing the operators (o e^T = e^T(o+[o,T])) and Wick reduction; instance: Jordan-Wigner operators on Fock space (Props/FockRep)"
  },
  {
   "property": "C49",
   "status": "proved",
   "theorems": [
    "Sq.C49_1rdm",
    "Sq.C49_2rdm"
   ],
   "note": "from C48 and C10 by uniqueness of the coefficients of an antisymmetric two-body operator; the vo block of the 1-RDM and the vvoo block of the 2-RDM, which the code does not compute, are L1 and L2"
  },
  {
   "property": "C50",
   "status": "proved",
   "theorems": [
    "Sq.C50_lambda1",
    "Sq.C50_lambda2",
    "Sq.C50_all"
   ],
   "note": "from C48 and C06 by comparing coefficients of the shift parameter"
  },
  {
   "property": "C51",
   "status": "proved",
   "theorems": [
    "Sq.C51_two_electrons",
    "Sq.C51_intermediate_norm",
    "Sq.C51_limit",
    "Sq.C51_u_limit"
   ],
   "note": "number conservation plus C48; the example solves the equations exactly over the rationals"
  },
  {
   "property": "C52",
   "status": "proved",
   "theorems": [
    "CC.C52_energy",
    "CC.C52_ccsd_simple",
    "CC.C52_ccsd_stanton",
    "CC.C52_lccsd",
    "CC.C52_ccd_simple",
    "CC.C52_ccd_stanton",
    "CC.C52_lccd",
    "CC.C52_ladder",
    "CC.C52_ring",
    "CC.C52_solutions",
    "CC.C52_lambda_singles",
    "CC.C52_lambda_doubles",
    "CC.C52_lambda_doubles'",
    "CC.C52_lambda_coupling",
    "CC.C52_1rdm_ba",
    "CC.C52_1rdm_ba_opt",
    "CC.C52_1rdm_ji",
    "CC.C52_1rdm_ji_opt",
    "CC.C52_1rdm_ai",
    "CC.C52_1rdm_ai_opt",
    "CC.C52_many_energy",
    "CC.C52_many_ccsd_simple",
    "CC.C52_many_ccsd",
    "CC.C52_many_solutions",
    "CC.C52_copies",
    "CC.C52_many_ucc_energy",
    "CC.C52_many_uccsd",
    "CC.C52_many_u_solutions",
    "CC.C52_many_rccsd",
    "CC.C52_rcc_energy",
    "CC.C52_rccsd",
    "CC.C52_ucc_energy",
    "CC.C52_uccsd",
    "CC.C52_u_solutions",
    "CC.C52_u1rdm_ba",
    "CC.C52_u1rdm_ji",
    "CC.C52_u1rdm_ai",
    "CC.C52_ulambda_singles",
    "CC.C52_ulambda_doubles"
   ],
   "note": "term by term splitting of all sums over the two subsystems; C52_lambda_coupling exhibits the (disconnected) source of the multipliers that couple the subsystems; the unrestricted energy, amplitude and Lambda equations and one-particle density matrices are in SepU (antisymmetric same-spin tensors; multipliers may couple the subsystems in every way that conserves the spin projection); SepMany extends energies and CCSD equations (generalized, unrestricted, restricted) to any number of subsystems by induction"
  },
  {
   "property": "C53",
   "status": "proved",
   "theorems": [
    "Heap.C53_cc_energy_d",
    "Heap.C53_cc_energy_s1",
    "Heap.C53_cc_energy_s2",
    "Heap.C53_cc_energy_s2_a",
    "Heap.C53_cc_energy",
    "Heap.C53_mp2_energy",
    "Heap.C53_lccd_simple",
    "Heap.C53_lccsd_simple",
    "Heap.C53_ccd_simple",
    "Heap.C53_ccd_ladder_simple",
    "Heap.C53_ccd_ring_simple",
    "Heap.C53_ccsd_simple",
    "Heap.C53_ccsd_stanton",
    "Heap.C53_ccd_stanton",
    "Heap.C53_lambda_int",
    "Heap.C53_ccd_lambda_simple",
    "Heap.C53_ccsd_lambda_opt",
    "Heap.C53_ccsd_lambda_stanton",
    "Heap.C53_ccsd_lambda_opt_int",
    "Heap.C53_ccsd_lambda_simple",
    "Heap.C53_ccsd_1rdm_ba",
    "Heap.C53_ccsd_1rdm_ji",
    "Heap.C53_ccsd_1rdm_ai",
    "Heap.C53_ccsd_2rdm_cdab",
    "Heap.C53_ccsd_2rdm_ciab",
    "Heap.C53_ccsd_2rdm_bcai",
    "Heap.C53_ccsd_2rdm_bjai",
    "Heap.C53_ccsd_2rdm_abij",
    "Heap.C53_ccsd_2rdm_jkai",
    "Heap.C53_ccsd_2rdm_kaij",
    "Heap.C53_ccsd_2rdm_klij",
    "Heap.C53_ccsd_1rdm_ai_opt",
    "Heap.C53_ccsd_2rdm_cdab_opt",
    "Heap.C53_ccsd_2rdm_bcai_opt",
    "Heap.C53_ccsd_2rdm_bjai_opt",
    "Heap.C53_ccsd_2rdm_abij_opt",
    "Heap.C53_ccsd_2rdm_kaij_opt",
    "Heap.C53_ccsd_2rdm_klij_opt",
    "Heap.C53_rcc_energy",
    "Heap.C53_rccsd_stanton",
    "Heap.C53_rccsd_lambda_opt",
    "Heap.C53_rccsd_1rdm_ba",
    "Heap.C53_rccsd_1rdm_ji",
    "Heap.C53_rccsd_1rdm_ai",
    "Heap.C53_rccsd_2rdm_ciab",
    "Heap.C53_rccsd_2rdm_jkai",
    "Heap.C53_rccsd_2rdm_cdab",
    "Heap.C53_rccsd_2rdm_bjai",
    "Heap.C53_rccsd_2rdm_bjia",
    "Heap.C53_rccsd_2rdm_klij",
    "Heap.C53_rccsd_2rdm_bcai",
    "Heap.C53_rccsd_2rdm_kaij",
    "Heap.C53_rccsd_2rdm_abij",
    "Heap.C53_ucc_energy",
    "Heap.C53_ump2_energy",
    "Heap.C53_uccsd_stanton",
    "Heap.C53_uccsd_lambda_opt",
    "Heap.C53_uccsd_1rdm_ba",
    "Heap.C53_uccsd_1rdm_ji",
    "Heap.C53_uccsd_1rdm_ai",
    "Heap.C53_uccsd_2rdm_ciab",
    "Heap.C53_uccsd_2rdm_jkai",
    "Heap.C53_uccsd_2rdm_cdab",
    "Heap.C53_uccsd_2rdm_bjai",
    "Heap.C53_uccsd_2rdm_klij",
    "Heap.C53_uccsd_2rdm_bcai",
    "Heap.C53_uccsd_2rdm_kaij",
    "Heap.C53_uccsd_2rdm_abij"
   ],
   "note": "one theorem per public routine (68); simulation between numpy semantics and tensors proved once (types_sim, tensors_sim), runs on tensors computed by the kernel and compared with Model/CC*.lean by definitional equality; einsum is numpy.einsum (pyscf.lib.einsum, used when pyscf is installed, is taken to compute the same), arithmetic exact"
  },
  {
   "property": "C54",
   "status": "proved",
   "theorems": [
    "Heap.C54_ccd_stanton_loss",
    "Heap.C54_lccd_simple",
    "Heap.C54_lccsd_simple",
    "Heap.C54_ccd_simple",
    "Heap.C54_ccd_ladder_simple",
    "Heap.C54_ccd_ring_simple",
    "Heap.C54_ccsd_simple",
    "Heap.C54_ccsd_stanton",
    "Heap.C54_ccd_stanton",
    "Heap.C54_ccd_lambda_simple_t",
    "Heap.C54_ccd_lambda_simple_l",
    "Heap.C54_ccsd_lambda_opt_t",
    "Heap.C54_ccsd_lambda_opt_l",
    "Heap.C54_ccsd_lambda_stanton_t",
    "Heap.C54_ccsd_lambda_stanton_l",
    "Heap.C54_ccsd_lambda_opt_int_t",
    "Heap.C54_ccsd_lambda_opt_int_l",
    "Heap.C54_ccsd_lambda_opt_int_p",
    "Heap.C54_ccsd_lambda_simple_t",
    "Heap.C54_ccsd_lambda_simple_l",
    "Heap.C54_ccsd_2rdm_abij",
    "Heap.C54_ccsd_1rdm_ai_opt",
    "Heap.C54_ccsd_2rdm_abij_opt",
    "Heap.C54_rccsd_stanton",
    "Heap.C54_rccsd_lambda_opt_t",
    "Heap.C54_rccsd_lambda_opt_l",
    "Heap.C54_rccsd_1rdm_ai",
    "Heap.C54_rccsd_2rdm_abij",
    "Heap.C54_uccsd_stanton",
    "Heap.C54_uccsd_lambda_opt_t",
    "Heap.C54_uccsd_lambda_opt_l",
    "Heap.C54_uccsd_1rdm_ai",
    "Heap.C54_uccsd_2rdm_abij"
   ],
   "note": "anomalies of the code, stated as what it does; element types are uniform within the groups integrals, amplitudes, multipliers (C54_ccd_stanton_loss: Fock matrix and two-electron integrals differ)"
  },
  {
   "property": "C55",
   "status": "proved",
   "theorems": [
    "CC.C55_converged",
    "CC.C55_converged_u",
    "Heap.C55_cc_energy_d",
    "Heap.C55_cc_energy_s1",
    "Heap.C55_cc_energy_s2",
    "Heap.C55_cc_energy_s2_a",
    "Heap.C55_cc_energy",
    "Heap.C55_mp2_energy",
    "Heap.C55_lccd_simple",
    "Heap.C55_lccsd_simple",
    "Heap.C55_ccd_simple",
    "Heap.C55_ccd_ladder_simple",
    "Heap.C55_ccd_ring_simple",
    "Heap.C55_ccsd_simple",
    "Heap.C55_ccsd_stanton",
    "Heap.C55_ccd_stanton",
    "Heap.C55_lambda_int",
    "Heap.C55_ccd_lambda_simple",
    "Heap.C55_ccsd_lambda_opt",
    "Heap.C55_ccsd_lambda_stanton",
    "Heap.C55_ccsd_lambda_opt_int",
    "Heap.C55_ccsd_lambda_simple",
    "Heap.C55_ccsd_1rdm_ba",
    "Heap.C55_ccsd_1rdm_ji",
    "Heap.C55_ccsd_1rdm_ai",
    "Heap.C55_ccsd_2rdm_cdab",
    "Heap.C55_ccsd_2rdm_ciab",
    "Heap.C55_ccsd_2rdm_bcai",
    "Heap.C55_ccsd_2rdm_bjai",
    "Heap.C55_ccsd_2rdm_abij",
    "Heap.C55_ccsd_2rdm_jkai",
    "Heap.C55_ccsd_2rdm_kaij",
    "Heap.C55_ccsd_2rdm_klij",
    "Heap.C55_ccsd_1rdm_ai_opt",
    "Heap.C55_ccsd_2rdm_cdab_opt",
    "Heap.C55_ccsd_2rdm_bcai_opt",
    "Heap.C55_ccsd_2rdm_bjai_opt",
    "Heap.C55_ccsd_2rdm_abij_opt",
    "Heap.C55_ccsd_2rdm_kaij_opt",
    "Heap.C55_ccsd_2rdm_klij_opt",
    "Heap.C55_rcc_energy",
    "Heap.C55_rccsd_stanton",
    "Heap.C55_rccsd_lambda_opt",
    "Heap.C55_rccsd_1rdm_ba",
    "Heap.C55_rccsd_1rdm_ji",
    "Heap.C55_rccsd_1rdm_ai",
    "Heap.C55_rccsd_2rdm_ciab",
    "Heap.C55_rccsd_2rdm_jkai",
    "Heap.C55_rccsd_2rdm_cdab",
    "Heap.C55_rccsd_2rdm_bjai",
    "Heap.C55_rccsd_2rdm_bjia",
    "Heap.C55_rccsd_2rdm_klij",
    "Heap.C55_rccsd_2rdm_bcai",
    "Heap.C55_rccsd_2rdm_kaij",
    "Heap.C55_rccsd_2rdm_abij",
    "Heap.C55_ucc_energy",
    "Heap.C55_ump2_energy",
    "Heap.C55_uccsd_stanton",
    "Heap.C55_uccsd_lambda_opt",
    "Heap.C55_uccsd_1rdm_ba",
    "Heap.C55_uccsd_1rdm_ji",
    "Heap.C55_uccsd_1rdm_ai",
    "Heap.C55_uccsd_2rdm_ciab",
    "Heap.C55_uccsd_2rdm_jkai",
    "Heap.C55_uccsd_2rdm_cdab",
    "Heap.C55_uccsd_2rdm_bjai",
    "Heap.C55_uccsd_2rdm_klij",
    "Heap.C55_uccsd_2rdm_bcai",
    "Heap.C55_uccsd_2rdm_kaij",
    "Heap.C55_uccsd_2rdm_abij"
   ],
   "note": "one theorem per public routine (68), C55_converged and C55_converged_u; a static check of which axes are bra and which ket is proved sound for all programs of the heap language (sorted_sim) and run on every routine by the kernel; exact arithmetic"
  },
  {
   "property": "C56",
   "status": "proved",
   "theorems": [
    "CC.C56_energy_derivative",
    "CC.C56_energy_derivative_stanton",
    "CC.C56_restricted",
    "Sq.C56_hellmann_feynman",
    "CC.C56_unrestricted"
   ],
   "note": "amplitudes are assumed differentiable at the point; traceRdm, utraceRdm and rtraceRdm are the contractions a user writes with the arrays returned (tfac = 1); Sq.C56_hellmann_feynman states the general case by second quantisation"
  },
  {
   "property": "C57",
   "status": "proved",
   "theorems": [
    "CC.C57_trace",
    "CC.C57_vv",
    "CC.C57_oo",
    "CC.C57_ov",
    "CC.C57_vo",
    "CC.C57_utrace_a",
    "CC.C57_utrace_b",
    "CC.C57_uvv_aa",
    "CC.C57_uvv_bb",
    "CC.C57_uvv_ab",
    "CC.C57_uvv_ba",
    "CC.C57_uoo_aa",
    "CC.C57_uoo_bb",
    "CC.C57_uoo_ab",
    "CC.C57_uoo_ba",
    "CC.C57_uov_aa",
    "CC.C57_uov_bb",
    "CC.C57_uov_ab",
    "CC.C57_uov_ba",
    "CC.C57_uvo_aa",
    "CC.C57_uvo_bb",
    "CC.C57_uvo_ab",
    "CC.C57_uvo_ba",
    "CC.C57_rtrace",
    "CC.C57_rvv",
    "CC.C57_rvv_x",
    "CC.C57_roo",
    "CC.C57_roo_x",
    "CC.C57_rov",
    "CC.C57_rov_x",
    "CC.C57_rvo",
    "CC.C57_rvo_x",
    "Sq.C57_electrons",
    "Sq.C57_contraction"
   ],
   "note": "no convergence assumed; Sq.C57_contraction is the usual sum rule in terms of C49, the others are its blocks for the spin-orbital, unrestricted and restricted routines"
  },
  {
   "property": "C58",
   "status": "proved",
   "theorems": [
    "CC.C58_solution_persists",
    "CC.C58_lambda_unique",
    "CC.C58_energy_response",
    "CC.C58_nonsingular_open",
    "CC.C58_continuation",
    "CC.C58_gap_nonsingular",
    "CC.C58_weak_coupling"
   ],
   "note": "implicit function theorem of Mathlib over RCLike fields; the residual maps are carried from the textbook equations to the code by C01 on antisymmetric amplitudes; existence is local (near a non-singular solution, or for weak coupling), convergence of an iteration is not claimed here"
  },
  {
   "property": "C59",
   "status": "proved",
   "theorems": [
    "CCCI.C59_energy",
    "CCCI.C59_singles",
    "CCCI.C59_doubles",
    "CCCI.C59_two_electrons"
   ],
   "note": "links makeCfromT/H_on_vec/ucisd_basis/ucisdt_basis (C33-C37) with uccsd_stanton/ucc_energy (C12, C13) through second quantisation; the CI coefficient carries the sign of the determinant ordering, hence the factor s = 1 or -1; rows whose doubly excited neighbours lie outside the basis are not claimed"
  },
  {
   "property": "C60",
   "status": "proved",
   "theorems": [
    "Heap.C60_uniform_routine",
    "Heap.C60_rounding",
    "Heap.C60_exceptions",
    "Heap.C60_cc_energy_d",
    "Heap.C60_cc_energy_s1",
    "Heap.C60_cc_energy_s2",
    "Heap.C60_cc_energy_s2_a",
    "Heap.C60_cc_energy",
    "Heap.C60_mp2_energy",
    "Heap.C60_lccd_simple",
    "Heap.C60_lccsd_simple",
    "Heap.C60_ccd_simple",
    "Heap.C60_ccd_ladder_simple",
    "Heap.C60_ccd_ring_simple",
    "Heap.C60_ccsd_simple",
    "Heap.C60_ccsd_stanton",
    "Heap.C60_ccd_stanton",
    "Heap.C60_lambda_int",
    "Heap.C60_ccd_lambda_simple",
    "Heap.C60_ccsd_lambda_opt",
    "Heap.C60_ccsd_lambda_stanton",
    "Heap.C60_ccsd_lambda_opt_int",
    "Heap.C60_ccsd_lambda_simple",
    "Heap.C60_ccsd_1rdm_ba",
    "Heap.C60_ccsd_1rdm_ji",
    "Heap.C60_ccsd_1rdm_ai",
    "Heap.C60_ccsd_2rdm_cdab",
    "Heap.C60_ccsd_2rdm_ciab",
    "Heap.C60_ccsd_2rdm_bcai",
    "Heap.C60_ccsd_2rdm_bjai",
    "Heap.C60_ccsd_2rdm_abij",
    "Heap.C60_ccsd_2rdm_jkai",
    "Heap.C60_ccsd_2rdm_kaij",
    "Heap.C60_ccsd_2rdm_klij",
    "Heap.C60_ccsd_1rdm_ai_opt",
    "Heap.C60_ccsd_2rdm_cdab_opt",
    "Heap.C60_ccsd_2rdm_bcai_opt",
    "Heap.C60_ccsd_2rdm_bjai_opt",
    "Heap.C60_ccsd_2rdm_abij_opt",
    "Heap.C60_ccsd_2rdm_kaij_opt",
    "Heap.C60_ccsd_2rdm_klij_opt",
    "Heap.C60_ucc_energy",
    "Heap.C60_ump2_energy",
    "Heap.C60_uccsd_stanton",
    "Heap.C60_uccsd_lambda_opt",
    "Heap.C60_uccsd_1rdm_ba",
    "Heap.C60_uccsd_1rdm_ji",
    "Heap.C60_uccsd_1rdm_ai",
    "Heap.C60_uccsd_2rdm_ciab",
    "Heap.C60_uccsd_2rdm_jkai",
    "Heap.C60_uccsd_2rdm_cdab",
    "Heap.C60_uccsd_2rdm_bjai",
    "Heap.C60_uccsd_2rdm_klij",
    "Heap.C60_uccsd_2rdm_bcai",
    "Heap.C60_uccsd_2rdm_kaij",
    "Heap.C60_uccsd_2rdm_abij",
    "Heap.C60_rcc_energy",
    "Heap.C60_rccsd_stanton",
    "Heap.C60_rccsd_lambda_opt",
    "Heap.C60_rccsd_1rdm_ba",
    "Heap.C60_rccsd_1rdm_ji",
    "Heap.C60_rccsd_1rdm_ai",
    "Heap.C60_rccsd_2rdm_ciab",
    "Heap.C60_rccsd_2rdm_jkai",
    "Heap.C60_rccsd_2rdm_cdab",
    "Heap.C60_rccsd_2rdm_bjai",
    "Heap.C60_rccsd_2rdm_bjia",
    "Heap.C60_rccsd_2rdm_klij",
    "Heap.C60_rccsd_2rdm_bcai",
    "Heap.C60_rccsd_2rdm_kaij",
    "Heap.C60_rccsd_2rdm_abij",
    "Heap.C60_stable",
    "Heap.C60_uniform"
   ],
   "note": "C60_rounding and C60_exceptions hold for every program of the heap language; C60_stable and C60_<routine> add the memory and the tensors of C53. The constant is computed by running the program on pairs (value, error constant). Overflow and NaN are excluded (numbers are field elements); the ranges of exponents are not modelled."
  },
  {
   "property": "C61",
   "status": "proved",
   "theorems": [
    "Np.C61_int_to_spin",
    "Np.C61_int_to_spin2",
    "Np.C61_int_to_spatial",
    "Np.C61_T1_shapes",
    "Np.C61_T1_round_trip",
    "Np.C61_complex_refuted",
    "Np.C61_T1_to_spin",
    "Np.C61_T1_to_spatial",
    "Np.C61_F_to_spin",
    "Np.C61_F_to_spatial",
    "Np.C61_T2_to_spin",
    "Np.C61_D2_to_spin",
    "Np.C61_T2_to_spatial",
    "Np.C61_int_to_spin_block"
   ],
   "note": "C61_<function> for all eleven functions; contents are those of the slice model CC.Num.* (C20) applied to real parts. C61_T1_round_trip and C61_complex_refuted record that imaginary parts are lost. The exact set of accepted shapes is proved for T1_to_spin; for the others only the documented shapes are covered."
  },
  {
   "property": "C62",
   "status": "proved",
   "theorems": [
    "Np.C62_new",
    "Np.C62_part",
    "Np.C62_F_to_spatial",
    "Np.C62_F_to_spatial_write",
    "Np.C62_int_to_spatial",
    "Np.C62_make_two_e_blocks",
    "Np.C62_make_two_e_blocks_raises",
    "Np.C62_make_two_e_blocks_full",
    "Np.C62_make_two_e_blocks_full_raises"
   ],
   "note": "C62_part: assigning through a slice assigns to the array; C62_new: assigning to a new array changes nothing older; C62_<function> say which results are slices."
  },
  {
   "property": "C63",
   "status": "proved",
   "theorems": [
    "Heap.C63_homomorphism",
    "Heap.C63_conjugation",
    "Heap.C63_real_data",
    "Heap.C63_cc_energy_d",
    "Heap.C63_cc_energy_s1",
    "Heap.C63_cc_energy_s2",
    "Heap.C63_cc_energy_s2_a",
    "Heap.C63_cc_energy",
    "Heap.C63_mp2_energy",
    "Heap.C63_lccd_simple",
    "Heap.C63_lccsd_simple",
    "Heap.C63_ccd_simple",
    "Heap.C63_ccd_ladder_simple",
    "Heap.C63_ccd_ring_simple",
    "Heap.C63_ccsd_simple",
    "Heap.C63_ccsd_stanton",
    "Heap.C63_ccd_stanton",
    "Heap.C63_lambda_int",
    "Heap.C63_ccd_lambda_simple",
    "Heap.C63_ccsd_lambda_opt",
    "Heap.C63_ccsd_lambda_stanton",
    "Heap.C63_ccsd_lambda_opt_int",
    "Heap.C63_ccsd_lambda_simple",
    "Heap.C63_ccsd_1rdm_ba",
    "Heap.C63_ccsd_1rdm_ji",
    "Heap.C63_ccsd_1rdm_ai",
    "Heap.C63_ccsd_2rdm_cdab",
    "Heap.C63_ccsd_2rdm_ciab",
    "Heap.C63_ccsd_2rdm_bcai",
    "Heap.C63_ccsd_2rdm_bjai",
    "Heap.C63_ccsd_2rdm_abij",
    "Heap.C63_ccsd_2rdm_jkai",
    "Heap.C63_ccsd_2rdm_kaij",
    "Heap.C63_ccsd_2rdm_klij",
    "Heap.C63_ccsd_1rdm_ai_opt",
    "Heap.C63_ccsd_2rdm_cdab_opt",
    "Heap.C63_ccsd_2rdm_bcai_opt",
    "Heap.C63_ccsd_2rdm_bjai_opt",
    "Heap.C63_ccsd_2rdm_abij_opt",
    "Heap.C63_ccsd_2rdm_kaij_opt",
    "Heap.C63_ccsd_2rdm_klij_opt",
    "Heap.C63_ucc_energy",
    "Heap.C63_ump2_energy",
    "Heap.C63_uccsd_stanton",
    "Heap.C63_uccsd_lambda_opt",
    "Heap.C63_uccsd_1rdm_ba",
    "Heap.C63_uccsd_1rdm_ji",
    "Heap.C63_uccsd_1rdm_ai",
    "Heap.C63_uccsd_2rdm_ciab",
    "Heap.C63_uccsd_2rdm_jkai",
    "Heap.C63_uccsd_2rdm_cdab",
    "Heap.C63_uccsd_2rdm_bjai",
    "Heap.C63_uccsd_2rdm_klij",
    "Heap.C63_uccsd_2rdm_bcai",
    "Heap.C63_uccsd_2rdm_kaij",
    "Heap.C63_uccsd_2rdm_abij",
    "Heap.C63_rcc_energy",
    "Heap.C63_rccsd_stanton",
    "Heap.C63_rccsd_lambda_opt",
    "Heap.C63_rccsd_1rdm_ba",
    "Heap.C63_rccsd_1rdm_ji",
    "Heap.C63_rccsd_1rdm_ai",
    "Heap.C63_rccsd_2rdm_ciab",
    "Heap.C63_rccsd_2rdm_jkai",
    "Heap.C63_rccsd_2rdm_cdab",
    "Heap.C63_rccsd_2rdm_bjai",
    "Heap.C63_rccsd_2rdm_bjia",
    "Heap.C63_rccsd_2rdm_klij",
    "Heap.C63_rccsd_2rdm_bcai",
    "Heap.C63_rccsd_2rdm_kaij",
    "Heap.C63_rccsd_2rdm_abij",
    "Heap.C63_solves",
    "Heap.C63_units",
    "Heap.C63_real_residuals",
    "Heap.C63_conjugate"
   ],
   "note": "C63_<routine> for all 68 routines. The degree of every result in the Hamiltonian is computed by running the program of C42 on degrees; C53 connects the runs to the tensors. C63_solves, C63_units, C63_conjugate, C63_real_residuals draw the conclusions for CCSD; C63_homomorphism, C63_conjugation and C63_real_data are about runs of any program on arrays, exceptions included."
  },
  {
   "property": "C64",
   "status": "proved",
   "theorems": [
    "Heap.C64_cc_energy_d",
    "Heap.C64_cc_energy_s1",
    "Heap.C64_cc_energy_s2",
    "Heap.C64_cc_energy_s2_a",
    "Heap.C64_cc_energy",
    "Heap.C64_mp2_energy",
    "Heap.C64_lccd_simple",
    "Heap.C64_lccsd_simple",
    "Heap.C64_ccd_simple",
    "Heap.C64_ccd_ladder_simple",
    "Heap.C64_ccd_ring_simple",
    "Heap.C64_ccsd_simple",
    "Heap.C64_ccsd_stanton",
    "Heap.C64_ccd_stanton",
    "Heap.C64_lambda_int",
    "Heap.C64_ccd_lambda_simple",
    "Heap.C64_ccsd_lambda_opt",
    "Heap.C64_ccsd_lambda_stanton",
    "Heap.C64_ccsd_lambda_opt_int",
    "Heap.C64_ccsd_lambda_simple",
    "Heap.C64_ucc_energy",
    "Heap.C64_ump2_energy",
    "Heap.C64_uccsd_stanton",
    "Heap.C64_uccsd_lambda_opt",
    "Heap.C64_rcc_energy",
    "Heap.C64_rccsd_stanton",
    "Heap.C64_rccsd_lambda_opt",
    "Heap.C64_perturbation"
   ],
   "note": "C64_<routine> for the 27 routines that take the Hamiltonian; C64_perturbation reads it for CCSD."
  },
  {
   "property": "C65",
   "status": "proved",
   "theorems": [
    "Heap.C65_ccsd_simple",
    "Heap.C65_ccsd_stanton",
    "Heap.C65_lccsd_simple",
    "Heap.C65_ccd_simple",
    "Heap.C65_ccd_stanton",
    "Heap.C65_lccd_simple",
    "Heap.C65_ccsd_lambda_simple",
    "Heap.C65_ccsd_lambda_opt",
    "Heap.C65_ccsd_lambda_stanton",
    "Heap.C65_ccd_lambda_simple",
    "Heap.C65_rccsd_stanton",
    "Heap.C65_rccsd_lambda_opt",
    "Heap.C65_uccsd_stanton",
    "Heap.C65_uccsd_lambda_opt",
    "Heap.C65_shift",
    "Heap.C65_fixed_point",
    "Heap.C65_lambda_fixed_point",
    "Heap.C65_start",
    "Heap.C65_spin_shift"
   ],
   "note": "C65_<routine> for the 14 residual routines; C65_shift, C65_spin_shift, C65_fixed_point, C65_lambda_fixed_point, C65_start draw the conclusions. Unrestricted routines in characteristic zero, by C13 and C15."
  },
  {
   "property": "C66",
   "status": "proved",
   "theorems": [
    "CC.C66_converges",
    "CC.C66_local",
    "CC.C66_lambda_converges",
    "CC.C66_limit_solves"
   ],
   "note": "C66_converges and C66_lambda_converges by the contraction principle on antisymmetric amplitudes; C66_local from strict differentiability. The update itself is the caller's loop, written out in Props/Iterate from the routine and the denominators."
  },
  {
   "property": "C67",
   "status": "proved",
   "theorems": [
    "CC.C67_second_order",
    "CC.C67_iteration"
   ],
   "note": "C67_second_order: the Lagrangian (C10) is twice continuously differentiable and stationary at solutions (C06). C67_iteration combines it with C66."
  },
  {
   "property": "C68",
   "status": "proved",
   "theorems": [
    "CI.C68_diagonal",
    "CI.C68_nested",
    "CI.C68_reference",
    "CI.C68_ucis_ucisd_ucisdt",
    "CI.C68_ucisdtq",
    "CI.C68_ucisdtq_refuted",
    "CI.C68_gdiagonal",
    "CI.C68_gnested",
    "CI.C68_gcis_gcisd_gcisdt"
   ],
   "note": "C68_diagonal, C68_nested, C68_reference and the general versions for every enumerated set of excitations; C68_ucis_ucisd_ucisdt, C68_gcis_gcisd_gcisdt, C68_ucisdtq for the lists the code returns; C68_ucisdtq_refuted for the repeated quadruples (C34)."
  },
  {
   "property": "C69",
   "status": "proved",
   "theorems": [
    "CC.C69_F_to_spin",
    "CC.C69_int_to_spin",
    "CC.C69_int_to_spin2",
    "CC.C69_sz_integrals",
    "CC.C69_sz_blocks",
    "CC.C69_update",
    "CC.C69_iterates",
    "CC.C69_solution",
    "CC.C69_sz",
    "Heap.C69_lccd_simple",
    "Heap.C69_lccsd_simple",
    "Heap.C69_ccd_simple",
    "Heap.C69_ccd_ladder_simple",
    "Heap.C69_ccd_ring_simple",
    "Heap.C69_ccsd_simple",
    "Heap.C69_ccsd_stanton",
    "Heap.C69_uccsd_stanton",
    "Heap.C69_rccsd_stanton",
    "Heap.C69_ccd_stanton",
    "Heap.C69_lambda_int",
    "Heap.C69_ccd_lambda_simple",
    "Heap.C69_ccsd_lambda_opt",
    "Heap.C69_ccsd_lambda_stanton",
    "Heap.C69_ccsd_lambda_opt_int",
    "Heap.C69_uccsd_lambda_opt",
    "Heap.C69_rccsd_lambda_opt",
    "Heap.C69_ccsd_lambda_simple",
    "Heap.C69_ccsd_1rdm_ba",
    "Heap.C69_ccsd_1rdm_ji",
    "Heap.C69_ccsd_1rdm_ai",
    "Heap.C69_ccsd_2rdm_cdab",
    "Heap.C69_ccsd_2rdm_ciab",
    "Heap.C69_ccsd_2rdm_bcai",
    "Heap.C69_ccsd_2rdm_bjai",
    "Heap.C69_ccsd_2rdm_abij",
    "Heap.C69_ccsd_2rdm_jkai",
    "Heap.C69_ccsd_2rdm_kaij",
    "Heap.C69_ccsd_2rdm_klij",
    "Heap.C69_ccsd_1rdm_ai_opt",
    "Heap.C69_ccsd_2rdm_cdab_opt",
    "Heap.C69_ccsd_2rdm_bcai_opt",
    "Heap.C69_ccsd_2rdm_bjai_opt",
    "Heap.C69_ccsd_2rdm_abij_opt",
    "Heap.C69_ccsd_2rdm_kaij_opt",
    "Heap.C69_ccsd_2rdm_klij_opt",
    "Heap.C69_uccsd_1rdm_ba",
    "Heap.C69_uccsd_1rdm_ji",
    "Heap.C69_uccsd_1rdm_ai",
    "Heap.C69_rccsd_1rdm_ba",
    "Heap.C69_rccsd_1rdm_ji",
    "Heap.C69_rccsd_1rdm_ai",
    "Heap.C69_uccsd_2rdm_ciab",
    "Heap.C69_uccsd_2rdm_jkai",
    "Heap.C69_uccsd_2rdm_cdab",
    "Heap.C69_uccsd_2rdm_bjai",
    "Heap.C69_uccsd_2rdm_klij",
    "Heap.C69_uccsd_2rdm_bcai",
    "Heap.C69_uccsd_2rdm_kaij",
    "Heap.C69_uccsd_2rdm_abij",
    "Heap.C69_rccsd_2rdm_ciab",
    "Heap.C69_rccsd_2rdm_jkai",
    "Heap.C69_rccsd_2rdm_cdab",
    "Heap.C69_rccsd_2rdm_bjai",
    "Heap.C69_rccsd_2rdm_bjia",
    "Heap.C69_rccsd_2rdm_klij",
    "Heap.C69_rccsd_2rdm_bcai",
    "Heap.C69_rccsd_2rdm_kaij",
    "Heap.C69_rccsd_2rdm_abij",
    "CC.C69_lambda_iterates",
    "CC.C69_u_iterates",
    "CC.C69_u_lambda_iterates",
    "CC.C69_r_iterates",
    "CC.C69_r_lambda_iterates"
   ],
   "note": "C69_<routine> for the 59 public routines with arrays as results, by a simulation of the programs of Model/HeapProg (Grade.lean); C69_update, C69_iterates, C69_solution for the iteration of C66; C69_lambda_iterates, C69_u_iterates, C69_u_lambda_iterates, C69_r_iterates, C69_r_lambda_iterates for multipliers and for the unrestricted and restricted iterations, with all their limits; C69_sz, C69_sz_integrals, C69_sz_blocks for the projection of the spin."
  },
  {
   "property": "C70",
   "status": "proved",
   "theorems": [
    "Ft.C70_range",
    "Ft.C70_exp_arguments",
    "Ft.C70_fermi",
    "Ft.C70_complement",
    "Ft.C70_vfermi",
    "Ft.C70_grand_potential",
    "Ft.C70_vectors"
   ],
   "note": "Model/FtRound repeats ft_utils with a rounding after each operation; real_eq: without rounding it is the model of C28 to C30. Overflow is covered only through C70_exp_arguments. The error of dgrand_potential0 is bounded in C88."
  },
  {
   "property": "C71",
   "status": "proved",
   "theorems": [
    "CC.Num.C71_T",
    "CC.Num.C71_T2_spatial",
    "CC.Num.C71_ft",
    "CC.Num.C71_F",
    "CC.Num.C71_I_anti",
    "CC.Num.C71_I",
    "CC.Num.C71_Itot",
    "CC.Num.C71_Ifull",
    "CC.Num.C71_D2",
    "CC.Num.C71_D2_asymmetric",
    "CC.Num.C71_D2_error"
   ],
   "note": "The definitions of Model/Util are generic in the numbers; class Machine lists the laws used. C71_D2_asymmetric is a witness that utils.D2 is not symmetric in the occupied orbitals in rounded arithmetic (a remark on the code, harmless within roundoff)."
  },
  {
   "property": "C72",
   "status": "proved",
   "theorems": [
    "CI.C72_spin_flip",
    "CI.C72_selection",
    "CI.C72_H_on_vec",
    "CI.C72_gselection",
    "CI.C72_linear",
    "CI.C72_brillouin",
    "CI.C72_brillouin_iff",
    "CI.C72_brillouin_beta",
    "CI.C72_cis_reference",
    "CI.C72_ucis"
   ],
   "note": "From the Slater-Condon theorem C35; C72_spin_flip holds for all strings, valid or not. gci_matrixel: C72_gselection (its lost signs, C35, do not matter here)."
  },
  {
   "property": "C73",
   "status": "proved",
   "theorems": [
    "CC.C73_uccsd_converges",
    "CC.C73_rccsd_converges",
    "CC.C73_uccsd_lambda_converges",
    "CC.C73_rccsd_lambda_converges",
    "CC.C73_unrestricted_second_order",
    "CC.C73_restricted_second_order",
    "CC.C73_u_limit_solves",
    "CC.C73_r_limit_solves"
   ],
   "note": "The loop itself is the caller's; the update is the standard one with the denominators of utils.py. Smoothness and Lipschitz bounds come from the generalized equations through C13, C14, C15, C16."
  },
  {
   "property": "C74",
   "status": "proved",
   "theorems": [
    "CI.C74_tda",
    "CI.C74_spectrum",
    "CI.C74_singlet_triplet",
    "CI.C74_script"
   ],
   "note": "The matrix loop of the example is modelled as the relation IsMatrix (the matrix is unique, IsMatrix.unique). pySCF's TDA energies are the eigenvalues of the two matrices singlet and triplet written out from the Fock matrix and the integrals."
  },
  {
   "property": "C75",
   "status": "proved",
   "theorems": [
    "Ft.C75_grand_potential",
    "Ft.C75_grand_potential_error",
    "Ft.C75_occupation",
    "Ft.C75_entropy",
    "Ft.C75_free_energy",
    "Ft.C75_gibbs",
    "Ft.C75_step",
    "Ft.C75_ground",
    "Ft.C75_zero_temperature",
    "Ft.C75_chemical_potential",
    "Ft.C75_number_strict",
    "Ft.C75_number_mono"
   ],
   "note": "Real arithmetic; rounded arithmetic of the same functions is C70. Outside the cut-offs equality is false for the code, which the error terms account for."
  },
  {
   "property": "C76",
   "status": "proved",
   "theorems": [
    "Eri.C76_kscf",
    "Eri.C76_kmp2",
    "Eri.C76_kmp2_negative"
   ],
   "note": "What PySCF provides (orbitals, integrals over orbitals, conservation table, orbital energies) is a parameter. Exact arithmetic."
  },
  {
   "property": "C77",
   "status": "proved",
   "theorems": [
    "CI.C77_similar",
    "CI.C77_eigenvalues",
    "CI.C77_spectrum",
    "CI.C77_ucis",
    "CI.C77_ucisd",
    "CI.C77_ucisdt",
    "CI.C77_ucisdtq"
   ],
   "note": "ucisdtq_basis under the condition of C33 that it lists every determinant once. Exact arithmetic."
  },
  {
   "property": "C78",
   "status": "proved",
   "theorems": [
    "CI.C78_commute",
    "CI.C78_nondegenerate",
    "CI.C78_multiplet",
    "CI.C78_degenerate",
    "CI.C78_spin_states",
    "CI.C78_ucis",
    "CI.C78_ucisd",
    "CI.C78_ucisdt",
    "CI.C78_ucisdtq",
    "CI.C78_triplet",
    "CI.C78_quartet",
    "CI.C78_four"
   ],
   "note": "S+, S-, Sz and S^2 are the textbook operators in the Fock space of Spec/Fock. ucisdtq_basis under the condition of C33 that it lists every determinant once. Truncated bases with different numbers of alpha and beta electrons are not spin-complete and not claimed. Exact arithmetic."
  },
  {
   "property": "C79",
   "status": "proved",
   "theorems": [
    "CI.C79_matrix",
    "CI.C79_eigenvalues",
    "CI.C79_reference",
    "CI.C79_correlation",
    "CI.C79_negative",
    "CI.C79_projection",
    "CI.C79_variational",
    "CI.C79_core"
   ],
   "note": "eigh is specified by what it returns (ascending eigenvalues, orthonormal eigenvectors); its existence for this matrix is proved. pyscf results (orbitals, Escf, core Hamiltonian) are parameters. Exact real arithmetic."
  },
  {
   "property": "C80",
   "status": "proved",
   "theorems": [
    "CI.C80_lists",
    "CI.C80_order",
    "CI.C80_sum",
    "CI.C80_energies",
    "CI.C80_lowest",
    "CI.C80_cisd",
    "CI.C80_truncated"
   ],
   "note": "Full bases are any lists that enumerate all excitations of the lowest determinants; such lists exist for all electron numbers (C80_lists). Exact arithmetic."
  },
  {
   "property": "C81",
   "status": "proved",
   "theorems": [
    "CI.C81_real",
    "CI.C81_ci_matrixel",
    "CI.C81_doubles",
    "CI.C81_symmetric",
    "CI.C81_gci_matrixel",
    "CI.C81_H_on_vec",
    "CI.C81_gH_on_vec",
    "CI.C81_cisd",
    "CI.C81_cis",
    "CI.C81_not_symmetric"
   ],
   "note": "Assumes no overflow. The bound for eigh (eps per element of a nearby symmetric matrix with the same lower triangle) is a hypothesis about numpy.linalg.eigh."
  },
  {
   "property": "C82",
   "status": "proved",
   "theorems": [
    "CC.Tests.C82_norm2",
    "CC.Tests.C82_norm4",
    "CC.Tests.C82_ccsd_stanton",
    "CC.Tests.C82_ccd",
    "CC.Tests.C82_ccd_stanton",
    "CC.Tests.C82_ucc_energy",
    "CC.Tests.C82_uccsd",
    "CC.Tests.C82_rcc_energy",
    "CC.Tests.C82_rccsd",
    "CC.Tests.C82_lambda_ccsd_opt",
    "CC.Tests.C82_lambda_ccsd_stanton",
    "CC.Tests.C82_lambda_ccsd_opt_int",
    "CC.Tests.C82_lambda_ccd",
    "CC.Tests.C82_uccsd_lambda",
    "CC.Tests.C82_rccsd_lambda",
    "CC.Tests.C82_1rdm_opt",
    "CC.Tests.C82_2rdm_opt",
    "CC.Tests.C82_r1rdm",
    "CC.Tests.C82_r2rdm",
    "CC.Tests.C82_u1rdm",
    "CC.Tests.C82_u2rdm",
    "CC.Tests.C82_F_sym",
    "CC.Tests.C82_F_sym_false_alarm",
    "CC.Tests.C82_F_sym_vv",
    "CC.Tests.C82_I_sym",
    "CC.Tests.C82_I",
    "CC.Tests.C82_T",
    "CC.Tests.C82_T_weak",
    "CC.Tests.C82_T_meant",
    "CC.Tests.C82_Isym",
    "CC.Tests.C82_int_sym",
    "CC.Tests.C82_Tsym",
    "CC.Tests.C82_Lsym",
    "CC.Tests.C82_ft_D_sym",
    "CC.Tests.C82_ft_int_sym",
    "CC.Tests.C82_ft_Tsym",
    "CC.Tests.C82_D1",
    "CC.Tests.C82_D2",
    "CC.Tests.C82_vector"
   ],
   "note": "Exact arithmetic. Not modelled: the assertions on array shapes in test_ft_Tsym and the tests that need pyscf. test_block_diag is covered by C25, the CI tests by C76-C81, the remaining tests of ft_utils by C28-C30."
  },
  {
   "property": "C83",
   "status": "proved",
   "theorems": [
    "CI.Tests.C83_mat_on_vec",
    "Ft.Tests.C83_difference",
    "Ft.Tests.C83_particle_hole",
    "Ft.Tests.C83_difference_tail",
    "Ft.Tests.C83_difference_any",
    "Ft.Tests.C83_test",
    "Ft.Tests.C83_test_tail",
    "Ft.Tests.C83_test_dfermi",
    "Ft.Tests.C83_test_dGP0"
   ],
   "note": "Exact arithmetic. The tables of test_fermi and test_vfermi are not checked (literals; C28 and C70 bound the error of the functions for all inputs)."
  },
  {
   "property": "C84",
   "status": "proved",
   "theorems": [
    "Binary.C84_nearest",
    "Ft.C84_ft",
    "CC.Num.C84_odd",
    "CI.C84_ci",
    "Heap.C84_cc_real",
    "Heap.C84_cc_complex"
   ],
   "note": "No overflow here (for ft_utils see C85). exp and log are taken to be correctly rounded in the instance; the theorems of C70 need less. Sums are taken one term after the other."
  },
  {
   "property": "C85",
   "status": "proved",
   "theorems": [
    "Ft.Mach.C85_no_overflow",
    "Ft.Mach.C85_occupations",
    "Ft.Mach.C85_grand",
    "Ft.Mach.C85_zero_temperature",
    "Ft.Mach.C85_infinite_temperature",
    "Ft.Mach.C85_derivative_overflow",
    "Ft.Mach.C85_derivative_underflow",
    "Ft.C85_double",
    "Ft.C85_double_range",
    "Ft.C85_double_overflow",
    "Ft.C85_double_underflow",
    "Ft.C85_special"
   ],
   "note": "The sign of zero is not modelled: a zero divisor (beta or beta*beta) counts as +0. Division by zero is numpy's (inf or NaN with a warning), as one operand always comes from numpy.exp or numpy.log."
  },
  {
   "property": "C86",
   "status": "proved",
   "theorems": [
    "Eri.Tests.C86_near2",
    "Eri.Tests.C86_near4",
    "Eri.Tests.C86_test_phys",
    "Eri.Tests.C86_test_u",
    "Eri.Tests.C86_na",
    "Eri.Tests.C86_test_fock",
    "Eri.Tests.C86_test_fock_raises",
    "Eri.Tests.C86_test_fock_sol",
    "Eri.Tests.C86_test_eri_sol_k",
    "Eri.Tests.C86_test_eri_sol_kpts",
    "Eri.Tests.C86_test_integrals_kpts"
   ],
   "note": "pyscf's Fock matrices, energies and eris are specified by their textbook definitions in Model/IntTests, with the first orbitals occupied and no exchange divergence correction (exxdiv=None, as the test has). Exact arithmetic."
  },
  {
   "property": "C87",
   "status": "proved",
   "theorems": [
    "CI.Re.C87_gmakeCfromT",
    "CI.Re.C87_gmakeCfromT_real",
    "CI.Re.C87_makeCfromT",
    "CI.Re.C87_makeCfromT_real",
    "CI.Re.C87_s_on_vec",
    "CI.Re.C87_s_on_vec_real",
    "CI.Re.C87_sa_on_vec",
    "CI.Re.C87_sa_on_vec_real",
    "CI.Re.C87_sb_on_vec",
    "CI.Re.C87_sb_on_vec_real",
    "CI.Re.C87_d_on_vec",
    "CI.Re.C87_d_on_vec_real",
    "CI.Re.C87_da_on_vec",
    "CI.Re.C87_da_on_vec_real",
    "CI.Re.C87_db_on_vec",
    "CI.Re.C87_db_on_vec_real",
    "CI.Re.C87_sasb_on_vec",
    "CI.Re.C87_sasb_on_vec_real",
    "CI.Re.C87_H_on_vec",
    "CI.Re.C87_gH_on_vec",
    "CI.Re.C87_H_on_vec_real",
    "CI.Re.C87_gH_on_vec_real",
    "CI.Re.C87_makeCfromT_refuted",
    "CI.Re.C87_s_on_vec_refuted"
   ],
   "note": "The claim that the routines are exact for complex input is refuted (C87_makeCfromT_refuted, C87_s_on_vec_refuted); what they return is proved. NumPy's rule for storing a complex scalar in a real array (real part, with a ComplexWarning) is part of the model."
  },
  {
   "property": "C88",
   "status": "proved",
   "theorems": [
    "Ft.C88_double",
    "Ft.C88_dgrand_potential",
    "Ft.C88_vectors",
    "Ft.C88_cancellation"
   ],
   "note": "The arithmetic is that of C70 and C84 (rounding after each operation; exp and log within one unit of roundoff). Overflow is the subject of C85."
  },
  {
   "property": "C89",
   "status": "proved",
   "theorems": [
    "Heap.C89_stanton_restricted",
    "Heap.C89_stanton_unrestricted",
    "Heap.C89_lambda_restricted",
    "Heap.C89_lambda_unrestricted",
    "Heap.C89_stanton_simple",
    "Heap.C89_lambda_opt_simple",
    "Heap.C89_2rdm_bcai_opt_refuted",
    "Heap.C89_simple_refuted",
    "Heap.C89_cc_energy_d",
    "Heap.C89_cc_energy_s1",
    "Heap.C89_cc_energy_s2",
    "Heap.C89_cc_energy_s2_a",
    "Heap.C89_cc_energy",
    "Heap.C89_mp2_energy",
    "Heap.C89_lccd_simple",
    "Heap.C89_lccsd_simple",
    "Heap.C89_ccd_simple",
    "Heap.C89_ccd_ladder_simple",
    "Heap.C89_ccd_ring_simple",
    "Heap.C89_ccsd_simple",
    "Heap.C89_ccsd_stanton",
    "Heap.C89_ccd_stanton",
    "Heap.C89_lambda_int",
    "Heap.C89_ccd_lambda_simple",
    "Heap.C89_ccsd_lambda_opt",
    "Heap.C89_ccsd_lambda_stanton",
    "Heap.C89_ccsd_lambda_opt_int",
    "Heap.C89_ccsd_lambda_simple",
    "Heap.C89_ccsd_1rdm_ba",
    "Heap.C89_ccsd_1rdm_ji",
    "Heap.C89_ccsd_1rdm_ai",
    "Heap.C89_ccsd_2rdm_cdab",
    "Heap.C89_ccsd_2rdm_ciab",
    "Heap.C89_ccsd_2rdm_bcai",
    "Heap.C89_ccsd_2rdm_bjai",
    "Heap.C89_ccsd_2rdm_abij",
    "Heap.C89_ccsd_2rdm_jkai",
    "Heap.C89_ccsd_2rdm_kaij",
    "Heap.C89_ccsd_2rdm_klij",
    "Heap.C89_ccsd_1rdm_ai_opt",
    "Heap.C89_ccsd_2rdm_cdab_opt",
    "Heap.C89_ccsd_2rdm_bcai_opt",
    "Heap.C89_ccsd_2rdm_bjai_opt",
    "Heap.C89_ccsd_2rdm_abij_opt",
    "Heap.C89_ccsd_2rdm_kaij_opt",
    "Heap.C89_ccsd_2rdm_klij_opt",
    "Heap.C89_rcc_energy",
    "Heap.C89_rccsd_stanton",
    "Heap.C89_rccsd_lambda_opt",
    "Heap.C89_rccsd_1rdm_ba",
    "Heap.C89_rccsd_1rdm_ji",
    "Heap.C89_rccsd_1rdm_ai",
    "Heap.C89_rccsd_2rdm_ciab",
    "Heap.C89_rccsd_2rdm_jkai",
    "Heap.C89_rccsd_2rdm_cdab",
    "Heap.C89_rccsd_2rdm_bjai",
    "Heap.C89_rccsd_2rdm_bjia",
    "Heap.C89_rccsd_2rdm_klij",
    "Heap.C89_rccsd_2rdm_bcai",
    "Heap.C89_rccsd_2rdm_kaij",
    "Heap.C89_rccsd_2rdm_abij",
    "Heap.C89_ucc_energy",
    "Heap.C89_ump2_energy",
    "Heap.C89_uccsd_stanton",
    "Heap.C89_uccsd_lambda_opt",
    "Heap.C89_uccsd_1rdm_ba",
    "Heap.C89_uccsd_1rdm_ji",
    "Heap.C89_uccsd_1rdm_ai",
    "Heap.C89_uccsd_2rdm_ciab",
    "Heap.C89_uccsd_2rdm_jkai",
    "Heap.C89_uccsd_2rdm_cdab",
    "Heap.C89_uccsd_2rdm_bjai",
    "Heap.C89_uccsd_2rdm_klij",
    "Heap.C89_uccsd_2rdm_bcai",
    "Heap.C89_uccsd_2rdm_kaij",
    "Heap.C89_uccsd_2rdm_abij"
   ],
   "note": "einsum is taken to run one loop nest over all indices of its subscripts, with one multiplication per operand (beyond the first) and one addition per point, which is numpy.einsum without optimize. pyscf.lib.einsum, which contracts three operands pairwise, is not modelled."
  },
  {
   "property": "C90",
   "status": "proved",
   "theorems": [
    "CI.C90_enumerates",
    "CI.C90_strings",
    "CI.C90_q_strings",
    "CI.C90_unrestricted",
    "CI.C90_general",
    "CI.C90_vibrational",
    "CI.C90_full"
   ],
   "note": "The length of q_strings follows the code as it stands, in which two of the eight loops run over the values of the occupation array (C34)."
  },
  {
   "property": "C91",
   "status": "proved",
   "theorems": [
    "CI.C91_raize",
    "CI.C91_lower",
    "CI.C91_inverse",
    "CI.C91_commute",
    "CI.C91_index",
    "CI.C91_generated",
    "CI.C91_closed"
   ],
   "note": "Mode indices are natural numbers; Python's negative indices are not modelled."
  },
  {
   "property": "C92",
   "status": "proved",
   "theorems": [
    "CI.Memo.C92_new_list",
    "CI.Memo.C92_new_array",
    "CI.Memo.C92_excite",
    "CI.Memo.C92_raize",
    "CI.Memo.C92_lower",
    "CI.Memo.C92_level",
    "CI.Memo.C92_strings",
    "CI.Memo.C92_general_bases",
    "CI.Memo.C92_vibrational",
    "CI.Memo.C92_independent",
    "CI.Memo.C92_ucis",
    "CI.Memo.C92_ucisd",
    "CI.Memo.C92_ucisdt",
    "CI.Memo.C92_ucisdtq",
    "CI.Memo.C92_shared",
    "CI.Memo.C92_s_on_vec",
    "CI.Memo.C92_sa_on_vec",
    "CI.Memo.C92_sb_on_vec",
    "CI.Memo.C92_da_on_vec",
    "CI.Memo.C92_db_on_vec",
    "CI.Memo.C92_d_on_vec",
    "CI.Memo.C92_sasb_on_vec",
    "CI.Memo.C92_H_on_vec",
    "CI.Memo.C92_gH_on_vec",
    "CI.Memo.C92_kept"
   ],
   "note": "gmakeCfromT and makeCfromT, which only call excite and write into the array they make, are not part of the memory model; attributes n and occ are taken not to be rebound."
  },
  {
   "property": "C93",
   "status": "proved",
   "theorems": [
    "CC.C93_orders",
    "CC.C93_second_order",
    "CC.C93_multipliers",
    "CC.C93_wigner",
    "CC.C93_unrestricted",
    "CC.C93_restricted"
   ],
   "note": "The norm is the maximum of the moduli of the amplitudes; the solution is any antisymmetric one of norm at most one, which exists and is unique for small c by C66 and C73."
  },
  {
   "property": "C94",
   "status": "proved",
   "theorems": [
    "Heap.C94_simple",
    "Heap.C94_runs",
    "Heap.C94_stanton",
    "Heap.C94_energy",
    "Heap.C94_converges"
   ],
   "note": "The update itself is the caller's (as in C66): divide each element of the residual by the element of the denominator array and subtract, every operation with a relative error of at most u. The constant C may grow with k; C95 shows that for some orbital energies it must."
  },
  {
   "property": "C95",
   "status": "proved",
   "theorems": [
    "CC.C95_step_simple",
    "CC.C95_unstable_simple",
    "CC.C95_stable_simple",
    "CC.C95_shift_simple",
    "CC.C95_step_stanton",
    "CC.C95_unstable_stanton",
    "CC.C95_stable_stanton",
    "CC.C95_shift_stanton",
    "CC.C95_step_stanton_v",
    "CC.C95_unstable_stanton_v",
    "CC.C95_stable_stanton_v",
    "CC.C95_shift_stanton_v",
    "CC.C95_marginal",
    "CC.C95_occupied_only"
   ],
   "note": "The update is the caller's (as in C66). The norm is the maximum of the moduli of the amplitudes."
  },
  {
   "property": "C96",
   "status": "proved",
   "theorems": [
    "Heap.C96_cleaned",
    "Heap.C96_energy",
    "Heap.C96_attains",
    "Heap.C96_residual",
    "Heap.C96_stops",
    "Heap.C96_local",
    "Heap.C96_weak",
    "Heap.C96_binary",
    "Heap.C96_binary_weak"
   ],
   "note": "The update and the antisymmetrisation are the caller's (as in C66, C94, C95); without it the part symmetric in both pairs is never damped (C95), so no bound uniform in the number of updates exists. The constants are not computed. Overflow is not modelled. Rounding commutes with signs in IEEE round-to-nearest, which C96_binary proves for the binary arithmetic of C84."
  },
  {
   "property": "C97",
   "status": "proved",
   "theorems": [
    "Heap.C97_attains",
    "Heap.C97_residual",
    "Heap.C97_pipeline",
    "Heap.C97_weak"
   ],
   "note": "The updates and the antisymmetrisation are the caller's, as in C66 and C96. The constants are not computed. Overflow is not modelled."
  },
  {
   "property": "C98",
   "status": "proved",
   "theorems": [
    "Heap.C98_paired",
    "Heap.C98_attains",
    "Heap.C98_residual",
    "Heap.C98_lambda_attains",
    "Heap.C98_weak",
    "Heap.C98_binary",
    "Heap.C98_odd_step",
    "Heap.C98_spurious",
    "Heap.C98_odd_stays"
   ],
   "note": "The updates and the symmetrisation are the caller's. The constants are not computed. Overflow is not modelled."
  },
  {
   "property": "C99",
   "status": "proved",
   "theorems": [
    "Heap.C99_cleaned",
    "Heap.C99_attains",
    "Heap.C99_residual",
    "Heap.C99_lambda_attains",
    "Heap.C99_pipeline",
    "Heap.C99_weak"
   ],
   "note": "The updates and the antisymmetrisation are the caller's. The constants are not computed. Overflow is not modelled."
  },
  {
   "property": "C100",
   "status": "proved",
   "theorems": [
    "Eri.C100_exact",
    "Eri.C100_get_phys_last",
    "Eri.C100_get_phys_antiu_last",
    "Eri.C100_get_physu_all_last",
    "Eri.C100_get_physu_all_first",
    "Eri.C100_get_phys_antiu",
    "Eri.C100_get_physu_all",
    "Eri.C100_first",
    "Eri.C100_first_refuted",
    "Eri.C100_blocks",
    "Eri.C100_arguments",
    "Eri.C100_ccsd",
    "Eri.C100_int_to_spin_exact",
    "Eri.C100_int_to_spin",
    "Eri.C100_int_to_spin_anti"
   ],
   "note": "pyscf's arithmetic enters only as an error bound eps on the arrays it returns, and as the assumption that two calls with the same arguments return the same array. For the integrals with k points see C102."
  },
  {
   "property": "C101",
   "status": "proved",
   "theorems": [
    "CI.FlExp.C101_gmakeCfromT",
    "CI.FlExp.C101_makeCfromT",
    "CI.FlExp.C101_exact",
    "CI.FlExp.C101_cluster",
    "CI.FlExp.C101_ccsd",
    "CI.FlExp.C101_s_on_vec",
    "CI.FlExp.C101_sa_on_vec",
    "CI.FlExp.C101_sb_on_vec",
    "CI.FlExp.C101_d_on_vec",
    "CI.FlExp.C101_da_on_vec",
    "CI.FlExp.C101_db_on_vec",
    "CI.FlExp.C101_sasb_on_vec",
    "CI.FlExp.C101_ucluster",
    "CI.FlExp.C101_uccsd"
   ],
   "note": "The constant is not computed. Real amplitudes; for complex ones see C87. Overflow is not modelled."
  },
  {
   "property": "C102",
   "status": "proved",
   "theorems": [
    "Eri.C102_exact",
    "Eri.C102_exact_h1",
    "Eri.C102_zero",
    "Eri.C102_last",
    "Eri.C102_first",
    "Eri.C102_h2",
    "Eri.C102_orders",
    "Eri.C102_get_phys_solk",
    "Eri.C102_h2_near",
    "Eri.C102_h1",
    "Eri.C102_h1_hermitian"
   ],
   "note": "pyscf's own arrays are a parameter; that its table kconserv expresses conservation of momentum is assumed (Conserves)."
  },
  {
   "property": "C103",
   "status": "proved",
   "theorems": [
    "CI.C103_signed_level",
    "CI.C103_signed",
    "CI.C103_signed_u",
    "CI.C103_bool",
    "CI.C103_bool_u",
    "CI.C103_unsigned_level",
    "CI.C103_unsigned_zero",
    "CI.C103_unsigned_zero_u",
    "CI.C103_unsigned_diagonal",
    "CI.C103_unsigned_refuted"
   ],
   "note": "Both strings of a call have the same element type. numpy.uint64 and floating-point occupations are not modelled."
  },
  {
   "property": "C104",
   "status": "proved",
   "theorems": [
    "CI.C104_nonnegative",
    "CI.C104_string",
    "CI.C104_range",
    "CI.C104_both_negative",
    "CI.C104_from_negative",
    "CI.C104_to_negative",
    "CI.C104_last_from",
    "CI.C104_last_to",
    "CI.C104_refuted",
    "CI.C104_phonon"
   ],
   "note": "The property users rely on (the numbering does not matter) is refuted (C104_refuted); the theorems give the sign in every case. Only excite, raize and lower are modelled with integer indices: the routines of ci_utils call them with numbers from range or enumerate."
  },
  {
   "property": "C105",
   "status": "proved",
   "theorems": [
    "Heap.C105_range",
    "Heap.C105_shapes",
    "Heap.C105_uniform",
    "Heap.C105_in_range",
    "Heap.C105_cc_energy_d",
    "Heap.C105_cc_energy_s1",
    "Heap.C105_cc_energy_s2",
    "Heap.C105_cc_energy_s2_a",
    "Heap.C105_cc_energy",
    "Heap.C105_mp2_energy",
    "Heap.C105_lccd_simple",
    "Heap.C105_lccsd_simple",
    "Heap.C105_ccd_simple",
    "Heap.C105_ccd_ladder_simple",
    "Heap.C105_ccd_ring_simple",
    "Heap.C105_ccsd_simple",
    "Heap.C105_ccsd_stanton",
    "Heap.C105_ccd_stanton",
    "Heap.C105_lambda_int",
    "Heap.C105_ccd_lambda_simple",
    "Heap.C105_ccsd_lambda_opt",
    "Heap.C105_ccsd_lambda_stanton",
    "Heap.C105_ccsd_lambda_opt_int",
    "Heap.C105_ccsd_lambda_simple",
    "Heap.C105_ccsd_1rdm_ba",
    "Heap.C105_ccsd_1rdm_ji",
    "Heap.C105_ccsd_1rdm_ai",
    "Heap.C105_ccsd_2rdm_cdab",
    "Heap.C105_ccsd_2rdm_ciab",
    "Heap.C105_ccsd_2rdm_bcai",
    "Heap.C105_ccsd_2rdm_bjai",
    "Heap.C105_ccsd_2rdm_abij",
    "Heap.C105_ccsd_2rdm_jkai",
    "Heap.C105_ccsd_2rdm_kaij",
    "Heap.C105_ccsd_2rdm_klij",
    "Heap.C105_ccsd_1rdm_ai_opt",
    "Heap.C105_ccsd_2rdm_cdab_opt",
    "Heap.C105_ccsd_2rdm_bcai_opt",
    "Heap.C105_ccsd_2rdm_bjai_opt",
    "Heap.C105_ccsd_2rdm_abij_opt",
    "Heap.C105_ccsd_2rdm_kaij_opt",
    "Heap.C105_ccsd_2rdm_klij_opt",
    "Heap.C105_ucc_energy",
    "Heap.C105_ump2_energy",
    "Heap.C105_uccsd_stanton",
    "Heap.C105_uccsd_lambda_opt",
    "Heap.C105_uccsd_1rdm_ba",
    "Heap.C105_uccsd_1rdm_ji",
    "Heap.C105_uccsd_1rdm_ai",
    "Heap.C105_uccsd_2rdm_ciab",
    "Heap.C105_uccsd_2rdm_jkai",
    "Heap.C105_uccsd_2rdm_cdab",
    "Heap.C105_uccsd_2rdm_bjai",
    "Heap.C105_uccsd_2rdm_klij",
    "Heap.C105_uccsd_2rdm_bcai",
    "Heap.C105_uccsd_2rdm_kaij",
    "Heap.C105_uccsd_2rdm_abij",
    "Heap.C105_rcc_energy",
    "Heap.C105_rccsd_stanton",
    "Heap.C105_rccsd_lambda_opt",
    "Heap.C105_rccsd_1rdm_ba",
    "Heap.C105_rccsd_1rdm_ji",
    "Heap.C105_rccsd_1rdm_ai",
    "Heap.C105_rccsd_2rdm_ciab",
    "Heap.C105_rccsd_2rdm_jkai",
    "Heap.C105_rccsd_2rdm_cdab",
    "Heap.C105_rccsd_2rdm_bjai",
    "Heap.C105_rccsd_2rdm_bjia",
    "Heap.C105_rccsd_2rdm_klij",
    "Heap.C105_rccsd_2rdm_bcai",
    "Heap.C105_rccsd_2rdm_kaij",
    "Heap.C105_rccsd_2rdm_abij",
    "Heap.C105_nearest",
    "Heap.C105_binary",
    "Heap.C105_overflows",
    "Heap.C105_refines"
   ],
   "note": "Elements that are not finite are one value (none) about which nothing is assumed; the arithmetic is assumed to give finite numbers with small errors while exact results, and the intermediate results of einsum as bounded by H, are in range. The sizes are given by recursion over the program of a routine, not as formulas."
  },
  {
   "property": "C106",
   "status": "proved",
   "theorems": [
    "Heap.C106_call",
    "Heap.C106_step",
    "Heap.C106_attains",
    "Heap.C106_weak",
    "Heap.C106_ieee"
   ],
   "note": "The iteration around the routines is the caller's (the package has no driver); it is modelled as in C96. Quotients are assumed accurate for finite numbers, a divisor other than zero and an exact quotient in range. The contraction of exact updates is a hypothesis in C106_attains and proved for weak perturbations in C106_weak."
  },
  {
   "property": "C107",
   "status": "proved",
   "theorems": [
    "Ft.C107_far",
    "Ft.C107_exists",
    "Ft.C107_bracket",
    "Ft.C107_bisection",
    "Ft.C107_not_unique",
    "Ft.C107_exact",
    "Ft.C107_accuracy",
    "Ft.C107_zero_temperature",
    "Ft.C107_infinite_temperature"
   ],
   "note": "In exact real arithmetic; for rounded arithmetic see C70 and C88. The search for the chemical potential is the caller's (the package has none)."
  },
  {
   "property": "C108",
   "status": "proved",
   "theorems": [
    "Ft.C108_free_energy",
    "Ft.C108_free_energy_total",
    "Ft.C108_particle_hole",
    "Ft.C108_entropy_range",
    "Ft.C108_entropy_jump",
    "Ft.C108_below",
    "Ft.C108_gibbs",
    "Ft.C108_third_law",
    "Ft.C108_third_law_total",
    "Ft.C108_hot",
    "Ft.C108_derivative_iff"
   ],
   "note": "Real arithmetic. C75 states the same laws within the first cut-off or up to errors; here they are exact, or refuted."
  },
  {
   "property": "C109",
   "status": "proved",
   "theorems": [
    "Heap.C109_step",
    "Heap.C109_attains",
    "Heap.C109_pipeline"
   ],
   "note": "Generalised-orbital routines; for weak perturbations the assumption of contraction holds (example, with C66). Omega_0 is shown to exist, not computed."
  },
  {
   "property": "C110",
   "status": "proved",
   "theorems": [
    "Heap.C110_call",
    "Heap.C110_update",
    "Heap.C110_attains",
    "Heap.C110_lambda_attains",
    "Heap.C110_pipeline",
    "Heap.C110_weak"
   ],
   "note": "Unrestricted counterpart of C106 and C109. Omega_0 is shown to exist, not computed."
  },
  {
   "property": "C111",
   "status": "proved",
   "theorems": [
    "Heap.C111_update",
    "Heap.C111_attains",
    "Heap.C111_lambda_attains",
    "Heap.C111_pipeline",
    "Heap.C111_weak",
    "Heap.C111_ieee"
   ],
   "note": "Restricted counterpart of C106, C109 and C110. Omega_0 is shown to exist, not computed."
  },
  {
   "property": "C112",
   "status": "proved",
   "theorems": [
    "CC.C112_update",
    "CC.C112_iterates",
    "CC.C112_lambda_update",
    "CC.C112_lambda_iterates",
    "CC.C112_spin_update",
    "CC.C112_spin_lambda_update",
    "CC.C112_spin_iterates",
    "CC.C112_spin_lambda_iterates",
    "CC.C112_energies",
    "Heap.C112_agree",
    "CC.C112_densities",
    "CC.C112_spin_densities"
   ],
   "note": "The exact part holds for all closed-shell integrals (between unrestricted and generalized: for all integrals); the rounded part for weak perturbations of a diagonal problem with a gap, and compares the restricted with the unrestricted calculation only."
  },
  {
   "property": "C113",
   "status": "proved",
   "theorems": [
    "CC.C113_update",
    "CC.C113_iterates",
    "CC.C113_limit",
    "CC.C113_copies",
    "CC.C113_r_update",
    "CC.C113_r_iterates",
    "CC.C113_u_update",
    "CC.C113_u_iterates",
    "CC.C113_lambda_update",
    "CC.C113_lambda_iterates",
    "CC.C113_two_iterates",
    "CC.C113_density",
    "CC.C113_lambda_limit"
   ],
   "note": "Exact arithmetic. The denominators that mix subsystems must not vanish in numpy (0/0 is nan there; in the model a quotient by zero is zero, and the numerators are zero). Multipliers do couple subsystems (C52_lambda_coupling); for two subsystems and the generalized equations they are followed through updates, for the restricted and unrestricted ones not."
  },
  {
   "property": "C114",
   "status": "proved",
   "theorems": [
    "CC.C114_update",
    "CC.C114_iterates",
    "CC.C114_lambda_update",
    "CC.C114_lambda_iterates",
    "CC.C114_r_update",
    "CC.C114_r_lambda_update",
    "CC.C114_r_iterates",
    "CC.C114_u_update",
    "CC.C114_u_lambda_update",
    "CC.C114_u_iterates",
    "CC.C114_needs_level"
   ],
   "note": "Exact arithmetic. Division by vanishing denominators is zero in the model and infinite or nan in numpy."
  },
  {
   "property": "C115",
   "status": "proved",
   "theorems": [
    "CC.C115_update",
    "CC.C115_lambda_update",
    "CC.C115_iterates",
    "CC.C115_r_update",
    "CC.C115_r_lambda_update",
    "CC.C115_r_iterates",
    "CC.C115_u_update",
    "CC.C115_u_lambda_update",
    "CC.C115_u_iterates",
    "CC.C115_real"
   ],
   "note": "Exact arithmetic. Division by vanishing denominators is zero in the model and infinite or nan in numpy."
  }
 ]
}