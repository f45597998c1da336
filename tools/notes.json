{
 "C01": {
  "note": "Both implementations equal the textbook spin-orbital CCSD residuals (Spec.singles, Spec.doubles) for arbitrary index types, antisymmetric T2 and integrals with the two antisymmetries."
 },
 "C02": {
  "note": "Both CCD routines agree, and equal the doubles part of CCSD at T1 = 0."
 },
 "C03": {
  "note": "All spin-orbital T2 updates except the ring-only routine preserve antisymmetry, hence so do all iterates; for the ring-only routine only pair symmetry holds and a counterexample to antisymmetry is proved."
 },
 "C34": {
  "status": "partial",
  "note": "The claim is false for the code: q_strings loops over occupation values instead of indices, so it lists each quadruple it has exactly m(n-m) times (C34_multiplicity; C34_refuted, an exact characterisation of when the list is right) and misses some with five or more electrons (C34_incomplete). Proved: exact membership and soundness."
 },
 "C35": {
  "note": "ci_matrixel: proved for all determinants of equal particle numbers. gci_matrixel is a second entry point; it loses a sign for some double differences: proved up to that sign (C35_gci_partial), with the wrong sign exhibited for all integrals (C35_gci_refuted)."
 },
 "C37": {
  "note": "makeCfromT and gmakeCfromT proved for the reference and orders 1-3 without size bound (gmakeCfromT when given the occupation of the reference of the basis; its default occupation always raises, C37_g_default_refuted)."
 },
 "C46": {
  "status": "partial",
  "note": "False. makeCfromT: order 4 omits the term T1b^2 T2aa / 2, refuted for all T1, T2 with that term non-zero (C46_order4_refuted). All inputs are settled: with fewer than four occupied or empty orbitals per spin exactly that term is missing (C46_order4_partial); with four electrons of a spin the repeated entries of the basis are left zero as well (C46_makeCfromT_four); with five or more electrons and four or more empty orbitals of a spin ValueError is raised (C46_makeCfromT_error). gmakeCfromT: right with fewer than four occupied or virtual orbitals (C46_gmakeCfromT_4), right at the first places with four (C46_gmakeCfromT_four), ValueError beyond (C46_gmakeCfromT_error)."
 },
 "C39": {
  "note": "All molecular and gamma-point functions; get_chem_anti passes its first orbital set twice: refuted (C39_get_chem_anti_refuted) and proved when the first two sets coincide (C39_get_chem_anti)."
 },
 "C40": {
  "note": "All codes and occupations; link to the antisymmetry hypotheses of the coupled-cluster theorems in C40_antisymmetric."
 },
 "C41": {
  "note": "That kconserv holds the momentum-conserving index is an assumption on PySCF (structure Conserves)."
 },
 "C42": {
  "note": "Every routine of cc_equations.py and cc_energy.py transcribed statement by statement into a language with references; soundness of an ownership check proved by induction on programs. Also proved: no unbound names, returned arrays are new, values agree with the semantics without references used by the other models."
 },
 "C47": {
  "note": "ladder and ring values given as explicit sums; ccd_ring_simple alone is only symmetric under exchange of both pairs, its antisymmetriser is exhibited"
 },
 "C48": {
  "note": "proved in an arbitrary representation of the anticommutation relations with a reference state by dressing the operators (o e^T = e^T(o+[o,T])) and Wick reduction; instance: Jordan-Wigner operators on Fock space (Props/FockRep)"
 },
 "C49": {
  "note": "from C48 and C10 by uniqueness of the coefficients of an antisymmetric two-body operator; the vo block of the 1-RDM and the vvoo block of the 2-RDM, which the code does not compute, are L1 and L2"
 },
 "C50": {
  "note": "from C48 and C06 by comparing coefficients of the shift parameter"
 },
 "C51": {
  "note": "number conservation plus C48; the example solves the equations exactly over the rationals"
 },
 "C52": {
  "note": "term by term splitting of all sums over the two subsystems; C52_lambda_coupling exhibits the (disconnected) source of the multipliers that couple the subsystems; the unrestricted energy, amplitude and Lambda equations and one-particle density matrices are in SepU (antisymmetric same-spin tensors; multipliers may couple the subsystems in every way that conserves the spin projection); SepMany extends energies and CCSD equations (generalized, unrestricted, restricted) to any number of subsystems by induction"
 },
 "C53": {
  "note": "one theorem per public routine (68); simulation between numpy semantics and tensors proved once (types_sim, tensors_sim), runs on tensors computed by the kernel and compared with Model/CC*.lean by definitional equality; einsum is numpy.einsum (pyscf.lib.einsum, used when pyscf is installed, is taken to compute the same), arithmetic exact"
 },
 "C54": {
  "note": "anomalies of the code, stated as what it does; element types are uniform within the groups integrals, amplitudes, multipliers (C54_ccd_stanton_loss: Fock matrix and two-electron integrals differ)"
 },
 "C55": {
  "note": "one theorem per public routine (68), C55_converged and C55_converged_u; a static check of which axes are bra and which ket is proved sound for all programs of the heap language (sorted_sim) and run on every routine by the kernel; exact arithmetic"
 },
 "C56": {
  "note": "amplitudes are assumed differentiable at the point; traceRdm, utraceRdm and rtraceRdm are the contractions a user writes with the arrays returned (tfac = 1); Sq.C56_hellmann_feynman states the general case by second quantisation"
 },
 "C57": {
  "note": "no convergence assumed; Sq.C57_contraction is the usual sum rule in terms of C49, the others are its blocks for the spin-orbital, unrestricted and restricted routines"
 },
 "C58": {
  "note": "implicit function theorem of Mathlib over RCLike fields; the residual maps are carried from the textbook equations to the code by C01 on antisymmetric amplitudes; existence is local (near a non-singular solution, or for weak coupling), convergence of an iteration is not claimed here"
 },
 "C59": {
  "note": "links makeCfromT/H_on_vec/ucisd_basis/ucisdt_basis (C33-C37) with uccsd_stanton/ucc_energy (C12, C13) through second quantisation; the CI coefficient carries the sign of the determinant ordering, hence the factor s = 1 or -1; rows whose doubly excited neighbours lie outside the basis are not claimed"
 },
 "C60": {
  "note": "C60_rounding and C60_exceptions hold for every program of the heap language; C60_stable and C60_<routine> add the memory and the tensors of C53. The constant is computed by running the program on pairs (value, error constant). Overflow and NaN are excluded (numbers are field elements); the ranges of exponents are not modelled."
 },
 "C61": {
  "note": "C61_<function> for all eleven functions; contents are those of the slice model CC.Num.* (C20) applied to real parts. C61_T1_round_trip and C61_complex_refuted record that imaginary parts are lost. The exact set of accepted shapes is proved for T1_to_spin; for the others only the documented shapes are covered."
 },
 "C62": {
  "note": "C62_part: assigning through a slice assigns to the array; C62_new: assigning to a new array changes nothing older; C62_<function> say which results are slices."
 },
 "C63": {
  "note": "C63_<routine> for all 68 routines. The degree of every result in the Hamiltonian is computed by running the program of C42 on degrees; C53 connects the runs to the tensors. C63_solves, C63_units, C63_conjugate, C63_real_residuals draw the conclusions for CCSD; C63_homomorphism, C63_conjugation and C63_real_data are about runs of any program on arrays, exceptions included."
 },
 "C64": {
  "note": "C64_<routine> for the 27 routines that take the Hamiltonian; C64_perturbation reads it for CCSD."
 },
 "C65": {
  "note": "C65_<routine> for the 14 residual routines; C65_shift, C65_spin_shift, C65_fixed_point, C65_lambda_fixed_point, C65_start draw the conclusions. Unrestricted routines in characteristic zero, by C13 and C15."
 },
 "C66": {
  "note": "C66_converges and C66_lambda_converges by the contraction principle on antisymmetric amplitudes; C66_local from strict differentiability. The update itself is the caller's loop, written out in Props/Iterate from the routine and the denominators."
 },
 "C67": {
  "note": "C67_second_order: the Lagrangian (C10) is twice continuously differentiable and stationary at solutions (C06). C67_iteration combines it with C66."
 },
 "C68": {
  "note": "C68_diagonal, C68_nested, C68_reference and the general versions for every enumerated set of excitations; C68_ucis_ucisd_ucisdt, C68_gcis_gcisd_gcisdt, C68_ucisdtq for the lists the code returns; C68_ucisdtq_refuted for the repeated quadruples (C34)."
 },
 "C69": {
  "note": "C69_<routine> for the 59 public routines with arrays as results, by a simulation of the programs of Model/HeapProg (Grade.lean); C69_update, C69_iterates, C69_solution for the iteration of C66; C69_lambda_iterates, C69_u_iterates, C69_u_lambda_iterates, C69_r_iterates, C69_r_lambda_iterates for multipliers and for the unrestricted and restricted iterations, with all their limits; C69_sz, C69_sz_integrals, C69_sz_blocks for the projection of the spin."
 },
 "C70": {
  "note": "Model/FtRound repeats ft_utils with a rounding after each operation; real_eq: without rounding it is the model of C28 to C30. Overflow is covered only through C70_exp_arguments. The error of dgrand_potential0 is bounded in C88."
 },
 "C71": {
  "note": "The definitions of Model/Util are generic in the numbers; class Machine lists the laws used. C71_D2_asymmetric is a witness that utils.D2 is not symmetric in the occupied orbitals in rounded arithmetic (a remark on the code, harmless within roundoff)."
 },
 "C72": {
  "note": "From the Slater-Condon theorem C35; C72_spin_flip holds for all strings, valid or not. gci_matrixel: C72_gselection (its lost signs, C35, do not matter here)."
 },
 "C73": {
  "note": "The loop itself is the caller's; the update is the standard one with the denominators of utils.py. Smoothness and Lipschitz bounds come from the generalized equations through C13, C14, C15, C16."
 },
 "C74": {
  "note": "The matrix loop of the example is modelled as the relation IsMatrix (the matrix is unique, IsMatrix.unique). pySCF's TDA energies are the eigenvalues of the two matrices singlet and triplet written out from the Fock matrix and the integrals."
 },
 "C75": {
  "note": "Real arithmetic; rounded arithmetic of the same functions is C70. Outside the cut-offs equality is false for the code, which the error terms account for."
 },
 "C76": {
  "note": "What PySCF provides (orbitals, integrals over orbitals, conservation table, orbital energies) is a parameter. Exact arithmetic."
 },
 "C77": {
  "note": "ucisdtq_basis under the condition of C33 that it lists every determinant once. Exact arithmetic."
 },
 "C78": {
  "note": "S+, S-, Sz and S^2 are the textbook operators in the Fock space of Spec/Fock. ucisdtq_basis under the condition of C33 that it lists every determinant once. Truncated bases with different numbers of alpha and beta electrons are not spin-complete and not claimed. Exact arithmetic."
 },
 "C79": {
  "note": "eigh is specified by what it returns (ascending eigenvalues, orthonormal eigenvectors); its existence for this matrix is proved. pyscf results (orbitals, Escf, core Hamiltonian) are parameters. Exact real arithmetic."
 },
 "C80": {
  "note": "Full bases are any lists that enumerate all excitations of the lowest determinants; such lists exist for all electron numbers (C80_lists). Exact arithmetic."
 },
 "C81": {
  "note": "Assumes no overflow. The bound for eigh (eps per element of a nearby symmetric matrix with the same lower triangle) is a hypothesis about numpy.linalg.eigh."
 },
 "C82": {
  "note": "Exact arithmetic. Not modelled: the assertions on array shapes in test_ft_Tsym and the tests that need pyscf. test_block_diag is covered by C25, the CI tests by C76-C81, the remaining tests of ft_utils by C28-C30."
 },
 "C83": {
  "note": "Exact arithmetic. The tables of test_fermi and test_vfermi are not checked (literals; C28 and C70 bound the error of the functions for all inputs)."
 },
 "C84": {
  "note": "No overflow here (for ft_utils see C85). exp and log are taken to be correctly rounded in the instance; the theorems of C70 need less. Sums are taken one term after the other."
 },
 "C85": {
  "note": "The sign of zero is not modelled: a zero divisor (beta or beta*beta) counts as +0. Division by zero is numpy's (inf or NaN with a warning), as one operand always comes from numpy.exp or numpy.log."
 },
 "C86": {
  "note": "pyscf's Fock matrices, energies and eris are specified by their textbook definitions in Model/IntTests, with the first orbitals occupied and no exchange divergence correction (exxdiv=None, as the test has). Exact arithmetic."
 },
 "C87": {
  "note": "The claim that the routines are exact for complex input is refuted (C87_makeCfromT_refuted, C87_s_on_vec_refuted); what they return is proved. NumPy's rule for storing a complex scalar in a real array (real part, with a ComplexWarning) is part of the model."
 },
 "C88": {
  "note": "The arithmetic is that of C70 and C84 (rounding after each operation; exp and log within one unit of roundoff). Overflow is the subject of C85."
 },
 "C89": {
  "note": "einsum is taken to run one loop nest over all indices of its subscripts, with one multiplication per operand (beyond the first) and one addition per point, which is numpy.einsum without optimize. pyscf.lib.einsum, which contracts three operands pairwise, is not modelled."
 },
 "C90": {
  "note": "The length of q_strings follows the code as it stands, in which two of the eight loops run over the values of the occupation array (C34)."
 },
 "C91": {
  "note": "Mode indices are natural numbers; Python's negative indices are not modelled."
 },
 "C92": {
  "note": "gmakeCfromT and makeCfromT, which only call excite and write into the array they make, are not part of the memory model; attributes n and occ are taken not to be rebound."
 },
 "C93": {
  "note": "The norm is the maximum of the moduli of the amplitudes; the solution is any antisymmetric one of norm at most one, which exists and is unique for small c by C66 and C73."
 },
 "C94": {
  "note": "The update itself is the caller's (as in C66): divide each element of the residual by the element of the denominator array and subtract, every operation with a relative error of at most u. The constant C may grow with k; C95 shows that for some orbital energies it must."
 },
 "C95": {
  "note": "The update is the caller's (as in C66). The norm is the maximum of the moduli of the amplitudes."
 },
 "C96": {
  "note": "The update and the antisymmetrisation are the caller's (as in C66, C94, C95); without it the part symmetric in both pairs is never damped (C95), so no bound uniform in the number of updates exists. The constants are not computed. Overflow is not modelled. Rounding commutes with signs in IEEE round-to-nearest, which C96_binary proves for the binary arithmetic of C84."
 },
 "C97": {
  "note": "The updates and the antisymmetrisation are the caller's, as in C66 and C96. The constants are not computed. Overflow is not modelled."
 },
 "C98": {
  "note": "The updates and the symmetrisation are the caller's. The constants are not computed. Overflow is not modelled."
 },
 "C99": {
  "note": "The updates and the antisymmetrisation are the caller's. The constants are not computed. Overflow is not modelled."
 },
 "C100": {
  "note": "pyscf's arithmetic enters only as an error bound eps on the arrays it returns, and as the assumption that two calls with the same arguments return the same array. For the integrals with k points see C102."
 },
 "C101": {
  "note": "The constant is not computed. Real amplitudes; for complex ones see C87. Overflow is not modelled."
 },
 "C102": {
  "note": "pyscf's own arrays are a parameter; that its table kconserv expresses conservation of momentum is assumed (Conserves)."
 },
 "C103": {
  "note": "Both strings of a call have the same element type. numpy.uint64 and floating-point occupations are not modelled."
 },
 "C104": {
  "note": "The property users rely on (the numbering does not matter) is refuted (C104_refuted); the theorems give the sign in every case. Only excite, raize and lower are modelled with integer indices: the routines of ci_utils call them with numbers from range or enumerate."
 },
 "C105": {
  "note": "Elements that are not finite are one value (none) about which nothing is assumed; the arithmetic is assumed to give finite numbers with small errors while exact results, and the intermediate results of einsum as bounded by H, are in range. The sizes are given by recursion over the program of a routine, not as formulas."
 },
 "C106": {
  "note": "The iteration around the routines is the caller's (the package has no driver); it is modelled as in C96. Quotients are assumed accurate for finite numbers, a divisor other than zero and an exact quotient in range. The contraction of exact updates is a hypothesis in C106_attains and proved for weak perturbations in C106_weak."
 },
 "C107": {
  "note": "In exact real arithmetic; for rounded arithmetic see C70 and C88. The search for the chemical potential is the caller's (the package has none)."
 },
 "C108": {
  "note": "Real arithmetic. C75 states the same laws within the first cut-off or up to errors; here they are exact, or refuted."
 },
 "C109": {
  "note": "Generalised-orbital routines; for weak perturbations the assumption of contraction holds (example, with C66). Omega_0 is shown to exist, not computed."
 },
 "C110": {
  "note": "Unrestricted counterpart of C106 and C109. Omega_0 is shown to exist, not computed."
 },
 "C111": {
  "note": "Restricted counterpart of C106, C109 and C110. Omega_0 is shown to exist, not computed."
 },
 "C112": {
  "note": "The exact part holds for all closed-shell integrals (between unrestricted and generalized: for all integrals); the rounded part for weak perturbations of a diagonal problem with a gap, and compares the restricted with the unrestricted calculation only."
 },
 "C113": {
  "note": "Exact arithmetic. The denominators that mix subsystems must not vanish in numpy (0/0 is nan there; in the model a quotient by zero is zero, and the numerators are zero). Multipliers do couple subsystems (C52_lambda_coupling); for two subsystems and the generalized equations they are followed through updates, for the restricted and unrestricted ones not."
 },
 "C114": {
  "note": "Exact arithmetic. Division by vanishing denominators is zero in the model and infinite or nan in numpy."
 },
 "C115": {
  "note": "Exact arithmetic. Division by vanishing denominators is zero in the model and infinite or nan in numpy."
 }
}