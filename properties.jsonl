{"id": "C01", "title": "Intermediate-based CCSD equals the term-by-term CCSD", "statement": "ccsd_stanton(F,I,T1,T2) and ccsd_simple(F,I,T1,T2) return the same singles and doubles arrays whenever I and T2 have the usual permutational antisymmetry.", "quantifier": "every number of occupied and virtual spin-orbitals, every F, every antisymmetric I, every T1, every antisymmetric T2 (exact arithmetic)", "why_tests_cant": "A test compares the two routines at one random point with fixed sizes; it cannot show the polynomial identity for all sizes, nor exactly which symmetries of the inputs it needs.", "anchors": ["cqcpy/cc_equations.py: ccsd_stanton, _Stanton", "cqcpy/cc_equations.py: ccsd_simple, _S_*, _D_*"]}
{"id": "C02", "title": "CCD is CCSD with the singles switched off, in both implementations", "statement": "ccd_stanton and ccd_simple agree for antisymmetric inputs, and both equal the doubles returned by ccsd_simple/ccsd_stanton when T1 is zero.", "quantifier": "all sizes, all F and antisymmetric I, T2", "why_tests_cant": "One sampled tensor cannot establish a polynomial identity or exclude a term that vanishes for the sampled shape.", "anchors": ["cqcpy/cc_equations.py: ccd_simple, ccd_stanton, _Stanton_ccd, ccsd_simple, ccsd_stanton"]}
{"id": "C03", "title": "CC iterations keep the doubles antisymmetric", "statement": "If I and T2 are antisymmetric, the doubles returned by ccsd_simple, ccsd_stanton, ccd_simple, ccd_stanton, lccd_simple, lccsd_simple and ccd_ladder_simple are antisymmetric under exchange of the two virtual and of the two occupied indices, so an arbitrarily long iteration never leaves the antisymmetric space.", "quantifier": "all sizes, inputs, and any number of iterations", "why_tests_cant": "Tests run a single iteration; preservation along every iteration history needs induction.", "anchors": ["cqcpy/cc_equations.py: ccsd_simple, ccsd_stanton, ccd_simple, ccd_stanton, lccd_simple, lccsd_simple, ccd_ladder_simple"]}
{"id": "C04", "title": "Linearised CC is the linear part of CC", "statement": "lccsd_simple (lccd_simple) is an affine function of the amplitudes with the same constant part as ccsd_simple (ccd_simple), and it is exactly the part of ccsd_simple of degree at most one in the amplitudes: ccsd_simple(s*T1, s*T2) = lccsd_simple(s*T1, s*T2) + O(s^2) with explicit polynomial remainder.", "quantifier": "all sizes, inputs and scale factors s", "why_tests_cant": "No unit test can certify a degree bound in the amplitudes.", "anchors": ["cqcpy/cc_equations.py: lccd_simple, lccsd_simple, ccd_simple, ccsd_simple"]}
{"id": "C05", "title": "The four Lambda implementations agree", "statement": "ccsd_lambda_opt, ccsd_lambda_stanton, ccsd_lambda_opt_int (called with lambda_int(F,I,T1,T2)) and ccsd_lambda_simple return the same L1 and L2 for antisymmetric inputs.", "quantifier": "all sizes, all F, antisymmetric I, T2, L2, all T1, L1", "why_tests_cant": "Comparison at one random tensor does not prove an identity between four differently factorised polynomials.", "anchors": ["cqcpy/cc_equations.py: ccsd_lambda_opt, ccsd_lambda_stanton, ccsd_lambda_opt_int, lambda_int, ccsd_lambda_simple"]}
{"id": "C06", "title": "The Lambda equations are the stationarity conditions of the CC Lagrangian", "statement": "Let Lag(T,L) = cc_energy(T) + L1.S1(T) + 1/4 L2.S2(T) with (S1,S2) the residuals of ccsd_simple. Then for every antisymmetric direction the directional derivative of Lag with respect to T1 (T2) equals the contraction of the direction with the L1 (L2) returned by ccsd_lambda_simple (and the other implementations).", "quantifier": "all sizes, inputs and directions", "why_tests_cant": "Tests only compare Lambda implementations with each other; that they differentiate the amplitude equations is a statement about all directions and all inputs.", "anchors": ["cqcpy/cc_equations.py: ccsd_lambda_simple, ccsd_simple", "cqcpy/cc_energy.py: cc_energy"]}
{"id": "C07", "title": "CCD Lambda is CCSD Lambda with singles switched off", "statement": "ccd_lambda_simple(F,I,L2,T2) equals the L2 returned by ccsd_lambda_simple with zero T1 and L1, and is the derivative of the CCD Lagrangian.", "quantifier": "all sizes and antisymmetric inputs", "why_tests_cant": "identity of polynomials over all sizes", "anchors": ["cqcpy/cc_equations.py: ccd_lambda_simple, ccsd_lambda_simple"]}
{"id": "C08", "title": "Lambda iterations keep L2 antisymmetric", "statement": "For antisymmetric I, T2, L2 the L2 returned by ccsd_lambda_simple, ccsd_lambda_opt, ccsd_lambda_stanton and ccd_lambda_simple is antisymmetric in both index pairs; hence so is every iterate.", "quantifier": "all sizes, inputs, number of iterations", "why_tests_cant": "history property", "anchors": ["cqcpy/cc_equations.py: ccsd_lambda_simple, ccsd_lambda_opt, ccsd_lambda_stanton, ccd_lambda_simple"]}
{"id": "C09", "title": "Optimised density matrices equal the simple ones", "statement": "Every ccsd_1rdm_*_opt / ccsd_2rdm_*_opt function returns the same array as its unoptimised counterpart for antisymmetric T2, L2.", "quantifier": "all sizes, all T1, L1, antisymmetric T2, L2, every tfac", "why_tests_cant": "single-sample comparison", "anchors": ["cqcpy/cc_equations.py: ccsd_1rdm_*, ccsd_2rdm_*, *_opt"]}
{"id": "C10", "title": "Density matrices reproduce the Lagrangian", "statement": "Contracting the 1- and 2-particle density blocks with the blocks of F and I gives cc_energy + L1.S1 + 1/4 L2.S2, the CC Lagrangian, for the generalized code.", "quantifier": "all sizes, all inputs with antisymmetric I, T2, L2", "why_tests_cant": "the tests evaluate this at one random input; the claim is that the densities are the response densities for every Hamiltonian", "anchors": ["cqcpy/cc_equations.py: ccsd_1rdm_*, ccsd_2rdm_*, ccsd_simple", "cqcpy/cc_energy.py: cc_energy"]}
{"id": "C11", "title": "2-particle densities are antisymmetric", "statement": "The blocks returned by ccsd_2rdm_* are antisymmetric under exchange of like-type indices in the bra and in the ket pair.", "quantifier": "all sizes, antisymmetric T2, L2, all T1, L1", "why_tests_cant": "must hold for each input", "anchors": ["cqcpy/cc_equations.py: ccsd_2rdm_cdab, _ciab, _bcai, _abij, _jkai, _kaij, _klij"]}
{"id": "C12", "title": "Unrestricted and restricted energies equal the generalized energy", "statement": "ucc_energy of spin-blocked amplitudes and integrals equals cc_energy of the spin-orbital tensors assembled by T1_to_spin, T2_to_spin, F_to_spin and int_to_spin2; rcc_energy of closed-shell amplitudes equals ucc_energy of the corresponding alpha/beta blocks.", "quantifier": "all numbers of alpha/beta occupied/virtual orbitals, all inputs with the stated symmetry", "why_tests_cant": "two random samples in the tests; the equality must hold for all orbital counts and tensors", "anchors": ["cqcpy/cc_energy.py: cc_energy, ucc_energy, rcc_energy", "cqcpy/spin_utils.py: T1_to_spin, T2_to_spin"]}
{"id": "C13", "title": "Unrestricted CCSD is generalized CCSD in spin blocks", "statement": "uccsd_stanton applied to alpha/beta blocks returns the alpha/beta blocks of what ccsd_simple (equivalently ccsd_stanton) returns on the assembled spin-orbital tensors, and all other spin blocks of the latter vanish.", "quantifier": "all orbital counts, all F blocks, all same-spin antisymmetric integrals, all mixed-spin integrals, all amplitudes", "why_tests_cant": "a 245-line hand-expanded routine checked at one random point", "anchors": ["cqcpy/cc_equations.py: uccsd_stanton, _u_Stanton", "cqcpy/spin_utils.py: F_to_spin, T1_to_spin, T2_to_spin, int_to_spin2"]}
{"id": "C14", "title": "Restricted CCSD is unrestricted CCSD for closed shells", "statement": "rccsd_stanton(F,I,T1,T2) equals the alpha / alpha-beta amplitudes returned by uccsd_stanton when alpha and beta orbitals coincide, T2 and I are symmetric under simultaneous exchange of both electrons, and the same-spin tensors are the antisymmetrised ones; the same-spin doubles returned are the antisymmetrised restricted doubles.", "quantifier": "all orbital counts and inputs with the stated symmetry", "why_tests_cant": "sampled only", "anchors": ["cqcpy/cc_equations.py: rccsd_stanton, _r_Stanton, uccsd_stanton"]}
{"id": "C15", "title": "Unrestricted Lambda is generalized Lambda in spin blocks", "statement": "uccsd_lambda_opt returns the spin blocks of ccsd_lambda_simple/ccsd_lambda_opt evaluated on assembled spin-orbital tensors.", "quantifier": "all orbital counts and inputs with the stated symmetries", "why_tests_cant": "557 lines of hand-expanded einsums, sampled once", "anchors": ["cqcpy/cc_equations.py: uccsd_lambda_opt, _uccsd_Lambda_opt, ccsd_lambda_simple"]}
{"id": "C16", "title": "Restricted Lambda is unrestricted Lambda for closed shells", "statement": "rccsd_lambda_opt equals the alpha and alpha-beta parts of uccsd_lambda_opt for closed-shell input, and the same-spin L2 is the antisymmetrised restricted L2.", "quantifier": "all orbital counts and inputs with the stated symmetry", "why_tests_cant": "sampled only", "anchors": ["cqcpy/cc_equations.py: rccsd_lambda_opt, _rccsd_Lambda_opt, uccsd_lambda_opt"]}
{"id": "C17", "title": "Unrestricted 1-particle densities are spin blocks of the generalized ones", "statement": "uccsd_1rdm_ba/ji/ai return the alpha and beta blocks of ccsd_1rdm_ba/ji/ai on assembled tensors; mixed-spin blocks of the latter vanish.", "quantifier": "all orbital counts and inputs", "why_tests_cant": "sampled through contraction with one random integral set", "anchors": ["cqcpy/cc_equations.py: uccsd_1rdm_ba, uccsd_1rdm_ji, uccsd_1rdm_ai"]}
{"id": "C18", "title": "Unrestricted 2-particle densities are spin blocks of the generalized ones", "statement": "Each spin block returned by uccsd_2rdm_* equals the corresponding block of ccsd_2rdm_* on assembled tensors.", "quantifier": "all orbital counts and inputs", "why_tests_cant": "tests compare only a contraction with one set of integrals, which cannot see errors that cancel in the sum", "anchors": ["cqcpy/cc_equations.py: uccsd_2rdm_ciab, _jkai, _cdab, _bjai, _klij, _bcai, _kaij, _abij"]}
{"id": "C19", "title": "Restricted densities are closed-shell unrestricted densities", "statement": "rccsd_1rdm_* and rccsd_2rdm_* equal the alpha (alpha-beta) blocks of the unrestricted densities for closed-shell amplitudes.", "quantifier": "all orbital counts and closed-shell inputs", "why_tests_cant": "sampled through contraction only", "anchors": ["cqcpy/cc_equations.py: rccsd_1rdm_*, rccsd_2rdm_*"]}
{"id": "C20", "title": "Spin assembly and extraction of one-particle tensors are inverse", "statement": "F_to_spatial(F_to_spin(Fa,Fb)) and T1_to_spatial(T1_to_spin(T1a,T1b)) return their inputs, mixed-spin elements of the assembled arrays are zero, and assembling extracted blocks of any array without mixed-spin elements returns it.", "quantifier": "all orbital counts (including unequal alpha/beta counts), all arrays", "why_tests_cant": "index arithmetic must be right for every split of the orbital range", "anchors": ["cqcpy/spin_utils.py: F_to_spin, F_to_spatial, T1_to_spin, T1_to_spatial"]}
{"id": "C21", "title": "Spin assembly and extraction of two-particle tensors are inverse", "statement": "T2_to_spatial(T2_to_spin(aa,ab,bb)) returns (aa,ab,bb); int_to_spatial(int_to_spin2(Ia,Ib,Iabab)) returns the three block sets; T2_to_spin gives an antisymmetric tensor when the same-spin inputs are antisymmetric.", "quantifier": "all orbital counts, all arrays", "why_tests_cant": "index arithmetic for all block shapes", "anchors": ["cqcpy/spin_utils.py: T2_to_spin, D2_to_spin, T2_to_spatial, int_to_spin2, int_to_spatial"]}
{"id": "C22", "title": "Two ways of assembling spin-orbital integrals agree", "statement": "int_to_spin on non-antisymmetrised same-spin and mixed integrals gives the same spin-orbital blocks as int_to_spin2 on antisymmetrised same-spin integrals, and both are antisymmetric.", "quantifier": "all orbital counts and integrals", "why_tests_cant": "covers every block and every index quadruple", "anchors": ["cqcpy/spin_utils.py: int_to_spin, int_to_spin2, int_to_spin_block"]}
{"id": "C23", "title": "MP2 energies are consistent", "statement": "mp2_energy equals cc_energy without the quadratic singles term; ump2_energy equals mp2_energy on assembled tensors.", "quantifier": "all sizes and inputs", "why_tests_cant": "identity over all inputs", "anchors": ["cqcpy/cc_energy.py: mp2_energy, ump2_energy, cc_energy"]}
{"id": "C24", "title": "Block containers tile the full integral array", "statement": "Every element of the full array V[p,q,r,s] appears in exactly one of the 16 blocks of make_two_e_blocks_full at the expected position, so the array can be reconstructed; make_two_e_blocks exposes nine of these blocks and nothing else.", "quantifier": "all arrays and every occupied/virtual partition given as slices", "why_tests_cant": "all partitions", "anchors": ["cqcpy/ov_blocks.py: make_two_e_blocks, make_two_e_blocks_full, two_e_blocks_full"]}
{"id": "C25", "title": "block_diag builds the direct sum", "statement": "block_diag(A,B)[i,j] is A[i,j] in the first diagonal block, B in the second, and zero elsewhere; it is multiplicative and compatible with transposition.", "quantifier": "all matrix shapes including rectangular and empty", "why_tests_cant": "shape-generic", "anchors": ["cqcpy/utils.py: block_diag"]}
{"id": "C26", "title": "Energy denominators are antisymmetric-compatible and agree across spin treatments", "statement": "D1, D2 and D2u return the stated orbital-energy differences; D2 is invariant under index exchange in either pair; the spin blocks of D2 on concatenated energies are D2/D2u of the spin energies; hence a denominator-divided update of antisymmetric doubles is antisymmetric.", "quantifier": "all energies and sizes", "why_tests_cant": "all inputs", "anchors": ["cqcpy/utils.py: D1, D2, D2u"]}
{"id": "C27", "title": "Random test tensors have the symmetries the equations need", "statement": "For any underlying random arrays, make_random_I_anti / make_random_I / make_random_T / make_random_L / make_random_Itot / make_random_Ifull return tensors with the permutational symmetries required by C01-C19.", "quantifier": "every output of the random generator", "why_tests_cant": "the random source is arbitrary; a test sees one draw", "anchors": ["cqcpy/test_utils.py: make_random_I, make_random_I_anti, make_random_T, make_random_L, make_random_Itot, make_random_Ifull"]}
{"id": "C28", "title": "Occupation functions are complementary and lie between 0 and 1", "statement": "For every energy and inverse temperature, ff and ffv (and fermi_function / vfermi_function) sum to one, each lies in [0,1], and exchanging the sign of (energy - mu) exchanges them.", "quantifier": "all real beta, epsilon, mu, including the cut-off branches", "why_tests_cant": "tests evaluate a few points; branch boundaries at +-30 need all reals", "anchors": ["cqcpy/ft_utils.py: fermi_function, vfermi_function, ff, ffv"]}
{"id": "C29", "title": "Occupation numbers decrease with orbital energy", "statement": "fermi_function is non-increasing in the energy for fixed positive beta (on each branch, and across the cut-offs up to the cut-off error).", "quantifier": "all pairs of energies", "why_tests_cant": "monotonicity quantifies over pairs of reals", "anchors": ["cqcpy/ft_utils.py: fermi_function"]}
{"id": "C30", "title": "Grand potential derivatives match", "statement": "Inside the cut-off grand_potential0 is exactly -(1/beta) log(1+exp(-beta(e-mu))) and dgrand_potential0 is its derivative with respect to beta; outside the cut-off both differ from those values by at most an explicit exponentially small bound; GP0/uGP0/dGP0 apply these elementwise.", "quantifier": "all real parameters", "why_tests_cant": "finite-difference tests check a few points", "anchors": ["cqcpy/ft_utils.py: grand_potential0, dgrand_potential0, GP0, uGP0, dGP0"]}
{"id": "C31", "title": "Determinant excitation has the fermionic sign", "statement": "Dstring.excite(i,a) either reports zero or returns the determinant with i removed and a added, with the sign of a_a^dagger a_i in the ordered-string (Jordan-Wigner) convention; the particle number is conserved; de-excitation inverts it with the same sign.", "quantifier": "all determinants of every length and every pair of orbitals", "why_tests_cant": "exponentially many determinants", "anchors": ["cqcpy/ci_utils.py: Dstring, Dstring.excite"]}
{"id": "C32", "title": "Excitation enumerations are complete and duplicate free", "statement": "s_strings, d_strings, t_strings list every n-fold excitation of the reference exactly once.", "quantifier": "every number of orbitals and electrons", "why_tests_cant": "tests check counts for one size", "anchors": ["cqcpy/ci_utils.py: s_strings, d_strings, t_strings, q_strings"]}
{"id": "C33", "title": "CI bases are complete and duplicate free", "statement": "ucis_basis, ucisd_basis, ucisdt_basis (and gcis/gcisd/gcisdt/vcis/vcisd) list each determinant of the corresponding excitation space exactly once.", "quantifier": "every number of orbitals and alpha/beta electrons", "why_tests_cant": "all sizes", "anchors": ["cqcpy/ci_utils.py: ucis_basis, ucisd_basis, ucisdt_basis, gcis_basis, gcisd_basis, gcisdt_basis, vcis_basis, vcisd_basis"]}
{"id": "C34", "title": "Quadruple excitation enumeration", "statement": "q_strings lists every quadruple excitation exactly once.", "quantifier": "every number of orbitals and electrons", "why_tests_cant": "tests never exercise five or more occupied orbitals", "anchors": ["cqcpy/ci_utils.py: q_strings, ucisdtq_basis, gcisdtq_basis"]}
{"id": "C35", "title": "Hamiltonian matrix elements follow the Slater-Condon rules", "statement": "ci_matrixel(bra,ket) equals the second-quantised matrix element <bra|H|ket> of the spin-blocked Hamiltonian for determinants with equal particle numbers.", "quantifier": "all determinants of all lengths, all integrals", "why_tests_cant": "exponentially many pairs of determinants", "anchors": ["cqcpy/ci_utils.py: ci_matrixel, Pstring, Dstring"]}
{"id": "C36", "title": "The CI Hamiltonian is symmetric", "statement": "ci_matrixel(bra,ket) = ci_matrixel(ket,bra) for real integrals with the usual symmetries.", "quantifier": "all determinant pairs and integrals", "why_tests_cant": "all pairs", "anchors": ["cqcpy/ci_utils.py: ci_matrixel, gci_matrixel"]}
{"id": "C37", "title": "CC wavefunction coefficients are those of exp(T)", "statement": "The reference, singles, doubles and triples coefficients produced by gmakeCfromT/makeCfromT equal the coefficients of exp(T1+T2) applied to the reference determinant.", "quantifier": "all orbital counts and amplitudes", "why_tests_cant": "coefficient formulas per determinant for all sizes", "anchors": ["cqcpy/ci_utils.py: gmakeCfromT, makeCfromT"]}
{"id": "C38", "title": "Operators applied to vectors are matrix-vector products", "statement": "H_on_vec/gH_on_vec and the one-body *_on_vec routines are linear in the vector and agree with multiplying by the matrix of matrix elements over the basis.", "quantifier": "all bases, vectors and integrals", "why_tests_cant": "all bases", "anchors": ["cqcpy/ci_utils.py: H_on_vec, gH_on_vec, s_on_vec and relatives"]}
{"id": "C39", "title": "Chemist and physicist integral orderings are consistent", "statement": "get_phys is get_chem with the middle indices exchanged, the *_anti variants are the antisymmetrised ones and are antisymmetric, and the unrestricted assembly contains each spin block in the right place with zeros elsewhere.", "quantifier": "all AO integrals and MO coefficients with the symmetry of an AO integral table", "why_tests_cant": "all coefficient matrices and orbital ranges", "anchors": ["cqcpy/integrals.py: get_chem, get_phys, get_chem_anti, get_phys_anti, get_chemu_all, get_physu_all, get_phys_antiu"]}
{"id": "C40", "title": "eri_blocks selects the right slices", "statement": "Each block built by eri_blocks is the physicist-ordered integral over the orbital subspaces named by its label; requesting a subset of blocks by code gives the same arrays as requesting all.", "quantifier": "all orbital partitions and all block codes", "why_tests_cant": "all subsets of block codes", "anchors": ["cqcpy/integrals.py: eri_blocks"]}
{"id": "C41", "title": "k-point integrals conserve crystal momentum", "statement": "The assembled k-point integrals are zero unless the crystal momenta of the four orbitals are conserved, and get_phys_solk is get_chem_solk with the middle indices exchanged.", "quantifier": "all k-point meshes, orbital counts, integrals", "why_tests_cant": "all meshes", "anchors": ["cqcpy/integrals.py: get_chem_solk, get_phys_solk, get_solk_integrals"]}
{"id": "C42", "title": "Public CC routines do not modify their arguments", "statement": "Calling any public routine in cc_equations / cc_energy leaves every array passed to it unchanged; only freshly allocated arrays are written.", "quantifier": "every input and every aliasing between the arguments", "why_tests_cant": "aliasing situations are not enumerated by tests", "anchors": ["cqcpy/cc_equations.py: public functions", "cqcpy/cc_energy.py"]}
{"id": "C43", "title": "Restricted iterations keep closed-shell symmetry", "statement": "If I and T2 (L2) are symmetric under exchange of both electrons, so are the doubles returned by rccsd_stanton and rccsd_lambda_opt, along any number of iterations.", "quantifier": "all sizes, inputs and iteration counts", "why_tests_cant": "history property", "anchors": ["cqcpy/cc_equations.py: rccsd_stanton, rccsd_lambda_opt"]}
{"id": "C44", "title": "Unrestricted iterations keep same-spin antisymmetry", "statement": "If same-spin integrals and amplitudes are antisymmetric, so are the same-spin doubles returned by uccsd_stanton and uccsd_lambda_opt, along any number of iterations.", "quantifier": "all sizes, inputs and iteration counts", "why_tests_cant": "history property", "anchors": ["cqcpy/cc_equations.py: uccsd_stanton, uccsd_lambda_opt"]}
{"id": "C45", "title": "Spin-flip symmetry of the unrestricted code", "statement": "Exchanging the roles of alpha and beta in all inputs of uccsd_stanton, uccsd_lambda_opt and ucc_energy exchanges alpha and beta in all outputs. The same holds after every number of updates of amplitudes and multipliers with the orbital energies exchanged, with the same energy after every update; a calculation with the same integrals for both spins that starts from amplitudes equal for both spins never breaks that symmetry.", "quantifier": "all inputs", "why_tests_cant": "symmetry over all inputs", "anchors": ["cqcpy/cc_equations.py: uccsd_stanton, uccsd_lambda_opt", "cqcpy/cc_energy.py: ucc_energy"]}
{"id": "C46", "title": "Order-4 coefficients of the exponential ansatz", "statement": "makeCfromT with order 4 and gmakeCfromT with order 4 give, for every quadruply excited determinant of the basis, the coefficient of that determinant in exp(T) applied to the reference (all products of T1, T2 with the right factors and phases).", "quantifier": "all T1, T2 of any size with the assumed antisymmetry, all quadruply excited determinants", "why_tests_cant": "a missing product of amplitudes only shows for particular blocks of amplitudes that vanish in the usual test molecules; all amplitude values and sizes", "anchors": ["cqcpy/ci_utils.py: makeCfromT, gmakeCfromT"]}
{"id": "C47", "title": "Ladder and ring building blocks", "statement": "The stand-alone ladder and ring routines return the particle-particle / hole-hole ladder terms and the ring terms of the doubles equation, and removing the ladder term from the CCD residual leaves exactly the documented remainder.", "quantifier": "all amplitudes and integrals of any size with the assumed antisymmetry", "why_tests_cant": "values are only compared for a few random tensors; the claim is an identity for all tensors and sizes", "anchors": ["cqcpy/cc_equations.py: ccd_ladder_simple, ccd_ring_simple"]}
{"id": "C48", "title": "CC energy and residuals are projections of the similarity-transformed Hamiltonian", "statement": "For a Hamiltonian sum h_pq p+q + 1/4 sum <pq||rs> p+q+sr and T = T1 + T2, cc_energy plus the reference energy is <0|e^-T H e^T|0>, and the arrays returned by ccsd_simple and ccsd_stanton (and ccd_stanton with T1=0) are <Phi_i^a|e^-T H e^T|0> and <Phi_ij^ab|e^-T H e^T|0>.", "quantifier": "all one-electron integrals, all antisymmetric two-electron integrals, all T1 and antisymmetric T2, any numbers of occupied and virtual orbitals, every representation of the anticommutation relations with a reference", "why_tests_cant": "tests compare energies of a few molecules with reference numbers; a wrong term that cancels or is small there is invisible, and no test evaluates the operator expression", "anchors": ["cqcpy/cc_equations.py: ccsd_simple, ccsd_stanton, ccd_stanton, ccd_simple", "cqcpy/cc_energy.py: cc_energy"]}
{"id": "C49", "title": "Density matrices are expectation values", "statement": "The blocks returned by the ccsd_1rdm_* and ccsd_2rdm_* routines (with T1, T2, L1, L2 and tfac=1), together with the reference contribution, are <0|(1+Lambda) e^-T p+q e^T|0> and <0|(1+Lambda) e^-T p+q+sr e^T|0> for all orbitals.", "quantifier": "all amplitudes and multipliers with antisymmetric doubles, all orbitals p,q,r,s, any sizes", "why_tests_cant": "tests check traces and energies only, which do not determine the individual elements", "anchors": ["cqcpy/cc_equations.py: ccsd_1rdm_*, ccsd_2rdm_*"]}
{"id": "C50", "title": "Lambda residuals are the left-hand CC equations", "statement": "The arrays returned by all four generalized Lambda implementations are <0|(1+Lambda)[e^-T H e^T, a+i]|0> and <0|(1+Lambda)[e^-T H e^T, a+b+ji]|0>.", "quantifier": "all integrals, amplitudes and multipliers of any size with the assumed antisymmetry", "why_tests_cant": "convergence of the Lambda iterations in a few molecules does not determine the residual away from the solution", "anchors": ["cqcpy/cc_equations.py: ccsd_lambda_simple, ccsd_lambda_opt, ccsd_lambda_opt_int, ccsd_lambda_stanton"]}
{"id": "C51", "title": "CCSD is exact for two electrons", "statement": "If the reference has at most two electrons and the residuals of ccsd_simple vanish, then e^T|0> is a non-zero eigenvector of the Hamiltonian on the full Fock space and the reference energy plus cc_energy is its eigenvalue.", "quantifier": "all integrals, all amplitudes solving the equations, any number of virtual orbitals, any orbital order", "why_tests_cant": "exactness for all Hamiltonians and all solutions; tests look at one converged solution", "anchors": ["cqcpy/cc_equations.py: ccsd_simple", "cqcpy/cc_energy.py: cc_energy"]}
{"id": "C52", "title": "Coupled cluster is size consistent", "statement": "For a system made of two subsystems that do not interact (all integrals and amplitudes that mix them are zero) every CCSD, CCD, linearised, ladder and ring residual of the combined system is the residual of the subsystem for indices within a subsystem and zero for all mixed indices, so solutions of the subsystems solve the combined system, and the energy is the sum of the energies; the Lambda equations and one-particle density matrices within a subsystem do not depend on the other one, whatever the multipliers that couple them. The amplitude equations and energies separate in the same way for any number of subsystems; in particular the energy of n equal subsystems is n times the energy of one (size extensivity).", "quantifier": "all integrals, amplitudes, multipliers; any number of subsystems with any numbers of orbitals (Lambda equations and density matrices: two subsystems); no symmetry of the tensors assumed except, for the unrestricted equations, antisymmetric same-spin tensors", "why_tests_cant": "a test compares a dimer at large distance with two monomers to some tolerance; the claim is exact and about every term of the equations away from convergence", "anchors": ["cqcpy/cc_equations.py: ccsd_simple, ccsd_stanton, ccd_simple, ccd_stanton, lccsd_simple, lccd_simple, ccd_ladder_simple, ccd_ring_simple, ccsd_lambda_simple, rccsd_stanton, uccsd_stanton, uccsd_lambda_opt, uccsd_1rdm_*, ccsd_1rdm_*", "cqcpy/cc_energy.py: cc_energy, rcc_energy, ucc_energy"]}
{"id": "C53", "title": "Coupled-cluster routines on numpy arrays: no exceptions, documented shapes, exact contents", "statement": "Called with references to numpy arrays of the documented shapes (occupied/virtual extents may be any numbers, including zero, and different for the two spins), every public routine of cc_energy.py and cc_equations.py returns without NameError, ValueError, UFuncTypeError or ComplexWarning, provided the element types are not one of the combinations of C54; it never relies on broadcasting an axis of length one; the returned arrays are new, pairwise different, have the documented shapes, are complex exactly when the inputs they depend on are (energies, densities) or when the integrals are (residuals), and contain the tensors that the mathematical model of the same routine assigns to the contents of the arguments; existing arrays are unchanged, even if the same array is passed several times or as transposed views.", "quantifier": "all fields (exact arithmetic), all extents, all contents, all memory states and references, all combinations of real and complex argument groups that do not raise", "why_tests_cant": "a test runs one system size and one element type; wrong subscripts, hidden broadcasting, aliasing or an in-place update of an argument show up only for particular extents, element types or call patterns", "anchors": ["cqcpy/cc_equations.py:1-3290", "cqcpy/cc_energy.py:1-77"]}
{"id": "C54", "title": "Element types that make the coupled-cluster routines raise or lose imaginary parts", "statement": "Real integrals with complex amplitudes (or complex multipliers or precomputed intermediates in the Lambda equations) make every residual routine raise UFuncTypeError, whatever the contents; so do complex multipliers with real amplitudes and real tfac in the routines for the density blocks that start from a copy of the amplitudes (1rdm_ai of uccsd, rccsd and the optimised ccsd version, 2rdm_abij). ccd_stanton with a complex Fock matrix and real two-electron integrals drops the imaginary parts of the Fock matrix, announced only by a ComplexWarning.", "quantifier": "all extents, all contents", "why_tests_cant": "tests use one element type throughout; which combinations fail follows from the first assignment to every accumulator and the path of every in-place update", "anchors": ["cqcpy/cc_equations.py:663-775", "cqcpy/cc_equations.py:2287-2370", "cqcpy/cc_equations.py:2431-2476", "cqcpy/cc_equations.py:2508-2520"]}
{"id": "C55", "title": "The coupled-cluster routines commute with changes of the orbital basis", "statement": "Let the occupied and the virtual orbitals (of each spin, for the unrestricted routines) be transformed separately: indices of bras with one matrix, indices of kets with another, inverse to it. Every public routine of cc_equations.py and cc_energy.py, called with the transformed integrals, amplitudes and multipliers, returns the transformed result: energies are unchanged, residuals, Lambda residuals, density blocks and precomputed intermediates are transformed as tensors. Hence converged amplitudes are converged in every basis with the same energy, orbitals may be renumbered, and orbitals not coupled to the others may be added.", "quantifier": "all fields, all numbers of orbitals before and after, all pairs of matrices inverse to each other (unitary, orthogonal, biorthogonal, isometries into more orbitals), all integrals and amplitudes without any symmetry", "why_tests_cant": "a test tries one rotation of one molecule to rounding accuracy, and molecules in canonical orbitals have a diagonal Fock matrix that hides wrong terms", "anchors": ["cqcpy/cc_equations.py:1-3290", "cqcpy/cc_energy.py:1-77"]}
{"id": "C56", "title": "Density matrices give energy derivatives (Hellmann-Feynman)", "statement": "Let the integrals depend differentiably on a parameter, let amplitudes depend differentiably on it and make the residuals of ccsd_simple (or ccsd_stanton, uccsd_stanton, rccsd_stanton) vanish in a neighbourhood of a point, and let the multipliers make the Lambda residuals (ccsd_lambda_simple, ccsd_lambda_opt, uccsd_lambda_opt, rccsd_lambda_opt) vanish at that point. Then the derivative of the energy returned by cc_energy (ucc_energy, rcc_energy) is the contraction of the derivatives of the integrals with the one- and two-particle density matrices returned by the code's rdm routines; no derivative of the amplitudes is needed. With the reference energy included it is the coupled-cluster expectation value of the differentiated Hamiltonian.", "quantifier": "all finite numbers of orbitals, all differentiable one-parameter families of integrals over any nontrivially normed field of characteristic 0 (real or complex), all converged solutions", "why_tests_cant": "finite differences of converged energies test one perturbation of one system to a few digits; perturbations that vanish by symmetry hide wrong density blocks", "anchors": ["cqcpy/cc_energy.py:1-77", "cqcpy/cc_equations.py:1-3290"]}
{"id": "C57", "title": "Density matrices conserve the number of electrons of each spin", "statement": "The corrections returned by the 1rdm routines are traceless (for each spin), so that with the reference density the trace is the number of electrons. Contracting one electron of the two-particle density matrix made of the blocks returned by the 2rdm routines and the reference leaves (N-1) times the one-particle density matrix: for the normal-ordered blocks themselves, cdab + bjai contract to -1rdm_ba, klij + bjai to 1rdm_ji, kaij + bcai and jkai + ciab to zero; in the unrestricted routines the contraction over the other spin is zero, and the restricted routines obey the direct and exchange forms of these rules.", "quantifier": "all numbers of orbitals, all amplitudes and multipliers with the index symmetry of the theory, converged or not", "why_tests_cant": "one numerical contraction tests one set of amplitudes; small terms (L2 T1 T1) are below tolerances of converged examples", "anchors": ["cqcpy/cc_equations.py:2287-3290"]}
{"id": "C58", "title": "CCSD and Lambda solutions exist, persist and respond near non-singular points", "statement": "Call converged antisymmetric amplitudes non-singular when no antisymmetric change of the amplitudes leaves all residuals returned by ccsd_simple stationary. Then for all integrals close to the given ones (along any differentiable family) ccsd_simple has a solution, it depends differentiably on the parameter and is the only antisymmetric solution nearby; ccsd_lambda_simple has exactly one antisymmetric solution; and the energy returned by cc_energy is differentiable with the contraction of the differentiated integrals with the density matrices of the code as derivative, at that point and at all nearby ones. For orbital energies with non-vanishing denominators (utils.D1, utils.D2) and a perturbation c*f, c*I the point c = 0 is non-singular, so solutions exist for all small c; t1/c and t2/c tend to -f_ai/D1 and -I_abij/D2 and cc_energy/c^2 tends to mp2_energy of these amplitudes.", "quantifier": "all finite numbers of orbitals, real and complex integrals, all differentiable families of antisymmetric integrals, all orbital energies without vanishing denominators", "why_tests_cant": "existence, uniqueness and differentiability of solutions of nonlinear equations are statements about all neighbouring inputs and about limits", "anchors": ["cqcpy/cc_equations.py:1-3290", "cqcpy/cc_energy.py:1-45", "cqcpy/utils.py:21-33"]}
{"id": "C59", "title": "Coupled-cluster and CI halves of the library agree", "statement": "Take one- and two-electron integrals of a spin-unrestricted problem, build the Fock matrices, the antisymmetrised integrals and the reference energy from them, and let E be the reference energy plus ucc_energy. For all amplitudes (same-spin doubles antisymmetric) H_on_vec applied over ucisd_basis to the vector of makeCfromT (order 2) has E as its reference entry. With order 3 and ucisdt_basis the entry of every singly excited determinant is E times its coefficient plus (with the sign of the coefficient) the singles residual of uccsd_stanton, for any number of electrons; with at most three electrons the doubly excited entries are E times the coefficient plus the doubles residual and products of singles amplitudes with singles residuals. For at most two electrons the vector is a (non-zero) eigenvector of the CI matrix with eigenvalue E exactly if all residuals of uccsd_stanton vanish: CCSD is exact.", "quantifier": "all numbers of orbitals and (where said) electrons, all integrals with the pair symmetry, all amplitudes", "why_tests_cant": "tests compare the two halves for a few small molecules at one converged point; the equality of two independently written codes for all inputs is not settled by samples", "anchors": ["cqcpy/ci_utils.py:210-268", "cqcpy/ci_utils.py:600-1270", "cqcpy/ci_utils.py:1313-1426", "cqcpy/ci_utils.py:1545-1552", "cqcpy/cc_equations.py:745-757", "cqcpy/cc_energy.py:47-58"]}
{"id": "C60", "title": "Rounding errors of the coupled-cluster routines are bounded by a constant times the unit roundoff", "statement": "Let every elementary operation, every literal and every einsum of the coupled-cluster routines be wrong by a small relative error u (sums of products in any order and grouping whose error is at most u times a bound depending on the sizes of the factors; left-to-right evaluation is such), and let the arguments be wrong by c*u. Then for every public routine of cc_equations and cc_energy (spin-orbital, unrestricted and restricted) the call raises nothing, leaves its arguments as they were, and returns new arrays of the same element types and shapes as in exact arithmetic, with elements at most C*u from the exact ones. C depends only on the exact arguments, not on u, on how the rounding is done, or on the memory. A call that raises in exact arithmetic raises the same exception in rounded arithmetic.", "quantifier": "all public CC routines, all extents, real and complex arguments, all unit roundoffs u <= 1, all rounded arithmetics without overflow", "why_tests_cant": "tests compare two implementations to a tolerance at a few points; they cannot show that the error is proportional to the precision for all inputs and all evaluation orders", "anchors": ["cqcpy/cc_equations.py:1-3290", "cqcpy/cc_energy.py:1-77"]}
{"id": "C61", "title": "Spin assembly and splitting at the level of numpy memory: new arrays, element types, shapes, exceptions", "statement": "With arguments of the documented shapes, real or complex, living anywhere in memory (including views and shared arrays), F_to_spin, T1_to_spin, T2_to_spin, D2_to_spin, int_to_spin_block, int_to_spin, int_to_spin2, F_to_spatial, T1_to_spatial, T2_to_spatial and int_to_spatial raise nothing and change no existing array. The *_to_spin functions return newly allocated, pairwise different, REAL arrays that hold the spin-orbital tensors of the real parts of the arguments, and issue ComplexWarning exactly if an argument is complex; the *_to_spatial functions keep the element type. Consequently splitting after assembling returns the real parts: the round trip fails for complex amplitudes with a non-zero imaginary part (refuted). T1_to_spin accepts two-index arguments exactly if every axis has its documented length or length one (stretched silently) and raises ValueError otherwise.", "quantifier": "all extents, all memories, all argument arrays real or complex, all fields", "why_tests_cant": "tests call the functions on a few freshly made real arrays; absence of side effects, of aliasing and loss of imaginary parts for all inputs is not observable there", "anchors": ["cqcpy/spin_utils.py:7-397"]}
{"id": "C62", "title": "Which results of the spin and block utilities share memory with the arguments", "statement": "All blocks that F_to_spatial, make_two_e_blocks and make_two_e_blocks_full return are slices of their argument and nothing is allocated; an assignment to such a block changes exactly the corresponding elements of the array it was cut from. int_to_spatial returns views for both same-spin parts and for ten blocks of the mixed-spin part, but new arrays for the six blocks computed with a minus sign (vvov, ovvv, voov, ovvo, ovoo, oovo). T1_to_spatial, T2_to_spatial and all *_to_spin functions return new arrays, and assigning to them never changes an array that existed before. make_two_e_blocks(_full) raises AssertionError if an axis is not the sum of its two ranges and ValueError if the argument has not four axes.", "quantifier": "all extents, all memories, all arrays and views, all later assignments", "why_tests_cant": "tests compare values only and never write to a result and look at the argument", "anchors": ["cqcpy/spin_utils.py:29-45", "cqcpy/spin_utils.py:57-61", "cqcpy/spin_utils.py:113-117", "cqcpy/spin_utils.py:348-397", "cqcpy/ov_blocks.py:24-41", "cqcpy/ov_blocks.py:68-94"]}
{"id": "C63", "title": "Units of energy, complex conjugation and real data in complex arrays", "statement": "Every public routine of cc_equations.py and cc_energy.py commutes with homomorphisms of the numbers and is homogeneous in the Hamiltonian: with every Fock element and integral x replaced by s*sigma(x) and every amplitude, multiplier and tfac by its image under sigma, energies, residuals and the intermediates of lambda_int are s*sigma of the original ones and density matrices are their image under sigma. Hence changing the unit of energy leaves solutions of the CCSD and Lambda equations alone and scales the energy; complex conjugate data give complex conjugate results; real data stored as complex give the results of the real calculation. The runs on arrays agree step by step: the same exceptions, shapes and element types.", "quantifier": "all fields K and L, all homomorphisms sigma, all scales s, all extents, integrals, amplitudes and multipliers; all 68 routines", "why_tests_cant": "tests use a handful of real random tensors in one unit; a term with a missing or doubled Hamiltonian factor shows up only as a wrong number there, and conjugation of complex data is never tried", "anchors": ["cqcpy/cc_equations.py:1-3290", "cqcpy/cc_energy.py:1-77"]}
{"id": "C64", "title": "Energies, residuals and intermediates are linear in the Hamiltonian", "statement": "At fixed amplitudes and multipliers every public energy, amplitude-residual, Lambda-residual routine and lambda_int is linear in (F, I): called with x*(F, I) + y*(F', I') it returns x times the result for (F, I) plus y times the result for (F', I') (ccsd_lambda_opt_int: jointly linear in F, I and the precomputed intermediates). In particular the response to a perturbation of strength y is exactly y times the value on the perturbation.", "quantifier": "all fields, all numbers x and y, all extents, all pairs of Hamiltonians, all amplitudes and multipliers", "why_tests_cant": "linearity is a statement about all pairs of Hamiltonians; finite-difference tests only see it up to truncation error at a point", "anchors": ["cqcpy/cc_equations.py:1-2400", "cqcpy/cc_energy.py:1-77"]}
{"id": "C65", "title": "Orbital energies enter the residuals only through the denominators of utils.py", "statement": "Adding orbital energies (eo, ev) to the diagonal of the Fock matrix adds exactly D1(ev, eo)*T1 and D2(ev, eo)*T2 to the amplitude residuals and D1*L1, D2*L2 to the Lambda residuals of every routine (ccsd, ccd, lccsd, lccd, their stanton and Lambda variants, restricted and unrestricted; the opposite-spin block gets D2u). Hence moving all orbital energies by one constant (one per spin in the unrestricted routines) changes no residual; amplitudes solve the CCSD equations exactly if the update -residual/denominator leaves them unchanged; and from zero amplitudes the residuals are the bare F.vo and I.vvoo, so that the first update gives perturbation theory.", "quantifier": "all fields, extents, Fock matrices, integrals and orbital energies; all antisymmetric (restricted: pair-symmetric) doubles and multipliers", "why_tests_cant": "tests iterate to convergence for single molecules; that the iteration's fixed points are the solutions, and nothing else, for every Hamiltonian is not observable from convergence", "anchors": ["cqcpy/utils.py:21-41", "cqcpy/cc_equations.py:655-780", "cqcpy/cc_equations.py:2262-2366"]}
{"id": "C66", "title": "The denominator-weighted iteration of amplitudes and multipliers converges", "statement": "The update T - residual/denominator, with the residuals of ccsd_simple and the denominators of utils.py, has exactly the solutions of the CCSD equations as fixed points. For orbital energies with a gap and any perturbation there is a coupling strength below which it converges from every antisymmetric start in a given ball, at least halving the error in each step, to the only antisymmetric solution in that ball; the update L - residual/denominator with ccsd_lambda_simple converges likewise from every antisymmetric start, to the only solution of the Lambda equations. At any coupling a solution attracts the update whenever the linearised update contracts antisymmetric changes, with any rate above that contraction factor.", "quantifier": "all extents, real or complex orbital energies without vanishing denominators, all perturbations f, I, all radii, all starting points in the ball, all iteration numbers", "why_tests_cant": "a test sees one run converge; convergence from every start, uniqueness of the limit and the rate are statements about all starts and all iteration counts", "anchors": ["cqcpy/cc_equations.py:709-732", "cqcpy/cc_equations.py:2342-2366", "cqcpy/utils.py:21-41"]}
{"id": "C67", "title": "Energies from density matrices have second-order errors", "statement": "Near a solution of the amplitude and Lambda equations, the contraction of the Fock matrix and integrals with the density matrices made by the ccsd_1rdm_* and ccsd_2rdm_* routines from approximate amplitudes and multipliers differs from the cc_energy of the solution by at most a constant times the square of the error of amplitudes and multipliers. At weak coupling, k updates of each (C66) leave an error of order 4^-k in this energy.", "quantifier": "all extents, real or complex Hamiltonians with antisymmetric integrals, all solutions, all antisymmetric approximate amplitudes and multipliers in any given ball", "why_tests_cant": "the order of an error is a limit statement; a test compares two numbers at fixed convergence thresholds", "anchors": ["cqcpy/cc_equations.py:2369-2505", "cqcpy/cc_energy.py:1-77"]}
{"id": "C68", "title": "Nested configuration-interaction bases give ordered energies", "statement": "For real symmetric integrals H_on_vec over the lists of ucis_basis, ucisd_basis, ucisdt_basis (gH_on_vec over the general lists) has a complete set of orthonormal eigenvectors with real eigenvalues, no expectation value lies below the lowest, and from each basis to the next the k-th lowest eigenvalue does not go up, for every k; the lowest lies at or below the energy of the reference. The same holds from CISDT to CISDTQ when no four electrons of one spin can be excited. Otherwise it fails: ucisdtq_basis repeats determinants and H_on_vec over its list has expectation values below the exact energy.", "quantifier": "all orbital and electron numbers, all real symmetric integrals, all numbers k of states, all bounds E", "why_tests_cant": "eigenvalue ordering is a statement about all Hamiltonians and all states; a test diagonalises one small matrix", "anchors": ["cqcpy/ci_utils.py:192-392", "cqcpy/ci_utils.py:1313-1425", "cqcpy/ci_utils.py:1545-1559"]}
{"id": "C69", "title": "Selection rules are kept by every coupled-cluster routine", "statement": "Label the orbitals by elements of a commutative group (irreducible representations of an Abelian point group, crystal momenta, spin projections). If the Fock matrix, integrals, amplitudes and multipliers passed to a public routine of cc_equations.py vanish unless the labels of the bra add up to those of the ket, every array it returns vanishes there too. Hence amplitudes and multipliers of other symmetries never appear in the iterations of the generalized, unrestricted and restricted equations nor in a limit of them, the weak-coupling solution of the equations is totally symmetric, and spin-orbital iterations on arrays made by F_to_spin and int_to_spin never populate blocks that flip a spin.", "quantifier": "all extents, all commutative groups and labellings, all fields, all arguments obeying the rule, all numbers of iterations", "why_tests_cant": "a dropped or transposed index shows as an element of a forbidden block only for inputs with the symmetry, and for every group a different one; random test arrays have no symmetry", "anchors": ["cqcpy/cc_equations.py:1-3290", "cqcpy/spin_utils.py:10-345"]}
{"id": "C70", "title": "Occupation numbers and grand potentials in rounded arithmetic", "statement": "Evaluated in any monotone rounded arithmetic that keeps 0 and 1 and whose operations, exponential and logarithm err by at most u times the exact value plus η, fermi_function and vfermi_function return numbers that lie in [0,1] with no tolerance, differ from the Fermi-Dirac distribution and its complement by a small multiple of u and η, and add up to one within 11u+10η (although they are computed separately); grand_potential0 is accurate to a multiple of u (1+|x|)/beta, x = beta (epsilon-mu), including at the switches between formulas; the exponential is never called with an argument above 30.", "quantifier": "all beta, epsilon, mu (beta > 0 for the grand potential), all arithmetics with u <= 1/100 and a small η, all vectors", "why_tests_cant": "the branches and the orders of operations matter only for rounding; no finite set of temperatures and energies bounds the error, and a reference value would have to be computed in exact arithmetic", "anchors": ["cqcpy/ft_utils.py:12-91"]}
{"id": "C71", "title": "Symmetries of random tensors and denominators in machine arithmetic", "statement": "On any numbers whose addition commutes and whose operations respect signs (rounded arithmetic; no associativity), the tensors made by test_utils are symmetric or antisymmetric exactly, not only up to rounding: amplitudes, multipliers, Fock matrices, integral blocks. The pair denominators of utils.D2 are exactly symmetric in the virtual orbitals, but not in the occupied ones, where the order of the subtractions matters; their error and asymmetry are at most ((1+u)^3-1) times the sum of the sizes of the four energies.", "quantifier": "all extents, all drawn arrays, all machine arithmetics with these laws", "why_tests_cant": "tests compare with tolerances, so a symmetrisation that is only approximate passes, and tests on one platform say nothing about another rounding", "anchors": ["cqcpy/test_utils.py:9-214", "cqcpy/utils.py:21-41"]}
{"id": "C72", "title": "Symmetries of the CI Hamiltonian: spin exchange, selection rules, linearity, Brillouin's theorem", "statement": "ci_matrixel is unchanged (including exceptions) when alpha and beta are exchanged in all arguments; it is linear in integrals and constant; between determinants whose orbital labels (in any commutative group) add up differently it returns exactly zero when the integrals conserve the labels, so H_on_vec never leaves a symmetry sector; between a determinant and its single excitations it returns the Fock matrix element of that determinant up to sign, and with vanishing occupied-virtual Fock elements the reference is an eigenvector of H_on_vec over ucis_basis.", "quantifier": "all numbers of orbitals and electrons, all determinants, labellings, integrals with exchange symmetry of the electrons, all fields of characteristic zero", "why_tests_cant": "every pair of determinants and every symmetry is a separate case; random integrals have no symmetry and no vanishing Fock elements", "anchors": ["cqcpy/ci_utils.py:1313-1425", "cqcpy/ci_utils.py:1545-1559", "cqcpy/ci_utils.py:192-240"]}
{"id": "C73", "title": "Convergence of the unrestricted and restricted iterations, second-order energies of their density matrices", "statement": "The updates T - residual/denominator with the residuals of uccsd_stanton and rccsd_stanton, and the same for the multipliers with uccsd_lambda_opt and rccsd_lambda_opt, have exactly the solutions as fixed points, and converge for orbital energies with a gap and weak enough coupling from every start of the right symmetry in a ball, at least halving the error in each step, to the only solution of that symmetry in the ball. Only the denominators the spin-resolved update divides by must not vanish. Energies contracted from the uccsd_* and rccsd_* density matrices of approximate amplitudes and multipliers have errors of second order.", "quantifier": "all extents of both spins, real or complex Hamiltonians, all perturbations, all starting points in any ball, all numbers of iterations", "why_tests_cant": "convergence quantifies over all starts and all steps; tests run one molecule to a threshold", "anchors": ["cqcpy/cc_equations.py:745-764", "cqcpy/cc_equations.py:2311-2339", "cqcpy/utils.py:21-41"]}
{"id": "C74", "title": "The CIS matrix is the Tamm-Dancoff matrix: singlets and triplets", "statement": "The matrix built by examples/cis.py with ci_matrixel over ucis_basis(n, na, nb, gs=False) is, up to the order and the signs of the basis functions, the Tamm-Dancoff matrix of the unrestricted reference (differences of Fock matrices plus <aj|ib> - <aj|bi> for like spins and <aj|ib> for unlike spins) plus, on the diagonal, the element of the reference with itself. If const cancels the latter, the characteristic polynomials agree; for a closed shell, with the same integrals for both spins, the characteristic polynomial is the product of those of the singlet and the triplet Tamm-Dancoff matrices, so the eigenvalues are those of the two lists the example concatenates and prints, with multiplicities. The script as a whole does not fail for real symmetric integrals, and what it prints as eout, for any result of eigh, is the sorted list of the singlet and triplet eigenvalues together.", "quantifier": "all numbers of orbitals and electrons of either spin, all one- and two-electron integrals with the exchange symmetry of the electrons, all constants, all fields of characteristic zero", "why_tests_cant": "The example compares the lowest twelve eigenvalues of one molecule by eye; the equality is of spectra of matrices of any size, for any integrals, and rests on the signs of the determinants cancelling.", "anchors": ["examples/cis.py:27-53", "cqcpy/ci_utils.py:1313-1425", "cqcpy/ci_utils.py:192-207"]}
{"id": "C75", "title": "Occupation numbers and grand potentials are those of the many-electron system", "statement": "The sum of GP0(beta, epsilon, mu) is -log(Z)/beta, Z the trace of exp(-beta(H - mu N)) over all determinants of the Fock space of independent electrons with these levels, and the entries of ff are the thermal averages of the occupations: exactly when the levels are within the cut-offs of the code, otherwise up to exp(-40)/beta and exp(-60) per level. beta^2 times dgrand_potential0 is the entropy of the occupation, the grand potential is E - mu N - T S, and no occupation numbers between 0 and 1 give a lower free energy. The occupation differs from the step function by at most exp(-beta|epsilon - mu|) and tends to it (1/2 at the Fermi level) at zero temperature, where the grand potential tends to min(epsilon - mu, 0). For every number of electrons between 0 and the number of levels there is a chemical potential that gives it up to exp(-60) per level, and the number increases with mu (strictly within the cut-offs).", "quantifier": "all inverse temperatures, chemical potentials, vectors of levels of any length, all trial occupation numbers, all electron numbers", "why_tests_cant": "Statements about limits, minima over all occupation numbers, existence of solutions and sums over 2^n determinants.", "anchors": ["cqcpy/ft_utils.py:12-33", "cqcpy/ft_utils.py:36-55", "cqcpy/ft_utils.py:58-84", "cqcpy/ft_utils.py:87-96"]}
{"id": "C76", "title": "The k-point examples compute energies per cell of the supercell", "statement": "examples/kpt_hamiltonian.py returns, with either order of the two-electron integrals, E/nkpts where E is the diagonal element of ci_matrixel of the determinant of the whole supercell (orbitals labelled by k-point and band, integrals zero unless crystal momentum is conserved) in which the nocc lowest bands of every k-point are doubly occupied. The correlation energy of examples/kmp2.py is the real part of rcc_energy of the supercell with zero singles and first-order doubles amplitudes. With a Hermitian interaction and positive denominators it equals minus a sum of squares over denominators, so it is never positive and is zero exactly if all integrals between occupied and virtual pairs vanish.", "quantifier": "all numbers of k-points and bands, all momentum-conservation tables of a finite commutative group, all orbitals, interactions and orbital energies", "why_tests_cant": "The examples run on one crystal with a few k-points; the statement equates loops over k-point triples with sums over all orbitals of supercells of any size.", "anchors": ["examples/kpt_hamiltonian.py:35-51", "examples/kmp2.py:39-80", "cqcpy/integrals.py:195-229", "cqcpy/integrals.py:187-192", "cqcpy/cc_energy.py:61-66", "cqcpy/ci_utils.py:1313-1425"]}
{"id": "C77", "title": "CI energies do not depend on the choice of orbitals within the kept spaces", "statement": "Transform the integrals passed to H_on_vec to other orthonormal orbitals (alpha and beta separately). If the rotation mixes occupied orbitals only with occupied and empty only with empty ones, every list of eigenvalues over the bases ucis_basis (with or without the reference), ucisd_basis, ucisdt_basis and ucisdtq_basis is unchanged, with multiplicities. If the basis contains all determinants (at most two electrons for ucisd, three for ucisdt, four for ucisdtq) this holds for every rotation. For invertible, not necessarily orthogonal, changes of orbitals over any field of characteristic zero H_on_vec changes by a similarity transformation, so the eigenvalues stay the same.", "quantifier": "all numbers of orbitals and electrons, all integrals with exchange symmetry of the two electrons, all orthogonal or invertible matrices, all lists of eigenvalues", "why_tests_cant": "A continuous family of rotations and integrals; the proof needs the minors of the rotation matrix over all determinants.", "anchors": ["cqcpy/ci_utils.py:192-207", "cqcpy/ci_utils.py:210-231", "cqcpy/ci_utils.py:234-267", "cqcpy/ci_utils.py:270-318", "cqcpy/ci_utils.py:1313-1425", "cqcpy/ci_utils.py:1545-1551"]}
{"id": "C78", "title": "CI states of restricted integrals have definite spin", "statement": "Pass the same one- and two-electron integrals for both spins to H_on_vec. Over the bases of a closed shell (ucis_basis with or without the reference, ucisd_basis, ucisdt_basis, ucisdtq_basis with equal numbers of alpha and beta electrons), and over bases that contain all determinants, there is a complete orthonormal set of eigenvectors of H_on_vec each of which is an eigenvector of the total spin S^2 with value s(s+1), where s >= 0 and s - (na-nb)/2 is an integer between 0 and nb; an eigenvector to a nondegenerate eigenvalue always has this form. Every energy of a full CI calculation with one more alpha and one less beta electron is also an energy of the given one (as long as the former has more alpha than beta electrons): lowering the spin is an injective map that commutes with H_on_vec.", "quantifier": "all numbers of orbitals and electrons, all symmetric integrals that do not depend on spin", "why_tests_cant": "Tests compare a few energies for a fixed molecule; the property concerns every Hamiltonian and all eigenvectors.", "anchors": ["cqcpy/ci_utils.py:192-207", "cqcpy/ci_utils.py:210-231", "cqcpy/ci_utils.py:234-267", "cqcpy/ci_utils.py:270-318", "cqcpy/ci_utils.py:1313-1425", "cqcpy/ci_utils.py:1545-1551"]}
{"id": "C79", "title": "The CISD examples print the CISD correlation energy", "statement": "The script examples/cisd.py (and cisd_Be.py) fills a symmetric matrix with ci_matrixel over ucisd_basis, with the constant -Escf + energy_nuc, and diagonalizes it. For restricted integrals with the usual symmetries this does not fail; the columns returned by eigh are a complete orthonormal set of eigenvectors of H_on_vec over the same basis, with eigenvalues eout[i] + Escf - energy_nuc. The first basis function is the closed shell, and H[0,0] is its energy relative to Escf. If Escf is the closed-shell energy, the printed eout[0] is never positive; it is negative if any integral I[a,b,i,j] with occupied i, j and virtual a, b is nonzero, and zero only if the whole first row vanishes. In canonical orbitals the closed shell does not couple to single excitations and eout[i] v[0,i] is the sum over double excitations of H[0,D] v[D,i]. Over any larger list of excitations H_on_vec has at least i+1 states not above the i-th CISD energy.", "quantifier": "all numbers of orbitals and electrons, all real symmetric restricted integrals, all values of Escf and energy_nuc where nothing else is said", "why_tests_cant": "The examples print one number for one molecule; they are not part of the test suite and the sign, the reference and the meaning of the eigenvectors concern every molecule.", "anchors": ["examples/cisd.py:19-40", "examples/cisd_Be.py:18-39", "cqcpy/ci_utils.py:210-231", "cqcpy/ci_utils.py:1313-1425", "cqcpy/ci_utils.py:1545-1551"]}
{"id": "C80", "title": "Full CI energies of systems that do not interact add up; CISD energies do not", "statement": "Let the integrals of m+k orbitals be those of a first system in the first m orbitals and of a second system in the others, with no coupling. Over bases that list every determinant with given numbers of alpha and beta electrons, the eigenvalues of H_on_vec are exactly the sums of one eigenvalue of the first and one of the second system, over all ways to divide the electrons between the systems; none lies below the least sum of lowest eigenvalues. The order of the orbitals does not matter. In particular CISD energies of two systems of two electrons (ucisd_basis) add up to CISDTQ energies (ucisdtq_basis) of both. This fails for truncated bases: for two copies of a certain system of two electrons in two orbitals the sum of the exact energies is not an eigenvalue of H_on_vec over ucisd_basis.", "quantifier": "all numbers of orbitals and electrons; all integrals with pair symmetry over any field of characteristic zero for sums, real symmetric integrals of the first system for the converse; one explicit rational system for the failure", "why_tests_cant": "Adding up of energies is a statement about all pairs of systems and all their states; a test can compare ground states of a few small systems.", "anchors": ["cqcpy/ci_utils.py:210-231", "cqcpy/ci_utils.py:270-318", "cqcpy/ci_utils.py:1313-1425", "cqcpy/ci_utils.py:1545-1551"]}
{"id": "C81", "title": "Rounding errors of CI matrix elements, of H*v and of the printed CI energies", "statement": "Computed in floating point from integrals with relative error w (h up to a, I up to b in absolute value), ci_matrixel for m electrons returns the matrix element of the Hamiltonian within ((1+w)(1+g)(1+u)^6-1)*(a*m+2*b*m^2+|const|+11*eta), where u is the unit roundoff, g the relative error of a numpy sum and eta the underflow threshold; gci_matrixel and the entries of H_on_vec and gH_on_vec have bounds of the same kind. Elements between determinants that differ in two or more electrons are the exact ones rounded once, hence symmetric to the last bit; elements of single excitations need not be symmetric even for symmetric integrals stored without error. Every eigenvalue that examples/cis.py and examples/cisd.py obtain from a backward stable eigh (which reads the lower triangle only) lies within n*(eps+error of the elements) of the eigenvalue with the same number in exact arithmetic.", "quantifier": "all determinants with equal numbers of orbitals and electrons, all excitation lists, all integrals, all vectors, every arithmetic whose rounding is odd, idempotent and has relative error u with underflow, every order of summation within einsum", "why_tests_cant": "Tests compare a few energies with tolerances chosen by hand; whether rounding can add up to a wrong energy for other orbitals or molecules, or whether the code relies on a symmetry the machine does not provide, is a statement about all inputs.", "anchors": ["cqcpy/ci_utils.py:1272-1310", "cqcpy/ci_utils.py:1313-1425", "cqcpy/ci_utils.py:1545-1551", "cqcpy/ci_utils.py:1554-1559", "examples/cis.py:36-55", "examples/cisd.py:19-40"]}
{"id": "C82", "title": "The unit tests hold for all sizes and all random draws, and what they do not check", "statement": "In exact arithmetic and for every positive threshold, the assertions of cqcpy/tests that compare coupled-cluster routines with each other, convert between spin and spatial orbitals, or check the symmetries of random data hold for every number of orbitals and every random draw. Those that divide by a size hold exactly if the size is not zero, and those that divide by a reference value (test_rccsd, test_rccsd_lambda, test_u1rdm, test_u2rdm) exactly if the reference is not the one that makes the divisor zero. test_F_sym holds if noa <= nva but can fail on the correct F_to_spin if noa > nva, and never looks at F.vv. test_T passes for any antisymmetric doubles and any singles with one element not above the reference (for instance zeros), because the parenthesis of norm encloses the comparison; the comparison it means to make is false for amplitudes with a mixed-spin element as large as the threshold.", "quantifier": "all numbers of occupied and virtual orbitals of either spin, all real random arrays, all positive thresholds", "why_tests_cant": "Each test draws one set of numbers of one size per run; whether it would hold for other sizes and draws, when it can fail although the code is right, and when it passes although the code is wrong, are statements about all of them.", "anchors": ["cqcpy/tests/test_cc_ampl.py:17-199", "cqcpy/tests/test_lambda_equations.py:15-192", "cqcpy/tests/test_cc_rdm.py:13-422", "cqcpy/tests/test_spin_utils.py:12-256", "cqcpy/tests/test_spin_utils.py:338-357", "cqcpy/tests/test_test.py:13-168", "cqcpy/tests/test_utils.py:32-58", "cqcpy/tests/test_ft_utils.py:96-110"]}
{"id": "C83", "title": "Finite differences reproduce the derivative routines for every temperature, energy and step; when the tests that divide by a finite difference or a norm hold", "statement": "For every inverse temperature, orbital energy, chemical potential and step 0 < delta < beta, the central difference of grand_potential0 used by the tests differs from dgrand_potential0 by at most delta^2/6 times an explicit bound on the third derivative, inside the cut-offs, beyond them and across them; the assertions of test_dgrand_potentiala/b/c, test_dGP0 and test_dfermi follow for all inputs for which the tolerance exceeds the relative size of that bound, in particular for the literals of the tests. Reflecting an energy about the chemical potential changes grand_potential0 by exactly epsilon - mu and leaves dgrand_potential0 unchanged. test_mat_on_vec_cisd holds for every number of orbitals and electrons and every draw unless the Hamiltonian maps the vector to zero, when it fails.", "quantifier": "all real beta, epsilon, mu, all steps and tolerances, arrays of any length; all numbers of orbitals and electrons, all draws of the CI test", "why_tests_cant": "A finite-difference test is run at one point with one step and a hand-picked tolerance; that the tolerance is met because the routine returns the derivative, and at which points it would be, is a statement about the third derivative everywhere.", "anchors": ["cqcpy/tests/test_ft_utils.py:6-10", "cqcpy/tests/test_ft_utils.py:75-94", "cqcpy/tests/test_ft_utils.py:112-149", "cqcpy/ft_utils.py:12-33", "cqcpy/ft_utils.py:56-80", "cqcpy/ft_utils.py:83-116", "cqcpy/tests/test_ci_utils.py:12-62", "cqcpy/ci_utils.py:1545-1551"]}
{"id": "C84", "title": "IEEE rounding meets the assumptions under which the rounding errors of the library are bounded", "statement": "Rounding to nearest with ties to even in a binary format of any precision and any smallest exponent returns a nearest floating-point number, is odd, monotone, leaves floating-point numbers unchanged and has relative error 2^-p plus 2^(emin-1); additions never underflow. Hence the error bounds for the Fermi functions and grand potentials, for the CI matrix elements summed one term after the other, and for every CC routine with sequential sums and real or complex elements hold in such arithmetic, double precision in particular, where the occupation numbers returned by fermi_function are within 1e-14 of the exact ones for |beta| up to 10^6 whatever the energies.", "quantifier": "all precisions, all smallest exponents, all real inputs; all shapes and contents of the arrays", "why_tests_cant": "Error bounds of tests are observed on samples; that the abstract rounding model holds for the arithmetic actually used cannot be observed at all.", "anchors": ["cqcpy/ft_utils.py:12-80", "cqcpy/ci_utils.py:1272-1425", "cqcpy/cc_equations.py:1-3290", "cqcpy/cc_energy.py:1-77"]}
{"id": "C85", "title": "When the finite-temperature helpers overflow or return NaN", "statement": "In floating-point arithmetic with overflow, infinities and NaN: for finite arguments fermi_function and vfermi_function return numbers between 0 and 1 whatever the size of the arguments, except when beta is zero and epsilon - mu overflows, when they return NaN; grand_potential0 returns NaN in that case only, and never +inf at positive temperature. For arguments of moderate size (up to 10^150 in double precision, with |beta| at least 10^-150) none of the four functions overflows and all return what the model without overflow returns. With beta = inf the functions take the zero-temperature values, except at epsilon = mu, where all are NaN. dgrand_potential0 is NaN whenever epsilon - mu overflows, at beta = 0 for epsilon >= mu, and when beta*beta and the Boltzmann factor underflow, although grand_potential0 is not NaN there.", "quantifier": "all finite beta, epsilon and mu; beta = inf; every faithful arithmetic with a largest number, double precision in particular", "why_tests_cant": "Tests use a few moderate arguments; that no finite argument leads to NaN or an occupation outside [0,1] concerns all of them.", "anchors": ["cqcpy/ft_utils.py:12-33", "cqcpy/ft_utils.py:56-80"]}
{"id": "C86", "title": "The tests of integrals.py hold for every molecule and solid", "statement": "Given pyscf's definitions of the Fock matrix, the k-point energy and the coupled-cluster integrals, all assertions of test_integrals.py hold for every table of basis function integrals that is symmetric under exchange of the electrons, every core Hamiltonian and all real or complex orbitals: both orders of the integrals agree, get_chemu and get_chemu_all agree, the sum of <PQ||RQ> over occupied Q from get_physu_all is the two-electron part of the unrestricted and restricted Fock matrix, the generic and k-point routines return the integrals of the coupled-cluster codes, and the energy summed from get_solk_integrals in either order is the energy of the k-point mean field. The tests' count of alpha electrons is right exactly for at most one unpaired electron; beyond that test_fock can raise an exception.", "quantifier": "all numbers of basis functions, orbitals, electrons and k-points, all integrals and orbitals, all positive thresholds", "why_tests_cant": "The tests run on one molecule and three small solids with converged orbitals; agreement for all integrals and orbitals is an identity.", "anchors": ["cqcpy/tests/test_integrals.py:84-304", "cqcpy/integrals.py:1-330"]}
{"id": "C87", "title": "Complex amplitudes and vectors lose their imaginary parts", "statement": "gmakeCfromT, makeCfromT, the seven excitation routines *_on_vec, H_on_vec and gH_on_vec return, for complex input, exactly the real parts of the coefficients of the exact result, and raise the same exceptions; for real input nothing is lost. Hence for complex amplitudes or vectors they are not the cluster expansion or the operators they stand for: one electron with the amplitude i gives the coefficients (1, 0) in place of (1, i).", "quantifier": "all orders, numbers of orbitals and electrons, bases, complex amplitudes, integrals and vectors", "why_tests_cant": "All tests use real input; that the imaginary parts do not interfere with the real parts through any of the 45 contributions is a statement about all inputs.", "anchors": ["cqcpy/ci_utils.py:418-1269", "cqcpy/ci_utils.py:1428-1559"]}
{"id": "C88", "title": "Derivatives of grand potentials in rounded arithmetic, and where digits cancel", "statement": "In any arithmetic with unit roundoff u the computed dgrand_potential0 differs from the exact derivative of the grand potential by at most about 90 u (1 + |x|) / beta^2, x = beta (epsilon - mu), for all levels and all beta > 0; in double precision grand_potential0 and dgrand_potential0 are within 2e-14 (1 + |x|) of the exact values in units of 1/beta and 1/beta^2. These bounds are absolute: near x = 20 the logarithm cancels and relative errors of 4e8 u are possible in both functions. uGP0 and dGP0 work level by level.", "quantifier": "all roundings, exponentials and logarithms within the bounds of IEEE arithmetic, all beta, epsilon, mu", "why_tests_cant": "Tests compare a few values with finite differences; an error bound for all arguments, and a lower bound on what can be lost, need a proof.", "anchors": ["cqcpy/ft_utils.py:56-80", "cqcpy/ft_utils.py:83-116"]}
{"id": "C89", "title": "Work and memory of the coupled cluster routines as exact polynomials in the numbers of orbitals", "statement": "With numpy's einsum, every routine of cc_equations does exactly a number of floating-point operations, and allocates exactly a number of array elements, given by explicit polynomials in the numbers of occupied and virtual orbitals (of each spin). No loop nest of an iteration with intermediates (ccsd_stanton, uccsd_stanton, rccsd_stanton, the lambda_opt routines) runs over more than six indices and no array has more than four axes, so work is at most c N^6 and memory c' N^4 with the stated constants. A restricted iteration does no more work than an unrestricted one with as many orbitals of each spin, which does no more than one in spin orbitals with twice as many; iterations with intermediates do no more than those without. The bound N^6 fails for ccsd_2rdm_bcai_opt and the other 2-RDM routines that keep a product of three operands (N^7), and for the routines without intermediates (N^8).", "quantifier": "all numbers of orbitals, all arrays of the documented shapes, all fields", "why_tests_cant": "Tests run on a handful of orbitals, where an additional loop costs nothing measurable; scaling is a statement about all sizes.", "anchors": ["cqcpy/cc_equations.py:1-3200", "cqcpy/cc_equations.py:2541", "cqcpy/cc_equations.py:2622"]}
{"id": "C90", "title": "How many determinants the CI bases hold", "statement": "A list of k-fold excitations of m electrons in n orbitals holds C(m,k) C(n-m,k) strings, for k = 1, 2, 3 (s_strings, d_strings, t_strings); the lengths of ucis_basis, ucisd_basis, ucisdt_basis, gcis_basis, gcisd_basis, gcisdt_basis, vcis_basis and vcisd_basis are the corresponding sums of products. With at most two electrons ucisd_basis, with at most three ucisdt_basis, has C(n,na) C(n,nb) entries, the dimension of the full space. q_strings has m (n-m) C(m-2,2) C(n-m,4) entries instead of C(m,4) C(n-m,4), and ucisdtq_basis is too long accordingly.", "quantifier": "all numbers of orbitals and electrons", "why_tests_cant": "Tests look at one or two bases; that the counts are binomial coefficients for all sizes, and by how much q_strings misses, needs induction.", "anchors": ["cqcpy/ci_utils.py:69-415"]}
{"id": "C91", "title": "The ladder operators of vibrational states", "statement": "Pstring.raize(p) adds one quantum to mode p and changes nothing else; lower(p) returns None exactly if mode p holds no quantum and otherwise takes one away. lower undoes raize, raize undoes lower wherever lower gives a state, operators on different modes commute, a mode out of range raises IndexError, every state with k quanta is reached from the vacuum by k raisings, and the bases of vcis_basis and vcisd_basis are closed under lower.", "quantifier": "all numbers of modes, all states with non-negative occupations, all modes", "why_tests_cant": "No test calls raize or lower; the claims range over all states.", "anchors": ["cqcpy/ci_utils.py:37-57", "cqcpy/ci_utils.py:395-415"]}
{"id": "C92", "title": "Memory of the CI routines: nothing is modified, and which strings share arrays", "statement": "Dstring(n, occ) with a numpy array keeps that array (an element assigned later by the caller changes the string), with a list it makes its own. excite, raize, lower, level, the string lists, all bases, the operators on vectors (s_on_vec ... sasb_on_vec) and H_on_vec, gH_on_vec change no array that existed before the call, also when they raise an exception; their results have the values given by the properties C32-C38. Excited strings, the entries of the string lists (also for occ given as an array) and of the general and vibrational bases have arrays of their own, so that assigning to one changes no other. In ucis_basis, ucisd_basis and ucisdt_basis two pairs with the same alpha (beta) occupation hold the same alpha (beta) string object, so that assigning to it changes all of them; alpha and beta strings never share arrays. The vector returned by an operator is a new array.", "quantifier": "all numbers of orbitals and electrons, all occupations, vectors and integrals, all memories in which the arguments lie", "why_tests_cant": "Tests look at returned values only; aliasing and modification of arguments show up in later statements of the caller.", "anchors": ["cqcpy/ci_utils.py:4-57", "cqcpy/ci_utils.py:69-415", "cqcpy/ci_utils.py:1428-1559"]}
{"id": "C93", "title": "Perturbation orders of the CCSD iteration, and Wigner's rule for the energy from the density matrices", "statement": "For a Hamiltonian diag(eps) + c * (f, I) (eps the orbital energies used in the denominators D1, D2), k updates T <- T - residual / D of ccsd_simple starting from zero give the amplitudes of the CCSD solution up to an error of order c^(k+1) and the energy of cc_energy up to order c^(k+2); likewise for uccsd_stanton with ucc_energy and for rccsd_stanton with rcc_energy. The CCSD energy agrees with mp2_energy of the first-order amplitudes up to order c^3. j updates of the multipliers with ccsd_lambda_simple at the k-th amplitudes give the CCSD multipliers up to order c^(min(j,k+1)+1). The energy obtained from the density matrices of the k-th amplitudes and j >= k updates of the multipliers is right up to order c^(2k+2): the 2n+1 rule.", "quantifier": "all finite orbital spaces, all orbital energies without vanishing denominators, all f and all antisymmetric (pair symmetric) I, real or complex, all k, all j, all coupling strengths c below a bound that does not depend on k, all antisymmetric solutions of norm at most one", "why_tests_cant": "Asymptotic statement about all orders of iteration and all small coupling strengths; a test measures a finite number of energies of one molecule.", "anchors": ["cqcpy/cc_equations.py:709-764", "cqcpy/cc_equations.py:2342-2640", "cqcpy/cc_energy.py:32-66", "cqcpy/utils.py:21-41"]}
{"id": "C94", "title": "The CCSD iteration in rounded arithmetic", "statement": "Carry out k updates T <- T - residual / D with ccsd_simple or ccsd_stanton in any rounded arithmetic of small enough unit roundoff u (sums in any order, the roundings of C60), with integrals, denominators and first amplitudes known up to c*u. Then no call raises, every update can be carried out, and the amplitudes, residuals and the energy of cc_energy after k updates differ from those of exact arithmetic by at most C*u, where C depends on the exact data and on k only. For a weak interaction and any eps > 0 there is a number of updates and a unit roundoff below which the rounded amplitudes are within eps of the solution of the CCSD equations.", "quantifier": "all numbers of orbitals, all integrals (antisymmetric ones for ccsd_stanton and for the convergence), real or complex, all orbital energies without vanishing denominators, all starting amplitudes (antisymmetric ones for ccsd_stanton), all k, all rounded arithmetics and all summation orders", "why_tests_cant": "A statement about all arithmetics, all summation orders and all numbers of updates; a test runs one arithmetic on one molecule.", "anchors": ["cqcpy/cc_equations.py:192-262", "cqcpy/cc_equations.py:709-742", "cqcpy/cc_energy.py:32-66", "cqcpy/utils.py:21-41"]}
{"id": "C95", "title": "When the CCSD iteration forgets or amplifies a loss of antisymmetry", "statement": "Take the iteration T <- T - residual / D for a Hamiltonian diag(eps) + z * (f, I), started from doubles antisymmetric in one pair of indices only. One update with ccsd_simple or ccsd_stanton multiplies the part symmetric in the occupied pair by -(eps_i + eps_j) / D_abij, and with ccsd_stanton the part symmetric in the virtual pair by (eps_a + eps_b) / D_abij, up to terms of order z times this part. If the factors are below one in size, the iteration converges geometrically to the antisymmetric solution for all small z. If they exceed one, every start with such a part, however small, leaves any given ball for all small z, although antisymmetric starts converge (C66). Adding a constant to all orbital energies changes no update of antisymmetric amplitudes, but a large constant always makes the iteration unstable in this sense. Without interaction the part symmetric in both pairs is never changed. ccsd_stanton keeps the antisymmetry in either pair alone, ccsd_simple only that in the virtual pair.", "quantifier": "all finite orbital spaces, all orbital energies without vanishing denominators that satisfy the stated inequality, all f and all antisymmetric I, real or complex, all couplings z below a bound, all starts, all numbers of updates", "why_tests_cant": "Instability shows after an unbounded number of updates, from perturbations of any size; tests start from exactly antisymmetric amplitudes and stop after one call.", "anchors": ["cqcpy/cc_equations.py:58-73", "cqcpy/cc_equations.py:192-262", "cqcpy/cc_equations.py:709-742", "cqcpy/utils.py:21-41"]}
{"id": "C96", "title": "Accuracy attained by the CCSD iteration in rounded arithmetic, for any number of updates", "statement": "Iterate T <- T - residual / D with the residuals of ccsd_simple or ccsd_stanton in rounded arithmetic of unit roundoff u, with the doubles antisymmetrised after every update (t - t.transpose(1,0,2,3), then s - s.transpose(0,1,3,2), times 0.25). Near a solution at which exact updates contract the error by q < 1 (and, for a weak perturbation, from every antisymmetric start in a ball with q = 1/2): no call ever raises, the doubles stay antisymmetric without any error, and after k updates the error is at most q^k times the first error plus C*u, with C independent of k, of the arithmetic, of u and of the errors of the integrals. The residuals returned and the error of the amplitudes bound each other up to C*u. So a stopping test on the residuals with tolerance tau >= C*u is met after a number of updates depending only on tau, and amplitudes that pass it are within C*tau of the solution. The energy returned by cc_energy is wrong by at most a constant times the error of the amplitudes plus u. In binary floating point with p bits the attained error is C*2^-p, with C independent of p. One constant of this kind exists for every routine of C60 and all arguments with bounded elements.", "quantifier": "all finite orbital spaces, all orbital energies without vanishing denominators, all Fock matrices and antisymmetric integrals, real or complex, that satisfy the contraction hypothesis (or are a weak perturbation), all rounded arithmetics that commute with signs, all errors of the inputs of order u, all starts in the ball, all numbers of updates", "why_tests_cant": "The bound has to hold for every number of updates and every arithmetic; a test observes one run of one arithmetic and cannot separate a stagnating error from one that grows slowly.", "anchors": ["cqcpy/cc_equations.py:192-262", "cqcpy/cc_equations.py:709-742", "cqcpy/utils.py:21-41"]}
{"id": "C97", "title": "Accuracy of a whole calculation in rounded arithmetic: amplitudes, multipliers and density matrices", "statement": "Iterate the amplitudes as in C96, then iterate the multipliers L <- L - residual / D with the residuals of ccsd_lambda_simple, ccsd_lambda_opt or ccsd_lambda_stanton and the amplitudes obtained, with the doubles antisymmetrised after every update, all in rounded arithmetic of unit roundoff u, and then call any routine of the package with the results (the energy, the density matrices, ...). Near solutions at which exact updates contract the error by q < 1 (and, for a weak perturbation, from all antisymmetric starts in a ball with q = 1/2): no call raises, the doubles of the multipliers stay exactly antisymmetric, after k updates their error is at most q^k times the first one plus C*u with C independent of k, also when amplitudes, integrals and denominators are wrong by c*u. The residuals returned and the error of the multipliers bound each other up to C*u. For every u there is a number of updates from which on amplitudes, multipliers and all results of the routine called last are within C*u of the exact ones, with C independent of u, of the arithmetic and of the numbers of updates.", "quantifier": "all finite orbital spaces, all orbital energies without vanishing denominators, all Fock matrices and antisymmetric integrals, real or complex, that satisfy the contraction hypotheses (or are a weak perturbation), all rounded arithmetics that commute with signs, all errors of the inputs of order u, all starts in the balls, all numbers of updates", "why_tests_cant": "Tests compare density matrices of one molecule with reference values at loose tolerances; how the errors of the amplitudes propagate through the multipliers for every number of updates and every arithmetic is not observable in a run.", "anchors": ["cqcpy/cc_equations.py:2272-2295", "cqcpy/cc_equations.py:2342-2366", "cqcpy/cc_equations.py:2369-2650"]}
{"id": "C98", "title": "Accuracy of the restricted iterations in rounded arithmetic, and exchange symmetry of their doubles", "statement": "Iterate the restricted amplitudes by T <- T - residual / D with the residuals of rccsd_stanton, and then the multipliers with those of rccsd_lambda_opt, in rounded arithmetic of unit roundoff u, with the doubles replaced by 0.5*(t + t.transpose((1,0,3,2))) after every update. Then the doubles stay exactly exchange-symmetric; near solutions at which exact updates contract the error by q < 1 (and, for a weak perturbation, from all exchange-symmetric starts in a ball with q = 1/2) no call raises, and after k updates the error is at most q^k times the first one plus C*u with C independent of k; the residuals returned and the error of the amplitudes bound each other up to C*u; and from some number of updates on the amplitudes, the multipliers and the results of any routine called with them are within C*u of the exact ones. Without symmetrising, what the doubles lack of exchange symmetry is not damped by the denominators: an update changes it through the interaction only, by a factor between 1 - M|z| and 1 + M|z| for an interaction of strength z, so the amplitudes come no closer than half of (1 - M|z|)^k of it to any exchange-symmetric ones; and without interaction the residuals of rccsd_stanton vanish at doubles with any part lacking.", "quantifier": "all finite orbital spaces, all orbital energies without vanishing denominators, all Fock matrices and exchange-symmetric integrals, real or complex, that satisfy the contraction hypotheses (or are a weak perturbation), all rounded arithmetics with commutative addition, all errors of the inputs of order u, all starts in the balls, all numbers of updates", "why_tests_cant": "Tests start from MP2 amplitudes, which are exchange-symmetric, and run one molecule to loose thresholds; neither the constant independent of the number of updates nor the persistence of a lost symmetry shows up.", "anchors": ["cqcpy/cc_equations.py:549-706", "cqcpy/cc_equations.py:758-764", "cqcpy/cc_equations.py:1983-2260", "cqcpy/cc_equations.py:2330-2339"]}
{"id": "C99", "title": "Accuracy of the unrestricted iterations in rounded arithmetic", "statement": "Iterate the five arrays of unrestricted amplitudes by T <- T - residual / D with the residuals of uccsd_stanton, and then the five arrays of multipliers with those of uccsd_lambda_opt, in rounded arithmetic of unit roundoff u, with the doubles of equal spins antisymmetrised after every update and those of different spins kept as they are. Then the doubles of equal spins stay exactly antisymmetric; near solutions at which exact updates contract the error by q < 1 (and, for a weak perturbation, from all such starts in a ball with q = 1/2) no call raises, and after k updates the error is at most q^k times the first one plus C*u with C independent of k; the residuals returned and the error of the amplitudes bound each other up to C*u; and from some number of updates on the amplitudes, the multipliers and the results of any routine called with them, like the density matrices, are within C*u of the exact ones.", "quantifier": "all finite orbital spaces of both spins, all orbital energies without vanishing denominators, all Fock matrices and integrals (antisymmetric for equal spins), real or complex, that satisfy the contraction hypotheses (or are a weak perturbation), all rounded arithmetics that commute with changes of sign, all errors of the inputs of order u, all starts in the balls, all numbers of updates", "why_tests_cant": "The tests compare one evaluation of the residuals with another one, at one random point and in one arithmetic; a bound for all numbers of updates and all roundoffs is not observable.", "anchors": ["cqcpy/cc_equations.py:302-546", "cqcpy/cc_equations.py:745-755", "cqcpy/cc_equations.py:2311-2327", "cqcpy/cc_equations.py:2645-2687"]}
{"id": "C100", "title": "Integrals in rounded arithmetic: accuracy, antisymmetry, and the amplitudes computed from them", "statement": "Let pyscf return integrals that are wrong by at most eps, and let subtraction have unit roundoff u. Then every antisymmetrised integral returned by get_phys(anti), get_phys_antiu, get_physu_all(anti), eri_blocks and int_to_spin is wrong by at most 2 eps + u(2M + 2 eps + eta), where M bounds the exact integrals. Exchanging the last two indices changes the sign exactly; exchanging the first two does so only up to twice that error, unless the arrays of pyscf are unchanged when the electrons are exchanged, and there are arrays and a subtraction for which it is not exact. The blocks of eri_blocks with these errors meet the hypotheses of C96, so for a weak interaction the rounded CCSD iteration fed with them reaches the exact amplitudes up to C*u for all numbers of updates.", "quantifier": "all arrays pyscf may return that have the right shapes, all orbital lists, all subtractions that are accurate to u and odd under exchange of the arguments, all u, all numbers of updates", "why_tests_cant": "The integral tests compare two ways of calling the same functions in double precision at one molecule; error bounds for every array and roundoff, and exactness of a symmetry, cannot be read off a norm below 1e-12.", "anchors": ["cqcpy/integrals.py:6-130", "cqcpy/integrals.py:135-148", "cqcpy/integrals.py:183-184", "cqcpy/integrals.py:232-303", "cqcpy/integrals.py:347-445", "cqcpy/spin_utils.py:136-239"]}
{"id": "C101", "title": "Coefficients of configurations in rounded arithmetic", "statement": "gmakeCfromT and makeCfromT in rounded arithmetic of unit roundoff u, from amplitudes that are wrong by at most b*u, raise exactly what they raise in exact arithmetic for the exact amplitudes, and otherwise return a vector of the same length whose elements are wrong by at most c*u, where c does not depend on u, the rounding or the errors. The same holds for s_on_vec, sa_on_vec, sb_on_vec, d_on_vec, da_on_vec, db_on_vec and sasb_on_vec. So the coefficients gmakeCfromT (orders 1 to 3) computes from the amplitudes of a rounded CCSD iteration for a weak interaction are those of exp(T) applied to the reference, for the exact solution T, up to a constant times u; and those makeCfromT (orders 1 to 3) computes from the amplitudes of a rounded unrestricted iteration with uccsd_stanton are those of exp(T) for its exact solution, up to a constant times u.", "quantifier": "all numbers of orbitals, orders, occupations and bases, all real amplitudes and vectors, all roundings with |rd(x) - x| <= u(|x| + eta), all u <= 1, all perturbations of the input of size b*u", "why_tests_cant": "No test evaluates these functions against anything but another evaluation in double precision; a bound for all roundings, sizes and inputs is not observable.", "anchors": ["cqcpy/ci_utils.py:418-597", "cqcpy/ci_utils.py:600-1269", "cqcpy/ci_utils.py:1428-1542"]}
{"id": "C102", "title": "Integrals of periodic systems in rounded arithmetic", "statement": "In rounded arithmetic, whatever arrays pyscf returns: get_chem_solk and get_phys_solk return exact zeros unless crystal momentum is conserved; with anti=True, exchanging the two kets and their k-points changes the sign of every element exactly (also the two bras, if pyscf's arrays are symmetric under exchange of the electrons); get_solk_integrals returns pyscf's numbers unchanged, so the orders 'chem' and 'phys' hold the same numbers bit for bit. If pyscf's arrays are wrong by at most eps, the antisymmetrised integrals are wrong by at most 2 eps + u(2M + 2 eps + eta) and h2 by at most eps; h1 is wrong by at most c*u, hence Hermitian up to 2c*u, where c depends only on the number of basis functions and the size of the coefficients and of the core Hamiltonian.", "quantifier": "all numbers of k-points and orbitals, all tables of momentum conservation, all arrays returned by pyscf, all subtractions with relative error u (odd for the signs), all orders of summation in numpy.dot", "why_tests_cant": "The tests on periodic systems use one cell and compare norms; exact sign changes and zeros for any values and a bound for all roundings are not observable.", "anchors": ["cqcpy/integrals.py:151-180", "cqcpy/integrals.py:187-229"]}
{"id": "C103", "title": "Element type of occupation arrays", "statement": "Dstring keeps the element type of the occupation array it is given. With signed integers of any width (at least two bits) level, diff, gci_matrixel and ci_matrixel give what they give for mathematical integers. With booleans they raise. With unsigned integers of w < 64 bits (numpy.uint8, ...) the level of two strings with equal numbers of electrons is 2^(w-1) times the right one, so every matrix element between different strings is returned as 0 without an error, while the diagonal elements are right: the Hamiltonian silently becomes diagonal.", "quantifier": "all numbers of orbitals, all pairs of occupations of zeros and ones, all widths, all integrals", "why_tests_cant": "The tests build all strings from Python lists, hence in the default integer type; other element types are never used.", "anchors": ["cqcpy/ci_utils.py:4-8", "cqcpy/ci_utils.py:60-66", "cqcpy/ci_utils.py:1272-1425"]}
{"id": "C104", "title": "Negative orbital numbers", "statement": "Dstring.excite(i, a), Pstring.raize and Pstring.lower accept orbital numbers from -n on, counted from the end as everywhere in Python. The string that results never depends on the numbering, and raize and lower are right. The sign of excite is right if both numbers are negative. If only one is, and it is not -1, the sign is right when the orbital with the negative number comes first in the array and is always 1 otherwise, whatever number of electrons is passed. If one number is -1, the sign is right exactly for an odd number of electrons. Numbers outside -n..n-1 raise IndexError.", "quantifier": "all numbers of orbitals, all occupations, all integer orbital numbers", "why_tests_cant": "The tests never use negative orbital numbers; which combinations are right depends on positions and on the number of electrons.", "anchors": ["cqcpy/ci_utils.py:10-31", "cqcpy/ci_utils.py:43-54"]}
{"id": "C105", "title": "Overflow in the coupled-cluster routines", "statement": "For every coupled-cluster routine and every bound on its arguments there is a size such that in any floating-point arithmetic whose largest number is at least that size no call overflows: no result contains an infinity or NaN, whatever the arguments within the bound, the roundoff, the order of summation inside einsum, and the state of memory; and for given arguments the results then have errors of at most a constant times the unit roundoff. When overflow does happen it raises nothing and changes no shape and no element type. IEEE arithmetic of any precision is such an arithmetic, and for every finite range there are arguments in range for which an energy is not finite.", "quantifier": "all routines, all numbers of orbitals, all arguments, all roundoffs up to one, all ranges, all evaluation orders of einsum, all states of memory", "why_tests_cant": "Whether intermediate quantities stay in range depends on all sizes and all data; tests use small random numbers.", "anchors": ["cqcpy/cc_energy.py:1-77", "cqcpy/cc_equations.py:1-3290"]}
{"id": "C106", "title": "Converging CCSD iterations never overflow", "statement": "A CCSD iteration built on ccsd_simple or ccsd_stanton in floating-point arithmetic with a finite range, with divisions by the denominators and antisymmetrising of the doubles after every update: if exact updates contract within a ball around the solution, there is a size such that in any arithmetic whose largest number is at least that size, and whose unit roundoff is small enough, no number of updates leads to an infinity or NaN; the doubles stay exactly antisymmetric; and after k updates the error is at most q^k times the first one plus a constant times the unit roundoff. Every update is exactly an update in an arithmetic of the same roundoff that has no largest number, so all that is proved about rounded iterations applies. IEEE arithmetic of any large enough precision and range is such an arithmetic.", "quantifier": "all numbers of orbitals, all antisymmetric integrals, all starts in the ball, all numbers of updates, all roundoffs below a threshold, all ranges above a threshold, all evaluation orders of einsum", "why_tests_cant": "A run of an iteration shows finitely many updates of one system in one arithmetic; that no later update overflows is not visible.", "anchors": ["cqcpy/cc_equations.py:709-743"]}
{"id": "C107", "title": "The chemical potential of a given number of electrons, and limits of temperature", "statement": "For every positive inverse temperature, all energies and every number N strictly between zero and the number of levels there is a chemical potential at which the occupations returned by ff add up to exactly N, and bisection (any method that shrinks a bracket to a point) converges to one, although the sum jumps where fermi_function changes branch. It need not be unique: a single level is occupied equally at two chemical potentials. The chemical potential of the Fermi-Dirac distribution without cut-offs is unique, and at one found with ff its number of electrons is right to exp(-60) for each level. As the temperature goes to zero levels below the chemical potential become full, those above empty, those at it half full, the grand potential becomes min(epsilon - mu, 0) and its derivative zero; as it goes to infinity all levels become half full and beta times the grand potential tends to -log 2.", "quantifier": "all temperatures, energies, numbers of levels, numbers of electrons, brackets", "why_tests_cant": "Existence for every number of electrons and limits are statements about all real numbers; the jumps are of the size exp(-60) and not visible in double precision.", "anchors": ["cqcpy/ft_utils.py:12-80"]}
{"id": "C108", "title": "Which laws of thermodynamics survive the cut-offs of the finite-temperature functions", "statement": "For every level, temperature and chemical potential, on all branches: grand_potential0 is exactly (epsilon - mu) fermi_function - beta dgrand_potential0 (and the sum of GP0 is exactly the energy minus mu times the number of electrons minus the entropy over beta); levels at the same distance above and below mu have the same dgrand_potential0 and grand potentials that differ by the distance; the entropy beta^2 dgrand_potential0 is positive, at most log 2, and log 2 only for epsilon = mu; grand_potential0 is never above the exact grand potential, so no occupation numbers give a lower free energy than the sum of GP0. The entropy goes to log 2 times the number of levels at mu at zero temperature and to log 2 per level at infinite temperature. What does not survive: the entropy can rise when the temperature falls (at beta |epsilon - mu| = 20), and dgrand_potential0 is the derivative of grand_potential0 with respect to beta if and only if beta |epsilon - mu| is below 20 or above 30.", "quantifier": "all energies, chemical potentials, nonzero (or positive) inverse temperatures, vectors of any length, all trial occupations", "why_tests_cant": "Identities over continuous parameters on all branches of the code, limits, and an exact description of the set where a derivative is correct; the deviations are of the order exp(-40), below any tolerance of a test.", "anchors": ["cqcpy/ft_utils.py:12-33", "cqcpy/ft_utils.py:56-80", "cqcpy/ft_utils.py:83-91", "cqcpy/ft_utils.py:108-116"]}
{"id": "C109", "title": "A converging calculation, from amplitudes to density matrices, never overflows", "statement": "The amplitudes are iterated with ccsd_simple or ccsd_stanton, then the multipliers with ccsd_lambda_simple, ccsd_lambda_opt or ccsd_lambda_stanton for the amplitudes obtained (the doubles antisymmetrised after each update), then any routine of the package is called with them, such as those of the energies and density matrices. Suppose the exact iterations contract towards solutions T and L. Then there is a size Omega_0, the same for all small unit roundoffs u, such that in every rounded arithmetic whose largest number is at least Omega_0, with finite integrals and denominators wrong by at most c u, no infinity or NaN ever appears: not in the amplitudes after any number of updates, not in the multipliers after any number of updates once the amplitudes have converged to order u, and not in the results of the routine, which are within C u of the exact ones.", "quantifier": "all numbers of orbitals and integrals for which the iterations contract, all routines, all rounded arithmetics with overflow (in particular IEEE arithmetic with any number of bits and any range that is large enough), all numbers of updates, all starting points in the ball of contraction", "why_tests_cant": "Overflow depends on every intermediate result of every call; a test sees one run in one arithmetic.", "anchors": ["cqcpy/cc_equations.py:2272-2295", "cqcpy/cc_equations.py:2342-2366", "cqcpy/cc_equations.py:2369-2650"]}
{"id": "C110", "title": "A converging unrestricted calculation never overflows", "statement": "The five arrays of unrestricted amplitudes are iterated with uccsd_stanton, then the multipliers with uccsd_lambda_opt for the amplitudes obtained (the doubles of equal spins antisymmetrised after each update), then any routine of the package is called with them, such as those of the unrestricted energies and density matrices. Suppose the exact iterations contract towards solutions T and L. Then there is a size Omega_0, the same for all small unit roundoffs u, such that in every rounded arithmetic whose largest number is at least Omega_0, with finite integrals and denominators wrong by at most c u, no infinity or NaN ever appears: not in the amplitudes after any number of updates, not in the multipliers after any number of updates once the amplitudes have converged to order u, and not in the results of the routine, which are within C u of the exact ones. For weak perturbations of a non-degenerate diagonal problem the assumption holds.", "quantifier": "all numbers of orbitals of both spins and integrals for which the iterations contract, all routines, all rounded arithmetics with overflow (in particular IEEE arithmetic with any number of bits and any range that is large enough), all numbers of updates, all starting points in the ball of contraction", "why_tests_cant": "Overflow depends on every intermediate result of every call; a test sees one run in one arithmetic.", "anchors": ["cqcpy/cc_equations.py"]}
{"id": "C111", "title": "A converging restricted calculation never overflows", "statement": "The restricted amplitudes are iterated with rccsd_stanton, then the multipliers with rccsd_lambda_opt for the amplitudes obtained (the doubles symmetrised with `t = 0.5*(t + t.transpose((1, 0, 3, 2)))` after each update), then any routine of the package is called with them. Suppose the exact iterations contract, on exchange-symmetric doubles, towards solutions T and L. Then there is a size Omega_0, the same for all small unit roundoffs u, such that in every rounded arithmetic whose sums of finite numbers do not depend on the order of the summands and whose largest number is at least Omega_0, with finite integrals and denominators wrong by at most c u, no infinity or NaN ever appears: not in the amplitudes after any number of updates, not in the multipliers after any number of updates once the amplitudes have converged to order u, and not in the results of the routine, which are within C u of the exact ones. For weak perturbations of a non-degenerate diagonal problem the assumption holds; IEEE arithmetic satisfies the condition on sums.", "quantifier": "all numbers of orbitals and integrals for which the iterations contract, all routines, all rounded arithmetics with overflow (in particular IEEE arithmetic with any number of bits and any range that is large enough), all numbers of updates, all exchange-symmetric starting points in the ball of contraction", "why_tests_cant": "Overflow depends on every intermediate result of every call, including the symmetrisation; a test sees one run in one arithmetic.", "anchors": ["cqcpy/cc_equations.py"]}
{"id": "C112", "title": "Restricted, unrestricted and generalized calculations of closed shells agree, update by update, the first two also in rounded arithmetic", "statement": "For integrals of a closed shell (the same for both spins, symmetric under exchange of the electrons): starting from closed-shell amplitudes, any number of updates with uccsd_stanton gives exactly the closed-shell amplitudes (equal singles for both spins, mixed-spin doubles t, same-spin doubles t - t.transpose((0, 1, 3, 2))) of the same number of updates with rccsd_stanton, whether the iterations converge or not; the same for the multipliers with uccsd_lambda_opt and rccsd_lambda_opt. Likewise any number of updates with ccsd_simple (or ccsd_stanton) and ccsd_lambda_simple (or ccsd_lambda_opt), for spin-orbital integrals assembled from arbitrary antisymmetric integrals of two spins, gives the amplitudes and multipliers that T1_to_spin and T2_to_spin assemble from those of the unrestricted updates. So all three energies of a closed shell are equal after every number of updates, and all blocks of the restricted, unrestricted and spin-orbital one- and two-particle density matrices correspond. For weak perturbations of a non-degenerate diagonal problem, and in every rounded arithmetic that is symmetric in sign and whose sums do not depend on order, a restricted and an unrestricted calculation, with different integrals wrong by at most c u, different starting values and different numbers of updates (at least N), give amplitudes, multipliers and energies (rcc_energy, ucc_energy) that agree to within C u.", "quantifier": "all numbers of orbitals, all closed-shell integrals, all exchange-symmetric starting values, all numbers of updates; all rounded arithmetics with unit roundoff u below a bound", "why_tests_cant": "The tests compare one update of one random input; agreement of whole calculations depends on uniqueness of the solutions and on the growth of rounding errors in both implementations.", "anchors": ["cqcpy/cc_equations.py"]}
{"id": "C113", "title": "Whole coupled-cluster calculations are size consistent", "statement": "For any number of subsystems that do not interact (all integrals and starting amplitudes that mix them are zero; arbitrary different subsystems): after every number of updates T - residual/denominator of the combined system, with ccsd_simple, uccsd_stanton or rccsd_stanton and the orbital energies of all subsystems, the amplitudes are exactly those of the separate calculations, no amplitude that couples subsystems ever appears, and the energies (cc_energy, ucc_energy, rcc_energy) add up exactly, whether the iterations converge or not. If all separate calculations converge so does the combined one, to the assembled amplitudes. n equal subsystems have n times the energy of one after every update. With two subsystems and antisymmetric amplitudes, the multipliers of ccsd_lambda_simple within each subsystem and the one-particle density matrix are, after every number of updates of the multipliers, those of the separate calculations, whatever the multipliers that couple the subsystems.", "quantifier": "all numbers and sizes of subsystems, all integrals, all starting amplitudes (antisymmetric or exchange-symmetric for the unrestricted and restricted equations), all numbers of updates", "why_tests_cant": "Tests have no combined systems; a test could compare one pair of systems for some updates.", "anchors": ["cqcpy/cc_equations.py", "cqcpy/cc_energy.py"]}
{"id": "C114", "title": "Whole coupled-cluster calculations do not depend on the choice of degenerate orbitals", "statement": "If the orbitals are changed such that only orbitals of equal orbital energy are mixed (rotations among degenerate orbitals, phases, renumbering), then after every number of updates of amplitudes and multipliers (divided by the orbital energy differences), with the generalized, unrestricted and restricted equations, amplitudes, multipliers and (generalized) one-particle density matrices of virtual-virtual and occupied-occupied blocks are those of the old orbitals transformed, and every energy on the way is exactly the same, whether the iterations converge or not. For orbitals of different energies this is false: the energy after the first update changes.", "quantifier": "all numbers of orbitals, all invertible changes of basis that respect the orbital energies (not only unitary, and into larger sets of orbitals), all integrals and starting amplitudes without any symmetry, all numbers of updates", "why_tests_cant": "Tests have no rotated orbitals and do not iterate; degenerate orbitals with arbitrary rotations cannot be sampled exhaustively.", "anchors": ["cqcpy/cc_equations.py", "cqcpy/cc_energy.py", "cqcpy/utils.py"]}
{"id": "C115", "title": "Whole coupled-cluster calculations: units of energy, complex conjugation and real data in complex arrays", "statement": "Multiplying all integrals and orbital energies by a non-zero number leaves, after every number of updates with the generalized, unrestricted and restricted equations, amplitudes, multipliers and one-particle density matrices (generalized; occupied-occupied and virtual-virtual blocks) unchanged and multiplies every energy by that number. Conjugating all integrals, orbital energies and starting amplitudes conjugates all of these. A calculation with real data in complex arrays gives the real calculation and never leaves the real numbers.", "quantifier": "all sizes, integrals and starting amplitudes without any symmetry, all factors, all homomorphisms between the number fields, all numbers of updates", "why_tests_cant": "Tests use one unit and real data; equality for all data and all updates cannot be sampled.", "anchors": ["cqcpy/cc_equations.py", "cqcpy/cc_energy.py", "cqcpy/utils.py"]}
