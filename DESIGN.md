# Formal model of cqcpy

Source: `/repo` (awhite862/cqcpy), read as text only.  Model and proofs: Lean 4.33.0 with Mathlib (`lean/`, one Lake library `Verif`).
`properties.jsonl` states the properties, `MANIFEST.json` maps each to theorems, `seeded/LOG.jsonl` records the wrong programs the
theorems were tried on.

## 1. Trusted base

* The Lean kernel, and the Mathlib definitions that occur in statements (fields, finite sums, lists, finsets, real `exp`/`log`,
  derivatives, permutations).
* Axioms: every theorem of the manifest depends on a subset of `propext`, `Classical.choice`, `Quot.sound` (`#print axioms`; `vcheck`
  replays all modules).  No axioms of our own, no `sorry`, no `native_decide`, no `bv_decide`.
* That the definitions in `Verif/Model` say what the Python text says.  They are of three kinds (section 2); each cites file and lines.
* What numpy and pyscf do: section 3.
* Tactics (`tensor`, `tensor_split`, `krfl`) and generators of *proofs* (`tools/gen_num.py`, `gen_rot.py`) are not trusted: they only
  produce terms the kernel checks.  Generators of *models* (`gen_cc.py`, `gen_heap.py`, `gen_spin.py`, `gen_ci.py`, `gen_ciexp.py`) are.

## 2. What is modelled, and how

| Python | Lean | kind |
|--------|------|------|
| `cc_energy.py`, `cc_equations.py` (all 115 functions, 68 public) | `Model/CCEnergy, CCGT, CCGL, CCGRdm, CCUT, CCUL, CCURdm, CCRT, CCRL, CCRRdm` | generated by `gen_cc.py`: every assignment becomes a `let` with the explicit sums; `x += e` becomes rebinding |
| the same | `Model/HeapProg` (programs of the language `Model/Heap`) | generated independently by `gen_heap.py` from the Python syntax tree: every statement with its references, in-place updates, views (`transpose`), `copy`, `astype`, calls |
| `ov_blocks.py` | `Model/Blocks`, `Model/Util` | by hand |
| `spin_utils.py` | `Model/Spin` (index types), `Model/SpinFin` (numeric slices, generated by `gen_spin.py`) | both; proved equal |
| `spin_utils.py`, `make_two_e_blocks(_full)` | `Model/Views`: programs on buffers and views, with element types, broadcasting and exceptions | by hand, statement by statement |
| `utils.py`, `test_utils.py` | `Model/Util` | by hand |
| `ft_utils.py` | `Model/Ft`, over ℝ | by hand |
| `ci_utils.py` | `Model/CI` (strings, bases, matrix elements, operators on vectors), `Model/CIExp` (`gmakeCfromT`, `makeCfromT`; generated loops) | by hand / generated |
| `examples/cisd.py`, `cisd_Be.py`, `cis.py`, `cis_H2.py` (from the integrals on) | `Model/CIEx` | by hand; what PySCF and `eigh` return is a parameter |
| `examples/kpt_hamiltonian.py`, `examples/kmp2.py` (from the integrals on) | `Model/KEx` | by hand; what PySCF provides is a parameter |
| `integrals.py` | `Model/Integrals` | by hand; pyscf's AO transformation, k-point driver and `kconserv` are parameters |

Exceptions are values (`Except`/`Option`), branches are kept one by one.

**Link between the two models of the CC code.**  C53 proves for every public routine that the program in `HeapProg`, run on numpy arrays by
the semantics of `Model/Numpy`, returns arrays whose contents are the tensors of the definition of the same name in `Model/CC*`, that it
raises nothing, and that no argument is changed.  The two transcriptions were made by different generators from the text; that the kernel
finds them definitionally equal rules out transcription errors that are not made twice.

**Not modelled**: overflow, infinities and NaN outside ft_utils and the CC routines (for which see C85, C105, `Model/FtOver` and `Model/Overflow`), the sign of zero, rounding outside the CC routines, ft_utils, test_utils, utils, ci_utils, the CI examples and the integrals (for these see C60, C70, C71, C81, C100, C101, C102, `Model/Rounded`, `Model/FtRound`, `Model/CIRound`, `Model/CIExpRound`, `Model/IntRound` and `Model/IntRoundK`), memory layout, strides other than axis permutations, time and memory use (but see C89 for operation counts and allocations of the CC routines); `pyscf` itself
(Hartree-Fock, AO integrals); the random numbers drawn by `test_utils` (a parameter); warnings other than `ComplexWarning`; the
`isinstance` check in `get_solk_integrals`; printing.  Dtypes are modelled for the CC routines, `spin_utils` and the vector routines of `ci_utils` (C87) only (real or complex), and for occupations in the matrix elements (C103).

## 3. Assumptions about numpy

* `Model/Numpy`: `einsum` is the sum over all letters that are not in the output of the left-associated product; it raises when extents
  differ or output letters repeat or are unknown; the result is complex if any operand is.  `+`, `-`, `*` are elementwise with scalars (arrays of
  rank 0) broadcast and otherwise equal shapes required (the code never broadcasts otherwise; a run that would is an error of the model).
  `x += y` writes into `x`, raises `UFuncTypeError` when `x` is real and `y` complex.  `astype` to real drops imaginary parts
  with `ComplexWarning`.  `transpose` returns a view.
* `Model/Rounded` (C60 only): each elementary operation has relative error at most `u` (plus `u * η` for underflow); the error of an element of
  an `einsum` is at most `u` times a monotone function of the absolute values of the factors, for an unspecified order and grouping; negation,
  transposition and casts are exact.  There is no overflow.
* `Model/CIRound` (C81): rounding is odd, leaves representable numbers unchanged and has relative error `u` (plus `u * η`); a sum of at most `T` products of a number with
  zeros and ones has relative error `g` with respect to the sum of absolute values.  `numpy.linalg.eigh` reads the lower triangle and returns the exact
  eigenvalues of a symmetric matrix that differs from it by at most `ε` in each element.
* C84 proves the assumptions of the last two items, and those of `Model/FtRound`, for rounding to nearest with ties to even in every binary format without
  overflow, with sums taken one term after the other.
* `Model/FtOver` (C85): results above the largest number become infinities, invalid operations give NaN, comparisons with NaN are false; `numpy.exp` and
  `numpy.log` return infinities and NaN as IEEE 754 recommends.
* `Model/Views` (C61, C62): `numpy.zeros` is real; basic slices (`:n`, `n:`) and `transpose` are views; slice assignment broadcasts its right-hand side, keeps the
  element type of the target and drops imaginary parts with `ComplexWarning`; `copy` and arithmetic allocate.  Which element is written when a view
  maps two indices to one element is left open (no theorem depends on it).
* `x += x.transpose(...)` reads the right-hand side before writing (numpy ≥ 1.13).
* When pyscf is installed, the code uses `pyscf.lib.einsum`; it is taken to compute the same as `numpy.einsum`.
* Numbers are elements of an arbitrary field `K` (characteristic zero where the code divides by small integers; an arbitrary field is enough
  for C42, C53–C55).  Complex conjugation occurs only in `integrals.py` (`star`).

## 4. Proof methods

* **Tensor identities** (`Verif/Tensor`): a reflective decision procedure for identities between sums of products of tensors modulo renaming of
  summation indices, index symmetries and, in `Split`, splitting of sums over disjoint unions of index types.  `Expr` defines
  expressions, their value, and expansion into monomials; `Canon` the checker with its soundness proof; `Deriv` identities modulo a power of
  a parameter; `Ix` the environments; `Fast` has the same checks written with
  recursors, proved equal to them, because the kernel evaluates those faster; `Tactic` reifies goals and searches for the renamings.  Identities hold for all index
  types, i.e. all array sizes.
* **Programs with references** (`HeapLemmas`, `HeapFun`): an ownership checker on programs, proved sound by induction on
  statements: arguments keep their contents, results are new arrays, the run with references has the values of the run without.
* **Relations between meanings of programs** (`NumSim`): if two interpretations of the operators respect a relation between values, all runs do.
  Instances: kinds of axes → extents (`types_sim`), tensors → arrays (`tensors_sim`), tensors in one basis → tensors in another
  (`sorted_sim`, where a static check sees that `einsum` only contracts a bra axis with a ket axis).
* **Second quantisation** (`Second`, `Wick`, `Dress`, `Proj*`): the cluster operator is commuted through creation and annihilation operators in an
  arbitrary representation of the anticommutation relations with a vacuum; `FockRep` shows that Jordan-Wigner operators on Fock space are one.
* **Determinants** (`CI*`): induction over lists, sets of occupied orbitals, and counting; matrix elements are compared with `Spec/SlaterCondon`
  and with second quantisation (`Spec/Fock`).

## 5. Properties

| id | model | proof | files |
|----|-------|-------|-------|
| C01, C02 | CCGT | both implementations equal `Spec/CCSD` | GT |
| C03 | CCGT | antisymmetry kept; induction over iterations; counterexample for the ring-only routine | GT |
| C04 | CCGT | homogeneous parts | GT |
| C05, C07, C08 | CCGL | tensor identities; induction over iterations | GL |
| C06 | CCGL, `Spec/Lagrangian` | expansion to first order in the step, then `HasDerivAt` | LDeriv |
| C09–C11 | CCGRdm | tensor identities | GRdm |
| C12, C13, C15, C17, C18, C23, C44, C45 | CCU*, Spin | sums over spin orbitals split into spins; also for numeric indices (`Num`) | UT, UL, URdm, Num; FlipIter (C45 in whole calculations, induction on updates) |
| C14, C16, C19, C43 | CCR*, `Spec/Closed` | closed-shell substitution | RT, RL, RRdm |
| C20–C22 | Spin, SpinFin | case analysis on blocks; numeric slices | Spin |
| C24–C27 | Util, Blocks | algebra; random arrays are parameters | Util |
| C28–C30 | Ft | real analysis, all branches of the cut-offs | Ft |
| C31–C34 | CI | strings as sets; counting | CIString, CIStrings, CIBasis, CIQuad, CIQuad2, CIVib |
| C35, C36, C38 | CI, `Spec/SlaterCondon`, `Spec/Fock` | Slater-Condon rules from second quantisation | CIMatrix, CIVec |
| C37, C46 | CIExp, `Spec/ExpT` | loop invariants; coefficients of `e^T` | CIExp* |
| C39–C41 | Integrals | algebra over the AO transformation | Integrals, IntegralsK |
| C42 | HeapProg | ownership checker | HeapLemmas, HeapFun, HeapCC |
| C47 | CCGT | explicit sums | GT |
| C48–C51 | CCGT, CCGL, CCGRdm, `Spec/Second` | second quantisation; for C51 also the limit of any convergent sequence of updates | GSecond, GSecondL, GExact, LimitEx, LimitU |
| C52 | CCG*, CCU*, CCR*, `Spec/Separate` | sums split over subsystems; for the unrestricted routines the generalized statements are carried over by C12, C13, C15, C17 and a reordering of the spin orbitals; any number of subsystems by induction, joining the first subsystem to the rest | Sep, SepL, SepR, SepU, SepMany |
| C53, C54 | HeapProg, Numpy | simulations | NumTypes, NumRun, NumG, NumU, NumR, NumEx |
| C55 | HeapProg, CC*, `Spec/Basis` | simulation | Rotate, RotRun, RotG, RotU, RotR, RotEx |
| C56 | CCG*, CCU*, CCR* | the Lagrangian is differentiable in integrals and amplitudes and its derivative along a curve is that along the tangent (C06 for the amplitudes, C10, C11 for the integrals); spin splitting and closed shell from C12–C19 | Response, ResponseSq, ResponseU, ResponseR |
| C57 | CCGRdm, CCURdm, CCRRdm | tensor identities | SumRules |
| C58 | CCGT, CCGL, CCGRdm, CCEnergy | implicit function theorem on the textbook residual (Spec/CCSD), carried to the code by C01; Lambda linear part = transposed Jacobian (C06), finite-dimensional injective ⇒ surjective; weak coupling from linearity of the residual in the integrals | Exist, ExistMP |
| C59 | CCUT, CCEnergy, Spin, CI, CIExp | rows of H e^T on reference, singles and doubles by Wick-type commutation (Rows), the CI matrix and makeCfromT as operators on the spin-orbital Fock space (C35–C37), C12, C13 | Rows, CCCI, CCCIRow, CCCIEnd |
| C60 | HeapProg, Rounded | running the program on pairs (exact value, error constant) simulates the exact run and bounds the rounded run (NumSim); C42, C53 for memory and tensors | Round, RoundRun, RoundCC |
| C61 | Views | symbolic execution of each function with a framed description of the memory (`Ok`, `Has`, `Keeps`, `Build`); contents by C20's slice model | Views, ViewsSpin, ViewsInt, ViewsShare |
| C62 | Views | results are slices of the argument (`Part`); writing through an injective view | ViewsShare |
| C63 | HeapProg, Numpy, CC* | simulation of two runs side by side, indexed by the degree in the Hamiltonian that a run on degrees computes; tensors by C53 | Morph, Scale, ScaleCC, Units |
| C64 | HeapProg, Numpy, CC* | three runs side by side; in degree one the third is the linear combination | Linear, LinearCC, Units |
| C65 | CC*, Util | linearity (C64) splits off the diagonal part, which is evaluated for every routine; unrestricted routines through C13/C15 | Denom |
| C66 | CC*, Util (the loop is the caller's) | linearity splits the update into coupling times a smooth map; contraction principle on the closed set of antisymmetric amplitudes; strict differentiability at a solution; the limit of any convergent sequence of updates is a fixed point by continuity | Iterate, LimitEx |
| C67 | CC* | C10 and C06 make the contraction a smooth function with vanishing derivative; mean value theorem twice | Lagrange |
| C68 | CI | `H_on_vec` is a symmetric matrix (C36, C38) over nested sets of determinants (C33); spectral theorem, and a dimension count for the eigenvalues of a compression; repeated quadruples (C34) break it | CIVar |
| C69 | CC, spin_utils | the sorts of bra and ket axes of the programs (C55) make every einsum, sum and transpose keep the sum of labels zero on nonzero elements; a simulation over the programs, then each routine; iterations and their limit (C66); amplitudes and multipliers of all three implementations | Spec/Select, Grade, SymCC (generated), Sym, SymIter |
| C70 | ft_utils | rounded model; range from monotone rounding; errors branch by branch, with the slope of the distribution decaying faster than the error of its argument grows | Model/FtRound, Props/FtRound |
| C71 | test_utils, utils | the generators and denominators of Model/Util on numbers with commutative addition and laws of signs only; instances: reals with an odd rounding, integers with a coarse rounding (witness) | Machine |
| C72 | ci_utils | spin exchange by cases on the branches of the code; the rest from C35 and the expansion of matrix elements of a Hamiltonian in creation and annihilation operators; C38 for H_on_vec | CISym |
| C73 | CC*, spin_utils, Util (the loop is the caller's) | linear maps between restricted, unrestricted and spin-orbital amplitudes carry smoothness and Lipschitz bounds of C66 over; contraction principle on the closed sets of (anti)symmetric amplitudes; C67 for the energies; limits of convergent updates are fixed points by continuity | IterateU, LimitU |
| C74 | `cis_matrix` (examples/cis.py), `IsMatrix` (its loops), `ci_matrixel`, `ucis_basis` | elements between single excitations from the Slater–Condon rules with the signs of `a† i` factored out (`elt_singles`); characteristic polynomials of signed permutations and of 2×2 blocks; orthonormal eigenvectors give the roots of the characteristic polynomial | Props/CIS, CisEx |
| C75 | `Model/Ft`; Fock space of `Spec/Fock` | product expansion of the partition function over determinants, relative-entropy inequality, squeeze and intermediate-value theorems | Props/Thermo |
| C76 | `Model/KEx` (table-filling loops with shape checks, energy loops), `Model/Integrals`, `CI.ci_matrixel`, `CC.rcc_energy` | momentum conservation collapses the fourth k-point sum; loops become sums over the supercell; square completion for the sign | Props/KEx |
| C77 | `Model/CI` (bases, `ci_matrixel`, `H_on_vec`); determinants of rotated orbitals in the Fock space of `Spec/Fock` | the rotated creation and annihilation operators satisfy the same anticommutation rules; induction over sorted determinants gives the intertwining map and its inverse; colours of orbitals count excitation levels | Props/FockRot, CIRot |
| C78 | `Model/CI` (bases, `ci_matrixel`, `H_on_vec`); spin operators in the Fock space of `Spec/Fock` | commutators from the anticommutation rules; S^2 keeps the numbers of electrons of each spin and outside the reference; ladder argument for its values and for the injectivity of S-; joint diagonalisation | Props/FockSpin, CISpin |
| C79 | `Model/CIEx` (`naive_matrix`, `cisd_matrix`, `Eigh`), `Model/CI` | matrix = Slater–Condon elements by C35; shift by the constant; Rayleigh quotients of one and two basis states; Slater–Condon double for the sign; Brillouin's theorem (C72); C68 for larger bases | Props/Cisd |
| C80 | `Model/CI` | Fock space: Hamiltonians of disjoint sets of orbitals act on products of states, with the signs of the spectators cancelling (`elt_ham_union`, `elt_both`); products of eigenstates; conversely projection of an eigenstate on an eigenstate of the first system (spectral theorem); permutations of orbitals by C77; the failure of CISD by an explicit inverse of H + 4 over its 27 determinants | Props/FockAdd, Props/CIAdd, Props/CIAdditive |
| C81 | `Model/CIRound` | every operation of `Model/CI` with a rounding after it; error and size bounds (`Near`) are carried through each branch; sizes of sums by counting electrons (`sum_val_occ`); products with vectors by induction over the loop; eigenvalues by the min-max principle (`eigh_near`) | Model/CIRound, Props/CIRound, Props/CIRoundEx |
| C82 | `Model/Tests` | each test as a proposition in the arrays drawn; division by zero makes the assertion false, as NaN does; the equalities of C01-C27 give zero norms; the spin-blocked contractions are split into their blocks (`ein_anti`, `ein_last`, `ein_first`, `ein_six`) | Model/Tests, Props/Tests |
| C83 | `Model/FtTests`, `Model/CITests` | Taylor's theorem in the form of three applications of the mean value inequality (`central`); third derivatives of the grand potential (bounded through the entropy, which lies between 0 and log 2), of its exponential tails and of the square roots of the occupation numbers; C33, C38 and C79 for the CI test | Model/FtTests, Model/CITests, Props/FtDiff, Props/CITests |
| C84 | `Spec/Binary` (floating-point numbers, round half to even) | the place of the last digit is monotone; a number nearer than half a unit would be the same multiple of the unit; differences of multiples of the smallest number are multiples of it | Spec/Binary, Props/Binary |
| C85 | `Model/FtOver` (values: numbers, two infinities, NaN) | case analysis on which of the two first operations overflow; C70 for the range of the occupation numbers | Model/FtOver, Props/FtOver |
| C86 | `Model/IntTests` (the tests, with pyscf's quantities defined from basis function integrals) | C39, C41 for the arrays; sums over occupied orbitals as contractions with density matrices, by induction on the orbitals | Model/IntTests, Props/IntTests |
| C87 | `Model/CIRe` (the routines with complex input and the real result arrays of `numpy.zeros`), generated from `Model/CI` and `Model/CIExp` by `tools/gen_cire.py` | homomorphism `re` through the loops, by induction on the loops; one lemma per contribution | Model/CIRe, Props/CIReTerms, Props/CIRe |
| C88 | `Model/FtRound` (adds uGP0, dGP0) | error analysis branch by branch, on top of C70; cancellation by an arithmetic whose logarithm errs by u | Model/FtRound, Props/FtRound2, Props/FtDouble |
| C89 | `Model/Cost` (the interpreter of C53 with a trace of operations and allocations) | the trace depends on shapes only (simulation by an interpreter of shapes); the shapes are evaluated symbolically by the kernel; comparisons by explicit nonnegative differences of polynomials | Model/Cost, Props/Cost, Props/CostG, Props/CostU, Props/CostR, Props/CostCmp, tools/gen_cost.py |
| C90 | as C32-C34 | counting: nested loops over occupied and empty orbitals above a bound are binomial coefficients (induction on the least element); Vandermonde | Props/CISize |
| C91 | `Model/CI` (Pstring) | occupations as functions; induction on the number of quanta | Props/CILadder |
| C92 | `Model/CIMem` (references to integer arrays and vectors, exceptions keep the memory) | relation between a run with memory and the run of `Model/CI`, carried through bind, loops and appends; arrays made by a part of a run lie behind those made before, hence are distinct | Model/CIMem, Props/CIMemRun, Props/CIMem |
| C93 | `Model/CCGT`, `Model/CCGL`, `Model/CCGRdm`, `Model/CCUT`, `Model/CCRT`, `Model/CCEnergy`, `update`, `updateL` of C66, C67 | the update is c times a smooth map on antisymmetric amplitudes, so each step gains a factor c; for the density matrices the energy is stationary (C67), the error is quadratic with a constant uniform on the unit ball | Props/Orders, Props/OrdersU |
| C94 | `Model/Rounded` (the routines as run by NumPy with rounded operations, C60), `RStep` (one update in rounded arithmetic) | induction over the updates: C60 gives the error of a residual from the errors of its arguments, division and subtraction add a multiple of u; C66 for the convergence | Props/IterRound |
| C95 | `Model/CCGT` (`ccsd_simple`, `ccsd_stanton`), `update` of C66, `updateBy` for the other routine | the residual without interaction for doubles of no symmetry (tensor identity); the residual is smooth and vanishes on the symmetric part with it, so its part is bounded by a constant times the symmetric part on a ball; growth and decay by induction over the updates | Props/IterAnti |
| C96 | `Model/Rounded`, `Prog.ccsd_simple`, `Prog.ccsd_stanton`, `RStep` of C94, `Cleaned` (the antisymmetrisation) | a third run of each routine, on bounds of the elements and of the error constants, gives constants uniform in the arguments (`C60_uniform`); contraction, error of one step and the projection on antisymmetric doubles give a geometric series | Props/RoundUni, Props/IterUni |
| C97 | `Prog.ccsd_lambda_simple`, `Prog.ccsd_lambda_opt`, `Prog.ccsd_lambda_stanton`, every `Prog` routine of C53 as the last call, `LStep` | the steps of C96 do not depend on where the residuals come from; the Lambda routines are one more instance with occupied and virtual orbitals exchanged; the three runs are composed with the uniform constants of C60 | Props/IterUniL |
| C98 | `Prog.rccsd_stanton`, `Prog.rccsd_lambda_opt`, every `Prog` routine of C53 as the last call, `PStep`, `PStepL`; `CC.rccsd_stanton` for the part without symmetry | the argument of C96 and C97 for any symmetry with a projection that does not increase distances; linearity in the integrals (C64) splits the update, and the residual of symmetric amplitudes is symmetric (C43), so the part lacking is Lipschitz in itself | Props/IterUniR |
| C99 | `Prog.uccsd_stanton`, `Prog.uccsd_lambda_opt`, every `Prog` routine of C53 as the last call, `UStep`, `ULStep` | the argument of C96 and C97 for amplitudes in any number of arrays (`Coords`: tensors, shapes and a norm that bounds all elements), with C73 for the contraction | Props/IterGen, Props/IterUniU |
| C100 | `fl_get_chem`, `fl_get_phys`, `fl_get_chemu`, `fl_get_phys_antiu`, `fl_get_chemu_all`, `fl_get_physu_all`, `fl_build_integrals`, `fl_int_to_spin`: the functions of C39, C40 and C18 with any kernel and any subtraction (equal to those by `rfl` when both are exact) | the element of each result as a difference of two elements returned by pyscf; the exchange of the last two indices exchanges these, the exchange of the first two needs two other elements; `C100_arguments` turns the errors into the hypothesis of C96 | Model/IntRound, Props/IntRound |
| C101 | `FlExp.gmakeCfromT`, `FlExp.makeCfromT` with their 45 loops and the seven `*_on_vec` routines, with a rounding after every `*`, `/` and `+` (generated from Model/CI and Model/CIExp; equal to those for `rd = id`, `C101_exact`) | a family of runs, one per rounding, against the exact run: no branch depends on an amplitude, so the paths agree (`AccL`), and each number is accurate (`Acc`); C37 and C96 for `C101_cluster`, `C101_ccsd`, C37 and C99 for `C101_ucluster`, `C101_uccsd` | Model/CIExpRound, Props/CIExpRoundTerms, Props/CIExpRoundRun, Props/CIExpRound, Props/CIExpRoundU |
| C102 | `fl_get_chem_solk`, `fl_get_phys_solk`, `fl_solk_h2`, `fl_solk_h1`: the functions of C41 with pyscf's arrays, the subtraction and the sums of products as parameters (equal to those of C41 for exact ones, `C102_exact`) | the loop over triples by induction; errors by the triangle inequality and monotonicity of the size function | Model/IntRoundK, Props/IntRoundK |
| C103 | `levelD`, `occdiffD`, `gci_matrixelD`, `ci_matrixelD` with the subtraction and absolute value of the element type | induction over the orbitals: `2*level_D = 2^w*level - (2^w-2)*(difference of the numbers of electrons)`; the matrix elements by the branch taken | Model/CIType, Props/CIType |
| C104 | `exciteZ`, `raizeZ`, `lowerZ` with NumPy's rules for negative indices and slice bounds | reduction to the natural-number model with the slice of each case; for -1 the sum over the array is split at the two orbitals | Model/CIIndex, Props/CIIndex |
| C105 | `Overflowing`, `overflowing` (the interpreter of C60 with elements that may be not finite); programs of C42 | the interpreter of C60 extended by the largest number every element needs (`peaks`); a simulation in which elements are finite if what they need is in range; the uniform statement is the one for unit roundoff one around any arguments | Model/Overflow, Props/Overflow, OverflowCC (generated), OverflowEx |
| C106 | `OStep` (one update in `Overflowing` arithmetic: the routine in `overflowing`, `OUpd`, `OClean`) | C105_refines: a call whose needs are in range equals the call in `Overflowing.extend`, by running both interpreters side by side (`side`) against `peaks`; then C96 for the extended arithmetic, by induction over the updates | Props/OverflowRef, Props/OverflowIter |
| C107 | `fermi_function`, `vfermi_function`, `ff`, `grand_potential0`, `dgrand_potential0` | at every point the sum of the occupations, as a function of the chemical potential, agrees on each side with a continuous function and jumps only downwards (`Falls`); such functions take intermediate values and have them where brackets contract | Props/FtMu |
| C108 | `Model/Ft` | case analysis over the branches, strict inequalities of exp and log, binary entropy of Mathlib, one-sided limits at the cut-offs and uniqueness of derivatives | Props/FtLaws |
| C109 | `Model/Overflow`, `Model/Rounded`; updates `OStep`, `OStepL` (the caller's loop, as in tests) | an update without overflow is an update of the arithmetic without largest number (C105_refines), whose iterates stay in a ball (C96, C97); induction on the number of updates | Props/OverflowIterL |
| C110 | `Model/Overflow`, `Model/Rounded`; updates `UOStep`, `ULOStep` of five arrays (the caller's loop, as in tests) | C110_update: an update of any number of arrays without overflow is an update of the arithmetic without largest number, whose iterates stay in a ball (C99); induction on the number of updates | Props/OverflowIterU |
| C111 | `Model/Overflow`, `Model/Rounded`; updates `POStep`, `POStepL` of two arrays with symmetrisation `OPaired` (the caller's loop) | C111_update: an update without overflow is an update of the arithmetic without largest number, whose iterates stay in a ball (C98); induction on the number of updates | Props/OverflowIterR |
| C112 | `Model/CC*`, `Model/Rounded`; calculations `Restricted`, `Unrestricted` (the caller's loops) | C112_update, C112_lambda_update from C14, C16; C112_spin_update, C112_spin_lambda_update (spin orbitals) from C13, C15; induction on updates; C112_energies with C12; C112_densities with C19, C112_spin_densities with C17, C18; C112_agree: uniqueness of the solutions (C73) identifies the limits of C98 and C99, C12 the energies | Props/Agree, AgreeRdm |
| C113 | `Model/CC*`; the caller's loop | C113_update, C113_u_update, C113_r_update from C52 for any number of subsystems; induction on updates; limits entry by entry; multipliers of two subsystems by C52 within subsystems, C69 with the subsystem as label and antisymmetry for the elements that couple them | Props/SepIter, Props/SepLam |
| C114 | `Model/CC*`; the caller's loop | C55 for the residuals; every term of the transformed residual has the denominator of the old orbitals (rot2_upd, rot4_upd); induction on updates; C114_needs_level by a rotation of two orbitals of different energies | Props/RotIter |
| C115 | `Model/CC*`; the caller's loop | C63 for the residuals, energies and density matrices; the factor cancels against that of the denominators; induction on updates; C115_real for real data | Props/ScaleIter |

Beside the theorems there are `example`s with concrete data meeting the hypotheses (mostly at the end of each file; `Spec/SymU`,
`NumEx`, `RotEx` for the generated ones).

### Partial

* **C34** (`q_strings`): the claim is false for the code, which loops over occupation *values* instead of positions.  Proved: exact membership,
  soundness, when the list is right (`C34_refuted` etc.), that each quadruple it has occurs exactly `m(n-m)` times (`C34_multiplicity`), and that it
  misses quadruples with five or more electrons (`C34_incomplete`).
* **C46** (order 4 of `makeCfromT`): false, the term `T1b² T2aa / 2` is missing; refuted for all amplitudes with that term non-zero.  What both
  routines return with `order = 4` is proved for every number of electrons and orbitals: fewer than four occupied or empty orbitals per spin
  (`C46_order4_partial`, `C46_gmakeCfromT_4`), four electrons (`C46_makeCfromT_four`, `C46_gmakeCfromT_four`: the coefficients at the first place
  of each determinant, zeros at the repeated places), five or more electrons and four or more empty orbitals of a spin (`C46_makeCfromT_error`,
  `C46_gmakeCfromT_error`: always `ValueError`, as the basis lacks determinants that the loops look up).

## 6. What the proofs found in the code

* `q_strings` (C34); `makeCfromT` at order 4 (C46); `gmakeCfromT` with the default occupation always raises `AssertionError` (C37).
  The repeated quadruples make energies over the list of `ucisdtq_basis` fall below the exact ones (C68).
* `gci_matrixel` has the wrong sign for some double differences and ignores the constant (C35); `s_on_vec` with `i = a` returns zeros;
  the branch `i == a` of `Dstring.excite` cannot be reached.
* `get_chem_anti` passes its first orbital set twice (C39).  `int_to_spatial` orders its arguments differently from its siblings.
* `make_two_e_blocks` returns a `two_e_blocks_full` in which blocks are `None`.
* `_Lambda_Stanton` ignores `fac`; `rccsd_1rdm_ba`, `rccsd_1rdm_ji` ignore `tfac`; `rccsd_2rdm_abij` has none; `rccsd_2rdm_kaij` is dead code.
* `ccd_ring_simple` alone is symmetric under exchange of pairs only (C03, C47).
* `fermi_function` is not monotone at its cut-offs (C29).
* `test_T` (tests/test_spin_utils.py:338-357) asserts `numpy.linalg.norm(z < thresh)`: the parenthesis encloses the comparison, so that arrays of zeros pass (C82_T_weak); the comparison
  meant would fail for the random amplitudes drawn (C82_T_meant).
* `test_F_sym` (tests/test_spin_utils.py:12-38) checks `F.vo` twice, the second time under the message "Fvv" with the columns of `F.vv`: it never looks at `F.vv` (C82_F_sym_vv) and
  fails on correct results for noa > nva (C82_F_sym_false_alarm).
* `test_u1rdm`, `test_rccsd`, `test_rccsd_lambda` divide by the absolute value or norm of the reference and so fail when the reference is zero; `test_u2rdm` fails when a reference is -0.001.
* `test_I` (tests/test_spin_utils.py:72) uses nob = nva, so that it cannot notice an exchange of these two arguments of `int_to_spatial`.
* `test_mat_on_vec_cisd` compares `H_on_vec`, which loops over `ci_matrixel`, with loops over `ci_matrixel`: it holds whatever `ci_matrixel` returns, and fails (0/0) only when the product is zero (C83_mat_on_vec).
* In rounded arithmetic the CI matrix of the examples is not symmetric: elements between determinants that differ in one electron depend on which one is the bra (C81_not_symmetric).
* `dgrand_potential0` is NaN where `grand_potential0` is not: when `epsilon - mu` overflows (inf times 0), at `beta = 0` for `epsilon >= mu` (inf - inf), and when
  `beta*beta` underflows together with the Boltzmann factor (0/0) (C85_derivative_overflow, C85_infinite_temperature, C85_derivative_underflow, with instances in double
  precision).  At `beta = inf` all four functions are NaN for `epsilon = mu` (C85_zero_temperature).
* The tests of Fock matrices take `nelectron // 2 + spin` for the number of alpha electrons, which is `(nelectron + spin)/2` only for `spin <= 1` (C86_na); for two
  electrons with parallel spins `test_fock` would raise a ValueError (C86_test_fock_raises).  `test_fock_sol_k` contracts with `'sq'` where `test_fock_sol` has `'qs'`;
  this makes no difference as the density is diagonal (C86_test_fock_sol).
* `makeCfromT`, `gmakeCfromT`, `*_on_vec`, `H_on_vec` and `gH_on_vec` make their result with `numpy.zeros`, which is real.  Complex amplitudes, integrals or vectors are
  accepted and the imaginary parts of the result are dropped, with no more than a `ComplexWarning` (C87).  Over the complex numbers C37 and C38 are theorems about the algorithm.
* In the middle branch of `grand_potential0` and `dgrand_potential0` the logarithm nearly cancels against `x` for `x` up to 20: half of the digits can be lost
  (C88_cancellation), while the absolute error stays at roundoff (C88_dgrand_potential, C88_double).  `log1p(exp(-x))` would not have this.
* `ccsd_2rdm_bcai_opt` (cc_equations.py:2541), `ccsd_2rdm_kaij_opt` (2622), `uccsd_2rdm_bcai`, `uccsd_2rdm_kaij` (2852, 2855, 2910, 2913) and
  `rccsd_2rdm_bcai`, `rccsd_2rdm_kaij` (3153, 3183) contain an einsum of three operands over seven indices, so that with numpy's einsum they cost
  more (N^7) than the iterations whose results they use (N^6): C89_2rdm_bcai_opt_refuted.
* `Dstring(n, occ)` and `Pstring(n, occ)` keep a numpy array passed as `occ`, and the pairs of the unrestricted bases share their string objects: an in-place change of one
  string of such a basis changes every determinant with the same string (C92_new_array, C92_shared).
* The residuals do not restore antisymmetry (C95).  A part of the doubles that is symmetric in the occupied pair is multiplied in every update by
  −(eps_i + eps_j)/D, one symmetric in the virtual pair by (eps_a + eps_b)/D, and one symmetric in both is kept.  With positive occupied energies (electron gas,
  where orbital energies are kinetic energies) or negative virtual energies the factor can exceed one, and rounding errors that break the antisymmetry grow exponentially, although
  the iteration converges from antisymmetric amplitudes in exact arithmetic.  A caller has to antisymmetrise the amplitudes.
* `ccsd_simple` does not keep antisymmetry in the occupied pair if that in the virtual pair is lost (the ring term, cc_equations.py:138-139, C95); `ccsd_stanton` does.
* `rccsd_stanton` does not damp a loss of exchange symmetry of the doubles (C98): the part lacking is multiplied by `1 + O(z)` in every update, and without interaction the
  residuals vanish at doubles with any such part. A caller who iterates has to keep the doubles symmetric; the routine does not check.
* Antisymmetrised integrals are exactly antisymmetric in the last two indices, but in the first two only up to the errors of pyscf's arrays and of the subtraction (C100): `<pq||rs>` and
  `<qp||rs>` are computed from different elements. `get_physu_all` and `int_to_spin` keep both if the arrays for equal spins are unchanged when the electrons are exchanged.
* Strings made from an array of unsigned integers, such as `numpy.uint8`, silently give a diagonal Hamiltonian: `level` subtracts occupations in the element type, 0 - 1 wraps around, and `gci_matrixel` and `ci_matrixel` take the large level for more than two excitations (C103). Strings made from boolean arrays raise a `TypeError`.
* `Dstring.excite` accepts negative orbital numbers, moves the right electron and returns the wrong sign for many of them: `excite(0, -1)` on `[1, 1, 0]` gives `+1` where `excite(0, 2)` gives `-1` (C104). The slice between the orbitals is taken with the indices as given.
* The number of electrons that `ff` gives is not monotone in the chemical potential: it falls by about exp(-60) wherever a level passes the cut-offs at 30, so that the chemical potential of a given number of electrons need not be unique (`C107_not_unique`); one exists and bisection finds one all the same (`C107_exists`, `C107_bisection`).
* Between the cut-offs (20 < beta |epsilon - mu| <= 30) `dgrand_potential0` is not the derivative of `grand_potential0`: the latter uses the expanded formula from 20 on, the occupations in the former only from 30 on. At 20 the grand potential jumps and the entropy increases on cooling. The differences are of the order exp(-40) (C108_derivative_iff, C108_entropy_jump); Omega = E - mu N - T S holds exactly all the same (C108_free_energy).
* In rounded arithmetic `D2` is not symmetric in the occupied orbitals, so dividing by it breaks the antisymmetry of amplitudes by roundoff (C71).
* `eri_blocks`: negative occupations land in neither space; ROHF open shells count as occupied for both spins; a code above 9 yields an object
  without blocks (C40).
* Real integrals with complex amplitudes or multipliers raise `UFuncTypeError` in every residual routine; complex multipliers with real amplitudes do so in
  seven density routines; `ccd_stanton` with a complex Fock matrix and real two-electron integrals silently drops imaginary parts (C54).
* The `*_to_spin` functions build real arrays: imaginary parts of complex amplitudes or integrals are dropped with only a `ComplexWarning` (C61).  Arguments with an
  axis of length one are stretched silently.
* `F_to_spatial`, `make_two_e_blocks` and parts of `int_to_spatial` return views of their argument, while the other splitters copy (C62).
* The Lambda multipliers that couple two non-interacting subsystems have a non-zero source (C52); this is known theory, not a bug.
  They have no effect on the multipliers within subsystems or on the one-particle density matrix, in any number of updates (C113).
* By reading only (test code, no theorem): `full_suite` (tests/test_suites.py:37-39) adds `test_cis` and `test_cisd`, which import pyscf, outside the guard for pyscf, and
  never adds `test_eri_sol_kpts` and `test_integrals_kpts` (test_integrals.py:230, 267); `test_phys` (83-96) compares `get_phys` with the transposed `get_chem` by which it is defined.

## 7. Mutation tests

`tools/mutate.py` edits a model in a scratch copy, rebuilds the modules that state the properties, and reports which theorems fail; `tools/log.py`
appends to `seeded/LOG.jsonl`.  Mutants are realistic slips: a wrong index, sign, factor, swapped argument, missed case, dropped update,
wrong boundary.  Survivors were examined: either the mutant was equivalent (and the log says so), or the theorem was tightened.
