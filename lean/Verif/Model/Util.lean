/-
Block containers (cqcpy/ov_blocks.py), matrix and denominator helpers (cqcpy/utils.py) and the random test tensors
(cqcpy/test_utils.py).

Arrays are functions of natural-number indices; extents are separate arguments.  Elements beyond the extents are
never read by the code: slices are cut off by `getSl4`.  `numpy.random.random` is a parameter: each generator takes
the random arrays it would draw, in the order drawn.  In-place updates such as `I += I.transpose(...)` give the value
computed from the old array (NumPy buffers overlapping operands).
-/
import Verif.Model.SpinFin

namespace CC.Num

section
variable {K : Type} [Zero K]

/-- The sixteen attributes of a `two_e_blocks_full` object, ov_blocks.py:44-65; `none` is Python's `None`, the default
of every constructor argument. -/
structure BlocksFull (K : Type) where
  vvvv : Option (ℕ → ℕ → ℕ → ℕ → K) := none
  vvvo : Option (ℕ → ℕ → ℕ → ℕ → K) := none
  vvov : Option (ℕ → ℕ → ℕ → ℕ → K) := none
  vovv : Option (ℕ → ℕ → ℕ → ℕ → K) := none
  ovvv : Option (ℕ → ℕ → ℕ → ℕ → K) := none
  vvoo : Option (ℕ → ℕ → ℕ → ℕ → K) := none
  vovo : Option (ℕ → ℕ → ℕ → ℕ → K) := none
  ovvo : Option (ℕ → ℕ → ℕ → ℕ → K) := none
  voov : Option (ℕ → ℕ → ℕ → ℕ → K) := none
  ovov : Option (ℕ → ℕ → ℕ → ℕ → K) := none
  oovv : Option (ℕ → ℕ → ℕ → ℕ → K) := none
  vooo : Option (ℕ → ℕ → ℕ → ℕ → K) := none
  ovoo : Option (ℕ → ℕ → ℕ → ℕ → K) := none
  oovo : Option (ℕ → ℕ → ℕ → ℕ → K) := none
  ooov : Option (ℕ → ℕ → ℕ → ℕ → K) := none
  oooo : Option (ℕ → ℕ → ℕ → ℕ → K) := none

/-- `make_two_e_blocks`, ov_blocks.py:24-41; the four assertions on the shape are the error case. -/
def make_two_e_blocks (Itot : ℕ → ℕ → ℕ → ℕ → K) (n1 n2 n3 n4 n1o n1v n2o n2v n3o n3v n4o n4v : ℕ) :
    Except String (BlocksFull K) :=
  if n1 ≠ n1o + n1v then .error "AssertionError" else
  if n2 ≠ n2o + n2v then .error "AssertionError" else
  if n3 ≠ n3o + n3v then .error "AssertionError" else
  if n4 ≠ n4o + n4v then .error "AssertionError" else
  let Ivvvv := getSl4 n1o n1 n2o n2 n3o n3 n4o n4 Itot  -- L30
  let Ivvvo := getSl4 n1o n1 n2o n2 n3o n3 0 n4o Itot  -- L31
  let Ivovv := getSl4 n1o n1 0 n2o n3o n3 n4o n4 Itot  -- L32
  let Ivvoo := getSl4 n1o n1 n2o n2 0 n3o 0 n4o Itot  -- L33
  let Ivovo := getSl4 n1o n1 0 n2o n3o n3 0 n4o Itot  -- L34
  let Ioovv := getSl4 0 n1o 0 n2o n3o n3 n4o n4 Itot  -- L35
  let Ivooo := getSl4 n1o n1 0 n2o 0 n3o 0 n4o Itot  -- L36
  let Iooov := getSl4 0 n1o 0 n2o 0 n3o n4o n4 Itot  -- L37
  let Ioooo := getSl4 0 n1o 0 n2o 0 n3o 0 n4o Itot  -- L38
  .ok { vvvv := some Ivvvv, vvvo := some Ivvvo, vovv := some Ivovv, vvoo := some Ivvoo, vovo := some Ivovo, oovv := some Ioovv, vooo := some Ivooo, ooov := some Iooov, oooo := some Ioooo }

/-- `make_two_e_blocks_full`, ov_blocks.py:68-94 -/
def make_two_e_blocks_full (Itot : ℕ → ℕ → ℕ → ℕ → K) (n1 n2 n3 n4 n1o n1v n2o n2v n3o n3v n4o n4v : ℕ) :
    Except String (BlocksFull K) :=
  if n1 ≠ n1o + n1v then .error "AssertionError" else
  if n2 ≠ n2o + n2v then .error "AssertionError" else
  if n3 ≠ n3o + n3v then .error "AssertionError" else
  if n4 ≠ n4o + n4v then .error "AssertionError" else
  let Ivvvv := getSl4 n1o n1 n2o n2 n3o n3 n4o n4 Itot  -- L74
  let Ivvvo := getSl4 n1o n1 n2o n2 n3o n3 0 n4o Itot  -- L75
  let Ivvov := getSl4 n1o n1 n2o n2 0 n3o n4o n4 Itot  -- L76
  let Ivovv := getSl4 n1o n1 0 n2o n3o n3 n4o n4 Itot  -- L77
  let Iovvv := getSl4 0 n1o n2o n2 n3o n3 n4o n4 Itot  -- L78
  let Ivvoo := getSl4 n1o n1 n2o n2 0 n3o 0 n4o Itot  -- L79
  let Ivovo := getSl4 n1o n1 0 n2o n3o n3 0 n4o Itot  -- L80
  let Iovvo := getSl4 0 n1o n2o n2 n3o n3 0 n4o Itot  -- L81
  let Ivoov := getSl4 n1o n1 0 n2o 0 n3o n4o n4 Itot  -- L82
  let Iovov := getSl4 0 n1o n2o n2 0 n3o n4o n4 Itot  -- L83
  let Ioovv := getSl4 0 n1o 0 n2o n3o n3 n4o n4 Itot  -- L84
  let Ivooo := getSl4 n1o n1 0 n2o 0 n3o 0 n4o Itot  -- L85
  let Iovoo := getSl4 0 n1o n2o n2 0 n3o 0 n4o Itot  -- L86
  let Ioovo := getSl4 0 n1o 0 n2o n3o n3 0 n4o Itot  -- L87
  let Iooov := getSl4 0 n1o 0 n2o 0 n3o n4o n4 Itot  -- L88
  let Ioooo := getSl4 0 n1o 0 n2o 0 n3o 0 n4o Itot  -- L89
  .ok { vvvv := some Ivvvv, vvvo := some Ivvvo, vvov := some Ivvov, vovv := some Ivovv, ovvv := some Iovvv, vvoo := some Ivvoo, vovo := some Ivovo, ovvo := some Iovvo, voov := some Ivoov, ovov := some Iovov, oovv := some Ioovv, vooo := some Ivooo, ovoo := some Iovoo, oovo := some Ioovo, ooov := some Iooov, oooo := some Ioooo }

/-! ## utils.py -/

/-- A two-dimensional array with its shape. -/
structure Arr2 (K : Type) where
  rows : ℕ
  cols : ℕ
  val : ℕ → ℕ → K

/-- `numpy.zeros((m, n))` -/
def zeros2 (m n : ℕ) : Arr2 K := ⟨m, n, fun _ _ => 0⟩

/-- `numpy.hstack((A, B))` for two-dimensional arrays: the numbers of rows must agree. -/
def hstack (A B : Arr2 K) : Except String (Arr2 K) :=
  if A.rows ≠ B.rows then .error "ValueError" else
  .ok ⟨A.rows, A.cols + B.cols, fun x y => if y < A.cols then A.val x y else B.val x (y - A.cols)⟩

/-- `numpy.vstack((A, B))` for two-dimensional arrays: the numbers of columns must agree. -/
def vstack (A B : Arr2 K) : Except String (Arr2 K) :=
  if A.cols ≠ B.cols then .error "ValueError" else
  .ok ⟨A.rows + B.rows, A.cols, fun x y => if x < A.rows then A.val x y else B.val (x - A.rows) y⟩

/-- `block_diag`, utils.py:4-18 -/
def block_diag (A B : Arr2 K) : Except String (Arr2 K) := do
  let ma := A.rows  -- L9
  let mb := B.rows  -- L10
  let na := A.cols  -- L11
  let nb := B.cols  -- L12
  let z1 := zeros2 ma nb  -- L14
  let z2 := zeros2 mb na  -- L15
  let M1 ← hstack A z1  -- L16
  let M2 ← hstack z2 B  -- L17
  vstack M1 M2  -- L18

end

/-! The rest only adds and subtracts, and is defined for any numbers with these operations: a field, or machine numbers (C71). -/

section
variable {K : Type} [Add K] [Sub K] [Zero K]

/-- `D1`, utils.py:21-25 (broadcast difference) -/
def D1 (ev eo : ℕ → K) : ℕ → ℕ → K := fun a i => ev a - eo i

/-- `D2`, utils.py:28-33 -/
def D2 (ev eo : ℕ → K) : ℕ → ℕ → ℕ → ℕ → K := fun a b i j => ev a + ev b - eo i - eo j

/-- `D2u`, utils.py:36-41 -/
def D2u (eva evb eoa eob : ℕ → K) : ℕ → ℕ → ℕ → ℕ → K := fun a b i j => eva a + evb b - eoa i - eob j

/-! ## test_utils.py -/

/-- `X.transpose((1, 0))` -/
def tr10 (A : ℕ → ℕ → K) : ℕ → ℕ → K := fun x y => A y x
/-- `X.transpose((0, 1, 3, 2))` -/
def tr0132 (A : ℕ → ℕ → ℕ → ℕ → K) : ℕ → ℕ → ℕ → ℕ → K := fun x y z w => A x y w z
/-- `X.transpose((1, 0, 2, 3))` -/
def tr1023 (A : ℕ → ℕ → ℕ → ℕ → K) : ℕ → ℕ → ℕ → ℕ → K := fun x y z w => A y x z w
/-- `X.transpose((1, 0, 3, 2))` -/
def tr1032 (A : ℕ → ℕ → ℕ → ℕ → K) : ℕ → ℕ → ℕ → ℕ → K := fun x y z w => A y x w z
/-- `X.transpose((2, 3, 0, 1))`: element `[x, y, z, w]` of the result is element `[z, w, x, y]` of `X`. -/
def tr2301 (A : ℕ → ℕ → ℕ → ℕ → K) : ℕ → ℕ → ℕ → ℕ → K := fun x y z w => A z w x y
/-- `X.transpose((3, 2, 1, 0))` -/
def tr3210 (A : ℕ → ℕ → ℕ → ℕ → K) : ℕ → ℕ → ℕ → ℕ → K := fun x y z w => A w z y x

/-- `make_random_F`, test_utils.py:9-16 -/
def make_random_F (foo fov fvv : ℕ → ℕ → K) : OneE ℕ ℕ K :=
  let foo := foo + tr10 foo  -- L13
  let fvv := fvv + tr10 fvv  -- L14
  let fvo := tr10 fov  -- L15
  ⟨foo, fov, fvo, fvv⟩

/-- `make_random_I`, test_utils.py:19-34 -/
def make_random_I (no nv : ℕ) (Itot : ℕ → ℕ → ℕ → ℕ → K) : TwoE ℕ ℕ K :=
  let n := no + nv  -- L20
  let Itot := Itot + tr1032 Itot  -- L22
  let Ivvvv := getSl4 no n no n no n no n Itot  -- L23
  let Ivvvo := getSl4 no n no n no n 0 no Itot  -- L24
  let Ivovv := getSl4 no n 0 no no n no n Itot  -- L25
  let Ivvoo := getSl4 no n no n 0 no 0 no Itot  -- L26
  let Ivovo := getSl4 no n 0 no no n 0 no Itot  -- L27
  let Ioovv := getSl4 0 no 0 no no n no n Itot  -- L28
  let Ivooo := getSl4 no n 0 no 0 no 0 no Itot  -- L29
  let Iooov := getSl4 0 no 0 no 0 no no n Itot  -- L30
  let Ioooo := getSl4 0 no 0 no 0 no 0 no Itot  -- L31
  { vvvv := Ivvvv, vvvo := Ivvvo, vovv := Ivovv, vvoo := Ivvoo, vovo := Ivovo, oovv := Ioovv, vooo := Ivooo, ooov := Iooov, oooo := Ioooo }

/-- `make_random_I_anti`, test_utils.py:37-54 -/
def make_random_I_anti (no nv : ℕ) (Itot : ℕ → ℕ → ℕ → ℕ → K) : TwoE ℕ ℕ K :=
  let n := no + nv  -- L38
  let Itot := Itot - tr0132 Itot  -- L40
  let Itot := Itot - tr1023 Itot  -- L41
  let Itot := Itot + tr1032 Itot  -- L42
  let Ivvvv := getSl4 no n no n no n no n Itot  -- L43
  let Ivvvo := getSl4 no n no n no n 0 no Itot  -- L44
  let Ivovv := getSl4 no n 0 no no n no n Itot  -- L45
  let Ivvoo := getSl4 no n no n 0 no 0 no Itot  -- L46
  let Ivovo := getSl4 no n 0 no no n 0 no Itot  -- L47
  let Ioovv := getSl4 0 no 0 no no n no n Itot  -- L48
  let Ivooo := getSl4 no n 0 no 0 no 0 no Itot  -- L49
  let Iooov := getSl4 0 no 0 no 0 no no n Itot  -- L50
  let Ioooo := getSl4 0 no 0 no 0 no 0 no Itot  -- L51
  { vvvv := Ivvvv, vvvo := Ivvvo, vovv := Ivovv, vvoo := Ivvoo, vovo := Ivovo, oovv := Ioovv, vooo := Ivooo, ooov := Iooov, oooo := Ioooo }

/-- `make_random_Itot`, test_utils.py:57-63 -/
def make_random_Itot (I : ℕ → ℕ → ℕ → ℕ → K) : ℕ → ℕ → ℕ → ℕ → K :=
  let I := I + tr1032 I  -- L59
  let I := I + tr2301 I  -- L60
  let I := I + tr3210 I  -- L61
  I

/-- `make_random_Ifull`, test_utils.py:66-92 -/
def make_random_Ifull (no nv : ℕ) (Itot : ℕ → ℕ → ℕ → ℕ → K) : TwoEFull ℕ ℕ ℕ ℕ K :=
  let n := no + nv  -- L67
  let Itot := Itot - tr0132 Itot  -- L69
  let Itot := Itot - tr1023 Itot  -- L70
  let Itot := Itot + tr1032 Itot  -- L71
  let Ivvvv := getSl4 no n no n no n no n Itot  -- L72
  let Ivvvo := getSl4 no n no n no n 0 no Itot  -- L73
  let Ivvov := tr1032 Ivvvo  -- L74
  let Ivovv := getSl4 no n 0 no no n no n Itot  -- L75
  let Iovvv := tr1032 Ivovv  -- L76
  let Ivvoo := getSl4 no n no n 0 no 0 no Itot  -- L77
  let Ivovo := getSl4 no n 0 no no n 0 no Itot  -- L78
  let Iovov := tr1032 Ivovo  -- L79
  let Iovvo := getSl4 0 no no n no n 0 no Itot  -- L80
  let Ivoov := tr1032 Iovvo  -- L81
  let Ioovv := getSl4 0 no 0 no no n no n Itot  -- L82
  let Ivooo := getSl4 no n 0 no 0 no 0 no Itot  -- L83
  let Iovoo := tr1032 Ivooo  -- L84
  let Iooov := getSl4 0 no 0 no 0 no no n Itot  -- L85
  let Ioovo := tr1032 Iooov  -- L86
  let Ioooo := getSl4 0 no 0 no 0 no 0 no Itot  -- L87
  { vvvv := Ivvvv, vvvo := Ivvvo, vvov := Ivvov, vovv := Ivovv, ovvv := Iovvv, vvoo := Ivvoo, vovo := Ivovo, ovvo := Iovvo, voov := Ivoov, ovov := Iovov, oovv := Ioovv, vooo := Ivooo, ovoo := Iovoo, oovo := Ioovo, ooov := Iooov, oooo := Ioooo }

/-- `make_random_Ifull_gen`, test_utils.py:95-101 -/
def make_random_Ifull_gen (n1o n1v n2o n2v n3o n3v n4o n4v : ℕ) (Itot : ℕ → ℕ → ℕ → ℕ → K) :
    Except String (BlocksFull K) :=
  let n1 := n1o + n1v
  let n2 := n2o + n2v
  let n3 := n3o + n3v
  let n4 := n4o + n4v
  make_two_e_blocks_full Itot n1 n2 n3 n4 n1o n1v n2o n2v n3o n3v n4o n4v

/-- `make_random_integrals`, test_utils.py:104-108 -/
def make_random_integrals (no nv : ℕ) (foo fov fvv : ℕ → ℕ → K) (Itot : ℕ → ℕ → ℕ → ℕ → K) :
    OneE ℕ ℕ K × TwoE ℕ ℕ K :=
  let F := make_random_F foo fov fvv
  let I := make_random_I_anti no nv Itot
  (F, I)

/-- `make_random_T`, test_utils.py:111-118 (and `make_random_L`, 140-147, with the extents exchanged) -/
def make_random_T (T1 : ℕ → ℕ → K) (T2 : ℕ → ℕ → ℕ → ℕ → K) : (ℕ → ℕ → K) × (ℕ → ℕ → ℕ → ℕ → K) :=
  let T2 := T2 - tr1023 T2  -- L114
  let T2 := T2 - tr0132 T2  -- L115
  let T2 := T2 + tr1032 T2  -- L116
  (T1, T2)

/-- `make_random_L`, test_utils.py:140-147 -/
def make_random_L (L1 : ℕ → ℕ → K) (L2 : ℕ → ℕ → ℕ → ℕ → K) : (ℕ → ℕ → K) × (ℕ → ℕ → ℕ → ℕ → K) :=
  let L2 := L2 - tr1023 L2  -- L143
  let L2 := L2 - tr0132 L2  -- L144
  let L2 := L2 + tr1032 L2  -- L145
  (L1, L2)

/-- `make_random_T1_spatial`, test_utils.py:121-124 -/
def make_random_T1_spatial (Ta Tb : ℕ → ℕ → K) : (ℕ → ℕ → K) × (ℕ → ℕ → K) := (Ta, Tb)

/-- `make_random_T2_spatial`, test_utils.py:127-137 -/
def make_random_T2_spatial (Taa Tbb Tab : ℕ → ℕ → ℕ → ℕ → K) :
    (ℕ → ℕ → ℕ → ℕ → K) × (ℕ → ℕ → ℕ → ℕ → K) × (ℕ → ℕ → ℕ → ℕ → K) :=
  let Taa := Taa - tr1023 Taa  -- L131
  let Taa := Taa - tr0132 Taa  -- L132
  let Taa := Taa + tr1032 Taa  -- L133
  let Tbb := Tbb - tr1023 Tbb  -- L134
  let Tbb := Tbb - tr0132 Tbb  -- L135
  let Tbb := Tbb + tr1032 Tbb  -- L136
  (Taa, Tab, Tbb)

/-- `make_random_ft_integrals`, test_utils.py:150-159 -/
def make_random_ft_integrals (F : ℕ → ℕ → K) (I : ℕ → ℕ → ℕ → ℕ → K) : (ℕ → ℕ → K) × (ℕ → ℕ → ℕ → ℕ → K) :=
  let F := F + tr10 F  -- L152
  let I := I - tr0132 I  -- L155
  let I := I - tr1023 I  -- L156
  let I := I + tr1032 I  -- L157
  (F, I)

/-- `make_random_ft_T`, test_utils.py:162-170: the first axis (time grid) is not transposed. -/
def make_random_ft_T (T1 : ℕ → ℕ → ℕ → K) (T2 : ℕ → ℕ → ℕ → ℕ → ℕ → K) :
    (ℕ → ℕ → ℕ → K) × (ℕ → ℕ → ℕ → ℕ → ℕ → K) :=
  let T2 := fun g => T2 g - tr0132 (T2 g)  -- L166
  let T2 := fun g => T2 g - tr1023 (T2 g)  -- L167
  let T2 := fun g => T2 g + tr1032 (T2 g)  -- L168
  (T1, T2)

/-- `make_random_ft_T1_spatial`, test_utils.py:173-178 -/
def make_random_ft_T1_spatial (T1a T1b : ℕ → ℕ → ℕ → K) : (ℕ → ℕ → ℕ → K) × (ℕ → ℕ → ℕ → K) := (T1a, T1b)

/-- `make_random_ft_T2_spatial`, test_utils.py:181-191 -/
def make_random_ft_T2_spatial (T2aa T2bb T2ab : ℕ → ℕ → ℕ → ℕ → ℕ → K) :
    (ℕ → ℕ → ℕ → ℕ → ℕ → K) × (ℕ → ℕ → ℕ → ℕ → ℕ → K) × (ℕ → ℕ → ℕ → ℕ → ℕ → K) :=
  let T2aa := fun g => T2aa g - tr0132 (T2aa g)  -- L183
  let T2aa := fun g => T2aa g - tr1023 (T2aa g)  -- L184
  let T2aa := fun g => T2aa g + tr1032 (T2aa g)  -- L185
  let T2bb := fun g => T2bb g - tr0132 (T2bb g)  -- L187
  let T2bb := fun g => T2bb g - tr1023 (T2bb g)  -- L188
  let T2bb := fun g => T2bb g + tr1032 (T2bb g)  -- L189
  (T2aa, T2ab, T2bb)

/-- `make_random_ft_D`, test_utils.py:194-199 -/
def make_random_ft_D (en : ℕ → K) : (ℕ → ℕ → K) × (ℕ → ℕ → ℕ → ℕ → K) := (D1 en en, D2 en en)

/-- `make_random_ft_D1`, test_utils.py:202-206 -/
def make_random_ft_D1 (en : ℕ → K) : ℕ → ℕ → K := D1 en en

/-- `make_random_ft_D2`, test_utils.py:209-214 -/
def make_random_ft_D2 (e1 e2 : ℕ → K) : ℕ → ℕ → ℕ → ℕ → K := D2u e1 e2 e1 e2

end

end CC.Num
