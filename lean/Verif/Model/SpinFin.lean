/-
Numeric-index model of cqcpy/spin_utils.py, generated by tools/gen_spin.py.

An array is a function of natural-number indices, meaningful below its extents.  `X[l1:h1, ...] = A` is the
update `setSl2`/`setSl4` with explicit bounds (an omitted lower bound is 0, an omitted upper bound is the
extent of the axis).  Reading a slice shifts the indices and truncates
to the extents of the slice (zero beyond, so that the extents of the result are visible).  Statements are in source order.
Not modelled: shape mismatch errors of numpy, and `numpy.zeros` having a real element type.
-/
import Verif.Model.Blocks
import Mathlib.Algebra.Ring.Defs

set_option linter.unusedVariables false
namespace CC.Num

variable {K : Type} [Field K]

/-- `X[l1:h1, l2:h2] = A` -/
def setSl2 (l1 h1 l2 h2 : ℕ) (A X : ℕ → ℕ → K) : ℕ → ℕ → K := fun x y =>
  if l1 ≤ x ∧ x < h1 ∧ l2 ≤ y ∧ y < h2 then A (x - l1) (y - l2) else X x y

/-- `X[l1:h1, l2:h2, l3:h3, l4:h4] = A` -/
def setSl4 (l1 h1 l2 h2 l3 h3 l4 h4 : ℕ) (A X : ℕ → ℕ → ℕ → ℕ → K) : ℕ → ℕ → ℕ → ℕ → K := fun x y z w =>
  if l1 ≤ x ∧ x < h1 ∧ l2 ≤ y ∧ y < h2 ∧ l3 ≤ z ∧ z < h3 ∧ l4 ≤ w ∧ w < h4
  then A (x - l1) (y - l2) (z - l3) (w - l4) else X x y z w

/-- `X[l1:h1, l2:h2]`: an array of extents `h1 - l1`, `h2 - l2`, padded with zeros. -/
def getSl2 (l1 h1 l2 h2 : ℕ) (X : ℕ → ℕ → K) : ℕ → ℕ → K := fun x y =>
  if l1 + x < h1 ∧ l2 + y < h2 then X (l1 + x) (l2 + y) else 0

/-- `X[l1:h1, l2:h2, l3:h3, l4:h4]`, likewise. -/
def getSl4 {K : Type} [Zero K] (l1 h1 l2 h2 l3 h3 l4 h4 : ℕ) (X : ℕ → ℕ → ℕ → ℕ → K) : ℕ → ℕ → ℕ → ℕ → K := fun x y z w =>
  if l1 + x < h1 ∧ l2 + y < h2 ∧ l3 + z < h3 ∧ l4 + w < h4 then X (l1 + x) (l2 + y) (l3 + z) (l4 + w) else 0

/-- `F_to_spin`, spin_utils.py:7-26. -/
def F_to_spin (Faa Fbb : OneE ℕ ℕ K) (noa nva nob nvb : ℕ) :
    OneE ℕ ℕ K :=
  let no := noa + nob  -- L8
  let nv := nva + nvb  -- L9
  let Foo : ℕ → ℕ → K := fun _ _ => 0  -- L10
  let Foo := setSl2 0 noa 0 noa Faa.oo Foo  -- L11
  let Foo := setSl2 noa no noa no Fbb.oo Foo  -- L12
  let Fov : ℕ → ℕ → K := fun _ _ => 0  -- L14
  let Fov := setSl2 0 noa 0 nva Faa.ov Fov  -- L15
  let Fov := setSl2 noa no nva nv Fbb.ov Fov  -- L16
  let Fvo : ℕ → ℕ → K := fun _ _ => 0  -- L18
  let Fvo := setSl2 0 nva 0 noa Faa.vo Fvo  -- L19
  let Fvo := setSl2 nva nv noa no Fbb.vo Fvo  -- L20
  let Fvv : ℕ → ℕ → K := fun _ _ => 0  -- L22
  let Fvv := setSl2 0 nva 0 nva Faa.vv Fvv  -- L23
  let Fvv := setSl2 nva nv nva nv Fbb.vv Fvv  -- L24
  { oo := Foo, ov := Fov, vo := Fvo, vv := Fvv }

/-- `F_to_spatial`, spin_utils.py:29-45. -/
def F_to_spatial (F : OneE ℕ ℕ K) (noa nva nob nvb : ℕ) :
    OneE ℕ ℕ K × OneE ℕ ℕ K :=
  let oo := getSl2 0 noa 0 noa F.oo  -- L32
  let ov := getSl2 0 noa 0 nva F.ov  -- L33
  let vo := getSl2 0 nva 0 noa F.vo  -- L34
  let vv := getSl2 0 nva 0 nva F.vv  -- L35
  let Fa : OneE ℕ ℕ K := { oo := oo, ov := ov, vo := vo, vv := vv }  -- L36
  let oo := getSl2 noa (noa + nob) noa (noa + nob) F.oo  -- L39
  let ov := getSl2 noa (noa + nob) nva (nva + nvb) F.ov  -- L40
  let vo := getSl2 nva (nva + nvb) noa (noa + nob) F.vo  -- L41
  let vv := getSl2 nva (nva + nvb) nva (nva + nvb) F.vv  -- L42
  let Fb : OneE ℕ ℕ K := { oo := oo, ov := ov, vo := vo, vv := vv }  -- L43
  (Fa, Fb)

/-- `T1_to_spin`, spin_utils.py:48-54. -/
def T1_to_spin (Ta Tb : ℕ → ℕ → K) (noa nva nob nvb : ℕ) :
    ℕ → ℕ → K :=
  let no := noa + nob  -- L49
  let nv := nva + nvb  -- L50
  let T : ℕ → ℕ → K := fun _ _ => 0  -- L51
  let T := setSl2 0 nva 0 noa Ta T  -- L52
  let T := setSl2 nva nv noa no Tb T  -- L53
  T

/-- `T1_to_spatial`, spin_utils.py:57-60. -/
def T1_to_spatial (T : ℕ → ℕ → K) (noa nva nob nvb : ℕ) :
    (ℕ → ℕ → K) × (ℕ → ℕ → K) :=
  let Ta := getSl2 0 nva 0 noa T  -- L58
  let Tb := getSl2 nva (nva + nvb) noa (noa + nob) T  -- L59
  (Ta, Tb)

/-- `T2_to_spin`, spin_utils.py:87-97. -/
def T2_to_spin (Taa Tab Tbb : ℕ → ℕ → ℕ → ℕ → K) (noa nva nob nvb : ℕ) :
    ℕ → ℕ → ℕ → ℕ → K :=
  let no := noa + nob  -- L88
  let nv := nva + nvb  -- L89
  let T : ℕ → ℕ → ℕ → ℕ → K := fun _ _ _ _ => 0  -- L90
  let T := setSl4 0 nva 0 nva 0 noa 0 noa Taa T  -- L91
  let T := setSl4 nva nv nva nv noa no noa no Tbb T  -- L92
  let T := setSl4 0 nva nva nv 0 noa noa no Tab T  -- L93
  let T := setSl4 nva nv 0 nva noa no 0 noa (fun x y z w => Tab y x w z) T  -- L94
  let T := setSl4 0 nva nva nv noa no 0 noa (fun x y z w => -Tab x y w z) T  -- L95
  let T := setSl4 nva nv 0 nva 0 noa noa no (fun x y z w => -Tab y x z w) T  -- L96
  T

/-- `D2_to_spin`, spin_utils.py:100-110. -/
def D2_to_spin (Daa Dab Dbb : ℕ → ℕ → ℕ → ℕ → K) (noa nva nob nvb : ℕ) :
    ℕ → ℕ → ℕ → ℕ → K :=
  let no := noa + nob  -- L101
  let nv := nva + nvb  -- L102
  let D : ℕ → ℕ → ℕ → ℕ → K := fun _ _ _ _ => 0  -- L103
  let D := setSl4 0 nva 0 nva 0 noa 0 noa Daa D  -- L104
  let D := setSl4 nva nv nva nv noa no noa no Dbb D  -- L105
  let D := setSl4 0 nva nva nv 0 noa noa no Dab D  -- L106
  let D := setSl4 nva nv 0 nva noa no 0 noa (fun x y z w => Dab y x w z) D  -- L107
  let D := setSl4 0 nva nva nv noa no 0 noa (fun x y z w => Dab x y w z) D  -- L108
  let D := setSl4 nva nv 0 nva 0 noa noa no (fun x y z w => Dab y x z w) D  -- L109
  D

/-- `T2_to_spatial`, spin_utils.py:113-117. -/
def T2_to_spatial (T : ℕ → ℕ → ℕ → ℕ → K) (noa nva nob nvb : ℕ) :
    (ℕ → ℕ → ℕ → ℕ → K) × (ℕ → ℕ → ℕ → ℕ → K) × (ℕ → ℕ → ℕ → ℕ → K) :=
  let Taa := getSl4 0 nva 0 nva 0 noa 0 noa T  -- L114
  let Tbb := getSl4 nva (nva + nvb) nva (nva + nvb) noa (noa + nob) noa (noa + nob) T  -- L115
  let Tab := getSl4 0 nva nva (nva + nvb) 0 noa noa (noa + nob) T  -- L116
  (Taa, Tab, Tbb)

/-- `int_to_spin_block`, spin_utils.py:120-133. -/
def int_to_spin_block (aaaa bbbb abab baba abba baab : ℕ → ℕ → ℕ → ℕ → K) (na1 na2 na3 na4 nb1 nb2 nb3 nb4 : ℕ) :
    ℕ → ℕ → ℕ → ℕ → K :=
  let n1 := na1 + nb1  -- L122
  let n2 := na2 + nb2  -- L123
  let n3 := na3 + nb3  -- L124
  let n4 := na4 + nb4  -- L125
  let I : ℕ → ℕ → ℕ → ℕ → K := fun _ _ _ _ => 0  -- L126
  let I := setSl4 0 na1 0 na2 0 na3 0 na4 aaaa I  -- L127
  let I := setSl4 na1 n1 na2 n2 na3 n3 na4 n4 bbbb I  -- L128
  let I := setSl4 0 na1 na2 n2 0 na3 na4 n4 abab I  -- L129
  let I := setSl4 0 na1 na2 n2 na3 n3 0 na4 abba I  -- L130
  let I := setSl4 na1 n1 0 na2 0 na3 na4 n4 baab I  -- L131
  let I := setSl4 na1 n1 0 na2 na3 n3 0 na4 baba I  -- L132
  I

/-- `int_to_spin`, spin_utils.py:136-239. -/
def int_to_spin (I_aaaa I_bbbb I_abab : TwoEFull ℕ ℕ ℕ ℕ K) (noa nva nob nvb : ℕ) :
    TwoE ℕ ℕ K :=
  let aaaa : ℕ → ℕ → ℕ → ℕ → K := (fun x y z w => I_aaaa.vvvv x y z w - (fun x y z w => I_aaaa.vvvv x y w z) x y z w)  -- L139
  let bbbb : ℕ → ℕ → ℕ → ℕ → K := (fun x y z w => I_bbbb.vvvv x y z w - (fun x y z w => I_bbbb.vvvv x y w z) x y z w)  -- L140
  let abab : ℕ → ℕ → ℕ → ℕ → K := I_abab.vvvv  -- L141
  let baba : ℕ → ℕ → ℕ → ℕ → K := (fun x y z w => I_abab.vvvv y x w z)  -- L142
  let abba : ℕ → ℕ → ℕ → ℕ → K := (fun x y z w => -I_abab.vvvv x y w z)  -- L143
  let baab : ℕ → ℕ → ℕ → ℕ → K := (fun x y z w => -I_abab.vvvv y x z w)  -- L144
  let Ivvvv := int_to_spin_block aaaa bbbb abab baba abba baab nva nva nva nva nvb nvb nvb nvb  -- L145
  let aaaa : ℕ → ℕ → ℕ → ℕ → K := (fun x y z w => I_aaaa.vvvo x y z w - (fun x y z w => I_aaaa.vvov x y w z) x y z w)  -- L150
  let bbbb : ℕ → ℕ → ℕ → ℕ → K := (fun x y z w => I_bbbb.vvvo x y z w - (fun x y z w => I_bbbb.vvov x y w z) x y z w)  -- L151
  let abab : ℕ → ℕ → ℕ → ℕ → K := I_abab.vvvo  -- L152
  let baba : ℕ → ℕ → ℕ → ℕ → K := (fun x y z w => I_abab.vvov y x w z)  -- L153
  let abba : ℕ → ℕ → ℕ → ℕ → K := (fun x y z w => -I_abab.vvov x y w z)  -- L154
  let baab : ℕ → ℕ → ℕ → ℕ → K := (fun x y z w => -I_abab.vvvo y x z w)  -- L155
  let Ivvvo := int_to_spin_block aaaa bbbb abab baba abba baab nva nva nva noa nvb nvb nvb nob  -- L156
  let aaaa : ℕ → ℕ → ℕ → ℕ → K := (fun x y z w => I_aaaa.vovv x y z w - (fun x y z w => I_aaaa.vovv x y w z) x y z w)  -- L161
  let bbbb : ℕ → ℕ → ℕ → ℕ → K := (fun x y z w => I_bbbb.vovv x y z w - (fun x y z w => I_bbbb.vovv x y w z) x y z w)  -- L162
  let abab : ℕ → ℕ → ℕ → ℕ → K := I_abab.vovv  -- L163
  let baba : ℕ → ℕ → ℕ → ℕ → K := (fun x y z w => I_abab.ovvv y x w z)  -- L164
  let abba : ℕ → ℕ → ℕ → ℕ → K := (fun x y z w => -I_abab.vovv x y w z)  -- L165
  let baab : ℕ → ℕ → ℕ → ℕ → K := (fun x y z w => -I_abab.ovvv y x z w)  -- L166
  let Ivovv := int_to_spin_block aaaa bbbb abab baba abba baab nva noa nva nva nvb nob nvb nvb  -- L167
  let aaaa : ℕ → ℕ → ℕ → ℕ → K := (fun x y z w => I_aaaa.vvoo x y z w - (fun x y z w => I_aaaa.vvoo x y w z) x y z w)  -- L172
  let bbbb : ℕ → ℕ → ℕ → ℕ → K := (fun x y z w => I_bbbb.vvoo x y z w - (fun x y z w => I_bbbb.vvoo x y w z) x y z w)  -- L173
  let abab : ℕ → ℕ → ℕ → ℕ → K := I_abab.vvoo  -- L174
  let baba : ℕ → ℕ → ℕ → ℕ → K := (fun x y z w => I_abab.vvoo y x w z)  -- L175
  let abba : ℕ → ℕ → ℕ → ℕ → K := (fun x y z w => -I_abab.vvoo x y w z)  -- L176
  let baab : ℕ → ℕ → ℕ → ℕ → K := (fun x y z w => -I_abab.vvoo y x z w)  -- L177
  let Ivvoo := int_to_spin_block aaaa bbbb abab baba abba baab nva nva noa noa nvb nvb nob nob  -- L178
  let aaaa : ℕ → ℕ → ℕ → ℕ → K := (fun x y z w => I_aaaa.vovo x y z w - (fun x y z w => I_aaaa.voov x y w z) x y z w)  -- L183
  let bbbb : ℕ → ℕ → ℕ → ℕ → K := (fun x y z w => I_bbbb.vovo x y z w - (fun x y z w => I_bbbb.voov x y w z) x y z w)  -- L184
  let abab : ℕ → ℕ → ℕ → ℕ → K := I_abab.vovo  -- L185
  let baba : ℕ → ℕ → ℕ → ℕ → K := (fun x y z w => I_abab.ovov y x w z)  -- L186
  let abba : ℕ → ℕ → ℕ → ℕ → K := (fun x y z w => -I_abab.voov x y w z)  -- L187
  let baab : ℕ → ℕ → ℕ → ℕ → K := (fun x y z w => -I_abab.ovvo y x z w)  -- L188
  let Ivovo := int_to_spin_block aaaa bbbb abab baba abba baab nva noa nva noa nvb nob nvb nob  -- L189
  let aaaa : ℕ → ℕ → ℕ → ℕ → K := (fun x y z w => I_aaaa.oovv x y z w - (fun x y z w => I_aaaa.oovv x y w z) x y z w)  -- L194
  let bbbb : ℕ → ℕ → ℕ → ℕ → K := (fun x y z w => I_bbbb.oovv x y z w - (fun x y z w => I_bbbb.oovv x y w z) x y z w)  -- L195
  let abab : ℕ → ℕ → ℕ → ℕ → K := I_abab.oovv  -- L196
  let baba : ℕ → ℕ → ℕ → ℕ → K := (fun x y z w => I_abab.oovv y x w z)  -- L197
  let abba : ℕ → ℕ → ℕ → ℕ → K := (fun x y z w => -I_abab.oovv x y w z)  -- L198
  let baab : ℕ → ℕ → ℕ → ℕ → K := (fun x y z w => -I_abab.oovv y x z w)  -- L199
  let Ioovv := int_to_spin_block aaaa bbbb abab baba abba baab noa noa nva nva nob nob nvb nvb  -- L200
  let aaaa : ℕ → ℕ → ℕ → ℕ → K := (fun x y z w => I_aaaa.vooo x y z w - (fun x y z w => I_aaaa.vooo x y w z) x y z w)  -- L205
  let bbbb : ℕ → ℕ → ℕ → ℕ → K := (fun x y z w => I_bbbb.vooo x y z w - (fun x y z w => I_bbbb.vooo x y w z) x y z w)  -- L206
  let abab : ℕ → ℕ → ℕ → ℕ → K := I_abab.vooo  -- L207
  let baba : ℕ → ℕ → ℕ → ℕ → K := (fun x y z w => I_abab.ovoo y x w z)  -- L208
  let abba : ℕ → ℕ → ℕ → ℕ → K := (fun x y z w => -I_abab.vooo x y w z)  -- L209
  let baab : ℕ → ℕ → ℕ → ℕ → K := (fun x y z w => -I_abab.ovoo y x z w)  -- L210
  let Ivooo := int_to_spin_block aaaa bbbb abab baba abba baab nva noa noa noa nvb nob nob nob  -- L211
  let aaaa : ℕ → ℕ → ℕ → ℕ → K := (fun x y z w => I_aaaa.ooov x y z w - (fun x y z w => I_aaaa.oovo x y w z) x y z w)  -- L216
  let bbbb : ℕ → ℕ → ℕ → ℕ → K := (fun x y z w => I_bbbb.ooov x y z w - (fun x y z w => I_bbbb.oovo x y w z) x y z w)  -- L217
  let abab : ℕ → ℕ → ℕ → ℕ → K := I_abab.ooov  -- L218
  let baba : ℕ → ℕ → ℕ → ℕ → K := (fun x y z w => I_abab.oovo y x w z)  -- L219
  let abba : ℕ → ℕ → ℕ → ℕ → K := (fun x y z w => -I_abab.oovo x y w z)  -- L220
  let baab : ℕ → ℕ → ℕ → ℕ → K := (fun x y z w => -I_abab.ooov y x z w)  -- L221
  let Iooov := int_to_spin_block aaaa bbbb abab baba abba baab noa noa noa nva nob nob nob nvb  -- L222
  let aaaa : ℕ → ℕ → ℕ → ℕ → K := (fun x y z w => I_aaaa.oooo x y z w - (fun x y z w => I_aaaa.oooo x y w z) x y z w)  -- L227
  let bbbb : ℕ → ℕ → ℕ → ℕ → K := (fun x y z w => I_bbbb.oooo x y z w - (fun x y z w => I_bbbb.oooo x y w z) x y z w)  -- L228
  let abab : ℕ → ℕ → ℕ → ℕ → K := I_abab.oooo  -- L229
  let baba : ℕ → ℕ → ℕ → ℕ → K := (fun x y z w => I_abab.oooo y x w z)  -- L230
  let abba : ℕ → ℕ → ℕ → ℕ → K := (fun x y z w => -I_abab.oooo x y w z)  -- L231
  let baab : ℕ → ℕ → ℕ → ℕ → K := (fun x y z w => -I_abab.oooo y x z w)  -- L232
  let Ioooo := int_to_spin_block aaaa bbbb abab baba abba baab noa noa noa noa nob nob nob nob  -- L233
  { vvvv := Ivvvv, vvvo := Ivvvo, vovv := Ivovv, vvoo := Ivvoo, vovo := Ivovo, oovv := Ioovv, vooo := Ivooo, ooov := Iooov, oooo := Ioooo }

/-- `int_to_spin2`, spin_utils.py:242-345. -/
def int_to_spin2 (I_aaaa I_bbbb : TwoE ℕ ℕ K) (I_abab : TwoEFull ℕ ℕ ℕ ℕ K) (noa nva nob nvb : ℕ) :
    TwoE ℕ ℕ K :=
  let aaaa : ℕ → ℕ → ℕ → ℕ → K := I_aaaa.vvvv  -- L245
  let bbbb : ℕ → ℕ → ℕ → ℕ → K := I_bbbb.vvvv  -- L246
  let abab : ℕ → ℕ → ℕ → ℕ → K := I_abab.vvvv  -- L247
  let baba : ℕ → ℕ → ℕ → ℕ → K := (fun x y z w => I_abab.vvvv y x w z)  -- L248
  let abba : ℕ → ℕ → ℕ → ℕ → K := (fun x y z w => -I_abab.vvvv x y w z)  -- L249
  let baab : ℕ → ℕ → ℕ → ℕ → K := (fun x y z w => -I_abab.vvvv y x z w)  -- L250
  let Ivvvv := int_to_spin_block aaaa bbbb abab baba abba baab nva nva nva nva nvb nvb nvb nvb  -- L251
  let aaaa : ℕ → ℕ → ℕ → ℕ → K := I_aaaa.vvvo  -- L256
  let bbbb : ℕ → ℕ → ℕ → ℕ → K := I_bbbb.vvvo  -- L257
  let abab : ℕ → ℕ → ℕ → ℕ → K := I_abab.vvvo  -- L258
  let baba : ℕ → ℕ → ℕ → ℕ → K := (fun x y z w => I_abab.vvov y x w z)  -- L259
  let abba : ℕ → ℕ → ℕ → ℕ → K := (fun x y z w => -I_abab.vvov x y w z)  -- L260
  let baab : ℕ → ℕ → ℕ → ℕ → K := (fun x y z w => -I_abab.vvvo y x z w)  -- L261
  let Ivvvo := int_to_spin_block aaaa bbbb abab baba abba baab nva nva nva noa nvb nvb nvb nob  -- L262
  let aaaa : ℕ → ℕ → ℕ → ℕ → K := I_aaaa.vovv  -- L267
  let bbbb : ℕ → ℕ → ℕ → ℕ → K := I_bbbb.vovv  -- L268
  let abab : ℕ → ℕ → ℕ → ℕ → K := I_abab.vovv  -- L269
  let baba : ℕ → ℕ → ℕ → ℕ → K := (fun x y z w => I_abab.ovvv y x w z)  -- L270
  let abba : ℕ → ℕ → ℕ → ℕ → K := (fun x y z w => -I_abab.vovv x y w z)  -- L271
  let baab : ℕ → ℕ → ℕ → ℕ → K := (fun x y z w => -I_abab.ovvv y x z w)  -- L272
  let Ivovv := int_to_spin_block aaaa bbbb abab baba abba baab nva noa nva nva nvb nob nvb nvb  -- L273
  let aaaa : ℕ → ℕ → ℕ → ℕ → K := I_aaaa.vvoo  -- L278
  let bbbb : ℕ → ℕ → ℕ → ℕ → K := I_bbbb.vvoo  -- L279
  let abab : ℕ → ℕ → ℕ → ℕ → K := I_abab.vvoo  -- L280
  let baba : ℕ → ℕ → ℕ → ℕ → K := (fun x y z w => I_abab.vvoo y x w z)  -- L281
  let abba : ℕ → ℕ → ℕ → ℕ → K := (fun x y z w => -I_abab.vvoo x y w z)  -- L282
  let baab : ℕ → ℕ → ℕ → ℕ → K := (fun x y z w => -I_abab.vvoo y x z w)  -- L283
  let Ivvoo := int_to_spin_block aaaa bbbb abab baba abba baab nva nva noa noa nvb nvb nob nob  -- L284
  let aaaa : ℕ → ℕ → ℕ → ℕ → K := I_aaaa.vovo  -- L289
  let bbbb : ℕ → ℕ → ℕ → ℕ → K := I_bbbb.vovo  -- L290
  let abab : ℕ → ℕ → ℕ → ℕ → K := I_abab.vovo  -- L291
  let baba : ℕ → ℕ → ℕ → ℕ → K := (fun x y z w => I_abab.ovov y x w z)  -- L292
  let abba : ℕ → ℕ → ℕ → ℕ → K := (fun x y z w => -I_abab.voov x y w z)  -- L293
  let baab : ℕ → ℕ → ℕ → ℕ → K := (fun x y z w => -I_abab.ovvo y x z w)  -- L294
  let Ivovo := int_to_spin_block aaaa bbbb abab baba abba baab nva noa nva noa nvb nob nvb nob  -- L295
  let aaaa : ℕ → ℕ → ℕ → ℕ → K := I_aaaa.oovv  -- L300
  let bbbb : ℕ → ℕ → ℕ → ℕ → K := I_bbbb.oovv  -- L301
  let abab : ℕ → ℕ → ℕ → ℕ → K := I_abab.oovv  -- L302
  let baba : ℕ → ℕ → ℕ → ℕ → K := (fun x y z w => I_abab.oovv y x w z)  -- L303
  let abba : ℕ → ℕ → ℕ → ℕ → K := (fun x y z w => -I_abab.oovv x y w z)  -- L304
  let baab : ℕ → ℕ → ℕ → ℕ → K := (fun x y z w => -I_abab.oovv y x z w)  -- L305
  let Ioovv := int_to_spin_block aaaa bbbb abab baba abba baab noa noa nva nva nob nob nvb nvb  -- L306
  let aaaa : ℕ → ℕ → ℕ → ℕ → K := I_aaaa.vooo  -- L311
  let bbbb : ℕ → ℕ → ℕ → ℕ → K := I_bbbb.vooo  -- L312
  let abab : ℕ → ℕ → ℕ → ℕ → K := I_abab.vooo  -- L313
  let baba : ℕ → ℕ → ℕ → ℕ → K := (fun x y z w => I_abab.ovoo y x w z)  -- L314
  let abba : ℕ → ℕ → ℕ → ℕ → K := (fun x y z w => -I_abab.vooo x y w z)  -- L315
  let baab : ℕ → ℕ → ℕ → ℕ → K := (fun x y z w => -I_abab.ovoo y x z w)  -- L316
  let Ivooo := int_to_spin_block aaaa bbbb abab baba abba baab nva noa noa noa nvb nob nob nob  -- L317
  let aaaa : ℕ → ℕ → ℕ → ℕ → K := I_aaaa.ooov  -- L322
  let bbbb : ℕ → ℕ → ℕ → ℕ → K := I_bbbb.ooov  -- L323
  let abab : ℕ → ℕ → ℕ → ℕ → K := I_abab.ooov  -- L324
  let baba : ℕ → ℕ → ℕ → ℕ → K := (fun x y z w => I_abab.oovo y x w z)  -- L325
  let abba : ℕ → ℕ → ℕ → ℕ → K := (fun x y z w => -I_abab.oovo x y w z)  -- L326
  let baab : ℕ → ℕ → ℕ → ℕ → K := (fun x y z w => -I_abab.ooov y x z w)  -- L327
  let Iooov := int_to_spin_block aaaa bbbb abab baba abba baab noa noa noa nva nob nob nob nvb  -- L328
  let aaaa : ℕ → ℕ → ℕ → ℕ → K := I_aaaa.oooo  -- L333
  let bbbb : ℕ → ℕ → ℕ → ℕ → K := I_bbbb.oooo  -- L334
  let abab : ℕ → ℕ → ℕ → ℕ → K := I_abab.oooo  -- L335
  let baba : ℕ → ℕ → ℕ → ℕ → K := (fun x y z w => I_abab.oooo y x w z)  -- L336
  let abba : ℕ → ℕ → ℕ → ℕ → K := (fun x y z w => -I_abab.oooo x y w z)  -- L337
  let baab : ℕ → ℕ → ℕ → ℕ → K := (fun x y z w => -I_abab.oooo y x z w)  -- L338
  let Ioooo := int_to_spin_block aaaa bbbb abab baba abba baab noa noa noa noa nob nob nob nob  -- L339
  { vvvv := Ivvvv, vvvo := Ivvvo, vovv := Ivovv, vvoo := Ivvoo, vovo := Ivovo, oovv := Ioovv, vooo := Ivooo, ooov := Iooov, oooo := Ioooo }

/-- `int_to_spatial`, spin_utils.py:348-397. -/
def int_to_spatial (I : TwoE ℕ ℕ K) (noa nob nva nvb : ℕ) :
    TwoE ℕ ℕ K × TwoE ℕ ℕ K × TwoEFull ℕ ℕ ℕ ℕ K :=
  let vvvv := getSl4 0 nva 0 nva 0 nva 0 nva I.vvvv  -- L349
  let vvvo := getSl4 0 nva 0 nva 0 nva 0 noa I.vvvo  -- L350
  let vovv := getSl4 0 nva 0 noa 0 nva 0 nva I.vovv  -- L351
  let vvoo := getSl4 0 nva 0 nva 0 noa 0 noa I.vvoo  -- L352
  let vovo := getSl4 0 nva 0 noa 0 nva 0 noa I.vovo  -- L353
  let oovv := getSl4 0 noa 0 noa 0 nva 0 nva I.oovv  -- L354
  let vooo := getSl4 0 nva 0 noa 0 noa 0 noa I.vooo  -- L355
  let ooov := getSl4 0 noa 0 noa 0 noa 0 nva I.ooov  -- L356
  let oooo := getSl4 0 noa 0 noa 0 noa 0 noa I.oooo  -- L357
  let Ia : TwoE ℕ ℕ K := { vvvv := vvvv, vvvo := vvvo, vovv := vovv, vvoo := vvoo, vovo := vovo, oovv := oovv, vooo := vooo, ooov := ooov, oooo := oooo }  -- L358
  let vvvv := getSl4 nva (nva + nvb) nva (nva + nvb) nva (nva + nvb) nva (nva + nvb) I.vvvv  -- L362
  let vvvo := getSl4 nva (nva + nvb) nva (nva + nvb) nva (nva + nvb) noa (noa + nob) I.vvvo  -- L363
  let vovv := getSl4 nva (nva + nvb) noa (noa + nob) nva (nva + nvb) nva (nva + nvb) I.vovv  -- L364
  let vvoo := getSl4 nva (nva + nvb) nva (nva + nvb) noa (noa + nob) noa (noa + nob) I.vvoo  -- L365
  let vovo := getSl4 nva (nva + nvb) noa (noa + nob) nva (nva + nvb) noa (noa + nob) I.vovo  -- L366
  let oovv := getSl4 noa (noa + nob) noa (noa + nob) nva (nva + nvb) nva (nva + nvb) I.oovv  -- L367
  let vooo := getSl4 nva (nva + nvb) noa (noa + nob) noa (noa + nob) noa (noa + nob) I.vooo  -- L368
  let ooov := getSl4 noa (noa + nob) noa (noa + nob) noa (noa + nob) nva (nva + nvb) I.ooov  -- L369
  let oooo := getSl4 noa (noa + nob) noa (noa + nob) noa (noa + nob) noa (noa + nob) I.oooo  -- L370
  let Ib : TwoE ℕ ℕ K := { vvvv := vvvv, vvvo := vvvo, vovv := vovv, vvoo := vvoo, vovo := vovo, oovv := oovv, vooo := vooo, ooov := ooov, oooo := oooo }  -- L371
  let vvvv := getSl4 0 nva nva (nva + nvb) 0 nva nva (nva + nvb) I.vvvv  -- L375
  let vvvo := getSl4 0 nva nva (nva + nvb) 0 nva noa (noa + nob) I.vvvo  -- L376
  let vvov := (fun x y z w => -(getSl4 0 nva nva (nva + nvb) nva (nva + nvb) 0 noa I.vvvo) x y w z)  -- L377
  let vovv := getSl4 0 nva noa (noa + nob) 0 nva nva (nva + nvb) I.vovv  -- L378
  let ovvv := (fun x y z w => -(getSl4 nva (nva + nvb) 0 noa 0 nva nva (nva + nvb) I.vovv) y x z w)  -- L379
  let vvoo := getSl4 0 nva nva (nva + nvb) 0 noa noa (noa + nob) I.vvoo  -- L380
  let vovo := getSl4 0 nva noa (noa + nob) 0 nva noa (noa + nob) I.vovo  -- L381
  let voov := (fun x y z w => -(getSl4 0 nva noa (noa + nob) nva (nva + nvb) 0 noa I.vovo) x y w z)  -- L382
  let ovov := (fun x y z w => (getSl4 nva (nva + nvb) 0 noa nva (nva + nvb) 0 noa I.vovo) y x w z)  -- L383
  let ovvo := (fun x y z w => -(getSl4 nva (nva + nvb) 0 noa 0 nva noa (noa + nob) I.vovo) y x z w)  -- L384
  let oovv := getSl4 0 noa noa (noa + nob) 0 nva nva (nva + nvb) I.oovv  -- L385
  let vooo := getSl4 0 nva noa (noa + nob) 0 noa noa (noa + nob) I.vooo  -- L386
  let ovoo := (fun x y z w => -(getSl4 nva (nva + nvb) 0 noa 0 noa noa (noa + nob) I.vooo) y x z w)  -- L387
  let ooov := getSl4 0 noa noa (noa + nob) 0 noa nva (nva + nvb) I.ooov  -- L388
  let oovo := (fun x y z w => -(getSl4 0 noa noa (noa + nob) noa (noa + nob) 0 nva I.ooov) x y w z)  -- L389
  let oooo := getSl4 0 noa noa (noa + nob) 0 noa noa (noa + nob) I.oooo  -- L390
  let Iabab : TwoEFull ℕ ℕ ℕ ℕ K := { vvvv := vvvv, vvvo := vvvo, vvov := vvov, vovv := vovv, ovvv := ovvv, vvoo := vvoo, vovo := vovo, ovvo := ovvo, voov := voov, ovov := ovov, oovv := oovv, vooo := vooo, ovoo := ovoo, oovo := oovo, ooov := ooov, oooo := oooo }  -- L391
  (Ia, Ib, Iabab)

end CC.Num
