/-
GENERATED by tools/gen_cc.py from cqcpy/cc_equations.py (pure text translation); do not edit.
Generalized (spin-orbital) amplitude equations.
Every definition cites the python function it mirrors; each `let` carries the source line
of the statement it translates.  Arithmetic is that of an arbitrary field of characteristic
zero (floating point rounding and dtypes are abstracted).
-/
import Verif.Model.Blocks

set_option linter.unusedVariables false
set_option maxRecDepth 4000

namespace CC

open Finset

variable {K : Type} [Field K]
variable {O V Oa Va Ob Vb : Type} [Fintype O] [Fintype V] [Fintype Oa] [Fintype Va]
  [Fintype Ob] [Fintype Vb]

/-- `_S_S`, cc_equations.py:9-15. Mutates `T1`; the model returns the new value. -/
def S_S (T1 : V → O → K) (F : OneE O V K) (I : TwoE O V K) (T1old : V → O → K) (fac : K) :
    V → O → K :=
  let T1 := fun (a : V) (i : O) => T1 a i + fac * (∑ b : V, F.vv a b * T1old b i)  -- L11
  let T1 := fun (a : V) (i : O) => T1 a i - fac * (∑ j : O, F.oo j i * T1old a j)  -- L13
  let T1 := fun (a : V) (i : O) => T1 a i - fac * (∑ j : O, ∑ b : V, I.vovo a j b i * T1old b j)  -- L15
  T1

/-- `_S_D`, cc_equations.py:18-24. Mutates `T1`; the model returns the new value. -/
def S_D (T1 : V → O → K) (F : OneE O V K) (I : TwoE O V K) (T2old : V → V → O → O → K) (fac : K) :
    V → O → K :=
  let T1 := fun (a : V) (i : O) => T1 a i + fac * (∑ j : O, ∑ b : V, F.ov j b * T2old a b i j)  -- L20
  let T1 := fun (a : V) (i : O) => T1 a i + fac * (1/2) * (∑ j : O, ∑ b : V, ∑ c : V, I.vovv a j b c * T2old b c i j)  -- L22
  let T1 := fun (a : V) (i : O) => T1 a i - fac * (1/2) * (∑ j : O, ∑ k : O, ∑ b : V, I.ooov j k i b * T2old a b j k)  -- L24
  T1

/-- `_S_SS`, cc_equations.py:27-33. Mutates `T1`; the model returns the new value. -/
def S_SS (T1 : V → O → K) (F : OneE O V K) (I : TwoE O V K) (T1old : V → O → K) (fac : K) :
    V → O → K :=
  let T1 := fun (a : V) (i : O) => T1 a i - fac * (∑ j : O, ∑ b : V, F.ov j b * T1old b i * T1old a j)  -- L29
  let T1 := fun (a : V) (i : O) => T1 a i - fac * (∑ j : O, ∑ b : V, ∑ c : V, I.vovv a j b c * T1old b j * T1old c i)  -- L31
  let T1 := fun (a : V) (i : O) => T1 a i + fac * (∑ j : O, ∑ k : O, ∑ b : V, I.ooov j k i b * T1old b j * T1old a k)  -- L33
  T1

/-- `_S_SD`, cc_equations.py:36-42. Mutates `T1`; the model returns the new value. -/
def S_SD (T1 : V → O → K) (F : OneE O V K) (I : TwoE O V K) (T1old : V → O → K) (T2old : V → V → O → O → K) (fac : K) :
    V → O → K :=
  let T1 := fun (a : V) (i : O) => T1 a i - fac * (1/2) * (∑ j : O, ∑ k : O, ∑ b : V, ∑ c : V, I.oovv j k b c * T1old b i * T2old a c j k)  -- L38
  let T1 := fun (a : V) (i : O) => T1 a i - fac * (1/2) * (∑ j : O, ∑ k : O, ∑ b : V, ∑ c : V, I.oovv j k b c * T1old a j * T2old b c i k)  -- L40
  let T1 := fun (a : V) (i : O) => T1 a i + fac * (∑ j : O, ∑ k : O, ∑ b : V, ∑ c : V, I.oovv j k b c * T1old b j * T2old c a k i)  -- L42
  T1

/-- `_S_SSS`, cc_equations.py:45-46. Mutates `T1`; the model returns the new value. -/
def S_SSS (T1 : V → O → K) (F : OneE O V K) (I : TwoE O V K) (T1old : V → O → K) (fac : K) :
    V → O → K :=
  let T1 := fun (a : V) (i : O) => T1 a i + fac * (∑ j : O, ∑ k : O, ∑ b : V, ∑ c : V, I.oovv j k b c * T1old b i * T1old c j * T1old a k)  -- L46
  T1

/-- `_D_S`, cc_equations.py:49-55. Mutates `T2`; the model returns the new value. -/
def D_S (T2 : V → V → O → O → K) (F : OneE O V K) (I : TwoE O V K) (T1old : V → O → K) (fac : K) :
    V → V → O → O → K :=
  let T2 := fun (a : V) (b : V) (i : O) (j : O) => T2 a b i j + fac * (∑ c : V, I.vvvo a b c j * T1old c i)  -- L51
  let T2 := fun (a : V) (b : V) (i : O) (j : O) => T2 a b i j - fac * (∑ c : V, I.vvvo a b c i * T1old c j)  -- L52
  let T2 := fun (a : V) (b : V) (i : O) (j : O) => T2 a b i j + fac * (∑ k : O, I.vooo b k i j * T1old a k)  -- L54
  let T2 := fun (a : V) (b : V) (i : O) (j : O) => T2 a b i j - fac * (∑ k : O, I.vooo a k i j * T1old b k)  -- L55
  T2

/-- `_D_D`, cc_equations.py:58-73. Mutates `T2`; the model returns the new value. -/
def D_D (T2 : V → V → O → O → K) (F : OneE O V K) (I : TwoE O V K) (T2old : V → V → O → O → K) (fac : K) :
    V → V → O → O → K :=
  let T2 := fun (a : V) (b : V) (i : O) (j : O) => T2 a b i j + fac * (∑ c : V, F.vv b c * T2old a c i j)  -- L60
  let T2 := fun (a : V) (b : V) (i : O) (j : O) => T2 a b i j - fac * (∑ c : V, F.vv a c * T2old b c i j)  -- L61
  let T2 := fun (a : V) (b : V) (i : O) (j : O) => T2 a b i j - fac * (∑ k : O, F.oo k j * T2old a b i k)  -- L63
  let T2 := fun (a : V) (b : V) (i : O) (j : O) => T2 a b i j + fac * (∑ k : O, F.oo k i * T2old a b j k)  -- L64
  let T2 := fun (a : V) (b : V) (i : O) (j : O) => T2 a b i j + fac * (1/2) * (∑ c : V, ∑ d : V, I.vvvv a b c d * T2old c d i j)  -- L66
  let T2 := fun (a : V) (b : V) (i : O) (j : O) => T2 a b i j + fac * (1/2) * (∑ k : O, ∑ l : O, I.oooo k l i j * T2old a b k l)  -- L68
  let T2 := fun (a : V) (b : V) (i : O) (j : O) => T2 a b i j - fac * (∑ k : O, ∑ c : V, I.vovo b k c j * T2old a c i k)  -- L70
  let T2 := fun (a : V) (b : V) (i : O) (j : O) => T2 a b i j + fac * (∑ k : O, ∑ c : V, I.vovo a k c j * T2old b c i k)  -- L71
  let T2 := fun (a : V) (b : V) (i : O) (j : O) => T2 a b i j + fac * (∑ k : O, ∑ c : V, I.vovo b k c i * T2old a c j k)  -- L72
  let T2 := fun (a : V) (b : V) (i : O) (j : O) => T2 a b i j - fac * (∑ k : O, ∑ c : V, I.vovo a k c i * T2old b c j k)  -- L73
  T2

/-- `_D_D_ladder`, cc_equations.py:76-80. Mutates `T2`; the model returns the new value. -/
def D_D_ladder (T2 : V → V → O → O → K) (I : TwoE O V K) (T2old : V → V → O → O → K) (fac : K) :
    V → V → O → O → K :=
  let T2 := fun (a : V) (b : V) (i : O) (j : O) => T2 a b i j + fac * (1/2) * (∑ c : V, ∑ d : V, I.vvvv a b c d * T2old c d i j)  -- L78
  let T2 := fun (a : V) (b : V) (i : O) (j : O) => T2 a b i j + fac * (1/2) * (∑ k : O, ∑ l : O, I.oooo k l i j * T2old a b k l)  -- L80
  T2

/-- `_D_D_ring`, cc_equations.py:83-86. Mutates `T2`; the model returns the new value. -/
def D_D_ring (T2 : V → V → O → O → K) (I : TwoE O V K) (T2old : V → V → O → O → K) (fac : K) :
    V → V → O → O → K :=
  let T2 := fun (a : V) (b : V) (i : O) (j : O) => T2 a b i j - fac * (∑ k : O, ∑ c : V, I.vovo b k c j * T2old a c i k)  -- L85
  let T2 := fun (a : V) (b : V) (i : O) (j : O) => T2 a b i j - fac * (∑ k : O, ∑ c : V, I.vovo a k c i * T2old b c j k)  -- L86
  T2

/-- `_D_SS`, cc_equations.py:89-100. Mutates `T2`; the model returns the new value. -/
def D_SS (T2 : V → V → O → O → K) (F : OneE O V K) (I : TwoE O V K) (T1old : V → O → K) (fac : K) :
    V → V → O → O → K :=
  let T2 := fun (a : V) (b : V) (i : O) (j : O) => T2 a b i j + fac * (1/2) * (∑ c : V, ∑ d : V, I.vvvv a b c d * T1old c i * T1old d j)  -- L91
  let T2 := fun (a : V) (b : V) (i : O) (j : O) => T2 a b i j - fac * (1/2) * (∑ c : V, ∑ d : V, I.vvvv a b c d * T1old c j * T1old d i)  -- L92
  let T2 := fun (a : V) (b : V) (i : O) (j : O) => T2 a b i j + fac * (1/2) * (∑ k : O, ∑ l : O, I.oooo k l i j * T1old a k * T1old b l)  -- L94
  let T2 := fun (a : V) (b : V) (i : O) (j : O) => T2 a b i j - fac * (1/2) * (∑ k : O, ∑ l : O, I.oooo k l i j * T1old b k * T1old a l)  -- L95
  let T2 := fun (a : V) (b : V) (i : O) (j : O) => T2 a b i j - fac * (∑ k : O, ∑ c : V, I.vovo a k c j * T1old c i * T1old b k)  -- L97
  let T2 := fun (a : V) (b : V) (i : O) (j : O) => T2 a b i j + fac * (∑ k : O, ∑ c : V, I.vovo b k c j * T1old c i * T1old a k)  -- L98
  let T2 := fun (a : V) (b : V) (i : O) (j : O) => T2 a b i j + fac * (∑ k : O, ∑ c : V, I.vovo a k c i * T1old c j * T1old b k)  -- L99
  let T2 := fun (a : V) (b : V) (i : O) (j : O) => T2 a b i j - fac * (∑ k : O, ∑ c : V, I.vovo b k c i * T1old c j * T1old a k)  -- L100
  T2

/-- `_D_SD`, cc_equations.py:103-131. Mutates `T2`; the model returns the new value. -/
def D_SD (T2 : V → V → O → O → K) (F : OneE O V K) (I : TwoE O V K) (T1old : V → O → K) (T2old : V → V → O → O → K) (fac : K) :
    V → V → O → O → K :=
  let T2 := fun (a : V) (b : V) (i : O) (j : O) => T2 a b i j - fac * (∑ k : O, ∑ c : V, F.ov k c * T1old c i * T2old a b k j)  -- L105
  let T2 := fun (a : V) (b : V) (i : O) (j : O) => T2 a b i j + fac * (∑ k : O, ∑ c : V, F.ov k c * T1old c j * T2old a b k i)  -- L106
  let T2 := fun (a : V) (b : V) (i : O) (j : O) => T2 a b i j - fac * (∑ k : O, ∑ c : V, F.ov k c * T1old a k * T2old c b i j)  -- L108
  let T2 := fun (a : V) (b : V) (i : O) (j : O) => T2 a b i j + fac * (∑ k : O, ∑ c : V, F.ov k c * T1old b k * T2old c a i j)  -- L109
  let T2 := fun (a : V) (b : V) (i : O) (j : O) => T2 a b i j - fac * (∑ k : O, ∑ c : V, ∑ d : V, I.vovv a k c d * T1old c k * T2old d b i j)  -- L111
  let T2 := fun (a : V) (b : V) (i : O) (j : O) => T2 a b i j + fac * (∑ k : O, ∑ c : V, ∑ d : V, I.vovv b k c d * T1old c k * T2old d a i j)  -- L112
  let T2 := fun (a : V) (b : V) (i : O) (j : O) => T2 a b i j + fac * (∑ k : O, ∑ l : O, ∑ c : V, I.ooov k l i c * T1old c k * T2old a b l j)  -- L114
  let T2 := fun (a : V) (b : V) (i : O) (j : O) => T2 a b i j - fac * (∑ k : O, ∑ l : O, ∑ c : V, I.ooov k l j c * T1old c k * T2old a b l i)  -- L115
  let T2 := fun (a : V) (b : V) (i : O) (j : O) => T2 a b i j + fac * (∑ k : O, ∑ c : V, ∑ d : V, I.vovv a k c d * T1old c i * T2old d b k j)  -- L117
  let T2 := fun (a : V) (b : V) (i : O) (j : O) => T2 a b i j - fac * (∑ k : O, ∑ c : V, ∑ d : V, I.vovv b k c d * T1old c i * T2old d a k j)  -- L118
  let T2 := fun (a : V) (b : V) (i : O) (j : O) => T2 a b i j - fac * (∑ k : O, ∑ c : V, ∑ d : V, I.vovv a k c d * T1old c j * T2old d b k i)  -- L119
  let T2 := fun (a : V) (b : V) (i : O) (j : O) => T2 a b i j + fac * (∑ k : O, ∑ c : V, ∑ d : V, I.vovv b k c d * T1old c j * T2old d a k i)  -- L120
  let T2 := fun (a : V) (b : V) (i : O) (j : O) => T2 a b i j - fac * (∑ k : O, ∑ l : O, ∑ c : V, I.ooov k l i c * T1old a k * T2old c b l j)  -- L122
  let T2 := fun (a : V) (b : V) (i : O) (j : O) => T2 a b i j + fac * (∑ k : O, ∑ l : O, ∑ c : V, I.ooov k l i c * T1old b k * T2old c a l j)  -- L123
  let T2 := fun (a : V) (b : V) (i : O) (j : O) => T2 a b i j + fac * (∑ k : O, ∑ l : O, ∑ c : V, I.ooov k l j c * T1old a k * T2old c b l i)  -- L124
  let T2 := fun (a : V) (b : V) (i : O) (j : O) => T2 a b i j - fac * (∑ k : O, ∑ l : O, ∑ c : V, I.ooov k l j c * T1old b k * T2old c a l i)  -- L125
  let T2 := fun (a : V) (b : V) (i : O) (j : O) => T2 a b i j - fac * (1/2) * (∑ k : O, ∑ l : O, ∑ c : V, I.ooov k l j c * T1old c i * T2old a b k l)  -- L127
  let T2 := fun (a : V) (b : V) (i : O) (j : O) => T2 a b i j + fac * (1/2) * (∑ k : O, ∑ l : O, ∑ c : V, I.ooov k l i c * T1old c j * T2old a b k l)  -- L128
  let T2 := fun (a : V) (b : V) (i : O) (j : O) => T2 a b i j + fac * (1/2) * (∑ k : O, ∑ c : V, ∑ d : V, I.vovv b k c d * T1old a k * T2old c d i j)  -- L130
  let T2 := fun (a : V) (b : V) (i : O) (j : O) => T2 a b i j - fac * (1/2) * (∑ k : O, ∑ c : V, ∑ d : V, I.vovv a k c d * T1old b k * T2old c d i j)  -- L131
  T2

/-- `_D_DD`, cc_equations.py:134-145. Mutates `T2`; the model returns the new value. -/
def D_DD (T2 : V → V → O → O → K) (F : OneE O V K) (I : TwoE O V K) (T2old : V → V → O → O → K) (fac : K) :
    V → V → O → O → K :=
  let T2 := fun (a : V) (b : V) (i : O) (j : O) => T2 a b i j + fac * (1/4) * (∑ k : O, ∑ l : O, ∑ c : V, ∑ d : V, I.oovv k l c d * T2old c d i j * T2old a b k l)  -- L136
  let T2 := fun (a : V) (b : V) (i : O) (j : O) => T2 a b i j + fac * (∑ k : O, ∑ l : O, ∑ c : V, ∑ d : V, I.oovv k l c d * T2old a c i k * T2old d b l j)  -- L138
  let T2 := fun (a : V) (b : V) (i : O) (j : O) => T2 a b i j - fac * (∑ k : O, ∑ l : O, ∑ c : V, ∑ d : V, I.oovv k l c d * T2old b c i k * T2old d a l j)  -- L139
  let T2 := fun (a : V) (b : V) (i : O) (j : O) => T2 a b i j - fac * (1/2) * (∑ k : O, ∑ l : O, ∑ c : V, ∑ d : V, I.oovv k l c d * T2old c a k l * T2old d b i j)  -- L141
  let T2 := fun (a : V) (b : V) (i : O) (j : O) => T2 a b i j + fac * (1/2) * (∑ k : O, ∑ l : O, ∑ c : V, ∑ d : V, I.oovv k l c d * T2old c b k l * T2old d a i j)  -- L142
  let T2 := fun (a : V) (b : V) (i : O) (j : O) => T2 a b i j - fac * (1/2) * (∑ k : O, ∑ l : O, ∑ c : V, ∑ d : V, I.oovv k l c d * T2old c d k i * T2old a b l j)  -- L144
  let T2 := fun (a : V) (b : V) (i : O) (j : O) => T2 a b i j + fac * (1/2) * (∑ k : O, ∑ l : O, ∑ c : V, ∑ d : V, I.oovv k l c d * T2old c d k j * T2old a b l i)  -- L145
  T2

/-- `_D_DD_ladder`, cc_equations.py:148-150. Mutates `T2`; the model returns the new value. -/
def D_DD_ladder (T2 : V → V → O → O → K) (I : TwoE O V K) (T2old : V → V → O → O → K) (fac : K) :
    V → V → O → O → K :=
  let T2 := fun (a : V) (b : V) (i : O) (j : O) => T2 a b i j + fac * (1/4) * (∑ k : O, ∑ l : O, ∑ c : V, ∑ d : V, I.oovv k l c d * T2old c d i j * T2old a b k l)  -- L150
  T2

/-- `_D_DD_ring`, cc_equations.py:153-155. Mutates `T2`; the model returns the new value. -/
def D_DD_ring (T2 : V → V → O → O → K) (I : TwoE O V K) (T2old : V → V → O → O → K) (fac : K) :
    V → V → O → O → K :=
  let T2 := fun (a : V) (b : V) (i : O) (j : O) => T2 a b i j + fac * (∑ k : O, ∑ l : O, ∑ c : V, ∑ d : V, I.oovv k l c d * T2old a c i k * T2old d b l j)  -- L155
  T2

/-- `_D_SSS`, cc_equations.py:158-164. Mutates `T2`; the model returns the new value. -/
def D_SSS (T2 : V → V → O → O → K) (F : OneE O V K) (I : TwoE O V K) (T1old : V → O → K) (fac : K) :
    V → V → O → O → K :=
  let T2 := fun (a : V) (b : V) (i : O) (j : O) => T2 a b i j + fac * (∑ k : O, ∑ c : V, ∑ d : V, I.vovv b k c d * T1old c i * T1old a k * T1old d j)  -- L160
  let T2 := fun (a : V) (b : V) (i : O) (j : O) => T2 a b i j - fac * (∑ k : O, ∑ c : V, ∑ d : V, I.vovv a k c d * T1old c i * T1old b k * T1old d j)  -- L161
  let T2 := fun (a : V) (b : V) (i : O) (j : O) => T2 a b i j - fac * (∑ k : O, ∑ l : O, ∑ c : V, I.ooov k l j c * T1old c i * T1old a k * T1old b l)  -- L163
  let T2 := fun (a : V) (b : V) (i : O) (j : O) => T2 a b i j + fac * (∑ k : O, ∑ l : O, ∑ c : V, I.ooov k l i c * T1old c j * T1old a k * T1old b l)  -- L164
  T2

/-- `_D_SSD`, cc_equations.py:167-184. Mutates `T2`; the model returns the new value. -/
def D_SSD (T2 : V → V → O → O → K) (F : OneE O V K) (I : TwoE O V K) (T1old : V → O → K) (T2old : V → V → O → O → K) (fac : K) :
    V → V → O → O → K :=
  let T2 := fun (a : V) (b : V) (i : O) (j : O) => T2 a b i j + fac * (1/4) * (∑ k : O, ∑ l : O, ∑ c : V, ∑ d : V, I.oovv k l c d * T1old c i * T1old d j * T2old a b k l)  -- L169
  let T2 := fun (a : V) (b : V) (i : O) (j : O) => T2 a b i j - fac * (1/4) * (∑ k : O, ∑ l : O, ∑ c : V, ∑ d : V, I.oovv k l c d * T1old c j * T1old d i * T2old a b k l)  -- L170
  let T2 := fun (a : V) (b : V) (i : O) (j : O) => T2 a b i j + fac * (1/4) * (∑ k : O, ∑ l : O, ∑ c : V, ∑ d : V, I.oovv k l c d * T1old a k * T1old b l * T2old c d i j)  -- L172
  let T2 := fun (a : V) (b : V) (i : O) (j : O) => T2 a b i j - fac * (1/4) * (∑ k : O, ∑ l : O, ∑ c : V, ∑ d : V, I.oovv k l c d * T1old b k * T1old a l * T2old c d i j)  -- L173
  let T2 := fun (a : V) (b : V) (i : O) (j : O) => T2 a b i j - fac * (∑ k : O, ∑ l : O, ∑ c : V, ∑ d : V, I.oovv k l c d * T1old c i * T1old a k * T2old d b l j)  -- L175
  let T2 := fun (a : V) (b : V) (i : O) (j : O) => T2 a b i j + fac * (∑ k : O, ∑ l : O, ∑ c : V, ∑ d : V, I.oovv k l c d * T1old c i * T1old b k * T2old d a l j)  -- L176
  let T2 := fun (a : V) (b : V) (i : O) (j : O) => T2 a b i j + fac * (∑ k : O, ∑ l : O, ∑ c : V, ∑ d : V, I.oovv k l c d * T1old c j * T1old a k * T2old d b l i)  -- L177
  let T2 := fun (a : V) (b : V) (i : O) (j : O) => T2 a b i j - fac * (∑ k : O, ∑ l : O, ∑ c : V, ∑ d : V, I.oovv k l c d * T1old c j * T1old b k * T2old d a l i)  -- L178
  let T2 := fun (a : V) (b : V) (i : O) (j : O) => T2 a b i j - fac * (∑ k : O, ∑ l : O, ∑ c : V, ∑ d : V, I.oovv k l c d * T1old c k * T1old d i * T2old a b l j)  -- L180
  let T2 := fun (a : V) (b : V) (i : O) (j : O) => T2 a b i j + fac * (∑ k : O, ∑ l : O, ∑ c : V, ∑ d : V, I.oovv k l c d * T1old c k * T1old d j * T2old a b l i)  -- L181
  let T2 := fun (a : V) (b : V) (i : O) (j : O) => T2 a b i j - fac * (∑ k : O, ∑ l : O, ∑ c : V, ∑ d : V, I.oovv k l c d * T1old c k * T1old a l * T2old d b i j)  -- L183
  let T2 := fun (a : V) (b : V) (i : O) (j : O) => T2 a b i j + fac * (∑ k : O, ∑ l : O, ∑ c : V, ∑ d : V, I.oovv k l c d * T1old c k * T1old b l * T2old d a i j)  -- L184
  T2

/-- `_D_SSSS`, cc_equations.py:187-189. Mutates `T2`; the model returns the new value. -/
def D_SSSS (T2 : V → V → O → O → K) (F : OneE O V K) (I : TwoE O V K) (T1old : V → O → K) (fac : K) :
    V → V → O → O → K :=
  let T2 := fun (a : V) (b : V) (i : O) (j : O) => T2 a b i j + fac * (∑ k : O, ∑ l : O, ∑ c : V, ∑ d : V, I.oovv k l c d * T1old c i * T1old a k * T1old b l * T1old d j)  -- L188
  T2

/-- `_Stanton`, cc_equations.py:192-262. Mutates `T1`, `T2`; the model returns the new values. -/
def Stanton (T1 : V → O → K) (T2 : V → V → O → O → K) (F : OneE O V K) (I : TwoE O V K) (T1old : V → O → K) (T2old : V → V → O → O → K) (fac : K) :
    (V → O → K) × (V → V → O → O → K) :=
  let T2A := T2old  -- L193
  let T2A := fun (a : V) (b : V) (i : O) (j : O) => T2A a b i j + (1/2) * (T1old a i * T1old b j)  -- L194
  let T2A := fun (a : V) (b : V) (i : O) (j : O) => T2A a b i j - (1/2) * (T1old b i * T1old a j)  -- L195
  let Fvv := F.vv  -- L197
  let Fvv := fun (a : V) (b : V) => Fvv a b - (1/2) * (∑ j : O, F.ov j b * T1old a j)  -- L198
  let Fvv := fun (a : V) (b : V) => Fvv a b - (∑ j : O, ∑ c : V, I.vovv a j c b * T1old c j)  -- L199
  let Fvv := fun (a : V) (b : V) => Fvv a b - (1/2) * (∑ j : O, ∑ k : O, ∑ c : V, I.oovv j k b c * T2A a c j k)  -- L200
  let Foo := F.oo  -- L202
  let Foo := fun (j : O) (i : O) => Foo j i + (1/2) * (∑ b : V, F.ov j b * T1old b i)  -- L203
  let Foo := fun (j : O) (i : O) => Foo j i + (∑ k : O, ∑ b : V, I.ooov j k i b * T1old b k)  -- L204
  let Foo := fun (j : O) (i : O) => Foo j i + (1/2) * (∑ k : O, ∑ b : V, ∑ c : V, I.oovv j k b c * T2A b c i k)  -- L205
  let Fov := F.ov  -- L208
  let Fov := fun (j : O) (b : V) => Fov j b + (∑ k : O, ∑ c : V, I.oovv j k b c * T1old c k)  -- L209
  let T1 := fun (a : V) (i : O) => T1 a i + fac * (∑ b : V, Fvv a b * T1old b i)  -- L211
  let T1 := fun (a : V) (i : O) => T1 a i - fac * (∑ j : O, Foo j i * T1old a j)  -- L212
  let T1 := fun (a : V) (i : O) => T1 a i + fac * (∑ j : O, ∑ b : V, Fov j b * T2old a b i j)  -- L213
  let T1 := fun (a : V) (i : O) => T1 a i - fac * (∑ j : O, ∑ b : V, I.vovo a j b i * T1old b j)  -- L214
  let T1 := fun (a : V) (i : O) => T1 a i + fac * (1/2) * (∑ j : O, ∑ b : V, ∑ c : V, I.vovv a j b c * T2old b c i j)  -- L215
  let T1 := fun (a : V) (i : O) => T1 a i - fac * (1/2) * (∑ j : O, ∑ k : O, ∑ b : V, I.ooov j k i b * T2old a b j k)  -- L216
  let T2B := T2old  -- L218
  let T2B := fun (a : V) (b : V) (i : O) (j : O) => T2B a b i j + T1old a i * T1old b j  -- L219
  let T2B := fun (a : V) (b : V) (i : O) (j : O) => T2B a b i j - T1old b i * T1old a j  -- L220
  let Woooo := I.oooo  -- L222
  let Woooo := fun (k : O) (l : O) (i : O) (j : O) => Woooo k l i j + (∑ c : V, I.ooov k l i c * T1old c j)  -- L223
  let Woooo := fun (k : O) (l : O) (i : O) (j : O) => Woooo k l i j - (∑ c : V, I.ooov k l j c * T1old c i)  -- L224
  let Woooo := fun (k : O) (l : O) (i : O) (j : O) => Woooo k l i j + (1/4) * (∑ c : V, ∑ d : V, I.oovv k l c d * T2B c d i j)  -- L225
  let T2 := fun (a : V) (b : V) (i : O) (j : O) => T2 a b i j + fac * (1/2) * (∑ k : O, ∑ l : O, Woooo k l i j * T2B a b k l)  -- L226
  let Wvvvv := I.vvvv  -- L229
  let Wvvvv := fun (a : V) (b : V) (c : V) (d : V) => Wvvvv a b c d - (∑ k : O, I.vovv a k c d * T1old b k)  -- L230
  let Wvvvv := fun (a : V) (b : V) (c : V) (d : V) => Wvvvv a b c d + (∑ k : O, I.vovv b k c d * T1old a k)  -- L231
  let Wvvvv := fun (a : V) (b : V) (c : V) (d : V) => Wvvvv a b c d + (1/4) * (∑ k : O, ∑ l : O, I.oovv k l c d * T2B a b k l)  -- L232
  let T2 := fun (a : V) (b : V) (i : O) (j : O) => T2 a b i j + fac * (1/2) * (∑ c : V, ∑ d : V, Wvvvv a b c d * T2B c d i j)  -- L233
  let Wovvo := fun (i : O) (a : V) (b : V) (j : O) => -I.vovo a i b j  -- L237
  let Wovvo := fun (k : O) (b : V) (c : V) (j : O) => Wovvo k b c j - (∑ d : V, I.vovv b k c d * T1old d j)  -- L238
  let Wovvo := fun (k : O) (b : V) (c : V) (j : O) => Wovvo k b c j + (∑ l : O, I.ooov k l j c * T1old b l)  -- L239
  let temp := fun (d : V) (b : V) (j : O) (l : O) => (1/2) * T2old d b j l + T1old d j * T1old b l  -- L240
  let Wovvo := fun (k : O) (b : V) (c : V) (j : O) => Wovvo k b c j - (∑ l : O, ∑ d : V, I.oovv k l c d * temp d b j l)  -- L241
  let temp := fun (a : V) (b : V) (i : O) (j : O) => ∑ k : O, ∑ c : V, Wovvo k b c j * T2old a c i k  -- L242
  let temp := fun (a : V) (b : V) (i : O) (j : O) => temp a b i j + (∑ k : O, ∑ c : V, I.vovo b k c j * T1old c i * T1old a k)  -- L243
  let T2 := fun (a : V) (b : V) (i : O) (j : O) => T2 a b i j + fac * temp a b i j  -- L244
  let T2 := fun (a : V) (b : V) (i : O) (j : O) => T2 a b i j - fac * temp a b j i  -- L245
  let T2 := fun (a : V) (b : V) (i : O) (j : O) => T2 a b i j - fac * temp b a i j  -- L246
  let T2 := fun (a : V) (b : V) (i : O) (j : O) => T2 a b i j + fac * temp b a j i  -- L247
  let Ftemp := fun (a : V) (b : V) => Fvv a b - (1/2) * (∑ j : O, Fov j b * T1old a j)  -- L251
  let temp_ab := fun (a : V) (b : V) (i : O) (j : O) => ∑ c : V, Ftemp b c * T2old a c i j  -- L252
  let temp_ab := fun (a : V) (b : V) (i : O) (j : O) => temp_ab a b i j + (∑ k : O, I.vooo b k i j * T1old a k)  -- L253
  let T2 := fun (a : V) (b : V) (i : O) (j : O) => T2 a b i j + fac * temp_ab a b i j  -- L254
  let T2 := fun (a : V) (b : V) (i : O) (j : O) => T2 a b i j - fac * temp_ab b a i j  -- L255
  let Ftemp := fun (j : O) (i : O) => Foo j i + (1/2) * (∑ b : V, Fov j b * T1old b i)  -- L258
  let temp_ij := fun (a : V) (b : V) (i : O) (j : O) => -(∑ k : O, Ftemp k j * T2old a b i k)  -- L259
  let temp_ij := fun (a : V) (b : V) (i : O) (j : O) => temp_ij a b i j + (∑ c : V, I.vvvo a b c j * T1old c i)  -- L260
  let T2 := fun (a : V) (b : V) (i : O) (j : O) => T2 a b i j + fac * temp_ij a b i j  -- L261
  let T2 := fun (a : V) (b : V) (i : O) (j : O) => T2 a b i j - fac * temp_ij a b j i  -- L262
  (T1, T2)

/-- `_Stanton_ccd`, cc_equations.py:265-299. Mutates `T2`; the model returns the new value. -/
def Stanton_ccd (T2 : V → V → O → O → K) (F : OneE O V K) (I : TwoE O V K) (T2old : V → V → O → O → K) (fac : K) :
    V → V → O → O → K :=
  let Fvv := F.vv  -- L266
  let Fvv := fun (a : V) (b : V) => Fvv a b - (1/2) * (∑ j : O, ∑ k : O, ∑ c : V, I.oovv j k b c * T2old a c j k)  -- L267
  let Foo := F.oo  -- L269
  let Foo := fun (j : O) (i : O) => Foo j i + (1/2) * (∑ k : O, ∑ b : V, ∑ c : V, I.oovv j k b c * T2old b c i k)  -- L270
  let Woooo := I.oooo  -- L272
  let Woooo := fun (k : O) (l : O) (i : O) (j : O) => Woooo k l i j + (1/4) * (∑ c : V, ∑ d : V, I.oovv k l c d * T2old c d i j)  -- L273
  let T2 := fun (a : V) (b : V) (i : O) (j : O) => T2 a b i j + fac * (1/2) * (∑ k : O, ∑ l : O, Woooo k l i j * T2old a b k l)  -- L274
  let Wvvvv := I.vvvv  -- L277
  let Wvvvv := fun (a : V) (b : V) (c : V) (d : V) => Wvvvv a b c d + (1/4) * (∑ k : O, ∑ l : O, I.oovv k l c d * T2old a b k l)  -- L278
  let T2 := fun (a : V) (b : V) (i : O) (j : O) => T2 a b i j + fac * (1/2) * (∑ c : V, ∑ d : V, Wvvvv a b c d * T2old c d i j)  -- L279
  let Wovvo := fun (i : O) (a : V) (b : V) (j : O) => -I.vovo a i b j  -- L282
  let Wovvo := fun (k : O) (b : V) (c : V) (j : O) => Wovvo k b c j - (1/2) * (∑ l : O, ∑ d : V, I.oovv k l c d * T2old d b j l)  -- L283
  let temp := fun (a : V) (b : V) (i : O) (j : O) => ∑ k : O, ∑ c : V, Wovvo k b c j * T2old a c i k  -- L284
  let T2 := fun (a : V) (b : V) (i : O) (j : O) => T2 a b i j + fac * temp a b i j  -- L285
  let T2 := fun (a : V) (b : V) (i : O) (j : O) => T2 a b i j - fac * temp a b j i  -- L286
  let T2 := fun (a : V) (b : V) (i : O) (j : O) => T2 a b i j - fac * temp b a i j  -- L287
  let T2 := fun (a : V) (b : V) (i : O) (j : O) => T2 a b i j + fac * temp b a j i  -- L288
  let temp_ab := fun (a : V) (b : V) (i : O) (j : O) => ∑ c : V, Fvv b c * T2old a c i j  -- L292
  let T2 := fun (a : V) (b : V) (i : O) (j : O) => T2 a b i j + fac * temp_ab a b i j  -- L293
  let T2 := fun (a : V) (b : V) (i : O) (j : O) => T2 a b i j - fac * temp_ab b a i j  -- L294
  let temp_ij := fun (a : V) (b : V) (i : O) (j : O) => -(∑ k : O, Foo k j * T2old a b i k)  -- L297
  let T2 := fun (a : V) (b : V) (i : O) (j : O) => T2 a b i j + fac * temp_ij a b i j  -- L298
  let T2 := fun (a : V) (b : V) (i : O) (j : O) => T2 a b i j - fac * temp_ij a b j i  -- L299
  T2

/-- `lccd_simple`, cc_equations.py:655-661. -/
def lccd_simple (F : OneE O V K) (I : TwoE O V K) (T2old : V → V → O → O → K) :
    V → V → O → O → K :=
  let T2 := I.vvoo  -- L657
  let T2 := D_D T2 F I T2old 1  -- L659
  T2

/-- `lccsd_simple`, cc_equations.py:664-676. -/
def lccsd_simple (F : OneE O V K) (I : TwoE O V K) (T1old : V → O → K) (T2old : V → V → O → O → K) :
    (V → O → K) × (V → V → O → O → K) :=
  let T1 := F.vo  -- L666
  let T1 := S_S T1 F I T1old 1  -- L668
  let T1 := S_D T1 F I T2old 1  -- L669
  let T2 := I.vvoo  -- L671
  let T2 := D_S T2 F I T1old 1  -- L673
  let T2 := D_D T2 F I T2old 1  -- L674
  (T1, T2)

/-- `ccd_simple`, cc_equations.py:679-686. -/
def ccd_simple (F : OneE O V K) (I : TwoE O V K) (T2old : V → V → O → O → K) :
    V → V → O → O → K :=
  let T2 := I.vvoo  -- L681
  let T2 := D_D T2 F I T2old 1  -- L683
  let T2 := D_DD T2 F I T2old 1  -- L684
  T2

/-- `ccd_ladder_simple`, cc_equations.py:689-696. -/
def ccd_ladder_simple (I : TwoE O V K) (T2old : V → V → O → O → K) :
    V → V → O → O → K :=
  let T2 := I.vvoo  -- L691
  let T2 := D_D_ladder T2 I T2old 1  -- L693
  let T2 := D_DD_ladder T2 I T2old 1  -- L694
  T2

/-- `ccd_ring_simple`, cc_equations.py:699-706. -/
def ccd_ring_simple (I : TwoE O V K) (T2old : V → V → O → O → K) :
    V → V → O → O → K :=
  let T2 := I.vvoo  -- L701
  let T2 := D_D_ring T2 I T2old 1  -- L703
  let T2 := D_DD_ring T2 I T2old 1  -- L704
  T2

/-- `ccsd_simple`, cc_equations.py:709-730. -/
def ccsd_simple (F : OneE O V K) (I : TwoE O V K) (T1old : V → O → K) (T2old : V → V → O → O → K) :
    (V → O → K) × (V → V → O → O → K) :=
  let T1 := F.vo  -- L711
  let T1 := S_S T1 F I T1old 1  -- L713
  let T1 := S_D T1 F I T2old 1  -- L714
  let T1 := S_SS T1 F I T1old 1  -- L715
  let T1 := S_SD T1 F I T1old T2old 1  -- L716
  let T1 := S_SSS T1 F I T1old 1  -- L717
  let T2 := I.vvoo  -- L719
  let T2 := D_S T2 F I T1old 1  -- L721
  let T2 := D_D T2 F I T2old 1  -- L722
  let T2 := D_SS T2 F I T1old 1  -- L723
  let T2 := D_SD T2 F I T1old T2old 1  -- L724
  let T2 := D_DD T2 F I T2old 1  -- L725
  let T2 := D_SSS T2 F I T1old 1  -- L726
  let T2 := D_SSD T2 F I T1old T2old 1  -- L727
  let T2 := D_SSSS T2 F I T1old 1  -- L728
  (T1, T2)

/-- `ccsd_stanton`, cc_equations.py:733-742. -/
def ccsd_stanton (F : OneE O V K) (I : TwoE O V K) (T1old : V → O → K) (T2old : V → V → O → O → K) :
    (V → O → K) × (V → V → O → O → K) :=
  let T1 := F.vo  -- L737
  let T2 := I.vvoo  -- L738
  let r := Stanton T1 T2 F I T1old T2old 1  -- L740
  let T1 := r.1
  let T2 := r.2
  (T1, T2)

/-- `ccd_stanton`, cc_equations.py:767-775. -/
def ccd_stanton (F : OneE O V K) (I : TwoE O V K) (T2old : V → V → O → O → K) :
    V → V → O → O → K :=
  let T2 := I.vvoo  -- L771
  let T2 := Stanton_ccd T2 F I T2old 1  -- L773
  T2

end CC
