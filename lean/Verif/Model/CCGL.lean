/-
GENERATED by tools/gen_cc.py from cqcpy/cc_equations.py (pure text translation); do not edit.
Generalized Lambda equations.
Every definition cites the python function it mirrors; each `let` carries the source line
of the statement it translates.  Arithmetic is that of an arbitrary field of characteristic
zero (floating point rounding and dtypes are abstracted).
-/
import Verif.Model.Blocks

set_option linter.unusedVariables false
set_option maxRecDepth 4000

namespace CC

open Finset

variable {K : Type} [Field K]
variable {O V Oa Va Ob Vb : Type} [Fintype O] [Fintype V] [Fintype Oa] [Fintype Va]
  [Fintype Ob] [Fintype Vb]

/-- `_LS_TS`, cc_equations.py:778-779. Mutates `L1`; the model returns the new value. -/
def LS_TS (L1 : O → V → K) (I : TwoE O V K) (T1old : V → O → K) (fac : K) :
    O → V → K :=
  let L1 := fun (i : O) (a : V) => L1 i a + fac * (∑ j : O, ∑ b : V, I.oovv j i b a * T1old b j)  -- L779
  L1

/-- `_LS_LS`, cc_equations.py:795-801. Mutates `L1`; the model returns the new value. -/
def LS_LS (L1 : O → V → K) (F : OneE O V K) (I : TwoE O V K) (L1old : O → V → K) (fac : K) :
    O → V → K :=
  let L1 := fun (i : O) (a : V) => L1 i a + fac * (∑ b : V, L1old i b * F.vv b a)  -- L797
  let L1 := fun (i : O) (a : V) => L1 i a - fac * (∑ j : O, L1old j a * F.oo i j)  -- L799
  let L1 := fun (i : O) (a : V) => L1 i a - fac * (∑ j : O, ∑ b : V, L1old j b * I.vovo b i a j)  -- L801
  L1

/-- `_LS_LSTS`, cc_equations.py:804-816. Mutates `L1`; the model returns the new value. -/
def LS_LSTS (L1 : O → V → K) (F : OneE O V K) (I : TwoE O V K) (L1old : O → V → K) (T1old : V → O → K) (fac : K) :
    O → V → K :=
  let L1 := fun (i : O) (a : V) => L1 i a - fac * (∑ j : O, ∑ b : V, L1old j a * F.ov i b * T1old b j)  -- L806
  let L1 := fun (i : O) (a : V) => L1 i a - fac * (∑ b : V, ∑ j : O, L1old i b * F.ov j a * T1old b j)  -- L808
  let L1 := fun (i : O) (a : V) => L1 i a + fac * (∑ c : V, ∑ j : O, ∑ b : V, L1old i c * I.vovv c j a b * T1old b j)  -- L810
  let L1 := fun (i : O) (a : V) => L1 i a - fac * (∑ k : O, ∑ j : O, ∑ b : V, L1old k a * I.ooov i j k b * T1old b j)  -- L812
  let L1 := fun (i : O) (a : V) => L1 i a + fac * (∑ j : O, ∑ c : V, ∑ b : V, L1old j c * I.vovv c i b a * T1old b j)  -- L814
  let L1 := fun (i : O) (a : V) => L1 i a - fac * (∑ k : O, ∑ b : V, ∑ j : O, L1old k b * I.ooov j i k a * T1old b j)  -- L816
  L1

/-- `_LS_LSTD`, cc_equations.py:819-825. Mutates `L1`; the model returns the new value. -/
def LS_LSTD (L1 : O → V → K) (I : TwoE O V K) (L1old : O → V → K) (T2old : V → V → O → O → K) (fac : K) :
    O → V → K :=
  let L1 := fun (i : O) (a : V) => L1 i a - (1/2) * fac * (∑ j : O, ∑ k : O, ∑ b : V, ∑ c : V, L1old j a * I.oovv i k b c * T2old b c j k)  -- L821
  let L1 := fun (i : O) (a : V) => L1 i a - (1/2) * fac * (∑ b : V, ∑ j : O, ∑ k : O, ∑ c : V, L1old i b * I.oovv j k a c * T2old b c j k)  -- L823
  let L1 := fun (i : O) (a : V) => L1 i a + fac * (∑ j : O, ∑ b : V, ∑ k : O, ∑ c : V, L1old j b * I.oovv k i c a * T2old b c j k)  -- L825
  L1

/-- `_LS_LSTSS`, cc_equations.py:828-834. Mutates `L1`; the model returns the new value. -/
def LS_LSTSS (L1 : O → V → K) (I : TwoE O V K) (L1old : O → V → K) (T1old : V → O → K) (fac : K) :
    O → V → K :=
  let L1 := fun (i : O) (a : V) => L1 i a - fac * (∑ j : O, ∑ k : O, ∑ b : V, ∑ c : V, L1old j a * I.oovv i k b c * T1old b j * T1old c k)  -- L830
  let L1 := fun (i : O) (a : V) => L1 i a - fac * (∑ b : V, ∑ j : O, ∑ k : O, ∑ c : V, L1old i b * I.oovv j k a c * T1old b j * T1old c k)  -- L832
  let L1 := fun (i : O) (a : V) => L1 i a - fac * (∑ j : O, ∑ c : V, ∑ k : O, ∑ b : V, L1old j c * I.oovv k i b a * T1old b j * T1old c k)  -- L834
  L1

/-- `_LS_LD`, cc_equations.py:837-841. Mutates `L1`; the model returns the new value. -/
def LS_LD (L1 : O → V → K) (F : OneE O V K) (I : TwoE O V K) (L2old : O → O → V → V → K) (fac : K) :
    O → V → K :=
  let L1 := fun (i : O) (a : V) => L1 i a + (1/2) * fac * (∑ j : O, ∑ c : V, ∑ b : V, L2old i j c b * I.vvvo c b a j)  -- L839
  let L1 := fun (i : O) (a : V) => L1 i a + (1/2) * fac * (∑ k : O, ∑ j : O, ∑ b : V, L2old k j a b * I.vooo b i k j)  -- L841
  L1

/-- `_LS_LDTS`, cc_equations.py:844-852. Mutates `L1`; the model returns the new value. -/
def LS_LDTS (L1 : O → V → K) (F : OneE O V K) (I : TwoE O V K) (L2old : O → O → V → V → K) (T1old : V → O → K) (fac : K) :
    O → V → K :=
  let L1 := fun (i : O) (a : V) => L1 i a + fac * (∑ j : O, ∑ k : O, ∑ c : V, ∑ b : V, L2old j k a c * I.vovo c i b k * T1old b j)  -- L846
  let L1 := fun (i : O) (a : V) => L1 i a + fac * (∑ k : O, ∑ b : V, ∑ c : V, ∑ j : O, L2old i k b c * I.vovo c j a k * T1old b j)  -- L848
  let L1 := fun (i : O) (a : V) => L1 i a + (1/2) * fac * (∑ j : O, ∑ c : V, ∑ d : V, ∑ b : V, L2old i j c d * I.vvvv c d a b * T1old b j)  -- L850
  let L1 := fun (i : O) (a : V) => L1 i a + (1/2) * fac * (∑ k : O, ∑ l : O, ∑ b : V, ∑ j : O, L2old k l a b * I.oooo i j k l * T1old b j)  -- L852
  L1

/-- `_LS_LDTD`, cc_equations.py:855-871. Mutates `L1`; the model returns the new value. -/
def LS_LDTD (L1 : O → V → K) (F : OneE O V K) (I : TwoE O V K) (L2old : O → O → V → V → K) (T2old : V → V → O → O → K) (fac : K) :
    O → V → K :=
  let L1 := fun (i : O) (a : V) => L1 i a - (1/2) * fac * (∑ j : O, ∑ k : O, ∑ b : V, ∑ c : V, L2old j k b a * F.ov i c * T2old b c j k)  -- L857
  let L1 := fun (i : O) (a : V) => L1 i a - (1/2) * fac * (∑ j : O, ∑ b : V, ∑ c : V, ∑ k : O, L2old j i b c * F.ov k a * T2old b c j k)  -- L859
  let L1 := fun (i : O) (a : V) => L1 i a + (1/2) * fac * (∑ j : O, ∑ k : O, ∑ b : V, ∑ d : V, ∑ c : V, L2old j k b d * I.vovv d i c a * T2old b c j k)  -- L861
  let L1 := fun (i : O) (a : V) => L1 i a - (1/2) * fac * (∑ j : O, ∑ l : O, ∑ b : V, ∑ c : V, ∑ k : O, L2old j l b c * I.ooov k i l a * T2old b c j k)  -- L863
  let L1 := fun (i : O) (a : V) => L1 i a - fac * (∑ j : O, ∑ b : V, ∑ d : V, ∑ k : O, ∑ c : V, L2old j i b d * I.vovv d k c a * T2old b c j k)  -- L865
  let L1 := fun (i : O) (a : V) => L1 i a + fac * (∑ j : O, ∑ l : O, ∑ b : V, ∑ k : O, ∑ c : V, L2old j l b a * I.ooov k i l c * T2old b c j k)  -- L867
  let L1 := fun (i : O) (a : V) => L1 i a + (1/4) * fac * (∑ j : O, ∑ k : O, ∑ d : V, ∑ b : V, ∑ c : V, L2old j k a d * I.vovv d i b c * T2old b c j k)  -- L869
  let L1 := fun (i : O) (a : V) => L1 i a - (1/4) * fac * (∑ l : O, ∑ b : V, ∑ c : V, ∑ j : O, ∑ k : O, L2old i l b c * I.ooov j k l a * T2old b c j k)  -- L871
  L1

/-- `_LS_LDTSS`, cc_equations.py:874-882. Mutates `L1`; the model returns the new value. -/
def LS_LDTSS (L1 : O → V → K) (F : OneE O V K) (I : TwoE O V K) (L2old : O → O → V → V → K) (T1old : V → O → K) (fac : K) :
    O → V → K :=
  let L1 := fun (i : O) (a : V) => L1 i a - fac * (∑ k : O, ∑ d : V, ∑ b : V, ∑ j : O, ∑ c : V, L2old i k d b * I.vovv d j a c * T1old b j * T1old c k)  -- L876
  let L1 := fun (i : O) (a : V) => L1 i a + fac * (∑ l : O, ∑ k : O, ∑ b : V, ∑ j : O, ∑ c : V, L2old l k a b * I.ooov i j l c * T1old b j * T1old c k)  -- L878
  let L1 := fun (i : O) (a : V) => L1 i a + (1/2) * fac * (∑ j : O, ∑ k : O, ∑ d : V, ∑ b : V, ∑ c : V, L2old j k a d * I.vovv d i b c * T1old b j * T1old c k)  -- L880
  let L1 := fun (i : O) (a : V) => L1 i a - (1/2) * fac * (∑ l : O, ∑ b : V, ∑ c : V, ∑ j : O, ∑ k : O, L2old i l b c * I.ooov j k l a * T1old b j * T1old c k)  -- L882
  L1

/-- `_LS_LDTSD`, cc_equations.py:885-901. Mutates `L1`; the model returns the new value. -/
def LS_LDTSD (L1 : O → V → K) (I : TwoE O V K) (L2old : O → O → V → V → K) (T1old : V → O → K) (T2old : V → V → O → O → K) (fac : K) :
    O → V → K :=
  let L1 := fun (i : O) (a : V) => L1 i a - (1/2) * fac * (∑ k : O, ∑ l : O, ∑ c : V, ∑ j : O, ∑ d : V, ∑ b : V, L2old k l c a * I.oovv i j d b * T1old b j * T2old c d k l)  -- L887
  let L1 := fun (i : O) (a : V) => L1 i a - (1/2) * fac * (∑ k : O, ∑ c : V, ∑ d : V, ∑ l : O, ∑ j : O, ∑ b : V, L2old k i c d * I.oovv l j a b * T1old b j * T2old c d k l)  -- L889
  let L1 := fun (i : O) (a : V) => L1 i a - fac * (∑ j : O, ∑ l : O, ∑ d : V, ∑ k : O, ∑ b : V, ∑ c : V, L2old j l a d * I.oovv i k b c * T1old b j * T2old c d k l)  -- L891
  let L1 := fun (i : O) (a : V) => L1 i a - fac * (∑ l : O, ∑ b : V, ∑ d : V, ∑ j : O, ∑ k : O, ∑ c : V, L2old i l b d * I.oovv j k a c * T1old b j * T2old c d k l)  -- L893
  let L1 := fun (i : O) (a : V) => L1 i a + (1/4) * fac * (∑ k : O, ∑ l : O, ∑ b : V, ∑ j : O, ∑ c : V, ∑ d : V, L2old k l a b * I.oovv i j c d * T1old b j * T2old c d k l)  -- L895
  let L1 := fun (i : O) (a : V) => L1 i a + (1/4) * fac * (∑ j : O, ∑ c : V, ∑ d : V, ∑ k : O, ∑ l : O, ∑ b : V, L2old i j c d * I.oovv k l a b * T1old b j * T2old c d k l)  -- L897
  let L1 := fun (i : O) (a : V) => L1 i a - (1/2) * fac * (∑ k : O, ∑ l : O, ∑ c : V, ∑ b : V, ∑ j : O, ∑ d : V, L2old k l c b * I.oovv j i d a * T1old b j * T2old c d k l)  -- L899
  let L1 := fun (i : O) (a : V) => L1 i a - (1/2) * fac * (∑ k : O, ∑ j : O, ∑ c : V, ∑ d : V, ∑ l : O, ∑ b : V, L2old k j c d * I.oovv l i b a * T1old b j * T2old c d k l)  -- L901
  L1

/-- `_LS_LDTSSS`, cc_equations.py:904-910. Mutates `L1`; the model returns the new value. -/
def LS_LDTSSS (L1 : O → V → K) (I : TwoE O V K) (L2old : O → O → V → V → K) (T1old : V → O → K) (fac : K) :
    O → V → K :=
  let L1 := fun (i : O) (a : V) => L1 i a + (1/2) * fac * (∑ j : O, ∑ l : O, ∑ c : V, ∑ k : O, ∑ b : V, ∑ d : V, L2old j l a c * I.oovv i k b d * T1old c k * T1old d l * T1old b j)  -- L906
  let L1 := fun (i : O) (a : V) => L1 i a + (1/2) * fac * (∑ l : O, ∑ b : V, ∑ c : V, ∑ j : O, ∑ k : O, ∑ d : V, L2old i l b c * I.oovv j k a d * T1old c k * T1old d l * T1old b j)  -- L909
  L1

/-- `_LD_LS`, cc_equations.py:913-924. Mutates `L2`; the model returns the new value. -/
def LD_LS (L2 : O → O → V → V → K) (F : OneE O V K) (I : TwoE O V K) (L1old : O → V → K) (fac : K) :
    O → O → V → V → K :=
  let L2 := fun (i : O) (j : O) (a : V) (b : V) => L2 i j a b + fac * (F.ov j b * L1old i a)  -- L915
  let L2 := fun (i : O) (j : O) (a : V) (b : V) => L2 i j a b - fac * (F.ov i b * L1old j a)  -- L916
  let L2 := fun (i : O) (j : O) (a : V) (b : V) => L2 i j a b - fac * (F.ov j a * L1old i b)  -- L917
  let L2 := fun (i : O) (j : O) (a : V) (b : V) => L2 i j a b + fac * (F.ov i a * L1old j b)  -- L918
  let L2 := fun (i : O) (j : O) (a : V) (b : V) => L2 i j a b + fac * (∑ c : V, I.vovv c j a b * L1old i c)  -- L920
  let L2 := fun (i : O) (j : O) (a : V) (b : V) => L2 i j a b - fac * (∑ c : V, I.vovv c i a b * L1old j c)  -- L921
  let L2 := fun (i : O) (j : O) (a : V) (b : V) => L2 i j a b - fac * (∑ k : O, I.ooov i j k b * L1old k a)  -- L923
  let L2 := fun (i : O) (j : O) (a : V) (b : V) => L2 i j a b + fac * (∑ k : O, I.ooov i j k a * L1old k b)  -- L924
  L2

/-- `_LD_LSTS`, cc_equations.py:927-938. Mutates `L2`; the model returns the new value. -/
def LD_LSTS (L2 : O → O → V → V → K) (F : OneE O V K) (I : TwoE O V K) (L1old : O → V → K) (T1old : V → O → K) (fac : K) :
    O → O → V → V → K :=
  let L2 := fun (i : O) (j : O) (a : V) (b : V) => L2 i j a b + fac * (∑ k : O, ∑ c : V, L1old j b * I.oovv i k a c * T1old c k)  -- L929
  let L2 := fun (i : O) (j : O) (a : V) (b : V) => L2 i j a b - fac * (∑ k : O, ∑ c : V, L1old i b * I.oovv j k a c * T1old c k)  -- L930
  let L2 := fun (i : O) (j : O) (a : V) (b : V) => L2 i j a b - fac * (∑ k : O, ∑ c : V, L1old j a * I.oovv i k b c * T1old c k)  -- L931
  let L2 := fun (i : O) (j : O) (a : V) (b : V) => L2 i j a b + fac * (∑ k : O, ∑ c : V, L1old i a * I.oovv j k b c * T1old c k)  -- L932
  let L2 := fun (i : O) (j : O) (a : V) (b : V) => L2 i j a b - fac * (∑ c : V, ∑ k : O, L1old i c * I.oovv k j a b * T1old c k)  -- L934
  let L2 := fun (i : O) (j : O) (a : V) (b : V) => L2 i j a b + fac * (∑ c : V, ∑ k : O, L1old j c * I.oovv k i a b * T1old c k)  -- L935
  let L2 := fun (i : O) (j : O) (a : V) (b : V) => L2 i j a b - fac * (∑ k : O, ∑ c : V, L1old k a * I.oovv i j c b * T1old c k)  -- L937
  let L2 := fun (i : O) (j : O) (a : V) (b : V) => L2 i j a b + fac * (∑ k : O, ∑ c : V, L1old k b * I.oovv i j c a * T1old c k)  -- L938
  L2

/-- `_LD_LD`, cc_equations.py:941-956. Mutates `L2`; the model returns the new value. -/
def LD_LD (L2 : O → O → V → V → K) (F : OneE O V K) (I : TwoE O V K) (L2old : O → O → V → V → K) (fac : K) :
    O → O → V → V → K :=
  let L2 := fun (i : O) (j : O) (a : V) (b : V) => L2 i j a b + fac * (∑ c : V, F.vv c b * L2old i j a c)  -- L943
  let L2 := fun (i : O) (j : O) (a : V) (b : V) => L2 i j a b - fac * (∑ c : V, F.vv c a * L2old i j b c)  -- L944
  let L2 := fun (i : O) (j : O) (a : V) (b : V) => L2 i j a b - fac * (∑ k : O, F.oo j k * L2old i k a b)  -- L946
  let L2 := fun (i : O) (j : O) (a : V) (b : V) => L2 i j a b + fac * (∑ k : O, F.oo i k * L2old j k a b)  -- L947
  let L2 := fun (i : O) (j : O) (a : V) (b : V) => L2 i j a b + (1/2) * fac * (∑ c : V, ∑ d : V, I.vvvv c d a b * L2old i j c d)  -- L949
  let L2 := fun (i : O) (j : O) (a : V) (b : V) => L2 i j a b + (1/2) * fac * (∑ k : O, ∑ l : O, I.oooo i j k l * L2old k l a b)  -- L951
  let L2 := fun (i : O) (j : O) (a : V) (b : V) => L2 i j a b - fac * (∑ c : V, ∑ k : O, I.vovo c j b k * L2old i k a c)  -- L953
  let L2 := fun (i : O) (j : O) (a : V) (b : V) => L2 i j a b + fac * (∑ c : V, ∑ k : O, I.vovo c i b k * L2old j k a c)  -- L954
  let L2 := fun (i : O) (j : O) (a : V) (b : V) => L2 i j a b + fac * (∑ c : V, ∑ k : O, I.vovo c j a k * L2old i k b c)  -- L955
  let L2 := fun (i : O) (j : O) (a : V) (b : V) => L2 i j a b - fac * (∑ c : V, ∑ k : O, I.vovo c i a k * L2old j k b c)  -- L956
  L2

/-- `_LD_LD_ladder`, cc_equations.py:959-963. Mutates `L2`; the model returns the new value. -/
def LD_LD_ladder (L2 : O → O → V → V → K) (I : TwoE O V K) (L2old : O → O → V → V → K) (fac : K) :
    O → O → V → V → K :=
  let L2 := fun (i : O) (j : O) (a : V) (b : V) => L2 i j a b + (1/2) * fac * (∑ c : V, ∑ d : V, I.vvvv c d a b * L2old i j c d)  -- L961
  let L2 := fun (i : O) (j : O) (a : V) (b : V) => L2 i j a b + (1/2) * fac * (∑ k : O, ∑ l : O, I.oooo i j k l * L2old k l a b)  -- L963
  L2

/-- `_LD_LDTS`, cc_equations.py:966-992. Mutates `L2`; the model returns the new value. -/
def LD_LDTS (L2 : O → O → V → V → K) (F : OneE O V K) (I : TwoE O V K) (L2old : O → O → V → V → K) (T1old : V → O → K) (fac : K) :
    O → O → V → V → K :=
  let L2 := fun (i : O) (j : O) (a : V) (b : V) => L2 i j a b - fac * (∑ k : O, ∑ c : V, L2old i k a b * F.ov j c * T1old c k)  -- L968
  let L2 := fun (i : O) (j : O) (a : V) (b : V) => L2 i j a b + fac * (∑ k : O, ∑ c : V, L2old j k a b * F.ov i c * T1old c k)  -- L969
  let L2 := fun (i : O) (j : O) (a : V) (b : V) => L2 i j a b - fac * (∑ c : V, ∑ k : O, L2old i j a c * F.ov k b * T1old c k)  -- L971
  let L2 := fun (i : O) (j : O) (a : V) (b : V) => L2 i j a b + fac * (∑ c : V, ∑ k : O, L2old i j b c * F.ov k a * T1old c k)  -- L972
  let L2 := fun (i : O) (j : O) (a : V) (b : V) => L2 i j a b + fac * (∑ d : V, ∑ k : O, ∑ c : V, L2old i j a d * I.vovv d k b c * T1old c k)  -- L974
  let L2 := fun (i : O) (j : O) (a : V) (b : V) => L2 i j a b - fac * (∑ d : V, ∑ k : O, ∑ c : V, L2old i j b d * I.vovv d k a c * T1old c k)  -- L975
  let L2 := fun (i : O) (j : O) (a : V) (b : V) => L2 i j a b - fac * (∑ l : O, ∑ k : O, ∑ c : V, L2old i l a b * I.ooov j k l c * T1old c k)  -- L977
  let L2 := fun (i : O) (j : O) (a : V) (b : V) => L2 i j a b + fac * (∑ l : O, ∑ k : O, ∑ c : V, L2old j l a b * I.ooov i k l c * T1old c k)  -- L978
  let L2 := fun (i : O) (j : O) (a : V) (b : V) => L2 i j a b + fac * (∑ k : O, ∑ d : V, ∑ c : V, L2old i k a d * I.vovv d j c b * T1old c k)  -- L980
  let L2 := fun (i : O) (j : O) (a : V) (b : V) => L2 i j a b - fac * (∑ k : O, ∑ d : V, ∑ c : V, L2old j k a d * I.vovv d i c b * T1old c k)  -- L981
  let L2 := fun (i : O) (j : O) (a : V) (b : V) => L2 i j a b - fac * (∑ k : O, ∑ d : V, ∑ c : V, L2old i k b d * I.vovv d j c a * T1old c k)  -- L982
  let L2 := fun (i : O) (j : O) (a : V) (b : V) => L2 i j a b + fac * (∑ k : O, ∑ d : V, ∑ c : V, L2old j k b d * I.vovv d i c a * T1old c k)  -- L983
  let L2 := fun (i : O) (j : O) (a : V) (b : V) => L2 i j a b - fac * (∑ l : O, ∑ c : V, ∑ k : O, L2old i l a c * I.ooov k j l b * T1old c k)  -- L985
  let L2 := fun (i : O) (j : O) (a : V) (b : V) => L2 i j a b + fac * (∑ l : O, ∑ c : V, ∑ k : O, L2old j l a c * I.ooov k i l b * T1old c k)  -- L986
  let L2 := fun (i : O) (j : O) (a : V) (b : V) => L2 i j a b + fac * (∑ l : O, ∑ c : V, ∑ k : O, L2old i l b c * I.ooov k j l a * T1old c k)  -- L987
  let L2 := fun (i : O) (j : O) (a : V) (b : V) => L2 i j a b - fac * (∑ l : O, ∑ c : V, ∑ k : O, L2old j l b c * I.ooov k i l a * T1old c k)  -- L988
  let L2 := fun (i : O) (j : O) (a : V) (b : V) => L2 i j a b + fac * (∑ c : V, ∑ d : V, ∑ k : O, L2old i j c d * I.vovv d k a b * T1old c k)  -- L990
  let L2 := fun (i : O) (j : O) (a : V) (b : V) => L2 i j a b - fac * (∑ k : O, ∑ l : O, ∑ c : V, L2old k l a b * I.ooov i j l c * T1old c k)  -- L992
  L2

/-- `_LD_LDTD`, cc_equations.py:995-1016. Mutates `L2`; the model returns the new value. -/
def LD_LDTD (L2 : O → O → V → V → K) (I : TwoE O V K) (L2old : O → O → V → V → K) (T2old : V → V → O → O → K) (fac : K) :
    O → O → V → V → K :=
  let L2 := fun (i : O) (j : O) (a : V) (b : V) => L2 i j a b - (1/2) * fac * (∑ l : O, ∑ c : V, ∑ d : V, ∑ k : O, I.oovv j l c d * T2old c d k l * L2old i k a b)  -- L997
  let L2 := fun (i : O) (j : O) (a : V) (b : V) => L2 i j a b + (1/2) * fac * (∑ l : O, ∑ c : V, ∑ d : V, ∑ k : O, I.oovv i l c d * T2old c d k l * L2old j k a b)  -- L998
  let L2 := fun (i : O) (j : O) (a : V) (b : V) => L2 i j a b - (1/2) * fac * (∑ k : O, ∑ l : O, ∑ d : V, ∑ c : V, I.oovv k l b d * T2old c d k l * L2old i j a c)  -- L1000
  let L2 := fun (i : O) (j : O) (a : V) (b : V) => L2 i j a b + (1/2) * fac * (∑ k : O, ∑ l : O, ∑ d : V, ∑ c : V, I.oovv k l a d * T2old c d k l * L2old i j b c)  -- L1001
  let L2 := fun (i : O) (j : O) (a : V) (b : V) => L2 i j a b + fac * (∑ l : O, ∑ d : V, ∑ c : V, ∑ k : O, I.oovv l j d b * T2old c d k l * L2old i k a c)  -- L1003
  let L2 := fun (i : O) (j : O) (a : V) (b : V) => L2 i j a b - fac * (∑ l : O, ∑ d : V, ∑ c : V, ∑ k : O, I.oovv l i d b * T2old c d k l * L2old j k a c)  -- L1004
  let L2 := fun (i : O) (j : O) (a : V) (b : V) => L2 i j a b - fac * (∑ l : O, ∑ d : V, ∑ c : V, ∑ k : O, I.oovv l j d a * T2old c d k l * L2old i k b c)  -- L1005
  let L2 := fun (i : O) (j : O) (a : V) (b : V) => L2 i j a b + fac * (∑ l : O, ∑ d : V, ∑ c : V, ∑ k : O, I.oovv l i d a * T2old c d k l * L2old j k b c)  -- L1006
  let L2 := fun (i : O) (j : O) (a : V) (b : V) => L2 i j a b - (1/2) * fac * (∑ d : V, ∑ c : V, ∑ k : O, ∑ l : O, I.oovv i j d b * T2old c d k l * L2old k l c a)  -- L1008
  let L2 := fun (i : O) (j : O) (a : V) (b : V) => L2 i j a b + (1/2) * fac * (∑ d : V, ∑ c : V, ∑ k : O, ∑ l : O, I.oovv i j d a * T2old c d k l * L2old k l c b)  -- L1009
  let L2 := fun (i : O) (j : O) (a : V) (b : V) => L2 i j a b - (1/2) * fac * (∑ l : O, ∑ c : V, ∑ d : V, ∑ k : O, I.oovv l j a b * T2old c d k l * L2old k i c d)  -- L1011
  let L2 := fun (i : O) (j : O) (a : V) (b : V) => L2 i j a b + (1/2) * fac * (∑ l : O, ∑ c : V, ∑ d : V, ∑ k : O, I.oovv l i a b * T2old c d k l * L2old k j c d)  -- L1012
  let L2 := fun (i : O) (j : O) (a : V) (b : V) => L2 i j a b + (1/4) * fac * (∑ c : V, ∑ d : V, ∑ k : O, ∑ l : O, I.oovv i j c d * T2old c d k l * L2old k l a b)  -- L1014
  let L2 := fun (i : O) (j : O) (a : V) (b : V) => L2 i j a b + (1/4) * fac * (∑ k : O, ∑ l : O, ∑ c : V, ∑ d : V, I.oovv k l a b * T2old c d k l * L2old i j c d)  -- L1016
  L2

/-- `_LD_LDTD_ladder`, cc_equations.py:1019-1023. Mutates `L2`; the model returns the new value. -/
def LD_LDTD_ladder (L2 : O → O → V → V → K) (I : TwoE O V K) (L2old : O → O → V → V → K) (T2old : V → V → O → O → K) (fac : K) :
    O → O → V → V → K :=
  let L2 := fun (i : O) (j : O) (a : V) (b : V) => L2 i j a b + (1/4) * fac * (∑ c : V, ∑ d : V, ∑ k : O, ∑ l : O, I.oovv i j c d * T2old c d k l * L2old k l a b)  -- L1021
  let L2 := fun (i : O) (j : O) (a : V) (b : V) => L2 i j a b + (1/4) * fac * (∑ k : O, ∑ l : O, ∑ c : V, ∑ d : V, I.oovv k l a b * T2old c d k l * L2old i j c d)  -- L1023
  L2

/-- `_LD_LDTSS`, cc_equations.py:1026-1041. Mutates `L2`; the model returns the new value. -/
def LD_LDTSS (L2 : O → O → V → V → K) (F : OneE O V K) (I : TwoE O V K) (L2old : O → O → V → V → K) (T1old : V → O → K) (fac : K) :
    O → O → V → V → K :=
  let L2 := fun (i : O) (j : O) (a : V) (b : V) => L2 i j a b - fac * (∑ k : O, ∑ l : O, ∑ c : V, ∑ d : V, L2old i k a b * I.oovv j l c d * T1old c k * T1old d l)  -- L1028
  let L2 := fun (i : O) (j : O) (a : V) (b : V) => L2 i j a b + fac * (∑ k : O, ∑ l : O, ∑ c : V, ∑ d : V, L2old j k a b * I.oovv i l c d * T1old c k * T1old d l)  -- L1029
  let L2 := fun (i : O) (j : O) (a : V) (b : V) => L2 i j a b - fac * (∑ c : V, ∑ k : O, ∑ l : O, ∑ d : V, L2old i j a c * I.oovv k l b d * T1old c k * T1old d l)  -- L1031
  let L2 := fun (i : O) (j : O) (a : V) (b : V) => L2 i j a b + fac * (∑ c : V, ∑ k : O, ∑ l : O, ∑ d : V, L2old i j b c * I.oovv k l a d * T1old c k * T1old d l)  -- L1032
  let L2 := fun (i : O) (j : O) (a : V) (b : V) => L2 i j a b - fac * (∑ k : O, ∑ d : V, ∑ l : O, ∑ c : V, L2old i k a d * I.oovv l j c b * T1old c k * T1old d l)  -- L1034
  let L2 := fun (i : O) (j : O) (a : V) (b : V) => L2 i j a b + fac * (∑ k : O, ∑ d : V, ∑ l : O, ∑ c : V, L2old j k a d * I.oovv l i c b * T1old c k * T1old d l)  -- L1035
  let L2 := fun (i : O) (j : O) (a : V) (b : V) => L2 i j a b + fac * (∑ k : O, ∑ d : V, ∑ l : O, ∑ c : V, L2old i k b d * I.oovv l j c a * T1old c k * T1old d l)  -- L1036
  let L2 := fun (i : O) (j : O) (a : V) (b : V) => L2 i j a b - fac * (∑ k : O, ∑ d : V, ∑ l : O, ∑ c : V, L2old j k b d * I.oovv l i c a * T1old c k * T1old d l)  -- L1037
  let L2 := fun (i : O) (j : O) (a : V) (b : V) => L2 i j a b + (1/2) * fac * (∑ k : O, ∑ l : O, ∑ c : V, ∑ d : V, L2old k l a b * I.oovv i j c d * T1old c k * T1old d l)  -- L1039
  let L2 := fun (i : O) (j : O) (a : V) (b : V) => L2 i j a b + (1/2) * fac * (∑ c : V, ∑ d : V, ∑ k : O, ∑ l : O, L2old i j c d * I.oovv k l a b * T1old c k * T1old d l)  -- L1041
  L2

/-- attributes of class `lambda_int`, cc_equations.py:1044-1090. -/
structure LambdaInt (O V K : Type) where
  IooovT : O → O → O → V → K
  IvovvT : V → O → V → V → K
  IovT : O → V → K
  IToo : O → O → K
  ITvv : V → V → K
  ITvovo : V → O → V → O → K
  IToovv : O → O → V → V → K
  ITvooo : V → O → O → O → K
  ITvvvo : V → V → V → O → K
  ITov : O → V → K
  ITvovv : V → O → V → V → K
  ITooov : O → O → O → V → K
  ITvovo2 : V → O → V → O → K
  ITvvvv : V → V → V → V → K
  IToooo : O → O → O → O → K
  IToovv2 : O → O → V → V → K

/-- `lambda_int.__init__`, cc_equations.py:1045-1090. -/
def lambda_int (F : OneE O V K) (I : TwoE O V K) (T1old : V → O → K) (T2old : V → V → O → O → K) : LambdaInt O V K :=
  let TTemp := fun (b : V) (c : V) (j : O) (k : O) => (1/2) * T2old b c j k + T1old b j * T1old c k  -- L1046
  let IvovoT1 := fun (a : V) (i : O) (b : V) (k : O) => ∑ c : V, I.vovv a i b c * T1old c k  -- L1047
  let IvovoT2 := fun (b : V) (i : O) (a : V) (k : O) => ∑ j : O, T1old b j * I.ooov j i k a  -- L1048
  let IooovT := fun (i : O) (k : O) (j : O) (c : V) => ∑ b : V, I.oovv i k b c * T1old b j  -- L1049
  let IvovvT := fun (c : V) (i : O) (a : V) (b : V) => ∑ k : O, T1old c k * I.oovv k i a b  -- L1050
  let IovT := fun (i : O) (a : V) => ∑ k : O, ∑ c : V, I.oovv i k a c * T1old c k  -- L1051
  let IToo := fun (i : O) (k : O) => ∑ b : V, F.ov i b * T1old b k + F.oo i k + (∑ k' : O, ∑ b : V, ∑ c : V, I.oovv i k' b c * TTemp b c k k') + (∑ j : O, ∑ b : V, I.ooov i j k b * T1old b j)  -- L1052
  let ITvv := fun (b : V) (a : V) => ∑ j : O, F.ov j a * T1old b j - F.vv b a - (∑ k : O, ∑ c : V, I.vovv b k a c * T1old c k) + (∑ j : O, ∑ k : O, ∑ c : V, I.oovv j k a c * TTemp b c j k)  -- L1055
  let ITvovo := fun (a : V) (i : O) (b : V) (j : O) => -IvovoT1 a i b j - IvovoT2 a i b j - I.vovo a i b j  -- L1058
  let IToovv := fun (i : O) (j : O) (a : V) (b : V) => ∑ k : O, ∑ c : V, I.oovv k i c a * T2old b c j k - (∑ b' : V, IvovvT b i b' a * T1old b' j)  -- L1059
  let ITvooo := fun (d : V) (i : O) (j : O) (l : O) => ∑ b : V, I.vovo d i b l * T1old b j + (1/2) * I.vooo d i j l + (1/2) * (∑ c : V, F.ov i c * T2old d c j l) + (1/2) * (∑ j' : O, I.oooo i j' j l * T1old d j') + (∑ k : O, ∑ c : V, I.ooov k i j c * T2old d c l k) - (∑ c : V, IvovoT2 d i c j * T1old c l) + (1/2) * (∑ b : V, ∑ c : V, I.vovv d i b c * TTemp b c j l) + (1/2) * (∑ d' : V, IovT i d' * T2old d d' j l) - (∑ k : O, ∑ c : V, IooovT i k j c * T2old c d k l) - (1/2) * (∑ c : V, ∑ d' : V, IvovvT d i c d' * TTemp c d' j l)  -- L1061
  let ITvvvo := fun (b : V) (d : V) (a : V) (l : O) => ∑ j : O, I.vovo b j a l * T1old d j - (1/2) * I.vvvo b d a l - (1/2) * (∑ k : O, F.ov k a * T2old b d l k) - (1/2) * (∑ b' : V, I.vvvv b d a b' * T1old b' l) - (∑ k : O, ∑ c : V, I.vovv d k c a * T2old b c l k) - (∑ j : O, IvovoT1 d j a l * T1old b j) + (1/2) * (∑ j : O, ∑ k : O, I.ooov j k l a * TTemp b d j k) - (1/2) * (∑ l' : O, IovT l' a * T2old b d l l') + (∑ k : O, ∑ c : V, IvovvT b k a c * T2old c d k l) + (1/2) * (∑ k : O, ∑ l' : O, IooovT k l' l a * TTemp b d k l')  -- L1070
  let ITov := fun (i : O) (a : V) => IovT i a + F.ov i a  -- L1079
  let ITvovv := fun (a : V) (i : O) (b : V) (c : V) => IvovvT a i b c - I.vovv a i b c  -- L1080
  let ITooov := fun (i : O) (j : O) (k : O) (a : V) => IooovT i j k a + I.ooov i j k a  -- L1081
  let ITvovo2 := fun (d : V) (j : O) (b : V) (k : O) => -IvovoT1 d j b k - IvovoT2 d j b k - I.vovo d j b k - (∑ c : V, IvovvT d j c b * T1old c k)  -- L1082
  let ITvvvv := fun (c : V) (d : V) (a : V) (b : V) => ∑ k : O, I.vovv d k a b * T1old c k + (1/2) * (∑ k : O, ∑ l : O, I.oovv k l a b * TTemp c d k l) + (1/2) * I.vvvv c d a b  -- L1084
  let IToooo := fun (i : O) (j : O) (k : O) (l : O) => ∑ c : V, I.ooov i j l c * T1old c k - (1/2) * (∑ c : V, ∑ d : V, I.oovv i j c d * TTemp c d k l) - (1/2) * I.oooo i j k l  -- L1087
  let IToovv2 := fun (k : O) (j : O) (c : V) (b : V) => ∑ l : O, ∑ d : V, I.oovv l j d b * T2old c d k l  -- L1090
  { IooovT := IooovT, IvovvT := IvovvT, IovT := IovT, IToo := IToo, ITvv := ITvv, ITvovo := ITvovo, IToovv := IToovv, ITvooo := ITvooo, ITvvvo := ITvvvo, ITov := ITov, ITvovv := ITvovv, ITooov := ITooov, ITvovo2 := ITvovo2, ITvvvv := ITvvvv, IToooo := IToooo, IToovv2 := IToovv2 }

/-- `_Lambda_Stanton`, cc_equations.py:1093-1188. Mutates `L1`, `L2`; the model returns the new values. -/
def Lambda_Stanton (L1 : O → V → K) (L2 : O → O → V → V → K) (F : OneE O V K) (I : TwoE O V K) (L1old : O → V → K) (L2old : O → O → V → V → K) (T1old : V → O → K) (T2old : V → V → O → O → K) (fac : K) :
    (O → V → K) × (O → O → V → V → K) :=
  let T2A := T2old  -- L1095
  let T2A := fun (a : V) (b : V) (i : O) (j : O) => T2A a b i j + (1/2) * (T1old a i * T1old b j)  -- L1096
  let T2A := fun (a : V) (b : V) (i : O) (j : O) => T2A a b i j - (1/2) * (T1old b i * T1old a j)  -- L1097
  let Fvv := F.vv  -- L1099
  let Fvv := fun (a : V) (b : V) => Fvv a b - (1/2) * (∑ j : O, F.ov j b * T1old a j)  -- L1100
  let Fvv := fun (a : V) (b : V) => Fvv a b - (∑ j : O, ∑ c : V, I.vovv a j c b * T1old c j)  -- L1101
  let Fvv := fun (a : V) (b : V) => Fvv a b - (1/2) * (∑ j : O, ∑ k : O, ∑ c : V, I.oovv j k b c * T2A a c j k)  -- L1102
  let Foo := F.oo  -- L1104
  let Foo := fun (j : O) (i : O) => Foo j i + (1/2) * (∑ b : V, F.ov j b * T1old b i)  -- L1105
  let Foo := fun (j : O) (i : O) => Foo j i + (∑ k : O, ∑ b : V, I.ooov j k i b * T1old b k)  -- L1106
  let Foo := fun (j : O) (i : O) => Foo j i + (1/2) * (∑ k : O, ∑ b : V, ∑ c : V, I.oovv j k b c * T2A b c i k)  -- L1107
  let Fov := F.ov  -- L1109
  let Fov := fun (j : O) (b : V) => Fov j b + (∑ k : O, ∑ c : V, I.oovv j k b c * T1old c k)  -- L1110
  let T2B := T2old  -- L1112
  let T2B := fun (a : V) (b : V) (i : O) (j : O) => T2B a b i j + T1old a i * T1old b j  -- L1113
  let T2B := fun (a : V) (b : V) (i : O) (j : O) => T2B a b i j - T1old b i * T1old a j  -- L1114
  let Woooo := I.oooo  -- L1116
  let Woooo := fun (k : O) (l : O) (i : O) (j : O) => Woooo k l i j + (∑ c : V, I.ooov k l i c * T1old c j)  -- L1117
  let Woooo := fun (k : O) (l : O) (i : O) (j : O) => Woooo k l i j - (∑ c : V, I.ooov k l j c * T1old c i)  -- L1118
  let Woooo := fun (k : O) (l : O) (i : O) (j : O) => Woooo k l i j + (1/4) * (∑ c : V, ∑ d : V, I.oovv k l c d * T2B c d i j)  -- L1119
  let Wvvvv := I.vvvv  -- L1121
  let Wvvvv := fun (a : V) (b : V) (c : V) (d : V) => Wvvvv a b c d - (∑ k : O, I.vovv a k c d * T1old b k)  -- L1122
  let Wvvvv := fun (a : V) (b : V) (c : V) (d : V) => Wvvvv a b c d + (∑ k : O, I.vovv b k c d * T1old a k)  -- L1123
  let Wvvvv := fun (a : V) (b : V) (c : V) (d : V) => Wvvvv a b c d + (1/4) * (∑ k : O, ∑ l : O, I.oovv k l c d * T2B a b k l)  -- L1124
  let Wovvo := fun (i : O) (a : V) (b : V) (j : O) => -I.vovo a i b j  -- L1126
  let Wovvo := fun (k : O) (b : V) (c : V) (j : O) => Wovvo k b c j - (∑ d : V, I.vovv b k c d * T1old d j)  -- L1127
  let Wovvo := fun (k : O) (b : V) (c : V) (j : O) => Wovvo k b c j + (∑ l : O, I.ooov k l j c * T1old b l)  -- L1128
  let temp := fun (d : V) (b : V) (j : O) (l : O) => (1/2) * T2old d b j l + T1old d j * T1old b l  -- L1129
  let Wovvo := fun (k : O) (b : V) (c : V) (j : O) => Wovvo k b c j - (∑ l : O, ∑ d : V, I.oovv k l c d * temp d b j l)  -- L1130
  let F1ov := Fov  -- L1132
  let F1vv := fun (a : V) (e : V) => Fvv a e - (1/2) * (∑ m : O, Fov m e * T1old a m)  -- L1133
  let F1oo := fun (m : O) (i : O) => Foo m i + (1/2) * (∑ e : V, Fov m e * T1old e i)  -- L1134
  let W1oooo := fun (m : O) (n : O) (i : O) (j : O) => Woooo m n i j + (1/4) * (∑ e : V, ∑ f : V, I.oovv m n e f * T2B e f i j)  -- L1136
  let W1vvvv := fun (a : V) (b : V) (e : V) (f : V) => Wvvvv a b e f + (1/4) * (∑ m : O, ∑ n : O, I.oovv m n e f * T2B a b m n)  -- L1137
  let W1ovvo := fun (m : O) (b : V) (e : V) (j : O) => Wovvo m b e j - (1/2) * (∑ n : O, ∑ f : V, I.oovv m n e f * T2old f b j n)  -- L1138
  let W1ooov := fun (m : O) (n : O) (i : O) (e : V) => I.ooov m n i e + (∑ f : V, I.oovv m n f e * T1old f i)  -- L1139
  let W1vovv := fun (a : V) (m : O) (e : V) (f : V) => I.vovv a m e f - (∑ n : O, I.oovv n m e f * T1old a n)  -- L1140
  let W1vvvo := fun (a : V) (b : V) (e : V) (i : O) => I.vvvo a b e i - (∑ m : O, F1ov m e * T2old a b m i)  -- L1142
  let W1vvvo := fun (a : V) (b : V) (e : V) (i : O) => W1vvvo a b e i + (∑ f : V, W1vvvv a b e f * T1old f i)  -- L1143
  let W1vvvo := fun (a : V) (b : V) (e : V) (i : O) => W1vvvo a b e i - (1/2) * (∑ m : O, ∑ n : O, I.ooov m n i e * T2B a b m n)  -- L1144
  let temp := fun (a : V) (b : V) (e : V) (i : O) => -(∑ m : O, ∑ f : V, I.vovv b m e f * T2old a f m i)  -- L1145
  let Xt := fun (i : O) (a : V) (b : V) (j : O) => -I.vovo a i b j  -- L1146
  let Xt := fun (m : O) (b : V) (e : V) (i : O) => Xt m b e i - (∑ n : O, ∑ f : V, I.oovv m n e f * T2old b f n i)  -- L1147
  let temp := fun (a : V) (b : V) (e : V) (i : O) => temp a b e i + (∑ m : O, Xt m b e i * T1old a m)  -- L1148
  let W1vvvo := fun (a : V) (b : V) (c : V) (i : O) => W1vvvo a b c i - (temp a b c i - temp b a c i)  -- L1149
  let W1ovoo := fun (i : O) (a : V) (j : O) (k : O) => -I.vooo a i j k  -- L1151
  let W1ovoo := fun (m : O) (b : V) (i : O) (j : O) => W1ovoo m b i j - (∑ e : V, F1ov m e * T2old b e i j)  -- L1152
  let W1ovoo := fun (m : O) (b : V) (i : O) (j : O) => W1ovoo m b i j - (∑ n : O, W1oooo m n i j * T1old b n)  -- L1153
  let W1ovoo := fun (m : O) (b : V) (i : O) (j : O) => W1ovoo m b i j - (1/2) * (∑ e : V, ∑ f : V, I.vovv b m e f * T2B e f i j)  -- L1154
  let temp := fun (m : O) (b : V) (i : O) (j : O) => ∑ n : O, ∑ e : V, I.ooov m n i e * T2old b e j n  -- L1155
  let Xt := fun (i : O) (a : V) (b : V) (j : O) => -I.vovo a i b j  -- L1156
  let Xt := fun (m : O) (b : V) (e : V) (j : O) => Xt m b e j - (∑ n : O, ∑ f : V, I.oovv m n e f * T2old b f n j)  -- L1157
  let temp := fun (m : O) (b : V) (i : O) (j : O) => temp m b i j + (∑ e : V, T1old e i * Xt m b e j)  -- L1158
  let W1ovoo := fun (i : O) (a : V) (j : O) (k : O) => W1ovoo i a j k + (temp i a j k - temp i a k j)  -- L1159
  let Gvv := fun (a : V) (e : V) => (-(1/2)) * (∑ m : O, ∑ n : O, ∑ f : V, L2old m n a f * T2old e f m n)  -- L1161
  let Goo := fun (m : O) (i : O) => (1/2) * (∑ n : O, ∑ e : V, ∑ f : V, L2old i n e f * T2old e f m n)  -- L1162
  let L1 := fun (i : O) (a : V) => L1 i a + (∑ e : V, L1old i e * F1vv e a)  -- L1164
  let L1 := fun (i : O) (a : V) => L1 i a - (∑ m : O, L1old m a * F1oo i m)  -- L1165
  let L1 := fun (i : O) (a : V) => L1 i a + (∑ m : O, ∑ e : V, L1old m e * W1ovvo i e a m)  -- L1166
  let L1 := fun (i : O) (a : V) => L1 i a + (1/2) * (∑ m : O, ∑ e : V, ∑ f : V, L2old i m e f * W1vvvo e f a m)  -- L1167
  let L1 := fun (i : O) (a : V) => L1 i a - (1/2) * (∑ m : O, ∑ n : O, ∑ e : V, L2old m n a e * W1ovoo i e m n)  -- L1168
  let L1 := fun (i : O) (a : V) => L1 i a - (∑ e : V, ∑ f : V, Gvv e f * W1vovv e i f a)  -- L1169
  let L1 := fun (i : O) (a : V) => L1 i a - (∑ m : O, ∑ n : O, Goo m n * W1ooov m i n a)  -- L1170
  let L2 := fun (i : O) (j : O) (a : V) (b : V) => L2 i j a b + (1/2) * (∑ m : O, ∑ n : O, L2old m n a b * W1oooo i j m n)  -- L1172
  let L2 := fun (i : O) (j : O) (a : V) (b : V) => L2 i j a b + (1/2) * (∑ e : V, ∑ f : V, L2old i j e f * W1vvvv e f a b)  -- L1173
  let tempijab := fun (i : O) (j : O) (a : V) (b : V) => L1old i a * F1ov j b  -- L1175
  let tempijab := fun (i : O) (j : O) (a : V) (b : V) => tempijab i j a b + (∑ m : O, ∑ e : V, L2old i m a e * W1ovvo j e b m)  -- L1176
  let L2 := fun (i : O) (j : O) (a : V) (b : V) => L2 i j a b + (tempijab i j a b - tempijab i j b a - tempijab j i a b + tempijab j i b a)  -- L1177
  let tempij := fun (i : O) (j : O) (a : V) (b : V) => -(∑ m : O, L2old i m a b * F1oo j m)  -- L1180
  let tempij := fun (i : O) (j : O) (a : V) (b : V) => tempij i j a b + (∑ e : V, L1old i e * W1vovv e j a b)  -- L1181
  let tempij := fun (i : O) (j : O) (a : V) (b : V) => tempij i j a b - (∑ m : O, I.oovv i m a b * Goo m j)  -- L1182
  let L2 := fun (i : O) (j : O) (a : V) (b : V) => L2 i j a b + (tempij i j a b - tempij j i a b)  -- L1183
  let tempab := fun (i : O) (j : O) (a : V) (b : V) => ∑ e : V, L2old i j a e * F1vv e b  -- L1185
  let tempab := fun (i : O) (j : O) (a : V) (b : V) => tempab i j a b - (∑ m : O, L1old m a * W1ooov i j m b)  -- L1186
  let tempab := fun (i : O) (j : O) (a : V) (b : V) => tempab i j a b + (∑ e : V, I.oovv i j a e * Gvv b e)  -- L1187
  let L2 := fun (i : O) (j : O) (a : V) (b : V) => L2 i j a b + (tempab i j a b - tempab i j b a)  -- L1188
  (L1, L2)

/-- `_Lambda_opt`, cc_equations.py:1191-1335. Mutates `L1`, `L2`; the model returns the new values. -/
def Lambda_opt (L1 : O → V → K) (L2 : O → O → V → V → K) (F : OneE O V K) (I : TwoE O V K) (L1old : O → V → K) (L2old : O → O → V → V → K) (T1old : V → O → K) (T2old : V → V → O → O → K) (fac : K) :
    (O → V → K) × (O → O → V → V → K) :=
  let TTemp := fun (b : V) (c : V) (j : O) (k : O) => (1/2) * T2old b c j k + T1old b j * T1old c k  -- L1193
  let IvovoT1 := fun (a : V) (i : O) (b : V) (k : O) => ∑ c : V, I.vovv a i b c * T1old c k  -- L1194
  let IvovoT2 := fun (b : V) (i : O) (a : V) (k : O) => ∑ j : O, T1old b j * I.ooov j i k a  -- L1195
  let IooovT := fun (i : O) (k : O) (j : O) (c : V) => ∑ b : V, I.oovv i k b c * T1old b j  -- L1196
  let IvovvT := fun (c : V) (i : O) (a : V) (b : V) => ∑ k : O, T1old c k * I.oovv k i a b  -- L1197
  let IovT := fun (i : O) (a : V) => ∑ k : O, ∑ c : V, I.oovv i k a c * T1old c k  -- L1198
  let IToo := fun (i : O) (k : O) => ∑ b : V, F.ov i b * T1old b k + F.oo i k + (∑ k' : O, ∑ b : V, ∑ c : V, I.oovv i k' b c * TTemp b c k k') + (∑ j : O, ∑ b : V, I.ooov i j k b * T1old b j)  -- L1201
  let L1 := fun (i : O) (a : V) => L1 i a - fac * (∑ j : O, L1old j a * IToo i j)  -- L1204
  let temp := fun (i : O) (j : O) (a : V) (b : V) => fac * (∑ k : O, L2old i k a b * IToo j k)  -- L1206
  let L2 := fun (i : O) (j : O) (a : V) (b : V) => L2 i j a b - temp i j a b  -- L1207
  let L2 := fun (i : O) (j : O) (a : V) (b : V) => L2 i j a b + temp j i a b  -- L1208
  let ITvv := fun (b : V) (a : V) => ∑ j : O, F.ov j a * T1old b j - F.vv b a - (∑ k : O, ∑ c : V, I.vovv b k a c * T1old c k) + (∑ j : O, ∑ k : O, ∑ c : V, I.oovv j k a c * TTemp b c j k)  -- L1213
  let L1 := fun (i : O) (a : V) => L1 i a - fac * (∑ b : V, L1old i b * ITvv b a)  -- L1216
  let temp := fun (i : O) (j : O) (a : V) (b : V) => fac * (∑ c : V, L2old i j a c * ITvv c b)  -- L1218
  let L2 := fun (i : O) (j : O) (a : V) (b : V) => L2 i j a b - temp i j a b  -- L1219
  let L2 := fun (i : O) (j : O) (a : V) (b : V) => L2 i j a b + temp i j b a  -- L1220
  let ITvovo := fun (a : V) (i : O) (b : V) (j : O) => -IvovoT1 a i b j - IvovoT2 a i b j - I.vovo a i b j  -- L1225
  let L1 := fun (i : O) (a : V) => L1 i a + fac * (∑ j : O, ∑ b : V, L1old j b * ITvovo b i a j)  -- L1226
  let IToovv := fun (i : O) (j : O) (a : V) (b : V) => ∑ k : O, ∑ c : V, I.oovv k i c a * T2old b c j k - (∑ b' : V, IvovvT b i b' a * T1old b' j)  -- L1230
  let L1 := fun (i : O) (a : V) => L1 i a + fac * (∑ j : O, ∑ b : V, L1old j b * IToovv i j a b)  -- L1232
  let ITvooo := fun (d : V) (i : O) (j : O) (l : O) => ∑ b : V, I.vovo d i b l * T1old b j + (1/2) * I.vooo d i j l + (1/2) * (∑ c : V, F.ov i c * T2old d c j l) + (1/2) * (∑ j' : O, I.oooo i j' j l * T1old d j') + (∑ k : O, ∑ c : V, I.ooov k i j c * T2old d c l k) - (∑ c : V, IvovoT2 d i c j * T1old c l) + (1/2) * (∑ b : V, ∑ c : V, I.vovv d i b c * TTemp b c j l) + (1/2) * (∑ d' : V, IovT i d' * T2old d d' j l) - (∑ k : O, ∑ c : V, IooovT i k j c * T2old c d k l) - (1/2) * (∑ c : V, ∑ d' : V, IvovvT d i c d' * TTemp c d' j l)  -- L1236
  let L1 := fun (i : O) (a : V) => L1 i a + fac * (∑ j : O, ∑ k : O, ∑ b : V, L2old j k a b * ITvooo b i j k)  -- L1245
  let ITvvvo := fun (b : V) (d : V) (a : V) (l : O) => ∑ j : O, I.vovo b j a l * T1old d j - (1/2) * I.vvvo b d a l - (1/2) * (∑ k : O, F.ov k a * T2old b d l k) - (1/2) * (∑ b' : V, I.vvvv b d a b' * T1old b' l) - (∑ k : O, ∑ c : V, I.vovv d k c a * T2old b c l k) - (∑ j : O, IvovoT1 d j a l * T1old b j) + (1/2) * (∑ j : O, ∑ k : O, I.ooov j k l a * TTemp b d j k) - (1/2) * (∑ l' : O, IovT l' a * T2old b d l l') + (∑ k : O, ∑ c : V, IvovvT b k a c * T2old c d k l) + (1/2) * (∑ k : O, ∑ l' : O, IooovT k l' l a * TTemp b d k l')  -- L1249
  let L1 := fun (i : O) (a : V) => L1 i a + fac * (∑ k : O, ∑ b : V, ∑ c : V, L2old i k b c * ITvvvo c b a k)  -- L1258
  let ITov := fun (i : O) (a : V) => IovT i a + F.ov i a  -- L1262
  let temp := fun (i : O) (j : O) (a : V) (b : V) => fac * (L1old j b * ITov i a)  -- L1263
  let L2 := fun (i : O) (j : O) (a : V) (b : V) => L2 i j a b + temp i j a b  -- L1264
  let L2 := fun (i : O) (j : O) (a : V) (b : V) => L2 i j a b - temp j i a b  -- L1265
  let L2 := fun (i : O) (j : O) (a : V) (b : V) => L2 i j a b - temp i j b a  -- L1266
  let L2 := fun (i : O) (j : O) (a : V) (b : V) => L2 i j a b + temp j i b a  -- L1267
  let ITvovv := fun (a : V) (i : O) (b : V) (c : V) => IvovvT a i b c - I.vovv a i b c  -- L1271
  let temp := fun (i : O) (j : O) (a : V) (b : V) => fac * (∑ c : V, L1old i c * ITvovv c j a b)  -- L1272
  let L2 := fun (i : O) (j : O) (a : V) (b : V) => L2 i j a b - temp i j a b  -- L1273
  let L2 := fun (i : O) (j : O) (a : V) (b : V) => L2 i j a b + temp j i a b  -- L1274
  let ITooov := fun (i : O) (j : O) (k : O) (a : V) => IooovT i j k a + I.ooov i j k a  -- L1278
  let temp := fun (i : O) (j : O) (a : V) (b : V) => fac * (∑ k : O, L1old k a * ITooov i j k b)  -- L1279
  let L2 := fun (i : O) (j : O) (a : V) (b : V) => L2 i j a b - temp i j a b  -- L1280
  let L2 := fun (i : O) (j : O) (a : V) (b : V) => L2 i j a b + temp i j b a  -- L1281
  let ITvovo := fun (d : V) (j : O) (b : V) (k : O) => -IvovoT1 d j b k - IvovoT2 d j b k - I.vovo d j b k - (∑ c : V, IvovvT d j c b * T1old c k)  -- L1285
  let temp := fun (i : O) (j : O) (a : V) (b : V) => fac * (∑ k : O, ∑ d : V, L2old i k a d * ITvovo d j b k)  -- L1287
  let L2 := fun (i : O) (j : O) (a : V) (b : V) => L2 i j a b + temp i j a b  -- L1288
  let L2 := fun (i : O) (j : O) (a : V) (b : V) => L2 i j a b - temp j i a b  -- L1289
  let L2 := fun (i : O) (j : O) (a : V) (b : V) => L2 i j a b - temp i j b a  -- L1290
  let L2 := fun (i : O) (j : O) (a : V) (b : V) => L2 i j a b + temp j i b a  -- L1291
  let ITvvvv := fun (c : V) (d : V) (a : V) (b : V) => ∑ k : O, I.vovv d k a b * T1old c k + (1/2) * (∑ k : O, ∑ l : O, I.oovv k l a b * TTemp c d k l) + (1/2) * I.vvvv c d a b  -- L1295
  let L2 := fun (i : O) (j : O) (a : V) (b : V) => L2 i j a b + fac * (∑ c : V, ∑ d : V, L2old i j c d * ITvvvv c d a b)  -- L1298
  let IToooo := fun (i : O) (j : O) (k : O) (l : O) => ∑ c : V, I.ooov i j l c * T1old c k - (1/2) * (∑ c : V, ∑ d : V, I.oovv i j c d * TTemp c d k l) - (1/2) * I.oooo i j k l  -- L1302
  let L2 := fun (i : O) (j : O) (a : V) (b : V) => L2 i j a b - fac * (∑ k : O, ∑ l : O, L2old k l a b * IToooo i j k l)  -- L1305
  let IToovv := fun (k : O) (j : O) (c : V) (b : V) => ∑ l : O, ∑ d : V, I.oovv l j d b * T2old c d k l  -- L1309
  let temp := fun (i : O) (j : O) (a : V) (b : V) => fac * (∑ k : O, ∑ c : V, L2old i k a c * IToovv k j c b)  -- L1310
  let L2 := fun (i : O) (j : O) (a : V) (b : V) => L2 i j a b + temp i j a b  -- L1311
  let L2 := fun (i : O) (j : O) (a : V) (b : V) => L2 i j a b - temp j i a b  -- L1312
  let L2 := fun (i : O) (j : O) (a : V) (b : V) => L2 i j a b - temp i j b a  -- L1313
  let L2 := fun (i : O) (j : O) (a : V) (b : V) => L2 i j a b + temp j i b a  -- L1314
  let Ltemp1 := fun (c : V) (d : V) => ∑ j : O, ∑ k : O, ∑ b : V, L2old j k b d * T2old b c j k  -- L1318
  let Ltemp2 := fun (l : O) (k : O) => ∑ j : O, ∑ b : V, ∑ c : V, L2old j l b c * T2old b c j k  -- L1319
  let L1 := fun (i : O) (a : V) => L1 i a + (1/2) * fac * (∑ c : V, ∑ d : V, Ltemp1 c d * I.vovv d i c a)  -- L1321
  let L1 := fun (i : O) (a : V) => L1 i a - (1/2) * fac * (∑ l : O, ∑ k : O, Ltemp2 l k * I.ooov k i l a)  -- L1323
  let L1 := fun (i : O) (a : V) => L1 i a - (1/2) * fac * (∑ d : V, ∑ b : V, Ltemp1 d b * IvovvT b i d a)  -- L1325
  let L1 := fun (i : O) (a : V) => L1 i a - (1/2) * fac * (∑ j : O, ∑ l : O, Ltemp2 j l * IooovT l i j a)  -- L1327
  let temp := fun (i : O) (j : O) (a : V) (b : V) => (1/2) * fac * (∑ d : V, Ltemp1 d a * I.oovv i j d b)  -- L1329
  let L2 := fun (i : O) (j : O) (a : V) (b : V) => L2 i j a b - temp i j a b  -- L1330
  let L2 := fun (i : O) (j : O) (a : V) (b : V) => L2 i j a b + temp i j b a  -- L1331
  let temp := fun (i : O) (j : O) (a : V) (b : V) => (1/2) * fac * (∑ l : O, Ltemp2 i l * I.oovv l j a b)  -- L1333
  let L2 := fun (i : O) (j : O) (a : V) (b : V) => L2 i j a b - temp i j a b  -- L1334
  let L2 := fun (i : O) (j : O) (a : V) (b : V) => L2 i j a b + temp j i a b  -- L1335
  (L1, L2)

/-- `_Lambda_opt_int`, cc_equations.py:1338-1420. Mutates `L1`, `L2`; the model returns the new values. -/
def Lambda_opt_int (L1 : O → V → K) (L2 : O → O → V → V → K) (F : OneE O V K) (I : TwoE O V K) (L1old : O → V → K) (L2old : O → O → V → V → K) (T1old : V → O → K) (T2old : V → V → O → O → K) (intor : LambdaInt O V K) (fac : K) :
    (O → V → K) × (O → O → V → V → K) :=
  let L1 := fun (i : O) (a : V) => L1 i a - fac * (∑ j : O, L1old j a * intor.IToo i j)  -- L1340
  let temp := fun (i : O) (j : O) (a : V) (b : V) => fac * (∑ k : O, L2old i k a b * intor.IToo j k)  -- L1342
  let L2 := fun (i : O) (j : O) (a : V) (b : V) => L2 i j a b - temp i j a b  -- L1343
  let L2 := fun (i : O) (j : O) (a : V) (b : V) => L2 i j a b + temp j i a b  -- L1344
  let L1 := fun (i : O) (a : V) => L1 i a - fac * (∑ b : V, L1old i b * intor.ITvv b a)  -- L1347
  let temp := fun (i : O) (j : O) (a : V) (b : V) => fac * (∑ c : V, L2old i j a c * intor.ITvv c b)  -- L1349
  let L2 := fun (i : O) (j : O) (a : V) (b : V) => L2 i j a b - temp i j a b  -- L1350
  let L2 := fun (i : O) (j : O) (a : V) (b : V) => L2 i j a b + temp i j b a  -- L1351
  let L1 := fun (i : O) (a : V) => L1 i a + fac * (∑ j : O, ∑ b : V, L1old j b * intor.ITvovo b i a j)  -- L1354
  let L1 := fun (i : O) (a : V) => L1 i a + fac * (∑ j : O, ∑ b : V, L1old j b * intor.IToovv i j a b)  -- L1357
  let L1 := fun (i : O) (a : V) => L1 i a + fac * (∑ j : O, ∑ k : O, ∑ b : V, L2old j k a b * intor.ITvooo b i j k)  -- L1360
  let L1 := fun (i : O) (a : V) => L1 i a + fac * (∑ k : O, ∑ b : V, ∑ c : V, L2old i k b c * intor.ITvvvo c b a k)  -- L1363
  let temp := fun (i : O) (j : O) (a : V) (b : V) => fac * (L1old j b * intor.ITov i a)  -- L1366
  let L2 := fun (i : O) (j : O) (a : V) (b : V) => L2 i j a b + temp i j a b  -- L1367
  let L2 := fun (i : O) (j : O) (a : V) (b : V) => L2 i j a b - temp j i a b  -- L1368
  let L2 := fun (i : O) (j : O) (a : V) (b : V) => L2 i j a b - temp i j b a  -- L1369
  let L2 := fun (i : O) (j : O) (a : V) (b : V) => L2 i j a b + temp j i b a  -- L1370
  let temp := fun (i : O) (j : O) (a : V) (b : V) => fac * (∑ c : V, L1old i c * intor.ITvovv c j a b)  -- L1373
  let L2 := fun (i : O) (j : O) (a : V) (b : V) => L2 i j a b - temp i j a b  -- L1374
  let L2 := fun (i : O) (j : O) (a : V) (b : V) => L2 i j a b + temp j i a b  -- L1375
  let temp := fun (i : O) (j : O) (a : V) (b : V) => fac * (∑ k : O, L1old k a * intor.ITooov i j k b)  -- L1378
  let L2 := fun (i : O) (j : O) (a : V) (b : V) => L2 i j a b - temp i j a b  -- L1379
  let L2 := fun (i : O) (j : O) (a : V) (b : V) => L2 i j a b + temp i j b a  -- L1380
  let temp := fun (i : O) (j : O) (a : V) (b : V) => fac * (∑ k : O, ∑ d : V, L2old i k a d * intor.ITvovo2 d j b k)  -- L1383
  let L2 := fun (i : O) (j : O) (a : V) (b : V) => L2 i j a b + temp i j a b  -- L1384
  let L2 := fun (i : O) (j : O) (a : V) (b : V) => L2 i j a b - temp j i a b  -- L1385
  let L2 := fun (i : O) (j : O) (a : V) (b : V) => L2 i j a b - temp i j b a  -- L1386
  let L2 := fun (i : O) (j : O) (a : V) (b : V) => L2 i j a b + temp j i b a  -- L1387
  let L2 := fun (i : O) (j : O) (a : V) (b : V) => L2 i j a b + fac * (∑ c : V, ∑ d : V, L2old i j c d * intor.ITvvvv c d a b)  -- L1390
  let L2 := fun (i : O) (j : O) (a : V) (b : V) => L2 i j a b - fac * (∑ k : O, ∑ l : O, L2old k l a b * intor.IToooo i j k l)  -- L1393
  let temp := fun (i : O) (j : O) (a : V) (b : V) => fac * (∑ k : O, ∑ c : V, L2old i k a c * intor.IToovv2 k j c b)  -- L1396
  let L2 := fun (i : O) (j : O) (a : V) (b : V) => L2 i j a b + temp i j a b  -- L1397
  let L2 := fun (i : O) (j : O) (a : V) (b : V) => L2 i j a b - temp j i a b  -- L1398
  let L2 := fun (i : O) (j : O) (a : V) (b : V) => L2 i j a b - temp i j b a  -- L1399
  let L2 := fun (i : O) (j : O) (a : V) (b : V) => L2 i j a b + temp j i b a  -- L1400
  let Ltemp1 := fun (c : V) (d : V) => ∑ j : O, ∑ k : O, ∑ b : V, L2old j k b d * T2old b c j k  -- L1403
  let Ltemp2 := fun (l : O) (k : O) => ∑ j : O, ∑ b : V, ∑ c : V, L2old j l b c * T2old b c j k  -- L1404
  let L1 := fun (i : O) (a : V) => L1 i a + (1/2) * fac * (∑ c : V, ∑ d : V, Ltemp1 c d * I.vovv d i c a)  -- L1406
  let L1 := fun (i : O) (a : V) => L1 i a - (1/2) * fac * (∑ l : O, ∑ k : O, Ltemp2 l k * I.ooov k i l a)  -- L1408
  let L1 := fun (i : O) (a : V) => L1 i a - (1/2) * fac * (∑ d : V, ∑ b : V, Ltemp1 d b * intor.IvovvT b i d a)  -- L1410
  let L1 := fun (i : O) (a : V) => L1 i a - (1/2) * fac * (∑ j : O, ∑ l : O, Ltemp2 j l * intor.IooovT l i j a)  -- L1412
  let temp := fun (i : O) (j : O) (a : V) (b : V) => (1/2) * fac * (∑ d : V, Ltemp1 d a * I.oovv i j d b)  -- L1414
  let L2 := fun (i : O) (j : O) (a : V) (b : V) => L2 i j a b - temp i j a b  -- L1415
  let L2 := fun (i : O) (j : O) (a : V) (b : V) => L2 i j a b + temp i j b a  -- L1416
  let temp := fun (i : O) (j : O) (a : V) (b : V) => (1/2) * fac * (∑ l : O, Ltemp2 i l * I.oovv l j a b)  -- L1418
  let L2 := fun (i : O) (j : O) (a : V) (b : V) => L2 i j a b - temp i j a b  -- L1419
  let L2 := fun (i : O) (j : O) (a : V) (b : V) => L2 i j a b + temp j i a b  -- L1420
  (L1, L2)

/-- `ccd_lambda_simple`, cc_equations.py:2262-2269. -/
def ccd_lambda_simple (F : OneE O V K) (I : TwoE O V K) (L2old : O → O → V → V → K) (T2old : V → V → O → O → K) :
    O → O → V → V → K :=
  let L2 := I.oovv  -- L2264
  let L2 := LD_LD L2 F I L2old 1  -- L2266
  let L2 := LD_LDTD L2 I L2old T2old 1  -- L2267
  L2

/-- `ccsd_lambda_opt`, cc_equations.py:2272-2282. -/
def ccsd_lambda_opt (F : OneE O V K) (I : TwoE O V K) (L1old : O → V → K) (L2old : O → O → V → V → K) (T1old : V → O → K) (T2old : V → V → O → O → K) :
    (O → V → K) × (O → O → V → V → K) :=
  let L1 := F.ov  -- L2276
  let L2 := I.oovv  -- L2277
  let L1 := LS_TS L1 I T1old 1  -- L2279
  let r := Lambda_opt L1 L2 F I L1old L2old T1old T2old 1  -- L2280
  let L1 := r.1
  let L2 := r.2
  (L1, L2)

/-- `ccsd_lambda_stanton`, cc_equations.py:2285-2295. -/
def ccsd_lambda_stanton (F : OneE O V K) (I : TwoE O V K) (L1old : O → V → K) (L2old : O → O → V → V → K) (T1old : V → O → K) (T2old : V → V → O → O → K) :
    (O → V → K) × (O → O → V → V → K) :=
  let L1 := F.ov  -- L2289
  let L2 := I.oovv  -- L2290
  let L1 := LS_TS L1 I T1old 1  -- L2292
  let r := Lambda_Stanton L1 L2 F I L1old L2old T1old T2old 1  -- L2293
  let L1 := r.1
  let L2 := r.2
  (L1, L2)

/-- `ccsd_lambda_opt_int`, cc_equations.py:2298-2308. -/
def ccsd_lambda_opt_int (F : OneE O V K) (I : TwoE O V K) (L1old : O → V → K) (L2old : O → O → V → V → K) (T1old : V → O → K) (T2old : V → V → O → O → K) (intor : LambdaInt O V K) :
    (O → V → K) × (O → O → V → V → K) :=
  let L1 := F.ov  -- L2302
  let L2 := I.oovv  -- L2303
  let L1 := LS_TS L1 I T1old 1  -- L2305
  let r := Lambda_opt_int L1 L2 F I L1old L2old T1old T2old intor 1  -- L2306
  let L1 := r.1
  let L2 := r.2
  (L1, L2)

/-- `ccsd_lambda_simple`, cc_equations.py:2342-2366. -/
def ccsd_lambda_simple (F : OneE O V K) (I : TwoE O V K) (L1old : O → V → K) (L2old : O → O → V → V → K) (T1old : V → O → K) (T2old : V → V → O → O → K) :
    (O → V → K) × (O → O → V → V → K) :=
  let L1 := F.ov  -- L2344
  let L2 := I.oovv  -- L2345
  let L1 := LS_TS L1 I T1old 1  -- L2347
  let L1 := LS_LS L1 F I L1old 1  -- L2348
  let L1 := LS_LSTS L1 F I L1old T1old 1  -- L2349
  let L1 := LS_LSTD L1 I L1old T2old 1  -- L2350
  let L1 := LS_LSTSS L1 I L1old T1old 1  -- L2351
  let L1 := LS_LD L1 F I L2old 1  -- L2352
  let L1 := LS_LDTS L1 F I L2old T1old 1  -- L2353
  let L1 := LS_LDTD L1 F I L2old T2old 1  -- L2354
  let L1 := LS_LDTSS L1 F I L2old T1old 1  -- L2355
  let L1 := LS_LDTSD L1 I L2old T1old T2old 1  -- L2356
  let L1 := LS_LDTSSS L1 I L2old T1old 1  -- L2357
  let L2 := LD_LS L2 F I L1old 1  -- L2359
  let L2 := LD_LSTS L2 F I L1old T1old 1  -- L2360
  let L2 := LD_LD L2 F I L2old 1  -- L2361
  let L2 := LD_LDTS L2 F I L2old T1old 1  -- L2362
  let L2 := LD_LDTD L2 I L2old T2old 1  -- L2363
  let L2 := LD_LDTSS L2 F I L2old T1old 1  -- L2364
  (L1, L2)

end CC
