/-
GENERATED by tools/gen_cc.py from cqcpy/cc_equations.py (pure text translation); do not edit.
Restricted amplitude equations.
Every definition cites the python function it mirrors; each `let` carries the source line
of the statement it translates.  Arithmetic is that of an arbitrary field of characteristic
zero (floating point rounding and dtypes are abstracted).
-/
import Verif.Model.Blocks

set_option linter.unusedVariables false
set_option maxRecDepth 4000

namespace CC

open Finset

variable {K : Type} [Field K]
variable {O V Oa Va Ob Vb : Type} [Fintype O] [Fintype V] [Fintype Oa] [Fintype Va]
  [Fintype Ob] [Fintype Vb]

/-- `_r_Stanton`, cc_equations.py:549-652. Mutates `T1`, `T2`; the model returns the new values. -/
def r_Stanton (T1 : V → O → K) (T2 : V → V → O → O → K) (F : OneE O V K) (I : TwoEFull O V O V K) (T1old : V → O → K) (T2old : V → V → O → O → K) (fac : K) :
    (V → O → K) × (V → V → O → O → K) :=
  let Fov := F.ov  -- L551
  let Fvv := F.vv  -- L552
  let Fvv := fun (a : V) (b : V) => Fvv a b - (1/2) * (∑ j : O, F.ov j b * T1old a j)  -- L553
  let Iovvv := fun (i : O) (a : V) (b : V) (c : V) => 2 * I.ovvv i a b c - I.vovv a i b c  -- L554
  let Fvv := fun (a : V) (b : V) => Fvv a b + (∑ j : O, ∑ c : V, Iovvv j a c b * T1old c j)  -- L555
  let Foo := F.oo  -- L558
  let Foo := fun (j : O) (i : O) => Foo j i + (1/2) * (∑ b : V, F.ov j b * T1old b i)  -- L559
  let Ioovo := fun (i : O) (j : O) (a : V) (k : O) => 2 * I.oovo i j a k - I.oovo j i a k  -- L560
  let Foo := fun (j : O) (i : O) => Foo j i + (∑ k : O, ∑ b : V, Ioovo k j b i * T1old b k)  -- L561
  let T2temp := fun (a : V) (b : V) (i : O) (j : O) => 2 * T2old a b i j - T2old a b j i  -- L564
  let Ioovv := fun (i : O) (j : O) (a : V) (b : V) => 2 * I.oovv i j a b - I.oovv j i a b  -- L565
  let tau2 := fun (a : V) (b : V) (i : O) (j : O) => T2old a b i j + (1/2) * (T1old a i * T1old b j)  -- L566
  let Fvv := fun (a : V) (b : V) => Fvv a b - (∑ j : O, ∑ k : O, ∑ c : V, Ioovv j k b c * tau2 a c j k)  -- L567
  let Foo := fun (j : O) (i : O) => Foo j i + (∑ k : O, ∑ b : V, ∑ c : V, Ioovv j k b c * tau2 b c i k)  -- L568
  let Fov := fun (j : O) (b : V) => Fov j b + (∑ k : O, ∑ c : V, Ioovv k j c b * T1old c k)  -- L569
  let T1 := fun (a : V) (i : O) => T1 a i + fac * (∑ j : O, ∑ b : V, Fov j b * T2temp a b i j)  -- L571
  let T1 := fun (a : V) (i : O) => T1 a i + fac * (∑ b : V, Fvv a b * T1old b i)  -- L572
  let T1 := fun (a : V) (i : O) => T1 a i - fac * (∑ j : O, Foo j i * T1old a j)  -- L573
  let Iovvo := fun (i : O) (a : V) (b : V) (j : O) => 2 * I.ovvo i a b j - I.ovov i a j b  -- L576
  let T1 := fun (a : V) (i : O) => T1 a i + fac * (∑ j : O, ∑ b : V, Iovvo j a b i * T1old b j)  -- L577
  let Ivovv := fun (a : V) (i : O) (b : V) (c : V) => 2 * I.vovv a i b c - I.vovv a i c b  -- L579
  let T1 := fun (a : V) (i : O) => T1 a i + fac * (∑ j : O, ∑ b : V, ∑ c : V, Ivovv a j b c * T2old b c i j)  -- L580
  let Iooov := fun (i : O) (j : O) (k : O) (a : V) => 2 * I.ooov i j k a - I.oovo i j a k  -- L582
  let T1 := fun (a : V) (i : O) => T1 a i - fac * (∑ j : O, ∑ k : O, ∑ b : V, Iooov j k i b * T2old a b j k)  -- L583
  let tau2 := fun (a : V) (b : V) (i : O) (j : O) => T2old a b i j + T1old a i * T1old b j  -- L587
  let Wo := I.oooo  -- L588
  let tmp := fun (k : O) (l : O) (i : O) (j : O) => ∑ c : V, I.ooov k l i c * T1old c j  -- L589
  let Wo := fun (i : O) (j : O) (k : O) (l : O) => Wo i j k l + (tmp i j k l + tmp j i l k)  -- L590
  let Wo := fun (k : O) (l : O) (i : O) (j : O) => Wo k l i j + (1/2) * (∑ c : V, ∑ d : V, I.oovv k l c d * tau2 c d i j)  -- L591
  let T2 := fun (a : V) (b : V) (i : O) (j : O) => T2 a b i j + fac * (∑ k : O, ∑ l : O, Wo k l i j * tau2 a b k l)  -- L592
  let Wv := I.vvvv  -- L595
  let tmp := fun (a : V) (b : V) (c : V) (d : V) => ∑ k : O, I.vovv a k c d * T1old b k  -- L596
  let Wv := fun (a : V) (b : V) (c : V) (d : V) => Wv a b c d - (tmp a b c d + tmp b a d c)  -- L597
  let Wv := fun (a : V) (b : V) (c : V) (d : V) => Wv a b c d + (1/2) * (∑ k : O, ∑ l : O, I.oovv k l c d * tau2 a b k l)  -- L598
  let T2 := fun (a : V) (b : V) (i : O) (j : O) => T2 a b i j + fac * (∑ c : V, ∑ d : V, Wv a b c d * tau2 c d i j)  -- L599
  let temp := fun (a : V) (b : V) (i : O) (j : O) => -(∑ k : O, ∑ c : V, I.ovvo k b c j * T1old c i * T1old a k)  -- L602
  let temp := fun (a : V) (b : V) (i : O) (j : O) => temp a b i j + temp b a j i  -- L603
  let T2 := fun (a : V) (b : V) (i : O) (j : O) => T2 a b i j + fac * temp a b i j  -- L604
  let temp := fun (a : V) (b : V) (i : O) (j : O) => -(∑ k : O, ∑ c : V, I.vovo a k c j * T1old c i * T1old b k)  -- L605
  let temp := fun (a : V) (b : V) (i : O) (j : O) => temp a b i j + temp b a j i  -- L606
  let T2 := fun (a : V) (b : V) (i : O) (j : O) => T2 a b i j + fac * temp a b i j  -- L607
  let TTT1 := fun (a : V) (b : V) (i : O) (j : O) => (1/2) * (T2old a b i j - T2old a b j i)  -- L610
  let TTT1 := fun (d : V) (b : V) (j : O) (l : O) => TTT1 d b j l + T1old d j * T1old b l  -- L611
  let TTT2 := fun (d : V) (b : V) (j : O) (l : O) => (1/2) * T2old d b j l + T1old d j * T1old b l  -- L612
  let W1 := fun (i : O) (a : V) (b : V) (j : O) => I.ovvo i a b j - I.ovov i a j b  -- L613
  let W1 := fun (k : O) (b : V) (c : V) (j : O) => W1 k b c j - (∑ d : V, (I.vovv b k c d - I.vovv b k d c) * T1old d j)  -- L614
  let W1 := fun (k : O) (b : V) (c : V) (j : O) => W1 k b c j + (∑ l : O, (I.ooov k l j c - I.oovo k l c j) * T1old b l)  -- L616
  let W1 := fun (k : O) (b : V) (c : V) (j : O) => W1 k b c j - (∑ l : O, ∑ d : V, (I.oovv k l c d - I.oovv k l d c) * TTT1 d b j l)  -- L618
  let W1 := fun (k : O) (b : V) (c : V) (j : O) => W1 k b c j + (1/2) * (∑ l : O, ∑ d : V, I.oovv k l c d * T2old b d j l)  -- L620
  let W2 := I.ovvo  -- L622
  let W2 := fun (k : O) (b : V) (c : V) (j : O) => W2 k b c j + (∑ d : V, I.ovvv k b c d * T1old d j)  -- L623
  let W2 := fun (k : O) (b : V) (c : V) (j : O) => W2 k b c j - (∑ l : O, I.oovo k l c j * T1old b l)  -- L624
  let W2 := fun (k : O) (b : V) (c : V) (j : O) => W2 k b c j - (∑ l : O, ∑ d : V, I.oovv k l c d * TTT1 d b j l)  -- L625
  let W2 := fun (k : O) (b : V) (c : V) (j : O) => W2 k b c j + (1/2) * (∑ l : O, ∑ d : V, (I.oovv k l c d - I.oovv k l d c) * T2old d b l j)  -- L626
  let W3 := fun (i : O) (a : V) (b : V) (j : O) => -I.ovov i a j b  -- L630
  let W3 := fun (k : O) (b : V) (c : V) (j : O) => W3 k b c j - (∑ d : V, I.ovvv k b d c * T1old d j)  -- L631
  let W3 := fun (k : O) (b : V) (c : V) (j : O) => W3 k b c j + (∑ l : O, I.ooov k l j c * T1old b l)  -- L632
  let W3 := fun (k : O) (b : V) (c : V) (j : O) => W3 k b c j + (∑ l : O, ∑ d : V, I.oovv k l d c * TTT2 d b j l)  -- L633
  let AT := fun (a : V) (b : V) (i : O) (j : O) => ∑ k : O, ∑ c : V, W2 k b c j * (T2old a c i k - T2old a c k i)  -- L636
  let AT := fun (a : V) (b : V) (i : O) (j : O) => AT a b i j + (∑ k : O, ∑ c : V, W1 k b c j * T2old a c i k)  -- L637
  let AT := fun (a : V) (b : V) (i : O) (j : O) => AT a b i j + (∑ k : O, ∑ c : V, W3 k a c j * T2old c b i k)  -- L638
  let T2 := fun (a : V) (b : V) (i : O) (j : O) => T2 a b i j + fac * (AT a b i j + AT b a j i)  -- L642
  let Fvv := fun (a : V) (b : V) => Fvv a b - (1/2) * (∑ j : O, Fov j b * T1old a j)  -- L644
  let AT := fun (a : V) (b : V) (i : O) (j : O) => ∑ c : V, Fvv b c * T2old a c i j  -- L645
  let AT := fun (a : V) (b : V) (i : O) (j : O) => AT a b i j - (∑ k : O, I.ovoo k b i j * T1old a k)  -- L646
  let T2 := fun (a : V) (b : V) (i : O) (j : O) => T2 a b i j + fac * (AT a b i j + AT b a j i)  -- L647
  let Foo := fun (j : O) (i : O) => Foo j i + (1/2) * (∑ b : V, Fov j b * T1old b i)  -- L649
  let AT := fun (a : V) (b : V) (i : O) (j : O) => ∑ k : O, Foo k j * T2old a b i k  -- L650
  let AT := fun (a : V) (b : V) (i : O) (j : O) => AT a b i j - (∑ c : V, I.vvvo a b c j * T1old c i)  -- L651
  let T2 := fun (a : V) (b : V) (i : O) (j : O) => T2 a b i j - fac * (AT a b i j + AT b a j i)  -- L652
  (T1, T2)

/-- `rccsd_stanton`, cc_equations.py:758-764. -/
def rccsd_stanton (F : OneE O V K) (I : TwoEFull O V O V K) (T1old : V → O → K) (T2old : V → V → O → O → K) :
    (V → O → K) × (V → V → O → O → K) :=
  let T1 := F.vo  -- L759
  let T2 := I.vvoo  -- L760
  let r := r_Stanton T1 T2 F I T1old T2old 1  -- L762
  let T1 := r.1
  let T2 := r.2
  (T1, T2)

end CC
