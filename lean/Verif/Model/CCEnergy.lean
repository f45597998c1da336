/-
GENERATED by tools/gen_cc.py from cqcpy/cc_energy.py (pure text translation); do not edit.
Energies.
Every definition cites the python function it mirrors; each `let` carries the source line
of the statement it translates.  Arithmetic is that of an arbitrary field of characteristic
zero (floating point rounding and dtypes are abstracted).
-/
import Verif.Model.Blocks

set_option linter.unusedVariables false
set_option maxRecDepth 4000

namespace CC

open Finset

variable {K : Type} [Field K]
variable {O V Oa Va Ob Vb : Type} [Fintype O] [Fintype V] [Fintype Oa] [Fintype Va]
  [Fintype Ob] [Fintype Vb]

/-- `cc_energy_d`, cc_energy.py:9-12. -/
def cc_energy_d (t2 : V → V → O → O → K) (eri : O → O → V → V → K) :
    K :=
  let Ed := (1/4) * (∑ a : V, ∑ b : V, ∑ i : O, ∑ j : O, t2 a b i j * eri i j a b)  -- L11
  Ed

/-- `cc_energy_s1`, cc_energy.py:15-18. -/
def cc_energy_s1 (t1 : V → O → K) (f : O → V → K) :
    K :=
  let Es1 := ∑ a : V, ∑ i : O, t1 a i * f i a  -- L17
  Es1

/-- `cc_energy_s2`, cc_energy.py:21-24. -/
def cc_energy_s2 (t1 : V → O → K) (eri : O → O → V → V → K) :
    K :=
  let Es2 := ∑ a : V, ∑ i : O, ∑ b : V, ∑ j : O, t1 a i * t1 b j * eri i j a b  -- L23
  Es2

/-- `cc_energy_s2_a`, cc_energy.py:27-29. -/
def cc_energy_s2_a (t11 : V → O → K) (t12 : V → O → K) (eri : O → O → V → V → K) :
    K :=
  let Es2 := ∑ a : V, ∑ i : O, ∑ b : V, ∑ j : O, t11 a i * t12 b j * eri i j a b  -- L28
  Es2

/-- `cc_energy`, cc_energy.py:32-37. -/
def cc_energy (t1 : V → O → K) (t2 : V → V → O → O → K) (f : O → V → K) (eri : O → O → V → V → K) :
    K :=
  let Ed := cc_energy_d t2 eri  -- L34
  let Es1 := cc_energy_s1 t1 f  -- L35
  let Es2 := cc_energy_s2 t1 eri  -- L36
  Ed + Es1 + (1/2) * Es2

/-- `mp2_energy`, cc_energy.py:40-44. -/
def mp2_energy (t1 : V → O → K) (t2 : V → V → O → O → K) (f : O → V → K) (eri : O → O → V → V → K) :
    K :=
  let Ed := cc_energy_d t2 eri  -- L42
  let Es1 := cc_energy_s1 t1 f  -- L43
  Ed + Es1

/-- `ucc_energy`, cc_energy.py:47-58. -/
def ucc_energy (t1 : (Va → Oa → K) × (Vb → Ob → K)) (t2 : (Va → Va → Oa → Oa → K) × (Va → Vb → Oa → Ob → K) × (Vb → Vb → Ob → Ob → K)) (fa : Oa → Va → K) (fb : Ob → Vb → K) (Ia : Oa → Oa → Va → Va → K) (Ib : Ob → Ob → Vb → Vb → K) (Iabab : Oa → Ob → Va → Vb → K) :
    K :=
  let t1a := t1.1  -- L48
  let t1b := t1.2  -- L48
  let t2aa := t2.1  -- L49
  let t2ab := t2.2.1  -- L49
  let t2bb := t2.2.2  -- L49
  let tauaa := fun (a : Va) (b : Va) (i : Oa) (j : Oa) => t2aa a b i j + 2 * (t1a a i * t1a b j)  -- L50
  let taubb := fun (a : Vb) (b : Vb) (i : Ob) (j : Ob) => t2bb a b i j + 2 * (t1b a i * t1b b j)  -- L51
  let tauab := fun (a : Va) (b : Vb) (i : Oa) (j : Ob) => t2ab a b i j + t1a a i * t1b b j  -- L52
  let s := ∑ i : Oa, ∑ a : Va, fa i a * t1a a i  -- L53
  let s := s + (∑ i : Ob, ∑ a : Vb, fb i a * t1b a i)  -- L54
  let d := (1/4) * (∑ i : Oa, ∑ j : Oa, ∑ a : Va, ∑ b : Va, Ia i j a b * tauaa a b i j)  -- L55
  let d := d + (1/4) * (∑ i : Ob, ∑ j : Ob, ∑ a : Vb, ∑ b : Vb, Ib i j a b * taubb a b i j)  -- L56
  let d := d + (∑ i : Oa, ∑ j : Ob, ∑ a : Va, ∑ b : Vb, Iabab i j a b * tauab a b i j)  -- L57
  d + s

/-- `rcc_energy`, cc_energy.py:61-66. -/
def rcc_energy (t1 : V → O → K) (t2 : V → V → O → O → K) (f : O → V → K) (I : O → O → V → V → K) :
    K :=
  let s := 2 * (∑ i : O, ∑ a : V, f i a * t1 a i)  -- L62
  let tau := fun (a : V) (b : V) (i : O) (j : O) => t2 a b i j + t1 a i * t1 b j  -- L63
  let d := 2 * (∑ a : V, ∑ b : V, ∑ i : O, ∑ j : O, tau a b i j * I i j a b)  -- L64
  let d := d - (∑ a : V, ∑ b : V, ∑ i : O, ∑ j : O, tau a b i j * I i j b a)  -- L65
  d + s

/-- `ump2_energy`, cc_energy.py:69-77. -/
def ump2_energy (t1 : (Va → Oa → K) × (Vb → Ob → K)) (t2 : (Va → Va → Oa → Oa → K) × (Va → Vb → Oa → Ob → K) × (Vb → Vb → Ob → Ob → K)) (fa : Oa → Va → K) (fb : Ob → Vb → K) (Ia : Oa → Oa → Va → Va → K) (Ib : Ob → Ob → Vb → Vb → K) (Iabab : Oa → Ob → Va → Vb → K) :
    K :=
  let t1a := t1.1  -- L70
  let t1b := t1.2  -- L70
  let t2aa := t2.1  -- L71
  let t2ab := t2.2.1  -- L71
  let t2bb := t2.2.2  -- L71
  let s := ∑ i : Oa, ∑ a : Va, fa i a * t1a a i  -- L72
  let s := s + (∑ i : Ob, ∑ a : Vb, fb i a * t1b a i)  -- L73
  let d := (1/4) * (∑ i : Oa, ∑ j : Oa, ∑ a : Va, ∑ b : Va, Ia i j a b * t2aa a b i j)  -- L74
  let d := d + (1/4) * (∑ i : Ob, ∑ j : Ob, ∑ a : Vb, ∑ b : Vb, Ib i j a b * t2bb a b i j)  -- L75
  let d := d + (∑ i : Oa, ∑ j : Ob, ∑ a : Va, ∑ b : Vb, Iabab i j a b * t2ab a b i j)  -- L76
  d + s

end CC
