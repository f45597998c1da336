/-
GENERATED by tools/gen_cc.py from cqcpy/cc_equations.py (pure text translation); do not edit.
Unrestricted reduced density matrices.
Every definition cites the python function it mirrors; each `let` carries the source line
of the statement it translates.  Arithmetic is that of an arbitrary field of characteristic
zero (floating point rounding and dtypes are abstracted).
-/
import Verif.Model.Blocks

set_option linter.unusedVariables false
set_option maxRecDepth 4000

namespace CC

open Finset

variable {K : Type} [Field K]
variable {O V Oa Va Ob Vb : Type} [Fintype O] [Fintype V] [Fintype Oa] [Fintype Va]
  [Fintype Ob] [Fintype Vb]

/-- `uccsd_1rdm_ba`, cc_equations.py:2633-2642. -/
def uccsd_1rdm_ba (T1a : Va → Oa → K) (T1b : Vb → Ob → K) (T2aa : Va → Va → Oa → Oa → K) (T2ab : Va → Vb → Oa → Ob → K) (T2bb : Vb → Vb → Ob → Ob → K) (L1a : Oa → Va → K) (L1b : Ob → Vb → K) (L2aa : Oa → Oa → Va → Va → K) (L2ab : Oa → Ob → Va → Vb → K) (L2bb : Ob → Ob → Vb → Vb → K) :
    (Va → Va → K) × (Vb → Vb → K) :=
  let pba_a := fun (b : Va) (a : Va) => ∑ i : Oa, L1a i a * T1a b i  -- L2635
  let pba_a := fun (b : Va) (a : Va) => pba_a b a + (1/2) * (∑ k : Oa, ∑ i : Oa, ∑ c : Va, L2aa k i c a * T2aa c b k i)  -- L2636
  let pba_a := fun (b : Va) (a : Va) => pba_a b a + (∑ i : Oa, ∑ k : Ob, ∑ c : Vb, L2ab i k a c * T2ab b c i k)  -- L2637
  let pba_b := fun (b : Vb) (a : Vb) => ∑ i : Ob, L1b i a * T1b b i  -- L2639
  let pba_b := fun (b : Vb) (a : Vb) => pba_b b a + (1/2) * (∑ k : Ob, ∑ i : Ob, ∑ c : Vb, L2bb k i c a * T2bb c b k i)  -- L2640
  let pba_b := fun (b : Vb) (a : Vb) => pba_b b a + (∑ k : Oa, ∑ i : Ob, ∑ c : Va, L2ab k i c a * T2ab c b k i)  -- L2641
  (pba_a, pba_b)

/-- `uccsd_1rdm_ji`, cc_equations.py:2645-2655. -/
def uccsd_1rdm_ji (T1a : Va → Oa → K) (T1b : Vb → Ob → K) (T2aa : Va → Va → Oa → Oa → K) (T2ab : Va → Vb → Oa → Ob → K) (T2bb : Vb → Vb → Ob → Ob → K) (L1a : Oa → Va → K) (L1b : Ob → Vb → K) (L2aa : Oa → Oa → Va → Va → K) (L2ab : Oa → Ob → Va → Vb → K) (L2bb : Ob → Ob → Vb → Vb → K) :
    (Oa → Oa → K) × (Ob → Ob → K) :=
  let pji_a := fun (j : Oa) (i : Oa) => -(∑ a : Va, L1a j a * T1a a i)  -- L2647
  let pji_a := fun (j : Oa) (i : Oa) => pji_a j i - (1/2) * (∑ k : Oa, ∑ c : Va, ∑ a : Va, L2aa k j c a * T2aa c a k i)  -- L2648
  let pji_a := fun (j : Oa) (i : Oa) => pji_a j i - (∑ k : Ob, ∑ a : Va, ∑ c : Vb, L2ab j k a c * T2ab a c i k)  -- L2649
  let pji_b := fun (j : Ob) (i : Ob) => -(∑ a : Vb, L1b j a * T1b a i)  -- L2651
  let pji_b := fun (j : Ob) (i : Ob) => pji_b j i - (1/2) * (∑ k : Ob, ∑ c : Vb, ∑ a : Vb, L2bb k j c a * T2bb c a k i)  -- L2652
  let pji_b := fun (j : Ob) (i : Ob) => pji_b j i - (∑ k : Oa, ∑ c : Va, ∑ a : Vb, L2ab k j c a * T2ab c a k i)  -- L2653
  (pji_a, pji_b)

/-- `uccsd_1rdm_ai`, cc_equations.py:2658-2687. -/
def uccsd_1rdm_ai (T1a : Va → Oa → K) (T1b : Vb → Ob → K) (T2aa : Va → Va → Oa → Oa → K) (T2ab : Va → Vb → Oa → Ob → K) (T2bb : Vb → Vb → Ob → Ob → K) (L1a : Oa → Va → K) (L1b : Ob → Vb → K) (L2aa : Oa → Oa → Va → Va → K) (L2ab : Oa → Ob → Va → Vb → K) (L2bb : Ob → Ob → Vb → Vb → K) (tfac : K) :
    (Va → Oa → K) × (Vb → Ob → K) :=
  let T2tempaa := fun (b : Va) (a : Va) (j : Oa) (i : Oa) => T2aa b a j i - T1a b i * T1a a j  -- L2660
  let T2tempbb := fun (b : Vb) (a : Vb) (j : Ob) (i : Ob) => T2bb b a j i - T1b b i * T1b a j  -- L2661
  let T2tempab := T2ab  -- L2662
  let pai_a := fun (a : Va) (i : Oa) => tfac * T1a a i  -- L2664
  let pai_a := fun (a : Va) (i : Oa) => pai_a a i + (∑ j : Oa, ∑ b : Va, L1a j b * T2tempaa b a j i)  -- L2665
  let pai_a := fun (a : Va) (i : Oa) => pai_a a i + (∑ j : Ob, ∑ b : Vb, L1b j b * T2tempab a b i j)  -- L2666
  let Pac_a := fun (a : Va) (c : Va) => (1/2) * (∑ k : Oa, ∑ j : Oa, ∑ b : Va, L2aa k j c b * T2aa a b k j)  -- L2668
  let Pac_a := fun (a : Va) (c : Va) => Pac_a a c + (∑ k : Oa, ∑ j : Ob, ∑ b : Vb, L2ab k j c b * T2ab a b k j)  -- L2669
  let pai_a := fun (a : Va) (i : Oa) => pai_a a i - (∑ c : Va, Pac_a a c * T1a c i)  -- L2670
  let Pik_a := fun (i : Oa) (k : Oa) => (1/2) * (∑ j : Oa, ∑ c : Va, ∑ b : Va, L2aa k j c b * T2aa c b i j)  -- L2672
  let Pik_a := fun (i : Oa) (k : Oa) => Pik_a i k + (∑ j : Ob, ∑ c : Va, ∑ b : Vb, L2ab k j c b * T2ab c b i j)  -- L2673
  let pai_a := fun (a : Va) (i : Oa) => pai_a a i - (∑ k : Oa, Pik_a i k * T1a a k)  -- L2674
  let pai_b := fun (a : Vb) (i : Ob) => tfac * T1b a i  -- L2676
  let pai_b := fun (a : Vb) (i : Ob) => pai_b a i + (∑ j : Ob, ∑ b : Vb, L1b j b * T2tempbb b a j i)  -- L2677
  let pai_b := fun (a : Vb) (i : Ob) => pai_b a i + (∑ j : Oa, ∑ b : Va, L1a j b * T2tempab b a j i)  -- L2678
  let Pac_b := fun (a : Vb) (c : Vb) => (1/2) * (∑ k : Ob, ∑ j : Ob, ∑ b : Vb, L2bb k j c b * T2bb a b k j)  -- L2680
  let Pac_b := fun (a : Vb) (c : Vb) => Pac_b a c + (∑ j : Oa, ∑ k : Ob, ∑ b : Va, L2ab j k b c * T2ab b a j k)  -- L2681
  let pai_b := fun (a : Vb) (i : Ob) => pai_b a i - (∑ c : Vb, Pac_b a c * T1b c i)  -- L2682
  let Pik_b := fun (i : Ob) (k : Ob) => (1/2) * (∑ j : Ob, ∑ c : Vb, ∑ b : Vb, L2bb k j c b * T2bb c b i j)  -- L2684
  let Pik_b := fun (i : Ob) (k : Ob) => Pik_b i k + (∑ j : Oa, ∑ b : Va, ∑ c : Vb, L2ab j k b c * T2ab b c j i)  -- L2685
  let pai_b := fun (a : Vb) (i : Ob) => pai_b a i - (∑ k : Ob, Pik_b i k * T1b a k)  -- L2686
  (pai_a, pai_b)

/-- `uccsd_2rdm_ciab`, cc_equations.py:2731-2738. -/
def uccsd_2rdm_ciab (T1a : Va → Oa → K) (T1b : Vb → Ob → K) (T2aa : Va → Va → Oa → Oa → K) (T2ab : Va → Vb → Oa → Ob → K) (T2bb : Vb → Vb → Ob → Ob → K) (L1a : Oa → Va → K) (L1b : Ob → Vb → K) (L2aa : Oa → Oa → Va → Va → K) (L2ab : Oa → Ob → Va → Vb → K) (L2bb : Ob → Ob → Vb → Vb → K) :
    (Va → Oa → Va → Va → K) × (Vb → Ob → Vb → Vb → K) × (Va → Ob → Va → Vb → K) × (Vb → Oa → Vb → Va → K) :=
  let Pciab := fun (c : Va) (i : Oa) (a : Va) (b : Va) => ∑ j : Oa, L2aa j i a b * T1a c j  -- L2733
  let PCIAB := fun (c : Vb) (i : Ob) (a : Vb) (b : Vb) => ∑ j : Ob, L2bb j i a b * T1b c j  -- L2734
  let PcIaB := fun (c : Va) (i : Ob) (a : Va) (b : Vb) => ∑ j : Oa, L2ab j i a b * T1a c j  -- L2735
  let PCiAb := fun (c : Vb) (i : Oa) (a : Vb) (b : Va) => ∑ j : Ob, L2ab i j b a * T1b c j  -- L2736
  (Pciab, PCIAB, PcIaB, PCiAb)

/-- `uccsd_2rdm_jkai`, cc_equations.py:2741-2747. -/
def uccsd_2rdm_jkai (T1a : Va → Oa → K) (T1b : Vb → Ob → K) (T2aa : Va → Va → Oa → Oa → K) (T2ab : Va → Vb → Oa → Ob → K) (T2bb : Vb → Vb → Ob → Ob → K) (L1a : Oa → Va → K) (L1b : Ob → Vb → K) (L2aa : Oa → Oa → Va → Va → K) (L2ab : Oa → Ob → Va → Vb → K) (L2bb : Ob → Ob → Vb → Vb → K) :
    (Oa → Oa → Va → Oa → K) × (Ob → Ob → Vb → Ob → K) × (Oa → Ob → Va → Ob → K) × (Ob → Oa → Vb → Oa → K) :=
  let Pjkai := fun (j : Oa) (k : Oa) (a : Va) (i : Oa) => -(∑ b : Va, L2aa j k a b * T1a b i)  -- L2743
  let PjKaI := fun (j : Oa) (k : Ob) (a : Va) (i : Ob) => -(∑ b : Vb, L2ab j k a b * T1b b i)  -- L2744
  let PJkAi := fun (J : Ob) (k : Oa) (A : Vb) (i : Oa) => -(∑ b : Va, L2ab k J b A * T1a b i)  -- L2745
  let PJKAI := fun (j : Ob) (k : Ob) (a : Vb) (i : Ob) => -(∑ b : Vb, L2bb j k a b * T1b b i)  -- L2746
  (Pjkai, PJKAI, PjKaI, PJkAi)

/-- `uccsd_2rdm_cdab`, cc_equations.py:2750-2760. -/
def uccsd_2rdm_cdab (T1a : Va → Oa → K) (T1b : Vb → Ob → K) (T2aa : Va → Va → Oa → Oa → K) (T2ab : Va → Vb → Oa → Ob → K) (T2bb : Vb → Vb → Ob → Ob → K) (L1a : Oa → Va → K) (L1b : Ob → Vb → K) (L2aa : Oa → Oa → Va → Va → K) (L2ab : Oa → Ob → Va → Vb → K) (L2bb : Ob → Ob → Vb → Vb → K) :
    (Va → Va → Va → Va → K) × (Vb → Vb → Vb → Vb → K) × (Va → Vb → Va → Vb → K) :=
  let T2tempaa := fun (c : Va) (d : Va) (i : Oa) (j : Oa) => T2aa c d i j + T1a c i * T1a d j  -- L2752
  let T2tempbb := fun (c : Vb) (d : Vb) (i : Ob) (j : Ob) => T2bb c d i j + T1b c i * T1b d j  -- L2753
  let T2tempab := fun (c : Va) (d : Vb) (i : Oa) (j : Ob) => T2ab c d i j + T1a c i * T1b d j  -- L2754
  let T2tempaa := fun (c : Va) (d : Va) (i : Oa) (j : Oa) => T2tempaa c d i j - T1a d i * T1a c j  -- L2755
  let T2tempbb := fun (c : Vb) (d : Vb) (i : Ob) (j : Ob) => T2tempbb c d i j - T1b d i * T1b c j  -- L2756
  let Pcdab := fun (c : Va) (d : Va) (a : Va) (b : Va) => (1/2) * (∑ i : Oa, ∑ j : Oa, L2aa i j a b * T2tempaa c d i j)  -- L2757
  let PCDAB := fun (c : Vb) (d : Vb) (a : Vb) (b : Vb) => (1/2) * (∑ i : Ob, ∑ j : Ob, L2bb i j a b * T2tempbb c d i j)  -- L2758
  let PcDaB := fun (c : Va) (d : Vb) (a : Va) (b : Vb) => ∑ i : Oa, ∑ j : Ob, L2ab i j a b * T2tempab c d i j  -- L2759
  (Pcdab, PCDAB, PcDaB)

/-- `uccsd_2rdm_bjai`, cc_equations.py:2763-2787. -/
def uccsd_2rdm_bjai (T1a : Va → Oa → K) (T1b : Vb → Ob → K) (T2aa : Va → Va → Oa → Oa → K) (T2ab : Va → Vb → Oa → Ob → K) (T2bb : Vb → Vb → Ob → Ob → K) (L1a : Oa → Va → K) (L1b : Ob → Vb → K) (L2aa : Oa → Oa → Va → Va → K) (L2ab : Oa → Ob → Va → Vb → K) (L2bb : Ob → Ob → Vb → Vb → K) :
    (Va → Oa → Va → Oa → K) × (Vb → Ob → Vb → Ob → K) × (Va → Ob → Va → Ob → K) × (Va → Ob → Vb → Oa → K) × (Vb → Oa → Va → Ob → K) × (Vb → Oa → Vb → Oa → K) :=
  let Pbjai := fun (b : Va) (j : Oa) (a : Va) (i : Oa) => -(T1a b i * L1a j a)  -- L2765
  let PbJAi := fun (b : Va) (j : Ob) (a : Vb) (i : Oa) => -(T1a b i * L1b j a)  -- L2766
  let PBjaI := fun (b : Vb) (j : Oa) (a : Va) (i : Ob) => -(T1b b i * L1a j a)  -- L2767
  let PBJAI := fun (b : Vb) (j : Ob) (a : Vb) (i : Ob) => -(T1b b i * L1b j a)  -- L2768
  let T2tempaa := fun (b : Va) (c : Va) (k : Oa) (i : Oa) => T2aa b c k i + T1a b k * T1a c i  -- L2769
  let T2tempab := fun (b : Va) (c : Vb) (k : Oa) (i : Ob) => T2ab b c k i + T1a b k * T1b c i  -- L2770
  let T2tempbb := fun (b : Vb) (c : Vb) (k : Ob) (i : Ob) => T2bb b c k i + T1b b k * T1b c i  -- L2771
  let Pbjai := fun (b : Va) (j : Oa) (a : Va) (i : Oa) => Pbjai b j a i - (∑ k : Oa, ∑ c : Va, L2aa k j a c * T2tempaa b c k i)  -- L2772
  let Pbjai := fun (b : Va) (j : Oa) (a : Va) (i : Oa) => Pbjai b j a i - (∑ K : Ob, ∑ C : Vb, L2ab j K a C * T2ab b C i K)  -- L2773
  let PbJaI := fun (b : Va) (J : Ob) (a : Va) (I : Ob) => -(∑ k : Oa, ∑ C : Vb, L2ab k J a C * T2tempab b C k I)  -- L2775
  let PbJAi := fun (b : Va) (J : Ob) (A : Vb) (i : Oa) => PbJAi b J A i + (∑ k : Oa, ∑ c : Va, L2ab k J c A * T2tempaa b c k i)  -- L2777
  let PbJAi := fun (b : Va) (J : Ob) (A : Vb) (i : Oa) => PbJAi b J A i + (∑ K : Ob, ∑ C : Vb, L2bb K J A C * T2ab b C i K)  -- L2778
  let PBjaI := fun (B : Vb) (j : Oa) (a : Va) (I : Ob) => PBjaI B j a I + (∑ k : Oa, ∑ c : Va, L2aa k j a c * T2ab c B k I)  -- L2780
  let PBjaI := fun (B : Vb) (j : Oa) (a : Va) (I : Ob) => PBjaI B j a I + (∑ K : Ob, ∑ C : Vb, L2ab j K a C * T2tempbb B C K I)  -- L2781
  let PBjAi := fun (B : Vb) (j : Oa) (A : Vb) (i : Oa) => -(∑ K : Ob, ∑ c : Va, L2ab j K c A * T2tempab c B i K)  -- L2783
  let PBJAI := fun (b : Vb) (j : Ob) (a : Vb) (i : Ob) => PBJAI b j a i - (∑ k : Ob, ∑ c : Vb, L2bb k j a c * T2tempbb b c k i)  -- L2785
  let PBJAI := fun (B : Vb) (J : Ob) (A : Vb) (I : Ob) => PBJAI B J A I - (∑ k : Oa, ∑ c : Va, L2ab k J c A * T2ab c B k I)  -- L2786
  (Pbjai, PBJAI, PbJaI, PbJAi, PBjaI, PBjAi)

/-- `uccsd_2rdm_klij`, cc_equations.py:2790-2800. -/
def uccsd_2rdm_klij (T1a : Va → Oa → K) (T1b : Vb → Ob → K) (T2aa : Va → Va → Oa → Oa → K) (T2ab : Va → Vb → Oa → Ob → K) (T2bb : Vb → Vb → Ob → Ob → K) (L1a : Oa → Va → K) (L1b : Ob → Vb → K) (L2aa : Oa → Oa → Va → Va → K) (L2ab : Oa → Ob → Va → Vb → K) (L2bb : Ob → Ob → Vb → Vb → K) :
    (Oa → Oa → Oa → Oa → K) × (Ob → Ob → Ob → Ob → K) × (Oa → Ob → Oa → Ob → K) :=
  let T2tempaa := fun (c : Va) (d : Va) (i : Oa) (j : Oa) => T2aa c d i j + T1a c i * T1a d j  -- L2792
  let T2tempab := fun (c : Va) (d : Vb) (i : Oa) (j : Ob) => T2ab c d i j + T1a c i * T1b d j  -- L2793
  let T2tempbb := fun (c : Vb) (d : Vb) (i : Ob) (j : Ob) => T2bb c d i j + T1b c i * T1b d j  -- L2794
  let T2tempaa := fun (c : Va) (d : Va) (i : Oa) (j : Oa) => T2tempaa c d i j - T1a d i * T1a c j  -- L2795
  let T2tempbb := fun (c : Vb) (d : Vb) (i : Ob) (j : Ob) => T2tempbb c d i j - T1b d i * T1b c j  -- L2796
  let Pklij := fun (k : Oa) (l : Oa) (i : Oa) (j : Oa) => (1/2) * (∑ a : Va, ∑ b : Va, L2aa k l a b * T2tempaa a b i j)  -- L2797
  let PkLiJ := fun (k : Oa) (l : Ob) (i : Oa) (j : Ob) => ∑ a : Va, ∑ b : Vb, L2ab k l a b * T2tempab a b i j  -- L2798
  let PKLIJ := fun (k : Ob) (l : Ob) (i : Ob) (j : Ob) => (1/2) * (∑ a : Vb, ∑ b : Vb, L2bb k l a b * T2tempbb a b i j)  -- L2799
  (Pklij, PKLIJ, PkLiJ)

/-- `uccsd_2rdm_bcai`, cc_equations.py:2803-2856. -/
def uccsd_2rdm_bcai (T1a : Va → Oa → K) (T1b : Vb → Ob → K) (T2aa : Va → Va → Oa → Oa → K) (T2ab : Va → Vb → Oa → Ob → K) (T2bb : Vb → Vb → Ob → Ob → K) (L1a : Oa → Va → K) (L1b : Ob → Vb → K) (L2aa : Oa → Oa → Va → Va → K) (L2ab : Oa → Ob → Va → Vb → K) (L2bb : Ob → Ob → Vb → Vb → K) :
    (Va → Va → Va → Oa → K) × (Vb → Vb → Vb → Ob → K) × (Va → Vb → Va → Ob → K) × (Vb → Va → Vb → Oa → K) :=
  let T2tempaa := fun (c : Va) (d : Va) (i : Oa) (j : Oa) => T2aa c d i j + T1a c i * T1a d j  -- L2805
  let T2tempab := fun (c : Va) (d : Vb) (i : Oa) (j : Ob) => T2ab c d i j + T1a c i * T1b d j  -- L2806
  let T2tempbb := fun (c : Vb) (d : Vb) (i : Ob) (j : Ob) => T2bb c d i j + T1b c i * T1b d j  -- L2807
  let T2tempaa := fun (c : Va) (d : Va) (i : Oa) (j : Oa) => T2tempaa c d i j - T1a d i * T1a c j  -- L2808
  let T2tempbb := fun (c : Vb) (d : Vb) (i : Ob) (j : Ob) => T2tempbb c d i j - T1b d i * T1b c j  -- L2809
  let Pbcai := fun (b : Va) (c : Va) (a : Va) (i : Oa) => ∑ j : Oa, L1a j a * T2tempaa b c j i  -- L2810
  let PbCaI := fun (b : Va) (C : Vb) (a : Va) (I : Ob) => ∑ j : Oa, L1a j a * T2tempab b C j I  -- L2811
  let PBcAi := fun (B : Vb) (c : Va) (A : Vb) (i : Oa) => ∑ J : Ob, L1b J A * T2tempab c B i J  -- L2812
  let PBCAI := fun (b : Vb) (c : Vb) (a : Vb) (i : Ob) => ∑ j : Ob, L1b j a * T2tempbb b c j i  -- L2813
  let LTba := fun (b : Va) (a : Va) => ∑ j : Oa, ∑ l : Oa, ∑ d : Va, L2aa j l a d * T2aa b d j l  -- L2815
  let LTba := fun (b : Va) (a : Va) => LTba b a + 2 * (∑ j : Oa, ∑ L : Ob, ∑ D : Vb, L2ab j L a D * T2ab b D j L)  -- L2816
  let LTBA := fun (b : Vb) (a : Vb) => ∑ j : Ob, ∑ l : Ob, ∑ d : Vb, L2bb j l a d * T2bb b d j l  -- L2817
  let LTBA := fun (B : Vb) (A : Vb) => LTBA B A + 2 * (∑ l : Oa, ∑ J : Ob, ∑ d : Va, L2ab l J d A * T2ab d B l J)  -- L2818
  let Pbcai := fun (b : Va) (c : Va) (a : Va) (i : Oa) => Pbcai b c a i + (1/2) * (LTba b a * T1a c i)  -- L2819
  let Pbcai := fun (b : Va) (c : Va) (a : Va) (i : Oa) => Pbcai b c a i - (1/2) * (LTba c a * T1a b i)  -- L2820
  let PBCAI := fun (b : Vb) (c : Vb) (a : Vb) (i : Ob) => PBCAI b c a i + (1/2) * (LTBA b a * T1b c i)  -- L2822
  let PBCAI := fun (b : Vb) (c : Vb) (a : Vb) (i : Ob) => PBCAI b c a i - (1/2) * (LTBA c a * T1b b i)  -- L2823
  let PbCaI := fun (b : Va) (C : Vb) (a : Va) (I : Ob) => PbCaI b C a I + (1/2) * (LTba b a * T1b C I)  -- L2825
  let PBcAi := fun (B : Vb) (c : Va) (A : Vb) (i : Oa) => PBcAi B c A i + (1/2) * (LTBA B A * T1a c i)  -- L2827
  let LTtempaa := fun (j : Oa) (c : Va) (a : Va) (i : Oa) => ∑ k : Oa, ∑ d : Va, L2aa j k a d * T2aa c d i k  -- L2829
  let LTtempaa := fun (j : Oa) (c : Va) (a : Va) (i : Oa) => LTtempaa j c a i + (∑ K : Ob, ∑ D : Vb, L2ab j K a D * T2ab c D i K)  -- L2830
  let LTtempbb := fun (j : Ob) (c : Vb) (a : Vb) (i : Ob) => ∑ k : Ob, ∑ d : Vb, L2bb j k a d * T2bb c d i k  -- L2831
  let LTtempbb := fun (J : Ob) (C : Vb) (A : Vb) (I : Ob) => LTtempbb J C A I + (∑ k : Oa, ∑ d : Va, L2ab k J d A * T2ab d C k I)  -- L2832
  let LTtempab1 := fun (j : Oa) (C : Vb) (a : Va) (I : Ob) => ∑ k : Oa, ∑ d : Va, L2aa j k a d * T2ab d C k I  -- L2833
  let LTtempab1 := fun (j : Oa) (C : Vb) (a : Va) (I : Ob) => LTtempab1 j C a I + (∑ K : Ob, ∑ D : Vb, L2ab j K a D * T2bb C D I K)  -- L2834
  let LTtempab2 := fun (J : Ob) (c : Va) (a : Va) (I : Ob) => ∑ k : Oa, ∑ D : Vb, L2ab k J a D * T2ab c D k I  -- L2835
  let LTtempab3 := fun (J : Ob) (c : Va) (A : Vb) (i : Oa) => ∑ k : Oa, ∑ d : Va, L2ab k J d A * T2aa c d i k  -- L2836
  let LTtempab3 := fun (J : Ob) (c : Va) (A : Vb) (i : Oa) => LTtempab3 J c A i + (∑ K : Ob, ∑ D : Vb, L2bb J K A D * T2ab c D i K)  -- L2837
  let LTtempab4 := fun (j : Oa) (C : Vb) (A : Vb) (i : Oa) => ∑ K : Ob, ∑ d : Va, L2ab j K d A * T2ab d C i K  -- L2838
  let Pbcai := fun (b : Va) (c : Va) (a : Va) (i : Oa) => Pbcai b c a i + (∑ j : Oa, LTtempaa j c a i * T1a b j)  -- L2840
  let Pbcai := fun (b : Va) (c : Va) (a : Va) (i : Oa) => Pbcai b c a i - (∑ j : Oa, LTtempaa j b a i * T1a c j)  -- L2841
  let PBCAI := fun (b : Vb) (c : Vb) (a : Vb) (i : Ob) => PBCAI b c a i + (∑ j : Ob, LTtempbb j c a i * T1b b j)  -- L2843
  let PBCAI := fun (b : Vb) (c : Vb) (a : Vb) (i : Ob) => PBCAI b c a i - (∑ j : Ob, LTtempbb j b a i * T1b c j)  -- L2844
  let PbCaI := fun (b : Va) (C : Vb) (a : Va) (I : Ob) => PbCaI b C a I + (∑ j : Oa, LTtempab1 j C a I * T1a b j)  -- L2846
  let PbCaI := fun (b : Va) (C : Vb) (a : Va) (I : Ob) => PbCaI b C a I - (∑ J : Ob, LTtempab2 J b a I * T1b C J)  -- L2847
  let PBcAi := fun (B : Vb) (c : Va) (A : Vb) (i : Oa) => PBcAi B c A i + (∑ J : Ob, LTtempab3 J c A i * T1b B J)  -- L2849
  let PBcAi := fun (B : Vb) (c : Va) (A : Vb) (i : Oa) => PBcAi B c A i - (∑ j : Oa, LTtempab4 j B A i * T1a c j)  -- L2850
  let Pbcai := fun (b : Va) (c : Va) (a : Va) (i : Oa) => Pbcai b c a i - (1/2) * (∑ k : Oa, ∑ j : Oa, ∑ d : Va, L2aa k j d a * T2tempaa c b k j * T1a d i)  -- L2852
  let PbCaI := fun (b : Va) (C : Vb) (a : Va) (I : Ob) => PbCaI b C a I - (∑ j : Oa, ∑ K : Ob, ∑ D : Vb, L2ab j K a D * T2tempab b C j K * T1b D I)  -- L2853
  let PBcAi := fun (B : Vb) (c : Va) (A : Vb) (i : Oa) => PBcAi B c A i - (∑ k : Oa, ∑ J : Ob, ∑ d : Va, L2ab k J d A * T2tempab c B k J * T1a d i)  -- L2854
  let PBCAI := fun (b : Vb) (c : Vb) (a : Vb) (i : Ob) => PBCAI b c a i - (1/2) * (∑ k : Ob, ∑ j : Ob, ∑ d : Vb, L2bb k j d a * T2tempbb c b k j * T1b d i)  -- L2855
  (Pbcai, PBCAI, PbCaI, PBcAi)

/-- `uccsd_2rdm_kaij`, cc_equations.py:2859-2914. -/
def uccsd_2rdm_kaij (T1a : Va → Oa → K) (T1b : Vb → Ob → K) (T2aa : Va → Va → Oa → Oa → K) (T2ab : Va → Vb → Oa → Ob → K) (T2bb : Vb → Vb → Ob → Ob → K) (L1a : Oa → Va → K) (L1b : Ob → Vb → K) (L2aa : Oa → Oa → Va → Va → K) (L2ab : Oa → Ob → Va → Vb → K) (L2bb : Ob → Ob → Vb → Vb → K) :
    (Oa → Va → Oa → Oa → K) × (Ob → Vb → Ob → Ob → K) × (Oa → Vb → Oa → Ob → K) × (Ob → Va → Ob → Oa → K) :=
  let T2tempaa := fun (c : Va) (d : Va) (i : Oa) (j : Oa) => T2aa c d i j + T1a c i * T1a d j  -- L2862
  let T2tempab := fun (c : Va) (d : Vb) (i : Oa) (j : Ob) => T2ab c d i j + T1a c i * T1b d j  -- L2863
  let T2tempbb := fun (c : Vb) (d : Vb) (i : Ob) (j : Ob) => T2bb c d i j + T1b c i * T1b d j  -- L2864
  let T2tempaa := fun (c : Va) (d : Va) (i : Oa) (j : Oa) => T2tempaa c d i j - T1a d i * T1a c j  -- L2865
  let T2tempbb := fun (c : Vb) (d : Vb) (i : Ob) (j : Ob) => T2tempbb c d i j - T1b d i * T1b c j  -- L2866
  let Pkaij := fun (k : Oa) (a : Va) (i : Oa) (j : Oa) => -(∑ b : Va, L1a k b * T2tempaa b a i j)  -- L2867
  let PkAiJ := fun (k : Oa) (A : Vb) (i : Oa) (J : Ob) => -(∑ b : Va, L1a k b * T2tempab b A i J)  -- L2868
  let PKaIj := fun (K : Ob) (a : Va) (I : Ob) (j : Oa) => -(∑ B : Vb, L1b K B * T2tempab a B j I)  -- L2869
  let PKAIJ := fun (k : Ob) (a : Vb) (i : Ob) (j : Ob) => -(∑ b : Vb, L1b k b * T2tempbb b a i j)  -- L2870
  let LToa := fun (k : Oa) (i : Oa) => ∑ l : Oa, ∑ c : Va, ∑ d : Va, L2aa k l c d * T2aa c d i l  -- L2872
  let LToa := fun (k : Oa) (i : Oa) => LToa k i + 2 * (∑ L : Ob, ∑ c : Va, ∑ D : Vb, L2ab k L c D * T2ab c D i L)  -- L2873
  let LTob := fun (k : Ob) (i : Ob) => ∑ l : Ob, ∑ c : Vb, ∑ d : Vb, L2bb k l c d * T2bb c d i l  -- L2874
  let LTob := fun (K : Ob) (I : Ob) => LTob K I + 2 * (∑ l : Oa, ∑ d : Va, ∑ C : Vb, L2ab l K d C * T2ab d C l I)  -- L2875
  let tmpaa := fun (k : Oa) (a : Va) (i : Oa) (j : Oa) => (-(1/2)) * (LToa k i * T1a a j)  -- L2876
  let tmpab := fun (k : Oa) (A : Vb) (i : Oa) (J : Ob) => (-(1/2)) * (LToa k i * T1b A J)  -- L2877
  let tmpba := fun (K : Ob) (a : Va) (I : Ob) (j : Oa) => (-(1/2)) * (LTob K I * T1a a j)  -- L2878
  let tmpbb := fun (k : Ob) (a : Vb) (i : Ob) (j : Ob) => (-(1/2)) * (LTob k i * T1b a j)  -- L2879
  let Pkaij := fun (i : Oa) (a : Va) (j : Oa) (k : Oa) => Pkaij i a j k + (tmpaa i a j k - tmpaa i a k j)  -- L2880
  let PkAiJ := fun (i : Oa) (a : Vb) (j : Oa) (k : Ob) => PkAiJ i a j k + tmpab i a j k  -- L2881
  let PKaIj := fun (i : Ob) (a : Va) (j : Ob) (k : Oa) => PKaIj i a j k + tmpba i a j k  -- L2882
  let PKAIJ := fun (i : Ob) (a : Vb) (j : Ob) (k : Ob) => PKAIJ i a j k + (tmpbb i a j k - tmpbb i a k j)  -- L2883
  let Lklid := fun (k : Oa) (l : Oa) (i : Oa) (d : Va) => ∑ c : Va, L2aa k l c d * T1a c i  -- L2885
  let LkLiD := fun (k : Oa) (L : Ob) (i : Oa) (D : Vb) => ∑ c : Va, L2ab k L c D * T1a c i  -- L2886
  let LKlId := fun (K : Ob) (l : Oa) (I : Ob) (d : Va) => ∑ C : Vb, L2ab l K d C * T1b C I  -- L2887
  let LKLID := fun (k : Ob) (l : Ob) (i : Ob) (d : Vb) => ∑ c : Vb, L2bb k l c d * T1b c i  -- L2888
  let LkLId := fun (k : Oa) (L : Ob) (I : Ob) (d : Va) => -(∑ C : Vb, L2ab k L d C * T1b C I)  -- L2889
  let LKliD := fun (K : Ob) (l : Oa) (i : Oa) (D : Vb) => -(∑ c : Va, L2ab l K c D * T1a c i)  -- L2890
  let tmpaa := fun (k : Oa) (a : Va) (i : Oa) (j : Oa) => -(∑ l : Oa, ∑ d : Va, Lklid k l i d * T2aa a d j l)  -- L2891
  let tmpaa := fun (k : Oa) (a : Va) (i : Oa) (j : Oa) => tmpaa k a i j - (∑ L : Ob, ∑ D : Vb, LkLiD k L i D * T2ab a D j L)  -- L2892
  let tmpab := fun (k : Oa) (A : Vb) (i : Oa) (J : Ob) => -(∑ l : Oa, ∑ d : Va, Lklid k l i d * T2ab d A l J)  -- L2894
  let tmpab := fun (k : Oa) (A : Vb) (i : Oa) (J : Ob) => tmpab k A i J - (∑ L : Ob, ∑ D : Vb, LkLiD k L i D * T2bb A D J L)  -- L2895
  let tmpab := fun (k : Oa) (A : Vb) (i : Oa) (J : Ob) => tmpab k A i J - (∑ L : Ob, ∑ d : Va, LkLId k L J d * T2ab d A i L)  -- L2896
  let tmpba := fun (K : Ob) (a : Va) (I : Ob) (j : Oa) => -(∑ l : Oa, ∑ d : Va, LKlId K l I d * T2aa a d j l)  -- L2898
  let tmpba := fun (K : Ob) (a : Va) (I : Ob) (j : Oa) => tmpba K a I j - (∑ L : Ob, ∑ D : Vb, LKLID K L I D * T2ab a D j L)  -- L2899
  let tmpba := fun (K : Ob) (a : Va) (I : Ob) (j : Oa) => tmpba K a I j - (∑ l : Oa, ∑ D : Vb, LKliD K l j D * T2ab a D l I)  -- L2900
  let tmpbb := fun (k : Ob) (a : Vb) (i : Ob) (j : Ob) => -(∑ l : Ob, ∑ d : Vb, LKLID k l i d * T2bb a d j l)  -- L2902
  let tmpbb := fun (K : Ob) (A : Vb) (I : Ob) (J : Ob) => tmpbb K A I J - (∑ l : Oa, ∑ d : Va, LKlId K l I d * T2ab d A l J)  -- L2903
  let Pkaij := fun (i : Oa) (a : Va) (j : Oa) (k : Oa) => Pkaij i a j k + (tmpaa i a j k - tmpaa i a k j)  -- L2905
  let PkAiJ := fun (i : Oa) (a : Vb) (j : Oa) (k : Ob) => PkAiJ i a j k + tmpab i a j k  -- L2906
  let PKaIj := fun (i : Ob) (a : Va) (j : Ob) (k : Oa) => PKaIj i a j k + tmpba i a j k  -- L2907
  let PKAIJ := fun (i : Ob) (a : Vb) (j : Ob) (k : Ob) => PKAIJ i a j k + (tmpbb i a j k - tmpbb i a k j)  -- L2908
  let Pkaij := fun (k : Oa) (a : Va) (i : Oa) (j : Oa) => Pkaij k a i j + (1/2) * (∑ l : Oa, ∑ d : Va, ∑ b : Va, L2aa l k d b * T2tempaa d b j i * T1a a l)  -- L2910
  let PkAiJ := fun (k : Oa) (A : Vb) (i : Oa) (J : Ob) => PkAiJ k A i J + (∑ L : Ob, ∑ b : Va, ∑ D : Vb, L2ab k L b D * T2tempab b D i J * T1b A L)  -- L2911
  let PKaIj := fun (K : Ob) (a : Va) (I : Ob) (j : Oa) => PKaIj K a I j + (∑ l : Oa, ∑ d : Va, ∑ B : Vb, L2ab l K d B * T2tempab d B j I * T1a a l)  -- L2912
  let PKAIJ := fun (k : Ob) (a : Vb) (i : Ob) (j : Ob) => PKAIJ k a i j + (1/2) * (∑ l : Ob, ∑ d : Vb, ∑ b : Vb, L2bb l k d b * T2tempbb d b j i * T1b a l)  -- L2913
  (Pkaij, PKAIJ, PkAiJ, PKaIj)

/-- `uccsd_2rdm_abij`, cc_equations.py:2917-3093. -/
def uccsd_2rdm_abij (T1a : Va → Oa → K) (T1b : Vb → Ob → K) (T2aa : Va → Va → Oa → Oa → K) (T2ab : Va → Vb → Oa → Ob → K) (T2bb : Vb → Vb → Ob → Ob → K) (L1a : Oa → Va → K) (L1b : Ob → Vb → K) (L2aa : Oa → Oa → Va → Va → K) (L2ab : Oa → Ob → Va → Vb → K) (L2bb : Ob → Ob → Vb → Vb → K) (tfac : K) :
    (Va → Va → Oa → Oa → K) × (Vb → Vb → Ob → Ob → K) × (Va → Vb → Oa → Ob → K) :=
  let Pabij := fun (a : Va) (b : Va) (i : Oa) (j : Oa) => tfac * T2aa a b i j  -- L2920
  let PaBiJ := fun (a : Va) (b : Vb) (i : Oa) (j : Ob) => tfac * T2ab a b i j  -- L2921
  let PABIJ := fun (a : Vb) (b : Vb) (i : Ob) (j : Ob) => tfac * T2bb a b i j  -- L2922
  let Pabij := fun (a : Va) (b : Va) (i : Oa) (j : Oa) => Pabij a b i j + tfac * (T1a a i * T1a b j)  -- L2923
  let Pabij := fun (a : Va) (b : Va) (i : Oa) (j : Oa) => Pabij a b i j - tfac * (T1a a j * T1a b i)  -- L2924
  let PABIJ := fun (a : Vb) (b : Vb) (i : Ob) (j : Ob) => PABIJ a b i j + tfac * (T1b a i * T1b b j)  -- L2925
  let PABIJ := fun (a : Vb) (b : Vb) (i : Ob) (j : Ob) => PABIJ a b i j - tfac * (T1b a j * T1b b i)  -- L2926
  let PaBiJ := fun (a : Va) (b : Vb) (i : Oa) (j : Ob) => PaBiJ a b i j + tfac * (T1a a i * T1b b j)  -- L2927
  let LTki := fun (k : Oa) (i : Oa) => ∑ c : Va, L1a k c * T1a c i  -- L2929
  let LTKI := fun (K : Ob) (I : Ob) => ∑ C : Vb, L1b K C * T1b C I  -- L2930
  let tmpaa := fun (a : Va) (b : Va) (i : Oa) (j : Oa) => -(∑ k : Oa, LTki k i * T2aa a b k j)  -- L2931
  let tmpbb := fun (a : Vb) (b : Vb) (i : Ob) (j : Ob) => -(∑ k : Ob, LTKI k i * T2bb a b k j)  -- L2932
  let tmpab := fun (a : Va) (B : Vb) (i : Oa) (J : Ob) => -(∑ k : Oa, LTki k i * T2ab a B k J)  -- L2933
  let tmpab := fun (a : Va) (B : Vb) (i : Oa) (J : Ob) => tmpab a B i J - (∑ K : Ob, LTKI K J * T2ab a B i K)  -- L2934
  let Pabij := fun (a : Va) (b : Va) (i : Oa) (j : Oa) => Pabij a b i j + (tmpaa a b i j - tmpaa a b j i)  -- L2935
  let PABIJ := fun (a : Vb) (b : Vb) (i : Ob) (j : Ob) => PABIJ a b i j + (tmpbb a b i j - tmpbb a b j i)  -- L2936
  let PaBiJ := fun (a : Va) (b : Vb) (i : Oa) (j : Ob) => PaBiJ a b i j + tmpab a b i j  -- L2937
  let LTac := fun (a : Va) (c : Va) => ∑ k : Oa, L1a k c * T1a a k  -- L2939
  let LTAC := fun (a : Vb) (c : Vb) => ∑ k : Ob, L1b k c * T1b a k  -- L2940
  let tmpaa := fun (a : Va) (b : Va) (i : Oa) (j : Oa) => -(∑ c : Va, LTac a c * T2aa c b i j)  -- L2941
  let tmpbb := fun (a : Vb) (b : Vb) (i : Ob) (j : Ob) => -(∑ c : Vb, LTAC a c * T2bb c b i j)  -- L2942
  let tmpab := fun (a : Va) (B : Vb) (i : Oa) (J : Ob) => -(∑ c : Va, LTac a c * T2ab c B i J)  -- L2943
  let tmpab := fun (a : Va) (B : Vb) (i : Oa) (J : Ob) => tmpab a B i J - (∑ C : Vb, LTAC B C * T2ab a C i J)  -- L2944
  let Pabij := fun (a : Va) (b : Va) (i : Oa) (j : Oa) => Pabij a b i j + (tmpaa a b i j - tmpaa b a i j)  -- L2945
  let PABIJ := fun (a : Vb) (b : Vb) (i : Ob) (j : Ob) => PABIJ a b i j + (tmpbb a b i j - tmpbb b a i j)  -- L2946
  let PaBiJ := fun (a : Va) (b : Vb) (i : Oa) (j : Ob) => PaBiJ a b i j + tmpab a b i j  -- L2947
  let T2tempaa := fun (b : Va) (c : Va) (j : Oa) (k : Oa) => T2aa b c j k - T1a b k * T1a c j  -- L2949
  let T2tempbb := fun (b : Vb) (c : Vb) (j : Ob) (k : Ob) => T2bb b c j k - T1b b k * T1b c j  -- L2950
  let LTbj := fun (b : Va) (j : Oa) => ∑ k : Oa, ∑ c : Va, L1a k c * T2tempaa b c j k  -- L2951
  let LTbj := fun (b : Va) (j : Oa) => LTbj b j + (∑ K : Ob, ∑ C : Vb, L1b K C * T2ab b C j K)  -- L2952
  let LTBJ := fun (b : Vb) (j : Ob) => ∑ k : Ob, ∑ c : Vb, L1b k c * T2tempbb b c j k  -- L2953
  let LTBJ := fun (B : Vb) (J : Ob) => LTBJ B J + (∑ k : Oa, ∑ c : Va, L1a k c * T2ab c B k J)  -- L2954
  let Pabij := fun (a : Va) (b : Va) (i : Oa) (j : Oa) => Pabij a b i j + LTbj a i * T1a b j  -- L2955
  let Pabij := fun (a : Va) (b : Va) (i : Oa) (j : Oa) => Pabij a b i j - LTbj a j * T1a b i  -- L2956
  let Pabij := fun (a : Va) (b : Va) (i : Oa) (j : Oa) => Pabij a b i j - LTbj b i * T1a a j  -- L2957
  let Pabij := fun (a : Va) (b : Va) (i : Oa) (j : Oa) => Pabij a b i j + LTbj b j * T1a a i  -- L2958
  let PABIJ := fun (a : Vb) (b : Vb) (i : Ob) (j : Ob) => PABIJ a b i j + LTBJ a i * T1b b j  -- L2959
  let PABIJ := fun (a : Vb) (b : Vb) (i : Ob) (j : Ob) => PABIJ a b i j - LTBJ a j * T1b b i  -- L2960
  let PABIJ := fun (a : Vb) (b : Vb) (i : Ob) (j : Ob) => PABIJ a b i j - LTBJ b i * T1b a j  -- L2961
  let PABIJ := fun (a : Vb) (b : Vb) (i : Ob) (j : Ob) => PABIJ a b i j + LTBJ b j * T1b a i  -- L2962
  let PaBiJ := fun (a : Va) (B : Vb) (i : Oa) (J : Ob) => PaBiJ a B i J + LTbj a i * T1b B J  -- L2963
  let PaBiJ := fun (a : Va) (B : Vb) (i : Oa) (J : Ob) => PaBiJ a B i J + LTBJ B J * T1a a i  -- L2964
  let LToo := fun (k : Oa) (l : Oa) (i : Oa) (j : Oa) => ∑ c : Va, ∑ d : Va, L2aa k l c d * T2aa c d i j  -- L2966
  let LToO := fun (k : Oa) (L : Ob) (i : Oa) (J : Ob) => ∑ c : Va, ∑ D : Vb, L2ab k L c D * T2ab c D i J  -- L2967
  let LTOO := fun (k : Ob) (l : Ob) (i : Ob) (j : Ob) => ∑ c : Vb, ∑ d : Vb, L2bb k l c d * T2bb c d i j  -- L2968
  let Pabij := fun (a : Va) (b : Va) (i : Oa) (j : Oa) => Pabij a b i j + (1/4) * (∑ k : Oa, ∑ l : Oa, LToo k l i j * T2aa a b k l)  -- L2969
  let PABIJ := fun (a : Vb) (b : Vb) (i : Ob) (j : Ob) => PABIJ a b i j + (1/4) * (∑ k : Ob, ∑ l : Ob, LTOO k l i j * T2bb a b k l)  -- L2970
  let PaBiJ := fun (a : Va) (B : Vb) (i : Oa) (J : Ob) => PaBiJ a B i J + (∑ k : Oa, ∑ L : Ob, LToO k L i J * T2ab a B k L)  -- L2971
  let LTlida := fun (l : Oa) (i : Oa) (d : Va) (a : Va) => ∑ k : Oa, ∑ c : Va, L2aa k l c d * T2aa c a k i  -- L2973
  let LTlida := fun (l : Oa) (i : Oa) (d : Va) (a : Va) => LTlida l i d a + (∑ K : Ob, ∑ C : Vb, L2ab l K d C * T2ab a C i K)  -- L2974
  let LTLIDA := fun (l : Ob) (i : Ob) (d : Vb) (a : Vb) => ∑ k : Ob, ∑ c : Vb, L2bb k l c d * T2bb c a k i  -- L2975
  let LTLIDA := fun (L : Ob) (I : Ob) (D : Vb) (A : Vb) => LTLIDA L I D A + (∑ k : Oa, ∑ c : Va, L2ab k L c D * T2ab c A k I)  -- L2976
  let LTLIda := fun (L : Ob) (I : Ob) (d : Va) (a : Va) => ∑ k : Oa, ∑ C : Vb, L2ab k L d C * T2ab a C k I  -- L2978
  let LTliDA := fun (l : Oa) (i : Oa) (D : Vb) (A : Vb) => ∑ K : Ob, ∑ c : Va, L2ab l K c D * T2ab c A i K  -- L2979
  let LTlIdA := fun (l : Oa) (I : Ob) (d : Va) (A : Vb) => ∑ k : Oa, ∑ c : Va, L2aa k l c d * T2ab c A k I  -- L2980
  let LTlIdA := fun (l : Oa) (I : Ob) (d : Va) (A : Vb) => LTlIdA l I d A + (∑ K : Ob, ∑ C : Vb, L2ab l K d C * T2bb C A K I)  -- L2981
  let LTLiDa := fun (L : Ob) (i : Oa) (D : Vb) (a : Va) => ∑ k : Oa, ∑ c : Va, L2ab k L c D * T2aa c a k i  -- L2982
  let LTLiDa := fun (L : Ob) (i : Oa) (D : Vb) (a : Va) => LTLiDa L i D a + (∑ K : Ob, ∑ C : Vb, L2bb K L C D * T2ab a C i K)  -- L2983
  let tmpaa := fun (a : Va) (b : Va) (i : Oa) (j : Oa) => (1/2) * (∑ l : Oa, ∑ d : Va, LTlida l i d a * T2aa b d j l)  -- L2985
  let tmpaa := fun (a : Va) (b : Va) (i : Oa) (j : Oa) => tmpaa a b i j + (1/2) * (∑ L : Ob, ∑ D : Vb, LTLiDa L i D a * T2ab b D j L)  -- L2986
  let tmpbb := fun (a : Vb) (b : Vb) (i : Ob) (j : Ob) => (1/2) * (∑ l : Ob, ∑ d : Vb, LTLIDA l i d a * T2bb b d j l)  -- L2987
  let tmpbb := fun (A : Vb) (B : Vb) (I : Ob) (J : Ob) => tmpbb A B I J + (1/2) * (∑ l : Oa, ∑ d : Va, LTlIdA l I d A * T2ab d B l J)  -- L2988
  let tmpab := fun (a : Va) (B : Vb) (i : Oa) (J : Ob) => (1/2) * (∑ l : Oa, ∑ d : Va, LTlida l i d a * T2ab d B l J)  -- L2990
  let tmpab := fun (a : Va) (B : Vb) (i : Oa) (J : Ob) => tmpab a B i J + (1/2) * (∑ L : Ob, ∑ D : Vb, LTLiDa L i D a * T2bb B D J L)  -- L2991
  let tmpab := fun (a : Va) (B : Vb) (i : Oa) (J : Ob) => tmpab a B i J + (1/2) * (∑ L : Ob, ∑ d : Va, LTLIda L J d a * T2ab d B i L)  -- L2992
  let tmpab := fun (a : Va) (B : Vb) (i : Oa) (J : Ob) => tmpab a B i J + (1/2) * (∑ l : Oa, ∑ D : Vb, LTliDA l i D B * T2ab a D l J)  -- L2993
  let tmpab := fun (a : Va) (B : Vb) (i : Oa) (J : Ob) => tmpab a B i J + (1/2) * (∑ l : Oa, ∑ d : Va, LTlIdA l J d B * T2aa a d i l)  -- L2994
  let tmpab := fun (a : Va) (B : Vb) (i : Oa) (J : Ob) => tmpab a B i J + (1/2) * (∑ L : Ob, ∑ D : Vb, LTLIDA L J D B * T2ab a D i L)  -- L2995
  let Pabij := fun (a : Va) (b : Va) (i : Oa) (j : Oa) => Pabij a b i j + (tmpaa a b i j - tmpaa a b j i)  -- L2997
  let Pabij := fun (a : Va) (b : Va) (i : Oa) (j : Oa) => Pabij a b i j + (-tmpaa b a i j + tmpaa b a j i)  -- L2998
  let PABIJ := fun (a : Vb) (b : Vb) (i : Ob) (j : Ob) => PABIJ a b i j + (tmpbb a b i j - tmpbb a b j i)  -- L2999
  let PABIJ := fun (a : Vb) (b : Vb) (i : Ob) (j : Ob) => PABIJ a b i j + (-tmpbb b a i j + tmpbb b a j i)  -- L3000
  let PaBiJ := fun (a : Va) (b : Vb) (i : Oa) (j : Ob) => PaBiJ a b i j + tmpab a b i j  -- L3001
  let T2tempaa := fun (a : Va) (c : Va) (i : Oa) (j : Oa) => T2aa a c i j + T1a c j * T1a a i  -- L3003
  let T2tempaa := fun (a : Va) (c : Va) (i : Oa) (j : Oa) => T2tempaa a c i j - T1a c i * T1a a j  -- L3004
  let T2tempab := fun (a : Va) (c : Vb) (i : Oa) (j : Ob) => T2ab a c i j + T1b c j * T1a a i  -- L3005
  let T2tempbb := fun (a : Vb) (c : Vb) (i : Ob) (j : Ob) => T2bb a c i j + T1b c j * T1b a i  -- L3006
  let T2tempbb := fun (a : Vb) (c : Vb) (i : Ob) (j : Ob) => T2tempbb a c i j - T1b c i * T1b a j  -- L3007
  let Lcb := fun (c : Va) (b : Va) => ∑ k : Oa, ∑ l : Oa, ∑ d : Va, L2aa k l c d * T2aa b d k l  -- L3008
  let Lcb := fun (c : Va) (b : Va) => Lcb c b + 2 * (∑ k : Oa, ∑ L : Ob, ∑ D : Vb, L2ab k L c D * T2ab b D k L)  -- L3009
  let LCB := fun (c : Vb) (b : Vb) => ∑ k : Ob, ∑ l : Ob, ∑ d : Vb, L2bb k l c d * T2bb b d k l  -- L3010
  let LCB := fun (C : Vb) (B : Vb) => LCB C B + 2 * (∑ l : Oa, ∑ K : Ob, ∑ d : Va, L2ab l K d C * T2ab d B l K)  -- L3011
  let tmpaa := fun (a : Va) (b : Va) (i : Oa) (j : Oa) => (-(1/2)) * (∑ c : Va, Lcb c b * T2tempaa a c i j)  -- L3012
  let tmpbb := fun (a : Vb) (b : Vb) (i : Ob) (j : Ob) => (-(1/2)) * (∑ c : Vb, LCB c b * T2tempbb a c i j)  -- L3013
  let tmpab := fun (a : Va) (B : Vb) (i : Oa) (J : Ob) => (-(1/2)) * (∑ C : Vb, LCB C B * T2tempab a C i J)  -- L3014
  let tmpab := fun (a : Va) (B : Vb) (i : Oa) (J : Ob) => tmpab a B i J - (1/2) * (∑ c : Va, Lcb c a * T2tempab c B i J)  -- L3015
  let Pabij := fun (a : Va) (b : Va) (i : Oa) (j : Oa) => Pabij a b i j + (tmpaa a b i j - tmpaa b a i j)  -- L3016
  let PABIJ := fun (a : Vb) (b : Vb) (i : Ob) (j : Ob) => PABIJ a b i j + (tmpbb a b i j - tmpbb b a i j)  -- L3017
  let PaBiJ := fun (a : Va) (b : Vb) (i : Oa) (j : Ob) => PaBiJ a b i j + tmpab a b i j  -- L3018
  let Lkj := fun (k : Oa) (j : Oa) => ∑ l : Oa, ∑ c : Va, ∑ d : Va, L2aa k l c d * T2aa c d j l  -- L3020
  let Lkj := fun (k : Oa) (j : Oa) => Lkj k j + 2 * (∑ L : Ob, ∑ c : Va, ∑ D : Vb, L2ab k L c D * T2ab c D j L)  -- L3021
  let LKJ := fun (k : Ob) (j : Ob) => ∑ l : Ob, ∑ c : Vb, ∑ d : Vb, L2bb k l c d * T2bb c d j l  -- L3022
  let LKJ := fun (K : Ob) (J : Ob) => LKJ K J + 2 * (∑ l : Oa, ∑ d : Va, ∑ C : Vb, L2ab l K d C * T2ab d C l J)  -- L3023
  let tmpaa := fun (a : Va) (b : Va) (i : Oa) (j : Oa) => (-(1/2)) * (∑ k : Oa, Lkj k j * T2tempaa a b i k)  -- L3024
  let tmpbb := fun (a : Vb) (b : Vb) (i : Ob) (j : Ob) => (-(1/2)) * (∑ k : Ob, LKJ k j * T2tempbb a b i k)  -- L3025
  let tmpab := fun (a : Va) (B : Vb) (i : Oa) (J : Ob) => (-(1/2)) * (∑ K : Ob, LKJ K J * T2tempab a B i K)  -- L3026
  let tmpab := fun (a : Va) (B : Vb) (i : Oa) (J : Ob) => tmpab a B i J - (1/2) * (∑ k : Oa, Lkj k i * T2tempab a B k J)  -- L3027
  let Pabij := fun (a : Va) (b : Va) (i : Oa) (j : Oa) => Pabij a b i j + (tmpaa a b i j - tmpaa a b j i)  -- L3028
  let PABIJ := fun (a : Vb) (b : Vb) (i : Ob) (j : Ob) => PABIJ a b i j + (tmpbb a b i j - tmpbb a b j i)  -- L3029
  let PaBiJ := fun (a : Va) (b : Vb) (i : Oa) (j : Ob) => PaBiJ a b i j + tmpab a b i j  -- L3030
  let T2tempaa := fun (c : Va) (d : Va) (i : Oa) (j : Oa) => T2aa c d i j + T1a c i * T1a d j  -- L3032
  let T2tempab := fun (c : Va) (d : Vb) (i : Oa) (j : Ob) => T2ab c d i j + T1a c i * T1b d j  -- L3033
  let T2tempbb := fun (c : Vb) (d : Vb) (i : Ob) (j : Ob) => T2bb c d i j + T1b c i * T1b d j  -- L3034
  let LToo := fun (k : Oa) (l : Oa) (i : Oa) (j : Oa) => ∑ c : Va, ∑ d : Va, L2aa k l c d * T2tempaa c d i j  -- L3035
  let LTOO := fun (k : Ob) (l : Ob) (i : Ob) (j : Ob) => ∑ c : Vb, ∑ d : Vb, L2bb k l c d * T2tempbb c d i j  -- L3036
  let LToO := fun (k : Oa) (L : Ob) (i : Oa) (J : Ob) => ∑ c : Va, ∑ D : Vb, L2ab k L c D * T2tempab c D i J  -- L3037
  let LToO := fun (k : Oa) (L : Ob) (i : Oa) (J : Ob) => LToO k L i J + (∑ d : Va, ∑ C : Vb, L2ab k L d C * T2ab d C i J)  -- L3038
  let LTOo := fun (K : Ob) (l : Oa) (i : Oa) (J : Ob) => -(∑ d : Va, ∑ C : Vb, L2ab l K d C * T2ab d C i J)  -- L3039
  let LTOo := fun (K : Ob) (l : Oa) (i : Oa) (J : Ob) => LTOo K l i J - (∑ c : Va, ∑ D : Vb, L2ab l K c D * T2tempab c D i J)  -- L3040
  let tmpaa := fun (a : Va) (l : Oa) (i : Oa) (j : Oa) => ∑ k : Oa, LToo k l i j * T1a a k  -- L3041
  let tmpaa := fun (a : Va) (b : Va) (i : Oa) (j : Oa) => (1/4) * (∑ l : Oa, tmpaa a l i j * T1a b l)  -- L3042
  let tmpbb := fun (a : Vb) (l : Ob) (i : Ob) (j : Ob) => ∑ k : Ob, LTOO k l i j * T1b a k  -- L3043
  let tmpbb := fun (a : Vb) (b : Vb) (i : Ob) (j : Ob) => (1/4) * (∑ l : Ob, tmpbb a l i j * T1b b l)  -- L3044
  let tmpab1 := fun (a : Va) (L : Ob) (i : Oa) (J : Ob) => ∑ k : Oa, LToO k L i J * T1a a k  -- L3045
  let tmpab2 := fun (A : Vb) (l : Oa) (i : Oa) (J : Ob) => ∑ K : Ob, LTOo K l i J * T1b A K  -- L3046
  let tmpab := fun (a : Va) (B : Vb) (i : Oa) (J : Ob) => (1/4) * (∑ L : Ob, tmpab1 a L i J * T1b B L)  -- L3047
  let tmpab := fun (a : Va) (B : Vb) (i : Oa) (J : Ob) => tmpab a B i J - (1/4) * (∑ l : Oa, tmpab2 B l i J * T1a a l)  -- L3048
  let Pabij := fun (a : Va) (b : Va) (i : Oa) (j : Oa) => Pabij a b i j + (tmpaa a b i j - tmpaa b a i j)  -- L3049
  let PABIJ := fun (a : Vb) (b : Vb) (i : Ob) (j : Ob) => PABIJ a b i j + (tmpbb a b i j - tmpbb b a i j)  -- L3050
  let PaBiJ := fun (a : Va) (b : Vb) (i : Oa) (j : Ob) => PaBiJ a b i j + tmpab a b i j  -- L3051
  let Looov := fun (k : Oa) (l : Oa) (i : Oa) (d : Va) => ∑ c : Va, L2aa k l c d * T1a c i  -- L3053
  let LOOOV := fun (k : Ob) (l : Ob) (i : Ob) (d : Vb) => ∑ c : Vb, L2bb k l c d * T1b c i  -- L3054
  let LoOoV := fun (k : Oa) (L : Ob) (i : Oa) (D : Vb) => ∑ c : Va, L2ab k L c D * T1a c i  -- L3055
  let LoOOv := fun (k : Oa) (L : Ob) (I : Ob) (d : Va) => -(∑ C : Vb, L2ab k L d C * T1b C I)  -- L3056
  let Loooo := fun (k : Oa) (l : Oa) (i : Oa) (j : Oa) => ∑ d : Va, Looov k l i d * T1a d j  -- L3057
  let Loooo := fun (i : Oa) (j : Oa) (k : Oa) (l : Oa) => Loooo i j k l - Loooo i j l k  -- L3058
  let LOOOO := fun (k : Ob) (l : Ob) (i : Ob) (j : Ob) => ∑ d : Vb, LOOOV k l i d * T1b d j  -- L3059
  let LOOOO := fun (i : Ob) (j : Ob) (k : Ob) (l : Ob) => LOOOO i j k l - LOOOO i j l k  -- L3060
  let LoOoO := fun (k : Oa) (L : Ob) (i : Oa) (J : Ob) => ∑ D : Vb, LoOoV k L i D * T1b D J  -- L3061
  let LoOoO := fun (k : Oa) (L : Ob) (i : Oa) (J : Ob) => LoOoO k L i J - (∑ d : Va, LoOOv k L J d * T1a d i)  -- L3062
  let Pabij := fun (a : Va) (b : Va) (i : Oa) (j : Oa) => Pabij a b i j + (1/4) * (∑ k : Oa, ∑ l : Oa, Loooo k l i j * T2tempaa a b k l)  -- L3063
  let PABIJ := fun (a : Vb) (b : Vb) (i : Ob) (j : Ob) => PABIJ a b i j + (1/4) * (∑ k : Ob, ∑ l : Ob, LOOOO k l i j * T2tempbb a b k l)  -- L3064
  let PaBiJ := fun (a : Va) (B : Vb) (i : Oa) (J : Ob) => PaBiJ a B i J + (1/4) * (∑ k : Oa, ∑ L : Ob, LoOoO k L i J * T2tempab a B k L)  -- L3065
  let PaBiJ := fun (a : Va) (B : Vb) (i : Oa) (J : Ob) => PaBiJ a B i J + (1/4) * (∑ l : Oa, ∑ K : Ob, LoOoO l K i J * T2ab a B l K)  -- L3066
  let Lalid := fun (a : Va) (l : Oa) (i : Oa) (d : Va) => ∑ k : Oa, ∑ c : Va, L2aa k l c d * T1a a k * T1a c i  -- L3068
  let LALID := fun (a : Vb) (l : Ob) (i : Ob) (d : Vb) => ∑ k : Ob, ∑ c : Vb, L2bb k l c d * T1b a k * T1b c i  -- L3069
  let LaLiD := fun (a : Va) (L : Ob) (i : Oa) (D : Vb) => ∑ k : Oa, ∑ c : Va, L2ab k L c D * T1a a k * T1a c i  -- L3070
  let LAlId := fun (A : Vb) (l : Oa) (I : Ob) (d : Va) => ∑ K : Ob, ∑ C : Vb, L2ab l K d C * T1b A K * T1b C I  -- L3071
  let LaLId := fun (a : Va) (L : Ob) (I : Ob) (d : Va) => -(∑ k : Oa, ∑ C : Vb, L2ab k L d C * T1a a k * T1b C I)  -- L3072
  let LAliD := fun (A : Vb) (l : Oa) (i : Oa) (D : Vb) => -(∑ K : Ob, ∑ c : Va, L2ab l K c D * T1b A K * T1a c i)  -- L3073
  let tmpaa := fun (a : Va) (b : Va) (i : Oa) (j : Oa) => ∑ l : Oa, ∑ d : Va, Lalid a l i d * T2aa b d j l  -- L3074
  let tmpaa := fun (a : Va) (b : Va) (i : Oa) (j : Oa) => tmpaa a b i j + (∑ L : Ob, ∑ D : Vb, LaLiD a L i D * T2ab b D j L)  -- L3075
  let tmpbb := fun (a : Vb) (b : Vb) (i : Ob) (j : Ob) => ∑ l : Ob, ∑ d : Vb, LALID a l i d * T2bb b d j l  -- L3076
  let tmpbb := fun (A : Vb) (B : Vb) (I : Ob) (J : Ob) => tmpbb A B I J + (∑ l : Oa, ∑ d : Va, LAlId A l I d * T2ab d B l J)  -- L3077
  let tmpab := fun (a : Va) (B : Vb) (i : Oa) (J : Ob) => ∑ l : Oa, ∑ d : Va, Lalid a l i d * T2ab d B l J  -- L3079
  let tmpab := fun (a : Va) (B : Vb) (i : Oa) (J : Ob) => tmpab a B i J + (∑ L : Ob, ∑ D : Vb, LaLiD a L i D * T2bb B D J L)  -- L3080
  let tmpab := fun (a : Va) (B : Vb) (i : Oa) (J : Ob) => tmpab a B i J + (∑ L : Ob, ∑ d : Va, LaLId a L J d * T2ab d B i L)  -- L3081
  let tmpab := fun (a : Va) (B : Vb) (i : Oa) (J : Ob) => tmpab a B i J + (∑ l : Oa, ∑ D : Vb, LAliD B l i D * T2ab a D l J)  -- L3082
  let tmpab := fun (a : Va) (B : Vb) (i : Oa) (J : Ob) => tmpab a B i J + (∑ l : Oa, ∑ d : Va, LAlId B l J d * T2aa a d i l)  -- L3083
  let tmpab := fun (a : Va) (B : Vb) (i : Oa) (J : Ob) => tmpab a B i J + (∑ L : Ob, ∑ D : Vb, LALID B L J D * T2ab a D i L)  -- L3084
  let Pabij := fun (a : Va) (b : Va) (i : Oa) (j : Oa) => Pabij a b i j - tmpaa a b i j  -- L3086
  let Pabij := fun (a : Va) (b : Va) (i : Oa) (j : Oa) => Pabij a b i j + (tmpaa a b j i + tmpaa b a i j)  -- L3087
  let Pabij := fun (a : Va) (b : Va) (i : Oa) (j : Oa) => Pabij a b i j - tmpaa b a j i  -- L3088
  let PABIJ := fun (a : Vb) (b : Vb) (i : Ob) (j : Ob) => PABIJ a b i j - tmpbb a b i j  -- L3089
  let PABIJ := fun (a : Vb) (b : Vb) (i : Ob) (j : Ob) => PABIJ a b i j + (tmpbb a b j i + tmpbb b a i j)  -- L3090
  let PABIJ := fun (a : Vb) (b : Vb) (i : Ob) (j : Ob) => PABIJ a b i j - tmpbb b a j i  -- L3091
  let PaBiJ := fun (a : Va) (b : Vb) (i : Oa) (j : Ob) => PaBiJ a b i j - tmpab a b i j  -- L3092
  (Pabij, PABIJ, PaBiJ)

end CC
