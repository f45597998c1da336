/-
GENERATED by tools/gen_cc.py from cqcpy/cc_equations.py (pure text translation); do not edit.
Generalized reduced density matrices.
Every definition cites the python function it mirrors; each `let` carries the source line
of the statement it translates.  Arithmetic is that of an arbitrary field of characteristic
zero (floating point rounding and dtypes are abstracted).
-/
import Verif.Model.Blocks

set_option linter.unusedVariables false
set_option maxRecDepth 4000

namespace CC

open Finset

variable {K : Type} [Field K]
variable {O V Oa Va Ob Vb : Type} [Fintype O] [Fintype V] [Fintype Oa] [Fintype Va]
  [Fintype Ob] [Fintype Vb]

/-- `ccsd_1rdm_ba`, cc_equations.py:2369-2372. -/
def ccsd_1rdm_ba (T1 : V → O → K) (T2 : V → V → O → O → K) (L1 : O → V → K) (L2 : O → O → V → V → K) :
    V → V → K :=
  let pba := fun (b : V) (a : V) => ∑ i : O, L1 i a * T1 b i + (1/2) * (∑ k : O, ∑ i : O, ∑ c : V, L2 k i c a * T2 c b k i)  -- L2370
  pba

/-- module level alias `ccsd_1rdm_ba_opt = ccsd_1rdm_ba`, cc_equations.py:2375. -/
def ccsd_1rdm_ba_opt (T1 : V → O → K) (T2 : V → V → O → O → K) (L1 : O → V → K) (L2 : O → O → V → V → K) :
    V → V → K :=
  ccsd_1rdm_ba T1 T2 L1 L2

/-- `ccsd_1rdm_ji`, cc_equations.py:2378-2381. -/
def ccsd_1rdm_ji (T1 : V → O → K) (T2 : V → V → O → O → K) (L1 : O → V → K) (L2 : O → O → V → V → K) :
    O → O → K :=
  let pji := fun (j : O) (i : O) => -(∑ a : V, L1 j a * T1 a i) - (1/2) * (∑ k : O, ∑ c : V, ∑ a : V, L2 k j c a * T2 c a k i)  -- L2379
  pji

/-- module level alias `ccsd_1rdm_ji_opt = ccsd_1rdm_ji`, cc_equations.py:2384. -/
def ccsd_1rdm_ji_opt (T1 : V → O → K) (T2 : V → V → O → O → K) (L1 : O → V → K) (L2 : O → O → V → V → K) :
    O → O → K :=
  ccsd_1rdm_ji T1 T2 L1 L2

/-- `ccsd_1rdm_ai`, cc_equations.py:2387-2393. -/
def ccsd_1rdm_ai (T1 : V → O → K) (T2 : V → V → O → O → K) (L1 : O → V → K) (L2 : O → O → V → V → K) (tfac : K) :
    V → O → K :=
  let pai := fun (a : V) (i : O) => tfac * T1 a i + (∑ j : O, ∑ b : V, L1 j b * T2 b a j i) - (∑ j : O, ∑ b : V, L1 j b * T1 b i * T1 a j) - (1/2) * (∑ k : O, ∑ j : O, ∑ c : V, ∑ b : V, L2 k j c b * T1 c i * T2 a b k j) - (1/2) * (∑ k : O, ∑ j : O, ∑ c : V, ∑ b : V, L2 k j c b * T1 a k * T2 c b i j)  -- L2388
  pai

/-- `ccsd_2rdm_cdab`, cc_equations.py:2396-2400. -/
def ccsd_2rdm_cdab (T1 : V → O → K) (T2 : V → V → O → O → K) (L1 : O → V → K) (L2 : O → O → V → V → K) :
    V → V → V → V → K :=
  let Pcdab := fun (c : V) (d : V) (a : V) (b : V) => (1/2) * (∑ i : O, ∑ j : O, L2 i j a b * T2 c d i j)  -- L2397
  let Pcdab := fun (c : V) (d : V) (a : V) (b : V) => Pcdab c d a b + (1/2) * (∑ i : O, ∑ j : O, L2 i j a b * T1 c i * T1 d j)  -- L2398
  let Pcdab := fun (c : V) (d : V) (a : V) (b : V) => Pcdab c d a b - (1/2) * (∑ i : O, ∑ j : O, L2 i j a b * T1 d i * T1 c j)  -- L2399
  Pcdab

/-- `ccsd_2rdm_ciab`, cc_equations.py:2403-2405. -/
def ccsd_2rdm_ciab (T1 : V → O → K) (T2 : V → V → O → O → K) (L1 : O → V → K) (L2 : O → O → V → V → K) :
    V → O → V → V → K :=
  let Pciab := fun (c : V) (i : O) (a : V) (b : V) => ∑ j : O, L2 j i a b * T1 c j  -- L2404
  Pciab

/-- module level alias `ccsd_2rdm_ciab_opt = ccsd_2rdm_ciab`, cc_equations.py:2408. -/
def ccsd_2rdm_ciab_opt (T1 : V → O → K) (T2 : V → V → O → O → K) (L1 : O → V → K) (L2 : O → O → V → V → K) :
    V → O → V → V → K :=
  ccsd_2rdm_ciab T1 T2 L1 L2

/-- `ccsd_2rdm_bcai`, cc_equations.py:2411-2421. -/
def ccsd_2rdm_bcai (T1 : V → O → K) (T2 : V → V → O → O → K) (L1 : O → V → K) (L2 : O → O → V → V → K) :
    V → V → V → O → K :=
  let Pbcai := fun (b : V) (c : V) (a : V) (i : O) => ∑ j : O, L1 j a * T2 b c j i  -- L2412
  let Pbcai := fun (b : V) (c : V) (a : V) (i : O) => Pbcai b c a i + (∑ j : O, L1 j a * T1 b j * T1 c i)  -- L2413
  let Pbcai := fun (b : V) (c : V) (a : V) (i : O) => Pbcai b c a i - (∑ j : O, L1 j a * T1 c j * T1 b i)  -- L2414
  let Pbcai := fun (b : V) (c : V) (a : V) (i : O) => Pbcai b c a i + (1/2) * (∑ j : O, ∑ l : O, ∑ d : V, L2 j l a d * T2 b d j l * T1 c i)  -- L2415
  let Pbcai := fun (b : V) (c : V) (a : V) (i : O) => Pbcai b c a i - (1/2) * (∑ j : O, ∑ l : O, ∑ d : V, L2 j l a d * T2 c d j l * T1 b i)  -- L2416
  let Pbcai := fun (b : V) (c : V) (a : V) (i : O) => Pbcai b c a i + (∑ j : O, ∑ k : O, ∑ d : V, L2 j k a d * T2 c d i k * T1 b j)  -- L2417
  let Pbcai := fun (b : V) (c : V) (a : V) (i : O) => Pbcai b c a i - (∑ j : O, ∑ k : O, ∑ d : V, L2 j k a d * T2 b d i k * T1 c j)  -- L2418
  let Pbcai := fun (b : V) (c : V) (a : V) (i : O) => Pbcai b c a i - (1/2) * (∑ j : O, ∑ k : O, ∑ d : V, L2 j k d a * T2 c b j k * T1 d i)  -- L2419
  let Pbcai := fun (b : V) (c : V) (a : V) (i : O) => Pbcai b c a i - (∑ k : O, ∑ j : O, ∑ d : V, L2 k j d a * T1 c k * T1 d i * T1 b j)  -- L2420
  Pbcai

/-- `ccsd_2rdm_bjai`, cc_equations.py:2424-2428. -/
def ccsd_2rdm_bjai (T1 : V → O → K) (T2 : V → V → O → O → K) (L1 : O → V → K) (L2 : O → O → V → V → K) :
    V → O → V → O → K :=
  let Pbjai := fun (b : V) (j : O) (a : V) (i : O) => -(L1 j a * T1 b i)  -- L2425
  let Pbjai := fun (b : V) (j : O) (a : V) (i : O) => Pbjai b j a i - (∑ k : O, ∑ c : V, L2 k j a c * T2 b c k i)  -- L2426
  let Pbjai := fun (b : V) (j : O) (a : V) (i : O) => Pbjai b j a i - (∑ k : O, ∑ c : V, L2 k j a c * T1 b k * T1 c i)  -- L2427
  Pbjai

/-- `ccsd_2rdm_abij`, cc_equations.py:2431-2476. -/
def ccsd_2rdm_abij (T1 : V → O → K) (T2 : V → V → O → O → K) (L1 : O → V → K) (L2 : O → O → V → V → K) (tfac : K) :
    V → V → O → O → K :=
  let Pabij := fun (a : V) (b : V) (i : O) (j : O) => tfac * T2 a b i j  -- L2432
  let Pabij := fun (a : V) (b : V) (i : O) (j : O) => Pabij a b i j + tfac * (T1 a i * T1 b j)  -- L2433
  let Pabij := fun (a : V) (b : V) (i : O) (j : O) => Pabij a b i j - tfac * (T1 a j * T1 b i)  -- L2434
  let Pabij := fun (a : V) (b : V) (i : O) (j : O) => Pabij a b i j - (∑ k : O, ∑ c : V, L1 k c * T2 a b k j * T1 c i)  -- L2435
  let Pabij := fun (a : V) (b : V) (i : O) (j : O) => Pabij a b i j + (∑ k : O, ∑ c : V, L1 k c * T2 a b k i * T1 c j)  -- L2436
  let Pabij := fun (a : V) (b : V) (i : O) (j : O) => Pabij a b i j - (∑ k : O, ∑ c : V, L1 k c * T2 c b i j * T1 a k)  -- L2437
  let Pabij := fun (a : V) (b : V) (i : O) (j : O) => Pabij a b i j + (∑ k : O, ∑ c : V, L1 k c * T2 c a i j * T1 b k)  -- L2438
  let Pabij := fun (a : V) (b : V) (i : O) (j : O) => Pabij a b i j + (∑ k : O, ∑ c : V, L1 k c * T2 b c j k * T1 a i)  -- L2439
  let Pabij := fun (a : V) (b : V) (i : O) (j : O) => Pabij a b i j - (∑ k : O, ∑ c : V, L1 k c * T2 a c j k * T1 b i)  -- L2440
  let Pabij := fun (a : V) (b : V) (i : O) (j : O) => Pabij a b i j - (∑ k : O, ∑ c : V, L1 k c * T2 b c i k * T1 a j)  -- L2441
  let Pabij := fun (a : V) (b : V) (i : O) (j : O) => Pabij a b i j + (∑ k : O, ∑ c : V, L1 k c * T2 a c i k * T1 b j)  -- L2442
  let Pabij := fun (a : V) (b : V) (i : O) (j : O) => Pabij a b i j - (∑ k : O, ∑ c : V, L1 k c * T1 a k * T1 b j * T1 c i)  -- L2443
  let Pabij := fun (a : V) (b : V) (i : O) (j : O) => Pabij a b i j + (∑ k : O, ∑ c : V, L1 k c * T1 b k * T1 a j * T1 c i)  -- L2444
  let Pabij := fun (a : V) (b : V) (i : O) (j : O) => Pabij a b i j + (∑ k : O, ∑ c : V, L1 k c * T1 a k * T1 b i * T1 c j)  -- L2445
  let Pabij := fun (a : V) (b : V) (i : O) (j : O) => Pabij a b i j - (∑ k : O, ∑ c : V, L1 k c * T1 b k * T1 a i * T1 c j)  -- L2446
  let Pabij := fun (a : V) (b : V) (i : O) (j : O) => Pabij a b i j + (1/4) * (∑ k : O, ∑ l : O, ∑ c : V, ∑ d : V, L2 k l c d * T2 a b k l * T2 c d i j)  -- L2447
  let Pabij := fun (a : V) (b : V) (i : O) (j : O) => Pabij a b i j + (1/2) * (∑ k : O, ∑ l : O, ∑ c : V, ∑ d : V, L2 k l c d * T2 c a k i * T2 b d j l)  -- L2448
  let Pabij := fun (a : V) (b : V) (i : O) (j : O) => Pabij a b i j - (1/2) * (∑ k : O, ∑ l : O, ∑ c : V, ∑ d : V, L2 k l c d * T2 c a k j * T2 b d i l)  -- L2449
  let Pabij := fun (a : V) (b : V) (i : O) (j : O) => Pabij a b i j - (1/2) * (∑ k : O, ∑ l : O, ∑ c : V, ∑ d : V, L2 k l c d * T2 c b k i * T2 a d j l)  -- L2450
  let Pabij := fun (a : V) (b : V) (i : O) (j : O) => Pabij a b i j + (1/2) * (∑ k : O, ∑ l : O, ∑ c : V, ∑ d : V, L2 k l c d * T2 c b k j * T2 a d i l)  -- L2451
  let Pabij := fun (a : V) (b : V) (i : O) (j : O) => Pabij a b i j - (1/2) * (∑ k : O, ∑ l : O, ∑ c : V, ∑ d : V, L2 k l c d * T2 b d k l * T2 a c i j)  -- L2452
  let Pabij := fun (a : V) (b : V) (i : O) (j : O) => Pabij a b i j + (1/2) * (∑ k : O, ∑ l : O, ∑ c : V, ∑ d : V, L2 k l c d * T2 a d k l * T2 b c i j)  -- L2453
  let Pabij := fun (a : V) (b : V) (i : O) (j : O) => Pabij a b i j - (1/2) * (∑ k : O, ∑ l : O, ∑ c : V, ∑ d : V, L2 k l c d * T2 a b i k * T2 c d j l)  -- L2454
  let Pabij := fun (a : V) (b : V) (i : O) (j : O) => Pabij a b i j + (1/2) * (∑ k : O, ∑ l : O, ∑ c : V, ∑ d : V, L2 k l c d * T2 a b j k * T2 c d i l)  -- L2455
  let Pabij := fun (a : V) (b : V) (i : O) (j : O) => Pabij a b i j + (1/4) * (∑ k : O, ∑ l : O, ∑ c : V, ∑ d : V, L2 k l c d * T2 c d i j * T1 a k * T1 b l)  -- L2456
  let Pabij := fun (a : V) (b : V) (i : O) (j : O) => Pabij a b i j - (1/4) * (∑ k : O, ∑ l : O, ∑ c : V, ∑ d : V, L2 k l c d * T2 c d i j * T1 b k * T1 a l)  -- L2457
  let Pabij := fun (a : V) (b : V) (i : O) (j : O) => Pabij a b i j + (1/4) * (∑ k : O, ∑ l : O, ∑ c : V, ∑ d : V, L2 k l c d * T2 a b k l * T1 c i * T1 d j)  -- L2458
  let Pabij := fun (a : V) (b : V) (i : O) (j : O) => Pabij a b i j - (1/4) * (∑ k : O, ∑ l : O, ∑ c : V, ∑ d : V, L2 k l c d * T2 a b k l * T1 c j * T1 d i)  -- L2459
  let Pabij := fun (a : V) (b : V) (i : O) (j : O) => Pabij a b i j - (∑ k : O, ∑ l : O, ∑ c : V, ∑ d : V, L2 k l c d * T2 b d j l * T1 a k * T1 c i)  -- L2460
  let Pabij := fun (a : V) (b : V) (i : O) (j : O) => Pabij a b i j + (∑ k : O, ∑ l : O, ∑ c : V, ∑ d : V, L2 k l c d * T2 a d j l * T1 b k * T1 c i)  -- L2461
  let Pabij := fun (a : V) (b : V) (i : O) (j : O) => Pabij a b i j + (∑ k : O, ∑ l : O, ∑ c : V, ∑ d : V, L2 k l c d * T2 b d i l * T1 a k * T1 c j)  -- L2462
  let Pabij := fun (a : V) (b : V) (i : O) (j : O) => Pabij a b i j - (∑ k : O, ∑ l : O, ∑ c : V, ∑ d : V, L2 k l c d * T2 a d i l * T1 b k * T1 c j)  -- L2463
  let Pabij := fun (a : V) (b : V) (i : O) (j : O) => Pabij a b i j - (1/2) * (∑ k : O, ∑ l : O, ∑ c : V, ∑ d : V, L2 k l c d * T2 c d j l * T1 b k * T1 a i)  -- L2464
  let Pabij := fun (a : V) (b : V) (i : O) (j : O) => Pabij a b i j + (1/2) * (∑ k : O, ∑ l : O, ∑ c : V, ∑ d : V, L2 k l c d * T2 c d j l * T1 a k * T1 b i)  -- L2465
  let Pabij := fun (a : V) (b : V) (i : O) (j : O) => Pabij a b i j + (1/2) * (∑ k : O, ∑ l : O, ∑ c : V, ∑ d : V, L2 k l c d * T2 c d i l * T1 b k * T1 a j)  -- L2466
  let Pabij := fun (a : V) (b : V) (i : O) (j : O) => Pabij a b i j - (1/2) * (∑ k : O, ∑ l : O, ∑ c : V, ∑ d : V, L2 k l c d * T2 c d i l * T1 a k * T1 b j)  -- L2467
  let Pabij := fun (a : V) (b : V) (i : O) (j : O) => Pabij a b i j - (1/2) * (∑ k : O, ∑ l : O, ∑ c : V, ∑ d : V, L2 k l c d * T2 b d k l * T1 c j * T1 a i)  -- L2468
  let Pabij := fun (a : V) (b : V) (i : O) (j : O) => Pabij a b i j + (1/2) * (∑ k : O, ∑ l : O, ∑ c : V, ∑ d : V, L2 k l c d * T2 a d k l * T1 c j * T1 b i)  -- L2469
  let Pabij := fun (a : V) (b : V) (i : O) (j : O) => Pabij a b i j + (1/2) * (∑ k : O, ∑ l : O, ∑ c : V, ∑ d : V, L2 k l c d * T2 b d k l * T1 c i * T1 a j)  -- L2470
  let Pabij := fun (a : V) (b : V) (i : O) (j : O) => Pabij a b i j - (1/2) * (∑ k : O, ∑ l : O, ∑ c : V, ∑ d : V, L2 k l c d * T2 a d k l * T1 c i * T1 b j)  -- L2471
  let Pabij := fun (a : V) (b : V) (i : O) (j : O) => Pabij a b i j + (1/4) * (∑ k : O, ∑ l : O, ∑ c : V, ∑ d : V, L2 k l c d * T1 c i * T1 a k * T1 d j * T1 b l)  -- L2472
  let Pabij := fun (a : V) (b : V) (i : O) (j : O) => Pabij a b i j - (1/4) * (∑ k : O, ∑ l : O, ∑ c : V, ∑ d : V, L2 k l c d * T1 c i * T1 b k * T1 d j * T1 a l)  -- L2473
  let Pabij := fun (a : V) (b : V) (i : O) (j : O) => Pabij a b i j - (1/4) * (∑ k : O, ∑ l : O, ∑ c : V, ∑ d : V, L2 k l c d * T1 c j * T1 a k * T1 d i * T1 b l)  -- L2474
  let Pabij := fun (a : V) (b : V) (i : O) (j : O) => Pabij a b i j + (1/4) * (∑ k : O, ∑ l : O, ∑ c : V, ∑ d : V, L2 k l c d * T1 c j * T1 b k * T1 d i * T1 a l)  -- L2475
  Pabij

/-- `ccsd_2rdm_jkai`, cc_equations.py:2479-2481. -/
def ccsd_2rdm_jkai (T1 : V → O → K) (T2 : V → V → O → O → K) (L1 : O → V → K) (L2 : O → O → V → V → K) :
    O → O → V → O → K :=
  let Pjkai := fun (j : O) (k : O) (a : V) (i : O) => -(∑ b : V, L2 j k a b * T1 b i)  -- L2480
  Pjkai

/-- module level alias `ccsd_2rdm_jkai_opt = ccsd_2rdm_jkai`, cc_equations.py:2484. -/
def ccsd_2rdm_jkai_opt (T1 : V → O → K) (T2 : V → V → O → O → K) (L1 : O → V → K) (L2 : O → O → V → V → K) :
    O → O → V → O → K :=
  ccsd_2rdm_jkai T1 T2 L1 L2

/-- `ccsd_2rdm_kaij`, cc_equations.py:2487-2498. -/
def ccsd_2rdm_kaij (T1 : V → O → K) (T2 : V → V → O → O → K) (L1 : O → V → K) (L2 : O → O → V → V → K) :
    O → V → O → O → K :=
  let Pkaij := fun (k : O) (a : V) (i : O) (j : O) => -(∑ b : V, L1 k b * T2 b a i j)  -- L2488
  let Pkaij := fun (k : O) (a : V) (i : O) (j : O) => Pkaij k a i j - (∑ b : V, L1 k b * T1 b i * T1 a j)  -- L2489
  let Pkaij := fun (k : O) (a : V) (i : O) (j : O) => Pkaij k a i j + (∑ b : V, L1 k b * T1 b j * T1 a i)  -- L2490
  let Pkaij := fun (k : O) (a : V) (i : O) (j : O) => Pkaij k a i j - (1/2) * (∑ l : O, ∑ c : V, ∑ d : V, L2 k l c d * T2 c d i l * T1 a j)  -- L2491
  let Pkaij := fun (k : O) (a : V) (i : O) (j : O) => Pkaij k a i j + (1/2) * (∑ l : O, ∑ c : V, ∑ d : V, L2 k l c d * T2 c d j l * T1 a i)  -- L2492
  let Pkaij := fun (k : O) (a : V) (i : O) (j : O) => Pkaij k a i j - (∑ l : O, ∑ c : V, ∑ d : V, L2 k l c d * T2 a d j l * T1 c i)  -- L2493
  let Pkaij := fun (k : O) (a : V) (i : O) (j : O) => Pkaij k a i j + (∑ l : O, ∑ c : V, ∑ d : V, L2 k l c d * T2 a d i l * T1 c j)  -- L2494
  let Pkaij := fun (k : O) (a : V) (i : O) (j : O) => Pkaij k a i j + (1/2) * (∑ l : O, ∑ d : V, ∑ b : V, L2 l k d b * T2 d b j i * T1 a l)  -- L2495
  let Pkaij := fun (k : O) (a : V) (i : O) (j : O) => Pkaij k a i j + (1/2) * (∑ l : O, ∑ d : V, ∑ b : V, L2 l k d b * T1 a l * T1 d j * T1 b i)  -- L2496
  let Pkaij := fun (k : O) (a : V) (i : O) (j : O) => Pkaij k a i j - (1/2) * (∑ l : O, ∑ d : V, ∑ b : V, L2 l k d b * T1 a l * T1 d i * T1 b j)  -- L2497
  Pkaij

/-- `ccsd_2rdm_klij`, cc_equations.py:2501-2505. -/
def ccsd_2rdm_klij (T1 : V → O → K) (T2 : V → V → O → O → K) (L1 : O → V → K) (L2 : O → O → V → V → K) :
    O → O → O → O → K :=
  let Pklij := fun (k : O) (l : O) (i : O) (j : O) => (1/2) * (∑ a : V, ∑ b : V, L2 k l a b * T2 a b i j)  -- L2502
  let Pklij := fun (k : O) (l : O) (i : O) (j : O) => Pklij k l i j + (1/2) * (∑ a : V, ∑ b : V, L2 k l a b * T1 a i * T1 b j)  -- L2503
  let Pklij := fun (k : O) (l : O) (i : O) (j : O) => Pklij k l i j - (1/2) * (∑ a : V, ∑ b : V, L2 k l a b * T1 a j * T1 b i)  -- L2504
  Pklij

/-- `ccsd_1rdm_ai_opt`, cc_equations.py:2508-2518. -/
def ccsd_1rdm_ai_opt (T1 : V → O → K) (T2 : V → V → O → O → K) (L1 : O → V → K) (L2 : O → O → V → V → K) (tfac : K) :
    V → O → K :=
  let pai := fun (a : V) (i : O) => tfac * T1 a i  -- L2509
  let T2temp := fun (b : V) (a : V) (j : O) (i : O) => T2 b a j i - T1 b i * T1 a j  -- L2510
  let pai := fun (a : V) (i : O) => pai a i + (∑ j : O, ∑ b : V, L1 j b * T2temp b a j i)  -- L2511
  let Pac := fun (a : V) (c : V) => (1/2) * (∑ k : O, ∑ j : O, ∑ b : V, L2 k j c b * T2 a b k j)  -- L2513
  let pai := fun (a : V) (i : O) => pai a i - (∑ c : V, Pac a c * T1 c i)  -- L2514
  let Pik := fun (i : O) (k : O) => (1/2) * (∑ j : O, ∑ c : V, ∑ b : V, L2 k j c b * T2 c b i j)  -- L2516
  let pai := fun (a : V) (i : O) => pai a i - (∑ k : O, Pik i k * T1 a k)  -- L2517
  pai

/-- `ccsd_2rdm_cdab_opt`, cc_equations.py:2521-2525. -/
def ccsd_2rdm_cdab_opt (T1 : V → O → K) (T2 : V → V → O → O → K) (L1 : O → V → K) (L2 : O → O → V → V → K) :
    V → V → V → V → K :=
  let T2temp := fun (c : V) (d : V) (i : O) (j : O) => T2 c d i j + T1 c i * T1 d j  -- L2522
  let T2temp := fun (c : V) (d : V) (i : O) (j : O) => T2temp c d i j - T1 d i * T1 c j  -- L2523
  let Pcdab := fun (c : V) (d : V) (a : V) (b : V) => (1/2) * (∑ i : O, ∑ j : O, L2 i j a b * T2temp c d i j)  -- L2524
  Pcdab

/-- `ccsd_2rdm_bcai_opt`, cc_equations.py:2528-2542. -/
def ccsd_2rdm_bcai_opt (T1 : V → O → K) (T2 : V → V → O → O → K) (L1 : O → V → K) (L2 : O → O → V → V → K) :
    V → V → V → O → K :=
  let T2temp := fun (c : V) (d : V) (i : O) (j : O) => T2 c d i j + T1 c i * T1 d j  -- L2529
  let T2temp := fun (c : V) (d : V) (i : O) (j : O) => T2temp c d i j - T1 d i * T1 c j  -- L2530
  let Pbcai := fun (b : V) (c : V) (a : V) (i : O) => ∑ j : O, L1 j a * T2temp b c j i  -- L2531
  let LTba := fun (b : V) (a : V) => ∑ j : O, ∑ l : O, ∑ d : V, L2 j l a d * T2 b d j l  -- L2533
  let Pbcai := fun (b : V) (c : V) (a : V) (i : O) => Pbcai b c a i + (1/2) * (LTba b a * T1 c i)  -- L2534
  let Pbcai := fun (b : V) (c : V) (a : V) (i : O) => Pbcai b c a i - (1/2) * (LTba c a * T1 b i)  -- L2535
  let LTtemp := fun (j : O) (c : V) (a : V) (i : O) => ∑ k : O, ∑ d : V, L2 j k a d * T2 c d i k  -- L2537
  let Pbcai := fun (b : V) (c : V) (a : V) (i : O) => Pbcai b c a i + (∑ j : O, LTtemp j c a i * T1 b j)  -- L2538
  let Pbcai := fun (b : V) (c : V) (a : V) (i : O) => Pbcai b c a i - (∑ j : O, LTtemp j b a i * T1 c j)  -- L2539
  let Pbcai := fun (b : V) (c : V) (a : V) (i : O) => Pbcai b c a i - (1/2) * (∑ k : O, ∑ j : O, ∑ d : V, L2 k j d a * T2temp c b k j * T1 d i)  -- L2541
  Pbcai

/-- `ccsd_2rdm_bjai_opt`, cc_equations.py:2545-2549. -/
def ccsd_2rdm_bjai_opt (T1 : V → O → K) (T2 : V → V → O → O → K) (L1 : O → V → K) (L2 : O → O → V → V → K) :
    V → O → V → O → K :=
  let Pbjai := fun (b : V) (j : O) (a : V) (i : O) => -(L1 j a * T1 b i)  -- L2546
  let T2temp := fun (b : V) (c : V) (k : O) (i : O) => T2 b c k i + T1 b k * T1 c i  -- L2547
  let Pbjai := fun (b : V) (j : O) (a : V) (i : O) => Pbjai b j a i - (∑ k : O, ∑ c : V, L2 k j a c * T2temp b c k i)  -- L2548
  Pbjai

/-- `ccsd_2rdm_abij_opt`, cc_equations.py:2552-2606. -/
def ccsd_2rdm_abij_opt (T1 : V → O → K) (T2 : V → V → O → O → K) (L1 : O → V → K) (L2 : O → O → V → V → K) (tfac : K) :
    V → V → O → O → K :=
  let Pabij := fun (a : V) (b : V) (i : O) (j : O) => tfac * T2 a b i j  -- L2553
  let Pabij := fun (a : V) (b : V) (i : O) (j : O) => Pabij a b i j + tfac * (T1 a i * T1 b j)  -- L2554
  let Pabij := fun (a : V) (b : V) (i : O) (j : O) => Pabij a b i j - tfac * (T1 a j * T1 b i)  -- L2555
  let LTki := fun (k : O) (i : O) => ∑ c : V, L1 k c * T1 c i  -- L2557
  let tmp := fun (a : V) (b : V) (i : O) (j : O) => -(∑ k : O, LTki k i * T2 a b k j)  -- L2558
  let Pabij := fun (a : V) (b : V) (i : O) (j : O) => Pabij a b i j + (tmp a b i j - tmp a b j i)  -- L2559
  let LTac := fun (a : V) (c : V) => ∑ k : O, L1 k c * T1 a k  -- L2561
  let tmp := fun (a : V) (b : V) (i : O) (j : O) => -(∑ c : V, LTac a c * T2 c b i j)  -- L2562
  let Pabij := fun (a : V) (b : V) (i : O) (j : O) => Pabij a b i j + (tmp a b i j - tmp b a i j)  -- L2563
  let T2temp := fun (b : V) (c : V) (j : O) (k : O) => T2 b c j k - T1 b k * T1 c j  -- L2565
  let LTbj := fun (b : V) (j : O) => ∑ k : O, ∑ c : V, L1 k c * T2temp b c j k  -- L2566
  let Pabij := fun (a : V) (b : V) (i : O) (j : O) => Pabij a b i j + LTbj a i * T1 b j  -- L2567
  let Pabij := fun (a : V) (b : V) (i : O) (j : O) => Pabij a b i j - LTbj a j * T1 b i  -- L2568
  let Pabij := fun (a : V) (b : V) (i : O) (j : O) => Pabij a b i j - LTbj b i * T1 a j  -- L2569
  let Pabij := fun (a : V) (b : V) (i : O) (j : O) => Pabij a b i j + LTbj b j * T1 a i  -- L2570
  let LToo := fun (k : O) (l : O) (i : O) (j : O) => ∑ c : V, ∑ d : V, L2 k l c d * T2 c d i j  -- L2572
  let Pabij := fun (a : V) (b : V) (i : O) (j : O) => Pabij a b i j + (1/4) * (∑ k : O, ∑ l : O, LToo k l i j * T2 a b k l)  -- L2573
  let LTov := fun (l : O) (i : O) (d : V) (a : V) => ∑ k : O, ∑ c : V, L2 k l c d * T2 c a k i  -- L2575
  let tmp := fun (a : V) (b : V) (i : O) (j : O) => (1/2) * (∑ l : O, ∑ d : V, LTov l i d a * T2 b d j l)  -- L2576
  let Pabij := fun (a : V) (b : V) (i : O) (j : O) => Pabij a b i j + (tmp a b i j - tmp a b j i)  -- L2577
  let Pabij := fun (a : V) (b : V) (i : O) (j : O) => Pabij a b i j - tmp b a i j  -- L2578
  let Pabij := fun (a : V) (b : V) (i : O) (j : O) => Pabij a b i j + tmp b a j i  -- L2579
  let T2temp := fun (a : V) (c : V) (i : O) (j : O) => T2 a c i j + T1 c j * T1 a i - T1 c i * T1 a j  -- L2581
  let Lcb := fun (c : V) (b : V) => ∑ k : O, ∑ l : O, ∑ d : V, L2 k l c d * T2 b d k l  -- L2582
  let tmp := fun (a : V) (b : V) (i : O) (j : O) => (-(1/2)) * (∑ c : V, Lcb c b * T2temp a c i j)  -- L2583
  let Pabij := fun (a : V) (b : V) (i : O) (j : O) => Pabij a b i j + (tmp a b i j - tmp b a i j)  -- L2584
  let Lkj := fun (k : O) (j : O) => ∑ l : O, ∑ c : V, ∑ d : V, L2 k l c d * T2 c d j l  -- L2586
  let tmp := fun (a : V) (b : V) (i : O) (j : O) => (-(1/2)) * (∑ k : O, Lkj k j * T2temp a b i k)  -- L2587
  let Pabij := fun (a : V) (b : V) (i : O) (j : O) => Pabij a b i j + (tmp a b i j - tmp a b j i)  -- L2588
  let T2temp := fun (c : V) (d : V) (i : O) (j : O) => T2 c d i j + T1 c i * T1 d j  -- L2590
  let LToo := fun (k : O) (l : O) (i : O) (j : O) => ∑ c : V, ∑ d : V, L2 k l c d * T2temp c d i j  -- L2591
  let tmp := fun (a : V) (l : O) (i : O) (j : O) => ∑ k : O, LToo k l i j * T1 a k  -- L2592
  let tmp := fun (a : V) (b : V) (i : O) (j : O) => (1/4) * (∑ l : O, tmp a l i j * T1 b l)  -- L2593
  let Pabij := fun (a : V) (b : V) (i : O) (j : O) => Pabij a b i j + (tmp a b i j - tmp b a i j)  -- L2594
  let Looov := fun (k : O) (l : O) (i : O) (d : V) => ∑ c : V, L2 k l c d * T1 c i  -- L2596
  let Loooo := fun (k : O) (l : O) (i : O) (j : O) => ∑ d : V, Looov k l i d * T1 d j  -- L2597
  let Loooo := fun (i : O) (j : O) (k : O) (l : O) => Loooo i j k l - Loooo i j l k  -- L2598
  let Pabij := fun (a : V) (b : V) (i : O) (j : O) => Pabij a b i j + (1/4) * (∑ k : O, ∑ l : O, Loooo k l i j * T2temp a b k l)  -- L2599
  let Lalid := fun (a : V) (l : O) (i : O) (d : V) => ∑ k : O, ∑ c : V, L2 k l c d * T1 a k * T1 c i  -- L2601
  let tmp := fun (a : V) (b : V) (i : O) (j : O) => ∑ l : O, ∑ d : V, Lalid a l i d * T2 b d j l  -- L2602
  let Pabij := fun (a : V) (b : V) (i : O) (j : O) => Pabij a b i j - tmp a b i j  -- L2603
  let Pabij := fun (a : V) (b : V) (i : O) (j : O) => Pabij a b i j + (tmp a b j i + tmp b a i j)  -- L2604
  let Pabij := fun (a : V) (b : V) (i : O) (j : O) => Pabij a b i j - tmp b a j i  -- L2605
  Pabij

/-- `ccsd_2rdm_kaij_opt`, cc_equations.py:2609-2623. -/
def ccsd_2rdm_kaij_opt (T1 : V → O → K) (T2 : V → V → O → O → K) (L1 : O → V → K) (L2 : O → O → V → V → K) :
    O → V → O → O → K :=
  let T2temp := fun (c : V) (d : V) (i : O) (j : O) => T2 c d i j + T1 c i * T1 d j  -- L2610
  let T2temp := fun (c : V) (d : V) (i : O) (j : O) => T2temp c d i j - T1 d i * T1 c j  -- L2611
  let Pkaij := fun (k : O) (a : V) (i : O) (j : O) => -(∑ b : V, L1 k b * T2temp b a i j)  -- L2612
  let LTo := fun (k : O) (i : O) => ∑ l : O, ∑ c : V, ∑ d : V, L2 k l c d * T2 c d i l  -- L2614
  let tmp := fun (k : O) (a : V) (i : O) (j : O) => (-(1/2)) * (LTo k i * T1 a j)  -- L2615
  let Pkaij := fun (i : O) (a : V) (j : O) (k : O) => Pkaij i a j k + (tmp i a j k - tmp i a k j)  -- L2616
  let Lklid := fun (k : O) (l : O) (i : O) (d : V) => ∑ c : V, L2 k l c d * T1 c i  -- L2618
  let tmp := fun (k : O) (a : V) (i : O) (j : O) => -(∑ l : O, ∑ d : V, Lklid k l i d * T2 a d j l)  -- L2619
  let Pkaij := fun (i : O) (a : V) (j : O) (k : O) => Pkaij i a j k + (tmp i a j k - tmp i a k j)  -- L2620
  let Pkaij := fun (k : O) (a : V) (i : O) (j : O) => Pkaij k a i j + (1/2) * (∑ l : O, ∑ d : V, ∑ b : V, L2 l k d b * T2temp d b j i * T1 a l)  -- L2622
  Pkaij

/-- `ccsd_2rdm_klij_opt`, cc_equations.py:2626-2630. -/
def ccsd_2rdm_klij_opt (T1 : V → O → K) (T2 : V → V → O → O → K) (L1 : O → V → K) (L2 : O → O → V → V → K) :
    O → O → O → O → K :=
  let T2temp := fun (c : V) (d : V) (i : O) (j : O) => T2 c d i j + T1 c i * T1 d j  -- L2627
  let T2temp := fun (c : V) (d : V) (i : O) (j : O) => T2temp c d i j - T1 d i * T1 c j  -- L2628
  let Pklij := fun (k : O) (l : O) (i : O) (j : O) => (1/2) * (∑ a : V, ∑ b : V, L2 k l a b * T2temp a b i j)  -- L2629
  Pklij

end CC
