/-
GENERATED by tools/gen_cc.py from cqcpy/cc_equations.py (pure text translation); do not edit.
Unrestricted Lambda equations.
Every definition cites the python function it mirrors; each `let` carries the source line
of the statement it translates.  Arithmetic is that of an arbitrary field of characteristic
zero (floating point rounding and dtypes are abstracted).
-/
import Verif.Model.Blocks

set_option linter.unusedVariables false
set_option maxRecDepth 4000

namespace CC

open Finset

variable {K : Type} [Field K]
variable {O V Oa Va Ob Vb : Type} [Fintype O] [Fintype V] [Fintype Oa] [Fintype Va]
  [Fintype Ob] [Fintype Vb]

/-- `_u_LS_TS`, cc_equations.py:782-786. Mutates `L1a`, `L1b`; the model returns the new values. -/
def u_LS_TS (L1a : Oa → Va → K) (L1b : Ob → Vb → K) (Ia : TwoE Oa Va K) (Ib : TwoE Ob Vb K) (Iabab : TwoEFull Oa Va Ob Vb K) (T1aold : Va → Oa → K) (T1bold : Vb → Ob → K) (fac : K) :
    (Oa → Va → K) × (Ob → Vb → K) :=
  let L1a := fun (i : Oa) (a : Va) => L1a i a + fac * (∑ j : Oa, ∑ b : Va, Ia.oovv j i b a * T1aold b j)  -- L783
  let L1a := fun (i : Oa) (a : Va) => L1a i a + fac * (∑ j : Ob, ∑ b : Vb, Iabab.oovv i j a b * T1bold b j)  -- L784
  let L1b := fun (i : Ob) (a : Vb) => L1b i a + fac * (∑ j : Ob, ∑ b : Vb, Ib.oovv j i b a * T1bold b j)  -- L785
  let L1b := fun (i : Ob) (a : Vb) => L1b i a + fac * (∑ j : Oa, ∑ b : Va, Iabab.oovv j i b a * T1aold b j)  -- L786
  (L1a, L1b)

/-- `_uccsd_Lambda_opt`, cc_equations.py:1423-1980. Mutates `L1a`, `L1b`, `L2aa`, `L2ab`, `L2bb`; the model returns the new values. -/
def uccsd_Lambda_opt (L1a : Oa → Va → K) (L1b : Ob → Vb → K) (L2aa : Oa → Oa → Va → Va → K) (L2ab : Oa → Ob → Va → Vb → K) (L2bb : Ob → Ob → Vb → Vb → K) (Fa : OneE Oa Va K) (Fb : OneE Ob Vb K) (Ia : TwoE Oa Va K) (Ib : TwoE Ob Vb K) (Iabab : TwoEFull Oa Va Ob Vb K) (L1olds : (Oa → Va → K) × (Ob → Vb → K)) (L2olds : (Oa → Oa → Va → Va → K) × (Oa → Ob → Va → Vb → K) × (Ob → Ob → Vb → Vb → K)) (T1olds : (Va → Oa → K) × (Vb → Ob → K)) (T2olds : (Va → Va → Oa → Oa → K) × (Va → Vb → Oa → Ob → K) × (Vb → Vb → Ob → Ob → K)) (fac : K) :
    (Oa → Va → K) × (Ob → Vb → K) × (Oa → Oa → Va → Va → K) × (Oa → Ob → Va → Vb → K) × (Ob → Ob → Vb → Vb → K) :=
  let L1aold := L1olds.1  -- L1427
  let L1bold := L1olds.2  -- L1427
  let L2aaold := L2olds.1  -- L1428
  let L2abold := L2olds.2.1  -- L1428
  let L2bbold := L2olds.2.2  -- L1428
  let T1aold := T1olds.1  -- L1429
  let T1bold := T1olds.2  -- L1429
  let T2aaold := T2olds.1  -- L1430
  let T2abold := T2olds.2.1  -- L1430
  let T2bbold := T2olds.2.2  -- L1430
  let TTempaa := fun (b : Va) (c : Va) (j : Oa) (k : Oa) => (1/2) * T2aaold b c j k + T1aold b j * T1aold c k  -- L1432
  let TTempab := fun (b : Va) (c : Vb) (j : Oa) (k : Ob) => (1/2) * T2abold b c j k + T1aold b j * T1bold c k  -- L1433
  let TTempbb := fun (b : Vb) (c : Vb) (j : Ob) (k : Ob) => (1/2) * T2bbold b c j k + T1bold b j * T1bold c k  -- L1434
  let Ivovos1 := fun (a : Va) (i : Oa) (b : Va) (k : Oa) => ∑ c : Va, Ia.vovv a i b c * T1aold c k  -- L1436
  let IVOVOs1 := fun (a : Vb) (i : Ob) (b : Vb) (k : Ob) => ∑ c : Vb, Ib.vovv a i b c * T1bold c k  -- L1437
  let IvOvOs1 := fun (a : Va) (i : Ob) (b : Va) (k : Ob) => ∑ c : Vb, Iabab.vovv a i b c * T1bold c k  -- L1438
  let IVoVos1 := fun (a : Vb) (i : Oa) (b : Vb) (k : Oa) => ∑ c : Va, Iabab.ovvv i a c b * T1aold c k  -- L1439
  let IvOVos1 := fun (a : Va) (i : Ob) (b : Vb) (k : Oa) => -(∑ c : Va, Iabab.vovv a i c b * T1aold c k)  -- L1440
  let IVovOs1 := fun (a : Vb) (i : Oa) (b : Va) (k : Ob) => -(∑ c : Vb, Iabab.ovvv i a b c * T1bold c k)  -- L1441
  let Ivovos2 := fun (b : Va) (i : Oa) (a : Va) (k : Oa) => ∑ j : Oa, T1aold b j * Ia.ooov j i k a  -- L1443
  let IVOVOs2 := fun (b : Vb) (i : Ob) (a : Vb) (k : Ob) => ∑ j : Ob, T1bold b j * Ib.ooov j i k a  -- L1444
  let IvOvOs2 := fun (b : Va) (i : Ob) (a : Va) (k : Ob) => -(∑ j : Oa, T1aold b j * Iabab.oovo j i a k)  -- L1445
  let IVoVos2 := fun (b : Vb) (i : Oa) (a : Vb) (k : Oa) => -(∑ j : Ob, T1bold b j * Iabab.ooov i j k a)  -- L1446
  let IvOVos2 := fun (b : Va) (i : Ob) (a : Vb) (k : Oa) => ∑ j : Oa, T1aold b j * Iabab.ooov j i k a  -- L1447
  let IVovOs2 := fun (b : Vb) (i : Oa) (a : Va) (k : Ob) => ∑ j : Ob, T1bold b j * Iabab.oovo i j a k  -- L1448
  let Ivovvs := fun (c : Va) (i : Oa) (a : Va) (b : Va) => ∑ k : Oa, T1aold c k * Ia.oovv k i a b  -- L1450
  let IVOVVs := fun (c : Vb) (i : Ob) (a : Vb) (b : Vb) => ∑ k : Ob, T1bold c k * Ib.oovv k i a b  -- L1451
  let IVoVvs := fun (c : Vb) (i : Oa) (a : Vb) (b : Va) => ∑ k : Ob, T1bold c k * Iabab.oovv i k b a  -- L1452
  let IvOvVs := fun (c : Va) (i : Ob) (a : Va) (b : Vb) => ∑ k : Oa, T1aold c k * Iabab.oovv k i a b  -- L1453
  let IvOVvs := fun (c : Va) (i : Ob) (a : Vb) (b : Va) => -(∑ k : Oa, T1aold c k * Iabab.oovv k i b a)  -- L1454
  let IVovVs := fun (c : Vb) (i : Oa) (a : Va) (b : Vb) => -(∑ k : Ob, T1bold c k * Iabab.oovv i k a b)  -- L1455
  let Iooovs := fun (i : Oa) (k : Oa) (j : Oa) (c : Va) => ∑ b : Va, Ia.oovv i k b c * T1aold b j  -- L1457
  let IOOOVs := fun (i : Ob) (k : Ob) (j : Ob) (c : Vb) => ∑ b : Vb, Ib.oovv i k b c * T1bold b j  -- L1458
  let IOoOvs := fun (i : Ob) (k : Oa) (j : Ob) (c : Va) => ∑ b : Vb, Iabab.oovv k i c b * T1bold b j  -- L1459
  let IoOoVs := fun (i : Oa) (k : Ob) (j : Oa) (c : Vb) => ∑ b : Va, Iabab.oovv i k b c * T1aold b j  -- L1460
  let IoOOvs := fun (i : Oa) (k : Ob) (j : Ob) (c : Va) => -(∑ b : Vb, Iabab.oovv i k c b * T1bold b j)  -- L1461
  let IOooVs := fun (i : Ob) (k : Oa) (j : Oa) (c : Vb) => -(∑ b : Va, Iabab.oovv k i b c * T1aold b j)  -- L1462
  let Iovs := fun (i : Oa) (a : Va) => ∑ k : Oa, ∑ c : Va, Ia.oovv i k a c * T1aold c k  -- L1464
  let Iovs := fun (i : Oa) (a : Va) => Iovs i a + (∑ k : Ob, ∑ c : Vb, Iabab.oovv i k a c * T1bold c k)  -- L1465
  let IOVs := fun (i : Ob) (a : Vb) => ∑ k : Ob, ∑ c : Vb, Ib.oovv i k a c * T1bold c k  -- L1466
  let IOVs := fun (i : Ob) (a : Vb) => IOVs i a + (∑ k : Oa, ∑ c : Va, Iabab.oovv k i c a * T1aold c k)  -- L1467
  let ITooa := fun (i : Oa) (k : Oa) => ∑ b : Va, Fa.ov i b * T1aold b k + Fa.oo i k + (∑ k' : Oa, ∑ b : Va, ∑ c : Va, Ia.oovv i k' b c * TTempaa b c k k') + (∑ k' : Ob, ∑ b : Va, ∑ c : Vb, Iabab.oovv i k' b c * TTempab b c k k') + (1/2) * (∑ k' : Ob, ∑ c : Va, ∑ b : Vb, Iabab.oovv i k' c b * T2abold c b k k') + (∑ j : Oa, ∑ b : Va, Ia.ooov i j k b * T1aold b j) + (∑ j : Ob, ∑ b : Vb, Iabab.ooov i j k b * T1bold b j)  -- L1470
  let L1a := fun (i : Oa) (a : Va) => L1a i a - fac * (∑ j : Oa, L1aold j a * ITooa i j)  -- L1476
  let tempa := fun (i : Oa) (j : Oa) (a : Va) (b : Va) => ∑ k : Oa, L2aaold i k a b * ITooa j k  -- L1477
  let tempa := fun (i : Oa) (j : Oa) (a : Va) (b : Va) => tempa i j a b - tempa j i a b  -- L1478
  let L2aa := fun (i : Oa) (j : Oa) (a : Va) (b : Va) => L2aa i j a b - fac * tempa i j a b  -- L1479
  let tempab := fun (i : Oa) (j : Ob) (a : Va) (b : Vb) => ∑ k : Oa, L2abold k j a b * ITooa i k  -- L1481
  let IToob := fun (i : Ob) (k : Ob) => ∑ b : Vb, Fb.ov i b * T1bold b k + Fb.oo i k + (∑ k' : Ob, ∑ b : Vb, ∑ c : Vb, Ib.oovv i k' b c * TTempbb b c k k') + (∑ k' : Oa, ∑ c : Va, ∑ b : Vb, Iabab.oovv k' i c b * TTempab c b k' k) + (1/2) * (∑ k' : Oa, ∑ b : Va, ∑ c : Vb, Iabab.oovv k' i b c * T2abold b c k' k) + (∑ j : Ob, ∑ b : Vb, Ib.ooov i j k b * T1bold b j) + (∑ j : Oa, ∑ b : Va, Iabab.oovo j i b k * T1aold b j)  -- L1483
  let L1b := fun (i : Ob) (a : Vb) => L1b i a - fac * (∑ j : Ob, L1bold j a * IToob i j)  -- L1489
  let tempb := fun (i : Ob) (j : Ob) (a : Vb) (b : Vb) => ∑ k : Ob, L2bbold i k a b * IToob j k  -- L1490
  let tempb := fun (i : Ob) (j : Ob) (a : Vb) (b : Vb) => tempb i j a b - tempb j i a b  -- L1491
  let L2bb := fun (i : Ob) (j : Ob) (a : Vb) (b : Vb) => L2bb i j a b - fac * tempb i j a b  -- L1492
  let tempab := fun (i : Oa) (j : Ob) (a : Va) (b : Vb) => tempab i j a b + (∑ k : Ob, L2abold i k a b * IToob j k)  -- L1494
  let L2ab := fun (i : Oa) (j : Ob) (a : Va) (b : Vb) => L2ab i j a b - fac * tempab i j a b  -- L1496
  let ITvva := fun (b : Va) (a : Va) => ∑ j : Oa, Fa.ov j a * T1aold b j - Fa.vv b a - (∑ k : Oa, ∑ c : Va, Ia.vovv b k a c * T1aold c k) - (∑ k : Ob, ∑ c : Vb, Iabab.vovv b k a c * T1bold c k)  -- L1500
  let ITvva := fun (b : Va) (a : Va) => ITvva b a + (∑ j : Oa, ∑ k : Oa, ∑ c : Va, Ia.oovv j k a c * TTempaa b c j k)  -- L1503
  let ITvva := fun (b : Va) (a : Va) => ITvva b a + (∑ j : Oa, ∑ k : Ob, ∑ c : Vb, Iabab.oovv j k a c * TTempab b c j k)  -- L1504
  let ITvva := fun (b : Va) (a : Va) => ITvva b a + (1/2) * (∑ k : Oa, ∑ j : Ob, ∑ c : Vb, Iabab.oovv k j a c * T2abold b c k j)  -- L1505
  let L1a := fun (i : Oa) (a : Va) => L1a i a - fac * (∑ b : Va, L1aold i b * ITvva b a)  -- L1506
  let tempa := fun (i : Oa) (j : Oa) (a : Va) (b : Va) => ∑ c : Va, L2aaold i j a c * ITvva c b  -- L1507
  let tempa := fun (i : Oa) (j : Oa) (a : Va) (b : Va) => tempa i j a b - tempa i j b a  -- L1508
  let tempab := fun (i : Oa) (j : Ob) (a : Va) (b : Vb) => ∑ c : Va, L2abold i j c b * ITvva c a  -- L1509
  let ITvvb := fun (b : Vb) (a : Vb) => ∑ j : Ob, Fb.ov j a * T1bold b j - Fb.vv b a - (∑ k : Ob, ∑ c : Vb, Ib.vovv b k a c * T1bold c k) - (∑ k : Oa, ∑ c : Va, Iabab.ovvv k b c a * T1aold c k)  -- L1511
  let ITvvb := fun (b : Vb) (a : Vb) => ITvvb b a + (∑ j : Ob, ∑ k : Ob, ∑ c : Vb, Ib.oovv j k a c * TTempbb b c j k)  -- L1514
  let ITvvb := fun (b : Vb) (a : Vb) => ITvvb b a + (∑ k : Oa, ∑ j : Ob, ∑ c : Va, Iabab.oovv k j c a * TTempab c b k j)  -- L1515
  let ITvvb := fun (b : Vb) (a : Vb) => ITvvb b a + (1/2) * (∑ j : Oa, ∑ k : Ob, ∑ c : Va, Iabab.oovv j k c a * T2abold c b j k)  -- L1516
  let L1b := fun (i : Ob) (a : Vb) => L1b i a - fac * (∑ b : Vb, L1bold i b * ITvvb b a)  -- L1517
  let tempb := fun (i : Ob) (j : Ob) (a : Vb) (b : Vb) => ∑ c : Vb, L2bbold i j a c * ITvvb c b  -- L1518
  let tempb := fun (i : Ob) (j : Ob) (a : Vb) (b : Vb) => tempb i j a b - tempb i j b a  -- L1519
  let tempab := fun (i : Oa) (j : Ob) (a : Va) (b : Vb) => tempab i j a b + (∑ c : Vb, L2abold i j a c * ITvvb c b)  -- L1520
  let L2aa := fun (i : Oa) (j : Oa) (a : Va) (b : Va) => L2aa i j a b - fac * tempa i j a b  -- L1523
  let L2ab := fun (i : Oa) (j : Ob) (a : Va) (b : Vb) => L2ab i j a b - fac * tempab i j a b  -- L1524
  let L2bb := fun (i : Ob) (j : Ob) (a : Vb) (b : Vb) => L2bb i j a b - fac * tempb i j a b  -- L1525
  let IToovvs1 := fun (i : Oa) (j : Oa) (a : Va) (b : Va) => ∑ k : Oa, ∑ d : Va, Ia.oovv k i d a * T2aaold b d j k  -- L1528
  let IToovvs1 := fun (i : Oa) (j : Oa) (a : Va) (b : Va) => IToovvs1 i j a b + (∑ k : Ob, ∑ d : Vb, Iabab.oovv i k a d * T2abold b d j k)  -- L1529
  let IToovvs1 := fun (i : Oa) (j : Oa) (a : Va) (c : Va) => IToovvs1 i j a c - (∑ b : Va, Ivovvs c i b a * T1aold b j)  -- L1530
  let L1a := fun (i : Oa) (a : Va) => L1a i a + fac * (∑ j : Oa, ∑ b : Va, L1aold j b * IToovvs1 i j a b)  -- L1531
  let ITOOVVs1 := fun (i : Ob) (j : Ob) (a : Vb) (b : Vb) => ∑ k : Ob, ∑ c : Vb, Ib.oovv k i c a * T2bbold b c j k  -- L1534
  let ITOOVVs1 := fun (i : Ob) (j : Ob) (a : Vb) (b : Vb) => ITOOVVs1 i j a b + (∑ k : Oa, ∑ c : Va, Iabab.oovv k i c a * T2abold c b k j)  -- L1535
  let ITOOVVs1 := fun (i : Ob) (j : Ob) (a : Vb) (c : Vb) => ITOOVVs1 i j a c - (∑ b : Vb, IVOVVs c i b a * T1bold b j)  -- L1536
  let L1b := fun (i : Ob) (a : Vb) => L1b i a + fac * (∑ j : Ob, ∑ b : Vb, L1bold j b * ITOOVVs1 i j a b)  -- L1537
  let IToOvVs1 := fun (i : Oa) (j : Ob) (a : Va) (b : Vb) => ∑ k : Oa, ∑ c : Va, Ia.oovv k i c a * T2abold c b k j  -- L1540
  let IToOvVs1 := fun (i : Oa) (j : Ob) (a : Va) (b : Vb) => IToOvVs1 i j a b + (∑ k : Ob, ∑ c : Vb, Iabab.oovv i k a c * T2bbold b c j k)  -- L1541
  let IToOvVs1 := fun (i : Oa) (j : Ob) (a : Va) (c : Vb) => IToOvVs1 i j a c - (∑ b : Vb, IVoVvs c i b a * T1bold b j)  -- L1542
  let L1a := fun (i : Oa) (a : Va) => L1a i a + fac * (∑ j : Ob, ∑ b : Vb, L1bold j b * IToOvVs1 i j a b)  -- L1543
  let ITOoVvs1 := fun (i : Ob) (j : Oa) (a : Vb) (b : Va) => ∑ k : Oa, ∑ c : Va, Iabab.oovv k i c a * T2aaold b c j k  -- L1546
  let ITOoVvs1 := fun (i : Ob) (j : Oa) (a : Vb) (b : Va) => ITOoVvs1 i j a b + (∑ k : Ob, ∑ c : Vb, Ib.oovv k i c a * T2abold b c j k)  -- L1547
  let ITOoVvs1 := fun (i : Ob) (j : Oa) (a : Vb) (c : Va) => ITOoVvs1 i j a c - (∑ b : Va, IvOvVs c i b a * T1aold b j)  -- L1548
  let L1b := fun (i : Ob) (a : Vb) => L1b i a + fac * (∑ j : Oa, ∑ b : Va, L1aold j b * ITOoVvs1 i j a b)  -- L1549
  let ITvooos := fun (c : Va) (i : Oa) (j : Oa) (k : Oa) => ∑ b : Va, Ia.vovo c i b k * T1aold b j  -- L1553
  let ITvooos := fun (a : Va) (i : Oa) (j : Oa) (k : Oa) => ITvooos a i j k + (1/2) * Ia.vooo a i j k  -- L1554
  let ITvooos := fun (b : Va) (i : Oa) (j : Oa) (k : Oa) => ITvooos b i j k + (1/2) * (∑ c : Va, Fa.ov i c * T2aaold b c j k)  -- L1555
  let ITvooos := fun (b : Va) (i : Oa) (k : Oa) (l : Oa) => ITvooos b i k l + (1/2) * (∑ j : Oa, Ia.oooo i j k l * T1aold b j)  -- L1556
  let ITvooos := fun (b : Va) (i : Oa) (l : Oa) (j : Oa) => ITvooos b i l j + (∑ k : Oa, ∑ c : Va, Ia.ooov k i l c * T2aaold b c j k)  -- L1557
  let ITvooos := fun (b : Va) (i : Oa) (l : Oa) (j : Oa) => ITvooos b i l j - (∑ k : Ob, ∑ c : Vb, Iabab.ooov i k l c * T2abold b c j k)  -- L1558
  let ITvooos := fun (b : Va) (i : Oa) (l : Oa) (k : Oa) => ITvooos b i l k - (∑ c : Va, Ivovos2 b i c l * T1aold c k)  -- L1559
  let ITvooos := fun (d : Va) (i : Oa) (j : Oa) (k : Oa) => ITvooos d i j k + (1/2) * (∑ b : Va, ∑ c : Va, Ia.vovv d i b c * TTempaa b c j k)  -- L1560
  let ITvooos := fun (c : Va) (i : Oa) (k : Oa) (l : Oa) => ITvooos c i k l + (1/2) * (∑ d : Va, Iovs i d * T2aaold c d k l)  -- L1561
  let ITvooos := fun (d : Va) (i : Oa) (j : Oa) (l : Oa) => ITvooos d i j l - (∑ k : Oa, ∑ c : Va, Iooovs i k j c * T2aaold c d k l)  -- L1562
  let ITvooos := fun (d : Va) (i : Oa) (j : Oa) (l : Oa) => ITvooos d i j l - (∑ k : Ob, ∑ c : Vb, IoOoVs i k j c * T2abold d c l k)  -- L1563
  let ITvooos := fun (b : Va) (i : Oa) (k : Oa) (l : Oa) => ITvooos b i k l - (1/2) * (∑ c : Va, ∑ d : Va, Ivovvs b i c d * TTempaa c d k l)  -- L1564
  let L1a := fun (i : Oa) (a : Va) => L1a i a + fac * (∑ j : Oa, ∑ k : Oa, ∑ b : Va, L2aaold j k a b * ITvooos b i j k)  -- L1565
  let ITVOOOs := fun (c : Vb) (i : Ob) (j : Ob) (k : Ob) => ∑ b : Vb, Ib.vovo c i b k * T1bold b j  -- L1568
  let ITVOOOs := fun (a : Vb) (i : Ob) (j : Ob) (k : Ob) => ITVOOOs a i j k + (1/2) * Ib.vooo a i j k  -- L1569
  let ITVOOOs := fun (b : Vb) (i : Ob) (j : Ob) (k : Ob) => ITVOOOs b i j k + (1/2) * (∑ c : Vb, Fb.ov i c * T2bbold b c j k)  -- L1570
  let ITVOOOs := fun (b : Vb) (i : Ob) (k : Ob) (l : Ob) => ITVOOOs b i k l + (1/2) * (∑ j : Ob, Ib.oooo i j k l * T1bold b j)  -- L1571
  let ITVOOOs := fun (b : Vb) (i : Ob) (l : Ob) (j : Ob) => ITVOOOs b i l j + (∑ k : Ob, ∑ c : Vb, Ib.ooov k i l c * T2bbold b c j k)  -- L1572
  let ITVOOOs := fun (b : Vb) (i : Ob) (l : Ob) (j : Ob) => ITVOOOs b i l j - (∑ k : Oa, ∑ c : Va, Iabab.oovo k i c l * T2abold c b k j)  -- L1573
  let ITVOOOs := fun (b : Vb) (i : Ob) (l : Ob) (k : Ob) => ITVOOOs b i l k - (∑ c : Vb, IVOVOs2 b i c l * T1bold c k)  -- L1574
  let ITVOOOs := fun (d : Vb) (i : Ob) (j : Ob) (k : Ob) => ITVOOOs d i j k + (1/2) * (∑ b : Vb, ∑ c : Vb, Ib.vovv d i b c * TTempbb b c j k)  -- L1575
  let ITVOOOs := fun (c : Vb) (i : Ob) (k : Ob) (l : Ob) => ITVOOOs c i k l + (1/2) * (∑ d : Vb, IOVs i d * T2bbold c d k l)  -- L1576
  let ITVOOOs := fun (d : Vb) (i : Ob) (j : Ob) (l : Ob) => ITVOOOs d i j l - (∑ k : Ob, ∑ c : Vb, IOOOVs i k j c * T2bbold c d k l)  -- L1577
  let ITVOOOs := fun (d : Vb) (i : Ob) (j : Ob) (l : Ob) => ITVOOOs d i j l - (∑ k : Oa, ∑ c : Va, IOoOvs i k j c * T2abold c d k l)  -- L1578
  let ITVOOOs := fun (b : Vb) (i : Ob) (k : Ob) (l : Ob) => ITVOOOs b i k l - (1/2) * (∑ c : Vb, ∑ d : Vb, IVOVVs b i c d * TTempbb c d k l)  -- L1579
  let L1b := fun (i : Ob) (a : Vb) => L1b i a + fac * (∑ j : Ob, ∑ k : Ob, ∑ b : Vb, L2bbold j k a b * ITVOOOs b i j k)  -- L1580
  let ITVooOs := fun (c : Vb) (i : Oa) (j : Oa) (k : Ob) => -(∑ b : Va, Iabab.ovvo i c b k * T1aold b j)  -- L1583
  let ITVooOs := fun (a : Vb) (i : Oa) (j : Oa) (k : Ob) => ITVooOs a i j k - (1/2) * Iabab.ovoo i a j k  -- L1584
  let ITVooOs := fun (b : Vb) (i : Oa) (j : Oa) (k : Ob) => ITVooOs b i j k - (1/2) * (∑ c : Va, Fa.ov i c * T2abold c b j k)  -- L1585
  let ITVooOs := fun (b : Vb) (i : Oa) (k : Oa) (l : Ob) => ITVooOs b i k l + (1/2) * (∑ j : Ob, Iabab.oooo i j k l * T1bold b j)  -- L1586
  let ITVooOs := fun (b : Vb) (i : Oa) (l : Oa) (j : Ob) => ITVooOs b i l j + (∑ k : Oa, ∑ c : Va, Ia.ooov k i l c * T2abold c b k j)  -- L1587
  let ITVooOs := fun (b : Vb) (i : Oa) (l : Oa) (j : Ob) => ITVooOs b i l j - (∑ k : Ob, ∑ c : Vb, Iabab.ooov i k l c * T2bbold b c j k)  -- L1588
  let ITVooOs := fun (b : Vb) (i : Oa) (l : Oa) (k : Ob) => ITVooOs b i l k - (∑ c : Vb, IVoVos2 b i c l * T1bold c k)  -- L1589
  let ITVooOs := fun (d : Vb) (i : Oa) (j : Oa) (k : Ob) => ITVooOs d i j k - (1/2) * (∑ b : Va, ∑ c : Vb, Iabab.ovvv i d b c * TTempab b c j k)  -- L1590
  let ITVooOs := fun (d : Vb) (i : Oa) (j : Oa) (k : Ob) => ITVooOs d i j k - (1/4) * (∑ c : Va, ∑ b : Vb, Iabab.ovvv i d c b * T2abold c b j k)  -- L1591
  let ITVooOs := fun (c : Vb) (i : Oa) (k : Oa) (l : Ob) => ITVooOs c i k l - (1/2) * (∑ d : Va, Iovs i d * T2abold d c k l)  -- L1592
  let ITVooOs := fun (d : Vb) (i : Oa) (j : Oa) (l : Ob) => ITVooOs d i j l - (∑ k : Oa, ∑ c : Va, Iooovs i k j c * T2abold c d k l)  -- L1593
  let ITVooOs := fun (d : Vb) (i : Oa) (j : Oa) (l : Ob) => ITVooOs d i j l - (∑ k : Ob, ∑ c : Vb, IoOoVs i k j c * T2bbold c d k l)  -- L1594
  let ITVooOs := fun (b : Vb) (i : Oa) (k : Oa) (l : Ob) => ITVooOs b i k l - (1/2) * (∑ c : Va, ∑ d : Vb, IVovVs b i c d * TTempab c d k l)  -- L1595
  let ITVooOs := fun (b : Vb) (i : Oa) (k : Oa) (l : Ob) => ITVooOs b i k l + (1/4) * (∑ c : Vb, ∑ d : Va, IVoVvs b i c d * T2abold d c k l)  -- L1596
  let L1a := fun (i : Oa) (a : Va) => L1a i a + fac * (∑ j : Oa, ∑ k : Ob, ∑ b : Vb, L2abold j k a b * ITVooOs b i j k)  -- L1597
  let ITvOOos := fun (c : Va) (i : Ob) (j : Ob) (k : Oa) => -(∑ b : Vb, Iabab.voov c i k b * T1bold b j)  -- L1600
  let ITvOOos := fun (a : Va) (i : Ob) (j : Ob) (k : Oa) => ITvOOos a i j k - (1/2) * Iabab.vooo a i k j  -- L1601
  let ITvOOos := fun (b : Va) (i : Ob) (j : Ob) (k : Oa) => ITvOOos b i j k - (1/2) * (∑ c : Vb, Fb.ov i c * T2abold b c k j)  -- L1602
  let ITvOOos := fun (b : Va) (i : Ob) (k : Ob) (l : Oa) => ITvOOos b i k l + (1/2) * (∑ j : Oa, Iabab.oooo j i l k * T1aold b j)  -- L1603
  let ITvOOos := fun (b : Va) (i : Ob) (l : Ob) (j : Oa) => ITvOOos b i l j + (∑ k : Ob, ∑ c : Vb, Ib.ooov k i l c * T2abold b c j k)  -- L1604
  let ITvOOos := fun (b : Va) (i : Ob) (l : Ob) (j : Oa) => ITvOOos b i l j - (∑ k : Oa, ∑ c : Va, Iabab.oovo k i c l * T2aaold b c j k)  -- L1605
  let ITvOOos := fun (b : Va) (i : Ob) (l : Ob) (k : Oa) => ITvOOos b i l k - (∑ c : Va, IvOvOs2 b i c l * T1aold c k)  -- L1606
  let ITvOOos := fun (d : Va) (i : Ob) (j : Ob) (k : Oa) => ITvOOos d i j k - (1/2) * (∑ c : Va, ∑ b : Vb, Iabab.vovv d i c b * TTempab c b k j)  -- L1607
  let ITvOOos := fun (d : Va) (i : Ob) (j : Ob) (k : Oa) => ITvOOos d i j k - (1/4) * (∑ b : Va, ∑ c : Vb, Iabab.vovv d i b c * T2abold b c k j)  -- L1608
  let ITvOOos := fun (c : Va) (i : Ob) (k : Ob) (l : Oa) => ITvOOos c i k l - (1/2) * (∑ d : Vb, IOVs i d * T2abold c d l k)  -- L1609
  let ITvOOos := fun (d : Va) (i : Ob) (j : Ob) (l : Oa) => ITvOOos d i j l - (∑ k : Oa, ∑ c : Va, IOoOvs i k j c * T2aaold c d k l)  -- L1610
  let ITvOOos := fun (d : Va) (i : Ob) (j : Ob) (l : Oa) => ITvOOos d i j l - (∑ k : Ob, ∑ c : Vb, IOOOVs i k j c * T2abold d c l k)  -- L1611
  let ITvOOos := fun (b : Va) (i : Ob) (k : Ob) (l : Oa) => ITvOOos b i k l - (1/2) * (∑ c : Vb, ∑ d : Va, IvOVvs b i c d * TTempab d c l k)  -- L1612
  let ITvOOos := fun (b : Va) (i : Ob) (k : Ob) (l : Oa) => ITvOOos b i k l + (1/4) * (∑ c : Va, ∑ d : Vb, IvOvVs b i c d * T2abold c d l k)  -- L1613
  let L1b := fun (i : Ob) (a : Vb) => L1b i a + fac * (∑ k : Oa, ∑ j : Ob, ∑ b : Va, L2abold k j b a * ITvOOos b i j k)  -- L1614
  let ITVoOos := fun (c : Vb) (i : Oa) (j : Ob) (k : Oa) => ∑ b : Vb, Iabab.ovov i c k b * T1bold b j  -- L1617
  let ITVoOos := fun (a : Vb) (i : Oa) (j : Ob) (k : Oa) => ITVoOos a i j k + (1/2) * Iabab.ovoo i a k j  -- L1618
  let ITVoOos := fun (b : Vb) (i : Oa) (j : Ob) (k : Oa) => ITVoOos b i j k + (1/2) * (∑ c : Va, Fa.ov i c * T2abold c b k j)  -- L1619
  let ITVoOos := fun (b : Vb) (i : Oa) (k : Ob) (l : Oa) => ITVoOos b i k l - (1/2) * (∑ j : Ob, Iabab.oooo i j l k * T1bold b j)  -- L1620
  let ITVoOos := fun (b : Vb) (i : Oa) (l : Ob) (j : Oa) => ITVoOos b i l j - (∑ k : Ob, ∑ c : Va, Iabab.oovo i k c l * T2abold c b j k)  -- L1621
  let ITVoOos := fun (b : Vb) (i : Oa) (l : Ob) (k : Oa) => ITVoOos b i l k - (∑ c : Va, IVovOs2 b i c l * T1aold c k)  -- L1622
  let ITVoOos := fun (d : Vb) (i : Oa) (j : Ob) (k : Oa) => ITVoOos d i j k + (1/2) * (∑ c : Va, ∑ b : Vb, Iabab.ovvv i d c b * TTempab c b k j)  -- L1623
  let ITVoOos := fun (d : Vb) (i : Oa) (j : Ob) (k : Oa) => ITVoOos d i j k + (1/4) * (∑ b : Va, ∑ c : Vb, Iabab.ovvv i d b c * T2abold b c k j)  -- L1624
  let ITVoOos := fun (c : Vb) (i : Oa) (k : Ob) (l : Oa) => ITVoOos c i k l + (1/2) * (∑ d : Va, Iovs i d * T2abold d c l k)  -- L1625
  let ITVoOos := fun (d : Vb) (i : Oa) (j : Ob) (l : Oa) => ITVoOos d i j l + (∑ k : Ob, ∑ c : Va, IoOOvs i k j c * T2abold c d l k)  -- L1626
  let ITVoOos := fun (b : Vb) (i : Oa) (k : Ob) (l : Oa) => ITVoOos b i k l - (1/2) * (∑ c : Vb, ∑ d : Va, IVoVvs b i c d * TTempab d c l k)  -- L1627
  let ITVoOos := fun (b : Vb) (i : Oa) (k : Ob) (l : Oa) => ITVoOos b i k l + (1/4) * (∑ c : Va, ∑ d : Vb, IVovVs b i c d * T2abold c d l k)  -- L1628
  let L1a := fun (i : Oa) (a : Va) => L1a i a - fac * (∑ k : Oa, ∑ j : Ob, ∑ b : Vb, L2abold k j a b * ITVoOos b i j k)  -- L1629
  let ITvOoOs := fun (c : Va) (i : Ob) (j : Oa) (k : Ob) => ∑ b : Va, Iabab.vovo c i b k * T1aold b j  -- L1632
  let ITvOoOs := fun (a : Va) (i : Ob) (j : Oa) (k : Ob) => ITvOoOs a i j k + (1/2) * Iabab.vooo a i j k  -- L1633
  let ITvOoOs := fun (b : Va) (i : Ob) (j : Oa) (k : Ob) => ITvOoOs b i j k + (1/2) * (∑ c : Vb, Fb.ov i c * T2abold b c j k)  -- L1634
  let ITvOoOs := fun (b : Va) (i : Ob) (k : Oa) (l : Ob) => ITvOoOs b i k l - (1/2) * (∑ j : Oa, Iabab.oooo j i k l * T1aold b j)  -- L1635
  let ITvOoOs := fun (b : Va) (i : Ob) (l : Oa) (j : Ob) => ITvOoOs b i l j - (∑ k : Oa, ∑ c : Vb, Iabab.ooov k i l c * T2abold b c k j)  -- L1636
  let ITvOoOs := fun (b : Va) (i : Ob) (l : Oa) (k : Ob) => ITvOoOs b i l k - (∑ c : Vb, IvOVos2 b i c l * T1bold c k)  -- L1637
  let ITvOoOs := fun (d : Va) (i : Ob) (j : Oa) (k : Ob) => ITvOoOs d i j k + (1/2) * (∑ b : Va, ∑ c : Vb, Iabab.vovv d i b c * TTempab b c j k)  -- L1638
  let ITvOoOs := fun (d : Va) (i : Ob) (j : Oa) (k : Ob) => ITvOoOs d i j k + (1/4) * (∑ c : Va, ∑ b : Vb, Iabab.vovv d i c b * T2abold c b j k)  -- L1639
  let ITvOoOs := fun (c : Va) (i : Ob) (k : Oa) (l : Ob) => ITvOoOs c i k l + (1/2) * (∑ d : Vb, IOVs i d * T2abold c d k l)  -- L1640
  let ITvOoOs := fun (d : Va) (i : Ob) (j : Oa) (l : Ob) => ITvOoOs d i j l + (∑ k : Oa, ∑ c : Vb, IOooVs i k j c * T2abold d c k l)  -- L1641
  let ITvOoOs := fun (b : Va) (i : Ob) (k : Oa) (l : Ob) => ITvOoOs b i k l - (1/2) * (∑ c : Va, ∑ d : Vb, IvOvVs b i c d * TTempab c d k l)  -- L1642
  let ITvOoOs := fun (b : Va) (i : Ob) (k : Oa) (l : Ob) => ITvOoOs b i k l + (1/4) * (∑ c : Vb, ∑ d : Va, IvOVvs b i c d * T2abold d c k l)  -- L1643
  let L1b := fun (i : Ob) (a : Vb) => L1b i a - fac * (∑ j : Oa, ∑ k : Ob, ∑ b : Va, L2abold j k b a * ITvOoOs b i j k)  -- L1644
  let ITvvvos := fun (a : Va) (b : Va) (c : Va) (i : Oa) => (-(1/2)) * Ia.vvvo a b c i  -- L1648
  let ITvvvos := fun (c : Va) (b : Va) (a : Va) (k : Oa) => ITvvvos c b a k + (∑ j : Oa, Ia.vovo c j a k * T1aold b j)  -- L1649
  let ITvvvos := fun (b : Va) (c : Va) (a : Va) (j : Oa) => ITvvvos b c a j - (1/2) * (∑ k : Oa, Fa.ov k a * T2aaold b c j k)  -- L1650
  let ITvvvos := fun (c : Va) (d : Va) (a : Va) (j : Oa) => ITvvvos c d a j - (1/2) * (∑ b : Va, Ia.vvvv c d a b * T1aold b j)  -- L1651
  let ITvvvos := fun (b : Va) (d : Va) (a : Va) (j : Oa) => ITvvvos b d a j - (∑ k : Oa, ∑ c : Va, Ia.vovv d k c a * T2aaold b c j k)  -- L1652
  let ITvvvos := fun (b : Va) (d : Va) (a : Va) (j : Oa) => ITvvvos b d a j + (∑ k : Ob, ∑ c : Vb, Iabab.vovv d k a c * T2abold b c j k)  -- L1653
  let ITvvvos := fun (b : Va) (d : Va) (a : Va) (k : Oa) => ITvvvos b d a k - (∑ j : Oa, Ivovos1 d j a k * T1aold b j)  -- L1654
  let ITvvvos := fun (b : Va) (c : Va) (a : Va) (l : Oa) => ITvvvos b c a l + (1/2) * (∑ j : Oa, ∑ k : Oa, Ia.ooov j k l a * TTempaa b c j k)  -- L1655
  let ITvvvos := fun (c : Va) (d : Va) (a : Va) (k : Oa) => ITvvvos c d a k - (1/2) * (∑ l : Oa, Iovs l a * T2aaold c d k l)  -- L1656
  let ITvvvos := fun (b : Va) (d : Va) (a : Va) (l : Oa) => ITvvvos b d a l + (∑ k : Oa, ∑ c : Va, Ivovvs b k a c * T2aaold c d k l)  -- L1657
  let ITvvvos := fun (b : Va) (d : Va) (a : Va) (l : Oa) => ITvvvos b d a l + (∑ k : Ob, ∑ c : Vb, IvOvVs b k a c * T2abold d c l k)  -- L1658
  let ITvvvos := fun (c : Va) (d : Va) (a : Va) (j : Oa) => ITvvvos c d a j + (1/2) * (∑ k : Oa, ∑ l : Oa, Iooovs k l j a * TTempaa c d k l)  -- L1659
  let L1a := fun (i : Oa) (a : Va) => L1a i a + fac * (∑ k : Oa, ∑ b : Va, ∑ c : Va, L2aaold i k b c * ITvvvos c b a k)  -- L1660
  let ITVVVOs := fun (a : Vb) (b : Vb) (c : Vb) (i : Ob) => (-(1/2)) * Ib.vvvo a b c i  -- L1663
  let ITVVVOs := fun (c : Vb) (b : Vb) (a : Vb) (k : Ob) => ITVVVOs c b a k + (∑ j : Ob, Ib.vovo c j a k * T1bold b j)  -- L1664
  let ITVVVOs := fun (b : Vb) (c : Vb) (a : Vb) (j : Ob) => ITVVVOs b c a j - (1/2) * (∑ k : Ob, Fb.ov k a * T2bbold b c j k)  -- L1665
  let ITVVVOs := fun (c : Vb) (d : Vb) (a : Vb) (j : Ob) => ITVVVOs c d a j - (1/2) * (∑ b : Vb, Ib.vvvv c d a b * T1bold b j)  -- L1666
  let ITVVVOs := fun (b : Vb) (d : Vb) (a : Vb) (j : Ob) => ITVVVOs b d a j - (∑ k : Ob, ∑ c : Vb, Ib.vovv d k c a * T2bbold b c j k)  -- L1667
  let ITVVVOs := fun (b : Vb) (d : Vb) (a : Vb) (j : Ob) => ITVVVOs b d a j + (∑ k : Oa, ∑ c : Va, Iabab.ovvv k d c a * T2abold c b k j)  -- L1668
  let ITVVVOs := fun (b : Vb) (d : Vb) (a : Vb) (k : Ob) => ITVVVOs b d a k - (∑ j : Ob, IVOVOs1 d j a k * T1bold b j)  -- L1669
  let ITVVVOs := fun (b : Vb) (c : Vb) (a : Vb) (l : Ob) => ITVVVOs b c a l + (1/2) * (∑ j : Ob, ∑ k : Ob, Ib.ooov j k l a * TTempbb b c j k)  -- L1670
  let ITVVVOs := fun (c : Vb) (d : Vb) (a : Vb) (k : Ob) => ITVVVOs c d a k - (1/2) * (∑ l : Ob, IOVs l a * T2bbold c d k l)  -- L1671
  let ITVVVOs := fun (b : Vb) (d : Vb) (a : Vb) (l : Ob) => ITVVVOs b d a l + (∑ k : Ob, ∑ c : Vb, IVOVVs b k a c * T2bbold c d k l)  -- L1672
  let ITVVVOs := fun (b : Vb) (d : Vb) (a : Vb) (l : Ob) => ITVVVOs b d a l + (∑ k : Oa, ∑ c : Va, IVoVvs b k a c * T2abold c d k l)  -- L1673
  let ITVVVOs := fun (c : Vb) (d : Vb) (a : Vb) (j : Ob) => ITVVVOs c d a j + (1/2) * (∑ k : Ob, ∑ l : Ob, IOOOVs k l j a * TTempbb c d k l)  -- L1674
  let L1b := fun (i : Ob) (a : Vb) => L1b i a + fac * (∑ k : Ob, ∑ b : Vb, ∑ c : Vb, L2bbold i k b c * ITVVVOs c b a k)  -- L1675
  let ITVvvOs := fun (a : Vb) (b : Va) (c : Va) (i : Ob) => (1/2) * Iabab.vvvo b a c i  -- L1678
  let ITVvvOs := fun (c : Vb) (b : Va) (a : Va) (k : Ob) => ITVvvOs c b a k - (∑ j : Oa, Iabab.ovvo j c a k * T1aold b j)  -- L1679
  let ITVvvOs := fun (b : Vb) (c : Va) (a : Va) (j : Ob) => ITVvvOs b c a j - (1/2) * (∑ k : Oa, Fa.ov k a * T2abold c b k j)  -- L1680
  let ITVvvOs := fun (c : Vb) (d : Va) (a : Va) (j : Ob) => ITVvvOs c d a j + (1/2) * (∑ b : Vb, Iabab.vvvv d c a b * T1bold b j)  -- L1681
  let ITVvvOs := fun (b : Vb) (d : Va) (a : Va) (j : Ob) => ITVvvOs b d a j - (∑ k : Oa, ∑ c : Va, Ia.vovv d k c a * T2abold c b k j)  -- L1682
  let ITVvvOs := fun (b : Vb) (d : Va) (a : Va) (j : Ob) => ITVvvOs b d a j + (∑ k : Ob, ∑ c : Vb, Iabab.vovv d k a c * T2bbold b c j k)  -- L1683
  let ITVvvOs := fun (b : Vb) (d : Va) (a : Va) (k : Ob) => ITVvvOs b d a k - (∑ j : Ob, IvOvOs1 d j a k * T1bold b j)  -- L1684
  let ITVvvOs := fun (b : Vb) (c : Va) (a : Va) (l : Ob) => ITVvvOs b c a l + (1/2) * (∑ k : Oa, ∑ j : Ob, Iabab.oovo k j a l * TTempab c b k j)  -- L1685
  let ITVvvOs := fun (b : Vb) (c : Va) (a : Va) (l : Ob) => ITVvvOs b c a l + (1/4) * (∑ j : Oa, ∑ k : Ob, Iabab.oovo j k a l * T2abold c b j k)  -- L1686
  let ITVvvOs := fun (c : Vb) (d : Va) (a : Va) (k : Ob) => ITVvvOs c d a k - (1/2) * (∑ l : Oa, Iovs l a * T2abold d c l k)  -- L1687
  let ITVvvOs := fun (b : Vb) (d : Va) (a : Va) (l : Ob) => ITVvvOs b d a l - (∑ k : Oa, ∑ c : Vb, IVovVs b k a c * T2abold d c k l)  -- L1688
  let ITVvvOs := fun (c : Vb) (d : Va) (a : Va) (j : Ob) => ITVvvOs c d a j + (1/2) * (∑ k : Ob, ∑ l : Oa, IOoOvs k l j a * TTempab d c l k)  -- L1689
  let ITVvvOs := fun (c : Vb) (d : Va) (a : Va) (j : Ob) => ITVvvOs c d a j - (1/4) * (∑ k : Oa, ∑ l : Ob, IoOOvs k l j a * T2abold d c k l)  -- L1690
  let L1a := fun (i : Oa) (a : Va) => L1a i a + fac * (∑ k : Ob, ∑ b : Va, ∑ c : Vb, L2abold i k b c * ITVvvOs c b a k)  -- L1691
  let ITvVVos := fun (a : Va) (b : Vb) (c : Vb) (i : Oa) => (1/2) * Iabab.vvov a b i c  -- L1694
  let ITvVVos := fun (c : Va) (b : Vb) (a : Vb) (k : Oa) => ITvVVos c b a k - (∑ j : Ob, Iabab.voov c j k a * T1bold b j)  -- L1695
  let ITvVVos := fun (b : Va) (c : Vb) (a : Vb) (j : Oa) => ITvVVos b c a j - (1/2) * (∑ k : Ob, Fb.ov k a * T2abold b c j k)  -- L1696
  let ITvVVos := fun (c : Va) (d : Vb) (a : Vb) (j : Oa) => ITvVVos c d a j + (1/2) * (∑ b : Va, Iabab.vvvv c d b a * T1aold b j)  -- L1697
  let ITvVVos := fun (b : Va) (d : Vb) (a : Vb) (j : Oa) => ITvVVos b d a j + (∑ k : Oa, ∑ c : Va, Iabab.ovvv k d c a * T2aaold b c j k)  -- L1698
  let ITvVVos := fun (b : Va) (d : Vb) (a : Vb) (j : Oa) => ITvVVos b d a j - (∑ k : Ob, ∑ c : Vb, Ib.vovv d k c a * T2abold b c j k)  -- L1699
  let ITvVVos := fun (b : Va) (d : Vb) (a : Vb) (k : Oa) => ITvVVos b d a k - (∑ j : Oa, IVoVos1 d j a k * T1aold b j)  -- L1700
  let ITvVVos := fun (b : Va) (c : Vb) (a : Vb) (l : Oa) => ITvVVos b c a l + (1/2) * (∑ j : Oa, ∑ k : Ob, Iabab.ooov j k l a * TTempab b c j k)  -- L1701
  let ITvVVos := fun (b : Va) (c : Vb) (a : Vb) (l : Oa) => ITvVVos b c a l + (1/4) * (∑ k : Oa, ∑ j : Ob, Iabab.ooov k j l a * T2abold b c k j)  -- L1702
  let ITvVVos := fun (c : Va) (d : Vb) (a : Vb) (k : Oa) => ITvVVos c d a k - (1/2) * (∑ l : Ob, IOVs l a * T2abold c d k l)  -- L1703
  let ITvVVos := fun (b : Va) (d : Vb) (a : Vb) (l : Oa) => ITvVVos b d a l - (∑ k : Ob, ∑ c : Va, IvOVvs b k a c * T2abold c d l k)  -- L1704
  let ITvVVos := fun (c : Va) (d : Vb) (a : Vb) (j : Oa) => ITvVVos c d a j + (1/2) * (∑ k : Oa, ∑ l : Ob, IoOoVs k l j a * TTempab c d k l)  -- L1705
  let ITvVVos := fun (c : Va) (d : Vb) (a : Vb) (j : Oa) => ITvVVos c d a j - (1/4) * (∑ k : Ob, ∑ l : Oa, IOooVs k l j a * T2abold c d l k)  -- L1706
  let L1b := fun (i : Ob) (a : Vb) => L1b i a + fac * (∑ k : Oa, ∑ c : Va, ∑ b : Vb, L2abold k i c b * ITvVVos c b a k)  -- L1707
  let ITVvVos := fun (a : Vb) (b : Va) (c : Vb) (i : Oa) => (-(1/2)) * Iabab.vvov b a i c  -- L1710
  let ITVvVos := fun (c : Vb) (b : Va) (a : Vb) (k : Oa) => ITVvVos c b a k + (∑ j : Oa, Iabab.ovov j c k a * T1aold b j)  -- L1711
  let ITVvVos := fun (b : Vb) (c : Va) (a : Vb) (j : Oa) => ITVvVos b c a j + (1/2) * (∑ k : Ob, Fb.ov k a * T2abold c b j k)  -- L1712
  let ITVvVos := fun (c : Vb) (d : Va) (a : Vb) (j : Oa) => ITVvVos c d a j - (1/2) * (∑ b : Va, Iabab.vvvv d c b a * T1aold b j)  -- L1713
  let ITVvVos := fun (b : Vb) (d : Va) (a : Vb) (j : Oa) => ITVvVos b d a j + (∑ k : Ob, ∑ c : Va, Iabab.vovv d k c a * T2abold c b j k)  -- L1714
  let ITVvVos := fun (b : Vb) (d : Va) (a : Vb) (k : Oa) => ITVvVos b d a k - (∑ j : Ob, IvOVos1 d j a k * T1bold b j)  -- L1715
  let ITVvVos := fun (b : Vb) (c : Va) (a : Vb) (l : Oa) => ITVvVos b c a l - (1/2) * (∑ k : Oa, ∑ j : Ob, Iabab.ooov k j l a * TTempab c b k j)  -- L1716
  let ITVvVos := fun (b : Vb) (c : Va) (a : Vb) (l : Oa) => ITVvVos b c a l - (1/4) * (∑ j : Oa, ∑ k : Ob, Iabab.ooov j k l a * T2abold c b j k)  -- L1717
  let ITVvVos := fun (c : Vb) (d : Va) (a : Vb) (k : Oa) => ITVvVos c d a k + (1/2) * (∑ l : Ob, IOVs l a * T2abold d c k l)  -- L1718
  let ITVvVos := fun (b : Vb) (d : Va) (a : Vb) (l : Oa) => ITVvVos b d a l + (∑ k : Oa, ∑ c : Va, IVoVvs b k a c * T2aaold c d k l)  -- L1719
  let ITVvVos := fun (b : Vb) (d : Va) (a : Vb) (l : Oa) => ITVvVos b d a l + (∑ k : Ob, ∑ c : Vb, IVOVVs b k a c * T2abold d c l k)  -- L1720
  let ITVvVos := fun (c : Vb) (d : Va) (a : Vb) (j : Oa) => ITVvVos c d a j + (1/2) * (∑ k : Ob, ∑ l : Oa, IOooVs k l j a * TTempab d c l k)  -- L1721
  let ITVvVos := fun (c : Vb) (d : Va) (a : Vb) (j : Oa) => ITVvVos c d a j - (1/4) * (∑ k : Oa, ∑ l : Ob, IoOoVs k l j a * T2abold d c k l)  -- L1722
  let L1b := fun (i : Ob) (a : Vb) => L1b i a - fac * (∑ k : Oa, ∑ b : Va, ∑ c : Vb, L2abold k i b c * ITVvVos c b a k)  -- L1723
  let ITvVvOs := fun (a : Va) (b : Vb) (c : Va) (i : Ob) => (-(1/2)) * Iabab.vvvo a b c i  -- L1726
  let ITvVvOs := fun (c : Va) (b : Vb) (a : Va) (k : Ob) => ITvVvOs c b a k + (∑ j : Ob, Iabab.vovo c j a k * T1bold b j)  -- L1727
  let ITvVvOs := fun (b : Va) (c : Vb) (a : Va) (j : Ob) => ITvVvOs b c a j + (1/2) * (∑ k : Oa, Fa.ov k a * T2abold b c k j)  -- L1728
  let ITvVvOs := fun (c : Va) (d : Vb) (a : Va) (j : Ob) => ITvVvOs c d a j - (1/2) * (∑ b : Vb, Iabab.vvvv c d a b * T1bold b j)  -- L1729
  let ITvVvOs := fun (b : Va) (d : Vb) (a : Va) (j : Ob) => ITvVvOs b d a j + (∑ k : Oa, ∑ c : Vb, Iabab.ovvv k d a c * T2abold b c k j)  -- L1730
  let ITvVvOs := fun (b : Va) (d : Vb) (a : Va) (k : Ob) => ITvVvOs b d a k - (∑ j : Oa, IVovOs1 d j a k * T1aold b j)  -- L1731
  let ITvVvOs := fun (b : Va) (c : Vb) (a : Va) (l : Ob) => ITvVvOs b c a l - (1/2) * (∑ j : Oa, ∑ k : Ob, Iabab.oovo j k a l * TTempab b c j k)  -- L1732
  let ITvVvOs := fun (b : Va) (c : Vb) (a : Va) (l : Ob) => ITvVvOs b c a l - (1/4) * (∑ k : Oa, ∑ j : Ob, Iabab.oovo k j a l * T2abold b c k j)  -- L1733
  let ITvVvOs := fun (c : Va) (d : Vb) (a : Va) (k : Ob) => ITvVvOs c d a k + (1/2) * (∑ l : Oa, Iovs l a * T2abold c d l k)  -- L1734
  let ITvVvOs := fun (b : Va) (d : Vb) (a : Va) (l : Ob) => ITvVvOs b d a l + (∑ k : Oa, ∑ c : Va, Ivovvs b k a c * T2abold c d k l)  -- L1735
  let ITvVvOs := fun (b : Va) (d : Vb) (a : Va) (l : Ob) => ITvVvOs b d a l + (∑ k : Ob, ∑ c : Vb, IvOvVs b k a c * T2bbold c d k l)  -- L1736
  let ITvVvOs := fun (c : Va) (d : Vb) (a : Va) (j : Ob) => ITvVvOs c d a j + (1/2) * (∑ k : Oa, ∑ l : Ob, IoOOvs k l j a * TTempab c d k l)  -- L1737
  let ITvVvOs := fun (c : Va) (d : Vb) (a : Va) (j : Ob) => ITvVvOs c d a j - (1/4) * (∑ k : Ob, ∑ l : Oa, IOoOvs k l j a * T2abold c d l k)  -- L1738
  let L1a := fun (i : Oa) (a : Va) => L1a i a - fac * (∑ k : Ob, ∑ c : Va, ∑ b : Vb, L2abold i k c b * ITvVvOs c b a k)  -- L1739
  let ITovs := fun (i : Oa) (a : Va) => Iovs i a + Fa.ov i a  -- L1743
  let tempaa := fun (i : Oa) (j : Oa) (a : Va) (b : Va) => L1aold j b * ITovs i a  -- L1744
  let tempab := fun (i : Oa) (j : Ob) (a : Va) (b : Vb) => L1bold j b * ITovs i a  -- L1745
  let ITOVs := fun (i : Ob) (a : Vb) => IOVs i a + Fb.ov i a  -- L1747
  let tempaa := fun (i : Oa) (j : Oa) (a : Va) (b : Va) => tempaa i j a b + (tempaa j i b a - tempaa i j b a - tempaa j i a b)  -- L1748
  let tempbb := fun (i : Ob) (j : Ob) (a : Vb) (b : Vb) => L1bold j b * ITOVs i a  -- L1751
  let tempbb := fun (i : Ob) (j : Ob) (a : Vb) (b : Vb) => tempbb i j a b + (tempbb j i b a - tempbb i j b a - tempbb j i a b)  -- L1752
  let tempab := fun (i : Oa) (j : Ob) (a : Va) (b : Vb) => tempab i j a b + L1aold i a * ITOVs j b  -- L1755
  let L2aa := fun (i : Oa) (j : Oa) (a : Va) (b : Va) => L2aa i j a b + fac * tempaa i j a b  -- L1757
  let L2ab := fun (i : Oa) (j : Ob) (a : Va) (b : Vb) => L2ab i j a b + fac * tempab i j a b  -- L1758
  let L2bb := fun (i : Ob) (j : Ob) (a : Vb) (b : Vb) => L2bb i j a b + fac * tempbb i j a b  -- L1759
  let ITvovvs := fun (a : Va) (i : Oa) (b : Va) (c : Va) => Ivovvs a i b c - Ia.vovv a i b c  -- L1762
  let tempaa := fun (i : Oa) (j : Oa) (a : Va) (b : Va) => ∑ c : Va, L1aold i c * ITvovvs c j a b  -- L1763
  let tempaa := fun (i : Oa) (j : Oa) (a : Va) (b : Va) => tempaa i j a b - tempaa j i a b  -- L1765
  let L2aa := fun (i : Oa) (j : Oa) (a : Va) (b : Va) => L2aa i j a b - fac * tempaa i j a b  -- L1766
  let ITVOVVs := fun (a : Vb) (i : Ob) (b : Vb) (c : Vb) => IVOVVs a i b c - Ib.vovv a i b c  -- L1768
  let tempbb := fun (i : Ob) (j : Ob) (a : Vb) (b : Vb) => ∑ c : Vb, L1bold i c * ITVOVVs c j a b  -- L1769
  let tempbb := fun (i : Ob) (j : Ob) (a : Vb) (b : Vb) => tempbb i j a b - tempbb j i a b  -- L1771
  let L2bb := fun (i : Ob) (j : Ob) (a : Vb) (b : Vb) => L2bb i j a b - fac * tempbb i j a b  -- L1772
  let ITvOvVs := fun (a : Va) (i : Ob) (b : Va) (c : Vb) => IvOvVs a i b c - Iabab.vovv a i b c  -- L1774
  let tempab := fun (i : Oa) (j : Ob) (a : Va) (b : Vb) => ∑ c : Va, L1aold i c * ITvOvVs c j a b  -- L1775
  let ITVovVs := fun (a : Vb) (i : Oa) (b : Va) (c : Vb) => IVovVs a i b c + Iabab.ovvv i a b c  -- L1777
  let tempab := fun (i : Oa) (j : Ob) (a : Va) (b : Vb) => tempab i j a b - (∑ c : Vb, L1bold j c * ITVovVs c i a b)  -- L1778
  let L2ab := fun (i : Oa) (j : Ob) (a : Va) (b : Vb) => L2ab i j a b - fac * tempab i j a b  -- L1780
  let ITooovs := fun (i : Oa) (j : Oa) (k : Oa) (a : Va) => Iooovs i j k a + Ia.ooov i j k a  -- L1783
  let tempaa := fun (i : Oa) (j : Oa) (a : Va) (b : Va) => ∑ k : Oa, L1aold k a * ITooovs i j k b  -- L1784
  let tempaa := fun (i : Oa) (j : Oa) (a : Va) (b : Va) => tempaa i j a b - tempaa i j b a  -- L1785
  let ITOOOVs := fun (i : Ob) (j : Ob) (k : Ob) (a : Vb) => IOOOVs i j k a + Ib.ooov i j k a  -- L1787
  let tempbb := fun (i : Ob) (j : Ob) (a : Vb) (b : Vb) => ∑ k : Ob, L1bold k a * ITOOOVs i j k b  -- L1788
  let tempbb := fun (i : Ob) (j : Ob) (a : Vb) (b : Vb) => tempbb i j a b - tempbb i j b a  -- L1789
  let IToOoVs := fun (i : Oa) (j : Ob) (k : Oa) (a : Vb) => IoOoVs i j k a + Iabab.ooov i j k a  -- L1791
  let tempab := fun (i : Oa) (j : Ob) (a : Va) (b : Vb) => ∑ k : Oa, L1aold k a * IToOoVs i j k b  -- L1792
  let IToOOvs := fun (i : Oa) (j : Ob) (k : Ob) (a : Va) => IoOOvs i j k a - Iabab.oovo i j a k  -- L1794
  let tempab := fun (i : Oa) (j : Ob) (a : Va) (b : Vb) => tempab i j a b - (∑ k : Ob, L1bold k b * IToOOvs i j k a)  -- L1795
  let L2aa := fun (i : Oa) (j : Oa) (a : Va) (b : Va) => L2aa i j a b - fac * tempaa i j a b  -- L1797
  let L2ab := fun (i : Oa) (j : Ob) (a : Va) (b : Vb) => L2ab i j a b - fac * tempab i j a b  -- L1798
  let L2bb := fun (i : Ob) (j : Ob) (a : Vb) (b : Vb) => L2bb i j a b - fac * tempbb i j a b  -- L1799
  let ITvovos := fun (a : Va) (i : Oa) (b : Va) (j : Oa) => -Ivovos1 a i b j - Ivovos2 a i b j - Ia.vovo a i b j  -- L1802
  let L1a := fun (i : Oa) (a : Va) => L1a i a + fac * (∑ j : Oa, ∑ b : Va, L1aold j b * ITvovos b i a j)  -- L1803
  let ITvovos := fun (d : Va) (j : Oa) (b : Va) (k : Oa) => ITvovos d j b k - (∑ c : Va, Ivovvs d j c b * T1aold c k)  -- L1804
  let tempaa := fun (i : Oa) (j : Oa) (a : Va) (b : Va) => ∑ k : Oa, ∑ d : Va, L2aaold i k a d * ITvovos d j b k  -- L1805
  let tempab := fun (i : Oa) (j : Ob) (a : Va) (b : Vb) => ∑ k : Oa, ∑ d : Va, L2abold k j d b * ITvovos d i a k  -- L1806
  let ITVOVOs := fun (a : Vb) (i : Ob) (b : Vb) (j : Ob) => -IVOVOs1 a i b j - IVOVOs2 a i b j - Ib.vovo a i b j  -- L1808
  let L1b := fun (i : Ob) (a : Vb) => L1b i a + fac * (∑ j : Ob, ∑ b : Vb, L1bold j b * ITVOVOs b i a j)  -- L1809
  let ITVOVOs := fun (d : Vb) (j : Ob) (b : Vb) (k : Ob) => ITVOVOs d j b k - (∑ c : Vb, IVOVVs d j c b * T1bold c k)  -- L1810
  let tempab := fun (i : Oa) (j : Ob) (a : Va) (b : Vb) => tempab i j a b + (∑ k : Ob, ∑ d : Vb, L2abold i k a d * ITVOVOs d j b k)  -- L1811
  let tempbb := fun (i : Ob) (j : Ob) (a : Vb) (b : Vb) => ∑ k : Ob, ∑ d : Vb, L2bbold i k a d * ITVOVOs d j b k  -- L1812
  let ITvOVos := fun (a : Va) (i : Ob) (b : Vb) (j : Oa) => -IvOVos1 a i b j - IvOVos2 a i b j + Iabab.voov a i j b  -- L1814
  let L1b := fun (i : Ob) (a : Vb) => L1b i a + fac * (∑ j : Oa, ∑ b : Va, L1aold j b * ITvOVos b i a j)  -- L1815
  let ITvOVos := fun (d : Va) (j : Ob) (b : Vb) (k : Oa) => ITvOVos d j b k - (∑ c : Va, IvOvVs d j c b * T1aold c k)  -- L1816
  let tempab := fun (i : Oa) (j : Ob) (a : Va) (b : Vb) => tempab i j a b + (∑ k : Oa, ∑ d : Va, L2aaold i k a d * ITvOVos d j b k)  -- L1817
  let tempbb := fun (i : Ob) (j : Ob) (a : Vb) (b : Vb) => tempbb i j a b + (∑ k : Oa, ∑ d : Va, L2abold k i d a * ITvOVos d j b k)  -- L1818
  let ITVovOs := fun (a : Vb) (i : Oa) (b : Va) (j : Ob) => -IVovOs1 a i b j - IVovOs2 a i b j + Iabab.ovvo i a b j  -- L1820
  let L1a := fun (i : Oa) (a : Va) => L1a i a + fac * (∑ j : Ob, ∑ b : Vb, L1bold j b * ITVovOs b i a j)  -- L1821
  let ITVovOs := fun (d : Vb) (j : Oa) (b : Va) (k : Ob) => ITVovOs d j b k - (∑ c : Vb, IVoVvs d j c b * T1bold c k)  -- L1822
  let tempaa := fun (i : Oa) (j : Oa) (a : Va) (b : Va) => tempaa i j a b + (∑ k : Ob, ∑ d : Vb, L2abold i k a d * ITVovOs d j b k)  -- L1823
  let tempab := fun (i : Oa) (j : Ob) (a : Va) (b : Vb) => tempab i j a b + (∑ k : Ob, ∑ d : Vb, L2bbold k j d b * ITVovOs d i a k)  -- L1824
  let ITvOvOs := fun (a : Va) (i : Ob) (b : Va) (j : Ob) => -IvOvOs1 a i b j - IvOvOs2 a i b j - Iabab.vovo a i b j  -- L1826
  let ITvOvOs := fun (d : Va) (j : Ob) (b : Va) (k : Ob) => ITvOvOs d j b k - (∑ c : Vb, IvOVvs d j c b * T1bold c k)  -- L1827
  let tempab := fun (i : Oa) (j : Ob) (a : Va) (b : Vb) => tempab i j a b + (∑ k : Ob, ∑ d : Va, L2abold i k d b * ITvOvOs d j a k)  -- L1828
  let ITVoVos := fun (a : Vb) (i : Oa) (b : Vb) (j : Oa) => -IVoVos1 a i b j - IVoVos2 a i b j - Iabab.ovov i a j b  -- L1830
  let ITVoVos := fun (d : Vb) (j : Oa) (b : Vb) (k : Oa) => ITVoVos d j b k - (∑ c : Va, IVovVs d j c b * T1aold c k)  -- L1831
  let tempab := fun (i : Oa) (j : Ob) (a : Va) (b : Vb) => tempab i j a b + (∑ k : Oa, ∑ d : Vb, L2abold k j a d * ITVoVos d i b k)  -- L1832
  let tempaa := fun (i : Oa) (j : Oa) (a : Va) (b : Va) => tempaa i j a b + (tempaa j i b a - tempaa i j b a - tempaa j i a b)  -- L1834
  let tempbb := fun (i : Ob) (j : Ob) (a : Vb) (b : Vb) => tempbb i j a b + (tempbb j i b a - tempbb i j b a - tempbb j i a b)  -- L1837
  let L2aa := fun (i : Oa) (j : Oa) (a : Va) (b : Va) => L2aa i j a b + fac * tempaa i j a b  -- L1840
  let L2ab := fun (i : Oa) (j : Ob) (a : Va) (b : Vb) => L2ab i j a b + fac * tempab i j a b  -- L1841
  let L2bb := fun (i : Ob) (j : Ob) (a : Vb) (b : Vb) => L2bb i j a b + fac * tempbb i j a b  -- L1842
  let ITvvvvs := fun (c : Va) (d : Va) (a : Va) (b : Va) => ∑ k : Oa, Ia.vovv d k a b * T1aold c k + (1/2) * (∑ k : Oa, ∑ l : Oa, Ia.oovv k l a b * TTempaa c d k l) + (1/2) * Ia.vvvv c d a b  -- L1845
  let L2aa := fun (i : Oa) (j : Oa) (a : Va) (b : Va) => L2aa i j a b + fac * (∑ c : Va, ∑ d : Va, L2aaold i j c d * ITvvvvs c d a b)  -- L1848
  let ITVVVVs := fun (c : Vb) (d : Vb) (a : Vb) (b : Vb) => ∑ k : Ob, Ib.vovv d k a b * T1bold c k + (1/2) * (∑ k : Ob, ∑ l : Ob, Ib.oovv k l a b * TTempbb c d k l) + (1/2) * Ib.vvvv c d a b  -- L1850
  let L2bb := fun (i : Ob) (j : Ob) (a : Vb) (b : Vb) => L2bb i j a b + fac * (∑ c : Vb, ∑ d : Vb, L2bbold i j c d * ITVVVVs c d a b)  -- L1853
  let ITvVvVs := fun (c : Va) (d : Vb) (a : Va) (b : Vb) => -(∑ k : Oa, Iabab.ovvv k d a b * T1aold c k)  -- L1855
  let ITvVvVs := fun (c : Va) (d : Vb) (a : Va) (b : Vb) => ITvVvVs c d a b + (1/2) * (∑ k : Oa, ∑ l : Ob, Iabab.oovv k l a b * TTempab c d k l)  -- L1856
  let ITvVvVs := fun (c : Va) (d : Vb) (a : Va) (b : Vb) => ITvVvVs c d a b + (1/4) * (∑ l : Oa, ∑ k : Ob, Iabab.oovv l k a b * T2abold c d l k)  -- L1857
  let ITvVvVs := fun (a : Va) (b : Vb) (c : Va) (d : Vb) => ITvVvVs a b c d + (1/2) * Iabab.vvvv a b c d  -- L1858
  let L2ab := fun (i : Oa) (j : Ob) (a : Va) (b : Vb) => L2ab i j a b + fac * (∑ c : Va, ∑ d : Vb, L2abold i j c d * ITvVvVs c d a b)  -- L1859
  let ITVvvVs := fun (c : Vb) (d : Va) (a : Va) (b : Vb) => ∑ k : Ob, Iabab.vovv d k a b * T1bold c k  -- L1861
  let ITVvvVs := fun (c : Vb) (d : Va) (a : Va) (b : Vb) => ITVvvVs c d a b - (1/2) * (∑ l : Oa, ∑ k : Ob, Iabab.oovv l k a b * TTempab d c l k)  -- L1862
  let ITVvvVs := fun (c : Vb) (d : Va) (a : Va) (b : Vb) => ITVvvVs c d a b - (1/4) * (∑ k : Oa, ∑ l : Ob, Iabab.oovv k l a b * T2abold d c k l)  -- L1863
  let ITVvvVs := fun (a : Vb) (b : Va) (c : Va) (d : Vb) => ITVvvVs a b c d - (1/2) * Iabab.vvvv b a c d  -- L1864
  let L2ab := fun (i : Oa) (j : Ob) (a : Va) (b : Vb) => L2ab i j a b - fac * (∑ d : Va, ∑ c : Vb, L2abold i j d c * ITVvvVs c d a b)  -- L1865
  let IToooos := fun (i : Oa) (j : Oa) (k : Oa) (l : Oa) => ∑ c : Va, Ia.ooov i j l c * T1aold c k - (1/2) * (∑ c : Va, ∑ d : Va, Ia.oovv i j c d * TTempaa c d k l) - (1/2) * Ia.oooo i j k l  -- L1869
  let L2aa := fun (i : Oa) (j : Oa) (a : Va) (b : Va) => L2aa i j a b - fac * (∑ k : Oa, ∑ l : Oa, L2aaold k l a b * IToooos i j k l)  -- L1872
  let ITOOOOs := fun (i : Ob) (j : Ob) (k : Ob) (l : Ob) => ∑ c : Vb, Ib.ooov i j l c * T1bold c k - (1/2) * (∑ c : Vb, ∑ d : Vb, Ib.oovv i j c d * TTempbb c d k l) - (1/2) * Ib.oooo i j k l  -- L1874
  let L2bb := fun (i : Ob) (j : Ob) (a : Vb) (b : Vb) => L2bb i j a b - fac * (∑ k : Ob, ∑ l : Ob, L2bbold k l a b * ITOOOOs i j k l)  -- L1877
  let IToOoOs := fun (i : Oa) (j : Ob) (k : Oa) (l : Ob) => -(∑ c : Va, Iabab.oovo i j c l * T1aold c k) - (1/2) * (∑ c : Va, ∑ d : Vb, Iabab.oovv i j c d * TTempab c d k l) - (1/4) * (∑ d : Va, ∑ c : Vb, Iabab.oovv i j d c * T2abold d c k l)  -- L1879
  let IToOoOs := fun (i : Oa) (j : Ob) (k : Oa) (l : Ob) => IToOoOs i j k l + (-(1/2)) * Iabab.oooo i j k l  -- L1882
  let L2ab := fun (i : Oa) (j : Ob) (a : Va) (b : Vb) => L2ab i j a b - fac * (∑ k : Oa, ∑ l : Ob, L2abold k l a b * IToOoOs i j k l)  -- L1883
  let IToOOos := fun (i : Oa) (j : Ob) (k : Ob) (l : Oa) => ∑ c : Vb, Iabab.ooov i j l c * T1bold c k  -- L1885
  let IToOOos := fun (i : Oa) (j : Ob) (k : Ob) (l : Oa) => IToOOos i j k l + (1/2) * (∑ d : Va, ∑ c : Vb, Iabab.oovv i j d c * TTempab d c l k)  -- L1886
  let IToOOos := fun (i : Oa) (j : Ob) (k : Ob) (l : Oa) => IToOOos i j k l + (1/4) * (∑ c : Va, ∑ d : Vb, Iabab.oovv i j c d * T2abold c d l k)  -- L1887
  let IToOOos := fun (i : Oa) (j : Ob) (k : Ob) (l : Oa) => IToOOos i j k l + (1/2) * Iabab.oooo i j l k  -- L1888
  let L2ab := fun (i : Oa) (j : Ob) (a : Va) (b : Vb) => L2ab i j a b + fac * (∑ l : Oa, ∑ k : Ob, L2abold l k a b * IToOOos i j k l)  -- L1889
  let IToovvs := fun (k : Oa) (j : Oa) (c : Va) (b : Va) => ∑ l : Oa, ∑ d : Va, Ia.oovv l j d b * T2aaold c d k l  -- L1893
  let IToovvs := fun (k : Oa) (j : Oa) (c : Va) (b : Va) => IToovvs k j c b + (∑ l : Ob, ∑ d : Vb, Iabab.oovv j l b d * T2abold c d k l)  -- L1894
  let tempaa := fun (i : Oa) (j : Oa) (a : Va) (b : Va) => ∑ k : Oa, ∑ c : Va, L2aaold i k a c * IToovvs k j c b  -- L1895
  let tempab := fun (i : Oa) (j : Ob) (a : Va) (b : Vb) => ∑ k : Oa, ∑ c : Va, L2abold k j c b * IToovvs k i c a  -- L1896
  let ITOOVVs := fun (k : Ob) (j : Ob) (c : Vb) (b : Vb) => ∑ l : Ob, ∑ d : Vb, Ib.oovv l j d b * T2bbold c d k l  -- L1898
  let ITOOVVs := fun (k : Ob) (j : Ob) (c : Vb) (b : Vb) => ITOOVVs k j c b + (∑ l : Oa, ∑ d : Va, Iabab.oovv l j d b * T2abold d c l k)  -- L1899
  let tempbb := fun (i : Ob) (j : Ob) (a : Vb) (b : Vb) => ∑ k : Ob, ∑ c : Vb, L2bbold i k a c * ITOOVVs k j c b  -- L1900
  let tempab := fun (i : Oa) (j : Ob) (a : Va) (b : Vb) => tempab i j a b + (∑ k : Ob, ∑ c : Vb, L2abold i k a c * ITOOVVs k j c b)  -- L1901
  let IToOvVs := fun (k : Oa) (j : Ob) (c : Va) (b : Vb) => ∑ l : Oa, ∑ d : Va, Iabab.oovv l j d b * T2aaold c d k l  -- L1903
  let IToOvVs := fun (k : Oa) (j : Ob) (c : Va) (b : Vb) => IToOvVs k j c b + (∑ l : Ob, ∑ d : Vb, Ib.oovv l j d b * T2abold c d k l)  -- L1904
  let tempbb := fun (i : Ob) (j : Ob) (a : Vb) (b : Vb) => tempbb i j a b + (∑ k : Oa, ∑ c : Va, L2abold k i c a * IToOvVs k j c b)  -- L1905
  let tempab := fun (i : Oa) (j : Ob) (a : Va) (b : Vb) => tempab i j a b + (∑ k : Oa, ∑ c : Va, L2aaold i k a c * IToOvVs k j c b)  -- L1906
  let ITOoVvs := fun (k : Ob) (j : Oa) (c : Vb) (b : Va) => ∑ l : Oa, ∑ d : Va, Ia.oovv l j d b * T2abold d c l k  -- L1908
  let ITOoVvs := fun (k : Ob) (j : Oa) (c : Vb) (b : Va) => ITOoVvs k j c b + (∑ l : Ob, ∑ d : Vb, Iabab.oovv j l b d * T2bbold c d k l)  -- L1909
  let tempaa := fun (i : Oa) (j : Oa) (a : Va) (b : Va) => tempaa i j a b + (∑ k : Ob, ∑ c : Vb, L2abold i k a c * ITOoVvs k j c b)  -- L1910
  let tempab := fun (i : Oa) (j : Ob) (a : Va) (b : Vb) => tempab i j a b + (∑ k : Ob, ∑ c : Vb, L2bbold k j c b * ITOoVvs k i c a)  -- L1911
  let ITOOvvs := fun (k : Ob) (j : Ob) (c : Va) (b : Va) => ∑ l : Oa, ∑ d : Vb, Iabab.oovv l j b d * T2abold c d l k  -- L1913
  let tempab := fun (i : Oa) (j : Ob) (a : Va) (b : Vb) => tempab i j a b + (∑ k : Ob, ∑ c : Va, L2abold i k c b * ITOOvvs k j c a)  -- L1914
  let ITooVVs := fun (k : Oa) (j : Oa) (c : Vb) (b : Vb) => ∑ l : Ob, ∑ d : Va, Iabab.oovv j l d b * T2abold d c k l  -- L1916
  let tempab := fun (i : Oa) (j : Ob) (a : Va) (b : Vb) => tempab i j a b + (∑ k : Oa, ∑ c : Vb, L2abold k j a c * ITooVVs k i c b)  -- L1917
  let tempaa := fun (i : Oa) (j : Oa) (a : Va) (b : Va) => tempaa i j a b + (tempaa j i b a - tempaa i j b a - tempaa j i a b)  -- L1919
  let tempbb := fun (i : Ob) (j : Ob) (a : Vb) (b : Vb) => tempbb i j a b + (tempbb j i b a - tempbb i j b a - tempbb j i a b)  -- L1922
  let L2aa := fun (i : Oa) (j : Oa) (a : Va) (b : Va) => L2aa i j a b + fac * tempaa i j a b  -- L1925
  let L2ab := fun (i : Oa) (j : Ob) (a : Va) (b : Vb) => L2ab i j a b + fac * tempab i j a b  -- L1926
  let L2bb := fun (i : Ob) (j : Ob) (a : Vb) (b : Vb) => L2bb i j a b + fac * tempbb i j a b  -- L1927
  let Lt1a := fun (c : Va) (d : Va) => ∑ j : Oa, ∑ k : Oa, ∑ b : Va, L2aaold j k b d * T2aaold b c j k  -- L1930
  let Lt1a := fun (c : Va) (d : Va) => Lt1a c d + (∑ k : Oa, ∑ j : Ob, ∑ b : Vb, L2abold k j d b * T2abold c b k j)  -- L1931
  let Lt1a := fun (c : Va) (d : Va) => Lt1a c d + (∑ j : Oa, ∑ k : Ob, ∑ b : Vb, L2abold j k d b * T2abold c b j k)  -- L1932
  let L1a := fun (i : Oa) (a : Va) => L1a i a + (1/2) * fac * (∑ c : Va, ∑ d : Va, Lt1a c d * Ia.vovv d i c a)  -- L1933
  let L1b := fun (i : Ob) (a : Vb) => L1b i a + (1/2) * fac * (∑ c : Va, ∑ d : Va, Lt1a c d * Iabab.vovv d i c a)  -- L1934
  let L1a := fun (i : Oa) (a : Va) => L1a i a - (1/2) * fac * (∑ d : Va, ∑ b : Va, Lt1a d b * Ivovvs b i d a)  -- L1935
  let L1b := fun (i : Ob) (a : Vb) => L1b i a - (1/2) * fac * (∑ d : Va, ∑ b : Va, Lt1a d b * IvOvVs b i d a)  -- L1936
  let Lt1b := fun (c : Vb) (d : Vb) => ∑ j : Ob, ∑ k : Ob, ∑ b : Vb, L2bbold j k b d * T2bbold b c j k  -- L1938
  let Lt1b := fun (c : Vb) (d : Vb) => Lt1b c d + (∑ j : Oa, ∑ k : Ob, ∑ b : Va, L2abold j k b d * T2abold b c j k)  -- L1939
  let Lt1b := fun (c : Vb) (d : Vb) => Lt1b c d + (∑ k : Oa, ∑ j : Ob, ∑ b : Va, L2abold k j b d * T2abold b c k j)  -- L1940
  let L1a := fun (i : Oa) (a : Va) => L1a i a + (1/2) * fac * (∑ c : Vb, ∑ d : Vb, Lt1b c d * Iabab.ovvv i d a c)  -- L1941
  let L1b := fun (i : Ob) (a : Vb) => L1b i a + (1/2) * fac * (∑ c : Vb, ∑ d : Vb, Lt1b c d * Ib.vovv d i c a)  -- L1942
  let L1a := fun (i : Oa) (a : Va) => L1a i a - (1/2) * fac * (∑ d : Vb, ∑ b : Vb, Lt1b d b * IVoVvs b i d a)  -- L1943
  let L1b := fun (i : Ob) (a : Vb) => L1b i a - (1/2) * fac * (∑ d : Vb, ∑ b : Vb, Lt1b d b * IVOVVs b i d a)  -- L1944
  let Lt2a := fun (l : Oa) (k : Oa) => ∑ j : Oa, ∑ b : Va, ∑ c : Va, L2aaold j l b c * T2aaold b c j k  -- L1946
  let Lt2a := fun (l : Oa) (k : Oa) => Lt2a l k + (∑ j : Ob, ∑ c : Va, ∑ b : Vb, L2abold l j c b * T2abold c b k j)  -- L1947
  let Lt2a := fun (l : Oa) (k : Oa) => Lt2a l k + (∑ j : Ob, ∑ b : Va, ∑ c : Vb, L2abold l j b c * T2abold b c k j)  -- L1948
  let L1a := fun (i : Oa) (a : Va) => L1a i a - (1/2) * fac * (∑ l : Oa, ∑ k : Oa, Lt2a l k * Ia.ooov k i l a)  -- L1949
  let L1b := fun (i : Ob) (a : Vb) => L1b i a - (1/2) * fac * (∑ l : Oa, ∑ k : Oa, Lt2a l k * Iabab.ooov k i l a)  -- L1950
  let L1a := fun (i : Oa) (a : Va) => L1a i a - (1/2) * fac * (∑ j : Oa, ∑ l : Oa, Lt2a j l * Iooovs l i j a)  -- L1951
  let L1b := fun (i : Ob) (a : Vb) => L1b i a - (1/2) * fac * (∑ j : Oa, ∑ l : Oa, Lt2a j l * IoOoVs l i j a)  -- L1952
  let Lt2b := fun (l : Ob) (k : Ob) => ∑ j : Ob, ∑ b : Vb, ∑ c : Vb, L2bbold j l b c * T2bbold b c j k  -- L1954
  let Lt2b := fun (l : Ob) (k : Ob) => Lt2b l k + (∑ j : Oa, ∑ b : Va, ∑ c : Vb, L2abold j l b c * T2abold b c j k)  -- L1955
  let Lt2b := fun (l : Ob) (k : Ob) => Lt2b l k + (∑ j : Oa, ∑ c : Va, ∑ b : Vb, L2abold j l c b * T2abold c b j k)  -- L1956
  let L1a := fun (i : Oa) (a : Va) => L1a i a - (1/2) * fac * (∑ l : Ob, ∑ k : Ob, Lt2b l k * Iabab.oovo i k a l)  -- L1957
  let L1b := fun (i : Ob) (a : Vb) => L1b i a - (1/2) * fac * (∑ l : Ob, ∑ k : Ob, Lt2b l k * Ib.ooov k i l a)  -- L1958
  let L1a := fun (i : Oa) (a : Va) => L1a i a - (1/2) * fac * (∑ j : Ob, ∑ l : Ob, Lt2b j l * IOoOvs l i j a)  -- L1959
  let L1b := fun (i : Ob) (a : Vb) => L1b i a - (1/2) * fac * (∑ j : Ob, ∑ l : Ob, Lt2b j l * IOOOVs l i j a)  -- L1960
  let tempaa := fun (i : Oa) (j : Oa) (a : Va) (b : Va) => (1/2) * (∑ d : Va, Lt1a d a * Ia.oovv i j d b)  -- L1962
  let tempab := fun (i : Oa) (j : Ob) (a : Va) (b : Vb) => (1/2) * (∑ d : Va, Lt1a d a * Iabab.oovv i j d b)  -- L1963
  let tempaa := fun (i : Oa) (j : Oa) (a : Va) (b : Va) => tempaa i j a b - tempaa i j b a  -- L1964
  let tempbb := fun (i : Ob) (j : Ob) (a : Vb) (b : Vb) => (1/2) * (∑ d : Vb, Lt1b d a * Ib.oovv i j d b)  -- L1965
  let tempbb := fun (i : Ob) (j : Ob) (a : Vb) (b : Vb) => tempbb i j a b - tempbb i j b a  -- L1966
  let tempab := fun (i : Oa) (j : Ob) (a : Va) (b : Vb) => tempab i j a b + (1/2) * (∑ d : Vb, Lt1b d b * Iabab.oovv i j a d)  -- L1967
  let L2aa := fun (i : Oa) (j : Oa) (a : Va) (b : Va) => L2aa i j a b - fac * tempaa i j a b  -- L1968
  let L2ab := fun (i : Oa) (j : Ob) (a : Va) (b : Vb) => L2ab i j a b - fac * tempab i j a b  -- L1969
  let L2bb := fun (i : Ob) (j : Ob) (a : Vb) (b : Vb) => L2bb i j a b - fac * tempbb i j a b  -- L1970
  let tempaa := fun (i : Oa) (j : Oa) (a : Va) (b : Va) => (1/2) * (∑ l : Oa, Lt2a i l * Ia.oovv l j a b)  -- L1972
  let tempaa := fun (i : Oa) (j : Oa) (a : Va) (b : Va) => tempaa i j a b - tempaa j i a b  -- L1973
  let tempbb := fun (i : Ob) (j : Ob) (a : Vb) (b : Vb) => (1/2) * (∑ l : Ob, Lt2b i l * Ib.oovv l j a b)  -- L1974
  let tempbb := fun (i : Ob) (j : Ob) (a : Vb) (b : Vb) => tempbb i j a b - tempbb j i a b  -- L1975
  let tempab := fun (i : Oa) (j : Ob) (a : Va) (b : Vb) => (1/2) * (∑ l : Oa, Lt2a i l * Iabab.oovv l j a b)  -- L1976
  let tempab := fun (i : Oa) (j : Ob) (a : Va) (b : Vb) => tempab i j a b + (1/2) * (∑ l : Ob, Lt2b j l * Iabab.oovv i l a b)  -- L1977
  let L2aa := fun (i : Oa) (j : Oa) (a : Va) (b : Va) => L2aa i j a b - fac * tempaa i j a b  -- L1978
  let L2ab := fun (i : Oa) (j : Ob) (a : Va) (b : Vb) => L2ab i j a b - fac * tempab i j a b  -- L1979
  let L2bb := fun (i : Ob) (j : Ob) (a : Vb) (b : Vb) => L2bb i j a b - fac * tempbb i j a b  -- L1980
  (L1a, L1b, L2aa, L2ab, L2bb)

/-- `uccsd_lambda_opt`, cc_equations.py:2311-2327. -/
def uccsd_lambda_opt (Fa : OneE Oa Va K) (Fb : OneE Ob Vb K) (Ia : TwoE Oa Va K) (Ib : TwoE Ob Vb K) (Iabab : TwoEFull Oa Va Ob Vb K) (L1old : (Oa → Va → K) × (Ob → Vb → K)) (L2old : (Oa → Oa → Va → Va → K) × (Oa → Ob → Va → Vb → K) × (Ob → Ob → Vb → Vb → K)) (T1old : (Va → Oa → K) × (Vb → Ob → K)) (T2old : (Va → Va → Oa → Oa → K) × (Va → Vb → Oa → Ob → K) × (Vb → Vb → Ob → Ob → K)) :
    ((Oa → Va → K) × (Ob → Vb → K)) × ((Oa → Oa → Va → Va → K) × (Oa → Ob → Va → Vb → K) × (Ob → Ob → Vb → Vb → K)) :=
  let T1aold := T1old.1  -- L2316
  let T1bold := T1old.2  -- L2316
  let L1a := Fa.ov  -- L2318
  let L1b := Fb.ov  -- L2319
  let L2aa := Ia.oovv  -- L2320
  let L2ab := Iabab.oovv  -- L2321
  let L2bb := Ib.oovv  -- L2322
  let r := u_LS_TS L1a L1b Ia Ib Iabab T1aold T1bold 1  -- L2323
  let L1a := r.1
  let L1b := r.2
  let r := uccsd_Lambda_opt L1a L1b L2aa L2ab L2bb Fa Fb Ia Ib Iabab L1old L2old T1old T2old 1  -- L2324
  let L1a := r.1
  let L1b := r.2.1
  let L2aa := r.2.2.1
  let L2ab := r.2.2.2.1
  let L2bb := r.2.2.2.2
  ((L1a, L1b), (L2aa, L2ab, L2bb))

end CC
