/-
GENERATED by tools/gen_cc.py from cqcpy/cc_equations.py (pure text translation); do not edit.
Unrestricted amplitude equations.
Every definition cites the python function it mirrors; each `let` carries the source line
of the statement it translates.  Arithmetic is that of an arbitrary field of characteristic
zero (floating point rounding and dtypes are abstracted).
-/
import Verif.Model.Blocks

set_option linter.unusedVariables false
set_option maxRecDepth 4000

namespace CC

open Finset

variable {K : Type} [Field K]
variable {O V Oa Va Ob Vb : Type} [Fintype O] [Fintype V] [Fintype Oa] [Fintype Va]
  [Fintype Ob] [Fintype Vb]

/-- `_u_Stanton`, cc_equations.py:302-546. Mutates `T1a`, `T1b`, `T2aa`, `T2ab`, `T2bb`; the model returns the new values. -/
def u_Stanton (T1a : Va → Oa → K) (T1b : Vb → Ob → K) (T2aa : Va → Va → Oa → Oa → K) (T2ab : Va → Vb → Oa → Ob → K) (T2bb : Vb → Vb → Ob → Ob → K) (Faa : OneE Oa Va K) (Fbb : OneE Ob Vb K) (Ia : TwoE Oa Va K) (Ib : TwoE Ob Vb K) (Iabab : TwoEFull Oa Va Ob Vb K) (T1old : (Va → Oa → K) × (Vb → Ob → K)) (T2old : (Va → Va → Oa → Oa → K) × (Va → Vb → Oa → Ob → K) × (Vb → Vb → Ob → Ob → K)) (fac : K) :
    (Va → Oa → K) × (Vb → Ob → K) × (Va → Va → Oa → Oa → K) × (Va → Vb → Oa → Ob → K) × (Vb → Vb → Ob → Ob → K) :=
  let T1aold := T1old.1  -- L306
  let T1bold := T1old.2  -- L306
  let T2aaold := T2old.1  -- L307
  let T2abold := T2old.2.1  -- L307
  let T2bbold := T2old.2.2  -- L307
  let T2Aaa := T2aaold  -- L309
  let T2Aaa := fun (a : Va) (b : Va) (i : Oa) (j : Oa) => T2Aaa a b i j + (1/2) * (T1aold a i * T1aold b j)  -- L310
  let T2Aaa := fun (a : Va) (b : Va) (i : Oa) (j : Oa) => T2Aaa a b i j - (1/2) * (T1aold b i * T1aold a j)  -- L311
  let T2Abb := T2bbold  -- L312
  let T2Abb := fun (a : Vb) (b : Vb) (i : Ob) (j : Ob) => T2Abb a b i j + (1/2) * (T1bold a i * T1bold b j)  -- L313
  let T2Abb := fun (a : Vb) (b : Vb) (i : Ob) (j : Ob) => T2Abb a b i j - (1/2) * (T1bold b i * T1bold a j)  -- L314
  let T2Aab := T2abold  -- L315
  let T2Aab := fun (a : Va) (b : Vb) (i : Oa) (j : Ob) => T2Aab a b i j + (1/2) * (T1aold a i * T1bold b j)  -- L316
  let Fvva := Faa.vv  -- L318
  let Fvva := fun (a : Va) (b : Va) => Fvva a b - (1/2) * (∑ j : Oa, Faa.ov j b * T1aold a j)  -- L319
  let Fvva := fun (a : Va) (b : Va) => Fvva a b - (∑ j : Oa, ∑ c : Va, Ia.vovv a j c b * T1aold c j)  -- L320
  let Fvva := fun (a : Va) (b : Va) => Fvva a b + (∑ j : Ob, ∑ c : Vb, Iabab.vovv a j b c * T1bold c j)  -- L321
  let Fvva := fun (a : Va) (b : Va) => Fvva a b - (1/2) * (∑ j : Oa, ∑ k : Oa, ∑ c : Va, Ia.oovv j k b c * T2Aaa a c j k)  -- L322
  let Fvva := fun (a : Va) (b : Va) => Fvva a b - (∑ j : Oa, ∑ k : Ob, ∑ c : Vb, Iabab.oovv j k b c * T2Aab a c j k)  -- L323
  let Fvvb := Fbb.vv  -- L325
  let Fvvb := fun (a : Vb) (b : Vb) => Fvvb a b - (1/2) * (∑ j : Ob, Fbb.ov j b * T1bold a j)  -- L326
  let Fvvb := fun (a : Vb) (b : Vb) => Fvvb a b - (∑ j : Ob, ∑ c : Vb, Ib.vovv a j c b * T1bold c j)  -- L327
  let Fvvb := fun (a : Vb) (b : Vb) => Fvvb a b + (∑ j : Oa, ∑ c : Va, Iabab.ovvv j a c b * T1aold c j)  -- L328
  let Fvvb := fun (a : Vb) (b : Vb) => Fvvb a b - (1/2) * (∑ j : Ob, ∑ k : Ob, ∑ c : Vb, Ib.oovv j k b c * T2Abb a c j k)  -- L329
  let Fvvb := fun (a : Vb) (b : Vb) => Fvvb a b - (∑ k : Oa, ∑ j : Ob, ∑ c : Va, Iabab.oovv k j c b * T2Aab c a k j)  -- L330
  let Fooa := Faa.oo  -- L332
  let Fooa := fun (j : Oa) (i : Oa) => Fooa j i + (1/2) * (∑ b : Va, Faa.ov j b * T1aold b i)  -- L333
  let Fooa := fun (j : Oa) (i : Oa) => Fooa j i + (∑ k : Oa, ∑ b : Va, Ia.ooov j k i b * T1aold b k)  -- L334
  let Fooa := fun (j : Oa) (i : Oa) => Fooa j i + (∑ k : Ob, ∑ b : Vb, Iabab.ooov j k i b * T1bold b k)  -- L335
  let Fooa := fun (j : Oa) (i : Oa) => Fooa j i + (1/2) * (∑ k : Oa, ∑ b : Va, ∑ c : Va, Ia.oovv j k b c * T2Aaa b c i k)  -- L336
  let Fooa := fun (j : Oa) (i : Oa) => Fooa j i + (∑ k : Ob, ∑ b : Va, ∑ c : Vb, Iabab.oovv j k b c * T2Aab b c i k)  -- L337
  let Foob := Fbb.oo  -- L339
  let Foob := fun (j : Ob) (i : Ob) => Foob j i + (1/2) * (∑ b : Vb, Fbb.ov j b * T1bold b i)  -- L340
  let Foob := fun (j : Ob) (i : Ob) => Foob j i + (∑ k : Ob, ∑ b : Vb, Ib.ooov j k i b * T1bold b k)  -- L341
  let Foob := fun (j : Ob) (i : Ob) => Foob j i + (∑ k : Oa, ∑ b : Va, Iabab.oovo k j b i * T1aold b k)  -- L342
  let Foob := fun (j : Ob) (i : Ob) => Foob j i + (1/2) * (∑ k : Ob, ∑ b : Vb, ∑ c : Vb, Ib.oovv j k b c * T2Abb b c i k)  -- L343
  let Foob := fun (j : Ob) (i : Ob) => Foob j i + (∑ k : Oa, ∑ c : Va, ∑ b : Vb, Iabab.oovv k j c b * T2Aab c b k i)  -- L344
  let Fova := Faa.ov  -- L349
  let Fova := fun (j : Oa) (b : Va) => Fova j b + (∑ k : Oa, ∑ c : Va, Ia.oovv j k b c * T1aold c k)  -- L350
  let Fova := fun (j : Oa) (b : Va) => Fova j b + (∑ k : Ob, ∑ c : Vb, Iabab.oovv j k b c * T1bold c k)  -- L351
  let Fovb := Fbb.ov  -- L353
  let Fovb := fun (j : Ob) (b : Vb) => Fovb j b + (∑ k : Ob, ∑ c : Vb, Ib.oovv j k b c * T1bold c k)  -- L354
  let Fovb := fun (j : Ob) (b : Vb) => Fovb j b + (∑ k : Oa, ∑ c : Va, Iabab.oovv k j c b * T1aold c k)  -- L355
  let T1a := fun (a : Va) (i : Oa) => T1a a i + fac * (∑ b : Va, Fvva a b * T1aold b i)  -- L357
  let T1b := fun (a : Vb) (i : Ob) => T1b a i + fac * (∑ b : Vb, Fvvb a b * T1bold b i)  -- L358
  let T1a := fun (a : Va) (i : Oa) => T1a a i - fac * (∑ j : Oa, Fooa j i * T1aold a j)  -- L359
  let T1b := fun (a : Vb) (i : Ob) => T1b a i - fac * (∑ j : Ob, Foob j i * T1bold a j)  -- L360
  let T1a := fun (a : Va) (i : Oa) => T1a a i + fac * (∑ j : Oa, ∑ b : Va, Fova j b * T2aaold a b i j)  -- L361
  let T1a := fun (a : Va) (i : Oa) => T1a a i + fac * (∑ j : Ob, ∑ b : Vb, Fovb j b * T2abold a b i j)  -- L362
  let T1b := fun (a : Vb) (i : Ob) => T1b a i + fac * (∑ j : Ob, ∑ b : Vb, Fovb j b * T2bbold a b i j)  -- L363
  let T1b := fun (a : Vb) (i : Ob) => T1b a i + fac * (∑ j : Oa, ∑ b : Va, Fova j b * T2abold b a j i)  -- L364
  let T1a := fun (a : Va) (i : Oa) => T1a a i - fac * (∑ j : Oa, ∑ b : Va, Ia.vovo a j b i * T1aold b j)  -- L366
  let T1a := fun (a : Va) (i : Oa) => T1a a i + fac * (∑ j : Ob, ∑ b : Vb, Iabab.voov a j i b * T1bold b j)  -- L367
  let T1b := fun (a : Vb) (i : Ob) => T1b a i - fac * (∑ j : Ob, ∑ b : Vb, Ib.vovo a j b i * T1bold b j)  -- L368
  let T1b := fun (a : Vb) (i : Ob) => T1b a i + fac * (∑ j : Oa, ∑ b : Va, Iabab.ovvo j a b i * T1aold b j)  -- L369
  let T1a := fun (a : Va) (i : Oa) => T1a a i + fac * (1/2) * (∑ j : Oa, ∑ b : Va, ∑ c : Va, Ia.vovv a j b c * T2aaold b c i j)  -- L371
  let T1a := fun (a : Va) (i : Oa) => T1a a i + 2 * fac * (1/2) * (∑ j : Ob, ∑ b : Va, ∑ c : Vb, Iabab.vovv a j b c * T2abold b c i j)  -- L372
  let T1b := fun (a : Vb) (i : Ob) => T1b a i + fac * (1/2) * (∑ j : Ob, ∑ b : Vb, ∑ c : Vb, Ib.vovv a j b c * T2bbold b c i j)  -- L373
  let T1b := fun (a : Vb) (i : Ob) => T1b a i + 2 * fac * (1/2) * (∑ j : Oa, ∑ c : Va, ∑ b : Vb, Iabab.ovvv j a c b * T2abold c b j i)  -- L374
  let T1a := fun (a : Va) (i : Oa) => T1a a i - fac * (1/2) * (∑ j : Oa, ∑ k : Oa, ∑ b : Va, Ia.ooov j k i b * T2aaold a b j k)  -- L376
  let T1a := fun (a : Va) (i : Oa) => T1a a i - fac * (∑ j : Oa, ∑ k : Ob, ∑ b : Vb, Iabab.ooov j k i b * T2abold a b j k)  -- L377
  let T1b := fun (a : Vb) (i : Ob) => T1b a i - fac * (1/2) * (∑ j : Ob, ∑ k : Ob, ∑ b : Vb, Ib.ooov j k i b * T2bbold a b j k)  -- L378
  let T1b := fun (a : Vb) (i : Ob) => T1b a i - fac * (∑ k : Oa, ∑ j : Ob, ∑ b : Va, Iabab.oovo k j b i * T2abold b a k j)  -- L379
  let T2Baa := T2aaold  -- L381
  let T2Baa := fun (a : Va) (b : Va) (i : Oa) (j : Oa) => T2Baa a b i j + T1aold a i * T1aold b j  -- L382
  let T2Baa := fun (a : Va) (b : Va) (i : Oa) (j : Oa) => T2Baa a b i j - T1aold b i * T1aold a j  -- L383
  let T2Bbb := T2bbold  -- L384
  let T2Bbb := fun (a : Vb) (b : Vb) (i : Ob) (j : Ob) => T2Bbb a b i j + T1bold a i * T1bold b j  -- L385
  let T2Bbb := fun (a : Vb) (b : Vb) (i : Ob) (j : Ob) => T2Bbb a b i j - T1bold b i * T1bold a j  -- L386
  let T2Bab := T2abold  -- L387
  let T2Bab := fun (a : Va) (b : Vb) (i : Oa) (j : Ob) => T2Bab a b i j + T1aold a i * T1bold b j  -- L388
  let Wo_aaaa := Ia.oooo  -- L390
  let Wo_aaaa := fun (k : Oa) (l : Oa) (i : Oa) (j : Oa) => Wo_aaaa k l i j + (∑ c : Va, Ia.ooov k l i c * T1aold c j)  -- L391
  let Wo_aaaa := fun (k : Oa) (l : Oa) (i : Oa) (j : Oa) => Wo_aaaa k l i j - (∑ c : Va, Ia.ooov k l j c * T1aold c i)  -- L392
  let Wo_aaaa := fun (k : Oa) (l : Oa) (i : Oa) (j : Oa) => Wo_aaaa k l i j + (1/4) * (∑ c : Va, ∑ d : Va, Ia.oovv k l c d * T2Baa c d i j)  -- L393
  let Wo_bbbb := Ib.oooo  -- L394
  let Wo_bbbb := fun (k : Ob) (l : Ob) (i : Ob) (j : Ob) => Wo_bbbb k l i j + (∑ c : Vb, Ib.ooov k l i c * T1bold c j)  -- L395
  let Wo_bbbb := fun (k : Ob) (l : Ob) (i : Ob) (j : Ob) => Wo_bbbb k l i j - (∑ c : Vb, Ib.ooov k l j c * T1bold c i)  -- L396
  let Wo_bbbb := fun (k : Ob) (l : Ob) (i : Ob) (j : Ob) => Wo_bbbb k l i j + (1/4) * (∑ c : Vb, ∑ d : Vb, Ib.oovv k l c d * T2Bbb c d i j)  -- L397
  let Wo_abab := Iabab.oooo  -- L398
  let Wo_abab := fun (k : Oa) (l : Ob) (i : Oa) (j : Ob) => Wo_abab k l i j + (∑ c : Vb, Iabab.ooov k l i c * T1bold c j)  -- L399
  let Wo_abab := fun (k : Oa) (l : Ob) (i : Oa) (j : Ob) => Wo_abab k l i j + (∑ c : Va, Iabab.oovo k l c j * T1aold c i)  -- L400
  let Wo_abab := fun (k : Oa) (l : Ob) (i : Oa) (j : Ob) => Wo_abab k l i j + (1/2) * (∑ c : Va, ∑ d : Vb, Iabab.oovv k l c d * T2Bab c d i j)  -- L401
  let T2aa := fun (a : Va) (b : Va) (i : Oa) (j : Oa) => T2aa a b i j + fac * (1/2) * (∑ k : Oa, ∑ l : Oa, Wo_aaaa k l i j * T2Baa a b k l)  -- L402
  let T2bb := fun (a : Vb) (b : Vb) (i : Ob) (j : Ob) => T2bb a b i j + fac * (1/2) * (∑ k : Ob, ∑ l : Ob, Wo_bbbb k l i j * T2Bbb a b k l)  -- L403
  let T2ab := fun (a : Va) (b : Vb) (i : Oa) (j : Ob) => T2ab a b i j + fac * (∑ k : Oa, ∑ l : Ob, Wo_abab k l i j * T2Bab a b k l)  -- L404
  let Wv_aaaa := Ia.vvvv  -- L409
  let Wv_aaaa := fun (a : Va) (b : Va) (c : Va) (d : Va) => Wv_aaaa a b c d - (∑ k : Oa, Ia.vovv a k c d * T1aold b k)  -- L410
  let Wv_aaaa := fun (a : Va) (b : Va) (c : Va) (d : Va) => Wv_aaaa a b c d + (∑ k : Oa, Ia.vovv b k c d * T1aold a k)  -- L411
  let Wv_aaaa := fun (a : Va) (b : Va) (c : Va) (d : Va) => Wv_aaaa a b c d + (1/4) * (∑ k : Oa, ∑ l : Oa, Ia.oovv k l c d * T2Baa a b k l)  -- L412
  let Wv_bbbb := Ib.vvvv  -- L413
  let Wv_bbbb := fun (a : Vb) (b : Vb) (c : Vb) (d : Vb) => Wv_bbbb a b c d - (∑ k : Ob, Ib.vovv a k c d * T1bold b k)  -- L414
  let Wv_bbbb := fun (a : Vb) (b : Vb) (c : Vb) (d : Vb) => Wv_bbbb a b c d + (∑ k : Ob, Ib.vovv b k c d * T1bold a k)  -- L415
  let Wv_bbbb := fun (a : Vb) (b : Vb) (c : Vb) (d : Vb) => Wv_bbbb a b c d + (1/4) * (∑ k : Ob, ∑ l : Ob, Ib.oovv k l c d * T2Bbb a b k l)  -- L416
  let Wv_abab := Iabab.vvvv  -- L417
  let Wv_abab := fun (a : Va) (b : Vb) (c : Va) (d : Vb) => Wv_abab a b c d - (∑ k : Ob, Iabab.vovv a k c d * T1bold b k)  -- L418
  let Wv_abab := fun (a : Va) (b : Vb) (c : Va) (d : Vb) => Wv_abab a b c d - (∑ k : Oa, Iabab.ovvv k b c d * T1aold a k)  -- L419
  let Wv_abab := fun (a : Va) (b : Vb) (c : Va) (d : Vb) => Wv_abab a b c d + (1/2) * (∑ k : Oa, ∑ l : Ob, Iabab.oovv k l c d * T2Bab a b k l)  -- L420
  let T2aa := fun (a : Va) (b : Va) (i : Oa) (j : Oa) => T2aa a b i j + fac * (1/2) * (∑ c : Va, ∑ d : Va, Wv_aaaa a b c d * T2Baa c d i j)  -- L421
  let T2bb := fun (a : Vb) (b : Vb) (i : Ob) (j : Ob) => T2bb a b i j + fac * (1/2) * (∑ c : Vb, ∑ d : Vb, Wv_bbbb a b c d * T2Bbb c d i j)  -- L422
  let T2ab := fun (a : Va) (b : Vb) (i : Oa) (j : Ob) => T2ab a b i j + fac * (∑ c : Va, ∑ d : Vb, Wv_abab a b c d * T2Bab c d i j)  -- L423
  let aatemp := fun (a : Va) (b : Va) (i : Oa) (j : Oa) => ∑ k : Oa, ∑ c : Va, Ia.vovo b k c j * T1aold c i * T1aold a k  -- L431
  let bbtemp := fun (a : Vb) (b : Vb) (i : Ob) (j : Ob) => ∑ k : Ob, ∑ c : Vb, Ib.vovo b k c j * T1bold c i * T1bold a k  -- L432
  let abtemp := fun (a : Va) (b : Vb) (i : Oa) (j : Ob) => -(∑ k : Oa, ∑ c : Va, Iabab.ovvo k b c j * T1aold c i * T1aold a k)  -- L433
  let abtemp := fun (a : Va) (b : Vb) (i : Oa) (j : Ob) => abtemp a b i j + (-(∑ k : Ob, ∑ c : Va, Iabab.vovo a k c j * T1aold c i * T1bold b k))  -- L434
  let abtemp := fun (a : Va) (b : Vb) (i : Oa) (j : Ob) => abtemp a b i j + (-(∑ k : Oa, ∑ c : Vb, Iabab.ovov k b i c * T1bold c j * T1aold a k))  -- L435
  let abtemp := fun (a : Va) (b : Vb) (i : Oa) (j : Ob) => abtemp a b i j + (-(∑ k : Ob, ∑ c : Vb, Iabab.voov a k i c * T1bold c j * T1bold b k))  -- L436
  let aatemp := fun (a : Va) (b : Va) (i : Oa) (j : Oa) => aatemp a b i j + aatemp b a j i - aatemp b a i j - aatemp a b j i  -- L437
  let bbtemp := fun (a : Vb) (b : Vb) (i : Ob) (j : Ob) => bbtemp a b i j + bbtemp b a j i - bbtemp b a i j - bbtemp a b j i  -- L440
  let T2aa := fun (a : Va) (b : Va) (i : Oa) (j : Oa) => T2aa a b i j + fac * aatemp a b i j  -- L443
  let T2bb := fun (a : Vb) (b : Vb) (i : Ob) (j : Ob) => T2bb a b i j + fac * bbtemp a b i j  -- L444
  let T2ab := fun (a : Va) (b : Vb) (i : Oa) (j : Ob) => T2ab a b i j + fac * abtemp a b i j  -- L445
  let TTTaa := fun (d : Va) (b : Va) (j : Oa) (l : Oa) => (1/2) * T2aaold d b j l + T1aold d j * T1aold b l  -- L450
  let TTTbb := fun (d : Vb) (b : Vb) (j : Ob) (l : Ob) => (1/2) * T2bbold d b j l + T1bold d j * T1bold b l  -- L451
  let TTTab := fun (d : Va) (b : Vb) (j : Oa) (l : Ob) => (1/2) * T2abold d b j l + T1aold d j * T1bold b l  -- L452
  let W_ovvo := fun (i : Oa) (a : Va) (b : Va) (j : Oa) => -Ia.vovo a i b j  -- L454
  let W_ovvo := fun (k : Oa) (b : Va) (c : Va) (j : Oa) => W_ovvo k b c j - (∑ d : Va, Ia.vovv b k c d * T1aold d j)  -- L455
  let W_ovvo := fun (k : Oa) (b : Va) (c : Va) (j : Oa) => W_ovvo k b c j + (∑ l : Oa, Ia.ooov k l j c * T1aold b l)  -- L456
  let W_ovvo := fun (k : Oa) (b : Va) (c : Va) (j : Oa) => W_ovvo k b c j - (∑ l : Oa, ∑ d : Va, Ia.oovv k l c d * TTTaa d b j l)  -- L457
  let W_ovvo := fun (k : Oa) (b : Va) (c : Va) (j : Oa) => W_ovvo k b c j + (1/2) * (∑ l : Ob, ∑ d : Vb, Iabab.oovv k l c d * T2abold b d j l)  -- L458
  let W_OVVO := fun (i : Ob) (a : Vb) (b : Vb) (j : Ob) => -Ib.vovo a i b j  -- L460
  let W_OVVO := fun (k : Ob) (b : Vb) (c : Vb) (j : Ob) => W_OVVO k b c j - (∑ d : Vb, Ib.vovv b k c d * T1bold d j)  -- L461
  let W_OVVO := fun (k : Ob) (b : Vb) (c : Vb) (j : Ob) => W_OVVO k b c j + (∑ l : Ob, Ib.ooov k l j c * T1bold b l)  -- L462
  let W_OVVO := fun (k : Ob) (b : Vb) (c : Vb) (j : Ob) => W_OVVO k b c j - (∑ l : Ob, ∑ d : Vb, Ib.oovv k l c d * TTTbb d b j l)  -- L463
  let W_OVVO := fun (k : Ob) (b : Vb) (c : Vb) (j : Ob) => W_OVVO k b c j + (1/2) * (∑ l : Oa, ∑ d : Va, Iabab.oovv l k d c * T2abold d b l j)  -- L464
  let W_oVvO := Iabab.ovvo  -- L466
  let W_oVvO := fun (k : Oa) (b : Vb) (c : Va) (j : Ob) => W_oVvO k b c j + (∑ d : Vb, Iabab.ovvv k b c d * T1bold d j)  -- L467
  let W_oVvO := fun (k : Oa) (b : Vb) (c : Va) (j : Ob) => W_oVvO k b c j - (∑ l : Ob, Iabab.oovo k l c j * T1bold b l)  -- L468
  let W_oVvO := fun (k : Oa) (b : Vb) (c : Va) (j : Ob) => W_oVvO k b c j - (∑ l : Ob, ∑ d : Vb, Iabab.oovv k l c d * TTTbb d b j l)  -- L469
  let W_oVvO := fun (k : Oa) (b : Vb) (c : Va) (j : Ob) => W_oVvO k b c j + (1/2) * (∑ l : Oa, ∑ d : Va, Ia.oovv k l c d * T2abold d b l j)  -- L470
  let W_OvVo := fun (i : Ob) (a : Va) (b : Vb) (j : Oa) => Iabab.voov a i j b  -- L472
  let W_OvVo := fun (k : Ob) (b : Va) (c : Vb) (j : Oa) => W_OvVo k b c j + (∑ d : Va, Iabab.vovv b k d c * T1aold d j)  -- L473
  let W_OvVo := fun (k : Ob) (b : Va) (c : Vb) (j : Oa) => W_OvVo k b c j - (∑ l : Oa, Iabab.ooov l k j c * T1aold b l)  -- L474
  let W_OvVo := fun (k : Ob) (b : Va) (c : Vb) (j : Oa) => W_OvVo k b c j - (∑ l : Oa, ∑ d : Va, Iabab.oovv l k d c * TTTaa d b j l)  -- L475
  let W_OvVo := fun (k : Ob) (b : Va) (c : Vb) (j : Oa) => W_OvVo k b c j + (1/2) * (∑ l : Ob, ∑ d : Vb, Ib.oovv k l c d * T2abold b d j l)  -- L476
  let W_oVVo := fun (i : Oa) (a : Vb) (b : Vb) (j : Oa) => -Iabab.ovov i a j b  -- L478
  let W_oVVo := fun (k : Oa) (b : Vb) (c : Vb) (j : Oa) => W_oVVo k b c j - (∑ d : Va, Iabab.ovvv k b d c * T1aold d j)  -- L479
  let W_oVVo := fun (k : Oa) (b : Vb) (c : Vb) (j : Oa) => W_oVVo k b c j + (∑ l : Ob, Iabab.ooov k l j c * T1bold b l)  -- L480
  let W_oVVo := fun (k : Oa) (b : Vb) (c : Vb) (j : Oa) => W_oVVo k b c j + (∑ l : Ob, ∑ d : Va, Iabab.oovv k l d c * TTTab d b j l)  -- L481
  let W_OvvO := fun (i : Ob) (a : Va) (b : Va) (j : Ob) => -Iabab.vovo a i b j  -- L483
  let W_OvvO := fun (k : Ob) (b : Va) (c : Va) (j : Ob) => W_OvvO k b c j - (∑ d : Vb, Iabab.vovv b k c d * T1bold d j)  -- L484
  let W_OvvO := fun (k : Ob) (b : Va) (c : Va) (j : Ob) => W_OvvO k b c j + (∑ l : Oa, Iabab.oovo l k c j * T1aold b l)  -- L485
  let W_OvvO := fun (k : Ob) (b : Va) (c : Va) (j : Ob) => W_OvvO k b c j + (∑ l : Oa, ∑ d : Vb, Iabab.oovv l k c d * TTTab b d l j)  -- L486
  let ATaa := fun (a : Va) (b : Va) (i : Oa) (j : Oa) => ∑ k : Oa, ∑ c : Va, W_ovvo k b c j * T2aaold a c i k  -- L488
  let ATaa := fun (a : Va) (b : Va) (i : Oa) (j : Oa) => ATaa a b i j + (∑ k : Ob, ∑ c : Vb, W_OvVo k b c j * T2abold a c i k)  -- L489
  let ATbb := fun (a : Vb) (b : Vb) (i : Ob) (j : Ob) => ∑ k : Ob, ∑ c : Vb, W_OVVO k b c j * T2bbold a c i k  -- L490
  let ATbb := fun (a : Vb) (b : Vb) (i : Ob) (j : Ob) => ATbb a b i j + (∑ k : Oa, ∑ c : Va, W_oVvO k b c j * T2abold c a k i)  -- L491
  let ATaa := fun (a : Va) (b : Va) (i : Oa) (j : Oa) => ATaa a b i j - ATaa a b j i - ATaa b a i j + ATaa b a j i  -- L492
  let ATbb := fun (a : Vb) (b : Vb) (i : Ob) (j : Ob) => ATbb a b i j - ATbb a b j i - ATbb b a i j + ATbb b a j i  -- L495
  let ATab := fun (a : Va) (b : Vb) (i : Oa) (j : Ob) => ∑ k : Oa, ∑ c : Va, W_oVvO k b c j * T2aaold a c i k  -- L499
  let ATab := fun (a : Va) (b : Vb) (i : Oa) (j : Ob) => ATab a b i j + (∑ k : Ob, ∑ c : Vb, W_OVVO k b c j * T2abold a c i k)  -- L500
  let ATab := fun (a : Va) (b : Vb) (i : Oa) (j : Ob) => ATab a b i j + (∑ k : Ob, ∑ c : Va, W_OvvO k a c j * T2abold c b i k)  -- L501
  let ATab := fun (a : Va) (b : Vb) (i : Oa) (j : Ob) => ATab a b i j + (∑ k : Oa, ∑ c : Vb, W_oVVo k b c i * T2abold a c k j)  -- L502
  let ATab := fun (a : Va) (b : Vb) (i : Oa) (j : Ob) => ATab a b i j + (∑ k : Oa, ∑ c : Va, W_ovvo k a c i * T2abold c b k j)  -- L503
  let ATab := fun (a : Va) (b : Vb) (i : Oa) (j : Ob) => ATab a b i j + (∑ k : Ob, ∑ c : Vb, W_OvVo k a c i * T2bbold c b k j)  -- L504
  let T2aa := fun (a : Va) (b : Va) (i : Oa) (j : Oa) => T2aa a b i j + fac * ATaa a b i j  -- L505
  let T2ab := fun (a : Va) (b : Vb) (i : Oa) (j : Ob) => T2ab a b i j + fac * ATab a b i j  -- L506
  let T2bb := fun (a : Vb) (b : Vb) (i : Ob) (j : Ob) => T2bb a b i j + fac * ATbb a b i j  -- L507
  let Fvva := fun (a : Va) (b : Va) => Fvva a b - (1/2) * (∑ j : Oa, Fova j b * T1aold a j)  -- L516
  let Fvvb := fun (a : Vb) (b : Vb) => Fvvb a b - (1/2) * (∑ j : Ob, Fovb j b * T1bold a j)  -- L517
  let ATaa := fun (a : Va) (b : Va) (i : Oa) (j : Oa) => ∑ c : Va, Fvva b c * T2aaold a c i j  -- L518
  let ATaa := fun (a : Va) (b : Va) (i : Oa) (j : Oa) => ATaa a b i j + (∑ k : Oa, Ia.vooo b k i j * T1aold a k)  -- L519
  let ATaa := fun (a : Va) (b : Va) (i : Oa) (j : Oa) => ATaa a b i j - ATaa b a i j  -- L520
  let ATbb := fun (a : Vb) (b : Vb) (i : Ob) (j : Ob) => ∑ c : Vb, Fvvb b c * T2bbold a c i j  -- L521
  let ATbb := fun (a : Vb) (b : Vb) (i : Ob) (j : Ob) => ATbb a b i j + (∑ k : Ob, Ib.vooo b k i j * T1bold a k)  -- L522
  let ATbb := fun (a : Vb) (b : Vb) (i : Ob) (j : Ob) => ATbb a b i j - ATbb b a i j  -- L523
  let ATab := fun (a : Va) (b : Vb) (i : Oa) (j : Ob) => ∑ c : Vb, Fvvb b c * T2abold a c i j  -- L524
  let ATab := fun (a : Va) (b : Vb) (i : Oa) (j : Ob) => ATab a b i j + (∑ c : Va, Fvva a c * T2abold c b i j)  -- L525
  let ATab := fun (a : Va) (b : Vb) (i : Oa) (j : Ob) => ATab a b i j - (∑ k : Oa, Iabab.ovoo k b i j * T1aold a k)  -- L526
  let ATab := fun (a : Va) (b : Vb) (i : Oa) (j : Ob) => ATab a b i j - (∑ k : Ob, Iabab.vooo a k i j * T1bold b k)  -- L527
  let T2aa := fun (a : Va) (b : Va) (i : Oa) (j : Oa) => T2aa a b i j + fac * ATaa a b i j  -- L528
  let T2ab := fun (a : Va) (b : Vb) (i : Oa) (j : Ob) => T2ab a b i j + fac * ATab a b i j  -- L529
  let T2bb := fun (a : Vb) (b : Vb) (i : Ob) (j : Ob) => T2bb a b i j + fac * ATbb a b i j  -- L530
  let Fooa := fun (j : Oa) (i : Oa) => Fooa j i + (1/2) * (∑ b : Va, Fova j b * T1aold b i)  -- L532
  let Foob := fun (j : Ob) (i : Ob) => Foob j i + (1/2) * (∑ b : Vb, Fovb j b * T1bold b i)  -- L533
  let ATaa := fun (a : Va) (b : Va) (i : Oa) (j : Oa) => ∑ k : Oa, Fooa k j * T2aaold a b i k  -- L534
  let ATaa := fun (a : Va) (b : Va) (i : Oa) (j : Oa) => ATaa a b i j - (∑ c : Va, Ia.vvvo a b c j * T1aold c i)  -- L535
  let ATaa := fun (a : Va) (b : Va) (i : Oa) (j : Oa) => ATaa a b i j - ATaa a b j i  -- L536
  let ATbb := fun (a : Vb) (b : Vb) (i : Ob) (j : Ob) => ∑ k : Ob, Foob k j * T2bbold a b i k  -- L537
  let ATbb := fun (a : Vb) (b : Vb) (i : Ob) (j : Ob) => ATbb a b i j - (∑ c : Vb, Ib.vvvo a b c j * T1bold c i)  -- L538
  let ATbb := fun (a : Vb) (b : Vb) (i : Ob) (j : Ob) => ATbb a b i j - ATbb a b j i  -- L539
  let ATab := fun (a : Va) (b : Vb) (i : Oa) (j : Ob) => ∑ k : Ob, Foob k j * T2abold a b i k  -- L540
  let ATab := fun (a : Va) (b : Vb) (i : Oa) (j : Ob) => ATab a b i j + (∑ k : Oa, Fooa k i * T2abold a b k j)  -- L541
  let ATab := fun (a : Va) (b : Vb) (i : Oa) (j : Ob) => ATab a b i j - (∑ c : Va, Iabab.vvvo a b c j * T1aold c i)  -- L542
  let ATab := fun (a : Va) (b : Vb) (i : Oa) (j : Ob) => ATab a b i j - (∑ c : Vb, Iabab.vvov a b i c * T1bold c j)  -- L543
  let T2aa := fun (a : Va) (b : Va) (i : Oa) (j : Oa) => T2aa a b i j - fac * ATaa a b i j  -- L544
  let T2ab := fun (a : Va) (b : Vb) (i : Oa) (j : Ob) => T2ab a b i j - fac * ATab a b i j  -- L545
  let T2bb := fun (a : Vb) (b : Vb) (i : Ob) (j : Ob) => T2bb a b i j - fac * ATbb a b i j  -- L546
  (T1a, T1b, T2aa, T2ab, T2bb)

/-- `uccsd_stanton`, cc_equations.py:745-755. -/
def uccsd_stanton (Faa : OneE Oa Va K) (Fbb : OneE Ob Vb K) (Ia : TwoE Oa Va K) (Ib : TwoE Ob Vb K) (I_abab : TwoEFull Oa Va Ob Vb K) (T1old : (Va → Oa → K) × (Vb → Ob → K)) (T2old : (Va → Va → Oa → Oa → K) × (Va → Vb → Oa → Ob → K) × (Vb → Vb → Ob → Ob → K)) :
    ((Va → Oa → K) × (Vb → Ob → K)) × ((Va → Va → Oa → Oa → K) × (Va → Vb → Oa → Ob → K) × (Vb → Vb → Ob → Ob → K)) :=
  let T1a := Faa.vo  -- L746
  let T1b := Fbb.vo  -- L747
  let T2aa := Ia.vvoo  -- L748
  let T2ab := I_abab.vvoo  -- L749
  let T2bb := Ib.vvoo  -- L750
  let r := u_Stanton T1a T1b T2aa T2ab T2bb Faa Fbb Ia Ib I_abab T1old T2old 1  -- L752
  let T1a := r.1
  let T1b := r.2.1
  let T2aa := r.2.2.1
  let T2ab := r.2.2.2.1
  let T2bb := r.2.2.2.2
  ((T1a, T1b), (T2aa, T2ab, T2bb))

end CC
