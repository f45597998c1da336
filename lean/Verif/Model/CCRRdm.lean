/-
GENERATED by tools/gen_cc.py from cqcpy/cc_equations.py (pure text translation); do not edit.
Restricted reduced density matrices.
Every definition cites the python function it mirrors; each `let` carries the source line
of the statement it translates.  Arithmetic is that of an arbitrary field of characteristic
zero (floating point rounding and dtypes are abstracted).
-/
import Verif.Model.Blocks

set_option linter.unusedVariables false
set_option maxRecDepth 4000

namespace CC

open Finset

variable {K : Type} [Field K]
variable {O V Oa Va Ob Vb : Type} [Fintype O] [Fintype V] [Fintype Oa] [Fintype Va]
  [Fintype Ob] [Fintype Vb]

/-- `rccsd_1rdm_ba`, cc_equations.py:2690-2696. -/
def rccsd_1rdm_ba (T1 : V → O → K) (T2 : V → V → O → O → K) (L1 : O → V → K) (L2 : O → O → V → V → K) (tfac : K) :
    V → V → K :=
  let pba := fun (b : V) (a : V) => ∑ i : O, L1 i a * T1 b i  -- L2691
  let pba := fun (b : V) (a : V) => pba b a + (1/2) * (∑ k : O, ∑ i : O, ∑ c : V, (L2 k i c a - L2 k i a c) * (T2 c b k i - T2 c b i k))  -- L2692
  let pba := fun (b : V) (a : V) => pba b a + (∑ i : O, ∑ k : O, ∑ c : V, L2 i k a c * T2 b c i k)  -- L2695
  pba

/-- `rccsd_1rdm_ji`, cc_equations.py:2699-2705. -/
def rccsd_1rdm_ji (T1 : V → O → K) (T2 : V → V → O → O → K) (L1 : O → V → K) (L2 : O → O → V → V → K) (tfac : K) :
    O → O → K :=
  let pji := fun (j : O) (i : O) => -(∑ a : V, L1 j a * T1 a i)  -- L2700
  let pji := fun (j : O) (i : O) => pji j i - (1/2) * (∑ k : O, ∑ c : V, ∑ a : V, (L2 k j c a - L2 k j a c) * (T2 c a k i - T2 c a i k))  -- L2701
  let pji := fun (j : O) (i : O) => pji j i - (∑ k : O, ∑ a : V, ∑ c : V, L2 j k a c * T2 a c i k)  -- L2704
  pji

/-- `rccsd_1rdm_ai`, cc_equations.py:2708-2728. -/
def rccsd_1rdm_ai (T1 : V → O → K) (T2 : V → V → O → O → K) (L1 : O → V → K) (L2 : O → O → V → V → K) (tfac : K) :
    V → O → K :=
  let T2tempaa := fun (b : V) (a : V) (j : O) (i : O) => T2 b a j i - T2 b a i j - T1 b i * T1 a j  -- L2709
  let T2tempab := T2  -- L2710
  let pai := fun (a : V) (i : O) => tfac * T1 a i  -- L2712
  let pai := fun (a : V) (i : O) => pai a i + (∑ j : O, ∑ b : V, L1 j b * T2tempaa b a j i)  -- L2713
  let pai := fun (a : V) (i : O) => pai a i + (∑ j : O, ∑ b : V, L1 j b * T2tempab a b i j)  -- L2714
  let Pac := fun (a : V) (c : V) => (1/2) * (∑ k : O, ∑ j : O, ∑ b : V, (L2 k j c b - L2 k j b c) * (T2 a b k j - T2 a b j k))  -- L2716
  let Pac := fun (a : V) (c : V) => Pac a c + (∑ k : O, ∑ j : O, ∑ b : V, L2 k j c b * T2 a b k j)  -- L2719
  let pai := fun (a : V) (i : O) => pai a i - (∑ c : V, Pac a c * T1 c i)  -- L2720
  let Pik := fun (i : O) (k : O) => (1/2) * (∑ j : O, ∑ c : V, ∑ b : V, (L2 k j c b - L2 k j b c) * (T2 c b i j - T2 c b j i))  -- L2722
  let Pik := fun (i : O) (k : O) => Pik i k + (∑ j : O, ∑ c : V, ∑ b : V, L2 k j c b * T2 c b i j)  -- L2725
  let pai := fun (a : V) (i : O) => pai a i - (∑ k : O, Pik i k * T1 a k)  -- L2726
  pai

/-- `rccsd_2rdm_ciab`, cc_equations.py:3096-3099. -/
def rccsd_2rdm_ciab (T1 : V → O → K) (T2 : V → V → O → O → K) (L1 : O → V → K) (L2 : O → O → V → V → K) :
    V → O → V → V → K :=
  let Pciab := fun (c : V) (i : O) (a : V) (b : V) => ∑ j : O, L2 j i a b * T1 c j  -- L3097
  Pciab

/-- `rccsd_2rdm_jkai`, cc_equations.py:3102-3104. -/
def rccsd_2rdm_jkai (T1 : V → O → K) (T2 : V → V → O → O → K) (L1 : O → V → K) (L2 : O → O → V → V → K) :
    O → O → V → O → K :=
  let Pjkai := fun (j : O) (k : O) (a : V) (i : O) => -(∑ b : V, L2 j k a b * T1 b i)  -- L3103
  Pjkai

/-- `rccsd_2rdm_cdab`, cc_equations.py:3107-3110. -/
def rccsd_2rdm_cdab (T1 : V → O → K) (T2 : V → V → O → O → K) (L1 : O → V → K) (L2 : O → O → V → V → K) :
    V → V → V → V → K :=
  let T2temp := fun (c : V) (d : V) (i : O) (j : O) => T2 c d i j + T1 c i * T1 d j  -- L3108
  let Pcdab := fun (c : V) (d : V) (a : V) (b : V) => ∑ i : O, ∑ j : O, L2 i j a b * T2temp c d i j  -- L3109
  Pcdab

/-- `rccsd_2rdm_bjai`, cc_equations.py:3113-3117. -/
def rccsd_2rdm_bjai (T1 : V → O → K) (T2 : V → V → O → O → K) (L1 : O → V → K) (L2 : O → O → V → V → K) :
    V → O → V → O → K :=
  let T2temp := fun (b : V) (c : V) (k : O) (i : O) => T2 b c k i + T1 b k * T1 c i  -- L3114
  let Pbjai := fun (b : V) (J : O) (a : V) (I : O) => -(∑ k : O, ∑ C : V, L2 k J a C * T2temp b C k I)  -- L3116
  Pbjai

/-- `rccsd_2rdm_bjia`, cc_equations.py:3120-3126. -/
def rccsd_2rdm_bjia (T1 : V → O → K) (T2 : V → V → O → O → K) (L1 : O → V → K) (L2 : O → O → V → V → K) :
    V → O → O → V → K :=
  let Pbjia := fun (b : V) (j : O) (i : O) (a : V) => T1 b i * L1 j a  -- L3121
  let T2temp := fun (b : V) (c : V) (k : O) (i : O) => T2 b c k i - T2 b c i k + T1 b k * T1 c i  -- L3122
  let Pbjia := fun (b : V) (j : O) (i : O) (a : V) => Pbjia b j i a - (∑ k : O, ∑ c : V, L2 k j c a * T2temp b c k i)  -- L3124
  let Pbjia := fun (b : V) (j : O) (i : O) (a : V) => Pbjia b j i a - (∑ k : O, ∑ c : V, (L2 k j a c - L2 k j c a) * T2 b c i k)  -- L3125
  Pbjia

/-- `rccsd_2rdm_klij`, cc_equations.py:3129-3132. -/
def rccsd_2rdm_klij (T1 : V → O → K) (T2 : V → V → O → O → K) (L1 : O → V → K) (L2 : O → O → V → V → K) :
    O → O → O → O → K :=
  let T2temp := fun (c : V) (d : V) (i : O) (j : O) => T2 c d i j + T1 c i * T1 d j  -- L3130
  let Pklij := fun (k : O) (l : O) (i : O) (j : O) => ∑ a : V, ∑ b : V, L2 k l a b * T2temp a b i j  -- L3131
  Pklij

/-- `rccsd_2rdm_bcai`, cc_equations.py:3135-3154. -/
def rccsd_2rdm_bcai (T1 : V → O → K) (T2 : V → V → O → O → K) (L1 : O → V → K) (L2 : O → O → V → V → K) :
    V → V → V → O → K :=
  let T2temp := fun (c : V) (d : V) (i : O) (j : O) => T2 c d i j + T1 c i * T1 d j  -- L3136
  let Pbcai := fun (b : V) (c : V) (a : V) (i : O) => ∑ j : O, L1 j a * T2temp b c j i  -- L3137
  let LT := fun (b : V) (a : V) => ∑ j : O, ∑ l : O, ∑ d : V, (L2 j l a d - L2 j l d a) * (T2 b d j l - T2 b d l j)  -- L3139
  let LT := fun (b : V) (a : V) => LT b a + 2 * (∑ j : O, ∑ l : O, ∑ d : V, L2 j l a d * T2 b d j l)  -- L3142
  let Pbcai := fun (b : V) (c : V) (a : V) (i : O) => Pbcai b c a i + (1/2) * (LT b a * T1 c i)  -- L3144
  let LTtempab1 := fun (j : O) (c : V) (a : V) (i : O) => ∑ k : O, ∑ d : V, (L2 j k a d - L2 j k d a) * T2 d c k i  -- L3146
  let LTtempab1 := fun (j : O) (c : V) (a : V) (i : O) => LTtempab1 j c a i + (∑ k : O, ∑ d : V, L2 j k a d * (T2 c d i k - T2 c d k i))  -- L3147
  let LTtempab2 := fun (j : O) (c : V) (a : V) (i : O) => ∑ k : O, ∑ d : V, L2 k j a d * T2 c d k i  -- L3148
  let Pbcai := fun (b : V) (C : V) (a : V) (I : O) => Pbcai b C a I + (∑ j : O, LTtempab1 j C a I * T1 b j)  -- L3150
  let Pbcai := fun (b : V) (C : V) (a : V) (I : O) => Pbcai b C a I - (∑ J : O, LTtempab2 J b a I * T1 C J)  -- L3151
  let Pbcai := fun (b : V) (c : V) (a : V) (i : O) => Pbcai b c a i - (∑ j : O, ∑ k : O, ∑ d : V, L2 j k a d * T2temp b c j k * T1 d i)  -- L3153
  Pbcai

/-- `rccsd_2rdm_kaij`, cc_equations.py:3157-3185. -/
def rccsd_2rdm_kaij (T1 : V → O → K) (T2 : V → V → O → O → K) (L1 : O → V → K) (L2 : O → O → V → V → K) :
    O → V → O → O → K :=
  let T2temp := fun (c : V) (d : V) (i : O) (j : O) => T2 c d i j + T1 c i * T1 d j  -- L3158
  let T2aa := fun (a : V) (b : V) (i : O) (j : O) => T2 a b i j - T2 a b j i  -- L3159
  let Pkaij := fun (k : O) (a : V) (i : O) (j : O) => -(∑ b : V, L1 k b * T2temp b a i j)  -- L3160
  let LTo := fun (k : O) (i : O) => ∑ l : O, ∑ c : V, ∑ d : V, (L2 k l c d - L2 k l d c) * (T2 c d i l - T2 c d l i)  -- L3162
  let LTo := fun (k : O) (i : O) => LTo k i + 2 * (∑ l : O, ∑ c : V, ∑ d : V, L2 k l c d * T2 c d i l)  -- L3165
  let tmp := fun (k : O) (a : V) (i : O) (j : O) => (-(1/2)) * (LTo k i * T1 a j)  -- L3166
  let Pkaij := fun (i : O) (a : V) (j : O) (k : O) => Pkaij i a j k + tmp i a j k  -- L3167
  let Lklid := fun (k : O) (l : O) (i : O) (d : V) => ∑ c : V, (L2 k l c d - L2 k l d c) * T1 c i  -- L3169
  let LkLiD := fun (k : O) (l : O) (i : O) (d : V) => ∑ c : V, L2 k l c d * T1 c i  -- L3170
  let LkLId := fun (k : O) (l : O) (i : O) (d : V) => -(∑ c : V, L2 k l d c * T1 c i)  -- L3171
  let tmp := fun (k : O) (a : V) (i : O) (j : O) => -(∑ l : O, ∑ d : V, Lklid k l i d * T2 d a l j)  -- L3173
  let tmp := fun (k : O) (a : V) (i : O) (j : O) => tmp k a i j - (∑ l : O, ∑ d : V, LkLId k l j d * T2 d a i l)  -- L3174
  let tmp := fun (k : O) (a : V) (i : O) (j : O) => tmp k a i j - (∑ l : O, ∑ d : V, LkLiD k l i d * T2aa a d j l)  -- L3175
  let tmp := fun (k : O) (a : V) (i : O) (j : O) => -(∑ l : O, ∑ d : V, LkLiD k l i d * T2aa a d j l)  -- L3177
  let tmp := fun (k : O) (a : V) (i : O) (j : O) => tmp k a i j - (∑ l : O, ∑ d : V, Lklid k l i d * T2 a d j l)  -- L3178
  let tmp := fun (k : O) (a : V) (i : O) (j : O) => tmp k a i j - (∑ l : O, ∑ d : V, LkLId k l j d * T2 a d l i)  -- L3179
  let Pkaij := fun (i : O) (a : V) (j : O) (k : O) => Pkaij i a j k + tmp i a j k  -- L3181
  let Pkaij := fun (k : O) (a : V) (i : O) (j : O) => Pkaij k a i j + (∑ l : O, ∑ b : V, ∑ d : V, L2 k l b d * T2temp b d i j * T1 a l)  -- L3183
  Pkaij

/-- `rccsd_2rdm_abij`, cc_equations.py:3188-3272. -/
def rccsd_2rdm_abij (T1 : V → O → K) (T2 : V → V → O → O → K) (L1 : O → V → K) (L2 : O → O → V → V → K) :
    V → V → O → O → K :=
  let T2a := fun (a : V) (b : V) (i : O) (j : O) => T2 a b i j - T2 a b j i  -- L3189
  let L2a := fun (i : O) (j : O) (a : V) (b : V) => L2 i j a b - L2 i j b a  -- L3190
  let Pabij := T2  -- L3191
  let Pabij := fun (a : V) (b : V) (i : O) (j : O) => Pabij a b i j + T1 a i * T1 b j  -- L3192
  let LTki := fun (k : O) (i : O) => ∑ c : V, L1 k c * T1 c i  -- L3194
  let tmp := fun (a : V) (b : V) (i : O) (j : O) => -(∑ k : O, LTki k i * T2 a b k j)  -- L3195
  let tmp := fun (a : V) (b : V) (i : O) (j : O) => tmp a b i j - (∑ k : O, LTki k j * T2 a b i k)  -- L3196
  let Pabij := fun (a : V) (b : V) (i : O) (j : O) => Pabij a b i j + tmp a b i j  -- L3197
  let LTac := fun (a : V) (c : V) => ∑ k : O, L1 k c * T1 a k  -- L3199
  let tmp := fun (a : V) (b : V) (i : O) (j : O) => -(∑ c : V, LTac a c * T2 c b i j)  -- L3200
  let tmp := fun (a : V) (b : V) (i : O) (j : O) => tmp a b i j - (∑ c : V, LTac b c * T2 a c i j)  -- L3201
  let Pabij := fun (a : V) (b : V) (i : O) (j : O) => Pabij a b i j + tmp a b i j  -- L3202
  let T2tempa := fun (b : V) (c : V) (j : O) (k : O) => T2a b c j k - T1 b k * T1 c j  -- L3204
  let LTbj := fun (b : V) (j : O) => ∑ k : O, ∑ c : V, L1 k c * T2tempa b c j k  -- L3205
  let LTbj := fun (b : V) (j : O) => LTbj b j + (∑ k : O, ∑ c : V, L1 k c * T2 b c j k)  -- L3206
  let Pabij := fun (a : V) (b : V) (i : O) (j : O) => Pabij a b i j + LTbj a i * T1 b j  -- L3207
  let Pabij := fun (a : V) (b : V) (i : O) (j : O) => Pabij a b i j + LTbj b j * T1 a i  -- L3208
  let LToO := fun (k : O) (l : O) (i : O) (j : O) => ∑ c : V, ∑ d : V, L2 k l c d * T2 c d i j  -- L3210
  let Pabij := fun (a : V) (b : V) (i : O) (j : O) => Pabij a b i j + (∑ k : O, ∑ l : O, LToO k l i j * T2 a b k l)  -- L3211
  let LTlida := fun (l : O) (i : O) (d : V) (a : V) => ∑ k : O, ∑ c : V, L2a k l c d * T2a c a k i  -- L3213
  let LTlida := fun (l : O) (i : O) (d : V) (a : V) => LTlida l i d a + (∑ k : O, ∑ c : V, L2 l k d c * T2 a c i k)  -- L3214
  let LTliDA := fun (l : O) (i : O) (d : V) (a : V) => ∑ k : O, ∑ c : V, L2 l k c d * T2 c a i k  -- L3216
  let LTlIdA := fun (l : O) (i : O) (d : V) (a : V) => ∑ k : O, ∑ c : V, L2a k l c d * T2 c a k i  -- L3217
  let LTlIdA := fun (l : O) (i : O) (d : V) (a : V) => LTlIdA l i d a + (∑ k : O, ∑ c : V, L2 l k d c * T2a c a k i)  -- L3218
  let tmp := fun (a : V) (b : V) (i : O) (j : O) => (1/2) * (∑ l : O, ∑ d : V, LTlida l i d a * T2 d b l j)  -- L3220
  let tmp := fun (a : V) (b : V) (i : O) (j : O) => tmp a b i j + (1/2) * (∑ l : O, ∑ d : V, LTlIdA l i d a * T2a b d j l)  -- L3221
  let tmp := fun (a : V) (b : V) (i : O) (j : O) => tmp a b i j + (1/2) * (∑ l : O, ∑ d : V, LTliDA l j d a * T2 d b i l)  -- L3222
  let tmp := fun (a : V) (b : V) (i : O) (j : O) => tmp a b i j + (1/2) * (∑ l : O, ∑ d : V, LTliDA l i d b * T2 a d l j)  -- L3223
  let tmp := fun (a : V) (b : V) (i : O) (j : O) => tmp a b i j + (1/2) * (∑ l : O, ∑ d : V, LTlIdA l j d b * T2a a d i l)  -- L3224
  let tmp := fun (a : V) (b : V) (i : O) (j : O) => tmp a b i j + (1/2) * (∑ l : O, ∑ d : V, LTlida l j d b * T2 a d i l)  -- L3225
  let Pabij := fun (a : V) (b : V) (i : O) (j : O) => Pabij a b i j + tmp a b i j  -- L3227
  let T2tempab := fun (a : V) (c : V) (i : O) (j : O) => T2 a c i j + T1 c j * T1 a i  -- L3229
  let Lcb := fun (c : V) (b : V) => ∑ k : O, ∑ l : O, ∑ d : V, L2a k l c d * T2a b d k l  -- L3230
  let Lcb := fun (c : V) (b : V) => Lcb c b + 2 * (∑ k : O, ∑ l : O, ∑ d : V, L2 k l c d * T2 b d k l)  -- L3231
  let tmp := fun (a : V) (b : V) (i : O) (j : O) => (-(1/2)) * (∑ c : V, Lcb c b * T2tempab a c i j)  -- L3232
  let tmp := fun (a : V) (b : V) (i : O) (j : O) => tmp a b i j - (1/2) * (∑ c : V, Lcb c a * T2tempab c b i j)  -- L3233
  let Pabij := fun (a : V) (b : V) (i : O) (j : O) => Pabij a b i j + tmp a b i j  -- L3234
  let Lkj := fun (k : O) (j : O) => ∑ l : O, ∑ c : V, ∑ d : V, L2a k l c d * T2a c d j l  -- L3236
  let Lkj := fun (k : O) (j : O) => Lkj k j + 2 * (∑ l : O, ∑ c : V, ∑ d : V, L2 k l c d * T2 c d j l)  -- L3237
  let tmp := fun (a : V) (b : V) (i : O) (j : O) => (-(1/2)) * (∑ k : O, Lkj k j * T2tempab a b i k)  -- L3238
  let tmp := fun (a : V) (b : V) (i : O) (j : O) => tmp a b i j - (1/2) * (∑ k : O, Lkj k i * T2tempab a b k j)  -- L3239
  let Pabij := fun (a : V) (b : V) (i : O) (j : O) => Pabij a b i j + tmp a b i j  -- L3240
  let T2tempab := fun (c : V) (d : V) (i : O) (j : O) => T2 c d i j + T1 c i * T1 d j  -- L3242
  let LToO := fun (k : O) (l : O) (i : O) (j : O) => ∑ c : V, ∑ d : V, L2 k l c d * T2tempab c d i j  -- L3243
  let LToO := fun (k : O) (l : O) (i : O) (j : O) => LToO k l i j + (∑ d : V, ∑ c : V, L2 k l d c * T2 d c i j)  -- L3244
  let LTOo := fun (k : O) (l : O) (i : O) (j : O) => -(∑ d : V, ∑ c : V, L2 l k d c * T2 d c i j)  -- L3245
  let LTOo := fun (k : O) (l : O) (i : O) (j : O) => LTOo k l i j - (∑ c : V, ∑ d : V, L2 l k c d * T2tempab c d i j)  -- L3246
  let tmp1 := fun (a : V) (l : O) (i : O) (j : O) => ∑ k : O, LToO k l i j * T1 a k  -- L3247
  let tmp2 := fun (a : V) (l : O) (i : O) (j : O) => ∑ k : O, LTOo k l i j * T1 a k  -- L3248
  let tmp := fun (a : V) (b : V) (i : O) (j : O) => (1/4) * (∑ l : O, tmp1 a l i j * T1 b l)  -- L3249
  let tmp := fun (a : V) (b : V) (i : O) (j : O) => tmp a b i j - (1/4) * (∑ l : O, tmp2 b l i j * T1 a l)  -- L3250
  let Pabij := fun (a : V) (b : V) (i : O) (j : O) => Pabij a b i j + tmp a b i j  -- L3251
  let LoOoV := fun (k : O) (l : O) (i : O) (d : V) => ∑ c : V, L2 k l c d * T1 c i  -- L3253
  let LoOOv := fun (k : O) (l : O) (i : O) (d : V) => -(∑ c : V, L2 k l d c * T1 c i)  -- L3254
  let LoOoO := fun (k : O) (l : O) (i : O) (j : O) => ∑ d : V, LoOoV k l i d * T1 d j  -- L3255
  let LoOoO := fun (k : O) (l : O) (i : O) (j : O) => LoOoO k l i j - (∑ d : V, LoOOv k l j d * T1 d i)  -- L3256
  let Pabij := fun (a : V) (b : V) (i : O) (j : O) => Pabij a b i j + (1/4) * (∑ k : O, ∑ l : O, LoOoO k l i j * T2tempab a b k l)  -- L3257
  let Pabij := fun (a : V) (b : V) (i : O) (j : O) => Pabij a b i j + (1/4) * (∑ l : O, ∑ k : O, LoOoO l k i j * T2 a b l k)  -- L3258
  let Lalid := fun (a : V) (l : O) (i : O) (d : V) => ∑ k : O, ∑ c : V, L2a k l c d * T1 a k * T1 c i  -- L3260
  let LaLiD := fun (a : V) (l : O) (i : O) (d : V) => ∑ k : O, ∑ c : V, L2 k l c d * T1 a k * T1 c i  -- L3261
  let LaLId := fun (a : V) (l : O) (i : O) (d : V) => -(∑ k : O, ∑ c : V, L2 k l d c * T1 a k * T1 c i)  -- L3262
  let tmp := fun (a : V) (b : V) (i : O) (j : O) => ∑ l : O, ∑ d : V, LaLiD a l i d * T2a b d j l  -- L3264
  let tmp := fun (a : V) (b : V) (i : O) (j : O) => tmp a b i j + (∑ l : O, ∑ d : V, LaLiD b l j d * T2a a d i l)  -- L3265
  let tmp := fun (a : V) (b : V) (i : O) (j : O) => tmp a b i j + (∑ l : O, ∑ d : V, Lalid a l i d * T2 d b l j)  -- L3266
  let tmp := fun (a : V) (b : V) (i : O) (j : O) => tmp a b i j + (∑ l : O, ∑ d : V, LaLId a l j d * T2 d b i l)  -- L3267
  let tmp := fun (a : V) (b : V) (i : O) (j : O) => tmp a b i j + (∑ l : O, ∑ d : V, LaLId b l i d * T2 a d l j)  -- L3268
  let tmp := fun (a : V) (b : V) (i : O) (j : O) => tmp a b i j + (∑ l : O, ∑ d : V, Lalid b l j d * T2 a d i l)  -- L3269
  let Pabij := fun (a : V) (b : V) (i : O) (j : O) => Pabij a b i j - tmp a b i j  -- L3271
  Pabij

end CC
