/-
GENERATED by tools/gen_cc.py from cqcpy/cc_equations.py (pure text translation); do not edit.
Restricted Lambda equations.
Every definition cites the python function it mirrors; each `let` carries the source line
of the statement it translates.  Arithmetic is that of an arbitrary field of characteristic
zero (floating point rounding and dtypes are abstracted).
-/
import Verif.Model.Blocks

set_option linter.unusedVariables false
set_option maxRecDepth 4000

namespace CC

open Finset

variable {K : Type} [Field K]
variable {O V Oa Va Ob Vb : Type} [Fintype O] [Fintype V] [Fintype Oa] [Fintype Va]
  [Fintype Ob] [Fintype Vb]

/-- `_r_LS_TS`, cc_equations.py:789-792. Mutates `L1`; the model returns the new value. -/
def r_LS_TS (L1 : O → V → K) (I : TwoEFull O V O V K) (T1old : V → O → K) (fac : K) :
    O → V → K :=
  let L1 := fun (i : O) (a : V) => L1 i a + fac * (∑ j : O, ∑ b : V, (I.oovv j i b a - I.oovv j i a b) * T1old b j)  -- L790
  let L1 := fun (i : O) (a : V) => L1 i a + fac * (∑ j : O, ∑ b : V, I.oovv i j a b * T1old b j)  -- L792
  L1

/-- `_rccsd_Lambda_opt`, cc_equations.py:1983-2259. Mutates `L1`, `L2`; the model returns the new values. -/
def rccsd_Lambda_opt (L1 : O → V → K) (L2 : O → O → V → V → K) (F : OneE O V K) (I : TwoEFull O V O V K) (L1old : O → V → K) (L2old : O → O → V → V → K) (T1old : V → O → K) (T2old : V → V → O → O → K) (fac : K) :
    (O → V → K) × (O → O → V → V → K) :=
  let T2anti := fun (a : V) (b : V) (i : O) (j : O) => T2old a b i j - T2old a b j i  -- L1984
  let L2anti := fun (i : O) (j : O) (a : V) (b : V) => L2old i j a b - L2old i j b a  -- L1985
  let TTempaa := fun (b : V) (c : V) (j : O) (k : O) => (1/2) * T2anti b c j k + T1old b j * T1old c k  -- L1986
  let TTempab := fun (b : V) (c : V) (j : O) (k : O) => (1/2) * T2old b c j k + T1old b j * T1old c k  -- L1987
  let Ivovos1 := fun (a : V) (i : O) (b : V) (k : O) => ∑ c : V, (I.vovv a i b c - I.vovv a i c b) * T1old c k  -- L1989
  let IvOvOs1 := fun (a : V) (i : O) (b : V) (k : O) => ∑ c : V, I.vovv a i b c * T1old c k  -- L1991
  let IvOVos1 := fun (a : V) (i : O) (b : V) (k : O) => -(∑ c : V, I.vovv a i c b * T1old c k)  -- L1992
  let Ivovos2 := fun (b : V) (i : O) (a : V) (k : O) => ∑ j : O, T1old b j * (I.ooov j i k a - I.oovo j i a k)  -- L1994
  let IvOvOs2 := fun (b : V) (i : O) (a : V) (k : O) => -(∑ j : O, T1old b j * I.oovo j i a k)  -- L1996
  let IvOVos2 := fun (b : V) (i : O) (a : V) (k : O) => ∑ j : O, T1old b j * I.ooov j i k a  -- L1997
  let Toovv := fun (i : O) (j : O) (a : V) (b : V) => I.oovv i j a b - I.oovv i j b a  -- L1999
  let Ivovvs := fun (c : V) (i : O) (a : V) (b : V) => ∑ k : O, T1old c k * Toovv k i a b  -- L2000
  let IvOvVs := fun (c : V) (i : O) (a : V) (b : V) => ∑ k : O, T1old c k * I.oovv k i a b  -- L2001
  let IvOVvs := fun (c : V) (i : O) (a : V) (b : V) => -(∑ k : O, T1old c k * I.oovv k i b a)  -- L2002
  let Iooovs := fun (i : O) (k : O) (j : O) (c : V) => ∑ b : V, Toovv i k b c * T1old b j  -- L2004
  let IoOoVs := fun (i : O) (k : O) (j : O) (c : V) => ∑ b : V, I.oovv i k b c * T1old b j  -- L2005
  let IoOOvs := fun (i : O) (k : O) (j : O) (c : V) => -(∑ b : V, I.oovv i k c b * T1old b j)  -- L2006
  let Iovs := fun (i : O) (a : V) => ∑ k : O, ∑ c : V, (2 * I.oovv i k a c - I.oovv i k c a) * T1old c k  -- L2008
  let Iooov := fun (i : O) (j : O) (k : O) (a : V) => 2 * I.ooov i j k a - I.oovo i j a k  -- L2012
  let IToo := fun (i : O) (j : O) => ∑ b : V, F.ov i b * T1old b j + F.oo i j  -- L2013
  let IToo := fun (i : O) (j : O) => IToo i j + (∑ k : O, ∑ b : V, ∑ c : V, (I.oovv i k b c - I.oovv i k c b) * TTempaa b c j k)  -- L2014
  let IToo := fun (i : O) (j : O) => IToo i j + (∑ k : O, ∑ b : V, ∑ c : V, I.oovv i k b c * TTempab b c j k)  -- L2016
  let IToo := fun (i : O) (j : O) => IToo i j + (1/2) * (∑ k : O, ∑ c : V, ∑ b : V, I.oovv i k c b * T2old c b j k)  -- L2017
  let IToo := fun (i : O) (k : O) => IToo i k + (∑ j : O, ∑ b : V, Iooov i j k b * T1old b j)  -- L2018
  let L1 := fun (i : O) (a : V) => L1 i a - fac * (∑ j : O, L1old j a * IToo i j)  -- L2019
  let temp := fun (i : O) (j : O) (a : V) (b : V) => ∑ k : O, L2old k j a b * IToo i k  -- L2020
  let temp := fun (i : O) (j : O) (a : V) (b : V) => temp i j a b + temp j i b a  -- L2021
  let L2 := fun (i : O) (j : O) (a : V) (b : V) => L2 i j a b - fac * temp i j a b  -- L2022
  let Ivovv := fun (a : V) (i : O) (b : V) (c : V) => 2 * I.vovv a i b c - I.vovv a i c b  -- L2025
  let ITvv := fun (b : V) (a : V) => ∑ j : O, F.ov j a * T1old b j - F.vv b a - (∑ k : O, ∑ c : V, Ivovv b k a c * T1old c k)  -- L2026
  let ITvv := fun (b : V) (a : V) => ITvv b a + (∑ j : O, ∑ k : O, ∑ c : V, (I.oovv j k a c - I.oovv j k c a) * TTempaa b c j k)  -- L2028
  let ITvv := fun (b : V) (a : V) => ITvv b a + (∑ j : O, ∑ k : O, ∑ c : V, I.oovv j k a c * TTempab b c j k)  -- L2030
  let ITvv := fun (b : V) (a : V) => ITvv b a + (1/2) * (∑ k : O, ∑ j : O, ∑ c : V, I.oovv k j a c * T2old b c k j)  -- L2031
  let L1 := fun (i : O) (a : V) => L1 i a - fac * (∑ b : V, L1old i b * ITvv b a)  -- L2032
  let temp := fun (i : O) (j : O) (a : V) (b : V) => ∑ c : V, L2old i j c b * ITvv c a  -- L2033
  let temp := fun (i : O) (j : O) (a : V) (b : V) => temp i j a b + temp j i b a  -- L2034
  let L2 := fun (i : O) (j : O) (a : V) (b : V) => L2 i j a b - fac * temp i j a b  -- L2035
  let IToovvs1 := fun (i : O) (j : O) (a : V) (b : V) => ∑ k : O, ∑ d : V, (I.oovv k i d a - I.oovv k i a d) * T2anti b d j k  -- L2038
  let IToovvs1 := fun (i : O) (j : O) (a : V) (b : V) => IToovvs1 i j a b + (∑ k : O, ∑ d : V, I.oovv i k a d * T2old b d j k)  -- L2040
  let IToovvs1 := fun (i : O) (j : O) (a : V) (c : V) => IToovvs1 i j a c - (∑ b : V, Ivovvs c i b a * T1old b j)  -- L2041
  let IToovvs1 := fun (i : O) (j : O) (a : V) (b : V) => IToovvs1 i j a b + (∑ k : O, ∑ c : V, (I.oovv k i c a - I.oovv k i a c) * T2old c b k j)  -- L2042
  let IToovvs1 := fun (i : O) (j : O) (a : V) (b : V) => IToovvs1 i j a b + (∑ k : O, ∑ c : V, I.oovv i k a c * T2anti b c j k)  -- L2044
  let IToovvs1 := fun (i : O) (j : O) (a : V) (c : V) => IToovvs1 i j a c - (∑ b : V, IvOvVs c i b a * T1old b j)  -- L2045
  let L1 := fun (i : O) (a : V) => L1 i a + fac * (∑ j : O, ∑ b : V, L1old j b * IToovvs1 i j a b)  -- L2046
  let ITvooos := fun (c : V) (i : O) (j : O) (k : O) => ∑ b : V, (I.vovo c i b k - I.voov c i k b) * T1old b j  -- L2050
  let ITvooos := fun (a : V) (i : O) (j : O) (k : O) => ITvooos a i j k + (1/2) * (I.vooo a i j k - I.vooo a i k j)  -- L2052
  let ITvooos := fun (b : V) (i : O) (j : O) (k : O) => ITvooos b i j k + (1/2) * (∑ c : V, F.ov i c * T2anti b c j k)  -- L2053
  let ITvooos := fun (b : V) (i : O) (k : O) (l : O) => ITvooos b i k l + (1/2) * (∑ j : O, (I.oooo i j k l - I.oooo i j l k) * T1old b j)  -- L2054
  let ITvooos := fun (b : V) (i : O) (l : O) (j : O) => ITvooos b i l j + (∑ k : O, ∑ c : V, (I.ooov k i l c - I.oovo k i c l) * T2anti b c j k)  -- L2056
  let ITvooos := fun (b : V) (i : O) (l : O) (j : O) => ITvooos b i l j - (∑ k : O, ∑ c : V, I.ooov i k l c * T2old b c j k)  -- L2058
  let ITvooos := fun (b : V) (i : O) (l : O) (k : O) => ITvooos b i l k - (∑ c : V, Ivovos2 b i c l * T1old c k)  -- L2059
  let ITvooos := fun (d : V) (i : O) (j : O) (k : O) => ITvooos d i j k + (1/2) * (∑ b : V, ∑ c : V, (I.vovv d i b c - I.vovv d i c b) * TTempaa b c j k)  -- L2060
  let ITvooos := fun (c : V) (i : O) (k : O) (l : O) => ITvooos c i k l + (1/2) * (∑ d : V, Iovs i d * T2anti c d k l)  -- L2062
  let ITvooos := fun (d : V) (i : O) (j : O) (l : O) => ITvooos d i j l - (∑ k : O, ∑ c : V, Iooovs i k j c * T2anti c d k l)  -- L2063
  let ITvooos := fun (d : V) (i : O) (j : O) (l : O) => ITvooos d i j l - (∑ k : O, ∑ c : V, IoOoVs i k j c * T2old d c l k)  -- L2064
  let ITvooos := fun (b : V) (i : O) (k : O) (l : O) => ITvooos b i k l - (1/2) * (∑ c : V, ∑ d : V, Ivovvs b i c d * TTempaa c d k l)  -- L2065
  let L1 := fun (i : O) (a : V) => L1 i a + fac * (∑ j : O, ∑ k : O, ∑ b : V, (L2old j k a b - L2old j k b a) * ITvooos b i j k)  -- L2066
  let ITVooOs := fun (c : V) (i : O) (j : O) (k : O) => -(∑ b : V, I.ovvo i c b k * T1old b j)  -- L2070
  let ITVooOs := fun (a : V) (i : O) (j : O) (k : O) => ITVooOs a i j k - (1/2) * I.ovoo i a j k  -- L2071
  let ITVooOs := fun (b : V) (i : O) (j : O) (k : O) => ITVooOs b i j k - (1/2) * (∑ c : V, F.ov i c * T2old c b j k)  -- L2072
  let ITVooOs := fun (b : V) (i : O) (k : O) (l : O) => ITVooOs b i k l + (1/2) * (∑ j : O, I.oooo i j k l * T1old b j)  -- L2073
  let ITVooOs := fun (b : V) (i : O) (l : O) (j : O) => ITVooOs b i l j + (∑ k : O, ∑ c : V, (I.ooov k i l c - I.oovo k i c l) * T2old c b k j)  -- L2074
  let ITVooOs := fun (b : V) (i : O) (l : O) (j : O) => ITVooOs b i l j - (∑ k : O, ∑ c : V, I.ooov i k l c * T2anti b c j k)  -- L2076
  let ITVooOs := fun (b : V) (i : O) (l : O) (k : O) => ITVooOs b i l k - (∑ c : V, IvOvOs2 b i c l * T1old c k)  -- L2077
  let ITVooOs := fun (d : V) (i : O) (j : O) (k : O) => ITVooOs d i j k - (1/2) * (∑ b : V, ∑ c : V, I.ovvv i d b c * TTempab b c j k)  -- L2078
  let ITVooOs := fun (d : V) (i : O) (j : O) (k : O) => ITVooOs d i j k - (1/4) * (∑ c : V, ∑ b : V, I.ovvv i d c b * T2old c b j k)  -- L2079
  let ITVooOs := fun (c : V) (i : O) (k : O) (l : O) => ITVooOs c i k l - (1/2) * (∑ d : V, Iovs i d * T2old d c k l)  -- L2080
  let ITVooOs := fun (d : V) (i : O) (j : O) (l : O) => ITVooOs d i j l - (∑ k : O, ∑ c : V, Iooovs i k j c * T2old c d k l)  -- L2081
  let ITVooOs := fun (d : V) (i : O) (j : O) (l : O) => ITVooOs d i j l - (∑ k : O, ∑ c : V, IoOoVs i k j c * T2anti c d k l)  -- L2082
  let ITVooOs := fun (b : V) (i : O) (k : O) (l : O) => ITVooOs b i k l - (1/2) * (∑ c : V, ∑ d : V, IvOVvs b i c d * TTempab c d k l)  -- L2083
  let ITVooOs := fun (b : V) (i : O) (k : O) (l : O) => ITVooOs b i k l + (1/4) * (∑ c : V, ∑ d : V, IvOvVs b i c d * T2old d c k l)  -- L2084
  let L1 := fun (i : O) (a : V) => L1 i a + fac * (∑ j : O, ∑ k : O, ∑ b : V, L2old j k a b * ITVooOs b i j k)  -- L2085
  let ITVoOos := fun (c : V) (i : O) (j : O) (k : O) => ∑ b : V, I.ovov i c k b * T1old b j  -- L2088
  let ITVoOos := fun (a : V) (i : O) (j : O) (k : O) => ITVoOos a i j k + (1/2) * I.ovoo i a k j  -- L2089
  let ITVoOos := fun (b : V) (i : O) (j : O) (k : O) => ITVoOos b i j k + (1/2) * (∑ c : V, F.ov i c * T2old c b k j)  -- L2090
  let ITVoOos := fun (b : V) (i : O) (k : O) (l : O) => ITVoOos b i k l - (1/2) * (∑ j : O, I.oooo i j l k * T1old b j)  -- L2091
  let ITVoOos := fun (b : V) (i : O) (l : O) (j : O) => ITVoOos b i l j - (∑ k : O, ∑ c : V, I.oovo i k c l * T2old c b j k)  -- L2092
  let ITVoOos := fun (b : V) (i : O) (l : O) (k : O) => ITVoOos b i l k - (∑ c : V, IvOVos2 b i c l * T1old c k)  -- L2093
  let ITVoOos := fun (d : V) (i : O) (j : O) (k : O) => ITVoOos d i j k + (1/2) * (∑ c : V, ∑ b : V, I.ovvv i d c b * TTempab c b k j)  -- L2094
  let ITVoOos := fun (d : V) (i : O) (j : O) (k : O) => ITVoOos d i j k + (1/4) * (∑ b : V, ∑ c : V, I.ovvv i d b c * T2old b c k j)  -- L2095
  let ITVoOos := fun (c : V) (i : O) (k : O) (l : O) => ITVoOos c i k l + (1/2) * (∑ d : V, Iovs i d * T2old d c l k)  -- L2096
  let ITVoOos := fun (d : V) (i : O) (j : O) (l : O) => ITVoOos d i j l + (∑ k : O, ∑ c : V, IoOOvs i k j c * T2old c d l k)  -- L2097
  let ITVoOos := fun (b : V) (i : O) (k : O) (l : O) => ITVoOos b i k l - (1/2) * (∑ c : V, ∑ d : V, IvOvVs b i c d * TTempab d c l k)  -- L2098
  let ITVoOos := fun (b : V) (i : O) (k : O) (l : O) => ITVoOos b i k l + (1/4) * (∑ c : V, ∑ d : V, IvOVvs b i c d * T2old c d l k)  -- L2099
  let L1 := fun (i : O) (a : V) => L1 i a - fac * (∑ k : O, ∑ j : O, ∑ b : V, L2old k j a b * ITVoOos b i j k)  -- L2100
  let ITvvvos := fun (a : V) (b : V) (c : V) (i : O) => (-(1/2)) * (I.vvvo a b c i - I.vvov a b i c)  -- L2104
  let ITvvvos := fun (c : V) (b : V) (a : V) (k : O) => ITvvvos c b a k + (∑ j : O, (I.vovo c j a k - I.voov c j k a) * T1old b j)  -- L2105
  let ITvvvos := fun (b : V) (c : V) (a : V) (j : O) => ITvvvos b c a j - (1/2) * (∑ k : O, F.ov k a * T2anti b c j k)  -- L2107
  let ITvvvos := fun (c : V) (d : V) (a : V) (j : O) => ITvvvos c d a j - (1/2) * (∑ b : V, (I.vvvv c d a b - I.vvvv c d b a) * T1old b j)  -- L2108
  let ITvvvos := fun (b : V) (d : V) (a : V) (j : O) => ITvvvos b d a j - (∑ k : O, ∑ c : V, (I.vovv d k c a - I.vovv d k a c) * T2anti b c j k)  -- L2110
  let ITvvvos := fun (b : V) (d : V) (a : V) (j : O) => ITvvvos b d a j + (∑ k : O, ∑ c : V, I.vovv d k a c * T2old b c j k)  -- L2112
  let ITvvvos := fun (b : V) (d : V) (a : V) (k : O) => ITvvvos b d a k - (∑ j : O, Ivovos1 d j a k * T1old b j)  -- L2113
  let ITvvvos := fun (b : V) (c : V) (a : V) (l : O) => ITvvvos b c a l + (1/2) * (∑ j : O, ∑ k : O, (I.ooov j k l a - I.oovo j k a l) * TTempaa b c j k)  -- L2114
  let ITvvvos := fun (c : V) (d : V) (a : V) (k : O) => ITvvvos c d a k - (1/2) * (∑ l : O, Iovs l a * T2anti c d k l)  -- L2116
  let ITvvvos := fun (b : V) (d : V) (a : V) (l : O) => ITvvvos b d a l + (∑ k : O, ∑ c : V, Ivovvs b k a c * T2anti c d k l)  -- L2117
  let ITvvvos := fun (b : V) (d : V) (a : V) (l : O) => ITvvvos b d a l + (∑ k : O, ∑ c : V, IvOvVs b k a c * T2old d c l k)  -- L2118
  let ITvvvos := fun (c : V) (d : V) (a : V) (j : O) => ITvvvos c d a j + (1/2) * (∑ k : O, ∑ l : O, Iooovs k l j a * TTempaa c d k l)  -- L2119
  let L1 := fun (i : O) (a : V) => L1 i a + fac * (∑ k : O, ∑ b : V, ∑ c : V, L2anti i k b c * ITvvvos c b a k)  -- L2120
  let ITVvvOs := fun (a : V) (b : V) (c : V) (i : O) => (1/2) * I.vvvo b a c i  -- L2123
  let ITVvvOs := fun (c : V) (b : V) (a : V) (k : O) => ITVvvOs c b a k - (∑ j : O, I.ovvo j c a k * T1old b j)  -- L2124
  let ITVvvOs := fun (b : V) (c : V) (a : V) (j : O) => ITVvvOs b c a j - (1/2) * (∑ k : O, F.ov k a * T2old c b k j)  -- L2125
  let ITVvvOs := fun (c : V) (d : V) (a : V) (j : O) => ITVvvOs c d a j + (1/2) * (∑ b : V, I.vvvv d c a b * T1old b j)  -- L2126
  let ITVvvOs := fun (b : V) (d : V) (a : V) (j : O) => ITVvvOs b d a j - (∑ k : O, ∑ c : V, (I.vovv d k c a - I.vovv d k a c) * T2old c b k j)  -- L2127
  let ITVvvOs := fun (b : V) (d : V) (a : V) (j : O) => ITVvvOs b d a j + (∑ k : O, ∑ c : V, I.vovv d k a c * T2anti b c j k)  -- L2129
  let ITVvvOs := fun (b : V) (d : V) (a : V) (k : O) => ITVvvOs b d a k - (∑ j : O, IvOvOs1 d j a k * T1old b j)  -- L2130
  let ITVvvOs := fun (b : V) (c : V) (a : V) (l : O) => ITVvvOs b c a l + (1/2) * (∑ k : O, ∑ j : O, I.oovo k j a l * TTempab c b k j)  -- L2131
  let ITVvvOs := fun (b : V) (c : V) (a : V) (l : O) => ITVvvOs b c a l + (1/4) * (∑ j : O, ∑ k : O, I.oovo j k a l * T2old c b j k)  -- L2132
  let ITVvvOs := fun (c : V) (d : V) (a : V) (k : O) => ITVvvOs c d a k - (1/2) * (∑ l : O, Iovs l a * T2old d c l k)  -- L2133
  let ITVvvOs := fun (b : V) (d : V) (a : V) (l : O) => ITVvvOs b d a l - (∑ k : O, ∑ c : V, IvOVvs b k a c * T2old d c k l)  -- L2134
  let ITVvvOs := fun (c : V) (d : V) (a : V) (j : O) => ITVvvOs c d a j + (1/2) * (∑ k : O, ∑ l : O, IoOoVs k l j a * TTempab d c l k)  -- L2135
  let ITVvvOs := fun (c : V) (d : V) (a : V) (j : O) => ITVvvOs c d a j - (1/4) * (∑ k : O, ∑ l : O, IoOOvs k l j a * T2old d c k l)  -- L2136
  let L1 := fun (i : O) (a : V) => L1 i a + fac * (∑ k : O, ∑ b : V, ∑ c : V, L2old i k b c * ITVvvOs c b a k)  -- L2137
  let ITvVvOs := fun (a : V) (b : V) (c : V) (i : O) => (-(1/2)) * I.vvvo a b c i  -- L2140
  let ITvVvOs := fun (c : V) (b : V) (a : V) (k : O) => ITvVvOs c b a k + (∑ j : O, I.vovo c j a k * T1old b j)  -- L2141
  let ITvVvOs := fun (b : V) (c : V) (a : V) (j : O) => ITvVvOs b c a j + (1/2) * (∑ k : O, F.ov k a * T2old b c k j)  -- L2142
  let ITvVvOs := fun (c : V) (d : V) (a : V) (j : O) => ITvVvOs c d a j - (1/2) * (∑ b : V, I.vvvv c d a b * T1old b j)  -- L2143
  let ITvVvOs := fun (b : V) (d : V) (a : V) (j : O) => ITvVvOs b d a j + (∑ k : O, ∑ c : V, I.ovvv k d a c * T2old b c k j)  -- L2144
  let ITvVvOs := fun (b : V) (d : V) (a : V) (k : O) => ITvVvOs b d a k - (∑ j : O, IvOVos1 d j a k * T1old b j)  -- L2145
  let ITvVvOs := fun (b : V) (c : V) (a : V) (l : O) => ITvVvOs b c a l - (1/2) * (∑ j : O, ∑ k : O, I.oovo j k a l * TTempab b c j k)  -- L2146
  let ITvVvOs := fun (b : V) (c : V) (a : V) (l : O) => ITvVvOs b c a l - (1/4) * (∑ k : O, ∑ j : O, I.oovo k j a l * T2old b c k j)  -- L2147
  let ITvVvOs := fun (c : V) (d : V) (a : V) (k : O) => ITvVvOs c d a k + (1/2) * (∑ l : O, Iovs l a * T2old c d l k)  -- L2148
  let ITvVvOs := fun (b : V) (d : V) (a : V) (l : O) => ITvVvOs b d a l + (∑ k : O, ∑ c : V, Ivovvs b k a c * T2old c d k l)  -- L2149
  let ITvVvOs := fun (b : V) (d : V) (a : V) (l : O) => ITvVvOs b d a l + (∑ k : O, ∑ c : V, IvOvVs b k a c * T2anti c d k l)  -- L2150
  let ITvVvOs := fun (c : V) (d : V) (a : V) (j : O) => ITvVvOs c d a j + (1/2) * (∑ k : O, ∑ l : O, IoOOvs k l j a * TTempab c d k l)  -- L2151
  let ITvVvOs := fun (c : V) (d : V) (a : V) (j : O) => ITvVvOs c d a j - (1/4) * (∑ k : O, ∑ l : O, IoOoVs k l j a * T2old c d l k)  -- L2152
  let L1 := fun (i : O) (a : V) => L1 i a - fac * (∑ k : O, ∑ c : V, ∑ b : V, L2old i k c b * ITvVvOs c b a k)  -- L2153
  let ITovs := fun (i : O) (a : V) => Iovs i a + F.ov i a  -- L2157
  let tempab := fun (i : O) (j : O) (a : V) (b : V) => L1old j b * ITovs i a  -- L2158
  let tempab := fun (i : O) (j : O) (a : V) (b : V) => tempab i j a b + tempab j i b a  -- L2159
  let L2 := fun (i : O) (j : O) (a : V) (b : V) => L2 i j a b + fac * tempab i j a b  -- L2160
  let ITvOvVs := fun (a : V) (i : O) (b : V) (c : V) => IvOvVs a i b c - I.vovv a i b c  -- L2163
  let tempab := fun (i : O) (j : O) (a : V) (b : V) => ∑ c : V, L1old i c * ITvOvVs c j a b  -- L2164
  let tempab := fun (i : O) (j : O) (a : V) (b : V) => tempab i j a b + tempab j i b a  -- L2165
  let L2 := fun (i : O) (j : O) (a : V) (b : V) => L2 i j a b - fac * tempab i j a b  -- L2166
  let IToOoVs := fun (i : O) (j : O) (k : O) (a : V) => IoOoVs i j k a + I.ooov i j k a  -- L2169
  let tempab := fun (i : O) (j : O) (a : V) (b : V) => ∑ k : O, L1old k a * IToOoVs i j k b  -- L2170
  let tempab := fun (i : O) (j : O) (a : V) (b : V) => tempab i j a b + tempab j i b a  -- L2171
  let L2 := fun (i : O) (j : O) (a : V) (b : V) => L2 i j a b - fac * tempab i j a b  -- L2172
  let ITvovos := fun (a : V) (i : O) (b : V) (j : O) => -Ivovos1 a i b j - Ivovos2 a i b j - I.vovo a i b j + I.voov a i j b  -- L2175
  let L1 := fun (i : O) (a : V) => L1 i a + fac * (∑ j : O, ∑ b : V, L1old j b * ITvovos b i a j)  -- L2176
  let ITvovos := fun (d : V) (j : O) (b : V) (k : O) => ITvovos d j b k - (∑ c : V, Ivovvs d j c b * T1old c k)  -- L2177
  let tempab := fun (i : O) (j : O) (a : V) (b : V) => ∑ k : O, ∑ d : V, L2old k j d b * ITvovos d i a k  -- L2178
  let ITvOVos := fun (a : V) (i : O) (b : V) (j : O) => -IvOVos1 a i b j - IvOVos2 a i b j + I.voov a i j b  -- L2179
  let ITvOVos := fun (d : V) (j : O) (b : V) (k : O) => ITvOVos d j b k - (∑ c : V, IvOvVs d j c b * T1old c k)  -- L2180
  let tempab := fun (i : O) (j : O) (a : V) (b : V) => tempab i j a b + (∑ k : O, ∑ d : V, L2anti i k a d * ITvOVos d j b k)  -- L2181
  let ITVovOs := fun (a : V) (i : O) (b : V) (j : O) => -IvOVos1 a i b j - IvOVos2 a i b j + I.ovvo i a b j  -- L2183
  let L1 := fun (i : O) (a : V) => L1 i a + fac * (∑ j : O, ∑ b : V, L1old j b * ITVovOs b i a j)  -- L2184
  let ITvOvOs := fun (a : V) (i : O) (b : V) (j : O) => -IvOvOs1 a i b j - IvOvOs2 a i b j - I.vovo a i b j  -- L2186
  let ITvOvOs := fun (d : V) (j : O) (b : V) (k : O) => ITvOvOs d j b k - (∑ c : V, IvOVvs d j c b * T1old c k)  -- L2187
  let tempab := fun (i : O) (j : O) (a : V) (b : V) => tempab i j a b + (∑ k : O, ∑ d : V, L2old i k d b * ITvOvOs d j a k)  -- L2188
  let tempab := fun (i : O) (j : O) (a : V) (b : V) => tempab i j a b + tempab j i b a  -- L2190
  let L2 := fun (i : O) (j : O) (a : V) (b : V) => L2 i j a b + fac * tempab i j a b  -- L2191
  let ITvVvVs := fun (c : V) (d : V) (a : V) (b : V) => -(∑ k : O, I.ovvv k d a b * T1old c k)  -- L2194
  let ITvVvVs := fun (c : V) (d : V) (a : V) (b : V) => ITvVvVs c d a b + (1/2) * (∑ k : O, ∑ l : O, I.oovv k l a b * TTempab c d k l)  -- L2195
  let ITvVvVs := fun (c : V) (d : V) (a : V) (b : V) => ITvVvVs c d a b + (1/4) * (∑ l : O, ∑ k : O, I.oovv l k a b * T2old c d l k)  -- L2196
  let ITvVvVs := fun (a : V) (b : V) (c : V) (d : V) => ITvVvVs a b c d + (1/2) * I.vvvv a b c d  -- L2197
  let L2 := fun (i : O) (j : O) (a : V) (b : V) => L2 i j a b + fac * (∑ c : V, ∑ d : V, L2old i j c d * ITvVvVs c d a b)  -- L2198
  let ITVvvVs := fun (c : V) (d : V) (a : V) (b : V) => ∑ k : O, I.vovv d k a b * T1old c k  -- L2200
  let ITVvvVs := fun (c : V) (d : V) (a : V) (b : V) => ITVvvVs c d a b - (1/2) * (∑ l : O, ∑ k : O, I.oovv l k a b * TTempab d c l k)  -- L2201
  let ITVvvVs := fun (c : V) (d : V) (a : V) (b : V) => ITVvvVs c d a b - (1/4) * (∑ k : O, ∑ l : O, I.oovv k l a b * T2old d c k l)  -- L2202
  let ITVvvVs := fun (a : V) (b : V) (c : V) (d : V) => ITVvvVs a b c d - (1/2) * I.vvvv b a c d  -- L2203
  let L2 := fun (i : O) (j : O) (a : V) (b : V) => L2 i j a b - fac * (∑ d : V, ∑ c : V, L2old i j d c * ITVvvVs c d a b)  -- L2204
  let IToOoOs := fun (i : O) (j : O) (k : O) (l : O) => -(∑ c : V, I.oovo i j c l * T1old c k) - (1/2) * (∑ c : V, ∑ d : V, I.oovv i j c d * TTempab c d k l) - (1/4) * (∑ d : V, ∑ c : V, I.oovv i j d c * T2old d c k l)  -- L2208
  let IToOoOs := fun (i : O) (j : O) (k : O) (l : O) => IToOoOs i j k l + (-(1/2)) * I.oooo i j k l  -- L2211
  let L2 := fun (i : O) (j : O) (a : V) (b : V) => L2 i j a b - fac * (∑ k : O, ∑ l : O, L2old k l a b * IToOoOs i j k l)  -- L2212
  let IToOOos := fun (i : O) (j : O) (k : O) (l : O) => ∑ c : V, I.ooov i j l c * T1old c k  -- L2214
  let IToOOos := fun (i : O) (j : O) (k : O) (l : O) => IToOOos i j k l + (1/2) * (∑ d : V, ∑ c : V, I.oovv i j d c * TTempab d c l k)  -- L2215
  let IToOOos := fun (i : O) (j : O) (k : O) (l : O) => IToOOos i j k l + (1/4) * (∑ c : V, ∑ d : V, I.oovv i j c d * T2old c d l k)  -- L2216
  let IToOOos := fun (i : O) (j : O) (k : O) (l : O) => IToOOos i j k l + (1/2) * I.oooo i j l k  -- L2217
  let L2 := fun (i : O) (j : O) (a : V) (b : V) => L2 i j a b + fac * (∑ l : O, ∑ k : O, L2old l k a b * IToOOos i j k l)  -- L2218
  let IToovvs := fun (k : O) (j : O) (c : V) (b : V) => ∑ l : O, ∑ d : V, (I.oovv l j d b - I.oovv l j b d) * T2anti c d k l  -- L2222
  let IToovvs := fun (k : O) (j : O) (c : V) (b : V) => IToovvs k j c b + (∑ l : O, ∑ d : V, I.oovv j l b d * T2old c d k l)  -- L2224
  let tempab := fun (i : O) (j : O) (a : V) (b : V) => ∑ k : O, ∑ c : V, L2old k j c b * IToovvs k i c a  -- L2225
  let IToOvVs := fun (k : O) (j : O) (c : V) (b : V) => ∑ l : O, ∑ d : V, I.oovv l j d b * T2anti c d k l  -- L2226
  let IToOvVs := fun (k : O) (j : O) (c : V) (b : V) => IToOvVs k j c b + (∑ l : O, ∑ d : V, (I.oovv l j d b - I.oovv l j b d) * T2old c d k l)  -- L2227
  let tempab := fun (i : O) (j : O) (a : V) (b : V) => tempab i j a b + (∑ k : O, ∑ c : V, L2anti i k a c * IToOvVs k j c b)  -- L2229
  let ITOOvvs := fun (k : O) (j : O) (c : V) (b : V) => ∑ l : O, ∑ d : V, I.oovv l j b d * T2old c d l k  -- L2230
  let tempab := fun (i : O) (j : O) (a : V) (b : V) => tempab i j a b + (∑ k : O, ∑ c : V, L2old i k c b * ITOOvvs k j c a)  -- L2231
  let tempab := fun (i : O) (j : O) (a : V) (b : V) => tempab i j a b + tempab j i b a  -- L2233
  let L2 := fun (i : O) (j : O) (a : V) (b : V) => L2 i j a b + fac * tempab i j a b  -- L2234
  let Lt1a := fun (c : V) (d : V) => ∑ j : O, ∑ k : O, ∑ b : V, L2anti j k b d * T2anti b c j k  -- L2237
  let Lt1a := fun (c : V) (d : V) => Lt1a c d + 2 * (∑ k : O, ∑ j : O, ∑ b : V, L2old k j d b * T2old c b k j)  -- L2238
  let L1 := fun (i : O) (a : V) => L1 i a + (1/2) * fac * (∑ c : V, ∑ d : V, Lt1a c d * (I.vovv d i c a - I.vovv d i a c))  -- L2239
  let L1 := fun (i : O) (a : V) => L1 i a - (1/2) * fac * (∑ d : V, ∑ b : V, Lt1a d b * Ivovvs b i d a)  -- L2241
  let L1 := fun (i : O) (a : V) => L1 i a + (1/2) * fac * (∑ c : V, ∑ d : V, Lt1a c d * I.ovvv i d a c)  -- L2243
  let L1 := fun (i : O) (a : V) => L1 i a - (1/2) * fac * (∑ d : V, ∑ b : V, Lt1a d b * IvOvVs b i d a)  -- L2244
  let Lt2a := fun (l : O) (k : O) => ∑ j : O, ∑ b : V, ∑ c : V, L2anti j l b c * T2anti b c j k  -- L2246
  let Lt2a := fun (l : O) (k : O) => Lt2a l k + (∑ j : O, ∑ c : V, ∑ b : V, L2old l j c b * T2old c b k j)  -- L2247
  let Lt2a := fun (l : O) (k : O) => Lt2a l k + (∑ j : O, ∑ b : V, ∑ c : V, L2old l j b c * T2old b c k j)  -- L2248
  let L1 := fun (i : O) (a : V) => L1 i a - (1/2) * fac * (∑ l : O, ∑ k : O, Lt2a l k * (I.ooov k i l a - I.oovo k i a l))  -- L2249
  let L1 := fun (i : O) (a : V) => L1 i a - (1/2) * fac * (∑ j : O, ∑ l : O, Lt2a j l * Iooovs l i j a)  -- L2251
  let L1 := fun (i : O) (a : V) => L1 i a - (1/2) * fac * (∑ l : O, ∑ k : O, Lt2a l k * I.oovo i k a l)  -- L2253
  let L1 := fun (i : O) (a : V) => L1 i a - (1/2) * fac * (∑ j : O, ∑ l : O, Lt2a j l * IoOoVs l i j a)  -- L2254
  let tempab := fun (i : O) (j : O) (a : V) (b : V) => (1/2) * (∑ d : V, Lt1a d a * I.oovv i j d b)  -- L2256
  let tempab := fun (i : O) (j : O) (a : V) (b : V) => tempab i j a b + (1/2) * (∑ l : O, Lt2a j l * I.oovv i l a b)  -- L2257
  let tempab := fun (i : O) (j : O) (a : V) (b : V) => tempab i j a b + tempab j i b a  -- L2258
  let L2 := fun (i : O) (j : O) (a : V) (b : V) => L2 i j a b - fac * tempab i j a b  -- L2259
  (L1, L2)

/-- `rccsd_lambda_opt`, cc_equations.py:2330-2339. -/
def rccsd_lambda_opt (F : OneE O V K) (I : TwoEFull O V O V K) (L1old : O → V → K) (L2old : O → O → V → V → K) (T1old : V → O → K) (T2old : V → V → O → O → K) :
    (O → V → K) × (O → O → V → V → K) :=
  let L1 := F.ov  -- L2334
  let L2 := I.oovv  -- L2335
  let L1 := r_LS_TS L1 I T1old 1  -- L2336
  let r := rccsd_Lambda_opt L1 L2 F I L1old L2old T1old T2old 1  -- L2337
  let L1 := r.1
  let L2 := r.2
  (L1, L2)

end CC
