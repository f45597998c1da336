import Verif.Model.Heap
/-!
# The routines of `cc_energy.py` and `cc_equations.py` as array programs

Generated by `tools/gen_heap.py` from the Python syntax tree: every statement of every routine, in order.  `ccsd_pt_simple`, which only
raises, is left out.
-/

namespace Heap

/-- statements in sequence -/
def Stmt.block : List Stmt → Stmt
  | [] => .skip
  | s :: l => .seq s (.block l)

/-- the call of a routine, binding the returned values to `outs` -/
def Stmt.callFun (f : Fun) (args : List Ex) (outs : List ℕ) : Stmt := .call (f.params.zip args) f.body (outs.zip f.ret)

/-! index letters -/
namespace Letter
abbrev a : ℕ := 0
abbrev b : ℕ := 1
abbrev c : ℕ := 2
abbrev d : ℕ := 3
abbrev e : ℕ := 4
abbrev f : ℕ := 5
abbrev g : ℕ := 6
abbrev h : ℕ := 7
abbrev i : ℕ := 8
abbrev j : ℕ := 9
abbrev k : ℕ := 10
abbrev l : ℕ := 11
abbrev m : ℕ := 12
abbrev n : ℕ := 13
abbrev o : ℕ := 14
abbrev p : ℕ := 15
abbrev q : ℕ := 16
abbrev r : ℕ := 17
abbrev s : ℕ := 18
abbrev t : ℕ := 19
abbrev u : ℕ := 20
abbrev v : ℕ := 21
abbrev w : ℕ := 22
abbrev x : ℕ := 23
abbrev y : ℕ := 24
abbrev z : ℕ := 25
abbrev A : ℕ := 26
abbrev B : ℕ := 27
abbrev C : ℕ := 28
abbrev D : ℕ := 29
abbrev E : ℕ := 30
abbrev F : ℕ := 31
abbrev G : ℕ := 32
abbrev H : ℕ := 33
abbrev I : ℕ := 34
abbrev J : ℕ := 35
abbrev K : ℕ := 36
abbrev L : ℕ := 37
abbrev M : ℕ := 38
abbrev N : ℕ := 39
abbrev O : ℕ := 40
abbrev P : ℕ := 41
abbrev Q : ℕ := 42
abbrev R : ℕ := 43
abbrev S : ℕ := 44
abbrev T : ℕ := 45
abbrev U : ℕ := 46
abbrev V : ℕ := 47
abbrev W : ℕ := 48
abbrev X : ℕ := 49
abbrev Y : ℕ := 50
abbrev Z : ℕ := 51
end Letter

namespace Prog
open Letter

/-- cqcpy/cc_energy.py:9-12 (`cc_energy_d`).  Names: 0 t2, 1 eri, 2 Ed. -/
def cc_energy_d : Fun where
  params := [0, 1]
  body := .block [
    .assign 2 (.bin .mul (.lit 1 4) (.ein2 [[a, b, i, j], [i, j, a, b]] [] (.var 0) (.var 1))) -- 11
    ]
  ret := [.var 2]

/-- cqcpy/cc_energy.py:15-18 (`cc_energy_s1`).  Names: 0 t1, 1 f, 2 Es1. -/
def cc_energy_s1 : Fun where
  params := [0, 1]
  body := .block [
    .assign 2 (.ein2 [[a, i], [i, a]] [] (.var 0) (.var 1)) -- 17
    ]
  ret := [.var 2]

/-- cqcpy/cc_energy.py:21-24 (`cc_energy_s2`).  Names: 0 t1, 1 eri, 2 Es2. -/
def cc_energy_s2 : Fun where
  params := [0, 1]
  body := .block [
    .assign 2 (.ein3 [[a, i], [b, j], [i, j, a, b]] [] (.var 0) (.var 0) (.var 1)) -- 23
    ]
  ret := [.var 2]

/-- cqcpy/cc_energy.py:27-29 (`cc_energy_s2_a`).  Names: 0 t11, 1 t12, 2 eri, 3 Es2. -/
def cc_energy_s2_a : Fun where
  params := [0, 1, 2]
  body := .block [
    .assign 3 (.ein3 [[a, i], [b, j], [i, j, a, b]] [] (.var 0) (.var 1) (.var 2)) -- 28
    ]
  ret := [.var 3]

/-- cqcpy/cc_energy.py:32-37 (`cc_energy`).  Names: 0 t1, 1 t2, 2 f, 3 eri, 4 Ed, 5 Es1, 6 Es2. -/
def cc_energy : Fun where
  params := [0, 1, 2, 3]
  body := .block [
    .callFun cc_energy_d [.var 1, .var 3] [4], -- 34
    .callFun cc_energy_s1 [.var 0, .var 2] [5], -- 35
    .callFun cc_energy_s2 [.var 0, .var 3] [6] -- 36
    ]
  ret := [.bin .add (.bin .add (.var 4) (.var 5)) (.bin .mul (.lit 1 2) (.var 6))]

/-- cqcpy/cc_energy.py:40-44 (`mp2_energy`).  Names: 0 t1, 1 t2, 2 f, 3 eri, 4 Ed, 5 Es1. -/
def mp2_energy : Fun where
  params := [0, 1, 2, 3]
  body := .block [
    .callFun cc_energy_d [.var 1, .var 3] [4], -- 42
    .callFun cc_energy_s1 [.var 0, .var 2] [5] -- 43
    ]
  ret := [.bin .add (.var 4) (.var 5)]

/-- cqcpy/cc_energy.py:47-58 (`ucc_energy`).  Names: 0 t1.0, 1 t1.1, 2 t2.0, 3 t2.1, 4 t2.2, 5 fa, 6 fb, 7 Ia, 8 Ib, 9 Iabab, 10 t1a, 11 t1b, 12 t2aa, 13 t2ab, 14 t2bb, 15 tauaa, 16 taubb, 17 tauab, 18 s, 19 d. -/
def ucc_energy : Fun where
  params := [0, 1, 2, 3, 4, 5, 6, 7, 8, 9]
  body := .block [
    .assign 10 (.var 0), -- 48
    .assign 11 (.var 1), -- 48
    .assign 12 (.var 2), -- 49
    .assign 13 (.var 3), -- 49
    .assign 14 (.var 4), -- 49
    .assign 15 (.bin .add (.var 12) (.bin .mul (.lit 2 1) (.ein2 [[a, i], [b, j]] [a, b, i, j] (.var 10) (.var 10)))), -- 50
    .assign 16 (.bin .add (.var 14) (.bin .mul (.lit 2 1) (.ein2 [[a, i], [b, j]] [a, b, i, j] (.var 11) (.var 11)))), -- 51
    .assign 17 (.bin .add (.var 13) (.ein2 [[a, i], [b, j]] [a, b, i, j] (.var 10) (.var 11))), -- 52
    .assign 18 (.ein2 [[i, a], [a, i]] [] (.var 5) (.var 10)), -- 53
    .aug 18 .add (.ein2 [[i, a], [a, i]] [] (.var 6) (.var 11)), -- 54
    .assign 19 (.bin .mul (.lit 1 4) (.ein2 [[i, j, a, b], [a, b, i, j]] [] (.var 7) (.var 15))), -- 55
    .aug 19 .add (.bin .mul (.lit 1 4) (.ein2 [[i, j, a, b], [a, b, i, j]] [] (.var 8) (.var 16))), -- 56
    .aug 19 .add (.ein2 [[i, j, a, b], [a, b, i, j]] [] (.var 9) (.var 17)) -- 57
    ]
  ret := [.bin .add (.var 19) (.var 18)]

/-- cqcpy/cc_energy.py:61-66 (`rcc_energy`).  Names: 0 t1, 1 t2, 2 f, 3 I, 4 s, 5 tau, 6 d. -/
def rcc_energy : Fun where
  params := [0, 1, 2, 3]
  body := .block [
    .assign 4 (.bin .mul (.lit 2 1) (.ein2 [[i, a], [a, i]] [] (.var 2) (.var 0))), -- 62
    .assign 5 (.bin .add (.var 1) (.ein2 [[a, i], [b, j]] [a, b, i, j] (.var 0) (.var 0))), -- 63
    .assign 6 (.bin .mul (.lit 2 1) (.ein2 [[a, b, i, j], [i, j, a, b]] [] (.var 5) (.var 3))), -- 64
    .aug 6 .sub (.ein2 [[a, b, i, j], [i, j, b, a]] [] (.var 5) (.var 3)) -- 65
    ]
  ret := [.bin .add (.var 6) (.var 4)]

/-- cqcpy/cc_energy.py:69-77 (`ump2_energy`).  Names: 0 t1.0, 1 t1.1, 2 t2.0, 3 t2.1, 4 t2.2, 5 fa, 6 fb, 7 Ia, 8 Ib, 9 Iabab, 10 t1a, 11 t1b, 12 t2aa, 13 t2ab, 14 t2bb, 15 s, 16 d. -/
def ump2_energy : Fun where
  params := [0, 1, 2, 3, 4, 5, 6, 7, 8, 9]
  body := .block [
    .assign 10 (.var 0), -- 70
    .assign 11 (.var 1), -- 70
    .assign 12 (.var 2), -- 71
    .assign 13 (.var 3), -- 71
    .assign 14 (.var 4), -- 71
    .assign 15 (.ein2 [[i, a], [a, i]] [] (.var 5) (.var 10)), -- 72
    .aug 15 .add (.ein2 [[i, a], [a, i]] [] (.var 6) (.var 11)), -- 73
    .assign 16 (.bin .mul (.lit 1 4) (.ein2 [[i, j, a, b], [a, b, i, j]] [] (.var 7) (.var 12))), -- 74
    .aug 16 .add (.bin .mul (.lit 1 4) (.ein2 [[i, j, a, b], [a, b, i, j]] [] (.var 8) (.var 14))), -- 75
    .aug 16 .add (.ein2 [[i, j, a, b], [a, b, i, j]] [] (.var 9) (.var 13)) -- 76
    ]
  ret := [.bin .add (.var 16) (.var 15)]

/-- cqcpy/cc_equations.py:9-15 (`_S_S`).  Names: 0 T1, 1 F.oo, 2 F.vv, 3 I.vovo, 4 T1old, 5 fac. -/
def S_S_proc : Fun where
  params := [0, 1, 2, 3, 4, 5]
  body := .block [
    .aug 0 .add (.bin .mul (.var 5) (.ein2 [[a, b], [b, i]] [a, i] (.var 2) (.var 4))), -- 11
    .aug 0 .sub (.bin .mul (.var 5) (.ein2 [[j, i], [a, j]] [a, i] (.var 1) (.var 4))), -- 13
    .aug 0 .sub (.bin .mul (.var 5) (.ein2 [[a, j, b, i], [b, j]] [a, i] (.var 3) (.var 4))) -- 15
    ]
  ret := []

/-- cqcpy/cc_equations.py:18-24 (`_S_D`).  Names: 0 T1, 1 F.ov, 2 I.ooov, 3 I.vovv, 4 T2old, 5 fac. -/
def S_D_proc : Fun where
  params := [0, 1, 2, 3, 4, 5]
  body := .block [
    .aug 0 .add (.bin .mul (.var 5) (.ein2 [[j, b], [a, b, i, j]] [a, i] (.var 1) (.var 4))), -- 20
    .aug 0 .add (.bin .mul (.bin .mul (.var 5) (.lit 1 2)) (.ein2 [[a, j, b, c], [b, c, i, j]] [a, i] (.var 3) (.var 4))), -- 22
    .aug 0 .sub (.bin .mul (.bin .mul (.var 5) (.lit 1 2)) (.ein2 [[j, k, i, b], [a, b, j, k]] [a, i] (.var 2) (.var 4))) -- 24
    ]
  ret := []

/-- cqcpy/cc_equations.py:27-33 (`_S_SS`).  Names: 0 T1, 1 F.ov, 2 I.ooov, 3 I.vovv, 4 T1old, 5 fac. -/
def S_SS_proc : Fun where
  params := [0, 1, 2, 3, 4, 5]
  body := .block [
    .aug 0 .sub (.bin .mul (.var 5) (.ein3 [[j, b], [b, i], [a, j]] [a, i] (.var 1) (.var 4) (.var 4))), -- 29
    .aug 0 .sub (.bin .mul (.var 5) (.ein3 [[a, j, b, c], [b, j], [c, i]] [a, i] (.var 3) (.var 4) (.var 4))), -- 31
    .aug 0 .add (.bin .mul (.var 5) (.ein3 [[j, k, i, b], [b, j], [a, k]] [a, i] (.var 2) (.var 4) (.var 4))) -- 33
    ]
  ret := []

/-- cqcpy/cc_equations.py:36-42 (`_S_SD`).  Names: 0 T1, 1 I.oovv, 2 T1old, 3 T2old, 4 fac. -/
def S_SD_proc : Fun where
  params := [0, 1, 2, 3, 4]
  body := .block [
    .aug 0 .sub (.bin .mul (.bin .mul (.var 4) (.lit 1 2)) (.ein3 [[j, k, b, c], [b, i], [a, c, j, k]] [a, i] (.var 1) (.var 2) (.var 3))), -- 38
    .aug 0 .sub (.bin .mul (.bin .mul (.var 4) (.lit 1 2)) (.ein3 [[j, k, b, c], [a, j], [b, c, i, k]] [a, i] (.var 1) (.var 2) (.var 3))), -- 40
    .aug 0 .add (.bin .mul (.var 4) (.ein3 [[j, k, b, c], [b, j], [c, a, k, i]] [a, i] (.var 1) (.var 2) (.var 3))) -- 42
    ]
  ret := []

/-- cqcpy/cc_equations.py:45-46 (`_S_SSS`).  Names: 0 T1, 1 I.oovv, 2 T1old, 3 fac. -/
def S_SSS_proc : Fun where
  params := [0, 1, 2, 3]
  body := .block [
    .aug 0 .add (.bin .mul (.var 3) (.ein4 [[j, k, b, c], [b, i], [c, j], [a, k]] [a, i] (.var 1) (.var 2) (.var 2) (.var 2))) -- 46
    ]
  ret := []

/-- cqcpy/cc_equations.py:49-55 (`_D_S`).  Names: 0 T2, 1 I.vooo, 2 I.vvvo, 3 T1old, 4 fac. -/
def D_S_proc : Fun where
  params := [0, 1, 2, 3, 4]
  body := .block [
    .aug 0 .add (.bin .mul (.var 4) (.ein2 [[a, b, c, j], [c, i]] [a, b, i, j] (.var 2) (.var 3))), -- 51
    .aug 0 .sub (.bin .mul (.var 4) (.ein2 [[a, b, c, i], [c, j]] [a, b, i, j] (.var 2) (.var 3))), -- 52
    .aug 0 .add (.bin .mul (.var 4) (.ein2 [[b, k, i, j], [a, k]] [a, b, i, j] (.var 1) (.var 3))), -- 54
    .aug 0 .sub (.bin .mul (.var 4) (.ein2 [[a, k, i, j], [b, k]] [a, b, i, j] (.var 1) (.var 3))) -- 55
    ]
  ret := []

/-- cqcpy/cc_equations.py:58-73 (`_D_D`).  Names: 0 T2, 1 F.oo, 2 F.vv, 3 I.oooo, 4 I.vovo, 5 I.vvvv, 6 T2old, 7 fac. -/
def D_D_proc : Fun where
  params := [0, 1, 2, 3, 4, 5, 6, 7]
  body := .block [
    .aug 0 .add (.bin .mul (.var 7) (.ein2 [[b, c], [a, c, i, j]] [a, b, i, j] (.var 2) (.var 6))), -- 60
    .aug 0 .sub (.bin .mul (.var 7) (.ein2 [[a, c], [b, c, i, j]] [a, b, i, j] (.var 2) (.var 6))), -- 61
    .aug 0 .sub (.bin .mul (.var 7) (.ein2 [[k, j], [a, b, i, k]] [a, b, i, j] (.var 1) (.var 6))), -- 63
    .aug 0 .add (.bin .mul (.var 7) (.ein2 [[k, i], [a, b, j, k]] [a, b, i, j] (.var 1) (.var 6))), -- 64
    .aug 0 .add (.bin .mul (.bin .mul (.var 7) (.lit 1 2)) (.ein2 [[a, b, c, d], [c, d, i, j]] [a, b, i, j] (.var 5) (.var 6))), -- 66
    .aug 0 .add (.bin .mul (.bin .mul (.var 7) (.lit 1 2)) (.ein2 [[k, l, i, j], [a, b, k, l]] [a, b, i, j] (.var 3) (.var 6))), -- 68
    .aug 0 .sub (.bin .mul (.var 7) (.ein2 [[b, k, c, j], [a, c, i, k]] [a, b, i, j] (.var 4) (.var 6))), -- 70
    .aug 0 .add (.bin .mul (.var 7) (.ein2 [[a, k, c, j], [b, c, i, k]] [a, b, i, j] (.var 4) (.var 6))), -- 71
    .aug 0 .add (.bin .mul (.var 7) (.ein2 [[b, k, c, i], [a, c, j, k]] [a, b, i, j] (.var 4) (.var 6))), -- 72
    .aug 0 .sub (.bin .mul (.var 7) (.ein2 [[a, k, c, i], [b, c, j, k]] [a, b, i, j] (.var 4) (.var 6))) -- 73
    ]
  ret := []

/-- cqcpy/cc_equations.py:76-80 (`_D_D_ladder`).  Names: 0 T2, 1 I.oooo, 2 I.vvvv, 3 T2old, 4 fac. -/
def D_D_ladder_proc : Fun where
  params := [0, 1, 2, 3, 4]
  body := .block [
    .aug 0 .add (.bin .mul (.bin .mul (.var 4) (.lit 1 2)) (.ein2 [[a, b, c, d], [c, d, i, j]] [a, b, i, j] (.var 2) (.var 3))), -- 78
    .aug 0 .add (.bin .mul (.bin .mul (.var 4) (.lit 1 2)) (.ein2 [[k, l, i, j], [a, b, k, l]] [a, b, i, j] (.var 1) (.var 3))) -- 80
    ]
  ret := []

/-- cqcpy/cc_equations.py:83-86 (`_D_D_ring`).  Names: 0 T2, 1 I.vovo, 2 T2old, 3 fac. -/
def D_D_ring_proc : Fun where
  params := [0, 1, 2, 3]
  body := .block [
    .aug 0 .sub (.bin .mul (.var 3) (.ein2 [[b, k, c, j], [a, c, i, k]] [a, b, i, j] (.var 1) (.var 2))), -- 85
    .aug 0 .sub (.bin .mul (.var 3) (.ein2 [[a, k, c, i], [b, c, j, k]] [a, b, i, j] (.var 1) (.var 2))) -- 86
    ]
  ret := []

/-- cqcpy/cc_equations.py:89-100 (`_D_SS`).  Names: 0 T2, 1 I.oooo, 2 I.vovo, 3 I.vvvv, 4 T1old, 5 fac. -/
def D_SS_proc : Fun where
  params := [0, 1, 2, 3, 4, 5]
  body := .block [
    .aug 0 .add (.bin .mul (.bin .mul (.var 5) (.lit 1 2)) (.ein3 [[a, b, c, d], [c, i], [d, j]] [a, b, i, j] (.var 3) (.var 4) (.var 4))), -- 91
    .aug 0 .sub (.bin .mul (.bin .mul (.var 5) (.lit 1 2)) (.ein3 [[a, b, c, d], [c, j], [d, i]] [a, b, i, j] (.var 3) (.var 4) (.var 4))), -- 92
    .aug 0 .add (.bin .mul (.bin .mul (.var 5) (.lit 1 2)) (.ein3 [[k, l, i, j], [a, k], [b, l]] [a, b, i, j] (.var 1) (.var 4) (.var 4))), -- 94
    .aug 0 .sub (.bin .mul (.bin .mul (.var 5) (.lit 1 2)) (.ein3 [[k, l, i, j], [b, k], [a, l]] [a, b, i, j] (.var 1) (.var 4) (.var 4))), -- 95
    .aug 0 .sub (.bin .mul (.var 5) (.ein3 [[a, k, c, j], [c, i], [b, k]] [a, b, i, j] (.var 2) (.var 4) (.var 4))), -- 97
    .aug 0 .add (.bin .mul (.var 5) (.ein3 [[b, k, c, j], [c, i], [a, k]] [a, b, i, j] (.var 2) (.var 4) (.var 4))), -- 98
    .aug 0 .add (.bin .mul (.var 5) (.ein3 [[a, k, c, i], [c, j], [b, k]] [a, b, i, j] (.var 2) (.var 4) (.var 4))), -- 99
    .aug 0 .sub (.bin .mul (.var 5) (.ein3 [[b, k, c, i], [c, j], [a, k]] [a, b, i, j] (.var 2) (.var 4) (.var 4))) -- 100
    ]
  ret := []

/-- cqcpy/cc_equations.py:103-131 (`_D_SD`).  Names: 0 T2, 1 F.ov, 2 I.ooov, 3 I.vovv, 4 T1old, 5 T2old, 6 fac. -/
def D_SD_proc : Fun where
  params := [0, 1, 2, 3, 4, 5, 6]
  body := .block [
    .aug 0 .sub (.bin .mul (.var 6) (.ein3 [[k, c], [c, i], [a, b, k, j]] [a, b, i, j] (.var 1) (.var 4) (.var 5))), -- 105
    .aug 0 .add (.bin .mul (.var 6) (.ein3 [[k, c], [c, j], [a, b, k, i]] [a, b, i, j] (.var 1) (.var 4) (.var 5))), -- 106
    .aug 0 .sub (.bin .mul (.var 6) (.ein3 [[k, c], [a, k], [c, b, i, j]] [a, b, i, j] (.var 1) (.var 4) (.var 5))), -- 108
    .aug 0 .add (.bin .mul (.var 6) (.ein3 [[k, c], [b, k], [c, a, i, j]] [a, b, i, j] (.var 1) (.var 4) (.var 5))), -- 109
    .aug 0 .sub (.bin .mul (.var 6) (.ein3 [[a, k, c, d], [c, k], [d, b, i, j]] [a, b, i, j] (.var 3) (.var 4) (.var 5))), -- 111
    .aug 0 .add (.bin .mul (.var 6) (.ein3 [[b, k, c, d], [c, k], [d, a, i, j]] [a, b, i, j] (.var 3) (.var 4) (.var 5))), -- 112
    .aug 0 .add (.bin .mul (.var 6) (.ein3 [[k, l, i, c], [c, k], [a, b, l, j]] [a, b, i, j] (.var 2) (.var 4) (.var 5))), -- 114
    .aug 0 .sub (.bin .mul (.var 6) (.ein3 [[k, l, j, c], [c, k], [a, b, l, i]] [a, b, i, j] (.var 2) (.var 4) (.var 5))), -- 115
    .aug 0 .add (.bin .mul (.var 6) (.ein3 [[a, k, c, d], [c, i], [d, b, k, j]] [a, b, i, j] (.var 3) (.var 4) (.var 5))), -- 117
    .aug 0 .sub (.bin .mul (.var 6) (.ein3 [[b, k, c, d], [c, i], [d, a, k, j]] [a, b, i, j] (.var 3) (.var 4) (.var 5))), -- 118
    .aug 0 .sub (.bin .mul (.var 6) (.ein3 [[a, k, c, d], [c, j], [d, b, k, i]] [a, b, i, j] (.var 3) (.var 4) (.var 5))), -- 119
    .aug 0 .add (.bin .mul (.var 6) (.ein3 [[b, k, c, d], [c, j], [d, a, k, i]] [a, b, i, j] (.var 3) (.var 4) (.var 5))), -- 120
    .aug 0 .sub (.bin .mul (.var 6) (.ein3 [[k, l, i, c], [a, k], [c, b, l, j]] [a, b, i, j] (.var 2) (.var 4) (.var 5))), -- 122
    .aug 0 .add (.bin .mul (.var 6) (.ein3 [[k, l, i, c], [b, k], [c, a, l, j]] [a, b, i, j] (.var 2) (.var 4) (.var 5))), -- 123
    .aug 0 .add (.bin .mul (.var 6) (.ein3 [[k, l, j, c], [a, k], [c, b, l, i]] [a, b, i, j] (.var 2) (.var 4) (.var 5))), -- 124
    .aug 0 .sub (.bin .mul (.var 6) (.ein3 [[k, l, j, c], [b, k], [c, a, l, i]] [a, b, i, j] (.var 2) (.var 4) (.var 5))), -- 125
    .aug 0 .sub (.bin .mul (.bin .mul (.var 6) (.lit 1 2)) (.ein3 [[k, l, j, c], [c, i], [a, b, k, l]] [a, b, i, j] (.var 2) (.var 4) (.var 5))), -- 127
    .aug 0 .add (.bin .mul (.bin .mul (.var 6) (.lit 1 2)) (.ein3 [[k, l, i, c], [c, j], [a, b, k, l]] [a, b, i, j] (.var 2) (.var 4) (.var 5))), -- 128
    .aug 0 .add (.bin .mul (.bin .mul (.var 6) (.lit 1 2)) (.ein3 [[b, k, c, d], [a, k], [c, d, i, j]] [a, b, i, j] (.var 3) (.var 4) (.var 5))), -- 130
    .aug 0 .sub (.bin .mul (.bin .mul (.var 6) (.lit 1 2)) (.ein3 [[a, k, c, d], [b, k], [c, d, i, j]] [a, b, i, j] (.var 3) (.var 4) (.var 5))) -- 131
    ]
  ret := []

/-- cqcpy/cc_equations.py:134-145 (`_D_DD`).  Names: 0 T2, 1 I.oovv, 2 T2old, 3 fac. -/
def D_DD_proc : Fun where
  params := [0, 1, 2, 3]
  body := .block [
    .aug 0 .add (.bin .mul (.bin .mul (.var 3) (.lit 1 4)) (.ein3 [[k, l, c, d], [c, d, i, j], [a, b, k, l]] [a, b, i, j] (.var 1) (.var 2) (.var 2))), -- 136
    .aug 0 .add (.bin .mul (.var 3) (.ein3 [[k, l, c, d], [a, c, i, k], [d, b, l, j]] [a, b, i, j] (.var 1) (.var 2) (.var 2))), -- 138
    .aug 0 .sub (.bin .mul (.var 3) (.ein3 [[k, l, c, d], [b, c, i, k], [d, a, l, j]] [a, b, i, j] (.var 1) (.var 2) (.var 2))), -- 139
    .aug 0 .sub (.bin .mul (.bin .mul (.var 3) (.lit 1 2)) (.ein3 [[k, l, c, d], [c, a, k, l], [d, b, i, j]] [a, b, i, j] (.var 1) (.var 2) (.var 2))), -- 141
    .aug 0 .add (.bin .mul (.bin .mul (.var 3) (.lit 1 2)) (.ein3 [[k, l, c, d], [c, b, k, l], [d, a, i, j]] [a, b, i, j] (.var 1) (.var 2) (.var 2))), -- 142
    .aug 0 .sub (.bin .mul (.bin .mul (.var 3) (.lit 1 2)) (.ein3 [[k, l, c, d], [c, d, k, i], [a, b, l, j]] [a, b, i, j] (.var 1) (.var 2) (.var 2))), -- 144
    .aug 0 .add (.bin .mul (.bin .mul (.var 3) (.lit 1 2)) (.ein3 [[k, l, c, d], [c, d, k, j], [a, b, l, i]] [a, b, i, j] (.var 1) (.var 2) (.var 2))) -- 145
    ]
  ret := []

/-- cqcpy/cc_equations.py:148-150 (`_D_DD_ladder`).  Names: 0 T2, 1 I.oovv, 2 T2old, 3 fac. -/
def D_DD_ladder_proc : Fun where
  params := [0, 1, 2, 3]
  body := .block [
    .aug 0 .add (.bin .mul (.bin .mul (.var 3) (.lit 1 4)) (.ein3 [[k, l, c, d], [c, d, i, j], [a, b, k, l]] [a, b, i, j] (.var 1) (.var 2) (.var 2))) -- 150
    ]
  ret := []

/-- cqcpy/cc_equations.py:153-155 (`_D_DD_ring`).  Names: 0 T2, 1 I.oovv, 2 T2old, 3 fac. -/
def D_DD_ring_proc : Fun where
  params := [0, 1, 2, 3]
  body := .block [
    .aug 0 .add (.bin .mul (.var 3) (.ein3 [[k, l, c, d], [a, c, i, k], [d, b, l, j]] [a, b, i, j] (.var 1) (.var 2) (.var 2))) -- 155
    ]
  ret := []

/-- cqcpy/cc_equations.py:158-164 (`_D_SSS`).  Names: 0 T2, 1 I.ooov, 2 I.vovv, 3 T1old, 4 fac. -/
def D_SSS_proc : Fun where
  params := [0, 1, 2, 3, 4]
  body := .block [
    .aug 0 .add (.bin .mul (.var 4) (.ein4 [[b, k, c, d], [c, i], [a, k], [d, j]] [a, b, i, j] (.var 2) (.var 3) (.var 3) (.var 3))), -- 160
    .aug 0 .sub (.bin .mul (.var 4) (.ein4 [[a, k, c, d], [c, i], [b, k], [d, j]] [a, b, i, j] (.var 2) (.var 3) (.var 3) (.var 3))), -- 161
    .aug 0 .sub (.bin .mul (.var 4) (.ein4 [[k, l, j, c], [c, i], [a, k], [b, l]] [a, b, i, j] (.var 1) (.var 3) (.var 3) (.var 3))), -- 163
    .aug 0 .add (.bin .mul (.var 4) (.ein4 [[k, l, i, c], [c, j], [a, k], [b, l]] [a, b, i, j] (.var 1) (.var 3) (.var 3) (.var 3))) -- 164
    ]
  ret := []

/-- cqcpy/cc_equations.py:167-184 (`_D_SSD`).  Names: 0 T2, 1 I.oovv, 2 T1old, 3 T2old, 4 fac. -/
def D_SSD_proc : Fun where
  params := [0, 1, 2, 3, 4]
  body := .block [
    .aug 0 .add (.bin .mul (.bin .mul (.var 4) (.lit 1 4)) (.ein4 [[k, l, c, d], [c, i], [d, j], [a, b, k, l]] [a, b, i, j] (.var 1) (.var 2) (.var 2) (.var 3))), -- 169
    .aug 0 .sub (.bin .mul (.bin .mul (.var 4) (.lit 1 4)) (.ein4 [[k, l, c, d], [c, j], [d, i], [a, b, k, l]] [a, b, i, j] (.var 1) (.var 2) (.var 2) (.var 3))), -- 170
    .aug 0 .add (.bin .mul (.bin .mul (.var 4) (.lit 1 4)) (.ein4 [[k, l, c, d], [a, k], [b, l], [c, d, i, j]] [a, b, i, j] (.var 1) (.var 2) (.var 2) (.var 3))), -- 172
    .aug 0 .sub (.bin .mul (.bin .mul (.var 4) (.lit 1 4)) (.ein4 [[k, l, c, d], [b, k], [a, l], [c, d, i, j]] [a, b, i, j] (.var 1) (.var 2) (.var 2) (.var 3))), -- 173
    .aug 0 .sub (.bin .mul (.var 4) (.ein4 [[k, l, c, d], [c, i], [a, k], [d, b, l, j]] [a, b, i, j] (.var 1) (.var 2) (.var 2) (.var 3))), -- 175
    .aug 0 .add (.bin .mul (.var 4) (.ein4 [[k, l, c, d], [c, i], [b, k], [d, a, l, j]] [a, b, i, j] (.var 1) (.var 2) (.var 2) (.var 3))), -- 176
    .aug 0 .add (.bin .mul (.var 4) (.ein4 [[k, l, c, d], [c, j], [a, k], [d, b, l, i]] [a, b, i, j] (.var 1) (.var 2) (.var 2) (.var 3))), -- 177
    .aug 0 .sub (.bin .mul (.var 4) (.ein4 [[k, l, c, d], [c, j], [b, k], [d, a, l, i]] [a, b, i, j] (.var 1) (.var 2) (.var 2) (.var 3))), -- 178
    .aug 0 .sub (.bin .mul (.var 4) (.ein4 [[k, l, c, d], [c, k], [d, i], [a, b, l, j]] [a, b, i, j] (.var 1) (.var 2) (.var 2) (.var 3))), -- 180
    .aug 0 .add (.bin .mul (.var 4) (.ein4 [[k, l, c, d], [c, k], [d, j], [a, b, l, i]] [a, b, i, j] (.var 1) (.var 2) (.var 2) (.var 3))), -- 181
    .aug 0 .sub (.bin .mul (.var 4) (.ein4 [[k, l, c, d], [c, k], [a, l], [d, b, i, j]] [a, b, i, j] (.var 1) (.var 2) (.var 2) (.var 3))), -- 183
    .aug 0 .add (.bin .mul (.var 4) (.ein4 [[k, l, c, d], [c, k], [b, l], [d, a, i, j]] [a, b, i, j] (.var 1) (.var 2) (.var 2) (.var 3))) -- 184
    ]
  ret := []

/-- cqcpy/cc_equations.py:187-189 (`_D_SSSS`).  Names: 0 T2, 1 I.oovv, 2 T1old, 3 fac. -/
def D_SSSS_proc : Fun where
  params := [0, 1, 2, 3]
  body := .block [
    .aug 0 .add (.bin .mul (.var 3) (.ein5 [[k, l, c, d], [c, i], [a, k], [b, l], [d, j]] [a, b, i, j] (.var 1) (.var 2) (.var 2) (.var 2) (.var 2))) -- 188
    ]
  ret := []

/-- cqcpy/cc_equations.py:192-262 (`_Stanton`).  Names: 0 T1, 1 T2, 2 F.oo, 3 F.ov, 4 F.vv, 5 I.oooo, 6 I.ooov, 7 I.oovv, 8 I.vooo, 9 I.vovo, 10 I.vovv, 11 I.vvvo, 12 I.vvvv, 13 T1old, 14 T2old, 15 fac, 16 T2A, 17 Fvv, 18 Foo, 19 Fov, 20 T2B, 21 Woooo, 22 Wvvvv, 23 Wovvo, 24 temp, 25 Ftemp, 26 temp_ab, 27 temp_ij. -/
def Stanton_proc : Fun where
  params := [0, 1, 2, 3, 4, 5, 6, 7, 8, 9, 10, 11, 12, 13, 14, 15]
  body := .block [
    .assign 16 (.copy (.var 14)), -- 193
    .aug 16 .add (.bin .mul (.lit 1 2) (.ein2 [[a, i], [b, j]] [a, b, i, j] (.var 13) (.var 13))), -- 194
    .aug 16 .sub (.bin .mul (.lit 1 2) (.ein2 [[b, i], [a, j]] [a, b, i, j] (.var 13) (.var 13))), -- 195
    .assign 17 (.astype (.var 4) 0), -- 197
    .aug 17 .sub (.bin .mul (.lit 1 2) (.ein2 [[j, b], [a, j]] [a, b] (.var 3) (.var 13))), -- 198
    .aug 17 .sub (.ein2 [[a, j, c, b], [c, j]] [a, b] (.var 10) (.var 13)), -- 199
    .aug 17 .sub (.bin .mul (.lit 1 2) (.ein2 [[j, k, b, c], [a, c, j, k]] [a, b] (.var 7) (.var 16))), -- 200
    .assign 18 (.astype (.var 2) 0), -- 202
    .aug 18 .add (.bin .mul (.lit 1 2) (.ein2 [[j, b], [b, i]] [j, i] (.var 3) (.var 13))), -- 203
    .aug 18 .add (.ein2 [[j, k, i, b], [b, k]] [j, i] (.var 6) (.var 13)), -- 204
    .aug 18 .add (.bin .mul (.lit 1 2) (.ein2 [[j, k, b, c], [b, c, i, k]] [j, i] (.var 7) (.var 16))), -- 205
    .del 16, -- 206
    .assign 19 (.astype (.var 3) 0), -- 208
    .aug 19 .add (.ein2 [[j, k, b, c], [c, k]] [j, b] (.var 7) (.var 13)), -- 209
    .aug 0 .add (.bin .mul (.var 15) (.ein2 [[a, b], [b, i]] [a, i] (.var 17) (.var 13))), -- 211
    .aug 0 .sub (.bin .mul (.var 15) (.ein2 [[j, i], [a, j]] [a, i] (.var 18) (.var 13))), -- 212
    .aug 0 .add (.bin .mul (.var 15) (.ein2 [[j, b], [a, b, i, j]] [a, i] (.var 19) (.var 14))), -- 213
    .aug 0 .sub (.bin .mul (.var 15) (.ein2 [[a, j, b, i], [b, j]] [a, i] (.var 9) (.var 13))), -- 214
    .aug 0 .add (.bin .mul (.bin .mul (.var 15) (.lit 1 2)) (.ein2 [[a, j, b, c], [b, c, i, j]] [a, i] (.var 10) (.var 14))), -- 215
    .aug 0 .sub (.bin .mul (.bin .mul (.var 15) (.lit 1 2)) (.ein2 [[j, k, i, b], [a, b, j, k]] [a, i] (.var 6) (.var 14))), -- 216
    .assign 20 (.copy (.var 14)), -- 218
    .aug 20 .add (.ein2 [[a, i], [b, j]] [a, b, i, j] (.var 13) (.var 13)), -- 219
    .aug 20 .sub (.ein2 [[b, i], [a, j]] [a, b, i, j] (.var 13) (.var 13)), -- 220
    .assign 21 (.astype (.var 5) 1), -- 222
    .aug 21 .add (.ein2 [[k, l, i, c], [c, j]] [k, l, i, j] (.var 6) (.var 13)), -- 223
    .aug 21 .sub (.ein2 [[k, l, j, c], [c, i]] [k, l, i, j] (.var 6) (.var 13)), -- 224
    .aug 21 .add (.bin .mul (.lit 1 4) (.ein2 [[k, l, c, d], [c, d, i, j]] [k, l, i, j] (.var 7) (.var 20))), -- 225
    .aug 1 .add (.bin .mul (.bin .mul (.var 15) (.lit 1 2)) (.ein2 [[k, l, i, j], [a, b, k, l]] [a, b, i, j] (.var 21) (.var 20))), -- 226
    .del 21, -- 227
    .assign 22 (.astype (.var 12) 1), -- 229
    .aug 22 .sub (.ein2 [[a, k, c, d], [b, k]] [a, b, c, d] (.var 10) (.var 13)), -- 230
    .aug 22 .add (.ein2 [[b, k, c, d], [a, k]] [a, b, c, d] (.var 10) (.var 13)), -- 231
    .aug 22 .add (.bin .mul (.lit 1 4) (.ein2 [[k, l, c, d], [a, b, k, l]] [a, b, c, d] (.var 7) (.var 20))), -- 232
    .aug 1 .add (.bin .mul (.bin .mul (.var 15) (.lit 1 2)) (.ein2 [[a, b, c, d], [c, d, i, j]] [a, b, i, j] (.var 22) (.var 20))), -- 233
    .del 20, -- 234
    .del 22, -- 235
    .assign 23 (.neg (.astype (.transp [1, 0, 2, 3] (.var 9)) 1)), -- 237
    .aug 23 .sub (.ein2 [[b, k, c, d], [d, j]] [k, b, c, j] (.var 10) (.var 13)), -- 238
    .aug 23 .add (.ein2 [[k, l, j, c], [b, l]] [k, b, c, j] (.var 6) (.var 13)), -- 239
    .assign 24 (.bin .add (.bin .mul (.lit 1 2) (.var 14)) (.ein2 [[d, j], [b, l]] [d, b, j, l] (.var 13) (.var 13))), -- 240
    .aug 23 .sub (.ein2 [[k, l, c, d], [d, b, j, l]] [k, b, c, j] (.var 7) (.var 24)), -- 241
    .assign 24 (.ein2 [[k, b, c, j], [a, c, i, k]] [a, b, i, j] (.var 23) (.var 14)), -- 242
    .aug 24 .add (.ein3 [[b, k, c, j], [c, i], [a, k]] [a, b, i, j] (.var 9) (.var 13) (.var 13)), -- 243
    .aug 1 .add (.bin .mul (.var 15) (.var 24)), -- 244
    .aug 1 .sub (.bin .mul (.var 15) (.transp [0, 1, 3, 2] (.var 24))), -- 245
    .aug 1 .sub (.bin .mul (.var 15) (.transp [1, 0, 2, 3] (.var 24))), -- 246
    .aug 1 .add (.bin .mul (.var 15) (.transp [1, 0, 3, 2] (.var 24))), -- 247
    .del 24, -- 248
    .del 23, -- 249
    .assign 25 (.bin .sub (.var 17) (.bin .mul (.lit 1 2) (.ein2 [[j, b], [a, j]] [a, b] (.var 19) (.var 13)))), -- 251
    .assign 26 (.ein2 [[b, c], [a, c, i, j]] [a, b, i, j] (.var 25) (.var 14)), -- 252
    .aug 26 .add (.ein2 [[b, k, i, j], [a, k]] [a, b, i, j] (.var 8) (.var 13)), -- 253
    .aug 1 .add (.bin .mul (.var 15) (.var 26)), -- 254
    .aug 1 .sub (.bin .mul (.var 15) (.transp [1, 0, 2, 3] (.var 26))), -- 255
    .del 26, -- 256
    .assign 25 (.bin .add (.var 18) (.bin .mul (.lit 1 2) (.ein2 [[j, b], [b, i]] [j, i] (.var 19) (.var 13)))), -- 258
    .assign 27 (.neg (.ein2 [[k, j], [a, b, i, k]] [a, b, i, j] (.var 25) (.var 14))), -- 259
    .aug 27 .add (.ein2 [[a, b, c, j], [c, i]] [a, b, i, j] (.var 11) (.var 13)), -- 260
    .aug 1 .add (.bin .mul (.var 15) (.var 27)), -- 261
    .aug 1 .sub (.bin .mul (.var 15) (.transp [0, 1, 3, 2] (.var 27))) -- 262
    ]
  ret := []

/-- cqcpy/cc_equations.py:265-299 (`_Stanton_ccd`).  Names: 0 T2, 1 F.oo, 2 F.vv, 3 I.oooo, 4 I.oovv, 5 I.vovo, 6 I.vvvv, 7 T2old, 8 fac, 9 Fvv, 10 Foo, 11 Woooo, 12 Wvvvv, 13 Wovvo, 14 temp, 15 temp_ab, 16 temp_ij. -/
def Stanton_ccd_proc : Fun where
  params := [0, 1, 2, 3, 4, 5, 6, 7, 8]
  body := .block [
    .assign 9 (.astype (.var 2) 0), -- 266
    .aug 9 .sub (.bin .mul (.lit 1 2) (.ein2 [[j, k, b, c], [a, c, j, k]] [a, b] (.var 4) (.var 7))), -- 267
    .assign 10 (.astype (.var 1) 0), -- 269
    .aug 10 .add (.bin .mul (.lit 1 2) (.ein2 [[j, k, b, c], [b, c, i, k]] [j, i] (.var 4) (.var 7))), -- 270
    .assign 11 (.astype (.var 3) 0), -- 272
    .aug 11 .add (.bin .mul (.lit 1 4) (.ein2 [[k, l, c, d], [c, d, i, j]] [k, l, i, j] (.var 4) (.var 7))), -- 273
    .aug 0 .add (.bin .mul (.bin .mul (.var 8) (.lit 1 2)) (.ein2 [[k, l, i, j], [a, b, k, l]] [a, b, i, j] (.var 11) (.var 7))), -- 274
    .del 11, -- 275
    .assign 12 (.astype (.var 6) 0), -- 277
    .aug 12 .add (.bin .mul (.lit 1 4) (.ein2 [[k, l, c, d], [a, b, k, l]] [a, b, c, d] (.var 4) (.var 7))), -- 278
    .aug 0 .add (.bin .mul (.bin .mul (.var 8) (.lit 1 2)) (.ein2 [[a, b, c, d], [c, d, i, j]] [a, b, i, j] (.var 12) (.var 7))), -- 279
    .del 12, -- 280
    .assign 13 (.neg (.astype (.transp [1, 0, 2, 3] (.var 5)) 0)), -- 282
    .aug 13 .sub (.bin .mul (.lit 1 2) (.ein2 [[k, l, c, d], [d, b, j, l]] [k, b, c, j] (.var 4) (.var 7))), -- 283
    .assign 14 (.ein2 [[k, b, c, j], [a, c, i, k]] [a, b, i, j] (.var 13) (.var 7)), -- 284
    .aug 0 .add (.bin .mul (.var 8) (.var 14)), -- 285
    .aug 0 .sub (.bin .mul (.var 8) (.transp [0, 1, 3, 2] (.var 14))), -- 286
    .aug 0 .sub (.bin .mul (.var 8) (.transp [1, 0, 2, 3] (.var 14))), -- 287
    .aug 0 .add (.bin .mul (.var 8) (.transp [1, 0, 3, 2] (.var 14))), -- 288
    .del 14, -- 289
    .del 13, -- 290
    .assign 15 (.ein2 [[b, c], [a, c, i, j]] [a, b, i, j] (.var 9) (.var 7)), -- 292
    .aug 0 .add (.bin .mul (.var 8) (.var 15)), -- 293
    .aug 0 .sub (.bin .mul (.var 8) (.transp [1, 0, 2, 3] (.var 15))), -- 294
    .del 15, -- 295
    .assign 16 (.neg (.ein2 [[k, j], [a, b, i, k]] [a, b, i, j] (.var 10) (.var 7))), -- 297
    .aug 0 .add (.bin .mul (.var 8) (.var 16)), -- 298
    .aug 0 .sub (.bin .mul (.var 8) (.transp [0, 1, 3, 2] (.var 16))) -- 299
    ]
  ret := []

/-- cqcpy/cc_equations.py:302-546 (`_u_Stanton`).  Names: 0 T1a, 1 T1b, 2 T2aa, 3 T2ab, 4 T2bb, 5 Faa.oo, 6 Faa.ov, 7 Faa.vv, 8 Fbb.oo, 9 Fbb.ov, 10 Fbb.vv, 11 Ia.oooo, 12 Ia.ooov, 13 Ia.oovv, 14 Ia.vooo, 15 Ia.vovo, 16 Ia.vovv, 17 Ia.vvvo, 18 Ia.vvvv, 19 Ib.oooo, 20 Ib.ooov, 21 Ib.oovv, 22 Ib.vooo, 23 Ib.vovo, 24 Ib.vovv, 25 Ib.vvvo, 26 Ib.vvvv, 27 Iabab.oooo, 28 Iabab.ooov, 29 Iabab.oovo, 30 Iabab.oovv, 31 Iabab.ovoo, 32 Iabab.ovov, 33 Iabab.ovvo, 34 Iabab.ovvv, 35 Iabab.vooo, 36 Iabab.voov, 37 Iabab.vovo, 38 Iabab.vovv, 39 Iabab.vvov, 40 Iabab.vvvo, 41 Iabab.vvvv, 42 T1old.0, 43 T1old.1, 44 T2old.0, 45 T2old.1, 46 T2old.2, 47 fac, 48 T1aold, 49 T1bold, 50 T2aaold, 51 T2abold, 52 T2bbold, 53 T2Aaa, 54 T2Abb, 55 T2Aab, 56 Fvva, 57 Fvvb, 58 Fooa, 59 Foob, 60 Fova, 61 Fovb, 62 T2Baa, 63 T2Bbb, 64 T2Bab, 65 Wo_aaaa, 66 Wo_bbbb, 67 Wo_abab, 68 Wv_aaaa, 69 Wv_bbbb, 70 Wv_abab, 71 aatemp, 72 bbtemp, 73 abtemp, 74 TTTaa, 75 TTTbb, 76 TTTab, 77 W_ovvo, 78 W_OVVO, 79 W_oVvO, 80 W_OvVo, 81 W_oVVo, 82 W_OvvO, 83 ATaa, 84 ATbb, 85 ATab. -/
def u_Stanton_proc : Fun where
  params := [0, 1, 2, 3, 4, 5, 6, 7, 8, 9, 10, 11, 12, 13, 14, 15, 16, 17, 18, 19, 20, 21, 22, 23, 24, 25, 26, 27, 28, 29, 30, 31, 32, 33, 34, 35, 36, 37, 38, 39, 40, 41, 42, 43, 44, 45, 46, 47]
  body := .block [
    .assign 48 (.var 42), -- 306
    .assign 49 (.var 43), -- 306
    .assign 50 (.var 44), -- 307
    .assign 51 (.var 45), -- 307
    .assign 52 (.var 46), -- 307
    .assign 53 (.copy (.var 50)), -- 309
    .aug 53 .add (.bin .mul (.lit 1 2) (.ein2 [[a, i], [b, j]] [a, b, i, j] (.var 48) (.var 48))), -- 310
    .aug 53 .sub (.bin .mul (.lit 1 2) (.ein2 [[b, i], [a, j]] [a, b, i, j] (.var 48) (.var 48))), -- 311
    .assign 54 (.copy (.var 52)), -- 312
    .aug 54 .add (.bin .mul (.lit 1 2) (.ein2 [[a, i], [b, j]] [a, b, i, j] (.var 49) (.var 49))), -- 313
    .aug 54 .sub (.bin .mul (.lit 1 2) (.ein2 [[b, i], [a, j]] [a, b, i, j] (.var 49) (.var 49))), -- 314
    .assign 55 (.copy (.var 51)), -- 315
    .aug 55 .add (.bin .mul (.lit 1 2) (.ein2 [[a, i], [b, j]] [a, b, i, j] (.var 48) (.var 49))), -- 316
    .assign 56 (.astype (.var 7) 0), -- 318
    .aug 56 .sub (.bin .mul (.lit 1 2) (.ein2 [[j, b], [a, j]] [a, b] (.var 6) (.var 48))), -- 319
    .aug 56 .sub (.ein2 [[a, j, c, b], [c, j]] [a, b] (.var 16) (.var 48)), -- 320
    .aug 56 .add (.ein2 [[a, j, b, c], [c, j]] [a, b] (.var 38) (.var 49)), -- 321
    .aug 56 .sub (.bin .mul (.lit 1 2) (.ein2 [[j, k, b, c], [a, c, j, k]] [a, b] (.var 13) (.var 53))), -- 322
    .aug 56 .sub (.ein2 [[j, k, b, c], [a, c, j, k]] [a, b] (.var 30) (.var 55)), -- 323
    .assign 57 (.astype (.var 10) 1), -- 325
    .aug 57 .sub (.bin .mul (.lit 1 2) (.ein2 [[j, b], [a, j]] [a, b] (.var 9) (.var 49))), -- 326
    .aug 57 .sub (.ein2 [[a, j, c, b], [c, j]] [a, b] (.var 24) (.var 49)), -- 327
    .aug 57 .add (.ein2 [[j, a, c, b], [c, j]] [a, b] (.var 34) (.var 48)), -- 328
    .aug 57 .sub (.bin .mul (.lit 1 2) (.ein2 [[j, k, b, c], [a, c, j, k]] [a, b] (.var 21) (.var 54))), -- 329
    .aug 57 .sub (.ein2 [[k, j, c, b], [c, a, k, j]] [a, b] (.var 30) (.var 55)), -- 330
    .assign 58 (.astype (.var 5) 0), -- 332
    .aug 58 .add (.bin .mul (.lit 1 2) (.ein2 [[j, b], [b, i]] [j, i] (.var 6) (.var 48))), -- 333
    .aug 58 .add (.ein2 [[j, k, i, b], [b, k]] [j, i] (.var 12) (.var 48)), -- 334
    .aug 58 .add (.ein2 [[j, k, i, b], [b, k]] [j, i] (.var 28) (.var 49)), -- 335
    .aug 58 .add (.bin .mul (.lit 1 2) (.ein2 [[j, k, b, c], [b, c, i, k]] [j, i] (.var 13) (.var 53))), -- 336
    .aug 58 .add (.ein2 [[j, k, b, c], [b, c, i, k]] [j, i] (.var 30) (.var 55)), -- 337
    .assign 59 (.astype (.var 8) 1), -- 339
    .aug 59 .add (.bin .mul (.lit 1 2) (.ein2 [[j, b], [b, i]] [j, i] (.var 9) (.var 49))), -- 340
    .aug 59 .add (.ein2 [[j, k, i, b], [b, k]] [j, i] (.var 20) (.var 49)), -- 341
    .aug 59 .add (.ein2 [[k, j, b, i], [b, k]] [j, i] (.var 29) (.var 48)), -- 342
    .aug 59 .add (.bin .mul (.lit 1 2) (.ein2 [[j, k, b, c], [b, c, i, k]] [j, i] (.var 21) (.var 54))), -- 343
    .aug 59 .add (.ein2 [[k, j, c, b], [c, b, k, i]] [j, i] (.var 30) (.var 55)), -- 344
    .del 53, -- 345
    .del 55, -- 346
    .del 54, -- 347
    .assign 60 (.astype (.var 6) 0), -- 349
    .aug 60 .add (.ein2 [[j, k, b, c], [c, k]] [j, b] (.var 13) (.var 48)), -- 350
    .aug 60 .add (.ein2 [[j, k, b, c], [c, k]] [j, b] (.var 30) (.var 49)), -- 351
    .assign 61 (.astype (.var 9) 1), -- 353
    .aug 61 .add (.ein2 [[j, k, b, c], [c, k]] [j, b] (.var 21) (.var 49)), -- 354
    .aug 61 .add (.ein2 [[k, j, c, b], [c, k]] [j, b] (.var 30) (.var 48)), -- 355
    .aug 0 .add (.bin .mul (.var 47) (.ein2 [[a, b], [b, i]] [a, i] (.var 56) (.var 48))), -- 357
    .aug 1 .add (.bin .mul (.var 47) (.ein2 [[a, b], [b, i]] [a, i] (.var 57) (.var 49))), -- 358
    .aug 0 .sub (.bin .mul (.var 47) (.ein2 [[j, i], [a, j]] [a, i] (.var 58) (.var 48))), -- 359
    .aug 1 .sub (.bin .mul (.var 47) (.ein2 [[j, i], [a, j]] [a, i] (.var 59) (.var 49))), -- 360
    .aug 0 .add (.bin .mul (.var 47) (.ein2 [[j, b], [a, b, i, j]] [a, i] (.var 60) (.var 50))), -- 361
    .aug 0 .add (.bin .mul (.var 47) (.ein2 [[j, b], [a, b, i, j]] [a, i] (.var 61) (.var 51))), -- 362
    .aug 1 .add (.bin .mul (.var 47) (.ein2 [[j, b], [a, b, i, j]] [a, i] (.var 61) (.var 52))), -- 363
    .aug 1 .add (.bin .mul (.var 47) (.ein2 [[j, b], [b, a, j, i]] [a, i] (.var 60) (.var 51))), -- 364
    .aug 0 .sub (.bin .mul (.var 47) (.ein2 [[a, j, b, i], [b, j]] [a, i] (.var 15) (.var 48))), -- 366
    .aug 0 .add (.bin .mul (.var 47) (.ein2 [[a, j, i, b], [b, j]] [a, i] (.var 36) (.var 49))), -- 367
    .aug 1 .sub (.bin .mul (.var 47) (.ein2 [[a, j, b, i], [b, j]] [a, i] (.var 23) (.var 49))), -- 368
    .aug 1 .add (.bin .mul (.var 47) (.ein2 [[j, a, b, i], [b, j]] [a, i] (.var 33) (.var 48))), -- 369
    .aug 0 .add (.bin .mul (.bin .mul (.var 47) (.lit 1 2)) (.ein2 [[a, j, b, c], [b, c, i, j]] [a, i] (.var 16) (.var 50))), -- 371
    .aug 0 .add (.bin .mul (.bin .mul (.bin .mul (.lit 2 1) (.var 47)) (.lit 1 2)) (.ein2 [[a, j, b, c], [b, c, i, j]] [a, i] (.var 38) (.var 51))), -- 372
    .aug 1 .add (.bin .mul (.bin .mul (.var 47) (.lit 1 2)) (.ein2 [[a, j, b, c], [b, c, i, j]] [a, i] (.var 24) (.var 52))), -- 373
    .aug 1 .add (.bin .mul (.bin .mul (.bin .mul (.lit 2 1) (.var 47)) (.lit 1 2)) (.ein2 [[j, a, c, b], [c, b, j, i]] [a, i] (.var 34) (.var 51))), -- 374
    .aug 0 .sub (.bin .mul (.bin .mul (.var 47) (.lit 1 2)) (.ein2 [[j, k, i, b], [a, b, j, k]] [a, i] (.var 12) (.var 50))), -- 376
    .aug 0 .sub (.bin .mul (.var 47) (.ein2 [[j, k, i, b], [a, b, j, k]] [a, i] (.var 28) (.var 51))), -- 377
    .aug 1 .sub (.bin .mul (.bin .mul (.var 47) (.lit 1 2)) (.ein2 [[j, k, i, b], [a, b, j, k]] [a, i] (.var 20) (.var 52))), -- 378
    .aug 1 .sub (.bin .mul (.var 47) (.ein2 [[k, j, b, i], [b, a, k, j]] [a, i] (.var 29) (.var 51))), -- 379
    .assign 62 (.copy (.var 50)), -- 381
    .aug 62 .add (.ein2 [[a, i], [b, j]] [a, b, i, j] (.var 48) (.var 48)), -- 382
    .aug 62 .sub (.ein2 [[b, i], [a, j]] [a, b, i, j] (.var 48) (.var 48)), -- 383
    .assign 63 (.copy (.var 52)), -- 384
    .aug 63 .add (.ein2 [[a, i], [b, j]] [a, b, i, j] (.var 49) (.var 49)), -- 385
    .aug 63 .sub (.ein2 [[b, i], [a, j]] [a, b, i, j] (.var 49) (.var 49)), -- 386
    .assign 64 (.copy (.var 51)), -- 387
    .aug 64 .add (.ein2 [[a, i], [b, j]] [a, b, i, j] (.var 48) (.var 49)), -- 388
    .assign 65 (.astype (.var 11) 2), -- 390
    .aug 65 .add (.ein2 [[k, l, i, c], [c, j]] [k, l, i, j] (.var 12) (.var 48)), -- 391
    .aug 65 .sub (.ein2 [[k, l, j, c], [c, i]] [k, l, i, j] (.var 12) (.var 48)), -- 392
    .aug 65 .add (.bin .mul (.lit 1 4) (.ein2 [[k, l, c, d], [c, d, i, j]] [k, l, i, j] (.var 13) (.var 62))), -- 393
    .assign 66 (.astype (.var 19) 4), -- 394
    .aug 66 .add (.ein2 [[k, l, i, c], [c, j]] [k, l, i, j] (.var 20) (.var 49)), -- 395
    .aug 66 .sub (.ein2 [[k, l, j, c], [c, i]] [k, l, i, j] (.var 20) (.var 49)), -- 396
    .aug 66 .add (.bin .mul (.lit 1 4) (.ein2 [[k, l, c, d], [c, d, i, j]] [k, l, i, j] (.var 21) (.var 63))), -- 397
    .assign 67 (.astype (.var 27) 3), -- 398
    .aug 67 .add (.ein2 [[k, l, i, c], [c, j]] [k, l, i, j] (.var 28) (.var 49)), -- 399
    .aug 67 .add (.ein2 [[k, l, c, j], [c, i]] [k, l, i, j] (.var 29) (.var 48)), -- 400
    .aug 67 .add (.bin .mul (.lit 1 2) (.ein2 [[k, l, c, d], [c, d, i, j]] [k, l, i, j] (.var 30) (.var 64))), -- 401
    .aug 2 .add (.bin .mul (.bin .mul (.var 47) (.lit 1 2)) (.ein2 [[k, l, i, j], [a, b, k, l]] [a, b, i, j] (.var 65) (.var 62))), -- 402
    .aug 4 .add (.bin .mul (.bin .mul (.var 47) (.lit 1 2)) (.ein2 [[k, l, i, j], [a, b, k, l]] [a, b, i, j] (.var 66) (.var 63))), -- 403
    .aug 3 .add (.bin .mul (.var 47) (.ein2 [[k, l, i, j], [a, b, k, l]] [a, b, i, j] (.var 67) (.var 64))), -- 404
    .del 65, -- 405
    .del 66, -- 406
    .del 67, -- 407
    .assign 68 (.astype (.var 18) 2), -- 409
    .aug 68 .sub (.ein2 [[a, k, c, d], [b, k]] [a, b, c, d] (.var 16) (.var 48)), -- 410
    .aug 68 .add (.ein2 [[b, k, c, d], [a, k]] [a, b, c, d] (.var 16) (.var 48)), -- 411
    .aug 68 .add (.bin .mul (.lit 1 4) (.ein2 [[k, l, c, d], [a, b, k, l]] [a, b, c, d] (.var 13) (.var 62))), -- 412
    .assign 69 (.astype (.var 26) 4), -- 413
    .aug 69 .sub (.ein2 [[a, k, c, d], [b, k]] [a, b, c, d] (.var 24) (.var 49)), -- 414
    .aug 69 .add (.ein2 [[b, k, c, d], [a, k]] [a, b, c, d] (.var 24) (.var 49)), -- 415
    .aug 69 .add (.bin .mul (.lit 1 4) (.ein2 [[k, l, c, d], [a, b, k, l]] [a, b, c, d] (.var 21) (.var 63))), -- 416
    .assign 70 (.astype (.var 41) 3), -- 417
    .aug 70 .sub (.ein2 [[a, k, c, d], [b, k]] [a, b, c, d] (.var 38) (.var 49)), -- 418
    .aug 70 .sub (.ein2 [[k, b, c, d], [a, k]] [a, b, c, d] (.var 34) (.var 48)), -- 419
    .aug 70 .add (.bin .mul (.lit 1 2) (.ein2 [[k, l, c, d], [a, b, k, l]] [a, b, c, d] (.var 30) (.var 64))), -- 420
    .aug 2 .add (.bin .mul (.bin .mul (.var 47) (.lit 1 2)) (.ein2 [[a, b, c, d], [c, d, i, j]] [a, b, i, j] (.var 68) (.var 62))), -- 421
    .aug 4 .add (.bin .mul (.bin .mul (.var 47) (.lit 1 2)) (.ein2 [[a, b, c, d], [c, d, i, j]] [a, b, i, j] (.var 69) (.var 63))), -- 422
    .aug 3 .add (.bin .mul (.var 47) (.ein2 [[a, b, c, d], [c, d, i, j]] [a, b, i, j] (.var 70) (.var 64))), -- 423
    .del 62, -- 424
    .del 64, -- 425
    .del 63, -- 426
    .del 68, -- 427
    .del 69, -- 428
    .del 70, -- 429
    .assign 71 (.ein3 [[b, k, c, j], [c, i], [a, k]] [a, b, i, j] (.var 15) (.var 48) (.var 48)), -- 431
    .assign 72 (.ein3 [[b, k, c, j], [c, i], [a, k]] [a, b, i, j] (.var 23) (.var 49) (.var 49)), -- 432
    .assign 73 (.neg (.ein3 [[k, b, c, j], [c, i], [a, k]] [a, b, i, j] (.var 33) (.var 48) (.var 48))), -- 433
    .aug 73 .add (.neg (.ein3 [[a, k, c, j], [c, i], [b, k]] [a, b, i, j] (.var 37) (.var 48) (.var 49))), -- 434
    .aug 73 .add (.neg (.ein3 [[k, b, i, c], [c, j], [a, k]] [a, b, i, j] (.var 32) (.var 49) (.var 48))), -- 435
    .aug 73 .add (.neg (.ein3 [[a, k, i, c], [c, j], [b, k]] [a, b, i, j] (.var 36) (.var 49) (.var 49))), -- 436
    .assign 71 (.bin .sub (.bin .sub (.bin .add (.var 71) (.transp [1, 0, 3, 2] (.var 71))) (.transp [1, 0, 2, 3] (.var 71))) (.transp [0, 1, 3, 2] (.var 71))), -- 437
    .assign 72 (.bin .sub (.bin .sub (.bin .add (.var 72) (.transp [1, 0, 3, 2] (.var 72))) (.transp [1, 0, 2, 3] (.var 72))) (.transp [0, 1, 3, 2] (.var 72))), -- 440
    .aug 2 .add (.bin .mul (.var 47) (.var 71)), -- 443
    .aug 4 .add (.bin .mul (.var 47) (.var 72)), -- 444
    .aug 3 .add (.bin .mul (.var 47) (.var 73)), -- 445
    .del 71, -- 446
    .del 73, -- 447
    .del 72, -- 448
    .assign 74 (.bin .add (.bin .mul (.lit 1 2) (.var 50)) (.ein2 [[d, j], [b, l]] [d, b, j, l] (.var 48) (.var 48))), -- 450
    .assign 75 (.bin .add (.bin .mul (.lit 1 2) (.var 52)) (.ein2 [[d, j], [b, l]] [d, b, j, l] (.var 49) (.var 49))), -- 451
    .assign 76 (.bin .add (.bin .mul (.lit 1 2) (.var 51)) (.ein2 [[d, j], [b, l]] [d, b, j, l] (.var 48) (.var 49))), -- 452
    .assign 77 (.neg (.astype (.transp [1, 0, 2, 3] (.var 15)) 2)), -- 454
    .aug 77 .sub (.ein2 [[b, k, c, d], [d, j]] [k, b, c, j] (.var 16) (.var 48)), -- 455
    .aug 77 .add (.ein2 [[k, l, j, c], [b, l]] [k, b, c, j] (.var 12) (.var 48)), -- 456
    .aug 77 .sub (.ein2 [[k, l, c, d], [d, b, j, l]] [k, b, c, j] (.var 13) (.var 74)), -- 457
    .aug 77 .add (.bin .mul (.lit 1 2) (.ein2 [[k, l, c, d], [b, d, j, l]] [k, b, c, j] (.var 30) (.var 51))), -- 458
    .assign 78 (.neg (.astype (.transp [1, 0, 2, 3] (.var 23)) 4)), -- 460
    .aug 78 .sub (.ein2 [[b, k, c, d], [d, j]] [k, b, c, j] (.var 24) (.var 49)), -- 461
    .aug 78 .add (.ein2 [[k, l, j, c], [b, l]] [k, b, c, j] (.var 20) (.var 49)), -- 462
    .aug 78 .sub (.ein2 [[k, l, c, d], [d, b, j, l]] [k, b, c, j] (.var 21) (.var 75)), -- 463
    .aug 78 .add (.bin .mul (.lit 1 2) (.ein2 [[l, k, d, c], [d, b, l, j]] [k, b, c, j] (.var 30) (.var 51))), -- 464
    .assign 79 (.astype (.var 33) 3), -- 466
    .aug 79 .add (.ein2 [[k, b, c, d], [d, j]] [k, b, c, j] (.var 34) (.var 49)), -- 467
    .aug 79 .sub (.ein2 [[k, l, c, j], [b, l]] [k, b, c, j] (.var 29) (.var 49)), -- 468
    .aug 79 .sub (.ein2 [[k, l, c, d], [d, b, j, l]] [k, b, c, j] (.var 30) (.var 75)), -- 469
    .aug 79 .add (.bin .mul (.lit 1 2) (.ein2 [[k, l, c, d], [d, b, l, j]] [k, b, c, j] (.var 13) (.var 51))), -- 470
    .assign 80 (.astype (.transp [1, 0, 3, 2] (.var 36)) 3), -- 472
    .aug 80 .add (.ein2 [[b, k, d, c], [d, j]] [k, b, c, j] (.var 38) (.var 48)), -- 473
    .aug 80 .sub (.ein2 [[l, k, j, c], [b, l]] [k, b, c, j] (.var 28) (.var 48)), -- 474
    .aug 80 .sub (.ein2 [[l, k, d, c], [d, b, j, l]] [k, b, c, j] (.var 30) (.var 74)), -- 475
    .aug 80 .add (.bin .mul (.lit 1 2) (.ein2 [[k, l, c, d], [b, d, j, l]] [k, b, c, j] (.var 21) (.var 51))), -- 476
    .assign 81 (.neg (.astype (.transp [0, 1, 3, 2] (.var 32)) 3)), -- 478
    .aug 81 .sub (.ein2 [[k, b, d, c], [d, j]] [k, b, c, j] (.var 34) (.var 48)), -- 479
    .aug 81 .add (.ein2 [[k, l, j, c], [b, l]] [k, b, c, j] (.var 28) (.var 49)), -- 480
    .aug 81 .add (.ein2 [[k, l, d, c], [d, b, j, l]] [k, b, c, j] (.var 30) (.var 76)), -- 481
    .assign 82 (.neg (.astype (.transp [1, 0, 2, 3] (.var 37)) 3)), -- 483
    .aug 82 .sub (.ein2 [[b, k, c, d], [d, j]] [k, b, c, j] (.var 38) (.var 49)), -- 484
    .aug 82 .add (.ein2 [[l, k, c, j], [b, l]] [k, b, c, j] (.var 29) (.var 48)), -- 485
    .aug 82 .add (.ein2 [[l, k, c, d], [b, d, l, j]] [k, b, c, j] (.var 30) (.var 76)), -- 486
    .assign 83 (.ein2 [[k, b, c, j], [a, c, i, k]] [a, b, i, j] (.var 77) (.var 50)), -- 488
    .aug 83 .add (.ein2 [[k, b, c, j], [a, c, i, k]] [a, b, i, j] (.var 80) (.var 51)), -- 489
    .assign 84 (.ein2 [[k, b, c, j], [a, c, i, k]] [a, b, i, j] (.var 78) (.var 52)), -- 490
    .aug 84 .add (.ein2 [[k, b, c, j], [c, a, k, i]] [a, b, i, j] (.var 79) (.var 51)), -- 491
    .assign 83 (.bin .add (.bin .sub (.bin .sub (.var 83) (.transp [0, 1, 3, 2] (.var 83))) (.transp [1, 0, 2, 3] (.var 83))) (.transp [1, 0, 3, 2] (.var 83))), -- 492
    .assign 84 (.bin .add (.bin .sub (.bin .sub (.var 84) (.transp [0, 1, 3, 2] (.var 84))) (.transp [1, 0, 2, 3] (.var 84))) (.transp [1, 0, 3, 2] (.var 84))), -- 495
    .assign 85 (.ein2 [[k, b, c, j], [a, c, i, k]] [a, b, i, j] (.var 79) (.var 50)), -- 499
    .aug 85 .add (.ein2 [[k, b, c, j], [a, c, i, k]] [a, b, i, j] (.var 78) (.var 51)), -- 500
    .aug 85 .add (.ein2 [[k, a, c, j], [c, b, i, k]] [a, b, i, j] (.var 82) (.var 51)), -- 501
    .aug 85 .add (.ein2 [[k, b, c, i], [a, c, k, j]] [a, b, i, j] (.var 81) (.var 51)), -- 502
    .aug 85 .add (.ein2 [[k, a, c, i], [c, b, k, j]] [a, b, i, j] (.var 77) (.var 51)), -- 503
    .aug 85 .add (.ein2 [[k, a, c, i], [c, b, k, j]] [a, b, i, j] (.var 80) (.var 52)), -- 504
    .aug 2 .add (.bin .mul (.var 47) (.var 83)), -- 505
    .aug 3 .add (.bin .mul (.var 47) (.var 85)), -- 506
    .aug 4 .add (.bin .mul (.var 47) (.var 84)), -- 507
    .del 77, -- 509
    .del 78, -- 510
    .del 79, -- 511
    .del 80, -- 512
    .del 81, -- 513
    .del 82, -- 514
    .aug 56 .sub (.bin .mul (.lit 1 2) (.ein2 [[j, b], [a, j]] [a, b] (.var 60) (.var 48))), -- 516
    .aug 57 .sub (.bin .mul (.lit 1 2) (.ein2 [[j, b], [a, j]] [a, b] (.var 61) (.var 49))), -- 517
    .assign 83 (.ein2 [[b, c], [a, c, i, j]] [a, b, i, j] (.var 56) (.var 50)), -- 518
    .aug 83 .add (.ein2 [[b, k, i, j], [a, k]] [a, b, i, j] (.var 14) (.var 48)), -- 519
    .aug 83 .sub (.transp [1, 0, 2, 3] (.var 83)), -- 520
    .assign 84 (.ein2 [[b, c], [a, c, i, j]] [a, b, i, j] (.var 57) (.var 52)), -- 521
    .aug 84 .add (.ein2 [[b, k, i, j], [a, k]] [a, b, i, j] (.var 22) (.var 49)), -- 522
    .aug 84 .sub (.transp [1, 0, 2, 3] (.var 84)), -- 523
    .assign 85 (.ein2 [[b, c], [a, c, i, j]] [a, b, i, j] (.var 57) (.var 51)), -- 524
    .aug 85 .add (.ein2 [[a, c], [c, b, i, j]] [a, b, i, j] (.var 56) (.var 51)), -- 525
    .aug 85 .sub (.ein2 [[k, b, i, j], [a, k]] [a, b, i, j] (.var 31) (.var 48)), -- 526
    .aug 85 .sub (.ein2 [[a, k, i, j], [b, k]] [a, b, i, j] (.var 35) (.var 49)), -- 527
    .aug 2 .add (.bin .mul (.var 47) (.var 83)), -- 528
    .aug 3 .add (.bin .mul (.var 47) (.var 85)), -- 529
    .aug 4 .add (.bin .mul (.var 47) (.var 84)), -- 530
    .aug 58 .add (.bin .mul (.lit 1 2) (.ein2 [[j, b], [b, i]] [j, i] (.var 60) (.var 48))), -- 532
    .aug 59 .add (.bin .mul (.lit 1 2) (.ein2 [[j, b], [b, i]] [j, i] (.var 61) (.var 49))), -- 533
    .assign 83 (.ein2 [[k, j], [a, b, i, k]] [a, b, i, j] (.var 58) (.var 50)), -- 534
    .aug 83 .sub (.ein2 [[a, b, c, j], [c, i]] [a, b, i, j] (.var 17) (.var 48)), -- 535
    .aug 83 .sub (.transp [0, 1, 3, 2] (.var 83)), -- 536
    .assign 84 (.ein2 [[k, j], [a, b, i, k]] [a, b, i, j] (.var 59) (.var 52)), -- 537
    .aug 84 .sub (.ein2 [[a, b, c, j], [c, i]] [a, b, i, j] (.var 25) (.var 49)), -- 538
    .aug 84 .sub (.transp [0, 1, 3, 2] (.var 84)), -- 539
    .assign 85 (.ein2 [[k, j], [a, b, i, k]] [a, b, i, j] (.var 59) (.var 51)), -- 540
    .aug 85 .add (.ein2 [[k, i], [a, b, k, j]] [a, b, i, j] (.var 58) (.var 51)), -- 541
    .aug 85 .sub (.ein2 [[a, b, c, j], [c, i]] [a, b, i, j] (.var 40) (.var 48)), -- 542
    .aug 85 .sub (.ein2 [[a, b, i, c], [c, j]] [a, b, i, j] (.var 39) (.var 49)), -- 543
    .aug 2 .sub (.bin .mul (.var 47) (.var 83)), -- 544
    .aug 3 .sub (.bin .mul (.var 47) (.var 85)), -- 545
    .aug 4 .sub (.bin .mul (.var 47) (.var 84)) -- 546
    ]
  ret := []

/-- cqcpy/cc_equations.py:549-652 (`_r_Stanton`).  Names: 0 T1, 1 T2, 2 F.oo, 3 F.ov, 4 F.vv, 5 I.oooo, 6 I.ooov, 7 I.oovo, 8 I.oovv, 9 I.ovoo, 10 I.ovov, 11 I.ovvo, 12 I.ovvv, 13 I.vovo, 14 I.vovv, 15 I.vvvo, 16 I.vvvv, 17 T1old, 18 T2old, 19 fac, 20 Fov, 21 Fvv, 22 Iovvv, 23 Foo, 24 Ioovo, 25 T2temp, 26 Ioovv, 27 tau2, 28 Iovvo, 29 Ivovv, 30 Iooov, 31 Wo, 32 tmp, 33 Wv, 34 temp, 35 TTT1, 36 TTT2, 37 W1, 38 W2, 39 W3, 40 AT. -/
def r_Stanton_proc : Fun where
  params := [0, 1, 2, 3, 4, 5, 6, 7, 8, 9, 10, 11, 12, 13, 14, 15, 16, 17, 18, 19]
  body := .block [
    .assign 20 (.astype (.var 3) 0), -- 551
    .assign 21 (.astype (.var 4) 0), -- 552
    .aug 21 .sub (.bin .mul (.lit 1 2) (.ein2 [[j, b], [a, j]] [a, b] (.var 3) (.var 17))), -- 553
    .assign 22 (.bin .sub (.bin .mul (.lit 2 1) (.var 12)) (.transp [1, 0, 2, 3] (.var 14))), -- 554
    .aug 21 .add (.ein2 [[j, a, c, b], [c, j]] [a, b] (.var 22) (.var 17)), -- 555
    .del 22, -- 556
    .assign 23 (.astype (.var 2) 0), -- 558
    .aug 23 .add (.bin .mul (.lit 1 2) (.ein2 [[j, b], [b, i]] [j, i] (.var 3) (.var 17))), -- 559
    .assign 24 (.bin .sub (.bin .mul (.lit 2 1) (.var 7)) (.transp [1, 0, 2, 3] (.var 7))), -- 560
    .aug 23 .add (.ein2 [[k, j, b, i], [b, k]] [j, i] (.var 24) (.var 17)), -- 561
    .del 24, -- 562
    .assign 25 (.bin .sub (.bin .mul (.lit 2 1) (.var 18)) (.transp [0, 1, 3, 2] (.var 18))), -- 564
    .assign 26 (.bin .sub (.bin .mul (.lit 2 1) (.var 8)) (.transp [1, 0, 2, 3] (.var 8))), -- 565
    .assign 27 (.bin .add (.var 18) (.bin .mul (.lit 1 2) (.ein2 [[a, i], [b, j]] [a, b, i, j] (.var 17) (.var 17)))), -- 566
    .aug 21 .sub (.ein2 [[j, k, b, c], [a, c, j, k]] [a, b] (.var 26) (.var 27)), -- 567
    .aug 23 .add (.ein2 [[j, k, b, c], [b, c, i, k]] [j, i] (.var 26) (.var 27)), -- 568
    .aug 20 .add (.ein2 [[k, j, c, b], [c, k]] [j, b] (.var 26) (.var 17)), -- 569
    .del 26, -- 570
    .aug 0 .add (.bin .mul (.var 19) (.ein2 [[j, b], [a, b, i, j]] [a, i] (.var 20) (.var 25))), -- 571
    .aug 0 .add (.bin .mul (.var 19) (.ein2 [[a, b], [b, i]] [a, i] (.var 21) (.var 17))), -- 572
    .aug 0 .sub (.bin .mul (.var 19) (.ein2 [[j, i], [a, j]] [a, i] (.var 23) (.var 17))), -- 573
    .del 25, -- 574
    .assign 28 (.bin .sub (.bin .mul (.lit 2 1) (.var 11)) (.transp [0, 1, 3, 2] (.var 10))), -- 576
    .aug 0 .add (.bin .mul (.var 19) (.ein2 [[j, a, b, i], [b, j]] [a, i] (.var 28) (.var 17))), -- 577
    .del 28, -- 578
    .assign 29 (.bin .sub (.bin .mul (.lit 2 1) (.var 14)) (.transp [0, 1, 3, 2] (.var 14))), -- 579
    .aug 0 .add (.bin .mul (.var 19) (.ein2 [[a, j, b, c], [b, c, i, j]] [a, i] (.var 29) (.var 18))), -- 580
    .del 29, -- 581
    .assign 30 (.bin .sub (.bin .mul (.lit 2 1) (.var 6)) (.transp [0, 1, 3, 2] (.var 7))), -- 582
    .aug 0 .sub (.bin .mul (.var 19) (.ein2 [[j, k, i, b], [a, b, j, k]] [a, i] (.var 30) (.var 18))), -- 583
    .del 30, -- 584
    .assign 27 (.bin .add (.var 18) (.ein2 [[a, i], [b, j]] [a, b, i, j] (.var 17) (.var 17))), -- 587
    .assign 31 (.astype (.var 5) 1), -- 588
    .assign 32 (.ein2 [[k, l, i, c], [c, j]] [k, l, i, j] (.var 6) (.var 17)), -- 589
    .aug 31 .add (.bin .add (.var 32) (.transp [1, 0, 3, 2] (.var 32))), -- 590
    .aug 31 .add (.bin .mul (.lit 1 2) (.ein2 [[k, l, c, d], [c, d, i, j]] [k, l, i, j] (.var 8) (.var 27))), -- 591
    .aug 1 .add (.bin .mul (.var 19) (.ein2 [[k, l, i, j], [a, b, k, l]] [a, b, i, j] (.var 31) (.var 27))), -- 592
    .del 31, -- 593
    .assign 33 (.astype (.var 16) 1), -- 595
    .assign 32 (.ein2 [[a, k, c, d], [b, k]] [a, b, c, d] (.var 14) (.var 17)), -- 596
    .aug 33 .sub (.bin .add (.var 32) (.transp [1, 0, 3, 2] (.var 32))), -- 597
    .aug 33 .add (.bin .mul (.lit 1 2) (.ein2 [[k, l, c, d], [a, b, k, l]] [a, b, c, d] (.var 8) (.var 27))), -- 598
    .aug 1 .add (.bin .mul (.var 19) (.ein2 [[a, b, c, d], [c, d, i, j]] [a, b, i, j] (.var 33) (.var 27))), -- 599
    .del 33, -- 600
    .assign 34 (.neg (.ein3 [[k, b, c, j], [c, i], [a, k]] [a, b, i, j] (.var 11) (.var 17) (.var 17))), -- 602
    .aug 34 .add (.transp [1, 0, 3, 2] (.var 34)), -- 603
    .aug 1 .add (.bin .mul (.var 19) (.var 34)), -- 604
    .assign 34 (.neg (.ein3 [[a, k, c, j], [c, i], [b, k]] [a, b, i, j] (.var 13) (.var 17) (.var 17))), -- 605
    .aug 34 .add (.transp [1, 0, 3, 2] (.var 34)), -- 606
    .aug 1 .add (.bin .mul (.var 19) (.var 34)), -- 607
    .del 34, -- 608
    .assign 35 (.bin .mul (.lit 1 2) (.bin .sub (.var 18) (.transp [0, 1, 3, 2] (.var 18)))), -- 610
    .aug 35 .add (.ein2 [[d, j], [b, l]] [d, b, j, l] (.var 17) (.var 17)), -- 611
    .assign 36 (.bin .add (.bin .mul (.lit 1 2) (.var 18)) (.ein2 [[d, j], [b, l]] [d, b, j, l] (.var 17) (.var 17))), -- 612
    .assign 37 (.bin .sub (.var 11) (.transp [0, 1, 3, 2] (.var 10))), -- 613
    .aug 37 .sub (.ein2 [[b, k, c, d], [d, j]] [k, b, c, j] (.bin .sub (.var 14) (.transp [0, 1, 3, 2] (.var 14))) (.var 17)), -- 614
    .aug 37 .add (.ein2 [[k, l, j, c], [b, l]] [k, b, c, j] (.bin .sub (.var 6) (.transp [0, 1, 3, 2] (.var 7))) (.var 17)), -- 616
    .aug 37 .sub (.ein2 [[k, l, c, d], [d, b, j, l]] [k, b, c, j] (.bin .sub (.var 8) (.transp [0, 1, 3, 2] (.var 8))) (.var 35)), -- 618
    .aug 37 .add (.bin .mul (.lit 1 2) (.ein2 [[k, l, c, d], [b, d, j, l]] [k, b, c, j] (.var 8) (.var 18))), -- 620
    .assign 38 (.astype (.var 11) 1), -- 622
    .aug 38 .add (.ein2 [[k, b, c, d], [d, j]] [k, b, c, j] (.var 12) (.var 17)), -- 623
    .aug 38 .sub (.ein2 [[k, l, c, j], [b, l]] [k, b, c, j] (.var 7) (.var 17)), -- 624
    .aug 38 .sub (.ein2 [[k, l, c, d], [d, b, j, l]] [k, b, c, j] (.var 8) (.var 35)), -- 625
    .aug 38 .add (.bin .mul (.lit 1 2) (.ein2 [[k, l, c, d], [d, b, l, j]] [k, b, c, j] (.bin .sub (.var 8) (.transp [0, 1, 3, 2] (.var 8))) (.var 18))), -- 626
    .del 35, -- 628
    .assign 39 (.neg (.astype (.transp [0, 1, 3, 2] (.var 10)) 1)), -- 630
    .aug 39 .sub (.ein2 [[k, b, d, c], [d, j]] [k, b, c, j] (.var 12) (.var 17)), -- 631
    .aug 39 .add (.ein2 [[k, l, j, c], [b, l]] [k, b, c, j] (.var 6) (.var 17)), -- 632
    .aug 39 .add (.ein2 [[k, l, d, c], [d, b, j, l]] [k, b, c, j] (.var 8) (.var 36)), -- 633
    .del 36, -- 634
    .assign 40 (.ein2 [[k, b, c, j], [a, c, i, k]] [a, b, i, j] (.var 38) (.bin .sub (.var 18) (.transp [0, 1, 3, 2] (.var 18)))), -- 636
    .aug 40 .add (.ein2 [[k, b, c, j], [a, c, i, k]] [a, b, i, j] (.var 37) (.var 18)), -- 637
    .aug 40 .add (.ein2 [[k, a, c, j], [c, b, i, k]] [a, b, i, j] (.var 39) (.var 18)), -- 638
    .del 37, -- 639
    .del 38, -- 640
    .del 39, -- 641
    .aug 1 .add (.bin .mul (.var 19) (.bin .add (.var 40) (.transp [1, 0, 3, 2] (.var 40)))), -- 642
    .aug 21 .sub (.bin .mul (.lit 1 2) (.ein2 [[j, b], [a, j]] [a, b] (.var 20) (.var 17))), -- 644
    .assign 40 (.ein2 [[b, c], [a, c, i, j]] [a, b, i, j] (.var 21) (.var 18)), -- 645
    .aug 40 .sub (.ein2 [[k, b, i, j], [a, k]] [a, b, i, j] (.var 9) (.var 17)), -- 646
    .aug 1 .add (.bin .mul (.var 19) (.bin .add (.var 40) (.transp [1, 0, 3, 2] (.var 40)))), -- 647
    .aug 23 .add (.bin .mul (.lit 1 2) (.ein2 [[j, b], [b, i]] [j, i] (.var 20) (.var 17))), -- 649
    .assign 40 (.ein2 [[k, j], [a, b, i, k]] [a, b, i, j] (.var 23) (.var 18)), -- 650
    .aug 40 .sub (.ein2 [[a, b, c, j], [c, i]] [a, b, i, j] (.var 15) (.var 17)), -- 651
    .aug 1 .sub (.bin .mul (.var 19) (.bin .add (.var 40) (.transp [1, 0, 3, 2] (.var 40)))) -- 652
    ]
  ret := []

/-- cqcpy/cc_equations.py:655-661 (`lccd_simple`).  Names: 0 F.oo, 1 F.vv, 2 I.oooo, 3 I.vovo, 4 I.vvoo, 5 I.vvvv, 6 T2old, 7 T2. -/
def lccd_simple : Fun where
  params := [0, 1, 2, 3, 4, 5, 6]
  body := .block [
    .assign 7 (.copy (.var 4)), -- 657
    .callFun D_D_proc [.var 7, .var 0, .var 1, .var 2, .var 3, .var 5, .var 6, .lit 1 1] [] -- 659
    ]
  ret := [.var 7]

/-- cqcpy/cc_equations.py:664-676 (`lccsd_simple`).  Names: 0 F.oo, 1 F.ov, 2 F.vo, 3 F.vv, 4 I.oooo, 5 I.ooov, 6 I.vooo, 7 I.vovo, 8 I.vovv, 9 I.vvoo, 10 I.vvvo, 11 I.vvvv, 12 T1old, 13 T2old, 14 T1, 15 T2. -/
def lccsd_simple : Fun where
  params := [0, 1, 2, 3, 4, 5, 6, 7, 8, 9, 10, 11, 12, 13]
  body := .block [
    .assign 14 (.copy (.var 2)), -- 666
    .callFun S_S_proc [.var 14, .var 0, .var 3, .var 7, .var 12, .lit 1 1] [], -- 668
    .callFun S_D_proc [.var 14, .var 1, .var 5, .var 8, .var 13, .lit 1 1] [], -- 669
    .assign 15 (.copy (.var 9)), -- 671
    .callFun D_S_proc [.var 15, .var 6, .var 10, .var 12, .lit 1 1] [], -- 673
    .callFun D_D_proc [.var 15, .var 0, .var 3, .var 4, .var 7, .var 11, .var 13, .lit 1 1] [] -- 674
    ]
  ret := [.var 14, .var 15]

/-- cqcpy/cc_equations.py:679-686 (`ccd_simple`).  Names: 0 F.oo, 1 F.vv, 2 I.oooo, 3 I.oovv, 4 I.vovo, 5 I.vvoo, 6 I.vvvv, 7 T2old, 8 T2. -/
def ccd_simple : Fun where
  params := [0, 1, 2, 3, 4, 5, 6, 7]
  body := .block [
    .assign 8 (.copy (.var 5)), -- 681
    .callFun D_D_proc [.var 8, .var 0, .var 1, .var 2, .var 4, .var 6, .var 7, .lit 1 1] [], -- 683
    .callFun D_DD_proc [.var 8, .var 3, .var 7, .lit 1 1] [] -- 684
    ]
  ret := [.var 8]

/-- cqcpy/cc_equations.py:689-696 (`ccd_ladder_simple`).  Names: 0 I.oooo, 1 I.oovv, 2 I.vvoo, 3 I.vvvv, 4 T2old, 5 T2. -/
def ccd_ladder_simple : Fun where
  params := [0, 1, 2, 3, 4]
  body := .block [
    .assign 5 (.copy (.var 2)), -- 691
    .callFun D_D_ladder_proc [.var 5, .var 0, .var 3, .var 4, .lit 1 1] [], -- 693
    .callFun D_DD_ladder_proc [.var 5, .var 1, .var 4, .lit 1 1] [] -- 694
    ]
  ret := [.var 5]

/-- cqcpy/cc_equations.py:699-706 (`ccd_ring_simple`).  Names: 0 I.oovv, 1 I.vovo, 2 I.vvoo, 3 T2old, 4 T2. -/
def ccd_ring_simple : Fun where
  params := [0, 1, 2, 3]
  body := .block [
    .assign 4 (.copy (.var 2)), -- 701
    .callFun D_D_ring_proc [.var 4, .var 1, .var 3, .lit 1 1] [], -- 703
    .callFun D_DD_ring_proc [.var 4, .var 0, .var 3, .lit 1 1] [] -- 704
    ]
  ret := [.var 4]

/-- cqcpy/cc_equations.py:709-730 (`ccsd_simple`).  Names: 0 F.oo, 1 F.ov, 2 F.vo, 3 F.vv, 4 I.oooo, 5 I.ooov, 6 I.oovv, 7 I.vooo, 8 I.vovo, 9 I.vovv, 10 I.vvoo, 11 I.vvvo, 12 I.vvvv, 13 T1old, 14 T2old, 15 T1, 16 T2. -/
def ccsd_simple : Fun where
  params := [0, 1, 2, 3, 4, 5, 6, 7, 8, 9, 10, 11, 12, 13, 14]
  body := .block [
    .assign 15 (.copy (.var 2)), -- 711
    .callFun S_S_proc [.var 15, .var 0, .var 3, .var 8, .var 13, .lit 1 1] [], -- 713
    .callFun S_D_proc [.var 15, .var 1, .var 5, .var 9, .var 14, .lit 1 1] [], -- 714
    .callFun S_SS_proc [.var 15, .var 1, .var 5, .var 9, .var 13, .lit 1 1] [], -- 715
    .callFun S_SD_proc [.var 15, .var 6, .var 13, .var 14, .lit 1 1] [], -- 716
    .callFun S_SSS_proc [.var 15, .var 6, .var 13, .lit 1 1] [], -- 717
    .assign 16 (.copy (.var 10)), -- 719
    .callFun D_S_proc [.var 16, .var 7, .var 11, .var 13, .lit 1 1] [], -- 721
    .callFun D_D_proc [.var 16, .var 0, .var 3, .var 4, .var 8, .var 12, .var 14, .lit 1 1] [], -- 722
    .callFun D_SS_proc [.var 16, .var 4, .var 8, .var 12, .var 13, .lit 1 1] [], -- 723
    .callFun D_SD_proc [.var 16, .var 1, .var 5, .var 9, .var 13, .var 14, .lit 1 1] [], -- 724
    .callFun D_DD_proc [.var 16, .var 6, .var 14, .lit 1 1] [], -- 725
    .callFun D_SSS_proc [.var 16, .var 5, .var 9, .var 13, .lit 1 1] [], -- 726
    .callFun D_SSD_proc [.var 16, .var 6, .var 13, .var 14, .lit 1 1] [], -- 727
    .callFun D_SSSS_proc [.var 16, .var 6, .var 13, .lit 1 1] [] -- 728
    ]
  ret := [.var 15, .var 16]

/-- cqcpy/cc_equations.py:733-742 (`ccsd_stanton`).  Names: 0 F.oo, 1 F.ov, 2 F.vo, 3 F.vv, 4 I.oooo, 5 I.ooov, 6 I.oovv, 7 I.vooo, 8 I.vovo, 9 I.vovv, 10 I.vvoo, 11 I.vvvo, 12 I.vvvv, 13 T1old, 14 T2old, 15 T1, 16 T2. -/
def ccsd_stanton : Fun where
  params := [0, 1, 2, 3, 4, 5, 6, 7, 8, 9, 10, 11, 12, 13, 14]
  body := .block [
    .assign 15 (.copy (.var 2)), -- 737
    .assign 16 (.copy (.var 10)), -- 738
    .callFun Stanton_proc [.var 15, .var 16, .var 0, .var 1, .var 3, .var 4, .var 5, .var 6, .var 7, .var 8, .var 9, .var 11, .var 12, .var 13, .var 14, .lit 1 1] [] -- 740
    ]
  ret := [.var 15, .var 16]

/-- cqcpy/cc_equations.py:745-755 (`uccsd_stanton`).  Names: 0 Faa.oo, 1 Faa.ov, 2 Faa.vo, 3 Faa.vv, 4 Fbb.oo, 5 Fbb.ov, 6 Fbb.vo, 7 Fbb.vv, 8 Ia.oooo, 9 Ia.ooov, 10 Ia.oovv, 11 Ia.vooo, 12 Ia.vovo, 13 Ia.vovv, 14 Ia.vvoo, 15 Ia.vvvo, 16 Ia.vvvv, 17 Ib.oooo, 18 Ib.ooov, 19 Ib.oovv, 20 Ib.vooo, 21 Ib.vovo, 22 Ib.vovv, 23 Ib.vvoo, 24 Ib.vvvo, 25 Ib.vvvv, 26 I_abab.oooo, 27 I_abab.ooov, 28 I_abab.oovo, 29 I_abab.oovv, 30 I_abab.ovoo, 31 I_abab.ovov, 32 I_abab.ovvo, 33 I_abab.ovvv, 34 I_abab.vooo, 35 I_abab.voov, 36 I_abab.vovo, 37 I_abab.vovv, 38 I_abab.vvoo, 39 I_abab.vvov, 40 I_abab.vvvo, 41 I_abab.vvvv, 42 T1old.0, 43 T1old.1, 44 T2old.0, 45 T2old.1, 46 T2old.2, 47 T1a, 48 T1b, 49 T2aa, 50 T2ab, 51 T2bb. -/
def uccsd_stanton : Fun where
  params := [0, 1, 2, 3, 4, 5, 6, 7, 8, 9, 10, 11, 12, 13, 14, 15, 16, 17, 18, 19, 20, 21, 22, 23, 24, 25, 26, 27, 28, 29, 30, 31, 32, 33, 34, 35, 36, 37, 38, 39, 40, 41, 42, 43, 44, 45, 46]
  body := .block [
    .assign 47 (.copy (.var 2)), -- 746
    .assign 48 (.copy (.var 6)), -- 747
    .assign 49 (.copy (.var 14)), -- 748
    .assign 50 (.copy (.var 38)), -- 749
    .assign 51 (.copy (.var 23)), -- 750
    .callFun u_Stanton_proc [.var 47, .var 48, .var 49, .var 50, .var 51, .var 0, .var 1, .var 3, .var 4, .var 5, .var 7, .var 8, .var 9, .var 10, .var 11, .var 12, .var 13, .var 15, .var 16, .var 17, .var 18, .var 19, .var 20, .var 21, .var 22, .var 24, .var 25, .var 26, .var 27, .var 28, .var 29, .var 30, .var 31, .var 32, .var 33, .var 34, .var 35, .var 36, .var 37, .var 39, .var 40, .var 41, .var 42, .var 43, .var 44, .var 45, .var 46, .lit 1 1] [] -- 752
    ]
  ret := [.var 47, .var 48, .var 49, .var 50, .var 51]

/-- cqcpy/cc_equations.py:758-764 (`rccsd_stanton`).  Names: 0 F.oo, 1 F.ov, 2 F.vo, 3 F.vv, 4 I.oooo, 5 I.ooov, 6 I.oovo, 7 I.oovv, 8 I.ovoo, 9 I.ovov, 10 I.ovvo, 11 I.ovvv, 12 I.vovo, 13 I.vovv, 14 I.vvoo, 15 I.vvvo, 16 I.vvvv, 17 T1old, 18 T2old, 19 T1, 20 T2. -/
def rccsd_stanton : Fun where
  params := [0, 1, 2, 3, 4, 5, 6, 7, 8, 9, 10, 11, 12, 13, 14, 15, 16, 17, 18]
  body := .block [
    .assign 19 (.copy (.var 2)), -- 759
    .assign 20 (.copy (.var 14)), -- 760
    .callFun r_Stanton_proc [.var 19, .var 20, .var 0, .var 1, .var 3, .var 4, .var 5, .var 6, .var 7, .var 8, .var 9, .var 10, .var 11, .var 12, .var 13, .var 15, .var 16, .var 17, .var 18, .lit 1 1] [] -- 762
    ]
  ret := [.var 19, .var 20]

/-- cqcpy/cc_equations.py:767-775 (`ccd_stanton`).  Names: 0 F.oo, 1 F.vv, 2 I.oooo, 3 I.oovv, 4 I.vovo, 5 I.vvoo, 6 I.vvvv, 7 T2old, 8 T2. -/
def ccd_stanton : Fun where
  params := [0, 1, 2, 3, 4, 5, 6, 7]
  body := .block [
    .assign 8 (.copy (.var 5)), -- 771
    .callFun Stanton_ccd_proc [.var 8, .var 0, .var 1, .var 2, .var 3, .var 4, .var 6, .var 7, .lit 1 1] [] -- 773
    ]
  ret := [.var 8]

/-- cqcpy/cc_equations.py:778-779 (`_LS_TS`).  Names: 0 L1, 1 I.oovv, 2 T1old, 3 fac. -/
def LS_TS_proc : Fun where
  params := [0, 1, 2, 3]
  body := .block [
    .aug 0 .add (.bin .mul (.var 3) (.ein2 [[j, i, b, a], [b, j]] [i, a] (.var 1) (.var 2))) -- 779
    ]
  ret := []

/-- cqcpy/cc_equations.py:782-786 (`_u_LS_TS`).  Names: 0 L1a, 1 L1b, 2 Ia.oovv, 3 Ib.oovv, 4 Iabab.oovv, 5 T1aold, 6 T1bold, 7 fac. -/
def u_LS_TS_proc : Fun where
  params := [0, 1, 2, 3, 4, 5, 6, 7]
  body := .block [
    .aug 0 .add (.bin .mul (.var 7) (.ein2 [[j, i, b, a], [b, j]] [i, a] (.var 2) (.var 5))), -- 783
    .aug 0 .add (.bin .mul (.var 7) (.ein2 [[i, j, a, b], [b, j]] [i, a] (.var 4) (.var 6))), -- 784
    .aug 1 .add (.bin .mul (.var 7) (.ein2 [[j, i, b, a], [b, j]] [i, a] (.var 3) (.var 6))), -- 785
    .aug 1 .add (.bin .mul (.var 7) (.ein2 [[j, i, b, a], [b, j]] [i, a] (.var 4) (.var 5))) -- 786
    ]
  ret := []

/-- cqcpy/cc_equations.py:789-792 (`_r_LS_TS`).  Names: 0 L1, 1 I.oovv, 2 T1old, 3 fac. -/
def r_LS_TS_proc : Fun where
  params := [0, 1, 2, 3]
  body := .block [
    .aug 0 .add (.bin .mul (.var 3) (.ein2 [[j, i, b, a], [b, j]] [i, a] (.bin .sub (.var 1) (.transp [0, 1, 3, 2] (.var 1))) (.var 2))), -- 790
    .aug 0 .add (.bin .mul (.var 3) (.ein2 [[i, j, a, b], [b, j]] [i, a] (.var 1) (.var 2))) -- 792
    ]
  ret := []

/-- cqcpy/cc_equations.py:795-801 (`_LS_LS`).  Names: 0 L1, 1 F.oo, 2 F.vv, 3 I.vovo, 4 L1old, 5 fac. -/
def LS_LS_proc : Fun where
  params := [0, 1, 2, 3, 4, 5]
  body := .block [
    .aug 0 .add (.bin .mul (.var 5) (.ein2 [[i, b], [b, a]] [i, a] (.var 4) (.var 2))), -- 797
    .aug 0 .sub (.bin .mul (.var 5) (.ein2 [[j, a], [i, j]] [i, a] (.var 4) (.var 1))), -- 799
    .aug 0 .sub (.bin .mul (.var 5) (.ein2 [[j, b], [b, i, a, j]] [i, a] (.var 4) (.var 3))) -- 801
    ]
  ret := []

/-- cqcpy/cc_equations.py:804-816 (`_LS_LSTS`).  Names: 0 L1, 1 F.ov, 2 I.ooov, 3 I.vovv, 4 L1old, 5 T1old, 6 fac. -/
def LS_LSTS_proc : Fun where
  params := [0, 1, 2, 3, 4, 5, 6]
  body := .block [
    .aug 0 .sub (.bin .mul (.var 6) (.ein3 [[j, a], [i, b], [b, j]] [i, a] (.var 4) (.var 1) (.var 5))), -- 806
    .aug 0 .sub (.bin .mul (.var 6) (.ein3 [[i, b], [j, a], [b, j]] [i, a] (.var 4) (.var 1) (.var 5))), -- 808
    .aug 0 .add (.bin .mul (.var 6) (.ein3 [[i, c], [c, j, a, b], [b, j]] [i, a] (.var 4) (.var 3) (.var 5))), -- 810
    .aug 0 .sub (.bin .mul (.var 6) (.ein3 [[k, a], [i, j, k, b], [b, j]] [i, a] (.var 4) (.var 2) (.var 5))), -- 812
    .aug 0 .add (.bin .mul (.var 6) (.ein3 [[j, c], [c, i, b, a], [b, j]] [i, a] (.var 4) (.var 3) (.var 5))), -- 814
    .aug 0 .sub (.bin .mul (.var 6) (.ein3 [[k, b], [j, i, k, a], [b, j]] [i, a] (.var 4) (.var 2) (.var 5))) -- 816
    ]
  ret := []

/-- cqcpy/cc_equations.py:819-825 (`_LS_LSTD`).  Names: 0 L1, 1 I.oovv, 2 L1old, 3 T2old, 4 fac. -/
def LS_LSTD_proc : Fun where
  params := [0, 1, 2, 3, 4]
  body := .block [
    .aug 0 .sub (.bin .mul (.bin .mul (.lit 1 2) (.var 4)) (.ein3 [[j, a], [i, k, b, c], [b, c, j, k]] [i, a] (.var 2) (.var 1) (.var 3))), -- 821
    .aug 0 .sub (.bin .mul (.bin .mul (.lit 1 2) (.var 4)) (.ein3 [[i, b], [j, k, a, c], [b, c, j, k]] [i, a] (.var 2) (.var 1) (.var 3))), -- 823
    .aug 0 .add (.bin .mul (.var 4) (.ein3 [[j, b], [k, i, c, a], [b, c, j, k]] [i, a] (.var 2) (.var 1) (.var 3))) -- 825
    ]
  ret := []

/-- cqcpy/cc_equations.py:828-834 (`_LS_LSTSS`).  Names: 0 L1, 1 I.oovv, 2 L1old, 3 T1old, 4 fac. -/
def LS_LSTSS_proc : Fun where
  params := [0, 1, 2, 3, 4]
  body := .block [
    .aug 0 .sub (.bin .mul (.var 4) (.ein4 [[j, a], [i, k, b, c], [b, j], [c, k]] [i, a] (.var 2) (.var 1) (.var 3) (.var 3))), -- 830
    .aug 0 .sub (.bin .mul (.var 4) (.ein4 [[i, b], [j, k, a, c], [b, j], [c, k]] [i, a] (.var 2) (.var 1) (.var 3) (.var 3))), -- 832
    .aug 0 .sub (.bin .mul (.var 4) (.ein4 [[j, c], [k, i, b, a], [b, j], [c, k]] [i, a] (.var 2) (.var 1) (.var 3) (.var 3))) -- 834
    ]
  ret := []

/-- cqcpy/cc_equations.py:837-841 (`_LS_LD`).  Names: 0 L1, 1 I.vooo, 2 I.vvvo, 3 L2old, 4 fac. -/
def LS_LD_proc : Fun where
  params := [0, 1, 2, 3, 4]
  body := .block [
    .aug 0 .add (.bin .mul (.bin .mul (.lit 1 2) (.var 4)) (.ein2 [[i, j, c, b], [c, b, a, j]] [i, a] (.var 3) (.var 2))), -- 839
    .aug 0 .add (.bin .mul (.bin .mul (.lit 1 2) (.var 4)) (.ein2 [[k, j, a, b], [b, i, k, j]] [i, a] (.var 3) (.var 1))) -- 841
    ]
  ret := []

/-- cqcpy/cc_equations.py:844-852 (`_LS_LDTS`).  Names: 0 L1, 1 I.oooo, 2 I.vovo, 3 I.vvvv, 4 L2old, 5 T1old, 6 fac. -/
def LS_LDTS_proc : Fun where
  params := [0, 1, 2, 3, 4, 5, 6]
  body := .block [
    .aug 0 .add (.bin .mul (.var 6) (.ein3 [[j, k, a, c], [c, i, b, k], [b, j]] [i, a] (.var 4) (.var 2) (.var 5))), -- 846
    .aug 0 .add (.bin .mul (.var 6) (.ein3 [[i, k, b, c], [c, j, a, k], [b, j]] [i, a] (.var 4) (.var 2) (.var 5))), -- 848
    .aug 0 .add (.bin .mul (.bin .mul (.lit 1 2) (.var 6)) (.ein3 [[i, j, c, d], [c, d, a, b], [b, j]] [i, a] (.var 4) (.var 3) (.var 5))), -- 850
    .aug 0 .add (.bin .mul (.bin .mul (.lit 1 2) (.var 6)) (.ein3 [[k, l, a, b], [i, j, k, l], [b, j]] [i, a] (.var 4) (.var 1) (.var 5))) -- 852
    ]
  ret := []

/-- cqcpy/cc_equations.py:855-871 (`_LS_LDTD`).  Names: 0 L1, 1 F.ov, 2 I.ooov, 3 I.vovv, 4 L2old, 5 T2old, 6 fac. -/
def LS_LDTD_proc : Fun where
  params := [0, 1, 2, 3, 4, 5, 6]
  body := .block [
    .aug 0 .sub (.bin .mul (.bin .mul (.lit 1 2) (.var 6)) (.ein3 [[j, k, b, a], [i, c], [b, c, j, k]] [i, a] (.var 4) (.var 1) (.var 5))), -- 857
    .aug 0 .sub (.bin .mul (.bin .mul (.lit 1 2) (.var 6)) (.ein3 [[j, i, b, c], [k, a], [b, c, j, k]] [i, a] (.var 4) (.var 1) (.var 5))), -- 859
    .aug 0 .add (.bin .mul (.bin .mul (.lit 1 2) (.var 6)) (.ein3 [[j, k, b, d], [d, i, c, a], [b, c, j, k]] [i, a] (.var 4) (.var 3) (.var 5))), -- 861
    .aug 0 .sub (.bin .mul (.bin .mul (.lit 1 2) (.var 6)) (.ein3 [[j, l, b, c], [k, i, l, a], [b, c, j, k]] [i, a] (.var 4) (.var 2) (.var 5))), -- 863
    .aug 0 .sub (.bin .mul (.var 6) (.ein3 [[j, i, b, d], [d, k, c, a], [b, c, j, k]] [i, a] (.var 4) (.var 3) (.var 5))), -- 865
    .aug 0 .add (.bin .mul (.var 6) (.ein3 [[j, l, b, a], [k, i, l, c], [b, c, j, k]] [i, a] (.var 4) (.var 2) (.var 5))), -- 867
    .aug 0 .add (.bin .mul (.bin .mul (.lit 1 4) (.var 6)) (.ein3 [[j, k, a, d], [d, i, b, c], [b, c, j, k]] [i, a] (.var 4) (.var 3) (.var 5))), -- 869
    .aug 0 .sub (.bin .mul (.bin .mul (.lit 1 4) (.var 6)) (.ein3 [[i, l, b, c], [j, k, l, a], [b, c, j, k]] [i, a] (.var 4) (.var 2) (.var 5))) -- 871
    ]
  ret := []

/-- cqcpy/cc_equations.py:874-882 (`_LS_LDTSS`).  Names: 0 L1, 1 I.ooov, 2 I.vovv, 3 L2old, 4 T1old, 5 fac. -/
def LS_LDTSS_proc : Fun where
  params := [0, 1, 2, 3, 4, 5]
  body := .block [
    .aug 0 .sub (.bin .mul (.var 5) (.ein4 [[i, k, d, b], [d, j, a, c], [b, j], [c, k]] [i, a] (.var 3) (.var 2) (.var 4) (.var 4))), -- 876
    .aug 0 .add (.bin .mul (.var 5) (.ein4 [[l, k, a, b], [i, j, l, c], [b, j], [c, k]] [i, a] (.var 3) (.var 1) (.var 4) (.var 4))), -- 878
    .aug 0 .add (.bin .mul (.bin .mul (.lit 1 2) (.var 5)) (.ein4 [[j, k, a, d], [d, i, b, c], [b, j], [c, k]] [i, a] (.var 3) (.var 2) (.var 4) (.var 4))), -- 880
    .aug 0 .sub (.bin .mul (.bin .mul (.lit 1 2) (.var 5)) (.ein4 [[i, l, b, c], [j, k, l, a], [b, j], [c, k]] [i, a] (.var 3) (.var 1) (.var 4) (.var 4))) -- 882
    ]
  ret := []

/-- cqcpy/cc_equations.py:885-901 (`_LS_LDTSD`).  Names: 0 L1, 1 I.oovv, 2 L2old, 3 T1old, 4 T2old, 5 fac. -/
def LS_LDTSD_proc : Fun where
  params := [0, 1, 2, 3, 4, 5]
  body := .block [
    .aug 0 .sub (.bin .mul (.bin .mul (.lit 1 2) (.var 5)) (.ein4 [[k, l, c, a], [i, j, d, b], [b, j], [c, d, k, l]] [i, a] (.var 2) (.var 1) (.var 3) (.var 4))), -- 887
    .aug 0 .sub (.bin .mul (.bin .mul (.lit 1 2) (.var 5)) (.ein4 [[k, i, c, d], [l, j, a, b], [b, j], [c, d, k, l]] [i, a] (.var 2) (.var 1) (.var 3) (.var 4))), -- 889
    .aug 0 .sub (.bin .mul (.var 5) (.ein4 [[j, l, a, d], [i, k, b, c], [b, j], [c, d, k, l]] [i, a] (.var 2) (.var 1) (.var 3) (.var 4))), -- 891
    .aug 0 .sub (.bin .mul (.var 5) (.ein4 [[i, l, b, d], [j, k, a, c], [b, j], [c, d, k, l]] [i, a] (.var 2) (.var 1) (.var 3) (.var 4))), -- 893
    .aug 0 .add (.bin .mul (.bin .mul (.lit 1 4) (.var 5)) (.ein4 [[k, l, a, b], [i, j, c, d], [b, j], [c, d, k, l]] [i, a] (.var 2) (.var 1) (.var 3) (.var 4))), -- 895
    .aug 0 .add (.bin .mul (.bin .mul (.lit 1 4) (.var 5)) (.ein4 [[i, j, c, d], [k, l, a, b], [b, j], [c, d, k, l]] [i, a] (.var 2) (.var 1) (.var 3) (.var 4))), -- 897
    .aug 0 .sub (.bin .mul (.bin .mul (.lit 1 2) (.var 5)) (.ein4 [[k, l, c, b], [j, i, d, a], [b, j], [c, d, k, l]] [i, a] (.var 2) (.var 1) (.var 3) (.var 4))), -- 899
    .aug 0 .sub (.bin .mul (.bin .mul (.lit 1 2) (.var 5)) (.ein4 [[k, j, c, d], [l, i, b, a], [b, j], [c, d, k, l]] [i, a] (.var 2) (.var 1) (.var 3) (.var 4))) -- 901
    ]
  ret := []

/-- cqcpy/cc_equations.py:904-910 (`_LS_LDTSSS`).  Names: 0 L1, 1 I.oovv, 2 L2old, 3 T1old, 4 fac. -/
def LS_LDTSSS_proc : Fun where
  params := [0, 1, 2, 3, 4]
  body := .block [
    .aug 0 .add (.bin .mul (.bin .mul (.lit 1 2) (.var 4)) (.ein5 [[j, l, a, c], [i, k, b, d], [c, k], [d, l], [b, j]] [i, a] (.var 2) (.var 1) (.var 3) (.var 3) (.var 3))), -- 906
    .aug 0 .add (.bin .mul (.bin .mul (.lit 1 2) (.var 4)) (.ein5 [[i, l, b, c], [j, k, a, d], [c, k], [d, l], [b, j]] [i, a] (.var 2) (.var 1) (.var 3) (.var 3) (.var 3))) -- 909
    ]
  ret := []

/-- cqcpy/cc_equations.py:913-924 (`_LD_LS`).  Names: 0 L2, 1 F.ov, 2 I.ooov, 3 I.vovv, 4 L1old, 5 fac. -/
def LD_LS_proc : Fun where
  params := [0, 1, 2, 3, 4, 5]
  body := .block [
    .aug 0 .add (.bin .mul (.var 5) (.ein2 [[j, b], [i, a]] [i, j, a, b] (.var 1) (.var 4))), -- 915
    .aug 0 .sub (.bin .mul (.var 5) (.ein2 [[i, b], [j, a]] [i, j, a, b] (.var 1) (.var 4))), -- 916
    .aug 0 .sub (.bin .mul (.var 5) (.ein2 [[j, a], [i, b]] [i, j, a, b] (.var 1) (.var 4))), -- 917
    .aug 0 .add (.bin .mul (.var 5) (.ein2 [[i, a], [j, b]] [i, j, a, b] (.var 1) (.var 4))), -- 918
    .aug 0 .add (.bin .mul (.var 5) (.ein2 [[c, j, a, b], [i, c]] [i, j, a, b] (.var 3) (.var 4))), -- 920
    .aug 0 .sub (.bin .mul (.var 5) (.ein2 [[c, i, a, b], [j, c]] [i, j, a, b] (.var 3) (.var 4))), -- 921
    .aug 0 .sub (.bin .mul (.var 5) (.ein2 [[i, j, k, b], [k, a]] [i, j, a, b] (.var 2) (.var 4))), -- 923
    .aug 0 .add (.bin .mul (.var 5) (.ein2 [[i, j, k, a], [k, b]] [i, j, a, b] (.var 2) (.var 4))) -- 924
    ]
  ret := []

/-- cqcpy/cc_equations.py:927-938 (`_LD_LSTS`).  Names: 0 L2, 1 I.oovv, 2 L1old, 3 T1old, 4 fac. -/
def LD_LSTS_proc : Fun where
  params := [0, 1, 2, 3, 4]
  body := .block [
    .aug 0 .add (.bin .mul (.var 4) (.ein3 [[j, b], [i, k, a, c], [c, k]] [i, j, a, b] (.var 2) (.var 1) (.var 3))), -- 929
    .aug 0 .sub (.bin .mul (.var 4) (.ein3 [[i, b], [j, k, a, c], [c, k]] [i, j, a, b] (.var 2) (.var 1) (.var 3))), -- 930
    .aug 0 .sub (.bin .mul (.var 4) (.ein3 [[j, a], [i, k, b, c], [c, k]] [i, j, a, b] (.var 2) (.var 1) (.var 3))), -- 931
    .aug 0 .add (.bin .mul (.var 4) (.ein3 [[i, a], [j, k, b, c], [c, k]] [i, j, a, b] (.var 2) (.var 1) (.var 3))), -- 932
    .aug 0 .sub (.bin .mul (.var 4) (.ein3 [[i, c], [k, j, a, b], [c, k]] [i, j, a, b] (.var 2) (.var 1) (.var 3))), -- 934
    .aug 0 .add (.bin .mul (.var 4) (.ein3 [[j, c], [k, i, a, b], [c, k]] [i, j, a, b] (.var 2) (.var 1) (.var 3))), -- 935
    .aug 0 .sub (.bin .mul (.var 4) (.ein3 [[k, a], [i, j, c, b], [c, k]] [i, j, a, b] (.var 2) (.var 1) (.var 3))), -- 937
    .aug 0 .add (.bin .mul (.var 4) (.ein3 [[k, b], [i, j, c, a], [c, k]] [i, j, a, b] (.var 2) (.var 1) (.var 3))) -- 938
    ]
  ret := []

/-- cqcpy/cc_equations.py:941-956 (`_LD_LD`).  Names: 0 L2, 1 F.oo, 2 F.vv, 3 I.oooo, 4 I.vovo, 5 I.vvvv, 6 L2old, 7 fac. -/
def LD_LD_proc : Fun where
  params := [0, 1, 2, 3, 4, 5, 6, 7]
  body := .block [
    .aug 0 .add (.bin .mul (.var 7) (.ein2 [[c, b], [i, j, a, c]] [i, j, a, b] (.var 2) (.var 6))), -- 943
    .aug 0 .sub (.bin .mul (.var 7) (.ein2 [[c, a], [i, j, b, c]] [i, j, a, b] (.var 2) (.var 6))), -- 944
    .aug 0 .sub (.bin .mul (.var 7) (.ein2 [[j, k], [i, k, a, b]] [i, j, a, b] (.var 1) (.var 6))), -- 946
    .aug 0 .add (.bin .mul (.var 7) (.ein2 [[i, k], [j, k, a, b]] [i, j, a, b] (.var 1) (.var 6))), -- 947
    .aug 0 .add (.bin .mul (.bin .mul (.lit 1 2) (.var 7)) (.ein2 [[c, d, a, b], [i, j, c, d]] [i, j, a, b] (.var 5) (.var 6))), -- 949
    .aug 0 .add (.bin .mul (.bin .mul (.lit 1 2) (.var 7)) (.ein2 [[i, j, k, l], [k, l, a, b]] [i, j, a, b] (.var 3) (.var 6))), -- 951
    .aug 0 .sub (.bin .mul (.var 7) (.ein2 [[c, j, b, k], [i, k, a, c]] [i, j, a, b] (.var 4) (.var 6))), -- 953
    .aug 0 .add (.bin .mul (.var 7) (.ein2 [[c, i, b, k], [j, k, a, c]] [i, j, a, b] (.var 4) (.var 6))), -- 954
    .aug 0 .add (.bin .mul (.var 7) (.ein2 [[c, j, a, k], [i, k, b, c]] [i, j, a, b] (.var 4) (.var 6))), -- 955
    .aug 0 .sub (.bin .mul (.var 7) (.ein2 [[c, i, a, k], [j, k, b, c]] [i, j, a, b] (.var 4) (.var 6))) -- 956
    ]
  ret := []

/-- cqcpy/cc_equations.py:959-963 (`_LD_LD_ladder`).  Names: 0 L2, 1 I.oooo, 2 I.vvvv, 3 L2old, 4 fac. -/
def LD_LD_ladder_proc : Fun where
  params := [0, 1, 2, 3, 4]
  body := .block [
    .aug 0 .add (.bin .mul (.bin .mul (.lit 1 2) (.var 4)) (.ein2 [[c, d, a, b], [i, j, c, d]] [i, j, a, b] (.var 2) (.var 3))), -- 961
    .aug 0 .add (.bin .mul (.bin .mul (.lit 1 2) (.var 4)) (.ein2 [[i, j, k, l], [k, l, a, b]] [i, j, a, b] (.var 1) (.var 3))) -- 963
    ]
  ret := []

/-- cqcpy/cc_equations.py:966-992 (`_LD_LDTS`).  Names: 0 L2, 1 F.ov, 2 I.ooov, 3 I.vovv, 4 L2old, 5 T1old, 6 fac. -/
def LD_LDTS_proc : Fun where
  params := [0, 1, 2, 3, 4, 5, 6]
  body := .block [
    .aug 0 .sub (.bin .mul (.var 6) (.ein3 [[i, k, a, b], [j, c], [c, k]] [i, j, a, b] (.var 4) (.var 1) (.var 5))), -- 968
    .aug 0 .add (.bin .mul (.var 6) (.ein3 [[j, k, a, b], [i, c], [c, k]] [i, j, a, b] (.var 4) (.var 1) (.var 5))), -- 969
    .aug 0 .sub (.bin .mul (.var 6) (.ein3 [[i, j, a, c], [k, b], [c, k]] [i, j, a, b] (.var 4) (.var 1) (.var 5))), -- 971
    .aug 0 .add (.bin .mul (.var 6) (.ein3 [[i, j, b, c], [k, a], [c, k]] [i, j, a, b] (.var 4) (.var 1) (.var 5))), -- 972
    .aug 0 .add (.bin .mul (.var 6) (.ein3 [[i, j, a, d], [d, k, b, c], [c, k]] [i, j, a, b] (.var 4) (.var 3) (.var 5))), -- 974
    .aug 0 .sub (.bin .mul (.var 6) (.ein3 [[i, j, b, d], [d, k, a, c], [c, k]] [i, j, a, b] (.var 4) (.var 3) (.var 5))), -- 975
    .aug 0 .sub (.bin .mul (.var 6) (.ein3 [[i, l, a, b], [j, k, l, c], [c, k]] [i, j, a, b] (.var 4) (.var 2) (.var 5))), -- 977
    .aug 0 .add (.bin .mul (.var 6) (.ein3 [[j, l, a, b], [i, k, l, c], [c, k]] [i, j, a, b] (.var 4) (.var 2) (.var 5))), -- 978
    .aug 0 .add (.bin .mul (.var 6) (.ein3 [[i, k, a, d], [d, j, c, b], [c, k]] [i, j, a, b] (.var 4) (.var 3) (.var 5))), -- 980
    .aug 0 .sub (.bin .mul (.var 6) (.ein3 [[j, k, a, d], [d, i, c, b], [c, k]] [i, j, a, b] (.var 4) (.var 3) (.var 5))), -- 981
    .aug 0 .sub (.bin .mul (.var 6) (.ein3 [[i, k, b, d], [d, j, c, a], [c, k]] [i, j, a, b] (.var 4) (.var 3) (.var 5))), -- 982
    .aug 0 .add (.bin .mul (.var 6) (.ein3 [[j, k, b, d], [d, i, c, a], [c, k]] [i, j, a, b] (.var 4) (.var 3) (.var 5))), -- 983
    .aug 0 .sub (.bin .mul (.var 6) (.ein3 [[i, l, a, c], [k, j, l, b], [c, k]] [i, j, a, b] (.var 4) (.var 2) (.var 5))), -- 985
    .aug 0 .add (.bin .mul (.var 6) (.ein3 [[j, l, a, c], [k, i, l, b], [c, k]] [i, j, a, b] (.var 4) (.var 2) (.var 5))), -- 986
    .aug 0 .add (.bin .mul (.var 6) (.ein3 [[i, l, b, c], [k, j, l, a], [c, k]] [i, j, a, b] (.var 4) (.var 2) (.var 5))), -- 987
    .aug 0 .sub (.bin .mul (.var 6) (.ein3 [[j, l, b, c], [k, i, l, a], [c, k]] [i, j, a, b] (.var 4) (.var 2) (.var 5))), -- 988
    .aug 0 .add (.bin .mul (.var 6) (.ein3 [[i, j, c, d], [d, k, a, b], [c, k]] [i, j, a, b] (.var 4) (.var 3) (.var 5))), -- 990
    .aug 0 .sub (.bin .mul (.var 6) (.ein3 [[k, l, a, b], [i, j, l, c], [c, k]] [i, j, a, b] (.var 4) (.var 2) (.var 5))) -- 992
    ]
  ret := []

/-- cqcpy/cc_equations.py:995-1016 (`_LD_LDTD`).  Names: 0 L2, 1 I.oovv, 2 L2old, 3 T2old, 4 fac. -/
def LD_LDTD_proc : Fun where
  params := [0, 1, 2, 3, 4]
  body := .block [
    .aug 0 .sub (.bin .mul (.bin .mul (.lit 1 2) (.var 4)) (.ein3 [[j, l, c, d], [c, d, k, l], [i, k, a, b]] [i, j, a, b] (.var 1) (.var 3) (.var 2))), -- 997
    .aug 0 .add (.bin .mul (.bin .mul (.lit 1 2) (.var 4)) (.ein3 [[i, l, c, d], [c, d, k, l], [j, k, a, b]] [i, j, a, b] (.var 1) (.var 3) (.var 2))), -- 998
    .aug 0 .sub (.bin .mul (.bin .mul (.lit 1 2) (.var 4)) (.ein3 [[k, l, b, d], [c, d, k, l], [i, j, a, c]] [i, j, a, b] (.var 1) (.var 3) (.var 2))), -- 1000
    .aug 0 .add (.bin .mul (.bin .mul (.lit 1 2) (.var 4)) (.ein3 [[k, l, a, d], [c, d, k, l], [i, j, b, c]] [i, j, a, b] (.var 1) (.var 3) (.var 2))), -- 1001
    .aug 0 .add (.bin .mul (.var 4) (.ein3 [[l, j, d, b], [c, d, k, l], [i, k, a, c]] [i, j, a, b] (.var 1) (.var 3) (.var 2))), -- 1003
    .aug 0 .sub (.bin .mul (.var 4) (.ein3 [[l, i, d, b], [c, d, k, l], [j, k, a, c]] [i, j, a, b] (.var 1) (.var 3) (.var 2))), -- 1004
    .aug 0 .sub (.bin .mul (.var 4) (.ein3 [[l, j, d, a], [c, d, k, l], [i, k, b, c]] [i, j, a, b] (.var 1) (.var 3) (.var 2))), -- 1005
    .aug 0 .add (.bin .mul (.var 4) (.ein3 [[l, i, d, a], [c, d, k, l], [j, k, b, c]] [i, j, a, b] (.var 1) (.var 3) (.var 2))), -- 1006
    .aug 0 .sub (.bin .mul (.bin .mul (.lit 1 2) (.var 4)) (.ein3 [[i, j, d, b], [c, d, k, l], [k, l, c, a]] [i, j, a, b] (.var 1) (.var 3) (.var 2))), -- 1008
    .aug 0 .add (.bin .mul (.bin .mul (.lit 1 2) (.var 4)) (.ein3 [[i, j, d, a], [c, d, k, l], [k, l, c, b]] [i, j, a, b] (.var 1) (.var 3) (.var 2))), -- 1009
    .aug 0 .sub (.bin .mul (.bin .mul (.lit 1 2) (.var 4)) (.ein3 [[l, j, a, b], [c, d, k, l], [k, i, c, d]] [i, j, a, b] (.var 1) (.var 3) (.var 2))), -- 1011
    .aug 0 .add (.bin .mul (.bin .mul (.lit 1 2) (.var 4)) (.ein3 [[l, i, a, b], [c, d, k, l], [k, j, c, d]] [i, j, a, b] (.var 1) (.var 3) (.var 2))), -- 1012
    .aug 0 .add (.bin .mul (.bin .mul (.lit 1 4) (.var 4)) (.ein3 [[i, j, c, d], [c, d, k, l], [k, l, a, b]] [i, j, a, b] (.var 1) (.var 3) (.var 2))), -- 1014
    .aug 0 .add (.bin .mul (.bin .mul (.lit 1 4) (.var 4)) (.ein3 [[k, l, a, b], [c, d, k, l], [i, j, c, d]] [i, j, a, b] (.var 1) (.var 3) (.var 2))) -- 1016
    ]
  ret := []

/-- cqcpy/cc_equations.py:1019-1023 (`_LD_LDTD_ladder`).  Names: 0 L2, 1 I.oovv, 2 L2old, 3 T2old, 4 fac. -/
def LD_LDTD_ladder_proc : Fun where
  params := [0, 1, 2, 3, 4]
  body := .block [
    .aug 0 .add (.bin .mul (.bin .mul (.lit 1 4) (.var 4)) (.ein3 [[i, j, c, d], [c, d, k, l], [k, l, a, b]] [i, j, a, b] (.var 1) (.var 3) (.var 2))), -- 1021
    .aug 0 .add (.bin .mul (.bin .mul (.lit 1 4) (.var 4)) (.ein3 [[k, l, a, b], [c, d, k, l], [i, j, c, d]] [i, j, a, b] (.var 1) (.var 3) (.var 2))) -- 1023
    ]
  ret := []

/-- cqcpy/cc_equations.py:1026-1041 (`_LD_LDTSS`).  Names: 0 L2, 1 I.oovv, 2 L2old, 3 T1old, 4 fac. -/
def LD_LDTSS_proc : Fun where
  params := [0, 1, 2, 3, 4]
  body := .block [
    .aug 0 .sub (.bin .mul (.var 4) (.ein4 [[i, k, a, b], [j, l, c, d], [c, k], [d, l]] [i, j, a, b] (.var 2) (.var 1) (.var 3) (.var 3))), -- 1028
    .aug 0 .add (.bin .mul (.var 4) (.ein4 [[j, k, a, b], [i, l, c, d], [c, k], [d, l]] [i, j, a, b] (.var 2) (.var 1) (.var 3) (.var 3))), -- 1029
    .aug 0 .sub (.bin .mul (.var 4) (.ein4 [[i, j, a, c], [k, l, b, d], [c, k], [d, l]] [i, j, a, b] (.var 2) (.var 1) (.var 3) (.var 3))), -- 1031
    .aug 0 .add (.bin .mul (.var 4) (.ein4 [[i, j, b, c], [k, l, a, d], [c, k], [d, l]] [i, j, a, b] (.var 2) (.var 1) (.var 3) (.var 3))), -- 1032
    .aug 0 .sub (.bin .mul (.var 4) (.ein4 [[i, k, a, d], [l, j, c, b], [c, k], [d, l]] [i, j, a, b] (.var 2) (.var 1) (.var 3) (.var 3))), -- 1034
    .aug 0 .add (.bin .mul (.var 4) (.ein4 [[j, k, a, d], [l, i, c, b], [c, k], [d, l]] [i, j, a, b] (.var 2) (.var 1) (.var 3) (.var 3))), -- 1035
    .aug 0 .add (.bin .mul (.var 4) (.ein4 [[i, k, b, d], [l, j, c, a], [c, k], [d, l]] [i, j, a, b] (.var 2) (.var 1) (.var 3) (.var 3))), -- 1036
    .aug 0 .sub (.bin .mul (.var 4) (.ein4 [[j, k, b, d], [l, i, c, a], [c, k], [d, l]] [i, j, a, b] (.var 2) (.var 1) (.var 3) (.var 3))), -- 1037
    .aug 0 .add (.bin .mul (.bin .mul (.lit 1 2) (.var 4)) (.ein4 [[k, l, a, b], [i, j, c, d], [c, k], [d, l]] [i, j, a, b] (.var 2) (.var 1) (.var 3) (.var 3))), -- 1039
    .aug 0 .add (.bin .mul (.bin .mul (.lit 1 2) (.var 4)) (.ein4 [[i, j, c, d], [k, l, a, b], [c, k], [d, l]] [i, j, a, b] (.var 2) (.var 1) (.var 3) (.var 3))) -- 1041
    ]
  ret := []

/-- cqcpy/cc_equations.py:1045-1090 (`lambda_int`).  Names: 0 F.oo, 1 F.ov, 2 F.vv, 3 I.oooo, 4 I.ooov, 5 I.oovv, 6 I.vooo, 7 I.vovo, 8 I.vovv, 9 I.vvvo, 10 I.vvvv, 11 T1old, 12 T2old, 13 TTemp, 14 IvovoT1, 15 IvovoT2, 16 self.IooovT, 17 self.IvovvT, 18 self.IovT, 19 self.IToo, 20 self.ITvv, 21 self.ITvovo, 22 self.IToovv, 23 self.ITvooo, 24 self.ITvvvo, 25 self.ITov, 26 self.ITvovv, 27 self.ITooov, 28 self.ITvovo2, 29 self.ITvvvv, 30 self.IToooo, 31 self.IToovv2. -/
def lambda_int : Fun where
  params := [0, 1, 2, 3, 4, 5, 6, 7, 8, 9, 10, 11, 12]
  body := .block [
    .assign 13 (.bin .add (.bin .mul (.lit 1 2) (.var 12)) (.ein2 [[b, j], [c, k]] [b, c, j, k] (.var 11) (.var 11))), -- 1046
    .assign 14 (.ein2 [[a, i, b, c], [c, k]] [a, i, b, k] (.var 8) (.var 11)), -- 1047
    .assign 15 (.ein2 [[b, j], [j, i, k, a]] [b, i, a, k] (.var 11) (.var 4)), -- 1048
    .assign 16 (.ein2 [[i, k, b, c], [b, j]] [i, k, j, c] (.var 5) (.var 11)), -- 1049
    .assign 17 (.ein2 [[c, k], [k, i, a, b]] [c, i, a, b] (.var 11) (.var 5)), -- 1050
    .assign 18 (.ein2 [[i, k, a, c], [c, k]] [i, a] (.var 5) (.var 11)), -- 1051
    .assign 19 (.bin .add (.bin .add (.bin .add (.ein2 [[i, b], [b, j]] [i, j] (.var 1) (.var 11)) (.var 0)) (.ein2 [[i, k, b, c], [b, c, j, k]] [i, j] (.var 5) (.var 13))) (.ein2 [[i, j, k, b], [b, j]] [i, k] (.var 4) (.var 11))), -- 1052
    .assign 20 (.bin .add (.bin .sub (.bin .sub (.ein2 [[j, a], [b, j]] [b, a] (.var 1) (.var 11)) (.var 2)) (.ein2 [[b, k, a, c], [c, k]] [b, a] (.var 8) (.var 11))) (.ein2 [[j, k, a, c], [b, c, j, k]] [b, a] (.var 5) (.var 13))), -- 1055
    .assign 21 (.bin .sub (.bin .sub (.neg (.var 14)) (.var 15)) (.var 7)), -- 1058
    .assign 22 (.bin .sub (.ein2 [[k, i, c, a], [b, c, j, k]] [i, j, a, b] (.var 5) (.var 12)) (.ein2 [[c, i, b, a], [b, j]] [i, j, a, c] (.var 17) (.var 11))), -- 1059
    .assign 23 (.bin .sub (.bin .sub (.bin .add (.bin .add (.bin .sub (.bin .add (.bin .add (.bin .add (.bin .add (.ein2 [[c, i, b, k], [b, j]] [c, i, j, k] (.var 7) (.var 11)) (.bin .mul (.lit 1 2) (.var 6))) (.bin .mul (.lit 1 2) (.ein2 [[i, c], [b, c, j, k]] [b, i, j, k] (.var 1) (.var 12)))) (.bin .mul (.lit 1 2) (.ein2 [[i, j, k, l], [b, j]] [b, i, k, l] (.var 3) (.var 11)))) (.ein2 [[k, i, l, c], [b, c, j, k]] [b, i, l, j] (.var 4) (.var 12))) (.ein2 [[b, i, c, l], [c, k]] [b, i, l, k] (.var 15) (.var 11))) (.bin .mul (.lit 1 2) (.ein2 [[d, i, b, c], [b, c, j, k]] [d, i, j, k] (.var 8) (.var 13)))) (.bin .mul (.lit 1 2) (.ein2 [[i, d], [c, d, k, l]] [c, i, k, l] (.var 18) (.var 12)))) (.ein2 [[i, k, j, c], [c, d, k, l]] [d, i, j, l] (.var 16) (.var 12))) (.bin .mul (.lit 1 2) (.ein2 [[b, i, c, d], [c, d, k, l]] [b, i, k, l] (.var 17) (.var 13)))), -- 1061
    .assign 24 (.bin .add (.bin .add (.bin .sub (.bin .add (.bin .sub (.bin .sub (.bin .sub (.bin .sub (.bin .sub (.ein2 [[c, j, a, k], [b, j]] [c, b, a, k] (.var 7) (.var 11)) (.bin .mul (.lit 1 2) (.var 9))) (.bin .mul (.lit 1 2) (.ein2 [[k, a], [b, c, j, k]] [b, c, a, j] (.var 1) (.var 12)))) (.bin .mul (.lit 1 2) (.ein2 [[c, d, a, b], [b, j]] [c, d, a, j] (.var 10) (.var 11)))) (.ein2 [[d, k, c, a], [b, c, j, k]] [b, d, a, j] (.var 8) (.var 12))) (.ein2 [[d, j, a, k], [b, j]] [b, d, a, k] (.var 14) (.var 11))) (.bin .mul (.lit 1 2) (.ein2 [[j, k, l, a], [b, c, j, k]] [b, c, a, l] (.var 4) (.var 13)))) (.bin .mul (.lit 1 2) (.ein2 [[l, a], [c, d, k, l]] [c, d, a, k] (.var 18) (.var 12)))) (.ein2 [[b, k, a, c], [c, d, k, l]] [b, d, a, l] (.var 17) (.var 12))) (.bin .mul (.lit 1 2) (.ein2 [[k, l, j, a], [c, d, k, l]] [c, d, a, j] (.var 16) (.var 13)))), -- 1070
    .assign 25 (.bin .add (.var 18) (.var 1)), -- 1079
    .assign 26 (.bin .sub (.var 17) (.var 8)), -- 1080
    .assign 27 (.bin .add (.var 16) (.var 4)), -- 1081
    .assign 28 (.bin .sub (.bin .sub (.bin .sub (.neg (.var 14)) (.var 15)) (.var 7)) (.ein2 [[d, j, c, b], [c, k]] [d, j, b, k] (.var 17) (.var 11))), -- 1082
    .assign 29 (.bin .add (.bin .add (.ein2 [[d, k, a, b], [c, k]] [c, d, a, b] (.var 8) (.var 11)) (.bin .mul (.lit 1 2) (.ein2 [[k, l, a, b], [c, d, k, l]] [c, d, a, b] (.var 5) (.var 13)))) (.bin .mul (.lit 1 2) (.var 10))), -- 1084
    .assign 30 (.bin .sub (.bin .sub (.ein2 [[i, j, l, c], [c, k]] [i, j, k, l] (.var 4) (.var 11)) (.bin .mul (.lit 1 2) (.ein2 [[i, j, c, d], [c, d, k, l]] [i, j, k, l] (.var 5) (.var 13)))) (.bin .mul (.lit 1 2) (.var 3))), -- 1087
    .assign 31 (.ein2 [[l, j, d, b], [c, d, k, l]] [k, j, c, b] (.var 5) (.var 12)) -- 1090
    ]
  ret := [.var 16, .var 17, .var 18, .var 19, .var 20, .var 21, .var 22, .var 23, .var 24, .var 25, .var 26, .var 27, .var 28, .var 29, .var 30, .var 31]

/-- cqcpy/cc_equations.py:1093-1188 (`_Lambda_Stanton`).  Names: 0 L1, 1 L2, 2 F.oo, 3 F.ov, 4 F.vv, 5 I.oooo, 6 I.ooov, 7 I.oovv, 8 I.vooo, 9 I.vovo, 10 I.vovv, 11 I.vvvo, 12 I.vvvv, 13 L1old, 14 L2old, 15 T1old, 16 T2old, 17 T2A, 18 Fvv, 19 Foo, 20 Fov, 21 T2B, 22 Woooo, 23 Wvvvv, 24 Wovvo, 25 temp, 26 F1ov, 27 F1vv, 28 F1oo, 29 W1oooo, 30 W1vvvv, 31 W1ovvo, 32 W1ooov, 33 W1vovv, 34 W1vvvo, 35 Xt, 36 W1ovoo, 37 Gvv, 38 Goo, 39 tempijab, 40 tempij, 41 tempab. -/
def Lambda_Stanton_proc : Fun where
  params := [0, 1, 2, 3, 4, 5, 6, 7, 8, 9, 10, 11, 12, 13, 14, 15, 16]
  body := .block [
    .assign 17 (.copy (.var 16)), -- 1095
    .aug 17 .add (.bin .mul (.lit 1 2) (.ein2 [[a, i], [b, j]] [a, b, i, j] (.var 15) (.var 15))), -- 1096
    .aug 17 .sub (.bin .mul (.lit 1 2) (.ein2 [[b, i], [a, j]] [a, b, i, j] (.var 15) (.var 15))), -- 1097
    .assign 18 (.copy (.var 4)), -- 1099
    .aug 18 .sub (.bin .mul (.lit 1 2) (.ein2 [[j, b], [a, j]] [a, b] (.var 3) (.var 15))), -- 1100
    .aug 18 .sub (.ein2 [[a, j, c, b], [c, j]] [a, b] (.var 10) (.var 15)), -- 1101
    .aug 18 .sub (.bin .mul (.lit 1 2) (.ein2 [[j, k, b, c], [a, c, j, k]] [a, b] (.var 7) (.var 17))), -- 1102
    .assign 19 (.copy (.var 2)), -- 1104
    .aug 19 .add (.bin .mul (.lit 1 2) (.ein2 [[j, b], [b, i]] [j, i] (.var 3) (.var 15))), -- 1105
    .aug 19 .add (.ein2 [[j, k, i, b], [b, k]] [j, i] (.var 6) (.var 15)), -- 1106
    .aug 19 .add (.bin .mul (.lit 1 2) (.ein2 [[j, k, b, c], [b, c, i, k]] [j, i] (.var 7) (.var 17))), -- 1107
    .assign 20 (.copy (.var 3)), -- 1109
    .aug 20 .add (.ein2 [[j, k, b, c], [c, k]] [j, b] (.var 7) (.var 15)), -- 1110
    .assign 21 (.copy (.var 16)), -- 1112
    .aug 21 .add (.ein2 [[a, i], [b, j]] [a, b, i, j] (.var 15) (.var 15)), -- 1113
    .aug 21 .sub (.ein2 [[b, i], [a, j]] [a, b, i, j] (.var 15) (.var 15)), -- 1114
    .assign 22 (.copy (.var 5)), -- 1116
    .aug 22 .add (.ein2 [[k, l, i, c], [c, j]] [k, l, i, j] (.var 6) (.var 15)), -- 1117
    .aug 22 .sub (.ein2 [[k, l, j, c], [c, i]] [k, l, i, j] (.var 6) (.var 15)), -- 1118
    .aug 22 .add (.bin .mul (.lit 1 4) (.ein2 [[k, l, c, d], [c, d, i, j]] [k, l, i, j] (.var 7) (.var 21))), -- 1119
    .assign 23 (.copy (.var 12)), -- 1121
    .aug 23 .sub (.ein2 [[a, k, c, d], [b, k]] [a, b, c, d] (.var 10) (.var 15)), -- 1122
    .aug 23 .add (.ein2 [[b, k, c, d], [a, k]] [a, b, c, d] (.var 10) (.var 15)), -- 1123
    .aug 23 .add (.bin .mul (.lit 1 4) (.ein2 [[k, l, c, d], [a, b, k, l]] [a, b, c, d] (.var 7) (.var 21))), -- 1124
    .assign 24 (.neg (.transp [1, 0, 2, 3] (.var 9))), -- 1126
    .aug 24 .sub (.ein2 [[b, k, c, d], [d, j]] [k, b, c, j] (.var 10) (.var 15)), -- 1127
    .aug 24 .add (.ein2 [[k, l, j, c], [b, l]] [k, b, c, j] (.var 6) (.var 15)), -- 1128
    .assign 25 (.bin .add (.bin .mul (.lit 1 2) (.var 16)) (.ein2 [[d, j], [b, l]] [d, b, j, l] (.var 15) (.var 15))), -- 1129
    .aug 24 .sub (.ein2 [[k, l, c, d], [d, b, j, l]] [k, b, c, j] (.var 7) (.var 25)), -- 1130
    .assign 26 (.var 20), -- 1132
    .assign 27 (.bin .sub (.var 18) (.bin .mul (.lit 1 2) (.ein2 [[m, e], [a, m]] [a, e] (.var 20) (.var 15)))), -- 1133
    .assign 28 (.bin .add (.var 19) (.bin .mul (.lit 1 2) (.ein2 [[m, e], [e, i]] [m, i] (.var 20) (.var 15)))), -- 1134
    .assign 29 (.bin .add (.var 22) (.bin .mul (.lit 1 4) (.ein2 [[m, n, e, f], [e, f, i, j]] [m, n, i, j] (.var 7) (.var 21)))), -- 1136
    .assign 30 (.bin .add (.var 23) (.bin .mul (.lit 1 4) (.ein2 [[m, n, e, f], [a, b, m, n]] [a, b, e, f] (.var 7) (.var 21)))), -- 1137
    .assign 31 (.bin .sub (.var 24) (.bin .mul (.lit 1 2) (.ein2 [[m, n, e, f], [f, b, j, n]] [m, b, e, j] (.var 7) (.var 16)))), -- 1138
    .assign 32 (.bin .add (.var 6) (.ein2 [[m, n, f, e], [f, i]] [m, n, i, e] (.var 7) (.var 15))), -- 1139
    .assign 33 (.bin .sub (.var 10) (.ein2 [[n, m, e, f], [a, n]] [a, m, e, f] (.var 7) (.var 15))), -- 1140
    .assign 34 (.bin .sub (.var 11) (.ein2 [[m, e], [a, b, m, i]] [a, b, e, i] (.var 26) (.var 16))), -- 1142
    .aug 34 .add (.ein2 [[a, b, e, f], [f, i]] [a, b, e, i] (.var 30) (.var 15)), -- 1143
    .aug 34 .sub (.bin .mul (.lit 1 2) (.ein2 [[m, n, i, e], [a, b, m, n]] [a, b, e, i] (.var 6) (.var 21))), -- 1144
    .assign 25 (.neg (.ein2 [[b, m, e, f], [a, f, m, i]] [a, b, e, i] (.var 10) (.var 16))), -- 1145
    .assign 35 (.neg (.transp [1, 0, 2, 3] (.var 9))), -- 1146
    .aug 35 .sub (.ein2 [[m, n, e, f], [b, f, n, i]] [m, b, e, i] (.var 7) (.var 16)), -- 1147
    .aug 25 .add (.ein2 [[m, b, e, i], [a, m]] [a, b, e, i] (.var 35) (.var 15)), -- 1148
    .aug 34 .sub (.bin .sub (.var 25) (.transp [1, 0, 2, 3] (.var 25))), -- 1149
    .assign 36 (.neg (.transp [1, 0, 2, 3] (.var 8))), -- 1151
    .aug 36 .sub (.ein2 [[m, e], [b, e, i, j]] [m, b, i, j] (.var 26) (.var 16)), -- 1152
    .aug 36 .sub (.ein2 [[m, n, i, j], [b, n]] [m, b, i, j] (.var 29) (.var 15)), -- 1153
    .aug 36 .sub (.bin .mul (.lit 1 2) (.ein2 [[b, m, e, f], [e, f, i, j]] [m, b, i, j] (.var 10) (.var 21))), -- 1154
    .assign 25 (.ein2 [[m, n, i, e], [b, e, j, n]] [m, b, i, j] (.var 6) (.var 16)), -- 1155
    .assign 35 (.neg (.transp [1, 0, 2, 3] (.var 9))), -- 1156
    .aug 35 .sub (.ein2 [[m, n, e, f], [b, f, n, j]] [m, b, e, j] (.var 7) (.var 16)), -- 1157
    .aug 25 .add (.ein2 [[e, i], [m, b, e, j]] [m, b, i, j] (.var 15) (.var 35)), -- 1158
    .aug 36 .add (.bin .sub (.var 25) (.transp [0, 1, 3, 2] (.var 25))), -- 1159
    .assign 37 (.bin .mul (.neg (.lit 1 2)) (.ein2 [[m, n, a, f], [e, f, m, n]] [a, e] (.var 14) (.var 16))), -- 1161
    .assign 38 (.bin .mul (.lit 1 2) (.ein2 [[i, n, e, f], [e, f, m, n]] [m, i] (.var 14) (.var 16))), -- 1162
    .aug 0 .add (.ein2 [[i, e], [e, a]] [i, a] (.var 13) (.var 27)), -- 1164
    .aug 0 .sub (.ein2 [[m, a], [i, m]] [i, a] (.var 13) (.var 28)), -- 1165
    .aug 0 .add (.ein2 [[m, e], [i, e, a, m]] [i, a] (.var 13) (.var 31)), -- 1166
    .aug 0 .add (.bin .mul (.lit 1 2) (.ein2 [[i, m, e, f], [e, f, a, m]] [i, a] (.var 14) (.var 34))), -- 1167
    .aug 0 .sub (.bin .mul (.lit 1 2) (.ein2 [[m, n, a, e], [i, e, m, n]] [i, a] (.var 14) (.var 36))), -- 1168
    .aug 0 .sub (.ein2 [[e, f], [e, i, f, a]] [i, a] (.var 37) (.var 33)), -- 1169
    .aug 0 .sub (.ein2 [[m, n], [m, i, n, a]] [i, a] (.var 38) (.var 32)), -- 1170
    .aug 1 .add (.bin .mul (.lit 1 2) (.ein2 [[m, n, a, b], [i, j, m, n]] [i, j, a, b] (.var 14) (.var 29))), -- 1172
    .aug 1 .add (.bin .mul (.lit 1 2) (.ein2 [[i, j, e, f], [e, f, a, b]] [i, j, a, b] (.var 14) (.var 30))), -- 1173
    .assign 39 (.ein2 [[i, a], [j, b]] [i, j, a, b] (.var 13) (.var 26)), -- 1175
    .aug 39 .add (.ein2 [[i, m, a, e], [j, e, b, m]] [i, j, a, b] (.var 14) (.var 31)), -- 1176
    .aug 1 .add (.bin .add (.bin .sub (.bin .sub (.var 39) (.transp [0, 1, 3, 2] (.var 39))) (.transp [1, 0, 2, 3] (.var 39))) (.transp [1, 0, 3, 2] (.var 39))), -- 1177
    .assign 40 (.neg (.ein2 [[i, m, a, b], [j, m]] [i, j, a, b] (.var 14) (.var 28))), -- 1180
    .aug 40 .add (.ein2 [[i, e], [e, j, a, b]] [i, j, a, b] (.var 13) (.var 33)), -- 1181
    .aug 40 .sub (.ein2 [[i, m, a, b], [m, j]] [i, j, a, b] (.var 7) (.var 38)), -- 1182
    .aug 1 .add (.bin .sub (.var 40) (.transp [1, 0, 2, 3] (.var 40))), -- 1183
    .assign 41 (.ein2 [[i, j, a, e], [e, b]] [i, j, a, b] (.var 14) (.var 27)), -- 1185
    .aug 41 .sub (.ein2 [[m, a], [i, j, m, b]] [i, j, a, b] (.var 13) (.var 32)), -- 1186
    .aug 41 .add (.ein2 [[i, j, a, e], [b, e]] [i, j, a, b] (.var 7) (.var 37)), -- 1187
    .aug 1 .add (.bin .sub (.var 41) (.transp [0, 1, 3, 2] (.var 41))) -- 1188
    ]
  ret := []

/-- cqcpy/cc_equations.py:1191-1335 (`_Lambda_opt`).  Names: 0 L1, 1 L2, 2 F.oo, 3 F.ov, 4 F.vv, 5 I.oooo, 6 I.ooov, 7 I.oovv, 8 I.vooo, 9 I.vovo, 10 I.vovv, 11 I.vvvo, 12 I.vvvv, 13 L1old, 14 L2old, 15 T1old, 16 T2old, 17 fac, 18 TTemp, 19 IvovoT1, 20 IvovoT2, 21 IooovT, 22 IvovvT, 23 IovT, 24 IToo, 25 temp, 26 ITvv, 27 ITvovo, 28 IToovv, 29 ITvooo, 30 ITvvvo, 31 ITov, 32 ITvovv, 33 ITooov, 34 ITvvvv, 35 IToooo, 36 Ltemp1, 37 Ltemp2. -/
def Lambda_opt_proc : Fun where
  params := [0, 1, 2, 3, 4, 5, 6, 7, 8, 9, 10, 11, 12, 13, 14, 15, 16, 17]
  body := .block [
    .assign 18 (.bin .add (.bin .mul (.lit 1 2) (.var 16)) (.ein2 [[b, j], [c, k]] [b, c, j, k] (.var 15) (.var 15))), -- 1193
    .assign 19 (.ein2 [[a, i, b, c], [c, k]] [a, i, b, k] (.var 10) (.var 15)), -- 1194
    .assign 20 (.ein2 [[b, j], [j, i, k, a]] [b, i, a, k] (.var 15) (.var 6)), -- 1195
    .assign 21 (.ein2 [[i, k, b, c], [b, j]] [i, k, j, c] (.var 7) (.var 15)), -- 1196
    .assign 22 (.ein2 [[c, k], [k, i, a, b]] [c, i, a, b] (.var 15) (.var 7)), -- 1197
    .assign 23 (.ein2 [[i, k, a, c], [c, k]] [i, a] (.var 7) (.var 15)), -- 1198
    .assign 24 (.bin .add (.bin .add (.bin .add (.ein2 [[i, b], [b, j]] [i, j] (.var 3) (.var 15)) (.var 2)) (.ein2 [[i, k, b, c], [b, c, j, k]] [i, j] (.var 7) (.var 18))) (.ein2 [[i, j, k, b], [b, j]] [i, k] (.var 6) (.var 15))), -- 1201
    .aug 0 .sub (.bin .mul (.var 17) (.ein2 [[j, a], [i, j]] [i, a] (.var 13) (.var 24))), -- 1204
    .assign 25 (.bin .mul (.var 17) (.ein2 [[i, k, a, b], [j, k]] [i, j, a, b] (.var 14) (.var 24))), -- 1206
    .aug 1 .sub (.var 25), -- 1207
    .aug 1 .add (.transp [1, 0, 2, 3] (.var 25)), -- 1208
    .del 24, -- 1209
    .del 25, -- 1210
    .assign 26 (.bin .add (.bin .sub (.bin .sub (.ein2 [[j, a], [b, j]] [b, a] (.var 3) (.var 15)) (.var 4)) (.ein2 [[b, k, a, c], [c, k]] [b, a] (.var 10) (.var 15))) (.ein2 [[j, k, a, c], [b, c, j, k]] [b, a] (.var 7) (.var 18))), -- 1213
    .aug 0 .sub (.bin .mul (.var 17) (.ein2 [[i, b], [b, a]] [i, a] (.var 13) (.var 26))), -- 1216
    .assign 25 (.bin .mul (.var 17) (.ein2 [[i, j, a, c], [c, b]] [i, j, a, b] (.var 14) (.var 26))), -- 1218
    .aug 1 .sub (.var 25), -- 1219
    .aug 1 .add (.transp [0, 1, 3, 2] (.var 25)), -- 1220
    .del 26, -- 1221
    .del 25, -- 1222
    .assign 27 (.bin .sub (.bin .sub (.neg (.var 19)) (.var 20)) (.var 9)), -- 1225
    .aug 0 .add (.bin .mul (.var 17) (.ein2 [[j, b], [b, i, a, j]] [i, a] (.var 13) (.var 27))), -- 1226
    .del 27, -- 1227
    .assign 28 (.bin .sub (.ein2 [[k, i, c, a], [b, c, j, k]] [i, j, a, b] (.var 7) (.var 16)) (.ein2 [[c, i, b, a], [b, j]] [i, j, a, c] (.var 22) (.var 15))), -- 1230
    .aug 0 .add (.bin .mul (.var 17) (.ein2 [[j, b], [i, j, a, b]] [i, a] (.var 13) (.var 28))), -- 1232
    .del 28, -- 1233
    .assign 29 (.bin .sub (.bin .sub (.bin .add (.bin .add (.bin .sub (.bin .add (.bin .add (.bin .add (.bin .add (.ein2 [[c, i, b, k], [b, j]] [c, i, j, k] (.var 9) (.var 15)) (.bin .mul (.lit 1 2) (.var 8))) (.bin .mul (.lit 1 2) (.ein2 [[i, c], [b, c, j, k]] [b, i, j, k] (.var 3) (.var 16)))) (.bin .mul (.lit 1 2) (.ein2 [[i, j, k, l], [b, j]] [b, i, k, l] (.var 5) (.var 15)))) (.ein2 [[k, i, l, c], [b, c, j, k]] [b, i, l, j] (.var 6) (.var 16))) (.ein2 [[b, i, c, l], [c, k]] [b, i, l, k] (.var 20) (.var 15))) (.bin .mul (.lit 1 2) (.ein2 [[d, i, b, c], [b, c, j, k]] [d, i, j, k] (.var 10) (.var 18)))) (.bin .mul (.lit 1 2) (.ein2 [[i, d], [c, d, k, l]] [c, i, k, l] (.var 23) (.var 16)))) (.ein2 [[i, k, j, c], [c, d, k, l]] [d, i, j, l] (.var 21) (.var 16))) (.bin .mul (.lit 1 2) (.ein2 [[b, i, c, d], [c, d, k, l]] [b, i, k, l] (.var 22) (.var 18)))), -- 1236
    .aug 0 .add (.bin .mul (.var 17) (.ein2 [[j, k, a, b], [b, i, j, k]] [i, a] (.var 14) (.var 29))), -- 1245
    .del 29, -- 1246
    .assign 30 (.bin .add (.bin .add (.bin .sub (.bin .add (.bin .sub (.bin .sub (.bin .sub (.bin .sub (.bin .sub (.ein2 [[c, j, a, k], [b, j]] [c, b, a, k] (.var 9) (.var 15)) (.bin .mul (.lit 1 2) (.var 11))) (.bin .mul (.lit 1 2) (.ein2 [[k, a], [b, c, j, k]] [b, c, a, j] (.var 3) (.var 16)))) (.bin .mul (.lit 1 2) (.ein2 [[c, d, a, b], [b, j]] [c, d, a, j] (.var 12) (.var 15)))) (.ein2 [[d, k, c, a], [b, c, j, k]] [b, d, a, j] (.var 10) (.var 16))) (.ein2 [[d, j, a, k], [b, j]] [b, d, a, k] (.var 19) (.var 15))) (.bin .mul (.lit 1 2) (.ein2 [[j, k, l, a], [b, c, j, k]] [b, c, a, l] (.var 6) (.var 18)))) (.bin .mul (.lit 1 2) (.ein2 [[l, a], [c, d, k, l]] [c, d, a, k] (.var 23) (.var 16)))) (.ein2 [[b, k, a, c], [c, d, k, l]] [b, d, a, l] (.var 22) (.var 16))) (.bin .mul (.lit 1 2) (.ein2 [[k, l, j, a], [c, d, k, l]] [c, d, a, j] (.var 21) (.var 18)))), -- 1249
    .aug 0 .add (.bin .mul (.var 17) (.ein2 [[i, k, b, c], [c, b, a, k]] [i, a] (.var 14) (.var 30))), -- 1258
    .del 30, -- 1259
    .assign 31 (.bin .add (.var 23) (.var 3)), -- 1262
    .assign 25 (.bin .mul (.var 17) (.ein2 [[j, b], [i, a]] [i, j, a, b] (.var 13) (.var 31))), -- 1263
    .aug 1 .add (.var 25), -- 1264
    .aug 1 .sub (.transp [1, 0, 2, 3] (.var 25)), -- 1265
    .aug 1 .sub (.transp [0, 1, 3, 2] (.var 25)), -- 1266
    .aug 1 .add (.transp [1, 0, 3, 2] (.var 25)), -- 1267
    .del 31, -- 1268
    .assign 32 (.bin .sub (.var 22) (.var 10)), -- 1271
    .assign 25 (.bin .mul (.var 17) (.ein2 [[i, c], [c, j, a, b]] [i, j, a, b] (.var 13) (.var 32))), -- 1272
    .aug 1 .sub (.var 25), -- 1273
    .aug 1 .add (.transp [1, 0, 2, 3] (.var 25)), -- 1274
    .del 32, -- 1275
    .assign 33 (.bin .add (.var 21) (.var 6)), -- 1278
    .assign 25 (.bin .mul (.var 17) (.ein2 [[k, a], [i, j, k, b]] [i, j, a, b] (.var 13) (.var 33))), -- 1279
    .aug 1 .sub (.var 25), -- 1280
    .aug 1 .add (.transp [0, 1, 3, 2] (.var 25)), -- 1281
    .del 33, -- 1282
    .assign 27 (.bin .sub (.bin .sub (.bin .sub (.neg (.var 19)) (.var 20)) (.var 9)) (.ein2 [[d, j, c, b], [c, k]] [d, j, b, k] (.var 22) (.var 15))), -- 1285
    .assign 25 (.bin .mul (.var 17) (.ein2 [[i, k, a, d], [d, j, b, k]] [i, j, a, b] (.var 14) (.var 27))), -- 1287
    .aug 1 .add (.var 25), -- 1288
    .aug 1 .sub (.transp [1, 0, 2, 3] (.var 25)), -- 1289
    .aug 1 .sub (.transp [0, 1, 3, 2] (.var 25)), -- 1290
    .aug 1 .add (.transp [1, 0, 3, 2] (.var 25)), -- 1291
    .del 27, -- 1292
    .assign 34 (.bin .add (.bin .add (.ein2 [[d, k, a, b], [c, k]] [c, d, a, b] (.var 10) (.var 15)) (.bin .mul (.lit 1 2) (.ein2 [[k, l, a, b], [c, d, k, l]] [c, d, a, b] (.var 7) (.var 18)))) (.bin .mul (.lit 1 2) (.var 12))), -- 1295
    .aug 1 .add (.bin .mul (.var 17) (.ein2 [[i, j, c, d], [c, d, a, b]] [i, j, a, b] (.var 14) (.var 34))), -- 1298
    .del 34, -- 1299
    .assign 35 (.bin .sub (.bin .sub (.ein2 [[i, j, l, c], [c, k]] [i, j, k, l] (.var 6) (.var 15)) (.bin .mul (.lit 1 2) (.ein2 [[i, j, c, d], [c, d, k, l]] [i, j, k, l] (.var 7) (.var 18)))) (.bin .mul (.lit 1 2) (.var 5))), -- 1302
    .aug 1 .sub (.bin .mul (.var 17) (.ein2 [[k, l, a, b], [i, j, k, l]] [i, j, a, b] (.var 14) (.var 35))), -- 1305
    .del 35, -- 1306
    .assign 28 (.ein2 [[l, j, d, b], [c, d, k, l]] [k, j, c, b] (.var 7) (.var 16)), -- 1309
    .assign 25 (.bin .mul (.var 17) (.ein2 [[i, k, a, c], [k, j, c, b]] [i, j, a, b] (.var 14) (.var 28))), -- 1310
    .aug 1 .add (.var 25), -- 1311
    .aug 1 .sub (.transp [1, 0, 2, 3] (.var 25)), -- 1312
    .aug 1 .sub (.transp [0, 1, 3, 2] (.var 25)), -- 1313
    .aug 1 .add (.transp [1, 0, 3, 2] (.var 25)), -- 1314
    .del 28, -- 1315
    .assign 36 (.ein2 [[j, k, b, d], [b, c, j, k]] [c, d] (.var 14) (.var 16)), -- 1318
    .assign 37 (.ein2 [[j, l, b, c], [b, c, j, k]] [l, k] (.var 14) (.var 16)), -- 1319
    .aug 0 .add (.bin .mul (.bin .mul (.lit 1 2) (.var 17)) (.ein2 [[c, d], [d, i, c, a]] [i, a] (.var 36) (.var 10))), -- 1321
    .aug 0 .sub (.bin .mul (.bin .mul (.lit 1 2) (.var 17)) (.ein2 [[l, k], [k, i, l, a]] [i, a] (.var 37) (.var 6))), -- 1323
    .aug 0 .sub (.bin .mul (.bin .mul (.lit 1 2) (.var 17)) (.ein2 [[d, b], [b, i, d, a]] [i, a] (.var 36) (.var 22))), -- 1325
    .aug 0 .sub (.bin .mul (.bin .mul (.lit 1 2) (.var 17)) (.ein2 [[j, l], [l, i, j, a]] [i, a] (.var 37) (.var 21))), -- 1327
    .assign 25 (.bin .mul (.bin .mul (.lit 1 2) (.var 17)) (.ein2 [[d, a], [i, j, d, b]] [i, j, a, b] (.var 36) (.var 7))), -- 1329
    .aug 1 .sub (.var 25), -- 1330
    .aug 1 .add (.transp [0, 1, 3, 2] (.var 25)), -- 1331
    .assign 25 (.bin .mul (.bin .mul (.lit 1 2) (.var 17)) (.ein2 [[i, l], [l, j, a, b]] [i, j, a, b] (.var 37) (.var 7))), -- 1333
    .aug 1 .sub (.var 25), -- 1334
    .aug 1 .add (.transp [1, 0, 2, 3] (.var 25)) -- 1335
    ]
  ret := []

/-- cqcpy/cc_equations.py:1338-1420 (`_Lambda_opt_int`).  Names: 0 L1, 1 L2, 2 I.ooov, 3 I.oovv, 4 I.vovv, 5 L1old, 6 L2old, 7 T2old, 8 intor.IToo, 9 intor.IToooo, 10 intor.ITooov, 11 intor.IToovv, 12 intor.IToovv2, 13 intor.ITov, 14 intor.ITvooo, 15 intor.ITvovo, 16 intor.ITvovo2, 17 intor.ITvovv, 18 intor.ITvv, 19 intor.ITvvvo, 20 intor.ITvvvv, 21 intor.IooovT, 22 intor.IvovvT, 23 fac, 24 temp, 25 Ltemp1, 26 Ltemp2. -/
def Lambda_opt_int_proc : Fun where
  params := [0, 1, 2, 3, 4, 5, 6, 7, 8, 9, 10, 11, 12, 13, 14, 15, 16, 17, 18, 19, 20, 21, 22, 23]
  body := .block [
    .aug 0 .sub (.bin .mul (.var 23) (.ein2 [[j, a], [i, j]] [i, a] (.var 5) (.var 8))), -- 1340
    .assign 24 (.bin .mul (.var 23) (.ein2 [[i, k, a, b], [j, k]] [i, j, a, b] (.var 6) (.var 8))), -- 1342
    .aug 1 .sub (.var 24), -- 1343
    .aug 1 .add (.transp [1, 0, 2, 3] (.var 24)), -- 1344
    .aug 0 .sub (.bin .mul (.var 23) (.ein2 [[i, b], [b, a]] [i, a] (.var 5) (.var 18))), -- 1347
    .assign 24 (.bin .mul (.var 23) (.ein2 [[i, j, a, c], [c, b]] [i, j, a, b] (.var 6) (.var 18))), -- 1349
    .aug 1 .sub (.var 24), -- 1350
    .aug 1 .add (.transp [0, 1, 3, 2] (.var 24)), -- 1351
    .aug 0 .add (.bin .mul (.var 23) (.ein2 [[j, b], [b, i, a, j]] [i, a] (.var 5) (.var 15))), -- 1354
    .aug 0 .add (.bin .mul (.var 23) (.ein2 [[j, b], [i, j, a, b]] [i, a] (.var 5) (.var 11))), -- 1357
    .aug 0 .add (.bin .mul (.var 23) (.ein2 [[j, k, a, b], [b, i, j, k]] [i, a] (.var 6) (.var 14))), -- 1360
    .aug 0 .add (.bin .mul (.var 23) (.ein2 [[i, k, b, c], [c, b, a, k]] [i, a] (.var 6) (.var 19))), -- 1363
    .assign 24 (.bin .mul (.var 23) (.ein2 [[j, b], [i, a]] [i, j, a, b] (.var 5) (.var 13))), -- 1366
    .aug 1 .add (.var 24), -- 1367
    .aug 1 .sub (.transp [1, 0, 2, 3] (.var 24)), -- 1368
    .aug 1 .sub (.transp [0, 1, 3, 2] (.var 24)), -- 1369
    .aug 1 .add (.transp [1, 0, 3, 2] (.var 24)), -- 1370
    .assign 24 (.bin .mul (.var 23) (.ein2 [[i, c], [c, j, a, b]] [i, j, a, b] (.var 5) (.var 17))), -- 1373
    .aug 1 .sub (.var 24), -- 1374
    .aug 1 .add (.transp [1, 0, 2, 3] (.var 24)), -- 1375
    .assign 24 (.bin .mul (.var 23) (.ein2 [[k, a], [i, j, k, b]] [i, j, a, b] (.var 5) (.var 10))), -- 1378
    .aug 1 .sub (.var 24), -- 1379
    .aug 1 .add (.transp [0, 1, 3, 2] (.var 24)), -- 1380
    .assign 24 (.bin .mul (.var 23) (.ein2 [[i, k, a, d], [d, j, b, k]] [i, j, a, b] (.var 6) (.var 16))), -- 1383
    .aug 1 .add (.var 24), -- 1384
    .aug 1 .sub (.transp [1, 0, 2, 3] (.var 24)), -- 1385
    .aug 1 .sub (.transp [0, 1, 3, 2] (.var 24)), -- 1386
    .aug 1 .add (.transp [1, 0, 3, 2] (.var 24)), -- 1387
    .aug 1 .add (.bin .mul (.var 23) (.ein2 [[i, j, c, d], [c, d, a, b]] [i, j, a, b] (.var 6) (.var 20))), -- 1390
    .aug 1 .sub (.bin .mul (.var 23) (.ein2 [[k, l, a, b], [i, j, k, l]] [i, j, a, b] (.var 6) (.var 9))), -- 1393
    .assign 24 (.bin .mul (.var 23) (.ein2 [[i, k, a, c], [k, j, c, b]] [i, j, a, b] (.var 6) (.var 12))), -- 1396
    .aug 1 .add (.var 24), -- 1397
    .aug 1 .sub (.transp [1, 0, 2, 3] (.var 24)), -- 1398
    .aug 1 .sub (.transp [0, 1, 3, 2] (.var 24)), -- 1399
    .aug 1 .add (.transp [1, 0, 3, 2] (.var 24)), -- 1400
    .assign 25 (.ein2 [[j, k, b, d], [b, c, j, k]] [c, d] (.var 6) (.var 7)), -- 1403
    .assign 26 (.ein2 [[j, l, b, c], [b, c, j, k]] [l, k] (.var 6) (.var 7)), -- 1404
    .aug 0 .add (.bin .mul (.bin .mul (.lit 1 2) (.var 23)) (.ein2 [[c, d], [d, i, c, a]] [i, a] (.var 25) (.var 4))), -- 1406
    .aug 0 .sub (.bin .mul (.bin .mul (.lit 1 2) (.var 23)) (.ein2 [[l, k], [k, i, l, a]] [i, a] (.var 26) (.var 2))), -- 1408
    .aug 0 .sub (.bin .mul (.bin .mul (.lit 1 2) (.var 23)) (.ein2 [[d, b], [b, i, d, a]] [i, a] (.var 25) (.var 22))), -- 1410
    .aug 0 .sub (.bin .mul (.bin .mul (.lit 1 2) (.var 23)) (.ein2 [[j, l], [l, i, j, a]] [i, a] (.var 26) (.var 21))), -- 1412
    .assign 24 (.bin .mul (.bin .mul (.lit 1 2) (.var 23)) (.ein2 [[d, a], [i, j, d, b]] [i, j, a, b] (.var 25) (.var 3))), -- 1414
    .aug 1 .sub (.var 24), -- 1415
    .aug 1 .add (.transp [0, 1, 3, 2] (.var 24)), -- 1416
    .assign 24 (.bin .mul (.bin .mul (.lit 1 2) (.var 23)) (.ein2 [[i, l], [l, j, a, b]] [i, j, a, b] (.var 26) (.var 3))), -- 1418
    .aug 1 .sub (.var 24), -- 1419
    .aug 1 .add (.transp [1, 0, 2, 3] (.var 24)) -- 1420
    ]
  ret := []

/-- cqcpy/cc_equations.py:1423-1980 (`_uccsd_Lambda_opt`).  Names: 0 L1a, 1 L1b, 2 L2aa, 3 L2ab, 4 L2bb, 5 Fa.oo, 6 Fa.ov, 7 Fa.vv, 8 Fb.oo, 9 Fb.ov, 10 Fb.vv, 11 Ia.oooo, 12 Ia.ooov, 13 Ia.oovv, 14 Ia.vooo, 15 Ia.vovo, 16 Ia.vovv, 17 Ia.vvvo, 18 Ia.vvvv, 19 Ib.oooo, 20 Ib.ooov, 21 Ib.oovv, 22 Ib.vooo, 23 Ib.vovo, 24 Ib.vovv, 25 Ib.vvvo, 26 Ib.vvvv, 27 Iabab.oooo, 28 Iabab.ooov, 29 Iabab.oovo, 30 Iabab.oovv, 31 Iabab.ovoo, 32 Iabab.ovov, 33 Iabab.ovvo, 34 Iabab.ovvv, 35 Iabab.vooo, 36 Iabab.voov, 37 Iabab.vovo, 38 Iabab.vovv, 39 Iabab.vvov, 40 Iabab.vvvo, 41 Iabab.vvvv, 42 L1olds.0, 43 L1olds.1, 44 L2olds.0, 45 L2olds.1, 46 L2olds.2, 47 T1olds.0, 48 T1olds.1, 49 T2olds.0, 50 T2olds.1, 51 T2olds.2, 52 fac, 53 L1aold, 54 L1bold, 55 L2aaold, 56 L2abold, 57 L2bbold, 58 T1aold, 59 T1bold, 60 T2aaold, 61 T2abold, 62 T2bbold, 63 TTempaa, 64 TTempab, 65 TTempbb, 66 Ivovos1, 67 IVOVOs1, 68 IvOvOs1, 69 IVoVos1, 70 IvOVos1, 71 IVovOs1, 72 Ivovos2, 73 IVOVOs2, 74 IvOvOs2, 75 IVoVos2, 76 IvOVos2, 77 IVovOs2, 78 Ivovvs, 79 IVOVVs, 80 IVoVvs, 81 IvOvVs, 82 IvOVvs, 83 IVovVs, 84 Iooovs, 85 IOOOVs, 86 IOoOvs, 87 IoOoVs, 88 IoOOvs, 89 IOooVs, 90 Iovs, 91 IOVs, 92 ITooa, 93 tempa, 94 tempab, 95 IToob, 96 tempb, 97 ITvva, 98 ITvvb, 99 IToovvs1, 100 ITOOVVs1, 101 IToOvVs1, 102 ITOoVvs1, 103 ITvooos, 104 ITVOOOs, 105 ITVooOs, 106 ITvOOos, 107 ITVoOos, 108 ITvOoOs, 109 ITvvvos, 110 ITVVVOs, 111 ITVvvOs, 112 ITvVVos, 113 ITVvVos, 114 ITvVvOs, 115 ITovs, 116 tempaa, 117 ITOVs, 118 tempbb, 119 ITvovvs, 120 ITVOVVs, 121 ITvOvVs, 122 ITVovVs, 123 ITooovs, 124 ITOOOVs, 125 IToOoVs, 126 IToOOvs, 127 ITvovos, 128 ITVOVOs, 129 ITvOVos, 130 ITVovOs, 131 ITvOvOs, 132 ITVoVos, 133 ITvvvvs, 134 ITVVVVs, 135 ITvVvVs, 136 ITVvvVs, 137 IToooos, 138 ITOOOOs, 139 IToOoOs, 140 IToOOos, 141 IToovvs, 142 ITOOVVs, 143 IToOvVs, 144 ITOoVvs, 145 ITOOvvs, 146 ITooVVs, 147 Lt1a, 148 Lt1b, 149 Lt2a, 150 Lt2b. -/
def uccsd_Lambda_opt_proc : Fun where
  params := [0, 1, 2, 3, 4, 5, 6, 7, 8, 9, 10, 11, 12, 13, 14, 15, 16, 17, 18, 19, 20, 21, 22, 23, 24, 25, 26, 27, 28, 29, 30, 31, 32, 33, 34, 35, 36, 37, 38, 39, 40, 41, 42, 43, 44, 45, 46, 47, 48, 49, 50, 51, 52]
  body := .block [
    .assign 53 (.var 42), -- 1427
    .assign 54 (.var 43), -- 1427
    .assign 55 (.var 44), -- 1428
    .assign 56 (.var 45), -- 1428
    .assign 57 (.var 46), -- 1428
    .assign 58 (.var 47), -- 1429
    .assign 59 (.var 48), -- 1429
    .assign 60 (.var 49), -- 1430
    .assign 61 (.var 50), -- 1430
    .assign 62 (.var 51), -- 1430
    .assign 63 (.bin .add (.bin .mul (.lit 1 2) (.var 60)) (.ein2 [[b, j], [c, k]] [b, c, j, k] (.var 58) (.var 58))), -- 1432
    .assign 64 (.bin .add (.bin .mul (.lit 1 2) (.var 61)) (.ein2 [[b, j], [c, k]] [b, c, j, k] (.var 58) (.var 59))), -- 1433
    .assign 65 (.bin .add (.bin .mul (.lit 1 2) (.var 62)) (.ein2 [[b, j], [c, k]] [b, c, j, k] (.var 59) (.var 59))), -- 1434
    .assign 66 (.ein2 [[a, i, b, c], [c, k]] [a, i, b, k] (.var 16) (.var 58)), -- 1436
    .assign 67 (.ein2 [[a, i, b, c], [c, k]] [a, i, b, k] (.var 24) (.var 59)), -- 1437
    .assign 68 (.ein2 [[a, i, b, c], [c, k]] [a, i, b, k] (.var 38) (.var 59)), -- 1438
    .assign 69 (.ein2 [[i, a, c, b], [c, k]] [a, i, b, k] (.var 34) (.var 58)), -- 1439
    .assign 70 (.neg (.ein2 [[a, i, c, b], [c, k]] [a, i, b, k] (.var 38) (.var 58))), -- 1440
    .assign 71 (.neg (.ein2 [[i, a, b, c], [c, k]] [a, i, b, k] (.var 34) (.var 59))), -- 1441
    .assign 72 (.ein2 [[b, j], [j, i, k, a]] [b, i, a, k] (.var 58) (.var 12)), -- 1443
    .assign 73 (.ein2 [[b, j], [j, i, k, a]] [b, i, a, k] (.var 59) (.var 20)), -- 1444
    .assign 74 (.neg (.ein2 [[b, j], [j, i, a, k]] [b, i, a, k] (.var 58) (.var 29))), -- 1445
    .assign 75 (.neg (.ein2 [[b, j], [i, j, k, a]] [b, i, a, k] (.var 59) (.var 28))), -- 1446
    .assign 76 (.ein2 [[b, j], [j, i, k, a]] [b, i, a, k] (.var 58) (.var 28)), -- 1447
    .assign 77 (.ein2 [[b, j], [i, j, a, k]] [b, i, a, k] (.var 59) (.var 29)), -- 1448
    .assign 78 (.ein2 [[c, k], [k, i, a, b]] [c, i, a, b] (.var 58) (.var 13)), -- 1450
    .assign 79 (.ein2 [[c, k], [k, i, a, b]] [c, i, a, b] (.var 59) (.var 21)), -- 1451
    .assign 80 (.ein2 [[c, k], [i, k, b, a]] [c, i, a, b] (.var 59) (.var 30)), -- 1452
    .assign 81 (.ein2 [[c, k], [k, i, a, b]] [c, i, a, b] (.var 58) (.var 30)), -- 1453
    .assign 82 (.neg (.ein2 [[c, k], [k, i, b, a]] [c, i, a, b] (.var 58) (.var 30))), -- 1454
    .assign 83 (.neg (.ein2 [[c, k], [i, k, a, b]] [c, i, a, b] (.var 59) (.var 30))), -- 1455
    .assign 84 (.ein2 [[i, k, b, c], [b, j]] [i, k, j, c] (.var 13) (.var 58)), -- 1457
    .assign 85 (.ein2 [[i, k, b, c], [b, j]] [i, k, j, c] (.var 21) (.var 59)), -- 1458
    .assign 86 (.ein2 [[k, i, c, b], [b, j]] [i, k, j, c] (.var 30) (.var 59)), -- 1459
    .assign 87 (.ein2 [[i, k, b, c], [b, j]] [i, k, j, c] (.var 30) (.var 58)), -- 1460
    .assign 88 (.neg (.ein2 [[i, k, c, b], [b, j]] [i, k, j, c] (.var 30) (.var 59))), -- 1461
    .assign 89 (.neg (.ein2 [[k, i, b, c], [b, j]] [i, k, j, c] (.var 30) (.var 58))), -- 1462
    .assign 90 (.ein2 [[i, k, a, c], [c, k]] [i, a] (.var 13) (.var 58)), -- 1464
    .aug 90 .add (.ein2 [[i, k, a, c], [c, k]] [i, a] (.var 30) (.var 59)), -- 1465
    .assign 91 (.ein2 [[i, k, a, c], [c, k]] [i, a] (.var 21) (.var 59)), -- 1466
    .aug 91 .add (.ein2 [[k, i, c, a], [c, k]] [i, a] (.var 30) (.var 58)), -- 1467
    .assign 92 (.bin .add (.bin .add (.bin .add (.bin .add (.bin .add (.bin .add (.ein2 [[i, b], [b, j]] [i, j] (.var 6) (.var 58)) (.var 5)) (.ein2 [[i, k, b, c], [b, c, j, k]] [i, j] (.var 13) (.var 63))) (.ein2 [[i, k, b, c], [b, c, j, k]] [i, j] (.var 30) (.var 64))) (.bin .mul (.lit 1 2) (.ein2 [[i, k, c, b], [c, b, j, k]] [i, j] (.var 30) (.var 61)))) (.ein2 [[i, j, k, b], [b, j]] [i, k] (.var 12) (.var 58))) (.ein2 [[i, j, k, b], [b, j]] [i, k] (.var 28) (.var 59))), -- 1470
    .aug 0 .sub (.bin .mul (.var 52) (.ein2 [[j, a], [i, j]] [i, a] (.var 53) (.var 92))), -- 1476
    .assign 93 (.ein2 [[i, k, a, b], [j, k]] [i, j, a, b] (.var 55) (.var 92)), -- 1477
    .aug 93 .sub (.transp [1, 0, 2, 3] (.var 93)), -- 1478
    .aug 2 .sub (.bin .mul (.var 52) (.var 93)), -- 1479
    .del 93, -- 1480
    .assign 94 (.ein2 [[k, j, a, b], [i, k]] [i, j, a, b] (.var 56) (.var 92)), -- 1481
    .del 92, -- 1482
    .assign 95 (.bin .add (.bin .add (.bin .add (.bin .add (.bin .add (.bin .add (.ein2 [[i, b], [b, j]] [i, j] (.var 9) (.var 59)) (.var 8)) (.ein2 [[i, k, b, c], [b, c, j, k]] [i, j] (.var 21) (.var 65))) (.ein2 [[k, i, c, b], [c, b, k, j]] [i, j] (.var 30) (.var 64))) (.bin .mul (.lit 1 2) (.ein2 [[k, i, b, c], [b, c, k, j]] [i, j] (.var 30) (.var 61)))) (.ein2 [[i, j, k, b], [b, j]] [i, k] (.var 20) (.var 59))) (.ein2 [[j, i, b, k], [b, j]] [i, k] (.var 29) (.var 58))), -- 1483
    .aug 1 .sub (.bin .mul (.var 52) (.ein2 [[j, a], [i, j]] [i, a] (.var 54) (.var 95))), -- 1489
    .assign 96 (.ein2 [[i, k, a, b], [j, k]] [i, j, a, b] (.var 57) (.var 95)), -- 1490
    .aug 96 .sub (.transp [1, 0, 2, 3] (.var 96)), -- 1491
    .aug 4 .sub (.bin .mul (.var 52) (.var 96)), -- 1492
    .del 96, -- 1493
    .aug 94 .add (.ein2 [[i, k, a, b], [j, k]] [i, j, a, b] (.var 56) (.var 95)), -- 1494
    .del 95, -- 1495
    .aug 3 .sub (.bin .mul (.var 52) (.var 94)), -- 1496
    .del 94, -- 1497
    .assign 97 (.bin .sub (.bin .sub (.bin .sub (.ein2 [[j, a], [b, j]] [b, a] (.var 6) (.var 58)) (.var 7)) (.ein2 [[b, k, a, c], [c, k]] [b, a] (.var 16) (.var 58))) (.ein2 [[b, k, a, c], [c, k]] [b, a] (.var 38) (.var 59))), -- 1500
    .aug 97 .add (.ein2 [[j, k, a, c], [b, c, j, k]] [b, a] (.var 13) (.var 63)), -- 1503
    .aug 97 .add (.ein2 [[j, k, a, c], [b, c, j, k]] [b, a] (.var 30) (.var 64)), -- 1504
    .aug 97 .add (.bin .mul (.lit 1 2) (.ein2 [[k, j, a, c], [b, c, k, j]] [b, a] (.var 30) (.var 61))), -- 1505
    .aug 0 .sub (.bin .mul (.var 52) (.ein2 [[i, b], [b, a]] [i, a] (.var 53) (.var 97))), -- 1506
    .assign 93 (.ein2 [[i, j, a, c], [c, b]] [i, j, a, b] (.var 55) (.var 97)), -- 1507
    .aug 93 .sub (.transp [0, 1, 3, 2] (.var 93)), -- 1508
    .assign 94 (.ein2 [[i, j, c, b], [c, a]] [i, j, a, b] (.var 56) (.var 97)), -- 1509
    .del 97, -- 1510
    .assign 98 (.bin .sub (.bin .sub (.bin .sub (.ein2 [[j, a], [b, j]] [b, a] (.var 9) (.var 59)) (.var 10)) (.ein2 [[b, k, a, c], [c, k]] [b, a] (.var 24) (.var 59))) (.ein2 [[k, b, c, a], [c, k]] [b, a] (.var 34) (.var 58))), -- 1511
    .aug 98 .add (.ein2 [[j, k, a, c], [b, c, j, k]] [b, a] (.var 21) (.var 65)), -- 1514
    .aug 98 .add (.ein2 [[k, j, c, a], [c, b, k, j]] [b, a] (.var 30) (.var 64)), -- 1515
    .aug 98 .add (.bin .mul (.lit 1 2) (.ein2 [[j, k, c, a], [c, b, j, k]] [b, a] (.var 30) (.var 61))), -- 1516
    .aug 1 .sub (.bin .mul (.var 52) (.ein2 [[i, b], [b, a]] [i, a] (.var 54) (.var 98))), -- 1517
    .assign 96 (.ein2 [[i, j, a, c], [c, b]] [i, j, a, b] (.var 57) (.var 98)), -- 1518
    .aug 96 .sub (.transp [0, 1, 3, 2] (.var 96)), -- 1519
    .aug 94 .add (.ein2 [[i, j, a, c], [c, b]] [i, j, a, b] (.var 56) (.var 98)), -- 1520
    .del 98, -- 1521
    .aug 2 .sub (.bin .mul (.var 52) (.var 93)), -- 1523
    .aug 3 .sub (.bin .mul (.var 52) (.var 94)), -- 1524
    .aug 4 .sub (.bin .mul (.var 52) (.var 96)), -- 1525
    .assign 99 (.ein2 [[k, i, d, a], [b, d, j, k]] [i, j, a, b] (.var 13) (.var 60)), -- 1528
    .aug 99 .add (.ein2 [[i, k, a, d], [b, d, j, k]] [i, j, a, b] (.var 30) (.var 61)), -- 1529
    .aug 99 .sub (.ein2 [[c, i, b, a], [b, j]] [i, j, a, c] (.var 78) (.var 58)), -- 1530
    .aug 0 .add (.bin .mul (.var 52) (.ein2 [[j, b], [i, j, a, b]] [i, a] (.var 53) (.var 99))), -- 1531
    .del 99, -- 1532
    .assign 100 (.ein2 [[k, i, c, a], [b, c, j, k]] [i, j, a, b] (.var 21) (.var 62)), -- 1534
    .aug 100 .add (.ein2 [[k, i, c, a], [c, b, k, j]] [i, j, a, b] (.var 30) (.var 61)), -- 1535
    .aug 100 .sub (.ein2 [[c, i, b, a], [b, j]] [i, j, a, c] (.var 79) (.var 59)), -- 1536
    .aug 1 .add (.bin .mul (.var 52) (.ein2 [[j, b], [i, j, a, b]] [i, a] (.var 54) (.var 100))), -- 1537
    .del 100, -- 1538
    .assign 101 (.ein2 [[k, i, c, a], [c, b, k, j]] [i, j, a, b] (.var 13) (.var 61)), -- 1540
    .aug 101 .add (.ein2 [[i, k, a, c], [b, c, j, k]] [i, j, a, b] (.var 30) (.var 62)), -- 1541
    .aug 101 .sub (.ein2 [[c, i, b, a], [b, j]] [i, j, a, c] (.var 80) (.var 59)), -- 1542
    .aug 0 .add (.bin .mul (.var 52) (.ein2 [[j, b], [i, j, a, b]] [i, a] (.var 54) (.var 101))), -- 1543
    .del 101, -- 1544
    .assign 102 (.ein2 [[k, i, c, a], [b, c, j, k]] [i, j, a, b] (.var 30) (.var 60)), -- 1546
    .aug 102 .add (.ein2 [[k, i, c, a], [b, c, j, k]] [i, j, a, b] (.var 21) (.var 61)), -- 1547
    .aug 102 .sub (.ein2 [[c, i, b, a], [b, j]] [i, j, a, c] (.var 81) (.var 58)), -- 1548
    .aug 1 .add (.bin .mul (.var 52) (.ein2 [[j, b], [i, j, a, b]] [i, a] (.var 53) (.var 102))), -- 1549
    .del 102, -- 1550
    .assign 103 (.ein2 [[c, i, b, k], [b, j]] [c, i, j, k] (.var 15) (.var 58)), -- 1553
    .aug 103 .add (.bin .mul (.lit 1 2) (.var 14)), -- 1554
    .aug 103 .add (.bin .mul (.lit 1 2) (.ein2 [[i, c], [b, c, j, k]] [b, i, j, k] (.var 6) (.var 60))), -- 1555
    .aug 103 .add (.bin .mul (.lit 1 2) (.ein2 [[i, j, k, l], [b, j]] [b, i, k, l] (.var 11) (.var 58))), -- 1556
    .aug 103 .add (.ein2 [[k, i, l, c], [b, c, j, k]] [b, i, l, j] (.var 12) (.var 60)), -- 1557
    .aug 103 .sub (.ein2 [[i, k, l, c], [b, c, j, k]] [b, i, l, j] (.var 28) (.var 61)), -- 1558
    .aug 103 .sub (.ein2 [[b, i, c, l], [c, k]] [b, i, l, k] (.var 72) (.var 58)), -- 1559
    .aug 103 .add (.bin .mul (.lit 1 2) (.ein2 [[d, i, b, c], [b, c, j, k]] [d, i, j, k] (.var 16) (.var 63))), -- 1560
    .aug 103 .add (.bin .mul (.lit 1 2) (.ein2 [[i, d], [c, d, k, l]] [c, i, k, l] (.var 90) (.var 60))), -- 1561
    .aug 103 .sub (.ein2 [[i, k, j, c], [c, d, k, l]] [d, i, j, l] (.var 84) (.var 60)), -- 1562
    .aug 103 .sub (.ein2 [[i, k, j, c], [d, c, l, k]] [d, i, j, l] (.var 87) (.var 61)), -- 1563
    .aug 103 .sub (.bin .mul (.lit 1 2) (.ein2 [[b, i, c, d], [c, d, k, l]] [b, i, k, l] (.var 78) (.var 63))), -- 1564
    .aug 0 .add (.bin .mul (.var 52) (.ein2 [[j, k, a, b], [b, i, j, k]] [i, a] (.var 55) (.var 103))), -- 1565
    .del 103, -- 1566
    .assign 104 (.ein2 [[c, i, b, k], [b, j]] [c, i, j, k] (.var 23) (.var 59)), -- 1568
    .aug 104 .add (.bin .mul (.lit 1 2) (.var 22)), -- 1569
    .aug 104 .add (.bin .mul (.lit 1 2) (.ein2 [[i, c], [b, c, j, k]] [b, i, j, k] (.var 9) (.var 62))), -- 1570
    .aug 104 .add (.bin .mul (.lit 1 2) (.ein2 [[i, j, k, l], [b, j]] [b, i, k, l] (.var 19) (.var 59))), -- 1571
    .aug 104 .add (.ein2 [[k, i, l, c], [b, c, j, k]] [b, i, l, j] (.var 20) (.var 62)), -- 1572
    .aug 104 .sub (.ein2 [[k, i, c, l], [c, b, k, j]] [b, i, l, j] (.var 29) (.var 61)), -- 1573
    .aug 104 .sub (.ein2 [[b, i, c, l], [c, k]] [b, i, l, k] (.var 73) (.var 59)), -- 1574
    .aug 104 .add (.bin .mul (.lit 1 2) (.ein2 [[d, i, b, c], [b, c, j, k]] [d, i, j, k] (.var 24) (.var 65))), -- 1575
    .aug 104 .add (.bin .mul (.lit 1 2) (.ein2 [[i, d], [c, d, k, l]] [c, i, k, l] (.var 91) (.var 62))), -- 1576
    .aug 104 .sub (.ein2 [[i, k, j, c], [c, d, k, l]] [d, i, j, l] (.var 85) (.var 62)), -- 1577
    .aug 104 .sub (.ein2 [[i, k, j, c], [c, d, k, l]] [d, i, j, l] (.var 86) (.var 61)), -- 1578
    .aug 104 .sub (.bin .mul (.lit 1 2) (.ein2 [[b, i, c, d], [c, d, k, l]] [b, i, k, l] (.var 79) (.var 65))), -- 1579
    .aug 1 .add (.bin .mul (.var 52) (.ein2 [[j, k, a, b], [b, i, j, k]] [i, a] (.var 57) (.var 104))), -- 1580
    .del 104, -- 1581
    .assign 105 (.neg (.ein2 [[i, c, b, k], [b, j]] [c, i, j, k] (.var 33) (.var 58))), -- 1583
    .aug 105 .sub (.bin .mul (.lit 1 2) (.transp [1, 0, 2, 3] (.var 31))), -- 1584
    .aug 105 .sub (.bin .mul (.lit 1 2) (.ein2 [[i, c], [c, b, j, k]] [b, i, j, k] (.var 6) (.var 61))), -- 1585
    .aug 105 .add (.bin .mul (.lit 1 2) (.ein2 [[i, j, k, l], [b, j]] [b, i, k, l] (.var 27) (.var 59))), -- 1586
    .aug 105 .add (.ein2 [[k, i, l, c], [c, b, k, j]] [b, i, l, j] (.var 12) (.var 61)), -- 1587
    .aug 105 .sub (.ein2 [[i, k, l, c], [b, c, j, k]] [b, i, l, j] (.var 28) (.var 62)), -- 1588
    .aug 105 .sub (.ein2 [[b, i, c, l], [c, k]] [b, i, l, k] (.var 75) (.var 59)), -- 1589
    .aug 105 .sub (.bin .mul (.lit 1 2) (.ein2 [[i, d, b, c], [b, c, j, k]] [d, i, j, k] (.var 34) (.var 64))), -- 1590
    .aug 105 .sub (.bin .mul (.lit 1 4) (.ein2 [[i, d, c, b], [c, b, j, k]] [d, i, j, k] (.var 34) (.var 61))), -- 1591
    .aug 105 .sub (.bin .mul (.lit 1 2) (.ein2 [[i, d], [d, c, k, l]] [c, i, k, l] (.var 90) (.var 61))), -- 1592
    .aug 105 .sub (.ein2 [[i, k, j, c], [c, d, k, l]] [d, i, j, l] (.var 84) (.var 61)), -- 1593
    .aug 105 .sub (.ein2 [[i, k, j, c], [c, d, k, l]] [d, i, j, l] (.var 87) (.var 62)), -- 1594
    .aug 105 .sub (.bin .mul (.lit 1 2) (.ein2 [[b, i, c, d], [c, d, k, l]] [b, i, k, l] (.var 83) (.var 64))), -- 1595
    .aug 105 .add (.bin .mul (.lit 1 4) (.ein2 [[b, i, c, d], [d, c, k, l]] [b, i, k, l] (.var 80) (.var 61))), -- 1596
    .aug 0 .add (.bin .mul (.var 52) (.ein2 [[j, k, a, b], [b, i, j, k]] [i, a] (.var 56) (.var 105))), -- 1597
    .del 105, -- 1598
    .assign 106 (.neg (.ein2 [[c, i, k, b], [b, j]] [c, i, j, k] (.var 36) (.var 59))), -- 1600
    .aug 106 .sub (.bin .mul (.lit 1 2) (.transp [0, 1, 3, 2] (.var 35))), -- 1601
    .aug 106 .sub (.bin .mul (.lit 1 2) (.ein2 [[i, c], [b, c, k, j]] [b, i, j, k] (.var 9) (.var 61))), -- 1602
    .aug 106 .add (.bin .mul (.lit 1 2) (.ein2 [[j, i, l, k], [b, j]] [b, i, k, l] (.var 27) (.var 58))), -- 1603
    .aug 106 .add (.ein2 [[k, i, l, c], [b, c, j, k]] [b, i, l, j] (.var 20) (.var 61)), -- 1604
    .aug 106 .sub (.ein2 [[k, i, c, l], [b, c, j, k]] [b, i, l, j] (.var 29) (.var 60)), -- 1605
    .aug 106 .sub (.ein2 [[b, i, c, l], [c, k]] [b, i, l, k] (.var 74) (.var 58)), -- 1606
    .aug 106 .sub (.bin .mul (.lit 1 2) (.ein2 [[d, i, c, b], [c, b, k, j]] [d, i, j, k] (.var 38) (.var 64))), -- 1607
    .aug 106 .sub (.bin .mul (.lit 1 4) (.ein2 [[d, i, b, c], [b, c, k, j]] [d, i, j, k] (.var 38) (.var 61))), -- 1608
    .aug 106 .sub (.bin .mul (.lit 1 2) (.ein2 [[i, d], [c, d, l, k]] [c, i, k, l] (.var 91) (.var 61))), -- 1609
    .aug 106 .sub (.ein2 [[i, k, j, c], [c, d, k, l]] [d, i, j, l] (.var 86) (.var 60)), -- 1610
    .aug 106 .sub (.ein2 [[i, k, j, c], [d, c, l, k]] [d, i, j, l] (.var 85) (.var 61)), -- 1611
    .aug 106 .sub (.bin .mul (.lit 1 2) (.ein2 [[b, i, c, d], [d, c, l, k]] [b, i, k, l] (.var 82) (.var 64))), -- 1612
    .aug 106 .add (.bin .mul (.lit 1 4) (.ein2 [[b, i, c, d], [c, d, l, k]] [b, i, k, l] (.var 81) (.var 61))), -- 1613
    .aug 1 .add (.bin .mul (.var 52) (.ein2 [[k, j, b, a], [b, i, j, k]] [i, a] (.var 56) (.var 106))), -- 1614
    .del 106, -- 1615
    .assign 107 (.ein2 [[i, c, k, b], [b, j]] [c, i, j, k] (.var 32) (.var 59)), -- 1617
    .aug 107 .add (.bin .mul (.lit 1 2) (.transp [1, 0, 3, 2] (.var 31))), -- 1618
    .aug 107 .add (.bin .mul (.lit 1 2) (.ein2 [[i, c], [c, b, k, j]] [b, i, j, k] (.var 6) (.var 61))), -- 1619
    .aug 107 .sub (.bin .mul (.lit 1 2) (.ein2 [[i, j, l, k], [b, j]] [b, i, k, l] (.var 27) (.var 59))), -- 1620
    .aug 107 .sub (.ein2 [[i, k, c, l], [c, b, j, k]] [b, i, l, j] (.var 29) (.var 61)), -- 1621
    .aug 107 .sub (.ein2 [[b, i, c, l], [c, k]] [b, i, l, k] (.var 77) (.var 58)), -- 1622
    .aug 107 .add (.bin .mul (.lit 1 2) (.ein2 [[i, d, c, b], [c, b, k, j]] [d, i, j, k] (.var 34) (.var 64))), -- 1623
    .aug 107 .add (.bin .mul (.lit 1 4) (.ein2 [[i, d, b, c], [b, c, k, j]] [d, i, j, k] (.var 34) (.var 61))), -- 1624
    .aug 107 .add (.bin .mul (.lit 1 2) (.ein2 [[i, d], [d, c, l, k]] [c, i, k, l] (.var 90) (.var 61))), -- 1625
    .aug 107 .add (.ein2 [[i, k, j, c], [c, d, l, k]] [d, i, j, l] (.var 88) (.var 61)), -- 1626
    .aug 107 .sub (.bin .mul (.lit 1 2) (.ein2 [[b, i, c, d], [d, c, l, k]] [b, i, k, l] (.var 80) (.var 64))), -- 1627
    .aug 107 .add (.bin .mul (.lit 1 4) (.ein2 [[b, i, c, d], [c, d, l, k]] [b, i, k, l] (.var 83) (.var 61))), -- 1628
    .aug 0 .sub (.bin .mul (.var 52) (.ein2 [[k, j, a, b], [b, i, j, k]] [i, a] (.var 56) (.var 107))), -- 1629
    .del 107, -- 1630
    .assign 108 (.ein2 [[c, i, b, k], [b, j]] [c, i, j, k] (.var 37) (.var 58)), -- 1632
    .aug 108 .add (.bin .mul (.lit 1 2) (.var 35)), -- 1633
    .aug 108 .add (.bin .mul (.lit 1 2) (.ein2 [[i, c], [b, c, j, k]] [b, i, j, k] (.var 9) (.var 61))), -- 1634
    .aug 108 .sub (.bin .mul (.lit 1 2) (.ein2 [[j, i, k, l], [b, j]] [b, i, k, l] (.var 27) (.var 58))), -- 1635
    .aug 108 .sub (.ein2 [[k, i, l, c], [b, c, k, j]] [b, i, l, j] (.var 28) (.var 61)), -- 1636
    .aug 108 .sub (.ein2 [[b, i, c, l], [c, k]] [b, i, l, k] (.var 76) (.var 59)), -- 1637
    .aug 108 .add (.bin .mul (.lit 1 2) (.ein2 [[d, i, b, c], [b, c, j, k]] [d, i, j, k] (.var 38) (.var 64))), -- 1638
    .aug 108 .add (.bin .mul (.lit 1 4) (.ein2 [[d, i, c, b], [c, b, j, k]] [d, i, j, k] (.var 38) (.var 61))), -- 1639
    .aug 108 .add (.bin .mul (.lit 1 2) (.ein2 [[i, d], [c, d, k, l]] [c, i, k, l] (.var 91) (.var 61))), -- 1640
    .aug 108 .add (.ein2 [[i, k, j, c], [d, c, k, l]] [d, i, j, l] (.var 89) (.var 61)), -- 1641
    .aug 108 .sub (.bin .mul (.lit 1 2) (.ein2 [[b, i, c, d], [c, d, k, l]] [b, i, k, l] (.var 81) (.var 64))), -- 1642
    .aug 108 .add (.bin .mul (.lit 1 4) (.ein2 [[b, i, c, d], [d, c, k, l]] [b, i, k, l] (.var 82) (.var 61))), -- 1643
    .aug 1 .sub (.bin .mul (.var 52) (.ein2 [[j, k, b, a], [b, i, j, k]] [i, a] (.var 56) (.var 108))), -- 1644
    .del 108, -- 1645
    .assign 109 (.bin .mul (.neg (.lit 1 2)) (.var 17)), -- 1648
    .aug 109 .add (.ein2 [[c, j, a, k], [b, j]] [c, b, a, k] (.var 15) (.var 58)), -- 1649
    .aug 109 .sub (.bin .mul (.lit 1 2) (.ein2 [[k, a], [b, c, j, k]] [b, c, a, j] (.var 6) (.var 60))), -- 1650
    .aug 109 .sub (.bin .mul (.lit 1 2) (.ein2 [[c, d, a, b], [b, j]] [c, d, a, j] (.var 18) (.var 58))), -- 1651
    .aug 109 .sub (.ein2 [[d, k, c, a], [b, c, j, k]] [b, d, a, j] (.var 16) (.var 60)), -- 1652
    .aug 109 .add (.ein2 [[d, k, a, c], [b, c, j, k]] [b, d, a, j] (.var 38) (.var 61)), -- 1653
    .aug 109 .sub (.ein2 [[d, j, a, k], [b, j]] [b, d, a, k] (.var 66) (.var 58)), -- 1654
    .aug 109 .add (.bin .mul (.lit 1 2) (.ein2 [[j, k, l, a], [b, c, j, k]] [b, c, a, l] (.var 12) (.var 63))), -- 1655
    .aug 109 .sub (.bin .mul (.lit 1 2) (.ein2 [[l, a], [c, d, k, l]] [c, d, a, k] (.var 90) (.var 60))), -- 1656
    .aug 109 .add (.ein2 [[b, k, a, c], [c, d, k, l]] [b, d, a, l] (.var 78) (.var 60)), -- 1657
    .aug 109 .add (.ein2 [[b, k, a, c], [d, c, l, k]] [b, d, a, l] (.var 81) (.var 61)), -- 1658
    .aug 109 .add (.bin .mul (.lit 1 2) (.ein2 [[k, l, j, a], [c, d, k, l]] [c, d, a, j] (.var 84) (.var 63))), -- 1659
    .aug 0 .add (.bin .mul (.var 52) (.ein2 [[i, k, b, c], [c, b, a, k]] [i, a] (.var 55) (.var 109))), -- 1660
    .del 109, -- 1661
    .assign 110 (.bin .mul (.neg (.lit 1 2)) (.var 25)), -- 1663
    .aug 110 .add (.ein2 [[c, j, a, k], [b, j]] [c, b, a, k] (.var 23) (.var 59)), -- 1664
    .aug 110 .sub (.bin .mul (.lit 1 2) (.ein2 [[k, a], [b, c, j, k]] [b, c, a, j] (.var 9) (.var 62))), -- 1665
    .aug 110 .sub (.bin .mul (.lit 1 2) (.ein2 [[c, d, a, b], [b, j]] [c, d, a, j] (.var 26) (.var 59))), -- 1666
    .aug 110 .sub (.ein2 [[d, k, c, a], [b, c, j, k]] [b, d, a, j] (.var 24) (.var 62)), -- 1667
    .aug 110 .add (.ein2 [[k, d, c, a], [c, b, k, j]] [b, d, a, j] (.var 34) (.var 61)), -- 1668
    .aug 110 .sub (.ein2 [[d, j, a, k], [b, j]] [b, d, a, k] (.var 67) (.var 59)), -- 1669
    .aug 110 .add (.bin .mul (.lit 1 2) (.ein2 [[j, k, l, a], [b, c, j, k]] [b, c, a, l] (.var 20) (.var 65))), -- 1670
    .aug 110 .sub (.bin .mul (.lit 1 2) (.ein2 [[l, a], [c, d, k, l]] [c, d, a, k] (.var 91) (.var 62))), -- 1671
    .aug 110 .add (.ein2 [[b, k, a, c], [c, d, k, l]] [b, d, a, l] (.var 79) (.var 62)), -- 1672
    .aug 110 .add (.ein2 [[b, k, a, c], [c, d, k, l]] [b, d, a, l] (.var 80) (.var 61)), -- 1673
    .aug 110 .add (.bin .mul (.lit 1 2) (.ein2 [[k, l, j, a], [c, d, k, l]] [c, d, a, j] (.var 85) (.var 65))), -- 1674
    .aug 1 .add (.bin .mul (.var 52) (.ein2 [[i, k, b, c], [c, b, a, k]] [i, a] (.var 57) (.var 110))), -- 1675
    .del 110, -- 1676
    .assign 111 (.bin .mul (.lit 1 2) (.transp [1, 0, 2, 3] (.var 40))), -- 1678
    .aug 111 .sub (.ein2 [[j, c, a, k], [b, j]] [c, b, a, k] (.var 33) (.var 58)), -- 1679
    .aug 111 .sub (.bin .mul (.lit 1 2) (.ein2 [[k, a], [c, b, k, j]] [b, c, a, j] (.var 6) (.var 61))), -- 1680
    .aug 111 .add (.bin .mul (.lit 1 2) (.ein2 [[d, c, a, b], [b, j]] [c, d, a, j] (.var 41) (.var 59))), -- 1681
    .aug 111 .sub (.ein2 [[d, k, c, a], [c, b, k, j]] [b, d, a, j] (.var 16) (.var 61)), -- 1682
    .aug 111 .add (.ein2 [[d, k, a, c], [b, c, j, k]] [b, d, a, j] (.var 38) (.var 62)), -- 1683
    .aug 111 .sub (.ein2 [[d, j, a, k], [b, j]] [b, d, a, k] (.var 68) (.var 59)), -- 1684
    .aug 111 .add (.bin .mul (.lit 1 2) (.ein2 [[k, j, a, l], [c, b, k, j]] [b, c, a, l] (.var 29) (.var 64))), -- 1685
    .aug 111 .add (.bin .mul (.lit 1 4) (.ein2 [[j, k, a, l], [c, b, j, k]] [b, c, a, l] (.var 29) (.var 61))), -- 1686
    .aug 111 .sub (.bin .mul (.lit 1 2) (.ein2 [[l, a], [d, c, l, k]] [c, d, a, k] (.var 90) (.var 61))), -- 1687
    .aug 111 .sub (.ein2 [[b, k, a, c], [d, c, k, l]] [b, d, a, l] (.var 83) (.var 61)), -- 1688
    .aug 111 .add (.bin .mul (.lit 1 2) (.ein2 [[k, l, j, a], [d, c, l, k]] [c, d, a, j] (.var 86) (.var 64))), -- 1689
    .aug 111 .sub (.bin .mul (.lit 1 4) (.ein2 [[k, l, j, a], [d, c, k, l]] [c, d, a, j] (.var 88) (.var 61))), -- 1690
    .aug 0 .add (.bin .mul (.var 52) (.ein2 [[i, k, b, c], [c, b, a, k]] [i, a] (.var 56) (.var 111))), -- 1691
    .del 111, -- 1692
    .assign 112 (.bin .mul (.lit 1 2) (.transp [0, 1, 3, 2] (.var 39))), -- 1694
    .aug 112 .sub (.ein2 [[c, j, k, a], [b, j]] [c, b, a, k] (.var 36) (.var 59)), -- 1695
    .aug 112 .sub (.bin .mul (.lit 1 2) (.ein2 [[k, a], [b, c, j, k]] [b, c, a, j] (.var 9) (.var 61))), -- 1696
    .aug 112 .add (.bin .mul (.lit 1 2) (.ein2 [[c, d, b, a], [b, j]] [c, d, a, j] (.var 41) (.var 58))), -- 1697
    .aug 112 .add (.ein2 [[k, d, c, a], [b, c, j, k]] [b, d, a, j] (.var 34) (.var 60)), -- 1698
    .aug 112 .sub (.ein2 [[d, k, c, a], [b, c, j, k]] [b, d, a, j] (.var 24) (.var 61)), -- 1699
    .aug 112 .sub (.ein2 [[d, j, a, k], [b, j]] [b, d, a, k] (.var 69) (.var 58)), -- 1700
    .aug 112 .add (.bin .mul (.lit 1 2) (.ein2 [[j, k, l, a], [b, c, j, k]] [b, c, a, l] (.var 28) (.var 64))), -- 1701
    .aug 112 .add (.bin .mul (.lit 1 4) (.ein2 [[k, j, l, a], [b, c, k, j]] [b, c, a, l] (.var 28) (.var 61))), -- 1702
    .aug 112 .sub (.bin .mul (.lit 1 2) (.ein2 [[l, a], [c, d, k, l]] [c, d, a, k] (.var 91) (.var 61))), -- 1703
    .aug 112 .sub (.ein2 [[b, k, a, c], [c, d, l, k]] [b, d, a, l] (.var 82) (.var 61)), -- 1704
    .aug 112 .add (.bin .mul (.lit 1 2) (.ein2 [[k, l, j, a], [c, d, k, l]] [c, d, a, j] (.var 87) (.var 64))), -- 1705
    .aug 112 .sub (.bin .mul (.lit 1 4) (.ein2 [[k, l, j, a], [c, d, l, k]] [c, d, a, j] (.var 89) (.var 61))), -- 1706
    .aug 1 .add (.bin .mul (.var 52) (.ein2 [[k, i, c, b], [c, b, a, k]] [i, a] (.var 56) (.var 112))), -- 1707
    .del 112, -- 1708
    .assign 113 (.bin .mul (.neg (.lit 1 2)) (.transp [1, 0, 3, 2] (.var 39))), -- 1710
    .aug 113 .add (.ein2 [[j, c, k, a], [b, j]] [c, b, a, k] (.var 32) (.var 58)), -- 1711
    .aug 113 .add (.bin .mul (.lit 1 2) (.ein2 [[k, a], [c, b, j, k]] [b, c, a, j] (.var 9) (.var 61))), -- 1712
    .aug 113 .sub (.bin .mul (.lit 1 2) (.ein2 [[d, c, b, a], [b, j]] [c, d, a, j] (.var 41) (.var 58))), -- 1713
    .aug 113 .add (.ein2 [[d, k, c, a], [c, b, j, k]] [b, d, a, j] (.var 38) (.var 61)), -- 1714
    .aug 113 .sub (.ein2 [[d, j, a, k], [b, j]] [b, d, a, k] (.var 70) (.var 59)), -- 1715
    .aug 113 .sub (.bin .mul (.lit 1 2) (.ein2 [[k, j, l, a], [c, b, k, j]] [b, c, a, l] (.var 28) (.var 64))), -- 1716
    .aug 113 .sub (.bin .mul (.lit 1 4) (.ein2 [[j, k, l, a], [c, b, j, k]] [b, c, a, l] (.var 28) (.var 61))), -- 1717
    .aug 113 .add (.bin .mul (.lit 1 2) (.ein2 [[l, a], [d, c, k, l]] [c, d, a, k] (.var 91) (.var 61))), -- 1718
    .aug 113 .add (.ein2 [[b, k, a, c], [c, d, k, l]] [b, d, a, l] (.var 80) (.var 60)), -- 1719
    .aug 113 .add (.ein2 [[b, k, a, c], [d, c, l, k]] [b, d, a, l] (.var 79) (.var 61)), -- 1720
    .aug 113 .add (.bin .mul (.lit 1 2) (.ein2 [[k, l, j, a], [d, c, l, k]] [c, d, a, j] (.var 89) (.var 64))), -- 1721
    .aug 113 .sub (.bin .mul (.lit 1 4) (.ein2 [[k, l, j, a], [d, c, k, l]] [c, d, a, j] (.var 87) (.var 61))), -- 1722
    .aug 1 .sub (.bin .mul (.var 52) (.ein2 [[k, i, b, c], [c, b, a, k]] [i, a] (.var 56) (.var 113))), -- 1723
    .del 113, -- 1724
    .assign 114 (.bin .mul (.neg (.lit 1 2)) (.var 40)), -- 1726
    .aug 114 .add (.ein2 [[c, j, a, k], [b, j]] [c, b, a, k] (.var 37) (.var 59)), -- 1727
    .aug 114 .add (.bin .mul (.lit 1 2) (.ein2 [[k, a], [b, c, k, j]] [b, c, a, j] (.var 6) (.var 61))), -- 1728
    .aug 114 .sub (.bin .mul (.lit 1 2) (.ein2 [[c, d, a, b], [b, j]] [c, d, a, j] (.var 41) (.var 59))), -- 1729
    .aug 114 .add (.ein2 [[k, d, a, c], [b, c, k, j]] [b, d, a, j] (.var 34) (.var 61)), -- 1730
    .aug 114 .sub (.ein2 [[d, j, a, k], [b, j]] [b, d, a, k] (.var 71) (.var 58)), -- 1731
    .aug 114 .sub (.bin .mul (.lit 1 2) (.ein2 [[j, k, a, l], [b, c, j, k]] [b, c, a, l] (.var 29) (.var 64))), -- 1732
    .aug 114 .sub (.bin .mul (.lit 1 4) (.ein2 [[k, j, a, l], [b, c, k, j]] [b, c, a, l] (.var 29) (.var 61))), -- 1733
    .aug 114 .add (.bin .mul (.lit 1 2) (.ein2 [[l, a], [c, d, l, k]] [c, d, a, k] (.var 90) (.var 61))), -- 1734
    .aug 114 .add (.ein2 [[b, k, a, c], [c, d, k, l]] [b, d, a, l] (.var 78) (.var 61)), -- 1735
    .aug 114 .add (.ein2 [[b, k, a, c], [c, d, k, l]] [b, d, a, l] (.var 81) (.var 62)), -- 1736
    .aug 114 .add (.bin .mul (.lit 1 2) (.ein2 [[k, l, j, a], [c, d, k, l]] [c, d, a, j] (.var 88) (.var 64))), -- 1737
    .aug 114 .sub (.bin .mul (.lit 1 4) (.ein2 [[k, l, j, a], [c, d, l, k]] [c, d, a, j] (.var 86) (.var 61))), -- 1738
    .aug 0 .sub (.bin .mul (.var 52) (.ein2 [[i, k, c, b], [c, b, a, k]] [i, a] (.var 56) (.var 114))), -- 1739
    .del 114, -- 1740
    .assign 115 (.bin .add (.var 90) (.var 6)), -- 1743
    .assign 116 (.ein2 [[j, b], [i, a]] [i, j, a, b] (.var 53) (.var 115)), -- 1744
    .assign 94 (.ein2 [[j, b], [i, a]] [i, j, a, b] (.var 54) (.var 115)), -- 1745
    .del 115, -- 1746
    .assign 117 (.bin .add (.var 91) (.var 9)), -- 1747
    .aug 116 .add (.bin .sub (.bin .sub (.transp [1, 0, 3, 2] (.var 116)) (.transp [0, 1, 3, 2] (.var 116))) (.transp [1, 0, 2, 3] (.var 116))), -- 1748
    .assign 118 (.ein2 [[j, b], [i, a]] [i, j, a, b] (.var 54) (.var 117)), -- 1751
    .aug 118 .add (.bin .sub (.bin .sub (.transp [1, 0, 3, 2] (.var 118)) (.transp [0, 1, 3, 2] (.var 118))) (.transp [1, 0, 2, 3] (.var 118))), -- 1752
    .aug 94 .add (.ein2 [[i, a], [j, b]] [i, j, a, b] (.var 53) (.var 117)), -- 1755
    .del 117, -- 1756
    .aug 2 .add (.bin .mul (.var 52) (.var 116)), -- 1757
    .aug 3 .add (.bin .mul (.var 52) (.var 94)), -- 1758
    .aug 4 .add (.bin .mul (.var 52) (.var 118)), -- 1759
    .assign 119 (.bin .sub (.var 78) (.var 16)), -- 1762
    .assign 116 (.ein2 [[i, c], [c, j, a, b]] [i, j, a, b] (.var 53) (.var 119)), -- 1763
    .del 119, -- 1764
    .aug 116 .sub (.transp [1, 0, 2, 3] (.var 116)), -- 1765
    .aug 2 .sub (.bin .mul (.var 52) (.var 116)), -- 1766
    .assign 120 (.bin .sub (.var 79) (.var 24)), -- 1768
    .assign 118 (.ein2 [[i, c], [c, j, a, b]] [i, j, a, b] (.var 54) (.var 120)), -- 1769
    .del 120, -- 1770
    .aug 118 .sub (.transp [1, 0, 2, 3] (.var 118)), -- 1771
    .aug 4 .sub (.bin .mul (.var 52) (.var 118)), -- 1772
    .assign 121 (.bin .sub (.var 81) (.var 38)), -- 1774
    .assign 94 (.ein2 [[i, c], [c, j, a, b]] [i, j, a, b] (.var 53) (.var 121)), -- 1775
    .del 121, -- 1776
    .assign 122 (.bin .add (.var 83) (.transp [1, 0, 2, 3] (.var 34))), -- 1777
    .aug 94 .sub (.ein2 [[j, c], [c, i, a, b]] [i, j, a, b] (.var 54) (.var 122)), -- 1778
    .del 122, -- 1779
    .aug 3 .sub (.bin .mul (.var 52) (.var 94)), -- 1780
    .assign 123 (.bin .add (.var 84) (.var 12)), -- 1783
    .assign 116 (.ein2 [[k, a], [i, j, k, b]] [i, j, a, b] (.var 53) (.var 123)), -- 1784
    .aug 116 .sub (.transp [0, 1, 3, 2] (.var 116)), -- 1785
    .del 123, -- 1786
    .assign 124 (.bin .add (.var 85) (.var 20)), -- 1787
    .assign 118 (.ein2 [[k, a], [i, j, k, b]] [i, j, a, b] (.var 54) (.var 124)), -- 1788
    .aug 118 .sub (.transp [0, 1, 3, 2] (.var 118)), -- 1789
    .del 124, -- 1790
    .assign 125 (.bin .add (.var 87) (.var 28)), -- 1791
    .assign 94 (.ein2 [[k, a], [i, j, k, b]] [i, j, a, b] (.var 53) (.var 125)), -- 1792
    .del 125, -- 1793
    .assign 126 (.bin .sub (.var 88) (.transp [0, 1, 3, 2] (.var 29))), -- 1794
    .aug 94 .sub (.ein2 [[k, b], [i, j, k, a]] [i, j, a, b] (.var 54) (.var 126)), -- 1795
    .del 126, -- 1796
    .aug 2 .sub (.bin .mul (.var 52) (.var 116)), -- 1797
    .aug 3 .sub (.bin .mul (.var 52) (.var 94)), -- 1798
    .aug 4 .sub (.bin .mul (.var 52) (.var 118)), -- 1799
    .assign 127 (.bin .sub (.bin .sub (.neg (.var 66)) (.var 72)) (.var 15)), -- 1802
    .aug 0 .add (.bin .mul (.var 52) (.ein2 [[j, b], [b, i, a, j]] [i, a] (.var 53) (.var 127))), -- 1803
    .aug 127 .sub (.ein2 [[d, j, c, b], [c, k]] [d, j, b, k] (.var 78) (.var 58)), -- 1804
    .assign 116 (.ein2 [[i, k, a, d], [d, j, b, k]] [i, j, a, b] (.var 55) (.var 127)), -- 1805
    .assign 94 (.ein2 [[k, j, d, b], [d, i, a, k]] [i, j, a, b] (.var 56) (.var 127)), -- 1806
    .del 127, -- 1807
    .assign 128 (.bin .sub (.bin .sub (.neg (.var 67)) (.var 73)) (.var 23)), -- 1808
    .aug 1 .add (.bin .mul (.var 52) (.ein2 [[j, b], [b, i, a, j]] [i, a] (.var 54) (.var 128))), -- 1809
    .aug 128 .sub (.ein2 [[d, j, c, b], [c, k]] [d, j, b, k] (.var 79) (.var 59)), -- 1810
    .aug 94 .add (.ein2 [[i, k, a, d], [d, j, b, k]] [i, j, a, b] (.var 56) (.var 128)), -- 1811
    .assign 118 (.ein2 [[i, k, a, d], [d, j, b, k]] [i, j, a, b] (.var 57) (.var 128)), -- 1812
    .del 128, -- 1813
    .assign 129 (.bin .add (.bin .sub (.neg (.var 70)) (.var 76)) (.transp [0, 1, 3, 2] (.var 36))), -- 1814
    .aug 1 .add (.bin .mul (.var 52) (.ein2 [[j, b], [b, i, a, j]] [i, a] (.var 53) (.var 129))), -- 1815
    .aug 129 .sub (.ein2 [[d, j, c, b], [c, k]] [d, j, b, k] (.var 81) (.var 58)), -- 1816
    .aug 94 .add (.ein2 [[i, k, a, d], [d, j, b, k]] [i, j, a, b] (.var 55) (.var 129)), -- 1817
    .aug 118 .add (.ein2 [[k, i, d, a], [d, j, b, k]] [i, j, a, b] (.var 56) (.var 129)), -- 1818
    .del 129, -- 1819
    .assign 130 (.bin .add (.bin .sub (.neg (.var 71)) (.var 77)) (.transp [1, 0, 2, 3] (.var 33))), -- 1820
    .aug 0 .add (.bin .mul (.var 52) (.ein2 [[j, b], [b, i, a, j]] [i, a] (.var 54) (.var 130))), -- 1821
    .aug 130 .sub (.ein2 [[d, j, c, b], [c, k]] [d, j, b, k] (.var 80) (.var 59)), -- 1822
    .aug 116 .add (.ein2 [[i, k, a, d], [d, j, b, k]] [i, j, a, b] (.var 56) (.var 130)), -- 1823
    .aug 94 .add (.ein2 [[k, j, d, b], [d, i, a, k]] [i, j, a, b] (.var 57) (.var 130)), -- 1824
    .del 130, -- 1825
    .assign 131 (.bin .sub (.bin .sub (.neg (.var 68)) (.var 74)) (.var 37)), -- 1826
    .aug 131 .sub (.ein2 [[d, j, c, b], [c, k]] [d, j, b, k] (.var 82) (.var 59)), -- 1827
    .aug 94 .add (.ein2 [[i, k, d, b], [d, j, a, k]] [i, j, a, b] (.var 56) (.var 131)), -- 1828
    .del 131, -- 1829
    .assign 132 (.bin .sub (.bin .sub (.neg (.var 69)) (.var 75)) (.transp [1, 0, 3, 2] (.var 32))), -- 1830
    .aug 132 .sub (.ein2 [[d, j, c, b], [c, k]] [d, j, b, k] (.var 83) (.var 58)), -- 1831
    .aug 94 .add (.ein2 [[k, j, a, d], [d, i, b, k]] [i, j, a, b] (.var 56) (.var 132)), -- 1832
    .del 132, -- 1833
    .aug 116 .add (.bin .sub (.bin .sub (.transp [1, 0, 3, 2] (.var 116)) (.transp [0, 1, 3, 2] (.var 116))) (.transp [1, 0, 2, 3] (.var 116))), -- 1834
    .aug 118 .add (.bin .sub (.bin .sub (.transp [1, 0, 3, 2] (.var 118)) (.transp [0, 1, 3, 2] (.var 118))) (.transp [1, 0, 2, 3] (.var 118))), -- 1837
    .aug 2 .add (.bin .mul (.var 52) (.var 116)), -- 1840
    .aug 3 .add (.bin .mul (.var 52) (.var 94)), -- 1841
    .aug 4 .add (.bin .mul (.var 52) (.var 118)), -- 1842
    .assign 133 (.bin .add (.bin .add (.ein2 [[d, k, a, b], [c, k]] [c, d, a, b] (.var 16) (.var 58)) (.bin .mul (.lit 1 2) (.ein2 [[k, l, a, b], [c, d, k, l]] [c, d, a, b] (.var 13) (.var 63)))) (.bin .mul (.lit 1 2) (.var 18))), -- 1845
    .aug 2 .add (.bin .mul (.var 52) (.ein2 [[i, j, c, d], [c, d, a, b]] [i, j, a, b] (.var 55) (.var 133))), -- 1848
    .del 133, -- 1849
    .assign 134 (.bin .add (.bin .add (.ein2 [[d, k, a, b], [c, k]] [c, d, a, b] (.var 24) (.var 59)) (.bin .mul (.lit 1 2) (.ein2 [[k, l, a, b], [c, d, k, l]] [c, d, a, b] (.var 21) (.var 65)))) (.bin .mul (.lit 1 2) (.var 26))), -- 1850
    .aug 4 .add (.bin .mul (.var 52) (.ein2 [[i, j, c, d], [c, d, a, b]] [i, j, a, b] (.var 57) (.var 134))), -- 1853
    .del 134, -- 1854
    .assign 135 (.neg (.ein2 [[k, d, a, b], [c, k]] [c, d, a, b] (.var 34) (.var 58))), -- 1855
    .aug 135 .add (.bin .mul (.lit 1 2) (.ein2 [[k, l, a, b], [c, d, k, l]] [c, d, a, b] (.var 30) (.var 64))), -- 1856
    .aug 135 .add (.bin .mul (.lit 1 4) (.ein2 [[l, k, a, b], [c, d, l, k]] [c, d, a, b] (.var 30) (.var 61))), -- 1857
    .aug 135 .add (.bin .mul (.lit 1 2) (.var 41)), -- 1858
    .aug 3 .add (.bin .mul (.var 52) (.ein2 [[i, j, c, d], [c, d, a, b]] [i, j, a, b] (.var 56) (.var 135))), -- 1859
    .del 135, -- 1860
    .assign 136 (.ein2 [[d, k, a, b], [c, k]] [c, d, a, b] (.var 38) (.var 59)), -- 1861
    .aug 136 .sub (.bin .mul (.lit 1 2) (.ein2 [[l, k, a, b], [d, c, l, k]] [c, d, a, b] (.var 30) (.var 64))), -- 1862
    .aug 136 .sub (.bin .mul (.lit 1 4) (.ein2 [[k, l, a, b], [d, c, k, l]] [c, d, a, b] (.var 30) (.var 61))), -- 1863
    .aug 136 .sub (.bin .mul (.lit 1 2) (.transp [1, 0, 2, 3] (.var 41))), -- 1864
    .aug 3 .sub (.bin .mul (.var 52) (.ein2 [[i, j, d, c], [c, d, a, b]] [i, j, a, b] (.var 56) (.var 136))), -- 1865
    .del 136, -- 1866
    .assign 137 (.bin .sub (.bin .sub (.ein2 [[i, j, l, c], [c, k]] [i, j, k, l] (.var 12) (.var 58)) (.bin .mul (.lit 1 2) (.ein2 [[i, j, c, d], [c, d, k, l]] [i, j, k, l] (.var 13) (.var 63)))) (.bin .mul (.lit 1 2) (.var 11))), -- 1869
    .aug 2 .sub (.bin .mul (.var 52) (.ein2 [[k, l, a, b], [i, j, k, l]] [i, j, a, b] (.var 55) (.var 137))), -- 1872
    .del 137, -- 1873
    .assign 138 (.bin .sub (.bin .sub (.ein2 [[i, j, l, c], [c, k]] [i, j, k, l] (.var 20) (.var 59)) (.bin .mul (.lit 1 2) (.ein2 [[i, j, c, d], [c, d, k, l]] [i, j, k, l] (.var 21) (.var 65)))) (.bin .mul (.lit 1 2) (.var 19))), -- 1874
    .aug 4 .sub (.bin .mul (.var 52) (.ein2 [[k, l, a, b], [i, j, k, l]] [i, j, a, b] (.var 57) (.var 138))), -- 1877
    .del 138, -- 1878
    .assign 139 (.bin .sub (.bin .sub (.neg (.ein2 [[i, j, c, l], [c, k]] [i, j, k, l] (.var 29) (.var 58))) (.bin .mul (.lit 1 2) (.ein2 [[i, j, c, d], [c, d, k, l]] [i, j, k, l] (.var 30) (.var 64)))) (.bin .mul (.lit 1 4) (.ein2 [[i, j, d, c], [d, c, k, l]] [i, j, k, l] (.var 30) (.var 61)))), -- 1879
    .aug 139 .add (.bin .mul (.neg (.lit 1 2)) (.var 27)), -- 1882
    .aug 3 .sub (.bin .mul (.var 52) (.ein2 [[k, l, a, b], [i, j, k, l]] [i, j, a, b] (.var 56) (.var 139))), -- 1883
    .del 139, -- 1884
    .assign 140 (.ein2 [[i, j, l, c], [c, k]] [i, j, k, l] (.var 28) (.var 59)), -- 1885
    .aug 140 .add (.bin .mul (.lit 1 2) (.ein2 [[i, j, d, c], [d, c, l, k]] [i, j, k, l] (.var 30) (.var 64))), -- 1886
    .aug 140 .add (.bin .mul (.lit 1 4) (.ein2 [[i, j, c, d], [c, d, l, k]] [i, j, k, l] (.var 30) (.var 61))), -- 1887
    .aug 140 .add (.bin .mul (.lit 1 2) (.transp [0, 1, 3, 2] (.var 27))), -- 1888
    .aug 3 .add (.bin .mul (.var 52) (.ein2 [[l, k, a, b], [i, j, k, l]] [i, j, a, b] (.var 56) (.var 140))), -- 1889
    .del 140, -- 1890
    .assign 141 (.ein2 [[l, j, d, b], [c, d, k, l]] [k, j, c, b] (.var 13) (.var 60)), -- 1893
    .aug 141 .add (.ein2 [[j, l, b, d], [c, d, k, l]] [k, j, c, b] (.var 30) (.var 61)), -- 1894
    .assign 116 (.ein2 [[i, k, a, c], [k, j, c, b]] [i, j, a, b] (.var 55) (.var 141)), -- 1895
    .assign 94 (.ein2 [[k, j, c, b], [k, i, c, a]] [i, j, a, b] (.var 56) (.var 141)), -- 1896
    .del 141, -- 1897
    .assign 142 (.ein2 [[l, j, d, b], [c, d, k, l]] [k, j, c, b] (.var 21) (.var 62)), -- 1898
    .aug 142 .add (.ein2 [[l, j, d, b], [d, c, l, k]] [k, j, c, b] (.var 30) (.var 61)), -- 1899
    .assign 118 (.ein2 [[i, k, a, c], [k, j, c, b]] [i, j, a, b] (.var 57) (.var 142)), -- 1900
    .aug 94 .add (.ein2 [[i, k, a, c], [k, j, c, b]] [i, j, a, b] (.var 56) (.var 142)), -- 1901
    .del 142, -- 1902
    .assign 143 (.ein2 [[l, j, d, b], [c, d, k, l]] [k, j, c, b] (.var 30) (.var 60)), -- 1903
    .aug 143 .add (.ein2 [[l, j, d, b], [c, d, k, l]] [k, j, c, b] (.var 21) (.var 61)), -- 1904
    .aug 118 .add (.ein2 [[k, i, c, a], [k, j, c, b]] [i, j, a, b] (.var 56) (.var 143)), -- 1905
    .aug 94 .add (.ein2 [[i, k, a, c], [k, j, c, b]] [i, j, a, b] (.var 55) (.var 143)), -- 1906
    .del 143, -- 1907
    .assign 144 (.ein2 [[l, j, d, b], [d, c, l, k]] [k, j, c, b] (.var 13) (.var 61)), -- 1908
    .aug 144 .add (.ein2 [[j, l, b, d], [c, d, k, l]] [k, j, c, b] (.var 30) (.var 62)), -- 1909
    .aug 116 .add (.ein2 [[i, k, a, c], [k, j, c, b]] [i, j, a, b] (.var 56) (.var 144)), -- 1910
    .aug 94 .add (.ein2 [[k, j, c, b], [k, i, c, a]] [i, j, a, b] (.var 57) (.var 144)), -- 1911
    .del 144, -- 1912
    .assign 145 (.ein2 [[l, j, b, d], [c, d, l, k]] [k, j, c, b] (.var 30) (.var 61)), -- 1913
    .aug 94 .add (.ein2 [[i, k, c, b], [k, j, c, a]] [i, j, a, b] (.var 56) (.var 145)), -- 1914
    .del 145, -- 1915
    .assign 146 (.ein2 [[j, l, d, b], [d, c, k, l]] [k, j, c, b] (.var 30) (.var 61)), -- 1916
    .aug 94 .add (.ein2 [[k, j, a, c], [k, i, c, b]] [i, j, a, b] (.var 56) (.var 146)), -- 1917
    .del 146, -- 1918
    .aug 116 .add (.bin .sub (.bin .sub (.transp [1, 0, 3, 2] (.var 116)) (.transp [0, 1, 3, 2] (.var 116))) (.transp [1, 0, 2, 3] (.var 116))), -- 1919
    .aug 118 .add (.bin .sub (.bin .sub (.transp [1, 0, 3, 2] (.var 118)) (.transp [0, 1, 3, 2] (.var 118))) (.transp [1, 0, 2, 3] (.var 118))), -- 1922
    .aug 2 .add (.bin .mul (.var 52) (.var 116)), -- 1925
    .aug 3 .add (.bin .mul (.var 52) (.var 94)), -- 1926
    .aug 4 .add (.bin .mul (.var 52) (.var 118)), -- 1927
    .assign 147 (.ein2 [[j, k, b, d], [b, c, j, k]] [c, d] (.var 55) (.var 60)), -- 1930
    .aug 147 .add (.ein2 [[k, j, d, b], [c, b, k, j]] [c, d] (.var 56) (.var 61)), -- 1931
    .aug 147 .add (.ein2 [[j, k, d, b], [c, b, j, k]] [c, d] (.var 56) (.var 61)), -- 1932
    .aug 0 .add (.bin .mul (.bin .mul (.lit 1 2) (.var 52)) (.ein2 [[c, d], [d, i, c, a]] [i, a] (.var 147) (.var 16))), -- 1933
    .aug 1 .add (.bin .mul (.bin .mul (.lit 1 2) (.var 52)) (.ein2 [[c, d], [d, i, c, a]] [i, a] (.var 147) (.var 38))), -- 1934
    .aug 0 .sub (.bin .mul (.bin .mul (.lit 1 2) (.var 52)) (.ein2 [[d, b], [b, i, d, a]] [i, a] (.var 147) (.var 78))), -- 1935
    .aug 1 .sub (.bin .mul (.bin .mul (.lit 1 2) (.var 52)) (.ein2 [[d, b], [b, i, d, a]] [i, a] (.var 147) (.var 81))), -- 1936
    .assign 148 (.ein2 [[j, k, b, d], [b, c, j, k]] [c, d] (.var 57) (.var 62)), -- 1938
    .aug 148 .add (.ein2 [[j, k, b, d], [b, c, j, k]] [c, d] (.var 56) (.var 61)), -- 1939
    .aug 148 .add (.ein2 [[k, j, b, d], [b, c, k, j]] [c, d] (.var 56) (.var 61)), -- 1940
    .aug 0 .add (.bin .mul (.bin .mul (.lit 1 2) (.var 52)) (.ein2 [[c, d], [i, d, a, c]] [i, a] (.var 148) (.var 34))), -- 1941
    .aug 1 .add (.bin .mul (.bin .mul (.lit 1 2) (.var 52)) (.ein2 [[c, d], [d, i, c, a]] [i, a] (.var 148) (.var 24))), -- 1942
    .aug 0 .sub (.bin .mul (.bin .mul (.lit 1 2) (.var 52)) (.ein2 [[d, b], [b, i, d, a]] [i, a] (.var 148) (.var 80))), -- 1943
    .aug 1 .sub (.bin .mul (.bin .mul (.lit 1 2) (.var 52)) (.ein2 [[d, b], [b, i, d, a]] [i, a] (.var 148) (.var 79))), -- 1944
    .assign 149 (.ein2 [[j, l, b, c], [b, c, j, k]] [l, k] (.var 55) (.var 60)), -- 1946
    .aug 149 .add (.ein2 [[l, j, c, b], [c, b, k, j]] [l, k] (.var 56) (.var 61)), -- 1947
    .aug 149 .add (.ein2 [[l, j, b, c], [b, c, k, j]] [l, k] (.var 56) (.var 61)), -- 1948
    .aug 0 .sub (.bin .mul (.bin .mul (.lit 1 2) (.var 52)) (.ein2 [[l, k], [k, i, l, a]] [i, a] (.var 149) (.var 12))), -- 1949
    .aug 1 .sub (.bin .mul (.bin .mul (.lit 1 2) (.var 52)) (.ein2 [[l, k], [k, i, l, a]] [i, a] (.var 149) (.var 28))), -- 1950
    .aug 0 .sub (.bin .mul (.bin .mul (.lit 1 2) (.var 52)) (.ein2 [[j, l], [l, i, j, a]] [i, a] (.var 149) (.var 84))), -- 1951
    .aug 1 .sub (.bin .mul (.bin .mul (.lit 1 2) (.var 52)) (.ein2 [[j, l], [l, i, j, a]] [i, a] (.var 149) (.var 87))), -- 1952
    .assign 150 (.ein2 [[j, l, b, c], [b, c, j, k]] [l, k] (.var 57) (.var 62)), -- 1954
    .aug 150 .add (.ein2 [[j, l, b, c], [b, c, j, k]] [l, k] (.var 56) (.var 61)), -- 1955
    .aug 150 .add (.ein2 [[j, l, c, b], [c, b, j, k]] [l, k] (.var 56) (.var 61)), -- 1956
    .aug 0 .sub (.bin .mul (.bin .mul (.lit 1 2) (.var 52)) (.ein2 [[l, k], [i, k, a, l]] [i, a] (.var 150) (.var 29))), -- 1957
    .aug 1 .sub (.bin .mul (.bin .mul (.lit 1 2) (.var 52)) (.ein2 [[l, k], [k, i, l, a]] [i, a] (.var 150) (.var 20))), -- 1958
    .aug 0 .sub (.bin .mul (.bin .mul (.lit 1 2) (.var 52)) (.ein2 [[j, l], [l, i, j, a]] [i, a] (.var 150) (.var 86))), -- 1959
    .aug 1 .sub (.bin .mul (.bin .mul (.lit 1 2) (.var 52)) (.ein2 [[j, l], [l, i, j, a]] [i, a] (.var 150) (.var 85))), -- 1960
    .assign 116 (.bin .mul (.lit 1 2) (.ein2 [[d, a], [i, j, d, b]] [i, j, a, b] (.var 147) (.var 13))), -- 1962
    .assign 94 (.bin .mul (.lit 1 2) (.ein2 [[d, a], [i, j, d, b]] [i, j, a, b] (.var 147) (.var 30))), -- 1963
    .aug 116 .sub (.transp [0, 1, 3, 2] (.var 116)), -- 1964
    .assign 118 (.bin .mul (.lit 1 2) (.ein2 [[d, a], [i, j, d, b]] [i, j, a, b] (.var 148) (.var 21))), -- 1965
    .aug 118 .sub (.transp [0, 1, 3, 2] (.var 118)), -- 1966
    .aug 94 .add (.bin .mul (.lit 1 2) (.ein2 [[d, b], [i, j, a, d]] [i, j, a, b] (.var 148) (.var 30))), -- 1967
    .aug 2 .sub (.bin .mul (.var 52) (.var 116)), -- 1968
    .aug 3 .sub (.bin .mul (.var 52) (.var 94)), -- 1969
    .aug 4 .sub (.bin .mul (.var 52) (.var 118)), -- 1970
    .assign 116 (.bin .mul (.lit 1 2) (.ein2 [[i, l], [l, j, a, b]] [i, j, a, b] (.var 149) (.var 13))), -- 1972
    .aug 116 .sub (.transp [1, 0, 2, 3] (.var 116)), -- 1973
    .assign 118 (.bin .mul (.lit 1 2) (.ein2 [[i, l], [l, j, a, b]] [i, j, a, b] (.var 150) (.var 21))), -- 1974
    .aug 118 .sub (.transp [1, 0, 2, 3] (.var 118)), -- 1975
    .assign 94 (.bin .mul (.lit 1 2) (.ein2 [[i, l], [l, j, a, b]] [i, j, a, b] (.var 149) (.var 30))), -- 1976
    .aug 94 .add (.bin .mul (.lit 1 2) (.ein2 [[j, l], [i, l, a, b]] [i, j, a, b] (.var 150) (.var 30))), -- 1977
    .aug 2 .sub (.bin .mul (.var 52) (.var 116)), -- 1978
    .aug 3 .sub (.bin .mul (.var 52) (.var 94)), -- 1979
    .aug 4 .sub (.bin .mul (.var 52) (.var 118)) -- 1980
    ]
  ret := []

/-- cqcpy/cc_equations.py:1983-2259 (`_rccsd_Lambda_opt`).  Names: 0 L1, 1 L2, 2 F.oo, 3 F.ov, 4 F.vv, 5 I.oooo, 6 I.ooov, 7 I.oovo, 8 I.oovv, 9 I.ovoo, 10 I.ovov, 11 I.ovvo, 12 I.ovvv, 13 I.vooo, 14 I.voov, 15 I.vovo, 16 I.vovv, 17 I.vvov, 18 I.vvvo, 19 I.vvvv, 20 L1old, 21 L2old, 22 T1old, 23 T2old, 24 fac, 25 T2anti, 26 L2anti, 27 TTempaa, 28 TTempab, 29 Ivovos1, 30 IvOvOs1, 31 IvOVos1, 32 Ivovos2, 33 IvOvOs2, 34 IvOVos2, 35 Toovv, 36 Ivovvs, 37 IvOvVs, 38 IvOVvs, 39 Iooovs, 40 IoOoVs, 41 IoOOvs, 42 Iovs, 43 Iooov, 44 IToo, 45 temp, 46 Ivovv, 47 ITvv, 48 IToovvs1, 49 ITvooos, 50 ITVooOs, 51 ITVoOos, 52 ITvvvos, 53 ITVvvOs, 54 ITvVvOs, 55 ITovs, 56 tempab, 57 ITvOvVs, 58 IToOoVs, 59 ITvovos, 60 ITvOVos, 61 ITVovOs, 62 ITvOvOs, 63 ITvVvVs, 64 ITVvvVs, 65 IToOoOs, 66 IToOOos, 67 IToovvs, 68 IToOvVs, 69 ITOOvvs, 70 Lt1a, 71 Lt2a. -/
def rccsd_Lambda_opt_proc : Fun where
  params := [0, 1, 2, 3, 4, 5, 6, 7, 8, 9, 10, 11, 12, 13, 14, 15, 16, 17, 18, 19, 20, 21, 22, 23, 24]
  body := .block [
    .assign 25 (.bin .sub (.var 23) (.transp [0, 1, 3, 2] (.var 23))), -- 1984
    .assign 26 (.bin .sub (.var 21) (.transp [0, 1, 3, 2] (.var 21))), -- 1985
    .assign 27 (.bin .add (.bin .mul (.lit 1 2) (.var 25)) (.ein2 [[b, j], [c, k]] [b, c, j, k] (.var 22) (.var 22))), -- 1986
    .assign 28 (.bin .add (.bin .mul (.lit 1 2) (.var 23)) (.ein2 [[b, j], [c, k]] [b, c, j, k] (.var 22) (.var 22))), -- 1987
    .assign 29 (.ein2 [[a, i, b, c], [c, k]] [a, i, b, k] (.bin .sub (.var 16) (.transp [0, 1, 3, 2] (.var 16))) (.var 22)), -- 1989
    .assign 30 (.ein2 [[a, i, b, c], [c, k]] [a, i, b, k] (.var 16) (.var 22)), -- 1991
    .assign 31 (.neg (.ein2 [[a, i, c, b], [c, k]] [a, i, b, k] (.var 16) (.var 22))), -- 1992
    .assign 32 (.ein2 [[b, j], [j, i, k, a]] [b, i, a, k] (.var 22) (.bin .sub (.var 6) (.transp [0, 1, 3, 2] (.var 7)))), -- 1994
    .assign 33 (.neg (.ein2 [[b, j], [j, i, a, k]] [b, i, a, k] (.var 22) (.var 7))), -- 1996
    .assign 34 (.ein2 [[b, j], [j, i, k, a]] [b, i, a, k] (.var 22) (.var 6)), -- 1997
    .assign 35 (.bin .sub (.var 8) (.transp [0, 1, 3, 2] (.var 8))), -- 1999
    .assign 36 (.ein2 [[c, k], [k, i, a, b]] [c, i, a, b] (.var 22) (.var 35)), -- 2000
    .assign 37 (.ein2 [[c, k], [k, i, a, b]] [c, i, a, b] (.var 22) (.var 8)), -- 2001
    .assign 38 (.neg (.ein2 [[c, k], [k, i, b, a]] [c, i, a, b] (.var 22) (.var 8))), -- 2002
    .assign 39 (.ein2 [[i, k, b, c], [b, j]] [i, k, j, c] (.var 35) (.var 22)), -- 2004
    .assign 40 (.ein2 [[i, k, b, c], [b, j]] [i, k, j, c] (.var 8) (.var 22)), -- 2005
    .assign 41 (.neg (.ein2 [[i, k, c, b], [b, j]] [i, k, j, c] (.var 8) (.var 22))), -- 2006
    .assign 42 (.ein2 [[i, k, a, c], [c, k]] [i, a] (.bin .sub (.bin .mul (.lit 2 1) (.var 8)) (.transp [0, 1, 3, 2] (.var 8))) (.var 22)), -- 2008
    .assign 43 (.bin .sub (.bin .mul (.lit 2 1) (.var 6)) (.transp [0, 1, 3, 2] (.var 7))), -- 2012
    .assign 44 (.bin .add (.ein2 [[i, b], [b, j]] [i, j] (.var 3) (.var 22)) (.var 2)), -- 2013
    .aug 44 .add (.ein2 [[i, k, b, c], [b, c, j, k]] [i, j] (.bin .sub (.var 8) (.transp [0, 1, 3, 2] (.var 8))) (.var 27)), -- 2014
    .aug 44 .add (.ein2 [[i, k, b, c], [b, c, j, k]] [i, j] (.var 8) (.var 28)), -- 2016
    .aug 44 .add (.bin .mul (.lit 1 2) (.ein2 [[i, k, c, b], [c, b, j, k]] [i, j] (.var 8) (.var 23))), -- 2017
    .aug 44 .add (.ein2 [[i, j, k, b], [b, j]] [i, k] (.var 43) (.var 22)), -- 2018
    .aug 0 .sub (.bin .mul (.var 24) (.ein2 [[j, a], [i, j]] [i, a] (.var 20) (.var 44))), -- 2019
    .assign 45 (.ein2 [[k, j, a, b], [i, k]] [i, j, a, b] (.var 21) (.var 44)), -- 2020
    .aug 45 .add (.transp [1, 0, 3, 2] (.var 45)), -- 2021
    .aug 1 .sub (.bin .mul (.var 24) (.var 45)), -- 2022
    .assign 46 (.bin .sub (.bin .mul (.lit 2 1) (.var 16)) (.transp [0, 1, 3, 2] (.var 16))), -- 2025
    .assign 47 (.bin .sub (.bin .sub (.ein2 [[j, a], [b, j]] [b, a] (.var 3) (.var 22)) (.var 4)) (.ein2 [[b, k, a, c], [c, k]] [b, a] (.var 46) (.var 22))), -- 2026
    .aug 47 .add (.ein2 [[j, k, a, c], [b, c, j, k]] [b, a] (.bin .sub (.var 8) (.transp [0, 1, 3, 2] (.var 8))) (.var 27)), -- 2028
    .aug 47 .add (.ein2 [[j, k, a, c], [b, c, j, k]] [b, a] (.var 8) (.var 28)), -- 2030
    .aug 47 .add (.bin .mul (.lit 1 2) (.ein2 [[k, j, a, c], [b, c, k, j]] [b, a] (.var 8) (.var 23))), -- 2031
    .aug 0 .sub (.bin .mul (.var 24) (.ein2 [[i, b], [b, a]] [i, a] (.var 20) (.var 47))), -- 2032
    .assign 45 (.ein2 [[i, j, c, b], [c, a]] [i, j, a, b] (.var 21) (.var 47)), -- 2033
    .aug 45 .add (.transp [1, 0, 3, 2] (.var 45)), -- 2034
    .aug 1 .sub (.bin .mul (.var 24) (.var 45)), -- 2035
    .assign 48 (.ein2 [[k, i, d, a], [b, d, j, k]] [i, j, a, b] (.bin .sub (.var 8) (.transp [0, 1, 3, 2] (.var 8))) (.var 25)), -- 2038
    .aug 48 .add (.ein2 [[i, k, a, d], [b, d, j, k]] [i, j, a, b] (.var 8) (.var 23)), -- 2040
    .aug 48 .sub (.ein2 [[c, i, b, a], [b, j]] [i, j, a, c] (.var 36) (.var 22)), -- 2041
    .aug 48 .add (.ein2 [[k, i, c, a], [c, b, k, j]] [i, j, a, b] (.bin .sub (.var 8) (.transp [0, 1, 3, 2] (.var 8))) (.var 23)), -- 2042
    .aug 48 .add (.ein2 [[i, k, a, c], [b, c, j, k]] [i, j, a, b] (.var 8) (.var 25)), -- 2044
    .aug 48 .sub (.ein2 [[c, i, b, a], [b, j]] [i, j, a, c] (.var 37) (.var 22)), -- 2045
    .aug 0 .add (.bin .mul (.var 24) (.ein2 [[j, b], [i, j, a, b]] [i, a] (.var 20) (.var 48))), -- 2046
    .del 48, -- 2047
    .assign 49 (.ein2 [[c, i, b, k], [b, j]] [c, i, j, k] (.bin .sub (.var 15) (.transp [0, 1, 3, 2] (.var 14))) (.var 22)), -- 2050
    .aug 49 .add (.bin .mul (.lit 1 2) (.bin .sub (.var 13) (.transp [0, 1, 3, 2] (.var 13)))), -- 2052
    .aug 49 .add (.bin .mul (.lit 1 2) (.ein2 [[i, c], [b, c, j, k]] [b, i, j, k] (.var 3) (.var 25))), -- 2053
    .aug 49 .add (.bin .mul (.lit 1 2) (.ein2 [[i, j, k, l], [b, j]] [b, i, k, l] (.bin .sub (.var 5) (.transp [0, 1, 3, 2] (.var 5))) (.var 22))), -- 2054
    .aug 49 .add (.ein2 [[k, i, l, c], [b, c, j, k]] [b, i, l, j] (.bin .sub (.var 6) (.transp [0, 1, 3, 2] (.var 7))) (.var 25)), -- 2056
    .aug 49 .sub (.ein2 [[i, k, l, c], [b, c, j, k]] [b, i, l, j] (.var 6) (.var 23)), -- 2058
    .aug 49 .sub (.ein2 [[b, i, c, l], [c, k]] [b, i, l, k] (.var 32) (.var 22)), -- 2059
    .aug 49 .add (.bin .mul (.lit 1 2) (.ein2 [[d, i, b, c], [b, c, j, k]] [d, i, j, k] (.bin .sub (.var 16) (.transp [0, 1, 3, 2] (.var 16))) (.var 27))), -- 2060
    .aug 49 .add (.bin .mul (.lit 1 2) (.ein2 [[i, d], [c, d, k, l]] [c, i, k, l] (.var 42) (.var 25))), -- 2062
    .aug 49 .sub (.ein2 [[i, k, j, c], [c, d, k, l]] [d, i, j, l] (.var 39) (.var 25)), -- 2063
    .aug 49 .sub (.ein2 [[i, k, j, c], [d, c, l, k]] [d, i, j, l] (.var 40) (.var 23)), -- 2064
    .aug 49 .sub (.bin .mul (.lit 1 2) (.ein2 [[b, i, c, d], [c, d, k, l]] [b, i, k, l] (.var 36) (.var 27))), -- 2065
    .aug 0 .add (.bin .mul (.var 24) (.ein2 [[j, k, a, b], [b, i, j, k]] [i, a] (.bin .sub (.var 21) (.transp [0, 1, 3, 2] (.var 21))) (.var 49))), -- 2066
    .del 49, -- 2068
    .assign 50 (.neg (.ein2 [[i, c, b, k], [b, j]] [c, i, j, k] (.var 11) (.var 22))), -- 2070
    .aug 50 .sub (.bin .mul (.lit 1 2) (.transp [1, 0, 2, 3] (.var 9))), -- 2071
    .aug 50 .sub (.bin .mul (.lit 1 2) (.ein2 [[i, c], [c, b, j, k]] [b, i, j, k] (.var 3) (.var 23))), -- 2072
    .aug 50 .add (.bin .mul (.lit 1 2) (.ein2 [[i, j, k, l], [b, j]] [b, i, k, l] (.var 5) (.var 22))), -- 2073
    .aug 50 .add (.ein2 [[k, i, l, c], [c, b, k, j]] [b, i, l, j] (.bin .sub (.var 6) (.transp [0, 1, 3, 2] (.var 7))) (.var 23)), -- 2074
    .aug 50 .sub (.ein2 [[i, k, l, c], [b, c, j, k]] [b, i, l, j] (.var 6) (.var 25)), -- 2076
    .aug 50 .sub (.ein2 [[b, i, c, l], [c, k]] [b, i, l, k] (.var 33) (.var 22)), -- 2077
    .aug 50 .sub (.bin .mul (.lit 1 2) (.ein2 [[i, d, b, c], [b, c, j, k]] [d, i, j, k] (.var 12) (.var 28))), -- 2078
    .aug 50 .sub (.bin .mul (.lit 1 4) (.ein2 [[i, d, c, b], [c, b, j, k]] [d, i, j, k] (.var 12) (.var 23))), -- 2079
    .aug 50 .sub (.bin .mul (.lit 1 2) (.ein2 [[i, d], [d, c, k, l]] [c, i, k, l] (.var 42) (.var 23))), -- 2080
    .aug 50 .sub (.ein2 [[i, k, j, c], [c, d, k, l]] [d, i, j, l] (.var 39) (.var 23)), -- 2081
    .aug 50 .sub (.ein2 [[i, k, j, c], [c, d, k, l]] [d, i, j, l] (.var 40) (.var 25)), -- 2082
    .aug 50 .sub (.bin .mul (.lit 1 2) (.ein2 [[b, i, c, d], [c, d, k, l]] [b, i, k, l] (.var 38) (.var 28))), -- 2083
    .aug 50 .add (.bin .mul (.lit 1 4) (.ein2 [[b, i, c, d], [d, c, k, l]] [b, i, k, l] (.var 37) (.var 23))), -- 2084
    .aug 0 .add (.bin .mul (.var 24) (.ein2 [[j, k, a, b], [b, i, j, k]] [i, a] (.var 21) (.var 50))), -- 2085
    .del 50, -- 2086
    .assign 51 (.ein2 [[i, c, k, b], [b, j]] [c, i, j, k] (.var 10) (.var 22)), -- 2088
    .aug 51 .add (.bin .mul (.lit 1 2) (.transp [1, 0, 3, 2] (.var 9))), -- 2089
    .aug 51 .add (.bin .mul (.lit 1 2) (.ein2 [[i, c], [c, b, k, j]] [b, i, j, k] (.var 3) (.var 23))), -- 2090
    .aug 51 .sub (.bin .mul (.lit 1 2) (.ein2 [[i, j, l, k], [b, j]] [b, i, k, l] (.var 5) (.var 22))), -- 2091
    .aug 51 .sub (.ein2 [[i, k, c, l], [c, b, j, k]] [b, i, l, j] (.var 7) (.var 23)), -- 2092
    .aug 51 .sub (.ein2 [[b, i, c, l], [c, k]] [b, i, l, k] (.var 34) (.var 22)), -- 2093
    .aug 51 .add (.bin .mul (.lit 1 2) (.ein2 [[i, d, c, b], [c, b, k, j]] [d, i, j, k] (.var 12) (.var 28))), -- 2094
    .aug 51 .add (.bin .mul (.lit 1 4) (.ein2 [[i, d, b, c], [b, c, k, j]] [d, i, j, k] (.var 12) (.var 23))), -- 2095
    .aug 51 .add (.bin .mul (.lit 1 2) (.ein2 [[i, d], [d, c, l, k]] [c, i, k, l] (.var 42) (.var 23))), -- 2096
    .aug 51 .add (.ein2 [[i, k, j, c], [c, d, l, k]] [d, i, j, l] (.var 41) (.var 23)), -- 2097
    .aug 51 .sub (.bin .mul (.lit 1 2) (.ein2 [[b, i, c, d], [d, c, l, k]] [b, i, k, l] (.var 37) (.var 28))), -- 2098
    .aug 51 .add (.bin .mul (.lit 1 4) (.ein2 [[b, i, c, d], [c, d, l, k]] [b, i, k, l] (.var 38) (.var 23))), -- 2099
    .aug 0 .sub (.bin .mul (.var 24) (.ein2 [[k, j, a, b], [b, i, j, k]] [i, a] (.var 21) (.var 51))), -- 2100
    .del 51, -- 2101
    .assign 52 (.bin .mul (.neg (.lit 1 2)) (.bin .sub (.var 18) (.transp [0, 1, 3, 2] (.var 17)))), -- 2104
    .aug 52 .add (.ein2 [[c, j, a, k], [b, j]] [c, b, a, k] (.bin .sub (.var 15) (.transp [0, 1, 3, 2] (.var 14))) (.var 22)), -- 2105
    .aug 52 .sub (.bin .mul (.lit 1 2) (.ein2 [[k, a], [b, c, j, k]] [b, c, a, j] (.var 3) (.var 25))), -- 2107
    .aug 52 .sub (.bin .mul (.lit 1 2) (.ein2 [[c, d, a, b], [b, j]] [c, d, a, j] (.bin .sub (.var 19) (.transp [0, 1, 3, 2] (.var 19))) (.var 22))), -- 2108
    .aug 52 .sub (.ein2 [[d, k, c, a], [b, c, j, k]] [b, d, a, j] (.bin .sub (.var 16) (.transp [0, 1, 3, 2] (.var 16))) (.var 25)), -- 2110
    .aug 52 .add (.ein2 [[d, k, a, c], [b, c, j, k]] [b, d, a, j] (.var 16) (.var 23)), -- 2112
    .aug 52 .sub (.ein2 [[d, j, a, k], [b, j]] [b, d, a, k] (.var 29) (.var 22)), -- 2113
    .aug 52 .add (.bin .mul (.lit 1 2) (.ein2 [[j, k, l, a], [b, c, j, k]] [b, c, a, l] (.bin .sub (.var 6) (.transp [0, 1, 3, 2] (.var 7))) (.var 27))), -- 2114
    .aug 52 .sub (.bin .mul (.lit 1 2) (.ein2 [[l, a], [c, d, k, l]] [c, d, a, k] (.var 42) (.var 25))), -- 2116
    .aug 52 .add (.ein2 [[b, k, a, c], [c, d, k, l]] [b, d, a, l] (.var 36) (.var 25)), -- 2117
    .aug 52 .add (.ein2 [[b, k, a, c], [d, c, l, k]] [b, d, a, l] (.var 37) (.var 23)), -- 2118
    .aug 52 .add (.bin .mul (.lit 1 2) (.ein2 [[k, l, j, a], [c, d, k, l]] [c, d, a, j] (.var 39) (.var 27))), -- 2119
    .aug 0 .add (.bin .mul (.var 24) (.ein2 [[i, k, b, c], [c, b, a, k]] [i, a] (.var 26) (.var 52))), -- 2120
    .del 52, -- 2121
    .assign 53 (.bin .mul (.lit 1 2) (.transp [1, 0, 2, 3] (.var 18))), -- 2123
    .aug 53 .sub (.ein2 [[j, c, a, k], [b, j]] [c, b, a, k] (.var 11) (.var 22)), -- 2124
    .aug 53 .sub (.bin .mul (.lit 1 2) (.ein2 [[k, a], [c, b, k, j]] [b, c, a, j] (.var 3) (.var 23))), -- 2125
    .aug 53 .add (.bin .mul (.lit 1 2) (.ein2 [[d, c, a, b], [b, j]] [c, d, a, j] (.var 19) (.var 22))), -- 2126
    .aug 53 .sub (.ein2 [[d, k, c, a], [c, b, k, j]] [b, d, a, j] (.bin .sub (.var 16) (.transp [0, 1, 3, 2] (.var 16))) (.var 23)), -- 2127
    .aug 53 .add (.ein2 [[d, k, a, c], [b, c, j, k]] [b, d, a, j] (.var 16) (.var 25)), -- 2129
    .aug 53 .sub (.ein2 [[d, j, a, k], [b, j]] [b, d, a, k] (.var 30) (.var 22)), -- 2130
    .aug 53 .add (.bin .mul (.lit 1 2) (.ein2 [[k, j, a, l], [c, b, k, j]] [b, c, a, l] (.var 7) (.var 28))), -- 2131
    .aug 53 .add (.bin .mul (.lit 1 4) (.ein2 [[j, k, a, l], [c, b, j, k]] [b, c, a, l] (.var 7) (.var 23))), -- 2132
    .aug 53 .sub (.bin .mul (.lit 1 2) (.ein2 [[l, a], [d, c, l, k]] [c, d, a, k] (.var 42) (.var 23))), -- 2133
    .aug 53 .sub (.ein2 [[b, k, a, c], [d, c, k, l]] [b, d, a, l] (.var 38) (.var 23)), -- 2134
    .aug 53 .add (.bin .mul (.lit 1 2) (.ein2 [[k, l, j, a], [d, c, l, k]] [c, d, a, j] (.var 40) (.var 28))), -- 2135
    .aug 53 .sub (.bin .mul (.lit 1 4) (.ein2 [[k, l, j, a], [d, c, k, l]] [c, d, a, j] (.var 41) (.var 23))), -- 2136
    .aug 0 .add (.bin .mul (.var 24) (.ein2 [[i, k, b, c], [c, b, a, k]] [i, a] (.var 21) (.var 53))), -- 2137
    .del 53, -- 2138
    .assign 54 (.bin .mul (.neg (.lit 1 2)) (.var 18)), -- 2140
    .aug 54 .add (.ein2 [[c, j, a, k], [b, j]] [c, b, a, k] (.var 15) (.var 22)), -- 2141
    .aug 54 .add (.bin .mul (.lit 1 2) (.ein2 [[k, a], [b, c, k, j]] [b, c, a, j] (.var 3) (.var 23))), -- 2142
    .aug 54 .sub (.bin .mul (.lit 1 2) (.ein2 [[c, d, a, b], [b, j]] [c, d, a, j] (.var 19) (.var 22))), -- 2143
    .aug 54 .add (.ein2 [[k, d, a, c], [b, c, k, j]] [b, d, a, j] (.var 12) (.var 23)), -- 2144
    .aug 54 .sub (.ein2 [[d, j, a, k], [b, j]] [b, d, a, k] (.var 31) (.var 22)), -- 2145
    .aug 54 .sub (.bin .mul (.lit 1 2) (.ein2 [[j, k, a, l], [b, c, j, k]] [b, c, a, l] (.var 7) (.var 28))), -- 2146
    .aug 54 .sub (.bin .mul (.lit 1 4) (.ein2 [[k, j, a, l], [b, c, k, j]] [b, c, a, l] (.var 7) (.var 23))), -- 2147
    .aug 54 .add (.bin .mul (.lit 1 2) (.ein2 [[l, a], [c, d, l, k]] [c, d, a, k] (.var 42) (.var 23))), -- 2148
    .aug 54 .add (.ein2 [[b, k, a, c], [c, d, k, l]] [b, d, a, l] (.var 36) (.var 23)), -- 2149
    .aug 54 .add (.ein2 [[b, k, a, c], [c, d, k, l]] [b, d, a, l] (.var 37) (.var 25)), -- 2150
    .aug 54 .add (.bin .mul (.lit 1 2) (.ein2 [[k, l, j, a], [c, d, k, l]] [c, d, a, j] (.var 41) (.var 28))), -- 2151
    .aug 54 .sub (.bin .mul (.lit 1 4) (.ein2 [[k, l, j, a], [c, d, l, k]] [c, d, a, j] (.var 40) (.var 23))), -- 2152
    .aug 0 .sub (.bin .mul (.var 24) (.ein2 [[i, k, c, b], [c, b, a, k]] [i, a] (.var 21) (.var 54))), -- 2153
    .del 54, -- 2154
    .assign 55 (.bin .add (.var 42) (.var 3)), -- 2157
    .assign 56 (.ein2 [[j, b], [i, a]] [i, j, a, b] (.var 20) (.var 55)), -- 2158
    .aug 56 .add (.transp [1, 0, 3, 2] (.var 56)), -- 2159
    .aug 1 .add (.bin .mul (.var 24) (.var 56)), -- 2160
    .assign 57 (.bin .sub (.var 37) (.var 16)), -- 2163
    .assign 56 (.ein2 [[i, c], [c, j, a, b]] [i, j, a, b] (.var 20) (.var 57)), -- 2164
    .aug 56 .add (.transp [1, 0, 3, 2] (.var 56)), -- 2165
    .aug 1 .sub (.bin .mul (.var 24) (.var 56)), -- 2166
    .assign 58 (.bin .add (.var 40) (.var 6)), -- 2169
    .assign 56 (.ein2 [[k, a], [i, j, k, b]] [i, j, a, b] (.var 20) (.var 58)), -- 2170
    .aug 56 .add (.transp [1, 0, 3, 2] (.var 56)), -- 2171
    .aug 1 .sub (.bin .mul (.var 24) (.var 56)), -- 2172
    .assign 59 (.bin .add (.bin .sub (.bin .sub (.neg (.var 29)) (.var 32)) (.var 15)) (.transp [0, 1, 3, 2] (.var 14))), -- 2175
    .aug 0 .add (.bin .mul (.var 24) (.ein2 [[j, b], [b, i, a, j]] [i, a] (.var 20) (.var 59))), -- 2176
    .aug 59 .sub (.ein2 [[d, j, c, b], [c, k]] [d, j, b, k] (.var 36) (.var 22)), -- 2177
    .assign 56 (.ein2 [[k, j, d, b], [d, i, a, k]] [i, j, a, b] (.var 21) (.var 59)), -- 2178
    .assign 60 (.bin .add (.bin .sub (.neg (.var 31)) (.var 34)) (.transp [0, 1, 3, 2] (.var 14))), -- 2179
    .aug 60 .sub (.ein2 [[d, j, c, b], [c, k]] [d, j, b, k] (.var 37) (.var 22)), -- 2180
    .aug 56 .add (.ein2 [[i, k, a, d], [d, j, b, k]] [i, j, a, b] (.var 26) (.var 60)), -- 2181
    .del 60, -- 2182
    .assign 61 (.bin .add (.bin .sub (.neg (.var 31)) (.var 34)) (.transp [1, 0, 2, 3] (.var 11))), -- 2183
    .aug 0 .add (.bin .mul (.var 24) (.ein2 [[j, b], [b, i, a, j]] [i, a] (.var 20) (.var 61))), -- 2184
    .del 61, -- 2185
    .assign 62 (.bin .sub (.bin .sub (.neg (.var 30)) (.var 33)) (.var 15)), -- 2186
    .aug 62 .sub (.ein2 [[d, j, c, b], [c, k]] [d, j, b, k] (.var 38) (.var 22)), -- 2187
    .aug 56 .add (.ein2 [[i, k, d, b], [d, j, a, k]] [i, j, a, b] (.var 21) (.var 62)), -- 2188
    .del 62, -- 2189
    .aug 56 .add (.transp [1, 0, 3, 2] (.var 56)), -- 2190
    .aug 1 .add (.bin .mul (.var 24) (.var 56)), -- 2191
    .assign 63 (.neg (.ein2 [[k, d, a, b], [c, k]] [c, d, a, b] (.var 12) (.var 22))), -- 2194
    .aug 63 .add (.bin .mul (.lit 1 2) (.ein2 [[k, l, a, b], [c, d, k, l]] [c, d, a, b] (.var 8) (.var 28))), -- 2195
    .aug 63 .add (.bin .mul (.lit 1 4) (.ein2 [[l, k, a, b], [c, d, l, k]] [c, d, a, b] (.var 8) (.var 23))), -- 2196
    .aug 63 .add (.bin .mul (.lit 1 2) (.var 19)), -- 2197
    .aug 1 .add (.bin .mul (.var 24) (.ein2 [[i, j, c, d], [c, d, a, b]] [i, j, a, b] (.var 21) (.var 63))), -- 2198
    .del 63, -- 2199
    .assign 64 (.ein2 [[d, k, a, b], [c, k]] [c, d, a, b] (.var 16) (.var 22)), -- 2200
    .aug 64 .sub (.bin .mul (.lit 1 2) (.ein2 [[l, k, a, b], [d, c, l, k]] [c, d, a, b] (.var 8) (.var 28))), -- 2201
    .aug 64 .sub (.bin .mul (.lit 1 4) (.ein2 [[k, l, a, b], [d, c, k, l]] [c, d, a, b] (.var 8) (.var 23))), -- 2202
    .aug 64 .sub (.bin .mul (.lit 1 2) (.transp [1, 0, 2, 3] (.var 19))), -- 2203
    .aug 1 .sub (.bin .mul (.var 24) (.ein2 [[i, j, d, c], [c, d, a, b]] [i, j, a, b] (.var 21) (.var 64))), -- 2204
    .del 64, -- 2205
    .assign 65 (.bin .sub (.bin .sub (.neg (.ein2 [[i, j, c, l], [c, k]] [i, j, k, l] (.var 7) (.var 22))) (.bin .mul (.lit 1 2) (.ein2 [[i, j, c, d], [c, d, k, l]] [i, j, k, l] (.var 8) (.var 28)))) (.bin .mul (.lit 1 4) (.ein2 [[i, j, d, c], [d, c, k, l]] [i, j, k, l] (.var 8) (.var 23)))), -- 2208
    .aug 65 .add (.bin .mul (.neg (.lit 1 2)) (.var 5)), -- 2211
    .aug 1 .sub (.bin .mul (.var 24) (.ein2 [[k, l, a, b], [i, j, k, l]] [i, j, a, b] (.var 21) (.var 65))), -- 2212
    .del 65, -- 2213
    .assign 66 (.ein2 [[i, j, l, c], [c, k]] [i, j, k, l] (.var 6) (.var 22)), -- 2214
    .aug 66 .add (.bin .mul (.lit 1 2) (.ein2 [[i, j, d, c], [d, c, l, k]] [i, j, k, l] (.var 8) (.var 28))), -- 2215
    .aug 66 .add (.bin .mul (.lit 1 4) (.ein2 [[i, j, c, d], [c, d, l, k]] [i, j, k, l] (.var 8) (.var 23))), -- 2216
    .aug 66 .add (.bin .mul (.lit 1 2) (.transp [0, 1, 3, 2] (.var 5))), -- 2217
    .aug 1 .add (.bin .mul (.var 24) (.ein2 [[l, k, a, b], [i, j, k, l]] [i, j, a, b] (.var 21) (.var 66))), -- 2218
    .del 66, -- 2219
    .assign 67 (.ein2 [[l, j, d, b], [c, d, k, l]] [k, j, c, b] (.bin .sub (.var 8) (.transp [0, 1, 3, 2] (.var 8))) (.var 25)), -- 2222
    .aug 67 .add (.ein2 [[j, l, b, d], [c, d, k, l]] [k, j, c, b] (.var 8) (.var 23)), -- 2224
    .assign 56 (.ein2 [[k, j, c, b], [k, i, c, a]] [i, j, a, b] (.var 21) (.var 67)), -- 2225
    .assign 68 (.ein2 [[l, j, d, b], [c, d, k, l]] [k, j, c, b] (.var 8) (.var 25)), -- 2226
    .aug 68 .add (.ein2 [[l, j, d, b], [c, d, k, l]] [k, j, c, b] (.bin .sub (.var 8) (.transp [0, 1, 3, 2] (.var 8))) (.var 23)), -- 2227
    .aug 56 .add (.ein2 [[i, k, a, c], [k, j, c, b]] [i, j, a, b] (.var 26) (.var 68)), -- 2229
    .assign 69 (.ein2 [[l, j, b, d], [c, d, l, k]] [k, j, c, b] (.var 8) (.var 23)), -- 2230
    .aug 56 .add (.ein2 [[i, k, c, b], [k, j, c, a]] [i, j, a, b] (.var 21) (.var 69)), -- 2231
    .del 69, -- 2232
    .aug 56 .add (.transp [1, 0, 3, 2] (.var 56)), -- 2233
    .aug 1 .add (.bin .mul (.var 24) (.var 56)), -- 2234
    .assign 70 (.ein2 [[j, k, b, d], [b, c, j, k]] [c, d] (.var 26) (.var 25)), -- 2237
    .aug 70 .add (.bin .mul (.lit 2 1) (.ein2 [[k, j, d, b], [c, b, k, j]] [c, d] (.var 21) (.var 23))), -- 2238
    .aug 0 .add (.bin .mul (.bin .mul (.lit 1 2) (.var 24)) (.ein2 [[c, d], [d, i, c, a]] [i, a] (.var 70) (.bin .sub (.var 16) (.transp [0, 1, 3, 2] (.var 16))))), -- 2239
    .aug 0 .sub (.bin .mul (.bin .mul (.lit 1 2) (.var 24)) (.ein2 [[d, b], [b, i, d, a]] [i, a] (.var 70) (.var 36))), -- 2241
    .aug 0 .add (.bin .mul (.bin .mul (.lit 1 2) (.var 24)) (.ein2 [[c, d], [i, d, a, c]] [i, a] (.var 70) (.var 12))), -- 2243
    .aug 0 .sub (.bin .mul (.bin .mul (.lit 1 2) (.var 24)) (.ein2 [[d, b], [b, i, d, a]] [i, a] (.var 70) (.var 37))), -- 2244
    .assign 71 (.ein2 [[j, l, b, c], [b, c, j, k]] [l, k] (.var 26) (.var 25)), -- 2246
    .aug 71 .add (.ein2 [[l, j, c, b], [c, b, k, j]] [l, k] (.var 21) (.var 23)), -- 2247
    .aug 71 .add (.ein2 [[l, j, b, c], [b, c, k, j]] [l, k] (.var 21) (.var 23)), -- 2248
    .aug 0 .sub (.bin .mul (.bin .mul (.lit 1 2) (.var 24)) (.ein2 [[l, k], [k, i, l, a]] [i, a] (.var 71) (.bin .sub (.var 6) (.transp [0, 1, 3, 2] (.var 7))))), -- 2249
    .aug 0 .sub (.bin .mul (.bin .mul (.lit 1 2) (.var 24)) (.ein2 [[j, l], [l, i, j, a]] [i, a] (.var 71) (.var 39))), -- 2251
    .aug 0 .sub (.bin .mul (.bin .mul (.lit 1 2) (.var 24)) (.ein2 [[l, k], [i, k, a, l]] [i, a] (.var 71) (.var 7))), -- 2253
    .aug 0 .sub (.bin .mul (.bin .mul (.lit 1 2) (.var 24)) (.ein2 [[j, l], [l, i, j, a]] [i, a] (.var 71) (.var 40))), -- 2254
    .assign 56 (.bin .mul (.lit 1 2) (.ein2 [[d, a], [i, j, d, b]] [i, j, a, b] (.var 70) (.var 8))), -- 2256
    .aug 56 .add (.bin .mul (.lit 1 2) (.ein2 [[j, l], [i, l, a, b]] [i, j, a, b] (.var 71) (.var 8))), -- 2257
    .aug 56 .add (.transp [1, 0, 3, 2] (.var 56)), -- 2258
    .aug 1 .sub (.bin .mul (.var 24) (.var 56)) -- 2259
    ]
  ret := []

/-- cqcpy/cc_equations.py:2262-2269 (`ccd_lambda_simple`).  Names: 0 F.oo, 1 F.vv, 2 I.oooo, 3 I.oovv, 4 I.vovo, 5 I.vvvv, 6 L2old, 7 T2old, 8 L2. -/
def ccd_lambda_simple : Fun where
  params := [0, 1, 2, 3, 4, 5, 6, 7]
  body := .block [
    .assign 8 (.copy (.var 3)), -- 2264
    .callFun LD_LD_proc [.var 8, .var 0, .var 1, .var 2, .var 4, .var 5, .var 6, .lit 1 1] [], -- 2266
    .callFun LD_LDTD_proc [.var 8, .var 3, .var 6, .var 7, .lit 1 1] [] -- 2267
    ]
  ret := [.var 8]

/-- cqcpy/cc_equations.py:2272-2282 (`ccsd_lambda_opt`).  Names: 0 F.oo, 1 F.ov, 2 F.vv, 3 I.oooo, 4 I.ooov, 5 I.oovv, 6 I.vooo, 7 I.vovo, 8 I.vovv, 9 I.vvvo, 10 I.vvvv, 11 L1old, 12 L2old, 13 T1old, 14 T2old, 15 L1, 16 L2. -/
def ccsd_lambda_opt : Fun where
  params := [0, 1, 2, 3, 4, 5, 6, 7, 8, 9, 10, 11, 12, 13, 14]
  body := .block [
    .assign 15 (.copy (.var 1)), -- 2276
    .assign 16 (.copy (.var 5)), -- 2277
    .callFun LS_TS_proc [.var 15, .var 5, .var 13, .lit 1 1] [], -- 2279
    .callFun Lambda_opt_proc [.var 15, .var 16, .var 0, .var 1, .var 2, .var 3, .var 4, .var 5, .var 6, .var 7, .var 8, .var 9, .var 10, .var 11, .var 12, .var 13, .var 14, .lit 1 1] [] -- 2280
    ]
  ret := [.var 15, .var 16]

/-- cqcpy/cc_equations.py:2285-2295 (`ccsd_lambda_stanton`).  Names: 0 F.oo, 1 F.ov, 2 F.vv, 3 I.oooo, 4 I.ooov, 5 I.oovv, 6 I.vooo, 7 I.vovo, 8 I.vovv, 9 I.vvvo, 10 I.vvvv, 11 L1old, 12 L2old, 13 T1old, 14 T2old, 15 L1, 16 L2. -/
def ccsd_lambda_stanton : Fun where
  params := [0, 1, 2, 3, 4, 5, 6, 7, 8, 9, 10, 11, 12, 13, 14]
  body := .block [
    .assign 15 (.copy (.var 1)), -- 2289
    .assign 16 (.copy (.var 5)), -- 2290
    .callFun LS_TS_proc [.var 15, .var 5, .var 13, .lit 1 1] [], -- 2292
    .callFun Lambda_Stanton_proc [.var 15, .var 16, .var 0, .var 1, .var 2, .var 3, .var 4, .var 5, .var 6, .var 7, .var 8, .var 9, .var 10, .var 11, .var 12, .var 13, .var 14] [] -- 2293
    ]
  ret := [.var 15, .var 16]

/-- cqcpy/cc_equations.py:2298-2308 (`ccsd_lambda_opt_int`).  Names: 0 F.ov, 1 I.ooov, 2 I.oovv, 3 I.vovv, 4 L1old, 5 L2old, 6 T1old, 7 T2old, 8 intor.IToo, 9 intor.IToooo, 10 intor.ITooov, 11 intor.IToovv, 12 intor.IToovv2, 13 intor.ITov, 14 intor.ITvooo, 15 intor.ITvovo, 16 intor.ITvovo2, 17 intor.ITvovv, 18 intor.ITvv, 19 intor.ITvvvo, 20 intor.ITvvvv, 21 intor.IooovT, 22 intor.IvovvT, 23 L1, 24 L2. -/
def ccsd_lambda_opt_int : Fun where
  params := [0, 1, 2, 3, 4, 5, 6, 7, 8, 9, 10, 11, 12, 13, 14, 15, 16, 17, 18, 19, 20, 21, 22]
  body := .block [
    .assign 23 (.copy (.var 0)), -- 2302
    .assign 24 (.copy (.var 2)), -- 2303
    .callFun LS_TS_proc [.var 23, .var 2, .var 6, .lit 1 1] [], -- 2305
    .callFun Lambda_opt_int_proc [.var 23, .var 24, .var 1, .var 2, .var 3, .var 4, .var 5, .var 7, .var 8, .var 9, .var 10, .var 11, .var 12, .var 13, .var 14, .var 15, .var 16, .var 17, .var 18, .var 19, .var 20, .var 21, .var 22, .lit 1 1] [] -- 2306
    ]
  ret := [.var 23, .var 24]

/-- cqcpy/cc_equations.py:2311-2327 (`uccsd_lambda_opt`).  Names: 0 Fa.oo, 1 Fa.ov, 2 Fa.vv, 3 Fb.oo, 4 Fb.ov, 5 Fb.vv, 6 Ia.oooo, 7 Ia.ooov, 8 Ia.oovv, 9 Ia.vooo, 10 Ia.vovo, 11 Ia.vovv, 12 Ia.vvvo, 13 Ia.vvvv, 14 Ib.oooo, 15 Ib.ooov, 16 Ib.oovv, 17 Ib.vooo, 18 Ib.vovo, 19 Ib.vovv, 20 Ib.vvvo, 21 Ib.vvvv, 22 Iabab.oooo, 23 Iabab.ooov, 24 Iabab.oovo, 25 Iabab.oovv, 26 Iabab.ovoo, 27 Iabab.ovov, 28 Iabab.ovvo, 29 Iabab.ovvv, 30 Iabab.vooo, 31 Iabab.voov, 32 Iabab.vovo, 33 Iabab.vovv, 34 Iabab.vvov, 35 Iabab.vvvo, 36 Iabab.vvvv, 37 L1old.0, 38 L1old.1, 39 L2old.0, 40 L2old.1, 41 L2old.2, 42 T1old.0, 43 T1old.1, 44 T2old.0, 45 T2old.1, 46 T2old.2, 47 T1aold, 48 T1bold, 49 L1a, 50 L1b, 51 L2aa, 52 L2ab, 53 L2bb. -/
def uccsd_lambda_opt : Fun where
  params := [0, 1, 2, 3, 4, 5, 6, 7, 8, 9, 10, 11, 12, 13, 14, 15, 16, 17, 18, 19, 20, 21, 22, 23, 24, 25, 26, 27, 28, 29, 30, 31, 32, 33, 34, 35, 36, 37, 38, 39, 40, 41, 42, 43, 44, 45, 46]
  body := .block [
    .assign 47 (.var 42), -- 2316
    .assign 48 (.var 43), -- 2316
    .assign 49 (.copy (.var 1)), -- 2318
    .assign 50 (.copy (.var 4)), -- 2319
    .assign 51 (.copy (.var 8)), -- 2320
    .assign 52 (.copy (.var 25)), -- 2321
    .assign 53 (.copy (.var 16)), -- 2322
    .callFun u_LS_TS_proc [.var 49, .var 50, .var 8, .var 16, .var 25, .var 47, .var 48, .lit 1 1] [], -- 2323
    .callFun uccsd_Lambda_opt_proc [.var 49, .var 50, .var 51, .var 52, .var 53, .var 0, .var 1, .var 2, .var 3, .var 4, .var 5, .var 6, .var 7, .var 8, .var 9, .var 10, .var 11, .var 12, .var 13, .var 14, .var 15, .var 16, .var 17, .var 18, .var 19, .var 20, .var 21, .var 22, .var 23, .var 24, .var 25, .var 26, .var 27, .var 28, .var 29, .var 30, .var 31, .var 32, .var 33, .var 34, .var 35, .var 36, .var 37, .var 38, .var 39, .var 40, .var 41, .var 42, .var 43, .var 44, .var 45, .var 46, .lit 1 1] [] -- 2324
    ]
  ret := [.var 49, .var 50, .var 51, .var 52, .var 53]

/-- cqcpy/cc_equations.py:2330-2339 (`rccsd_lambda_opt`).  Names: 0 F.oo, 1 F.ov, 2 F.vv, 3 I.oooo, 4 I.ooov, 5 I.oovo, 6 I.oovv, 7 I.ovoo, 8 I.ovov, 9 I.ovvo, 10 I.ovvv, 11 I.vooo, 12 I.voov, 13 I.vovo, 14 I.vovv, 15 I.vvov, 16 I.vvvo, 17 I.vvvv, 18 L1old, 19 L2old, 20 T1old, 21 T2old, 22 L1, 23 L2. -/
def rccsd_lambda_opt : Fun where
  params := [0, 1, 2, 3, 4, 5, 6, 7, 8, 9, 10, 11, 12, 13, 14, 15, 16, 17, 18, 19, 20, 21]
  body := .block [
    .assign 22 (.copy (.var 1)), -- 2334
    .assign 23 (.copy (.var 6)), -- 2335
    .callFun r_LS_TS_proc [.var 22, .var 6, .var 20, .lit 1 1] [], -- 2336
    .callFun rccsd_Lambda_opt_proc [.var 22, .var 23, .var 0, .var 1, .var 2, .var 3, .var 4, .var 5, .var 6, .var 7, .var 8, .var 9, .var 10, .var 11, .var 12, .var 13, .var 14, .var 15, .var 16, .var 17, .var 18, .var 19, .var 20, .var 21, .lit 1 1] [] -- 2337
    ]
  ret := [.var 22, .var 23]

/-- cqcpy/cc_equations.py:2342-2366 (`ccsd_lambda_simple`).  Names: 0 F.oo, 1 F.ov, 2 F.vv, 3 I.oooo, 4 I.ooov, 5 I.oovv, 6 I.vooo, 7 I.vovo, 8 I.vovv, 9 I.vvvo, 10 I.vvvv, 11 L1old, 12 L2old, 13 T1old, 14 T2old, 15 L1, 16 L2. -/
def ccsd_lambda_simple : Fun where
  params := [0, 1, 2, 3, 4, 5, 6, 7, 8, 9, 10, 11, 12, 13, 14]
  body := .block [
    .assign 15 (.copy (.var 1)), -- 2344
    .assign 16 (.copy (.var 5)), -- 2345
    .callFun LS_TS_proc [.var 15, .var 5, .var 13, .lit 1 1] [], -- 2347
    .callFun LS_LS_proc [.var 15, .var 0, .var 2, .var 7, .var 11, .lit 1 1] [], -- 2348
    .callFun LS_LSTS_proc [.var 15, .var 1, .var 4, .var 8, .var 11, .var 13, .lit 1 1] [], -- 2349
    .callFun LS_LSTD_proc [.var 15, .var 5, .var 11, .var 14, .lit 1 1] [], -- 2350
    .callFun LS_LSTSS_proc [.var 15, .var 5, .var 11, .var 13, .lit 1 1] [], -- 2351
    .callFun LS_LD_proc [.var 15, .var 6, .var 9, .var 12, .lit 1 1] [], -- 2352
    .callFun LS_LDTS_proc [.var 15, .var 3, .var 7, .var 10, .var 12, .var 13, .lit 1 1] [], -- 2353
    .callFun LS_LDTD_proc [.var 15, .var 1, .var 4, .var 8, .var 12, .var 14, .lit 1 1] [], -- 2354
    .callFun LS_LDTSS_proc [.var 15, .var 4, .var 8, .var 12, .var 13, .lit 1 1] [], -- 2355
    .callFun LS_LDTSD_proc [.var 15, .var 5, .var 12, .var 13, .var 14, .lit 1 1] [], -- 2356
    .callFun LS_LDTSSS_proc [.var 15, .var 5, .var 12, .var 13, .lit 1 1] [], -- 2357
    .callFun LD_LS_proc [.var 16, .var 1, .var 4, .var 8, .var 11, .lit 1 1] [], -- 2359
    .callFun LD_LSTS_proc [.var 16, .var 5, .var 11, .var 13, .lit 1 1] [], -- 2360
    .callFun LD_LD_proc [.var 16, .var 0, .var 2, .var 3, .var 7, .var 10, .var 12, .lit 1 1] [], -- 2361
    .callFun LD_LDTS_proc [.var 16, .var 1, .var 4, .var 8, .var 12, .var 13, .lit 1 1] [], -- 2362
    .callFun LD_LDTD_proc [.var 16, .var 5, .var 12, .var 14, .lit 1 1] [], -- 2363
    .callFun LD_LDTSS_proc [.var 16, .var 5, .var 12, .var 13, .lit 1 1] [] -- 2364
    ]
  ret := [.var 15, .var 16]

/-- cqcpy/cc_equations.py:2369-2372 (`ccsd_1rdm_ba`).  Names: 0 T1, 1 T2, 2 L1, 3 L2, 4 pba. -/
def ccsd_1rdm_ba : Fun where
  params := [0, 1, 2, 3]
  body := .block [
    .assign 4 (.bin .add (.ein2 [[i, a], [b, i]] [b, a] (.var 2) (.var 0)) (.bin .mul (.lit 1 2) (.ein2 [[k, i, c, a], [c, b, k, i]] [b, a] (.var 3) (.var 1)))) -- 2370
    ]
  ret := [.var 4]

/-- cqcpy/cc_equations.py:2378-2381 (`ccsd_1rdm_ji`).  Names: 0 T1, 1 T2, 2 L1, 3 L2, 4 pji. -/
def ccsd_1rdm_ji : Fun where
  params := [0, 1, 2, 3]
  body := .block [
    .assign 4 (.bin .sub (.neg (.ein2 [[j, a], [a, i]] [j, i] (.var 2) (.var 0))) (.bin .mul (.lit 1 2) (.ein2 [[k, j, c, a], [c, a, k, i]] [j, i] (.var 3) (.var 1)))) -- 2379
    ]
  ret := [.var 4]

/-- cqcpy/cc_equations.py:2387-2393 (`ccsd_1rdm_ai`).  Names: 0 T1, 1 T2, 2 L1, 3 L2, 4 tfac, 5 pai. -/
def ccsd_1rdm_ai : Fun where
  params := [0, 1, 2, 3, 4]
  body := .block [
    .assign 5 (.bin .sub (.bin .sub (.bin .sub (.bin .add (.bin .mul (.var 4) (.var 0)) (.ein2 [[j, b], [b, a, j, i]] [a, i] (.var 2) (.var 1))) (.ein3 [[j, b], [b, i], [a, j]] [a, i] (.var 2) (.var 0) (.var 0))) (.bin .mul (.lit 1 2) (.ein3 [[k, j, c, b], [c, i], [a, b, k, j]] [a, i] (.var 3) (.var 0) (.var 1)))) (.bin .mul (.lit 1 2) (.ein3 [[k, j, c, b], [a, k], [c, b, i, j]] [a, i] (.var 3) (.var 0) (.var 1)))) -- 2388
    ]
  ret := [.var 5]

/-- cqcpy/cc_equations.py:2396-2400 (`ccsd_2rdm_cdab`).  Names: 0 T1, 1 T2, 2 L2, 3 Pcdab. -/
def ccsd_2rdm_cdab : Fun where
  params := [0, 1, 2]
  body := .block [
    .assign 3 (.bin .mul (.lit 1 2) (.ein2 [[i, j, a, b], [c, d, i, j]] [c, d, a, b] (.var 2) (.var 1))), -- 2397
    .aug 3 .add (.bin .mul (.lit 1 2) (.ein3 [[i, j, a, b], [c, i], [d, j]] [c, d, a, b] (.var 2) (.var 0) (.var 0))), -- 2398
    .aug 3 .sub (.bin .mul (.lit 1 2) (.ein3 [[i, j, a, b], [d, i], [c, j]] [c, d, a, b] (.var 2) (.var 0) (.var 0))) -- 2399
    ]
  ret := [.var 3]

/-- cqcpy/cc_equations.py:2403-2405 (`ccsd_2rdm_ciab`).  Names: 0 T1, 1 L2, 2 Pciab. -/
def ccsd_2rdm_ciab : Fun where
  params := [0, 1]
  body := .block [
    .assign 2 (.ein2 [[j, i, a, b], [c, j]] [c, i, a, b] (.var 1) (.var 0)) -- 2404
    ]
  ret := [.var 2]

/-- cqcpy/cc_equations.py:2411-2421 (`ccsd_2rdm_bcai`).  Names: 0 T1, 1 T2, 2 L1, 3 L2, 4 Pbcai. -/
def ccsd_2rdm_bcai : Fun where
  params := [0, 1, 2, 3]
  body := .block [
    .assign 4 (.ein2 [[j, a], [b, c, j, i]] [b, c, a, i] (.var 2) (.var 1)), -- 2412
    .aug 4 .add (.ein3 [[j, a], [b, j], [c, i]] [b, c, a, i] (.var 2) (.var 0) (.var 0)), -- 2413
    .aug 4 .sub (.ein3 [[j, a], [c, j], [b, i]] [b, c, a, i] (.var 2) (.var 0) (.var 0)), -- 2414
    .aug 4 .add (.bin .mul (.lit 1 2) (.ein3 [[j, l, a, d], [b, d, j, l], [c, i]] [b, c, a, i] (.var 3) (.var 1) (.var 0))), -- 2415
    .aug 4 .sub (.bin .mul (.lit 1 2) (.ein3 [[j, l, a, d], [c, d, j, l], [b, i]] [b, c, a, i] (.var 3) (.var 1) (.var 0))), -- 2416
    .aug 4 .add (.ein3 [[j, k, a, d], [c, d, i, k], [b, j]] [b, c, a, i] (.var 3) (.var 1) (.var 0)), -- 2417
    .aug 4 .sub (.ein3 [[j, k, a, d], [b, d, i, k], [c, j]] [b, c, a, i] (.var 3) (.var 1) (.var 0)), -- 2418
    .aug 4 .sub (.bin .mul (.lit 1 2) (.ein3 [[j, k, d, a], [c, b, j, k], [d, i]] [b, c, a, i] (.var 3) (.var 1) (.var 0))), -- 2419
    .aug 4 .sub (.ein4 [[k, j, d, a], [c, k], [d, i], [b, j]] [b, c, a, i] (.var 3) (.var 0) (.var 0) (.var 0)) -- 2420
    ]
  ret := [.var 4]

/-- cqcpy/cc_equations.py:2424-2428 (`ccsd_2rdm_bjai`).  Names: 0 T1, 1 T2, 2 L1, 3 L2, 4 Pbjai. -/
def ccsd_2rdm_bjai : Fun where
  params := [0, 1, 2, 3]
  body := .block [
    .assign 4 (.neg (.ein2 [[j, a], [b, i]] [b, j, a, i] (.var 2) (.var 0))), -- 2425
    .aug 4 .sub (.ein2 [[k, j, a, c], [b, c, k, i]] [b, j, a, i] (.var 3) (.var 1)), -- 2426
    .aug 4 .sub (.ein3 [[k, j, a, c], [b, k], [c, i]] [b, j, a, i] (.var 3) (.var 0) (.var 0)) -- 2427
    ]
  ret := [.var 4]

/-- cqcpy/cc_equations.py:2431-2476 (`ccsd_2rdm_abij`).  Names: 0 T1, 1 T2, 2 L1, 3 L2, 4 tfac, 5 Pabij. -/
def ccsd_2rdm_abij : Fun where
  params := [0, 1, 2, 3, 4]
  body := .block [
    .assign 5 (.bin .mul (.var 4) (.copy (.var 1))), -- 2432
    .aug 5 .add (.bin .mul (.var 4) (.ein2 [[a, i], [b, j]] [a, b, i, j] (.var 0) (.var 0))), -- 2433
    .aug 5 .sub (.bin .mul (.var 4) (.ein2 [[a, j], [b, i]] [a, b, i, j] (.var 0) (.var 0))), -- 2434
    .aug 5 .sub (.ein3 [[k, c], [a, b, k, j], [c, i]] [a, b, i, j] (.var 2) (.var 1) (.var 0)), -- 2435
    .aug 5 .add (.ein3 [[k, c], [a, b, k, i], [c, j]] [a, b, i, j] (.var 2) (.var 1) (.var 0)), -- 2436
    .aug 5 .sub (.ein3 [[k, c], [c, b, i, j], [a, k]] [a, b, i, j] (.var 2) (.var 1) (.var 0)), -- 2437
    .aug 5 .add (.ein3 [[k, c], [c, a, i, j], [b, k]] [a, b, i, j] (.var 2) (.var 1) (.var 0)), -- 2438
    .aug 5 .add (.ein3 [[k, c], [b, c, j, k], [a, i]] [a, b, i, j] (.var 2) (.var 1) (.var 0)), -- 2439
    .aug 5 .sub (.ein3 [[k, c], [a, c, j, k], [b, i]] [a, b, i, j] (.var 2) (.var 1) (.var 0)), -- 2440
    .aug 5 .sub (.ein3 [[k, c], [b, c, i, k], [a, j]] [a, b, i, j] (.var 2) (.var 1) (.var 0)), -- 2441
    .aug 5 .add (.ein3 [[k, c], [a, c, i, k], [b, j]] [a, b, i, j] (.var 2) (.var 1) (.var 0)), -- 2442
    .aug 5 .sub (.ein4 [[k, c], [a, k], [b, j], [c, i]] [a, b, i, j] (.var 2) (.var 0) (.var 0) (.var 0)), -- 2443
    .aug 5 .add (.ein4 [[k, c], [b, k], [a, j], [c, i]] [a, b, i, j] (.var 2) (.var 0) (.var 0) (.var 0)), -- 2444
    .aug 5 .add (.ein4 [[k, c], [a, k], [b, i], [c, j]] [a, b, i, j] (.var 2) (.var 0) (.var 0) (.var 0)), -- 2445
    .aug 5 .sub (.ein4 [[k, c], [b, k], [a, i], [c, j]] [a, b, i, j] (.var 2) (.var 0) (.var 0) (.var 0)), -- 2446
    .aug 5 .add (.bin .mul (.lit 1 4) (.ein3 [[k, l, c, d], [a, b, k, l], [c, d, i, j]] [a, b, i, j] (.var 3) (.var 1) (.var 1))), -- 2447
    .aug 5 .add (.bin .mul (.lit 1 2) (.ein3 [[k, l, c, d], [c, a, k, i], [b, d, j, l]] [a, b, i, j] (.var 3) (.var 1) (.var 1))), -- 2448
    .aug 5 .sub (.bin .mul (.lit 1 2) (.ein3 [[k, l, c, d], [c, a, k, j], [b, d, i, l]] [a, b, i, j] (.var 3) (.var 1) (.var 1))), -- 2449
    .aug 5 .sub (.bin .mul (.lit 1 2) (.ein3 [[k, l, c, d], [c, b, k, i], [a, d, j, l]] [a, b, i, j] (.var 3) (.var 1) (.var 1))), -- 2450
    .aug 5 .add (.bin .mul (.lit 1 2) (.ein3 [[k, l, c, d], [c, b, k, j], [a, d, i, l]] [a, b, i, j] (.var 3) (.var 1) (.var 1))), -- 2451
    .aug 5 .sub (.bin .mul (.lit 1 2) (.ein3 [[k, l, c, d], [b, d, k, l], [a, c, i, j]] [a, b, i, j] (.var 3) (.var 1) (.var 1))), -- 2452
    .aug 5 .add (.bin .mul (.lit 1 2) (.ein3 [[k, l, c, d], [a, d, k, l], [b, c, i, j]] [a, b, i, j] (.var 3) (.var 1) (.var 1))), -- 2453
    .aug 5 .sub (.bin .mul (.lit 1 2) (.ein3 [[k, l, c, d], [a, b, i, k], [c, d, j, l]] [a, b, i, j] (.var 3) (.var 1) (.var 1))), -- 2454
    .aug 5 .add (.bin .mul (.lit 1 2) (.ein3 [[k, l, c, d], [a, b, j, k], [c, d, i, l]] [a, b, i, j] (.var 3) (.var 1) (.var 1))), -- 2455
    .aug 5 .add (.bin .mul (.lit 1 4) (.ein4 [[k, l, c, d], [c, d, i, j], [a, k], [b, l]] [a, b, i, j] (.var 3) (.var 1) (.var 0) (.var 0))), -- 2456
    .aug 5 .sub (.bin .mul (.lit 1 4) (.ein4 [[k, l, c, d], [c, d, i, j], [b, k], [a, l]] [a, b, i, j] (.var 3) (.var 1) (.var 0) (.var 0))), -- 2457
    .aug 5 .add (.bin .mul (.lit 1 4) (.ein4 [[k, l, c, d], [a, b, k, l], [c, i], [d, j]] [a, b, i, j] (.var 3) (.var 1) (.var 0) (.var 0))), -- 2458
    .aug 5 .sub (.bin .mul (.lit 1 4) (.ein4 [[k, l, c, d], [a, b, k, l], [c, j], [d, i]] [a, b, i, j] (.var 3) (.var 1) (.var 0) (.var 0))), -- 2459
    .aug 5 .sub (.ein4 [[k, l, c, d], [b, d, j, l], [a, k], [c, i]] [a, b, i, j] (.var 3) (.var 1) (.var 0) (.var 0)), -- 2460
    .aug 5 .add (.ein4 [[k, l, c, d], [a, d, j, l], [b, k], [c, i]] [a, b, i, j] (.var 3) (.var 1) (.var 0) (.var 0)), -- 2461
    .aug 5 .add (.ein4 [[k, l, c, d], [b, d, i, l], [a, k], [c, j]] [a, b, i, j] (.var 3) (.var 1) (.var 0) (.var 0)), -- 2462
    .aug 5 .sub (.ein4 [[k, l, c, d], [a, d, i, l], [b, k], [c, j]] [a, b, i, j] (.var 3) (.var 1) (.var 0) (.var 0)), -- 2463
    .aug 5 .sub (.bin .mul (.lit 1 2) (.ein4 [[k, l, c, d], [c, d, j, l], [b, k], [a, i]] [a, b, i, j] (.var 3) (.var 1) (.var 0) (.var 0))), -- 2464
    .aug 5 .add (.bin .mul (.lit 1 2) (.ein4 [[k, l, c, d], [c, d, j, l], [a, k], [b, i]] [a, b, i, j] (.var 3) (.var 1) (.var 0) (.var 0))), -- 2465
    .aug 5 .add (.bin .mul (.lit 1 2) (.ein4 [[k, l, c, d], [c, d, i, l], [b, k], [a, j]] [a, b, i, j] (.var 3) (.var 1) (.var 0) (.var 0))), -- 2466
    .aug 5 .sub (.bin .mul (.lit 1 2) (.ein4 [[k, l, c, d], [c, d, i, l], [a, k], [b, j]] [a, b, i, j] (.var 3) (.var 1) (.var 0) (.var 0))), -- 2467
    .aug 5 .sub (.bin .mul (.lit 1 2) (.ein4 [[k, l, c, d], [b, d, k, l], [c, j], [a, i]] [a, b, i, j] (.var 3) (.var 1) (.var 0) (.var 0))), -- 2468
    .aug 5 .add (.bin .mul (.lit 1 2) (.ein4 [[k, l, c, d], [a, d, k, l], [c, j], [b, i]] [a, b, i, j] (.var 3) (.var 1) (.var 0) (.var 0))), -- 2469
    .aug 5 .add (.bin .mul (.lit 1 2) (.ein4 [[k, l, c, d], [b, d, k, l], [c, i], [a, j]] [a, b, i, j] (.var 3) (.var 1) (.var 0) (.var 0))), -- 2470
    .aug 5 .sub (.bin .mul (.lit 1 2) (.ein4 [[k, l, c, d], [a, d, k, l], [c, i], [b, j]] [a, b, i, j] (.var 3) (.var 1) (.var 0) (.var 0))), -- 2471
    .aug 5 .add (.bin .mul (.lit 1 4) (.ein5 [[k, l, c, d], [c, i], [a, k], [d, j], [b, l]] [a, b, i, j] (.var 3) (.var 0) (.var 0) (.var 0) (.var 0))), -- 2472
    .aug 5 .sub (.bin .mul (.lit 1 4) (.ein5 [[k, l, c, d], [c, i], [b, k], [d, j], [a, l]] [a, b, i, j] (.var 3) (.var 0) (.var 0) (.var 0) (.var 0))), -- 2473
    .aug 5 .sub (.bin .mul (.lit 1 4) (.ein5 [[k, l, c, d], [c, j], [a, k], [d, i], [b, l]] [a, b, i, j] (.var 3) (.var 0) (.var 0) (.var 0) (.var 0))), -- 2474
    .aug 5 .add (.bin .mul (.lit 1 4) (.ein5 [[k, l, c, d], [c, j], [b, k], [d, i], [a, l]] [a, b, i, j] (.var 3) (.var 0) (.var 0) (.var 0) (.var 0))) -- 2475
    ]
  ret := [.var 5]

/-- cqcpy/cc_equations.py:2479-2481 (`ccsd_2rdm_jkai`).  Names: 0 T1, 1 L2, 2 Pjkai. -/
def ccsd_2rdm_jkai : Fun where
  params := [0, 1]
  body := .block [
    .assign 2 (.neg (.ein2 [[j, k, a, b], [b, i]] [j, k, a, i] (.var 1) (.var 0))) -- 2480
    ]
  ret := [.var 2]

/-- cqcpy/cc_equations.py:2487-2498 (`ccsd_2rdm_kaij`).  Names: 0 T1, 1 T2, 2 L1, 3 L2, 4 Pkaij. -/
def ccsd_2rdm_kaij : Fun where
  params := [0, 1, 2, 3]
  body := .block [
    .assign 4 (.neg (.ein2 [[k, b], [b, a, i, j]] [k, a, i, j] (.var 2) (.var 1))), -- 2488
    .aug 4 .sub (.ein3 [[k, b], [b, i], [a, j]] [k, a, i, j] (.var 2) (.var 0) (.var 0)), -- 2489
    .aug 4 .add (.ein3 [[k, b], [b, j], [a, i]] [k, a, i, j] (.var 2) (.var 0) (.var 0)), -- 2490
    .aug 4 .sub (.bin .mul (.lit 1 2) (.ein3 [[k, l, c, d], [c, d, i, l], [a, j]] [k, a, i, j] (.var 3) (.var 1) (.var 0))), -- 2491
    .aug 4 .add (.bin .mul (.lit 1 2) (.ein3 [[k, l, c, d], [c, d, j, l], [a, i]] [k, a, i, j] (.var 3) (.var 1) (.var 0))), -- 2492
    .aug 4 .sub (.ein3 [[k, l, c, d], [a, d, j, l], [c, i]] [k, a, i, j] (.var 3) (.var 1) (.var 0)), -- 2493
    .aug 4 .add (.ein3 [[k, l, c, d], [a, d, i, l], [c, j]] [k, a, i, j] (.var 3) (.var 1) (.var 0)), -- 2494
    .aug 4 .add (.bin .mul (.lit 1 2) (.ein3 [[l, k, d, b], [d, b, j, i], [a, l]] [k, a, i, j] (.var 3) (.var 1) (.var 0))), -- 2495
    .aug 4 .add (.bin .mul (.lit 1 2) (.ein4 [[l, k, d, b], [a, l], [d, j], [b, i]] [k, a, i, j] (.var 3) (.var 0) (.var 0) (.var 0))), -- 2496
    .aug 4 .sub (.bin .mul (.lit 1 2) (.ein4 [[l, k, d, b], [a, l], [d, i], [b, j]] [k, a, i, j] (.var 3) (.var 0) (.var 0) (.var 0))) -- 2497
    ]
  ret := [.var 4]

/-- cqcpy/cc_equations.py:2501-2505 (`ccsd_2rdm_klij`).  Names: 0 T1, 1 T2, 2 L2, 3 Pklij. -/
def ccsd_2rdm_klij : Fun where
  params := [0, 1, 2]
  body := .block [
    .assign 3 (.bin .mul (.lit 1 2) (.ein2 [[k, l, a, b], [a, b, i, j]] [k, l, i, j] (.var 2) (.var 1))), -- 2502
    .aug 3 .add (.bin .mul (.lit 1 2) (.ein3 [[k, l, a, b], [a, i], [b, j]] [k, l, i, j] (.var 2) (.var 0) (.var 0))), -- 2503
    .aug 3 .sub (.bin .mul (.lit 1 2) (.ein3 [[k, l, a, b], [a, j], [b, i]] [k, l, i, j] (.var 2) (.var 0) (.var 0))) -- 2504
    ]
  ret := [.var 3]

/-- cqcpy/cc_equations.py:2508-2518 (`ccsd_1rdm_ai_opt`).  Names: 0 T1, 1 T2, 2 L1, 3 L2, 4 tfac, 5 pai, 6 T2temp, 7 Pac, 8 Pik. -/
def ccsd_1rdm_ai_opt : Fun where
  params := [0, 1, 2, 3, 4]
  body := .block [
    .assign 5 (.bin .mul (.var 4) (.var 0)), -- 2509
    .assign 6 (.bin .sub (.var 1) (.ein2 [[b, i], [a, j]] [b, a, j, i] (.var 0) (.var 0))), -- 2510
    .aug 5 .add (.ein2 [[j, b], [b, a, j, i]] [a, i] (.var 2) (.var 6)), -- 2511
    .assign 7 (.bin .mul (.lit 1 2) (.ein2 [[k, j, c, b], [a, b, k, j]] [a, c] (.var 3) (.var 1))), -- 2513
    .aug 5 .sub (.ein2 [[a, c], [c, i]] [a, i] (.var 7) (.var 0)), -- 2514
    .assign 8 (.bin .mul (.lit 1 2) (.ein2 [[k, j, c, b], [c, b, i, j]] [i, k] (.var 3) (.var 1))), -- 2516
    .aug 5 .sub (.ein2 [[i, k], [a, k]] [a, i] (.var 8) (.var 0)) -- 2517
    ]
  ret := [.var 5]

/-- cqcpy/cc_equations.py:2521-2525 (`ccsd_2rdm_cdab_opt`).  Names: 0 T1, 1 T2, 2 L2, 3 T2temp, 4 Pcdab. -/
def ccsd_2rdm_cdab_opt : Fun where
  params := [0, 1, 2]
  body := .block [
    .assign 3 (.bin .add (.var 1) (.ein2 [[c, i], [d, j]] [c, d, i, j] (.var 0) (.var 0))), -- 2522
    .aug 3 .sub (.ein2 [[d, i], [c, j]] [c, d, i, j] (.var 0) (.var 0)), -- 2523
    .assign 4 (.bin .mul (.lit 1 2) (.ein2 [[i, j, a, b], [c, d, i, j]] [c, d, a, b] (.var 2) (.var 3))) -- 2524
    ]
  ret := [.var 4]

/-- cqcpy/cc_equations.py:2528-2542 (`ccsd_2rdm_bcai_opt`).  Names: 0 T1, 1 T2, 2 L1, 3 L2, 4 T2temp, 5 Pbcai, 6 LTba, 7 LTtemp. -/
def ccsd_2rdm_bcai_opt : Fun where
  params := [0, 1, 2, 3]
  body := .block [
    .assign 4 (.bin .add (.var 1) (.ein2 [[c, i], [d, j]] [c, d, i, j] (.var 0) (.var 0))), -- 2529
    .aug 4 .sub (.ein2 [[d, i], [c, j]] [c, d, i, j] (.var 0) (.var 0)), -- 2530
    .assign 5 (.ein2 [[j, a], [b, c, j, i]] [b, c, a, i] (.var 2) (.var 4)), -- 2531
    .assign 6 (.ein2 [[j, l, a, d], [b, d, j, l]] [b, a] (.var 3) (.var 1)), -- 2533
    .aug 5 .add (.bin .mul (.lit 1 2) (.ein2 [[b, a], [c, i]] [b, c, a, i] (.var 6) (.var 0))), -- 2534
    .aug 5 .sub (.bin .mul (.lit 1 2) (.ein2 [[c, a], [b, i]] [b, c, a, i] (.var 6) (.var 0))), -- 2535
    .assign 7 (.ein2 [[j, k, a, d], [c, d, i, k]] [j, c, a, i] (.var 3) (.var 1)), -- 2537
    .aug 5 .add (.ein2 [[j, c, a, i], [b, j]] [b, c, a, i] (.var 7) (.var 0)), -- 2538
    .aug 5 .sub (.ein2 [[j, b, a, i], [c, j]] [b, c, a, i] (.var 7) (.var 0)), -- 2539
    .aug 5 .sub (.bin .mul (.lit 1 2) (.ein3 [[k, j, d, a], [c, b, k, j], [d, i]] [b, c, a, i] (.var 3) (.var 4) (.var 0))) -- 2541
    ]
  ret := [.var 5]

/-- cqcpy/cc_equations.py:2545-2549 (`ccsd_2rdm_bjai_opt`).  Names: 0 T1, 1 T2, 2 L1, 3 L2, 4 Pbjai, 5 T2temp. -/
def ccsd_2rdm_bjai_opt : Fun where
  params := [0, 1, 2, 3]
  body := .block [
    .assign 4 (.neg (.ein2 [[j, a], [b, i]] [b, j, a, i] (.var 2) (.var 0))), -- 2546
    .assign 5 (.bin .add (.var 1) (.ein2 [[b, k], [c, i]] [b, c, k, i] (.var 0) (.var 0))), -- 2547
    .aug 4 .sub (.ein2 [[k, j, a, c], [b, c, k, i]] [b, j, a, i] (.var 3) (.var 5)) -- 2548
    ]
  ret := [.var 4]

/-- cqcpy/cc_equations.py:2552-2606 (`ccsd_2rdm_abij_opt`).  Names: 0 T1, 1 T2, 2 L1, 3 L2, 4 tfac, 5 Pabij, 6 LTki, 7 tmp, 8 LTac, 9 T2temp, 10 LTbj, 11 LToo, 12 LTov, 13 Lcb, 14 Lkj, 15 Looov, 16 Loooo, 17 Lalid. -/
def ccsd_2rdm_abij_opt : Fun where
  params := [0, 1, 2, 3, 4]
  body := .block [
    .assign 5 (.bin .mul (.var 4) (.copy (.var 1))), -- 2553
    .aug 5 .add (.bin .mul (.var 4) (.ein2 [[a, i], [b, j]] [a, b, i, j] (.var 0) (.var 0))), -- 2554
    .aug 5 .sub (.bin .mul (.var 4) (.ein2 [[a, j], [b, i]] [a, b, i, j] (.var 0) (.var 0))), -- 2555
    .assign 6 (.ein2 [[k, c], [c, i]] [k, i] (.var 2) (.var 0)), -- 2557
    .assign 7 (.neg (.ein2 [[k, i], [a, b, k, j]] [a, b, i, j] (.var 6) (.var 1))), -- 2558
    .aug 5 .add (.bin .sub (.var 7) (.transp [0, 1, 3, 2] (.var 7))), -- 2559
    .assign 8 (.ein2 [[k, c], [a, k]] [a, c] (.var 2) (.var 0)), -- 2561
    .assign 7 (.neg (.ein2 [[a, c], [c, b, i, j]] [a, b, i, j] (.var 8) (.var 1))), -- 2562
    .aug 5 .add (.bin .sub (.var 7) (.transp [1, 0, 2, 3] (.var 7))), -- 2563
    .assign 9 (.bin .sub (.var 1) (.ein2 [[b, k], [c, j]] [b, c, j, k] (.var 0) (.var 0))), -- 2565
    .assign 10 (.ein2 [[k, c], [b, c, j, k]] [b, j] (.var 2) (.var 9)), -- 2566
    .aug 5 .add (.ein2 [[a, i], [b, j]] [a, b, i, j] (.var 10) (.var 0)), -- 2567
    .aug 5 .sub (.ein2 [[a, j], [b, i]] [a, b, i, j] (.var 10) (.var 0)), -- 2568
    .aug 5 .sub (.ein2 [[b, i], [a, j]] [a, b, i, j] (.var 10) (.var 0)), -- 2569
    .aug 5 .add (.ein2 [[b, j], [a, i]] [a, b, i, j] (.var 10) (.var 0)), -- 2570
    .assign 11 (.ein2 [[k, l, c, d], [c, d, i, j]] [k, l, i, j] (.var 3) (.var 1)), -- 2572
    .aug 5 .add (.bin .mul (.lit 1 4) (.ein2 [[k, l, i, j], [a, b, k, l]] [a, b, i, j] (.var 11) (.var 1))), -- 2573
    .assign 12 (.ein2 [[k, l, c, d], [c, a, k, i]] [l, i, d, a] (.var 3) (.var 1)), -- 2575
    .assign 7 (.bin .mul (.lit 1 2) (.ein2 [[l, i, d, a], [b, d, j, l]] [a, b, i, j] (.var 12) (.var 1))), -- 2576
    .aug 5 .add (.bin .sub (.var 7) (.transp [0, 1, 3, 2] (.var 7))), -- 2577
    .aug 5 .sub (.transp [1, 0, 2, 3] (.var 7)), -- 2578
    .aug 5 .add (.transp [1, 0, 3, 2] (.var 7)), -- 2579
    .assign 9 (.bin .sub (.bin .add (.var 1) (.ein2 [[c, j], [a, i]] [a, c, i, j] (.var 0) (.var 0))) (.ein2 [[c, i], [a, j]] [a, c, i, j] (.var 0) (.var 0))), -- 2581
    .assign 13 (.ein2 [[k, l, c, d], [b, d, k, l]] [c, b] (.var 3) (.var 1)), -- 2582
    .assign 7 (.bin .mul (.neg (.lit 1 2)) (.ein2 [[c, b], [a, c, i, j]] [a, b, i, j] (.var 13) (.var 9))), -- 2583
    .aug 5 .add (.bin .sub (.var 7) (.transp [1, 0, 2, 3] (.var 7))), -- 2584
    .assign 14 (.ein2 [[k, l, c, d], [c, d, j, l]] [k, j] (.var 3) (.var 1)), -- 2586
    .assign 7 (.bin .mul (.neg (.lit 1 2)) (.ein2 [[k, j], [a, b, i, k]] [a, b, i, j] (.var 14) (.var 9))), -- 2587
    .aug 5 .add (.bin .sub (.var 7) (.transp [0, 1, 3, 2] (.var 7))), -- 2588
    .assign 9 (.bin .add (.var 1) (.ein2 [[c, i], [d, j]] [c, d, i, j] (.var 0) (.var 0))), -- 2590
    .assign 11 (.ein2 [[k, l, c, d], [c, d, i, j]] [k, l, i, j] (.var 3) (.var 9)), -- 2591
    .assign 7 (.ein2 [[k, l, i, j], [a, k]] [a, l, i, j] (.var 11) (.var 0)), -- 2592
    .assign 7 (.bin .mul (.lit 1 4) (.ein2 [[a, l, i, j], [b, l]] [a, b, i, j] (.var 7) (.var 0))), -- 2593
    .aug 5 .add (.bin .sub (.var 7) (.transp [1, 0, 2, 3] (.var 7))), -- 2594
    .assign 15 (.ein2 [[k, l, c, d], [c, i]] [k, l, i, d] (.var 3) (.var 0)), -- 2596
    .assign 16 (.ein2 [[k, l, i, d], [d, j]] [k, l, i, j] (.var 15) (.var 0)), -- 2597
    .aug 16 .sub (.transp [0, 1, 3, 2] (.var 16)), -- 2598
    .aug 5 .add (.bin .mul (.lit 1 4) (.ein2 [[k, l, i, j], [a, b, k, l]] [a, b, i, j] (.var 16) (.var 9))), -- 2599
    .assign 17 (.ein3 [[k, l, c, d], [a, k], [c, i]] [a, l, i, d] (.var 3) (.var 0) (.var 0)), -- 2601
    .assign 7 (.ein2 [[a, l, i, d], [b, d, j, l]] [a, b, i, j] (.var 17) (.var 1)), -- 2602
    .aug 5 .sub (.var 7), -- 2603
    .aug 5 .add (.bin .add (.transp [0, 1, 3, 2] (.var 7)) (.transp [1, 0, 2, 3] (.var 7))), -- 2604
    .aug 5 .sub (.transp [1, 0, 3, 2] (.var 7)) -- 2605
    ]
  ret := [.var 5]

/-- cqcpy/cc_equations.py:2609-2623 (`ccsd_2rdm_kaij_opt`).  Names: 0 T1, 1 T2, 2 L1, 3 L2, 4 T2temp, 5 Pkaij, 6 LTo, 7 tmp, 8 Lklid. -/
def ccsd_2rdm_kaij_opt : Fun where
  params := [0, 1, 2, 3]
  body := .block [
    .assign 4 (.bin .add (.var 1) (.ein2 [[c, i], [d, j]] [c, d, i, j] (.var 0) (.var 0))), -- 2610
    .aug 4 .sub (.ein2 [[d, i], [c, j]] [c, d, i, j] (.var 0) (.var 0)), -- 2611
    .assign 5 (.neg (.ein2 [[k, b], [b, a, i, j]] [k, a, i, j] (.var 2) (.var 4))), -- 2612
    .assign 6 (.ein2 [[k, l, c, d], [c, d, i, l]] [k, i] (.var 3) (.var 1)), -- 2614
    .assign 7 (.bin .mul (.neg (.lit 1 2)) (.ein2 [[k, i], [a, j]] [k, a, i, j] (.var 6) (.var 0))), -- 2615
    .aug 5 .add (.bin .sub (.var 7) (.transp [0, 1, 3, 2] (.var 7))), -- 2616
    .assign 8 (.ein2 [[k, l, c, d], [c, i]] [k, l, i, d] (.var 3) (.var 0)), -- 2618
    .assign 7 (.neg (.ein2 [[k, l, i, d], [a, d, j, l]] [k, a, i, j] (.var 8) (.var 1))), -- 2619
    .aug 5 .add (.bin .sub (.var 7) (.transp [0, 1, 3, 2] (.var 7))), -- 2620
    .aug 5 .add (.bin .mul (.lit 1 2) (.ein3 [[l, k, d, b], [d, b, j, i], [a, l]] [k, a, i, j] (.var 3) (.var 4) (.var 0))) -- 2622
    ]
  ret := [.var 5]

/-- cqcpy/cc_equations.py:2626-2630 (`ccsd_2rdm_klij_opt`).  Names: 0 T1, 1 T2, 2 L2, 3 T2temp, 4 Pklij. -/
def ccsd_2rdm_klij_opt : Fun where
  params := [0, 1, 2]
  body := .block [
    .assign 3 (.bin .add (.var 1) (.ein2 [[c, i], [d, j]] [c, d, i, j] (.var 0) (.var 0))), -- 2627
    .aug 3 .sub (.ein2 [[d, i], [c, j]] [c, d, i, j] (.var 0) (.var 0)), -- 2628
    .assign 4 (.bin .mul (.lit 1 2) (.ein2 [[k, l, a, b], [a, b, i, j]] [k, l, i, j] (.var 2) (.var 3))) -- 2629
    ]
  ret := [.var 4]

/-- cqcpy/cc_equations.py:2633-2642 (`uccsd_1rdm_ba`).  Names: 0 T1a, 1 T1b, 2 T2aa, 3 T2ab, 4 T2bb, 5 L1a, 6 L1b, 7 L2aa, 8 L2ab, 9 L2bb, 10 pba_a, 11 pba_b. -/
def uccsd_1rdm_ba : Fun where
  params := [0, 1, 2, 3, 4, 5, 6, 7, 8, 9]
  body := .block [
    .assign 10 (.ein2 [[i, a], [b, i]] [b, a] (.var 5) (.var 0)), -- 2635
    .aug 10 .add (.bin .mul (.lit 1 2) (.ein2 [[k, i, c, a], [c, b, k, i]] [b, a] (.var 7) (.var 2))), -- 2636
    .aug 10 .add (.ein2 [[i, k, a, c], [b, c, i, k]] [b, a] (.var 8) (.var 3)), -- 2637
    .assign 11 (.ein2 [[i, a], [b, i]] [b, a] (.var 6) (.var 1)), -- 2639
    .aug 11 .add (.bin .mul (.lit 1 2) (.ein2 [[k, i, c, a], [c, b, k, i]] [b, a] (.var 9) (.var 4))), -- 2640
    .aug 11 .add (.ein2 [[k, i, c, a], [c, b, k, i]] [b, a] (.var 8) (.var 3)) -- 2641
    ]
  ret := [.var 10, .var 11]

/-- cqcpy/cc_equations.py:2645-2655 (`uccsd_1rdm_ji`).  Names: 0 T1a, 1 T1b, 2 T2aa, 3 T2ab, 4 T2bb, 5 L1a, 6 L1b, 7 L2aa, 8 L2ab, 9 L2bb, 10 pji_a, 11 pji_b. -/
def uccsd_1rdm_ji : Fun where
  params := [0, 1, 2, 3, 4, 5, 6, 7, 8, 9]
  body := .block [
    .assign 10 (.neg (.ein2 [[j, a], [a, i]] [j, i] (.var 5) (.var 0))), -- 2647
    .aug 10 .sub (.bin .mul (.lit 1 2) (.ein2 [[k, j, c, a], [c, a, k, i]] [j, i] (.var 7) (.var 2))), -- 2648
    .aug 10 .sub (.ein2 [[j, k, a, c], [a, c, i, k]] [j, i] (.var 8) (.var 3)), -- 2649
    .assign 11 (.neg (.ein2 [[j, a], [a, i]] [j, i] (.var 6) (.var 1))), -- 2651
    .aug 11 .sub (.bin .mul (.lit 1 2) (.ein2 [[k, j, c, a], [c, a, k, i]] [j, i] (.var 9) (.var 4))), -- 2652
    .aug 11 .sub (.ein2 [[k, j, c, a], [c, a, k, i]] [j, i] (.var 8) (.var 3)) -- 2653
    ]
  ret := [.var 10, .var 11]

/-- cqcpy/cc_equations.py:2658-2687 (`uccsd_1rdm_ai`).  Names: 0 T1a, 1 T1b, 2 T2aa, 3 T2ab, 4 T2bb, 5 L1a, 6 L1b, 7 L2aa, 8 L2ab, 9 L2bb, 10 tfac, 11 T2tempaa, 12 T2tempbb, 13 T2tempab, 14 pai_a, 15 Pac_a, 16 Pik_a, 17 pai_b, 18 Pac_b, 19 Pik_b. -/
def uccsd_1rdm_ai : Fun where
  params := [0, 1, 2, 3, 4, 5, 6, 7, 8, 9, 10]
  body := .block [
    .assign 11 (.bin .sub (.var 2) (.ein2 [[b, i], [a, j]] [b, a, j, i] (.var 0) (.var 0))), -- 2660
    .assign 12 (.bin .sub (.var 4) (.ein2 [[b, i], [a, j]] [b, a, j, i] (.var 1) (.var 1))), -- 2661
    .assign 13 (.var 3), -- 2662
    .assign 14 (.bin .mul (.var 10) (.var 0)), -- 2664
    .aug 14 .add (.ein2 [[j, b], [b, a, j, i]] [a, i] (.var 5) (.var 11)), -- 2665
    .aug 14 .add (.ein2 [[j, b], [a, b, i, j]] [a, i] (.var 6) (.var 13)), -- 2666
    .assign 15 (.bin .mul (.lit 1 2) (.ein2 [[k, j, c, b], [a, b, k, j]] [a, c] (.var 7) (.var 2))), -- 2668
    .aug 15 .add (.ein2 [[k, j, c, b], [a, b, k, j]] [a, c] (.var 8) (.var 3)), -- 2669
    .aug 14 .sub (.ein2 [[a, c], [c, i]] [a, i] (.var 15) (.var 0)), -- 2670
    .assign 16 (.bin .mul (.lit 1 2) (.ein2 [[k, j, c, b], [c, b, i, j]] [i, k] (.var 7) (.var 2))), -- 2672
    .aug 16 .add (.ein2 [[k, j, c, b], [c, b, i, j]] [i, k] (.var 8) (.var 3)), -- 2673
    .aug 14 .sub (.ein2 [[i, k], [a, k]] [a, i] (.var 16) (.var 0)), -- 2674
    .assign 17 (.bin .mul (.var 10) (.var 1)), -- 2676
    .aug 17 .add (.ein2 [[j, b], [b, a, j, i]] [a, i] (.var 6) (.var 12)), -- 2677
    .aug 17 .add (.ein2 [[j, b], [b, a, j, i]] [a, i] (.var 5) (.var 13)), -- 2678
    .assign 18 (.bin .mul (.lit 1 2) (.ein2 [[k, j, c, b], [a, b, k, j]] [a, c] (.var 9) (.var 4))), -- 2680
    .aug 18 .add (.ein2 [[j, k, b, c], [b, a, j, k]] [a, c] (.var 8) (.var 3)), -- 2681
    .aug 17 .sub (.ein2 [[a, c], [c, i]] [a, i] (.var 18) (.var 1)), -- 2682
    .assign 19 (.bin .mul (.lit 1 2) (.ein2 [[k, j, c, b], [c, b, i, j]] [i, k] (.var 9) (.var 4))), -- 2684
    .aug 19 .add (.ein2 [[j, k, b, c], [b, c, j, i]] [i, k] (.var 8) (.var 3)), -- 2685
    .aug 17 .sub (.ein2 [[i, k], [a, k]] [a, i] (.var 19) (.var 1)) -- 2686
    ]
  ret := [.var 14, .var 17]

/-- cqcpy/cc_equations.py:2690-2696 (`rccsd_1rdm_ba`).  Names: 0 T1, 1 T2, 2 L1, 3 L2, 4 pba. -/
def rccsd_1rdm_ba : Fun where
  params := [0, 1, 2, 3]
  body := .block [
    .assign 4 (.ein2 [[i, a], [b, i]] [b, a] (.var 2) (.var 0)), -- 2691
    .aug 4 .add (.bin .mul (.lit 1 2) (.ein2 [[k, i, c, a], [c, b, k, i]] [b, a] (.bin .sub (.var 3) (.transp [0, 1, 3, 2] (.var 3))) (.bin .sub (.var 1) (.transp [0, 1, 3, 2] (.var 1))))), -- 2692
    .aug 4 .add (.ein2 [[i, k, a, c], [b, c, i, k]] [b, a] (.var 3) (.var 1)) -- 2695
    ]
  ret := [.var 4]

/-- cqcpy/cc_equations.py:2699-2705 (`rccsd_1rdm_ji`).  Names: 0 T1, 1 T2, 2 L1, 3 L2, 4 pji. -/
def rccsd_1rdm_ji : Fun where
  params := [0, 1, 2, 3]
  body := .block [
    .assign 4 (.neg (.ein2 [[j, a], [a, i]] [j, i] (.var 2) (.var 0))), -- 2700
    .aug 4 .sub (.bin .mul (.lit 1 2) (.ein2 [[k, j, c, a], [c, a, k, i]] [j, i] (.bin .sub (.var 3) (.transp [0, 1, 3, 2] (.var 3))) (.bin .sub (.var 1) (.transp [0, 1, 3, 2] (.var 1))))), -- 2701
    .aug 4 .sub (.ein2 [[j, k, a, c], [a, c, i, k]] [j, i] (.var 3) (.var 1)) -- 2704
    ]
  ret := [.var 4]

/-- cqcpy/cc_equations.py:2708-2728 (`rccsd_1rdm_ai`).  Names: 0 T1, 1 T2, 2 L1, 3 L2, 4 tfac, 5 T2tempaa, 6 T2tempab, 7 pai, 8 Pac, 9 Pik. -/
def rccsd_1rdm_ai : Fun where
  params := [0, 1, 2, 3, 4]
  body := .block [
    .assign 5 (.bin .sub (.bin .sub (.var 1) (.transp [0, 1, 3, 2] (.var 1))) (.ein2 [[b, i], [a, j]] [b, a, j, i] (.var 0) (.var 0))), -- 2709
    .assign 6 (.var 1), -- 2710
    .assign 7 (.bin .mul (.var 4) (.var 0)), -- 2712
    .aug 7 .add (.ein2 [[j, b], [b, a, j, i]] [a, i] (.var 2) (.var 5)), -- 2713
    .aug 7 .add (.ein2 [[j, b], [a, b, i, j]] [a, i] (.var 2) (.var 6)), -- 2714
    .assign 8 (.bin .mul (.lit 1 2) (.ein2 [[k, j, c, b], [a, b, k, j]] [a, c] (.bin .sub (.var 3) (.transp [0, 1, 3, 2] (.var 3))) (.bin .sub (.var 1) (.transp [0, 1, 3, 2] (.var 1))))), -- 2716
    .aug 8 .add (.ein2 [[k, j, c, b], [a, b, k, j]] [a, c] (.var 3) (.var 1)), -- 2719
    .aug 7 .sub (.ein2 [[a, c], [c, i]] [a, i] (.var 8) (.var 0)), -- 2720
    .assign 9 (.bin .mul (.lit 1 2) (.ein2 [[k, j, c, b], [c, b, i, j]] [i, k] (.bin .sub (.var 3) (.transp [0, 1, 3, 2] (.var 3))) (.bin .sub (.var 1) (.transp [0, 1, 3, 2] (.var 1))))), -- 2722
    .aug 9 .add (.ein2 [[k, j, c, b], [c, b, i, j]] [i, k] (.var 3) (.var 1)), -- 2725
    .aug 7 .sub (.ein2 [[i, k], [a, k]] [a, i] (.var 9) (.var 0)) -- 2726
    ]
  ret := [.var 7]

/-- cqcpy/cc_equations.py:2731-2738 (`uccsd_2rdm_ciab`).  Names: 0 T1a, 1 T1b, 2 L2aa, 3 L2ab, 4 L2bb, 5 Pciab, 6 PCIAB, 7 PcIaB, 8 PCiAb. -/
def uccsd_2rdm_ciab : Fun where
  params := [0, 1, 2, 3, 4]
  body := .block [
    .assign 5 (.ein2 [[j, i, a, b], [c, j]] [c, i, a, b] (.var 2) (.var 0)), -- 2733
    .assign 6 (.ein2 [[j, i, a, b], [c, j]] [c, i, a, b] (.var 4) (.var 1)), -- 2734
    .assign 7 (.ein2 [[j, i, a, b], [c, j]] [c, i, a, b] (.var 3) (.var 0)), -- 2735
    .assign 8 (.ein2 [[i, j, b, a], [c, j]] [c, i, a, b] (.var 3) (.var 1)) -- 2736
    ]
  ret := [.var 5, .var 6, .var 7, .var 8]

/-- cqcpy/cc_equations.py:2741-2747 (`uccsd_2rdm_jkai`).  Names: 0 T1a, 1 T1b, 2 L2aa, 3 L2ab, 4 L2bb, 5 Pjkai, 6 PjKaI, 7 PJkAi, 8 PJKAI. -/
def uccsd_2rdm_jkai : Fun where
  params := [0, 1, 2, 3, 4]
  body := .block [
    .assign 5 (.neg (.ein2 [[j, k, a, b], [b, i]] [j, k, a, i] (.var 2) (.var 0))), -- 2743
    .assign 6 (.neg (.ein2 [[j, k, a, b], [b, i]] [j, k, a, i] (.var 3) (.var 1))), -- 2744
    .assign 7 (.neg (.ein2 [[k, J, b, A], [b, i]] [J, k, A, i] (.var 3) (.var 0))), -- 2745
    .assign 8 (.neg (.ein2 [[j, k, a, b], [b, i]] [j, k, a, i] (.var 4) (.var 1))) -- 2746
    ]
  ret := [.var 5, .var 8, .var 6, .var 7]

/-- cqcpy/cc_equations.py:2750-2760 (`uccsd_2rdm_cdab`).  Names: 0 T1a, 1 T1b, 2 T2aa, 3 T2ab, 4 T2bb, 5 L2aa, 6 L2ab, 7 L2bb, 8 T2tempaa, 9 T2tempbb, 10 T2tempab, 11 Pcdab, 12 PCDAB, 13 PcDaB. -/
def uccsd_2rdm_cdab : Fun where
  params := [0, 1, 2, 3, 4, 5, 6, 7]
  body := .block [
    .assign 8 (.bin .add (.var 2) (.ein2 [[c, i], [d, j]] [c, d, i, j] (.var 0) (.var 0))), -- 2752
    .assign 9 (.bin .add (.var 4) (.ein2 [[c, i], [d, j]] [c, d, i, j] (.var 1) (.var 1))), -- 2753
    .assign 10 (.bin .add (.var 3) (.ein2 [[c, i], [d, j]] [c, d, i, j] (.var 0) (.var 1))), -- 2754
    .aug 8 .sub (.ein2 [[d, i], [c, j]] [c, d, i, j] (.var 0) (.var 0)), -- 2755
    .aug 9 .sub (.ein2 [[d, i], [c, j]] [c, d, i, j] (.var 1) (.var 1)), -- 2756
    .assign 11 (.bin .mul (.lit 1 2) (.ein2 [[i, j, a, b], [c, d, i, j]] [c, d, a, b] (.var 5) (.var 8))), -- 2757
    .assign 12 (.bin .mul (.lit 1 2) (.ein2 [[i, j, a, b], [c, d, i, j]] [c, d, a, b] (.var 7) (.var 9))), -- 2758
    .assign 13 (.ein2 [[i, j, a, b], [c, d, i, j]] [c, d, a, b] (.var 6) (.var 10)) -- 2759
    ]
  ret := [.var 11, .var 12, .var 13]

/-- cqcpy/cc_equations.py:2763-2787 (`uccsd_2rdm_bjai`).  Names: 0 T1a, 1 T1b, 2 T2aa, 3 T2ab, 4 T2bb, 5 L1a, 6 L1b, 7 L2aa, 8 L2ab, 9 L2bb, 10 Pbjai, 11 PbJAi, 12 PBjaI, 13 PBJAI, 14 T2tempaa, 15 T2tempab, 16 T2tempbb, 17 PbJaI, 18 PBjAi. -/
def uccsd_2rdm_bjai : Fun where
  params := [0, 1, 2, 3, 4, 5, 6, 7, 8, 9]
  body := .block [
    .assign 10 (.neg (.ein2 [[b, i], [j, a]] [b, j, a, i] (.var 0) (.var 5))), -- 2765
    .assign 11 (.neg (.ein2 [[b, i], [j, a]] [b, j, a, i] (.var 0) (.var 6))), -- 2766
    .assign 12 (.neg (.ein2 [[b, i], [j, a]] [b, j, a, i] (.var 1) (.var 5))), -- 2767
    .assign 13 (.neg (.ein2 [[b, i], [j, a]] [b, j, a, i] (.var 1) (.var 6))), -- 2768
    .assign 14 (.bin .add (.var 2) (.ein2 [[b, k], [c, i]] [b, c, k, i] (.var 0) (.var 0))), -- 2769
    .assign 15 (.bin .add (.var 3) (.ein2 [[b, k], [c, i]] [b, c, k, i] (.var 0) (.var 1))), -- 2770
    .assign 16 (.bin .add (.var 4) (.ein2 [[b, k], [c, i]] [b, c, k, i] (.var 1) (.var 1))), -- 2771
    .aug 10 .sub (.ein2 [[k, j, a, c], [b, c, k, i]] [b, j, a, i] (.var 7) (.var 14)), -- 2772
    .aug 10 .sub (.ein2 [[j, K, a, C], [b, C, i, K]] [b, j, a, i] (.var 8) (.var 3)), -- 2773
    .assign 17 (.neg (.ein2 [[k, J, a, C], [b, C, k, I]] [b, J, a, I] (.var 8) (.var 15))), -- 2775
    .aug 11 .add (.ein2 [[k, J, c, A], [b, c, k, i]] [b, J, A, i] (.var 8) (.var 14)), -- 2777
    .aug 11 .add (.ein2 [[K, J, A, C], [b, C, i, K]] [b, J, A, i] (.var 9) (.var 3)), -- 2778
    .aug 12 .add (.ein2 [[k, j, a, c], [c, B, k, I]] [B, j, a, I] (.var 7) (.var 3)), -- 2780
    .aug 12 .add (.ein2 [[j, K, a, C], [B, C, K, I]] [B, j, a, I] (.var 8) (.var 16)), -- 2781
    .assign 18 (.neg (.ein2 [[j, K, c, A], [c, B, i, K]] [B, j, A, i] (.var 8) (.var 15))), -- 2783
    .aug 13 .sub (.ein2 [[k, j, a, c], [b, c, k, i]] [b, j, a, i] (.var 9) (.var 16)), -- 2785
    .aug 13 .sub (.ein2 [[k, J, c, A], [c, B, k, I]] [B, J, A, I] (.var 8) (.var 3)) -- 2786
    ]
  ret := [.var 10, .var 13, .var 17, .var 11, .var 12, .var 18]

/-- cqcpy/cc_equations.py:2790-2800 (`uccsd_2rdm_klij`).  Names: 0 T1a, 1 T1b, 2 T2aa, 3 T2ab, 4 T2bb, 5 L2aa, 6 L2ab, 7 L2bb, 8 T2tempaa, 9 T2tempab, 10 T2tempbb, 11 Pklij, 12 PkLiJ, 13 PKLIJ. -/
def uccsd_2rdm_klij : Fun where
  params := [0, 1, 2, 3, 4, 5, 6, 7]
  body := .block [
    .assign 8 (.bin .add (.var 2) (.ein2 [[c, i], [d, j]] [c, d, i, j] (.var 0) (.var 0))), -- 2792
    .assign 9 (.bin .add (.var 3) (.ein2 [[c, i], [d, j]] [c, d, i, j] (.var 0) (.var 1))), -- 2793
    .assign 10 (.bin .add (.var 4) (.ein2 [[c, i], [d, j]] [c, d, i, j] (.var 1) (.var 1))), -- 2794
    .aug 8 .sub (.ein2 [[d, i], [c, j]] [c, d, i, j] (.var 0) (.var 0)), -- 2795
    .aug 10 .sub (.ein2 [[d, i], [c, j]] [c, d, i, j] (.var 1) (.var 1)), -- 2796
    .assign 11 (.bin .mul (.lit 1 2) (.ein2 [[k, l, a, b], [a, b, i, j]] [k, l, i, j] (.var 5) (.var 8))), -- 2797
    .assign 12 (.ein2 [[k, l, a, b], [a, b, i, j]] [k, l, i, j] (.var 6) (.var 9)), -- 2798
    .assign 13 (.bin .mul (.lit 1 2) (.ein2 [[k, l, a, b], [a, b, i, j]] [k, l, i, j] (.var 7) (.var 10))) -- 2799
    ]
  ret := [.var 11, .var 13, .var 12]

/-- cqcpy/cc_equations.py:2803-2856 (`uccsd_2rdm_bcai`).  Names: 0 T1a, 1 T1b, 2 T2aa, 3 T2ab, 4 T2bb, 5 L1a, 6 L1b, 7 L2aa, 8 L2ab, 9 L2bb, 10 T2tempaa, 11 T2tempab, 12 T2tempbb, 13 Pbcai, 14 PbCaI, 15 PBcAi, 16 PBCAI, 17 LTba, 18 LTBA, 19 LTtempaa, 20 LTtempbb, 21 LTtempab1, 22 LTtempab2, 23 LTtempab3, 24 LTtempab4. -/
def uccsd_2rdm_bcai : Fun where
  params := [0, 1, 2, 3, 4, 5, 6, 7, 8, 9]
  body := .block [
    .assign 10 (.bin .add (.var 2) (.ein2 [[c, i], [d, j]] [c, d, i, j] (.var 0) (.var 0))), -- 2805
    .assign 11 (.bin .add (.var 3) (.ein2 [[c, i], [d, j]] [c, d, i, j] (.var 0) (.var 1))), -- 2806
    .assign 12 (.bin .add (.var 4) (.ein2 [[c, i], [d, j]] [c, d, i, j] (.var 1) (.var 1))), -- 2807
    .aug 10 .sub (.ein2 [[d, i], [c, j]] [c, d, i, j] (.var 0) (.var 0)), -- 2808
    .aug 12 .sub (.ein2 [[d, i], [c, j]] [c, d, i, j] (.var 1) (.var 1)), -- 2809
    .assign 13 (.ein2 [[j, a], [b, c, j, i]] [b, c, a, i] (.var 5) (.var 10)), -- 2810
    .assign 14 (.ein2 [[j, a], [b, C, j, I]] [b, C, a, I] (.var 5) (.var 11)), -- 2811
    .assign 15 (.ein2 [[J, A], [c, B, i, J]] [B, c, A, i] (.var 6) (.var 11)), -- 2812
    .assign 16 (.ein2 [[j, a], [b, c, j, i]] [b, c, a, i] (.var 6) (.var 12)), -- 2813
    .assign 17 (.ein2 [[j, l, a, d], [b, d, j, l]] [b, a] (.var 7) (.var 2)), -- 2815
    .aug 17 .add (.bin .mul (.lit 2 1) (.ein2 [[j, L, a, D], [b, D, j, L]] [b, a] (.var 8) (.var 3))), -- 2816
    .assign 18 (.ein2 [[j, l, a, d], [b, d, j, l]] [b, a] (.var 9) (.var 4)), -- 2817
    .aug 18 .add (.bin .mul (.lit 2 1) (.ein2 [[l, J, d, A], [d, B, l, J]] [B, A] (.var 8) (.var 3))), -- 2818
    .aug 13 .add (.bin .mul (.lit 1 2) (.ein2 [[b, a], [c, i]] [b, c, a, i] (.var 17) (.var 0))), -- 2819
    .aug 13 .sub (.bin .mul (.lit 1 2) (.ein2 [[c, a], [b, i]] [b, c, a, i] (.var 17) (.var 0))), -- 2820
    .aug 16 .add (.bin .mul (.lit 1 2) (.ein2 [[b, a], [c, i]] [b, c, a, i] (.var 18) (.var 1))), -- 2822
    .aug 16 .sub (.bin .mul (.lit 1 2) (.ein2 [[c, a], [b, i]] [b, c, a, i] (.var 18) (.var 1))), -- 2823
    .aug 14 .add (.bin .mul (.lit 1 2) (.ein2 [[b, a], [C, I]] [b, C, a, I] (.var 17) (.var 1))), -- 2825
    .aug 15 .add (.bin .mul (.lit 1 2) (.ein2 [[B, A], [c, i]] [B, c, A, i] (.var 18) (.var 0))), -- 2827
    .assign 19 (.ein2 [[j, k, a, d], [c, d, i, k]] [j, c, a, i] (.var 7) (.var 2)), -- 2829
    .aug 19 .add (.ein2 [[j, K, a, D], [c, D, i, K]] [j, c, a, i] (.var 8) (.var 3)), -- 2830
    .assign 20 (.ein2 [[j, k, a, d], [c, d, i, k]] [j, c, a, i] (.var 9) (.var 4)), -- 2831
    .aug 20 .add (.ein2 [[k, J, d, A], [d, C, k, I]] [J, C, A, I] (.var 8) (.var 3)), -- 2832
    .assign 21 (.ein2 [[j, k, a, d], [d, C, k, I]] [j, C, a, I] (.var 7) (.var 3)), -- 2833
    .aug 21 .add (.ein2 [[j, K, a, D], [C, D, I, K]] [j, C, a, I] (.var 8) (.var 4)), -- 2834
    .assign 22 (.ein2 [[k, J, a, D], [c, D, k, I]] [J, c, a, I] (.var 8) (.var 3)), -- 2835
    .assign 23 (.ein2 [[k, J, d, A], [c, d, i, k]] [J, c, A, i] (.var 8) (.var 2)), -- 2836
    .aug 23 .add (.ein2 [[J, K, A, D], [c, D, i, K]] [J, c, A, i] (.var 9) (.var 3)), -- 2837
    .assign 24 (.ein2 [[j, K, d, A], [d, C, i, K]] [j, C, A, i] (.var 8) (.var 3)), -- 2838
    .aug 13 .add (.ein2 [[j, c, a, i], [b, j]] [b, c, a, i] (.var 19) (.var 0)), -- 2840
    .aug 13 .sub (.ein2 [[j, b, a, i], [c, j]] [b, c, a, i] (.var 19) (.var 0)), -- 2841
    .aug 16 .add (.ein2 [[j, c, a, i], [b, j]] [b, c, a, i] (.var 20) (.var 1)), -- 2843
    .aug 16 .sub (.ein2 [[j, b, a, i], [c, j]] [b, c, a, i] (.var 20) (.var 1)), -- 2844
    .aug 14 .add (.ein2 [[j, C, a, I], [b, j]] [b, C, a, I] (.var 21) (.var 0)), -- 2846
    .aug 14 .sub (.ein2 [[J, b, a, I], [C, J]] [b, C, a, I] (.var 22) (.var 1)), -- 2847
    .aug 15 .add (.ein2 [[J, c, A, i], [B, J]] [B, c, A, i] (.var 23) (.var 1)), -- 2849
    .aug 15 .sub (.ein2 [[j, B, A, i], [c, j]] [B, c, A, i] (.var 24) (.var 0)), -- 2850
    .aug 13 .sub (.bin .mul (.lit 1 2) (.ein3 [[k, j, d, a], [c, b, k, j], [d, i]] [b, c, a, i] (.var 7) (.var 10) (.var 0))), -- 2852
    .aug 14 .sub (.ein3 [[j, K, a, D], [b, C, j, K], [D, I]] [b, C, a, I] (.var 8) (.var 11) (.var 1)), -- 2853
    .aug 15 .sub (.ein3 [[k, J, d, A], [c, B, k, J], [d, i]] [B, c, A, i] (.var 8) (.var 11) (.var 0)), -- 2854
    .aug 16 .sub (.bin .mul (.lit 1 2) (.ein3 [[k, j, d, a], [c, b, k, j], [d, i]] [b, c, a, i] (.var 9) (.var 12) (.var 1))) -- 2855
    ]
  ret := [.var 13, .var 16, .var 14, .var 15]

/-- cqcpy/cc_equations.py:2859-2914 (`uccsd_2rdm_kaij`).  Names: 0 T1a, 1 T1b, 2 T2aa, 3 T2ab, 4 T2bb, 5 L1a, 6 L1b, 7 L2aa, 8 L2ab, 9 L2bb, 10 T2tempaa, 11 T2tempab, 12 T2tempbb, 13 Pkaij, 14 PkAiJ, 15 PKaIj, 16 PKAIJ, 17 LToa, 18 LTob, 19 tmpaa, 20 tmpab, 21 tmpba, 22 tmpbb, 23 Lklid, 24 LkLiD, 25 LKlId, 26 LKLID, 27 LkLId, 28 LKliD. -/
def uccsd_2rdm_kaij : Fun where
  params := [0, 1, 2, 3, 4, 5, 6, 7, 8, 9]
  body := .block [
    .assign 10 (.bin .add (.var 2) (.ein2 [[c, i], [d, j]] [c, d, i, j] (.var 0) (.var 0))), -- 2862
    .assign 11 (.bin .add (.var 3) (.ein2 [[c, i], [d, j]] [c, d, i, j] (.var 0) (.var 1))), -- 2863
    .assign 12 (.bin .add (.var 4) (.ein2 [[c, i], [d, j]] [c, d, i, j] (.var 1) (.var 1))), -- 2864
    .aug 10 .sub (.ein2 [[d, i], [c, j]] [c, d, i, j] (.var 0) (.var 0)), -- 2865
    .aug 12 .sub (.ein2 [[d, i], [c, j]] [c, d, i, j] (.var 1) (.var 1)), -- 2866
    .assign 13 (.neg (.ein2 [[k, b], [b, a, i, j]] [k, a, i, j] (.var 5) (.var 10))), -- 2867
    .assign 14 (.neg (.ein2 [[k, b], [b, A, i, J]] [k, A, i, J] (.var 5) (.var 11))), -- 2868
    .assign 15 (.neg (.ein2 [[K, B], [a, B, j, I]] [K, a, I, j] (.var 6) (.var 11))), -- 2869
    .assign 16 (.neg (.ein2 [[k, b], [b, a, i, j]] [k, a, i, j] (.var 6) (.var 12))), -- 2870
    .assign 17 (.ein2 [[k, l, c, d], [c, d, i, l]] [k, i] (.var 7) (.var 2)), -- 2872
    .aug 17 .add (.bin .mul (.lit 2 1) (.ein2 [[k, L, c, D], [c, D, i, L]] [k, i] (.var 8) (.var 3))), -- 2873
    .assign 18 (.ein2 [[k, l, c, d], [c, d, i, l]] [k, i] (.var 9) (.var 4)), -- 2874
    .aug 18 .add (.bin .mul (.lit 2 1) (.ein2 [[l, K, d, C], [d, C, l, I]] [K, I] (.var 8) (.var 3))), -- 2875
    .assign 19 (.bin .mul (.neg (.lit 1 2)) (.ein2 [[k, i], [a, j]] [k, a, i, j] (.var 17) (.var 0))), -- 2876
    .assign 20 (.bin .mul (.neg (.lit 1 2)) (.ein2 [[k, i], [A, J]] [k, A, i, J] (.var 17) (.var 1))), -- 2877
    .assign 21 (.bin .mul (.neg (.lit 1 2)) (.ein2 [[K, I], [a, j]] [K, a, I, j] (.var 18) (.var 0))), -- 2878
    .assign 22 (.bin .mul (.neg (.lit 1 2)) (.ein2 [[k, i], [a, j]] [k, a, i, j] (.var 18) (.var 1))), -- 2879
    .aug 13 .add (.bin .sub (.var 19) (.transp [0, 1, 3, 2] (.var 19))), -- 2880
    .aug 14 .add (.var 20), -- 2881
    .aug 15 .add (.var 21), -- 2882
    .aug 16 .add (.bin .sub (.var 22) (.transp [0, 1, 3, 2] (.var 22))), -- 2883
    .assign 23 (.ein2 [[k, l, c, d], [c, i]] [k, l, i, d] (.var 7) (.var 0)), -- 2885
    .assign 24 (.ein2 [[k, L, c, D], [c, i]] [k, L, i, D] (.var 8) (.var 0)), -- 2886
    .assign 25 (.ein2 [[l, K, d, C], [C, I]] [K, l, I, d] (.var 8) (.var 1)), -- 2887
    .assign 26 (.ein2 [[k, l, c, d], [c, i]] [k, l, i, d] (.var 9) (.var 1)), -- 2888
    .assign 27 (.neg (.ein2 [[k, L, d, C], [C, I]] [k, L, I, d] (.var 8) (.var 1))), -- 2889
    .assign 28 (.neg (.ein2 [[l, K, c, D], [c, i]] [K, l, i, D] (.var 8) (.var 0))), -- 2890
    .assign 19 (.neg (.ein2 [[k, l, i, d], [a, d, j, l]] [k, a, i, j] (.var 23) (.var 2))), -- 2891
    .aug 19 .sub (.ein2 [[k, L, i, D], [a, D, j, L]] [k, a, i, j] (.var 24) (.var 3)), -- 2892
    .assign 20 (.neg (.ein2 [[k, l, i, d], [d, A, l, J]] [k, A, i, J] (.var 23) (.var 3))), -- 2894
    .aug 20 .sub (.ein2 [[k, L, i, D], [A, D, J, L]] [k, A, i, J] (.var 24) (.var 4)), -- 2895
    .aug 20 .sub (.ein2 [[k, L, J, d], [d, A, i, L]] [k, A, i, J] (.var 27) (.var 3)), -- 2896
    .assign 21 (.neg (.ein2 [[K, l, I, d], [a, d, j, l]] [K, a, I, j] (.var 25) (.var 2))), -- 2898
    .aug 21 .sub (.ein2 [[K, L, I, D], [a, D, j, L]] [K, a, I, j] (.var 26) (.var 3)), -- 2899
    .aug 21 .sub (.ein2 [[K, l, j, D], [a, D, l, I]] [K, a, I, j] (.var 28) (.var 3)), -- 2900
    .assign 22 (.neg (.ein2 [[k, l, i, d], [a, d, j, l]] [k, a, i, j] (.var 26) (.var 4))), -- 2902
    .aug 22 .sub (.ein2 [[K, l, I, d], [d, A, l, J]] [K, A, I, J] (.var 25) (.var 3)), -- 2903
    .aug 13 .add (.bin .sub (.var 19) (.transp [0, 1, 3, 2] (.var 19))), -- 2905
    .aug 14 .add (.var 20), -- 2906
    .aug 15 .add (.var 21), -- 2907
    .aug 16 .add (.bin .sub (.var 22) (.transp [0, 1, 3, 2] (.var 22))), -- 2908
    .aug 13 .add (.bin .mul (.lit 1 2) (.ein3 [[l, k, d, b], [d, b, j, i], [a, l]] [k, a, i, j] (.var 7) (.var 10) (.var 0))), -- 2910
    .aug 14 .add (.ein3 [[k, L, b, D], [b, D, i, J], [A, L]] [k, A, i, J] (.var 8) (.var 11) (.var 1)), -- 2911
    .aug 15 .add (.ein3 [[l, K, d, B], [d, B, j, I], [a, l]] [K, a, I, j] (.var 8) (.var 11) (.var 0)), -- 2912
    .aug 16 .add (.bin .mul (.lit 1 2) (.ein3 [[l, k, d, b], [d, b, j, i], [a, l]] [k, a, i, j] (.var 9) (.var 12) (.var 1))) -- 2913
    ]
  ret := [.var 13, .var 16, .var 14, .var 15]

/-- cqcpy/cc_equations.py:2917-3093 (`uccsd_2rdm_abij`).  Names: 0 T1a, 1 T1b, 2 T2aa, 3 T2ab, 4 T2bb, 5 L1a, 6 L1b, 7 L2aa, 8 L2ab, 9 L2bb, 10 tfac, 11 Pabij, 12 PaBiJ, 13 PABIJ, 14 LTki, 15 LTKI, 16 tmpaa, 17 tmpbb, 18 tmpab, 19 LTac, 20 LTAC, 21 T2tempaa, 22 T2tempbb, 23 LTbj, 24 LTBJ, 25 LToo, 26 LToO, 27 LTOO, 28 LTlida, 29 LTLIDA, 30 LTLIda, 31 LTliDA, 32 LTlIdA, 33 LTLiDa, 34 T2tempab, 35 Lcb, 36 LCB, 37 Lkj, 38 LKJ, 39 LTOo, 40 tmpab1, 41 tmpab2, 42 Looov, 43 LOOOV, 44 LoOoV, 45 LoOOv, 46 Loooo, 47 LOOOO, 48 LoOoO, 49 Lalid, 50 LALID, 51 LaLiD, 52 LAlId, 53 LaLId, 54 LAliD. -/
def uccsd_2rdm_abij : Fun where
  params := [0, 1, 2, 3, 4, 5, 6, 7, 8, 9, 10]
  body := .block [
    .assign 11 (.bin .mul (.var 10) (.copy (.var 2))), -- 2920
    .assign 12 (.bin .mul (.var 10) (.copy (.var 3))), -- 2921
    .assign 13 (.bin .mul (.var 10) (.copy (.var 4))), -- 2922
    .aug 11 .add (.bin .mul (.var 10) (.ein2 [[a, i], [b, j]] [a, b, i, j] (.var 0) (.var 0))), -- 2923
    .aug 11 .sub (.bin .mul (.var 10) (.ein2 [[a, j], [b, i]] [a, b, i, j] (.var 0) (.var 0))), -- 2924
    .aug 13 .add (.bin .mul (.var 10) (.ein2 [[a, i], [b, j]] [a, b, i, j] (.var 1) (.var 1))), -- 2925
    .aug 13 .sub (.bin .mul (.var 10) (.ein2 [[a, j], [b, i]] [a, b, i, j] (.var 1) (.var 1))), -- 2926
    .aug 12 .add (.bin .mul (.var 10) (.ein2 [[a, i], [b, j]] [a, b, i, j] (.var 0) (.var 1))), -- 2927
    .assign 14 (.ein2 [[k, c], [c, i]] [k, i] (.var 5) (.var 0)), -- 2929
    .assign 15 (.ein2 [[K, C], [C, I]] [K, I] (.var 6) (.var 1)), -- 2930
    .assign 16 (.neg (.ein2 [[k, i], [a, b, k, j]] [a, b, i, j] (.var 14) (.var 2))), -- 2931
    .assign 17 (.neg (.ein2 [[k, i], [a, b, k, j]] [a, b, i, j] (.var 15) (.var 4))), -- 2932
    .assign 18 (.neg (.ein2 [[k, i], [a, B, k, J]] [a, B, i, J] (.var 14) (.var 3))), -- 2933
    .aug 18 .sub (.ein2 [[K, J], [a, B, i, K]] [a, B, i, J] (.var 15) (.var 3)), -- 2934
    .aug 11 .add (.bin .sub (.var 16) (.transp [0, 1, 3, 2] (.var 16))), -- 2935
    .aug 13 .add (.bin .sub (.var 17) (.transp [0, 1, 3, 2] (.var 17))), -- 2936
    .aug 12 .add (.var 18), -- 2937
    .assign 19 (.ein2 [[k, c], [a, k]] [a, c] (.var 5) (.var 0)), -- 2939
    .assign 20 (.ein2 [[k, c], [a, k]] [a, c] (.var 6) (.var 1)), -- 2940
    .assign 16 (.neg (.ein2 [[a, c], [c, b, i, j]] [a, b, i, j] (.var 19) (.var 2))), -- 2941
    .assign 17 (.neg (.ein2 [[a, c], [c, b, i, j]] [a, b, i, j] (.var 20) (.var 4))), -- 2942
    .assign 18 (.neg (.ein2 [[a, c], [c, B, i, J]] [a, B, i, J] (.var 19) (.var 3))), -- 2943
    .aug 18 .sub (.ein2 [[B, C], [a, C, i, J]] [a, B, i, J] (.var 20) (.var 3)), -- 2944
    .aug 11 .add (.bin .sub (.var 16) (.transp [1, 0, 2, 3] (.var 16))), -- 2945
    .aug 13 .add (.bin .sub (.var 17) (.transp [1, 0, 2, 3] (.var 17))), -- 2946
    .aug 12 .add (.var 18), -- 2947
    .assign 21 (.bin .sub (.var 2) (.ein2 [[b, k], [c, j]] [b, c, j, k] (.var 0) (.var 0))), -- 2949
    .assign 22 (.bin .sub (.var 4) (.ein2 [[b, k], [c, j]] [b, c, j, k] (.var 1) (.var 1))), -- 2950
    .assign 23 (.ein2 [[k, c], [b, c, j, k]] [b, j] (.var 5) (.var 21)), -- 2951
    .aug 23 .add (.ein2 [[K, C], [b, C, j, K]] [b, j] (.var 6) (.var 3)), -- 2952
    .assign 24 (.ein2 [[k, c], [b, c, j, k]] [b, j] (.var 6) (.var 22)), -- 2953
    .aug 24 .add (.ein2 [[k, c], [c, B, k, J]] [B, J] (.var 5) (.var 3)), -- 2954
    .aug 11 .add (.ein2 [[a, i], [b, j]] [a, b, i, j] (.var 23) (.var 0)), -- 2955
    .aug 11 .sub (.ein2 [[a, j], [b, i]] [a, b, i, j] (.var 23) (.var 0)), -- 2956
    .aug 11 .sub (.ein2 [[b, i], [a, j]] [a, b, i, j] (.var 23) (.var 0)), -- 2957
    .aug 11 .add (.ein2 [[b, j], [a, i]] [a, b, i, j] (.var 23) (.var 0)), -- 2958
    .aug 13 .add (.ein2 [[a, i], [b, j]] [a, b, i, j] (.var 24) (.var 1)), -- 2959
    .aug 13 .sub (.ein2 [[a, j], [b, i]] [a, b, i, j] (.var 24) (.var 1)), -- 2960
    .aug 13 .sub (.ein2 [[b, i], [a, j]] [a, b, i, j] (.var 24) (.var 1)), -- 2961
    .aug 13 .add (.ein2 [[b, j], [a, i]] [a, b, i, j] (.var 24) (.var 1)), -- 2962
    .aug 12 .add (.ein2 [[a, i], [B, J]] [a, B, i, J] (.var 23) (.var 1)), -- 2963
    .aug 12 .add (.ein2 [[B, J], [a, i]] [a, B, i, J] (.var 24) (.var 0)), -- 2964
    .assign 25 (.ein2 [[k, l, c, d], [c, d, i, j]] [k, l, i, j] (.var 7) (.var 2)), -- 2966
    .assign 26 (.ein2 [[k, L, c, D], [c, D, i, J]] [k, L, i, J] (.var 8) (.var 3)), -- 2967
    .assign 27 (.ein2 [[k, l, c, d], [c, d, i, j]] [k, l, i, j] (.var 9) (.var 4)), -- 2968
    .aug 11 .add (.bin .mul (.lit 1 4) (.ein2 [[k, l, i, j], [a, b, k, l]] [a, b, i, j] (.var 25) (.var 2))), -- 2969
    .aug 13 .add (.bin .mul (.lit 1 4) (.ein2 [[k, l, i, j], [a, b, k, l]] [a, b, i, j] (.var 27) (.var 4))), -- 2970
    .aug 12 .add (.ein2 [[k, L, i, J], [a, B, k, L]] [a, B, i, J] (.var 26) (.var 3)), -- 2971
    .assign 28 (.ein2 [[k, l, c, d], [c, a, k, i]] [l, i, d, a] (.var 7) (.var 2)), -- 2973
    .aug 28 .add (.ein2 [[l, K, d, C], [a, C, i, K]] [l, i, d, a] (.var 8) (.var 3)), -- 2974
    .assign 29 (.ein2 [[k, l, c, d], [c, a, k, i]] [l, i, d, a] (.var 9) (.var 4)), -- 2975
    .aug 29 .add (.ein2 [[k, L, c, D], [c, A, k, I]] [L, I, D, A] (.var 8) (.var 3)), -- 2976
    .assign 30 (.ein2 [[k, L, d, C], [a, C, k, I]] [L, I, d, a] (.var 8) (.var 3)), -- 2978
    .assign 31 (.ein2 [[l, K, c, D], [c, A, i, K]] [l, i, D, A] (.var 8) (.var 3)), -- 2979
    .assign 32 (.ein2 [[k, l, c, d], [c, A, k, I]] [l, I, d, A] (.var 7) (.var 3)), -- 2980
    .aug 32 .add (.ein2 [[l, K, d, C], [C, A, K, I]] [l, I, d, A] (.var 8) (.var 4)), -- 2981
    .assign 33 (.ein2 [[k, L, c, D], [c, a, k, i]] [L, i, D, a] (.var 8) (.var 2)), -- 2982
    .aug 33 .add (.ein2 [[K, L, C, D], [a, C, i, K]] [L, i, D, a] (.var 9) (.var 3)), -- 2983
    .assign 16 (.bin .mul (.lit 1 2) (.ein2 [[l, i, d, a], [b, d, j, l]] [a, b, i, j] (.var 28) (.var 2))), -- 2985
    .aug 16 .add (.bin .mul (.lit 1 2) (.ein2 [[L, i, D, a], [b, D, j, L]] [a, b, i, j] (.var 33) (.var 3))), -- 2986
    .assign 17 (.bin .mul (.lit 1 2) (.ein2 [[l, i, d, a], [b, d, j, l]] [a, b, i, j] (.var 29) (.var 4))), -- 2987
    .aug 17 .add (.bin .mul (.lit 1 2) (.ein2 [[l, I, d, A], [d, B, l, J]] [A, B, I, J] (.var 32) (.var 3))), -- 2988
    .assign 18 (.bin .mul (.lit 1 2) (.ein2 [[l, i, d, a], [d, B, l, J]] [a, B, i, J] (.var 28) (.var 3))), -- 2990
    .aug 18 .add (.bin .mul (.lit 1 2) (.ein2 [[L, i, D, a], [B, D, J, L]] [a, B, i, J] (.var 33) (.var 4))), -- 2991
    .aug 18 .add (.bin .mul (.lit 1 2) (.ein2 [[L, J, d, a], [d, B, i, L]] [a, B, i, J] (.var 30) (.var 3))), -- 2992
    .aug 18 .add (.bin .mul (.lit 1 2) (.ein2 [[l, i, D, B], [a, D, l, J]] [a, B, i, J] (.var 31) (.var 3))), -- 2993
    .aug 18 .add (.bin .mul (.lit 1 2) (.ein2 [[l, J, d, B], [a, d, i, l]] [a, B, i, J] (.var 32) (.var 2))), -- 2994
    .aug 18 .add (.bin .mul (.lit 1 2) (.ein2 [[L, J, D, B], [a, D, i, L]] [a, B, i, J] (.var 29) (.var 3))), -- 2995
    .aug 11 .add (.bin .sub (.var 16) (.transp [0, 1, 3, 2] (.var 16))), -- 2997
    .aug 11 .add (.bin .add (.neg (.transp [1, 0, 2, 3] (.var 16))) (.transp [1, 0, 3, 2] (.var 16))), -- 2998
    .aug 13 .add (.bin .sub (.var 17) (.transp [0, 1, 3, 2] (.var 17))), -- 2999
    .aug 13 .add (.bin .add (.neg (.transp [1, 0, 2, 3] (.var 17))) (.transp [1, 0, 3, 2] (.var 17))), -- 3000
    .aug 12 .add (.var 18), -- 3001
    .assign 21 (.bin .add (.var 2) (.ein2 [[c, j], [a, i]] [a, c, i, j] (.var 0) (.var 0))), -- 3003
    .aug 21 .sub (.ein2 [[c, i], [a, j]] [a, c, i, j] (.var 0) (.var 0)), -- 3004
    .assign 34 (.bin .add (.var 3) (.ein2 [[c, j], [a, i]] [a, c, i, j] (.var 1) (.var 0))), -- 3005
    .assign 22 (.bin .add (.var 4) (.ein2 [[c, j], [a, i]] [a, c, i, j] (.var 1) (.var 1))), -- 3006
    .aug 22 .sub (.ein2 [[c, i], [a, j]] [a, c, i, j] (.var 1) (.var 1)), -- 3007
    .assign 35 (.ein2 [[k, l, c, d], [b, d, k, l]] [c, b] (.var 7) (.var 2)), -- 3008
    .aug 35 .add (.bin .mul (.lit 2 1) (.ein2 [[k, L, c, D], [b, D, k, L]] [c, b] (.var 8) (.var 3))), -- 3009
    .assign 36 (.ein2 [[k, l, c, d], [b, d, k, l]] [c, b] (.var 9) (.var 4)), -- 3010
    .aug 36 .add (.bin .mul (.lit 2 1) (.ein2 [[l, K, d, C], [d, B, l, K]] [C, B] (.var 8) (.var 3))), -- 3011
    .assign 16 (.bin .mul (.neg (.lit 1 2)) (.ein2 [[c, b], [a, c, i, j]] [a, b, i, j] (.var 35) (.var 21))), -- 3012
    .assign 17 (.bin .mul (.neg (.lit 1 2)) (.ein2 [[c, b], [a, c, i, j]] [a, b, i, j] (.var 36) (.var 22))), -- 3013
    .assign 18 (.bin .mul (.neg (.lit 1 2)) (.ein2 [[C, B], [a, C, i, J]] [a, B, i, J] (.var 36) (.var 34))), -- 3014
    .aug 18 .sub (.bin .mul (.lit 1 2) (.ein2 [[c, a], [c, B, i, J]] [a, B, i, J] (.var 35) (.var 34))), -- 3015
    .aug 11 .add (.bin .sub (.var 16) (.transp [1, 0, 2, 3] (.var 16))), -- 3016
    .aug 13 .add (.bin .sub (.var 17) (.transp [1, 0, 2, 3] (.var 17))), -- 3017
    .aug 12 .add (.var 18), -- 3018
    .assign 37 (.ein2 [[k, l, c, d], [c, d, j, l]] [k, j] (.var 7) (.var 2)), -- 3020
    .aug 37 .add (.bin .mul (.lit 2 1) (.ein2 [[k, L, c, D], [c, D, j, L]] [k, j] (.var 8) (.var 3))), -- 3021
    .assign 38 (.ein2 [[k, l, c, d], [c, d, j, l]] [k, j] (.var 9) (.var 4)), -- 3022
    .aug 38 .add (.bin .mul (.lit 2 1) (.ein2 [[l, K, d, C], [d, C, l, J]] [K, J] (.var 8) (.var 3))), -- 3023
    .assign 16 (.bin .mul (.neg (.lit 1 2)) (.ein2 [[k, j], [a, b, i, k]] [a, b, i, j] (.var 37) (.var 21))), -- 3024
    .assign 17 (.bin .mul (.neg (.lit 1 2)) (.ein2 [[k, j], [a, b, i, k]] [a, b, i, j] (.var 38) (.var 22))), -- 3025
    .assign 18 (.bin .mul (.neg (.lit 1 2)) (.ein2 [[K, J], [a, B, i, K]] [a, B, i, J] (.var 38) (.var 34))), -- 3026
    .aug 18 .sub (.bin .mul (.lit 1 2) (.ein2 [[k, i], [a, B, k, J]] [a, B, i, J] (.var 37) (.var 34))), -- 3027
    .aug 11 .add (.bin .sub (.var 16) (.transp [0, 1, 3, 2] (.var 16))), -- 3028
    .aug 13 .add (.bin .sub (.var 17) (.transp [0, 1, 3, 2] (.var 17))), -- 3029
    .aug 12 .add (.var 18), -- 3030
    .assign 21 (.bin .add (.var 2) (.ein2 [[c, i], [d, j]] [c, d, i, j] (.var 0) (.var 0))), -- 3032
    .assign 34 (.bin .add (.var 3) (.ein2 [[c, i], [d, j]] [c, d, i, j] (.var 0) (.var 1))), -- 3033
    .assign 22 (.bin .add (.var 4) (.ein2 [[c, i], [d, j]] [c, d, i, j] (.var 1) (.var 1))), -- 3034
    .assign 25 (.ein2 [[k, l, c, d], [c, d, i, j]] [k, l, i, j] (.var 7) (.var 21)), -- 3035
    .assign 27 (.ein2 [[k, l, c, d], [c, d, i, j]] [k, l, i, j] (.var 9) (.var 22)), -- 3036
    .assign 26 (.ein2 [[k, L, c, D], [c, D, i, J]] [k, L, i, J] (.var 8) (.var 34)), -- 3037
    .aug 26 .add (.ein2 [[k, L, d, C], [d, C, i, J]] [k, L, i, J] (.var 8) (.var 3)), -- 3038
    .assign 39 (.neg (.ein2 [[l, K, d, C], [d, C, i, J]] [K, l, i, J] (.var 8) (.var 3))), -- 3039
    .aug 39 .sub (.ein2 [[l, K, c, D], [c, D, i, J]] [K, l, i, J] (.var 8) (.var 34)), -- 3040
    .assign 16 (.ein2 [[k, l, i, j], [a, k]] [a, l, i, j] (.var 25) (.var 0)), -- 3041
    .assign 16 (.bin .mul (.lit 1 4) (.ein2 [[a, l, i, j], [b, l]] [a, b, i, j] (.var 16) (.var 0))), -- 3042
    .assign 17 (.ein2 [[k, l, i, j], [a, k]] [a, l, i, j] (.var 27) (.var 1)), -- 3043
    .assign 17 (.bin .mul (.lit 1 4) (.ein2 [[a, l, i, j], [b, l]] [a, b, i, j] (.var 17) (.var 1))), -- 3044
    .assign 40 (.ein2 [[k, L, i, J], [a, k]] [a, L, i, J] (.var 26) (.var 0)), -- 3045
    .assign 41 (.ein2 [[K, l, i, J], [A, K]] [A, l, i, J] (.var 39) (.var 1)), -- 3046
    .assign 18 (.bin .mul (.lit 1 4) (.ein2 [[a, L, i, J], [B, L]] [a, B, i, J] (.var 40) (.var 1))), -- 3047
    .aug 18 .sub (.bin .mul (.lit 1 4) (.ein2 [[B, l, i, J], [a, l]] [a, B, i, J] (.var 41) (.var 0))), -- 3048
    .aug 11 .add (.bin .sub (.var 16) (.transp [1, 0, 2, 3] (.var 16))), -- 3049
    .aug 13 .add (.bin .sub (.var 17) (.transp [1, 0, 2, 3] (.var 17))), -- 3050
    .aug 12 .add (.var 18), -- 3051
    .assign 42 (.ein2 [[k, l, c, d], [c, i]] [k, l, i, d] (.var 7) (.var 0)), -- 3053
    .assign 43 (.ein2 [[k, l, c, d], [c, i]] [k, l, i, d] (.var 9) (.var 1)), -- 3054
    .assign 44 (.ein2 [[k, L, c, D], [c, i]] [k, L, i, D] (.var 8) (.var 0)), -- 3055
    .assign 45 (.neg (.ein2 [[k, L, d, C], [C, I]] [k, L, I, d] (.var 8) (.var 1))), -- 3056
    .assign 46 (.ein2 [[k, l, i, d], [d, j]] [k, l, i, j] (.var 42) (.var 0)), -- 3057
    .aug 46 .sub (.transp [0, 1, 3, 2] (.var 46)), -- 3058
    .assign 47 (.ein2 [[k, l, i, d], [d, j]] [k, l, i, j] (.var 43) (.var 1)), -- 3059
    .aug 47 .sub (.transp [0, 1, 3, 2] (.var 47)), -- 3060
    .assign 48 (.ein2 [[k, L, i, D], [D, J]] [k, L, i, J] (.var 44) (.var 1)), -- 3061
    .aug 48 .sub (.ein2 [[k, L, J, d], [d, i]] [k, L, i, J] (.var 45) (.var 0)), -- 3062
    .aug 11 .add (.bin .mul (.lit 1 4) (.ein2 [[k, l, i, j], [a, b, k, l]] [a, b, i, j] (.var 46) (.var 21))), -- 3063
    .aug 13 .add (.bin .mul (.lit 1 4) (.ein2 [[k, l, i, j], [a, b, k, l]] [a, b, i, j] (.var 47) (.var 22))), -- 3064
    .aug 12 .add (.bin .mul (.lit 1 4) (.ein2 [[k, L, i, J], [a, B, k, L]] [a, B, i, J] (.var 48) (.var 34))), -- 3065
    .aug 12 .add (.bin .mul (.lit 1 4) (.ein2 [[l, K, i, J], [a, B, l, K]] [a, B, i, J] (.var 48) (.var 3))), -- 3066
    .assign 49 (.ein3 [[k, l, c, d], [a, k], [c, i]] [a, l, i, d] (.var 7) (.var 0) (.var 0)), -- 3068
    .assign 50 (.ein3 [[k, l, c, d], [a, k], [c, i]] [a, l, i, d] (.var 9) (.var 1) (.var 1)), -- 3069
    .assign 51 (.ein3 [[k, L, c, D], [a, k], [c, i]] [a, L, i, D] (.var 8) (.var 0) (.var 0)), -- 3070
    .assign 52 (.ein3 [[l, K, d, C], [A, K], [C, I]] [A, l, I, d] (.var 8) (.var 1) (.var 1)), -- 3071
    .assign 53 (.neg (.ein3 [[k, L, d, C], [a, k], [C, I]] [a, L, I, d] (.var 8) (.var 0) (.var 1))), -- 3072
    .assign 54 (.neg (.ein3 [[l, K, c, D], [A, K], [c, i]] [A, l, i, D] (.var 8) (.var 1) (.var 0))), -- 3073
    .assign 16 (.ein2 [[a, l, i, d], [b, d, j, l]] [a, b, i, j] (.var 49) (.var 2)), -- 3074
    .aug 16 .add (.ein2 [[a, L, i, D], [b, D, j, L]] [a, b, i, j] (.var 51) (.var 3)), -- 3075
    .assign 17 (.ein2 [[a, l, i, d], [b, d, j, l]] [a, b, i, j] (.var 50) (.var 4)), -- 3076
    .aug 17 .add (.ein2 [[A, l, I, d], [d, B, l, J]] [A, B, I, J] (.var 52) (.var 3)), -- 3077
    .assign 18 (.ein2 [[a, l, i, d], [d, B, l, J]] [a, B, i, J] (.var 49) (.var 3)), -- 3079
    .aug 18 .add (.ein2 [[a, L, i, D], [B, D, J, L]] [a, B, i, J] (.var 51) (.var 4)), -- 3080
    .aug 18 .add (.ein2 [[a, L, J, d], [d, B, i, L]] [a, B, i, J] (.var 53) (.var 3)), -- 3081
    .aug 18 .add (.ein2 [[B, l, i, D], [a, D, l, J]] [a, B, i, J] (.var 54) (.var 3)), -- 3082
    .aug 18 .add (.ein2 [[B, l, J, d], [a, d, i, l]] [a, B, i, J] (.var 52) (.var 2)), -- 3083
    .aug 18 .add (.ein2 [[B, L, J, D], [a, D, i, L]] [a, B, i, J] (.var 50) (.var 3)), -- 3084
    .aug 11 .sub (.var 16), -- 3086
    .aug 11 .add (.bin .add (.transp [0, 1, 3, 2] (.var 16)) (.transp [1, 0, 2, 3] (.var 16))), -- 3087
    .aug 11 .sub (.transp [1, 0, 3, 2] (.var 16)), -- 3088
    .aug 13 .sub (.var 17), -- 3089
    .aug 13 .add (.bin .add (.transp [0, 1, 3, 2] (.var 17)) (.transp [1, 0, 2, 3] (.var 17))), -- 3090
    .aug 13 .sub (.transp [1, 0, 3, 2] (.var 17)), -- 3091
    .aug 12 .sub (.var 18) -- 3092
    ]
  ret := [.var 11, .var 13, .var 12]

/-- cqcpy/cc_equations.py:3096-3099 (`rccsd_2rdm_ciab`).  Names: 0 T1, 1 L2, 2 Pciab. -/
def rccsd_2rdm_ciab : Fun where
  params := [0, 1]
  body := .block [
    .assign 2 (.ein2 [[j, i, a, b], [c, j]] [c, i, a, b] (.var 1) (.var 0)) -- 3097
    ]
  ret := [.var 2]

/-- cqcpy/cc_equations.py:3102-3104 (`rccsd_2rdm_jkai`).  Names: 0 T1, 1 L2, 2 Pjkai. -/
def rccsd_2rdm_jkai : Fun where
  params := [0, 1]
  body := .block [
    .assign 2 (.neg (.ein2 [[j, k, a, b], [b, i]] [j, k, a, i] (.var 1) (.var 0))) -- 3103
    ]
  ret := [.var 2]

/-- cqcpy/cc_equations.py:3107-3110 (`rccsd_2rdm_cdab`).  Names: 0 T1, 1 T2, 2 L2, 3 T2temp, 4 Pcdab. -/
def rccsd_2rdm_cdab : Fun where
  params := [0, 1, 2]
  body := .block [
    .assign 3 (.bin .add (.var 1) (.ein2 [[c, i], [d, j]] [c, d, i, j] (.var 0) (.var 0))), -- 3108
    .assign 4 (.ein2 [[i, j, a, b], [c, d, i, j]] [c, d, a, b] (.var 2) (.var 3)) -- 3109
    ]
  ret := [.var 4]

/-- cqcpy/cc_equations.py:3113-3117 (`rccsd_2rdm_bjai`).  Names: 0 T1, 1 T2, 2 L2, 3 T2temp, 4 Pbjai. -/
def rccsd_2rdm_bjai : Fun where
  params := [0, 1, 2]
  body := .block [
    .assign 3 (.bin .add (.var 1) (.ein2 [[b, k], [c, i]] [b, c, k, i] (.var 0) (.var 0))), -- 3114
    .assign 4 (.neg (.ein2 [[k, J, a, C], [b, C, k, I]] [b, J, a, I] (.var 2) (.var 3))) -- 3116
    ]
  ret := [.var 4]

/-- cqcpy/cc_equations.py:3120-3126 (`rccsd_2rdm_bjia`).  Names: 0 T1, 1 T2, 2 L1, 3 L2, 4 Pbjia, 5 T2temp. -/
def rccsd_2rdm_bjia : Fun where
  params := [0, 1, 2, 3]
  body := .block [
    .assign 4 (.ein2 [[b, i], [j, a]] [b, j, i, a] (.var 0) (.var 2)), -- 3121
    .assign 5 (.bin .add (.bin .sub (.var 1) (.transp [0, 1, 3, 2] (.var 1))) (.ein2 [[b, k], [c, i]] [b, c, k, i] (.var 0) (.var 0))), -- 3122
    .aug 4 .sub (.ein2 [[k, j, c, a], [b, c, k, i]] [b, j, i, a] (.var 3) (.var 5)), -- 3124
    .aug 4 .sub (.ein2 [[k, j, a, c], [b, c, i, k]] [b, j, i, a] (.bin .sub (.var 3) (.transp [0, 1, 3, 2] (.var 3))) (.var 1)) -- 3125
    ]
  ret := [.var 4]

/-- cqcpy/cc_equations.py:3129-3132 (`rccsd_2rdm_klij`).  Names: 0 T1, 1 T2, 2 L2, 3 T2temp, 4 Pklij. -/
def rccsd_2rdm_klij : Fun where
  params := [0, 1, 2]
  body := .block [
    .assign 3 (.bin .add (.var 1) (.ein2 [[c, i], [d, j]] [c, d, i, j] (.var 0) (.var 0))), -- 3130
    .assign 4 (.ein2 [[k, l, a, b], [a, b, i, j]] [k, l, i, j] (.var 2) (.var 3)) -- 3131
    ]
  ret := [.var 4]

/-- cqcpy/cc_equations.py:3135-3154 (`rccsd_2rdm_bcai`).  Names: 0 T1, 1 T2, 2 L1, 3 L2, 4 T2temp, 5 Pbcai, 6 LT, 7 LTtempab1, 8 LTtempab2. -/
def rccsd_2rdm_bcai : Fun where
  params := [0, 1, 2, 3]
  body := .block [
    .assign 4 (.bin .add (.var 1) (.ein2 [[c, i], [d, j]] [c, d, i, j] (.var 0) (.var 0))), -- 3136
    .assign 5 (.ein2 [[j, a], [b, c, j, i]] [b, c, a, i] (.var 2) (.var 4)), -- 3137
    .assign 6 (.ein2 [[j, l, a, d], [b, d, j, l]] [b, a] (.bin .sub (.var 3) (.transp [0, 1, 3, 2] (.var 3))) (.bin .sub (.var 1) (.transp [0, 1, 3, 2] (.var 1)))), -- 3139
    .aug 6 .add (.bin .mul (.lit 2 1) (.ein2 [[j, l, a, d], [b, d, j, l]] [b, a] (.var 3) (.var 1))), -- 3142
    .aug 5 .add (.bin .mul (.lit 1 2) (.ein2 [[b, a], [c, i]] [b, c, a, i] (.var 6) (.var 0))), -- 3144
    .assign 7 (.ein2 [[j, k, a, d], [d, c, k, i]] [j, c, a, i] (.bin .sub (.var 3) (.transp [0, 1, 3, 2] (.var 3))) (.var 1)), -- 3146
    .aug 7 .add (.ein2 [[j, k, a, d], [c, d, i, k]] [j, c, a, i] (.var 3) (.bin .sub (.var 1) (.transp [0, 1, 3, 2] (.var 1)))), -- 3147
    .assign 8 (.ein2 [[k, j, a, d], [c, d, k, i]] [j, c, a, i] (.var 3) (.var 1)), -- 3148
    .aug 5 .add (.ein2 [[j, C, a, I], [b, j]] [b, C, a, I] (.var 7) (.var 0)), -- 3150
    .aug 5 .sub (.ein2 [[J, b, a, I], [C, J]] [b, C, a, I] (.var 8) (.var 0)), -- 3151
    .aug 5 .sub (.ein3 [[j, k, a, d], [b, c, j, k], [d, i]] [b, c, a, i] (.var 3) (.var 4) (.var 0)) -- 3153
    ]
  ret := [.var 5]

/-- cqcpy/cc_equations.py:3157-3185 (`rccsd_2rdm_kaij`).  Names: 0 T1, 1 T2, 2 L1, 3 L2, 4 T2temp, 5 T2aa, 6 Pkaij, 7 LTo, 8 tmp, 9 Lklid, 10 LkLiD, 11 LkLId. -/
def rccsd_2rdm_kaij : Fun where
  params := [0, 1, 2, 3]
  body := .block [
    .assign 4 (.bin .add (.var 1) (.ein2 [[c, i], [d, j]] [c, d, i, j] (.var 0) (.var 0))), -- 3158
    .assign 5 (.bin .sub (.var 1) (.transp [0, 1, 3, 2] (.var 1))), -- 3159
    .assign 6 (.neg (.ein2 [[k, b], [b, a, i, j]] [k, a, i, j] (.var 2) (.var 4))), -- 3160
    .assign 7 (.ein2 [[k, l, c, d], [c, d, i, l]] [k, i] (.bin .sub (.var 3) (.transp [0, 1, 3, 2] (.var 3))) (.bin .sub (.var 1) (.transp [0, 1, 3, 2] (.var 1)))), -- 3162
    .aug 7 .add (.bin .mul (.lit 2 1) (.ein2 [[k, l, c, d], [c, d, i, l]] [k, i] (.var 3) (.var 1))), -- 3165
    .assign 8 (.bin .mul (.neg (.lit 1 2)) (.ein2 [[k, i], [a, j]] [k, a, i, j] (.var 7) (.var 0))), -- 3166
    .aug 6 .add (.var 8), -- 3167
    .assign 9 (.ein2 [[k, l, c, d], [c, i]] [k, l, i, d] (.bin .sub (.var 3) (.transp [0, 1, 3, 2] (.var 3))) (.var 0)), -- 3169
    .assign 10 (.ein2 [[k, l, c, d], [c, i]] [k, l, i, d] (.var 3) (.var 0)), -- 3170
    .assign 11 (.neg (.ein2 [[k, l, d, c], [c, i]] [k, l, i, d] (.var 3) (.var 0))), -- 3171
    .assign 8 (.neg (.ein2 [[k, l, i, d], [d, a, l, j]] [k, a, i, j] (.var 9) (.var 1))), -- 3173
    .aug 8 .sub (.ein2 [[k, l, j, d], [d, a, i, l]] [k, a, i, j] (.var 11) (.var 1)), -- 3174
    .aug 8 .sub (.ein2 [[k, l, i, d], [a, d, j, l]] [k, a, i, j] (.var 10) (.var 5)), -- 3175
    .assign 8 (.neg (.ein2 [[k, l, i, d], [a, d, j, l]] [k, a, i, j] (.var 10) (.var 5))), -- 3177
    .aug 8 .sub (.ein2 [[k, l, i, d], [a, d, j, l]] [k, a, i, j] (.var 9) (.var 1)), -- 3178
    .aug 8 .sub (.ein2 [[k, l, j, d], [a, d, l, i]] [k, a, i, j] (.var 11) (.var 1)), -- 3179
    .aug 6 .add (.var 8), -- 3181
    .aug 6 .add (.ein3 [[k, l, b, d], [b, d, i, j], [a, l]] [k, a, i, j] (.var 3) (.var 4) (.var 0)) -- 3183
    ]
  ret := [.var 6]

/-- cqcpy/cc_equations.py:3188-3272 (`rccsd_2rdm_abij`).  Names: 0 T1, 1 T2, 2 L1, 3 L2, 4 T2a, 5 L2a, 6 Pabij, 7 LTki, 8 tmp, 9 LTac, 10 T2tempa, 11 LTbj, 12 LToO, 13 LTlida, 14 LTliDA, 15 LTlIdA, 16 T2tempab, 17 Lcb, 18 Lkj, 19 LTOo, 20 tmp1, 21 tmp2, 22 LoOoV, 23 LoOOv, 24 LoOoO, 25 Lalid, 26 LaLiD, 27 LaLId. -/
def rccsd_2rdm_abij : Fun where
  params := [0, 1, 2, 3]
  body := .block [
    .assign 4 (.bin .sub (.var 1) (.transp [0, 1, 3, 2] (.var 1))), -- 3189
    .assign 5 (.bin .sub (.var 3) (.transp [0, 1, 3, 2] (.var 3))), -- 3190
    .assign 6 (.copy (.var 1)), -- 3191
    .aug 6 .add (.ein2 [[a, i], [b, j]] [a, b, i, j] (.var 0) (.var 0)), -- 3192
    .assign 7 (.ein2 [[k, c], [c, i]] [k, i] (.var 2) (.var 0)), -- 3194
    .assign 8 (.neg (.ein2 [[k, i], [a, b, k, j]] [a, b, i, j] (.var 7) (.var 1))), -- 3195
    .aug 8 .sub (.ein2 [[k, j], [a, b, i, k]] [a, b, i, j] (.var 7) (.var 1)), -- 3196
    .aug 6 .add (.var 8), -- 3197
    .assign 9 (.ein2 [[k, c], [a, k]] [a, c] (.var 2) (.var 0)), -- 3199
    .assign 8 (.neg (.ein2 [[a, c], [c, b, i, j]] [a, b, i, j] (.var 9) (.var 1))), -- 3200
    .aug 8 .sub (.ein2 [[b, c], [a, c, i, j]] [a, b, i, j] (.var 9) (.var 1)), -- 3201
    .aug 6 .add (.var 8), -- 3202
    .assign 10 (.bin .sub (.var 4) (.ein2 [[b, k], [c, j]] [b, c, j, k] (.var 0) (.var 0))), -- 3204
    .assign 11 (.ein2 [[k, c], [b, c, j, k]] [b, j] (.var 2) (.var 10)), -- 3205
    .aug 11 .add (.ein2 [[k, c], [b, c, j, k]] [b, j] (.var 2) (.var 1)), -- 3206
    .aug 6 .add (.ein2 [[a, i], [b, j]] [a, b, i, j] (.var 11) (.var 0)), -- 3207
    .aug 6 .add (.ein2 [[b, j], [a, i]] [a, b, i, j] (.var 11) (.var 0)), -- 3208
    .assign 12 (.ein2 [[k, l, c, d], [c, d, i, j]] [k, l, i, j] (.var 3) (.var 1)), -- 3210
    .aug 6 .add (.ein2 [[k, l, i, j], [a, b, k, l]] [a, b, i, j] (.var 12) (.var 1)), -- 3211
    .assign 13 (.ein2 [[k, l, c, d], [c, a, k, i]] [l, i, d, a] (.var 5) (.var 4)), -- 3213
    .aug 13 .add (.ein2 [[l, k, d, c], [a, c, i, k]] [l, i, d, a] (.var 3) (.var 1)), -- 3214
    .assign 14 (.ein2 [[l, k, c, d], [c, a, i, k]] [l, i, d, a] (.var 3) (.var 1)), -- 3216
    .assign 15 (.ein2 [[k, l, c, d], [c, a, k, i]] [l, i, d, a] (.var 5) (.var 1)), -- 3217
    .aug 15 .add (.ein2 [[l, k, d, c], [c, a, k, i]] [l, i, d, a] (.var 3) (.var 4)), -- 3218
    .assign 8 (.bin .mul (.lit 1 2) (.ein2 [[l, i, d, a], [d, b, l, j]] [a, b, i, j] (.var 13) (.var 1))), -- 3220
    .aug 8 .add (.bin .mul (.lit 1 2) (.ein2 [[l, i, d, a], [b, d, j, l]] [a, b, i, j] (.var 15) (.var 4))), -- 3221
    .aug 8 .add (.bin .mul (.lit 1 2) (.ein2 [[l, j, d, a], [d, b, i, l]] [a, b, i, j] (.var 14) (.var 1))), -- 3222
    .aug 8 .add (.bin .mul (.lit 1 2) (.ein2 [[l, i, d, b], [a, d, l, j]] [a, b, i, j] (.var 14) (.var 1))), -- 3223
    .aug 8 .add (.bin .mul (.lit 1 2) (.ein2 [[l, j, d, b], [a, d, i, l]] [a, b, i, j] (.var 15) (.var 4))), -- 3224
    .aug 8 .add (.bin .mul (.lit 1 2) (.ein2 [[l, j, d, b], [a, d, i, l]] [a, b, i, j] (.var 13) (.var 1))), -- 3225
    .aug 6 .add (.var 8), -- 3227
    .assign 16 (.bin .add (.var 1) (.ein2 [[c, j], [a, i]] [a, c, i, j] (.var 0) (.var 0))), -- 3229
    .assign 17 (.ein2 [[k, l, c, d], [b, d, k, l]] [c, b] (.var 5) (.var 4)), -- 3230
    .aug 17 .add (.bin .mul (.lit 2 1) (.ein2 [[k, l, c, d], [b, d, k, l]] [c, b] (.var 3) (.var 1))), -- 3231
    .assign 8 (.bin .mul (.neg (.lit 1 2)) (.ein2 [[c, b], [a, c, i, j]] [a, b, i, j] (.var 17) (.var 16))), -- 3232
    .aug 8 .sub (.bin .mul (.lit 1 2) (.ein2 [[c, a], [c, b, i, j]] [a, b, i, j] (.var 17) (.var 16))), -- 3233
    .aug 6 .add (.var 8), -- 3234
    .assign 18 (.ein2 [[k, l, c, d], [c, d, j, l]] [k, j] (.var 5) (.var 4)), -- 3236
    .aug 18 .add (.bin .mul (.lit 2 1) (.ein2 [[k, l, c, d], [c, d, j, l]] [k, j] (.var 3) (.var 1))), -- 3237
    .assign 8 (.bin .mul (.neg (.lit 1 2)) (.ein2 [[k, j], [a, b, i, k]] [a, b, i, j] (.var 18) (.var 16))), -- 3238
    .aug 8 .sub (.bin .mul (.lit 1 2) (.ein2 [[k, i], [a, b, k, j]] [a, b, i, j] (.var 18) (.var 16))), -- 3239
    .aug 6 .add (.var 8), -- 3240
    .assign 16 (.bin .add (.var 1) (.ein2 [[c, i], [d, j]] [c, d, i, j] (.var 0) (.var 0))), -- 3242
    .assign 12 (.ein2 [[k, l, c, d], [c, d, i, j]] [k, l, i, j] (.var 3) (.var 16)), -- 3243
    .aug 12 .add (.ein2 [[k, l, d, c], [d, c, i, j]] [k, l, i, j] (.var 3) (.var 1)), -- 3244
    .assign 19 (.neg (.ein2 [[l, k, d, c], [d, c, i, j]] [k, l, i, j] (.var 3) (.var 1))), -- 3245
    .aug 19 .sub (.ein2 [[l, k, c, d], [c, d, i, j]] [k, l, i, j] (.var 3) (.var 16)), -- 3246
    .assign 20 (.ein2 [[k, l, i, j], [a, k]] [a, l, i, j] (.var 12) (.var 0)), -- 3247
    .assign 21 (.ein2 [[k, l, i, j], [a, k]] [a, l, i, j] (.var 19) (.var 0)), -- 3248
    .assign 8 (.bin .mul (.lit 1 4) (.ein2 [[a, l, i, j], [b, l]] [a, b, i, j] (.var 20) (.var 0))), -- 3249
    .aug 8 .sub (.bin .mul (.lit 1 4) (.ein2 [[b, l, i, j], [a, l]] [a, b, i, j] (.var 21) (.var 0))), -- 3250
    .aug 6 .add (.var 8), -- 3251
    .assign 22 (.ein2 [[k, l, c, d], [c, i]] [k, l, i, d] (.var 3) (.var 0)), -- 3253
    .assign 23 (.neg (.ein2 [[k, l, d, c], [c, i]] [k, l, i, d] (.var 3) (.var 0))), -- 3254
    .assign 24 (.ein2 [[k, l, i, d], [d, j]] [k, l, i, j] (.var 22) (.var 0)), -- 3255
    .aug 24 .sub (.ein2 [[k, l, j, d], [d, i]] [k, l, i, j] (.var 23) (.var 0)), -- 3256
    .aug 6 .add (.bin .mul (.lit 1 4) (.ein2 [[k, l, i, j], [a, b, k, l]] [a, b, i, j] (.var 24) (.var 16))), -- 3257
    .aug 6 .add (.bin .mul (.lit 1 4) (.ein2 [[l, k, i, j], [a, b, l, k]] [a, b, i, j] (.var 24) (.var 1))), -- 3258
    .assign 25 (.ein3 [[k, l, c, d], [a, k], [c, i]] [a, l, i, d] (.var 5) (.var 0) (.var 0)), -- 3260
    .assign 26 (.ein3 [[k, l, c, d], [a, k], [c, i]] [a, l, i, d] (.var 3) (.var 0) (.var 0)), -- 3261
    .assign 27 (.neg (.ein3 [[k, l, d, c], [a, k], [c, i]] [a, l, i, d] (.var 3) (.var 0) (.var 0))), -- 3262
    .assign 8 (.ein2 [[a, l, i, d], [b, d, j, l]] [a, b, i, j] (.var 26) (.var 4)), -- 3264
    .aug 8 .add (.ein2 [[b, l, j, d], [a, d, i, l]] [a, b, i, j] (.var 26) (.var 4)), -- 3265
    .aug 8 .add (.ein2 [[a, l, i, d], [d, b, l, j]] [a, b, i, j] (.var 25) (.var 1)), -- 3266
    .aug 8 .add (.ein2 [[a, l, j, d], [d, b, i, l]] [a, b, i, j] (.var 27) (.var 1)), -- 3267
    .aug 8 .add (.ein2 [[b, l, i, d], [a, d, l, j]] [a, b, i, j] (.var 27) (.var 1)), -- 3268
    .aug 8 .add (.ein2 [[b, l, j, d], [a, d, i, l]] [a, b, i, j] (.var 25) (.var 1)), -- 3269
    .aug 6 .sub (.var 8) -- 3271
    ]
  ret := [.var 6]

end Prog
end Heap
