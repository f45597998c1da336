import Verif.Props.Cost
import Verif.Props.NumRun
import Verif.Model.HeapProg
import Mathlib.Tactic.Ring
/-!
# C89: the work of the spin-orbital routines

Generated by `tools/gen_cost.py`; the shapes are those of C53, with `n 0` occupied and `n 1` virtual orbitals.  The first polynomial counts arithmetic operations, the
second the elements of the arrays made; the last numbers are the most loops in a nest and the most axes of an array made.
-/

set_option linter.unusedVariables false

namespace Heap
open Prog

local macro "poly_at" : tactic => `(tactic| (simp only [Poly.at, List.map_cons, List.map_nil, List.sum_cons, List.sum_nil, List.prod_cons, List.prod_nil]; try ring))

theorem C89_cc_energy_d : Costs cc_energy_d
    [[1, 1, 0, 0], [0, 0, 1, 1]]
    (fun n => 2 * n 0 ^ 2 * n 1 ^ 2 + 1)
    (fun n => 2) 4 0 :=
  costs (p := [([], 1), ([0, 0, 1, 1], 2)]) (q := [([], 2)]) (by krfl)
    (fun n => by poly_at) (fun n => by poly_at)

theorem C89_cc_energy_s1 : Costs cc_energy_s1
    [[1, 0], [0, 1]]
    (fun n => 2 * n 0 * n 1)
    (fun n => 1) 2 0 :=
  costs (p := [([0, 1], 2)]) (q := [([], 1)]) (by krfl)
    (fun n => by poly_at) (fun n => by poly_at)

theorem C89_cc_energy_s2 : Costs cc_energy_s2
    [[1, 0], [0, 0, 1, 1]]
    (fun n => 3 * n 0 ^ 2 * n 1 ^ 2)
    (fun n => 1) 4 0 :=
  costs (p := [([0, 0, 1, 1], 3)]) (q := [([], 1)]) (by krfl)
    (fun n => by poly_at) (fun n => by poly_at)

theorem C89_cc_energy_s2_a : Costs cc_energy_s2_a
    [[1, 0], [1, 0], [0, 0, 1, 1]]
    (fun n => 3 * n 0 ^ 2 * n 1 ^ 2)
    (fun n => 1) 4 0 :=
  costs (p := [([0, 0, 1, 1], 3)]) (q := [([], 1)]) (by krfl)
    (fun n => by poly_at) (fun n => by poly_at)

theorem C89_cc_energy : Costs cc_energy
    [[1, 0], [1, 1, 0, 0], [0, 1], [0, 0, 1, 1]]
    (fun n => 5 * n 0 ^ 2 * n 1 ^ 2 + 2 * n 0 * n 1 + 4)
    (fun n => 7) 4 0 :=
  costs (p := [([], 4), ([0, 0, 1, 1], 5), ([0, 1], 2)]) (q := [([], 7)]) (by krfl)
    (fun n => by poly_at) (fun n => by poly_at)

theorem C89_mp2_energy : Costs mp2_energy
    [[1, 0], [1, 1, 0, 0], [0, 1], [0, 0, 1, 1]]
    (fun n => 2 * n 0 ^ 2 * n 1 ^ 2 + 2 * n 0 * n 1 + 2)
    (fun n => 4) 4 0 :=
  costs (p := [([], 2), ([0, 1], 2), ([0, 0, 1, 1], 2)]) (q := [([], 4)]) (by krfl)
    (fun n => by poly_at) (fun n => by poly_at)

theorem C89_lccd_simple : Costs lccd_simple
    [[0, 0], [1, 1], [0, 0, 0, 0], [1, 0, 1, 0], [1, 1, 0, 0], [1, 1, 1, 1], [1, 1, 0, 0]]
    (fun n => 2 * n 0 ^ 4 * n 1 ^ 2 + 8 * n 0 ^ 3 * n 1 ^ 3 + 2 * n 0 ^ 2 * n 1 ^ 4 + 4 * n 0 ^ 3 * n 1 ^ 2 + 4 * n 0 ^ 2 * n 1 ^ 3 + 20 * n 0 ^ 2 * n 1 ^ 2 + 2)
    (fun n => 21 * n 0 ^ 2 * n 1 ^ 2 + 2) 6 4 :=
  costs (p := [([0, 0, 1, 1], 20), ([0, 0, 0, 1, 1, 1], 8), ([0, 0, 0, 0, 1, 1], 2), ([], 2), ([0, 0, 1, 1, 1, 1], 2), ([0, 0, 0, 1, 1], 4), ([0, 0, 1, 1, 1], 4)]) (q := [([0, 0, 1, 1], 21), ([], 2)]) (by krfl)
    (fun n => by poly_at) (fun n => by poly_at)

theorem C89_lccsd_simple : Costs lccsd_simple
    [[0, 0], [0, 1], [1, 0], [1, 1], [0, 0, 0, 0], [0, 0, 0, 1], [1, 0, 0, 0], [1, 0, 1, 0], [1, 0, 1, 1], [1, 1, 0, 0], [1, 1, 1, 0], [1, 1, 1, 1], [1, 0], [1, 1, 0, 0]]
    (fun n => 2 * n 0 ^ 4 * n 1 ^ 2 + 8 * n 0 ^ 3 * n 1 ^ 3 + 2 * n 0 ^ 2 * n 1 ^ 4 + 10 * n 0 ^ 3 * n 1 ^ 2 + 10 * n 0 ^ 2 * n 1 ^ 3 + 32 * n 0 ^ 2 * n 1 ^ 2 + 2 * n 0 ^ 2 * n 1 + 2 * n 0 * n 1 ^ 2 + 12 * n 0 * n 1 + 4)
    (fun n => 29 * n 0 ^ 2 * n 1 ^ 2 + 13 * n 0 * n 1 + 4) 6 4 :=
  costs (p := [([0, 0, 1, 1], 32), ([0, 0, 0, 1, 1, 1], 8), ([0, 0, 0, 0, 1, 1], 2), ([], 4), ([0, 0, 1, 1, 1, 1], 2), ([0, 0, 0, 1, 1], 10), ([0, 0, 1, 1, 1], 10), ([0, 1], 12), ([0, 0, 1], 2), ([0, 1, 1], 2)]) (q := [([0, 0, 1, 1], 29), ([], 4), ([0, 1], 13)]) (by krfl)
    (fun n => by poly_at) (fun n => by poly_at)

theorem C89_ccd_simple : Costs ccd_simple
    [[0, 0], [1, 1], [0, 0, 0, 0], [0, 0, 1, 1], [1, 0, 1, 0], [1, 1, 0, 0], [1, 1, 1, 1], [1, 1, 0, 0]]
    (fun n => 21 * n 0 ^ 4 * n 1 ^ 4 + 2 * n 0 ^ 4 * n 1 ^ 2 + 8 * n 0 ^ 3 * n 1 ^ 3 + 2 * n 0 ^ 2 * n 1 ^ 4 + 4 * n 0 ^ 3 * n 1 ^ 2 + 4 * n 0 ^ 2 * n 1 ^ 3 + 34 * n 0 ^ 2 * n 1 ^ 2 + 7)
    (fun n => 35 * n 0 ^ 2 * n 1 ^ 2 + 7) 8 4 :=
  costs (p := [([0, 0, 1, 1], 34), ([0, 0, 0, 0, 1, 1, 1, 1], 21), ([], 7), ([0, 0, 0, 1, 1, 1], 8), ([0, 0, 0, 0, 1, 1], 2), ([0, 0, 1, 1, 1, 1], 2), ([0, 0, 0, 1, 1], 4), ([0, 0, 1, 1, 1], 4)]) (q := [([0, 0, 1, 1], 35), ([], 7)]) (by krfl)
    (fun n => by poly_at) (fun n => by poly_at)

theorem C89_ccd_ladder_simple : Costs ccd_ladder_simple
    [[0, 0, 0, 0], [0, 0, 1, 1], [1, 1, 0, 0], [1, 1, 1, 1], [1, 1, 0, 0]]
    (fun n => 3 * n 0 ^ 4 * n 1 ^ 4 + 2 * n 0 ^ 4 * n 1 ^ 2 + 2 * n 0 ^ 2 * n 1 ^ 4 + 6 * n 0 ^ 2 * n 1 ^ 2 + 3)
    (fun n => 7 * n 0 ^ 2 * n 1 ^ 2 + 3) 8 4 :=
  costs (p := [([0, 0, 1, 1], 6), ([0, 0, 0, 0, 1, 1, 1, 1], 3), ([], 3), ([0, 0, 0, 0, 1, 1], 2), ([0, 0, 1, 1, 1, 1], 2)]) (q := [([0, 0, 1, 1], 7), ([], 3)]) (by krfl)
    (fun n => by poly_at) (fun n => by poly_at)

theorem C89_ccd_ring_simple : Costs ccd_ring_simple
    [[0, 0, 1, 1], [1, 0, 1, 0], [1, 1, 0, 0], [1, 1, 0, 0]]
    (fun n => 3 * n 0 ^ 4 * n 1 ^ 4 + 4 * n 0 ^ 3 * n 1 ^ 3 + 6 * n 0 ^ 2 * n 1 ^ 2)
    (fun n => 7 * n 0 ^ 2 * n 1 ^ 2) 8 4 :=
  costs (p := [([0, 0, 1, 1], 6), ([0, 0, 0, 0, 1, 1, 1, 1], 3), ([0, 0, 0, 1, 1, 1], 4)]) (q := [([0, 0, 1, 1], 7)]) (by krfl)
    (fun n => by poly_at) (fun n => by poly_at)

theorem C89_ccsd_simple : Costs ccsd_simple
    [[0, 0], [0, 1], [1, 0], [1, 1], [0, 0, 0, 0], [0, 0, 0, 1], [0, 0, 1, 1], [1, 0, 0, 0], [1, 0, 1, 0], [1, 0, 1, 1], [1, 1, 0, 0], [1, 1, 1, 0], [1, 1, 1, 1], [1, 0], [1, 1, 0, 0]]
    (fun n => 74 * n 0 ^ 4 * n 1 ^ 4 + 32 * n 0 ^ 4 * n 1 ^ 3 + 32 * n 0 ^ 3 * n 1 ^ 4 + 8 * n 0 ^ 4 * n 1 ^ 2 + 45 * n 0 ^ 3 * n 1 ^ 3 + 8 * n 0 ^ 2 * n 1 ^ 4 + 13 * n 0 ^ 3 * n 1 ^ 2 + 13 * n 0 ^ 2 * n 1 ^ 3 + 139 * n 0 ^ 2 * n 1 ^ 2 + 2 * n 0 ^ 2 * n 1 + 2 * n 0 * n 1 ^ 2 + 26 * n 0 * n 1 + 23)
    (fun n => 133 * n 0 ^ 2 * n 1 ^ 2 + 27 * n 0 * n 1 + 23) 8 4 :=
  costs (p := [([0, 0, 1, 1], 139), ([0, 0, 0, 0, 1, 1, 1, 1], 74), ([], 23), ([0, 0, 0, 0, 1, 1, 1], 32), ([0, 0, 0, 1, 1, 1, 1], 32), ([0, 0, 0, 1, 1, 1], 45), ([0, 0, 0, 0, 1, 1], 8), ([0, 0, 1, 1, 1, 1], 8), ([0, 0, 0, 1, 1], 13), ([0, 0, 1, 1, 1], 13), ([0, 1], 26), ([0, 0, 1], 2), ([0, 1, 1], 2)]) (q := [([0, 0, 1, 1], 133), ([], 23), ([0, 1], 27)]) (by krfl)
    (fun n => by poly_at) (fun n => by poly_at)

theorem C89_ccsd_stanton : Costs ccsd_stanton
    [[0, 0], [0, 1], [1, 0], [1, 1], [0, 0, 0, 0], [0, 0, 0, 1], [0, 0, 1, 1], [1, 0, 0, 0], [1, 0, 1, 0], [1, 0, 1, 1], [1, 1, 0, 0], [1, 1, 1, 0], [1, 1, 1, 1], [1, 0], [1, 1, 0, 0]]
    (fun n => 4 * n 0 ^ 4 * n 1 ^ 2 + 7 * n 0 ^ 3 * n 1 ^ 3 + 4 * n 0 ^ 2 * n 1 ^ 4 + 4 * n 0 ^ 4 * n 1 + 10 * n 0 ^ 3 * n 1 ^ 2 + 10 * n 0 ^ 2 * n 1 ^ 3 + 4 * n 0 * n 1 ^ 4 + 4 * n 0 ^ 4 + 2 * n 0 ^ 3 * n 1 + 52 * n 0 ^ 2 * n 1 ^ 2 + 2 * n 0 * n 1 ^ 3 + 4 * n 1 ^ 4 + 6 * n 0 ^ 2 * n 1 + 6 * n 0 * n 1 ^ 2 + 7 * n 0 ^ 2 + 13 * n 0 * n 1 + 7 * n 1 ^ 2 + 4)
    (fun n => 5 * n 0 ^ 4 + 36 * n 0 ^ 2 * n 1 ^ 2 + 5 * n 1 ^ 4 + 9 * n 0 ^ 2 + 15 * n 0 * n 1 + 9 * n 1 ^ 2 + 4) 6 4 :=
  costs (p := [([0, 0, 1, 1], 52), ([0, 0, 1, 1, 1], 10), ([0, 0, 0, 1, 1], 10), ([0, 0], 7), ([0, 0, 1], 6), ([1, 1], 7), ([0, 1, 1], 6), ([0, 0, 0, 1, 1, 1], 7), ([0, 0, 1, 1, 1, 1], 4), ([], 4), ([1, 1, 1, 1], 4), ([0, 1, 1, 1, 1], 4), ([0, 0, 0, 0, 1, 1], 4), ([0, 0, 0, 0], 4), ([0, 0, 0, 0, 1], 4), ([0, 1], 13), ([0, 0, 0, 1], 2), ([0, 1, 1, 1], 2)]) (q := [([0, 0, 1, 1], 36), ([0, 0], 9), ([1, 1], 9), ([], 4), ([1, 1, 1, 1], 5), ([0, 0, 0, 0], 5), ([0, 1], 15)]) (by krfl)
    (fun n => by poly_at) (fun n => by poly_at)

theorem C89_ccd_stanton : Costs ccd_stanton
    [[0, 0], [1, 1], [0, 0, 0, 0], [0, 0, 1, 1], [1, 0, 1, 0], [1, 1, 0, 0], [1, 1, 1, 1], [1, 1, 0, 0]]
    (fun n => 4 * n 0 ^ 4 * n 1 ^ 2 + 4 * n 0 ^ 3 * n 1 ^ 3 + 4 * n 0 ^ 2 * n 1 ^ 4 + 4 * n 0 ^ 3 * n 1 ^ 2 + 4 * n 0 ^ 2 * n 1 ^ 3 + 2 * n 0 ^ 4 + 24 * n 0 ^ 2 * n 1 ^ 2 + 2 * n 1 ^ 4 + 2 * n 0 ^ 2 + 2 * n 1 ^ 2 + 2)
    (fun n => 3 * n 0 ^ 4 + 21 * n 0 ^ 2 * n 1 ^ 2 + 3 * n 1 ^ 4 + 3 * n 0 ^ 2 + 3 * n 1 ^ 2 + 2) 6 4 :=
  costs (p := [([0, 0, 1, 1], 24), ([0, 0, 0, 1, 1], 4), ([0, 0, 1, 1, 1], 4), ([0, 0, 0, 1, 1, 1], 4), ([0, 0, 1, 1, 1, 1], 4), ([], 2), ([1, 1, 1, 1], 2), ([0, 0, 0, 0, 1, 1], 4), ([0, 0, 0, 0], 2), ([0, 0], 2), ([1, 1], 2)]) (q := [([0, 0, 1, 1], 21), ([], 2), ([1, 1, 1, 1], 3), ([0, 0, 0, 0], 3), ([0, 0], 3), ([1, 1], 3)]) (by krfl)
    (fun n => by poly_at) (fun n => by poly_at)

theorem C89_lambda_int : Costs lambda_int
    [[0, 0], [0, 1], [1, 1], [0, 0, 0, 0], [0, 0, 0, 1], [0, 0, 1, 1], [1, 0, 0, 0], [1, 0, 1, 0], [1, 0, 1, 1], [1, 1, 1, 0], [1, 1, 1, 1], [1, 0], [1, 1, 0, 0]]
    (fun n => 6 * n 0 ^ 4 * n 1 ^ 2 + 12 * n 0 ^ 3 * n 1 ^ 3 + 6 * n 0 ^ 2 * n 1 ^ 4 + 4 * n 0 ^ 4 * n 1 + 14 * n 0 ^ 3 * n 1 ^ 2 + 18 * n 0 ^ 2 * n 1 ^ 3 + 4 * n 0 * n 1 ^ 4 + 4 * n 0 ^ 4 + 18 * n 0 ^ 3 * n 1 + 14 * n 0 ^ 2 * n 1 ^ 2 + 18 * n 0 * n 1 ^ 3 + 4 * n 1 ^ 4 + 2 * n 0 ^ 2 * n 1 + 2 * n 0 * n 1 ^ 2 + 3 * n 0 ^ 2 + n 0 * n 1 + 3 * n 1 ^ 2)
    (fun n => 6 * n 0 ^ 4 + 26 * n 0 ^ 3 * n 1 + 17 * n 0 ^ 2 * n 1 ^ 2 + 26 * n 0 * n 1 ^ 3 + 6 * n 1 ^ 4 + 6 * n 0 ^ 2 + 2 * n 0 * n 1 + 6 * n 1 ^ 2) 6 4 :=
  costs (p := [([0, 0, 0, 1, 1, 1], 12), ([0, 0, 0, 0], 4), ([0, 0, 0, 0, 1, 1], 6), ([0, 0, 0, 0, 1], 4), ([1, 1, 1, 1], 4), ([0, 0, 1, 1, 1, 1], 6), ([0, 1, 1, 1, 1], 4), ([0, 0, 1, 1], 14), ([0, 0, 1, 1, 1], 18), ([0, 0, 0, 1], 18), ([0, 1, 1, 1], 18), ([0, 1], 1), ([0, 0, 0, 1, 1], 14), ([1, 1], 3), ([0, 1, 1], 2), ([0, 0], 3), ([0, 0, 1], 2)]) (q := [([0, 0, 1, 1], 17), ([0, 0, 0, 0], 6), ([1, 1, 1, 1], 6), ([0, 0, 0, 1], 26), ([0, 1, 1, 1], 26), ([0, 1], 2), ([1, 1], 6), ([0, 0], 6)]) (by krfl)
    (fun n => by poly_at) (fun n => by poly_at)

theorem C89_ccd_lambda_simple : Costs ccd_lambda_simple
    [[0, 0], [1, 1], [0, 0, 0, 0], [0, 0, 1, 1], [1, 0, 1, 0], [1, 1, 1, 1], [0, 0, 1, 1], [1, 1, 0, 0]]
    (fun n => 42 * n 0 ^ 4 * n 1 ^ 4 + 2 * n 0 ^ 4 * n 1 ^ 2 + 8 * n 0 ^ 3 * n 1 ^ 3 + 2 * n 0 ^ 2 * n 1 ^ 4 + 4 * n 0 ^ 3 * n 1 ^ 2 + 4 * n 0 ^ 2 * n 1 ^ 3 + 48 * n 0 ^ 2 * n 1 ^ 2 + 12)
    (fun n => 49 * n 0 ^ 2 * n 1 ^ 2 + 12) 8 4 :=
  costs (p := [([0, 0, 1, 1], 48), ([0, 0, 0, 0, 1, 1, 1, 1], 42), ([], 12), ([0, 0, 0, 1, 1, 1], 8), ([0, 0, 0, 0, 1, 1], 2), ([0, 0, 1, 1, 1, 1], 2), ([0, 0, 0, 1, 1], 4), ([0, 0, 1, 1, 1], 4)]) (q := [([0, 0, 1, 1], 49), ([], 12)]) (by krfl)
    (fun n => by poly_at) (fun n => by poly_at)

theorem C89_ccsd_lambda_opt : Costs ccsd_lambda_opt
    [[0, 0], [0, 1], [1, 1], [0, 0, 0, 0], [0, 0, 0, 1], [0, 0, 1, 1], [1, 0, 0, 0], [1, 0, 1, 0], [1, 0, 1, 1], [1, 1, 1, 0], [1, 1, 1, 1], [0, 1], [0, 0, 1, 1], [1, 0], [1, 1, 0, 0]]
    (fun n => 8 * n 0 ^ 4 * n 1 ^ 2 + 16 * n 0 ^ 3 * n 1 ^ 3 + 8 * n 0 ^ 2 * n 1 ^ 4 + 4 * n 0 ^ 4 * n 1 + 24 * n 0 ^ 3 * n 1 ^ 2 + 28 * n 0 ^ 2 * n 1 ^ 3 + 4 * n 0 * n 1 ^ 4 + 4 * n 0 ^ 4 + 22 * n 0 ^ 3 * n 1 + 59 * n 0 ^ 2 * n 1 ^ 2 + 22 * n 0 * n 1 ^ 3 + 4 * n 1 ^ 4 + 4 * n 0 ^ 2 * n 1 + 4 * n 0 * n 1 ^ 2 + 3 * n 0 ^ 2 + 23 * n 0 * n 1 + 3 * n 1 ^ 2 + 6)
    (fun n => 6 * n 0 ^ 4 + 26 * n 0 ^ 3 * n 1 + 40 * n 0 ^ 2 * n 1 ^ 2 + 26 * n 0 * n 1 ^ 3 + 6 * n 1 ^ 4 + 7 * n 0 ^ 2 + 25 * n 0 * n 1 + 7 * n 1 ^ 2 + 6) 6 4 :=
  costs (p := [([0, 0, 1, 1], 59), ([0, 0, 0, 1, 1], 24), ([], 6), ([0, 0, 1, 1, 1], 28), ([0, 1], 23), ([0, 0, 0, 1], 22), ([0, 1, 1, 1], 22), ([0, 0, 0, 1, 1, 1], 16), ([0, 0, 0, 0, 1, 1], 8), ([0, 0, 0, 0], 4), ([0, 0, 0, 0, 1], 4), ([0, 0, 1, 1, 1, 1], 8), ([1, 1, 1, 1], 4), ([0, 1, 1, 1, 1], 4), ([0, 1, 1], 4), ([1, 1], 3), ([0, 0, 1], 4), ([0, 0], 3)]) (q := [([0, 0, 1, 1], 40), ([], 6), ([0, 1], 25), ([0, 0], 7), ([1, 1], 7), ([0, 0, 0, 0], 6), ([1, 1, 1, 1], 6), ([0, 0, 0, 1], 26), ([0, 1, 1, 1], 26)]) (by krfl)
    (fun n => by poly_at) (fun n => by poly_at)

theorem C89_ccsd_lambda_stanton : Costs ccsd_lambda_stanton
    [[0, 0], [0, 1], [1, 1], [0, 0, 0, 0], [0, 0, 0, 1], [0, 0, 1, 1], [1, 0, 0, 0], [1, 0, 1, 0], [1, 0, 1, 1], [1, 1, 1, 0], [1, 1, 1, 1], [0, 1], [0, 0, 1, 1], [1, 0], [1, 1, 0, 0]]
    (fun n => 8 * n 0 ^ 4 * n 1 ^ 2 + 14 * n 0 ^ 3 * n 1 ^ 3 + 8 * n 0 ^ 2 * n 1 ^ 4 + 6 * n 0 ^ 4 * n 1 + 20 * n 0 ^ 3 * n 1 ^ 2 + 20 * n 0 ^ 2 * n 1 ^ 3 + 6 * n 0 * n 1 ^ 4 + 6 * n 0 ^ 4 + 13 * n 0 ^ 3 * n 1 + 54 * n 0 ^ 2 * n 1 ^ 2 + 13 * n 0 * n 1 ^ 3 + 6 * n 1 ^ 4 + 6 * n 0 ^ 2 * n 1 + 6 * n 0 * n 1 ^ 2 + 8 * n 0 ^ 2 + 12 * n 0 * n 1 + 8 * n 1 ^ 2 + 1)
    (fun n => 8 * n 0 ^ 4 + 10 * n 0 ^ 3 * n 1 + 41 * n 0 ^ 2 * n 1 ^ 2 + 11 * n 0 * n 1 ^ 3 + 8 * n 1 ^ 4 + 11 * n 0 ^ 2 + 14 * n 0 * n 1 + 11 * n 1 ^ 2 + 1) 6 4 :=
  costs (p := [([0, 0, 1, 1], 54), ([0, 0, 1, 1, 1], 20), ([0, 0, 0, 1, 1], 20), ([0, 0, 0, 1, 1, 1], 14), ([0, 0, 1, 1, 1, 1], 8), ([0, 0, 0, 0, 1, 1], 8), ([0, 1], 12), ([0, 0, 0, 1], 13), ([0, 1, 1, 1], 13), ([0, 0, 1], 6), ([0, 1, 1], 6), ([0, 0], 8), ([1, 1], 8), ([], 1), ([0, 0, 0, 0, 1], 6), ([0, 1, 1, 1, 1], 6), ([1, 1, 1, 1], 6), ([0, 0, 0, 0], 6)]) (q := [([0, 0, 1, 1], 41), ([0, 1], 14), ([0, 0], 11), ([1, 1], 11), ([], 1), ([0, 0, 0, 1], 10), ([0, 1, 1, 1], 11), ([1, 1, 1, 1], 8), ([0, 0, 0, 0], 8)]) (by krfl)
    (fun n => by poly_at) (fun n => by poly_at)

theorem C89_ccsd_lambda_opt_int : Costs ccsd_lambda_opt_int
    [[0, 1], [0, 0, 0, 1], [0, 0, 1, 1], [1, 0, 1, 1], [0, 1], [0, 0, 1, 1], [1, 0], [1, 1, 0, 0], [0, 0], [0, 0, 0, 0], [0, 0, 0, 1], [0, 0, 1, 1], [0, 0, 1, 1], [0, 1], [1, 0, 0, 0], [1, 0, 1, 0], [1, 0, 1, 0], [1, 0, 1, 1], [1, 1], [1, 1, 1, 0], [1, 1, 1, 1], [0, 0, 0, 1], [1, 0, 1, 1]]
    (fun n => 2 * n 0 ^ 4 * n 1 ^ 2 + 4 * n 0 ^ 3 * n 1 ^ 3 + 2 * n 0 ^ 2 * n 1 ^ 4 + 10 * n 0 ^ 3 * n 1 ^ 2 + 10 * n 0 ^ 2 * n 1 ^ 3 + 4 * n 0 ^ 3 * n 1 + 45 * n 0 ^ 2 * n 1 ^ 2 + 4 * n 0 * n 1 ^ 3 + 2 * n 0 ^ 2 * n 1 + 2 * n 0 * n 1 ^ 2 + 22 * n 0 * n 1 + 6)
    (fun n => 23 * n 0 ^ 2 * n 1 ^ 2 + n 0 ^ 2 + 23 * n 0 * n 1 + n 1 ^ 2 + 6) 6 4 :=
  costs (p := [([0, 0, 1, 1], 45), ([0, 0, 0, 1, 1], 10), ([], 6), ([0, 0, 1, 1, 1], 10), ([0, 1], 22), ([0, 0, 0, 1], 4), ([0, 1, 1, 1], 4), ([0, 0, 0, 1, 1, 1], 4), ([0, 0, 0, 0, 1, 1], 2), ([0, 0, 1, 1, 1, 1], 2), ([0, 1, 1], 2), ([0, 0, 1], 2)]) (q := [([0, 0, 1, 1], 23), ([], 6), ([0, 1], 23), ([0, 0], 1), ([1, 1], 1)]) (by krfl)
    (fun n => by poly_at) (fun n => by poly_at)

theorem C89_ccsd_lambda_simple : Costs ccsd_lambda_simple
    [[0, 0], [0, 1], [1, 1], [0, 0, 0, 0], [0, 0, 0, 1], [0, 0, 1, 1], [1, 0, 0, 0], [1, 0, 1, 0], [1, 0, 1, 1], [1, 1, 1, 0], [1, 1, 1, 1], [0, 1], [0, 0, 1, 1], [1, 0], [1, 1, 0, 0]]
    (fun n => 124 * n 0 ^ 4 * n 1 ^ 4 + 38 * n 0 ^ 4 * n 1 ^ 3 + 38 * n 0 ^ 3 * n 1 ^ 4 + 5 * n 0 ^ 4 * n 1 ^ 2 + 77 * n 0 ^ 3 * n 1 ^ 3 + 5 * n 0 ^ 2 * n 1 ^ 4 + 16 * n 0 ^ 3 * n 1 ^ 2 + 16 * n 0 ^ 2 * n 1 ^ 3 + 154 * n 0 ^ 2 * n 1 ^ 2 + 2 * n 0 ^ 2 * n 1 + 2 * n 0 * n 1 ^ 2 + 88 * n 0 * n 1 + 36)
    (fun n => 137 * n 0 ^ 2 * n 1 ^ 2 + 89 * n 0 * n 1 + 36) 8 4 :=
  costs (p := [([0, 0, 1, 1], 154), ([0, 0, 0, 0, 1, 1, 1, 1], 124), ([], 36), ([0, 0, 0, 0, 1, 1, 1], 38), ([0, 0, 0, 1, 1, 1, 1], 38), ([0, 0, 0, 1, 1, 1], 77), ([0, 0, 0, 0, 1, 1], 5), ([0, 0, 1, 1, 1, 1], 5), ([0, 0, 0, 1, 1], 16), ([0, 0, 1, 1, 1], 16), ([0, 1], 88), ([0, 0, 1], 2), ([0, 1, 1], 2)]) (q := [([0, 0, 1, 1], 137), ([], 36), ([0, 1], 89)]) (by krfl)
    (fun n => by poly_at) (fun n => by poly_at)

theorem C89_ccsd_1rdm_ba : Costs ccsd_1rdm_ba
    [[1, 0], [1, 1, 0, 0], [0, 1], [0, 0, 1, 1]]
    (fun n => 2 * n 0 ^ 2 * n 1 ^ 3 + 2 * n 0 * n 1 ^ 2 + 2 * n 1 ^ 2)
    (fun n => 4 * n 1 ^ 2) 5 2 :=
  costs (p := [([1, 1], 2), ([0, 0, 1, 1, 1], 2), ([0, 1, 1], 2)]) (q := [([1, 1], 4)]) (by krfl)
    (fun n => by poly_at) (fun n => by poly_at)

theorem C89_ccsd_1rdm_ji : Costs ccsd_1rdm_ji
    [[1, 0], [1, 1, 0, 0], [0, 1], [0, 0, 1, 1]]
    (fun n => 2 * n 0 ^ 3 * n 1 ^ 2 + 2 * n 0 ^ 2 * n 1 + 3 * n 0 ^ 2)
    (fun n => 5 * n 0 ^ 2) 5 2 :=
  costs (p := [([0, 0], 3), ([0, 0, 0, 1, 1], 2), ([0, 0, 1], 2)]) (q := [([0, 0], 5)]) (by krfl)
    (fun n => by poly_at) (fun n => by poly_at)

theorem C89_ccsd_1rdm_ai : Costs ccsd_1rdm_ai
    [[1, 0], [1, 1, 0, 0], [0, 1], [0, 0, 1, 1], []]
    (fun n => 6 * n 0 ^ 3 * n 1 ^ 3 + 5 * n 0 ^ 2 * n 1 ^ 2 + 7 * n 0 * n 1)
    (fun n => 11 * n 0 * n 1) 6 2 :=
  costs (p := [([0, 1], 7), ([0, 0, 0, 1, 1, 1], 6), ([0, 0, 1, 1], 5)]) (q := [([0, 1], 11)]) (by krfl)
    (fun n => by poly_at) (fun n => by poly_at)

theorem C89_ccsd_2rdm_cdab : Costs ccsd_2rdm_cdab
    [[1, 0], [1, 1, 0, 0], [0, 0, 1, 1]]
    (fun n => 8 * n 0 ^ 2 * n 1 ^ 4 + 5 * n 1 ^ 4)
    (fun n => 6 * n 1 ^ 4) 6 4 :=
  costs (p := [([1, 1, 1, 1], 5), ([0, 0, 1, 1, 1, 1], 8)]) (q := [([1, 1, 1, 1], 6)]) (by krfl)
    (fun n => by poly_at) (fun n => by poly_at)

theorem C89_ccsd_2rdm_ciab : Costs ccsd_2rdm_ciab
    [[1, 0], [0, 0, 1, 1]]
    (fun n => 2 * n 0 ^ 2 * n 1 ^ 3)
    (fun n => n 0 * n 1 ^ 3) 5 4 :=
  costs (p := [([0, 0, 1, 1, 1], 2)]) (q := [([0, 1, 1, 1], 1)]) (by krfl)
    (fun n => by poly_at) (fun n => by poly_at)

theorem C89_ccsd_2rdm_bcai : Costs ccsd_2rdm_bcai
    [[1, 0], [1, 1, 0, 0], [0, 1], [0, 0, 1, 1]]
    (fun n => 19 * n 0 ^ 3 * n 1 ^ 4 + 8 * n 0 ^ 2 * n 1 ^ 3 + 11 * n 0 * n 1 ^ 3)
    (fun n => 12 * n 0 * n 1 ^ 3) 7 4 :=
  costs (p := [([0, 1, 1, 1], 11), ([0, 0, 0, 1, 1, 1, 1], 19), ([0, 0, 1, 1, 1], 8)]) (q := [([0, 1, 1, 1], 12)]) (by krfl)
    (fun n => by poly_at) (fun n => by poly_at)

theorem C89_ccsd_2rdm_bjai : Costs ccsd_2rdm_bjai
    [[1, 0], [1, 1, 0, 0], [0, 1], [0, 0, 1, 1]]
    (fun n => 5 * n 0 ^ 3 * n 1 ^ 3 + 5 * n 0 ^ 2 * n 1 ^ 2)
    (fun n => 4 * n 0 ^ 2 * n 1 ^ 2) 6 4 :=
  costs (p := [([0, 0, 1, 1], 5), ([0, 0, 0, 1, 1, 1], 5)]) (q := [([0, 0, 1, 1], 4)]) (by krfl)
    (fun n => by poly_at) (fun n => by poly_at)

theorem C89_ccsd_2rdm_abij : Costs ccsd_2rdm_abij
    [[1, 0], [1, 1, 0, 0], [0, 1], [0, 0, 1, 1], []]
    (fun n => 111 * n 0 ^ 4 * n 1 ^ 4 + 40 * n 0 ^ 3 * n 1 ^ 3 + 75 * n 0 ^ 2 * n 1 ^ 2)
    (fun n => 72 * n 0 ^ 2 * n 1 ^ 2) 8 4 :=
  costs (p := [([0, 0, 1, 1], 75), ([0, 0, 0, 0, 1, 1, 1, 1], 111), ([0, 0, 0, 1, 1, 1], 40)]) (q := [([0, 0, 1, 1], 72)]) (by krfl)
    (fun n => by poly_at) (fun n => by poly_at)

theorem C89_ccsd_2rdm_jkai : Costs ccsd_2rdm_jkai
    [[1, 0], [0, 0, 1, 1]]
    (fun n => 2 * n 0 ^ 3 * n 1 ^ 2 + n 0 ^ 3 * n 1)
    (fun n => 2 * n 0 ^ 3 * n 1) 5 4 :=
  costs (p := [([0, 0, 0, 1], 1), ([0, 0, 0, 1, 1], 2)]) (q := [([0, 0, 0, 1], 2)]) (by krfl)
    (fun n => by poly_at) (fun n => by poly_at)

theorem C89_ccsd_2rdm_kaij : Costs ccsd_2rdm_kaij
    [[1, 0], [1, 1, 0, 0], [0, 1], [0, 0, 1, 1]]
    (fun n => 23 * n 0 ^ 4 * n 1 ^ 3 + 8 * n 0 ^ 3 * n 1 ^ 2 + 15 * n 0 ^ 3 * n 1)
    (fun n => 16 * n 0 ^ 3 * n 1) 7 4 :=
  costs (p := [([0, 0, 0, 1], 15), ([0, 0, 0, 0, 1, 1, 1], 23), ([0, 0, 0, 1, 1], 8)]) (q := [([0, 0, 0, 1], 16)]) (by krfl)
    (fun n => by poly_at) (fun n => by poly_at)

theorem C89_ccsd_2rdm_klij : Costs ccsd_2rdm_klij
    [[1, 0], [1, 1, 0, 0], [0, 0, 1, 1]]
    (fun n => 8 * n 0 ^ 4 * n 1 ^ 2 + 5 * n 0 ^ 4)
    (fun n => 6 * n 0 ^ 4) 6 4 :=
  costs (p := [([0, 0, 0, 0], 5), ([0, 0, 0, 0, 1, 1], 8)]) (q := [([0, 0, 0, 0], 6)]) (by krfl)
    (fun n => by poly_at) (fun n => by poly_at)

theorem C89_ccsd_1rdm_ai_opt : Costs ccsd_1rdm_ai_opt
    [[1, 0], [1, 1, 0, 0], [0, 1], [0, 0, 1, 1], []]
    (fun n => 2 * n 0 ^ 3 * n 1 ^ 2 + 2 * n 0 ^ 2 * n 1 ^ 3 + 5 * n 0 ^ 2 * n 1 ^ 2 + 2 * n 0 ^ 2 * n 1 + 2 * n 0 * n 1 ^ 2 + n 0 ^ 2 + 4 * n 0 * n 1 + n 1 ^ 2)
    (fun n => 2 * n 0 ^ 2 * n 1 ^ 2 + 2 * n 0 ^ 2 + 4 * n 0 * n 1 + 2 * n 1 ^ 2) 5 4 :=
  costs (p := [([0, 1], 4), ([0, 0, 1], 2), ([0, 0], 1), ([0, 0, 0, 1, 1], 2), ([0, 1, 1], 2), ([1, 1], 1), ([0, 0, 1, 1, 1], 2), ([0, 0, 1, 1], 5)]) (q := [([0, 1], 4), ([0, 0], 2), ([1, 1], 2), ([0, 0, 1, 1], 2)]) (by krfl)
    (fun n => by poly_at) (fun n => by poly_at)

theorem C89_ccsd_2rdm_cdab_opt : Costs ccsd_2rdm_cdab_opt
    [[1, 0], [1, 1, 0, 0], [0, 0, 1, 1]]
    (fun n => 2 * n 0 ^ 2 * n 1 ^ 4 + 6 * n 0 ^ 2 * n 1 ^ 2 + n 1 ^ 4)
    (fun n => 3 * n 0 ^ 2 * n 1 ^ 2 + 2 * n 1 ^ 4) 6 4 :=
  costs (p := [([1, 1, 1, 1], 1), ([0, 0, 1, 1, 1, 1], 2), ([0, 0, 1, 1], 6)]) (q := [([1, 1, 1, 1], 2), ([0, 0, 1, 1], 3)]) (by krfl)
    (fun n => by poly_at) (fun n => by poly_at)

theorem C89_ccsd_2rdm_bcai_opt : Costs ccsd_2rdm_bcai_opt
    [[1, 0], [1, 1, 0, 0], [0, 1], [0, 0, 1, 1]]
    (fun n => 3 * n 0 ^ 3 * n 1 ^ 4 + 2 * n 0 ^ 3 * n 1 ^ 3 + 8 * n 0 ^ 2 * n 1 ^ 3 + 6 * n 0 ^ 2 * n 1 ^ 2 + 12 * n 0 * n 1 ^ 3)
    (fun n => 4 * n 0 ^ 2 * n 1 ^ 2 + 9 * n 0 * n 1 ^ 3 + n 1 ^ 2) 7 4 :=
  costs (p := [([0, 1, 1, 1], 12), ([0, 0, 0, 1, 1, 1, 1], 3), ([0, 0, 1, 1, 1], 8), ([0, 0, 0, 1, 1, 1], 2), ([0, 0, 1, 1], 6)]) (q := [([0, 1, 1, 1], 9), ([0, 0, 1, 1], 4), ([1, 1], 1)]) (by krfl)
    (fun n => by poly_at) (fun n => by poly_at)

theorem C89_ccsd_2rdm_bjai_opt : Costs ccsd_2rdm_bjai_opt
    [[1, 0], [1, 1, 0, 0], [0, 1], [0, 0, 1, 1]]
    (fun n => 2 * n 0 ^ 3 * n 1 ^ 3 + 7 * n 0 ^ 2 * n 1 ^ 2)
    (fun n => 5 * n 0 ^ 2 * n 1 ^ 2) 6 4 :=
  costs (p := [([0, 0, 1, 1], 7), ([0, 0, 0, 1, 1, 1], 2)]) (q := [([0, 0, 1, 1], 5)]) (by krfl)
    (fun n => by poly_at) (fun n => by poly_at)

theorem C89_ccsd_2rdm_abij_opt : Costs ccsd_2rdm_abij_opt
    [[1, 0], [1, 1, 0, 0], [0, 1], [0, 0, 1, 1], []]
    (fun n => 8 * n 0 ^ 4 * n 1 ^ 2 + 9 * n 0 ^ 3 * n 1 ^ 3 + 4 * n 0 ^ 4 * n 1 + 10 * n 0 ^ 3 * n 1 ^ 2 + 6 * n 0 ^ 2 * n 1 ^ 3 + n 0 ^ 4 + 63 * n 0 ^ 2 * n 1 ^ 2 + 2 * n 0 ^ 2 * n 1 + 2 * n 0 * n 1 ^ 2 + 2)
    (fun n => 3 * n 0 ^ 4 + 2 * n 0 ^ 3 * n 1 + 44 * n 0 ^ 2 * n 1 ^ 2 + 2 * n 0 ^ 2 + n 0 * n 1 + 2 * n 1 ^ 2 + 2) 6 4 :=
  costs (p := [([0, 0, 1, 1], 63), ([0, 0, 0, 1, 1, 1], 9), ([0, 0, 0, 0, 1, 1], 8), ([0, 0, 0, 0], 1), ([0, 0, 0, 0, 1], 4), ([0, 0, 0, 1, 1], 10), ([], 2), ([0, 0, 1, 1, 1], 6), ([0, 1, 1], 2), ([0, 0, 1], 2)]) (q := [([0, 0, 1, 1], 44), ([0, 0, 0, 0], 3), ([0, 0, 0, 1], 2), ([], 2), ([0, 0], 2), ([1, 1], 2), ([0, 1], 1)]) (by krfl)
    (fun n => by poly_at) (fun n => by poly_at)

theorem C89_ccsd_2rdm_kaij_opt : Costs ccsd_2rdm_kaij_opt
    [[1, 0], [1, 1, 0, 0], [0, 1], [0, 0, 1, 1]]
    (fun n => 3 * n 0 ^ 4 * n 1 ^ 3 + 2 * n 0 ^ 4 * n 1 ^ 2 + 6 * n 0 ^ 3 * n 1 ^ 2 + 11 * n 0 ^ 3 * n 1 + 6 * n 0 ^ 2 * n 1 ^ 2 + 1)
    (fun n => 11 * n 0 ^ 3 * n 1 + 3 * n 0 ^ 2 * n 1 ^ 2 + n 0 ^ 2 + 1) 7 4 :=
  costs (p := [([0, 0, 0, 1], 11), ([0, 0, 0, 0, 1, 1, 1], 3), ([0, 0, 0, 0, 1, 1], 2), ([0, 0, 0, 1, 1], 6), ([], 1), ([0, 0, 1, 1], 6)]) (q := [([0, 0, 0, 1], 11), ([], 1), ([0, 0], 1), ([0, 0, 1, 1], 3)]) (by krfl)
    (fun n => by poly_at) (fun n => by poly_at)

theorem C89_ccsd_2rdm_klij_opt : Costs ccsd_2rdm_klij_opt
    [[1, 0], [1, 1, 0, 0], [0, 0, 1, 1]]
    (fun n => 2 * n 0 ^ 4 * n 1 ^ 2 + n 0 ^ 4 + 6 * n 0 ^ 2 * n 1 ^ 2)
    (fun n => 2 * n 0 ^ 4 + 3 * n 0 ^ 2 * n 1 ^ 2) 6 4 :=
  costs (p := [([0, 0, 0, 0], 1), ([0, 0, 0, 0, 1, 1], 2), ([0, 0, 1, 1], 6)]) (q := [([0, 0, 0, 0], 2), ([0, 0, 1, 1], 3)]) (by krfl)
    (fun n => by poly_at) (fun n => by poly_at)

end Heap
