import Verif.Props.Cost
import Verif.Props.NumRun
import Verif.Model.HeapProg
import Mathlib.Tactic.Ring
/-!
# C89: the work of the restricted routines

Generated by `tools/gen_cost.py`; the shapes are those of C53, with `n 0` occupied and `n 1` virtual orbitals.  The first polynomial counts arithmetic operations, the
second the elements of the arrays made; the last numbers are the most loops in a nest and the most axes of an array made.
-/

set_option linter.unusedVariables false

namespace Heap
open Prog

local macro "poly_at" : tactic => `(tactic| (simp only [Poly.at, List.map_cons, List.map_nil, List.sum_cons, List.sum_nil, List.prod_cons, List.prod_nil]; try ring))

theorem C89_rcc_energy : Costs rcc_energy
    [[1, 0], [1, 1, 0, 0], [0, 1], [0, 0, 1, 1]]
    (fun n => 7 * n 0 ^ 2 * n 1 ^ 2 + 2 * n 0 * n 1 + 4)
    (fun n => 2 * n 0 ^ 2 * n 1 ^ 2 + 6) 4 4 :=
  costs (p := [([], 4), ([0, 0, 1, 1], 7), ([0, 1], 2)]) (q := [([], 6), ([0, 0, 1, 1], 2)]) (by krfl)
    (fun n => by poly_at) (fun n => by poly_at)

theorem C89_rccsd_stanton : Costs rccsd_stanton
    [[0, 0], [0, 1], [1, 0], [1, 1], [0, 0, 0, 0], [0, 0, 0, 1], [0, 0, 1, 0], [0, 0, 1, 1], [0, 1, 0, 0], [0, 1, 0, 1], [0, 1, 1, 0], [0, 1, 1, 1], [1, 0, 1, 0], [1, 0, 1, 1], [1, 1, 0, 0], [1, 1, 1, 0], [1, 1, 1, 1], [1, 0], [1, 1, 0, 0]]
    (fun n => 4 * n 0 ^ 4 * n 1 ^ 2 + 22 * n 0 ^ 3 * n 1 ^ 3 + 4 * n 0 ^ 2 * n 1 ^ 4 + 2 * n 0 ^ 4 * n 1 + 14 * n 0 ^ 3 * n 1 ^ 2 + 14 * n 0 ^ 2 * n 1 ^ 3 + 2 * n 0 * n 1 ^ 4 + 4 * n 0 ^ 4 + 7 * n 0 ^ 3 * n 1 + 71 * n 0 ^ 2 * n 1 ^ 2 + 7 * n 0 * n 1 ^ 3 + 4 * n 1 ^ 4 + 6 * n 0 ^ 2 * n 1 + 6 * n 0 * n 1 ^ 2 + 6 * n 0 ^ 2 + 13 * n 0 * n 1 + 6 * n 1 ^ 2)
    (fun n => 5 * n 0 ^ 4 + 5 * n 0 ^ 3 * n 1 + 61 * n 0 ^ 2 * n 1 ^ 2 + 5 * n 0 * n 1 ^ 3 + 5 * n 1 ^ 4 + 7 * n 0 ^ 2 + 15 * n 0 * n 1 + 7 * n 1 ^ 2) 6 4 :=
  costs (p := [([0, 0, 1, 1], 71), ([0, 0, 1, 1, 1], 14), ([0, 0, 0, 1, 1], 14), ([0, 0], 6), ([0, 0, 1], 6), ([1, 1], 6), ([0, 1, 1], 6), ([0, 0, 0, 1, 1, 1], 22), ([0, 0, 0, 1], 7), ([0, 1, 1, 1], 7), ([0, 0, 1, 1, 1, 1], 4), ([1, 1, 1, 1], 4), ([0, 1, 1, 1, 1], 2), ([0, 0, 0, 0, 1, 1], 4), ([0, 0, 0, 0], 4), ([0, 0, 0, 0, 1], 2), ([0, 1], 13)]) (q := [([0, 0, 1, 1], 61), ([0, 0], 7), ([1, 1], 7), ([0, 0, 0, 1], 5), ([0, 1, 1, 1], 5), ([1, 1, 1, 1], 5), ([0, 0, 0, 0], 5), ([0, 1], 15)]) (by krfl)
    (fun n => by poly_at) (fun n => by poly_at)

theorem C89_rccsd_lambda_opt : Costs rccsd_lambda_opt
    [[0, 0], [0, 1], [1, 1], [0, 0, 0, 0], [0, 0, 0, 1], [0, 0, 1, 0], [0, 0, 1, 1], [0, 1, 0, 0], [0, 1, 0, 1], [0, 1, 1, 0], [0, 1, 1, 1], [1, 0, 0, 0], [1, 0, 0, 1], [1, 0, 1, 0], [1, 0, 1, 1], [1, 1, 0, 1], [1, 1, 1, 0], [1, 1, 1, 1], [0, 1], [0, 0, 1, 1], [1, 0], [1, 1, 0, 0]]
    (fun n => 32 * n 0 ^ 4 * n 1 ^ 2 + 70 * n 0 ^ 3 * n 1 ^ 3 + 32 * n 0 ^ 2 * n 1 ^ 4 + 10 * n 0 ^ 4 * n 1 + 60 * n 0 ^ 3 * n 1 ^ 2 + 68 * n 0 ^ 2 * n 1 ^ 3 + 10 * n 0 * n 1 ^ 4 + 14 * n 0 ^ 4 + 78 * n 0 ^ 3 * n 1 + 101 * n 0 ^ 2 * n 1 ^ 2 + 77 * n 0 * n 1 ^ 3 + 14 * n 1 ^ 4 + 4 * n 0 ^ 2 * n 1 + 4 * n 0 * n 1 ^ 2 + 8 * n 0 ^ 2 + 43 * n 0 * n 1 + 8 * n 1 ^ 2 + 11)
    (fun n => 16 * n 0 ^ 4 + 71 * n 0 ^ 3 * n 1 + 88 * n 0 ^ 2 * n 1 ^ 2 + 70 * n 0 * n 1 ^ 3 + 14 * n 1 ^ 4 + 10 * n 0 ^ 2 + 45 * n 0 * n 1 + 11 * n 1 ^ 2 + 11) 6 4 :=
  costs (p := [([0, 0, 1, 1], 101), ([0, 0, 0, 1, 1], 60), ([0, 0, 1, 1, 1], 68), ([0, 1], 43), ([0, 0, 0, 1], 78), ([], 11), ([0, 0], 8), ([0, 1, 1, 1], 77), ([1, 1], 8), ([0, 0, 0, 1, 1, 1], 70), ([0, 0, 0, 0, 1, 1], 32), ([0, 0, 0, 0], 14), ([0, 0, 0, 0, 1], 10), ([0, 0, 1, 1, 1, 1], 32), ([1, 1, 1, 1], 14), ([0, 1, 1, 1, 1], 10), ([0, 1, 1], 4), ([0, 0, 1], 4)]) (q := [([0, 0, 1, 1], 88), ([0, 1], 45), ([], 11), ([0, 0, 0, 1], 71), ([0, 0], 10), ([0, 1, 1, 1], 70), ([1, 1], 11), ([0, 0, 0, 0], 16), ([1, 1, 1, 1], 14)]) (by krfl)
    (fun n => by poly_at) (fun n => by poly_at)

theorem C89_rccsd_1rdm_ba : Costs rccsd_1rdm_ba
    [[1, 0], [1, 1, 0, 0], [0, 1], [0, 0, 1, 1]]
    (fun n => 4 * n 0 ^ 2 * n 1 ^ 3 + 2 * n 0 ^ 2 * n 1 ^ 2 + 2 * n 0 * n 1 ^ 2 + 3 * n 1 ^ 2)
    (fun n => 2 * n 0 ^ 2 * n 1 ^ 2 + 4 * n 1 ^ 2) 5 4 :=
  costs (p := [([1, 1], 3), ([0, 0, 1, 1, 1], 4), ([0, 0, 1, 1], 2), ([0, 1, 1], 2)]) (q := [([1, 1], 4), ([0, 0, 1, 1], 2)]) (by krfl)
    (fun n => by poly_at) (fun n => by poly_at)

theorem C89_rccsd_1rdm_ji : Costs rccsd_1rdm_ji
    [[1, 0], [1, 1, 0, 0], [0, 1], [0, 0, 1, 1]]
    (fun n => 4 * n 0 ^ 3 * n 1 ^ 2 + 2 * n 0 ^ 2 * n 1 ^ 2 + 2 * n 0 ^ 2 * n 1 + 4 * n 0 ^ 2)
    (fun n => 2 * n 0 ^ 2 * n 1 ^ 2 + 5 * n 0 ^ 2) 5 4 :=
  costs (p := [([0, 0], 4), ([0, 0, 0, 1, 1], 4), ([0, 0, 1, 1], 2), ([0, 0, 1], 2)]) (q := [([0, 0], 5), ([0, 0, 1, 1], 2)]) (by krfl)
    (fun n => by poly_at) (fun n => by poly_at)

theorem C89_rccsd_1rdm_ai : Costs rccsd_1rdm_ai
    [[1, 0], [1, 1, 0, 0], [0, 1], [0, 0, 1, 1], []]
    (fun n => 4 * n 0 ^ 3 * n 1 ^ 2 + 4 * n 0 ^ 2 * n 1 ^ 3 + 12 * n 0 ^ 2 * n 1 ^ 2 + 2 * n 0 ^ 2 * n 1 + 2 * n 0 * n 1 ^ 2 + 2 * n 0 ^ 2 + 5 * n 0 * n 1 + 2 * n 1 ^ 2)
    (fun n => 7 * n 0 ^ 2 * n 1 ^ 2 + 3 * n 0 ^ 2 + 5 * n 0 * n 1 + 3 * n 1 ^ 2) 5 4 :=
  costs (p := [([0, 1], 5), ([0, 0, 1], 2), ([0, 0], 2), ([0, 0, 0, 1, 1], 4), ([0, 0, 1, 1], 12), ([0, 1, 1], 2), ([1, 1], 2), ([0, 0, 1, 1, 1], 4)]) (q := [([0, 1], 5), ([0, 0], 3), ([0, 0, 1, 1], 7), ([1, 1], 3)]) (by krfl)
    (fun n => by poly_at) (fun n => by poly_at)

theorem C89_rccsd_2rdm_ciab : Costs rccsd_2rdm_ciab
    [[1, 0], [0, 0, 1, 1]]
    (fun n => 2 * n 0 ^ 2 * n 1 ^ 3)
    (fun n => n 0 * n 1 ^ 3) 5 4 :=
  costs (p := [([0, 0, 1, 1, 1], 2)]) (q := [([0, 1, 1, 1], 1)]) (by krfl)
    (fun n => by poly_at) (fun n => by poly_at)

theorem C89_rccsd_2rdm_jkai : Costs rccsd_2rdm_jkai
    [[1, 0], [0, 0, 1, 1]]
    (fun n => 2 * n 0 ^ 3 * n 1 ^ 2 + n 0 ^ 3 * n 1)
    (fun n => 2 * n 0 ^ 3 * n 1) 5 4 :=
  costs (p := [([0, 0, 0, 1], 1), ([0, 0, 0, 1, 1], 2)]) (q := [([0, 0, 0, 1], 2)]) (by krfl)
    (fun n => by poly_at) (fun n => by poly_at)

theorem C89_rccsd_2rdm_cdab : Costs rccsd_2rdm_cdab
    [[1, 0], [1, 1, 0, 0], [0, 0, 1, 1]]
    (fun n => 2 * n 0 ^ 2 * n 1 ^ 4 + 3 * n 0 ^ 2 * n 1 ^ 2)
    (fun n => 2 * n 0 ^ 2 * n 1 ^ 2 + n 1 ^ 4) 6 4 :=
  costs (p := [([0, 0, 1, 1, 1, 1], 2), ([0, 0, 1, 1], 3)]) (q := [([1, 1, 1, 1], 1), ([0, 0, 1, 1], 2)]) (by krfl)
    (fun n => by poly_at) (fun n => by poly_at)

theorem C89_rccsd_2rdm_bjai : Costs rccsd_2rdm_bjai
    [[1, 0], [1, 1, 0, 0], [0, 0, 1, 1]]
    (fun n => 2 * n 0 ^ 3 * n 1 ^ 3 + 4 * n 0 ^ 2 * n 1 ^ 2)
    (fun n => 4 * n 0 ^ 2 * n 1 ^ 2) 6 4 :=
  costs (p := [([0, 0, 1, 1], 4), ([0, 0, 0, 1, 1, 1], 2)]) (q := [([0, 0, 1, 1], 4)]) (by krfl)
    (fun n => by poly_at) (fun n => by poly_at)

theorem C89_rccsd_2rdm_bjia : Costs rccsd_2rdm_bjia
    [[1, 0], [1, 1, 0, 0], [0, 1], [0, 0, 1, 1]]
    (fun n => 4 * n 0 ^ 3 * n 1 ^ 3 + 9 * n 0 ^ 2 * n 1 ^ 2)
    (fun n => 7 * n 0 ^ 2 * n 1 ^ 2) 6 4 :=
  costs (p := [([0, 0, 1, 1], 9), ([0, 0, 0, 1, 1, 1], 4)]) (q := [([0, 0, 1, 1], 7)]) (by krfl)
    (fun n => by poly_at) (fun n => by poly_at)

theorem C89_rccsd_2rdm_klij : Costs rccsd_2rdm_klij
    [[1, 0], [1, 1, 0, 0], [0, 0, 1, 1]]
    (fun n => 2 * n 0 ^ 4 * n 1 ^ 2 + 3 * n 0 ^ 2 * n 1 ^ 2)
    (fun n => n 0 ^ 4 + 2 * n 0 ^ 2 * n 1 ^ 2) 6 4 :=
  costs (p := [([0, 0, 0, 0, 1, 1], 2), ([0, 0, 1, 1], 3)]) (q := [([0, 0, 0, 0], 1), ([0, 0, 1, 1], 2)]) (by krfl)
    (fun n => by poly_at) (fun n => by poly_at)

theorem C89_rccsd_2rdm_bcai : Costs rccsd_2rdm_bcai
    [[1, 0], [1, 1, 0, 0], [0, 1], [0, 0, 1, 1]]
    (fun n => 3 * n 0 ^ 3 * n 1 ^ 4 + 6 * n 0 ^ 3 * n 1 ^ 3 + 10 * n 0 ^ 2 * n 1 ^ 3 + 8 * n 0 ^ 2 * n 1 ^ 2 + 7 * n 0 * n 1 ^ 3 + 2 * n 1 ^ 2)
    (fun n => 9 * n 0 ^ 2 * n 1 ^ 2 + 6 * n 0 * n 1 ^ 3 + 3 * n 1 ^ 2) 7 4 :=
  costs (p := [([0, 1, 1, 1], 7), ([0, 0, 0, 1, 1, 1, 1], 3), ([0, 0, 1, 1, 1], 10), ([0, 0, 0, 1, 1, 1], 6), ([0, 0, 1, 1], 8), ([1, 1], 2)]) (q := [([0, 1, 1, 1], 6), ([0, 0, 1, 1], 9), ([1, 1], 3)]) (by krfl)
    (fun n => by poly_at) (fun n => by poly_at)

theorem C89_rccsd_2rdm_kaij : Costs rccsd_2rdm_kaij
    [[1, 0], [1, 1, 0, 0], [0, 1], [0, 0, 1, 1]]
    (fun n => 3 * n 0 ^ 4 * n 1 ^ 3 + 12 * n 0 ^ 4 * n 1 ^ 2 + 12 * n 0 ^ 3 * n 1 ^ 2 + 14 * n 0 ^ 3 * n 1 + 7 * n 0 ^ 2 * n 1 ^ 2 + 2 * n 0 ^ 2 + 1)
    (fun n => 17 * n 0 ^ 3 * n 1 + 6 * n 0 ^ 2 * n 1 ^ 2 + 3 * n 0 ^ 2 + 1) 7 4 :=
  costs (p := [([0, 0, 0, 1], 14), ([0, 0, 0, 0, 1, 1, 1], 3), ([0, 0, 0, 0, 1, 1], 12), ([0, 0, 0, 1, 1], 12), ([0, 0, 1, 1], 7), ([], 1), ([0, 0], 2)]) (q := [([0, 0, 0, 1], 17), ([0, 0, 1, 1], 6), ([], 1), ([0, 0], 3)]) (by krfl)
    (fun n => by poly_at) (fun n => by poly_at)

theorem C89_rccsd_2rdm_abij : Costs rccsd_2rdm_abij
    [[1, 0], [1, 1, 0, 0], [0, 1], [0, 0, 1, 1]]
    (fun n => 16 * n 0 ^ 4 * n 1 ^ 2 + 43 * n 0 ^ 3 * n 1 ^ 3 + 8 * n 0 ^ 4 * n 1 + 20 * n 0 ^ 3 * n 1 ^ 2 + 12 * n 0 ^ 2 * n 1 ^ 3 + 4 * n 0 ^ 4 + n 0 ^ 3 * n 1 + 68 * n 0 ^ 2 * n 1 ^ 2 + 2 * n 0 ^ 2 * n 1 + 2 * n 0 * n 1 ^ 2 + 2 * n 0 ^ 2 + n 0 * n 1 + 2 * n 1 ^ 2 + 2)
    (fun n => 8 * n 0 ^ 4 + 5 * n 0 ^ 3 * n 1 + 62 * n 0 ^ 2 * n 1 ^ 2 + 4 * n 0 ^ 2 + 2 * n 0 * n 1 + 4 * n 1 ^ 2 + 2) 6 4 :=
  costs (p := [([0, 0, 1, 1], 68), ([0, 0, 0, 1, 1, 1], 43), ([0, 0, 0, 0, 1, 1], 16), ([0, 0, 0, 0], 4), ([0, 0, 0, 0, 1], 8), ([0, 0, 0, 1], 1), ([0, 0, 0, 1, 1], 20), ([], 2), ([0, 0], 2), ([0, 0, 1, 1, 1], 12), ([1, 1], 2), ([0, 1], 1), ([0, 1, 1], 2), ([0, 0, 1], 2)]) (q := [([0, 0, 1, 1], 62), ([0, 0, 0, 0], 8), ([0, 0, 0, 1], 5), ([], 2), ([0, 0], 4), ([1, 1], 4), ([0, 1], 2)]) (by krfl)
    (fun n => by poly_at) (fun n => by poly_at)

end Heap
