import Verif.Props.Cost
import Verif.Props.NumRun
import Verif.Model.HeapProg
import Mathlib.Tactic.Ring
/-!
# C89: the work of the unrestricted routines

Generated by `tools/gen_cost.py`; the shapes are those of C53, with `n 0` occupied and `n 1` virtual orbitals of spin alpha, `n 2` and `n 3` of spin beta.  The first polynomial counts arithmetic operations, the
second the elements of the arrays made; the last numbers are the most loops in a nest and the most axes of an array made.
-/

set_option linter.unusedVariables false

namespace Heap
open Prog

local macro "poly_at" : tactic => `(tactic| (simp only [Poly.at, List.map_cons, List.map_nil, List.sum_cons, List.sum_nil, List.prod_cons, List.prod_nil]; try ring))

theorem C89_ucc_energy : Costs ucc_energy
    [[1, 0], [3, 2], [1, 1, 0, 0], [1, 3, 0, 2], [3, 3, 2, 2], [0, 1], [2, 3], [0, 0, 1, 1], [2, 2, 3, 3], [0, 2, 1, 3]]
    (fun n => 6 * n 0 ^ 2 * n 1 ^ 2 + 5 * n 0 * n 1 * n 2 * n 3 + 6 * n 2 ^ 2 * n 3 ^ 2 + 2 * n 0 * n 1 + 2 * n 2 * n 3 + 6)
    (fun n => 3 * n 0 ^ 2 * n 1 ^ 2 + 2 * n 0 * n 1 * n 2 * n 3 + 3 * n 2 ^ 2 * n 3 ^ 2 + 8) 4 4 :=
  costs (p := [([], 6), ([0, 1, 2, 3], 5), ([2, 2, 3, 3], 6), ([0, 0, 1, 1], 6), ([2, 3], 2), ([0, 1], 2)]) (q := [([], 8), ([0, 1, 2, 3], 2), ([2, 2, 3, 3], 3), ([0, 0, 1, 1], 3)]) (by krfl)
    (fun n => by poly_at) (fun n => by poly_at)

theorem C89_ump2_energy : Costs ump2_energy
    [[1, 0], [3, 2], [1, 1, 0, 0], [1, 3, 0, 2], [3, 3, 2, 2], [0, 1], [2, 3], [0, 0, 1, 1], [2, 2, 3, 3], [0, 2, 1, 3]]
    (fun n => 2 * n 0 ^ 2 * n 1 ^ 2 + 2 * n 0 * n 1 * n 2 * n 3 + 2 * n 2 ^ 2 * n 3 ^ 2 + 2 * n 0 * n 1 + 2 * n 2 * n 3 + 6)
    (fun n => 8) 4 0 :=
  costs (p := [([], 6), ([0, 1, 2, 3], 2), ([2, 2, 3, 3], 2), ([0, 0, 1, 1], 2), ([2, 3], 2), ([0, 1], 2)]) (q := [([], 8)]) (by krfl)
    (fun n => by poly_at) (fun n => by poly_at)

theorem C89_uccsd_stanton : Costs uccsd_stanton
    [[0, 0], [0, 1], [1, 0], [1, 1], [2, 2], [2, 3], [3, 2], [3, 3], [0, 0, 0, 0], [0, 0, 0, 1], [0, 0, 1, 1], [1, 0, 0, 0], [1, 0, 1, 0], [1, 0, 1, 1], [1, 1, 0, 0], [1, 1, 1, 0], [1, 1, 1, 1], [2, 2, 2, 2], [2, 2, 2, 3], [2, 2, 3, 3], [3, 2, 2, 2], [3, 2, 3, 2], [3, 2, 3, 3], [3, 3, 2, 2], [3, 3, 3, 2], [3, 3, 3, 3], [0, 2, 0, 2], [0, 2, 0, 3], [0, 2, 1, 2], [0, 2, 1, 3], [0, 3, 0, 2], [0, 3, 0, 3], [0, 3, 1, 2], [0, 3, 1, 3], [1, 2, 0, 2], [1, 2, 0, 3], [1, 2, 1, 2], [1, 2, 1, 3], [1, 3, 0, 2], [1, 3, 0, 3], [1, 3, 1, 2], [1, 3, 1, 3], [1, 0], [3, 2], [1, 1, 0, 0], [1, 3, 0, 2], [3, 3, 2, 2]]
    (fun n => 4 * n 0 ^ 4 * n 1 ^ 2 + 7 * n 0 ^ 3 * n 1 ^ 3 + 4 * n 0 ^ 2 * n 1 ^ 4 + 15 * n 0 ^ 2 * n 1 ^ 2 * n 2 * n 3 + 4 * n 0 ^ 2 * n 1 * n 2 ^ 2 * n 3 + 7 * n 0 ^ 2 * n 1 * n 2 * n 3 ^ 2 + 7 * n 0 * n 1 ^ 2 * n 2 ^ 2 * n 3 + 4 * n 0 * n 1 ^ 2 * n 2 * n 3 ^ 2 + 15 * n 0 * n 1 * n 2 ^ 2 * n 3 ^ 2 + 4 * n 2 ^ 4 * n 3 ^ 2 + 7 * n 2 ^ 3 * n 3 ^ 3 + 4 * n 2 ^ 2 * n 3 ^ 4 + 4 * n 0 ^ 4 * n 1 + 10 * n 0 ^ 3 * n 1 ^ 2 + 10 * n 0 ^ 2 * n 1 ^ 3 + 2 * n 0 ^ 2 * n 1 * n 2 ^ 2 + 10 * n 0 ^ 2 * n 1 * n 2 * n 3 + 2 * n 0 ^ 2 * n 1 * n 3 ^ 2 + 2 * n 0 ^ 2 * n 2 ^ 2 * n 3 + 2 * n 0 ^ 2 * n 2 * n 3 ^ 2 + 4 * n 0 * n 1 ^ 4 + 2 * n 0 * n 1 ^ 2 * n 2 ^ 2 + 10 * n 0 * n 1 ^ 2 * n 2 * n 3 + 2 * n 0 * n 1 ^ 2 * n 3 ^ 2 + 10 * n 0 * n 1 * n 2 ^ 2 * n 3 + 10 * n 0 * n 1 * n 2 * n 3 ^ 2 + 2 * n 1 ^ 2 * n 2 ^ 2 * n 3 + 2 * n 1 ^ 2 * n 2 * n 3 ^ 2 + 4 * n 2 ^ 4 * n 3 + 10 * n 2 ^ 3 * n 3 ^ 2 + 10 * n 2 ^ 2 * n 3 ^ 3 + 4 * n 2 * n 3 ^ 4 + 4 * n 0 ^ 4 + 2 * n 0 ^ 3 * n 1 + 53 * n 0 ^ 2 * n 1 ^ 2 + 4 * n 0 ^ 2 * n 2 ^ 2 + 2 * n 0 ^ 2 * n 2 * n 3 + 4 * n 0 ^ 2 * n 3 ^ 2 + 2 * n 0 * n 1 ^ 3 + 2 * n 0 * n 1 * n 2 ^ 2 + 63 * n 0 * n 1 * n 2 * n 3 + 2 * n 0 * n 1 * n 3 ^ 2 + 4 * n 1 ^ 4 + 4 * n 1 ^ 2 * n 2 ^ 2 + 2 * n 1 ^ 2 * n 2 * n 3 + 4 * n 1 ^ 2 * n 3 ^ 2 + 4 * n 2 ^ 4 + 2 * n 2 ^ 3 * n 3 + 53 * n 2 ^ 2 * n 3 ^ 2 + 2 * n 2 * n 3 ^ 3 + 4 * n 3 ^ 4 + 6 * n 0 ^ 2 * n 1 + 6 * n 0 * n 1 ^ 2 + 6 * n 2 ^ 2 * n 3 + 6 * n 2 * n 3 ^ 2 + 9 * n 0 ^ 2 + 22 * n 0 * n 1 + 9 * n 1 ^ 2 + 9 * n 2 ^ 2 + 22 * n 2 * n 3 + 9 * n 3 ^ 2 + 12)
    (fun n => 5 * n 0 ^ 4 + 40 * n 0 ^ 2 * n 1 ^ 2 + 5 * n 0 ^ 2 * n 2 ^ 2 + 5 * n 0 ^ 2 * n 3 ^ 2 + 51 * n 0 * n 1 * n 2 * n 3 + 5 * n 1 ^ 4 + 5 * n 1 ^ 2 * n 2 ^ 2 + 5 * n 1 ^ 2 * n 3 ^ 2 + 5 * n 2 ^ 4 + 40 * n 2 ^ 2 * n 3 ^ 2 + 5 * n 3 ^ 4 + 10 * n 0 ^ 2 + 24 * n 0 * n 1 + 10 * n 1 ^ 2 + 10 * n 2 ^ 2 + 24 * n 2 * n 3 + 10 * n 3 ^ 2 + 12) 6 4 :=
  costs (p := [([2, 2, 3, 3], 53), ([0, 1, 2, 3], 63), ([0, 0, 1, 1], 53), ([0, 1, 2, 3, 3], 10), ([0, 1, 1, 2, 3], 10), ([0, 0, 1, 2, 3], 10), ([0, 1, 2, 2, 3], 10), ([2, 2, 3, 3, 3], 10), ([2, 2, 2, 3, 3], 10), ([0, 0, 1, 1, 1], 10), ([0, 0, 0, 1, 1], 10), ([2, 2], 9), ([2, 2, 3], 6), ([0, 0], 9), ([0, 0, 1], 6), ([3, 3], 9), ([2, 3, 3], 6), ([1, 1], 9), ([0, 1, 1], 6), ([0, 1, 2, 2, 3, 3], 15), ([0, 0, 1, 1, 2, 3], 15), ([0, 0, 1, 2, 3, 3], 7), ([0, 1, 1, 2, 2, 3], 7), ([2, 2, 2, 3, 3, 3], 7), ([0, 0, 0, 1, 1, 1], 7), ([1, 1, 2, 2], 4), ([0, 1, 1, 2, 2], 2), ([1, 1, 2, 2, 3], 2), ([0, 0, 3, 3], 4), ([0, 0, 2, 3, 3], 2), ([0, 0, 1, 3, 3], 2), ([0, 1, 1, 2, 3, 3], 4), ([2, 2, 3, 3, 3, 3], 4), ([], 12), ([0, 0, 1, 1, 1, 1], 4), ([1, 1, 3, 3], 4), ([0, 1, 1, 3, 3], 2), ([1, 1, 2, 3, 3], 2), ([3, 3, 3, 3], 4), ([2, 3, 3, 3, 3], 4), ([1, 1, 1, 1], 4), ([0, 1, 1, 1, 1], 4), ([0, 0, 1, 2, 2, 3], 4), ([2, 2, 2, 2, 3, 3], 4), ([0, 0, 0, 0, 1, 1], 4), ([0, 0, 2, 2], 4), ([0, 0, 1, 2, 2], 2), ([0, 0, 2, 2, 3], 2), ([2, 2, 2, 2], 4), ([2, 2, 2, 2, 3], 4), ([0, 0, 0, 0], 4), ([0, 0, 0, 0, 1], 4), ([2, 3], 22), ([0, 1], 22), ([0, 1, 2, 2], 2), ([2, 2, 2, 3], 2), ([0, 0, 2, 3], 2), ([0, 0, 0, 1], 2), ([0, 1, 3, 3], 2), ([2, 3, 3, 3], 2), ([1, 1, 2, 3], 2), ([0, 1, 1, 1], 2)]) (q := [([2, 2, 3, 3], 40), ([0, 1, 2, 3], 51), ([0, 0, 1, 1], 40), ([2, 2], 10), ([0, 0], 10), ([3, 3], 10), ([1, 1], 10), ([1, 1, 2, 2], 5), ([0, 0, 3, 3], 5), ([], 12), ([1, 1, 3, 3], 5), ([3, 3, 3, 3], 5), ([1, 1, 1, 1], 5), ([0, 0, 2, 2], 5), ([2, 2, 2, 2], 5), ([0, 0, 0, 0], 5), ([2, 3], 24), ([0, 1], 24)]) (by krfl)
    (fun n => by poly_at) (fun n => by poly_at)

theorem C89_uccsd_lambda_opt : Costs uccsd_lambda_opt
    [[0, 0], [0, 1], [1, 1], [2, 2], [2, 3], [3, 3], [0, 0, 0, 0], [0, 0, 0, 1], [0, 0, 1, 1], [1, 0, 0, 0], [1, 0, 1, 0], [1, 0, 1, 1], [1, 1, 1, 0], [1, 1, 1, 1], [2, 2, 2, 2], [2, 2, 2, 3], [2, 2, 3, 3], [3, 2, 2, 2], [3, 2, 3, 2], [3, 2, 3, 3], [3, 3, 3, 2], [3, 3, 3, 3], [0, 2, 0, 2], [0, 2, 0, 3], [0, 2, 1, 2], [0, 2, 1, 3], [0, 3, 0, 2], [0, 3, 0, 3], [0, 3, 1, 2], [0, 3, 1, 3], [1, 2, 0, 2], [1, 2, 0, 3], [1, 2, 1, 2], [1, 2, 1, 3], [1, 3, 0, 3], [1, 3, 1, 2], [1, 3, 1, 3], [0, 1], [2, 3], [0, 0, 1, 1], [0, 2, 1, 3], [2, 2, 3, 3], [1, 0], [3, 2], [1, 1, 0, 0], [1, 3, 0, 2], [3, 3, 2, 2]]
    (fun n => 8 * n 0 ^ 4 * n 1 ^ 2 + 16 * n 0 ^ 3 * n 1 ^ 3 + 8 * n 0 ^ 3 * n 1 * n 2 * n 3 + 8 * n 0 ^ 2 * n 1 ^ 4 + 4 * n 0 ^ 2 * n 1 ^ 2 * n 2 ^ 2 + 24 * n 0 ^ 2 * n 1 ^ 2 * n 2 * n 3 + 4 * n 0 ^ 2 * n 1 ^ 2 * n 3 ^ 2 + 20 * n 0 ^ 2 * n 1 * n 2 ^ 2 * n 3 + 38 * n 0 ^ 2 * n 1 * n 2 * n 3 ^ 2 + 4 * n 0 ^ 2 * n 2 ^ 2 * n 3 ^ 2 + 8 * n 0 * n 1 ^ 3 * n 2 * n 3 + 38 * n 0 * n 1 ^ 2 * n 2 ^ 2 * n 3 + 20 * n 0 * n 1 ^ 2 * n 2 * n 3 ^ 2 + 8 * n 0 * n 1 * n 2 ^ 3 * n 3 + 24 * n 0 * n 1 * n 2 ^ 2 * n 3 ^ 2 + 8 * n 0 * n 1 * n 2 * n 3 ^ 3 + 4 * n 1 ^ 2 * n 2 ^ 2 * n 3 ^ 2 + 8 * n 2 ^ 4 * n 3 ^ 2 + 16 * n 2 ^ 3 * n 3 ^ 3 + 8 * n 2 ^ 2 * n 3 ^ 4 + 4 * n 0 ^ 4 * n 1 + 24 * n 0 ^ 3 * n 1 ^ 2 + 28 * n 0 ^ 2 * n 1 ^ 3 + 6 * n 0 ^ 2 * n 1 * n 2 ^ 2 + 36 * n 0 ^ 2 * n 1 * n 2 * n 3 + 8 * n 0 ^ 2 * n 1 * n 3 ^ 2 + 6 * n 0 ^ 2 * n 2 ^ 2 * n 3 + 6 * n 0 ^ 2 * n 2 * n 3 ^ 2 + 4 * n 0 * n 1 ^ 4 + 6 * n 0 * n 1 ^ 2 * n 2 ^ 2 + 40 * n 0 * n 1 ^ 2 * n 2 * n 3 + 6 * n 0 * n 1 ^ 2 * n 3 ^ 2 + 36 * n 0 * n 1 * n 2 ^ 2 * n 3 + 40 * n 0 * n 1 * n 2 * n 3 ^ 2 + 8 * n 1 ^ 2 * n 2 ^ 2 * n 3 + 6 * n 1 ^ 2 * n 2 * n 3 ^ 2 + 4 * n 2 ^ 4 * n 3 + 24 * n 2 ^ 3 * n 3 ^ 2 + 28 * n 2 ^ 2 * n 3 ^ 3 + 4 * n 2 * n 3 ^ 4 + 4 * n 0 ^ 4 + 24 * n 0 ^ 3 * n 1 + 62 * n 0 ^ 2 * n 1 ^ 2 + 13 * n 0 ^ 2 * n 2 ^ 2 + 49 * n 0 ^ 2 * n 2 * n 3 + 5 * n 0 ^ 2 * n 3 ^ 2 + 24 * n 0 * n 1 ^ 3 + 49 * n 0 * n 1 * n 2 ^ 2 + 87 * n 0 * n 1 * n 2 * n 3 + 48 * n 0 * n 1 * n 3 ^ 2 + 4 * n 1 ^ 4 + 5 * n 1 ^ 2 * n 2 ^ 2 + 48 * n 1 ^ 2 * n 2 * n 3 + 13 * n 1 ^ 2 * n 3 ^ 2 + 4 * n 2 ^ 4 + 24 * n 2 ^ 3 * n 3 + 62 * n 2 ^ 2 * n 3 ^ 2 + 24 * n 2 * n 3 ^ 3 + 4 * n 3 ^ 4 + 4 * n 0 ^ 2 * n 1 + 4 * n 0 * n 1 ^ 2 + 4 * n 2 ^ 2 * n 3 + 4 * n 2 * n 3 ^ 2 + 9 * n 0 ^ 2 + 46 * n 0 * n 1 + 9 * n 1 ^ 2 + 9 * n 2 ^ 2 + 46 * n 2 * n 3 + 9 * n 3 ^ 2 + 21)
    (fun n => 6 * n 0 ^ 4 + 19 * n 0 ^ 3 * n 1 + 47 * n 0 ^ 2 * n 1 ^ 2 + 15 * n 0 ^ 2 * n 2 ^ 2 + 45 * n 0 ^ 2 * n 2 * n 3 + 8 * n 0 ^ 2 * n 3 ^ 2 + 19 * n 0 * n 1 ^ 3 + 45 * n 0 * n 1 * n 2 ^ 2 + 75 * n 0 * n 1 * n 2 * n 3 + 44 * n 0 * n 1 * n 3 ^ 2 + 6 * n 1 ^ 4 + 8 * n 1 ^ 2 * n 2 ^ 2 + 44 * n 1 ^ 2 * n 2 * n 3 + 13 * n 1 ^ 2 * n 3 ^ 2 + 6 * n 2 ^ 4 + 19 * n 2 ^ 3 * n 3 + 47 * n 2 ^ 2 * n 3 ^ 2 + 19 * n 2 * n 3 ^ 3 + 6 * n 3 ^ 4 + 16 * n 0 ^ 2 + 48 * n 0 * n 1 + 13 * n 1 ^ 2 + 16 * n 2 ^ 2 + 48 * n 2 * n 3 + 13 * n 3 ^ 2 + 21) 6 4 :=
  costs (p := [([2, 2, 3, 3], 62), ([0, 1, 2, 3], 87), ([0, 0, 1, 1], 62), ([0, 1, 2, 2, 3], 36), ([0, 0, 1, 2, 3], 36), ([2, 2, 2, 3, 3], 24), ([0, 0, 0, 1, 1], 24), ([0, 1, 2, 3, 3], 40), ([2, 2, 3, 3, 3], 28), ([0, 1, 1, 2, 3], 40), ([0, 0, 1, 1, 1], 28), ([2, 3], 46), ([2, 2, 2, 3], 24), ([], 21), ([0, 1], 46), ([0, 1, 2, 2], 49), ([2, 2], 9), ([0, 0, 2, 3], 49), ([0, 0, 0, 1], 24), ([0, 0], 9), ([2, 3, 3, 3], 24), ([0, 1, 3, 3], 48), ([3, 3], 9), ([1, 1, 2, 3], 48), ([0, 1, 1, 1], 24), ([1, 1], 9), ([0, 0, 1, 2, 3, 3], 38), ([0, 1, 1, 2, 2, 3], 38), ([0, 1, 2, 2, 3, 3], 24), ([0, 0, 1, 1, 2, 3], 24), ([2, 2, 2, 3, 3, 3], 16), ([0, 0, 0, 1, 1, 1], 16), ([0, 0, 1, 2, 2, 3], 20), ([0, 0, 2, 2], 13), ([0, 0, 2, 2, 3], 6), ([0, 0, 1, 2, 2], 6), ([2, 2, 2, 2, 3, 3], 8), ([2, 2, 2, 2], 4), ([2, 2, 2, 2, 3], 4), ([0, 0, 0, 0, 1, 1], 8), ([0, 0, 0, 0], 4), ([0, 0, 0, 0, 1], 4), ([0, 1, 1, 2, 3, 3], 20), ([1, 1, 3, 3], 13), ([1, 1, 2, 3, 3], 6), ([0, 1, 1, 3, 3], 6), ([2, 2, 3, 3, 3, 3], 8), ([3, 3, 3, 3], 4), ([2, 3, 3, 3, 3], 4), ([0, 0, 1, 1, 1, 1], 8), ([1, 1, 1, 1], 4), ([0, 1, 1, 1, 1], 4), ([0, 0, 3, 3], 5), ([0, 0, 1, 3, 3], 8), ([1, 1, 2, 2], 5), ([1, 1, 2, 2, 3], 8), ([1, 1, 2, 2, 3, 3], 4), ([0, 1, 1, 1, 2, 3], 8), ([0, 1, 2, 3, 3, 3], 8), ([0, 0, 1, 1, 3, 3], 4), ([0, 1, 1, 2, 2], 6), ([0, 0, 2, 3, 3], 6), ([0, 1, 2, 2, 2, 3], 8), ([0, 0, 1, 1, 2, 2], 4), ([0, 0, 2, 2, 3, 3], 4), ([0, 0, 0, 1, 2, 3], 8), ([2, 3, 3], 4), ([0, 1, 1], 4), ([2, 2, 3], 4), ([0, 0, 1], 4)]) (q := [([2, 2, 3, 3], 47), ([0, 1, 2, 3], 75), ([0, 0, 1, 1], 47), ([2, 3], 48), ([], 21), ([0, 1], 48), ([2, 2], 16), ([0, 0], 16), ([3, 3], 13), ([1, 1], 13), ([0, 0, 3, 3], 8), ([1, 1, 2, 2], 8), ([0, 0, 2, 2], 15), ([2, 2, 2, 2], 6), ([0, 0, 0, 0], 6), ([1, 1, 3, 3], 13), ([3, 3, 3, 3], 6), ([1, 1, 1, 1], 6), ([0, 1, 2, 2], 45), ([0, 0, 2, 3], 45), ([2, 2, 2, 3], 19), ([0, 0, 0, 1], 19), ([0, 1, 3, 3], 44), ([1, 1, 2, 3], 44), ([2, 3, 3, 3], 19), ([0, 1, 1, 1], 19)]) (by krfl)
    (fun n => by poly_at) (fun n => by poly_at)

theorem C89_uccsd_1rdm_ba : Costs uccsd_1rdm_ba
    [[1, 0], [3, 2], [1, 1, 0, 0], [1, 3, 0, 2], [3, 3, 2, 2], [0, 1], [2, 3], [0, 0, 1, 1], [0, 2, 1, 3], [2, 2, 3, 3]]
    (fun n => 2 * n 0 ^ 2 * n 1 ^ 3 + 2 * n 0 * n 1 ^ 2 * n 2 * n 3 + 2 * n 0 * n 1 * n 2 * n 3 ^ 2 + 2 * n 2 ^ 2 * n 3 ^ 3 + 2 * n 0 * n 1 ^ 2 + 2 * n 2 * n 3 ^ 2 + 3 * n 1 ^ 2 + 3 * n 3 ^ 2)
    (fun n => 4 * n 1 ^ 2 + 4 * n 3 ^ 2) 5 2 :=
  costs (p := [([3, 3], 3), ([0, 1, 2, 3, 3], 2), ([2, 2, 3, 3, 3], 2), ([2, 3, 3], 2), ([1, 1], 3), ([0, 1, 1, 2, 3], 2), ([0, 0, 1, 1, 1], 2), ([0, 1, 1], 2)]) (q := [([3, 3], 4), ([1, 1], 4)]) (by krfl)
    (fun n => by poly_at) (fun n => by poly_at)

theorem C89_uccsd_1rdm_ji : Costs uccsd_1rdm_ji
    [[1, 0], [3, 2], [1, 1, 0, 0], [1, 3, 0, 2], [3, 3, 2, 2], [0, 1], [2, 3], [0, 0, 1, 1], [0, 2, 1, 3], [2, 2, 3, 3]]
    (fun n => 2 * n 0 ^ 3 * n 1 ^ 2 + 2 * n 0 ^ 2 * n 1 * n 2 * n 3 + 2 * n 0 * n 1 * n 2 ^ 2 * n 3 + 2 * n 2 ^ 3 * n 3 ^ 2 + 2 * n 0 ^ 2 * n 1 + 2 * n 2 ^ 2 * n 3 + 4 * n 0 ^ 2 + 4 * n 2 ^ 2)
    (fun n => 5 * n 0 ^ 2 + 5 * n 2 ^ 2) 5 2 :=
  costs (p := [([2, 2], 4), ([0, 1, 2, 2, 3], 2), ([2, 2, 2, 3, 3], 2), ([2, 2, 3], 2), ([0, 0], 4), ([0, 0, 1, 2, 3], 2), ([0, 0, 0, 1, 1], 2), ([0, 0, 1], 2)]) (q := [([2, 2], 5), ([0, 0], 5)]) (by krfl)
    (fun n => by poly_at) (fun n => by poly_at)

theorem C89_uccsd_1rdm_ai : Costs uccsd_1rdm_ai
    [[1, 0], [3, 2], [1, 1, 0, 0], [1, 3, 0, 2], [3, 3, 2, 2], [0, 1], [2, 3], [0, 0, 1, 1], [0, 2, 1, 3], [2, 2, 3, 3], []]
    (fun n => 2 * n 0 ^ 3 * n 1 ^ 2 + 2 * n 0 ^ 2 * n 1 ^ 3 + 2 * n 0 ^ 2 * n 1 * n 2 * n 3 + 2 * n 0 * n 1 ^ 2 * n 2 * n 3 + 2 * n 0 * n 1 * n 2 ^ 2 * n 3 + 2 * n 0 * n 1 * n 2 * n 3 ^ 2 + 2 * n 2 ^ 3 * n 3 ^ 2 + 2 * n 2 ^ 2 * n 3 ^ 3 + 5 * n 0 ^ 2 * n 1 ^ 2 + 4 * n 0 * n 1 * n 2 * n 3 + 5 * n 2 ^ 2 * n 3 ^ 2 + 2 * n 0 ^ 2 * n 1 + 2 * n 0 * n 1 ^ 2 + 2 * n 2 ^ 2 * n 3 + 2 * n 2 * n 3 ^ 2 + 2 * n 0 ^ 2 + 5 * n 0 * n 1 + 2 * n 1 ^ 2 + 2 * n 2 ^ 2 + 5 * n 2 * n 3 + 2 * n 3 ^ 2)
    (fun n => 2 * n 0 ^ 2 * n 1 ^ 2 + 2 * n 2 ^ 2 * n 3 ^ 2 + 3 * n 0 ^ 2 + 5 * n 0 * n 1 + 3 * n 1 ^ 2 + 3 * n 2 ^ 2 + 5 * n 2 * n 3 + 3 * n 3 ^ 2) 5 4 :=
  costs (p := [([2, 3], 5), ([2, 2, 3], 2), ([2, 2], 2), ([0, 1, 2, 2, 3], 2), ([2, 2, 2, 3, 3], 2), ([2, 3, 3], 2), ([3, 3], 2), ([0, 1, 2, 3, 3], 2), ([2, 2, 3, 3, 3], 2), ([0, 1, 2, 3], 4), ([2, 2, 3, 3], 5), ([0, 1], 5), ([0, 0, 1], 2), ([0, 0], 2), ([0, 0, 1, 2, 3], 2), ([0, 0, 0, 1, 1], 2), ([0, 1, 1], 2), ([1, 1], 2), ([0, 1, 1, 2, 3], 2), ([0, 0, 1, 1, 1], 2), ([0, 0, 1, 1], 5)]) (q := [([2, 3], 5), ([2, 2], 3), ([3, 3], 3), ([0, 1], 5), ([0, 0], 3), ([1, 1], 3), ([2, 2, 3, 3], 2), ([0, 0, 1, 1], 2)]) (by krfl)
    (fun n => by poly_at) (fun n => by poly_at)

theorem C89_uccsd_2rdm_ciab : Costs uccsd_2rdm_ciab
    [[1, 0], [3, 2], [0, 0, 1, 1], [0, 2, 1, 3], [2, 2, 3, 3]]
    (fun n => 2 * n 0 ^ 2 * n 1 ^ 3 + 2 * n 0 * n 1 ^ 2 * n 2 * n 3 + 2 * n 0 * n 1 * n 2 * n 3 ^ 2 + 2 * n 2 ^ 2 * n 3 ^ 3)
    (fun n => n 0 * n 1 ^ 3 + n 0 * n 1 * n 3 ^ 2 + n 1 ^ 2 * n 2 * n 3 + n 2 * n 3 ^ 3) 5 4 :=
  costs (p := [([0, 1, 2, 3, 3], 2), ([0, 1, 1, 2, 3], 2), ([2, 2, 3, 3, 3], 2), ([0, 0, 1, 1, 1], 2)]) (q := [([0, 1, 3, 3], 1), ([1, 1, 2, 3], 1), ([2, 3, 3, 3], 1), ([0, 1, 1, 1], 1)]) (by krfl)
    (fun n => by poly_at) (fun n => by poly_at)

theorem C89_uccsd_2rdm_jkai : Costs uccsd_2rdm_jkai
    [[1, 0], [3, 2], [0, 0, 1, 1], [0, 2, 1, 3], [2, 2, 3, 3]]
    (fun n => 2 * n 0 ^ 3 * n 1 ^ 2 + 2 * n 0 ^ 2 * n 1 * n 2 * n 3 + 2 * n 0 * n 1 * n 2 ^ 2 * n 3 + 2 * n 2 ^ 3 * n 3 ^ 2 + n 0 ^ 3 * n 1 + n 0 ^ 2 * n 2 * n 3 + n 0 * n 1 * n 2 ^ 2 + n 2 ^ 3 * n 3)
    (fun n => 2 * n 0 ^ 3 * n 1 + 2 * n 0 ^ 2 * n 2 * n 3 + 2 * n 0 * n 1 * n 2 ^ 2 + 2 * n 2 ^ 3 * n 3) 5 4 :=
  costs (p := [([2, 2, 2, 3], 1), ([2, 2, 2, 3, 3], 2), ([0, 0, 2, 3], 1), ([0, 0, 1, 2, 3], 2), ([0, 1, 2, 2], 1), ([0, 1, 2, 2, 3], 2), ([0, 0, 0, 1], 1), ([0, 0, 0, 1, 1], 2)]) (q := [([2, 2, 2, 3], 2), ([0, 0, 2, 3], 2), ([0, 1, 2, 2], 2), ([0, 0, 0, 1], 2)]) (by krfl)
    (fun n => by poly_at) (fun n => by poly_at)

theorem C89_uccsd_2rdm_cdab : Costs uccsd_2rdm_cdab
    [[1, 0], [3, 2], [1, 1, 0, 0], [1, 3, 0, 2], [3, 3, 2, 2], [0, 0, 1, 1], [0, 2, 1, 3], [2, 2, 3, 3]]
    (fun n => 2 * n 0 ^ 2 * n 1 ^ 4 + 2 * n 0 * n 1 ^ 2 * n 2 * n 3 ^ 2 + 2 * n 2 ^ 2 * n 3 ^ 4 + 6 * n 0 ^ 2 * n 1 ^ 2 + 3 * n 0 * n 1 * n 2 * n 3 + n 1 ^ 4 + 6 * n 2 ^ 2 * n 3 ^ 2 + n 3 ^ 4)
    (fun n => 3 * n 0 ^ 2 * n 1 ^ 2 + 2 * n 0 * n 1 * n 2 * n 3 + 2 * n 1 ^ 4 + n 1 ^ 2 * n 3 ^ 2 + 3 * n 2 ^ 2 * n 3 ^ 2 + 2 * n 3 ^ 4) 6 4 :=
  costs (p := [([0, 1, 1, 2, 3, 3], 2), ([3, 3, 3, 3], 1), ([2, 2, 3, 3, 3, 3], 2), ([1, 1, 1, 1], 1), ([0, 0, 1, 1, 1, 1], 2), ([2, 2, 3, 3], 6), ([0, 0, 1, 1], 6), ([0, 1, 2, 3], 3)]) (q := [([1, 1, 3, 3], 1), ([3, 3, 3, 3], 2), ([1, 1, 1, 1], 2), ([2, 2, 3, 3], 3), ([0, 0, 1, 1], 3), ([0, 1, 2, 3], 2)]) (by krfl)
    (fun n => by poly_at) (fun n => by poly_at)

theorem C89_uccsd_2rdm_bjai : Costs uccsd_2rdm_bjai
    [[1, 0], [3, 2], [1, 1, 0, 0], [1, 3, 0, 2], [3, 3, 2, 2], [0, 1], [2, 3], [0, 0, 1, 1], [0, 2, 1, 3], [2, 2, 3, 3]]
    (fun n => 2 * n 0 ^ 3 * n 1 ^ 3 + 6 * n 0 ^ 2 * n 1 ^ 2 * n 2 * n 3 + 2 * n 0 ^ 2 * n 1 * n 2 * n 3 ^ 2 + 2 * n 0 * n 1 ^ 2 * n 2 ^ 2 * n 3 + 6 * n 0 * n 1 * n 2 ^ 2 * n 3 ^ 2 + 2 * n 2 ^ 3 * n 3 ^ 3 + 8 * n 0 ^ 2 * n 1 ^ 2 + n 0 ^ 2 * n 3 ^ 2 + 13 * n 0 * n 1 * n 2 * n 3 + n 1 ^ 2 * n 2 ^ 2 + 8 * n 2 ^ 2 * n 3 ^ 2)
    (fun n => 6 * n 0 ^ 2 * n 1 ^ 2 + 2 * n 0 ^ 2 * n 3 ^ 2 + 10 * n 0 * n 1 * n 2 * n 3 + 2 * n 1 ^ 2 * n 2 ^ 2 + 6 * n 2 ^ 2 * n 3 ^ 2) 6 4 :=
  costs (p := [([2, 2, 3, 3], 8), ([0, 1, 2, 2, 3, 3], 6), ([2, 2, 2, 3, 3, 3], 2), ([0, 0, 3, 3], 1), ([0, 0, 1, 2, 3, 3], 2), ([0, 1, 2, 3], 13), ([0, 0, 1, 1, 2, 3], 6), ([1, 1, 2, 2], 1), ([0, 1, 1, 2, 2, 3], 2), ([0, 0, 1, 1], 8), ([0, 0, 0, 1, 1, 1], 2)]) (q := [([2, 2, 3, 3], 6), ([0, 0, 3, 3], 2), ([0, 1, 2, 3], 10), ([1, 1, 2, 2], 2), ([0, 0, 1, 1], 6)]) (by krfl)
    (fun n => by poly_at) (fun n => by poly_at)

theorem C89_uccsd_2rdm_klij : Costs uccsd_2rdm_klij
    [[1, 0], [3, 2], [1, 1, 0, 0], [1, 3, 0, 2], [3, 3, 2, 2], [0, 0, 1, 1], [0, 2, 1, 3], [2, 2, 3, 3]]
    (fun n => 2 * n 0 ^ 4 * n 1 ^ 2 + 2 * n 0 ^ 2 * n 1 * n 2 ^ 2 * n 3 + 2 * n 2 ^ 4 * n 3 ^ 2 + n 0 ^ 4 + 6 * n 0 ^ 2 * n 1 ^ 2 + 3 * n 0 * n 1 * n 2 * n 3 + n 2 ^ 4 + 6 * n 2 ^ 2 * n 3 ^ 2)
    (fun n => 2 * n 0 ^ 4 + 3 * n 0 ^ 2 * n 1 ^ 2 + n 0 ^ 2 * n 2 ^ 2 + 2 * n 0 * n 1 * n 2 * n 3 + 2 * n 2 ^ 4 + 3 * n 2 ^ 2 * n 3 ^ 2) 6 4 :=
  costs (p := [([2, 2, 2, 2], 1), ([2, 2, 2, 2, 3, 3], 2), ([0, 0, 1, 2, 2, 3], 2), ([0, 0, 0, 0], 1), ([0, 0, 0, 0, 1, 1], 2), ([2, 2, 3, 3], 6), ([0, 0, 1, 1], 6), ([0, 1, 2, 3], 3)]) (q := [([2, 2, 2, 2], 2), ([0, 0, 2, 2], 1), ([0, 0, 0, 0], 2), ([2, 2, 3, 3], 3), ([0, 0, 1, 1], 3), ([0, 1, 2, 3], 2)]) (by krfl)
    (fun n => by poly_at) (fun n => by poly_at)

theorem C89_uccsd_2rdm_bcai : Costs uccsd_2rdm_bcai
    [[1, 0], [3, 2], [1, 1, 0, 0], [1, 3, 0, 2], [3, 3, 2, 2], [0, 1], [2, 3], [0, 0, 1, 1], [0, 2, 1, 3], [2, 2, 3, 3]]
    (fun n => 3 * n 0 ^ 3 * n 1 ^ 4 + 3 * n 0 ^ 2 * n 1 ^ 2 * n 2 * n 3 ^ 2 + 3 * n 0 * n 1 ^ 2 * n 2 ^ 2 * n 3 ^ 2 + 3 * n 2 ^ 3 * n 3 ^ 4 + 2 * n 0 ^ 3 * n 1 ^ 3 + 6 * n 0 ^ 2 * n 1 ^ 2 * n 2 * n 3 + 2 * n 0 ^ 2 * n 1 * n 2 * n 3 ^ 2 + 2 * n 0 * n 1 ^ 2 * n 2 ^ 2 * n 3 + 6 * n 0 * n 1 * n 2 ^ 2 * n 3 ^ 2 + 2 * n 2 ^ 3 * n 3 ^ 3 + 8 * n 0 ^ 2 * n 1 ^ 3 + 2 * n 0 ^ 2 * n 1 * n 3 ^ 2 + 6 * n 0 * n 1 ^ 2 * n 2 * n 3 + 6 * n 0 * n 1 * n 2 * n 3 ^ 2 + 2 * n 1 ^ 2 * n 2 ^ 2 * n 3 + 8 * n 2 ^ 2 * n 3 ^ 3 + 7 * n 0 ^ 2 * n 1 ^ 2 + 12 * n 0 * n 1 ^ 3 + 5 * n 0 * n 1 * n 2 * n 3 + 7 * n 0 * n 1 * n 3 ^ 2 + 7 * n 1 ^ 2 * n 2 * n 3 + 7 * n 2 ^ 2 * n 3 ^ 2 + 12 * n 2 * n 3 ^ 3 + 2 * n 1 ^ 2 + 2 * n 3 ^ 2)
    (fun n => 5 * n 0 ^ 2 * n 1 ^ 2 + n 0 ^ 2 * n 3 ^ 2 + 9 * n 0 * n 1 ^ 3 + 6 * n 0 * n 1 * n 2 * n 3 + 6 * n 0 * n 1 * n 3 ^ 2 + n 1 ^ 2 * n 2 ^ 2 + 6 * n 1 ^ 2 * n 2 * n 3 + 5 * n 2 ^ 2 * n 3 ^ 2 + 9 * n 2 * n 3 ^ 3 + 3 * n 1 ^ 2 + 3 * n 3 ^ 2) 7 4 :=
  costs (p := [([2, 3, 3, 3], 12), ([2, 2, 2, 3, 3, 3, 3], 3), ([0, 1, 3, 3], 7), ([0, 0, 1, 1, 2, 3, 3], 3), ([1, 1, 2, 3], 7), ([0, 1, 1, 2, 2, 3, 3], 3), ([0, 1, 1, 1], 12), ([0, 0, 0, 1, 1, 1, 1], 3), ([0, 0, 1, 3, 3], 2), ([0, 1, 2, 3, 3], 6), ([1, 1, 2, 2, 3], 2), ([0, 1, 1, 2, 3], 6), ([2, 2, 3, 3, 3], 8), ([0, 0, 1, 1, 1], 8), ([0, 0, 1, 2, 3, 3], 2), ([0, 1, 2, 3], 5), ([0, 1, 2, 2, 3, 3], 6), ([0, 0, 1, 1, 2, 3], 6), ([0, 1, 1, 2, 2, 3], 2), ([2, 2, 3, 3], 7), ([2, 2, 2, 3, 3, 3], 2), ([0, 0, 1, 1], 7), ([0, 0, 0, 1, 1, 1], 2), ([3, 3], 2), ([1, 1], 2)]) (q := [([2, 3, 3, 3], 9), ([0, 1, 3, 3], 6), ([1, 1, 2, 3], 6), ([0, 1, 1, 1], 9), ([0, 0, 3, 3], 1), ([0, 1, 2, 3], 6), ([1, 1, 2, 2], 1), ([2, 2, 3, 3], 5), ([0, 0, 1, 1], 5), ([3, 3], 3), ([1, 1], 3)]) (by krfl)
    (fun n => by poly_at) (fun n => by poly_at)

theorem C89_uccsd_2rdm_kaij : Costs uccsd_2rdm_kaij
    [[1, 0], [3, 2], [1, 1, 0, 0], [1, 3, 0, 2], [3, 3, 2, 2], [0, 1], [2, 3], [0, 0, 1, 1], [0, 2, 1, 3], [2, 2, 3, 3]]
    (fun n => 3 * n 0 ^ 4 * n 1 ^ 3 + 3 * n 0 ^ 2 * n 1 ^ 2 * n 2 ^ 2 * n 3 + 3 * n 0 ^ 2 * n 1 * n 2 ^ 2 * n 3 ^ 2 + 3 * n 2 ^ 4 * n 3 ^ 3 + 2 * n 0 ^ 4 * n 1 ^ 2 + 4 * n 0 ^ 3 * n 1 * n 2 * n 3 + 2 * n 0 ^ 2 * n 1 ^ 2 * n 2 ^ 2 + 4 * n 0 ^ 2 * n 1 * n 2 ^ 2 * n 3 + 2 * n 0 ^ 2 * n 2 ^ 2 * n 3 ^ 2 + 4 * n 0 * n 1 * n 2 ^ 3 * n 3 + 2 * n 2 ^ 4 * n 3 ^ 2 + 6 * n 0 ^ 3 * n 1 ^ 2 + 8 * n 0 ^ 2 * n 1 * n 2 * n 3 + 8 * n 0 * n 1 * n 2 ^ 2 * n 3 + 6 * n 2 ^ 3 * n 3 ^ 2 + 12 * n 0 ^ 3 * n 1 + 6 * n 0 ^ 2 * n 1 ^ 2 + 11 * n 0 ^ 2 * n 2 * n 3 + 11 * n 0 * n 1 * n 2 ^ 2 + 3 * n 0 * n 1 * n 2 * n 3 + 12 * n 2 ^ 3 * n 3 + 6 * n 2 ^ 2 * n 3 ^ 2 + 2 * n 0 ^ 2 + 2 * n 2 ^ 2 + 4)
    (fun n => 12 * n 0 ^ 3 * n 1 + 3 * n 0 ^ 2 * n 1 ^ 2 + 12 * n 0 ^ 2 * n 2 * n 3 + 12 * n 0 * n 1 * n 2 ^ 2 + 2 * n 0 * n 1 * n 2 * n 3 + 12 * n 2 ^ 3 * n 3 + 3 * n 2 ^ 2 * n 3 ^ 2 + 3 * n 0 ^ 2 + 3 * n 2 ^ 2 + 4) 7 4 :=
  costs (p := [([2, 2, 2, 3], 12), ([2, 2, 2, 2, 3, 3, 3], 3), ([0, 1, 2, 2], 11), ([0, 0, 1, 1, 2, 2, 3], 3), ([0, 0, 2, 3], 11), ([0, 0, 1, 2, 2, 3, 3], 3), ([0, 0, 0, 1], 12), ([0, 0, 0, 0, 1, 1, 1], 3), ([0, 1, 2, 2, 2, 3], 4), ([2, 2, 2, 2, 3, 3], 2), ([0, 0, 1, 2, 2, 3], 4), ([0, 0, 1, 1, 2, 2], 2), ([0, 0, 2, 2, 3, 3], 2), ([0, 0, 0, 1, 2, 3], 4), ([0, 0, 0, 0, 1, 1], 2), ([0, 0, 1, 2, 3], 8), ([0, 1, 2, 2, 3], 8), ([2, 2, 2, 3, 3], 6), ([0, 0, 0, 1, 1], 6), ([], 4), ([2, 2], 2), ([0, 0], 2), ([2, 2, 3, 3], 6), ([0, 0, 1, 1], 6), ([0, 1, 2, 3], 3)]) (q := [([2, 2, 2, 3], 12), ([0, 1, 2, 2], 12), ([0, 0, 2, 3], 12), ([0, 0, 0, 1], 12), ([], 4), ([2, 2], 3), ([0, 0], 3), ([2, 2, 3, 3], 3), ([0, 0, 1, 1], 3), ([0, 1, 2, 3], 2)]) (by krfl)
    (fun n => by poly_at) (fun n => by poly_at)

theorem C89_uccsd_2rdm_abij : Costs uccsd_2rdm_abij
    [[1, 0], [3, 2], [1, 1, 0, 0], [1, 3, 0, 2], [3, 3, 2, 2], [0, 1], [2, 3], [0, 0, 1, 1], [0, 2, 1, 3], [2, 2, 3, 3], []]
    (fun n => 8 * n 0 ^ 4 * n 1 ^ 2 + 9 * n 0 ^ 3 * n 1 ^ 3 + 21 * n 0 ^ 2 * n 1 ^ 2 * n 2 * n 3 + 16 * n 0 ^ 2 * n 1 * n 2 ^ 2 * n 3 + 9 * n 0 ^ 2 * n 1 * n 2 * n 3 ^ 2 + 9 * n 0 * n 1 ^ 2 * n 2 ^ 2 * n 3 + 21 * n 0 * n 1 * n 2 ^ 2 * n 3 ^ 2 + 8 * n 2 ^ 4 * n 3 ^ 2 + 9 * n 2 ^ 3 * n 3 ^ 3 + 4 * n 0 ^ 4 * n 1 + 10 * n 0 ^ 3 * n 1 ^ 2 + 6 * n 0 ^ 2 * n 1 ^ 3 + 4 * n 0 ^ 2 * n 1 * n 2 ^ 2 + 10 * n 0 ^ 2 * n 1 * n 2 * n 3 + 4 * n 0 ^ 2 * n 2 ^ 2 * n 3 + 6 * n 0 * n 1 ^ 2 * n 2 * n 3 + 10 * n 0 * n 1 * n 2 ^ 2 * n 3 + 6 * n 0 * n 1 * n 2 * n 3 ^ 2 + 4 * n 2 ^ 4 * n 3 + 10 * n 2 ^ 3 * n 3 ^ 2 + 6 * n 2 ^ 2 * n 3 ^ 3 + n 0 ^ 4 + 68 * n 0 ^ 2 * n 1 ^ 2 + 4 * n 0 ^ 2 * n 2 ^ 2 + n 0 ^ 2 * n 3 ^ 2 + n 0 * n 1 * n 2 ^ 2 + 64 * n 0 * n 1 * n 2 * n 3 + n 1 ^ 2 * n 2 ^ 2 + n 2 ^ 4 + 68 * n 2 ^ 2 * n 3 ^ 2 + 2 * n 0 ^ 2 * n 1 + 2 * n 0 * n 1 ^ 2 + 2 * n 2 ^ 2 * n 3 + 2 * n 2 * n 3 ^ 2 + 2 * n 0 ^ 2 + n 0 * n 1 + 2 * n 1 ^ 2 + 2 * n 2 ^ 2 + n 2 * n 3 + 2 * n 3 ^ 2 + 6)
    (fun n => 3 * n 0 ^ 4 + 2 * n 0 ^ 3 * n 1 + 49 * n 0 ^ 2 * n 1 ^ 2 + 8 * n 0 ^ 2 * n 2 ^ 2 + 2 * n 0 ^ 2 * n 2 * n 3 + 3 * n 0 ^ 2 * n 3 ^ 2 + 3 * n 0 * n 1 * n 2 ^ 2 + 57 * n 0 * n 1 * n 2 * n 3 + 3 * n 1 ^ 2 * n 2 ^ 2 + 3 * n 2 ^ 4 + 2 * n 2 ^ 3 * n 3 + 49 * n 2 ^ 2 * n 3 ^ 2 + 4 * n 0 ^ 2 + 2 * n 0 * n 1 + 4 * n 1 ^ 2 + 4 * n 2 ^ 2 + 2 * n 2 * n 3 + 4 * n 3 ^ 2 + 6) 6 4 :=
  costs (p := [([0, 1, 2, 3], 64), ([2, 2, 3, 3], 68), ([0, 0, 1, 1], 68), ([0, 1, 2, 2, 3, 3], 21), ([0, 0, 1, 1, 2, 3], 21), ([0, 0, 1, 2, 3, 3], 9), ([0, 1, 1, 2, 2, 3], 9), ([2, 2, 2, 3, 3, 3], 9), ([0, 0, 0, 1, 1, 1], 9), ([0, 0, 3, 3], 1), ([1, 1, 2, 2], 1), ([0, 0, 1, 2, 2, 3], 16), ([2, 2, 2, 2, 3, 3], 8), ([0, 0, 0, 0, 1, 1], 8), ([0, 0, 2, 2], 4), ([0, 0, 1, 2, 2], 4), ([0, 0, 2, 2, 3], 4), ([2, 2, 2, 2], 1), ([2, 2, 2, 2, 3], 4), ([0, 0, 0, 0], 1), ([0, 0, 0, 0, 1], 4), ([0, 1, 2, 2], 1), ([0, 1, 2, 2, 3], 10), ([0, 0, 1, 2, 3], 10), ([2, 2, 2, 3, 3], 10), ([0, 0, 0, 1, 1], 10), ([], 6), ([2, 2], 2), ([0, 0], 2), ([0, 1, 1, 2, 3], 6), ([0, 1, 2, 3, 3], 6), ([2, 2, 3, 3, 3], 6), ([0, 0, 1, 1, 1], 6), ([3, 3], 2), ([1, 1], 2), ([2, 3], 1), ([0, 1], 1), ([2, 3, 3], 2), ([0, 1, 1], 2), ([2, 2, 3], 2), ([0, 0, 1], 2)]) (q := [([2, 2, 3, 3], 49), ([0, 0, 1, 1], 49), ([0, 1, 2, 3], 57), ([0, 0, 3, 3], 3), ([1, 1, 2, 2], 3), ([0, 0, 2, 2], 8), ([2, 2, 2, 2], 3), ([0, 0, 0, 0], 3), ([0, 1, 2, 2], 3), ([0, 0, 2, 3], 2), ([2, 2, 2, 3], 2), ([0, 0, 0, 1], 2), ([], 6), ([2, 2], 4), ([0, 0], 4), ([3, 3], 4), ([1, 1], 4), ([2, 3], 2), ([0, 1], 2)]) (by krfl)
    (fun n => by poly_at) (fun n => by poly_at)

end Heap
