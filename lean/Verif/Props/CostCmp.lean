import Verif.Props.CostG
import Verif.Props.CostR
import Verif.Props.CostU
import Verif.Props.NumEx
import Mathlib.Tactic.Linarith
import Mathlib.Tactic.Positivity
/-!
# C89: comparing the routines
-/

namespace Heap
open Prog CC

section
variable {K : Type} [Field K] {warn : Bool} {re : K → K}

theorem Costs.work {f : Fun} {σs : List (List ℕ)} {P Q : (ℕ → ℕ) → ℕ} {d r : ℕ} (h : Costs f σs P Q d r) {n : ℕ → ℕ} {as rs : List (Arr K)}
    {s : List Ev} (hs : as.map Arr.shape = σs.map (List.map n)) (ht : f.trun (numpy warn re) Arr.shape as = .ok (rs, s)) :
    flops s = P n ∧ allocated s = Q n := by
  have hn : f.nrun (numpy warn re) as = .ok rs := by rw [← trun_val _ Arr.shape, ht]; rfl
  obtain ⟨s', h1, h2, h3, -⟩ := h n K warn re as rs hs hn
  rw [ht] at h1
  cases h1
  exact ⟨h2, h3⟩

/-- `o` occupied and `v` virtual orbitals (of each spin). -/
def ov (o v : ℕ) : ℕ → ℕ := fun k => if k % 2 = 0 then o else v

theorem ov_0 (o v : ℕ) : ov o v 0 = o := rfl
theorem ov_1 (o v : ℕ) : ov o v 1 = v := rfl
theorem ov_2 (o v : ℕ) : ov o v 2 = o := rfl
theorem ov_3 (o v : ℕ) : ov o v 3 = v := rfl

/-- A restricted iteration does less work than an unrestricted one with the same numbers of orbitals of both spins. -/
theorem C89_stanton_restricted {o v : ℕ} {as bs rs qs : List (Arr K)} {s t : List Ev}
    (ha : as.map Arr.shape = [[0, 0], [0, 1], [1, 0], [1, 1], [0, 0, 0, 0], [0, 0, 0, 1], [0, 0, 1, 0], [0, 0, 1, 1], [0, 1, 0, 0], [0, 1, 0, 1], [0, 1, 1, 0], [0, 1, 1, 1], [1, 0, 1, 0], [1, 0, 1, 1], [1, 1, 0, 0], [1, 1, 1, 0], [1, 1, 1, 1], [1, 0], [1, 1, 0, 0]].map (List.map (ov o v)))
    (hb : bs.map Arr.shape = [[0, 0], [0, 1], [1, 0], [1, 1], [2, 2], [2, 3], [3, 2], [3, 3], [0, 0, 0, 0], [0, 0, 0, 1], [0, 0, 1, 1], [1, 0, 0, 0], [1, 0, 1, 0], [1, 0, 1, 1], [1, 1, 0, 0], [1, 1, 1, 0], [1, 1, 1, 1], [2, 2, 2, 2], [2, 2, 2, 3], [2, 2, 3, 3], [3, 2, 2, 2], [3, 2, 3, 2], [3, 2, 3, 3], [3, 3, 2, 2], [3, 3, 3, 2], [3, 3, 3, 3], [0, 2, 0, 2], [0, 2, 0, 3], [0, 2, 1, 2], [0, 2, 1, 3], [0, 3, 0, 2], [0, 3, 0, 3], [0, 3, 1, 2], [0, 3, 1, 3], [1, 2, 0, 2], [1, 2, 0, 3], [1, 2, 1, 2], [1, 2, 1, 3], [1, 3, 0, 2], [1, 3, 0, 3], [1, 3, 1, 2], [1, 3, 1, 3], [1, 0], [3, 2], [1, 1, 0, 0], [1, 3, 0, 2], [3, 3, 2, 2]].map (List.map (ov o v)))
    (hs : rccsd_stanton.trun (numpy warn re) Arr.shape as = .ok (rs, s)) (ht : uccsd_stanton.trun (numpy warn re) Arr.shape bs = .ok (qs, t)) : flops s ≤ flops t := by
  rw [(C89_rccsd_stanton.work ha hs).1, (C89_uccsd_stanton.work hb ht).1]
  refine Nat.le.intro (k := 8 * o ^ 2 * v ^ 4 + 36 * o ^ 3 * v ^ 3 + 8 * o ^ 4 * v ^ 2 + 10 * o * v ^ 4 + 30 * o ^ 2 * v ^ 3 + 30 * o ^ 3 * v ^ 2 + 10 * o ^ 4 * v + 8 * v ^ 4 + 1 * o * v ^ 3 + 106 * o ^ 2 * v ^ 2 + 1 * o ^ 3 * v + 8 * o ^ 4 + 6 * o * v ^ 2 + 6 * o ^ 2 * v + 12 * v ^ 2 + 31 * o * v + 12 * o ^ 2 + 12) ?_
  simp only [ov_0, ov_1, ov_2, ov_3]
  ring

/-- An unrestricted iteration does less work than the same iteration in spin orbitals. -/
theorem C89_stanton_unrestricted {o v : ℕ} (ho : 1 ≤ o) (hv : 1 ≤ v) {as bs rs qs : List (Arr K)} {s t : List Ev}
    (ha : as.map Arr.shape = [[0, 0], [0, 1], [1, 0], [1, 1], [2, 2], [2, 3], [3, 2], [3, 3], [0, 0, 0, 0], [0, 0, 0, 1], [0, 0, 1, 1], [1, 0, 0, 0], [1, 0, 1, 0], [1, 0, 1, 1], [1, 1, 0, 0], [1, 1, 1, 0], [1, 1, 1, 1], [2, 2, 2, 2], [2, 2, 2, 3], [2, 2, 3, 3], [3, 2, 2, 2], [3, 2, 3, 2], [3, 2, 3, 3], [3, 3, 2, 2], [3, 3, 3, 2], [3, 3, 3, 3], [0, 2, 0, 2], [0, 2, 0, 3], [0, 2, 1, 2], [0, 2, 1, 3], [0, 3, 0, 2], [0, 3, 0, 3], [0, 3, 1, 2], [0, 3, 1, 3], [1, 2, 0, 2], [1, 2, 0, 3], [1, 2, 1, 2], [1, 2, 1, 3], [1, 3, 0, 2], [1, 3, 0, 3], [1, 3, 1, 2], [1, 3, 1, 3], [1, 0], [3, 2], [1, 1, 0, 0], [1, 3, 0, 2], [3, 3, 2, 2]].map (List.map (ov o v)))
    (hb : bs.map Arr.shape = [[0, 0], [0, 1], [1, 0], [1, 1], [0, 0, 0, 0], [0, 0, 0, 1], [0, 0, 1, 1], [1, 0, 0, 0], [1, 0, 1, 0], [1, 0, 1, 1], [1, 1, 0, 0], [1, 1, 1, 0], [1, 1, 1, 1], [1, 0], [1, 1, 0, 0]].map (List.map (ov (2 * o) (2 * v))))
    (hs : uccsd_stanton.trun (numpy warn re) Arr.shape as = .ok (rs, s)) (ht : ccsd_stanton.trun (numpy warn re) Arr.shape bs = .ok (qs, t)) : flops s ≤ flops t := by
  rw [(C89_uccsd_stanton.work ha hs).1, (C89_ccsd_stanton.work hb ht).1]
  obtain ⟨a, rfl⟩ := Nat.exists_eq_add_of_le' ho
  obtain ⟨b, rfl⟩ := Nat.exists_eq_add_of_le' hv
  refine Nat.le.intro (k := 244 * a ^ 2 * b ^ 4 + 390 * a ^ 3 * b ^ 3 + 244 * a ^ 4 * b ^ 2 + 604 * a * b ^ 4 + 2422 * a ^ 2 * b ^ 3 + 2422 * a ^ 3 * b ^ 2 + 604 * a ^ 4 * b + 412 * b ^ 4 + 4162 * a * b ^ 3 + 8749 * a ^ 2 * b ^ 2 + 4162 * a ^ 3 * b + 412 * a ^ 4 + 2338 * b ^ 3 + 12012 * a * b ^ 2 + 12012 * a ^ 2 * b + 2338 * a ^ 3 + 5763 * b ^ 2 + 14570 * a * b + 5763 * a ^ 2 + 6344 * b + 6344 * a + 2561) ?_
  simp only [ov_0, ov_1, ov_2, ov_3]
  ring

/-- The same for the equations for the multipliers. -/
theorem C89_lambda_restricted {o v : ℕ} {as bs rs qs : List (Arr K)} {s t : List Ev}
    (ha : as.map Arr.shape = [[0, 0], [0, 1], [1, 1], [0, 0, 0, 0], [0, 0, 0, 1], [0, 0, 1, 0], [0, 0, 1, 1], [0, 1, 0, 0], [0, 1, 0, 1], [0, 1, 1, 0], [0, 1, 1, 1], [1, 0, 0, 0], [1, 0, 0, 1], [1, 0, 1, 0], [1, 0, 1, 1], [1, 1, 0, 1], [1, 1, 1, 0], [1, 1, 1, 1], [0, 1], [0, 0, 1, 1], [1, 0], [1, 1, 0, 0]].map (List.map (ov o v)))
    (hb : bs.map Arr.shape = [[0, 0], [0, 1], [1, 1], [2, 2], [2, 3], [3, 3], [0, 0, 0, 0], [0, 0, 0, 1], [0, 0, 1, 1], [1, 0, 0, 0], [1, 0, 1, 0], [1, 0, 1, 1], [1, 1, 1, 0], [1, 1, 1, 1], [2, 2, 2, 2], [2, 2, 2, 3], [2, 2, 3, 3], [3, 2, 2, 2], [3, 2, 3, 2], [3, 2, 3, 3], [3, 3, 3, 2], [3, 3, 3, 3], [0, 2, 0, 2], [0, 2, 0, 3], [0, 2, 1, 2], [0, 2, 1, 3], [0, 3, 0, 2], [0, 3, 0, 3], [0, 3, 1, 2], [0, 3, 1, 3], [1, 2, 0, 2], [1, 2, 0, 3], [1, 2, 1, 2], [1, 2, 1, 3], [1, 3, 0, 3], [1, 3, 1, 2], [1, 3, 1, 3], [0, 1], [2, 3], [0, 0, 1, 1], [0, 2, 1, 3], [2, 2, 3, 3], [1, 0], [3, 2], [1, 1, 0, 0], [1, 3, 0, 2], [3, 3, 2, 2]].map (List.map (ov o v)))
    (hs : rccsd_lambda_opt.trun (numpy warn re) Arr.shape as = .ok (rs, s)) (ht : uccsd_lambda_opt.trun (numpy warn re) Arr.shape bs = .ok (qs, t)) : flops s ≤ flops t := by
  rw [(C89_rccsd_lambda_opt.work ha hs).1, (C89_uccsd_lambda_opt.work hb ht).1]
  refine Nat.le.intro (k := 28 * o ^ 2 * v ^ 4 + 86 * o ^ 3 * v ^ 3 + 28 * o ^ 4 * v ^ 2 + 10 * o * v ^ 4 + 84 * o ^ 2 * v ^ 3 + 72 * o ^ 3 * v ^ 2 + 10 * o ^ 4 * v + 7 * v ^ 4 + 67 * o * v ^ 3 + 120 * o ^ 2 * v ^ 2 + 68 * o ^ 3 * v + 7 * o ^ 4 + 4 * o * v ^ 2 + 4 * o ^ 2 * v + 10 * v ^ 2 + 49 * o * v + 10 * o ^ 2 + 10) ?_
  simp only [ov_0, ov_1, ov_2, ov_3]
  ring

/-- The same for the equations for the multipliers. -/
theorem C89_lambda_unrestricted {o v : ℕ} (ho : 1 ≤ o) (hv : 1 ≤ v) {as bs rs qs : List (Arr K)} {s t : List Ev}
    (ha : as.map Arr.shape = [[0, 0], [0, 1], [1, 1], [2, 2], [2, 3], [3, 3], [0, 0, 0, 0], [0, 0, 0, 1], [0, 0, 1, 1], [1, 0, 0, 0], [1, 0, 1, 0], [1, 0, 1, 1], [1, 1, 1, 0], [1, 1, 1, 1], [2, 2, 2, 2], [2, 2, 2, 3], [2, 2, 3, 3], [3, 2, 2, 2], [3, 2, 3, 2], [3, 2, 3, 3], [3, 3, 3, 2], [3, 3, 3, 3], [0, 2, 0, 2], [0, 2, 0, 3], [0, 2, 1, 2], [0, 2, 1, 3], [0, 3, 0, 2], [0, 3, 0, 3], [0, 3, 1, 2], [0, 3, 1, 3], [1, 2, 0, 2], [1, 2, 0, 3], [1, 2, 1, 2], [1, 2, 1, 3], [1, 3, 0, 3], [1, 3, 1, 2], [1, 3, 1, 3], [0, 1], [2, 3], [0, 0, 1, 1], [0, 2, 1, 3], [2, 2, 3, 3], [1, 0], [3, 2], [1, 1, 0, 0], [1, 3, 0, 2], [3, 3, 2, 2]].map (List.map (ov o v)))
    (hb : bs.map Arr.shape = [[0, 0], [0, 1], [1, 1], [0, 0, 0, 0], [0, 0, 0, 1], [0, 0, 1, 1], [1, 0, 0, 0], [1, 0, 1, 0], [1, 0, 1, 1], [1, 1, 1, 0], [1, 1, 1, 1], [0, 1], [0, 0, 1, 1], [1, 0], [1, 1, 0, 0]].map (List.map (ov (2 * o) (2 * v))))
    (hs : uccsd_lambda_opt.trun (numpy warn re) Arr.shape as = .ok (rs, s)) (ht : ccsd_lambda_opt.trun (numpy warn re) Arr.shape bs = .ok (qs, t)) : flops s ≤ flops t := by
  rw [(C89_uccsd_lambda_opt.work ha hs).1, (C89_ccsd_lambda_opt.work hb ht).1]
  obtain ⟨a, rfl⟩ := Nat.exists_eq_add_of_le' ho
  obtain ⟨b, rfl⟩ := Nat.exists_eq_add_of_le' hv
  refine Nat.le.intro (k := 452 * a ^ 2 * b ^ 4 + 868 * a ^ 3 * b ^ 3 + 452 * a ^ 4 * b ^ 2 + 1012 * a * b ^ 4 + 5156 * a ^ 2 * b ^ 3 + 5048 * a ^ 3 * b ^ 2 + 1012 * a ^ 4 * b + 603 * b ^ 4 + 8348 * a * b ^ 3 + 18099 * a ^ 2 * b ^ 2 + 8130 * a ^ 3 * b + 603 * a ^ 4 + 4232 * b ^ 3 + 24158 * a * b ^ 2 + 23828 * a ^ 2 * b + 4122 * a ^ 3 + 10907 * b ^ 2 + 28418 * a * b + 10685 * a ^ 2 + 11868 * b + 11756 * a + 4612) ?_
  simp only [ov_0, ov_1, ov_2, ov_3]
  ring

/-- The iteration with intermediates does less work than the one without. -/
theorem C89_stanton_simple {o v : ℕ} (ho : 1 ≤ o) (hv : 1 ≤ v) {as bs rs qs : List (Arr K)} {s t : List Ev}
    (ha : as.map Arr.shape = [[0, 0], [0, 1], [1, 0], [1, 1], [0, 0, 0, 0], [0, 0, 0, 1], [0, 0, 1, 1], [1, 0, 0, 0], [1, 0, 1, 0], [1, 0, 1, 1], [1, 1, 0, 0], [1, 1, 1, 0], [1, 1, 1, 1], [1, 0], [1, 1, 0, 0]].map (List.map (ov o v)))
    (hb : bs.map Arr.shape = [[0, 0], [0, 1], [1, 0], [1, 1], [0, 0, 0, 0], [0, 0, 0, 1], [0, 0, 1, 1], [1, 0, 0, 0], [1, 0, 1, 0], [1, 0, 1, 1], [1, 1, 0, 0], [1, 1, 1, 0], [1, 1, 1, 1], [1, 0], [1, 1, 0, 0]].map (List.map (ov o v)))
    (hs : ccsd_stanton.trun (numpy warn re) Arr.shape as = .ok (rs, s)) (ht : ccsd_simple.trun (numpy warn re) Arr.shape bs = .ok (qs, t)) : flops s ≤ flops t := by
  rw [(C89_ccsd_stanton.work ha hs).1, (C89_ccsd_simple.work hb ht).1]
  obtain ⟨a, rfl⟩ := Nat.exists_eq_add_of_le' ho
  obtain ⟨b, rfl⟩ := Nat.exists_eq_add_of_le' hv
  refine Nat.le.intro (k := 74 * a ^ 4 * b ^ 4 + 328 * a ^ 3 * b ^ 4 + 328 * a ^ 4 * b ^ 3 + 544 * a ^ 2 * b ^ 4 + 1478 * a ^ 3 * b ^ 3 + 544 * a ^ 4 * b ^ 2 + 396 * a * b ^ 4 + 2485 * a ^ 2 * b ^ 3 + 2485 * a ^ 3 * b ^ 2 + 396 * a ^ 4 * b + 102 * b ^ 4 + 1830 * a * b ^ 3 + 4311 * a ^ 2 * b ^ 2 + 1830 * a ^ 3 * b + 102 * a ^ 4 + 479 * b ^ 3 + 3309 * a * b ^ 2 + 3309 * a ^ 2 * b + 479 * a ^ 3 + 908 * b ^ 2 + 2695 * a * b + 908 * a ^ 2 + 790 * b + 790 * a + 267) ?_
  simp only [ov_0, ov_1, ov_2, ov_3]
  ring

/-- The same for the equations for the multipliers. -/
theorem C89_lambda_opt_simple {o v : ℕ} (ho : 1 ≤ o) (hv : 1 ≤ v) {as bs rs qs : List (Arr K)} {s t : List Ev}
    (ha : as.map Arr.shape = [[0, 0], [0, 1], [1, 1], [0, 0, 0, 0], [0, 0, 0, 1], [0, 0, 1, 1], [1, 0, 0, 0], [1, 0, 1, 0], [1, 0, 1, 1], [1, 1, 1, 0], [1, 1, 1, 1], [0, 1], [0, 0, 1, 1], [1, 0], [1, 1, 0, 0]].map (List.map (ov o v)))
    (hb : bs.map Arr.shape = [[0, 0], [0, 1], [1, 1], [0, 0, 0, 0], [0, 0, 0, 1], [0, 0, 1, 1], [1, 0, 0, 0], [1, 0, 1, 0], [1, 0, 1, 1], [1, 1, 1, 0], [1, 1, 1, 1], [0, 1], [0, 0, 1, 1], [1, 0], [1, 1, 0, 0]].map (List.map (ov o v)))
    (hs : ccsd_lambda_opt.trun (numpy warn re) Arr.shape as = .ok (rs, s)) (ht : ccsd_lambda_simple.trun (numpy warn re) Arr.shape bs = .ok (qs, t)) : flops s ≤ flops t := by
  rw [(C89_ccsd_lambda_opt.work ha hs).1, (C89_ccsd_lambda_simple.work hb ht).1]
  obtain ⟨a, rfl⟩ := Nat.exists_eq_add_of_le' ho
  obtain ⟨b, rfl⟩ := Nat.exists_eq_add_of_le' hv
  refine Nat.le.intro (k := 124 * a ^ 4 * b ^ 4 + 534 * a ^ 3 * b ^ 4 + 534 * a ^ 4 * b ^ 3 + 855 * a ^ 2 * b ^ 4 + 2349 * a ^ 3 * b ^ 3 + 855 * a ^ 4 * b ^ 2 + 600 * a * b ^ 4 + 3819 * a ^ 2 * b ^ 3 + 3823 * a ^ 3 * b ^ 2 + 600 * a ^ 4 * b + 151 * b ^ 4 + 2689 * a * b ^ 3 + 6380 * a ^ 2 * b ^ 2 + 2697 * a ^ 3 * b + 151 * a ^ 4 + 669 * b ^ 3 + 4619 * a * b ^ 2 + 4631 * a ^ 2 * b + 673 * a ^ 3 + 1180 * b ^ 2 + 3550 * a * b + 1188 * a ^ 2 + 994 * b + 998 * a + 355) ?_
  simp only [ov_0, ov_1, ov_2, ov_3]
  ring

end

/-! ### the hypotheses can be met -/

theorem is_shapes {n : ℕ → ℕ} {K : Type} [Field K] {ds : List (Desc n K)} {as : List (Arr K)} (h : List.Forall₂ Is ds as) :
    as.map Arr.shape = (ds.map fun d => d.ten.shape).map (List.map n) := by
  induction h with
  | nil => rfl
  | cons h _ ih => rw [List.map_cons, List.map_cons, List.map_cons, ih, h.2.1]

/-- A routine that computes something (C53) returns for some arguments, and then its work is known. -/
theorem Costs.returns {n : ℕ → ℕ} {K : Type} [Field K] {f : Fun} {ds es : List (Desc n K)} {P Q : (ℕ → ℕ) → ℕ} {d r : ℕ}
    (h : Costs f (ds.map fun d => d.ten.shape) P Q d r) (hC : Computes f ds es) (hl : ds.length = f.params.length) (re : K → K) :
    ∃ (as rs : List (Arr K)) (s : List Ev), as.map Arr.shape = (ds.map fun d => d.ten.shape).map (List.map n) ∧
      f.trun (numpy true re) Arr.shape as = .ok (rs, s) ∧ List.Forall₂ Is es rs ∧ flops s = P n ∧ allocated s = Q n := by
  obtain ⟨M, args, h1, h2, h3⟩ := exists_args ((numpy true re).total ⟨false, [], fun _ => 0⟩ fun _ a _ => a) ds
  obtain ⟨rs, M', h4, -, -, -, -, h5⟩ := hC re _ _ M args (h1.trans hl) h2 h3
  have h6 := is_shapes h3
  obtain ⟨s, h7, h8, h9, -⟩ := h n K true re _ _ h6 h4
  exact ⟨_, _, s, h6, h7, h5, h8, h9⟩

/-- One iteration with two occupied and three virtual spin orbitals. -/
example (F : OneE (Fin 2) (Fin 3) ℚ) (I : TwoE (Fin 2) (Fin 3) ℚ) (T1 : Fin 3 → Fin 2 → ℚ) (T2 : Fin 3 → Fin 3 → Fin 2 → Fin 2 → ℚ) :
    ∃ (as rs : List (Arr ℚ)) (s : List Ev), Prog.ccsd_stanton.trun (numpy true id) Arr.shape as = .ok (rs, s) ∧
      List.Forall₂ (Is (n := fun k => k + 2)) [.two false 1 0 (CC.ccsd_stanton F I T1 T2).1, .four false 1 1 0 0 (CC.ccsd_stanton F I T1 T2).2] rs ∧
      flops s = 8793 ∧ allocated s = 1992 := by
  obtain ⟨as, rs, s, -, h1, h2, h3, h4⟩ := Costs.returns C89_ccsd_stanton (C53_ccsd_stanton (n := fun k => k + 2) (i := false) (t := false) (by simp) F I T1 T2) rfl id
  exact ⟨as, rs, s, h1, h2, h3, h4⟩

/-! ### routines that do more than they should -/

/-- `ccsd_2rdm_bcai_opt` keeps a product of three operands, and so its work grows with the seventh power of the number of orbitals, although it
is meant as an optimised routine (the iterations take the sixth power). -/
theorem C89_2rdm_bcai_opt_refuted (C : ℕ) : ∃ N, 1 ≤ N ∧ ∃ (as rs : List (Arr ℚ)) (s : List Ev),
    as.map Arr.shape = [[1, 0], [1, 1, 0, 0], [0, 1], [0, 0, 1, 1]].map (List.map fun _ => N) ∧
    Prog.ccsd_2rdm_bcai_opt.trun (numpy true id) Arr.shape as = .ok (rs, s) ∧ C * N ^ 6 < flops s := by
  refine ⟨C + 1, Nat.le_add_left _ _, ?_⟩
  obtain ⟨as, rs, s, h0, h1, -, h3, -⟩ := Costs.returns C89_ccsd_2rdm_bcai_opt
    (C53_ccsd_2rdm_bcai_opt (n := fun _ => C + 1) (K := ℚ) (l := false) (t := false) 0 0 0 0) rfl id
  refine ⟨as, rs, s, h0, h1, ?_⟩
  rw [h3]
  have h : 0 < (C + 1) ^ 6 := by positivity
  have e : (C + 1) ^ 3 * (C + 1) ^ 4 = C * (C + 1) ^ 6 + (C + 1) ^ 6 := by ring
  simp only [Nat.mul_assoc, e]
  omega

/-- The routines without intermediates take the eighth power. -/
theorem C89_simple_refuted (C : ℕ) : ∃ N, 1 ≤ N ∧ ∃ (as rs : List (Arr ℚ)) (s : List Ev),
    as.map Arr.shape = [[0, 0], [0, 1], [1, 0], [1, 1], [0, 0, 0, 0], [0, 0, 0, 1], [0, 0, 1, 1], [1, 0, 0, 0], [1, 0, 1, 0], [1, 0, 1, 1], [1, 1, 0, 0], [1, 1, 1, 0], [1, 1, 1, 1], [1, 0], [1, 1, 0, 0]].map (List.map fun _ => N) ∧
    Prog.ccsd_simple.trun (numpy true id) Arr.shape as = .ok (rs, s) ∧ C * N ^ 7 < flops s := by
  refine ⟨C + 1, Nat.le_add_left _ _, ?_⟩
  obtain ⟨as, rs, s, h0, h1, -, h3, -⟩ := Costs.returns C89_ccsd_simple
    (C53_ccsd_simple (n := fun _ => C + 1) (K := ℚ) (i := false) (t := false) (by simp) ⟨0, 0, 0, 0⟩ ⟨0, 0, 0, 0, 0, 0, 0, 0, 0⟩ 0 0) rfl id
  refine ⟨as, rs, s, h0, h1, ?_⟩
  rw [h3]
  have h : 0 < (C + 1) ^ 7 := by positivity
  have e : (C + 1) ^ 4 * (C + 1) ^ 4 = C * (C + 1) ^ 7 + (C + 1) ^ 7 := by ring
  simp only [Nat.mul_assoc, e]
  omega

end Heap
