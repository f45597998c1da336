import Verif.Props.Round
/-!
# C60: rounding errors of the routines
-/

namespace Heap
open Prog CC
variable {K : Type} [RCLike K] {n : ℕ → ℕ}

/-- An array of the element type and shape described, with elements at most `ε` from those described. -/
def NearIs (ε : ℝ) (d : Desc n K) (b : Arr K) : Prop :=
  b.cx = d.cx ∧ b.shape = d.ten.shape.map n ∧ ∀ idx, List.Forall₂ (· < ·) idx b.shape → ‖b.val idx - Cur.get d.ten.shape d.ten.val idx‖ ≤ ε

/-- Called with references to arrays that are wrong by at most `c * u`, in rounded arithmetic of unit roundoff `u`, the routine raises nothing, changes no
array that existed before, and returns references to new and different arrays that are wrong by at most `C * u`.  The constant does not depend
on the roundoff, on the arithmetic, on the errors of the arguments or on the state of the memory. -/
def Stable (f : Fun) (ds es : List (Desc n K)) : Prop :=
  ∀ (re : K → K), (∀ x y, ‖re x - re y‖ ≤ ‖x - y‖) → ∀ (η : ℝ), 0 ≤ η → ∀ G, GMono G → ∀ c : ℝ, 0 ≤ c → ∃ C, 0 ≤ C ∧
    ∀ u, 0 ≤ u → u ≤ 1 → ∀ (A : Rounding K u η G) (d : Arr K) (put : List ℕ → Arr K → Arr K → Arr K) (M : Mem (Arr K)) (args : List Ref),
      let J := (rounded A true re).total d put
      args.length = f.params.length → (∀ r ∈ args, r.1 < M.next) → List.Forall₂ (NearIs (c * u)) ds (args.map fun r => seen J r.2 (M.heap r.1)) →
      ∃ rs M', f.nrun (rounded A true re) (args.map fun r => seen J r.2 (M.heap r.1)) = .ok (rs.map fun r => seen J r.2 (M'.heap r.1)) ∧
        f.run J args M = some (rs, M') ∧ (∀ l < M.next, M'.heap l = M.heap l) ∧ (∀ r ∈ rs, M.next ≤ r.1) ∧ (rs.map Prod.fst).Nodup ∧
        List.Forall₂ (NearIs (C * u)) es (rs.map fun r => seen J r.2 (M'.heap r.1))

theorem rounded_aug {u η : ℝ} {G : List (List ℝ) → ℝ} (A : Rounding K u η G) (warn : Bool) (re : K → K) (o : Op) (a b c : Arr K)
    (h : (rounded A warn re).aug o a b = .ok c) : (rounded A warn re).bin o a b = .ok c := by
  simp only [rounded, flAug, flBin] at h ⊢
  split_ifs at h with h1 h2
  rw [ne_eq, not_not] at h1
  rw [h1]
  simp only [Except.ok.injEq] at h ⊢
  rw [← h]
  congr 1
  revert h2
  cases a.cx <;> cases b.cx <;> cases a.shape <;> simp

/-- C60: every routine whose results on arrays are known (C53) is stable. -/
theorem C60_stable {f : Fun} {ds es : List (Desc n K)} (h : Computes f ds es) (h0 : LeavesArguments f) (hl : ds.length = f.params.length) :
    Stable f ds es := by
  intro re hre η hη G hG c hc
  obtain ⟨M, args, h1, h2, h3⟩ := exists_args ((numpy true re).total ⟨false, [], fun _ => 0⟩ fun _ a _ => a) ds
  obtain ⟨rs, M', h4, -, -, -, -, h5⟩ := h re ⟨false, [], fun _ => 0⟩ (fun _ a _ => a) M args (h1.trans hl) h2 h3
  obtain ⟨C, hC, hb⟩ := C60_rounding f true hre h4 hη hG hc
  refine ⟨C, hC, fun u u0 u1 A d put N brgs hlen hlt hbs => ?_⟩
  have near : List.Forall₂ (Near (c * u)) (args.map fun r => seen ((numpy true re).total ⟨false, [], fun _ => 0⟩ fun _ a _ => a) r.2 (M.heap r.1))
      (brgs.map fun r => seen ((rounded A true re).total d put) r.2 (N.heap r.1)) := by
    refine List.forall₂_iff_get.mpr ⟨by rw [← h3.length_eq, ← hbs.length_eq], fun i i1 i2 => ?_⟩
    have e1 := (List.forall₂_iff_get.mp h3).2 i (by rw [h3.length_eq]; exact i1) i1
    have e2 := (List.forall₂_iff_get.mp hbs).2 i (by rw [hbs.length_eq]; exact i2) i2
    refine ⟨e2.1.trans e1.1.symm, e2.2.1.trans e1.2.1.symm, fun idx hi => ?_⟩
    rw [e1.2.2 idx hi]
    refine e2.2.2 idx ?_
    rw [e2.2.1, ← e1.2.1]; exact hi
  obtain ⟨ys, hy, hys⟩ := hb u u0 u1 A _ near
  obtain ⟨qs, N', hr, ha, hn, hd, hp⟩ := h0 _ ((rounded A true re).total d put) N brgs hlen hlt
  rw [nrun_prun (rounded_aug A true re) hy] at hp
  cases hp
  refine ⟨qs, N', hy, hr, ha, hn, hd, List.forall₂_iff_get.mpr ⟨by rw [h5.length_eq, hys.length_eq], fun i i1 i2 => ?_⟩⟩
  have e1 := (List.forall₂_iff_get.mp h5).2 i i1 (by rw [← h5.length_eq]; exact i1)
  have e2 := (List.forall₂_iff_get.mp hys).2 i (by rw [← h5.length_eq]; exact i1) i2
  refine ⟨e2.1.trans e1.1, e2.2.1.trans e1.2.1, fun idx hi => ?_⟩
  have hi' := hi
  rw [e2.2.1] at hi'
  rw [← e1.2.2 idx hi']
  exact e2.2.2 idx hi'

/-! ### An arithmetic that rounds -/

/-- Every operation and every literal is too large by the factor `1 + u`, and sums of products are formed from left to right. -/
noncomputable def inflate {u : ℝ} (h0 : 0 ≤ u) (h1 : u ≤ 1) : Rounding K u 0 (szSum 0) :=
  ltr h0 h1 le_rfl (fun p q => ((1 + u : ℝ) : K) * (p / q)) (fun o a b => ((1 + u : ℝ) : K) * opVal o a b)
    (fun p q => by
      rw [show ((1 + u : ℝ) : K) * (p / q) - p / q = (u : K) * (p / q) by push_cast; ring, norm_mul, RCLike.norm_ofReal, abs_of_nonneg h0, add_zero])
    (fun o a b => by
      rw [show ((1 + u : ℝ) : K) * opVal o a b - opVal o a b = (u : K) * opVal o a b by push_cast; ring, norm_mul, RCLike.norm_ofReal,
        abs_of_nonneg h0, add_zero])

end Heap
