import Verif.Tensor.Ix

/-!
# Identities modulo a power of a scalar parameter

`EqMod n f g`: the functions `f` and `g` of a scalar differ by a polynomial divisible by the `n`-th
power of the parameter.
-/

namespace Verif.Tensor
open Finset

/-- `f ε = g ε + (a polynomial in ε divisible by ε ^ n)`. -/
def EqMod {K : Type} [Field K] (n : Nat) (f g : K → K) : Prop :=
  ∃ (N : Nat) (c : Nat → K), ∀ ε, f ε = g ε + ∑ k ∈ range N, c k * ε ^ (n + k)

section
variable {K : Type} [Field K]

theorem EqMod.refl (n : Nat) (f : K → K) : EqMod n f f := ⟨0, fun _ => 0, by simp⟩

theorem EqMod.add_pow {n : Nat} {f g : K → K} (h : EqMod n f g) (c : K) (k : Nat) :
    EqMod n (fun ε => c * ε ^ (n + k) + f ε) g := by
  obtain ⟨N, d, h⟩ := h
  refine ⟨max N (k + 1), fun j => (if j < N then d j else 0) + (if j = k then c else 0), fun ε => ?_⟩
  simp only [h ε, add_mul, sum_add_distrib, ite_mul, zero_mul]
  have h1 : ∑ j ∈ range (max N (k+1)), (if j < N then d j * ε ^ (n + j) else 0)
      = ∑ j ∈ range N, d j * ε ^ (n + j) := by
    rw [← sum_filter]
    congr 1
    ext j; simp only [mem_filter, mem_range]; omega
  have h2 : ∑ j ∈ range (max N (k+1)), (if j = k then c * ε ^ (n + j) else 0)
      = c * ε ^ (n + k) := by
    rw [sum_ite_eq' (range (max N (k+1))) k]
    simp
  rw [h1, h2]; ring

/-- number of factors equal to tensor `0` -/
def cnt0 : List (Nat × List Nat) → Nat
  | [] => 0
  | f :: fs => match f.1 with
    | 0 => cnt0 fs + 1
    | _ + 1 => cnt0 fs

/-- the scalar occurs without indices -/
def ok0 : List (Nat × List Nat) → Bool
  | [] => true
  | f :: fs => match f.1, f.2 with
    | 0, [] => ok0 fs
    | 0, _ :: _ => false
    | _ + 1, _ => ok0 fs

def okAll0 : List Mono → Bool
  | [] => true
  | m :: ms => ok0 m.fs && okAll0 ms

/-- keep the monomials with fewer than `n` factors of the scalar -/
def keep0 (n : Nat) : List Mono → List Mono
  | [] => []
  | m :: ms => bif Nat.blt (cnt0 m.fs) n then m :: keep0 n ms else keep0 n ms

/-- the hints belonging to the kept monomials are given -/
def checkMod (n n0 E : Nat) (tbl : List (List Sym)) (t : TE) (hints : List (List Nat)) : Bool :=
  match wf (upto n0) n0 t with
  | none => false
  | some _ => okAll0 (expand t) && (match canonL n0 E tbl (keep0 n (expand t)) hints with
    | none => false
    | some ms => allCancel (msort 20 (addKeys ms)))

theorem keep0_sub (n ms) : ∀ m ∈ keep0 n ms, m ∈ ms := by
  induction ms with
  | nil => simp [keep0]
  | cons m ms ih =>
    intro k hk
    simp only [keep0] at hk
    cases hb : Nat.blt (cnt0 m.fs) n with
    | true =>
      rw [hb] at hk
      rcases List.mem_cons.1 hk with rfl | hk
      · exact List.mem_cons_self ..
      · exact List.mem_cons_of_mem _ (ih k hk)
    | false =>
      rw [hb] at hk
      exact List.mem_cons_of_mem _ (ih k hk)

variable {A B C D : Type} [Fintype A] [Fintype B] [Fintype C] [Fintype D]

theorem prodF_scale (ts : List (List (Ix A B C D) → K)) (ε : K) (fs) (h : ok0 fs = true)
    (ρ : Nat → Ix A B C D) :
    prodF (mkEnv (t0 ε :: ts)) fs ρ = ε ^ cnt0 fs * prodF (mkEnv (t0 1 :: ts)) fs ρ := by
  induction fs with
  | nil => simp [prodF, cnt0]
  | cons f fs ih =>
    obtain ⟨t, l⟩ := f
    cases t with
    | zero =>
      cases l with
      | nil =>
        have ih := ih h
        simp only [prodF, cnt0, ih]
        have e1 : (mkEnv (t0 ε :: ts)).tens 0 (List.map ρ []) = ε := rfl
        have e2 : (mkEnv (t0 (1:K) :: ts)).tens 0 (List.map ρ []) = 1 := rfl
        rw [e1, e2, pow_succ]; ring
      | cons x l => simp [ok0] at h
    | succ t =>
      have ih := ih h
      simp only [prodF, cnt0, ih]
      have e1 : (mkEnv (t0 ε :: ts)).tens (t+1) (List.map ρ l)
        = (mkEnv (t0 (1:K) :: ts)).tens (t+1) (List.map ρ l) := rfl
      rw [e1]; ring

theorem sumN_scale (ts : List (List (Ix A B C D) → K)) (ε c : K) (F G : (Nat → Ix A B C D) → K)
    (h : ∀ ρ, F ρ = c * G ρ) (ds) (ρ : Nat → Ix A B C D) :
    sumN (mkEnv (t0 ε :: ts)) ds F ρ = c * sumN (mkEnv (t0 1 :: ts)) ds G ρ := by
  induction ds generalizing ρ with
  | nil => exact h ρ
  | cons d ds ih =>
    simp only [sumN]
    have : (mkEnv (t0 (1:K) :: ts)).sumS = (mkEnv (t0 ε :: ts)).sumS := rfl
    rw [this, ← Env.sumS_mul]
    congr 1; funext v
    exact ih _

theorem mono_scale (ts : List (List (Ix A B C D) → K)) (ε : K) (m : Mono) (h : ok0 m.fs = true)
    (ρ : Nat → Ix A B C D) :
    m.eval (mkEnv (t0 ε :: ts)) ρ = m.eval (mkEnv (t0 1 :: ts)) ρ * ε ^ cnt0 m.fs := by
  simp only [Mono.eval]
  rw [sumN_scale ts ε (ε ^ cnt0 m.fs) _ _ (prodF_scale ts ε m.fs h) m.ds ρ]
  ring

theorem keep0_sound (ts : List (List (Ix A B C D) → K)) (n ms) (h : okAll0 ms = true)
    (ρ : Nat → Ix A B C D) :
    EqMod n (fun ε => evalL (mkEnv (t0 ε :: ts)) ms ρ)
      (fun ε => evalL (mkEnv (t0 ε :: ts)) (keep0 n ms) ρ) := by
  induction ms with
  | nil => exact EqMod.refl ..
  | cons m ms ih =>
    simp only [okAll0, Bool.and_eq_true] at h
    have ih := ih h.2
    cases hb : Nat.blt (cnt0 m.fs) n with
    | true =>
      obtain ⟨N, c, ih⟩ := ih
      refine ⟨N, c, fun ε => ?_⟩
      simp only [keep0, hb, cond_true, evalL, ih ε]; ring
    | false =>
      simp only [keep0, hb, cond_false, evalL]
      have hn : n ≤ cnt0 m.fs := by
        by_contra hc
        have : Nat.blt (cnt0 m.fs) n = true := by
          simp only [Nat.blt_eq]; omega
        rw [hb] at this; exact absurd this (by decide)
      have := ih.add_pow (m.eval (mkEnv (t0 1 :: ts)) ρ) (cnt0 m.fs - n)
      rw [Nat.add_sub_cancel' hn] at this
      have e : (fun ε => m.eval (mkEnv (t0 ε :: ts)) ρ + evalL (mkEnv (t0 ε :: ts)) ms ρ)
        = fun ε => m.eval (mkEnv (t0 1 :: ts)) ρ * ε ^ cnt0 m.fs + evalL (mkEnv (t0 ε :: ts)) ms ρ :=
        funext fun ε => congrArg (· + _) (mono_scale ts ε m h.1 ρ)
      rw [e]; exact this

/-- Entry point of the `tensor_mod` tactic. -/
theorem tensor_mod [CharZero K] (n : Nat) (ts : List (List (Ix A B C D) → K)) (sss)
    (hs : SymAll ts sss) (n0 e : Nat) (a b : TE) (hints)
    (h : checkMod n n0 e ([] :: sss) (.sub a b) hints = true) (ρ : Nat → Ix A B C D) :
    EqMod n (fun ε => a.eval (mkEnv (t0 ε :: ts)) ρ) (fun ε => b.eval (mkEnv (t0 ε :: ts)) ρ) := by
  have : NeZero (2 : K) := ⟨by
    have : ((2 : ℕ) : K) ≠ ((0 : ℕ) : K) := fun h => absurd (Nat.cast_injective h) (by decide)
    exact_mod_cast this⟩
  simp only [checkMod] at h
  cases hw : wf (upto n0) n0 (.sub a b) with
  | none => simp [hw] at h
  | some hi =>
    simp only [hw, Bool.and_eq_true] at h
    obtain ⟨h0, h⟩ := h
    cases hc : canonL n0 e ([] :: sss) (keep0 n (expand (.sub a b))) hints with
    | none => simp [hc] at h
    | some ms =>
      simp only [hc] at h
      obtain ⟨N, c, hk⟩ := keep0_sound ts n _ h0 ρ
      refine ⟨N, c, fun ε => ?_⟩
      have hs' : SymAll (t0 ε :: ts) ([] :: sss) := SymAll.cons (SymsFor.nil _) hs
      have h1 := allCancel_sound (mkEnv (t0 ε :: ts)) _ h ρ
      rw [evalK_msort, evalK_addKeys] at h1
      have h2 := canonL_sound (mkEnv (t0 ε :: ts)) n0 e _ hs'.ok _ hi
        (fun m hm => (expand_ok _ _ _ _ hw).2 m (keep0_sub _ _ m hm)) hints ms hc ρ
      have h3 := expand_sound (mkEnv (t0 ε :: ts)) _ _ _ _ hw (fun x hx => (upto_mem _ _).1 hx) ρ
      have h4 := hk ε
      beta_reduce at h4 ⊢
      rw [← h3, ← h2, h1, zero_add] at h4
      have h5 : (TE.sub a b).eval (mkEnv (t0 ε :: ts)) ρ
        = a.eval (mkEnv (t0 ε :: ts)) ρ - b.eval (mkEnv (t0 ε :: ts)) ρ := rfl
      rw [h5] at h4
      linear_combination h4

end
end Verif.Tensor
