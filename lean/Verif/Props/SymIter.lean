import Verif.Props.Sym
import Verif.Props.IterateU
/-!
# C69: selection rules in the iterations of all three implementations

`Props/Sym` has the amplitudes of the generalized equations.  Here are the multipliers, and amplitudes and multipliers of the unrestricted and
restricted equations: every update keeps the selection rules, and so does every limit of updates.
-/

set_option synthInstance.maxSize 100000
set_option synthInstance.maxHeartbeats 400000

namespace CC
open Filter
variable {𝕜 A : Type} [RCLike 𝕜] [AddCommGroup A]

section
variable {B C D E : Type} {b : B → A} {c : C → A} {d : D → A} {e : E → A}

omit [AddCommGroup A] in
theorem Allowed2.upd {x y : B → C → 𝕜} (hx : Allowed2 b c x) (hy : Allowed2 b c y) (g : B → C → 𝕜) : Allowed2 b c fun p q => x p q - y p q / g p q := by
  intro p q hne
  by_cases h0 : x p q = 0
  · refine hy p q fun h => hne ?_
    simp only [h0, h, zero_div, sub_zero]
  · exact hx p q h0

theorem Allowed4.upd {x y : B → C → D → E → 𝕜} (hx : Allowed4 b c d e x) (hy : Allowed4 b c d e y) (g : B → C → D → E → 𝕜) :
    Allowed4 b c d e fun p q r s => x p q r s - y p q r s / g p q r s := by
  intro p q r s hne
  by_cases h0 : x p q r s = 0
  · refine hy p q r s fun h => hne ?_
    simp only [h0, h, zero_div, sub_zero]
  · exact hx p q r s h0

omit [AddCommGroup A] in
theorem Allowed2.limit {x : ℕ → B → C → 𝕜} {y : B → C → 𝕜} (h : ∀ k, Allowed2 b c (x k)) (l : Tendsto x atTop (nhds y)) : Allowed2 b c y := by
  intro p q hne
  by_contra hc
  have z : ∀ k, x k p q = 0 := fun k => by_contra fun h0 => hc (h k p q h0)
  have t := tendsto_pi_nhds.1 (tendsto_pi_nhds.1 l p) q
  simp only [z] at t
  exact hne (tendsto_nhds_unique t tendsto_const_nhds)

theorem Allowed4.limit {x : ℕ → B → C → D → E → 𝕜} {y : B → C → D → E → 𝕜} (h : ∀ k, Allowed4 b c d e (x k)) (l : Tendsto x atTop (nhds y)) :
    Allowed4 b c d e y := by
  intro p q r s hne
  by_contra hc
  have z : ∀ k, x k p q r s = 0 := fun k => by_contra fun h0 => hc (h k p q r s h0)
  have t := tendsto_pi_nhds.1 (tendsto_pi_nhds.1 (tendsto_pi_nhds.1 (tendsto_pi_nhds.1 l p) q) r) s
  simp only [z] at t
  exact hne (tendsto_nhds_unique t tendsto_const_nhds)
end

section
variable {O V : Type} (o : O → A) (v : V → A)

/-- Amplitudes (or, with the labels exchanged, multipliers) that conserve the labels. -/
def Selected (T : Amp 𝕜 O V) : Prop := Allowed2 v o T.1 ∧ Allowed4 v v o o T.2

variable {P Q : Type} (p : P → A) (q : Q → A)

/-- The same for unrestricted ones. -/
def USelected (T : UAmp 𝕜 O V P Q) : Prop :=
  Allowed2 v o T.1.1 ∧ Allowed2 q p T.1.2 ∧ Allowed4 v v o o T.2.1 ∧ Allowed4 v q o p T.2.2.1 ∧ Allowed4 q q p p T.2.2.2

variable {o v p q}

theorem Selected.limit {x : ℕ → Amp 𝕜 O V} {y : Amp 𝕜 O V} (h : ∀ k, Selected o v (x k)) (l : Tendsto x atTop (nhds y)) : Selected o v y :=
  ⟨Allowed2.limit (fun k => (h k).1) ((continuous_fst.tendsto y).comp l), Allowed4.limit (fun k => (h k).2) ((continuous_snd.tendsto y).comp l)⟩

theorem USelected.limit {x : ℕ → UAmp 𝕜 O V P Q} {y : UAmp 𝕜 O V P Q} (h : ∀ k, USelected o v p q (x k)) (l : Tendsto x atTop (nhds y)) : USelected o v p q y := by
  have l1 := (continuous_fst.tendsto y).comp l
  have l2 := (continuous_snd.tendsto y).comp l
  have l3 := (continuous_snd.tendsto y.2).comp l2
  exact ⟨Allowed2.limit (fun k => (h k).1) ((continuous_fst.tendsto y.1).comp l1), Allowed2.limit (fun k => (h k).2.1) ((continuous_snd.tendsto y.1).comp l1),
    Allowed4.limit (fun k => (h k).2.2.1) ((continuous_fst.tendsto y.2).comp l2), Allowed4.limit (fun k => (h k).2.2.2.1) ((continuous_fst.tendsto y.2.2).comp l3),
    Allowed4.limit (fun k => (h k).2.2.2.2) ((continuous_snd.tendsto y.2.2).comp l3)⟩

theorem selected_iterate {X : Type} {S : X → Prop} {f : X → X} (h : ∀ x, S x → S (f x)) {x : X} (hx : S x) (k : ℕ) : S (f^[k] x) := by
  induction k with
  | zero => exact hx
  | succ k ih => rw [Function.iterate_succ_apply']; exact h _ ih
end

section
variable {O V P Q : Type} [Fintype O] [Fintype V] [Fintype P] [Fintype Q] [DecidableEq O] [DecidableEq V] [DecidableEq P] [DecidableEq Q]
  (o : O → A) (v : V → A) (p : P → A) (q : Q → A)

/-- C69: multipliers of other symmetries never appear in the iteration of `ccsd_lambda_simple`, nor in a limit of it. -/
theorem C69_lambda_iterates {F : OneE O V 𝕜} {I : TwoE O V 𝕜} (hF : F.Allowed o v) (hI : I.Allowed o v) (eo : O → 𝕜) (ev : V → 𝕜)
    {T : Amp 𝕜 O V} (hT : Selected o v T) {L : Amp 𝕜 V O} (hL : Selected v o L) :
    (∀ k, Selected v o ((updateL F I eo ev T)^[k] L)) ∧ ∀ M, Tendsto (fun k => (updateL F I eo ev T)^[k] L) atTop (nhds M) → Selected v o M := by
  have h : ∀ k, Selected v o ((updateL F I eo ev T)^[k] L) := by
    refine selected_iterate (fun L hL => ?_) hL
    obtain ⟨r1, r2⟩ := Heap.C69_ccsd_lambda_simple o v F I L.1 L.2 T.1 T.2 hF hI hL.1 hL.2 hT.1 hT.2
    exact ⟨hL.1.upd r1 _, hL.2.upd r2 _⟩
  exact ⟨h, fun M => Selected.limit h⟩

/-- C69: amplitudes of other symmetries never appear in the iteration of `uccsd_stanton`, nor in a limit of it. -/
theorem C69_u_iterates {Fa : OneE O V 𝕜} {Fb : OneE P Q 𝕜} {Ia : TwoE O V 𝕜} {Ib : TwoE P Q 𝕜} {J : TwoEFull O V P Q 𝕜}
    (hFa : Fa.Allowed o v) (hFb : Fb.Allowed p q) (hIa : Ia.Allowed o v) (hIb : Ib.Allowed p q) (hJ : J.Allowed o v p q)
    (eoa : O → 𝕜) (eva : V → 𝕜) (eob : P → 𝕜) (evb : Q → 𝕜) {T : UAmp 𝕜 O V P Q} (hT : USelected o v p q T) :
    (∀ k, USelected o v p q ((uupdate Fa Fb Ia Ib J eoa eva eob evb)^[k] T)) ∧
      ∀ S, Tendsto (fun k => (uupdate Fa Fb Ia Ib J eoa eva eob evb)^[k] T) atTop (nhds S) → USelected o v p q S := by
  have h : ∀ k, USelected o v p q ((uupdate Fa Fb Ia Ib J eoa eva eob evb)^[k] T) := by
    refine selected_iterate (fun T hT => ?_) hT
    obtain ⟨a1, a2, a3, a4, a5⟩ := hT
    obtain ⟨r1, r2, r3, r4, r5⟩ := Heap.C69_uccsd_stanton o v p q Fa Fb Ia Ib J T.1 T.2 hFa hFb hIa hIb hJ a1 a2 a3 a4 a5
    exact ⟨a1.upd r1 _, a2.upd r2 _, a3.upd r3 _, a4.upd r4 _, a5.upd r5 _⟩
  exact ⟨h, fun S => USelected.limit h⟩

/-- C69: the same for the multipliers of `uccsd_lambda_opt`. -/
theorem C69_u_lambda_iterates {Fa : OneE O V 𝕜} {Fb : OneE P Q 𝕜} {Ia : TwoE O V 𝕜} {Ib : TwoE P Q 𝕜} {J : TwoEFull O V P Q 𝕜}
    (hFa : Fa.Allowed o v) (hFb : Fb.Allowed p q) (hIa : Ia.Allowed o v) (hIb : Ib.Allowed p q) (hJ : J.Allowed o v p q)
    (eoa : O → 𝕜) (eva : V → 𝕜) (eob : P → 𝕜) (evb : Q → 𝕜) {T : UAmp 𝕜 O V P Q} (hT : USelected o v p q T) {L : UAmp 𝕜 V O Q P} (hL : USelected v o q p L) :
    (∀ k, USelected v o q p ((uupdateL Fa Fb Ia Ib J eoa eva eob evb T)^[k] L)) ∧
      ∀ M, Tendsto (fun k => (uupdateL Fa Fb Ia Ib J eoa eva eob evb T)^[k] L) atTop (nhds M) → USelected v o q p M := by
  obtain ⟨t1, t2, t3, t4, t5⟩ := hT
  have h : ∀ k, USelected v o q p ((uupdateL Fa Fb Ia Ib J eoa eva eob evb T)^[k] L) := by
    refine selected_iterate (fun L hL => ?_) hL
    obtain ⟨a1, a2, a3, a4, a5⟩ := hL
    obtain ⟨r1, r2, r3, r4, r5⟩ := Heap.C69_uccsd_lambda_opt o v p q Fa Fb Ia Ib J L.1 L.2 T.1 T.2 hFa hFb hIa hIb hJ a1 a2 a3 a4 a5 t1 t2 t3 t4 t5
    exact ⟨a1.upd r1 _, a2.upd r2 _, a3.upd r3 _, a4.upd r4 _, a5.upd r5 _⟩
  exact ⟨h, fun M => USelected.limit h⟩

/-- C69: amplitudes of other symmetries never appear in the iteration of `rccsd_stanton`, nor in a limit of it. -/
theorem C69_r_iterates {F : OneE O V 𝕜} {I : TwoEFull O V O V 𝕜} (hF : F.Allowed o v) (hI : I.Allowed o v o v) (eo : O → 𝕜) (ev : V → 𝕜)
    {T : Amp 𝕜 O V} (hT : Selected o v T) :
    (∀ k, Selected o v ((rupdate F I eo ev)^[k] T)) ∧ ∀ S, Tendsto (fun k => (rupdate F I eo ev)^[k] T) atTop (nhds S) → Selected o v S := by
  have h : ∀ k, Selected o v ((rupdate F I eo ev)^[k] T) := by
    refine selected_iterate (fun T hT => ?_) hT
    obtain ⟨r1, r2⟩ := Heap.C69_rccsd_stanton o v F I T.1 T.2 hF hI hT.1 hT.2
    exact ⟨hT.1.upd r1 _, hT.2.upd r2 _⟩
  exact ⟨h, fun S => Selected.limit h⟩

/-- C69: the same for the multipliers of `rccsd_lambda_opt`. -/
theorem C69_r_lambda_iterates {F : OneE O V 𝕜} {I : TwoEFull O V O V 𝕜} (hF : F.Allowed o v) (hI : I.Allowed o v o v) (eo : O → 𝕜) (ev : V → 𝕜)
    {T : Amp 𝕜 O V} (hT : Selected o v T) {L : Amp 𝕜 V O} (hL : Selected v o L) :
    (∀ k, Selected v o ((rupdateL F I eo ev T)^[k] L)) ∧ ∀ M, Tendsto (fun k => (rupdateL F I eo ev T)^[k] L) atTop (nhds M) → Selected v o M := by
  have h : ∀ k, Selected v o ((rupdateL F I eo ev T)^[k] L) := by
    refine selected_iterate (fun L hL => ?_) hL
    obtain ⟨r1, r2⟩ := Heap.C69_rccsd_lambda_opt o v F I L.1 L.2 T.1 T.2 hF hI hL.1 hL.2 hT.1 hT.2
    exact ⟨hL.1.upd r1 _, hL.2.upd r2 _⟩
  exact ⟨h, fun M => Selected.limit h⟩
end

/-- One even and one odd occupied orbital, two virtual ones of the same parities, a Fock matrix and integrals that are 1 wherever parity allows:
after five updates from zero no amplitude connects orbitals of different parity. -/
example : let l : Fin 2 → ZMod 2 := fun i => if i = 0 then 0 else 1
    let f : Fin 2 → Fin 2 → ℝ := fun p q => if l p = l q then 1 else 0
    let g : Fin 2 → Fin 2 → Fin 2 → Fin 2 → ℝ := fun p q r s => if l p + l q = l r + l s then 1 else 0
    let T := (rupdate ⟨f, f, f, f⟩ ⟨g, g, g, g, g, g, g, g, g, g, g, g, g, g, g, g⟩ (fun i => -1 - (i : ℕ)) fun a => 1 + (a : ℕ))^[5] (0 : Amp ℝ (Fin 2) (Fin 2))
    T.1 0 1 = 0 ∧ T.2 0 1 0 0 = 0 := by
  intro l f g T
  have hf : Allowed2 l l f := fun p q h => by by_contra hc; exact h (if_neg hc)
  have hg : Allowed4 l l l l g := fun p q r s h => by by_contra hc; exact h (if_neg hc)
  have k := (C69_r_iterates l l (F := ⟨f, f, f, f⟩) (I := ⟨g, g, g, g, g, g, g, g, g, g, g, g, g, g, g, g⟩) ⟨hf, hf, hf, hf⟩ ⟨hg, hg, hg, hg, hg, hg, hg, hg, hg, hg, hg, hg, hg, hg, hg, hg⟩ (fun i : Fin 2 => (-1 - (i : ℕ) : ℝ))
    (fun a : Fin 2 => (1 + (a : ℕ) : ℝ)) (T := 0) ⟨fun _ _ h => absurd rfl h, fun _ _ _ _ h => absurd rfl h⟩).1 5
  refine ⟨by_contra fun h => ?_, by_contra fun h => ?_⟩
  · exact absurd (k.1 0 1 h) (by simp [l])
  · exact absurd (k.2 0 1 0 0 h) (by simp [l])

end CC
