import Verif.Props.RotEx
import Verif.Props.IterateU
import Verif.Tensor.Tactic
import Mathlib.Algebra.BigOperators.Field
/-!
# C114: whole calculations and the choice of degenerate orbitals

C55 is the statement for single calls.  The update divides by differences of orbital energies, so it commutes with changes of the basis that
mix orbitals of equal energy only: rotations among degenerate orbitals, phases, renumbering.
-/

set_option synthInstance.maxSize 100000
set_option synthInstance.maxHeartbeats 400000

namespace CC
variable {K : Type} [RCLike K]

section
variable {A B C D A' B' C' D' : Type} [Fintype A] [Fintype B] [Fintype C] [Fintype D] [Fintype A'] [Fintype B'] [Fintype C'] [Fintype D']
  [DecidableEq A] [DecidableEq B] [DecidableEq C] [DecidableEq D]

/-- Old orbitals contribute only to new orbitals of the same energy. -/
def Change.Level (a : Change A A' K) (e : A → K) (e' : A' → K) : Prop := ∀ x i, a.bra x i ≠ 0 ∨ a.ket i x ≠ 0 → e' x = e i

theorem rot2_upd (a : Change A A' K) (b : Change B B' K) (t r : A → B → K) {g : A → B → K} {g' : A' → B' → K}
    (h : ∀ x y i j, a.bra x i ≠ 0 → b.ket j y ≠ 0 → g' x y = g i j) :
    (fun x y => rot2 a b t x y - rot2 a b r x y / g' x y) = rot2 a b fun i j => t i j - r i j / g i j := by
  funext x y
  simp only [rot2, Finset.sum_div, ← Finset.sum_sub_distrib]
  refine Finset.sum_congr rfl fun i _ => Finset.sum_congr rfl fun j _ => ?_
  by_cases p : a.bra x i = 0
  · simp [p]
  by_cases q : b.ket j y = 0
  · simp [q]
  rw [h x y i j p q]
  ring

theorem rot4_upd (a : Change A A' K) (b : Change B B' K) (c : Change C C' K) (d : Change D D' K) (t r : A → B → C → D → K) {g : A → B → C → D → K} {g' : A' → B' → C' → D' → K}
    (h : ∀ x y z w i j k l, a.bra x i ≠ 0 → b.bra y j ≠ 0 → c.ket k z ≠ 0 → d.ket l w ≠ 0 → g' x y z w = g i j k l) :
    (fun x y z w => rot4 a b c d t x y z w - rot4 a b c d r x y z w / g' x y z w) = rot4 a b c d fun i j k l => t i j k l - r i j k l / g i j k l := by
  funext x y z w
  simp only [rot4, Finset.sum_div, ← Finset.sum_sub_distrib]
  refine Finset.sum_congr rfl fun i _ => Finset.sum_congr rfl fun j _ => Finset.sum_congr rfl fun k _ => Finset.sum_congr rfl fun l _ => ?_
  by_cases p : a.bra x i = 0
  · simp [p]
  by_cases q : b.bra y j = 0
  · simp [q]
  by_cases r : c.ket k z = 0
  · simp [r]
  by_cases s : d.ket l w = 0
  · simp [s]
  rw [h x y z w i j k l p q r s]
  ring
end

variable {O V P Q O' V' P' Q' : Type} [Fintype O] [Fintype V] [Fintype P] [Fintype Q]
  [Fintype O'] [Fintype V'] [Fintype P'] [Fintype Q'] [DecidableEq O] [DecidableEq V] [DecidableEq P] [DecidableEq Q]
  {o : Change O O' K} {v : Change V V' K} {p : Change P P' K} {q : Change Q Q' K}

/-- Amplitudes (with `o` and `v` exchanged, multipliers) in the new basis. -/
def rotA (o : Change O O' K) (v : Change V V' K) (T : Amp K O V) : Amp K O' V' := (rot2 v o T.1, rot4 v v o o T.2)

/-- Unrestricted ones. -/
def rotUA (o : Change O O' K) (v : Change V V' K) (p : Change P P' K) (q : Change Q Q' K) (T : UAmp K O V P Q) : UAmp K O' V' P' Q' :=
  ((rot2 v o T.1.1, rot2 q p T.1.2), (rot4 v v o o T.2.1, rot4 v q o p T.2.2.1, rot4 q q p p T.2.2.2))

section
variable {eo : O → K} {ev : V → K} {eo' : O' → K} {ev' : V' → K} (ho : o.Level eo eo') (hv : v.Level ev ev')
include ho hv

/-- C114: an update with `ccsd_simple` commutes with changes among degenerate orbitals. -/
theorem C114_update (F : OneE O V K) (I : TwoE O V K) (T : Amp K O V) :
    rotA o v (update F I eo ev T) = update (F.rot o v) (I.rot o v) eo' ev' (rotA o v T) := by
  simp only [update, rotA, Heap.C55_ccsd_simple o v F I T.1 T.2]
  refine Prod.ext (rot2_upd v o _ _ fun x y i j hx hy => ?_).symm (rot4_upd v v o o _ _ fun x y z w i j k l hx hy hz hw => ?_).symm
  · rw [hv x i (.inl hx), ho y j (.inr hy)]
  · rw [hv x i (.inl hx), hv y j (.inl hy), ho z k (.inr hz), ho w l (.inr hw)]

/-- C114: so does every number of updates, and every energy on the way is the same. -/
theorem C114_iterates (F : OneE O V K) (I : TwoE O V K) (T : Amp K O V) (k : ℕ) :
    let S := (update F I eo ev)^[k] T
    let S' := (update (F.rot o v) (I.rot o v) eo' ev')^[k] (rotA o v T)
    S' = rotA o v S ∧ cc_energy S'.1 S'.2 (F.rot o v).ov (I.rot o v).oovv = cc_energy S.1 S.2 F.ov I.oovv := by
  intro S S'
  have h : S' = rotA o v S := ((Function.Semiconj.iterate_right (f := rotA o v) (fun T => C114_update ho hv F I T) k) T).symm
  refine ⟨h, ?_⟩
  rw [h]
  exact Heap.C55_cc_energy o v S.1 S.2 F.ov I.oovv

/-- C114: an update with `ccsd_lambda_simple`. -/
theorem C114_lambda_update (F : OneE O V K) (I : TwoE O V K) (T : Amp K O V) (L : Amp K V O) :
    rotA v o (updateL F I eo ev T L) = updateL (F.rot o v) (I.rot o v) eo' ev' (rotA o v T) (rotA v o L) := by
  simp only [updateL, rotA, Heap.C55_ccsd_lambda_simple o v F I L.1 L.2 T.1 T.2]
  refine Prod.ext (rot2_upd o v _ _ fun x y i j hx hy => ?_).symm (rot4_upd o o v v _ _ fun x y z w i j k l hx hy hz hw => ?_).symm
  · rw [ho x i (.inl hx), hv y j (.inr hy)]
  · rw [ho x i (.inl hx), ho y j (.inl hy), hv z k (.inr hz), hv w l (.inr hw)]

/-- C114: after any numbers of updates of amplitudes and multipliers, amplitudes, multipliers and one-particle density matrix are those of the old orbitals in the new basis. -/
theorem C114_lambda_iterates (F : OneE O V K) (I : TwoE O V K) (T : Amp K O V) (L : Amp K V O) (k m : ℕ) :
    let S := (update F I eo ev)^[k] T
    let M := (updateL F I eo ev S)^[m] L
    let S' := (update (F.rot o v) (I.rot o v) eo' ev')^[k] (rotA o v T)
    let M' := (updateL (F.rot o v) (I.rot o v) eo' ev' S')^[m] (rotA v o L)
    S' = rotA o v S ∧ M' = rotA v o M
      ∧ ccsd_1rdm_ba S'.1 S'.2 M'.1 M'.2 = rot2 v v (ccsd_1rdm_ba S.1 S.2 M.1 M.2)
      ∧ ccsd_1rdm_ji S'.1 S'.2 M'.1 M'.2 = rot2 o o (ccsd_1rdm_ji S.1 S.2 M.1 M.2) := by
  intro S M S' M'
  have h : S' = rotA o v S := (C114_iterates ho hv F I T k).1
  have h' : M' = rotA v o M := by
    show (updateL (F.rot o v) (I.rot o v) eo' ev' S')^[m] (rotA v o L) = rotA v o ((updateL F I eo ev S)^[m] L)
    rw [h]
    exact ((Function.Semiconj.iterate_right (f := rotA v o) (fun L => C114_lambda_update ho hv F I S L) m) L).symm
  refine ⟨h, h', ?_, ?_⟩
  · rw [h, h']
    exact Heap.C55_ccsd_1rdm_ba o v S.1 S.2 M.1 M.2
  · rw [h, h']
    exact Heap.C55_ccsd_1rdm_ji o v S.1 S.2 M.1 M.2

/-- C114: an update with `rccsd_stanton`. -/
theorem C114_r_update (F : OneE O V K) (I : TwoEFull O V O V K) (T : Amp K O V) :
    rotA o v (rupdate F I eo ev T) = rupdate (F.rot o v) (I.rot o v o v) eo' ev' (rotA o v T) := by
  simp only [rupdate, rotA, Heap.C55_rccsd_stanton o v F I T.1 T.2]
  refine Prod.ext (rot2_upd v o _ _ fun x y i j hx hy => ?_).symm (rot4_upd v v o o _ _ fun x y z w i j k l hx hy hz hw => ?_).symm
  · rw [hv x i (.inl hx), ho y j (.inr hy)]
  · rw [hv x i (.inl hx), hv y j (.inl hy), ho z k (.inr hz), ho w l (.inr hw)]

/-- C114: an update with `rccsd_lambda_opt`. -/
theorem C114_r_lambda_update (F : OneE O V K) (I : TwoEFull O V O V K) (T : Amp K O V) (L : Amp K V O) :
    rotA v o (rupdateL F I eo ev T L) = rupdateL (F.rot o v) (I.rot o v o v) eo' ev' (rotA o v T) (rotA v o L) := by
  simp only [rupdateL, rotA, Heap.C55_rccsd_lambda_opt o v F I L.1 L.2 T.1 T.2]
  refine Prod.ext (rot2_upd o v _ _ fun x y i j hx hy => ?_).symm (rot4_upd o o v v _ _ fun x y z w i j k l hx hy hz hw => ?_).symm
  · rw [ho x i (.inl hx), hv y j (.inr hy)]
  · rw [ho x i (.inl hx), ho y j (.inl hy), hv z k (.inr hz), hv w l (.inr hw)]

/-- C114: whole restricted calculations. -/
theorem C114_r_iterates (F : OneE O V K) (I : TwoEFull O V O V K) (T : Amp K O V) (L : Amp K V O) (k m : ℕ) :
    let S := (rupdate F I eo ev)^[k] T
    let M := (rupdateL F I eo ev S)^[m] L
    let S' := (rupdate (F.rot o v) (I.rot o v o v) eo' ev')^[k] (rotA o v T)
    let M' := (rupdateL (F.rot o v) (I.rot o v o v) eo' ev' S')^[m] (rotA v o L)
    S' = rotA o v S ∧ M' = rotA v o M ∧ rcc_energy S'.1 S'.2 (F.rot o v).ov (I.rot o v o v).oovv = rcc_energy S.1 S.2 F.ov I.oovv := by
  intro S M S' M'
  have h : S' = rotA o v S := ((Function.Semiconj.iterate_right (f := rotA o v) (fun T => C114_r_update ho hv F I T) k) T).symm
  refine ⟨h, ?_, ?_⟩
  · show (rupdateL (F.rot o v) (I.rot o v o v) eo' ev' S')^[m] (rotA v o L) = rotA v o ((rupdateL F I eo ev S)^[m] L)
    rw [h]
    exact ((Function.Semiconj.iterate_right (f := rotA v o) (fun L => C114_r_lambda_update ho hv F I S L) m) L).symm
  · rw [h]
    exact Heap.C55_rcc_energy o v S.1 S.2 F.ov I.oovv
end

section
variable {eoa : O → K} {eva : V → K} {eob : P → K} {evb : Q → K} {eoa' : O' → K} {eva' : V' → K} {eob' : P' → K} {evb' : Q' → K}
  (ho : o.Level eoa eoa') (hv : v.Level eva eva') (hp : p.Level eob eob') (hq : q.Level evb evb')
include ho hv hp hq

/-- C114: an update with `uccsd_stanton`. -/
theorem C114_u_update (Fa : OneE O V K) (Fb : OneE P Q K) (Ia : TwoE O V K) (Ib : TwoE P Q K) (J : TwoEFull O V P Q K) (T : UAmp K O V P Q) :
    rotUA o v p q (uupdate Fa Fb Ia Ib J eoa eva eob evb T)
      = uupdate (Fa.rot o v) (Fb.rot p q) (Ia.rot o v) (Ib.rot p q) (J.rot o v p q) eoa' eva' eob' evb' (rotUA o v p q T) := by
  simp only [uupdate, rotUA, Heap.C55_uccsd_stanton o v p q Fa Fb Ia Ib J T.1 T.2]
  refine Prod.ext (Prod.ext (rot2_upd v o _ _ fun x y i j hx hy => ?_).symm (rot2_upd q p _ _ fun x y i j hx hy => ?_).symm)
    (Prod.ext (rot4_upd v v o o _ _ fun x y z w i j k l hx hy hz hw => ?_).symm
      (Prod.ext (rot4_upd v q o p _ _ fun x y z w i j k l hx hy hz hw => ?_).symm (rot4_upd q q p p _ _ fun x y z w i j k l hx hy hz hw => ?_).symm))
  · rw [hv x i (.inl hx), ho y j (.inr hy)]
  · rw [hq x i (.inl hx), hp y j (.inr hy)]
  · rw [hv x i (.inl hx), hv y j (.inl hy), ho z k (.inr hz), ho w l (.inr hw)]
  · rw [hv x i (.inl hx), hq y j (.inl hy), ho z k (.inr hz), hp w l (.inr hw)]
  · rw [hq x i (.inl hx), hq y j (.inl hy), hp z k (.inr hz), hp w l (.inr hw)]

/-- C114: an update with `uccsd_lambda_opt`. -/
theorem C114_u_lambda_update (Fa : OneE O V K) (Fb : OneE P Q K) (Ia : TwoE O V K) (Ib : TwoE P Q K) (J : TwoEFull O V P Q K) (T : UAmp K O V P Q) (L : UAmp K V O Q P) :
    rotUA v o q p (uupdateL Fa Fb Ia Ib J eoa eva eob evb T L)
      = uupdateL (Fa.rot o v) (Fb.rot p q) (Ia.rot o v) (Ib.rot p q) (J.rot o v p q) eoa' eva' eob' evb' (rotUA o v p q T) (rotUA v o q p L) := by
  simp only [uupdateL, rotUA, Heap.C55_uccsd_lambda_opt o v p q Fa Fb Ia Ib J L.1 L.2 T.1 T.2]
  refine Prod.ext (Prod.ext (rot2_upd o v _ _ fun x y i j hx hy => ?_).symm (rot2_upd p q _ _ fun x y i j hx hy => ?_).symm)
    (Prod.ext (rot4_upd o o v v _ _ fun x y z w i j k l hx hy hz hw => ?_).symm
      (Prod.ext (rot4_upd o p v q _ _ fun x y z w i j k l hx hy hz hw => ?_).symm (rot4_upd p p q q _ _ fun x y z w i j k l hx hy hz hw => ?_).symm))
  · rw [ho x i (.inl hx), hv y j (.inr hy)]
  · rw [hp x i (.inl hx), hq y j (.inr hy)]
  · rw [ho x i (.inl hx), ho y j (.inl hy), hv z k (.inr hz), hv w l (.inr hw)]
  · rw [ho x i (.inl hx), hp y j (.inl hy), hv z k (.inr hz), hq w l (.inr hw)]
  · rw [hp x i (.inl hx), hp y j (.inl hy), hq z k (.inr hz), hq w l (.inr hw)]

/-- C114: whole unrestricted calculations. -/
theorem C114_u_iterates (Fa : OneE O V K) (Fb : OneE P Q K) (Ia : TwoE O V K) (Ib : TwoE P Q K) (J : TwoEFull O V P Q K) (T : UAmp K O V P Q) (L : UAmp K V O Q P) (k m : ℕ) :
    let S := (uupdate Fa Fb Ia Ib J eoa eva eob evb)^[k] T
    let M := (uupdateL Fa Fb Ia Ib J eoa eva eob evb S)^[m] L
    let S' := (uupdate (Fa.rot o v) (Fb.rot p q) (Ia.rot o v) (Ib.rot p q) (J.rot o v p q) eoa' eva' eob' evb')^[k] (rotUA o v p q T)
    let M' := (uupdateL (Fa.rot o v) (Fb.rot p q) (Ia.rot o v) (Ib.rot p q) (J.rot o v p q) eoa' eva' eob' evb' S')^[m] (rotUA v o q p L)
    S' = rotUA o v p q S ∧ M' = rotUA v o q p M
      ∧ ucc_energy S'.1 S'.2 (Fa.rot o v).ov (Fb.rot p q).ov (Ia.rot o v).oovv (Ib.rot p q).oovv (J.rot o v p q).oovv = ucc_energy S.1 S.2 Fa.ov Fb.ov Ia.oovv Ib.oovv J.oovv := by
  intro S M S' M'
  have h : S' = rotUA o v p q S := ((Function.Semiconj.iterate_right (f := rotUA o v p q) (fun T => C114_u_update ho hv hp hq Fa Fb Ia Ib J T) k) T).symm
  refine ⟨h, ?_, ?_⟩
  · show (uupdateL (Fa.rot o v) (Fb.rot p q) (Ia.rot o v) (Ib.rot p q) (J.rot o v p q) eoa' eva' eob' evb' S')^[m] (rotUA v o q p L) = rotUA v o q p ((uupdateL Fa Fb Ia Ib J eoa eva eob evb S)^[m] L)
    rw [h]
    exact ((Function.Semiconj.iterate_right (f := rotUA v o q p) (fun L => C114_u_lambda_update ho hv hp hq Fa Fb Ia Ib J S L) m) L).symm
  · rw [h]
    exact Heap.C55_ucc_energy o v p q S.1 S.2 Fa.ov Fb.ov Ia.oovv Ib.oovv J.oovv
end

/-- Two degenerate virtual orbitals turned into each other, arbitrary integrals and starting amplitudes of three occupied orbitals: the same energy after every update. -/
example (F : OneE (Fin 3) (Fin 2) ℝ) (I : TwoE (Fin 3) (Fin 2) ℝ) (T : Amp ℝ (Fin 3) (Fin 2)) (k : ℕ) :
    let o : Change (Fin 3) (Fin 3) ℝ := Change.relabel (Function.Embedding.refl _)
    let v : Change (Fin 2) (Fin 2) ℝ := Change.plane (3 / 5) (4 / 5) (by norm_num)
    let e : Fin 3 → ℝ := ![-3, -2, -1]
    let S := (update F I e fun _ => 1)^[k] T
    let S' := (update (F.rot o v) (I.rot o v) e fun _ => 1)^[k] (rotA o v T)
    cc_energy S'.1 S'.2 (F.rot o v).ov (I.rot o v).oovv = cc_energy S.1 S.2 F.ov I.oovv := by
  intro o v e
  refine (C114_iterates (o := o) (v := v) (fun x i h => ?_) (fun x i _ => rfl) F I T k).2
  by_cases c : x = i
  · rw [c]
  · simp [o, Change.relabel, c] at h

section
variable [CharZero K] (F : OneE O V K) (I : TwoE O V K)
open Verif.Tensor

omit [DecidableEq O] [DecidableEq V] in
theorem start1 (a : V) (i : O) : (ccsd_simple F I (fun _ _ => 0) fun _ _ _ _ => 0).1 a i = F.vo a i := by
  tensor

omit [DecidableEq O] [DecidableEq V] in
theorem start2 (a b : V) (i j : O) : (ccsd_simple F I (fun _ _ => 0) fun _ _ _ _ => 0).2 a b i j = I.vvoo a b i j := by
  tensor

omit [DecidableEq O] [DecidableEq V] in
theorem energy1 (t : V → O → K) : cc_energy t (fun _ _ _ _ => 0) F.ov (fun _ _ _ _ => 0) = ∑ i, ∑ a, F.ov i a * t a i := by
  tensor
end

/-- C114: for orbitals of different energies this is false: the energy after the first update changes when they are rotated. -/
theorem C114_needs_level : ∃ (F : OneE (Fin 1) (Fin 2) ℝ) (I : TwoE (Fin 1) (Fin 2) ℝ) (v : Change (Fin 2) (Fin 2) ℝ) (o : Change (Fin 1) (Fin 1) ℝ),
    let e : Fin 1 → ℝ := fun _ => 0
    let f : Fin 2 → ℝ := ![1, 2]
    let S := update F I e f (fun _ _ => 0, fun _ _ _ _ => 0)
    let S' := update (F.rot o v) (I.rot o v) e f (rotA o v (fun _ _ => 0, fun _ _ _ _ => 0))
    cc_energy S'.1 S'.2 (F.rot o v).ov (I.rot o v).oovv ≠ cc_energy S.1 S.2 F.ov I.oovv := by
  let z : ∀ {A B C D : Type}, A → B → C → D → ℝ := fun _ _ _ _ => 0
  let F : OneE (Fin 1) (Fin 2) ℝ := ⟨fun _ _ => 0, fun _ a => ![1, 0] a, fun a _ => ![1, 0] a, fun _ _ => 0⟩
  let I : TwoE (Fin 1) (Fin 2) ℝ := ⟨z, z, z, z, z, z, z, z, z⟩
  let v : Change (Fin 2) (Fin 2) ℝ := Change.plane (3 / 5) (4 / 5) (by norm_num)
  let o : Change (Fin 1) (Fin 1) ℝ := Change.relabel (Function.Embedding.refl _)
  refine ⟨F, I, v, o, ?_⟩
  have r0 : rotA o v ((fun _ _ => 0, fun _ _ _ _ => 0) : Amp ℝ (Fin 1) (Fin 2)) = (fun _ _ => 0, fun _ _ _ _ => 0) :=
    Prod.ext (by funext x y; simp [rotA, rot2]) (by funext x y z w; simp [rotA, rot4])
  have z4 : ∀ {A B C D A' B' C' D' : Type} [Fintype A] [Fintype B] [Fintype C] [Fintype D] [Fintype A'] [Fintype B'] [Fintype C'] [Fintype D']
      [DecidableEq A] [DecidableEq B] [DecidableEq C] [DecidableEq D] (a : Change A A' ℝ) (b : Change B B' ℝ) (c : Change C C' ℝ) (d : Change D D' ℝ),
      rot4 a b c d (fun _ _ _ _ => 0) = fun _ _ _ _ => 0 := by
    intros; funext x y z w; simp [rot4]
  intro e f S S'
  have hI : (I.rot o v).vvoo = fun _ _ _ _ => 0 := z4 v v o o
  have hI' : (I.rot o v).oovv = fun _ _ _ _ => 0 := z4 o o v v
  have s1 : S = (fun a i => - (F.vo a i / (f a - e i)), fun _ _ _ _ => 0) := by
    refine Prod.ext ?_ ?_
    · funext a i
      simp only [S, update, start1, zero_sub]
    · funext a b i j
      simp only [S, update, start2, I, z, zero_div, sub_zero]
  have s2 : S' = (fun a i => - ((F.rot o v).vo a i / (f a - e i)), fun _ _ _ _ => 0) := by
    refine Prod.ext ?_ ?_
    · funext a i
      simp only [S', r0, update, start1, zero_sub]
    · funext a b i j
      simp only [S', r0, update, start2, hI, zero_div, sub_zero]
  rw [s1, s2, hI']
  show cc_energy _ _ (F.rot o v).ov _ ≠ cc_energy _ _ F.ov (fun _ _ _ _ => 0)
  rw [energy1, energy1]
  simp [F, OneE.rot, rot2, o, v, Change.plane, Change.relabel, Fin.sum_univ_two, e, f]
  norm_num

end CC
