import Verif.Props.RotG
import Verif.Props.RotU
import Verif.Props.RotR
import Mathlib.Algebra.Order.Field.Rat
import Mathlib.Tactic.NormNum
import Mathlib.Tactic.Ring
import Mathlib.Tactic.FinCases
import Mathlib.Data.Fintype.BigOperators
/-!
# C55: consequences and cases
-/

namespace CC
variable {O V P Q O' V' P' Q' A B K : Type} [Field K] [Fintype O] [Fintype V] [Fintype P] [Fintype Q]
variable [Fintype O'] [Fintype V'] [Fintype P'] [Fintype Q'] [DecidableEq O] [DecidableEq V] [DecidableEq P] [DecidableEq Q]
variable [Fintype A] [Fintype B] [DecidableEq A]

/-- Orbitals under other numbers, and further orbitals not coupled to them. -/
def Change.relabel [DecidableEq B] (e : A ↪ B) : Change A B K where
  bra x i := if x = e i then 1 else 0
  ket i x := if x = e i then 1 else 0
  inv i j := by
    simp only [mul_ite, mul_one, mul_zero, Finset.sum_ite_eq', Finset.mem_univ, if_true]
    simp [eq_comm]

/-- Rotation in the plane of two orbitals. -/
def Change.plane (c s : K) (h : c * c + s * s = 1) : Change (Fin 2) (Fin 2) K where
  bra x i := ![![c, s], ![-s, c]] x i
  ket i x := ![![c, -s], ![s, c]] i x
  inv i j := by
    fin_cases i <;> fin_cases j <;> simp [Fin.sum_univ_two]
    · exact h
    · ring
    · ring
    · rw [add_comm]; exact h

/-- For renumbered orbitals the transformed matrix has the same elements in the new places. -/
theorem rot2_relabel {C D : Type} [Fintype C] [Fintype D] [DecidableEq B] [DecidableEq C] [DecidableEq D] (e : A ↪ B) (e' : C ↪ D) (t : A → C → K) (i : A) (j : C) :
    rot2 (Change.relabel e) (Change.relabel e') t (e i) (e' j) = t i j := by
  simp [rot2, Change.relabel]

/-- Converged amplitudes are converged in the new basis, and the energy is the same. -/
theorem C55_converged (o : Change O O' K) (v : Change V V' K) (F : OneE O V K) (I : TwoE O V K) (T1 : V → O → K) (T2 : V → V → O → O → K)
    (h : ccsd_stanton F I T1 T2 = (0, 0)) :
    ccsd_stanton (F.rot o v) (I.rot o v) (rot2 v o T1) (rot4 v v o o T2) = (0, 0) ∧
      cc_energy (rot2 v o T1) (rot4 v v o o T2) (F.rot o v).ov (I.rot o v).oovv = cc_energy T1 T2 F.ov I.oovv := by
  refine ⟨?_, Heap.C55_cc_energy o v T1 T2 F.ov I.oovv⟩
  rw [Heap.C55_ccsd_stanton, h]
  refine Prod.ext ?_ ?_
  · funext a i
    simp [rot2]
  · funext a b i j
    simp [rot4]

/-- The same with open shells, where the two spins have their own orbitals. -/
theorem C55_converged_u (o : Change O O' K) (v : Change V V' K) (p : Change P P' K) (q : Change Q Q' K) (Fa : OneE O V K) (Fb : OneE P Q K)
    (Ia : TwoE O V K) (Ib : TwoE P Q K) (Iab : TwoEFull O V P Q K) (T1 : (V → O → K) × (Q → P → K))
    (T2 : (V → V → O → O → K) × (V → Q → O → P → K) × (Q → Q → P → P → K)) (h : uccsd_stanton Fa Fb Ia Ib Iab T1 T2 = ((0, 0), (0, 0, 0))) :
    uccsd_stanton (Fa.rot o v) (Fb.rot p q) (Ia.rot o v) (Ib.rot p q) (Iab.rot o v p q) (rot2 v o T1.1, rot2 q p T1.2)
        (rot4 v v o o T2.1, rot4 v q o p T2.2.1, rot4 q q p p T2.2.2) = ((0, 0), (0, 0, 0)) ∧
      ucc_energy (rot2 v o T1.1, rot2 q p T1.2) (rot4 v v o o T2.1, rot4 v q o p T2.2.1, rot4 q q p p T2.2.2)
        (Fa.rot o v).ov (Fb.rot p q).ov (Ia.rot o v).oovv (Ib.rot p q).oovv (Iab.rot o v p q).oovv =
        ucc_energy T1 T2 Fa.ov Fb.ov Ia.oovv Ib.oovv Iab.oovv := by
  refine ⟨?_, Heap.C55_ucc_energy o v p q T1 T2 Fa.ov Fb.ov Ia.oovv Ib.oovv Iab.oovv⟩
  rw [Heap.C55_uccsd_stanton, h]
  refine Prod.ext (Prod.ext ?_ ?_) (Prod.ext ?_ (Prod.ext ?_ ?_)) <;> (funext; simp [rot2, rot4])

/-- A rotation by an angle with the cosine 3/5 changes the amplitudes, ... -/
example : rot2 (Change.plane (3/5 : ℚ) (4/5) (by norm_num)) (Change.relabel (Function.Embedding.refl (Fin 1))) (fun a _ => (a.val : ℚ) + 1) 0 0 =
    11/5 := by
  norm_num [rot2, Change.plane, Change.relabel, Fin.sum_univ_two]

/-- ... the integrals, and not the energy `∑ f_ia t_ai` of one electron. -/
example : cc_energy_s1 (rot2 (Change.plane (3/5 : ℚ) (4/5) (by norm_num)) (Change.relabel (Function.Embedding.refl (Fin 1))) fun a _ => (a.val : ℚ) + 1)
    (rot2 (Change.relabel (Function.Embedding.refl (Fin 1))) (Change.plane (3/5 : ℚ) (4/5) (by norm_num)) fun _ a => (a.val : ℚ) + 5) = 17 := by
  rw [Heap.C55_cc_energy_s1]
  norm_num [cc_energy_s1, Fin.sum_univ_two]

/-- One orbital among two. -/
example : Change (Fin 1) (Fin 2) ℚ := Change.relabel (Fin.castLEEmb (by norm_num))

end CC
