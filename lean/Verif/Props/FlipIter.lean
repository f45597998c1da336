import Verif.Props.Agree
/-!
# C45: spin flip in whole unrestricted calculations
-/

set_option synthInstance.maxSize 100000
set_option synthInstance.maxHeartbeats 400000

namespace CC
variable {K : Type} [RCLike K] {Oa Va Ob Vb : Type}

/-- Unrestricted amplitudes (or multipliers) with the spins exchanged. -/
def flipU (T : UAmp K Oa Va Ob Vb) : UAmp K Ob Vb Oa Va := ((T.1.2, T.1.1), (T.2.2.2, fun b a j i => T.2.2.1 a b i j, T.2.1))

variable [Fintype Oa] [Fintype Va] [Fintype Ob] [Fintype Vb]
  (Fa : OneE Oa Va K) (Fb : OneE Ob Vb K) (Ia : TwoE Oa Va K) (Ib : TwoE Ob Vb K) (J : TwoEFull Oa Va Ob Vb K) (hIa : AntiI Ia) (hIb : AntiI Ib)
  (eoa : Oa → K) (eva : Va → K) (eob : Ob → K) (evb : Vb → K)
include hIa hIb

/-- C45: an update of the amplitudes with exchanged spins. -/
theorem C45_update (T : UAmp K Oa Va Ob Vb) (hT : UAnti T) :
    uupdate Fb Fa Ib Ia J.flip eob evb eoa eva (flipU T) = flipU (uupdate Fa Fb Ia Ib J eoa eva eob evb T) := by
  have h := C45_uccsd Fa Fb Ia Ib J T.1.1 T.1.2 T.2.1 T.2.2.1 T.2.2.2 hIa hIb hT.1 hT.2
  simp only [uupdate, flipU, h]
  refine Prod.ext rfl (Prod.ext rfl (Prod.ext ?_ rfl))
  funext b a j i
  dsimp only
  rw [show evb b + eva a - eob j - eoa i = eva a + evb b - eoa i - eob j by ring]

/-- C45: an update of the multipliers with exchanged spins. -/
theorem C45_lambda_update (T : UAmp K Oa Va Ob Vb) (hT : UAnti T) (L : UAmp K Va Oa Vb Ob) (hL : UAnti L) :
    uupdateL Fb Fa Ib Ia J.flip eob evb eoa eva (flipU T) (flipU L) = flipU (uupdateL Fa Fb Ia Ib J eoa eva eob evb T L) := by
  have h := C45_uccsd_lambda Fa Fb Ia Ib J L.1.1 L.1.2 L.2.1 L.2.2.1 L.2.2.2 T.1.1 T.1.2 T.2.1 T.2.2.1 T.2.2.2 hIa hIb hT.1 hT.2 hL.1 hL.2
  simp only [uupdateL, flipU, h]
  refine Prod.ext rfl (Prod.ext rfl (Prod.ext ?_ rfl))
  funext j i b a
  dsimp only
  rw [show evb b + eva a - eob j - eoa i = eva a + evb b - eoa i - eob j by ring]

/-- C45: whole calculations with exchanged spins: amplitudes and multipliers are exchanged, the energy is the same after every update. -/
theorem C45_iterates (T : UAmp K Oa Va Ob Vb) (hT : UAnti T) (L : UAmp K Va Oa Vb Ob) (hL : UAnti L) (k m : ℕ) :
    let S := (uupdate Fa Fb Ia Ib J eoa eva eob evb)^[k] T
    let M := (uupdateL Fa Fb Ia Ib J eoa eva eob evb S)^[m] L
    let S' := (uupdate Fb Fa Ib Ia J.flip eob evb eoa eva)^[k] (flipU T)
    let M' := (uupdateL Fb Fa Ib Ia J.flip eob evb eoa eva S')^[m] (flipU L)
    S' = flipU S ∧ M' = flipU M ∧ ucc_energy S'.1 S'.2 Fb.ov Fa.ov Ib.oovv Ia.oovv J.flip.oovv = ucc_energy S.1 S.2 Fa.ov Fb.ov Ia.oovv Ib.oovv J.oovv := by
  intro S M S' M'
  have aT : ∀ k, UAnti ((uupdate Fa Fb Ia Ib J eoa eva eob evb)^[k] T) := fun k => (C112_spin_iterates Fa Fb Ia Ib J hIa hIb eoa eva eob evb T hT k).2
  have h : S' = flipU S := by
    show (uupdate Fb Fa Ib Ia J.flip eob evb eoa eva)^[k] (flipU T) = flipU ((uupdate Fa Fb Ia Ib J eoa eva eob evb)^[k] T)
    clear S M S' M'
    induction k with
    | zero => rfl
    | succ k ih => rw [Function.iterate_succ_apply', ih, C45_update Fa Fb Ia Ib J hIa hIb eoa eva eob evb _ (aT k), Function.iterate_succ_apply']
  have aS : UAnti S := aT k
  have aL : ∀ m, UAnti ((uupdateL Fa Fb Ia Ib J eoa eva eob evb S)^[m] L) := fun m => (C112_spin_lambda_iterates Fa Fb Ia Ib J hIa hIb eoa eva eob evb S aS L hL m).2
  refine ⟨h, ?_, ?_⟩
  · show (uupdateL Fb Fa Ib Ia J.flip eob evb eoa eva S')^[m] (flipU L) = flipU ((uupdateL Fa Fb Ia Ib J eoa eva eob evb S)^[m] L)
    rw [h]
    clear M'
    clear M
    induction m with
    | zero => rfl
    | succ m ih => rw [Function.iterate_succ_apply', ih, C45_lambda_update Fa Fb Ia Ib J hIa hIb eoa eva eob evb S aS _ (aL m), Function.iterate_succ_apply']
  · rw [h]
    exact C45_ucc_energy Fa.ov Fb.ov Ia.oovv Ib.oovv J.oovv S.1.1 S.1.2 S.2.1 S.2.2.1 S.2.2.2

omit hIb in
/-- C45: a calculation with equal spins that starts from amplitudes of equal spins never breaks the symmetry, whatever the integrals. -/
theorem C45_unbroken (J : TwoEFull Oa Va Oa Va K) (hJ : J.flip = J) (T : UAmp K Oa Va Oa Va) (hT : UAnti T) (h : flipU T = T) (k : ℕ) :
    flipU ((uupdate Fa Fa Ia Ia J eoa eva eoa eva)^[k] T) = (uupdate Fa Fa Ia Ia J eoa eva eoa eva)^[k] T := by
  have aT : ∀ k, UAnti ((uupdate Fa Fa Ia Ia J eoa eva eoa eva)^[k] T) := fun k => (C112_spin_iterates Fa Fa Ia Ia J hIa hIa eoa eva eoa eva T hT k).2
  induction k with
  | zero => exact h
  | succ k ih =>
    rw [Function.iterate_succ_apply', ← C45_update Fa Fa Ia Ia J hIa hIa eoa eva eoa eva _ (aT k), ih, hJ]

/-- Two electrons of one spin and one of the other, one and two virtual orbitals, from zero. -/
example (k : ℕ) : let F : ∀ n m, OneE (Fin n) (Fin m) ℝ := fun _ _ => ⟨fun _ _ => 1, fun _ _ => 1, fun _ _ => 1, fun _ _ => 1⟩
    let z : ∀ {A B C D : Type}, A → B → C → D → ℝ := fun _ _ _ _ => 0
    let I : ∀ n m, TwoE (Fin n) (Fin m) ℝ := fun _ _ => ⟨z, z, z, z, fun _ _ _ _ => 1, z, z, z, z⟩
    let c : ∀ {A B C D : Type}, A → B → C → D → ℝ := fun _ _ _ _ => 1
    let J : TwoEFull (Fin 2) (Fin 1) (Fin 1) (Fin 2) ℝ := ⟨c, c, c, c, c, c, c, c, c, c, c, c, c, c, c, c⟩
    let S := (uupdate (F 2 1) (F 1 2) (I 2 1) (I 1 2) J (fun _ => -1) (fun _ => 1) (fun _ => -2) (fun _ => 2))^[k] 0
    let S' := (uupdate (F 1 2) (F 2 1) (I 1 2) (I 2 1) J.flip (fun _ => -2) (fun _ => 2) (fun _ => -1) (fun _ => 1))^[k] (flipU 0)
    S'.1.1 = S.1.2 := by
  intro F z I c J S S'
  have zA : ∀ {P Q : Type}, Anti (fun (_ _ : P) (_ _ : Q) => (0 : ℝ)) := fun {P Q} => ⟨fun _ _ _ _ => neg_zero.symm, fun _ _ _ _ => neg_zero.symm⟩
  have hI : ∀ n m, AntiI (I n m) := fun n m => by constructor <;> intro _ _ _ _ <;> exact neg_zero.symm
  have h := (C45_iterates (F 2 1) (F 1 2) (I 2 1) (I 1 2) J (hI 2 1) (hI 1 2) (fun _ => -1) (fun _ => 1) (fun _ => -2) (fun _ => 2) 0 ⟨zA, zA⟩ 0 ⟨zA, zA⟩ k 0).1
  exact congrArg (fun T : UAmp ℝ (Fin 1) (Fin 2) (Fin 2) (Fin 1) => T.1.1) h

end CC
