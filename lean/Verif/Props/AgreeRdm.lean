import Verif.Props.Agree
import Verif.Props.RRdm
import Verif.Props.URdm
/-!
# C112: density matrices of restricted, unrestricted and generalized calculations

C17, C18 and C19 are the statements for given amplitudes and multipliers.  Here these come from any number of updates.
-/

set_option synthInstance.maxSize 100000
set_option synthInstance.maxHeartbeats 400000

namespace CC
open Verif.Tensor
variable {K : Type} [RCLike K] {O V : Type} [Fintype O] [Fintype V]

/-- C112: after `k` updates of the amplitudes and `m` updates of the multipliers the unrestricted density matrices of a closed shell are those of the restricted
calculation: the same for both spins, mixed-spin blocks equal, same-spin blocks antisymmetrised. -/
theorem C112_densities (F : OneE O V K) (I : TwoEFull O V O V K) (hI : PairI I) (eo : O → K) (ev : V → K) (T : Amp K O V) (hT : PairSym T.2) (L : Amp K V O) (hL : PairSym L.2)
    (tfac : K) (k m : ℕ) :
    let Tr := (rupdate F I eo ev)^[k] T
    let Lr := (rupdateL F I eo ev Tr)^[m] L
    let Tu := (uupdate F F (asymI I) (asymI I) I eo ev eo ev)^[k] (closedA T)
    let Lu := (uupdateL F F (asymI I) (asymI I) I eo ev eo ev Tu)^[m] (closedA L)
    (let D := rccsd_1rdm_ba Tr.1 Tr.2 Lr.1 Lr.2 tfac;
      uccsd_1rdm_ba Tu.1.1 Tu.1.2 Tu.2.1 Tu.2.2.1 Tu.2.2.2 Lu.1.1 Lu.1.2 Lu.2.1 Lu.2.2.1 Lu.2.2.2 = (D, D)) ∧
    (let D := rccsd_1rdm_ji Tr.1 Tr.2 Lr.1 Lr.2 tfac;
      uccsd_1rdm_ji Tu.1.1 Tu.1.2 Tu.2.1 Tu.2.2.1 Tu.2.2.2 Lu.1.1 Lu.1.2 Lu.2.1 Lu.2.2.1 Lu.2.2.2 = (D, D)) ∧
    (let D := rccsd_1rdm_ai Tr.1 Tr.2 Lr.1 Lr.2 tfac;
      uccsd_1rdm_ai Tu.1.1 Tu.1.2 Tu.2.1 Tu.2.2.1 Tu.2.2.2 Lu.1.1 Lu.1.2 Lu.2.1 Lu.2.2.1 Lu.2.2.2 tfac = (D, D)) ∧
    (let D := rccsd_2rdm_ciab Tr.1 Tr.2 Lr.1 Lr.2;
      uccsd_2rdm_ciab Tu.1.1 Tu.1.2 Tu.2.1 Tu.2.2.1 Tu.2.2.2 Lu.1.1 Lu.1.2 Lu.2.1 Lu.2.2.1 Lu.2.2.2
        = (fun c i a b => D c i a b - D c i b a, fun c i a b => D c i a b - D c i b a, D, D)) ∧
    (let D := rccsd_2rdm_jkai Tr.1 Tr.2 Lr.1 Lr.2;
      uccsd_2rdm_jkai Tu.1.1 Tu.1.2 Tu.2.1 Tu.2.2.1 Tu.2.2.2 Lu.1.1 Lu.1.2 Lu.2.1 Lu.2.2.1 Lu.2.2.2
        = (fun j k a i => D j k a i - D k j a i, fun j k a i => D j k a i - D k j a i, D, D)) ∧
    (let D := rccsd_2rdm_cdab Tr.1 Tr.2 Lr.1 Lr.2;
      uccsd_2rdm_cdab Tu.1.1 Tu.1.2 Tu.2.1 Tu.2.2.1 Tu.2.2.2 Lu.1.1 Lu.1.2 Lu.2.1 Lu.2.2.1 Lu.2.2.2
        = (fun c d a b => D c d a b - D c d b a, fun c d a b => D c d a b - D c d b a, D)) ∧
    (let D := rccsd_2rdm_klij Tr.1 Tr.2 Lr.1 Lr.2;
      uccsd_2rdm_klij Tu.1.1 Tu.1.2 Tu.2.1 Tu.2.2.1 Tu.2.2.2 Lu.1.1 Lu.1.2 Lu.2.1 Lu.2.2.1 Lu.2.2.2
        = (fun k l i j => D k l i j - D k l j i, fun k l i j => D k l i j - D k l j i, D)) ∧
    (let D := rccsd_2rdm_bcai Tr.1 Tr.2 Lr.1 Lr.2;
      uccsd_2rdm_bcai Tu.1.1 Tu.1.2 Tu.2.1 Tu.2.2.1 Tu.2.2.2 Lu.1.1 Lu.1.2 Lu.2.1 Lu.2.2.1 Lu.2.2.2
        = (fun b c a i => D b c a i - D c b a i, fun b c a i => D b c a i - D c b a i, D, D)) ∧
    (let D := rccsd_2rdm_kaij Tr.1 Tr.2 Lr.1 Lr.2;
      uccsd_2rdm_kaij Tu.1.1 Tu.1.2 Tu.2.1 Tu.2.2.1 Tu.2.2.2 Lu.1.1 Lu.1.2 Lu.2.1 Lu.2.2.1 Lu.2.2.2
        = (fun k a i j => D k a i j - D k a j i, fun k a i j => D k a i j - D k a j i, D, D)) ∧
    (let D := rccsd_2rdm_bjai Tr.1 Tr.2 Lr.1 Lr.2;
      let E := fun b j a i => rccsd_2rdm_bjia Tr.1 Tr.2 Lr.1 Lr.2 b j i a;
      uccsd_2rdm_bjai Tu.1.1 Tu.1.2 Tu.2.1 Tu.2.2.1 Tu.2.2.2 Lu.1.1 Lu.1.2 Lu.2.1 Lu.2.2.1 Lu.2.2.2
        = (fun b j a i => D b j a i - E b j a i, fun b j a i => D b j a i - E b j a i, D, fun b j a i => -E b j a i, fun b j a i => -E b j a i, D)) ∧
    (let D := rccsd_2rdm_abij Tr.1 Tr.2 Lr.1 Lr.2;
      uccsd_2rdm_abij Tu.1.1 Tu.1.2 Tu.2.1 Tu.2.2.1 Tu.2.2.2 Lu.1.1 Lu.1.2 Lu.2.1 Lu.2.2.1 Lu.2.2.2 1
        = (fun a b i j => D a b i j - D a b j i, fun a b i j => D a b i j - D a b j i, D)) := by
  intro Tr Lr Tu Lu
  obtain ⟨e, p⟩ := C112_iterates F I hI eo ev T hT k
  have eu : Tu = closedA Tr := e
  obtain ⟨f, q⟩ := C112_lambda_iterates F I hI eo ev Tr p L hL m
  have el : Lu = closedA Lr := by
    show (uupdateL F F (asymI I) (asymI I) I eo ev eo ev Tu)^[m] (closedA L) = _
    rw [eu]
    exact f
  rw [eu, el]
  exact ⟨C19_1rdm_ba _ _ _ _ _ q p, C19_1rdm_ji _ _ _ _ _ q p, C19_1rdm_ai _ _ _ _ _ q p, C19_2rdm_ciab _ _ _ _ q p, C19_2rdm_jkai _ _ _ _ q p,
    C19_2rdm_cdab _ _ _ _ q p, C19_2rdm_klij _ _ _ _ q p, C19_2rdm_bcai _ _ _ _ q p, C19_2rdm_kaij _ _ _ _ q p, C19_2rdm_bjai _ _ _ _ q p,
    C19_2rdm_abij _ _ _ _ q p⟩

section spin
variable {Oa Va Ob Vb : Type} [Fintype Oa] [Fintype Va] [Fintype Ob] [Fintype Vb]
  (Fa : OneE Oa Va K) (Fb : OneE Ob Vb K) (Ia : TwoE Oa Va K) (Ib : TwoE Ob Vb K) (J : TwoEFull Oa Va Ob Vb K) (hIa : AntiI Ia) (hIb : AntiI Ib)
  (eoa : Oa → K) (eva : Va → K) (eob : Ob → K) (evb : Vb → K)
include hIa hIb

/-- C112: after `k` updates of the amplitudes and `m` updates of the multipliers the spin-orbital density matrices are assembled from the unrestricted ones, for all integrals. -/
theorem C112_spin_densities (T : UAmp K Oa Va Ob Vb) (hT : UAnti T) (L : UAmp K Va Oa Vb Ob) (hL : UAnti L) (tfac : K) (k m : ℕ) :
    let Tu := (uupdate Fa Fb Ia Ib J eoa eva eob evb)^[k] T
    let Lu := (uupdateL Fa Fb Ia Ib J eoa eva eob evb Tu)^[m] L
    let Tg := (update (F_to_spin Fa Fb) (int_to_spin2 Ia Ib J) (Sum.elim eoa eob) (Sum.elim eva evb))^[k] (spun T)
    let Lg := (updateL (F_to_spin Fa Fb) (int_to_spin2 Ia Ib J) (Sum.elim eoa eob) (Sum.elim eva evb) Tg)^[m] (spun L)
    (let D := uccsd_1rdm_ba Tu.1.1 Tu.1.2 Tu.2.1 Tu.2.2.1 Tu.2.2.2 Lu.1.1 Lu.1.2 Lu.2.1 Lu.2.2.1 Lu.2.2.2;
      ccsd_1rdm_ba Tg.1 Tg.2 Lg.1 Lg.2 = blk2 D.1 D.2) ∧
    (let D := uccsd_1rdm_ji Tu.1.1 Tu.1.2 Tu.2.1 Tu.2.2.1 Tu.2.2.2 Lu.1.1 Lu.1.2 Lu.2.1 Lu.2.2.1 Lu.2.2.2;
      ccsd_1rdm_ji Tg.1 Tg.2 Lg.1 Lg.2 = blk2 D.1 D.2) ∧
    (let D := uccsd_1rdm_ai Tu.1.1 Tu.1.2 Tu.2.1 Tu.2.2.1 Tu.2.2.2 Lu.1.1 Lu.1.2 Lu.2.1 Lu.2.2.1 Lu.2.2.2 tfac;
      ccsd_1rdm_ai Tg.1 Tg.2 Lg.1 Lg.2 tfac = blk2 D.1 D.2) ∧
    (let D := uccsd_2rdm_ciab Tu.1.1 Tu.1.2 Tu.2.1 Tu.2.2.1 Tu.2.2.2 Lu.1.1 Lu.1.2 Lu.2.1 Lu.2.2.1 Lu.2.2.2;
      ccsd_2rdm_ciab Tg.1 Tg.2 Lg.1 Lg.2 = int_to_spin_block D.1 D.2.1 D.2.2.1 D.2.2.2 (fun x y z w => -D.2.2.1 x y w z) (fun x y z w => -D.2.2.2 x y w z)) ∧
    (let D := uccsd_2rdm_jkai Tu.1.1 Tu.1.2 Tu.2.1 Tu.2.2.1 Tu.2.2.2 Lu.1.1 Lu.1.2 Lu.2.1 Lu.2.2.1 Lu.2.2.2;
      ccsd_2rdm_jkai Tg.1 Tg.2 Lg.1 Lg.2 = int_to_spin_block D.1 D.2.1 D.2.2.1 D.2.2.2 (fun x y z w => -D.2.2.2 y x z w) (fun x y z w => -D.2.2.1 y x z w)) ∧
    (let D := uccsd_2rdm_cdab Tu.1.1 Tu.1.2 Tu.2.1 Tu.2.2.1 Tu.2.2.2 Lu.1.1 Lu.1.2 Lu.2.1 Lu.2.2.1 Lu.2.2.2;
      ccsd_2rdm_cdab Tg.1 Tg.2 Lg.1 Lg.2 = int_to_spin_block D.1 D.2.1 (fun x y z w => D.2.2 x y z w) (fun x y z w => D.2.2 y x w z) (fun x y z w => -D.2.2 x y w z) (fun x y z w => -D.2.2 y x z w)) ∧
    (let D := uccsd_2rdm_bjai Tu.1.1 Tu.1.2 Tu.2.1 Tu.2.2.1 Tu.2.2.2 Lu.1.1 Lu.1.2 Lu.2.1 Lu.2.2.1 Lu.2.2.2;
      ccsd_2rdm_bjai Tg.1 Tg.2 Lg.1 Lg.2 = int_to_spin_block D.1 D.2.1 D.2.2.1 D.2.2.2.2.2 D.2.2.2.1 D.2.2.2.2.1) ∧
    (let D := uccsd_2rdm_klij Tu.1.1 Tu.1.2 Tu.2.1 Tu.2.2.1 Tu.2.2.2 Lu.1.1 Lu.1.2 Lu.2.1 Lu.2.2.1 Lu.2.2.2;
      ccsd_2rdm_klij Tg.1 Tg.2 Lg.1 Lg.2 = int_to_spin_block D.1 D.2.1 (fun x y z w => D.2.2 x y z w) (fun x y z w => D.2.2 y x w z) (fun x y z w => -D.2.2 x y w z) (fun x y z w => -D.2.2 y x z w)) ∧
    (let D := uccsd_2rdm_bcai Tu.1.1 Tu.1.2 Tu.2.1 Tu.2.2.1 Tu.2.2.2 Lu.1.1 Lu.1.2 Lu.2.1 Lu.2.2.1 Lu.2.2.2;
      ccsd_2rdm_bcai Tg.1 Tg.2 Lg.1 Lg.2 = int_to_spin_block D.1 D.2.1 D.2.2.1 D.2.2.2 (fun x y z w => -D.2.2.2 y x z w) (fun x y z w => -D.2.2.1 y x z w)) ∧
    (let D := uccsd_2rdm_kaij Tu.1.1 Tu.1.2 Tu.2.1 Tu.2.2.1 Tu.2.2.2 Lu.1.1 Lu.1.2 Lu.2.1 Lu.2.2.1 Lu.2.2.2;
      ccsd_2rdm_kaij Tg.1 Tg.2 Lg.1 Lg.2 = int_to_spin_block D.1 D.2.1 D.2.2.1 D.2.2.2 (fun x y z w => -D.2.2.1 x y w z) (fun x y z w => -D.2.2.2 x y w z)) ∧
    (let D := uccsd_2rdm_abij Tu.1.1 Tu.1.2 Tu.2.1 Tu.2.2.1 Tu.2.2.2 Lu.1.1 Lu.1.2 Lu.2.1 Lu.2.2.1 Lu.2.2.2 tfac;
      ccsd_2rdm_abij Tg.1 Tg.2 Lg.1 Lg.2 tfac = T2_to_spin D.1 D.2.2 D.2.1) := by
  intro Tu Lu Tg Lg
  obtain ⟨e, a⟩ := C112_spin_iterates Fa Fb Ia Ib J hIa hIb eoa eva eob evb T hT k
  have eg : Tg = spun Tu := e
  obtain ⟨f, b⟩ := C112_spin_lambda_iterates Fa Fb Ia Ib J hIa hIb eoa eva eob evb Tu a L hL m
  have el : Lg = spun Lu := by
    show (updateL (F_to_spin Fa Fb) (int_to_spin2 Ia Ib J) (Sum.elim eoa eob) (Sum.elim eva evb) Tg)^[m] (spun L) = _
    rw [eg]
    exact f
  rw [eg, el]
  exact ⟨C17_ba _ _ _ _ _ _ _ _ _ _ a.1 a.2 b.1 b.2,
    C17_ji _ _ _ _ _ _ _ _ _ _ a.1 a.2 b.1 b.2,
    C17_ai _ _ _ _ _ _ _ _ _ _ _ a.1 a.2 b.1 b.2,
    C18_ciab _ _ _ _ _ _ _ _ _ _ a.1 a.2 b.1 b.2,
    C18_jkai _ _ _ _ _ _ _ _ _ _ a.1 a.2 b.1 b.2,
    C18_cdab _ _ _ _ _ _ _ _ _ _ a.1 a.2 b.1 b.2,
    C18_bjai _ _ _ _ _ _ _ _ _ _ a.1 a.2 b.1 b.2,
    C18_klij _ _ _ _ _ _ _ _ _ _ a.1 a.2 b.1 b.2,
    C18_bcai _ _ _ _ _ _ _ _ _ _ a.1 a.2 b.1 b.2,
    C18_kaij _ _ _ _ _ _ _ _ _ _ a.1 a.2 b.1 b.2,
    C18_abij _ _ _ _ _ _ _ _ _ _ _ a.1 a.2 b.1 b.2⟩

end spin

/-- Two doubly occupied orbitals and one virtual one, all integrals 1, orbital energies -1 and 1: the occupied density matrices after `k` updates of the amplitudes
and `m` of the multipliers. -/
example (k m : ℕ) : let F : OneE (Fin 2) (Fin 1) ℝ := ⟨fun _ _ => 1, fun _ _ => 1, fun _ _ => 1, fun _ _ => 1⟩
    let c : ∀ {A B C D : Type}, A → B → C → D → ℝ := fun _ _ _ _ => 1
    let I : TwoEFull (Fin 2) (Fin 1) (Fin 2) (Fin 1) ℝ := ⟨c, c, c, c, c, c, c, c, c, c, c, c, c, c, c, c⟩
    let Tr := (rupdate F I (fun _ => -1) fun _ => 1)^[k] (0 : Amp ℝ (Fin 2) (Fin 1))
    let Lr := (rupdateL F I (fun _ => -1) (fun _ => 1) Tr)^[m] (0 : Amp ℝ (Fin 1) (Fin 2))
    let Tu := (uupdate F F (asymI I) (asymI I) I (fun _ => -1) (fun _ => 1) (fun _ => -1) fun _ => 1)^[k] (closedA (0 : Amp ℝ (Fin 2) (Fin 1)))
    let Lu := (uupdateL F F (asymI I) (asymI I) I (fun _ => -1) (fun _ => 1) (fun _ => -1) (fun _ => 1) Tu)^[m] (closedA (0 : Amp ℝ (Fin 1) (Fin 2)))
    uccsd_1rdm_ji Tu.1.1 Tu.1.2 Tu.2.1 Tu.2.2.1 Tu.2.2.2 Lu.1.1 Lu.1.2 Lu.2.1 Lu.2.2.1 Lu.2.2.2
      = (rccsd_1rdm_ji Tr.1 Tr.2 Lr.1 Lr.2 1, rccsd_1rdm_ji Tr.1 Tr.2 Lr.1 Lr.2 1) := by
  intro F c I Tr Lr Tu Lu
  have h := (C112_densities F I (by constructor <;> intros <;> rfl) (fun _ => -1) (fun _ => 1) 0 (fun _ _ _ _ => rfl) 0 (fun _ _ _ _ => rfl) 1 k m).2.1
  exact h

/-- The same data, started from zero: the spin-orbital density matrix has no block that flips a spin. -/
example (k m : ℕ) : let F : OneE (Fin 2) (Fin 1) ℝ := ⟨fun _ _ => 1, fun _ _ => 1, fun _ _ => 1, fun _ _ => 1⟩
    let c : ∀ {A B C D : Type}, A → B → C → D → ℝ := fun _ _ _ _ => 1
    let I : TwoEFull (Fin 2) (Fin 1) (Fin 2) (Fin 1) ℝ := ⟨c, c, c, c, c, c, c, c, c, c, c, c, c, c, c, c⟩
    let T := (update (F_to_spin F F) (int_to_spin2 (asymI I) (asymI I) I) (Sum.elim (fun _ => -1) fun _ => -1) (Sum.elim (fun _ => 1) fun _ => 1))^[k] (spun 0)
    let L := (updateL (F_to_spin F F) (int_to_spin2 (asymI I) (asymI I) I) (Sum.elim (fun _ => -1) fun _ => -1) (Sum.elim (fun _ => 1) fun _ => 1) T)^[m] (spun 0)
    ccsd_1rdm_ji T.1 T.2 L.1 L.2 (Sum.inl 0) (Sum.inr 1) = 0 := by
  intro F c I T L
  have h : PairI I := by constructor <;> intros <;> rfl
  have z : ∀ {P Q R S : Type}, UAnti (0 : UAmp ℝ P Q R S) := ⟨⟨fun _ _ _ _ => neg_zero.symm, fun _ _ _ _ => neg_zero.symm⟩, ⟨fun _ _ _ _ => neg_zero.symm, fun _ _ _ _ => neg_zero.symm⟩⟩
  have d := (C112_spin_densities F F (asymI I) (asymI I) I (asymI_anti h) (asymI_anti h) (fun _ => -1) (fun _ => 1) (fun _ => -1) (fun _ => 1) 0 z 0 z 1 k m).2.1
  exact (congrFun (congrFun d (Sum.inl 0)) (Sum.inr 1)).trans rfl

end CC
