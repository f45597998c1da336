import Verif.Spec.Separate
import Verif.Props.Num
import Verif.Props.Sep
import Verif.Props.SepL
/-!
# C52: size consistency of the unrestricted routines

The orbitals of each spin of the combined system are those of the two subsystems.  Put in spin orbitals, its tensors are those of two
generalized subsystems with the spin orbitals in another order (`swap`), so that C12, C13, C15 and C17 carry the generalized statements over.
-/
set_option linter.unusedSectionVars false
set_option linter.unusedVariables false
namespace CC
open Verif.Tensor

variable {K : Type} [Field K] [CharZero K] {Oa Va Ob Vb Oa' Va' Ob' Vb' : Type} [Fintype Oa] [Fintype Va] [Fintype Ob] [Fintype Vb]
  [Fintype Oa'] [Fintype Va'] [Fintype Ob'] [Fintype Vb']

namespace Sep

/-- Integrals between electrons of different spins of the separated system. -/
def ab (I : TwoEFull Oa Va Ob Vb K) (J : TwoEFull Oa' Va' Ob' Vb' K) : TwoEFull (Oa ⊕ Oa') (Va ⊕ Va') (Ob ⊕ Ob') (Vb ⊕ Vb') K where
  oooo := four I.oooo J.oooo
  ooov := four I.ooov J.ooov
  oovo := four I.oovo J.oovo
  oovv := four I.oovv J.oovv
  ovoo := four I.ovoo J.ovoo
  ovov := four I.ovov J.ovov
  ovvo := four I.ovvo J.ovvo
  ovvv := four I.ovvv J.ovvv
  vooo := four I.vooo J.vooo
  voov := four I.voov J.voov
  vovo := four I.vovo J.vovo
  vovv := four I.vovv J.vovv
  vvoo := four I.vvoo J.vvoo
  vvov := four I.vvov J.vvov
  vvvo := four I.vvvo J.vvvo
  vvvv := four I.vvvv J.vvvv

/-- Spin orbitals ordered by spin and by subsystem. -/
def swap (A B A' B' : Type) : (A ⊕ A') ⊕ (B ⊕ B') ≃ (A ⊕ B) ⊕ (A' ⊕ B') := Equiv.sumSumSumComm A A' B B'

theorem four_anti12 {P R S P' R' S' : Type} {A : P → P → R → S → K} {B : P' → P' → R' → S' → K} (hA : Anti12 A) (hB : Anti12 B) : Anti12 (four A B) := by
  rintro (x | x) (y | y) (z | z) (w | w) <;> first | exact hA _ _ _ _ | exact hB _ _ _ _ | exact neg_zero.symm

theorem four_anti34 {P R S P' R' S' : Type} {A : P → R → S → S → K} {B : P' → R' → S' → S' → K} (hA : Anti34 A) (hB : Anti34 B) : Anti34 (four A B) := by
  rintro (x | x) (y | y) (z | z) (w | w) <;> first | exact hA _ _ _ _ | exact hB _ _ _ _ | exact neg_zero.symm

theorem four_anti {P Q P' Q' : Type} {A : P → P → Q → Q → K} {B : P' → P' → Q' → Q' → K} (hA : Anti A) (hB : Anti B) : Anti (four A B) :=
  ⟨four_anti12 hA.1 hB.1, four_anti34 hA.2 hB.2⟩

theorem int_anti {O V O' V' : Type} {I : TwoE O V K} {J : TwoE O' V' K} (hI : AntiI I) (hJ : AntiI J) : AntiI (int I J) where
  vvvv12 := four_anti12 hI.vvvv12 hJ.vvvv12
  vvvv34 := four_anti34 hI.vvvv34 hJ.vvvv34
  vvvo12 := four_anti12 hI.vvvo12 hJ.vvvo12
  vovv34 := four_anti34 hI.vovv34 hJ.vovv34
  vvoo12 := four_anti12 hI.vvoo12 hJ.vvoo12
  vvoo34 := four_anti34 hI.vvoo34 hJ.vvoo34
  oovv12 := four_anti12 hI.oovv12 hJ.oovv12
  oovv34 := four_anti34 hI.oovv34 hJ.oovv34
  vooo34 := four_anti34 hI.vooo34 hJ.vooo34
  ooov12 := four_anti12 hI.ooov12 hJ.ooov12
  oooo12 := four_anti12 hI.oooo12 hJ.oooo12
  oooo34 := four_anti34 hI.oooo34 hJ.oooo34
theorem fourX_anti {P Q P' Q' : Type} {A : P → P → Q → Q → K} {B : P' → P' → Q' → Q' → K} (X : P → P' → Q → Q' → K) (hA : Anti A) (hB : Anti B) :
    Anti (fourX A B X) := by
  constructor <;> rintro (x | x) (y | y) (z | z) (w | w) <;>
    first | exact hA.1 _ _ _ _ | exact hB.1 _ _ _ _ | exact hA.2 _ _ _ _ | exact hB.2 _ _ _ _ | exact neg_zero.symm | rfl | exact (neg_neg _).symm

/-- Multipliers of opposite spins with elements that couple the subsystems: `Xab`, `Xba` excite one electron in each, keeping its spin; `Xe`,
`Xf` flip the two spins. -/
def fourU (A : Oa → Ob → Va → Vb → K) (B : Oa' → Ob' → Va' → Vb' → K) (Xab : Oa → Ob' → Va → Vb' → K) (Xba : Ob → Oa' → Vb → Va' → K)
    (Xe : Oa → Ob' → Vb → Va' → K) (Xf : Ob → Oa' → Va → Vb' → K) : Oa ⊕ Oa' → Ob ⊕ Ob' → Va ⊕ Va' → Vb ⊕ Vb' → K
  | .inl i, .inl j, .inl a, .inl b => A i j a b
  | .inr i, .inr j, .inr a, .inr b => B i j a b
  | .inl i, .inr j, .inl a, .inr b => Xab i j a b
  | .inr i, .inl j, .inr a, .inl b => Xba j i b a
  | .inl i, .inr j, .inr a, .inl b => -Xe i j b a
  | .inr i, .inl j, .inl a, .inr b => -Xf j i a b
  | _, _, _, _ => 0

/-- The coupling elements in spin orbitals. -/
def spinX (Xaa : Oa → Oa' → Va → Va' → K) (Xbb : Ob → Ob' → Vb → Vb' → K) (Xab : Oa → Ob' → Va → Vb' → K) (Xba : Ob → Oa' → Vb → Va' → K)
    (Xe : Oa → Ob' → Vb → Va' → K) (Xf : Ob → Oa' → Va → Vb' → K) : Oa ⊕ Ob → Oa' ⊕ Ob' → Va ⊕ Vb → Va' ⊕ Vb' → K
  | .inl i, .inl j, .inl a, .inl b => Xaa i j a b
  | .inr i, .inr j, .inr a, .inr b => Xbb i j a b
  | .inl i, .inr j, .inl a, .inr b => Xab i j a b
  | .inr i, .inl j, .inr a, .inl b => Xba i j a b
  | .inl i, .inr j, .inr a, .inl b => Xe i j a b
  | .inr i, .inl j, .inl a, .inr b => Xf i j a b
  | _, _, _, _ => 0

end Sep

variable (Fa : OneE Oa Va K) (Fb : OneE Ob Vb K) (Ia : TwoE Oa Va K) (Ib : TwoE Ob Vb K) (Iab : TwoEFull Oa Va Ob Vb K)
  (T1a : Va → Oa → K) (T1b : Vb → Ob → K) (T2aa : Va → Va → Oa → Oa → K) (T2ab : Va → Vb → Oa → Ob → K) (T2bb : Vb → Vb → Ob → Ob → K)
  (Ga : OneE Oa' Va' K) (Gb : OneE Ob' Vb' K) (Ja : TwoE Oa' Va' K) (Jb : TwoE Ob' Vb' K) (Jab : TwoEFull Oa' Va' Ob' Vb' K)
  (U1a : Va' → Oa' → K) (U1b : Vb' → Ob' → K) (U2aa : Va' → Va' → Oa' → Oa' → K) (U2ab : Va' → Vb' → Oa' → Ob' → K)
  (U2bb : Vb' → Vb' → Ob' → Ob' → K)

theorem sep_F : F_to_spin (Sep.one Fa Ga) (Sep.one Fb Gb) = (Sep.one (F_to_spin Fa Fb) (F_to_spin Ga Gb)).map (Sep.swap ..) (Sep.swap ..) := by
  simp only [F_to_spin, Sep.one, OneE.map, OneE.mk.injEq]
  refine ⟨?_, ?_, ?_, ?_⟩ <;>
  · funext x y
    rcases x with (x | x) | (x | x) <;> rcases y with (y | y) | (y | y) <;> rfl

theorem sep_T1 : T1_to_spin (Sep.two T1a U1a) (Sep.two T1b U1b) = map2 (Sep.swap ..) (Sep.swap ..) (Sep.two (T1_to_spin T1a T1b) (T1_to_spin U1a U1b)) := by
  funext x y
  rcases x with (x | x) | (x | x) <;> rcases y with (y | y) | (y | y) <;> rfl

theorem sep_T2 : T2_to_spin (Sep.four T2aa U2aa) (Sep.four T2ab U2ab) (Sep.four T2bb U2bb)
    = map4 (Sep.swap ..) (Sep.swap ..) (Sep.swap ..) (Sep.swap ..) (Sep.four (T2_to_spin T2aa T2ab T2bb) (T2_to_spin U2aa U2ab U2bb)) := by
  funext x y z w
  rcases x with (x | x) | (x | x) <;> rcases y with (y | y) | (y | y) <;> rcases z with (z | z) | (z | z) <;>
    rcases w with (w | w) | (w | w) <;> first | rfl | exact neg_zero

theorem sep_I : int_to_spin2 (Sep.int Ia Ja) (Sep.int Ib Jb) (Sep.ab Iab Jab)
    = (Sep.int (int_to_spin2 Ia Ib Iab) (int_to_spin2 Ja Jb Jab)).map (Sep.swap ..) (Sep.swap ..) := by
  simp only [int_to_spin2, Sep.int, Sep.ab, TwoE.map, TwoE.mk.injEq]
  refine ⟨?_, ?_, ?_, ?_, ?_, ?_, ?_, ?_, ?_⟩ <;>
  · funext x y z w
    rcases x with (x | x) | (x | x) <;> rcases y with (y | y) | (y | y) <;> rcases z with (z | z) | (z | z) <;>
      rcases w with (w | w) | (w | w) <;> first | rfl | exact neg_zero

/-- C52: the unrestricted energy of the separated system is the sum of the energies. -/
theorem C52_ucc_energy :
    ucc_energy (Sep.two T1a U1a, Sep.two T1b U1b) (Sep.four T2aa U2aa, Sep.four T2ab U2ab, Sep.four T2bb U2bb) (Sep.two Fa.ov Ga.ov)
      (Sep.two Fb.ov Gb.ov) (Sep.four Ia.oovv Ja.oovv) (Sep.four Ib.oovv Jb.oovv) (Sep.four Iab.oovv Jab.oovv)
    = ucc_energy (T1a, T1b) (T2aa, T2ab, T2bb) Fa.ov Fb.ov Ia.oovv Ib.oovv Iab.oovv
      + ucc_energy (U1a, U1b) (U2aa, U2ab, U2bb) Ga.ov Gb.ov Ja.oovv Jb.oovv Jab.oovv := by
  have h := C12_ucc_energy (Sep.one Fa Ga) (Sep.one Fb Gb) (Sep.int Ia Ja) (Sep.int Ib Jb) (Sep.ab Iab Jab) (Sep.two T1a U1a) (Sep.two T1b U1b)
    (Sep.four T2aa U2aa) (Sep.four T2ab U2ab) (Sep.four T2bb U2bb)
  rw [sep_F, sep_T1, sep_T2, sep_I, OneE.map_ov, TwoE.map_oovv, cc_energy_map, C52_energy, C12_ucc_energy, C12_ucc_energy] at h
  exact h.symm

section amplitudes
variable (hIa : AntiI Ia) (hIb : AntiI Ib) (hTa : Anti T2aa) (hTb : Anti T2bb) (hJa : AntiI Ja) (hJb : AntiI Jb) (hUa : Anti U2aa) (hUb : Anti U2bb)
include hIa hIb hTa hTb hJa hJb hUa hUb

/-- C52: the unrestricted CCSD equations of the separated system are those of the subsystems. -/
theorem C52_uccsd :
    uccsd_stanton (Sep.one Fa Ga) (Sep.one Fb Gb) (Sep.int Ia Ja) (Sep.int Ib Jb) (Sep.ab Iab Jab) (Sep.two T1a U1a, Sep.two T1b U1b)
      (Sep.four T2aa U2aa, Sep.four T2ab U2ab, Sep.four T2bb U2bb)
    = ((Sep.two (uccsd_stanton Fa Fb Ia Ib Iab (T1a, T1b) (T2aa, T2ab, T2bb)).1.1 (uccsd_stanton Ga Gb Ja Jb Jab (U1a, U1b) (U2aa, U2ab, U2bb)).1.1,
        Sep.two (uccsd_stanton Fa Fb Ia Ib Iab (T1a, T1b) (T2aa, T2ab, T2bb)).1.2 (uccsd_stanton Ga Gb Ja Jb Jab (U1a, U1b) (U2aa, U2ab, U2bb)).1.2),
       (Sep.four (uccsd_stanton Fa Fb Ia Ib Iab (T1a, T1b) (T2aa, T2ab, T2bb)).2.1 (uccsd_stanton Ga Gb Ja Jb Jab (U1a, U1b) (U2aa, U2ab, U2bb)).2.1,
        Sep.four (uccsd_stanton Fa Fb Ia Ib Iab (T1a, T1b) (T2aa, T2ab, T2bb)).2.2.1
          (uccsd_stanton Ga Gb Ja Jb Jab (U1a, U1b) (U2aa, U2ab, U2bb)).2.2.1,
        Sep.four (uccsd_stanton Fa Fb Ia Ib Iab (T1a, T1b) (T2aa, T2ab, T2bb)).2.2.2
          (uccsd_stanton Ga Gb Ja Jb Jab (U1a, U1b) (U2aa, U2ab, U2bb)).2.2.2)) := by
  rw [← C13_uccsd_extract (Sep.one Fa Ga) (Sep.one Fb Gb) (Sep.int Ia Ja) (Sep.int Ib Jb) (Sep.ab Iab Jab) (Sep.two T1a U1a) (Sep.two T1b U1b)
    (Sep.four T2aa U2aa) (Sep.four T2ab U2ab) (Sep.four T2bb U2bb) (Sep.int_anti hIa hJa) (Sep.int_anti hIb hJb) (Sep.four_anti hTa hUa)
    (Sep.four_anti hTb hUb), sep_F, sep_T1, sep_T2, sep_I, ccsd_simple_map, C52_ccsd_simple,
    C13_uccsd Fa Fb Ia Ib Iab T1a T1b T2aa T2ab T2bb hIa hIb hTa hTb, C13_uccsd Ga Gb Ja Jb Jab U1a U1b U2aa U2ab U2bb hJa hJb hUa hUb]
  generalize uccsd_stanton Fa Fb Ia Ib Iab (T1a, T1b) (T2aa, T2ab, T2bb) = A
  generalize uccsd_stanton Ga Gb Ja Jb Jab (U1a, U1b) (U2aa, U2ab, U2bb) = B
  obtain ⟨⟨A1, A2⟩, A3, A4, A5⟩ := A
  obtain ⟨⟨B1, B2⟩, B3, B4, B5⟩ := B
  refine Prod.ext (Prod.ext ?_ ?_) (Prod.ext ?_ (Prod.ext ?_ ?_))
  · funext x y; rcases x with x | x <;> rcases y with y | y <;> rfl
  · funext x y; rcases x with x | x <;> rcases y with y | y <;> rfl
  all_goals
    funext x y z w
    rcases x with x | x <;> rcases y with y | y <;> rcases z with z | z <;> rcases w with w | w <;> rfl

/-- C52: unrestricted amplitudes solving the equations of the subsystems solve those of the combined system, with the sum of the energies. -/
theorem C52_u_solutions (hT : uccsd_stanton Fa Fb Ia Ib Iab (T1a, T1b) (T2aa, T2ab, T2bb)
      = ((fun _ _ => 0, fun _ _ => 0), (fun _ _ _ _ => 0, fun _ _ _ _ => 0, fun _ _ _ _ => 0)))
    (hU : uccsd_stanton Ga Gb Ja Jb Jab (U1a, U1b) (U2aa, U2ab, U2bb)
      = ((fun _ _ => 0, fun _ _ => 0), (fun _ _ _ _ => 0, fun _ _ _ _ => 0, fun _ _ _ _ => 0))) :
    uccsd_stanton (Sep.one Fa Ga) (Sep.one Fb Gb) (Sep.int Ia Ja) (Sep.int Ib Jb) (Sep.ab Iab Jab) (Sep.two T1a U1a, Sep.two T1b U1b)
      (Sep.four T2aa U2aa, Sep.four T2ab U2ab, Sep.four T2bb U2bb)
      = ((fun _ _ => 0, fun _ _ => 0), (fun _ _ _ _ => 0, fun _ _ _ _ => 0, fun _ _ _ _ => 0)) ∧
    ucc_energy (Sep.two T1a U1a, Sep.two T1b U1b) (Sep.four T2aa U2aa, Sep.four T2ab U2ab, Sep.four T2bb U2bb) (Sep.two Fa.ov Ga.ov)
      (Sep.two Fb.ov Gb.ov) (Sep.four Ia.oovv Ja.oovv) (Sep.four Ib.oovv Jb.oovv) (Sep.four Iab.oovv Jab.oovv)
    = ucc_energy (T1a, T1b) (T2aa, T2ab, T2bb) Fa.ov Fb.ov Ia.oovv Ib.oovv Iab.oovv
      + ucc_energy (U1a, U1b) (U2aa, U2ab, U2bb) Ga.ov Gb.ov Ja.oovv Jb.oovv Jab.oovv := by
  refine ⟨?_, C52_ucc_energy Fa Fb Ia Ib Iab T1a T1b T2aa T2ab T2bb Ga Gb Ja Jb Jab U1a U1b U2aa U2ab U2bb⟩
  rw [C52_uccsd Fa Fb Ia Ib Iab T1a T1b T2aa T2ab T2bb Ga Gb Ja Jb Jab U1a U1b U2aa U2ab U2bb hIa hIb hTa hTb hJa hJb hUa hUb, hT, hU]
  refine Prod.ext (Prod.ext ?_ ?_) (Prod.ext ?_ (Prod.ext ?_ ?_))
  · funext x y; rcases x with x | x <;> rcases y with y | y <;> rfl
  · funext x y; rcases x with x | x <;> rcases y with y | y <;> rfl
  all_goals
    funext x y z w
    rcases x with x | x <;> rcases y with y | y <;> rcases z with z | z <;> rcases w with w | w <;> rfl

end amplitudes
section multipliers
variable (L1a : Oa → Va → K) (L1b : Ob → Vb → K) (L2aa : Oa → Oa → Va → Va → K) (L2ab : Oa → Ob → Va → Vb → K) (L2bb : Ob → Ob → Vb → Vb → K)
  (M1a : Oa' → Va' → K) (M1b : Ob' → Vb' → K) (M2aa : Oa' → Oa' → Va' → Va' → K) (M2ab : Oa' → Ob' → Va' → Vb' → K)
  (M2bb : Ob' → Ob' → Vb' → Vb' → K) (Xaa : Oa → Oa' → Va → Va' → K) (Xbb : Ob → Ob' → Vb → Vb' → K) (Xab : Oa → Ob' → Va → Vb' → K)
  (Xba : Ob → Oa' → Vb → Va' → K) (Xe : Oa → Ob' → Vb → Va' → K) (Xf : Ob → Oa' → Va → Vb' → K)

theorem sep_L2 : T2_to_spin (Sep.fourX L2aa M2aa Xaa) (Sep.fourU L2ab M2ab Xab Xba Xe Xf) (Sep.fourX L2bb M2bb Xbb)
    = map4 (Sep.swap ..) (Sep.swap ..) (Sep.swap ..) (Sep.swap ..)
      (Sep.fourX (T2_to_spin L2aa L2ab L2bb) (T2_to_spin M2aa M2ab M2bb) (Sep.spinX Xaa Xbb Xab Xba Xe Xf)) := by
  funext x y z w
  rcases x with (x | x) | (x | x) <;> rcases y with (y | y) | (y | y) <;> rcases z with (z | z) | (z | z) <;>
    rcases w with (w | w) | (w | w) <;> first | rfl | exact neg_zero | exact neg_zero.symm | exact neg_neg _

section
variable (hTa : Anti T2aa) (hTb : Anti T2bb) (hUa : Anti U2aa) (hUb : Anti U2bb) (hLa : Anti L2aa) (hLb : Anti L2bb) (hMa : Anti M2aa) (hMb : Anti M2bb)
include hTa hTb hUa hUb hLa hLb hMa hMb

/-- C52: blocks `ba` of the unrestricted one-particle density matrices separate, whatever the coupling multipliers. -/
theorem C52_u1rdm_ba :
    uccsd_1rdm_ba (Sep.two T1a U1a) (Sep.two T1b U1b) (Sep.four T2aa U2aa) (Sep.four T2ab U2ab) (Sep.four T2bb U2bb)
      (Sep.two L1a M1a) (Sep.two L1b M1b) (Sep.fourX L2aa M2aa Xaa) (Sep.fourU L2ab M2ab Xab Xba Xe Xf) (Sep.fourX L2bb M2bb Xbb)
    = (Sep.two (uccsd_1rdm_ba T1a T1b T2aa T2ab T2bb L1a L1b L2aa L2ab L2bb).1 (uccsd_1rdm_ba U1a U1b U2aa U2ab U2bb M1a M1b M2aa M2ab M2bb).1,
       Sep.two (uccsd_1rdm_ba T1a T1b T2aa T2ab T2bb L1a L1b L2aa L2ab L2bb).2 (uccsd_1rdm_ba U1a U1b U2aa U2ab U2bb M1a M1b M2aa M2ab M2bb).2) := by
  have h := C17_ba (Sep.two T1a U1a) (Sep.two T1b U1b) (Sep.four T2aa U2aa) (Sep.four T2ab U2ab) (Sep.four T2bb U2bb)
    (Sep.two L1a M1a) (Sep.two L1b M1b) (Sep.fourX L2aa M2aa Xaa) (Sep.fourU L2ab M2ab Xab Xba Xe Xf) (Sep.fourX L2bb M2bb Xbb)
    (Sep.four_anti hTa hUa) (Sep.four_anti hTb hUb) (Sep.fourX_anti Xaa hLa hMa) (Sep.fourX_anti Xbb hLb hMb)
  rw [sep_T1, sep_T2, sep_T1, sep_L2, ccsd_1rdm_ba_map, C52_1rdm_ba, C17_ba T1a T1b T2aa T2ab T2bb L1a L1b L2aa L2ab L2bb hTa hTb hLa hLb, C17_ba U1a U1b U2aa U2ab U2bb M1a M1b M2aa M2ab M2bb hUa hUb hMa hMb] at h
  generalize uccsd_1rdm_ba T1a T1b T2aa T2ab T2bb L1a L1b L2aa L2ab L2bb = A at h ⊢
  generalize uccsd_1rdm_ba U1a U1b U2aa U2ab U2bb M1a M1b M2aa M2ab M2bb = B at h ⊢
  refine Prod.ext ?_ ?_
  · funext x y
    refine Eq.trans (congrFun (congrFun h (.inl x)) (.inl y)).symm ?_
    rcases x with x | x <;> rcases y with y | y <;> rfl
  · funext x y
    refine Eq.trans (congrFun (congrFun h (.inr x)) (.inr y)).symm ?_
    rcases x with x | x <;> rcases y with y | y <;> rfl

/-- C52: blocks `ji` of the unrestricted one-particle density matrices separate, whatever the coupling multipliers. -/
theorem C52_u1rdm_ji :
    uccsd_1rdm_ji (Sep.two T1a U1a) (Sep.two T1b U1b) (Sep.four T2aa U2aa) (Sep.four T2ab U2ab) (Sep.four T2bb U2bb)
      (Sep.two L1a M1a) (Sep.two L1b M1b) (Sep.fourX L2aa M2aa Xaa) (Sep.fourU L2ab M2ab Xab Xba Xe Xf) (Sep.fourX L2bb M2bb Xbb)
    = (Sep.two (uccsd_1rdm_ji T1a T1b T2aa T2ab T2bb L1a L1b L2aa L2ab L2bb).1 (uccsd_1rdm_ji U1a U1b U2aa U2ab U2bb M1a M1b M2aa M2ab M2bb).1,
       Sep.two (uccsd_1rdm_ji T1a T1b T2aa T2ab T2bb L1a L1b L2aa L2ab L2bb).2 (uccsd_1rdm_ji U1a U1b U2aa U2ab U2bb M1a M1b M2aa M2ab M2bb).2) := by
  have h := C17_ji (Sep.two T1a U1a) (Sep.two T1b U1b) (Sep.four T2aa U2aa) (Sep.four T2ab U2ab) (Sep.four T2bb U2bb)
    (Sep.two L1a M1a) (Sep.two L1b M1b) (Sep.fourX L2aa M2aa Xaa) (Sep.fourU L2ab M2ab Xab Xba Xe Xf) (Sep.fourX L2bb M2bb Xbb)
    (Sep.four_anti hTa hUa) (Sep.four_anti hTb hUb) (Sep.fourX_anti Xaa hLa hMa) (Sep.fourX_anti Xbb hLb hMb)
  rw [sep_T1, sep_T2, sep_T1, sep_L2, ccsd_1rdm_ji_map, C52_1rdm_ji, C17_ji T1a T1b T2aa T2ab T2bb L1a L1b L2aa L2ab L2bb hTa hTb hLa hLb, C17_ji U1a U1b U2aa U2ab U2bb M1a M1b M2aa M2ab M2bb hUa hUb hMa hMb] at h
  generalize uccsd_1rdm_ji T1a T1b T2aa T2ab T2bb L1a L1b L2aa L2ab L2bb = A at h ⊢
  generalize uccsd_1rdm_ji U1a U1b U2aa U2ab U2bb M1a M1b M2aa M2ab M2bb = B at h ⊢
  refine Prod.ext ?_ ?_
  · funext x y
    refine Eq.trans (congrFun (congrFun h (.inl x)) (.inl y)).symm ?_
    rcases x with x | x <;> rcases y with y | y <;> rfl
  · funext x y
    refine Eq.trans (congrFun (congrFun h (.inr x)) (.inr y)).symm ?_
    rcases x with x | x <;> rcases y with y | y <;> rfl

/-- C52: blocks `ai` of the unrestricted one-particle density matrices separate, whatever the coupling multipliers. -/
theorem C52_u1rdm_ai (tfac : K) :
    uccsd_1rdm_ai (Sep.two T1a U1a) (Sep.two T1b U1b) (Sep.four T2aa U2aa) (Sep.four T2ab U2ab) (Sep.four T2bb U2bb)
      (Sep.two L1a M1a) (Sep.two L1b M1b) (Sep.fourX L2aa M2aa Xaa) (Sep.fourU L2ab M2ab Xab Xba Xe Xf) (Sep.fourX L2bb M2bb Xbb) tfac
    = (Sep.two (uccsd_1rdm_ai T1a T1b T2aa T2ab T2bb L1a L1b L2aa L2ab L2bb tfac).1 (uccsd_1rdm_ai U1a U1b U2aa U2ab U2bb M1a M1b M2aa M2ab M2bb tfac).1,
       Sep.two (uccsd_1rdm_ai T1a T1b T2aa T2ab T2bb L1a L1b L2aa L2ab L2bb tfac).2 (uccsd_1rdm_ai U1a U1b U2aa U2ab U2bb M1a M1b M2aa M2ab M2bb tfac).2) := by
  have h := C17_ai (Sep.two T1a U1a) (Sep.two T1b U1b) (Sep.four T2aa U2aa) (Sep.four T2ab U2ab) (Sep.four T2bb U2bb)
    (Sep.two L1a M1a) (Sep.two L1b M1b) (Sep.fourX L2aa M2aa Xaa) (Sep.fourU L2ab M2ab Xab Xba Xe Xf) (Sep.fourX L2bb M2bb Xbb) tfac
    (Sep.four_anti hTa hUa) (Sep.four_anti hTb hUb) (Sep.fourX_anti Xaa hLa hMa) (Sep.fourX_anti Xbb hLb hMb)
  rw [sep_T1, sep_T2, sep_T1, sep_L2, ccsd_1rdm_ai_map, C52_1rdm_ai, C17_ai T1a T1b T2aa T2ab T2bb L1a L1b L2aa L2ab L2bb tfac hTa hTb hLa hLb, C17_ai U1a U1b U2aa U2ab U2bb M1a M1b M2aa M2ab M2bb tfac hUa hUb hMa hMb] at h
  generalize uccsd_1rdm_ai T1a T1b T2aa T2ab T2bb L1a L1b L2aa L2ab L2bb tfac = A at h ⊢
  generalize uccsd_1rdm_ai U1a U1b U2aa U2ab U2bb M1a M1b M2aa M2ab M2bb tfac = B at h ⊢
  refine Prod.ext ?_ ?_
  · funext x y
    refine Eq.trans (congrFun (congrFun h (.inl x)) (.inl y)).symm ?_
    rcases x with x | x <;> rcases y with y | y <;> rfl
  · funext x y
    refine Eq.trans (congrFun (congrFun h (.inr x)) (.inr y)).symm ?_
    rcases x with x | x <;> rcases y with y | y <;> rfl

section
variable (hIa : AntiI Ia) (hIb : AntiI Ib) (hJa : AntiI Ja) (hJb : AntiI Jb)
include hIa hIb hJa hJb

theorem sep_lambda {R : _ × _} :
    ccsd_lambda_simple (Sep.one (F_to_spin Fa Fb) (F_to_spin Ga Gb)) (Sep.int (int_to_spin2 Ia Ib Iab) (int_to_spin2 Ja Jb Jab))
      (Sep.two (T1_to_spin L1a L1b) (T1_to_spin M1a M1b))
      (Sep.fourX (T2_to_spin L2aa L2ab L2bb) (T2_to_spin M2aa M2ab M2bb) (Sep.spinX Xaa Xbb Xab Xba Xe Xf))
      (Sep.two (T1_to_spin T1a T1b) (T1_to_spin U1a U1b)) (Sep.four (T2_to_spin T2aa T2ab T2bb) (T2_to_spin U2aa U2ab U2bb)) = R →
    uccsd_lambda_opt (Sep.one Fa Ga) (Sep.one Fb Gb) (Sep.int Ia Ja) (Sep.int Ib Jb) (Sep.ab Iab Jab)
      (Sep.two L1a M1a, Sep.two L1b M1b) (Sep.fourX L2aa M2aa Xaa, Sep.fourU L2ab M2ab Xab Xba Xe Xf, Sep.fourX L2bb M2bb Xbb)
      (Sep.two T1a U1a, Sep.two T1b U1b) (Sep.four T2aa U2aa, Sep.four T2ab U2ab, Sep.four T2bb U2bb)
    = (T1_to_spatial (map2 (Sep.swap ..) (Sep.swap ..) R.1), T2_to_spatial (map4 (Sep.swap ..) (Sep.swap ..) (Sep.swap ..) (Sep.swap ..) R.2)) := by
  rintro rfl
  rw [← C15_uccsd_lambda_extract (Sep.one Fa Ga) (Sep.one Fb Gb) (Sep.int Ia Ja) (Sep.int Ib Jb) (Sep.ab Iab Jab)
    (Sep.two L1a M1a) (Sep.two L1b M1b) (Sep.fourX L2aa M2aa Xaa) (Sep.fourU L2ab M2ab Xab Xba Xe Xf) (Sep.fourX L2bb M2bb Xbb)
    (Sep.two T1a U1a) (Sep.two T1b U1b) (Sep.four T2aa U2aa) (Sep.four T2ab U2ab) (Sep.four T2bb U2bb)
    (Sep.int_anti hIa hJa) (Sep.int_anti hIb hJb) (Sep.four_anti hTa hUa) (Sep.four_anti hTb hUb) (Sep.fourX_anti Xaa hLa hMa) (Sep.fourX_anti Xbb hLb hMb),
    sep_F, sep_I]
  unfold L1_to_spin L2_to_spin
  rw [sep_T1, sep_T2, sep_T1, sep_L2, ccsd_lambda_simple_map]

/-- C52: the unrestricted Lambda equations for the singles separate, whatever the coupling multipliers. -/
theorem C52_ulambda_singles :
    (uccsd_lambda_opt (Sep.one Fa Ga) (Sep.one Fb Gb) (Sep.int Ia Ja) (Sep.int Ib Jb) (Sep.ab Iab Jab)
      (Sep.two L1a M1a, Sep.two L1b M1b) (Sep.fourX L2aa M2aa Xaa, Sep.fourU L2ab M2ab Xab Xba Xe Xf, Sep.fourX L2bb M2bb Xbb)
      (Sep.two T1a U1a, Sep.two T1b U1b) (Sep.four T2aa U2aa, Sep.four T2ab U2ab, Sep.four T2bb U2bb)).1
    = (Sep.two (uccsd_lambda_opt Fa Fb Ia Ib Iab (L1a, L1b) (L2aa, L2ab, L2bb) (T1a, T1b) (T2aa, T2ab, T2bb)).1.1 (uccsd_lambda_opt Ga Gb Ja Jb Jab (M1a, M1b) (M2aa, M2ab, M2bb) (U1a, U1b) (U2aa, U2ab, U2bb)).1.1,
       Sep.two (uccsd_lambda_opt Fa Fb Ia Ib Iab (L1a, L1b) (L2aa, L2ab, L2bb) (T1a, T1b) (T2aa, T2ab, T2bb)).1.2 (uccsd_lambda_opt Ga Gb Ja Jb Jab (M1a, M1b) (M2aa, M2ab, M2bb) (U1a, U1b) (U2aa, U2ab, U2bb)).1.2) := by
  rw [sep_lambda (R := _) Fa Fb Ia Ib Iab T1a T1b T2aa T2ab T2bb Ga Gb Ja Jb Jab U1a U1b U2aa U2ab U2bb L1a L1b L2aa L2ab L2bb M1a M1b M2aa M2ab M2bb
    Xaa Xbb Xab Xba Xe Xf hTa hTb hUa hUb hLa hLb hMa hMb hIa hIb hJa hJb rfl, C52_lambda_singles]
  have h1 := C15_uccsd_lambda Fa Fb Ia Ib Iab L1a L1b L2aa L2ab L2bb T1a T1b T2aa T2ab T2bb hIa hIb hTa hTb hLa hLb
  have h2 := C15_uccsd_lambda Ga Gb Ja Jb Jab M1a M1b M2aa M2ab M2bb U1a U1b U2aa U2ab U2bb hJa hJb hUa hUb hMa hMb
  unfold L1_to_spin L2_to_spin at h1 h2
  rw [h1, h2]
  generalize uccsd_lambda_opt Fa Fb Ia Ib Iab (L1a, L1b) (L2aa, L2ab, L2bb) (T1a, T1b) (T2aa, T2ab, T2bb) = A
  generalize uccsd_lambda_opt Ga Gb Ja Jb Jab (M1a, M1b) (M2aa, M2ab, M2bb) (U1a, U1b) (U2aa, U2ab, U2bb) = B
  refine Prod.ext ?_ ?_ <;>
  · funext x y
    rcases x with x | x <;> rcases y with y | y <;> rfl

/-- C52: those for the doubles within each subsystem are those of the subsystem. -/
theorem C52_ulambda_doubles :
    (∀ i j a b, (uccsd_lambda_opt (Sep.one Fa Ga) (Sep.one Fb Gb) (Sep.int Ia Ja) (Sep.int Ib Jb) (Sep.ab Iab Jab)
      (Sep.two L1a M1a, Sep.two L1b M1b) (Sep.fourX L2aa M2aa Xaa, Sep.fourU L2ab M2ab Xab Xba Xe Xf, Sep.fourX L2bb M2bb Xbb)
      (Sep.two T1a U1a, Sep.two T1b U1b) (Sep.four T2aa U2aa, Sep.four T2ab U2ab, Sep.four T2bb U2bb)).2.1 (.inl i) (.inl j) (.inl a) (.inl b)
      = (uccsd_lambda_opt Fa Fb Ia Ib Iab (L1a, L1b) (L2aa, L2ab, L2bb) (T1a, T1b) (T2aa, T2ab, T2bb)).2.1 i j a b) ∧
    (∀ i j a b, (uccsd_lambda_opt (Sep.one Fa Ga) (Sep.one Fb Gb) (Sep.int Ia Ja) (Sep.int Ib Jb) (Sep.ab Iab Jab)
      (Sep.two L1a M1a, Sep.two L1b M1b) (Sep.fourX L2aa M2aa Xaa, Sep.fourU L2ab M2ab Xab Xba Xe Xf, Sep.fourX L2bb M2bb Xbb)
      (Sep.two T1a U1a, Sep.two T1b U1b) (Sep.four T2aa U2aa, Sep.four T2ab U2ab, Sep.four T2bb U2bb)).2.2.1 (.inl i) (.inl j) (.inl a) (.inl b)
      = (uccsd_lambda_opt Fa Fb Ia Ib Iab (L1a, L1b) (L2aa, L2ab, L2bb) (T1a, T1b) (T2aa, T2ab, T2bb)).2.2.1 i j a b) ∧
    (∀ i j a b, (uccsd_lambda_opt (Sep.one Fa Ga) (Sep.one Fb Gb) (Sep.int Ia Ja) (Sep.int Ib Jb) (Sep.ab Iab Jab)
      (Sep.two L1a M1a, Sep.two L1b M1b) (Sep.fourX L2aa M2aa Xaa, Sep.fourU L2ab M2ab Xab Xba Xe Xf, Sep.fourX L2bb M2bb Xbb)
      (Sep.two T1a U1a, Sep.two T1b U1b) (Sep.four T2aa U2aa, Sep.four T2ab U2ab, Sep.four T2bb U2bb)).2.2.2 (.inl i) (.inl j) (.inl a) (.inl b)
      = (uccsd_lambda_opt Fa Fb Ia Ib Iab (L1a, L1b) (L2aa, L2ab, L2bb) (T1a, T1b) (T2aa, T2ab, T2bb)).2.2.2 i j a b) ∧
    (∀ i j a b, (uccsd_lambda_opt (Sep.one Fa Ga) (Sep.one Fb Gb) (Sep.int Ia Ja) (Sep.int Ib Jb) (Sep.ab Iab Jab)
      (Sep.two L1a M1a, Sep.two L1b M1b) (Sep.fourX L2aa M2aa Xaa, Sep.fourU L2ab M2ab Xab Xba Xe Xf, Sep.fourX L2bb M2bb Xbb)
      (Sep.two T1a U1a, Sep.two T1b U1b) (Sep.four T2aa U2aa, Sep.four T2ab U2ab, Sep.four T2bb U2bb)).2.1 (.inr i) (.inr j) (.inr a) (.inr b)
      = (uccsd_lambda_opt Ga Gb Ja Jb Jab (M1a, M1b) (M2aa, M2ab, M2bb) (U1a, U1b) (U2aa, U2ab, U2bb)).2.1 i j a b) ∧
    (∀ i j a b, (uccsd_lambda_opt (Sep.one Fa Ga) (Sep.one Fb Gb) (Sep.int Ia Ja) (Sep.int Ib Jb) (Sep.ab Iab Jab)
      (Sep.two L1a M1a, Sep.two L1b M1b) (Sep.fourX L2aa M2aa Xaa, Sep.fourU L2ab M2ab Xab Xba Xe Xf, Sep.fourX L2bb M2bb Xbb)
      (Sep.two T1a U1a, Sep.two T1b U1b) (Sep.four T2aa U2aa, Sep.four T2ab U2ab, Sep.four T2bb U2bb)).2.2.1 (.inr i) (.inr j) (.inr a) (.inr b)
      = (uccsd_lambda_opt Ga Gb Ja Jb Jab (M1a, M1b) (M2aa, M2ab, M2bb) (U1a, U1b) (U2aa, U2ab, U2bb)).2.2.1 i j a b) ∧
    (∀ i j a b, (uccsd_lambda_opt (Sep.one Fa Ga) (Sep.one Fb Gb) (Sep.int Ia Ja) (Sep.int Ib Jb) (Sep.ab Iab Jab)
      (Sep.two L1a M1a, Sep.two L1b M1b) (Sep.fourX L2aa M2aa Xaa, Sep.fourU L2ab M2ab Xab Xba Xe Xf, Sep.fourX L2bb M2bb Xbb)
      (Sep.two T1a U1a, Sep.two T1b U1b) (Sep.four T2aa U2aa, Sep.four T2ab U2ab, Sep.four T2bb U2bb)).2.2.2 (.inr i) (.inr j) (.inr a) (.inr b)
      = (uccsd_lambda_opt Ga Gb Ja Jb Jab (M1a, M1b) (M2aa, M2ab, M2bb) (U1a, U1b) (U2aa, U2ab, U2bb)).2.2.2 i j a b) := by
  rw [sep_lambda (R := _) Fa Fb Ia Ib Iab T1a T1b T2aa T2ab T2bb Ga Gb Ja Jb Jab U1a U1b U2aa U2ab U2bb L1a L1b L2aa L2ab L2bb M1a M1b M2aa M2ab M2bb
    Xaa Xbb Xab Xba Xe Xf hTa hTb hUa hUb hLa hLb hMa hMb hIa hIb hJa hJb rfl]
  have h1 := C15_uccsd_lambda Fa Fb Ia Ib Iab L1a L1b L2aa L2ab L2bb T1a T1b T2aa T2ab T2bb hIa hIb hTa hTb hLa hLb
  have h2 := C15_uccsd_lambda Ga Gb Ja Jb Jab M1a M1b M2aa M2ab M2bb U1a U1b U2aa U2ab U2bb hJa hJb hUa hUb hMa hMb
  unfold L1_to_spin L2_to_spin at h1 h2
  have k1 := C52_lambda_doubles (F_to_spin Fa Fb) (F_to_spin Ga Gb) (int_to_spin2 Ia Ib Iab) (int_to_spin2 Ja Jb Jab) (T1_to_spin T1a T1b) (T1_to_spin U1a U1b) (T2_to_spin T2aa T2ab T2bb)
    (T2_to_spin U2aa U2ab U2bb) (T1_to_spin L1a L1b) (T1_to_spin M1a M1b) (T2_to_spin L2aa L2ab L2bb) (T2_to_spin M2aa M2ab M2bb) (Sep.spinX Xaa Xbb Xab Xba Xe Xf)
  have k2 := C52_lambda_doubles' (F_to_spin Fa Fb) (F_to_spin Ga Gb) (int_to_spin2 Ia Ib Iab) (int_to_spin2 Ja Jb Jab) (T1_to_spin T1a T1b) (T1_to_spin U1a U1b) (T2_to_spin T2aa T2ab T2bb)
    (T2_to_spin U2aa U2ab U2bb) (T1_to_spin L1a L1b) (T1_to_spin M1a M1b) (T2_to_spin L2aa L2ab L2bb) (T2_to_spin M2aa M2ab M2bb) (Sep.spinX Xaa Xbb Xab Xba Xe Xf)
  rw [h1] at k1
  rw [h2] at k2
  clear h1 h2
  generalize ccsd_lambda_simple (Sep.one (F_to_spin Fa Fb) (F_to_spin Ga Gb)) (Sep.int (int_to_spin2 Ia Ib Iab) (int_to_spin2 Ja Jb Jab))
      (Sep.two (T1_to_spin L1a L1b) (T1_to_spin M1a M1b))
      (Sep.fourX (T2_to_spin L2aa L2ab L2bb) (T2_to_spin M2aa M2ab M2bb) (Sep.spinX Xaa Xbb Xab Xba Xe Xf))
      (Sep.two (T1_to_spin T1a T1b) (T1_to_spin U1a U1b)) (Sep.four (T2_to_spin T2aa T2ab T2bb) (T2_to_spin U2aa U2ab U2bb)) = R at k1 k2 ⊢
  generalize uccsd_lambda_opt Fa Fb Ia Ib Iab (L1a, L1b) (L2aa, L2ab, L2bb) (T1a, T1b) (T2aa, T2ab, T2bb) = A at k1 ⊢
  generalize uccsd_lambda_opt Ga Gb Ja Jb Jab (M1a, M1b) (M2aa, M2ab, M2bb) (U1a, U1b) (U2aa, U2ab, U2bb) = B at k2 ⊢
  exact ⟨fun i j a b => k1 (.inl i) (.inl j) (.inl a) (.inl b), fun i j a b => k1 (.inl i) (.inr j) (.inl a) (.inr b),
    fun i j a b => k1 (.inr i) (.inr j) (.inr a) (.inr b), fun i j a b => k2 (.inl i) (.inl j) (.inl a) (.inl b),
    fun i j a b => k2 (.inl i) (.inr j) (.inl a) (.inr b), fun i j a b => k2 (.inr i) (.inr j) (.inr a) (.inr b)⟩

end
end
end multipliers

/-- two open-shell subsystems of different sizes -/
example : (uccsd_stanton (Sep.one (FG 3 2 1) (FG 2 3 5)) (Sep.one (FG 2 3 2) (FG 3 2 4)) (Sep.int (IG 3 2 1) (IG 2 3 7)) (Sep.int (IG 2 3 4) (IG 3 2 3))
      (Sep.ab (IM 3 2 2 3) (IM 2 3 3 2)) (Sep.two (SG 2 3 1) (SG 3 2 3), Sep.two (SG 3 2 2) (SG 2 3 1))
      (Sep.four (TG 2 3 1) (TG 3 2 1), Sep.four (TM 2 3 3 2 1) (TM 3 2 2 3 2), Sep.four (TG 3 2 5) (TG 2 3 4))).2.2.1 (.inr 0) (.inr 1) (.inr 0) (.inr 1) ≠ 0 := by
  rw [C52_uccsd _ _ _ _ _ _ _ _ _ _ _ _ _ _ _ _ _ _ _ _ (IG_anti ..) (IG_anti ..) (TG_anti ..) (TG_anti ..) (IG_anti ..) (IG_anti ..)
    (TG_anti ..) (TG_anti ..)]
  decide +kernel

end CC
