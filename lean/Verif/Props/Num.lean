import Verif.Props.UT
import Verif.Props.UL
import Verif.Props.URdm
import Verif.Props.Spin
import Mathlib.Data.Fintype.BigOperators
import Mathlib.Logic.Equiv.Fin.Basic
/-!
# Numeric-index forms of C12, C13, C15, C17, C18

The spin-block theorems of `UT.lean`, `UL.lean`, `URdm.lean` use a disjoint union for a concatenated axis.  Here they are
transported to arrays of extents `na + nb` assembled by the numeric model of `spin_utils.py`
(`Verif/Model/SpinFin.lean`), using that the generalized routines commute with any renaming of the orbitals.
-/
set_option linter.unusedVariables false
set_option linter.unusedSimpArgs false
namespace CC

/-- rename the orbitals of a one-electron operator -/
def OneE.map {O V O' V' K : Type} (f : O' → O) (g : V' → V) (F : OneE O V K) : OneE O' V' K where
  oo := fun i j => F.oo (f i) (f j)
  ov := fun i j => F.ov (f i) (g j)
  vo := fun i j => F.vo (g i) (f j)
  vv := fun i j => F.vv (g i) (g j)

/-- rename the orbitals of two-electron integrals -/
def TwoE.map {O V O' V' K : Type} (f : O' → O) (g : V' → V) (I : TwoE O V K) : TwoE O' V' K where
  vvvv := fun x y z w => I.vvvv (g x) (g y) (g z) (g w)
  vvvo := fun x y z w => I.vvvo (g x) (g y) (g z) (f w)
  vovv := fun x y z w => I.vovv (g x) (f y) (g z) (g w)
  vvoo := fun x y z w => I.vvoo (g x) (g y) (f z) (f w)
  vovo := fun x y z w => I.vovo (g x) (f y) (g z) (f w)
  oovv := fun x y z w => I.oovv (f x) (f y) (g z) (g w)
  vooo := fun x y z w => I.vooo (g x) (f y) (f z) (f w)
  ooov := fun x y z w => I.ooov (f x) (f y) (f z) (g w)
  oooo := fun x y z w => I.oooo (f x) (f y) (f z) (f w)

/-- rename the orbitals of sixteen-block two-electron integrals -/
def TwoEFull.map {O V O' V' P W P' W' K : Type} (f : O' → O) (g : V' → V) (h : P' → P) (k : W' → W)
    (I : TwoEFull O V P W K) : TwoEFull O' V' P' W' K where
  oooo := fun x y z w => I.oooo (f x) (h y) (f z) (h w)
  ooov := fun x y z w => I.ooov (f x) (h y) (f z) (k w)
  oovo := fun x y z w => I.oovo (f x) (h y) (g z) (h w)
  oovv := fun x y z w => I.oovv (f x) (h y) (g z) (k w)
  ovoo := fun x y z w => I.ovoo (f x) (k y) (f z) (h w)
  ovov := fun x y z w => I.ovov (f x) (k y) (f z) (k w)
  ovvo := fun x y z w => I.ovvo (f x) (k y) (g z) (h w)
  ovvv := fun x y z w => I.ovvv (f x) (k y) (g z) (k w)
  vooo := fun x y z w => I.vooo (g x) (h y) (f z) (h w)
  voov := fun x y z w => I.voov (g x) (h y) (f z) (k w)
  vovo := fun x y z w => I.vovo (g x) (h y) (g z) (h w)
  vovv := fun x y z w => I.vovv (g x) (h y) (g z) (k w)
  vvoo := fun x y z w => I.vvoo (g x) (k y) (f z) (h w)
  vvov := fun x y z w => I.vvov (g x) (k y) (f z) (k w)
  vvvo := fun x y z w => I.vvvo (g x) (k y) (g z) (h w)
  vvvv := fun x y z w => I.vvvv (g x) (k y) (g z) (k w)

/-- rename the indices of a matrix -/
abbrev map2 {P Q P' Q' K : Type} (f : P' → P) (g : Q' → Q) (T : P → Q → K) : P' → Q' → K := fun x y => T (f x) (g y)

/-- rename the indices of a four-index array -/
abbrev map4 {P Q R S P' Q' R' S' K : Type} (f : P' → P) (g : Q' → Q) (h : R' → R) (k : S' → S)
    (T : P → Q → R → S → K) : P' → Q' → R' → S' → K := fun x y z w => T (f x) (g y) (h z) (k w)

/-- Both sides are the same expression, summed over renamed orbitals on the left. -/
macro "nat_tac" e:ident g:ident : tactic => `(tactic|
  repeat' (first
    | refine Fintype.sum_equiv $e _ _ (fun _ => ?_)
    | refine Fintype.sum_equiv $g _ _ (fun _ => ?_)
    | refine congrArg₂ HAdd.hAdd ?_ ?_
    | refine congrArg₂ HSub.hSub ?_ ?_
    | refine congrArg₂ HMul.hMul ?_ ?_
    | refine congrArg Neg.neg ?_
    | rfl))

section rename
set_option linter.unusedSectionVars false
variable {K : Type} [Field K] {O V O' V' : Type} [Fintype O] [Fintype V] [Fintype O'] [Fintype V']
variable (e : O' ≃ O) (g : V' ≃ V) (F : OneE O V K) (I : TwoE O V K) (T1 : V → O → K) (T2 : V → V → O → O → K)
  (L1 : O → V → K) (L2 : O → O → V → V → K) (tfac : K)

theorem cc_energy_map :
    cc_energy (map2 g e T1) (map4 g g e e T2) (map2 e g F.ov) (map4 e e g g I.oovv) = cc_energy T1 T2 F.ov I.oovv := by
  simp only [cc_energy, cc_energy_s2, cc_energy_s1, cc_energy_d]
  nat_tac e g

theorem OneE.map_oo {O V O' V' K : Type} (f : O' → O) (g : V' → V) (F : OneE O V K) : (F.map f g).oo = map2 f f F.oo := rfl
theorem OneE.map_ov {O V O' V' K : Type} (f : O' → O) (g : V' → V) (F : OneE O V K) : (F.map f g).ov = map2 f g F.ov := rfl
theorem OneE.map_vo {O V O' V' K : Type} (f : O' → O) (g : V' → V) (F : OneE O V K) : (F.map f g).vo = map2 g f F.vo := rfl
theorem OneE.map_vv {O V O' V' K : Type} (f : O' → O) (g : V' → V) (F : OneE O V K) : (F.map f g).vv = map2 g g F.vv := rfl
theorem TwoE.map_vvoo {O V O' V' K : Type} (f : O' → O) (g : V' → V) (I : TwoE O V K) : (I.map f g).vvoo = map4 g g f f I.vvoo := rfl
theorem TwoE.map_oovv {O V O' V' K : Type} (f : O' → O) (g : V' → V) (I : TwoE O V K) : (I.map f g).oovv = map4 f f g g I.oovv := rfl

section
set_option linter.unusedSectionVars false
variable (e : O' ≃ O) (g : V' ≃ V)
theorem S_S_map (T1 : V → O → K) (F : OneE O V K) (I : TwoE O V K) (T1old : V → O → K) (fac : K) :
    S_S (map2 g e T1) (F.map e g) (I.map e g) (map2 g e T1old) fac = (map2 g e (S_S T1 F I T1old fac)) := by
  funext x y
  simp only [S_S, OneE.map, TwoE.map]
  nat_tac e g

theorem S_D_map (T1 : V → O → K) (F : OneE O V K) (I : TwoE O V K) (T2old : V → V → O → O → K) (fac : K) :
    S_D (map2 g e T1) (F.map e g) (I.map e g) (map4 g g e e T2old) fac = (map2 g e (S_D T1 F I T2old fac)) := by
  funext x y
  simp only [S_D, OneE.map, TwoE.map]
  nat_tac e g

theorem S_SS_map (T1 : V → O → K) (F : OneE O V K) (I : TwoE O V K) (T1old : V → O → K) (fac : K) :
    S_SS (map2 g e T1) (F.map e g) (I.map e g) (map2 g e T1old) fac = (map2 g e (S_SS T1 F I T1old fac)) := by
  funext x y
  simp only [S_SS, OneE.map, TwoE.map]
  nat_tac e g

theorem S_SD_map (T1 : V → O → K) (F : OneE O V K) (I : TwoE O V K) (T1old : V → O → K) (T2old : V → V → O → O → K) (fac : K) :
    S_SD (map2 g e T1) (F.map e g) (I.map e g) (map2 g e T1old) (map4 g g e e T2old) fac = (map2 g e (S_SD T1 F I T1old T2old fac)) := by
  funext x y
  simp only [S_SD, OneE.map, TwoE.map]
  nat_tac e g

theorem S_SSS_map (T1 : V → O → K) (F : OneE O V K) (I : TwoE O V K) (T1old : V → O → K) (fac : K) :
    S_SSS (map2 g e T1) (F.map e g) (I.map e g) (map2 g e T1old) fac = (map2 g e (S_SSS T1 F I T1old fac)) := by
  funext x y
  simp only [S_SSS, OneE.map, TwoE.map]
  nat_tac e g

theorem D_S_map (T2 : V → V → O → O → K) (F : OneE O V K) (I : TwoE O V K) (T1old : V → O → K) (fac : K) :
    D_S (map4 g g e e T2) (F.map e g) (I.map e g) (map2 g e T1old) fac = (map4 g g e e (D_S T2 F I T1old fac)) := by
  funext x y z w
  simp only [D_S, OneE.map, TwoE.map]
  nat_tac e g

theorem D_D_map (T2 : V → V → O → O → K) (F : OneE O V K) (I : TwoE O V K) (T2old : V → V → O → O → K) (fac : K) :
    D_D (map4 g g e e T2) (F.map e g) (I.map e g) (map4 g g e e T2old) fac = (map4 g g e e (D_D T2 F I T2old fac)) := by
  funext x y z w
  simp only [D_D, OneE.map, TwoE.map]
  nat_tac e g

theorem D_SS_map (T2 : V → V → O → O → K) (F : OneE O V K) (I : TwoE O V K) (T1old : V → O → K) (fac : K) :
    D_SS (map4 g g e e T2) (F.map e g) (I.map e g) (map2 g e T1old) fac = (map4 g g e e (D_SS T2 F I T1old fac)) := by
  funext x y z w
  simp only [D_SS, OneE.map, TwoE.map]
  nat_tac e g

theorem D_SD_map (T2 : V → V → O → O → K) (F : OneE O V K) (I : TwoE O V K) (T1old : V → O → K) (T2old : V → V → O → O → K) (fac : K) :
    D_SD (map4 g g e e T2) (F.map e g) (I.map e g) (map2 g e T1old) (map4 g g e e T2old) fac = (map4 g g e e (D_SD T2 F I T1old T2old fac)) := by
  funext x y z w
  simp only [D_SD, OneE.map, TwoE.map]
  nat_tac e g

theorem D_DD_map (T2 : V → V → O → O → K) (F : OneE O V K) (I : TwoE O V K) (T2old : V → V → O → O → K) (fac : K) :
    D_DD (map4 g g e e T2) (F.map e g) (I.map e g) (map4 g g e e T2old) fac = (map4 g g e e (D_DD T2 F I T2old fac)) := by
  funext x y z w
  simp only [D_DD, OneE.map, TwoE.map]
  nat_tac e g

theorem D_SSS_map (T2 : V → V → O → O → K) (F : OneE O V K) (I : TwoE O V K) (T1old : V → O → K) (fac : K) :
    D_SSS (map4 g g e e T2) (F.map e g) (I.map e g) (map2 g e T1old) fac = (map4 g g e e (D_SSS T2 F I T1old fac)) := by
  funext x y z w
  simp only [D_SSS, OneE.map, TwoE.map]
  nat_tac e g

theorem D_SSD_map (T2 : V → V → O → O → K) (F : OneE O V K) (I : TwoE O V K) (T1old : V → O → K) (T2old : V → V → O → O → K) (fac : K) :
    D_SSD (map4 g g e e T2) (F.map e g) (I.map e g) (map2 g e T1old) (map4 g g e e T2old) fac = (map4 g g e e (D_SSD T2 F I T1old T2old fac)) := by
  funext x y z w
  simp only [D_SSD, OneE.map, TwoE.map]
  nat_tac e g

theorem D_SSSS_map (T2 : V → V → O → O → K) (F : OneE O V K) (I : TwoE O V K) (T1old : V → O → K) (fac : K) :
    D_SSSS (map4 g g e e T2) (F.map e g) (I.map e g) (map2 g e T1old) fac = (map4 g g e e (D_SSSS T2 F I T1old fac)) := by
  funext x y z w
  simp only [D_SSSS, OneE.map, TwoE.map]
  nat_tac e g

theorem LS_TS_map (L1 : O → V → K) (I : TwoE O V K) (T1old : V → O → K) (fac : K) :
    LS_TS (map2 e g L1) (I.map e g) (map2 g e T1old) fac = (map2 e g (LS_TS L1 I T1old fac)) := by
  funext x y
  simp only [LS_TS, OneE.map, TwoE.map]
  nat_tac e g

theorem LS_LS_map (L1 : O → V → K) (F : OneE O V K) (I : TwoE O V K) (L1old : O → V → K) (fac : K) :
    LS_LS (map2 e g L1) (F.map e g) (I.map e g) (map2 e g L1old) fac = (map2 e g (LS_LS L1 F I L1old fac)) := by
  funext x y
  simp only [LS_LS, OneE.map, TwoE.map]
  nat_tac e g

theorem LS_LSTS_map (L1 : O → V → K) (F : OneE O V K) (I : TwoE O V K) (L1old : O → V → K) (T1old : V → O → K) (fac : K) :
    LS_LSTS (map2 e g L1) (F.map e g) (I.map e g) (map2 e g L1old) (map2 g e T1old) fac = (map2 e g (LS_LSTS L1 F I L1old T1old fac)) := by
  funext x y
  simp only [LS_LSTS, OneE.map, TwoE.map]
  nat_tac e g

theorem LS_LSTD_map (L1 : O → V → K) (I : TwoE O V K) (L1old : O → V → K) (T2old : V → V → O → O → K) (fac : K) :
    LS_LSTD (map2 e g L1) (I.map e g) (map2 e g L1old) (map4 g g e e T2old) fac = (map2 e g (LS_LSTD L1 I L1old T2old fac)) := by
  funext x y
  simp only [LS_LSTD, OneE.map, TwoE.map]
  nat_tac e g

theorem LS_LSTSS_map (L1 : O → V → K) (I : TwoE O V K) (L1old : O → V → K) (T1old : V → O → K) (fac : K) :
    LS_LSTSS (map2 e g L1) (I.map e g) (map2 e g L1old) (map2 g e T1old) fac = (map2 e g (LS_LSTSS L1 I L1old T1old fac)) := by
  funext x y
  simp only [LS_LSTSS, OneE.map, TwoE.map]
  nat_tac e g

theorem LS_LD_map (L1 : O → V → K) (F : OneE O V K) (I : TwoE O V K) (L2old : O → O → V → V → K) (fac : K) :
    LS_LD (map2 e g L1) (F.map e g) (I.map e g) (map4 e e g g L2old) fac = (map2 e g (LS_LD L1 F I L2old fac)) := by
  funext x y
  simp only [LS_LD, OneE.map, TwoE.map]
  nat_tac e g

theorem LS_LDTS_map (L1 : O → V → K) (F : OneE O V K) (I : TwoE O V K) (L2old : O → O → V → V → K) (T1old : V → O → K) (fac : K) :
    LS_LDTS (map2 e g L1) (F.map e g) (I.map e g) (map4 e e g g L2old) (map2 g e T1old) fac = (map2 e g (LS_LDTS L1 F I L2old T1old fac)) := by
  funext x y
  simp only [LS_LDTS, OneE.map, TwoE.map]
  nat_tac e g

theorem LS_LDTD_map (L1 : O → V → K) (F : OneE O V K) (I : TwoE O V K) (L2old : O → O → V → V → K) (T2old : V → V → O → O → K) (fac : K) :
    LS_LDTD (map2 e g L1) (F.map e g) (I.map e g) (map4 e e g g L2old) (map4 g g e e T2old) fac = (map2 e g (LS_LDTD L1 F I L2old T2old fac)) := by
  funext x y
  simp only [LS_LDTD, OneE.map, TwoE.map]
  nat_tac e g

theorem LS_LDTSS_map (L1 : O → V → K) (F : OneE O V K) (I : TwoE O V K) (L2old : O → O → V → V → K) (T1old : V → O → K) (fac : K) :
    LS_LDTSS (map2 e g L1) (F.map e g) (I.map e g) (map4 e e g g L2old) (map2 g e T1old) fac = (map2 e g (LS_LDTSS L1 F I L2old T1old fac)) := by
  funext x y
  simp only [LS_LDTSS, OneE.map, TwoE.map]
  nat_tac e g

theorem LS_LDTSD_map (L1 : O → V → K) (I : TwoE O V K) (L2old : O → O → V → V → K) (T1old : V → O → K) (T2old : V → V → O → O → K) (fac : K) :
    LS_LDTSD (map2 e g L1) (I.map e g) (map4 e e g g L2old) (map2 g e T1old) (map4 g g e e T2old) fac = (map2 e g (LS_LDTSD L1 I L2old T1old T2old fac)) := by
  funext x y
  simp only [LS_LDTSD, OneE.map, TwoE.map]
  nat_tac e g

theorem LS_LDTSSS_map (L1 : O → V → K) (I : TwoE O V K) (L2old : O → O → V → V → K) (T1old : V → O → K) (fac : K) :
    LS_LDTSSS (map2 e g L1) (I.map e g) (map4 e e g g L2old) (map2 g e T1old) fac = (map2 e g (LS_LDTSSS L1 I L2old T1old fac)) := by
  funext x y
  simp only [LS_LDTSSS, OneE.map, TwoE.map]
  nat_tac e g

theorem LD_LS_map (L2 : O → O → V → V → K) (F : OneE O V K) (I : TwoE O V K) (L1old : O → V → K) (fac : K) :
    LD_LS (map4 e e g g L2) (F.map e g) (I.map e g) (map2 e g L1old) fac = (map4 e e g g (LD_LS L2 F I L1old fac)) := by
  funext x y z w
  simp only [LD_LS, OneE.map, TwoE.map]
  nat_tac e g

theorem LD_LSTS_map (L2 : O → O → V → V → K) (F : OneE O V K) (I : TwoE O V K) (L1old : O → V → K) (T1old : V → O → K) (fac : K) :
    LD_LSTS (map4 e e g g L2) (F.map e g) (I.map e g) (map2 e g L1old) (map2 g e T1old) fac = (map4 e e g g (LD_LSTS L2 F I L1old T1old fac)) := by
  funext x y z w
  simp only [LD_LSTS, OneE.map, TwoE.map]
  nat_tac e g

theorem LD_LD_map (L2 : O → O → V → V → K) (F : OneE O V K) (I : TwoE O V K) (L2old : O → O → V → V → K) (fac : K) :
    LD_LD (map4 e e g g L2) (F.map e g) (I.map e g) (map4 e e g g L2old) fac = (map4 e e g g (LD_LD L2 F I L2old fac)) := by
  funext x y z w
  simp only [LD_LD, OneE.map, TwoE.map]
  nat_tac e g

theorem LD_LDTS_map (L2 : O → O → V → V → K) (F : OneE O V K) (I : TwoE O V K) (L2old : O → O → V → V → K) (T1old : V → O → K) (fac : K) :
    LD_LDTS (map4 e e g g L2) (F.map e g) (I.map e g) (map4 e e g g L2old) (map2 g e T1old) fac = (map4 e e g g (LD_LDTS L2 F I L2old T1old fac)) := by
  funext x y z w
  simp only [LD_LDTS, OneE.map, TwoE.map]
  nat_tac e g

theorem LD_LDTD_map (L2 : O → O → V → V → K) (I : TwoE O V K) (L2old : O → O → V → V → K) (T2old : V → V → O → O → K) (fac : K) :
    LD_LDTD (map4 e e g g L2) (I.map e g) (map4 e e g g L2old) (map4 g g e e T2old) fac = (map4 e e g g (LD_LDTD L2 I L2old T2old fac)) := by
  funext x y z w
  simp only [LD_LDTD, OneE.map, TwoE.map]
  nat_tac e g

theorem LD_LDTSS_map (L2 : O → O → V → V → K) (F : OneE O V K) (I : TwoE O V K) (L2old : O → O → V → V → K) (T1old : V → O → K) (fac : K) :
    LD_LDTSS (map4 e e g g L2) (F.map e g) (I.map e g) (map4 e e g g L2old) (map2 g e T1old) fac = (map4 e e g g (LD_LDTSS L2 F I L2old T1old fac)) := by
  funext x y z w
  simp only [LD_LDTSS, OneE.map, TwoE.map]
  nat_tac e g

end

theorem ccsd_simple_map :
    ccsd_simple (F.map e g) (I.map e g) (map2 g e T1) (map4 g g e e T2)
    = (map2 g e (ccsd_simple F I T1 T2).1, map4 g g e e (ccsd_simple F I T1 T2).2) := by
  simp only [ccsd_simple, OneE.map_vo, OneE.map_ov, TwoE.map_vvoo, TwoE.map_oovv, S_S_map, S_D_map, S_SS_map, S_SD_map, S_SSS_map, D_S_map, D_D_map, D_SS_map, D_SD_map, D_DD_map, D_SSS_map, D_SSD_map, D_SSSS_map]

theorem ccsd_lambda_simple_map :
    ccsd_lambda_simple (F.map e g) (I.map e g) (map2 e g L1) (map4 e e g g L2) (map2 g e T1) (map4 g g e e T2)
    = (map2 e g (ccsd_lambda_simple F I L1 L2 T1 T2).1, map4 e e g g (ccsd_lambda_simple F I L1 L2 T1 T2).2) := by
  simp only [ccsd_lambda_simple, OneE.map_vo, OneE.map_ov, TwoE.map_vvoo, TwoE.map_oovv, LS_TS_map, LS_LS_map, LS_LSTS_map, LS_LSTD_map, LS_LSTSS_map, LS_LD_map, LS_LDTS_map, LS_LDTD_map, LS_LDTSS_map, LS_LDTSD_map, LS_LDTSSS_map, LD_LS_map, LD_LSTS_map, LD_LD_map, LD_LDTS_map, LD_LDTD_map, LD_LDTSS_map]

theorem ccsd_1rdm_ba_map :
    ccsd_1rdm_ba (map2 g e T1) (map4 g g e e T2) (map2 e g L1) (map4 e e g g L2) = map2 g g (ccsd_1rdm_ba T1 T2 L1 L2) := by
  funext x y
  simp only [ccsd_1rdm_ba]
  nat_tac e g

theorem ccsd_1rdm_ji_map :
    ccsd_1rdm_ji (map2 g e T1) (map4 g g e e T2) (map2 e g L1) (map4 e e g g L2) = map2 e e (ccsd_1rdm_ji T1 T2 L1 L2) := by
  funext x y
  simp only [ccsd_1rdm_ji]
  nat_tac e g

theorem ccsd_1rdm_ai_map :
    ccsd_1rdm_ai (map2 g e T1) (map4 g g e e T2) (map2 e g L1) (map4 e e g g L2) tfac = map2 g e (ccsd_1rdm_ai T1 T2 L1 L2 tfac) := by
  funext x y
  simp only [ccsd_1rdm_ai]
  nat_tac e g

theorem ccsd_2rdm_ciab_map :
    ccsd_2rdm_ciab (map2 g e T1) (map4 g g e e T2) (map2 e g L1) (map4 e e g g L2) = map4 g e g g (ccsd_2rdm_ciab T1 T2 L1 L2) := by
  funext x y z w
  simp only [ccsd_2rdm_ciab]
  nat_tac e g

theorem ccsd_2rdm_jkai_map :
    ccsd_2rdm_jkai (map2 g e T1) (map4 g g e e T2) (map2 e g L1) (map4 e e g g L2) = map4 e e g e (ccsd_2rdm_jkai T1 T2 L1 L2) := by
  funext x y z w
  simp only [ccsd_2rdm_jkai]
  nat_tac e g

theorem ccsd_2rdm_cdab_map :
    ccsd_2rdm_cdab (map2 g e T1) (map4 g g e e T2) (map2 e g L1) (map4 e e g g L2) = map4 g g g g (ccsd_2rdm_cdab T1 T2 L1 L2) := by
  funext x y z w
  simp only [ccsd_2rdm_cdab]
  nat_tac e g

theorem ccsd_2rdm_bjai_map :
    ccsd_2rdm_bjai (map2 g e T1) (map4 g g e e T2) (map2 e g L1) (map4 e e g g L2) = map4 g e g e (ccsd_2rdm_bjai T1 T2 L1 L2) := by
  funext x y z w
  simp only [ccsd_2rdm_bjai]
  nat_tac e g

theorem ccsd_2rdm_klij_map :
    ccsd_2rdm_klij (map2 g e T1) (map4 g g e e T2) (map2 e g L1) (map4 e e g g L2) = map4 e e e e (ccsd_2rdm_klij T1 T2 L1 L2) := by
  funext x y z w
  simp only [ccsd_2rdm_klij]
  nat_tac e g

theorem ccsd_2rdm_bcai_map :
    ccsd_2rdm_bcai (map2 g e T1) (map4 g g e e T2) (map2 e g L1) (map4 e e g g L2) = map4 g g g e (ccsd_2rdm_bcai T1 T2 L1 L2) := by
  funext x y z w
  simp only [ccsd_2rdm_bcai]
  nat_tac e g

theorem ccsd_2rdm_kaij_map :
    ccsd_2rdm_kaij (map2 g e T1) (map4 g g e e T2) (map2 e g L1) (map4 e e g g L2) = map4 e g e e (ccsd_2rdm_kaij T1 T2 L1 L2) := by
  funext x y z w
  simp only [ccsd_2rdm_kaij]
  nat_tac e g

theorem ccsd_2rdm_abij_map :
    ccsd_2rdm_abij (map2 g e T1) (map4 g g e e T2) (map2 e g L1) (map4 e e g g L2) tfac = map4 g g e e (ccsd_2rdm_abij T1 T2 L1 L2 tfac) := by
  funext x y z w
  simp only [ccsd_2rdm_abij]
  nat_tac e g

end rename

namespace Num
variable {K : Type} [Field K]

/-- extend an array by zero beyond its extents -/
def e2 {n m : ℕ} (A : Fin n → Fin m → K) : ℕ → ℕ → K := fun x y =>
  if h : x < n ∧ y < m then A ⟨x, h.1⟩ ⟨y, h.2⟩ else 0

/-- extend an array by zero beyond its extents -/
def e4 {n m p q : ℕ} (A : Fin n → Fin m → Fin p → Fin q → K) : ℕ → ℕ → ℕ → ℕ → K := fun x y z w =>
  if h : x < n ∧ y < m ∧ z < p ∧ w < q then A ⟨x, h.1⟩ ⟨y, h.2.1⟩ ⟨z, h.2.2.1⟩ ⟨w, h.2.2.2⟩ else 0

theorem r2_e2 {n m : ℕ} (A : Fin n → Fin m → K) : r2 n m (e2 A) = A := by
  funext x y; simp [r2, e2]

theorem r4_e4 {n m p q : ℕ} (A : Fin n → Fin m → Fin p → Fin q → K) : r4 n m p q (e4 A) = A := by
  funext x y z w; simp [r4, e4]

/-- position on a concatenated axis to spin and position within the spin -/
def dec (n m : ℕ) : Fin (n + m) ≃ Fin n ⊕ Fin m := finSumFinEquiv.symm

theorem enc_dec (n m : ℕ) (x : Fin (n + m)) : enc n m (dec n m x) = x := by
  obtain ⟨s, rfl⟩ := (dec n m).symm.surjective x
  rw [Equiv.apply_symm_apply]
  rcases s with s | s <;> simp [enc, dec]

/-- one-electron blocks as arrays of the given extents -/
abbrev f1 (no nv : ℕ) (F : OneE ℕ ℕ K) : OneE (Fin no) (Fin nv) K := F.map Fin.val Fin.val
/-- two-electron blocks as arrays of the given extents -/
abbrev f2 (no nv : ℕ) (I : TwoE ℕ ℕ K) : TwoE (Fin no) (Fin nv) K := I.map Fin.val Fin.val
/-- mixed-spin blocks as arrays of the given extents -/
abbrev f3 (no nv no' nv' : ℕ) (I : TwoEFull ℕ ℕ ℕ ℕ K) : TwoEFull (Fin no) (Fin nv) (Fin no') (Fin nv') K :=
  I.map Fin.val Fin.val Fin.val Fin.val

variable (noa nva nob nvb : ℕ)

theorem two_dec (A B : ℕ → ℕ → K) (n1 n2 m1 m2 : ℕ) :
    r2 (n1 + m1) (n2 + m2) (two n1 n2 m1 m2 A B)
    = map2 (dec n1 m1) (dec n2 m2) (blk2 (r2 n1 n2 A) (r2 m1 m2 B)) := by
  funext x y
  rw [map2, ← two_enc, enc_dec, enc_dec, r2]

theorem block_dec (aaaa bbbb abab baba abba baab : ℕ → ℕ → ℕ → ℕ → K) (n1 n2 n3 n4 m1 m2 m3 m4 : ℕ) :
    r4 (n1 + m1) (n2 + m2) (n3 + m3) (n4 + m4)
      (int_to_spin_block aaaa bbbb abab baba abba baab n1 n2 n3 n4 m1 m2 m3 m4)
    = map4 (dec n1 m1) (dec n2 m2) (dec n3 m3) (dec n4 m4)
      (CC.int_to_spin_block (r4 n1 n2 n3 n4 aaaa) (r4 m1 m2 m3 m4 bbbb) (r4 n1 m2 n3 m4 abab) (r4 m1 n2 m3 n4 baba)
        (r4 n1 m2 m3 n4 abba) (r4 m1 n2 n3 m4 baab)) := by
  funext x y z w
  rw [map4, ← block_enc, enc_dec, enc_dec, enc_dec, enc_dec, r4]

theorem T1_dec (Ta Tb : ℕ → ℕ → K) :
    r2 (nva + nvb) (noa + nob) (T1_to_spin Ta Tb noa nva nob nvb)
    = map2 (dec nva nvb) (dec noa nob) (CC.T1_to_spin (r2 nva noa Ta) (r2 nvb nob Tb)) := two_dec ..

theorem T2_dec (Taa Tab Tbb : ℕ → ℕ → ℕ → ℕ → K) :
    r4 (nva + nvb) (nva + nvb) (noa + nob) (noa + nob) (T2_to_spin Taa Tab Tbb noa nva nob nvb)
    = map4 (dec nva nvb) (dec nva nvb) (dec noa nob) (dec noa nob)
        (CC.T2_to_spin (r4 nva nva noa noa Taa) (r4 nva nvb noa nob Tab) (r4 nvb nvb nob nob Tbb)) := by
  funext x y z w
  rw [map4, ← T2_to_spin_enc, enc_dec, enc_dec, enc_dec, enc_dec, r4]

theorem F_dec (Fa Fb : OneE ℕ ℕ K) :
    f1 (noa + nob) (nva + nvb) (F_to_spin Fa Fb noa nva nob nvb)
    = (CC.F_to_spin (f1 noa nva Fa) (f1 nob nvb Fb)).map (dec noa nob) (dec nva nvb) :=
  (OneE.mk.injEq ..).mpr ⟨two_dec .., two_dec .., two_dec .., two_dec ..⟩

theorem I_dec (Ia Ib : TwoE ℕ ℕ K) (Iab : TwoEFull ℕ ℕ ℕ ℕ K) :
    f2 (noa + nob) (nva + nvb) (int_to_spin2 Ia Ib Iab noa nva nob nvb)
    = (CC.int_to_spin2 (f2 noa nva Ia) (f2 nob nvb Ib) (f3 noa nva nob nvb Iab)).map (dec noa nob) (dec nva nvb) :=
  (TwoE.mk.injEq ..).mpr ⟨block_dec Ia.vvvv Ib.vvvv Iab.vvvv (fun x y z w => Iab.vvvv y x w z) (fun x y z w => -Iab.vvvv x y w z) (fun x y z w => -Iab.vvvv y x z w) nva nva nva nva nvb nvb nvb nvb, block_dec Ia.vvvo Ib.vvvo Iab.vvvo (fun x y z w => Iab.vvov y x w z) (fun x y z w => -Iab.vvov x y w z) (fun x y z w => -Iab.vvvo y x z w) nva nva nva noa nvb nvb nvb nob, block_dec Ia.vovv Ib.vovv Iab.vovv (fun x y z w => Iab.ovvv y x w z) (fun x y z w => -Iab.vovv x y w z) (fun x y z w => -Iab.ovvv y x z w) nva noa nva nva nvb nob nvb nvb, block_dec Ia.vvoo Ib.vvoo Iab.vvoo (fun x y z w => Iab.vvoo y x w z) (fun x y z w => -Iab.vvoo x y w z) (fun x y z w => -Iab.vvoo y x z w) nva nva noa noa nvb nvb nob nob, block_dec Ia.vovo Ib.vovo Iab.vovo (fun x y z w => Iab.ovov y x w z) (fun x y z w => -Iab.voov x y w z) (fun x y z w => -Iab.ovvo y x z w) nva noa nva noa nvb nob nvb nob, block_dec Ia.oovv Ib.oovv Iab.oovv (fun x y z w => Iab.oovv y x w z) (fun x y z w => -Iab.oovv x y w z) (fun x y z w => -Iab.oovv y x z w) noa noa nva nva nob nob nvb nvb, block_dec Ia.vooo Ib.vooo Iab.vooo (fun x y z w => Iab.ovoo y x w z) (fun x y z w => -Iab.vooo x y w z) (fun x y z w => -Iab.ovoo y x z w) nva noa noa noa nvb nob nob nob, block_dec Ia.ooov Ib.ooov Iab.ooov (fun x y z w => Iab.oovo y x w z) (fun x y z w => -Iab.oovo x y w z) (fun x y z w => -Iab.ooov y x z w) noa noa noa nva nob nob nob nvb, block_dec Ia.oooo Ib.oooo Iab.oooo (fun x y z w => Iab.oooo y x w z) (fun x y z w => -Iab.oooo x y w z) (fun x y z w => -Iab.oooo y x z w) noa noa noa noa nob nob nob nob⟩

section
variable [CharZero K]
variable (Fa Fb : OneE ℕ ℕ K) (Ia Ib : TwoE ℕ ℕ K) (Iab : TwoEFull ℕ ℕ ℕ ℕ K)
  (T1a T1b L1a L1b : ℕ → ℕ → K) (T2aa T2ab T2bb L2aa L2ab L2bb : ℕ → ℕ → ℕ → ℕ → K) (tfac : K)

/-- C12, numeric: the generalized energy of arrays assembled by `spin_utils.py` is the unrestricted energy. -/
theorem C12_ucc_energy_numeric :
    cc_energy (r2 (nva + nvb) (noa + nob) (T1_to_spin T1a T1b noa nva nob nvb))
      (r4 (nva + nvb) (nva + nvb) (noa + nob) (noa + nob) (T2_to_spin T2aa T2ab T2bb noa nva nob nvb))
      (f1 (noa + nob) (nva + nvb) (F_to_spin Fa Fb noa nva nob nvb)).ov
      (f2 (noa + nob) (nva + nvb) (int_to_spin2 Ia Ib Iab noa nva nob nvb)).oovv
    = ucc_energy (r2 nva noa T1a, r2 nvb nob T1b) (r4 nva nva noa noa T2aa, r4 nva nvb noa nob T2ab, r4 nvb nvb nob nob T2bb)
        (f1 noa nva Fa).ov (f1 nob nvb Fb).ov (f2 noa nva Ia).oovv (f2 nob nvb Ib).oovv (f3 noa nva nob nvb Iab).oovv := by
  rw [F_dec, I_dec, T1_dec, T2_dec]
  refine Eq.trans ?_ (C12_ucc_energy ..)
  exact cc_energy_map (dec noa nob) (dec nva nvb) (CC.F_to_spin (f1 noa nva Fa) (f1 nob nvb Fb))
    (CC.int_to_spin2 (f2 noa nva Ia) (f2 nob nvb Ib) (f3 noa nva nob nvb Iab)) _ _

/-- C13, numeric: the generalized update of arrays assembled by `spin_utils.py` is the assembled unrestricted update. -/
theorem C13_uccsd_numeric (hIa : AntiI (f2 noa nva Ia)) (hIb : AntiI (f2 nob nvb Ib)) (hTa : Anti (r4 nva nva noa noa T2aa)) (hTb : Anti (r4 nvb nvb nob nob T2bb)) :
    ccsd_simple (f1 (noa + nob) (nva + nvb) (F_to_spin Fa Fb noa nva nob nvb))
      (f2 (noa + nob) (nva + nvb) (int_to_spin2 Ia Ib Iab noa nva nob nvb))
      (r2 (nva + nvb) (noa + nob) (T1_to_spin T1a T1b noa nva nob nvb))
      (r4 (nva + nvb) (nva + nvb) (noa + nob) (noa + nob) (T2_to_spin T2aa T2ab T2bb noa nva nob nvb))
    = (r2 (nva + nvb) (noa + nob) (T1_to_spin
        (e2 (uccsd_stanton (f1 noa nva Fa) (f1 nob nvb Fb) (f2 noa nva Ia) (f2 nob nvb Ib) (f3 noa nva nob nvb Iab)
      (r2 nva noa T1a, r2 nvb nob T1b) (r4 nva nva noa noa T2aa, r4 nva nvb noa nob T2ab, r4 nvb nvb nob nob T2bb)).1.1)
        (e2 (uccsd_stanton (f1 noa nva Fa) (f1 nob nvb Fb) (f2 noa nva Ia) (f2 nob nvb Ib) (f3 noa nva nob nvb Iab)
      (r2 nva noa T1a, r2 nvb nob T1b) (r4 nva nva noa noa T2aa, r4 nva nvb noa nob T2ab, r4 nvb nvb nob nob T2bb)).1.2) noa nva nob nvb),
       r4 (nva + nvb) (nva + nvb) (noa + nob) (noa + nob) (T2_to_spin
        (e4 (uccsd_stanton (f1 noa nva Fa) (f1 nob nvb Fb) (f2 noa nva Ia) (f2 nob nvb Ib) (f3 noa nva nob nvb Iab)
      (r2 nva noa T1a, r2 nvb nob T1b) (r4 nva nva noa noa T2aa, r4 nva nvb noa nob T2ab, r4 nvb nvb nob nob T2bb)).2.1)
        (e4 (uccsd_stanton (f1 noa nva Fa) (f1 nob nvb Fb) (f2 noa nva Ia) (f2 nob nvb Ib) (f3 noa nva nob nvb Iab)
      (r2 nva noa T1a, r2 nvb nob T1b) (r4 nva nva noa noa T2aa, r4 nva nvb noa nob T2ab, r4 nvb nvb nob nob T2bb)).2.2.1)
        (e4 (uccsd_stanton (f1 noa nva Fa) (f1 nob nvb Fb) (f2 noa nva Ia) (f2 nob nvb Ib) (f3 noa nva nob nvb Iab)
      (r2 nva noa T1a, r2 nvb nob T1b) (r4 nva nva noa noa T2aa, r4 nva nvb noa nob T2ab, r4 nvb nvb nob nob T2bb)).2.2.2) noa nva nob nvb)) := by
  rw [F_dec, I_dec, T1_dec, T2_dec, ccsd_simple_map, C13_uccsd _ _ _ _ _ _ _ _ _ _ hIa hIb hTa hTb, T1_dec, T2_dec]
  simp only [r2_e2, r4_e4]

/-- C15, numeric. -/
theorem C15_uccsd_lambda_numeric (hIa : AntiI (f2 noa nva Ia)) (hIb : AntiI (f2 nob nvb Ib)) (hTa : Anti (r4 nva nva noa noa T2aa)) (hTb : Anti (r4 nvb nvb nob nob T2bb)) (hLa : Anti (r4 noa noa nva nva L2aa)) (hLb : Anti (r4 nob nob nvb nvb L2bb)) :
    ccsd_lambda_simple (f1 (noa + nob) (nva + nvb) (F_to_spin Fa Fb noa nva nob nvb))
      (f2 (noa + nob) (nva + nvb) (int_to_spin2 Ia Ib Iab noa nva nob nvb))
      (r2 (noa + nob) (nva + nvb) (T1_to_spin L1a L1b nva noa nvb nob))
      (r4 (noa + nob) (noa + nob) (nva + nvb) (nva + nvb) (T2_to_spin L2aa L2ab L2bb nva noa nvb nob))
      (r2 (nva + nvb) (noa + nob) (T1_to_spin T1a T1b noa nva nob nvb))
      (r4 (nva + nvb) (nva + nvb) (noa + nob) (noa + nob) (T2_to_spin T2aa T2ab T2bb noa nva nob nvb))
    = (r2 (noa + nob) (nva + nvb) (T1_to_spin
        (e2 (uccsd_lambda_opt (f1 noa nva Fa) (f1 nob nvb Fb) (f2 noa nva Ia) (f2 nob nvb Ib) (f3 noa nva nob nvb Iab)
      (r2 noa nva L1a, r2 nob nvb L1b) (r4 noa noa nva nva L2aa, r4 noa nob nva nvb L2ab, r4 nob nob nvb nvb L2bb)
      (r2 nva noa T1a, r2 nvb nob T1b) (r4 nva nva noa noa T2aa, r4 nva nvb noa nob T2ab, r4 nvb nvb nob nob T2bb)).1.1)
        (e2 (uccsd_lambda_opt (f1 noa nva Fa) (f1 nob nvb Fb) (f2 noa nva Ia) (f2 nob nvb Ib) (f3 noa nva nob nvb Iab)
      (r2 noa nva L1a, r2 nob nvb L1b) (r4 noa noa nva nva L2aa, r4 noa nob nva nvb L2ab, r4 nob nob nvb nvb L2bb)
      (r2 nva noa T1a, r2 nvb nob T1b) (r4 nva nva noa noa T2aa, r4 nva nvb noa nob T2ab, r4 nvb nvb nob nob T2bb)).1.2) nva noa nvb nob),
       r4 (noa + nob) (noa + nob) (nva + nvb) (nva + nvb) (T2_to_spin
        (e4 (uccsd_lambda_opt (f1 noa nva Fa) (f1 nob nvb Fb) (f2 noa nva Ia) (f2 nob nvb Ib) (f3 noa nva nob nvb Iab)
      (r2 noa nva L1a, r2 nob nvb L1b) (r4 noa noa nva nva L2aa, r4 noa nob nva nvb L2ab, r4 nob nob nvb nvb L2bb)
      (r2 nva noa T1a, r2 nvb nob T1b) (r4 nva nva noa noa T2aa, r4 nva nvb noa nob T2ab, r4 nvb nvb nob nob T2bb)).2.1)
        (e4 (uccsd_lambda_opt (f1 noa nva Fa) (f1 nob nvb Fb) (f2 noa nva Ia) (f2 nob nvb Ib) (f3 noa nva nob nvb Iab)
      (r2 noa nva L1a, r2 nob nvb L1b) (r4 noa noa nva nva L2aa, r4 noa nob nva nvb L2ab, r4 nob nob nvb nvb L2bb)
      (r2 nva noa T1a, r2 nvb nob T1b) (r4 nva nva noa noa T2aa, r4 nva nvb noa nob T2ab, r4 nvb nvb nob nob T2bb)).2.2.1)
        (e4 (uccsd_lambda_opt (f1 noa nva Fa) (f1 nob nvb Fb) (f2 noa nva Ia) (f2 nob nvb Ib) (f3 noa nva nob nvb Iab)
      (r2 noa nva L1a, r2 nob nvb L1b) (r4 noa noa nva nva L2aa, r4 noa nob nva nvb L2ab, r4 nob nob nvb nvb L2bb)
      (r2 nva noa T1a, r2 nvb nob T1b) (r4 nva nva noa noa T2aa, r4 nva nvb noa nob T2ab, r4 nvb nvb nob nob T2bb)).2.2.2) nva noa nvb nob)) := by
  rw [F_dec, I_dec, T1_dec, T2_dec, T1_dec, T2_dec, ccsd_lambda_simple_map,
    C15_uccsd_lambda _ _ _ _ _ _ _ _ _ _ _ _ _ _ _ hIa hIb hTa hTb hLa hLb, T1_dec, T2_dec]
  simp only [r2_e2, r4_e4]

/-- C17, numeric: the generalized density matrix has the two unrestricted ones as its diagonal slices and zeros elsewhere. -/
theorem C17_ba_numeric (hTa : Anti (r4 nva nva noa noa T2aa)) (hTb : Anti (r4 nvb nvb nob nob T2bb)) (hLa : Anti (r4 noa noa nva nva L2aa)) (hLb : Anti (r4 nob nob nvb nvb L2bb)) :
    ccsd_1rdm_ba (r2 (nva + nvb) (noa + nob) (T1_to_spin T1a T1b noa nva nob nvb))
      (r4 (nva + nvb) (nva + nvb) (noa + nob) (noa + nob) (T2_to_spin T2aa T2ab T2bb noa nva nob nvb))
      (r2 (noa + nob) (nva + nvb) (T1_to_spin L1a L1b nva noa nvb nob))
      (r4 (noa + nob) (noa + nob) (nva + nvb) (nva + nvb) (T2_to_spin L2aa L2ab L2bb nva noa nvb nob))
    = r2 (nva + nvb) (nva + nvb) (T1_to_spin (e2 (uccsd_1rdm_ba (r2 nva noa T1a) (r2 nvb nob T1b) (r4 nva nva noa noa T2aa) (r4 nva nvb noa nob T2ab) (r4 nvb nvb nob nob T2bb)
      (r2 noa nva L1a) (r2 nob nvb L1b) (r4 noa noa nva nva L2aa) (r4 noa nob nva nvb L2ab) (r4 nob nob nvb nvb L2bb)).1)
        (e2 (uccsd_1rdm_ba (r2 nva noa T1a) (r2 nvb nob T1b) (r4 nva nva noa noa T2aa) (r4 nva nvb noa nob T2ab) (r4 nvb nvb nob nob T2bb)
      (r2 noa nva L1a) (r2 nob nvb L1b) (r4 noa noa nva nva L2aa) (r4 noa nob nva nvb L2ab) (r4 nob nob nvb nvb L2bb)).2)
        nva nva nvb nvb) := by
  rw [T1_dec, T2_dec, T1_dec, T2_dec, ccsd_1rdm_ba_map, C17_ba _ _ _ _ _ _ _ _ _ _ hTa hTb hLa hLb, T1_dec, r2_e2, r2_e2]
  rfl

/-- C17, numeric: the generalized density matrix has the two unrestricted ones as its diagonal slices and zeros elsewhere. -/
theorem C17_ji_numeric (hTa : Anti (r4 nva nva noa noa T2aa)) (hTb : Anti (r4 nvb nvb nob nob T2bb)) (hLa : Anti (r4 noa noa nva nva L2aa)) (hLb : Anti (r4 nob nob nvb nvb L2bb)) :
    ccsd_1rdm_ji (r2 (nva + nvb) (noa + nob) (T1_to_spin T1a T1b noa nva nob nvb))
      (r4 (nva + nvb) (nva + nvb) (noa + nob) (noa + nob) (T2_to_spin T2aa T2ab T2bb noa nva nob nvb))
      (r2 (noa + nob) (nva + nvb) (T1_to_spin L1a L1b nva noa nvb nob))
      (r4 (noa + nob) (noa + nob) (nva + nvb) (nva + nvb) (T2_to_spin L2aa L2ab L2bb nva noa nvb nob))
    = r2 (noa + nob) (noa + nob) (T1_to_spin (e2 (uccsd_1rdm_ji (r2 nva noa T1a) (r2 nvb nob T1b) (r4 nva nva noa noa T2aa) (r4 nva nvb noa nob T2ab) (r4 nvb nvb nob nob T2bb)
      (r2 noa nva L1a) (r2 nob nvb L1b) (r4 noa noa nva nva L2aa) (r4 noa nob nva nvb L2ab) (r4 nob nob nvb nvb L2bb)).1)
        (e2 (uccsd_1rdm_ji (r2 nva noa T1a) (r2 nvb nob T1b) (r4 nva nva noa noa T2aa) (r4 nva nvb noa nob T2ab) (r4 nvb nvb nob nob T2bb)
      (r2 noa nva L1a) (r2 nob nvb L1b) (r4 noa noa nva nva L2aa) (r4 noa nob nva nvb L2ab) (r4 nob nob nvb nvb L2bb)).2)
        noa noa nob nob) := by
  rw [T1_dec, T2_dec, T1_dec, T2_dec, ccsd_1rdm_ji_map, C17_ji _ _ _ _ _ _ _ _ _ _ hTa hTb hLa hLb, T1_dec, r2_e2, r2_e2]
  rfl

/-- C17, numeric: the generalized density matrix has the two unrestricted ones as its diagonal slices and zeros elsewhere. -/
theorem C17_ai_numeric (hTa : Anti (r4 nva nva noa noa T2aa)) (hTb : Anti (r4 nvb nvb nob nob T2bb)) (hLa : Anti (r4 noa noa nva nva L2aa)) (hLb : Anti (r4 nob nob nvb nvb L2bb)) :
    ccsd_1rdm_ai (r2 (nva + nvb) (noa + nob) (T1_to_spin T1a T1b noa nva nob nvb))
      (r4 (nva + nvb) (nva + nvb) (noa + nob) (noa + nob) (T2_to_spin T2aa T2ab T2bb noa nva nob nvb))
      (r2 (noa + nob) (nva + nvb) (T1_to_spin L1a L1b nva noa nvb nob))
      (r4 (noa + nob) (noa + nob) (nva + nvb) (nva + nvb) (T2_to_spin L2aa L2ab L2bb nva noa nvb nob)) tfac
    = r2 (nva + nvb) (noa + nob) (T1_to_spin (e2 (uccsd_1rdm_ai (r2 nva noa T1a) (r2 nvb nob T1b) (r4 nva nva noa noa T2aa) (r4 nva nvb noa nob T2ab) (r4 nvb nvb nob nob T2bb)
      (r2 noa nva L1a) (r2 nob nvb L1b) (r4 noa noa nva nva L2aa) (r4 noa nob nva nvb L2ab) (r4 nob nob nvb nvb L2bb) tfac).1)
        (e2 (uccsd_1rdm_ai (r2 nva noa T1a) (r2 nvb nob T1b) (r4 nva nva noa noa T2aa) (r4 nva nvb noa nob T2ab) (r4 nvb nvb nob nob T2bb)
      (r2 noa nva L1a) (r2 nob nvb L1b) (r4 noa noa nva nva L2aa) (r4 noa nob nva nvb L2ab) (r4 nob nob nvb nvb L2bb) tfac).2)
        noa nva nob nvb) := by
  rw [T1_dec, T2_dec, T1_dec, T2_dec, ccsd_1rdm_ai_map, C17_ai _ _ _ _ _ _ _ _ _ _ _ hTa hTb hLa hLb, T1_dec, r2_e2, r2_e2]
  rfl

/-- C18, numeric: `uccsd_2rdm_ciab` returns slices of `ccsd_2rdm_ciab`. -/
theorem C18_ciab_numeric (hTa : Anti (r4 nva nva noa noa T2aa)) (hTb : Anti (r4 nvb nvb nob nob T2bb)) (hLa : Anti (r4 noa noa nva nva L2aa)) (hLb : Anti (r4 nob nob nvb nvb L2bb)) :
    ccsd_2rdm_ciab (r2 (nva + nvb) (noa + nob) (T1_to_spin T1a T1b noa nva nob nvb))
      (r4 (nva + nvb) (nva + nvb) (noa + nob) (noa + nob) (T2_to_spin T2aa T2ab T2bb noa nva nob nvb))
      (r2 (noa + nob) (nva + nvb) (T1_to_spin L1a L1b nva noa nvb nob))
      (r4 (noa + nob) (noa + nob) (nva + nvb) (nva + nvb) (T2_to_spin L2aa L2ab L2bb nva noa nvb nob))
    = r4 (nva + nvb) (noa + nob) (nva + nvb) (nva + nvb) (int_to_spin_block
        (e4 (uccsd_2rdm_ciab (r2 nva noa T1a) (r2 nvb nob T1b) (r4 nva nva noa noa T2aa) (r4 nva nvb noa nob T2ab) (r4 nvb nvb nob nob T2bb)
      (r2 noa nva L1a) (r2 nob nvb L1b) (r4 noa noa nva nva L2aa) (r4 noa nob nva nvb L2ab) (r4 nob nob nvb nvb L2bb)).1)
        (e4 (uccsd_2rdm_ciab (r2 nva noa T1a) (r2 nvb nob T1b) (r4 nva nva noa noa T2aa) (r4 nva nvb noa nob T2ab) (r4 nvb nvb nob nob T2bb)
      (r2 noa nva L1a) (r2 nob nvb L1b) (r4 noa noa nva nva L2aa) (r4 noa nob nva nvb L2ab) (r4 nob nob nvb nvb L2bb)).2.1)
        (e4 (uccsd_2rdm_ciab (r2 nva noa T1a) (r2 nvb nob T1b) (r4 nva nva noa noa T2aa) (r4 nva nvb noa nob T2ab) (r4 nvb nvb nob nob T2bb)
      (r2 noa nva L1a) (r2 nob nvb L1b) (r4 noa noa nva nva L2aa) (r4 noa nob nva nvb L2ab) (r4 nob nob nvb nvb L2bb)).2.2.1)
        (e4 (uccsd_2rdm_ciab (r2 nva noa T1a) (r2 nvb nob T1b) (r4 nva nva noa noa T2aa) (r4 nva nvb noa nob T2ab) (r4 nvb nvb nob nob T2bb)
      (r2 noa nva L1a) (r2 nob nvb L1b) (r4 noa noa nva nva L2aa) (r4 noa nob nva nvb L2ab) (r4 nob nob nvb nvb L2bb)).2.2.2)
        (fun x y z w => -e4 (uccsd_2rdm_ciab (r2 nva noa T1a) (r2 nvb nob T1b) (r4 nva nva noa noa T2aa) (r4 nva nvb noa nob T2ab) (r4 nvb nvb nob nob T2bb)
      (r2 noa nva L1a) (r2 nob nvb L1b) (r4 noa noa nva nva L2aa) (r4 noa nob nva nvb L2ab) (r4 nob nob nvb nvb L2bb)).2.2.1 x y w z)
        (fun x y z w => -e4 (uccsd_2rdm_ciab (r2 nva noa T1a) (r2 nvb nob T1b) (r4 nva nva noa noa T2aa) (r4 nva nvb noa nob T2ab) (r4 nvb nvb nob nob T2bb)
      (r2 noa nva L1a) (r2 nob nvb L1b) (r4 noa noa nva nva L2aa) (r4 noa nob nva nvb L2ab) (r4 nob nob nvb nvb L2bb)).2.2.2 x y w z)
        nva noa nva nva nvb nob nvb nvb) := by
  rw [T1_dec, T2_dec, T1_dec, T2_dec, ccsd_2rdm_ciab_map, C18_ciab _ _ _ _ _ _ _ _ _ _ hTa hTb hLa hLb, block_dec]
  simp only [r4_e4]
  congr 2 <;> (funext x y z w; simp [r4, e4])

/-- C18, numeric: `uccsd_2rdm_jkai` returns slices of `ccsd_2rdm_jkai`. -/
theorem C18_jkai_numeric (hTa : Anti (r4 nva nva noa noa T2aa)) (hTb : Anti (r4 nvb nvb nob nob T2bb)) (hLa : Anti (r4 noa noa nva nva L2aa)) (hLb : Anti (r4 nob nob nvb nvb L2bb)) :
    ccsd_2rdm_jkai (r2 (nva + nvb) (noa + nob) (T1_to_spin T1a T1b noa nva nob nvb))
      (r4 (nva + nvb) (nva + nvb) (noa + nob) (noa + nob) (T2_to_spin T2aa T2ab T2bb noa nva nob nvb))
      (r2 (noa + nob) (nva + nvb) (T1_to_spin L1a L1b nva noa nvb nob))
      (r4 (noa + nob) (noa + nob) (nva + nvb) (nva + nvb) (T2_to_spin L2aa L2ab L2bb nva noa nvb nob))
    = r4 (noa + nob) (noa + nob) (nva + nvb) (noa + nob) (int_to_spin_block
        (e4 (uccsd_2rdm_jkai (r2 nva noa T1a) (r2 nvb nob T1b) (r4 nva nva noa noa T2aa) (r4 nva nvb noa nob T2ab) (r4 nvb nvb nob nob T2bb)
      (r2 noa nva L1a) (r2 nob nvb L1b) (r4 noa noa nva nva L2aa) (r4 noa nob nva nvb L2ab) (r4 nob nob nvb nvb L2bb)).1)
        (e4 (uccsd_2rdm_jkai (r2 nva noa T1a) (r2 nvb nob T1b) (r4 nva nva noa noa T2aa) (r4 nva nvb noa nob T2ab) (r4 nvb nvb nob nob T2bb)
      (r2 noa nva L1a) (r2 nob nvb L1b) (r4 noa noa nva nva L2aa) (r4 noa nob nva nvb L2ab) (r4 nob nob nvb nvb L2bb)).2.1)
        (e4 (uccsd_2rdm_jkai (r2 nva noa T1a) (r2 nvb nob T1b) (r4 nva nva noa noa T2aa) (r4 nva nvb noa nob T2ab) (r4 nvb nvb nob nob T2bb)
      (r2 noa nva L1a) (r2 nob nvb L1b) (r4 noa noa nva nva L2aa) (r4 noa nob nva nvb L2ab) (r4 nob nob nvb nvb L2bb)).2.2.1)
        (e4 (uccsd_2rdm_jkai (r2 nva noa T1a) (r2 nvb nob T1b) (r4 nva nva noa noa T2aa) (r4 nva nvb noa nob T2ab) (r4 nvb nvb nob nob T2bb)
      (r2 noa nva L1a) (r2 nob nvb L1b) (r4 noa noa nva nva L2aa) (r4 noa nob nva nvb L2ab) (r4 nob nob nvb nvb L2bb)).2.2.2)
        (fun x y z w => -e4 (uccsd_2rdm_jkai (r2 nva noa T1a) (r2 nvb nob T1b) (r4 nva nva noa noa T2aa) (r4 nva nvb noa nob T2ab) (r4 nvb nvb nob nob T2bb)
      (r2 noa nva L1a) (r2 nob nvb L1b) (r4 noa noa nva nva L2aa) (r4 noa nob nva nvb L2ab) (r4 nob nob nvb nvb L2bb)).2.2.2 y x z w)
        (fun x y z w => -e4 (uccsd_2rdm_jkai (r2 nva noa T1a) (r2 nvb nob T1b) (r4 nva nva noa noa T2aa) (r4 nva nvb noa nob T2ab) (r4 nvb nvb nob nob T2bb)
      (r2 noa nva L1a) (r2 nob nvb L1b) (r4 noa noa nva nva L2aa) (r4 noa nob nva nvb L2ab) (r4 nob nob nvb nvb L2bb)).2.2.1 y x z w)
        noa noa nva noa nob nob nvb nob) := by
  rw [T1_dec, T2_dec, T1_dec, T2_dec, ccsd_2rdm_jkai_map, C18_jkai _ _ _ _ _ _ _ _ _ _ hTa hTb hLa hLb, block_dec]
  simp only [r4_e4]
  congr 2 <;> (funext x y z w; simp [r4, e4])

/-- C18, numeric: `uccsd_2rdm_cdab` returns slices of `ccsd_2rdm_cdab`. -/
theorem C18_cdab_numeric (hTa : Anti (r4 nva nva noa noa T2aa)) (hTb : Anti (r4 nvb nvb nob nob T2bb)) (hLa : Anti (r4 noa noa nva nva L2aa)) (hLb : Anti (r4 nob nob nvb nvb L2bb)) :
    ccsd_2rdm_cdab (r2 (nva + nvb) (noa + nob) (T1_to_spin T1a T1b noa nva nob nvb))
      (r4 (nva + nvb) (nva + nvb) (noa + nob) (noa + nob) (T2_to_spin T2aa T2ab T2bb noa nva nob nvb))
      (r2 (noa + nob) (nva + nvb) (T1_to_spin L1a L1b nva noa nvb nob))
      (r4 (noa + nob) (noa + nob) (nva + nvb) (nva + nvb) (T2_to_spin L2aa L2ab L2bb nva noa nvb nob))
    = r4 (nva + nvb) (nva + nvb) (nva + nvb) (nva + nvb) (int_to_spin_block
        (e4 (uccsd_2rdm_cdab (r2 nva noa T1a) (r2 nvb nob T1b) (r4 nva nva noa noa T2aa) (r4 nva nvb noa nob T2ab) (r4 nvb nvb nob nob T2bb)
      (r2 noa nva L1a) (r2 nob nvb L1b) (r4 noa noa nva nva L2aa) (r4 noa nob nva nvb L2ab) (r4 nob nob nvb nvb L2bb)).1)
        (e4 (uccsd_2rdm_cdab (r2 nva noa T1a) (r2 nvb nob T1b) (r4 nva nva noa noa T2aa) (r4 nva nvb noa nob T2ab) (r4 nvb nvb nob nob T2bb)
      (r2 noa nva L1a) (r2 nob nvb L1b) (r4 noa noa nva nva L2aa) (r4 noa nob nva nvb L2ab) (r4 nob nob nvb nvb L2bb)).2.1)
        (e4 (uccsd_2rdm_cdab (r2 nva noa T1a) (r2 nvb nob T1b) (r4 nva nva noa noa T2aa) (r4 nva nvb noa nob T2ab) (r4 nvb nvb nob nob T2bb)
      (r2 noa nva L1a) (r2 nob nvb L1b) (r4 noa noa nva nva L2aa) (r4 noa nob nva nvb L2ab) (r4 nob nob nvb nvb L2bb)).2.2)
        (fun x y z w => e4 (uccsd_2rdm_cdab (r2 nva noa T1a) (r2 nvb nob T1b) (r4 nva nva noa noa T2aa) (r4 nva nvb noa nob T2ab) (r4 nvb nvb nob nob T2bb)
      (r2 noa nva L1a) (r2 nob nvb L1b) (r4 noa noa nva nva L2aa) (r4 noa nob nva nvb L2ab) (r4 nob nob nvb nvb L2bb)).2.2 y x w z)
        (fun x y z w => -e4 (uccsd_2rdm_cdab (r2 nva noa T1a) (r2 nvb nob T1b) (r4 nva nva noa noa T2aa) (r4 nva nvb noa nob T2ab) (r4 nvb nvb nob nob T2bb)
      (r2 noa nva L1a) (r2 nob nvb L1b) (r4 noa noa nva nva L2aa) (r4 noa nob nva nvb L2ab) (r4 nob nob nvb nvb L2bb)).2.2 x y w z)
        (fun x y z w => -e4 (uccsd_2rdm_cdab (r2 nva noa T1a) (r2 nvb nob T1b) (r4 nva nva noa noa T2aa) (r4 nva nvb noa nob T2ab) (r4 nvb nvb nob nob T2bb)
      (r2 noa nva L1a) (r2 nob nvb L1b) (r4 noa noa nva nva L2aa) (r4 noa nob nva nvb L2ab) (r4 nob nob nvb nvb L2bb)).2.2 y x z w)
        nva nva nva nva nvb nvb nvb nvb) := by
  rw [T1_dec, T2_dec, T1_dec, T2_dec, ccsd_2rdm_cdab_map, C18_cdab _ _ _ _ _ _ _ _ _ _ hTa hTb hLa hLb, block_dec]
  simp only [r4_e4]
  congr 2 <;> (funext x y z w; simp [r4, e4])

/-- C18, numeric: `uccsd_2rdm_bjai` returns slices of `ccsd_2rdm_bjai`. -/
theorem C18_bjai_numeric (hTa : Anti (r4 nva nva noa noa T2aa)) (hTb : Anti (r4 nvb nvb nob nob T2bb)) (hLa : Anti (r4 noa noa nva nva L2aa)) (hLb : Anti (r4 nob nob nvb nvb L2bb)) :
    ccsd_2rdm_bjai (r2 (nva + nvb) (noa + nob) (T1_to_spin T1a T1b noa nva nob nvb))
      (r4 (nva + nvb) (nva + nvb) (noa + nob) (noa + nob) (T2_to_spin T2aa T2ab T2bb noa nva nob nvb))
      (r2 (noa + nob) (nva + nvb) (T1_to_spin L1a L1b nva noa nvb nob))
      (r4 (noa + nob) (noa + nob) (nva + nvb) (nva + nvb) (T2_to_spin L2aa L2ab L2bb nva noa nvb nob))
    = r4 (nva + nvb) (noa + nob) (nva + nvb) (noa + nob) (int_to_spin_block
        (e4 (uccsd_2rdm_bjai (r2 nva noa T1a) (r2 nvb nob T1b) (r4 nva nva noa noa T2aa) (r4 nva nvb noa nob T2ab) (r4 nvb nvb nob nob T2bb)
      (r2 noa nva L1a) (r2 nob nvb L1b) (r4 noa noa nva nva L2aa) (r4 noa nob nva nvb L2ab) (r4 nob nob nvb nvb L2bb)).1)
        (e4 (uccsd_2rdm_bjai (r2 nva noa T1a) (r2 nvb nob T1b) (r4 nva nva noa noa T2aa) (r4 nva nvb noa nob T2ab) (r4 nvb nvb nob nob T2bb)
      (r2 noa nva L1a) (r2 nob nvb L1b) (r4 noa noa nva nva L2aa) (r4 noa nob nva nvb L2ab) (r4 nob nob nvb nvb L2bb)).2.1)
        (e4 (uccsd_2rdm_bjai (r2 nva noa T1a) (r2 nvb nob T1b) (r4 nva nva noa noa T2aa) (r4 nva nvb noa nob T2ab) (r4 nvb nvb nob nob T2bb)
      (r2 noa nva L1a) (r2 nob nvb L1b) (r4 noa noa nva nva L2aa) (r4 noa nob nva nvb L2ab) (r4 nob nob nvb nvb L2bb)).2.2.1)
        (e4 (uccsd_2rdm_bjai (r2 nva noa T1a) (r2 nvb nob T1b) (r4 nva nva noa noa T2aa) (r4 nva nvb noa nob T2ab) (r4 nvb nvb nob nob T2bb)
      (r2 noa nva L1a) (r2 nob nvb L1b) (r4 noa noa nva nva L2aa) (r4 noa nob nva nvb L2ab) (r4 nob nob nvb nvb L2bb)).2.2.2.2.2)
        (e4 (uccsd_2rdm_bjai (r2 nva noa T1a) (r2 nvb nob T1b) (r4 nva nva noa noa T2aa) (r4 nva nvb noa nob T2ab) (r4 nvb nvb nob nob T2bb)
      (r2 noa nva L1a) (r2 nob nvb L1b) (r4 noa noa nva nva L2aa) (r4 noa nob nva nvb L2ab) (r4 nob nob nvb nvb L2bb)).2.2.2.1)
        (e4 (uccsd_2rdm_bjai (r2 nva noa T1a) (r2 nvb nob T1b) (r4 nva nva noa noa T2aa) (r4 nva nvb noa nob T2ab) (r4 nvb nvb nob nob T2bb)
      (r2 noa nva L1a) (r2 nob nvb L1b) (r4 noa noa nva nva L2aa) (r4 noa nob nva nvb L2ab) (r4 nob nob nvb nvb L2bb)).2.2.2.2.1)
        nva noa nva noa nvb nob nvb nob) := by
  rw [T1_dec, T2_dec, T1_dec, T2_dec, ccsd_2rdm_bjai_map, C18_bjai _ _ _ _ _ _ _ _ _ _ hTa hTb hLa hLb, block_dec]
  simp only [r4_e4]


/-- C18, numeric: `uccsd_2rdm_klij` returns slices of `ccsd_2rdm_klij`. -/
theorem C18_klij_numeric (hTa : Anti (r4 nva nva noa noa T2aa)) (hTb : Anti (r4 nvb nvb nob nob T2bb)) (hLa : Anti (r4 noa noa nva nva L2aa)) (hLb : Anti (r4 nob nob nvb nvb L2bb)) :
    ccsd_2rdm_klij (r2 (nva + nvb) (noa + nob) (T1_to_spin T1a T1b noa nva nob nvb))
      (r4 (nva + nvb) (nva + nvb) (noa + nob) (noa + nob) (T2_to_spin T2aa T2ab T2bb noa nva nob nvb))
      (r2 (noa + nob) (nva + nvb) (T1_to_spin L1a L1b nva noa nvb nob))
      (r4 (noa + nob) (noa + nob) (nva + nvb) (nva + nvb) (T2_to_spin L2aa L2ab L2bb nva noa nvb nob))
    = r4 (noa + nob) (noa + nob) (noa + nob) (noa + nob) (int_to_spin_block
        (e4 (uccsd_2rdm_klij (r2 nva noa T1a) (r2 nvb nob T1b) (r4 nva nva noa noa T2aa) (r4 nva nvb noa nob T2ab) (r4 nvb nvb nob nob T2bb)
      (r2 noa nva L1a) (r2 nob nvb L1b) (r4 noa noa nva nva L2aa) (r4 noa nob nva nvb L2ab) (r4 nob nob nvb nvb L2bb)).1)
        (e4 (uccsd_2rdm_klij (r2 nva noa T1a) (r2 nvb nob T1b) (r4 nva nva noa noa T2aa) (r4 nva nvb noa nob T2ab) (r4 nvb nvb nob nob T2bb)
      (r2 noa nva L1a) (r2 nob nvb L1b) (r4 noa noa nva nva L2aa) (r4 noa nob nva nvb L2ab) (r4 nob nob nvb nvb L2bb)).2.1)
        (e4 (uccsd_2rdm_klij (r2 nva noa T1a) (r2 nvb nob T1b) (r4 nva nva noa noa T2aa) (r4 nva nvb noa nob T2ab) (r4 nvb nvb nob nob T2bb)
      (r2 noa nva L1a) (r2 nob nvb L1b) (r4 noa noa nva nva L2aa) (r4 noa nob nva nvb L2ab) (r4 nob nob nvb nvb L2bb)).2.2)
        (fun x y z w => e4 (uccsd_2rdm_klij (r2 nva noa T1a) (r2 nvb nob T1b) (r4 nva nva noa noa T2aa) (r4 nva nvb noa nob T2ab) (r4 nvb nvb nob nob T2bb)
      (r2 noa nva L1a) (r2 nob nvb L1b) (r4 noa noa nva nva L2aa) (r4 noa nob nva nvb L2ab) (r4 nob nob nvb nvb L2bb)).2.2 y x w z)
        (fun x y z w => -e4 (uccsd_2rdm_klij (r2 nva noa T1a) (r2 nvb nob T1b) (r4 nva nva noa noa T2aa) (r4 nva nvb noa nob T2ab) (r4 nvb nvb nob nob T2bb)
      (r2 noa nva L1a) (r2 nob nvb L1b) (r4 noa noa nva nva L2aa) (r4 noa nob nva nvb L2ab) (r4 nob nob nvb nvb L2bb)).2.2 x y w z)
        (fun x y z w => -e4 (uccsd_2rdm_klij (r2 nva noa T1a) (r2 nvb nob T1b) (r4 nva nva noa noa T2aa) (r4 nva nvb noa nob T2ab) (r4 nvb nvb nob nob T2bb)
      (r2 noa nva L1a) (r2 nob nvb L1b) (r4 noa noa nva nva L2aa) (r4 noa nob nva nvb L2ab) (r4 nob nob nvb nvb L2bb)).2.2 y x z w)
        noa noa noa noa nob nob nob nob) := by
  rw [T1_dec, T2_dec, T1_dec, T2_dec, ccsd_2rdm_klij_map, C18_klij _ _ _ _ _ _ _ _ _ _ hTa hTb hLa hLb, block_dec]
  simp only [r4_e4]
  congr 2 <;> (funext x y z w; simp [r4, e4])

/-- C18, numeric: `uccsd_2rdm_bcai` returns slices of `ccsd_2rdm_bcai`. -/
theorem C18_bcai_numeric (hTa : Anti (r4 nva nva noa noa T2aa)) (hTb : Anti (r4 nvb nvb nob nob T2bb)) (hLa : Anti (r4 noa noa nva nva L2aa)) (hLb : Anti (r4 nob nob nvb nvb L2bb)) :
    ccsd_2rdm_bcai (r2 (nva + nvb) (noa + nob) (T1_to_spin T1a T1b noa nva nob nvb))
      (r4 (nva + nvb) (nva + nvb) (noa + nob) (noa + nob) (T2_to_spin T2aa T2ab T2bb noa nva nob nvb))
      (r2 (noa + nob) (nva + nvb) (T1_to_spin L1a L1b nva noa nvb nob))
      (r4 (noa + nob) (noa + nob) (nva + nvb) (nva + nvb) (T2_to_spin L2aa L2ab L2bb nva noa nvb nob))
    = r4 (nva + nvb) (nva + nvb) (nva + nvb) (noa + nob) (int_to_spin_block
        (e4 (uccsd_2rdm_bcai (r2 nva noa T1a) (r2 nvb nob T1b) (r4 nva nva noa noa T2aa) (r4 nva nvb noa nob T2ab) (r4 nvb nvb nob nob T2bb)
      (r2 noa nva L1a) (r2 nob nvb L1b) (r4 noa noa nva nva L2aa) (r4 noa nob nva nvb L2ab) (r4 nob nob nvb nvb L2bb)).1)
        (e4 (uccsd_2rdm_bcai (r2 nva noa T1a) (r2 nvb nob T1b) (r4 nva nva noa noa T2aa) (r4 nva nvb noa nob T2ab) (r4 nvb nvb nob nob T2bb)
      (r2 noa nva L1a) (r2 nob nvb L1b) (r4 noa noa nva nva L2aa) (r4 noa nob nva nvb L2ab) (r4 nob nob nvb nvb L2bb)).2.1)
        (e4 (uccsd_2rdm_bcai (r2 nva noa T1a) (r2 nvb nob T1b) (r4 nva nva noa noa T2aa) (r4 nva nvb noa nob T2ab) (r4 nvb nvb nob nob T2bb)
      (r2 noa nva L1a) (r2 nob nvb L1b) (r4 noa noa nva nva L2aa) (r4 noa nob nva nvb L2ab) (r4 nob nob nvb nvb L2bb)).2.2.1)
        (e4 (uccsd_2rdm_bcai (r2 nva noa T1a) (r2 nvb nob T1b) (r4 nva nva noa noa T2aa) (r4 nva nvb noa nob T2ab) (r4 nvb nvb nob nob T2bb)
      (r2 noa nva L1a) (r2 nob nvb L1b) (r4 noa noa nva nva L2aa) (r4 noa nob nva nvb L2ab) (r4 nob nob nvb nvb L2bb)).2.2.2)
        (fun x y z w => -e4 (uccsd_2rdm_bcai (r2 nva noa T1a) (r2 nvb nob T1b) (r4 nva nva noa noa T2aa) (r4 nva nvb noa nob T2ab) (r4 nvb nvb nob nob T2bb)
      (r2 noa nva L1a) (r2 nob nvb L1b) (r4 noa noa nva nva L2aa) (r4 noa nob nva nvb L2ab) (r4 nob nob nvb nvb L2bb)).2.2.2 y x z w)
        (fun x y z w => -e4 (uccsd_2rdm_bcai (r2 nva noa T1a) (r2 nvb nob T1b) (r4 nva nva noa noa T2aa) (r4 nva nvb noa nob T2ab) (r4 nvb nvb nob nob T2bb)
      (r2 noa nva L1a) (r2 nob nvb L1b) (r4 noa noa nva nva L2aa) (r4 noa nob nva nvb L2ab) (r4 nob nob nvb nvb L2bb)).2.2.1 y x z w)
        nva nva nva noa nvb nvb nvb nob) := by
  rw [T1_dec, T2_dec, T1_dec, T2_dec, ccsd_2rdm_bcai_map, C18_bcai _ _ _ _ _ _ _ _ _ _ hTa hTb hLa hLb, block_dec]
  simp only [r4_e4]
  congr 2 <;> (funext x y z w; simp [r4, e4])

/-- C18, numeric: `uccsd_2rdm_kaij` returns slices of `ccsd_2rdm_kaij`. -/
theorem C18_kaij_numeric (hTa : Anti (r4 nva nva noa noa T2aa)) (hTb : Anti (r4 nvb nvb nob nob T2bb)) (hLa : Anti (r4 noa noa nva nva L2aa)) (hLb : Anti (r4 nob nob nvb nvb L2bb)) :
    ccsd_2rdm_kaij (r2 (nva + nvb) (noa + nob) (T1_to_spin T1a T1b noa nva nob nvb))
      (r4 (nva + nvb) (nva + nvb) (noa + nob) (noa + nob) (T2_to_spin T2aa T2ab T2bb noa nva nob nvb))
      (r2 (noa + nob) (nva + nvb) (T1_to_spin L1a L1b nva noa nvb nob))
      (r4 (noa + nob) (noa + nob) (nva + nvb) (nva + nvb) (T2_to_spin L2aa L2ab L2bb nva noa nvb nob))
    = r4 (noa + nob) (nva + nvb) (noa + nob) (noa + nob) (int_to_spin_block
        (e4 (uccsd_2rdm_kaij (r2 nva noa T1a) (r2 nvb nob T1b) (r4 nva nva noa noa T2aa) (r4 nva nvb noa nob T2ab) (r4 nvb nvb nob nob T2bb)
      (r2 noa nva L1a) (r2 nob nvb L1b) (r4 noa noa nva nva L2aa) (r4 noa nob nva nvb L2ab) (r4 nob nob nvb nvb L2bb)).1)
        (e4 (uccsd_2rdm_kaij (r2 nva noa T1a) (r2 nvb nob T1b) (r4 nva nva noa noa T2aa) (r4 nva nvb noa nob T2ab) (r4 nvb nvb nob nob T2bb)
      (r2 noa nva L1a) (r2 nob nvb L1b) (r4 noa noa nva nva L2aa) (r4 noa nob nva nvb L2ab) (r4 nob nob nvb nvb L2bb)).2.1)
        (e4 (uccsd_2rdm_kaij (r2 nva noa T1a) (r2 nvb nob T1b) (r4 nva nva noa noa T2aa) (r4 nva nvb noa nob T2ab) (r4 nvb nvb nob nob T2bb)
      (r2 noa nva L1a) (r2 nob nvb L1b) (r4 noa noa nva nva L2aa) (r4 noa nob nva nvb L2ab) (r4 nob nob nvb nvb L2bb)).2.2.1)
        (e4 (uccsd_2rdm_kaij (r2 nva noa T1a) (r2 nvb nob T1b) (r4 nva nva noa noa T2aa) (r4 nva nvb noa nob T2ab) (r4 nvb nvb nob nob T2bb)
      (r2 noa nva L1a) (r2 nob nvb L1b) (r4 noa noa nva nva L2aa) (r4 noa nob nva nvb L2ab) (r4 nob nob nvb nvb L2bb)).2.2.2)
        (fun x y z w => -e4 (uccsd_2rdm_kaij (r2 nva noa T1a) (r2 nvb nob T1b) (r4 nva nva noa noa T2aa) (r4 nva nvb noa nob T2ab) (r4 nvb nvb nob nob T2bb)
      (r2 noa nva L1a) (r2 nob nvb L1b) (r4 noa noa nva nva L2aa) (r4 noa nob nva nvb L2ab) (r4 nob nob nvb nvb L2bb)).2.2.1 x y w z)
        (fun x y z w => -e4 (uccsd_2rdm_kaij (r2 nva noa T1a) (r2 nvb nob T1b) (r4 nva nva noa noa T2aa) (r4 nva nvb noa nob T2ab) (r4 nvb nvb nob nob T2bb)
      (r2 noa nva L1a) (r2 nob nvb L1b) (r4 noa noa nva nva L2aa) (r4 noa nob nva nvb L2ab) (r4 nob nob nvb nvb L2bb)).2.2.2 x y w z)
        noa nva noa noa nob nvb nob nob) := by
  rw [T1_dec, T2_dec, T1_dec, T2_dec, ccsd_2rdm_kaij_map, C18_kaij _ _ _ _ _ _ _ _ _ _ hTa hTb hLa hLb, block_dec]
  simp only [r4_e4]
  congr 2 <;> (funext x y z w; simp [r4, e4])

/-- C18, numeric: `uccsd_2rdm_abij` returns slices of `ccsd_2rdm_abij`. -/
theorem C18_abij_numeric (hTa : Anti (r4 nva nva noa noa T2aa)) (hTb : Anti (r4 nvb nvb nob nob T2bb)) (hLa : Anti (r4 noa noa nva nva L2aa)) (hLb : Anti (r4 nob nob nvb nvb L2bb)) :
    ccsd_2rdm_abij (r2 (nva + nvb) (noa + nob) (T1_to_spin T1a T1b noa nva nob nvb))
      (r4 (nva + nvb) (nva + nvb) (noa + nob) (noa + nob) (T2_to_spin T2aa T2ab T2bb noa nva nob nvb))
      (r2 (noa + nob) (nva + nvb) (T1_to_spin L1a L1b nva noa nvb nob))
      (r4 (noa + nob) (noa + nob) (nva + nvb) (nva + nvb) (T2_to_spin L2aa L2ab L2bb nva noa nvb nob)) tfac
    = r4 (nva + nvb) (nva + nvb) (noa + nob) (noa + nob) (T2_to_spin
        (e4 (uccsd_2rdm_abij (r2 nva noa T1a) (r2 nvb nob T1b) (r4 nva nva noa noa T2aa) (r4 nva nvb noa nob T2ab) (r4 nvb nvb nob nob T2bb)
      (r2 noa nva L1a) (r2 nob nvb L1b) (r4 noa noa nva nva L2aa) (r4 noa nob nva nvb L2ab) (r4 nob nob nvb nvb L2bb) tfac).1)
        (e4 (uccsd_2rdm_abij (r2 nva noa T1a) (r2 nvb nob T1b) (r4 nva nva noa noa T2aa) (r4 nva nvb noa nob T2ab) (r4 nvb nvb nob nob T2bb)
      (r2 noa nva L1a) (r2 nob nvb L1b) (r4 noa noa nva nva L2aa) (r4 noa nob nva nvb L2ab) (r4 nob nob nvb nvb L2bb) tfac).2.2)
        (e4 (uccsd_2rdm_abij (r2 nva noa T1a) (r2 nvb nob T1b) (r4 nva nva noa noa T2aa) (r4 nva nvb noa nob T2ab) (r4 nvb nvb nob nob T2bb)
      (r2 noa nva L1a) (r2 nob nvb L1b) (r4 noa noa nva nva L2aa) (r4 noa nob nva nvb L2ab) (r4 nob nob nvb nvb L2bb) tfac).2.1) noa nva nob nvb) := by
  rw [T1_dec, T2_dec, T1_dec, T2_dec, ccsd_2rdm_abij_map, C18_abij _ _ _ _ _ _ _ _ _ _ _ hTa hTb hLa hLb, T2_dec]
  simp only [r4_e4]

end

/-- The hypotheses of the numeric statements are met, with results that are not zero. -/
example : AntiI (f2 2 3 (cI 2 3 1)) ∧ Anti (r4 3 3 2 2 (cl4 3 3 2 2 (av 1))) ∧
    (ccsd_simple (f1 (2 + 3) (3 + 2) (F_to_spin (cF 2 3 1) (cF 3 2 5) 2 3 3 2))
      (f2 (2 + 3) (3 + 2) (int_to_spin2 (cI 2 3 1) (cI 3 2 4) (cM 2 3 3 2) 2 3 3 2))
      (r2 (3 + 2) (2 + 3) (T1_to_spin (cl2 3 2 fun x y => 1 + x + y) (cl2 2 3 fun x y => 5 - x - y) 2 3 3 2))
      (r4 (3 + 2) (3 + 2) (2 + 3) (2 + 3)
        (T2_to_spin (cl4 3 3 2 2 (av 1)) (cl4 3 2 2 3 (mv 1)) (cl4 2 2 3 3 (av 2)) 2 3 3 2))).1 4 4 ≠ 0 := by
  refine ⟨?_, ⟨fun x y z w => (cl4_anti 3 2 1).a12 _ _ _ _, fun x y z w => (cl4_anti 3 2 1).a34 _ _ _ _⟩, by decide +kernel⟩
  have h := cI_anti 2 3 1
  constructor <;> intro x y z w <;> first
    | exact h.vvvv12 _ _ _ _
    | exact h.vvvv34 _ _ _ _
    | exact h.vvvo12 _ _ _ _
    | exact h.vovv34 _ _ _ _
    | exact h.vvoo12 _ _ _ _
    | exact h.vvoo34 _ _ _ _
    | exact h.oovv12 _ _ _ _
    | exact h.oovv34 _ _ _ _
    | exact h.vooo34 _ _ _ _
    | exact h.ooov12 _ _ _ _
    | exact h.oooo12 _ _ _ _
    | exact h.oooo34 _ _ _ _

end Num
end CC
