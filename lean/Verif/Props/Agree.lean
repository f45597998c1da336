import Verif.Props.IterUniR
import Verif.Props.IterUniU
/-!
# C112: restricted and unrestricted calculations of closed shells agree

C14 and C16 (C13 and C15 for spin orbitals) are the statements for a single residual.  Here it is followed through whole calculations: exactly, update by update, and in rounded arithmetic.
-/

set_option synthInstance.maxSize 100000
set_option synthInstance.maxHeartbeats 400000

namespace CC
open Verif.Tensor
variable {K : Type} [RCLike K] {O V : Type} [Fintype O] [Fintype V]

/-- C112: one update of closed-shell amplitudes with `uccsd_stanton` is one update with `rccsd_stanton`. -/
theorem C112_update (F : OneE O V K) (I : TwoEFull O V O V K) (hI : PairI I) (eo : O → K) (ev : V → K) {T : Amp K O V} (h : PairSym T.2) :
    uupdate F F (asymI I) (asymI I) I eo ev eo ev (closedA T) = closedA (rupdate F I eo ev T) := by
  simp only [uupdate, closedA_apply, rupdate, C14_rccsd F I T.1 T.2 hI h]
  refine Prod.ext rfl (Prod.ext ?_ (Prod.ext rfl ?_)) <;> funext a b i j <;> simp only [asym2] <;> rw [sub_right_comm (ev a + ev b) (eo j) (eo i)] <;> ring

theorem rupdate_pair (F : OneE O V K) (I : TwoEFull O V O V K) (hI : PairI I) (eo : O → K) (ev : V → K) {T : Amp K O V} (h : PairSym T.2) : PairSym (rupdate F I eo ev T).2 := by
  intro a b i j
  simp only [rupdate]
  rw [h a b i j, C43_rccsd_pair F I T.1 T.2 hI h a b i j, show ev b + ev a - eo j - eo i = ev a + ev b - eo i - eo j by ring]

/-- C112: after any number of updates the unrestricted amplitudes are those of the restricted ones, for all closed-shell integrals, whether the iterations converge or not. -/
theorem C112_iterates (F : OneE O V K) (I : TwoEFull O V O V K) (hI : PairI I) (eo : O → K) (ev : V → K) (T : Amp K O V) (h : PairSym T.2) (k : ℕ) :
    (uupdate F F (asymI I) (asymI I) I eo ev eo ev)^[k] (closedA T) = closedA ((rupdate F I eo ev)^[k] T) ∧ PairSym ((rupdate F I eo ev)^[k] T).2 := by
  induction k with
  | zero => exact ⟨rfl, h⟩
  | succ k ih =>
    rw [Function.iterate_succ_apply', Function.iterate_succ_apply', ih.1]
    exact ⟨C112_update F I hI eo ev ih.2, rupdate_pair F I hI eo ev ih.2⟩

/-- C112: one update of closed-shell multipliers with `uccsd_lambda_opt` is one update with `rccsd_lambda_opt`. -/
theorem C112_lambda_update (F : OneE O V K) (I : TwoEFull O V O V K) (hI : PairI I) (eo : O → K) (ev : V → K) {T : Amp K O V} (hT : PairSym T.2) {L : Amp K V O} (h : PairSym L.2) :
    uupdateL F F (asymI I) (asymI I) I eo ev eo ev (closedA T) (closedA L) = closedA (rupdateL F I eo ev T L) := by
  simp only [uupdateL, closedA_apply, rupdateL, C16_rccsd_lambda F I L.1 L.2 T.1 T.2 hI h hT]
  refine Prod.ext rfl (Prod.ext ?_ (Prod.ext rfl ?_)) <;> funext i j a b <;> simp only [asym2] <;> rw [add_comm (ev b) (ev a)] <;> ring

theorem rupdateL_pair (F : OneE O V K) (I : TwoEFull O V O V K) (hI : PairI I) (eo : O → K) (ev : V → K) {T : Amp K O V} (hT : PairSym T.2) {L : Amp K V O} (h : PairSym L.2) :
    PairSym (rupdateL F I eo ev T L).2 := by
  intro i j a b
  simp only [rupdateL]
  rw [h i j a b, C43_rccsd_lambda_pair F I L.1 L.2 T.1 T.2 hI h hT i j a b, show ev b + ev a - eo j - eo i = ev a + ev b - eo i - eo j by ring]

/-- C112: the same for multipliers. -/
theorem C112_lambda_iterates (F : OneE O V K) (I : TwoEFull O V O V K) (hI : PairI I) (eo : O → K) (ev : V → K) (T : Amp K O V) (hT : PairSym T.2) (L : Amp K V O) (h : PairSym L.2)
    (k : ℕ) : (uupdateL F F (asymI I) (asymI I) I eo ev eo ev (closedA T))^[k] (closedA L) = closedA ((rupdateL F I eo ev T)^[k] L) ∧ PairSym ((rupdateL F I eo ev T)^[k] L).2 := by
  induction k with
  | zero => exact ⟨rfl, h⟩
  | succ k ih =>
    rw [Function.iterate_succ_apply', Function.iterate_succ_apply', ih.1]
    exact ⟨C112_lambda_update F I hI eo ev hT ih.2, rupdateL_pair F I hI eo ev hT ih.2⟩

section spin
variable {Oa Va Ob Vb : Type} [Fintype Oa] [Fintype Va] [Fintype Ob] [Fintype Vb]

/-- Unrestricted amplitudes or multipliers as spin-orbital ones, by `T1_to_spin` and `T2_to_spin` (spin_utils.py). -/
def spun (T : UAmp K Oa Va Ob Vb) : Amp K (Oa ⊕ Ob) (Va ⊕ Vb) := (T1_to_spin T.1.1 T.1.2, T2_to_spin T.2.1 T.2.2.1 T.2.2.2)

variable (Fa : OneE Oa Va K) (Fb : OneE Ob Vb K) (Ia : TwoE Oa Va K) (Ib : TwoE Ob Vb K) (J : TwoEFull Oa Va Ob Vb K) (hIa : AntiI Ia) (hIb : AntiI Ib)
  (eoa : Oa → K) (eva : Va → K) (eob : Ob → K) (evb : Vb → K)
include hIa hIb

/-- C112: one update of the amplitudes with `ccsd_simple` (by C01 also with `ccsd_stanton`) for integrals assembled from those of both spins is one update with `uccsd_stanton`. -/
theorem C112_spin_update {T : UAmp K Oa Va Ob Vb} (h : UAnti T) :
    update (F_to_spin Fa Fb) (int_to_spin2 Ia Ib J) (Sum.elim eoa eob) (Sum.elim eva evb) (spun T) = spun (uupdate Fa Fb Ia Ib J eoa eva eob evb T) := by
  simp only [update, spun, C13_uccsd Fa Fb Ia Ib J T.1.1 T.1.2 T.2.1 T.2.2.1 T.2.2.2 hIa hIb h.1 h.2]
  refine Prod.ext ?_ ?_
  · funext a i
    rcases a with a | a <;> rcases i with i | i <;> simp [T1_to_spin, blk2, uupdate]
  · funext a b i j
    rcases a with a | a <;> rcases b with b | b <;> rcases i with i | i <;> rcases j with j | j <;> simp [T2_to_spin, uupdate] <;> ring_nf

/-- C112: one update of the multipliers. -/
theorem C112_spin_lambda_update {T : UAmp K Oa Va Ob Vb} (h : UAnti T) {L : UAmp K Va Oa Vb Ob} (hL : UAnti L) :
    updateL (F_to_spin Fa Fb) (int_to_spin2 Ia Ib J) (Sum.elim eoa eob) (Sum.elim eva evb) (spun T) (spun L) = spun (uupdateL Fa Fb Ia Ib J eoa eva eob evb T L) := by
  simp only [updateL, spun]
  rw [C15_uccsd_lambda Fa Fb Ia Ib J L.1.1 L.1.2 L.2.1 L.2.2.1 L.2.2.2 T.1.1 T.1.2 T.2.1 T.2.2.1 T.2.2.2 hIa hIb h.1 h.2 hL.1 hL.2]
  refine Prod.ext ?_ ?_
  · funext a i
    rcases a with a | a <;> rcases i with i | i <;> simp [T1_to_spin, blk2, uupdateL]
  · funext a b i j
    rcases a with a | a <;> rcases b with b | b <;> rcases i with i | i <;> rcases j with j | j <;> simp [T2_to_spin, uupdateL] <;> ring_nf

/-- C112: after any number of updates the spin-orbital amplitudes are those assembled from the unrestricted ones. -/
theorem C112_spin_iterates (T : UAmp K Oa Va Ob Vb) (h : UAnti T) (k : ℕ) :
    (update (F_to_spin Fa Fb) (int_to_spin2 Ia Ib J) (Sum.elim eoa eob) (Sum.elim eva evb))^[k] (spun T) = spun ((uupdate Fa Fb Ia Ib J eoa eva eob evb)^[k] T) ∧
      UAnti ((uupdate Fa Fb Ia Ib J eoa eva eob evb)^[k] T) := by
  induction k with
  | zero => exact ⟨rfl, h⟩
  | succ k ih =>
    rw [Function.iterate_succ_apply', Function.iterate_succ_apply', ih.1]
    refine ⟨C112_spin_update Fa Fb Ia Ib J hIa hIb eoa eva eob evb ih.2, ?_⟩
    rw [uupdate_eq]
    exact usub_anti ih.2 (divU_anti _ _ _ _ (ures_anti _ _ _ _ _ hIa hIb ih.2))

/-- C112: the same for multipliers. -/
theorem C112_spin_lambda_iterates (T : UAmp K Oa Va Ob Vb) (hT : UAnti T) (L : UAmp K Va Oa Vb Ob) (h : UAnti L) (k : ℕ) :
    (updateL (F_to_spin Fa Fb) (int_to_spin2 Ia Ib J) (Sum.elim eoa eob) (Sum.elim eva evb) (spun T))^[k] (spun L) = spun ((uupdateL Fa Fb Ia Ib J eoa eva eob evb T)^[k] L) ∧
      UAnti ((uupdateL Fa Fb Ia Ib J eoa eva eob evb T)^[k] L) := by
  induction k with
  | zero => exact ⟨rfl, h⟩
  | succ k ih =>
    rw [Function.iterate_succ_apply', Function.iterate_succ_apply', ih.1]
    refine ⟨C112_spin_lambda_update Fa Fb Ia Ib J hIa hIb eoa eva eob evb hT ih.2, ?_⟩
    rw [uupdateL_eq]
    exact usub_anti ih.2 (divU_anti _ _ _ _ (ulam_anti _ _ _ _ _ hIa hIb ih.2 hT))

end spin

/-- C112: all three implementations, started from the same closed shell, give the same energy after every number of updates. -/
theorem C112_energies (F : OneE O V K) (I : TwoEFull O V O V K) (hI : PairI I) (eo : O → K) (ev : V → K) (T : Amp K O V) (h : PairSym T.2) (k : ℕ) :
    let Tr := (rupdate F I eo ev)^[k] T
    let Tu := (uupdate F F (asymI I) (asymI I) I eo ev eo ev)^[k] (closedA T)
    let Tg := (update (F_to_spin F F) (int_to_spin2 (asymI I) (asymI I) I) (Sum.elim eo eo) (Sum.elim ev ev))^[k] (spun (closedA T))
    ucc_energy Tu.1 Tu.2 F.ov F.ov (asymI I).oovv (asymI I).oovv I.oovv = rcc_energy Tr.1 Tr.2 F.ov I.oovv ∧
      cc_energy Tg.1 Tg.2 (F_to_spin F F).ov (int_to_spin2 (asymI I) (asymI I) I).oovv = rcc_energy Tr.1 Tr.2 F.ov I.oovv := by
  intro Tr Tu Tg
  obtain ⟨e, p⟩ := C112_iterates F I hI eo ev T h k
  have eu : Tu = closedA Tr := e
  have eg : Tg = spun (closedA Tr) := by
    rw [← eu]
    exact (C112_spin_iterates F F (asymI I) (asymI I) I (asymI_anti hI) (asymI_anti hI) eo ev eo ev (closedA T) (closedA_anti h) k).1
  have a : ucc_energy (closedA Tr).1 (closedA Tr).2 F.ov F.ov (asymI I).oovv (asymI I).oovv I.oovv = rcc_energy Tr.1 Tr.2 F.ov I.oovv :=
    C12_rcc_energy Tr.1 Tr.2 F.ov I.oovv (fun a b i j => (hI.oovv a b i j).symm) p
  rw [eu, eg]
  refine ⟨a, Eq.trans ?_ a⟩
  exact C12_ucc_energy ..

/-- Two doubly occupied orbitals and one virtual one, all integrals 1, orbital energies -1 and 1, from zero: seven updates. -/
example : let F : OneE (Fin 2) (Fin 1) ℝ := ⟨fun _ _ => 1, fun _ _ => 1, fun _ _ => 1, fun _ _ => 1⟩
    let c : ∀ {A B C D : Type}, A → B → C → D → ℝ := fun _ _ _ _ => 1
    let I : TwoEFull (Fin 2) (Fin 1) (Fin 2) (Fin 1) ℝ := ⟨c, c, c, c, c, c, c, c, c, c, c, c, c, c, c, c⟩
    let Tr := (rupdate F I (fun _ => -1) fun _ => 1)^[7] (0 : Amp ℝ (Fin 2) (Fin 1))
    let Tg := (update (F_to_spin F F) (int_to_spin2 (asymI I) (asymI I) I) (Sum.elim (fun _ => -1) fun _ => -1) (Sum.elim (fun _ => 1) fun _ => 1))^[7] (spun (closedA (0 : Amp ℝ (Fin 2) (Fin 1))))
    cc_energy Tg.1 Tg.2 (F_to_spin F F).ov (int_to_spin2 (asymI I) (asymI I) I).oovv = rcc_energy Tr.1 Tr.2 F.ov I.oovv := by
  intro F c I Tr Tg
  exact (C112_energies F I (by constructor <;> intros <;> rfl) _ _ 0 (fun _ _ _ _ => rfl) 7).2

end CC

namespace Heap
open Prog CC Verif.Tensor
variable {K : Type} [RCLike K] {u η : ℝ} {G : List (List ℝ) → ℝ} {no nv : ℕ}

/-- The numbers of orbitals of a closed shell: occupied and virtual of the first spin, occupied and virtual of the second. -/
@[reducible] def shells (no nv : ℕ) : ℕ → ℕ
  | 0 => no
  | 1 => nv
  | 2 => no
  | _ => nv

/-- `x` and `y` are amplitudes and multipliers from a restricted calculation in rounded arithmetic: integrals and denominators wrong by at most `ε`, exchange-symmetric
starting values of at most `r`, at least `N` updates with `rccsd_stanton`, then at least `N` with `rccsd_lambda_opt`. -/
def Restricted (A : Rounding K u η G) (re : K → K) (ε r : ℝ) (N : ℕ) (t : Bool) (F : OneE (Fin no) (Fin nv) K) (I : TwoEFull (Fin no) (Fin nv) (Fin no) (Fin nv) K)
    (eo : Fin no → K) (ev : Fin nv → K) (x y : Arr K × Arr K) : Prop :=
  ∃ (ins insL : List (Arr K)) (d1 d2 e1 e2 : Arr K) (xs ys : ℕ → Arr K × Arr K) (k m : ℕ),
    List.Forall₂ (NearIs ε) (hamR (n := shells no nv) t F I) ins ∧ List.Forall₂ (NearIs ε) (hamRL (n := shells no nv) t F I) insL ∧
    NearDen (n := shells no nv) ε eo ev d1 d2 ∧ NearDenL (n := shells no nv) ε eo ev e1 e2 ∧
    Typed (shells no nv) t (xs 0) ∧ PairSym (ampOf (n := shells no nv) (xs 0) : Amp K (Fin no) (Fin nv)).2 ∧ ‖(ampOf (n := shells no nv) (xs 0) : Amp K (Fin no) (Fin nv))‖ ≤ r ∧
    TypedL (shells no nv) t (ys 0) ∧ PairSym (lamOf (n := shells no nv) (ys 0) : Amp K (Fin nv) (Fin no)).2 ∧ ‖(lamOf (n := shells no nv) (ys 0) : Amp K (Fin nv) (Fin no))‖ ≤ r ∧ N ≤ k ∧ N ≤ m ∧
    (∀ j < k, PStep A re Prog.rccsd_stanton ins d1 d2 (xs j) (xs (j + 1))) ∧ (∀ j < m, PStepL A re Prog.rccsd_lambda_opt insL (xs k) e1 e2 (ys j) (ys (j + 1))) ∧
    x = xs k ∧ y = ys m

/-- `x` and `y` are amplitudes and multipliers from an unrestricted calculation in rounded arithmetic with the integrals of both spins: `uccsd_stanton`, then
`uccsd_lambda_opt`. -/
def Unrestricted (A : Rounding K u η G) (re : K → K) (ε r : ℝ) (N : ℕ) (t : Bool) (F : OneE (Fin no) (Fin nv) K) (I : TwoEFull (Fin no) (Fin nv) (Fin no) (Fin nv) K)
    (eo : Fin no → K) (ev : Fin nv → K) (x y : Fin 5 → Arr K) : Prop :=
  ∃ (ins insL : List (Arr K)) (d e : Fin 5 → Arr K) (xs ys : ℕ → Fin 5 → Arr K) (k m : ℕ),
    List.Forall₂ (NearIs ε) (uham (n := shells no nv) t F F (asymI I) (asymI I) I) ins ∧ List.Forall₂ (NearIs ε) (uhamL (n := shells no nv) t F F (asymI I) (asymI I) I) insL ∧
    (uV (shells no nv) K t).NearDen ε (uden eo ev eo ev) d ∧ (uW (shells no nv) K t).NearDen ε (udenL eo ev eo ev) e ∧
    (uV (shells no nv) K t).Ty (xs 0) ∧ UAnti ((uV (shells no nv) K t).rd (xs 0)) ∧ ‖(uV (shells no nv) K t).rd (xs 0)‖ ≤ r ∧
    (uW (shells no nv) K t).Ty (ys 0) ∧ UAnti ((uW (shells no nv) K t).rd (ys 0)) ∧ ‖(uW (shells no nv) K t).rd (ys 0)‖ ≤ r ∧ N ≤ k ∧ N ≤ m ∧
    (∀ j < k, UStep A re ins d (xs j) (xs (j + 1))) ∧ (∀ j < m, ULStep A re insL (xs k) e (ys j) (ys (j + 1))) ∧ x = xs k ∧ y = ys m

/-- C112: restricted and unrestricted calculations of a closed shell in rounded arithmetic agree to order `u`: in the amplitudes, the multipliers and the energies, although
they run through different intermediates and start from different values.  Both calculations exist. -/
theorem C112_agree (re : K → K) (hre : ∀ x y, ‖re x - re y‖ ≤ ‖x - y‖) {η : ℝ} (hη : 0 ≤ η) {G : List (List ℝ) → ℝ} (hG : GMono G) {c : ℝ} (hc : 0 ≤ c)
    (t : Bool) (v : OneE (Fin no) (Fin nv) K) (I : TwoEFull (Fin no) (Fin nv) (Fin no) (Fin nv) K) (hI : PairI I) (eo : Fin no → K) (ev : Fin nv → K)
    (g1 : ∀ a i, ev a - eo i ≠ 0) (g2 : ∀ a b i j, ev a + ev b - eo i - eo j ≠ 0) (r : ℝ) (hr : 0 < r) :
    ∃ z₀ : ℝ, 0 < z₀ ∧ ∀ z : K, ‖z‖ ≤ z₀ → ∃ C u₀ : ℝ, 0 ≤ C ∧ 0 < u₀ ∧ u₀ ≤ 1 ∧ ∀ u, 0 < u → u ≤ u₀ → ∃ N : ℕ, ∀ (A : Rounding K u η G), AddComm A → SignSym A →
      (∃ x y, Restricted A re (c * u) r N t ((diagF eo ev).addMul z v) (I.mul z) eo ev x y) ∧
      (∃ x y, Unrestricted A re (c * u) r N t ((diagF eo ev).addMul z v) (I.mul z) eo ev x y) ∧
      ∀ x y x' y', Restricted A re (c * u) r N t ((diagF eo ev).addMul z v) (I.mul z) eo ev x y → Unrestricted A re (c * u) r N t ((diagF eo ev).addMul z v) (I.mul z) eo ev x' y' →
        ‖(uV (shells no nv) K t).rd x' - closedA (ampOf (n := shells no nv) x)‖ ≤ C * u ∧ ‖(uW (shells no nv) K t).rd y' - closedA (lamOf (n := shells no nv) y)‖ ≤ C * u ∧
        ∀ f i fa fb ia ib ab : Arr K, List.Forall₂ (NearIs (n := shells no nv) (c * u)) [.two t 0 1 ((diagF eo ev).addMul z v).ov, .four t 0 0 1 1 (I.mul z).oovv] [f, i] →
          List.Forall₂ (NearIs (n := shells no nv) (c * u)) [.two t 0 1 ((diagF eo ev).addMul z v).ov, .two t 2 3 ((diagF eo ev).addMul z v).ov, .four t 0 0 1 1 (asymI (I.mul z)).oovv,
            .four t 2 2 3 3 (asymI (I.mul z)).oovv, .four t 0 2 1 3 (I.mul z).oovv] [fa, fb, ia, ib, ab] →
          ∃ E E', Prog.rcc_energy.nrun (rounded A true re) [x.1, x.2, f, i] = .ok [E] ∧
            Prog.ucc_energy.nrun (rounded A true re) (List.ofFn x' ++ [fa, fb, ia, ib, ab]) = .ok [E'] ∧ ‖E.val [] - E'.val []‖ ≤ C * u := by
  obtain ⟨z₁, hz1, h1⟩ := C98_weak (n := shells no nv) re hre hη hG hc t v I hI eo ev g1 g2 r hr
  have gap : UGap eo ev eo ev := ⟨g1, g1, g2, g2, g2⟩
  obtain ⟨z₂, hz2, h2⟩ := C99_weak (n := shells no nv) re hre hη hG hc t v v (asymI I) (asymI I) I (asymI_anti hI) (asymI_anti hI) eo ev eo ev gap r hr
  let cA := closedA (𝕜 := K) (O := Fin no) (V := Fin nv)
  let cL := closedA (𝕜 := K) (O := Fin nv) (V := Fin no)
  let B := r + ‖cA‖ * r
  obtain ⟨z₃, hz3, h3⟩ := C73_uccsd_converges eo ev eo ev gap v v (asymI I) (asymI I) I (asymI_anti hI) (asymI_anti hI) B (by positivity)
  obtain ⟨z₄, hz4, h4⟩ := C73_uccsd_lambda_converges eo ev eo ev gap v v (asymI I) (asymI I) I (asymI_anti hI) (asymI_anti hI) B
  refine ⟨min (min z₁ z₂) (min z₃ z₄), lt_min (lt_min hz1 hz2) (lt_min hz3 hz4), fun z hz => ?_⟩
  obtain ⟨T, L, pT, pL, nT, sT, sL, run⟩ := h1 z (hz.trans ((min_le_left _ _).trans (min_le_left _ _)))
  obtain ⟨T', L', aT, aL, nT', sT', sL', run'⟩ := h2 z (hz.trans ((min_le_left _ _).trans (min_le_right _ _)))
  have bT : ‖closedA T‖ ≤ B := (cA.le_opNorm T).trans ((mul_le_mul_of_nonneg_left nT (norm_nonneg _)).trans (by change _ ≤ r + _; linarith))
  have bT' : ‖T'‖ ≤ B := nT'.trans (le_add_of_nonneg_right (by positivity))
  have eT : T' = closedA T := by
    obtain ⟨S, -, -, -, -, uniq, -⟩ := h3 z (hz.trans ((min_le_right _ _).trans (min_le_left _ _)))
    refine (uniq T' aT.1 aT.2 bT' sT').trans (uniq (closedA T) (closedA_anti pT).1 (closedA_anti pT).2 bT ?_).symm
    rw [closedA_apply, ← mul_asym, C14_rccsd _ _ T.1 T.2 (mul_pair hI z) pT, sT]
    refine Prod.ext rfl (Prod.ext ?_ (Prod.ext rfl ?_)) <;> funext a b i j <;> exact sub_zero 0
  subst eT
  have eL : L' = closedA L := by
    obtain ⟨S, -, -, uniq, -⟩ := h4 z (hz.trans ((min_le_right _ _).trans (min_le_right _ _))) (closedA T) (closedA_anti pT).1 (closedA_anti pT).2 bT
    refine ((uniq L' aL.1 aL.2).1 sL').trans ((uniq (closedA L) (closedA_anti pL).1 (closedA_anti pL).2).1 ?_).symm
    rw [closedA_apply, closedA_apply, ← mul_asym, C16_rccsd_lambda _ _ L.1 L.2 T.1 T.2 (mul_pair hI z) pL pT, sL]
    refine Prod.ext rfl (Prod.ext ?_ (Prod.ext rfl ?_)) <;> funext a b i j <;> exact sub_zero 0
  subst eL
  obtain ⟨C₁, u₁, hC₁, hu₁, hu₁', k₁⟩ := run Prog.rcc_energy _ _ (C53_rcc_energy (n := shells no nv) (i := t) (t := t) T.1 T.2 ((diagF eo ev).addMul z v).ov (I.mul z).oovv) rfl
  obtain ⟨C₂, u₂, hC₂, hu₂, hu₂', k₂⟩ := run' Prog.ucc_energy _ _ (C53_ucc_energy (n := shells no nv) (i := t) (t := t) (closedA T).1 (closedA T).2 ((diagF eo ev).addMul z v).ov
    ((diagF eo ev).addMul z v).ov (asymI (I.mul z)).oovv (asymI (I.mul z)).oovv (I.mul z).oovv) rfl
  refine ⟨C₁ + C₂ + ‖cA‖ * C₁ + ‖cL‖ * C₁, min u₁ u₂, by positivity, lt_min hu₁ hu₂, (min_le_left _ _).trans hu₁', fun u u0 uu => ?_⟩
  obtain ⟨N₁, n₁⟩ := k₁ u u0 (uu.trans (min_le_left _ _))
  obtain ⟨N₂, n₂⟩ := k₂ u u0 (uu.trans (min_le_right _ _))
  have near : ∀ u : ℝ, 0 < u → ∀ d : Desc (shells no nv) K, NearIs (c * u) d d.arr := fun u u0 d => ⟨rfl, rfl, fun idx _ => by rw [Desc.arr, sub_self, norm_zero]; positivity⟩
  have nears : ∀ u : ℝ, 0 < u → ∀ ds : List (Desc (shells no nv) K), List.Forall₂ (NearIs (c * u)) ds (ds.map Desc.arr) := fun u u0 ds => by
    rw [List.forall₂_map_right_iff]
    exact List.forall₂_same.2 fun d _ => near u u0 d
  refine ⟨max N₁ N₂, fun A hA hS => ⟨?_, ?_, fun x y x' y' hx hx' => ?_⟩⟩
  · let x₀ : Arr K × Arr K := (⟨t, [nv, no], fun _ => 0⟩, ⟨t, [nv, nv, no, no], fun _ => 0⟩)
    let y₀ : Arr K × Arr K := (⟨t, [no, nv], fun _ => 0⟩, ⟨t, [no, no, nv, nv], fun _ => 0⟩)
    let d1 : Desc (shells no nv) K := .two t 1 0 fun a i => ev a - eo i
    let d2 : Desc (shells no nv) K := .four t 1 1 0 0 fun a b i j => ev a + ev b - eo i - eo j
    let e1 : Desc (shells no nv) K := .two t 0 1 fun i a => ev a - eo i
    let e2 : Desc (shells no nv) K := .four t 0 0 1 1 fun i j a b => ev a + ev b - eo i - eo j
    have D : NearDen (n := shells no nv) (c * u) eo ev d1.arr d2.arr := ⟨(nearIs_two.1 (near u u0 d1)).2.2, (nearIs_four.1 (near u u0 d2)).2.2⟩
    have E : NearDenL (n := shells no nv) (c * u) eo ev e1.arr e2.arr := ⟨(nearIs_two.1 (near u u0 e1)).2.2, (nearIs_four.1 (near u u0 e2)).2.2⟩
    have zx : ‖(ampOf (n := shells no nv) x₀ : Amp K (Fin no) (Fin nv))‖ ≤ r := by
      change ‖(0 : Amp K (Fin no) (Fin nv))‖ ≤ r
      rw [norm_zero]; exact hr.le
    have zy : ‖(lamOf (n := shells no nv) y₀ : Amp K (Fin nv) (Fin no))‖ ≤ r := by
      change ‖(0 : Amp K (Fin nv) (Fin no))‖ ≤ r
      rw [norm_zero]; exact hr.le
    obtain ⟨xs, ys, s0, t0, sx, sy⟩ := (n₁ A hA _ _ d1.arr d2.arr e1.arr e2.arr x₀ y₀ (nears u u0 _) (nears u u0 _) D E ⟨⟨rfl, rfl⟩, rfl, rfl⟩ (fun _ _ _ _ => rfl) zx
      ⟨⟨rfl, rfl⟩, rfl, rfl⟩ (fun _ _ _ _ => rfl) zy).1 (max N₁ N₂) (max N₁ N₂) (le_max_left _ _)
    refine ⟨xs (max N₁ N₂), ys (max N₁ N₂), _, _, d1.arr, d2.arr, e1.arr, e2.arr, xs, ys, max N₁ N₂, max N₁ N₂, nears u u0 _, nears u u0 _, D, E, ?_, ?_, ?_, ?_, ?_, ?_,
      le_rfl, le_rfl, sx, sy, rfl, rfl⟩ <;> first | rw [s0] | rw [t0]
    exacts [⟨⟨rfl, rfl⟩, rfl, rfl⟩, fun _ _ _ _ => rfl, zx, ⟨⟨rfl, rfl⟩, rfl, rfl⟩, fun _ _ _ _ => rfl, zy]
  · have dens : ∀ va oa vb ob (D : UAmp K (Fin (shells no nv oa)) (Fin (shells no nv va)) (Fin (shells no nv ob)) (Fin (shells no nv vb))), ∃ d : Fin 5 → Arr K,
        (uC (n := shells no nv) (K := K) t va oa vb ob).NearDen (c * u) D d :=
      fun va oa vb ob D => ⟨fun i => ⟨t, [], ((uC (n := shells no nv) (K := K) t va oa vb ob).de i D).at⟩, fun i idx _ => by rw [sub_self, norm_zero]; positivity⟩
    let x₀ : Fin 5 → Arr K := fun i => ⟨t, uSh (shells no nv) 1 0 3 2 i, fun _ => 0⟩
    let y₀ : Fin 5 → Arr K := fun i => ⟨t, uSh (shells no nv) 0 1 2 3 i, fun _ => 0⟩
    have rx : (uV (shells no nv) K t).rd x₀ = 0 := rfl
    have ry : (uW (shells no nv) K t).rd y₀ = 0 := rfl
    obtain ⟨d, hd⟩ := dens 1 0 3 2 (uden eo ev eo ev)
    obtain ⟨e, he⟩ := dens 0 1 2 3 (udenL eo ev eo ev)
    have ax : UAnti ((uV (shells no nv) K t).rd x₀) := by rw [rx]; exact uzero_anti
    have ay : UAnti ((uW (shells no nv) K t).rd y₀) := by rw [ry]; exact uzero_anti
    have zx : ‖(uV (shells no nv) K t).rd x₀‖ ≤ r := by rw [rx, norm_zero]; exact hr.le
    have zy : ‖(uW (shells no nv) K t).rd y₀‖ ≤ r := by rw [ry, norm_zero]; exact hr.le
    obtain ⟨xs, ys, s0, t0, sx, sy⟩ := (n₂ A hS _ _ d x₀ e y₀ (nears u u0 _) (nears u u0 _) hd he (fun i => ⟨rfl, rfl⟩) ax zx (fun i => ⟨rfl, rfl⟩) ay zy).1 (max N₁ N₂) (max N₁ N₂)
      (le_max_right _ _)
    refine ⟨xs (max N₁ N₂), ys (max N₁ N₂), _, _, d, e, xs, ys, max N₁ N₂, max N₁ N₂, by rw [mul_asym]; exact nears u u0 _, by rw [mul_asym]; exact nears u u0 _, hd, he, ?_, ?_, ?_, ?_, ?_, ?_,
      le_rfl, le_rfl, sx, sy, rfl, rfl⟩ <;> first | rw [s0] | rw [t0]
    exacts [fun i => ⟨rfl, rfl⟩, ax, zx, fun i => ⟨rfl, rfl⟩, ay, zy]
  · obtain ⟨ins, insL, d1, d2, e1, e2, xs, ys, k, m, i1, i2, i3, i4, i5, i6, i7, i8, i9, i10, i11, i12, i13, i14, rfl, rfl⟩ := hx
    obtain ⟨jns, jnsL, d, e, xs', ys', k', m', j1, j2, j3, j4, j5, j6, j7, j8, j9, j10, j11, j12, j13, j14, rfl, rfl⟩ := hx'
    rw [mul_asym] at j1 j2
    obtain ⟨w1, w2, w3⟩ := (n₁ A hA ins insL d1 d2 e1 e2 (xs 0) (ys 0) i1 i2 i3 i4 i5 i6 i7 i8 i9 i10).2 xs ys k m rfl rfl ((le_max_left _ _).trans i11) ((le_max_left _ _).trans i12) i13 i14
    obtain ⟨v1, v2, v3⟩ := (n₂ A hS jns jnsL d (xs' 0) e (ys' 0) j1 j2 j3 j4 j5 j6 j7 j8 j9 j10).2 xs' ys' k' m' rfl rfl ((le_max_right _ _).trans j11) ((le_max_right _ _).trans j12)
      j13 j14
    have q1 : ‖closedA (ampOf (n := shells no nv) (xs k)) - closedA T‖ ≤ ‖cA‖ * (C₁ * u) := by
      rw [← map_sub]
      exact (cA.le_opNorm _).trans (mul_le_mul_of_nonneg_left w1 (norm_nonneg _))
    have q2 : ‖closedA (lamOf (n := shells no nv) (ys m)) - closedA L‖ ≤ ‖cL‖ * (C₁ * u) := by
      rw [← map_sub]
      exact (cL.le_opNorm _).trans (mul_le_mul_of_nonneg_left w2 (norm_nonneg _))
    have p1 : 0 ≤ C₁ * u := by positivity
    have p2 : 0 ≤ C₂ * u := by positivity
    have p3 : 0 ≤ ‖cA‖ * (C₁ * u) := by positivity
    have p4 : 0 ≤ ‖cL‖ * (C₁ * u) := by positivity
    refine ⟨?_, ?_, fun f i fa fb ia ib ab hf hu => ?_⟩
    · rw [norm_sub_rev] at q1
      have := norm_add_le _ _ |>.trans (add_le_add v1 q1)
      rw [sub_add_sub_cancel] at this
      linarith
    · rw [norm_sub_rev] at q2
      have := norm_add_le _ _ |>.trans (add_le_add v2 q2)
      rw [sub_add_sub_cancel] at this
      linarith
    · obtain ⟨rs, er, hr⟩ := w3 [(xs k).1, (xs k).2, f, i] (.cons (.inl ⟨rfl, rfl⟩) (.cons (.inr (.inl ⟨rfl, rfl⟩)) (hf.imp fun _ _ h => .inr (.inr (.inr (.inr h))))))
      have args := List.rel_append (List.forall₂_iff_get.mpr ⟨by simp, fun i h1 h2 => .inl ⟨⟨i, by simpa using h1⟩, by rw [List.get_eq_getElem, List.getElem_ofFn],
          by rw [List.get_eq_getElem, List.getElem_ofFn]⟩⟩ : List.Forall₂ ((uV (shells no nv) K t).Arg (uW (shells no nv) K t) (c * u) (closedA T) (closedA L) (xs' k') (ys' m'))
            (List.ofFn fun i => (uV (shells no nv) K t).de i (closedA T)) (List.ofFn (xs' k')))
        (hu.imp fun _ _ h => (.inr (.inr h) : (uV (shells no nv) K t).Arg (uW (shells no nv) K t) (c * u) (closedA T) (closedA L) (xs' k') (ys' m') _ _))
      obtain ⟨rs', er', hr'⟩ := v3 (List.ofFn (xs' k') ++ [fa, fb, ia, ib, ab]) args
      match rs, hr, rs', hr' with
      | [E], .cons hE .nil, [E'], .cons hE' .nil =>
        refine ⟨E, E', er, er', ?_⟩
        have a1 : ‖E.val [] - CC.rcc_energy T.1 T.2 ((diagF eo ev).addMul z v).ov (I.mul z).oovv‖ ≤ C₁ * u := hE.2.2 [] (by rw [hE.2.1]; exact .nil)
        have a2 : ‖E'.val [] - CC.rcc_energy T.1 T.2 ((diagF eo ev).addMul z v).ov (I.mul z).oovv‖ ≤ C₂ * u := by
          rw [← C12_rcc_energy T.1 T.2 ((diagF eo ev).addMul z v).ov (I.mul z).oovv (fun a b i j => ((mul_pair hI z).oovv a b i j).symm) pT]
          exact hE'.2.2 [] (by rw [hE'.2.1]; exact .nil)
        rw [norm_sub_rev] at a2
        have := norm_add_le _ _ |>.trans (add_le_add a1 a2)
        rw [sub_add_sub_cancel] at this
        linarith

/-- Two doubly occupied orbitals of energy -1 and three virtual ones of energy 1, any exchange-symmetric integrals that are weak enough, exact integrals, and an arithmetic
whose every result is too large by the factor `1 + u`: there are a restricted and an unrestricted calculation, and their amplitudes agree to order `u`. -/
example (f : OneE (Fin 2) (Fin 3) ℝ) (I : TwoEFull (Fin 2) (Fin 3) (Fin 2) (Fin 3) ℝ) (hI : PairI I) : ∃ z₀ : ℝ, 0 < z₀ ∧ ∀ z : ℝ, |z| ≤ z₀ → ∃ C u₀ : ℝ, 0 < u₀ ∧
    ∀ (u : ℝ) (h0 : 0 < u) (h1 : u ≤ 1), u ≤ u₀ → ∃ (N : ℕ) (x y : Arr ℝ × Arr ℝ) (x' y' : Fin 5 → Arr ℝ),
      Restricted (inflate h0.le h1 : Rounding ℝ u 0 (szSum 0)) id (0 * u) 1 N false ((diagF (fun _ => -1) fun _ => 1).addMul z f) (I.mul z) (fun _ => -1) (fun _ => 1) x y ∧
      Unrestricted (inflate h0.le h1 : Rounding ℝ u 0 (szSum 0)) id (0 * u) 1 N false ((diagF (fun _ => -1) fun _ => 1).addMul z f) (I.mul z) (fun _ => -1) (fun _ => 1) x' y' ∧
      (∀ (a : Fin 3) (i : Fin 2), |(x' 0).val [a.1, i.1] - x.1.val [a.1, i.1]| ≤ C * u) ∧ ∀ (a b : Fin 3) (i j : Fin 2), |(x' 3).val [a.1, b.1, i.1, j.1] - x.2.val [a.1, b.1, i.1, j.1]| ≤ C * u := by
  obtain ⟨z₀, hz, h⟩ := C112_agree (no := 2) (nv := 3) id (fun _ _ => le_rfl) le_rfl (sz_mono le_rfl) (c := 0) le_rfl false f I hI (fun _ => (-1 : ℝ)) (fun _ => 1)
    (fun _ _ => by norm_num) (fun _ _ _ _ => by norm_num) 1 one_pos
  refine ⟨z₀, hz, fun z hzz => ?_⟩
  obtain ⟨C, u₀, hC, hu, -, h'⟩ := h z hzz
  refine ⟨C, u₀, hu, fun u h0 h1 uu => ?_⟩
  obtain ⟨N, hN⟩ := h' u h0 uu
  obtain ⟨⟨x, y, hx⟩, ⟨x', y', hx'⟩, w⟩ := hN (inflate h0.le h1) (inflate_comm h0.le h1) (inflate_sign h0.le h1)
  obtain ⟨w1, -, -⟩ := w x y x' y' hx hx'
  refine ⟨N, x, y, x', y', hx, hx', fun a i => ?_, fun a b i j => ?_⟩
  · exact (le_norm2 ((uV (shells 2 3) ℝ false).rd x' - closedA (ampOf (n := shells 2 3) x)).1.1 a i).trans ((norm_fst_le _).trans ((norm_fst_le _).trans w1))
  · exact (le_norm4 ((uV (shells 2 3) ℝ false).rd x' - closedA (ampOf (n := shells 2 3) x)).2.2.1 a b i j).trans
      ((norm_fst_le _).trans ((norm_snd_le _).trans ((norm_snd_le _).trans w1)))

end Heap
