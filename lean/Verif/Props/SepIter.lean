import Verif.Props.SepMany
import Verif.Props.Agree
/-!
# C113: whole calculations are size consistent

C52 is the statement for a single residual.  Here it is followed through any number of updates of any number of subsystems.
-/

set_option synthInstance.maxSize 100000
set_option synthInstance.maxHeartbeats 400000

namespace CC
open Filter Verif.Tensor
variable {K : Type} [RCLike K] {n : ℕ} {O V : Fin n → Type}

/-- Amplitudes of the combined system: those of the subsystems, zero for indices of different subsystems. -/
def manyA (T : ∀ k, Amp K (O k) (V k)) : Amp K (Σ k, O k) (Σ k, V k) := (Many.two fun k => (T k).1, Many.four fun k => (T k).2)

/-- Orbital energies of the combined system. -/
def manyE {P : Fin n → Type} (e : ∀ k, P k → K) (x : Σ k, P k) : K := e x.1 x.2

theorem many_upd2 {P Q : Fin n → Type} (A B : ∀ k, P k → Q k → K) (e : ∀ k, P k → K) (f : ∀ k, Q k → K) :
    (fun x y => Many.two A x y - Many.two B x y / (manyE e x - manyE f y)) = Many.two fun k x y => A k x y - B k x y / (e k x - f k y) := by
  funext ⟨k, x⟩ ⟨l, y⟩
  by_cases h : k = l
  · subst h
    rw [Many.two_same, Many.two_same, Many.two_same]
    rfl
  · rw [Many.two_other A h, Many.two_other B h, Many.two_other _ h, zero_div, sub_zero]

theorem many_upd4 {P P' Q Q' : Fin n → Type} (A B : ∀ k, P k → P' k → Q k → Q' k → K) (e : ∀ k, P k → K) (e' : ∀ k, P' k → K) (f : ∀ k, Q k → K) (f' : ∀ k, Q' k → K) :
    (fun x y z w => Many.four A x y z w - Many.four B x y z w / (manyE e x + manyE e' y - manyE f z - manyE f' w))
      = Many.four fun k x y z w => A k x y z w - B k x y z w / (e k x + e' k y - f k z - f' k w) := by
  funext ⟨k, x⟩ ⟨l, y⟩ ⟨i, z⟩ ⟨j, w⟩
  by_cases h : k = j ∧ l = j ∧ i = j
  · obtain ⟨rfl, rfl, rfl⟩ := h
    rw [Many.four_same, Many.four_same, Many.four_same]
    rfl
  · rw [Many.four_other A ⟨k, x⟩ ⟨l, y⟩ ⟨i, z⟩ ⟨j, w⟩ h, Many.four_other B ⟨k, x⟩ ⟨l, y⟩ ⟨i, z⟩ ⟨j, w⟩ h, Many.four_other _ ⟨k, x⟩ ⟨l, y⟩ ⟨i, z⟩ ⟨j, w⟩ h, zero_div, sub_zero]

theorem many_tendsto {T : ℕ → ∀ k, Amp K (O k) (V k)} {S : ∀ k, Amp K (O k) (V k)} (h : ∀ k, Tendsto (fun m => T m k) atTop (nhds (S k))) :
    Tendsto (fun m => manyA (T m)) atTop (nhds (manyA S)) := by
  refine Prod.tendsto_iff _ _ |>.2 ⟨tendsto_pi_nhds.2 fun x => tendsto_pi_nhds.2 fun y => ?_,
    tendsto_pi_nhds.2 fun x => tendsto_pi_nhds.2 fun y => tendsto_pi_nhds.2 fun z => tendsto_pi_nhds.2 fun w => ?_⟩
  · obtain ⟨k, x⟩ := x
    obtain ⟨l, y⟩ := y
    by_cases e : k = l
    · subst e
      simp only [manyA, Many.two_same]
      exact tendsto_pi_nhds.1 (tendsto_pi_nhds.1 (Prod.tendsto_iff _ _ |>.1 (h k)).1 x) y
    · simp only [manyA, Many.two_other _ e]
      exact tendsto_const_nhds
  · obtain ⟨k, x⟩ := x
    obtain ⟨l, y⟩ := y
    obtain ⟨i, z⟩ := z
    obtain ⟨j, w⟩ := w
    by_cases e : k = j ∧ l = j ∧ i = j
    · obtain ⟨rfl, rfl, rfl⟩ := e
      simp only [manyA, Many.four_same]
      exact tendsto_pi_nhds.1 (tendsto_pi_nhds.1 (tendsto_pi_nhds.1 (tendsto_pi_nhds.1 (Prod.tendsto_iff _ _ |>.1 (h i)).2 x) y) z) w
    · simp only [manyA, fun A : ∀ k, V k → V k → O k → O k → K => Many.four_other A ⟨k, x⟩ ⟨l, y⟩ ⟨i, z⟩ ⟨j, w⟩ e]
      exact tendsto_const_nhds

variable [∀ k, Fintype (O k)] [∀ k, Fintype (V k)]

section
variable (F : ∀ k, OneE (O k) (V k) K) (I : ∀ k, TwoE (O k) (V k) K) (eo : ∀ k, O k → K) (ev : ∀ k, V k → K)

/-- C113: an update of the combined system updates each subsystem by itself and couples none. -/
theorem C113_update (T : ∀ k, Amp K (O k) (V k)) :
    update (Many.one F) (Many.int I) (manyE eo) (manyE ev) (manyA T) = manyA fun k => update (F k) (I k) (eo k) (ev k) (T k) := by
  simp only [update, manyA, C52_many_ccsd_simple F I (fun k => (T k).1) fun k => (T k).2]
  exact Prod.ext (many_upd2 ..) (many_upd4 ..)

/-- C113: after any number of updates the amplitudes of the combined system are those of the subsystems, and the energy is the sum of their energies. -/
theorem C113_iterates (T : ∀ k, Amp K (O k) (V k)) (m : ℕ) :
    let S := fun k => (update (F k) (I k) (eo k) (ev k))^[m] (T k)
    let M := (update (Many.one F) (Many.int I) (manyE eo) (manyE ev))^[m] (manyA T)
    M = manyA S ∧ cc_energy M.1 M.2 (Many.one F).ov (Many.int I).oovv = ∑ k, cc_energy (S k).1 (S k).2 (F k).ov (I k).oovv := by
  intro S M
  have h : M = manyA S := by
    show (update (Many.one F) (Many.int I) (manyE eo) (manyE ev))^[m] (manyA T) = manyA fun k => (update (F k) (I k) (eo k) (ev k))^[m] (T k)
    clear S M
    induction m with
    | zero => rfl
    | succ m ih => simp only [Function.iterate_succ_apply', ih, C113_update]
  refine ⟨h, ?_⟩
  rw [h]
  exact C52_many_energy F I (fun k => (S k).1) fun k => (S k).2

/-- C113: when the calculations of all subsystems converge, so does the calculation of the combined system, to the amplitudes assembled from theirs. -/
theorem C113_limit (T S : ∀ k, Amp K (O k) (V k)) (h : ∀ k, Tendsto (fun m => (update (F k) (I k) (eo k) (ev k))^[m] (T k)) atTop (nhds (S k))) :
    Tendsto (fun m => (update (Many.one F) (Many.int I) (manyE eo) (manyE ev))^[m] (manyA T)) atTop (nhds (manyA S)) := by
  simp only [fun m => (C113_iterates F I eo ev T m).1]
  exact many_tendsto h

/-- C113: the energy of `n` equal subsystems is `n` times the energy of one, after every number of updates. -/
theorem C113_copies (n : ℕ) {O V : Type} [Fintype O] [Fintype V] (F : OneE O V K) (I : TwoE O V K) (eo : O → K) (ev : V → K) (T : Amp K O V) (m : ℕ) :
    let S := (update F I eo ev)^[m] T
    let M := (update (Many.one fun _ : Fin n => F) (Many.int fun _ => I) (manyE fun _ => eo) (manyE fun _ => ev))^[m] (manyA fun _ => T)
    cc_energy M.1 M.2 (Many.one fun _ : Fin n => F).ov (Many.int fun _ => I).oovv = n * cc_energy S.1 S.2 F.ov I.oovv := by
  intro S M
  refine (C113_iterates (fun _ : Fin n => F) (fun _ => I) (fun _ => eo) (fun _ => ev) (fun _ => T) m).2.trans ?_
  simp [S]
end

section
variable (F : ∀ k, OneE (O k) (V k) K) (I : ∀ k, TwoEFull (O k) (V k) (O k) (V k) K) (hI : ∀ k, PairI (I k)) (eo : ∀ k, O k → K) (ev : ∀ k, V k → K)
include hI

/-- C113: the same for updates with `rccsd_stanton`. -/
theorem C113_r_update (T : ∀ k, Amp K (O k) (V k)) (hT : ∀ k, PairSym (T k).2) :
    rupdate (Many.one F) (Many.ab I) (manyE eo) (manyE ev) (manyA T) = manyA fun k => rupdate (F k) (I k) (eo k) (ev k) (T k) := by
  simp only [rupdate, manyA, (C52_many_rccsd (F := F) (T1 := fun k => (T k).1) hI hT).1]
  exact Prod.ext (many_upd2 ..) (many_upd4 ..)

/-- C113: after any number of restricted updates the amplitudes are those of the subsystems and the energies add. -/
theorem C113_r_iterates (T : ∀ k, Amp K (O k) (V k)) (hT : ∀ k, PairSym (T k).2) (m : ℕ) :
    let S := fun k => (rupdate (F k) (I k) (eo k) (ev k))^[m] (T k)
    let M := (rupdate (Many.one F) (Many.ab I) (manyE eo) (manyE ev))^[m] (manyA T)
    M = manyA S ∧ rcc_energy M.1 M.2 (Many.one F).ov (Many.ab I).oovv = ∑ k, rcc_energy (S k).1 (S k).2 (F k).ov (I k).oovv := by
  intro S M
  have p : ∀ m k, PairSym ((rupdate (F k) (I k) (eo k) (ev k))^[m] (T k)).2 := fun m k => (C112_iterates (F k) (I k) (hI k) (eo k) (ev k) (T k) (hT k) m).2
  have h : M = manyA S := by
    show (rupdate (Many.one F) (Many.ab I) (manyE eo) (manyE ev))^[m] (manyA T) = manyA fun k => (rupdate (F k) (I k) (eo k) (ev k))^[m] (T k)
    clear S M
    induction m with
    | zero => rfl
    | succ m ih => simp only [Function.iterate_succ_apply', ih, C113_r_update F I hI eo ev _ (p m)]
  refine ⟨h, ?_⟩
  rw [h]
  exact (C52_many_rccsd (F := F) (T1 := fun k => (S k).1) hI (p m)).2
end

section
variable {P Q : Fin n → Type} [∀ k, Fintype (P k)] [∀ k, Fintype (Q k)]

omit [∀ k, Fintype (O k)] [∀ k, Fintype (V k)] [∀ k, Fintype (P k)] [∀ k, Fintype (Q k)] in
/-- Unrestricted amplitudes of the combined system. -/
def manyU (T : ∀ k, UAmp K (O k) (V k) (P k) (Q k)) : UAmp K (Σ k, O k) (Σ k, V k) (Σ k, P k) (Σ k, Q k) :=
  ((Many.two fun k => (T k).1.1, Many.two fun k => (T k).1.2), (Many.four fun k => (T k).2.1, Many.four fun k => (T k).2.2.1, Many.four fun k => (T k).2.2.2))

variable (Fa : ∀ k, OneE (O k) (V k) K) (Fb : ∀ k, OneE (P k) (Q k) K) (Ia : ∀ k, TwoE (O k) (V k) K) (Ib : ∀ k, TwoE (P k) (Q k) K)
  (J : ∀ k, TwoEFull (O k) (V k) (P k) (Q k) K) (hIa : ∀ k, AntiI (Ia k)) (hIb : ∀ k, AntiI (Ib k))
  (eoa : ∀ k, O k → K) (eva : ∀ k, V k → K) (eob : ∀ k, P k → K) (evb : ∀ k, Q k → K)
include hIa hIb

/-- C113: the same for updates with `uccsd_stanton`. -/
theorem C113_u_update (T : ∀ k, UAmp K (O k) (V k) (P k) (Q k)) (hT : ∀ k, UAnti (T k)) :
    uupdate (Many.one Fa) (Many.one Fb) (Many.int Ia) (Many.int Ib) (Many.ab J) (manyE eoa) (manyE eva) (manyE eob) (manyE evb) (manyU T)
      = manyU fun k => uupdate (Fa k) (Fb k) (Ia k) (Ib k) (J k) (eoa k) (eva k) (eob k) (evb k) (T k) := by
  have h := C52_many_uccsd (Fa := Fa) (Fb := Fb) (Iab := J) (T1a := fun k => (T k).1.1) (T1b := fun k => (T k).1.2) (T2ab := fun k => (T k).2.2.1) hIa hIb (fun k => (hT k).1) fun k => (hT k).2
  simp only [uupdate, manyU, h]
  exact Prod.ext (Prod.ext (many_upd2 ..) (many_upd2 ..)) (Prod.ext (many_upd4 ..) (Prod.ext (many_upd4 ..) (many_upd4 ..)))

/-- C113: after any number of unrestricted updates the amplitudes are those of the subsystems and the energies add. -/
theorem C113_u_iterates (T : ∀ k, UAmp K (O k) (V k) (P k) (Q k)) (hT : ∀ k, UAnti (T k)) (m : ℕ) :
    let S := fun k => (uupdate (Fa k) (Fb k) (Ia k) (Ib k) (J k) (eoa k) (eva k) (eob k) (evb k))^[m] (T k)
    let M := (uupdate (Many.one Fa) (Many.one Fb) (Many.int Ia) (Many.int Ib) (Many.ab J) (manyE eoa) (manyE eva) (manyE eob) (manyE evb))^[m] (manyU T)
    M = manyU S ∧ ucc_energy M.1 M.2 (Many.one Fa).ov (Many.one Fb).ov (Many.int Ia).oovv (Many.int Ib).oovv (Many.ab J).oovv
      = ∑ k, ucc_energy (S k).1 (S k).2 (Fa k).ov (Fb k).ov (Ia k).oovv (Ib k).oovv (J k).oovv := by
  intro S M
  have p : ∀ m k, UAnti ((uupdate (Fa k) (Fb k) (Ia k) (Ib k) (J k) (eoa k) (eva k) (eob k) (evb k))^[m] (T k)) := fun m k =>
    (C112_spin_iterates (Fa k) (Fb k) (Ia k) (Ib k) (J k) (hIa k) (hIb k) (eoa k) (eva k) (eob k) (evb k) (T k) (hT k) m).2
  have h : M = manyU S := by
    show (uupdate (Many.one Fa) (Many.one Fb) (Many.int Ia) (Many.int Ib) (Many.ab J) (manyE eoa) (manyE eva) (manyE eob) (manyE evb))^[m] (manyU T)
      = manyU fun k => (uupdate (Fa k) (Fb k) (Ia k) (Ib k) (J k) (eoa k) (eva k) (eob k) (evb k))^[m] (T k)
    clear S M
    induction m with
    | zero => rfl
    | succ m ih => simp only [Function.iterate_succ_apply', ih, C113_u_update Fa Fb Ia Ib J hIa hIb eoa eva eob evb _ (p m)]
  refine ⟨h, ?_⟩
  rw [h]
  exact C52_many_ucc_energy Fa Fb Ia Ib J (fun k => (S k).1.1) (fun k => (S k).1.2) (fun k => (S k).2.1) (fun k => (S k).2.2.1) fun k => (S k).2.2.2
end

/-- Three equal subsystems of two occupied and one virtual spin orbital, all integrals 1, orbital energies -1 and 1, from zero. -/
example (m : ℕ) : let F : OneE (Fin 2) (Fin 1) ℝ := ⟨fun _ _ => 1, fun _ _ => 1, fun _ _ => 1, fun _ _ => 1⟩
    let c : ∀ {A B C D : Type}, A → B → C → D → ℝ := fun _ _ _ _ => 1
    let I : TwoE (Fin 2) (Fin 1) ℝ := ⟨c, c, c, c, c, c, c, c, c⟩
    let S := (update F I (fun _ => -1) fun _ => 1)^[m] 0
    let M := (update (Many.one fun _ : Fin 3 => F) (Many.int fun _ => I) (manyE fun _ _ => -1) (manyE fun _ _ => 1))^[m] (manyA fun _ => 0)
    cc_energy M.1 M.2 (Many.one fun _ : Fin 3 => F).ov (Many.int fun _ => I).oovv = 3 * cc_energy S.1 S.2 F.ov I.oovv := by
  intro F c I S M
  exact C113_copies 3 F I (fun _ => -1) (fun _ => 1) 0 m

/-- A closed shell of two electrons and one with four, both with one virtual orbital, from zero. -/
example (m : ℕ) : let F : ∀ k : Fin 2, OneE (Fin (k + 1)) (Fin 1) ℝ := fun _ => ⟨fun _ _ => 1, fun _ _ => 1, fun _ _ => 1, fun _ _ => 1⟩
    let c : ∀ {A B C D : Type}, A → B → C → D → ℝ := fun _ _ _ _ => 1
    let I : ∀ k : Fin 2, TwoEFull (Fin (k + 1)) (Fin 1) (Fin (k + 1)) (Fin 1) ℝ := fun _ => ⟨c, c, c, c, c, c, c, c, c, c, c, c, c, c, c, c⟩
    let M := (rupdate (Many.one F) (Many.ab I) (manyE fun _ _ => -1) (manyE fun _ _ => 1))^[m] (manyA fun _ => 0)
    M.2 ⟨0, 0⟩ ⟨1, 0⟩ ⟨0, (0 : Fin 1)⟩ ⟨1, (1 : Fin 2)⟩ = 0 := by
  intro F c I M
  have h := (C113_r_iterates F I (fun k => by constructor <;> intros <;> rfl) (fun _ _ => -1) (fun _ _ => 1) (fun _ => 0) (fun _ _ _ _ _ => rfl) m).1
  have e : M = _ := h
  rw [e]
  refine Many.four_other (fun k => ((rupdate (F k) (I k) (fun _ => -1) fun _ => 1)^[m] 0).2) ⟨0, 0⟩ ⟨1, 0⟩ ⟨0, 0⟩ ⟨1, 1⟩ fun h => ?_
  exact absurd h.1 (by decide : ¬((0 : Fin 2) = 1))

end CC
