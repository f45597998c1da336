import Verif.Props.Sep
import Verif.Props.SepL
import Verif.Props.SymIter
/-!
# C113, multipliers

Unlike amplitudes, multipliers that couple two subsystems do not stay zero.  They have no effect on those of the subsystems nor on the
one-particle density matrix, after any number of updates.
-/

set_option synthInstance.maxSize 100000
set_option synthInstance.maxHeartbeats 400000

namespace CC
open Filter Verif.Tensor
variable {K : Type} [RCLike K] {O V O' V' : Type}

section
variable {P R P' R' : Type}

/-- Number of the subsystem of an orbital. -/
def side : P ⊕ P' → ℤ := Sum.elim (fun _ => 0) fun _ => 1

theorem side_two (A : P → R → K) (B : P' → R' → K) : Allowed2 side side (Sep.two A B) := by
  rintro (x | x) (y | y) h <;> first | rfl | exact absurd rfl h

theorem side_four {Q S Q' S' : Type} (A : P → Q → R → S → K) (B : P' → Q' → R' → S' → K) : Allowed4 side side side side (Sep.four A B) := by
  rintro (x | x) (y | y) (z | z) (w | w) h <;> first | rfl | exact absurd rfl h

theorem side_fourX (A : P → P → R → R → K) (B : P' → P' → R' → R' → K) (X : P → P' → R → R' → K) : Allowed4 side side side side (Sep.fourX A B X) := by
  rintro (x | x) (y | y) (z | z) (w | w) h <;> first | rfl | exact absurd rfl h

theorem four_anti12 {S S' : Type} {A : P → P → R → S → K} {B : P' → P' → R' → S' → K} (hA : Anti12 A) (hB : Anti12 B) : Anti12 (Sep.four A B) := by
  rintro (x | x) (y | y) (z | z) (w | w) <;> first | exact hA _ _ _ _ | exact hB _ _ _ _ | simp [Sep.four]

theorem four_anti34 {S S' : Type} {A : P → S → R → R → K} {B : P' → S' → R' → R' → K} (hA : Anti34 A) (hB : Anti34 B) : Anti34 (Sep.four A B) := by
  rintro (x | x) (y | y) (z | z) (w | w) <;> first | exact hA _ _ _ _ | exact hB _ _ _ _ | simp [Sep.four]

theorem fourX_anti {A : P → P → R → R → K} {B : P' → P' → R' → R' → K} (hA : Anti A) (hB : Anti B) (X : P → P' → R → R' → K) : Anti (Sep.fourX A B X) := by
  constructor <;> rintro (x | x) (y | y) (z | z) (w | w) <;>
    first | exact hA.a12 _ _ _ _ | exact hB.a12 _ _ _ _ | exact hA.a34 _ _ _ _ | exact hB.a34 _ _ _ _ | simp [Sep.fourX]

/-- Antisymmetric elements that conserve the number of indices in each subsystem. -/
theorem fourX_of {Z : P ⊕ P' → P ⊕ P' → R ⊕ R' → R ⊕ R' → K} (a : Anti Z) (s : Allowed4 side side side side Z) :
    Z = Sep.fourX (fun x y z w => Z (.inl x) (.inl y) (.inl z) (.inl w)) (fun x y z w => Z (.inr x) (.inr y) (.inr z) (.inr w))
      fun x y z w => Z (.inl x) (.inr y) (.inl z) (.inr w) := by
  funext x y z w
  rcases x with x | x <;> rcases y with y | y <;> rcases z with z | z <;> rcases w with w | w <;>
    first
    | rfl
    | exact by_contra fun h => absurd (s _ _ _ _ h) (by simp [side])
    | exact a.a34 _ _ _ _
    | exact a.a12 _ _ _ _
    | exact (a.a12 _ _ _ _).trans ((congrArg Neg.neg (a.a34 _ _ _ _)).trans (neg_neg _))
end

section
variable [Fintype O] [Fintype V] [Fintype O'] [Fintype V']
  (F : OneE O V K) (G : OneE O' V' K) {I : TwoE O V K} {J : TwoE O' V' K} (hI : AntiI I) (hJ : AntiI J)
  (eo : O → K) (ev : V → K) (eo' : O' → K) (ev' : V' → K)
  (T : Amp K O V) (U : Amp K O' V') (hT : Anti T.2) (hU : Anti U.2)
  (L : Amp K V O) (M : Amp K V' O') (hL : Anti L.2) (hM : Anti M.2) (X : O → O' → V → V' → K)

/-- Amplitudes (or multipliers) of two subsystems, and those of the combined system that couple them. -/
def coupled (L : Amp K V O) (M : Amp K V' O') (X : O → O' → V → V' → K) : Amp K (V ⊕ V') (O ⊕ O') := (Sep.two L.1 M.1, Sep.fourX L.2 M.2 X)

/-- Amplitudes of two subsystems that do not interact. -/
def apart (T : Amp K O V) (U : Amp K O' V') : Amp K (O ⊕ O') (V ⊕ V') := (Sep.two T.1 U.1, Sep.four T.2 U.2)

omit [Fintype O] [Fintype V] [Fintype O'] [Fintype V'] in
theorem int_anti {I : TwoE O V K} {J : TwoE O' V' K} (hI : AntiI I) (hJ : AntiI J) : AntiI (Sep.int I J) :=
  ⟨four_anti12 hI.vvvv12 hJ.vvvv12, four_anti34 hI.vvvv34 hJ.vvvv34, four_anti12 hI.vvvo12 hJ.vvvo12, four_anti34 hI.vovv34 hJ.vovv34, four_anti12 hI.vvoo12 hJ.vvoo12, four_anti34 hI.vvoo34 hJ.vvoo34,
    four_anti12 hI.oovv12 hJ.oovv12, four_anti34 hI.oovv34 hJ.oovv34, four_anti34 hI.vooo34 hJ.vooo34, four_anti12 hI.ooov12 hJ.ooov12, four_anti12 hI.oooo12 hJ.oooo12, four_anti34 hI.oooo34 hJ.oooo34⟩

include hI hJ hT hU hL hM in
/-- C113: an update of the multipliers of the combined system updates those of each subsystem by themselves, whatever the multipliers that couple them. -/
theorem C113_lambda_update : ∃ Y, updateL (Sep.one F G) (Sep.int I J) (Sum.elim eo eo') (Sum.elim ev ev') (apart T U) (coupled L M X)
      = coupled (updateL F I eo ev T L) (updateL G J eo' ev' U M) Y := by
  classical
  have aT : Anti (apart T U).2 := ⟨four_anti12 hT.a12 hU.a12, four_anti34 hT.a34 hU.a34⟩
  have aL : Anti (coupled L M X).2 := fourX_anti hL hM X
  have aR : Anti (updateL (Sep.one F G) (Sep.int I J) (Sum.elim eo eo') (Sum.elim ev ev') (apart T U) (coupled L M X)).2 := by
    rw [updateL_eq]
    exact sub_anti aL (divD_anti _ _ (lamRes_anti _ _ (int_anti hI hJ) _ aT aL))
  have sR := ((C69_lambda_iterates (side (P := O) (P' := O')) (side (P := V) (P' := V')) (F := Sep.one F G) (I := Sep.int I J)
    ⟨side_two _ _, side_two _ _, side_two _ _, side_two _ _⟩
    ⟨side_four _ _, side_four _ _, side_four _ _, side_four _ _, side_four _ _, side_four _ _, side_four _ _, side_four _ _, side_four _ _⟩
    (Sum.elim eo eo') (Sum.elim ev ev') (T := apart T U) ⟨side_two _ _, side_four _ _⟩ (L := coupled L M X) ⟨side_two _ _, side_fourX _ _ _⟩).1 1).2
  rw [Function.iterate_one] at sR
  refine ⟨fun x y z w => (updateL (Sep.one F G) (Sep.int I J) (Sum.elim eo eo') (Sum.elim ev ev') (apart T U) (coupled L M X)).2 (.inl x) (.inr y) (.inl z) (.inr w),
    Prod.ext ?_ ((fourX_of aR sR).trans ?_)⟩
  · funext i a
    have h := C52_lambda_singles F G I J T.1 U.1 T.2 U.2 L.1 M.1 L.2 M.2 X
    simp only [updateL, coupled, apart] at h ⊢
    rw [h]
    rcases i with i | i <;> rcases a with a | a <;> simp [Sep.two]
  · refine congrArg₂ (fun A B => Sep.fourX A B _) ?_ ?_
    · funext i j a b
      have h := C52_lambda_doubles F G I J T.1 U.1 T.2 U.2 L.1 M.1 L.2 M.2 X i j a b
      simp only [updateL, coupled, apart] at h ⊢
      rw [h]
      rfl
    · funext i j a b
      have h := C52_lambda_doubles' F G I J T.1 U.1 T.2 U.2 L.1 M.1 L.2 M.2 X i j a b
      simp only [updateL, coupled, apart] at h ⊢
      rw [h]
      rfl

include hI hJ hT hU hL hM in
/-- C113: after any number of updates the multipliers of the subsystems and their one-particle density matrices are those of calculations of the subsystems by themselves. -/
theorem C113_lambda_iterates (m : ℕ) :
    let A := (updateL F I eo ev T)^[m] L
    let B := (updateL G J eo' ev' U)^[m] M
    let C := (updateL (Sep.one F G) (Sep.int I J) (Sum.elim eo eo') (Sum.elim ev ev') (apart T U))^[m] (coupled L M X)
    let S := apart T U
    (∃ Y, C = coupled A B Y)
      ∧ ccsd_1rdm_ba S.1 S.2 C.1 C.2 = Sep.two (ccsd_1rdm_ba T.1 T.2 A.1 A.2) (ccsd_1rdm_ba U.1 U.2 B.1 B.2)
      ∧ ccsd_1rdm_ji S.1 S.2 C.1 C.2 = Sep.two (ccsd_1rdm_ji T.1 T.2 A.1 A.2) (ccsd_1rdm_ji U.1 U.2 B.1 B.2)
      ∧ (∀ tfac, ccsd_1rdm_ai S.1 S.2 C.1 C.2 tfac = Sep.two (ccsd_1rdm_ai T.1 T.2 A.1 A.2 tfac) (ccsd_1rdm_ai U.1 U.2 B.1 B.2 tfac))
      ∧ C.1 = Sep.two A.1 B.1 := by
  intro A B C S
  have an : ∀ {O V : Type} [Fintype O] [Fintype V] (F : OneE O V K) {I : TwoE O V K} (hI : AntiI I) (eo : O → K) (ev : V → K) (T : Amp K O V) (hT : Anti T.2)
      (L : Amp K V O) (hL : Anti L.2) (m : ℕ), Anti ((updateL F I eo ev T)^[m] L).2 := by
    intro O V _ _ F I hI eo ev T hT L hL m
    classical
    induction m with
    | zero => exact hL
    | succ m ih =>
      rw [Function.iterate_succ_apply', updateL_eq]
      exact sub_anti ih (divD_anti _ _ (lamRes_anti _ _ hI _ hT ih))
  have h : ∃ Y, C = coupled A B Y := by
    show ∃ Y, (updateL (Sep.one F G) (Sep.int I J) (Sum.elim eo eo') (Sum.elim ev ev') (apart T U))^[m] (coupled L M X)
      = coupled ((updateL F I eo ev T)^[m] L) ((updateL G J eo' ev' U)^[m] M) Y
    clear A B C S
    induction m with
    | zero => exact ⟨X, rfl⟩
    | succ m ih =>
      obtain ⟨Y, e⟩ := ih
      simp only [Function.iterate_succ_apply', e]
      exact C113_lambda_update F G hI hJ eo ev eo' ev' T U hT hU _ _ (an F hI eo ev T hT L hL m) (an G hJ eo' ev' U hU M hM m) Y
  obtain ⟨Y, e⟩ := h
  refine ⟨⟨Y, e⟩, ?_⟩
  rw [e]
  exact ⟨C52_1rdm_ba T.1 U.1 T.2 U.2 A.1 B.1 A.2 B.2 Y, C52_1rdm_ji T.1 U.1 T.2 U.2 A.1 B.1 A.2 B.2 Y, C52_1rdm_ai T.1 U.1 T.2 U.2 A.1 B.1 A.2 B.2 Y, rfl⟩

/-- C113: two subsystems, amplitudes. -/
theorem C113_two_iterates (F : OneE O V K) (G : OneE O' V' K) (I : TwoE O V K) (J : TwoE O' V' K) (k : ℕ) :
    (update (Sep.one F G) (Sep.int I J) (Sum.elim eo eo') (Sum.elim ev ev'))^[k] (apart T U)
      = apart ((update F I eo ev)^[k] T) ((update G J eo' ev')^[k] U) := by
  induction k with
  | zero => rfl
  | succ k ih =>
    simp only [Function.iterate_succ_apply', ih]
    generalize (update F I eo ev)^[k] T = T
    generalize (update G J eo' ev')^[k] U = U
    simp only [update, apart, C52_ccsd_simple F G I J T.1 U.1 T.2 U.2]
    refine Prod.ext ?_ ?_
    · funext a i
      rcases a with a | a <;> rcases i with i | i <;> simp [Sep.two]
    · funext a b i j
      rcases a with a | a <;> rcases b with b | b <;> rcases i with i | i <;> rcases j with j | j <;> simp [Sep.four]

include hI hJ hT hU hL hM in
/-- C113: a whole calculation (any number of updates of the amplitudes, then any number of updates of the multipliers) gives each subsystem the one-particle density matrix of its own calculation. -/
theorem C113_density (k m : ℕ) :
    let t := (update F I eo ev)^[k] T
    let u := (update G J eo' ev')^[k] U
    let A := (updateL F I eo ev t)^[m] L
    let B := (updateL G J eo' ev' u)^[m] M
    let S := (update (Sep.one F G) (Sep.int I J) (Sum.elim eo eo') (Sum.elim ev ev'))^[k] (apart T U)
    let C := (updateL (Sep.one F G) (Sep.int I J) (Sum.elim eo eo') (Sum.elim ev ev') S)^[m] (coupled L M X)
    ccsd_1rdm_ba S.1 S.2 C.1 C.2 = Sep.two (ccsd_1rdm_ba t.1 t.2 A.1 A.2) (ccsd_1rdm_ba u.1 u.2 B.1 B.2)
      ∧ ccsd_1rdm_ji S.1 S.2 C.1 C.2 = Sep.two (ccsd_1rdm_ji t.1 t.2 A.1 A.2) (ccsd_1rdm_ji u.1 u.2 B.1 B.2)
      ∧ (∀ tfac, ccsd_1rdm_ai S.1 S.2 C.1 C.2 tfac = Sep.two (ccsd_1rdm_ai t.1 t.2 A.1 A.2 tfac) (ccsd_1rdm_ai u.1 u.2 B.1 B.2 tfac))
      ∧ C.1 = Sep.two A.1 B.1 := by
  classical
  intro t u A B S C
  have e : S = apart t u := C113_two_iterates eo ev eo' ev' T U F G I J k
  have h := (C113_lambda_iterates F G hI hJ eo ev eo' ev' t u (iterate_anti F I hI eo ev hT k) (iterate_anti G J hJ eo' ev' hU k) L M hL hM X m).2
  simp only [C, e]
  exact h

/-- C113: if the multipliers of the combined system converge, those of each subsystem by itself converge, to the parts of the limit within that subsystem; the singles of the limit couple nothing. -/
theorem C113_lambda_limit (hI : AntiI I) (hJ : AntiI J) (hT : Anti T.2) (hU : Anti U.2) (hL : Anti L.2) (hM : Anti M.2) (Z : Amp K (V ⊕ V') (O ⊕ O'))
    (h : Tendsto (fun m => (updateL (Sep.one F G) (Sep.int I J) (Sum.elim eo eo') (Sum.elim ev ev') (apart T U))^[m] (coupled L M X)) atTop (nhds Z)) :
    let A : Amp K V O := (fun i a => Z.1 (.inl i) (.inl a), fun i j a b => Z.2 (.inl i) (.inl j) (.inl a) (.inl b))
    let B : Amp K V' O' := (fun i a => Z.1 (.inr i) (.inr a), fun i j a b => Z.2 (.inr i) (.inr j) (.inr a) (.inr b))
    Tendsto (fun m => (updateL F I eo ev T)^[m] L) atTop (nhds A) ∧ Tendsto (fun m => (updateL G J eo' ev' U)^[m] M) atTop (nhds B) ∧ Z.1 = Sep.two A.1 B.1 := by
  intro A B
  have l : ∀ x y, Tendsto (fun m => ((updateL (Sep.one F G) (Sep.int I J) (Sum.elim eo eo') (Sum.elim ev ev') (apart T U))^[m] (coupled L M X)).1 x y) atTop (nhds (Z.1 x y)) :=
    fun x y => tendsto_pi_nhds.1 (tendsto_pi_nhds.1 (Prod.tendsto_iff _ _ |>.1 h).1 x) y
  have l' : ∀ x y z w, Tendsto (fun m => ((updateL (Sep.one F G) (Sep.int I J) (Sum.elim eo eo') (Sum.elim ev ev') (apart T U))^[m] (coupled L M X)).2 x y z w) atTop (nhds (Z.2 x y z w)) :=
    fun x y z w => tendsto_pi_nhds.1 (tendsto_pi_nhds.1 (tendsto_pi_nhds.1 (tendsto_pi_nhds.1 (Prod.tendsto_iff _ _ |>.1 h).2 x) y) z) w
  have c := fun m => (C113_lambda_iterates F G hI hJ eo ev eo' ev' T U hT hU L M hL hM X m).1
  choose Y c using c
  simp only [c] at l l'
  refine ⟨Prod.tendsto_iff _ _ |>.2 ⟨?_, ?_⟩, Prod.tendsto_iff _ _ |>.2 ⟨?_, ?_⟩, ?_⟩
  · exact tendsto_pi_nhds.2 fun i => tendsto_pi_nhds.2 fun a => l (.inl i) (.inl a)
  · exact tendsto_pi_nhds.2 fun i => tendsto_pi_nhds.2 fun j => tendsto_pi_nhds.2 fun a => tendsto_pi_nhds.2 fun b => l' (.inl i) (.inl j) (.inl a) (.inl b)
  · exact tendsto_pi_nhds.2 fun i => tendsto_pi_nhds.2 fun a => l (.inr i) (.inr a)
  · exact tendsto_pi_nhds.2 fun i => tendsto_pi_nhds.2 fun j => tendsto_pi_nhds.2 fun a => tendsto_pi_nhds.2 fun b => l' (.inr i) (.inr j) (.inr a) (.inr b)
  · funext i a
    rcases i with i | i <;> rcases a with a | a
    · rfl
    · exact tendsto_nhds_unique (l (.inl i) (.inr a)) tendsto_const_nhds
    · exact tendsto_nhds_unique (l (.inr i) (.inl a)) tendsto_const_nhds
    · rfl
end

/-- Two subsystems of different sizes, from zero, with amplitudes that are not zero: the multipliers of the first are its own. -/
example (m : ℕ) (i : Fin 2) (a : Fin 1) :
    let F : ∀ n, OneE (Fin n) (Fin 1) ℝ := fun _ => ⟨fun _ _ => 1, fun _ _ => 1, fun _ _ => 1, fun _ _ => 1⟩
    let z : ∀ {A B C D : Type}, A → B → C → D → ℝ := fun _ _ _ _ => 0
    let I : ∀ n, TwoE (Fin n) (Fin 1) ℝ := fun _ => ⟨z, z, z, z, fun _ _ _ _ => 1, z, z, z, z⟩
    let T : ∀ n, Amp ℝ (Fin n) (Fin 1) := fun _ => (fun _ _ => 1, z)
    ((updateL (Sep.one (F 2) (F 1)) (Sep.int (I 2) (I 1)) (Sum.elim (fun _ => -1) fun _ => -2) (Sum.elim (fun _ => 1) fun _ => 2) (apart (T 2) (T 1)))^[m] (coupled 0 0 fun _ _ _ _ => 0)).1
      (.inl i) (.inl a) = ((updateL (F 2) (I 2) (fun _ => -1) (fun _ => 1) (T 2))^[m] 0).1 i a := by
  intro F z I T
  have zA : ∀ {P Q : Type}, Anti (fun (_ _ : P) (_ _ : Q) => (0 : ℝ)) := fun {P Q} => ⟨fun _ _ _ _ => neg_zero.symm, fun _ _ _ _ => neg_zero.symm⟩
  have hI : ∀ n, AntiI (I n) := fun n => by constructor <;> intro _ _ _ _ <;> exact neg_zero.symm
  have h := (C113_lambda_iterates (F 2) (F 1) (hI 2) (hI 1) (fun _ => -1) (fun _ => 1) (fun _ => -2) (fun _ => 2) (T 2) (T 1) zA zA 0 0 zA zA (fun _ _ _ _ => 0) m).2.2.2.2
  exact congrFun (congrFun h (.inl i)) (.inl a)

/-- The same system with updates of the amplitudes before: no element of the density matrix couples the subsystems. -/
example (k m : ℕ) (a b : Fin 1) :
    let F : ∀ n, OneE (Fin n) (Fin 1) ℝ := fun _ => ⟨fun _ _ => 1, fun _ _ => 1, fun _ _ => 1, fun _ _ => 1⟩
    let z : ∀ {A B C D : Type}, A → B → C → D → ℝ := fun _ _ _ _ => 0
    let I : ∀ n, TwoE (Fin n) (Fin 1) ℝ := fun _ => ⟨z, z, z, z, fun _ _ _ _ => 1, z, z, z, z⟩
    let S := (update (Sep.one (F 2) (F 1)) (Sep.int (I 2) (I 1)) (Sum.elim (fun _ => -1) fun _ => -2) (Sum.elim (fun _ => 1) fun _ => 2))^[k] (apart (fun _ _ => 1, z) (fun _ _ => 1, z))
    let C := (updateL (Sep.one (F 2) (F 1)) (Sep.int (I 2) (I 1)) (Sum.elim (fun _ => -1) fun _ => -2) (Sum.elim (fun _ => 1) fun _ => 2) S)^[m] (coupled 0 0 fun _ _ _ _ => 1)
    ccsd_1rdm_ba S.1 S.2 C.1 C.2 (.inl a) (.inr b) = 0 := by
  intro F z I S C
  have zA : ∀ {P Q : Type}, Anti (fun (_ _ : P) (_ _ : Q) => (0 : ℝ)) := fun {P Q} => ⟨fun _ _ _ _ => neg_zero.symm, fun _ _ _ _ => neg_zero.symm⟩
  have hI : ∀ n, AntiI (I n) := fun n => by constructor <;> intro _ _ _ _ <;> exact neg_zero.symm
  have h := (C113_density (F 2) (F 1) (hI 2) (hI 1) (fun _ => -1) (fun _ => 1) (fun _ => -2) (fun _ => 2) (fun _ _ => 1, z) (fun _ _ => 1, z) zA zA 0 0 zA zA (fun _ _ _ _ => 1) k m).1
  exact congrFun (congrFun h (.inl a)) (.inr b)

section
variable [Fintype O] [Fintype V] (L1 : O → V → K) (L2 : O → O → V → V → K) (T1 : V → O → K) (T2 : V → V → O → O → K)

theorem zlam1 (i : O) (a : V) : (ccsd_lambda_simple ⟨fun _ _ => 0, fun _ _ => 0, fun _ _ => 0, fun _ _ => 0⟩
    ⟨fun _ _ _ _ => 0, fun _ _ _ _ => 0, fun _ _ _ _ => 0, fun _ _ _ _ => 0, fun _ _ _ _ => 0, fun _ _ _ _ => 0, fun _ _ _ _ => 0, fun _ _ _ _ => 0, fun _ _ _ _ => 0⟩ L1 L2 T1 T2).1 i a = 0 := by
  tensor

theorem zlam2 (i j : O) (a b : V) : (ccsd_lambda_simple ⟨fun _ _ => 0, fun _ _ => 0, fun _ _ => 0, fun _ _ => 0⟩
    ⟨fun _ _ _ _ => 0, fun _ _ _ _ => 0, fun _ _ _ _ => 0, fun _ _ _ _ => 0, fun _ _ _ _ => 0, fun _ _ _ _ => 0, fun _ _ _ _ => 0, fun _ _ _ _ => 0, fun _ _ _ _ => 0⟩ L1 L2 T1 T2).2 i j a b = 0 := by
  tensor
end

/-- Without Fock matrix and interaction every multiplier stays as it is, also those that couple the subsystems: the limit exists. -/
example (L : Amp ℝ (Fin 2) (Fin 3)) (hL : Anti L.2) (X : Fin 3 → Fin 3 → Fin 2 → Fin 2 → ℝ) :
    let z : ∀ {A B C D : Type}, A → B → C → D → ℝ := fun _ _ _ _ => 0
    let F : OneE (Fin 3) (Fin 2) ℝ := ⟨fun _ _ => 0, fun _ _ => 0, fun _ _ => 0, fun _ _ => 0⟩
    let I : TwoE (Fin 3) (Fin 2) ℝ := ⟨z, z, z, z, z, z, z, z, z⟩
    Tendsto (fun m => (updateL F I (fun _ => -1) (fun _ => 1) (fun _ _ => 1, z))^[m] L) atTop (nhds L) := by
  intro z F I
  have zA : ∀ {P Q : Type}, Anti (fun (_ _ : P) (_ _ : Q) => (0 : ℝ)) := fun {P Q} => ⟨fun _ _ _ _ => neg_zero.symm, fun _ _ _ _ => neg_zero.symm⟩
  have hI : AntiI I := by constructor <;> intro _ _ _ _ <;> exact neg_zero.symm
  have z2 : ∀ {P Q P' Q' : Type}, Sep.two (fun (_ : P) (_ : Q) => (0 : ℝ)) (fun (_ : P') (_ : Q') => (0 : ℝ)) = fun _ _ => 0 := by
    intros; funext x y; rcases x with x | x <;> rcases y with y | y <;> rfl
  have z4 : ∀ {P Q R S P' Q' R' S' : Type}, Sep.four (fun (_ : P) (_ : Q) (_ : R) (_ : S) => (0 : ℝ)) (fun (_ : P') (_ : Q') (_ : R') (_ : S') => (0 : ℝ)) = fun _ _ _ _ => 0 := by
    intros; funext x y u w; rcases x with x | x <;> rcases y with y | y <;> rcases u with u | u <;> rcases w with w | w <;> rfl
  refine (C113_lambda_limit F F (fun _ => -1) (fun _ => 1) (fun _ => -1) (fun _ => 1) (fun _ _ => 1, z) (fun _ _ => 1, z) L L X hI hI zA zA hL hL (coupled L L X) ?_).1
  have e : updateL (Sep.one F F) (Sep.int I I) (Sum.elim (fun _ => -1) fun _ => -1) (Sum.elim (fun _ => 1) fun _ => 1) (apart (fun _ _ => 1, z) (fun _ _ => 1, z)) (coupled L L X) = coupled L L X := by
    refine Prod.ext ?_ ?_
    · funext i a
      simp [updateL, Sep.one, Sep.int, F, I, z, z2, z4, zlam1]
    · funext i j a b
      simp [updateL, Sep.one, Sep.int, F, I, z, z2, z4, zlam2]
  simp only [Function.iterate_fixed e]
  exact tendsto_const_nhds

end CC
