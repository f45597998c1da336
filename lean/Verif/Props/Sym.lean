import Verif.Props.SymCC
import Verif.Props.Iterate
import Verif.Model.Spin
import Mathlib.Data.ZMod.Basic
/-!
# C69: selection rules of iterations and of spin-orbital arrays
-/
set_option linter.unusedSectionVars false

namespace CC
open Filter Topology

section
variable {B C D E B' C' D' E' K A : Type} [Field K] [AddCommGroup A] {b : B → A} {c : C → A} {d : D → A} {e : E → A} {t s : B → C → D → E → K}
variable {b' : B' → A} {c' : C' → A} {d' : D' → A} {e' : E' → A}

theorem Allowed4.swap34 (h : Allowed4 b c d e t) : Allowed4 b c e d fun x y z w => t x y w z := fun x y z w hne => (h x y w z hne).trans (add_comm _ _)
theorem Allowed4.swap12 (h : Allowed4 b c d e t) : Allowed4 c b d e fun x y z w => t y x z w := fun x y z w hne => (add_comm _ _).trans (h y x z w hne)
theorem Allowed4.neg (h : Allowed4 b c d e t) : Allowed4 b c d e fun x y z w => -t x y z w := fun x y z w hne => h x y z w fun h0 => hne (by simp [h0])
theorem Allowed4.sub (h : Allowed4 b c d e t) (h' : Allowed4 b c d e s) : Allowed4 b c d e fun x y z w => t x y z w - s x y z w :=
  fun x y z w hne => by
    by_cases h0 : t x y z w = 0
    · exact h' x y z w fun h1 => hne (by simp [h0, h1])
    · exact h x y z w h0

theorem spin_block {aaaa : B → C → D → E → K} {bbbb : B' → C' → D' → E' → K} {abab : B → C' → D → E' → K} {baba : B' → C → D' → E → K}
    {abba : B → C' → D' → E → K} {baab : B' → C → D → E' → K} (h1 : Allowed4 b c d e aaaa) (h2 : Allowed4 b' c' d' e' bbbb) (h3 : Allowed4 b c' d e' abab)
    (h4 : Allowed4 b' c d' e baba) (h5 : Allowed4 b c' d' e abba) (h6 : Allowed4 b' c d e' baab) :
    Allowed4 (Sum.elim b b') (Sum.elim c c') (Sum.elim d d') (Sum.elim e e') (int_to_spin_block aaaa bbbb abab baba abba baab) := by
  rintro (x | x) (y | y) (z | z) (w | w) hne <;> first
    | exact h1 x y z w hne | exact h2 x y z w hne | exact h3 x y z w hne | exact h4 x y z w hne | exact h5 x y z w hne | exact h6 x y z w hne
    | exact absurd rfl hne

theorem blk2_allowed {f : B → C → K} {g : B' → C' → K} (h : Allowed2 b c f) (h' : Allowed2 b' c' g) :
    Allowed2 (Sum.elim b b') (Sum.elim c c') (blk2 f g) := by
  rintro (x | x) (y | y) hne <;> first
    | exact h x y hne | exact h' x y hne | exact absurd rfl hne
end

section
variable {Oa Va Ob Vb K A : Type} [Field K] [AddCommGroup A] {o : Oa → A} {v : Va → A} {p : Ob → A} {q : Vb → A}

/-- C69: the spin-orbital integrals conserve the labels when the spatial ones do. -/
theorem C69_F_to_spin {Fa : OneE Oa Va K} {Fb : OneE Ob Vb K} (ha : Fa.Allowed o v) (hb : Fb.Allowed p q) :
    (F_to_spin Fa Fb).Allowed (Sum.elim o p) (Sum.elim v q) where
  oo := blk2_allowed ha.oo hb.oo
  ov := blk2_allowed ha.ov hb.ov
  vo := blk2_allowed ha.vo hb.vo
  vv := blk2_allowed ha.vv hb.vv

theorem C69_int_to_spin {Ia : TwoEFull Oa Va Oa Va K} {Ib : TwoEFull Ob Vb Ob Vb K} {Iab : TwoEFull Oa Va Ob Vb K} (ha : Ia.Allowed o v o v)
    (hb : Ib.Allowed p q p q) (hab : Iab.Allowed o v p q) : (int_to_spin Ia Ib Iab).Allowed (Sum.elim o p) (Sum.elim v q) where
  vvvv := spin_block (ha.vvvv.sub ha.vvvv.swap34) (hb.vvvv.sub hb.vvvv.swap34) hab.vvvv
    hab.vvvv.swap34.swap12 hab.vvvv.swap34.neg hab.vvvv.swap12.neg
  vvvo := spin_block (ha.vvvo.sub ha.vvov.swap34) (hb.vvvo.sub hb.vvov.swap34) hab.vvvo
    hab.vvov.swap34.swap12 hab.vvov.swap34.neg hab.vvvo.swap12.neg
  vovv := spin_block (ha.vovv.sub ha.vovv.swap34) (hb.vovv.sub hb.vovv.swap34) hab.vovv
    hab.ovvv.swap34.swap12 hab.vovv.swap34.neg hab.ovvv.swap12.neg
  vvoo := spin_block (ha.vvoo.sub ha.vvoo.swap34) (hb.vvoo.sub hb.vvoo.swap34) hab.vvoo
    hab.vvoo.swap34.swap12 hab.vvoo.swap34.neg hab.vvoo.swap12.neg
  vovo := spin_block (ha.vovo.sub ha.voov.swap34) (hb.vovo.sub hb.voov.swap34) hab.vovo
    hab.ovov.swap34.swap12 hab.voov.swap34.neg hab.ovvo.swap12.neg
  oovv := spin_block (ha.oovv.sub ha.oovv.swap34) (hb.oovv.sub hb.oovv.swap34) hab.oovv
    hab.oovv.swap34.swap12 hab.oovv.swap34.neg hab.oovv.swap12.neg
  vooo := spin_block (ha.vooo.sub ha.vooo.swap34) (hb.vooo.sub hb.vooo.swap34) hab.vooo
    hab.ovoo.swap34.swap12 hab.vooo.swap34.neg hab.ovoo.swap12.neg
  ooov := spin_block (ha.ooov.sub ha.oovo.swap34) (hb.ooov.sub hb.oovo.swap34) hab.ooov
    hab.oovo.swap34.swap12 hab.oovo.swap34.neg hab.ooov.swap12.neg
  oooo := spin_block (ha.oooo.sub ha.oooo.swap34) (hb.oooo.sub hb.oooo.swap34) hab.oooo
    hab.oooo.swap34.swap12 hab.oooo.swap34.neg hab.oooo.swap12.neg

theorem C69_int_to_spin2 {Ia : TwoE Oa Va K} {Ib : TwoE Ob Vb K} {Iab : TwoEFull Oa Va Ob Vb K} (ha : Ia.Allowed o v)
    (hb : Ib.Allowed p q) (hab : Iab.Allowed o v p q) : (int_to_spin2 Ia Ib Iab).Allowed (Sum.elim o p) (Sum.elim v q) where
  vvvv := spin_block ha.vvvv hb.vvvv hab.vvvv
    hab.vvvv.swap34.swap12 hab.vvvv.swap34.neg hab.vvvv.swap12.neg
  vvvo := spin_block ha.vvvo hb.vvvo hab.vvvo
    hab.vvov.swap34.swap12 hab.vvov.swap34.neg hab.vvvo.swap12.neg
  vovv := spin_block ha.vovv hb.vovv hab.vovv
    hab.ovvv.swap34.swap12 hab.vovv.swap34.neg hab.ovvv.swap12.neg
  vvoo := spin_block ha.vvoo hb.vvoo hab.vvoo
    hab.vvoo.swap34.swap12 hab.vvoo.swap34.neg hab.vvoo.swap12.neg
  vovo := spin_block ha.vovo hb.vovo hab.vovo
    hab.ovov.swap34.swap12 hab.voov.swap34.neg hab.ovvo.swap12.neg
  oovv := spin_block ha.oovv hb.oovv hab.oovv
    hab.oovv.swap34.swap12 hab.oovv.swap34.neg hab.oovv.swap12.neg
  vooo := spin_block ha.vooo hb.vooo hab.vooo
    hab.ovoo.swap34.swap12 hab.vooo.swap34.neg hab.ovoo.swap12.neg
  ooov := spin_block ha.ooov hb.ooov hab.ooov
    hab.oovo.swap34.swap12 hab.oovo.swap34.neg hab.ooov.swap12.neg
  oooo := spin_block ha.oooo hb.oooo hab.oooo
    hab.oooo.swap34.swap12 hab.oooo.swap34.neg hab.oooo.swap12.neg

/-- C69: with the labels 1 and -1 for the two spins, the spin-orbital integrals conserve the projection of the spin, whatever the spatial integrals. -/
theorem C69_sz_integrals (Fa : OneE Oa Va K) (Fb : OneE Ob Vb K) (Ia : TwoEFull Oa Va Oa Va K) (Ib : TwoEFull Ob Vb Ob Vb K) (Iab : TwoEFull Oa Va Ob Vb K) :
    (F_to_spin Fa Fb).Allowed (Sum.elim (fun _ => (1 : ℤ)) fun _ => -1) (Sum.elim (fun _ => 1) fun _ => -1) ∧
      (int_to_spin Ia Ib Iab).Allowed (Sum.elim (fun _ => (1 : ℤ)) fun _ => -1) (Sum.elim (fun _ => 1) fun _ => -1) := by
  refine ⟨C69_F_to_spin ?_ ?_, C69_int_to_spin ?_ ?_ ?_⟩ <;> constructor <;> intros <;> intro _ <;> first | rfl | (intros; rfl)

/-- C69: amplitudes with labels 1 and -1 conserved are those of `T1_to_spin`: the blocks that flip a spin vanish. -/
theorem C69_sz_blocks {T1 : Va ⊕ Vb → Oa ⊕ Ob → K} {T2 : Va ⊕ Vb → Va ⊕ Vb → Oa ⊕ Ob → Oa ⊕ Ob → K} (hA : Anti T2)
    (h1 : Allowed2 (Sum.elim (fun _ => (1 : ℤ)) fun _ => -1) (Sum.elim (fun _ => 1) fun _ => -1) T1)
    (h2 : Allowed4 (Sum.elim (fun _ => (1 : ℤ)) fun _ => -1) (Sum.elim (fun _ => 1) fun _ => -1) (Sum.elim (fun _ => 1) fun _ => -1)
      (Sum.elim (fun _ => 1) fun _ => -1) T2) :
    T1 = T1_to_spin (T1_to_spatial T1).1 (T1_to_spatial T1).2 ∧
      T2 = T2_to_spin (T2_to_spatial T2).1 (T2_to_spatial T2).2.1 (T2_to_spatial T2).2.2 := by
  constructor
  · funext a i
    rcases a with a | a <;> rcases i with i | i <;> first
      | rfl
      | (refine by_contra fun h => ?_
         have := h1 _ _ fun h0 => h h0
         simp at this)
  · funext a b i j
    rcases a with a | a <;> rcases b with b | b <;> rcases i with i | i <;> rcases j with j | j <;> first
      | rfl
      | exact hA.a34 _ _ _ _
      | exact hA.a12 _ _ _ _
      | exact (hA.a12 _ _ _ _).trans (by rw [hA.a34]; exact neg_neg _)
      | (refine by_contra fun h => ?_
         have := h2 _ _ _ _ fun h0 => h h0
         simp at this)
end

section
variable {𝕜 A : Type} [RCLike 𝕜] [AddCommGroup A] {O V : Type} [Fintype O] [Fintype V] [DecidableEq O] [DecidableEq V] (o : O → A) (v : V → A)

/-- C69: the update keeps selection rules, ... -/
theorem C69_update {F : OneE O V 𝕜} {I : TwoE O V 𝕜} (hF : F.Allowed o v) (hI : I.Allowed o v) (eo : O → 𝕜) (ev : V → 𝕜) {T : Amp 𝕜 O V}
    (h1 : Allowed2 v o T.1) (h2 : Allowed4 v v o o T.2) :
    Allowed2 v o (update F I eo ev T).1 ∧ Allowed4 v v o o (update F I eo ev T).2 := by
  obtain ⟨r1, r2⟩ := Heap.C69_ccsd_simple o v F I T.1 T.2 hF hI h1 h2
  constructor
  · intro a i hne
    by_cases h0 : T.1 a i = 0
    · refine r1 a i fun h => hne ?_
      simp only [update, h0, h, zero_div, sub_zero]
    · exact h1 a i h0
  · intro a b i j hne
    by_cases h0 : T.2 a b i j = 0
    · refine r2 a b i j fun h => hne ?_
      simp only [update, h0, h, zero_div, sub_zero]
    · exact h2 a b i j h0

/-- ... so amplitudes of other symmetries never appear in the iteration, ... -/
theorem C69_iterates {F : OneE O V 𝕜} {I : TwoE O V 𝕜} (hF : F.Allowed o v) (hI : I.Allowed o v) (eo : O → 𝕜) (ev : V → 𝕜) {T : Amp 𝕜 O V}
    (h1 : Allowed2 v o T.1) (h2 : Allowed4 v v o o T.2) (k : ℕ) :
    Allowed2 v o ((update F I eo ev)^[k] T).1 ∧ Allowed4 v v o o ((update F I eo ev)^[k] T).2 := by
  induction k with
  | zero => exact ⟨h1, h2⟩
  | succ k ih => rw [Function.iterate_succ_apply']; exact C69_update o v hF hI eo ev ih.1 ih.2

theorem diagF_allowed (eo : O → 𝕜) (ev : V → 𝕜) : (diagF eo ev).Allowed o v where
  oo i j h := by
    by_cases e : i = j
    · rw [e]
    · exact absurd (by simp [diagF, e]) h
  ov i a h := absurd rfl h
  vo a i h := absurd rfl h
  vv i j h := by
    by_cases e : i = j
    · rw [e]
    · exact absurd (by simp [diagF, e]) h

theorem addMul_allowed {F f : OneE O V 𝕜} (hF : F.Allowed o v) (hf : f.Allowed o v) (c : 𝕜) : (F.addMul c f).Allowed o v := by
  constructor <;> intro x y hne
  · by_cases h : F.oo x y = 0
    · exact hf.oo x y fun h' => hne (by simp [OneE.addMul, h, h'])
    · exact hF.oo x y h
  · by_cases h : F.ov x y = 0
    · exact hf.ov x y fun h' => hne (by simp [OneE.addMul, h, h'])
    · exact hF.ov x y h
  · by_cases h : F.vo x y = 0
    · exact hf.vo x y fun h' => hne (by simp [OneE.addMul, h, h'])
    · exact hF.vo x y h
  · by_cases h : F.vv x y = 0
    · exact hf.vv x y fun h' => hne (by simp [OneE.addMul, h, h'])
    · exact hF.vv x y h

theorem mul_allowed {I : TwoE O V 𝕜} (h : I.Allowed o v) (c : 𝕜) : (I.mul c).Allowed o v where
  vvvv x y z w hne := h.vvvv x y z w (right_ne_zero_of_mul hne)
  vvvo x y z w hne := h.vvvo x y z w (right_ne_zero_of_mul hne)
  vovv x y z w hne := h.vovv x y z w (right_ne_zero_of_mul hne)
  vvoo x y z w hne := h.vvoo x y z w (right_ne_zero_of_mul hne)
  vovo x y z w hne := h.vovo x y z w (right_ne_zero_of_mul hne)
  oovv x y z w hne := h.oovv x y z w (right_ne_zero_of_mul hne)
  vooo x y z w hne := h.vooo x y z w (right_ne_zero_of_mul hne)
  ooov x y z w hne := h.ooov x y z w (right_ne_zero_of_mul hne)
  oooo x y z w hne := h.oooo x y z w (right_ne_zero_of_mul hne)

/-- ... and with weak coupling the antisymmetric solution of the equations in a ball, of which there is one by C66, is totally symmetric although
nothing in its definition mentions the labels. -/
theorem C69_solution (eo : O → 𝕜) (ev : V → 𝕜) (f : OneE O V 𝕜) (I : TwoE O V 𝕜) (hA : AntiI I) (hf : f.Allowed o v) (hI : I.Allowed o v)
    (g1 : ∀ a i, ev a - eo i ≠ 0) (g2 : ∀ a b i j, ev a + ev b - eo i - eo j ≠ 0) (r : ℝ) (hr : 0 < r) :
    ∃ c₀ : ℝ, 0 < c₀ ∧ ∀ c : 𝕜, ‖c‖ ≤ c₀ → ∀ T : Amp 𝕜 O V, Anti T.2 → ‖T‖ ≤ r →
      ccsd_simple ((diagF eo ev).addMul c f) (I.mul c) T.1 T.2 = (fun _ _ => 0, fun _ _ _ _ => 0) →
      Allowed2 v o T.1 ∧ Allowed4 v v o o T.2 := by
  obtain ⟨c₀, h0, h⟩ := C66_converges eo ev f I hA g1 g2 r hr
  refine ⟨c₀, h0, fun c hc T hT hn hs => ?_⟩
  obtain ⟨T', -, -, -, uniq, conv⟩ := h c hc
  obtain rfl := uniq T hT hn hs
  have it := C69_iterates o v (addMul_allowed o v (diagF_allowed o v eo ev) hf c) (mul_allowed o v hI c) eo ev (T := 0) (fun _ _ h => absurd rfl h)
    (fun _ _ _ _ h => absurd rfl h)
  have lim : Tendsto (fun k : ℕ => (update ((diagF eo ev).addMul c f) (I.mul c) eo ev)^[k] 0) atTop (𝓝 T) := by
    rw [tendsto_iff_norm_sub_tendsto_zero]
    refine squeeze_zero (fun _ => norm_nonneg _) (fun k => conv 0 zero_anti' (by simpa using hr.le) k) ?_
    simpa using (tendsto_pow_atTop_nhds_zero_of_lt_one (by norm_num : (0 : ℝ) ≤ 1 / 2) (by norm_num)).mul_const ‖0 - T‖
  constructor
  · intro a i hne
    by_contra hl
    have hc : Continuous fun T : Amp 𝕜 O V => T.1 a i := by fun_prop
    refine hne (tendsto_nhds_unique ((hc.tendsto T).comp lim) ?_)
    refine tendsto_const_nhds.congr fun k => ?_
    exact (by_contra fun h => hl ((it k).1 a i (Ne.symm h)))
  · intro a b i j hne
    by_contra hl
    have hc : Continuous fun T : Amp 𝕜 O V => T.2 a b i j := by fun_prop
    refine hne (tendsto_nhds_unique ((hc.tendsto T).comp lim) ?_)
    refine tendsto_const_nhds.congr fun k => ?_
    exact (by_contra fun h => hl ((it k).2 a b i j (Ne.symm h)))
end

section
variable {𝕜 : Type} [RCLike 𝕜] {Oa Va Ob Vb : Type} [Fintype Oa] [Fintype Va] [Fintype Ob] [Fintype Vb] [DecidableEq Oa] [DecidableEq Va] [DecidableEq Ob] [DecidableEq Vb]

/-- C69: the iteration in spin orbitals, started from zero, conserves the projection of the spin: the blocks of amplitudes that flip a spin
are zero in every step, and the amplitudes are determined by those of `T1_to_spatial` and `T2_to_spatial`. -/
theorem C69_sz (Fa : OneE Oa Va 𝕜) (Fb : OneE Ob Vb 𝕜) (Ia : TwoEFull Oa Va Oa Va 𝕜) (Ib : TwoEFull Ob Vb Ob Vb 𝕜) (Iab : TwoEFull Oa Va Ob Vb 𝕜)
    (hA : AntiI (int_to_spin Ia Ib Iab)) (eo : Oa ⊕ Ob → 𝕜) (ev : Va ⊕ Vb → 𝕜) (k : ℕ) :
    let T := (update (F_to_spin Fa Fb) (int_to_spin Ia Ib Iab) eo ev)^[k] (0 : Amp 𝕜 (Oa ⊕ Ob) (Va ⊕ Vb))
    T.1 = T1_to_spin (T1_to_spatial T.1).1 (T1_to_spatial T.1).2 ∧
      T.2 = T2_to_spin (T2_to_spatial T.2).1 (T2_to_spatial T.2).2.1 (T2_to_spatial T.2).2.2 := by
  intro T
  obtain ⟨hF, hI⟩ := C69_sz_integrals Fa Fb Ia Ib Iab
  obtain ⟨h1, h2⟩ := C69_iterates (A := ℤ) (Sum.elim (fun _ => (1 : ℤ)) fun _ => -1) (Sum.elim (fun _ => 1) fun _ => -1) hF hI eo ev (T := 0) (fun _ _ h => absurd rfl h) (fun _ _ _ _ h => absurd rfl h) k
  exact C69_sz_blocks (iterate_anti _ _ hA eo ev zero_anti' k) h1 h2
end

/-! ### cases -/

/-- Two occupied and two virtual orbitals, one even and one odd each, with all the elements that the parity allows; -/
def parI (x : ℝ) : TwoE (Fin 2) (Fin 2) ℝ where
  vvvv p q r s := if (p + q : Fin 2) = r + s then x else 0
  vvvo p q r s := if (p + q : Fin 2) = r + s then x else 0
  vovv p q r s := if (p + q : Fin 2) = r + s then x else 0
  vvoo p q r s := if (p + q : Fin 2) = r + s then x else 0
  vovo p q r s := if (p + q : Fin 2) = r + s then x else 0
  oovv p q r s := if (p + q : Fin 2) = r + s then x else 0
  vooo p q r s := if (p + q : Fin 2) = r + s then x else 0
  ooov p q r s := if (p + q : Fin 2) = r + s then x else 0
  oooo p q r s := if (p + q : Fin 2) = r + s then x else 0

def parF (x : ℝ) : OneE (Fin 2) (Fin 2) ℝ where
  oo p q := if p = q then x else 0
  ov p q := if p = q then x else 0
  vo p q := if p = q then x else 0
  vv p q := if p = q then x else 0

theorem parI_allowed (x : ℝ) : (parI x).Allowed (id : Fin 2 → ZMod 2) (id : Fin 2 → ZMod 2) := by
  constructor <;> intro p q r s h <;> by_contra h' <;> exact h (if_neg h')

theorem parF_allowed (x : ℝ) : (parF x).Allowed (id : Fin 2 → ZMod 2) (id : Fin 2 → ZMod 2) := by
  constructor <;> intro p q h <;> by_contra h' <;> exact h (if_neg h')

/-- no residual for the excitation from an even to an odd orbital, ... -/
example (x y s t : ℝ) : (ccsd_simple (parF x) (parI y) (parF s).vo (parI t).vvoo).1 1 0 = 0 := by
  by_contra h
  exact absurd ((Heap.C69_ccsd_simple (id : Fin 2 → ZMod 2) (id : Fin 2 → ZMod 2) _ _ _ _ (parF_allowed x) (parI_allowed y) (parF_allowed s).vo (parI_allowed t).vvoo).1 1 0 h)
    (by decide)

/-- ... and none of the density matrix between them. -/
example (s t l m : ℝ) : ccsd_1rdm_ba (parF s).vo (parI t).vvoo (parF l).ov (parI m).oovv 1 0 = 0 := by
  by_contra h
  exact absurd (Heap.C69_ccsd_1rdm_ba (id : Fin 2 → ZMod 2) (id : Fin 2 → ZMod 2) _ _ _ _ (parF_allowed s).vo (parI_allowed t).vvoo (parF_allowed l).ov (parI_allowed m).oovv
    1 0 h) (by decide)

/-- antisymmetric integrals of even and odd orbitals -/
def eps (p q : Fin 2) : ℝ := if p = q then 0 else if p = 0 then 1 else -1

def oddI : TwoE (Fin 2) (Fin 2) ℝ where
  vvvv p q r s := eps p q * eps r s
  vvvo p q r s := eps p q * if r = s then 0 else 1
  vovv p q r s := (if p = q then 0 else 1) * eps r s
  vvoo p q r s := eps p q * eps r s
  vovo p q r s := if (p + q : Fin 2) = r + s then 1 else 0
  oovv p q r s := eps p q * eps r s
  vooo p q r s := (if p = q then 0 else 1) * eps r s
  ooov p q r s := eps p q * if r = s then 0 else 1
  oooo p q r s := eps p q * eps r s

theorem eps_swap (p q : Fin 2) : eps p q = -eps q p := by
  fin_cases p <;> fin_cases q <;> simp [eps]

theorem oddI_anti : AntiI oddI := by
  constructor <;> intro p q r s <;> simp only [oddI]
  all_goals first
    | (rw [eps_swap p q]; ring; done)
    | (rw [eps_swap r s]; ring; done)

theorem oddI_allowed : oddI.Allowed (id : Fin 2 → ZMod 2) (id : Fin 2 → ZMod 2) := by
  have key : ∀ p q r s : Fin 2, p ≠ q → r ≠ s → (id : Fin 2 → ZMod 2) p + (id : Fin 2 → ZMod 2) q = (id : Fin 2 → ZMod 2) r + (id : Fin 2 → ZMod 2) s := by decide
  have e : ∀ p q, eps p q ≠ 0 → p ≠ q := fun p q h h' => h (by simp [eps, h'])
  have d : ∀ p q : Fin 2, (if p = q then (0 : ℝ) else 1) ≠ 0 → p ≠ q := fun p q h h' => h (by simp [h'])
  constructor <;> intro p q r s h
  case vovo => by_contra h'; exact h (if_neg h')
  all_goals
    have h1 := left_ne_zero_of_mul h
    have h2 := right_ne_zero_of_mul h
    exact key p q r s (by first | exact e _ _ h1 | exact d _ _ h1) (by first | exact e _ _ h2 | exact d _ _ h2)

/-- Non-trivial case of `C69_solution`: the amplitude of the solution between an even and an odd orbital is zero. -/
example : ∃ c₀ : ℝ, 0 < c₀ ∧ ∀ c : ℝ, ‖c‖ ≤ c₀ → ∃ T : Amp ℝ (Fin 2) (Fin 2),
    ccsd_simple ((diagF (fun _ => 0) (fun _ => 1)).addMul c (parF 1)) (oddI.mul c) T.1 T.2 = (fun _ _ => 0, fun _ _ _ _ => 0) ∧ T.1 1 0 = 0 := by
  obtain ⟨c₀, h0, h⟩ := C66_converges (𝕜 := ℝ) (fun _ : Fin 2 => 0) (fun _ : Fin 2 => 1) (parF 1) oddI oddI_anti
    (fun _ _ => by norm_num) (fun _ _ _ _ => by norm_num) 1 one_pos
  obtain ⟨c₁, h1, h'⟩ := C69_solution (𝕜 := ℝ) (id : Fin 2 → ZMod 2) (id : Fin 2 → ZMod 2) (fun _ => 0) (fun _ => 1) (parF 1) oddI oddI_anti (parF_allowed 1) oddI_allowed
    (fun _ _ => by norm_num) (fun _ _ _ _ => by norm_num) 1 one_pos
  refine ⟨min c₀ c₁, lt_min h0 h1, fun c hc => ?_⟩
  obtain ⟨T, hT, hn, sol, -, -⟩ := h c (hc.trans (min_le_left _ _))
  refine ⟨T, sol, by_contra fun hne => ?_⟩
  exact absurd ((h' c (hc.trans (min_le_right _ _)) T hT hn sol).1 1 0 hne) (by decide)

end CC
