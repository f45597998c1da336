import Verif.Props.CIVec
import Verif.Model.CIExp
import Verif.Spec.ExpT
/-!
# C37: loops that accumulate a vector
-/
set_option linter.unusedSectionVars false
namespace CI
open Fock
variable {K : Type} [Field K]

/-! ### loops that add a vector -/

section
variable {ι : Type} [LinearOrder ι] {L : List (Finset ι)}

/-- The step `f` adds to the list of coefficients those of the vector `v` on the determinants `L`. -/
def Adds (L : List (Finset ι)) (f : List K → R (List K)) (v : Finset ι → K) : Prop :=
  ∀ c : ℕ → K, f (tab L.length c) = .ok (tab L.length fun k => c k + v (L.getD k ∅))

theorem Adds.congr {f : List K → R (List K)} {v w : Finset ι → K} (h : Adds L f v) (e : w = v) : Adds L f w := e ▸ h

theorem skip_tab {v : Finset ι → K} (hv : v = 0) (c : ℕ → K) :
    (Except.ok (tab L.length c) : R (List K)) = .ok (tab L.length fun k => c k + v (L.getD k ∅)) := by
  subst hv; simp

theorem Adds.ok : Adds L (fun C : List K => .ok C) 0 := fun c => skip_tab rfl c

theorem Adds.seq {f g : List K → R (List K)} {v w : Finset ι → K} (hf : Adds L f v) (hg : Adds L g w) :
    Adds L (fun C => f C >>= g) (v + w) := fun c => by
  have : (f (tab L.length c) >>= g) = g (tab L.length fun k => c k + v (L.getD k ∅)) := by rw [hf]; rfl
  change (f (tab L.length c) >>= g) = _
  rw [this, hg]
  simp [add_assoc]

theorem Adds.ite {p : Prop} [Decidable p] {f : List K → R (List K)} {v : Finset ι → K} (h1 : ¬ p → Adds L f v) (h0 : p → v = 0) :
    Adds L (fun C => if p then .ok C else f C) v := fun c => by
  by_cases hp : p
  · simp only [hp, if_true]; exact skip_tab (h0 hp) c
  · simp only [hp, if_false]; exact h1 hp c

theorem Adds.loop {α : Type} (l : List α) (step : α → List K → R (List K)) (w : α → Finset ι → K)
    (h : ∀ x ∈ l, Adds L (step x) (w x)) : Adds L (CI.loop l step) ((l.map w).sum) := by
  induction l with
  | nil => exact Adds.ok
  | cons x l ih =>
    intro c
    have := (h x (by simp)).seq (ih fun y hy => h y (by simp [hy])) c
    rw [List.map_cons, List.sum_cons, ← this]
    rfl

theorem sum_map_range {M : Type} [AddCommMonoid M] (n : ℕ) (w : ℕ → M) :
    ((List.range n).map w).sum = ∑ i ∈ Finset.range n, w i := by
  induction n with
  | zero => simp
  | succ n ih => rw [List.range_succ, Finset.sum_range_succ, ← ih]; simp

theorem Adds.loop_range {n : ℕ} {step : ℕ → List K → R (List K)} {w : ℕ → Finset ι → K}
    (h : ∀ i, i < n → Adds L (step i) (w i)) : Adds L (CI.loop (List.range n) step) (∑ i ∈ Finset.range n, w i) := by
  rw [← sum_map_range]
  exact Adds.loop _ _ _ fun i hi => h i (List.mem_range.mp hi)

theorem sum_map_range' {M : Type} [AddCommMonoid M] (n i : ℕ) (w : ℕ → M) (h0 : ∀ j, ¬ i < j → w j = 0) :
    ((List.range' (i + 1) (n - (i + 1))).map w).sum = ∑ j ∈ Finset.range n, w j := by
  rw [List.range'_eq_map_range, List.map_map, sum_map_range]
  by_cases hn : n ≤ i + 1
  · rw [Nat.sub_eq_zero_of_le hn, Finset.range_zero, Finset.sum_empty]
    refine (Finset.sum_eq_zero fun j hj => h0 j ?_).symm
    have := Finset.mem_range.mp hj; omega
  · obtain ⟨m, rfl⟩ := Nat.exists_eq_add_of_le (Nat.le_of_not_le hn)
    rw [Finset.sum_range_add, Finset.sum_eq_zero (s := Finset.range (i + 1)), zero_add, Nat.add_sub_cancel_left]
    · rfl
    · intro j hj
      refine h0 j ?_
      have := Finset.mem_range.mp hj; omega

theorem Adds.loop_lt {n i : ℕ} {step : ℕ → List K → R (List K)} {w : ℕ → Finset ι → K}
    (h : ∀ j, i < j → j < n → Adds L (step j) (w j)) (h0 : ∀ j, ¬ i < j → w j = 0) :
    Adds L (CI.loop (List.range' (i + 1) (n - (i + 1))) step) (∑ j ∈ Finset.range n, w j) := by
  rw [← sum_map_range' n i w h0]
  refine Adds.loop _ _ _ fun j hj => h j ?_ ?_ <;> · have := List.mem_range'_1.mp hj; omega

theorem Adds.loop_enum {l : List ℕ} {step : ℕ × ℕ → List K → R (List K)} {w : ℕ → Finset ι → K}
    (h : ∀ i, i < l.length → Adds L (step (i, l.getD i 0)) (w i)) :
    Adds L (CI.loop (enum l) step) (∑ i ∈ Finset.range l.length, w i) := by
  intro c
  rw [CI.loop_enum L.length l step 0 (fun k j _ => w j (L.getD k ∅)) ?_ c]
  · simp [Finset.sum_apply]
  · intro j x f hj
    have hj' : j < l.length := by
      by_contra hc; rw [List.getElem?_eq_none (by omega)] at hj; simp at hj
    have hx : l.getD j 0 = x := by simp [hj]
    have := h j hj' f
    rw [hx] at this
    exact this

end

theorem addAt_pos {ι : Type} [LinearOrder ι] {L : List (Finset ι)} (hL : L.Nodup) {T : Finset ι} (h : T ∈ L) (x : K)
    {v : Finset ι → K} (hv : v = x • det T) (c : ℕ → K) :
    ((pos L T).bind fun idx => addAt (tab L.length c) idx x) = .ok (tab L.length fun k => c k + v (L.getD k ∅)) := by
  have := tryAdd_pos hL T c x
  unfold tryAdd at this
  unfold pos at this ⊢
  rw [if_pos h] at this ⊢
  refine Eq.trans this ?_
  congr 1
  refine tab_congr fun k _ => ?_
  rw [hv, Pi.smul_apply, det_apply, smul_eq_mul]
  split_ifs <;> ring

/-! ### excitations of a reference -/

/-- `A` is a `k`-fold excitation of `R` within `n` orbitals. -/
def Level (R : Finset ℕ) (n : ℕ) (A : Finset ℕ) (k : ℕ) : Prop :=
  A ⊆ Finset.range n ∧ (A \ R).card = k ∧ (R \ A).card = k

theorem Level.ref {R : Finset ℕ} {n : ℕ} (h : R ⊆ Finset.range n) : Level R n R 0 := ⟨h, by simp, by simp⟩

theorem Level.step {R : Finset ℕ} {n : ℕ} {A : Finset ℕ} {k i a : ℕ} (h : Level R n A k) (hi : i ∈ R) (ha : a ∉ R) (hn : a < n)
    (hiA : i ∈ A) (haA : a ∉ A) : Level R n (insert a (A.erase i)) (k + 1) := by
  obtain ⟨h1, h2, h3⟩ := h
  have hia : i ≠ a := fun e => ha (e ▸ hi)
  refine ⟨exc_subset h1 hn, ?_, ?_⟩
  · have : insert a (A.erase i) \ R = insert a (A \ R) := by
      ext x; simp only [Finset.mem_sdiff, Finset.mem_insert, Finset.mem_erase]
      constructor
      · rintro ⟨rfl | ⟨_, h⟩, h'⟩ <;> tauto
      · rintro (rfl | ⟨h, h'⟩)
        · tauto
        · exact ⟨Or.inr ⟨fun e => h' (e ▸ hi), h⟩, h'⟩
    rw [this, Finset.card_insert_of_notMem (by simp [haA]), h2]
  · have : R \ insert a (A.erase i) = insert i (R \ A) := by
      ext x; simp only [Finset.mem_sdiff, Finset.mem_insert, Finset.mem_erase]
      constructor
      · rintro ⟨h, h'⟩
        by_cases hx : x = i
        · exact Or.inl hx
        · exact Or.inr ⟨h, fun hxA => h' (Or.inr ⟨hx, hxA⟩)⟩
      · rintro (rfl | ⟨h, h'⟩)
        · exact ⟨hi, by rintro (h | ⟨h, -⟩) <;> [exact hia h; exact h rfl]⟩
        · exact ⟨h, by rintro (rfl | ⟨-, h''⟩) <;> [exact ha h; exact h' h'']⟩
    rw [this, Finset.card_insert_of_notMem (by simp [hiA]), h3]

/-- The operator `P` takes the reference `R` to `s` times the `k`-fold excitation `A`. -/
structure GSt (R : Finset ℕ) (n : ℕ) (P : Module.End K (Finset ℕ → K)) (s : K) (A : Finset ℕ) (k : ℕ) : Prop where
  act : P (det R) = s • det A
  lev : Level R n A k

theorem GSt.ref {R : Finset ℕ} {n : ℕ} (h : R ⊆ Finset.range n) : GSt (K := K) R n 1 1 R 0 := ⟨by simp, Level.ref h⟩

theorem E_det_fail {ι : Type} [LinearOrder ι] {A : Finset ι} {i a : ι} (hia : i ≠ a) (h : ¬ (i ∈ A ∧ a ∉ A)) :
    E (K := K) i a (det A) = 0 := by
  have := excop_det (K := K) A hia
  rw [if_neg h] at this
  exact this

theorem GSt.step {R : Finset ℕ} {n : ℕ} {P : Module.End K (Finset ℕ → K)} {s : K} {A : Finset ℕ} {k i a : ℕ}
    (h : GSt R n P s A k) (hR : R ⊆ Finset.range n) (hi : i ∈ R) (ha : a ∉ R) (hn : a < n) :
    ((ofSet n A).excite i a = .ok none ∧ (E i a) (P (det R)) = 0) ∨
    ∃ (σ : ℤ) (A' : Finset ℕ), (ofSet n A).excite i a = .ok (some (σ, ofSet n A')) ∧ GSt R n (E i a * P) (s * σ) A' (k + 1) := by
  have hia : i ≠ a := fun e => ha (e ▸ hi)
  have hin : i < n := Finset.mem_range.mp (hR hi)
  rw [excite_ofSet A hin hn]
  by_cases hc : i ∈ A ∧ a ∉ A
  · right
    refine ⟨(-1) ^ btw A i a, insert a (A.erase i), by rw [if_pos hc], ?_, h.lev.step hi ha hn hc.1 hc.2⟩
    have := excop_det (K := K) A hia
    rw [if_pos hc] at this
    rw [Module.End.mul_apply, h.act, map_smul]
    unfold E
    rw [this, smul_smul]
    simp
  · left
    refine ⟨by rw [if_neg hc], ?_⟩
    rw [h.act, map_smul, E_det_fail hia hc, smul_zero]

/-- The operator `P` of alpha excitations takes the alpha reference `R` to `s` times the `k`-fold excitation `A`. -/
structure ASt (R : Finset ℕ) (n : ℕ) (P : Module.End K (Finset SO → K)) (s : K) (A : Finset ℕ) (k : ℕ) : Prop where
  act : ∀ B, P (det (emb R B)) = s • det (emb A B)
  lev : Level R n A k

theorem ASt.ref (o v : ℕ) : ASt (K := K) (Finset.range o) (o + v) 1 1 (Finset.range o) 0 :=
  ⟨by simp, Level.ref (Finset.range_subset_range.mpr (by omega))⟩

/-- The operator `P` of beta excitations takes the beta reference `R` to `s` times the `k`-fold excitation `B`. -/
structure BSt (R : Finset ℕ) (n : ℕ) (P : Module.End K (Finset SO → K)) (s : K) (B : Finset ℕ) (k : ℕ) : Prop where
  act : ∀ A, P (det (emb A R)) = s • det (emb A B)
  lev : Level R n B k

theorem BSt.ref (o v : ℕ) : BSt (K := K) (Finset.range o) (o + v) 1 1 (Finset.range o) 0 :=
  ⟨by simp, Level.ref (Finset.range_subset_range.mpr (by omega))⟩

theorem E_exc {ι : Type} [LinearOrder ι] (S : Finset ι) {i a : ι} (hia : i ≠ a) :
    E (K := K) i a (det S) = match exc K i a S with | none => 0 | some (s, T) => s • det T := exc_det S hia

theorem ASt.step {o v : ℕ} {P : Module.End K (Finset SO → K)} {s : K} {A : Finset ℕ} {k i a : ℕ}
    (h : ASt (Finset.range o) (o + v) P s A k) (hi : i < o) (ha : a < v) :
    ((ofSet (o + v) A).excite i (a + o) = .ok none ∧ ∀ B, (E (up i) (up (a + o))) (P (det (emb (Finset.range o) B))) = 0) ∨
    ∃ (σ : ℤ) (A' : Finset ℕ), (ofSet (o + v) A).excite i (a + o) = .ok (some (σ, ofSet (o + v) A')) ∧
      ASt (Finset.range o) (o + v) (E (up i) (up (a + o)) * P) (s * σ) A' (k + 1) := by
  have hia : up i ≠ up (a + o) := fun e => by have := up_inj.mp e; omega
  rw [excite_ofSet A (by omega) (by omega)]
  by_cases hc : i ∈ A ∧ a + o ∉ A
  · right
    refine ⟨(-1) ^ btw A i (a + o), insert (a + o) (A.erase i), by rw [if_pos hc], ?_,
      h.lev.step (by simpa using hi) (by simp) (by omega) hc.1 hc.2⟩
    intro B
    rw [Module.End.mul_apply, h.act, map_smul, E_exc _ hia, exc_up, if_pos hc]
    simp only [smul_smul]
    simp
  · left
    refine ⟨by rw [if_neg hc], fun B => ?_⟩
    rw [h.act, map_smul, E_exc _ hia, exc_up, if_neg hc]
    simp

theorem BSt.step {o v : ℕ} {P : Module.End K (Finset SO → K)} {s : K} {B : Finset ℕ} {k i a : ℕ}
    (h : BSt (Finset.range o) (o + v) P s B k) (hi : i < o) (ha : a < v) :
    ((ofSet (o + v) B).excite i (a + o) = .ok none ∧ ∀ A, (E (dn i) (dn (a + o))) (P (det (emb A (Finset.range o)))) = 0) ∨
    ∃ (σ : ℤ) (B' : Finset ℕ), (ofSet (o + v) B).excite i (a + o) = .ok (some (σ, ofSet (o + v) B')) ∧
      BSt (Finset.range o) (o + v) (E (dn i) (dn (a + o)) * P) (s * σ) B' (k + 1) := by
  have hia : dn i ≠ dn (a + o) := fun e => by have := dn_inj.mp e; omega
  rw [excite_ofSet B (by omega) (by omega)]
  by_cases hc : i ∈ B ∧ a + o ∉ B
  · right
    refine ⟨(-1) ^ btw B i (a + o), insert (a + o) (B.erase i), by rw [if_pos hc], ?_,
      h.lev.step (by simpa using hi) (by simp) (by omega) hc.1 hc.2⟩
    intro B
    rw [Module.End.mul_apply, h.act, map_smul, E_exc _ hia, exc_dn, if_pos hc]
    simp only [smul_smul]
    simp
  · left
    refine ⟨by rw [if_neg hc], fun B => ?_⟩
    rw [h.act, map_smul, E_exc _ hia, exc_dn, if_neg hc]
    simp

theorem E_up_dn (i a j b : ℕ) (φ : Finset SO → K) :
    E (up i) (up a) (E (dn j) (dn b) φ) = E (dn j) (dn b) (E (up i) (up a) φ) := by
  have := E_comm (K := K) (i := up i) (a := up a) (j := dn j) (b := dn b) (by simp [up, dn]) (by simp [up, dn])
  exact congrArg (fun X => X φ) this

theorem E_dn_up (i a j b : ℕ) (φ : Finset SO → K) :
    E (dn j) (dn b) (E (up i) (up a) φ) = E (up i) (up a) (E (dn j) (dn b) φ) := (E_up_dn i a j b φ).symm

/-- amplitudes restricted to `i < j`, `a < b` -/
def tri (T2 : ℕ → ℕ → ℕ → ℕ → K) (a b i j : ℕ) : K := if i < j ∧ a < b then T2 a b i j else 0

theorem tri_pos (T2 : ℕ → ℕ → ℕ → ℕ → K) {a b i j : ℕ} (h : i < j) (h' : a < b) : tri T2 a b i j = T2 a b i j := if_pos ⟨h, h'⟩
theorem tri_i (T2 : ℕ → ℕ → ℕ → ℕ → K) (a b : ℕ) {i j : ℕ} (h : ¬ i < j) : tri T2 a b i j = 0 := if_neg fun x => h x.1
theorem tri_a (T2 : ℕ → ℕ → ℕ → ℕ → K) {a b : ℕ} (i j : ℕ) (h : ¬ a < b) : tri T2 a b i j = 0 := if_neg fun x => h x.2

/-- The determinants `L` include all excitations of the reference pair up to the given total level. -/
def Full (L : List (Finset SO)) (noa na nob nb order : ℕ) : Prop :=
  ∀ A B k l, Level (Finset.range noa) na A k → Level (Finset.range nob) nb B l → k + l ≤ order → emb A B ∈ L

/-- The determinants `L` include all excitations of the reference up to the given level. -/
def FullG (L : List (Finset ℕ)) (R : Finset ℕ) (n order : ℕ) : Prop := ∀ A k, Level R n A k → k ≤ order → A ∈ L

/-! ### the cluster operators, with each pair once -/

/-- the reference determinant of `noa` alpha and `nob` beta electrons -/
def uref (noa nob : ℕ) : Finset SO := emb (Finset.range noa) (Finset.range nob)

noncomputable section
def oT1a (noa nva : ℕ) (T : ℕ → ℕ → K) : Module.End K (Finset SO → K) :=
  ∑ i ∈ Finset.range noa, ∑ a ∈ Finset.range nva, T a i • E (up i) (up (a + noa))

def oT1b (nob nvb : ℕ) (T : ℕ → ℕ → K) : Module.End K (Finset SO → K) :=
  ∑ i ∈ Finset.range nob, ∑ a ∈ Finset.range nvb, T a i • E (dn i) (dn (a + nob))

def oT2aa (noa nva : ℕ) (T : ℕ → ℕ → ℕ → ℕ → K) : Module.End K (Finset SO → K) :=
  ∑ i ∈ Finset.range noa, ∑ j ∈ Finset.range noa, ∑ a ∈ Finset.range nva, ∑ b ∈ Finset.range nva,
    tri T a b i j • (E (up j) (up (b + noa)) * E (up i) (up (a + noa)))

def oT2bb (nob nvb : ℕ) (T : ℕ → ℕ → ℕ → ℕ → K) : Module.End K (Finset SO → K) :=
  ∑ i ∈ Finset.range nob, ∑ j ∈ Finset.range nob, ∑ a ∈ Finset.range nvb, ∑ b ∈ Finset.range nvb,
    tri T a b i j • (E (dn j) (dn (b + nob)) * E (dn i) (dn (a + nob)))

def oT2ab (noa nva nob nvb : ℕ) (T : ℕ → ℕ → ℕ → ℕ → K) : Module.End K (Finset SO → K) :=
  ∑ i ∈ Finset.range noa, ∑ j ∈ Finset.range nob, ∑ a ∈ Finset.range nva, ∑ b ∈ Finset.range nvb,
    T a b i j • (E (up i) (up (a + noa)) * E (dn j) (dn (b + nob)))

def oT1 (iocc ivir : List ℕ) (T : ℕ → ℕ → K) : Module.End K (Finset ℕ → K) :=
  ∑ i ∈ Finset.range iocc.length, ∑ a ∈ Finset.range ivir.length, T a i • E (iocc.getD i 0) (ivir.getD a 0)

/-- amplitudes restricted to pairs with increasing orbitals -/
def triG (iocc ivir : List ℕ) (T2 : ℕ → ℕ → ℕ → ℕ → K) (a b i j : ℕ) : K :=
  if iocc.getD i 0 < iocc.getD j 0 ∧ ivir.getD a 0 < ivir.getD b 0 then T2 a b i j else 0

def oT2 (iocc ivir : List ℕ) (T : ℕ → ℕ → ℕ → ℕ → K) : Module.End K (Finset ℕ → K) :=
  ∑ i ∈ Finset.range iocc.length, ∑ j ∈ Finset.range iocc.length, ∑ a ∈ Finset.range ivir.length, ∑ b ∈ Finset.range ivir.length,
    triG iocc ivir T a b i j • (E (iocc.getD j 0) (ivir.getD b 0) * E (iocc.getD i 0) (ivir.getD a 0))
end

theorem triG_pos {iocc ivir : List ℕ} (T2 : ℕ → ℕ → ℕ → ℕ → K) {a b i j : ℕ} (h : ¬ iocc.getD j 0 ≤ iocc.getD i 0)
    (h' : ¬ ivir.getD b 0 ≤ ivir.getD a 0) : triG iocc ivir T2 a b i j = T2 a b i j := if_pos ⟨by omega, by omega⟩
theorem triG_i {iocc ivir : List ℕ} (T2 : ℕ → ℕ → ℕ → ℕ → K) (a b : ℕ) {i j : ℕ} (h : iocc.getD j 0 ≤ iocc.getD i 0) :
    triG iocc ivir T2 a b i j = 0 := if_neg fun x => by omega
theorem triG_a {iocc ivir : List ℕ} (T2 : ℕ → ℕ → ℕ → ℕ → K) {a b : ℕ} (i j : ℕ) (h : ivir.getD b 0 ≤ ivir.getD a 0) :
    triG iocc ivir T2 a b i j = 0 := if_neg fun x => by omega

end CI
