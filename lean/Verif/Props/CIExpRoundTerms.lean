import Verif.Model.CIExpRound
/-!
# C101: coefficients from amplitudes in rounded arithmetic, loop by loop

Generated by tools/gen_ciexpfl.py.  A family of runs, one for every rounding, is compared with the exact run.  No branch depends on the amplitudes, so the runs take the
same path; each number is wrong by a constant times the roundoff.
-/
set_option linter.unusedVariables false
noncomputable section
namespace CI.FlExp
variable {ι : Type} {u : ι → ℝ} {η : ℝ} {rd : ι → ℝ → ℝ}

/-- A family of roundings, with their roundoffs. -/
structure Roundings (u : ι → ℝ) (η : ℝ) (rd : ι → ℝ → ℝ) : Prop where
  nonneg : ∀ e, 0 ≤ u e
  le_one : ∀ e, u e ≤ 1
  err : ∀ e x, |rd e x - x| ≤ u e * (|x| + η)

/-- All numbers of the family differ from `y` by at most a constant times the roundoff. -/
def Acc (u : ι → ℝ) (x : ι → ℝ) (y : ℝ) : Prop := ∃ c, 0 ≤ c ∧ ∀ e, |x e - y| ≤ c * u e

theorem Acc.const (y : ℝ) : Acc u (fun _ => y) y := ⟨0, le_rfl, fun e => by simp⟩

theorem Acc.round (H : Roundings u η rd) {x : ι → ℝ} {y : ℝ} (h : Acc u x y) : Acc u (fun e => rd e (x e)) y := by
  obtain ⟨c, c0, h⟩ := h
  refine ⟨|y| + 2 * c + |η|, by positivity, fun e => ?_⟩
  have h1 := H.err e (x e)
  have h2 : |x e| ≤ |y| + c * u e := by
    have := abs_add_le (x e - y) y
    rw [sub_add_cancel] at this
    linarith [h e]
  have h3 : c * u e ≤ c := mul_le_of_le_one_right c0 (H.le_one e)
  have h4 : |rd e (x e) - y| ≤ |rd e (x e) - x e| + |x e - y| := by
    have := abs_add_le (rd e (x e) - x e) (x e - y)
    rwa [sub_add_sub_cancel] at this
  have h5 : u e * (|x e| + η) ≤ u e * (|y| + c + |η|) := mul_le_mul_of_nonneg_left (by linarith [le_abs_self η]) (H.nonneg e)
  calc _ ≤ u e * (|y| + c + |η|) + c * u e := by linarith [h e]
    _ = _ := by ring

theorem Acc.add {x x' : ι → ℝ} {y y' : ℝ} (h : Acc u x y) (h' : Acc u x' y') : Acc u (fun e => x e + x' e) (y + y') := by
  obtain ⟨c, c0, h⟩ := h
  obtain ⟨c', c0', h'⟩ := h'
  refine ⟨c + c', add_nonneg c0 c0', fun e => ?_⟩
  rw [add_sub_add_comm, add_mul]
  exact (abs_add_le _ _).trans (add_le_add (h e) (h' e))

theorem Acc.mul' (H : Roundings u η rd) {x x' : ι → ℝ} {y y' : ℝ} (h : Acc u x y) (h' : Acc u x' y') : Acc u (fun e => x e * x' e) (y * y') := by
  obtain ⟨c, c0, h⟩ := h
  obtain ⟨c', c0', h'⟩ := h'
  refine ⟨c * (|y'| + c') + |y| * c', by positivity, fun e => ?_⟩
  have h2 : |x' e| ≤ |y'| + c' := by
    have := abs_add_le (x' e - y') y'
    rw [sub_add_cancel] at this
    have h3 : c' * u e ≤ c' := mul_le_of_le_one_right c0' (H.le_one e)
    linarith [h' e]
  have e1 : x e * x' e - y * y' = (x e - y) * x' e + y * (x' e - y') := by ring
  rw [e1]
  refine (abs_add_le _ _).trans ?_
  rw [abs_mul, abs_mul]
  calc _ ≤ c * u e * (|y'| + c') + |y| * (c' * u e) :=
        add_le_add (mul_le_mul (h e) h2 (abs_nonneg _) (mul_nonneg c0 (H.nonneg e))) (mul_le_mul_of_nonneg_left (h' e) (abs_nonneg _))
    _ = _ := by ring

theorem Roundings.mul (H : Roundings u η rd) {x x' : ι → ℝ} {y y' : ℝ} (h : Acc u x y) (h' : Acc u x' y') : Acc u (fun e => rd e (x e * x' e)) (y * y') :=
  (h.mul' H h').round H

theorem Roundings.div (H : Roundings u η rd) {x : ι → ℝ} {y : ℝ} (h : Acc u x y) (n : ℝ) : Acc u (fun e => rd e (x e / n)) (y / n) := by
  simp only [div_eq_mul_inv]
  exact H.mul h (.const _)

/-- a table of numbers with two indices -/
def Acc2 (u : ι → ℝ) (T : ι → ℕ → ℕ → ℝ) (S : ℕ → ℕ → ℝ) : Prop := ∀ a i, Acc u (fun e => T e a i) (S a i)
/-- a table of numbers with four indices -/
def Acc4 (u : ι → ℝ) (T : ι → ℕ → ℕ → ℕ → ℕ → ℝ) (S : ℕ → ℕ → ℕ → ℕ → ℝ) : Prop := ∀ a b i j, Acc u (fun e => T e a b i j) (S a b i j)
/-- a vector -/
def AccV (u : ι → ℝ) (C : ι → List ℝ) (L : List ℝ) : Prop := (∀ e, (C e).length = L.length) ∧ ∀ k, Acc u (fun e => (C e).getD k 0) (L.getD k 0)
/-- the result of a computation: the same error for all, or a vector -/
def AccL (u : ι → ℝ) (X : ι → R (List ℝ)) (Y : R (List ℝ)) : Prop :=
  (∃ er, Y = .error er ∧ ∀ e, X e = .error er) ∨ ∃ L C, Y = .ok L ∧ (∀ e, X e = .ok (C e)) ∧ AccV u C L

theorem AccL.ok {C : ι → List ℝ} {L : List ℝ} (h : AccV u C L) : AccL u (fun e => .ok (C e)) (.ok L) := .inr ⟨L, C, rfl, fun _ => rfl, h⟩

theorem AccL.error (er : Err) : AccL u (fun _ => .error er) (.error er) := .inl ⟨er, rfl, fun _ => rfl⟩

theorem step_acc {X : ι → R (List ℝ)} {Y : R (List ℝ)} {f : ι → List ℝ → R (List ℝ)} {g : List ℝ → R (List ℝ)} (h : AccL u X Y)
    (hf : ∀ C L, AccV u C L → AccL u (fun e => f e (C e)) (g L)) : AccL u (fun e => X e >>= f e) (Y >>= g) := by
  rcases h with ⟨er, rfl, h⟩ | ⟨L, C, rfl, h, hC⟩
  · exact .inl ⟨er, rfl, fun e => by simp only [h]; rfl⟩
  · have : (fun e => X e >>= f e) = fun e => f e (C e) := funext fun e => by rw [h]; rfl
    rw [this]
    exact hf C L hC

theorem bind_acc {α : Type} {r : R α} {f : ι → α → R (List ℝ)} {g : α → R (List ℝ)} (h : ∀ x, AccL u (fun e => f e x) (g x)) :
    AccL u (fun e => r.bind (f e)) (r.bind g) := by
  cases r with
  | error e => exact .error e
  | ok x => exact h x

theorem ite_acc {p : Prop} [Decidable p] {X X' : ι → R (List ℝ)} {Y Y' : R (List ℝ)} (h : p → AccL u X Y) (h' : ¬p → AccL u X' Y') :
    AccL u (fun e => if p then X e else X' e) (if p then Y else Y') := by
  by_cases hp : p
  · simp only [hp, if_true]; exact h hp
  · simp only [hp, if_false]; exact h' hp

theorem loop_acc {α : Type} {l : List α} {f : ι → α → List ℝ → R (List ℝ)} {g : α → List ℝ → R (List ℝ)}
    (h : ∀ x C L, AccV u C L → AccL u (fun e => f e x (C e)) (g x L)) {C : ι → List ℝ} {L : List ℝ} (hC : AccV u C L) :
    AccL u (fun e => loop l (f e) (C e)) (loop l g L) := by
  induction l generalizing C L with
  | nil => exact .ok hC
  | cons x l ih => exact step_acc (h x C L hC) fun C L hC => ih hC

theorem addFl_acc (H : Roundings u η rd) {C : ι → List ℝ} {L : List ℝ} (hC : AccV u C L) {idx : ℕ} {x : ι → ℝ} {y : ℝ} (hx : Acc u x y) :
    AccL u (fun e => addFl (rd e) (C e) idx (x e)) (addAt L idx y) := by
  unfold addFl addAt
  by_cases h : idx < L.length
  · rw [if_pos h]
    have : (fun e => if idx < (C e).length then (.ok ((C e).modify idx fun r => rd e (r + x e)) : R (List ℝ)) else .error .index) =
        fun e => .ok ((C e).modify idx fun r => rd e (r + x e)) := funext fun e => by rw [if_pos (by rwa [hC.1 e])]
    rw [this]
    refine .ok ⟨fun e => by simp [hC.1 e], fun k => ?_⟩
    by_cases hk : k < L.length
    · have h1 : ∀ e, k < (C e).length := fun e => by rwa [hC.1 e]
      have hk' := hC.2 k
      simp only [List.getD_eq_getElem?_getD, List.getElem?_modify, List.getElem?_eq_getElem (h1 _), List.getElem?_eq_getElem hk, Option.getD_some] at hk' ⊢
      by_cases e1 : idx = k
      · simp only [e1, if_true]
        exact (hk'.add hx).round H
      · simp only [e1, if_false]
        exact hk'
    · have h1 : ∀ e, (C e).length ≤ k := fun e => by rw [hC.1 e]; omega
      simp only [List.getD_eq_getElem?_getD, List.getElem?_modify, List.getElem?_eq_none (h1 _), List.getElem?_eq_none (not_lt.1 hk)]
      exact .const _
  · rw [if_neg h]
    have : (fun e => if idx < (C e).length then (.ok ((C e).modify idx fun r => rd e (r + x e)) : R (List ℝ)) else .error .index) =
        fun e => .error .index := funext fun e => by rw [if_neg (by rwa [hC.1 e])]
    rw [this]
    exact .error _

theorem tryAddFl_acc (H : Roundings u η rd) {C : ι → List ℝ} {L : List ℝ} (hC : AccV u C L) {idx : R ℕ} {x : ι → ℝ} {y : ℝ} (hx : Acc u x y) :
    AccL u (fun e => tryAddFl (rd e) idx (C e) (x e)) (tryAdd idx L y) := by
  unfold tryAddFl tryAdd
  rcases idx with er | k
  · cases er <;> first | exact .ok hC | exact .error _
  · exact addFl_acc H hC hx

theorem g_T1_acc (H : Roundings u η rd) (basis : List (Option Dstring)) (ref : Dstring) (iocc ivir : List ℕ)
    {T1 : ι → ℕ → ℕ → ℝ} {S1 : ℕ → ℕ → ℝ} (hT1 : Acc2 u T1 S1) {T2 : ι → ℕ → ℕ → ℕ → ℕ → ℝ} {S2 : ℕ → ℕ → ℕ → ℕ → ℝ} (hT2 : Acc4 u T2 S2)
    {C : ι → List ℝ} {L : List ℝ} (hC : AccV u C L) :
    AccL u (fun e => g_T1 (rd e) basis ref iocc ivir (T1 e) (T2 e) (C e)) (CI.g_T1 basis ref iocc ivir S1 S2 L) := by
  unfold g_T1 CI.g_T1
  refine loop_acc (fun x C L hC => ?_) hC
  obtain ⟨_, _⟩ := x
  dsimp only
  refine loop_acc (fun x C L hC => ?_) hC
  obtain ⟨_, _⟩ := x
  dsimp only
  refine bind_acc fun rs => ?_
  rcases rs with _ | ⟨_, _⟩
  · exact .ok hC
  dsimp only
  exact bind_acc fun idx => addFl_acc H hC (H.mul (.const _) (hT1 _ _))

theorem g_T2_acc (H : Roundings u η rd) (basis : List (Option Dstring)) (ref : Dstring) (iocc ivir : List ℕ)
    {T1 : ι → ℕ → ℕ → ℝ} {S1 : ℕ → ℕ → ℝ} (hT1 : Acc2 u T1 S1) {T2 : ι → ℕ → ℕ → ℕ → ℕ → ℝ} {S2 : ℕ → ℕ → ℕ → ℕ → ℝ} (hT2 : Acc4 u T2 S2)
    {C : ι → List ℝ} {L : List ℝ} (hC : AccV u C L) :
    AccL u (fun e => g_T2 (rd e) basis ref iocc ivir (T1 e) (T2 e) (C e)) (CI.g_T2 basis ref iocc ivir S1 S2 L) := by
  unfold g_T2 CI.g_T2
  refine loop_acc (fun x C L hC => ?_) hC
  obtain ⟨_, _⟩ := x
  dsimp only
  refine loop_acc (fun x C L hC => ?_) hC
  obtain ⟨_, _⟩ := x
  dsimp only
  refine ite_acc (fun _ => .ok hC) fun _ => ?_
  refine loop_acc (fun x C L hC => ?_) hC
  obtain ⟨_, _⟩ := x
  dsimp only
  refine loop_acc (fun x C L hC => ?_) hC
  obtain ⟨_, _⟩ := x
  dsimp only
  refine ite_acc (fun _ => .ok hC) fun _ => ?_
  refine bind_acc fun rs1 => ?_
  rcases rs1 with _ | ⟨_, _⟩
  · exact .ok hC
  dsimp only
  refine bind_acc fun rs2 => ?_
  rcases rs2 with _ | ⟨_, _⟩
  · exact .ok hC
  dsimp only
  exact bind_acc fun idx => addFl_acc H hC (H.mul (H.mul (.const _) (.const _)) (hT2 _ _ _ _))

theorem g_T1_T1_acc (H : Roundings u η rd) (basis : List (Option Dstring)) (ref : Dstring) (iocc ivir : List ℕ)
    {T1 : ι → ℕ → ℕ → ℝ} {S1 : ℕ → ℕ → ℝ} (hT1 : Acc2 u T1 S1) {T2 : ι → ℕ → ℕ → ℕ → ℕ → ℝ} {S2 : ℕ → ℕ → ℕ → ℕ → ℝ} (hT2 : Acc4 u T2 S2)
    {C : ι → List ℝ} {L : List ℝ} (hC : AccV u C L) :
    AccL u (fun e => g_T1_T1 (rd e) basis ref iocc ivir (T1 e) (T2 e) (C e)) (CI.g_T1_T1 basis ref iocc ivir S1 S2 L) := by
  unfold g_T1_T1 CI.g_T1_T1
  refine loop_acc (fun x C L hC => ?_) hC
  obtain ⟨_, _⟩ := x
  dsimp only
  refine loop_acc (fun x C L hC => ?_) hC
  obtain ⟨_, _⟩ := x
  dsimp only
  refine loop_acc (fun x C L hC => ?_) hC
  obtain ⟨_, _⟩ := x
  dsimp only
  refine loop_acc (fun x C L hC => ?_) hC
  obtain ⟨_, _⟩ := x
  dsimp only
  refine bind_acc fun rs1 => ?_
  rcases rs1 with _ | ⟨_, _⟩
  · exact .ok hC
  dsimp only
  refine bind_acc fun rs2 => ?_
  rcases rs2 with _ | ⟨_, _⟩
  · exact .ok hC
  dsimp only
  exact bind_acc fun idx => addFl_acc H hC (H.mul (H.mul (H.mul (H.mul (.const _) (.const _)) (.const _)) (hT1 _ _)) (hT1 _ _))

theorem g_T1_T2_acc (H : Roundings u η rd) (basis : List (Option Dstring)) (ref : Dstring) (iocc ivir : List ℕ)
    {T1 : ι → ℕ → ℕ → ℝ} {S1 : ℕ → ℕ → ℝ} (hT1 : Acc2 u T1 S1) {T2 : ι → ℕ → ℕ → ℕ → ℕ → ℝ} {S2 : ℕ → ℕ → ℕ → ℕ → ℝ} (hT2 : Acc4 u T2 S2)
    {C : ι → List ℝ} {L : List ℝ} (hC : AccV u C L) :
    AccL u (fun e => g_T1_T2 (rd e) basis ref iocc ivir (T1 e) (T2 e) (C e)) (CI.g_T1_T2 basis ref iocc ivir S1 S2 L) := by
  unfold g_T1_T2 CI.g_T1_T2
  refine loop_acc (fun x C L hC => ?_) hC
  obtain ⟨_, _⟩ := x
  dsimp only
  refine loop_acc (fun x C L hC => ?_) hC
  obtain ⟨_, _⟩ := x
  dsimp only
  refine loop_acc (fun x C L hC => ?_) hC
  obtain ⟨_, _⟩ := x
  dsimp only
  refine ite_acc (fun _ => .ok hC) fun _ => ?_
  refine loop_acc (fun x C L hC => ?_) hC
  obtain ⟨_, _⟩ := x
  dsimp only
  refine loop_acc (fun x C L hC => ?_) hC
  obtain ⟨_, _⟩ := x
  dsimp only
  refine loop_acc (fun x C L hC => ?_) hC
  obtain ⟨_, _⟩ := x
  dsimp only
  refine ite_acc (fun _ => .ok hC) fun _ => ?_
  refine bind_acc fun rs1 => ?_
  rcases rs1 with _ | ⟨_, _⟩
  · exact .ok hC
  dsimp only
  refine bind_acc fun rs2 => ?_
  rcases rs2 with _ | ⟨_, _⟩
  · exact .ok hC
  dsimp only
  refine bind_acc fun rs3 => ?_
  rcases rs3 with _ | ⟨_, _⟩
  · exact .ok hC
  dsimp only
  exact bind_acc fun idx => addFl_acc H hC (H.mul (H.mul (H.mul (H.mul (.const _) (.const _)) (.const _)) (hT1 _ _)) (hT2 _ _ _ _))

theorem g_T1_T1_T1_acc (H : Roundings u η rd) (basis : List (Option Dstring)) (ref : Dstring) (iocc ivir : List ℕ)
    {T1 : ι → ℕ → ℕ → ℝ} {S1 : ℕ → ℕ → ℝ} (hT1 : Acc2 u T1 S1) {T2 : ι → ℕ → ℕ → ℕ → ℕ → ℝ} {S2 : ℕ → ℕ → ℕ → ℕ → ℝ} (hT2 : Acc4 u T2 S2)
    {C : ι → List ℝ} {L : List ℝ} (hC : AccV u C L) :
    AccL u (fun e => g_T1_T1_T1 (rd e) basis ref iocc ivir (T1 e) (T2 e) (C e)) (CI.g_T1_T1_T1 basis ref iocc ivir S1 S2 L) := by
  unfold g_T1_T1_T1 CI.g_T1_T1_T1
  refine loop_acc (fun x C L hC => ?_) hC
  obtain ⟨_, _⟩ := x
  dsimp only
  refine loop_acc (fun x C L hC => ?_) hC
  obtain ⟨_, _⟩ := x
  dsimp only
  refine loop_acc (fun x C L hC => ?_) hC
  obtain ⟨_, _⟩ := x
  dsimp only
  refine loop_acc (fun x C L hC => ?_) hC
  obtain ⟨_, _⟩ := x
  dsimp only
  refine loop_acc (fun x C L hC => ?_) hC
  obtain ⟨_, _⟩ := x
  dsimp only
  refine loop_acc (fun x C L hC => ?_) hC
  obtain ⟨_, _⟩ := x
  dsimp only
  refine bind_acc fun rs1 => ?_
  rcases rs1 with _ | ⟨_, _⟩
  · exact .ok hC
  dsimp only
  refine bind_acc fun rs2 => ?_
  rcases rs2 with _ | ⟨_, _⟩
  · exact .ok hC
  dsimp only
  refine bind_acc fun rs3 => ?_
  rcases rs3 with _ | ⟨_, _⟩
  · exact .ok hC
  dsimp only
  exact bind_acc fun idx => addFl_acc H hC (H.div (H.mul (H.mul (H.mul (H.mul (H.mul (.const _) (.const _)) (.const _)) (hT1 _ _)) (hT1 _ _)) (hT1 _ _)) _)

theorem g_T2_T2_acc (H : Roundings u η rd) (basis : List (Option Dstring)) (ref : Dstring) (iocc ivir : List ℕ)
    {T1 : ι → ℕ → ℕ → ℝ} {S1 : ℕ → ℕ → ℝ} (hT1 : Acc2 u T1 S1) {T2 : ι → ℕ → ℕ → ℕ → ℕ → ℝ} {S2 : ℕ → ℕ → ℕ → ℕ → ℝ} (hT2 : Acc4 u T2 S2)
    {C : ι → List ℝ} {L : List ℝ} (hC : AccV u C L) :
    AccL u (fun e => g_T2_T2 (rd e) basis ref iocc ivir (T1 e) (T2 e) (C e)) (CI.g_T2_T2 basis ref iocc ivir S1 S2 L) := by
  unfold g_T2_T2 CI.g_T2_T2
  refine loop_acc (fun x C L hC => ?_) hC
  obtain ⟨_, _⟩ := x
  dsimp only
  refine loop_acc (fun x C L hC => ?_) hC
  obtain ⟨_, _⟩ := x
  dsimp only
  refine ite_acc (fun _ => .ok hC) fun _ => ?_
  refine loop_acc (fun x C L hC => ?_) hC
  obtain ⟨_, _⟩ := x
  dsimp only
  refine loop_acc (fun x C L hC => ?_) hC
  obtain ⟨_, _⟩ := x
  dsimp only
  refine ite_acc (fun _ => .ok hC) fun _ => ?_
  refine loop_acc (fun x C L hC => ?_) hC
  obtain ⟨_, _⟩ := x
  dsimp only
  refine loop_acc (fun x C L hC => ?_) hC
  obtain ⟨_, _⟩ := x
  dsimp only
  refine ite_acc (fun _ => .ok hC) fun _ => ?_
  refine loop_acc (fun x C L hC => ?_) hC
  obtain ⟨_, _⟩ := x
  dsimp only
  refine loop_acc (fun x C L hC => ?_) hC
  obtain ⟨_, _⟩ := x
  dsimp only
  refine ite_acc (fun _ => .ok hC) fun _ => ?_
  refine bind_acc fun rs1 => ?_
  rcases rs1 with _ | ⟨_, _⟩
  · exact .ok hC
  dsimp only
  refine bind_acc fun rs2 => ?_
  rcases rs2 with _ | ⟨_, _⟩
  · exact .ok hC
  dsimp only
  refine bind_acc fun rs3 => ?_
  rcases rs3 with _ | ⟨_, _⟩
  · exact .ok hC
  dsimp only
  refine bind_acc fun rs4 => ?_
  rcases rs4 with _ | ⟨_, _⟩
  · exact .ok hC
  dsimp only
  exact bind_acc fun idx => addFl_acc H hC (H.div (H.mul (H.mul (H.mul (H.mul (H.mul (.const _) (.const _)) (.const _)) (.const _)) (hT2 _ _ _ _)) (hT2 _ _ _ _)) _)

theorem g_T1_T1_T2_acc (H : Roundings u η rd) (basis : List (Option Dstring)) (ref : Dstring) (iocc ivir : List ℕ)
    {T1 : ι → ℕ → ℕ → ℝ} {S1 : ℕ → ℕ → ℝ} (hT1 : Acc2 u T1 S1) {T2 : ι → ℕ → ℕ → ℕ → ℕ → ℝ} {S2 : ℕ → ℕ → ℕ → ℕ → ℝ} (hT2 : Acc4 u T2 S2)
    {C : ι → List ℝ} {L : List ℝ} (hC : AccV u C L) :
    AccL u (fun e => g_T1_T1_T2 (rd e) basis ref iocc ivir (T1 e) (T2 e) (C e)) (CI.g_T1_T1_T2 basis ref iocc ivir S1 S2 L) := by
  unfold g_T1_T1_T2 CI.g_T1_T1_T2
  refine loop_acc (fun x C L hC => ?_) hC
  obtain ⟨_, _⟩ := x
  dsimp only
  refine loop_acc (fun x C L hC => ?_) hC
  obtain ⟨_, _⟩ := x
  dsimp only
  refine loop_acc (fun x C L hC => ?_) hC
  obtain ⟨_, _⟩ := x
  dsimp only
  refine loop_acc (fun x C L hC => ?_) hC
  obtain ⟨_, _⟩ := x
  dsimp only
  refine ite_acc (fun _ => .ok hC) fun _ => ?_
  refine loop_acc (fun x C L hC => ?_) hC
  obtain ⟨_, _⟩ := x
  dsimp only
  refine loop_acc (fun x C L hC => ?_) hC
  obtain ⟨_, _⟩ := x
  dsimp only
  refine loop_acc (fun x C L hC => ?_) hC
  obtain ⟨_, _⟩ := x
  dsimp only
  refine loop_acc (fun x C L hC => ?_) hC
  obtain ⟨_, _⟩ := x
  dsimp only
  refine ite_acc (fun _ => .ok hC) fun _ => ?_
  refine bind_acc fun rs1 => ?_
  rcases rs1 with _ | ⟨_, _⟩
  · exact .ok hC
  dsimp only
  refine bind_acc fun rs2 => ?_
  rcases rs2 with _ | ⟨_, _⟩
  · exact .ok hC
  dsimp only
  refine bind_acc fun rs3 => ?_
  rcases rs3 with _ | ⟨_, _⟩
  · exact .ok hC
  dsimp only
  refine bind_acc fun rs4 => ?_
  rcases rs4 with _ | ⟨_, _⟩
  · exact .ok hC
  dsimp only
  exact bind_acc fun idx => addFl_acc H hC (H.div (H.mul (H.mul (H.mul (H.mul (H.mul (H.mul (.const _) (.const _)) (.const _)) (.const _)) (hT1 _ _)) (hT1 _ _)) (hT2 _ _ _ _)) _)

theorem g_T1_T1_T1_T1_acc (H : Roundings u η rd) (basis : List (Option Dstring)) (ref : Dstring) (iocc ivir : List ℕ)
    {T1 : ι → ℕ → ℕ → ℝ} {S1 : ℕ → ℕ → ℝ} (hT1 : Acc2 u T1 S1) {T2 : ι → ℕ → ℕ → ℕ → ℕ → ℝ} {S2 : ℕ → ℕ → ℕ → ℕ → ℝ} (hT2 : Acc4 u T2 S2)
    {C : ι → List ℝ} {L : List ℝ} (hC : AccV u C L) :
    AccL u (fun e => g_T1_T1_T1_T1 (rd e) basis ref iocc ivir (T1 e) (T2 e) (C e)) (CI.g_T1_T1_T1_T1 basis ref iocc ivir S1 S2 L) := by
  unfold g_T1_T1_T1_T1 CI.g_T1_T1_T1_T1
  refine loop_acc (fun x C L hC => ?_) hC
  obtain ⟨_, _⟩ := x
  dsimp only
  refine loop_acc (fun x C L hC => ?_) hC
  obtain ⟨_, _⟩ := x
  dsimp only
  refine loop_acc (fun x C L hC => ?_) hC
  obtain ⟨_, _⟩ := x
  dsimp only
  refine loop_acc (fun x C L hC => ?_) hC
  obtain ⟨_, _⟩ := x
  dsimp only
  refine loop_acc (fun x C L hC => ?_) hC
  obtain ⟨_, _⟩ := x
  dsimp only
  refine loop_acc (fun x C L hC => ?_) hC
  obtain ⟨_, _⟩ := x
  dsimp only
  refine loop_acc (fun x C L hC => ?_) hC
  obtain ⟨_, _⟩ := x
  dsimp only
  refine loop_acc (fun x C L hC => ?_) hC
  obtain ⟨_, _⟩ := x
  dsimp only
  refine bind_acc fun rs1 => ?_
  rcases rs1 with _ | ⟨_, _⟩
  · exact .ok hC
  dsimp only
  refine bind_acc fun rs2 => ?_
  rcases rs2 with _ | ⟨_, _⟩
  · exact .ok hC
  dsimp only
  refine bind_acc fun rs3 => ?_
  rcases rs3 with _ | ⟨_, _⟩
  · exact .ok hC
  dsimp only
  refine bind_acc fun rs4 => ?_
  rcases rs4 with _ | ⟨_, _⟩
  · exact .ok hC
  dsimp only
  exact bind_acc fun idx => addFl_acc H hC (H.div (H.mul (H.mul (H.mul (H.mul (H.mul (H.mul (H.mul (.const _) (.const _)) (.const _)) (.const _)) (hT1 _ _)) (hT1 _ _)) (hT1 _ _)) (hT1 _ _)) _)

theorem u_T1a_acc (H : Roundings u η rd) (basis : List Pair) (refa refb : Dstring) (noa nva nob nvb : ℕ)
    {T1a : ι → ℕ → ℕ → ℝ} {S1a : ℕ → ℕ → ℝ} (hT1a : Acc2 u T1a S1a) {T1b : ι → ℕ → ℕ → ℝ} {S1b : ℕ → ℕ → ℝ} (hT1b : Acc2 u T1b S1b) {T2aa : ι → ℕ → ℕ → ℕ → ℕ → ℝ} {S2aa : ℕ → ℕ → ℕ → ℕ → ℝ} (hT2aa : Acc4 u T2aa S2aa) {T2ab : ι → ℕ → ℕ → ℕ → ℕ → ℝ} {S2ab : ℕ → ℕ → ℕ → ℕ → ℝ} (hT2ab : Acc4 u T2ab S2ab) {T2bb : ι → ℕ → ℕ → ℕ → ℕ → ℝ} {S2bb : ℕ → ℕ → ℕ → ℕ → ℝ} (hT2bb : Acc4 u T2bb S2bb)
    {C : ι → List ℝ} {L : List ℝ} (hC : AccV u C L) :
    AccL u (fun e => u_T1a (rd e) basis refa refb noa nva nob nvb (T1a e) (T1b e) (T2aa e) (T2ab e) (T2bb e) (C e)) (CI.u_T1a basis refa refb noa nva nob nvb S1a S1b S2aa S2ab S2bb L) := by
  unfold u_T1a CI.u_T1a
  refine loop_acc (fun x C L hC => ?_) hC
  refine loop_acc (fun x C L hC => ?_) hC
  refine bind_acc fun rs => ?_
  rcases rs with _ | ⟨_, _⟩
  · exact .ok hC
  dsimp only
  exact bind_acc fun idx => addFl_acc H hC (H.mul (.const _) (hT1a _ _))

theorem u_T1b_acc (H : Roundings u η rd) (basis : List Pair) (refa refb : Dstring) (noa nva nob nvb : ℕ)
    {T1a : ι → ℕ → ℕ → ℝ} {S1a : ℕ → ℕ → ℝ} (hT1a : Acc2 u T1a S1a) {T1b : ι → ℕ → ℕ → ℝ} {S1b : ℕ → ℕ → ℝ} (hT1b : Acc2 u T1b S1b) {T2aa : ι → ℕ → ℕ → ℕ → ℕ → ℝ} {S2aa : ℕ → ℕ → ℕ → ℕ → ℝ} (hT2aa : Acc4 u T2aa S2aa) {T2ab : ι → ℕ → ℕ → ℕ → ℕ → ℝ} {S2ab : ℕ → ℕ → ℕ → ℕ → ℝ} (hT2ab : Acc4 u T2ab S2ab) {T2bb : ι → ℕ → ℕ → ℕ → ℕ → ℝ} {S2bb : ℕ → ℕ → ℕ → ℕ → ℝ} (hT2bb : Acc4 u T2bb S2bb)
    {C : ι → List ℝ} {L : List ℝ} (hC : AccV u C L) :
    AccL u (fun e => u_T1b (rd e) basis refa refb noa nva nob nvb (T1a e) (T1b e) (T2aa e) (T2ab e) (T2bb e) (C e)) (CI.u_T1b basis refa refb noa nva nob nvb S1a S1b S2aa S2ab S2bb L) := by
  unfold u_T1b CI.u_T1b
  refine loop_acc (fun x C L hC => ?_) hC
  refine loop_acc (fun x C L hC => ?_) hC
  refine bind_acc fun rs => ?_
  rcases rs with _ | ⟨_, _⟩
  · exact .ok hC
  dsimp only
  exact bind_acc fun idx => addFl_acc H hC (H.mul (.const _) (hT1b _ _))

theorem u_T2aa_acc (H : Roundings u η rd) (basis : List Pair) (refa refb : Dstring) (noa nva nob nvb : ℕ)
    {T1a : ι → ℕ → ℕ → ℝ} {S1a : ℕ → ℕ → ℝ} (hT1a : Acc2 u T1a S1a) {T1b : ι → ℕ → ℕ → ℝ} {S1b : ℕ → ℕ → ℝ} (hT1b : Acc2 u T1b S1b) {T2aa : ι → ℕ → ℕ → ℕ → ℕ → ℝ} {S2aa : ℕ → ℕ → ℕ → ℕ → ℝ} (hT2aa : Acc4 u T2aa S2aa) {T2ab : ι → ℕ → ℕ → ℕ → ℕ → ℝ} {S2ab : ℕ → ℕ → ℕ → ℕ → ℝ} (hT2ab : Acc4 u T2ab S2ab) {T2bb : ι → ℕ → ℕ → ℕ → ℕ → ℝ} {S2bb : ℕ → ℕ → ℕ → ℕ → ℝ} (hT2bb : Acc4 u T2bb S2bb)
    {C : ι → List ℝ} {L : List ℝ} (hC : AccV u C L) :
    AccL u (fun e => u_T2aa (rd e) basis refa refb noa nva nob nvb (T1a e) (T1b e) (T2aa e) (T2ab e) (T2bb e) (C e)) (CI.u_T2aa basis refa refb noa nva nob nvb S1a S1b S2aa S2ab S2bb L) := by
  unfold u_T2aa CI.u_T2aa
  refine loop_acc (fun x C L hC => ?_) hC
  refine loop_acc (fun x C L hC => ?_) hC
  refine loop_acc (fun x C L hC => ?_) hC
  refine loop_acc (fun x C L hC => ?_) hC
  refine bind_acc fun rs1 => ?_
  rcases rs1 with _ | ⟨_, _⟩
  · exact .ok hC
  dsimp only
  refine bind_acc fun rs2 => ?_
  rcases rs2 with _ | ⟨_, _⟩
  · exact .ok hC
  dsimp only
  exact bind_acc fun idx => addFl_acc H hC (H.mul (H.mul (.const _) (.const _)) (hT2aa _ _ _ _))

theorem u_T2bb_acc (H : Roundings u η rd) (basis : List Pair) (refa refb : Dstring) (noa nva nob nvb : ℕ)
    {T1a : ι → ℕ → ℕ → ℝ} {S1a : ℕ → ℕ → ℝ} (hT1a : Acc2 u T1a S1a) {T1b : ι → ℕ → ℕ → ℝ} {S1b : ℕ → ℕ → ℝ} (hT1b : Acc2 u T1b S1b) {T2aa : ι → ℕ → ℕ → ℕ → ℕ → ℝ} {S2aa : ℕ → ℕ → ℕ → ℕ → ℝ} (hT2aa : Acc4 u T2aa S2aa) {T2ab : ι → ℕ → ℕ → ℕ → ℕ → ℝ} {S2ab : ℕ → ℕ → ℕ → ℕ → ℝ} (hT2ab : Acc4 u T2ab S2ab) {T2bb : ι → ℕ → ℕ → ℕ → ℕ → ℝ} {S2bb : ℕ → ℕ → ℕ → ℕ → ℝ} (hT2bb : Acc4 u T2bb S2bb)
    {C : ι → List ℝ} {L : List ℝ} (hC : AccV u C L) :
    AccL u (fun e => u_T2bb (rd e) basis refa refb noa nva nob nvb (T1a e) (T1b e) (T2aa e) (T2ab e) (T2bb e) (C e)) (CI.u_T2bb basis refa refb noa nva nob nvb S1a S1b S2aa S2ab S2bb L) := by
  unfold u_T2bb CI.u_T2bb
  refine loop_acc (fun x C L hC => ?_) hC
  refine loop_acc (fun x C L hC => ?_) hC
  refine loop_acc (fun x C L hC => ?_) hC
  refine loop_acc (fun x C L hC => ?_) hC
  refine bind_acc fun rs1 => ?_
  rcases rs1 with _ | ⟨_, _⟩
  · exact .ok hC
  dsimp only
  refine bind_acc fun rs2 => ?_
  rcases rs2 with _ | ⟨_, _⟩
  · exact .ok hC
  dsimp only
  exact bind_acc fun idx => addFl_acc H hC (H.mul (H.mul (.const _) (.const _)) (hT2bb _ _ _ _))

theorem u_T2ab_acc (H : Roundings u η rd) (basis : List Pair) (refa refb : Dstring) (noa nva nob nvb : ℕ)
    {T1a : ι → ℕ → ℕ → ℝ} {S1a : ℕ → ℕ → ℝ} (hT1a : Acc2 u T1a S1a) {T1b : ι → ℕ → ℕ → ℝ} {S1b : ℕ → ℕ → ℝ} (hT1b : Acc2 u T1b S1b) {T2aa : ι → ℕ → ℕ → ℕ → ℕ → ℝ} {S2aa : ℕ → ℕ → ℕ → ℕ → ℝ} (hT2aa : Acc4 u T2aa S2aa) {T2ab : ι → ℕ → ℕ → ℕ → ℕ → ℝ} {S2ab : ℕ → ℕ → ℕ → ℕ → ℝ} (hT2ab : Acc4 u T2ab S2ab) {T2bb : ι → ℕ → ℕ → ℕ → ℕ → ℝ} {S2bb : ℕ → ℕ → ℕ → ℕ → ℝ} (hT2bb : Acc4 u T2bb S2bb)
    {C : ι → List ℝ} {L : List ℝ} (hC : AccV u C L) :
    AccL u (fun e => u_T2ab (rd e) basis refa refb noa nva nob nvb (T1a e) (T1b e) (T2aa e) (T2ab e) (T2bb e) (C e)) (CI.u_T2ab basis refa refb noa nva nob nvb S1a S1b S2aa S2ab S2bb L) := by
  unfold u_T2ab CI.u_T2ab
  refine loop_acc (fun x C L hC => ?_) hC
  refine loop_acc (fun x C L hC => ?_) hC
  refine loop_acc (fun x C L hC => ?_) hC
  refine loop_acc (fun x C L hC => ?_) hC
  refine bind_acc fun rsa => ?_
  refine bind_acc fun rsb => ?_
  rcases rsa with _ | ⟨_, _⟩
  · exact .ok hC
  dsimp only
  rcases rsb with _ | ⟨_, _⟩
  · exact .ok hC
  dsimp only
  exact bind_acc fun idx => addFl_acc H hC (H.mul (H.mul (.const _) (.const _)) (hT2ab _ _ _ _))

theorem u_T1a_T1a_acc (H : Roundings u η rd) (basis : List Pair) (refa refb : Dstring) (noa nva nob nvb : ℕ)
    {T1a : ι → ℕ → ℕ → ℝ} {S1a : ℕ → ℕ → ℝ} (hT1a : Acc2 u T1a S1a) {T1b : ι → ℕ → ℕ → ℝ} {S1b : ℕ → ℕ → ℝ} (hT1b : Acc2 u T1b S1b) {T2aa : ι → ℕ → ℕ → ℕ → ℕ → ℝ} {S2aa : ℕ → ℕ → ℕ → ℕ → ℝ} (hT2aa : Acc4 u T2aa S2aa) {T2ab : ι → ℕ → ℕ → ℕ → ℕ → ℝ} {S2ab : ℕ → ℕ → ℕ → ℕ → ℝ} (hT2ab : Acc4 u T2ab S2ab) {T2bb : ι → ℕ → ℕ → ℕ → ℕ → ℝ} {S2bb : ℕ → ℕ → ℕ → ℕ → ℝ} (hT2bb : Acc4 u T2bb S2bb)
    {C : ι → List ℝ} {L : List ℝ} (hC : AccV u C L) :
    AccL u (fun e => u_T1a_T1a (rd e) basis refa refb noa nva nob nvb (T1a e) (T1b e) (T2aa e) (T2ab e) (T2bb e) (C e)) (CI.u_T1a_T1a basis refa refb noa nva nob nvb S1a S1b S2aa S2ab S2bb L) := by
  unfold u_T1a_T1a CI.u_T1a_T1a
  refine loop_acc (fun x C L hC => ?_) hC
  refine loop_acc (fun x C L hC => ?_) hC
  refine loop_acc (fun x C L hC => ?_) hC
  refine loop_acc (fun x C L hC => ?_) hC
  refine bind_acc fun rs1 => ?_
  rcases rs1 with _ | ⟨_, _⟩
  · exact .ok hC
  dsimp only
  refine bind_acc fun rs2 => ?_
  rcases rs2 with _ | ⟨_, _⟩
  · exact .ok hC
  dsimp only
  exact bind_acc fun idx => addFl_acc H hC (H.mul (H.mul (H.mul (H.mul (.const _) (.const _)) (.const _)) (hT1a _ _)) (hT1a _ _))

theorem u_T1b_T1b_acc (H : Roundings u η rd) (basis : List Pair) (refa refb : Dstring) (noa nva nob nvb : ℕ)
    {T1a : ι → ℕ → ℕ → ℝ} {S1a : ℕ → ℕ → ℝ} (hT1a : Acc2 u T1a S1a) {T1b : ι → ℕ → ℕ → ℝ} {S1b : ℕ → ℕ → ℝ} (hT1b : Acc2 u T1b S1b) {T2aa : ι → ℕ → ℕ → ℕ → ℕ → ℝ} {S2aa : ℕ → ℕ → ℕ → ℕ → ℝ} (hT2aa : Acc4 u T2aa S2aa) {T2ab : ι → ℕ → ℕ → ℕ → ℕ → ℝ} {S2ab : ℕ → ℕ → ℕ → ℕ → ℝ} (hT2ab : Acc4 u T2ab S2ab) {T2bb : ι → ℕ → ℕ → ℕ → ℕ → ℝ} {S2bb : ℕ → ℕ → ℕ → ℕ → ℝ} (hT2bb : Acc4 u T2bb S2bb)
    {C : ι → List ℝ} {L : List ℝ} (hC : AccV u C L) :
    AccL u (fun e => u_T1b_T1b (rd e) basis refa refb noa nva nob nvb (T1a e) (T1b e) (T2aa e) (T2ab e) (T2bb e) (C e)) (CI.u_T1b_T1b basis refa refb noa nva nob nvb S1a S1b S2aa S2ab S2bb L) := by
  unfold u_T1b_T1b CI.u_T1b_T1b
  refine loop_acc (fun x C L hC => ?_) hC
  refine loop_acc (fun x C L hC => ?_) hC
  refine loop_acc (fun x C L hC => ?_) hC
  refine loop_acc (fun x C L hC => ?_) hC
  refine bind_acc fun rs1 => ?_
  rcases rs1 with _ | ⟨_, _⟩
  · exact .ok hC
  dsimp only
  refine bind_acc fun rs2 => ?_
  rcases rs2 with _ | ⟨_, _⟩
  · exact .ok hC
  dsimp only
  exact bind_acc fun idx => addFl_acc H hC (H.mul (H.mul (H.mul (H.mul (.const _) (.const _)) (.const _)) (hT1b _ _)) (hT1b _ _))

theorem u_T1a_T1b_acc (H : Roundings u η rd) (basis : List Pair) (refa refb : Dstring) (noa nva nob nvb : ℕ)
    {T1a : ι → ℕ → ℕ → ℝ} {S1a : ℕ → ℕ → ℝ} (hT1a : Acc2 u T1a S1a) {T1b : ι → ℕ → ℕ → ℝ} {S1b : ℕ → ℕ → ℝ} (hT1b : Acc2 u T1b S1b) {T2aa : ι → ℕ → ℕ → ℕ → ℕ → ℝ} {S2aa : ℕ → ℕ → ℕ → ℕ → ℝ} (hT2aa : Acc4 u T2aa S2aa) {T2ab : ι → ℕ → ℕ → ℕ → ℕ → ℝ} {S2ab : ℕ → ℕ → ℕ → ℕ → ℝ} (hT2ab : Acc4 u T2ab S2ab) {T2bb : ι → ℕ → ℕ → ℕ → ℕ → ℝ} {S2bb : ℕ → ℕ → ℕ → ℕ → ℝ} (hT2bb : Acc4 u T2bb S2bb)
    {C : ι → List ℝ} {L : List ℝ} (hC : AccV u C L) :
    AccL u (fun e => u_T1a_T1b (rd e) basis refa refb noa nva nob nvb (T1a e) (T1b e) (T2aa e) (T2ab e) (T2bb e) (C e)) (CI.u_T1a_T1b basis refa refb noa nva nob nvb S1a S1b S2aa S2ab S2bb L) := by
  unfold u_T1a_T1b CI.u_T1a_T1b
  refine loop_acc (fun x C L hC => ?_) hC
  refine loop_acc (fun x C L hC => ?_) hC
  refine loop_acc (fun x C L hC => ?_) hC
  refine loop_acc (fun x C L hC => ?_) hC
  refine bind_acc fun rsa => ?_
  refine bind_acc fun rsb => ?_
  rcases rsa with _ | ⟨_, _⟩
  · exact .ok hC
  dsimp only
  rcases rsb with _ | ⟨_, _⟩
  · exact .ok hC
  dsimp only
  exact bind_acc fun idx => addFl_acc H hC (H.mul (H.mul (H.mul (.const _) (.const _)) (hT1a _ _)) (hT1b _ _))

theorem u_T1a_T2aa_acc (H : Roundings u η rd) (basis : List Pair) (refa refb : Dstring) (noa nva nob nvb : ℕ)
    {T1a : ι → ℕ → ℕ → ℝ} {S1a : ℕ → ℕ → ℝ} (hT1a : Acc2 u T1a S1a) {T1b : ι → ℕ → ℕ → ℝ} {S1b : ℕ → ℕ → ℝ} (hT1b : Acc2 u T1b S1b) {T2aa : ι → ℕ → ℕ → ℕ → ℕ → ℝ} {S2aa : ℕ → ℕ → ℕ → ℕ → ℝ} (hT2aa : Acc4 u T2aa S2aa) {T2ab : ι → ℕ → ℕ → ℕ → ℕ → ℝ} {S2ab : ℕ → ℕ → ℕ → ℕ → ℝ} (hT2ab : Acc4 u T2ab S2ab) {T2bb : ι → ℕ → ℕ → ℕ → ℕ → ℝ} {S2bb : ℕ → ℕ → ℕ → ℕ → ℝ} (hT2bb : Acc4 u T2bb S2bb)
    {C : ι → List ℝ} {L : List ℝ} (hC : AccV u C L) :
    AccL u (fun e => u_T1a_T2aa (rd e) basis refa refb noa nva nob nvb (T1a e) (T1b e) (T2aa e) (T2ab e) (T2bb e) (C e)) (CI.u_T1a_T2aa basis refa refb noa nva nob nvb S1a S1b S2aa S2ab S2bb L) := by
  unfold u_T1a_T2aa CI.u_T1a_T2aa
  refine loop_acc (fun x C L hC => ?_) hC
  refine loop_acc (fun x C L hC => ?_) hC
  refine loop_acc (fun x C L hC => ?_) hC
  refine loop_acc (fun x C L hC => ?_) hC
  refine loop_acc (fun x C L hC => ?_) hC
  refine loop_acc (fun x C L hC => ?_) hC
  refine bind_acc fun rs1 => ?_
  rcases rs1 with _ | ⟨_, _⟩
  · exact .ok hC
  dsimp only
  refine bind_acc fun rs2 => ?_
  rcases rs2 with _ | ⟨_, _⟩
  · exact .ok hC
  dsimp only
  refine bind_acc fun rs3 => ?_
  rcases rs3 with _ | ⟨_, _⟩
  · exact .ok hC
  dsimp only
  exact bind_acc fun idx => addFl_acc H hC (H.mul (H.mul (H.mul (H.mul (.const _) (.const _)) (.const _)) (hT1a _ _)) (hT2aa _ _ _ _))

theorem u_T1a_T2ab_acc (H : Roundings u η rd) (basis : List Pair) (refa refb : Dstring) (noa nva nob nvb : ℕ)
    {T1a : ι → ℕ → ℕ → ℝ} {S1a : ℕ → ℕ → ℝ} (hT1a : Acc2 u T1a S1a) {T1b : ι → ℕ → ℕ → ℝ} {S1b : ℕ → ℕ → ℝ} (hT1b : Acc2 u T1b S1b) {T2aa : ι → ℕ → ℕ → ℕ → ℕ → ℝ} {S2aa : ℕ → ℕ → ℕ → ℕ → ℝ} (hT2aa : Acc4 u T2aa S2aa) {T2ab : ι → ℕ → ℕ → ℕ → ℕ → ℝ} {S2ab : ℕ → ℕ → ℕ → ℕ → ℝ} (hT2ab : Acc4 u T2ab S2ab) {T2bb : ι → ℕ → ℕ → ℕ → ℕ → ℝ} {S2bb : ℕ → ℕ → ℕ → ℕ → ℝ} (hT2bb : Acc4 u T2bb S2bb)
    {C : ι → List ℝ} {L : List ℝ} (hC : AccV u C L) :
    AccL u (fun e => u_T1a_T2ab (rd e) basis refa refb noa nva nob nvb (T1a e) (T1b e) (T2aa e) (T2ab e) (T2bb e) (C e)) (CI.u_T1a_T2ab basis refa refb noa nva nob nvb S1a S1b S2aa S2ab S2bb L) := by
  unfold u_T1a_T2ab CI.u_T1a_T2ab
  refine loop_acc (fun x C L hC => ?_) hC
  refine loop_acc (fun x C L hC => ?_) hC
  refine loop_acc (fun x C L hC => ?_) hC
  refine loop_acc (fun x C L hC => ?_) hC
  refine loop_acc (fun x C L hC => ?_) hC
  refine loop_acc (fun x C L hC => ?_) hC
  refine bind_acc fun rs1a => ?_
  rcases rs1a with _ | ⟨_, _⟩
  · exact .ok hC
  dsimp only
  refine bind_acc fun rs2a => ?_
  refine bind_acc fun rsb => ?_
  rcases rs2a with _ | ⟨_, _⟩
  · exact .ok hC
  dsimp only
  rcases rsb with _ | ⟨_, _⟩
  · exact .ok hC
  dsimp only
  exact bind_acc fun idx => addFl_acc H hC (H.mul (H.mul (H.mul (H.mul (.const _) (.const _)) (.const _)) (hT1a _ _)) (hT2ab _ _ _ _))

theorem u_T1b_T2aa_acc (H : Roundings u η rd) (basis : List Pair) (refa refb : Dstring) (noa nva nob nvb : ℕ)
    {T1a : ι → ℕ → ℕ → ℝ} {S1a : ℕ → ℕ → ℝ} (hT1a : Acc2 u T1a S1a) {T1b : ι → ℕ → ℕ → ℝ} {S1b : ℕ → ℕ → ℝ} (hT1b : Acc2 u T1b S1b) {T2aa : ι → ℕ → ℕ → ℕ → ℕ → ℝ} {S2aa : ℕ → ℕ → ℕ → ℕ → ℝ} (hT2aa : Acc4 u T2aa S2aa) {T2ab : ι → ℕ → ℕ → ℕ → ℕ → ℝ} {S2ab : ℕ → ℕ → ℕ → ℕ → ℝ} (hT2ab : Acc4 u T2ab S2ab) {T2bb : ι → ℕ → ℕ → ℕ → ℕ → ℝ} {S2bb : ℕ → ℕ → ℕ → ℕ → ℝ} (hT2bb : Acc4 u T2bb S2bb)
    {C : ι → List ℝ} {L : List ℝ} (hC : AccV u C L) :
    AccL u (fun e => u_T1b_T2aa (rd e) basis refa refb noa nva nob nvb (T1a e) (T1b e) (T2aa e) (T2ab e) (T2bb e) (C e)) (CI.u_T1b_T2aa basis refa refb noa nva nob nvb S1a S1b S2aa S2ab S2bb L) := by
  unfold u_T1b_T2aa CI.u_T1b_T2aa
  refine loop_acc (fun x C L hC => ?_) hC
  refine loop_acc (fun x C L hC => ?_) hC
  refine loop_acc (fun x C L hC => ?_) hC
  refine loop_acc (fun x C L hC => ?_) hC
  refine loop_acc (fun x C L hC => ?_) hC
  refine loop_acc (fun x C L hC => ?_) hC
  refine bind_acc fun rsb => ?_
  refine bind_acc fun rs1a => ?_
  rcases rs1a with _ | ⟨_, _⟩
  · exact .ok hC
  dsimp only
  refine bind_acc fun rs2a => ?_
  rcases rsb with _ | ⟨_, _⟩
  · exact .ok hC
  dsimp only
  rcases rs2a with _ | ⟨_, _⟩
  · exact .ok hC
  dsimp only
  exact bind_acc fun idx => addFl_acc H hC (H.mul (H.mul (H.mul (H.mul (.const _) (.const _)) (.const _)) (hT1b _ _)) (hT2aa _ _ _ _))

theorem u_T1a_T2bb_acc (H : Roundings u η rd) (basis : List Pair) (refa refb : Dstring) (noa nva nob nvb : ℕ)
    {T1a : ι → ℕ → ℕ → ℝ} {S1a : ℕ → ℕ → ℝ} (hT1a : Acc2 u T1a S1a) {T1b : ι → ℕ → ℕ → ℝ} {S1b : ℕ → ℕ → ℝ} (hT1b : Acc2 u T1b S1b) {T2aa : ι → ℕ → ℕ → ℕ → ℕ → ℝ} {S2aa : ℕ → ℕ → ℕ → ℕ → ℝ} (hT2aa : Acc4 u T2aa S2aa) {T2ab : ι → ℕ → ℕ → ℕ → ℕ → ℝ} {S2ab : ℕ → ℕ → ℕ → ℕ → ℝ} (hT2ab : Acc4 u T2ab S2ab) {T2bb : ι → ℕ → ℕ → ℕ → ℕ → ℝ} {S2bb : ℕ → ℕ → ℕ → ℕ → ℝ} (hT2bb : Acc4 u T2bb S2bb)
    {C : ι → List ℝ} {L : List ℝ} (hC : AccV u C L) :
    AccL u (fun e => u_T1a_T2bb (rd e) basis refa refb noa nva nob nvb (T1a e) (T1b e) (T2aa e) (T2ab e) (T2bb e) (C e)) (CI.u_T1a_T2bb basis refa refb noa nva nob nvb S1a S1b S2aa S2ab S2bb L) := by
  unfold u_T1a_T2bb CI.u_T1a_T2bb
  refine loop_acc (fun x C L hC => ?_) hC
  refine loop_acc (fun x C L hC => ?_) hC
  refine loop_acc (fun x C L hC => ?_) hC
  refine loop_acc (fun x C L hC => ?_) hC
  refine loop_acc (fun x C L hC => ?_) hC
  refine loop_acc (fun x C L hC => ?_) hC
  refine bind_acc fun rsa => ?_
  refine bind_acc fun rs1b => ?_
  rcases rs1b with _ | ⟨_, _⟩
  · exact .ok hC
  dsimp only
  refine bind_acc fun rs2b => ?_
  rcases rsa with _ | ⟨_, _⟩
  · exact .ok hC
  dsimp only
  rcases rs2b with _ | ⟨_, _⟩
  · exact .ok hC
  dsimp only
  exact bind_acc fun idx => addFl_acc H hC (H.mul (H.mul (H.mul (H.mul (.const _) (.const _)) (.const _)) (hT1a _ _)) (hT2bb _ _ _ _))

theorem u_T1b_T2ab_acc (H : Roundings u η rd) (basis : List Pair) (refa refb : Dstring) (noa nva nob nvb : ℕ)
    {T1a : ι → ℕ → ℕ → ℝ} {S1a : ℕ → ℕ → ℝ} (hT1a : Acc2 u T1a S1a) {T1b : ι → ℕ → ℕ → ℝ} {S1b : ℕ → ℕ → ℝ} (hT1b : Acc2 u T1b S1b) {T2aa : ι → ℕ → ℕ → ℕ → ℕ → ℝ} {S2aa : ℕ → ℕ → ℕ → ℕ → ℝ} (hT2aa : Acc4 u T2aa S2aa) {T2ab : ι → ℕ → ℕ → ℕ → ℕ → ℝ} {S2ab : ℕ → ℕ → ℕ → ℕ → ℝ} (hT2ab : Acc4 u T2ab S2ab) {T2bb : ι → ℕ → ℕ → ℕ → ℕ → ℝ} {S2bb : ℕ → ℕ → ℕ → ℕ → ℝ} (hT2bb : Acc4 u T2bb S2bb)
    {C : ι → List ℝ} {L : List ℝ} (hC : AccV u C L) :
    AccL u (fun e => u_T1b_T2ab (rd e) basis refa refb noa nva nob nvb (T1a e) (T1b e) (T2aa e) (T2ab e) (T2bb e) (C e)) (CI.u_T1b_T2ab basis refa refb noa nva nob nvb S1a S1b S2aa S2ab S2bb L) := by
  unfold u_T1b_T2ab CI.u_T1b_T2ab
  refine loop_acc (fun x C L hC => ?_) hC
  refine loop_acc (fun x C L hC => ?_) hC
  refine loop_acc (fun x C L hC => ?_) hC
  refine loop_acc (fun x C L hC => ?_) hC
  refine loop_acc (fun x C L hC => ?_) hC
  refine loop_acc (fun x C L hC => ?_) hC
  refine bind_acc fun rs1b => ?_
  rcases rs1b with _ | ⟨_, _⟩
  · exact .ok hC
  dsimp only
  refine bind_acc fun rsa => ?_
  refine bind_acc fun rs2b => ?_
  rcases rsa with _ | ⟨_, _⟩
  · exact .ok hC
  dsimp only
  rcases rs2b with _ | ⟨_, _⟩
  · exact .ok hC
  dsimp only
  exact bind_acc fun idx => addFl_acc H hC (H.mul (H.mul (H.mul (H.mul (.const _) (.const _)) (.const _)) (hT1b _ _)) (hT2ab _ _ _ _))

theorem u_T1b_T2bb_acc (H : Roundings u η rd) (basis : List Pair) (refa refb : Dstring) (noa nva nob nvb : ℕ)
    {T1a : ι → ℕ → ℕ → ℝ} {S1a : ℕ → ℕ → ℝ} (hT1a : Acc2 u T1a S1a) {T1b : ι → ℕ → ℕ → ℝ} {S1b : ℕ → ℕ → ℝ} (hT1b : Acc2 u T1b S1b) {T2aa : ι → ℕ → ℕ → ℕ → ℕ → ℝ} {S2aa : ℕ → ℕ → ℕ → ℕ → ℝ} (hT2aa : Acc4 u T2aa S2aa) {T2ab : ι → ℕ → ℕ → ℕ → ℕ → ℝ} {S2ab : ℕ → ℕ → ℕ → ℕ → ℝ} (hT2ab : Acc4 u T2ab S2ab) {T2bb : ι → ℕ → ℕ → ℕ → ℕ → ℝ} {S2bb : ℕ → ℕ → ℕ → ℕ → ℝ} (hT2bb : Acc4 u T2bb S2bb)
    {C : ι → List ℝ} {L : List ℝ} (hC : AccV u C L) :
    AccL u (fun e => u_T1b_T2bb (rd e) basis refa refb noa nva nob nvb (T1a e) (T1b e) (T2aa e) (T2ab e) (T2bb e) (C e)) (CI.u_T1b_T2bb basis refa refb noa nva nob nvb S1a S1b S2aa S2ab S2bb L) := by
  unfold u_T1b_T2bb CI.u_T1b_T2bb
  refine loop_acc (fun x C L hC => ?_) hC
  refine loop_acc (fun x C L hC => ?_) hC
  refine loop_acc (fun x C L hC => ?_) hC
  refine loop_acc (fun x C L hC => ?_) hC
  refine loop_acc (fun x C L hC => ?_) hC
  refine loop_acc (fun x C L hC => ?_) hC
  refine bind_acc fun rs1 => ?_
  rcases rs1 with _ | ⟨_, _⟩
  · exact .ok hC
  dsimp only
  refine bind_acc fun rs2 => ?_
  rcases rs2 with _ | ⟨_, _⟩
  · exact .ok hC
  dsimp only
  refine bind_acc fun rs3 => ?_
  rcases rs3 with _ | ⟨_, _⟩
  · exact .ok hC
  dsimp only
  exact bind_acc fun idx => addFl_acc H hC (H.mul (H.mul (H.mul (H.mul (.const _) (.const _)) (.const _)) (hT1b _ _)) (hT2bb _ _ _ _))

theorem u_T1a_T1a_T1a_acc (H : Roundings u η rd) (basis : List Pair) (refa refb : Dstring) (noa nva nob nvb : ℕ)
    {T1a : ι → ℕ → ℕ → ℝ} {S1a : ℕ → ℕ → ℝ} (hT1a : Acc2 u T1a S1a) {T1b : ι → ℕ → ℕ → ℝ} {S1b : ℕ → ℕ → ℝ} (hT1b : Acc2 u T1b S1b) {T2aa : ι → ℕ → ℕ → ℕ → ℕ → ℝ} {S2aa : ℕ → ℕ → ℕ → ℕ → ℝ} (hT2aa : Acc4 u T2aa S2aa) {T2ab : ι → ℕ → ℕ → ℕ → ℕ → ℝ} {S2ab : ℕ → ℕ → ℕ → ℕ → ℝ} (hT2ab : Acc4 u T2ab S2ab) {T2bb : ι → ℕ → ℕ → ℕ → ℕ → ℝ} {S2bb : ℕ → ℕ → ℕ → ℕ → ℝ} (hT2bb : Acc4 u T2bb S2bb)
    {C : ι → List ℝ} {L : List ℝ} (hC : AccV u C L) :
    AccL u (fun e => u_T1a_T1a_T1a (rd e) basis refa refb noa nva nob nvb (T1a e) (T1b e) (T2aa e) (T2ab e) (T2bb e) (C e)) (CI.u_T1a_T1a_T1a basis refa refb noa nva nob nvb S1a S1b S2aa S2ab S2bb L) := by
  unfold u_T1a_T1a_T1a CI.u_T1a_T1a_T1a
  refine loop_acc (fun x C L hC => ?_) hC
  refine loop_acc (fun x C L hC => ?_) hC
  refine loop_acc (fun x C L hC => ?_) hC
  refine loop_acc (fun x C L hC => ?_) hC
  refine loop_acc (fun x C L hC => ?_) hC
  refine loop_acc (fun x C L hC => ?_) hC
  refine bind_acc fun rs1 => ?_
  rcases rs1 with _ | ⟨_, _⟩
  · exact .ok hC
  dsimp only
  refine bind_acc fun rs2 => ?_
  rcases rs2 with _ | ⟨_, _⟩
  · exact .ok hC
  dsimp only
  refine bind_acc fun rs3 => ?_
  rcases rs3 with _ | ⟨_, _⟩
  · exact .ok hC
  dsimp only
  exact bind_acc fun idx => addFl_acc H hC (H.div (H.mul (H.mul (H.mul (H.mul (H.mul (.const _) (.const _)) (.const _)) (hT1a _ _)) (hT1a _ _)) (hT1a _ _)) _)

theorem u_T1a_T1a_T1b_acc (H : Roundings u η rd) (basis : List Pair) (refa refb : Dstring) (noa nva nob nvb : ℕ)
    {T1a : ι → ℕ → ℕ → ℝ} {S1a : ℕ → ℕ → ℝ} (hT1a : Acc2 u T1a S1a) {T1b : ι → ℕ → ℕ → ℝ} {S1b : ℕ → ℕ → ℝ} (hT1b : Acc2 u T1b S1b) {T2aa : ι → ℕ → ℕ → ℕ → ℕ → ℝ} {S2aa : ℕ → ℕ → ℕ → ℕ → ℝ} (hT2aa : Acc4 u T2aa S2aa) {T2ab : ι → ℕ → ℕ → ℕ → ℕ → ℝ} {S2ab : ℕ → ℕ → ℕ → ℕ → ℝ} (hT2ab : Acc4 u T2ab S2ab) {T2bb : ι → ℕ → ℕ → ℕ → ℕ → ℝ} {S2bb : ℕ → ℕ → ℕ → ℕ → ℝ} (hT2bb : Acc4 u T2bb S2bb)
    {C : ι → List ℝ} {L : List ℝ} (hC : AccV u C L) :
    AccL u (fun e => u_T1a_T1a_T1b (rd e) basis refa refb noa nva nob nvb (T1a e) (T1b e) (T2aa e) (T2ab e) (T2bb e) (C e)) (CI.u_T1a_T1a_T1b basis refa refb noa nva nob nvb S1a S1b S2aa S2ab S2bb L) := by
  unfold u_T1a_T1a_T1b CI.u_T1a_T1a_T1b
  refine loop_acc (fun x C L hC => ?_) hC
  refine loop_acc (fun x C L hC => ?_) hC
  refine loop_acc (fun x C L hC => ?_) hC
  refine loop_acc (fun x C L hC => ?_) hC
  refine loop_acc (fun x C L hC => ?_) hC
  refine loop_acc (fun x C L hC => ?_) hC
  refine bind_acc fun rs1a => ?_
  rcases rs1a with _ | ⟨_, _⟩
  · exact .ok hC
  dsimp only
  refine bind_acc fun rs2a => ?_
  refine bind_acc fun rsb => ?_
  rcases rs2a with _ | ⟨_, _⟩
  · exact .ok hC
  dsimp only
  rcases rsb with _ | ⟨_, _⟩
  · exact .ok hC
  dsimp only
  exact bind_acc fun idx => addFl_acc H hC (H.div (H.mul (H.mul (H.mul (H.mul (H.mul (.const _) (.const _)) (.const _)) (hT1a _ _)) (hT1a _ _)) (hT1b _ _)) _)

theorem u_T1a_T1b_T1b_acc (H : Roundings u η rd) (basis : List Pair) (refa refb : Dstring) (noa nva nob nvb : ℕ)
    {T1a : ι → ℕ → ℕ → ℝ} {S1a : ℕ → ℕ → ℝ} (hT1a : Acc2 u T1a S1a) {T1b : ι → ℕ → ℕ → ℝ} {S1b : ℕ → ℕ → ℝ} (hT1b : Acc2 u T1b S1b) {T2aa : ι → ℕ → ℕ → ℕ → ℕ → ℝ} {S2aa : ℕ → ℕ → ℕ → ℕ → ℝ} (hT2aa : Acc4 u T2aa S2aa) {T2ab : ι → ℕ → ℕ → ℕ → ℕ → ℝ} {S2ab : ℕ → ℕ → ℕ → ℕ → ℝ} (hT2ab : Acc4 u T2ab S2ab) {T2bb : ι → ℕ → ℕ → ℕ → ℕ → ℝ} {S2bb : ℕ → ℕ → ℕ → ℕ → ℝ} (hT2bb : Acc4 u T2bb S2bb)
    {C : ι → List ℝ} {L : List ℝ} (hC : AccV u C L) :
    AccL u (fun e => u_T1a_T1b_T1b (rd e) basis refa refb noa nva nob nvb (T1a e) (T1b e) (T2aa e) (T2ab e) (T2bb e) (C e)) (CI.u_T1a_T1b_T1b basis refa refb noa nva nob nvb S1a S1b S2aa S2ab S2bb L) := by
  unfold u_T1a_T1b_T1b CI.u_T1a_T1b_T1b
  refine loop_acc (fun x C L hC => ?_) hC
  refine loop_acc (fun x C L hC => ?_) hC
  refine loop_acc (fun x C L hC => ?_) hC
  refine loop_acc (fun x C L hC => ?_) hC
  refine loop_acc (fun x C L hC => ?_) hC
  refine loop_acc (fun x C L hC => ?_) hC
  refine bind_acc fun rsa => ?_
  refine bind_acc fun rs1b => ?_
  rcases rs1b with _ | ⟨_, _⟩
  · exact .ok hC
  dsimp only
  refine bind_acc fun rs2b => ?_
  rcases rsa with _ | ⟨_, _⟩
  · exact .ok hC
  dsimp only
  rcases rs2b with _ | ⟨_, _⟩
  · exact .ok hC
  dsimp only
  exact bind_acc fun idx => addFl_acc H hC (H.div (H.mul (H.mul (H.mul (H.mul (H.mul (.const _) (.const _)) (.const _)) (hT1a _ _)) (hT1b _ _)) (hT1b _ _)) _)

theorem u_T1b_T1b_T1b_acc (H : Roundings u η rd) (basis : List Pair) (refa refb : Dstring) (noa nva nob nvb : ℕ)
    {T1a : ι → ℕ → ℕ → ℝ} {S1a : ℕ → ℕ → ℝ} (hT1a : Acc2 u T1a S1a) {T1b : ι → ℕ → ℕ → ℝ} {S1b : ℕ → ℕ → ℝ} (hT1b : Acc2 u T1b S1b) {T2aa : ι → ℕ → ℕ → ℕ → ℕ → ℝ} {S2aa : ℕ → ℕ → ℕ → ℕ → ℝ} (hT2aa : Acc4 u T2aa S2aa) {T2ab : ι → ℕ → ℕ → ℕ → ℕ → ℝ} {S2ab : ℕ → ℕ → ℕ → ℕ → ℝ} (hT2ab : Acc4 u T2ab S2ab) {T2bb : ι → ℕ → ℕ → ℕ → ℕ → ℝ} {S2bb : ℕ → ℕ → ℕ → ℕ → ℝ} (hT2bb : Acc4 u T2bb S2bb)
    {C : ι → List ℝ} {L : List ℝ} (hC : AccV u C L) :
    AccL u (fun e => u_T1b_T1b_T1b (rd e) basis refa refb noa nva nob nvb (T1a e) (T1b e) (T2aa e) (T2ab e) (T2bb e) (C e)) (CI.u_T1b_T1b_T1b basis refa refb noa nva nob nvb S1a S1b S2aa S2ab S2bb L) := by
  unfold u_T1b_T1b_T1b CI.u_T1b_T1b_T1b
  refine loop_acc (fun x C L hC => ?_) hC
  refine loop_acc (fun x C L hC => ?_) hC
  refine loop_acc (fun x C L hC => ?_) hC
  refine loop_acc (fun x C L hC => ?_) hC
  refine loop_acc (fun x C L hC => ?_) hC
  refine loop_acc (fun x C L hC => ?_) hC
  refine bind_acc fun rs1 => ?_
  rcases rs1 with _ | ⟨_, _⟩
  · exact .ok hC
  dsimp only
  refine bind_acc fun rs2 => ?_
  rcases rs2 with _ | ⟨_, _⟩
  · exact .ok hC
  dsimp only
  refine bind_acc fun rs3 => ?_
  rcases rs3 with _ | ⟨_, _⟩
  · exact .ok hC
  dsimp only
  exact bind_acc fun idx => addFl_acc H hC (H.div (H.mul (H.mul (H.mul (H.mul (H.mul (.const _) (.const _)) (.const _)) (hT1b _ _)) (hT1b _ _)) (hT1b _ _)) _)

theorem u_T2aa_T2aa_acc (H : Roundings u η rd) (basis : List Pair) (refa refb : Dstring) (noa nva nob nvb : ℕ)
    {T1a : ι → ℕ → ℕ → ℝ} {S1a : ℕ → ℕ → ℝ} (hT1a : Acc2 u T1a S1a) {T1b : ι → ℕ → ℕ → ℝ} {S1b : ℕ → ℕ → ℝ} (hT1b : Acc2 u T1b S1b) {T2aa : ι → ℕ → ℕ → ℕ → ℕ → ℝ} {S2aa : ℕ → ℕ → ℕ → ℕ → ℝ} (hT2aa : Acc4 u T2aa S2aa) {T2ab : ι → ℕ → ℕ → ℕ → ℕ → ℝ} {S2ab : ℕ → ℕ → ℕ → ℕ → ℝ} (hT2ab : Acc4 u T2ab S2ab) {T2bb : ι → ℕ → ℕ → ℕ → ℕ → ℝ} {S2bb : ℕ → ℕ → ℕ → ℕ → ℝ} (hT2bb : Acc4 u T2bb S2bb)
    {C : ι → List ℝ} {L : List ℝ} (hC : AccV u C L) :
    AccL u (fun e => u_T2aa_T2aa (rd e) basis refa refb noa nva nob nvb (T1a e) (T1b e) (T2aa e) (T2ab e) (T2bb e) (C e)) (CI.u_T2aa_T2aa basis refa refb noa nva nob nvb S1a S1b S2aa S2ab S2bb L) := by
  unfold u_T2aa_T2aa CI.u_T2aa_T2aa
  refine loop_acc (fun x C L hC => ?_) hC
  refine loop_acc (fun x C L hC => ?_) hC
  refine loop_acc (fun x C L hC => ?_) hC
  refine loop_acc (fun x C L hC => ?_) hC
  refine loop_acc (fun x C L hC => ?_) hC
  refine loop_acc (fun x C L hC => ?_) hC
  refine loop_acc (fun x C L hC => ?_) hC
  refine loop_acc (fun x C L hC => ?_) hC
  refine bind_acc fun rsa1 => ?_
  rcases rsa1 with _ | ⟨_, _⟩
  · exact .ok hC
  dsimp only
  refine bind_acc fun rsa2 => ?_
  rcases rsa2 with _ | ⟨_, _⟩
  · exact .ok hC
  dsimp only
  refine bind_acc fun rsa3 => ?_
  rcases rsa3 with _ | ⟨_, _⟩
  · exact .ok hC
  dsimp only
  refine bind_acc fun rsa4 => ?_
  rcases rsa4 with _ | ⟨_, _⟩
  · exact .ok hC
  dsimp only
  exact bind_acc fun idx => addFl_acc H hC (H.div (H.mul (H.mul (H.mul (H.mul (H.mul (.const _) (.const _)) (.const _)) (.const _)) (hT2aa _ _ _ _)) (hT2aa _ _ _ _)) _)

theorem u_T2aa_T2ab_acc (H : Roundings u η rd) (basis : List Pair) (refa refb : Dstring) (noa nva nob nvb : ℕ)
    {T1a : ι → ℕ → ℕ → ℝ} {S1a : ℕ → ℕ → ℝ} (hT1a : Acc2 u T1a S1a) {T1b : ι → ℕ → ℕ → ℝ} {S1b : ℕ → ℕ → ℝ} (hT1b : Acc2 u T1b S1b) {T2aa : ι → ℕ → ℕ → ℕ → ℕ → ℝ} {S2aa : ℕ → ℕ → ℕ → ℕ → ℝ} (hT2aa : Acc4 u T2aa S2aa) {T2ab : ι → ℕ → ℕ → ℕ → ℕ → ℝ} {S2ab : ℕ → ℕ → ℕ → ℕ → ℝ} (hT2ab : Acc4 u T2ab S2ab) {T2bb : ι → ℕ → ℕ → ℕ → ℕ → ℝ} {S2bb : ℕ → ℕ → ℕ → ℕ → ℝ} (hT2bb : Acc4 u T2bb S2bb)
    {C : ι → List ℝ} {L : List ℝ} (hC : AccV u C L) :
    AccL u (fun e => u_T2aa_T2ab (rd e) basis refa refb noa nva nob nvb (T1a e) (T1b e) (T2aa e) (T2ab e) (T2bb e) (C e)) (CI.u_T2aa_T2ab basis refa refb noa nva nob nvb S1a S1b S2aa S2ab S2bb L) := by
  unfold u_T2aa_T2ab CI.u_T2aa_T2ab
  refine loop_acc (fun x C L hC => ?_) hC
  refine loop_acc (fun x C L hC => ?_) hC
  refine loop_acc (fun x C L hC => ?_) hC
  refine loop_acc (fun x C L hC => ?_) hC
  refine loop_acc (fun x C L hC => ?_) hC
  refine loop_acc (fun x C L hC => ?_) hC
  refine loop_acc (fun x C L hC => ?_) hC
  refine loop_acc (fun x C L hC => ?_) hC
  refine bind_acc fun rsa1 => ?_
  rcases rsa1 with _ | ⟨_, _⟩
  · exact .ok hC
  dsimp only
  refine bind_acc fun rsa2 => ?_
  rcases rsa2 with _ | ⟨_, _⟩
  · exact .ok hC
  dsimp only
  refine bind_acc fun rsa3 => ?_
  refine bind_acc fun rsb1 => ?_
  rcases rsa3 with _ | ⟨_, _⟩
  · exact .ok hC
  dsimp only
  rcases rsb1 with _ | ⟨_, _⟩
  · exact .ok hC
  dsimp only
  exact bind_acc fun idx => addFl_acc H hC (H.mul (H.mul (H.mul (H.mul (H.mul (.const _) (.const _)) (.const _)) (.const _)) (hT2aa _ _ _ _)) (hT2ab _ _ _ _))

theorem u_T2aa_T2bb_acc (H : Roundings u η rd) (basis : List Pair) (refa refb : Dstring) (noa nva nob nvb : ℕ)
    {T1a : ι → ℕ → ℕ → ℝ} {S1a : ℕ → ℕ → ℝ} (hT1a : Acc2 u T1a S1a) {T1b : ι → ℕ → ℕ → ℝ} {S1b : ℕ → ℕ → ℝ} (hT1b : Acc2 u T1b S1b) {T2aa : ι → ℕ → ℕ → ℕ → ℕ → ℝ} {S2aa : ℕ → ℕ → ℕ → ℕ → ℝ} (hT2aa : Acc4 u T2aa S2aa) {T2ab : ι → ℕ → ℕ → ℕ → ℕ → ℝ} {S2ab : ℕ → ℕ → ℕ → ℕ → ℝ} (hT2ab : Acc4 u T2ab S2ab) {T2bb : ι → ℕ → ℕ → ℕ → ℕ → ℝ} {S2bb : ℕ → ℕ → ℕ → ℕ → ℝ} (hT2bb : Acc4 u T2bb S2bb)
    {C : ι → List ℝ} {L : List ℝ} (hC : AccV u C L) :
    AccL u (fun e => u_T2aa_T2bb (rd e) basis refa refb noa nva nob nvb (T1a e) (T1b e) (T2aa e) (T2ab e) (T2bb e) (C e)) (CI.u_T2aa_T2bb basis refa refb noa nva nob nvb S1a S1b S2aa S2ab S2bb L) := by
  unfold u_T2aa_T2bb CI.u_T2aa_T2bb
  refine loop_acc (fun x C L hC => ?_) hC
  refine loop_acc (fun x C L hC => ?_) hC
  refine loop_acc (fun x C L hC => ?_) hC
  refine loop_acc (fun x C L hC => ?_) hC
  refine loop_acc (fun x C L hC => ?_) hC
  refine loop_acc (fun x C L hC => ?_) hC
  refine loop_acc (fun x C L hC => ?_) hC
  refine loop_acc (fun x C L hC => ?_) hC
  refine bind_acc fun rsa1 => ?_
  rcases rsa1 with _ | ⟨_, _⟩
  · exact .ok hC
  dsimp only
  refine bind_acc fun rsa2 => ?_
  refine bind_acc fun rsb1 => ?_
  rcases rsb1 with _ | ⟨_, _⟩
  · exact .ok hC
  dsimp only
  refine bind_acc fun rsb2 => ?_
  rcases rsa2 with _ | ⟨_, _⟩
  · exact .ok hC
  dsimp only
  rcases rsb2 with _ | ⟨_, _⟩
  · exact .ok hC
  dsimp only
  exact bind_acc fun idx => addFl_acc H hC (H.mul (H.mul (H.mul (H.mul (H.mul (.const _) (.const _)) (.const _)) (.const _)) (hT2aa _ _ _ _)) (hT2bb _ _ _ _))

theorem u_T2ab_T2ab_acc (H : Roundings u η rd) (basis : List Pair) (refa refb : Dstring) (noa nva nob nvb : ℕ)
    {T1a : ι → ℕ → ℕ → ℝ} {S1a : ℕ → ℕ → ℝ} (hT1a : Acc2 u T1a S1a) {T1b : ι → ℕ → ℕ → ℝ} {S1b : ℕ → ℕ → ℝ} (hT1b : Acc2 u T1b S1b) {T2aa : ι → ℕ → ℕ → ℕ → ℕ → ℝ} {S2aa : ℕ → ℕ → ℕ → ℕ → ℝ} (hT2aa : Acc4 u T2aa S2aa) {T2ab : ι → ℕ → ℕ → ℕ → ℕ → ℝ} {S2ab : ℕ → ℕ → ℕ → ℕ → ℝ} (hT2ab : Acc4 u T2ab S2ab) {T2bb : ι → ℕ → ℕ → ℕ → ℕ → ℝ} {S2bb : ℕ → ℕ → ℕ → ℕ → ℝ} (hT2bb : Acc4 u T2bb S2bb)
    {C : ι → List ℝ} {L : List ℝ} (hC : AccV u C L) :
    AccL u (fun e => u_T2ab_T2ab (rd e) basis refa refb noa nva nob nvb (T1a e) (T1b e) (T2aa e) (T2ab e) (T2bb e) (C e)) (CI.u_T2ab_T2ab basis refa refb noa nva nob nvb S1a S1b S2aa S2ab S2bb L) := by
  unfold u_T2ab_T2ab CI.u_T2ab_T2ab
  refine loop_acc (fun x C L hC => ?_) hC
  refine loop_acc (fun x C L hC => ?_) hC
  refine loop_acc (fun x C L hC => ?_) hC
  refine loop_acc (fun x C L hC => ?_) hC
  refine loop_acc (fun x C L hC => ?_) hC
  refine loop_acc (fun x C L hC => ?_) hC
  refine loop_acc (fun x C L hC => ?_) hC
  refine loop_acc (fun x C L hC => ?_) hC
  refine bind_acc fun rsa1 => ?_
  rcases rsa1 with _ | ⟨_, _⟩
  · exact .ok hC
  dsimp only
  refine bind_acc fun rsa2 => ?_
  refine bind_acc fun rsb1 => ?_
  rcases rsb1 with _ | ⟨_, _⟩
  · exact .ok hC
  dsimp only
  refine bind_acc fun rsb2 => ?_
  rcases rsa2 with _ | ⟨_, _⟩
  · exact .ok hC
  dsimp only
  rcases rsb2 with _ | ⟨_, _⟩
  · exact .ok hC
  dsimp only
  exact bind_acc fun idx => addFl_acc H hC (H.div (H.mul (H.mul (H.mul (H.mul (H.mul (.const _) (.const _)) (.const _)) (.const _)) (hT2ab _ _ _ _)) (hT2ab _ _ _ _)) _)

theorem u_T2ab_T2bb_acc (H : Roundings u η rd) (basis : List Pair) (refa refb : Dstring) (noa nva nob nvb : ℕ)
    {T1a : ι → ℕ → ℕ → ℝ} {S1a : ℕ → ℕ → ℝ} (hT1a : Acc2 u T1a S1a) {T1b : ι → ℕ → ℕ → ℝ} {S1b : ℕ → ℕ → ℝ} (hT1b : Acc2 u T1b S1b) {T2aa : ι → ℕ → ℕ → ℕ → ℕ → ℝ} {S2aa : ℕ → ℕ → ℕ → ℕ → ℝ} (hT2aa : Acc4 u T2aa S2aa) {T2ab : ι → ℕ → ℕ → ℕ → ℕ → ℝ} {S2ab : ℕ → ℕ → ℕ → ℕ → ℝ} (hT2ab : Acc4 u T2ab S2ab) {T2bb : ι → ℕ → ℕ → ℕ → ℕ → ℝ} {S2bb : ℕ → ℕ → ℕ → ℕ → ℝ} (hT2bb : Acc4 u T2bb S2bb)
    {C : ι → List ℝ} {L : List ℝ} (hC : AccV u C L) :
    AccL u (fun e => u_T2ab_T2bb (rd e) basis refa refb noa nva nob nvb (T1a e) (T1b e) (T2aa e) (T2ab e) (T2bb e) (C e)) (CI.u_T2ab_T2bb basis refa refb noa nva nob nvb S1a S1b S2aa S2ab S2bb L) := by
  unfold u_T2ab_T2bb CI.u_T2ab_T2bb
  refine loop_acc (fun x C L hC => ?_) hC
  refine loop_acc (fun x C L hC => ?_) hC
  refine loop_acc (fun x C L hC => ?_) hC
  refine loop_acc (fun x C L hC => ?_) hC
  refine loop_acc (fun x C L hC => ?_) hC
  refine loop_acc (fun x C L hC => ?_) hC
  refine loop_acc (fun x C L hC => ?_) hC
  refine loop_acc (fun x C L hC => ?_) hC
  refine bind_acc fun rsa => ?_
  refine bind_acc fun rs1 => ?_
  rcases rs1 with _ | ⟨_, _⟩
  · exact .ok hC
  dsimp only
  refine bind_acc fun rs2 => ?_
  rcases rs2 with _ | ⟨_, _⟩
  · exact .ok hC
  dsimp only
  refine bind_acc fun rs3 => ?_
  rcases rsa with _ | ⟨_, _⟩
  · exact .ok hC
  dsimp only
  rcases rs3 with _ | ⟨_, _⟩
  · exact .ok hC
  dsimp only
  exact bind_acc fun idx => addFl_acc H hC (H.mul (H.mul (H.mul (H.mul (H.mul (.const _) (.const _)) (.const _)) (.const _)) (hT2ab _ _ _ _)) (hT2bb _ _ _ _))

theorem u_T2bb_T2bb_acc (H : Roundings u η rd) (basis : List Pair) (refa refb : Dstring) (noa nva nob nvb : ℕ)
    {T1a : ι → ℕ → ℕ → ℝ} {S1a : ℕ → ℕ → ℝ} (hT1a : Acc2 u T1a S1a) {T1b : ι → ℕ → ℕ → ℝ} {S1b : ℕ → ℕ → ℝ} (hT1b : Acc2 u T1b S1b) {T2aa : ι → ℕ → ℕ → ℕ → ℕ → ℝ} {S2aa : ℕ → ℕ → ℕ → ℕ → ℝ} (hT2aa : Acc4 u T2aa S2aa) {T2ab : ι → ℕ → ℕ → ℕ → ℕ → ℝ} {S2ab : ℕ → ℕ → ℕ → ℕ → ℝ} (hT2ab : Acc4 u T2ab S2ab) {T2bb : ι → ℕ → ℕ → ℕ → ℕ → ℝ} {S2bb : ℕ → ℕ → ℕ → ℕ → ℝ} (hT2bb : Acc4 u T2bb S2bb)
    {C : ι → List ℝ} {L : List ℝ} (hC : AccV u C L) :
    AccL u (fun e => u_T2bb_T2bb (rd e) basis refa refb noa nva nob nvb (T1a e) (T1b e) (T2aa e) (T2ab e) (T2bb e) (C e)) (CI.u_T2bb_T2bb basis refa refb noa nva nob nvb S1a S1b S2aa S2ab S2bb L) := by
  unfold u_T2bb_T2bb CI.u_T2bb_T2bb
  refine loop_acc (fun x C L hC => ?_) hC
  refine loop_acc (fun x C L hC => ?_) hC
  refine loop_acc (fun x C L hC => ?_) hC
  refine loop_acc (fun x C L hC => ?_) hC
  refine loop_acc (fun x C L hC => ?_) hC
  refine loop_acc (fun x C L hC => ?_) hC
  refine loop_acc (fun x C L hC => ?_) hC
  refine loop_acc (fun x C L hC => ?_) hC
  refine bind_acc fun rs1 => ?_
  rcases rs1 with _ | ⟨_, _⟩
  · exact .ok hC
  dsimp only
  refine bind_acc fun rs2 => ?_
  rcases rs2 with _ | ⟨_, _⟩
  · exact .ok hC
  dsimp only
  refine bind_acc fun rs3 => ?_
  rcases rs3 with _ | ⟨_, _⟩
  · exact .ok hC
  dsimp only
  refine bind_acc fun rs4 => ?_
  rcases rs4 with _ | ⟨_, _⟩
  · exact .ok hC
  dsimp only
  exact bind_acc fun idx => addFl_acc H hC (H.div (H.mul (H.mul (H.mul (H.mul (H.mul (.const _) (.const _)) (.const _)) (.const _)) (hT2bb _ _ _ _)) (hT2bb _ _ _ _)) _)

theorem u_T1a_T1a_T2aa_acc (H : Roundings u η rd) (basis : List Pair) (refa refb : Dstring) (noa nva nob nvb : ℕ)
    {T1a : ι → ℕ → ℕ → ℝ} {S1a : ℕ → ℕ → ℝ} (hT1a : Acc2 u T1a S1a) {T1b : ι → ℕ → ℕ → ℝ} {S1b : ℕ → ℕ → ℝ} (hT1b : Acc2 u T1b S1b) {T2aa : ι → ℕ → ℕ → ℕ → ℕ → ℝ} {S2aa : ℕ → ℕ → ℕ → ℕ → ℝ} (hT2aa : Acc4 u T2aa S2aa) {T2ab : ι → ℕ → ℕ → ℕ → ℕ → ℝ} {S2ab : ℕ → ℕ → ℕ → ℕ → ℝ} (hT2ab : Acc4 u T2ab S2ab) {T2bb : ι → ℕ → ℕ → ℕ → ℕ → ℝ} {S2bb : ℕ → ℕ → ℕ → ℕ → ℝ} (hT2bb : Acc4 u T2bb S2bb)
    {C : ι → List ℝ} {L : List ℝ} (hC : AccV u C L) :
    AccL u (fun e => u_T1a_T1a_T2aa (rd e) basis refa refb noa nva nob nvb (T1a e) (T1b e) (T2aa e) (T2ab e) (T2bb e) (C e)) (CI.u_T1a_T1a_T2aa basis refa refb noa nva nob nvb S1a S1b S2aa S2ab S2bb L) := by
  unfold u_T1a_T1a_T2aa CI.u_T1a_T1a_T2aa
  refine loop_acc (fun x C L hC => ?_) hC
  refine loop_acc (fun x C L hC => ?_) hC
  refine loop_acc (fun x C L hC => ?_) hC
  refine loop_acc (fun x C L hC => ?_) hC
  refine loop_acc (fun x C L hC => ?_) hC
  refine loop_acc (fun x C L hC => ?_) hC
  refine loop_acc (fun x C L hC => ?_) hC
  refine loop_acc (fun x C L hC => ?_) hC
  refine bind_acc fun rsa1 => ?_
  rcases rsa1 with _ | ⟨_, _⟩
  · exact .ok hC
  dsimp only
  refine bind_acc fun rsa2 => ?_
  rcases rsa2 with _ | ⟨_, _⟩
  · exact .ok hC
  dsimp only
  refine bind_acc fun rsa3 => ?_
  rcases rsa3 with _ | ⟨_, _⟩
  · exact .ok hC
  dsimp only
  refine bind_acc fun rsa4 => ?_
  rcases rsa4 with _ | ⟨_, _⟩
  · exact .ok hC
  dsimp only
  exact bind_acc fun idx => addFl_acc H hC (H.div (H.mul (H.mul (H.mul (H.mul (H.mul (H.mul (.const _) (.const _)) (.const _)) (.const _)) (hT1a _ _)) (hT1a _ _)) (hT2aa _ _ _ _)) _)

theorem u_T1a_T1a_T2ab_acc (H : Roundings u η rd) (basis : List Pair) (refa refb : Dstring) (noa nva nob nvb : ℕ)
    {T1a : ι → ℕ → ℕ → ℝ} {S1a : ℕ → ℕ → ℝ} (hT1a : Acc2 u T1a S1a) {T1b : ι → ℕ → ℕ → ℝ} {S1b : ℕ → ℕ → ℝ} (hT1b : Acc2 u T1b S1b) {T2aa : ι → ℕ → ℕ → ℕ → ℕ → ℝ} {S2aa : ℕ → ℕ → ℕ → ℕ → ℝ} (hT2aa : Acc4 u T2aa S2aa) {T2ab : ι → ℕ → ℕ → ℕ → ℕ → ℝ} {S2ab : ℕ → ℕ → ℕ → ℕ → ℝ} (hT2ab : Acc4 u T2ab S2ab) {T2bb : ι → ℕ → ℕ → ℕ → ℕ → ℝ} {S2bb : ℕ → ℕ → ℕ → ℕ → ℝ} (hT2bb : Acc4 u T2bb S2bb)
    {C : ι → List ℝ} {L : List ℝ} (hC : AccV u C L) :
    AccL u (fun e => u_T1a_T1a_T2ab (rd e) basis refa refb noa nva nob nvb (T1a e) (T1b e) (T2aa e) (T2ab e) (T2bb e) (C e)) (CI.u_T1a_T1a_T2ab basis refa refb noa nva nob nvb S1a S1b S2aa S2ab S2bb L) := by
  unfold u_T1a_T1a_T2ab CI.u_T1a_T1a_T2ab
  refine loop_acc (fun x C L hC => ?_) hC
  refine loop_acc (fun x C L hC => ?_) hC
  refine loop_acc (fun x C L hC => ?_) hC
  refine loop_acc (fun x C L hC => ?_) hC
  refine loop_acc (fun x C L hC => ?_) hC
  refine loop_acc (fun x C L hC => ?_) hC
  refine loop_acc (fun x C L hC => ?_) hC
  refine loop_acc (fun x C L hC => ?_) hC
  refine bind_acc fun rsa1 => ?_
  rcases rsa1 with _ | ⟨_, _⟩
  · exact .ok hC
  dsimp only
  refine bind_acc fun rsa2 => ?_
  rcases rsa2 with _ | ⟨_, _⟩
  · exact .ok hC
  dsimp only
  refine bind_acc fun rsa3 => ?_
  refine bind_acc fun rsb1 => ?_
  rcases rsa3 with _ | ⟨_, _⟩
  · exact .ok hC
  dsimp only
  rcases rsb1 with _ | ⟨_, _⟩
  · exact .ok hC
  dsimp only
  exact bind_acc fun idx => addFl_acc H hC (H.div (H.mul (H.mul (H.mul (H.mul (H.mul (H.mul (.const _) (.const _)) (.const _)) (.const _)) (hT1a _ _)) (hT1a _ _)) (hT2ab _ _ _ _)) _)

theorem u_T1a_T1b_T2aa_acc (H : Roundings u η rd) (basis : List Pair) (refa refb : Dstring) (noa nva nob nvb : ℕ)
    {T1a : ι → ℕ → ℕ → ℝ} {S1a : ℕ → ℕ → ℝ} (hT1a : Acc2 u T1a S1a) {T1b : ι → ℕ → ℕ → ℝ} {S1b : ℕ → ℕ → ℝ} (hT1b : Acc2 u T1b S1b) {T2aa : ι → ℕ → ℕ → ℕ → ℕ → ℝ} {S2aa : ℕ → ℕ → ℕ → ℕ → ℝ} (hT2aa : Acc4 u T2aa S2aa) {T2ab : ι → ℕ → ℕ → ℕ → ℕ → ℝ} {S2ab : ℕ → ℕ → ℕ → ℕ → ℝ} (hT2ab : Acc4 u T2ab S2ab) {T2bb : ι → ℕ → ℕ → ℕ → ℕ → ℝ} {S2bb : ℕ → ℕ → ℕ → ℕ → ℝ} (hT2bb : Acc4 u T2bb S2bb)
    {C : ι → List ℝ} {L : List ℝ} (hC : AccV u C L) :
    AccL u (fun e => u_T1a_T1b_T2aa (rd e) basis refa refb noa nva nob nvb (T1a e) (T1b e) (T2aa e) (T2ab e) (T2bb e) (C e)) (CI.u_T1a_T1b_T2aa basis refa refb noa nva nob nvb S1a S1b S2aa S2ab S2bb L) := by
  unfold u_T1a_T1b_T2aa CI.u_T1a_T1b_T2aa
  refine loop_acc (fun x C L hC => ?_) hC
  refine loop_acc (fun x C L hC => ?_) hC
  refine loop_acc (fun x C L hC => ?_) hC
  refine loop_acc (fun x C L hC => ?_) hC
  refine loop_acc (fun x C L hC => ?_) hC
  refine loop_acc (fun x C L hC => ?_) hC
  refine loop_acc (fun x C L hC => ?_) hC
  refine loop_acc (fun x C L hC => ?_) hC
  refine bind_acc fun rsa1 => ?_
  rcases rsa1 with _ | ⟨_, _⟩
  · exact .ok hC
  dsimp only
  refine bind_acc fun rsa2 => ?_
  rcases rsa2 with _ | ⟨_, _⟩
  · exact .ok hC
  dsimp only
  refine bind_acc fun rsa3 => ?_
  refine bind_acc fun rsb1 => ?_
  rcases rsa3 with _ | ⟨_, _⟩
  · exact .ok hC
  dsimp only
  rcases rsb1 with _ | ⟨_, _⟩
  · exact .ok hC
  dsimp only
  exact bind_acc fun idx => addFl_acc H hC (H.mul (H.mul (H.mul (H.mul (H.mul (H.mul (.const _) (.const _)) (.const _)) (.const _)) (hT1a _ _)) (hT1b _ _)) (hT2aa _ _ _ _))

theorem u_T1a_T1a_T2bb_acc (H : Roundings u η rd) (basis : List Pair) (refa refb : Dstring) (noa nva nob nvb : ℕ)
    {T1a : ι → ℕ → ℕ → ℝ} {S1a : ℕ → ℕ → ℝ} (hT1a : Acc2 u T1a S1a) {T1b : ι → ℕ → ℕ → ℝ} {S1b : ℕ → ℕ → ℝ} (hT1b : Acc2 u T1b S1b) {T2aa : ι → ℕ → ℕ → ℕ → ℕ → ℝ} {S2aa : ℕ → ℕ → ℕ → ℕ → ℝ} (hT2aa : Acc4 u T2aa S2aa) {T2ab : ι → ℕ → ℕ → ℕ → ℕ → ℝ} {S2ab : ℕ → ℕ → ℕ → ℕ → ℝ} (hT2ab : Acc4 u T2ab S2ab) {T2bb : ι → ℕ → ℕ → ℕ → ℕ → ℝ} {S2bb : ℕ → ℕ → ℕ → ℕ → ℝ} (hT2bb : Acc4 u T2bb S2bb)
    {C : ι → List ℝ} {L : List ℝ} (hC : AccV u C L) :
    AccL u (fun e => u_T1a_T1a_T2bb (rd e) basis refa refb noa nva nob nvb (T1a e) (T1b e) (T2aa e) (T2ab e) (T2bb e) (C e)) (CI.u_T1a_T1a_T2bb basis refa refb noa nva nob nvb S1a S1b S2aa S2ab S2bb L) := by
  unfold u_T1a_T1a_T2bb CI.u_T1a_T1a_T2bb
  refine loop_acc (fun x C L hC => ?_) hC
  refine loop_acc (fun x C L hC => ?_) hC
  refine loop_acc (fun x C L hC => ?_) hC
  refine loop_acc (fun x C L hC => ?_) hC
  refine loop_acc (fun x C L hC => ?_) hC
  refine loop_acc (fun x C L hC => ?_) hC
  refine loop_acc (fun x C L hC => ?_) hC
  refine loop_acc (fun x C L hC => ?_) hC
  refine bind_acc fun rsa1 => ?_
  rcases rsa1 with _ | ⟨_, _⟩
  · exact .ok hC
  dsimp only
  refine bind_acc fun rsa2 => ?_
  rcases rsa2 with _ | ⟨_, _⟩
  · exact .ok hC
  dsimp only
  refine bind_acc fun rsb1 => ?_
  rcases rsb1 with _ | ⟨_, _⟩
  · exact .ok hC
  dsimp only
  refine bind_acc fun rsb2 => ?_
  rcases rsb2 with _ | ⟨_, _⟩
  · exact .ok hC
  dsimp only
  exact bind_acc fun idx => addFl_acc H hC (H.div (H.mul (H.mul (H.mul (H.mul (H.mul (H.mul (.const _) (.const _)) (.const _)) (.const _)) (hT1a _ _)) (hT1a _ _)) (hT2bb _ _ _ _)) _)

theorem u_T1a_T1b_T2ab_acc (H : Roundings u η rd) (basis : List Pair) (refa refb : Dstring) (noa nva nob nvb : ℕ)
    {T1a : ι → ℕ → ℕ → ℝ} {S1a : ℕ → ℕ → ℝ} (hT1a : Acc2 u T1a S1a) {T1b : ι → ℕ → ℕ → ℝ} {S1b : ℕ → ℕ → ℝ} (hT1b : Acc2 u T1b S1b) {T2aa : ι → ℕ → ℕ → ℕ → ℕ → ℝ} {S2aa : ℕ → ℕ → ℕ → ℕ → ℝ} (hT2aa : Acc4 u T2aa S2aa) {T2ab : ι → ℕ → ℕ → ℕ → ℕ → ℝ} {S2ab : ℕ → ℕ → ℕ → ℕ → ℝ} (hT2ab : Acc4 u T2ab S2ab) {T2bb : ι → ℕ → ℕ → ℕ → ℕ → ℝ} {S2bb : ℕ → ℕ → ℕ → ℕ → ℝ} (hT2bb : Acc4 u T2bb S2bb)
    {C : ι → List ℝ} {L : List ℝ} (hC : AccV u C L) :
    AccL u (fun e => u_T1a_T1b_T2ab (rd e) basis refa refb noa nva nob nvb (T1a e) (T1b e) (T2aa e) (T2ab e) (T2bb e) (C e)) (CI.u_T1a_T1b_T2ab basis refa refb noa nva nob nvb S1a S1b S2aa S2ab S2bb L) := by
  unfold u_T1a_T1b_T2ab CI.u_T1a_T1b_T2ab
  refine loop_acc (fun x C L hC => ?_) hC
  refine loop_acc (fun x C L hC => ?_) hC
  refine loop_acc (fun x C L hC => ?_) hC
  refine loop_acc (fun x C L hC => ?_) hC
  refine loop_acc (fun x C L hC => ?_) hC
  refine loop_acc (fun x C L hC => ?_) hC
  refine loop_acc (fun x C L hC => ?_) hC
  refine loop_acc (fun x C L hC => ?_) hC
  refine bind_acc fun rsa1 => ?_
  rcases rsa1 with _ | ⟨_, _⟩
  · exact .ok hC
  dsimp only
  refine bind_acc fun rsa2 => ?_
  refine bind_acc fun rsb1 => ?_
  rcases rsb1 with _ | ⟨_, _⟩
  · exact .ok hC
  dsimp only
  refine bind_acc fun rsb2 => ?_
  rcases rsa2 with _ | ⟨_, _⟩
  · exact .ok hC
  dsimp only
  rcases rsb2 with _ | ⟨_, _⟩
  · exact .ok hC
  dsimp only
  exact bind_acc fun idx => addFl_acc H hC (H.mul (H.mul (H.mul (H.mul (H.mul (H.mul (.const _) (.const _)) (.const _)) (.const _)) (hT1a _ _)) (hT1b _ _)) (hT2ab _ _ _ _))

theorem u_T1a_T1b_T2bb_acc (H : Roundings u η rd) (basis : List Pair) (refa refb : Dstring) (noa nva nob nvb : ℕ)
    {T1a : ι → ℕ → ℕ → ℝ} {S1a : ℕ → ℕ → ℝ} (hT1a : Acc2 u T1a S1a) {T1b : ι → ℕ → ℕ → ℝ} {S1b : ℕ → ℕ → ℝ} (hT1b : Acc2 u T1b S1b) {T2aa : ι → ℕ → ℕ → ℕ → ℕ → ℝ} {S2aa : ℕ → ℕ → ℕ → ℕ → ℝ} (hT2aa : Acc4 u T2aa S2aa) {T2ab : ι → ℕ → ℕ → ℕ → ℕ → ℝ} {S2ab : ℕ → ℕ → ℕ → ℕ → ℝ} (hT2ab : Acc4 u T2ab S2ab) {T2bb : ι → ℕ → ℕ → ℕ → ℕ → ℝ} {S2bb : ℕ → ℕ → ℕ → ℕ → ℝ} (hT2bb : Acc4 u T2bb S2bb)
    {C : ι → List ℝ} {L : List ℝ} (hC : AccV u C L) :
    AccL u (fun e => u_T1a_T1b_T2bb (rd e) basis refa refb noa nva nob nvb (T1a e) (T1b e) (T2aa e) (T2ab e) (T2bb e) (C e)) (CI.u_T1a_T1b_T2bb basis refa refb noa nva nob nvb S1a S1b S2aa S2ab S2bb L) := by
  unfold u_T1a_T1b_T2bb CI.u_T1a_T1b_T2bb
  refine loop_acc (fun x C L hC => ?_) hC
  refine loop_acc (fun x C L hC => ?_) hC
  refine loop_acc (fun x C L hC => ?_) hC
  refine loop_acc (fun x C L hC => ?_) hC
  refine loop_acc (fun x C L hC => ?_) hC
  refine loop_acc (fun x C L hC => ?_) hC
  refine loop_acc (fun x C L hC => ?_) hC
  refine loop_acc (fun x C L hC => ?_) hC
  refine bind_acc fun rsa => ?_
  refine bind_acc fun rs1 => ?_
  rcases rs1 with _ | ⟨_, _⟩
  · exact .ok hC
  dsimp only
  refine bind_acc fun rs2 => ?_
  rcases rs2 with _ | ⟨_, _⟩
  · exact .ok hC
  dsimp only
  refine bind_acc fun rs3 => ?_
  rcases rsa with _ | ⟨_, _⟩
  · exact .ok hC
  dsimp only
  rcases rs3 with _ | ⟨_, _⟩
  · exact .ok hC
  dsimp only
  exact bind_acc fun idx => addFl_acc H hC (H.mul (H.mul (H.mul (H.mul (H.mul (H.mul (.const _) (.const _)) (.const _)) (.const _)) (hT1a _ _)) (hT1b _ _)) (hT2bb _ _ _ _))

theorem u_T1b_T1b_T2ab_acc (H : Roundings u η rd) (basis : List Pair) (refa refb : Dstring) (noa nva nob nvb : ℕ)
    {T1a : ι → ℕ → ℕ → ℝ} {S1a : ℕ → ℕ → ℝ} (hT1a : Acc2 u T1a S1a) {T1b : ι → ℕ → ℕ → ℝ} {S1b : ℕ → ℕ → ℝ} (hT1b : Acc2 u T1b S1b) {T2aa : ι → ℕ → ℕ → ℕ → ℕ → ℝ} {S2aa : ℕ → ℕ → ℕ → ℕ → ℝ} (hT2aa : Acc4 u T2aa S2aa) {T2ab : ι → ℕ → ℕ → ℕ → ℕ → ℝ} {S2ab : ℕ → ℕ → ℕ → ℕ → ℝ} (hT2ab : Acc4 u T2ab S2ab) {T2bb : ι → ℕ → ℕ → ℕ → ℕ → ℝ} {S2bb : ℕ → ℕ → ℕ → ℕ → ℝ} (hT2bb : Acc4 u T2bb S2bb)
    {C : ι → List ℝ} {L : List ℝ} (hC : AccV u C L) :
    AccL u (fun e => u_T1b_T1b_T2ab (rd e) basis refa refb noa nva nob nvb (T1a e) (T1b e) (T2aa e) (T2ab e) (T2bb e) (C e)) (CI.u_T1b_T1b_T2ab basis refa refb noa nva nob nvb S1a S1b S2aa S2ab S2bb L) := by
  unfold u_T1b_T1b_T2ab CI.u_T1b_T1b_T2ab
  refine loop_acc (fun x C L hC => ?_) hC
  refine loop_acc (fun x C L hC => ?_) hC
  refine loop_acc (fun x C L hC => ?_) hC
  refine loop_acc (fun x C L hC => ?_) hC
  refine loop_acc (fun x C L hC => ?_) hC
  refine loop_acc (fun x C L hC => ?_) hC
  refine loop_acc (fun x C L hC => ?_) hC
  refine loop_acc (fun x C L hC => ?_) hC
  refine bind_acc fun rsa => ?_
  refine bind_acc fun rs1 => ?_
  rcases rs1 with _ | ⟨_, _⟩
  · exact .ok hC
  dsimp only
  refine bind_acc fun rs2 => ?_
  rcases rs2 with _ | ⟨_, _⟩
  · exact .ok hC
  dsimp only
  refine bind_acc fun rs3 => ?_
  rcases rsa with _ | ⟨_, _⟩
  · exact .ok hC
  dsimp only
  rcases rs3 with _ | ⟨_, _⟩
  · exact .ok hC
  dsimp only
  exact bind_acc fun idx => addFl_acc H hC (H.div (H.mul (H.mul (H.mul (H.mul (H.mul (H.mul (.const _) (.const _)) (.const _)) (.const _)) (hT1b _ _)) (hT1b _ _)) (hT2ab _ _ _ _)) _)

theorem u_T1b_T1b_T2bb_acc (H : Roundings u η rd) (basis : List Pair) (refa refb : Dstring) (noa nva nob nvb : ℕ)
    {T1a : ι → ℕ → ℕ → ℝ} {S1a : ℕ → ℕ → ℝ} (hT1a : Acc2 u T1a S1a) {T1b : ι → ℕ → ℕ → ℝ} {S1b : ℕ → ℕ → ℝ} (hT1b : Acc2 u T1b S1b) {T2aa : ι → ℕ → ℕ → ℕ → ℕ → ℝ} {S2aa : ℕ → ℕ → ℕ → ℕ → ℝ} (hT2aa : Acc4 u T2aa S2aa) {T2ab : ι → ℕ → ℕ → ℕ → ℕ → ℝ} {S2ab : ℕ → ℕ → ℕ → ℕ → ℝ} (hT2ab : Acc4 u T2ab S2ab) {T2bb : ι → ℕ → ℕ → ℕ → ℕ → ℝ} {S2bb : ℕ → ℕ → ℕ → ℕ → ℝ} (hT2bb : Acc4 u T2bb S2bb)
    {C : ι → List ℝ} {L : List ℝ} (hC : AccV u C L) :
    AccL u (fun e => u_T1b_T1b_T2bb (rd e) basis refa refb noa nva nob nvb (T1a e) (T1b e) (T2aa e) (T2ab e) (T2bb e) (C e)) (CI.u_T1b_T1b_T2bb basis refa refb noa nva nob nvb S1a S1b S2aa S2ab S2bb L) := by
  unfold u_T1b_T1b_T2bb CI.u_T1b_T1b_T2bb
  refine loop_acc (fun x C L hC => ?_) hC
  refine loop_acc (fun x C L hC => ?_) hC
  refine loop_acc (fun x C L hC => ?_) hC
  refine loop_acc (fun x C L hC => ?_) hC
  refine loop_acc (fun x C L hC => ?_) hC
  refine loop_acc (fun x C L hC => ?_) hC
  refine loop_acc (fun x C L hC => ?_) hC
  refine loop_acc (fun x C L hC => ?_) hC
  refine bind_acc fun rs1 => ?_
  rcases rs1 with _ | ⟨_, _⟩
  · exact .ok hC
  dsimp only
  refine bind_acc fun rs2 => ?_
  rcases rs2 with _ | ⟨_, _⟩
  · exact .ok hC
  dsimp only
  refine bind_acc fun rs3 => ?_
  rcases rs3 with _ | ⟨_, _⟩
  · exact .ok hC
  dsimp only
  refine bind_acc fun rs4 => ?_
  rcases rs4 with _ | ⟨_, _⟩
  · exact .ok hC
  dsimp only
  exact bind_acc fun idx => addFl_acc H hC (H.div (H.mul (H.mul (H.mul (H.mul (H.mul (H.mul (.const _) (.const _)) (.const _)) (.const _)) (hT1b _ _)) (hT1b _ _)) (hT2bb _ _ _ _)) _)

theorem u_T1a_T1a_T1a_T1a_acc (H : Roundings u η rd) (basis : List Pair) (refa refb : Dstring) (noa nva nob nvb : ℕ)
    {T1a : ι → ℕ → ℕ → ℝ} {S1a : ℕ → ℕ → ℝ} (hT1a : Acc2 u T1a S1a) {T1b : ι → ℕ → ℕ → ℝ} {S1b : ℕ → ℕ → ℝ} (hT1b : Acc2 u T1b S1b) {T2aa : ι → ℕ → ℕ → ℕ → ℕ → ℝ} {S2aa : ℕ → ℕ → ℕ → ℕ → ℝ} (hT2aa : Acc4 u T2aa S2aa) {T2ab : ι → ℕ → ℕ → ℕ → ℕ → ℝ} {S2ab : ℕ → ℕ → ℕ → ℕ → ℝ} (hT2ab : Acc4 u T2ab S2ab) {T2bb : ι → ℕ → ℕ → ℕ → ℕ → ℝ} {S2bb : ℕ → ℕ → ℕ → ℕ → ℝ} (hT2bb : Acc4 u T2bb S2bb)
    {C : ι → List ℝ} {L : List ℝ} (hC : AccV u C L) :
    AccL u (fun e => u_T1a_T1a_T1a_T1a (rd e) basis refa refb noa nva nob nvb (T1a e) (T1b e) (T2aa e) (T2ab e) (T2bb e) (C e)) (CI.u_T1a_T1a_T1a_T1a basis refa refb noa nva nob nvb S1a S1b S2aa S2ab S2bb L) := by
  unfold u_T1a_T1a_T1a_T1a CI.u_T1a_T1a_T1a_T1a
  refine loop_acc (fun x C L hC => ?_) hC
  refine loop_acc (fun x C L hC => ?_) hC
  refine loop_acc (fun x C L hC => ?_) hC
  refine loop_acc (fun x C L hC => ?_) hC
  refine loop_acc (fun x C L hC => ?_) hC
  refine loop_acc (fun x C L hC => ?_) hC
  refine loop_acc (fun x C L hC => ?_) hC
  refine loop_acc (fun x C L hC => ?_) hC
  refine bind_acc fun rsa1 => ?_
  rcases rsa1 with _ | ⟨_, _⟩
  · exact .ok hC
  dsimp only
  refine bind_acc fun rsa2 => ?_
  rcases rsa2 with _ | ⟨_, _⟩
  · exact .ok hC
  dsimp only
  refine bind_acc fun rsa3 => ?_
  rcases rsa3 with _ | ⟨_, _⟩
  · exact .ok hC
  dsimp only
  refine bind_acc fun rsa4 => ?_
  rcases rsa4 with _ | ⟨_, _⟩
  · exact .ok hC
  dsimp only
  exact bind_acc fun idx => addFl_acc H hC (H.div (H.mul (H.mul (H.mul (H.mul (H.mul (H.mul (H.mul (.const _) (.const _)) (.const _)) (.const _)) (hT1a _ _)) (hT1a _ _)) (hT1a _ _)) (hT1a _ _)) _)

theorem u_T1a_T1a_T1a_T1b_acc (H : Roundings u η rd) (basis : List Pair) (refa refb : Dstring) (noa nva nob nvb : ℕ)
    {T1a : ι → ℕ → ℕ → ℝ} {S1a : ℕ → ℕ → ℝ} (hT1a : Acc2 u T1a S1a) {T1b : ι → ℕ → ℕ → ℝ} {S1b : ℕ → ℕ → ℝ} (hT1b : Acc2 u T1b S1b) {T2aa : ι → ℕ → ℕ → ℕ → ℕ → ℝ} {S2aa : ℕ → ℕ → ℕ → ℕ → ℝ} (hT2aa : Acc4 u T2aa S2aa) {T2ab : ι → ℕ → ℕ → ℕ → ℕ → ℝ} {S2ab : ℕ → ℕ → ℕ → ℕ → ℝ} (hT2ab : Acc4 u T2ab S2ab) {T2bb : ι → ℕ → ℕ → ℕ → ℕ → ℝ} {S2bb : ℕ → ℕ → ℕ → ℕ → ℝ} (hT2bb : Acc4 u T2bb S2bb)
    {C : ι → List ℝ} {L : List ℝ} (hC : AccV u C L) :
    AccL u (fun e => u_T1a_T1a_T1a_T1b (rd e) basis refa refb noa nva nob nvb (T1a e) (T1b e) (T2aa e) (T2ab e) (T2bb e) (C e)) (CI.u_T1a_T1a_T1a_T1b basis refa refb noa nva nob nvb S1a S1b S2aa S2ab S2bb L) := by
  unfold u_T1a_T1a_T1a_T1b CI.u_T1a_T1a_T1a_T1b
  refine loop_acc (fun x C L hC => ?_) hC
  refine loop_acc (fun x C L hC => ?_) hC
  refine loop_acc (fun x C L hC => ?_) hC
  refine loop_acc (fun x C L hC => ?_) hC
  refine loop_acc (fun x C L hC => ?_) hC
  refine loop_acc (fun x C L hC => ?_) hC
  refine loop_acc (fun x C L hC => ?_) hC
  refine loop_acc (fun x C L hC => ?_) hC
  refine bind_acc fun rsa1 => ?_
  rcases rsa1 with _ | ⟨_, _⟩
  · exact .ok hC
  dsimp only
  refine bind_acc fun rsa2 => ?_
  rcases rsa2 with _ | ⟨_, _⟩
  · exact .ok hC
  dsimp only
  refine bind_acc fun rsa3 => ?_
  refine bind_acc fun rsb1 => ?_
  rcases rsa3 with _ | ⟨_, _⟩
  · exact .ok hC
  dsimp only
  rcases rsb1 with _ | ⟨_, _⟩
  · exact .ok hC
  dsimp only
  exact bind_acc fun idx => addFl_acc H hC (H.div (H.mul (H.mul (H.mul (H.mul (H.mul (H.mul (H.mul (.const _) (.const _)) (.const _)) (.const _)) (hT1a _ _)) (hT1a _ _)) (hT1a _ _)) (hT1b _ _)) _)

theorem u_T1a_T1a_T1b_T1b_acc (H : Roundings u η rd) (basis : List Pair) (refa refb : Dstring) (noa nva nob nvb : ℕ)
    {T1a : ι → ℕ → ℕ → ℝ} {S1a : ℕ → ℕ → ℝ} (hT1a : Acc2 u T1a S1a) {T1b : ι → ℕ → ℕ → ℝ} {S1b : ℕ → ℕ → ℝ} (hT1b : Acc2 u T1b S1b) {T2aa : ι → ℕ → ℕ → ℕ → ℕ → ℝ} {S2aa : ℕ → ℕ → ℕ → ℕ → ℝ} (hT2aa : Acc4 u T2aa S2aa) {T2ab : ι → ℕ → ℕ → ℕ → ℕ → ℝ} {S2ab : ℕ → ℕ → ℕ → ℕ → ℝ} (hT2ab : Acc4 u T2ab S2ab) {T2bb : ι → ℕ → ℕ → ℕ → ℕ → ℝ} {S2bb : ℕ → ℕ → ℕ → ℕ → ℝ} (hT2bb : Acc4 u T2bb S2bb)
    {C : ι → List ℝ} {L : List ℝ} (hC : AccV u C L) :
    AccL u (fun e => u_T1a_T1a_T1b_T1b (rd e) basis refa refb noa nva nob nvb (T1a e) (T1b e) (T2aa e) (T2ab e) (T2bb e) (C e)) (CI.u_T1a_T1a_T1b_T1b basis refa refb noa nva nob nvb S1a S1b S2aa S2ab S2bb L) := by
  unfold u_T1a_T1a_T1b_T1b CI.u_T1a_T1a_T1b_T1b
  refine loop_acc (fun x C L hC => ?_) hC
  refine loop_acc (fun x C L hC => ?_) hC
  refine loop_acc (fun x C L hC => ?_) hC
  refine loop_acc (fun x C L hC => ?_) hC
  refine loop_acc (fun x C L hC => ?_) hC
  refine loop_acc (fun x C L hC => ?_) hC
  refine loop_acc (fun x C L hC => ?_) hC
  refine loop_acc (fun x C L hC => ?_) hC
  refine bind_acc fun rsa1 => ?_
  rcases rsa1 with _ | ⟨_, _⟩
  · exact .ok hC
  dsimp only
  refine bind_acc fun rsa2 => ?_
  refine bind_acc fun rsb1 => ?_
  rcases rsb1 with _ | ⟨_, _⟩
  · exact .ok hC
  dsimp only
  refine bind_acc fun rsb2 => ?_
  rcases rsa2 with _ | ⟨_, _⟩
  · exact .ok hC
  dsimp only
  rcases rsb2 with _ | ⟨_, _⟩
  · exact .ok hC
  dsimp only
  exact bind_acc fun idx => addFl_acc H hC (H.div (H.mul (H.mul (H.mul (H.mul (H.mul (H.mul (H.mul (.const _) (.const _)) (.const _)) (.const _)) (hT1a _ _)) (hT1a _ _)) (hT1b _ _)) (hT1b _ _)) _)

theorem u_T1a_T1b_T1b_T1b_acc (H : Roundings u η rd) (basis : List Pair) (refa refb : Dstring) (noa nva nob nvb : ℕ)
    {T1a : ι → ℕ → ℕ → ℝ} {S1a : ℕ → ℕ → ℝ} (hT1a : Acc2 u T1a S1a) {T1b : ι → ℕ → ℕ → ℝ} {S1b : ℕ → ℕ → ℝ} (hT1b : Acc2 u T1b S1b) {T2aa : ι → ℕ → ℕ → ℕ → ℕ → ℝ} {S2aa : ℕ → ℕ → ℕ → ℕ → ℝ} (hT2aa : Acc4 u T2aa S2aa) {T2ab : ι → ℕ → ℕ → ℕ → ℕ → ℝ} {S2ab : ℕ → ℕ → ℕ → ℕ → ℝ} (hT2ab : Acc4 u T2ab S2ab) {T2bb : ι → ℕ → ℕ → ℕ → ℕ → ℝ} {S2bb : ℕ → ℕ → ℕ → ℕ → ℝ} (hT2bb : Acc4 u T2bb S2bb)
    {C : ι → List ℝ} {L : List ℝ} (hC : AccV u C L) :
    AccL u (fun e => u_T1a_T1b_T1b_T1b (rd e) basis refa refb noa nva nob nvb (T1a e) (T1b e) (T2aa e) (T2ab e) (T2bb e) (C e)) (CI.u_T1a_T1b_T1b_T1b basis refa refb noa nva nob nvb S1a S1b S2aa S2ab S2bb L) := by
  unfold u_T1a_T1b_T1b_T1b CI.u_T1a_T1b_T1b_T1b
  refine loop_acc (fun x C L hC => ?_) hC
  refine loop_acc (fun x C L hC => ?_) hC
  refine loop_acc (fun x C L hC => ?_) hC
  refine loop_acc (fun x C L hC => ?_) hC
  refine loop_acc (fun x C L hC => ?_) hC
  refine loop_acc (fun x C L hC => ?_) hC
  refine loop_acc (fun x C L hC => ?_) hC
  refine loop_acc (fun x C L hC => ?_) hC
  refine bind_acc fun rsa => ?_
  refine bind_acc fun rs1 => ?_
  rcases rs1 with _ | ⟨_, _⟩
  · exact .ok hC
  dsimp only
  refine bind_acc fun rs2 => ?_
  rcases rs2 with _ | ⟨_, _⟩
  · exact .ok hC
  dsimp only
  refine bind_acc fun rs3 => ?_
  rcases rsa with _ | ⟨_, _⟩
  · exact .ok hC
  dsimp only
  rcases rs3 with _ | ⟨_, _⟩
  · exact .ok hC
  dsimp only
  exact bind_acc fun idx => addFl_acc H hC (H.div (H.mul (H.mul (H.mul (H.mul (H.mul (H.mul (H.mul (.const _) (.const _)) (.const _)) (.const _)) (hT1a _ _)) (hT1b _ _)) (hT1b _ _)) (hT1b _ _)) _)

theorem u_T1b_T1b_T1b_T1b_acc (H : Roundings u η rd) (basis : List Pair) (refa refb : Dstring) (noa nva nob nvb : ℕ)
    {T1a : ι → ℕ → ℕ → ℝ} {S1a : ℕ → ℕ → ℝ} (hT1a : Acc2 u T1a S1a) {T1b : ι → ℕ → ℕ → ℝ} {S1b : ℕ → ℕ → ℝ} (hT1b : Acc2 u T1b S1b) {T2aa : ι → ℕ → ℕ → ℕ → ℕ → ℝ} {S2aa : ℕ → ℕ → ℕ → ℕ → ℝ} (hT2aa : Acc4 u T2aa S2aa) {T2ab : ι → ℕ → ℕ → ℕ → ℕ → ℝ} {S2ab : ℕ → ℕ → ℕ → ℕ → ℝ} (hT2ab : Acc4 u T2ab S2ab) {T2bb : ι → ℕ → ℕ → ℕ → ℕ → ℝ} {S2bb : ℕ → ℕ → ℕ → ℕ → ℝ} (hT2bb : Acc4 u T2bb S2bb)
    {C : ι → List ℝ} {L : List ℝ} (hC : AccV u C L) :
    AccL u (fun e => u_T1b_T1b_T1b_T1b (rd e) basis refa refb noa nva nob nvb (T1a e) (T1b e) (T2aa e) (T2ab e) (T2bb e) (C e)) (CI.u_T1b_T1b_T1b_T1b basis refa refb noa nva nob nvb S1a S1b S2aa S2ab S2bb L) := by
  unfold u_T1b_T1b_T1b_T1b CI.u_T1b_T1b_T1b_T1b
  refine loop_acc (fun x C L hC => ?_) hC
  refine loop_acc (fun x C L hC => ?_) hC
  refine loop_acc (fun x C L hC => ?_) hC
  refine loop_acc (fun x C L hC => ?_) hC
  refine loop_acc (fun x C L hC => ?_) hC
  refine loop_acc (fun x C L hC => ?_) hC
  refine loop_acc (fun x C L hC => ?_) hC
  refine loop_acc (fun x C L hC => ?_) hC
  refine bind_acc fun rs1 => ?_
  rcases rs1 with _ | ⟨_, _⟩
  · exact .ok hC
  dsimp only
  refine bind_acc fun rs2 => ?_
  rcases rs2 with _ | ⟨_, _⟩
  · exact .ok hC
  dsimp only
  refine bind_acc fun rs3 => ?_
  rcases rs3 with _ | ⟨_, _⟩
  · exact .ok hC
  dsimp only
  refine bind_acc fun rs4 => ?_
  rcases rs4 with _ | ⟨_, _⟩
  · exact .ok hC
  dsimp only
  exact bind_acc fun idx => addFl_acc H hC (H.div (H.mul (H.mul (H.mul (H.mul (H.mul (H.mul (H.mul (.const _) (.const _)) (.const _)) (.const _)) (hT1b _ _)) (hT1b _ _)) (hT1b _ _)) (hT1b _ _)) _)

end CI.FlExp
end
