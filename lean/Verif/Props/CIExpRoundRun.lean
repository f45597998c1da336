import Verif.Props.CIExpRoundTerms
/-!
# C101: coefficients from amplitudes in rounded arithmetic, the functions

Generated by tools/gen_ciexpfl.py.
-/
set_option linter.unusedVariables false
noncomputable section
namespace CI.FlExp
variable {ι : Type} {u : ι → ℝ} {η : ℝ} {rd : ι → ℝ → ℝ}

theorem throw_acc {α : Type} (er : Err) {f : ι → α → R (List ℝ)} {g : α → R (List ℝ)} : AccL u (fun e => (throw er : R α) >>= f e) ((throw er : R α) >>= g) := .error er

theorem same_acc {α : Type} {r : R α} {f : ι → α → R (List ℝ)} {g : α → R (List ℝ)} (h : ∀ x, AccL u (fun e => f e x) (g x)) :
    AccL u (fun e => r >>= f e) (r >>= g) := bind_acc h

theorem pure_acc {C : ι → List ℝ} {L : List ℝ} (h : AccV u C L) : AccL u (fun e => pure (C e)) (pure L) := .ok h

theorem AccL.const (Y : R (List ℝ)) : AccL u (fun _ => Y) Y := by
  cases Y with
  | error e => exact .error e
  | ok L => exact .ok ⟨fun _ => rfl, fun _ => .const _⟩

theorem gmakeCfromT_acc (H : Roundings u η rd) (no nv order : ℕ) (occ? : Option (List ℤ))
    {T1 : ι → ℕ → ℕ → ℝ} {S1 : ℕ → ℕ → ℝ} (hT1 : Acc2 u T1 S1) {T2 : ι → ℕ → ℕ → ℕ → ℕ → ℝ} {S2 : ℕ → ℕ → ℕ → ℕ → ℝ} (hT2 : Acc4 u T2 S2) :
    AccL u (fun e => gmakeCfromT (rd e) no nv (T1 e) (T2 e) order occ?) (CI.gmakeCfromT no nv S1 S2 order occ?) := by
  unfold gmakeCfromT CI.gmakeCfromT
  dsimp only
  with_reducible refine ite_acc (fun _ => throw_acc _) fun _ => ?_
  with_reducible refine same_acc fun _ => ?_
  with_reducible refine same_acc fun _ => ?_
  with_reducible refine step_acc (.const _) fun C L hC => ?_
  with_reducible refine step_acc (g_T1_acc H _ _ _ _ hT1 hT2 hC) fun C L hC => ?_
  with_reducible refine step_acc (X := fun e => _) ?_ fun C L hC => ?_
  · with_reducible refine ite_acc (fun _ => ?_) fun _ => pure_acc hC
    with_reducible refine step_acc (g_T2_acc H _ _ _ _ hT1 hT2 hC) fun C L hC => ?_
    with_reducible exact (g_T1_T1_acc H _ _ _ _ hT1 hT2 hC)
  with_reducible refine step_acc (X := fun e => _) ?_ fun C L hC => ?_
  · with_reducible refine ite_acc (fun _ => ?_) fun _ => pure_acc hC
    with_reducible refine step_acc (g_T1_T2_acc H _ _ _ _ hT1 hT2 hC) fun C L hC => ?_
    with_reducible exact (g_T1_T1_T1_acc H _ _ _ _ hT1 hT2 hC)
  with_reducible refine ite_acc (fun _ => ?_) fun _ => pure_acc hC
  with_reducible refine step_acc (g_T2_T2_acc H _ _ _ _ hT1 hT2 hC) fun C L hC => ?_
  with_reducible refine step_acc (g_T1_T1_T2_acc H _ _ _ _ hT1 hT2 hC) fun C L hC => ?_
  with_reducible exact (g_T1_T1_T1_T1_acc H _ _ _ _ hT1 hT2 hC)

theorem makeCfromT_acc (H : Roundings u η rd) (noa nva nob nvb order : ℕ)
    {T1a : ι → ℕ → ℕ → ℝ} {S1a : ℕ → ℕ → ℝ} (hT1a : Acc2 u T1a S1a) {T1b : ι → ℕ → ℕ → ℝ} {S1b : ℕ → ℕ → ℝ} (hT1b : Acc2 u T1b S1b) {T2aa : ι → ℕ → ℕ → ℕ → ℕ → ℝ} {S2aa : ℕ → ℕ → ℕ → ℕ → ℝ} (hT2aa : Acc4 u T2aa S2aa) {T2ab : ι → ℕ → ℕ → ℕ → ℕ → ℝ} {S2ab : ℕ → ℕ → ℕ → ℕ → ℝ} (hT2ab : Acc4 u T2ab S2ab) {T2bb : ι → ℕ → ℕ → ℕ → ℕ → ℝ} {S2bb : ℕ → ℕ → ℕ → ℕ → ℝ} (hT2bb : Acc4 u T2bb S2bb) :
    AccL u (fun e => makeCfromT (rd e) noa nva nob nvb (T1a e) (T1b e) (T2aa e) (T2ab e) (T2bb e) order) (CI.makeCfromT noa nva nob nvb S1a S1b S2aa S2ab S2bb order) := by
  unfold makeCfromT CI.makeCfromT
  dsimp only
  with_reducible refine ite_acc (fun _ => throw_acc _) fun _ => ?_
  with_reducible refine ite_acc (fun _ => throw_acc _) fun _ => ?_
  with_reducible refine same_acc fun _ => ?_
  with_reducible refine same_acc fun _ => ?_
  with_reducible refine same_acc fun _ => ?_
  with_reducible refine step_acc (.const _) fun C L hC => ?_
  with_reducible refine step_acc (u_T1a_acc H _ _ _ _ _ _ _ hT1a hT1b hT2aa hT2ab hT2bb hC) fun C L hC => ?_
  with_reducible refine step_acc (u_T1b_acc H _ _ _ _ _ _ _ hT1a hT1b hT2aa hT2ab hT2bb hC) fun C L hC => ?_
  with_reducible refine step_acc (X := fun e => _) ?_ fun C L hC => ?_
  · with_reducible refine ite_acc (fun _ => ?_) fun _ => pure_acc hC
    with_reducible refine step_acc (u_T2aa_acc H _ _ _ _ _ _ _ hT1a hT1b hT2aa hT2ab hT2bb hC) fun C L hC => ?_
    with_reducible refine step_acc (u_T2bb_acc H _ _ _ _ _ _ _ hT1a hT1b hT2aa hT2ab hT2bb hC) fun C L hC => ?_
    with_reducible refine step_acc (u_T2ab_acc H _ _ _ _ _ _ _ hT1a hT1b hT2aa hT2ab hT2bb hC) fun C L hC => ?_
    with_reducible refine step_acc (u_T1a_T1a_acc H _ _ _ _ _ _ _ hT1a hT1b hT2aa hT2ab hT2bb hC) fun C L hC => ?_
    with_reducible refine step_acc (u_T1b_T1b_acc H _ _ _ _ _ _ _ hT1a hT1b hT2aa hT2ab hT2bb hC) fun C L hC => ?_
    with_reducible exact (u_T1a_T1b_acc H _ _ _ _ _ _ _ hT1a hT1b hT2aa hT2ab hT2bb hC)
  with_reducible refine step_acc (X := fun e => _) ?_ fun C L hC => ?_
  · with_reducible refine ite_acc (fun _ => ?_) fun _ => pure_acc hC
    with_reducible refine step_acc (u_T1a_T2aa_acc H _ _ _ _ _ _ _ hT1a hT1b hT2aa hT2ab hT2bb hC) fun C L hC => ?_
    with_reducible refine step_acc (u_T1a_T2ab_acc H _ _ _ _ _ _ _ hT1a hT1b hT2aa hT2ab hT2bb hC) fun C L hC => ?_
    with_reducible refine step_acc (u_T1b_T2aa_acc H _ _ _ _ _ _ _ hT1a hT1b hT2aa hT2ab hT2bb hC) fun C L hC => ?_
    with_reducible refine step_acc (u_T1a_T2bb_acc H _ _ _ _ _ _ _ hT1a hT1b hT2aa hT2ab hT2bb hC) fun C L hC => ?_
    with_reducible refine step_acc (u_T1b_T2ab_acc H _ _ _ _ _ _ _ hT1a hT1b hT2aa hT2ab hT2bb hC) fun C L hC => ?_
    with_reducible refine step_acc (u_T1b_T2bb_acc H _ _ _ _ _ _ _ hT1a hT1b hT2aa hT2ab hT2bb hC) fun C L hC => ?_
    with_reducible refine step_acc (u_T1a_T1a_T1a_acc H _ _ _ _ _ _ _ hT1a hT1b hT2aa hT2ab hT2bb hC) fun C L hC => ?_
    with_reducible refine step_acc (u_T1a_T1a_T1b_acc H _ _ _ _ _ _ _ hT1a hT1b hT2aa hT2ab hT2bb hC) fun C L hC => ?_
    with_reducible refine step_acc (u_T1a_T1b_T1b_acc H _ _ _ _ _ _ _ hT1a hT1b hT2aa hT2ab hT2bb hC) fun C L hC => ?_
    with_reducible exact (u_T1b_T1b_T1b_acc H _ _ _ _ _ _ _ hT1a hT1b hT2aa hT2ab hT2bb hC)
  with_reducible refine ite_acc (fun _ => ?_) fun _ => pure_acc hC
  with_reducible refine step_acc (u_T2aa_T2aa_acc H _ _ _ _ _ _ _ hT1a hT1b hT2aa hT2ab hT2bb hC) fun C L hC => ?_
  with_reducible refine step_acc (u_T2aa_T2ab_acc H _ _ _ _ _ _ _ hT1a hT1b hT2aa hT2ab hT2bb hC) fun C L hC => ?_
  with_reducible refine step_acc (u_T2aa_T2bb_acc H _ _ _ _ _ _ _ hT1a hT1b hT2aa hT2ab hT2bb hC) fun C L hC => ?_
  with_reducible refine step_acc (u_T2ab_T2ab_acc H _ _ _ _ _ _ _ hT1a hT1b hT2aa hT2ab hT2bb hC) fun C L hC => ?_
  with_reducible refine step_acc (u_T2ab_T2bb_acc H _ _ _ _ _ _ _ hT1a hT1b hT2aa hT2ab hT2bb hC) fun C L hC => ?_
  with_reducible refine step_acc (u_T2bb_T2bb_acc H _ _ _ _ _ _ _ hT1a hT1b hT2aa hT2ab hT2bb hC) fun C L hC => ?_
  with_reducible refine step_acc (u_T1a_T1a_T2aa_acc H _ _ _ _ _ _ _ hT1a hT1b hT2aa hT2ab hT2bb hC) fun C L hC => ?_
  with_reducible refine step_acc (u_T1a_T1a_T2ab_acc H _ _ _ _ _ _ _ hT1a hT1b hT2aa hT2ab hT2bb hC) fun C L hC => ?_
  with_reducible refine step_acc (u_T1a_T1b_T2aa_acc H _ _ _ _ _ _ _ hT1a hT1b hT2aa hT2ab hT2bb hC) fun C L hC => ?_
  with_reducible refine step_acc (u_T1a_T1a_T2bb_acc H _ _ _ _ _ _ _ hT1a hT1b hT2aa hT2ab hT2bb hC) fun C L hC => ?_
  with_reducible refine step_acc (u_T1a_T1b_T2ab_acc H _ _ _ _ _ _ _ hT1a hT1b hT2aa hT2ab hT2bb hC) fun C L hC => ?_
  with_reducible refine step_acc (u_T1a_T1b_T2bb_acc H _ _ _ _ _ _ _ hT1a hT1b hT2aa hT2ab hT2bb hC) fun C L hC => ?_
  with_reducible refine step_acc (u_T1b_T1b_T2ab_acc H _ _ _ _ _ _ _ hT1a hT1b hT2aa hT2ab hT2bb hC) fun C L hC => ?_
  with_reducible refine step_acc (u_T1b_T1b_T2bb_acc H _ _ _ _ _ _ _ hT1a hT1b hT2aa hT2ab hT2bb hC) fun C L hC => ?_
  with_reducible refine step_acc (u_T1a_T1a_T1a_T1a_acc H _ _ _ _ _ _ _ hT1a hT1b hT2aa hT2ab hT2bb hC) fun C L hC => ?_
  with_reducible refine step_acc (u_T1a_T1a_T1a_T1b_acc H _ _ _ _ _ _ _ hT1a hT1b hT2aa hT2ab hT2bb hC) fun C L hC => ?_
  with_reducible refine step_acc (u_T1a_T1a_T1b_T1b_acc H _ _ _ _ _ _ _ hT1a hT1b hT2aa hT2ab hT2bb hC) fun C L hC => ?_
  with_reducible refine step_acc (u_T1a_T1b_T1b_T1b_acc H _ _ _ _ _ _ _ hT1a hT1b hT2aa hT2ab hT2bb hC) fun C L hC => ?_
  with_reducible exact (u_T1b_T1b_T1b_T1b_acc H _ _ _ _ _ _ _ hT1a hT1b hT2aa hT2ab hT2bb hC)

end CI.FlExp
end
