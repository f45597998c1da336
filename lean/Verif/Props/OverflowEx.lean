import Verif.Props.OverflowCC
import Verif.Props.Binary
/-!
# C105: IEEE arithmetic with overflow, and calls that do overflow
-/

namespace Heap
open Prog CC Binary
variable (p : ℕ) (emin : ℤ)

/-- An operation of IEEE arithmetic: the exact result is rounded, and is not finite if the rounded result exceeds the largest number. -/
noncomputable def ieee (Ω : ℝ) (o : Op) : Option ℝ → Option ℝ → Option ℝ
  | some a, some b => if |rd p emin (opVal o a b)| ≤ Ω then some (rd p emin (opVal o a b)) else none
  | _, _ => none

/-- C105: rounding to nearest does not lead out of the range. -/
theorem C105_nearest (hp : 0 < p) {Ω : ℝ} (hΩ : Ω ∈ F p emin) {x : ℝ} (h : |x| ≤ Ω) : |rd p emin x| ≤ Ω := by
  have hn : -Ω ∈ F p emin := by
    obtain ⟨m, e, h1, h2, h3⟩ := hΩ
    exact ⟨-m, e, by rwa [abs_neg], h2, by rw [h3]; push_cast; ring⟩
  obtain ⟨-, hx⟩ := C84_nearest p emin hp x
  have h1 := hx Ω hΩ
  have h2 := hx (-Ω) hn
  rw [abs_le] at h ⊢
  constructor
  · by_contra hc
    rw [not_le] at hc
    rw [abs_of_nonpos (by linarith), abs_of_nonpos (by linarith)] at h2
    linarith
  · by_contra hc
    rw [not_le] at hc
    rw [abs_of_nonneg (by linarith), abs_of_nonneg (by linarith)] at h1
    linarith

/-- Real arrays in IEEE arithmetic with the largest number `Ω`, sums of products from left to right. -/
noncomputable def binaryOver (hp : 0 < p) {Ω : ℝ} (hΩ : Ω ∈ F p emin) :
    Overflowing ℝ ((1 / 2) ^ p) (2 ^ (emin + p - 1)) (szSum (2 ^ (emin + p - 1))) (pkSum (2 ^ (emin + p - 1))) Ω :=
  ltrO (by positivity) (half_le p) (two_pos _).le Ω (fun n d => rd p emin (n / d)) (fun o a b => rd p emin (opVal o a b)) (ieee p emin Ω)
    (fun _ _ => rd_err_normal p emin _) (fun _ _ _ => rd_err_normal p emin _) (fun o a b h => by
      rw [ieee, if_pos (C105_nearest p emin hp hΩ h)])

/-- C105: in IEEE arithmetic a routine gives finite numbers of full accuracy whenever the largest number is large enough for the exact arguments, which
are the same for all precisions of a given smallest normal number `2 ^ e0`. -/
theorem C105_binary {n : ℕ → ℕ} {f : Fun} {ds es : List (Desc n ℝ)} (h : InRange f ds es) (e0 : ℤ) : ∃ C Ω₀, 0 ≤ C ∧ ∀ p : ℕ, (hp : 0 < p) →
    ∀ Ω, (hΩ : Ω ∈ F p (e0 + 1 - p)) → Ω₀ ≤ Ω → ∀ (M : Mem (Arr (Option ℝ))) (args : List Ref),
      let J := (overflowing (binaryOver p (e0 + 1 - p) hp hΩ) true id).total ⟨false, [], fun _ => none⟩ (fun _ a _ => a)
      args.length = f.params.length → (∀ r ∈ args, r.1 < M.next) → List.Forall₂ (NearIsO 0) ds (args.map fun r => seen J r.2 (M.heap r.1)) →
      ∃ rs M', f.run J args M = some (rs, M') ∧ List.Forall₂ (NearIsO (C * (1 / 2) ^ p)) es (rs.map fun r => seen J r.2 (M'.heap r.1)) := by
  obtain ⟨C, Ω₀, hC, hb⟩ := h id (fun _ _ => le_rfl) (2 ^ e0) (two_pos _).le _ (sz_mono (two_pos _).le) _ (pk_mono (two_pos _).le) 0 le_rfl
  refine ⟨C, Ω₀, hC, fun p hp Ω hΩ hle M args => ?_⟩
  have key : ∀ (η : ℝ) (O : Overflowing ℝ ((1 / 2) ^ p) η (szSum η) (pkSum η) Ω), η = 2 ^ e0 →
      let J := (overflowing O true id).total ⟨false, [], fun _ => none⟩ (fun _ a _ => a)
      args.length = f.params.length → (∀ r ∈ args, r.1 < M.next) → List.Forall₂ (NearIsO 0) ds (args.map fun r => seen J r.2 (M.heap r.1)) →
      ∃ rs M', f.run J args M = some (rs, M') ∧ List.Forall₂ (NearIsO (C * (1 / 2) ^ p)) es (rs.map fun r => seen J r.2 (M'.heap r.1)) := by
    rintro η O rfl J h1 h2 h3
    obtain ⟨rs, M', -, h4, -, -, -, h5⟩ := hb _ (by positivity) (half_le p) Ω hle O id (fun _ => rfl) _ (fun _ a _ => a) M args h1 h2 (by rwa [zero_mul])
    exact ⟨rs, M', h4, h5⟩
  exact key _ _ (by congr 1; ring)

/-- C105: however large the largest number, there are arguments in range for which an energy is not finite. -/
theorem C105_overflows (hp : 0 < p) {Ω : ℝ} (hΩ : Ω ∈ F p emin) (h1 : 2 < Ω) :
    ∃ b, cc_energy_s1.nrun (overflowing (binaryOver p emin hp hΩ) true id) [⟨false, [1, 1], fun _ => some Ω⟩, ⟨false, [1, 1], fun _ => some Ω⟩] = .ok [b] ∧
      b.shape = [] ∧ b.val [] = none := by
  refine ⟨_, rfl, rfl, ?_⟩
  have h2 : 2 * Ω ∈ F p emin := by
    obtain ⟨m, e, m1, m2, m3⟩ := hΩ
    exact ⟨m, e + 1, m1, by omega, by rw [m3, zpow_add_one₀ (by norm_num)]; ring⟩
  have h3 := (C84_nearest p emin hp (Ω * Ω)).2 _ h2
  have h4 : Ω < |rd p emin (Ω * Ω)| := by
    by_contra hc
    rw [not_lt, abs_le] at hc
    rw [abs_of_nonpos (by nlinarith), abs_of_nonpos (by nlinarith)] at h3
    linarith
  change (binaryOver p emin hp hΩ).sop [[some Ω, some Ω]] = none
  change ieee p emin Ω .add (some 0) (ieee p emin Ω .mul (some Ω) (some Ω)) = none
  have h5 : ieee p emin Ω .mul (some Ω) (some Ω) = none := by
    exact if_neg (not_le.mpr h4)
  rw [h5, ieee]
  simp

/-- The largest number of double precision. -/
example : ((2 ^ 53 - 1) * 2 ^ (971 : ℤ) : ℝ) ∈ F 53 (-1074) := ⟨2 ^ 53 - 1, 971, by norm_num, by norm_num, by push_cast; ring⟩

/-- Two occupied and three virtual orbitals, complex integrals, real amplitudes. -/
example (F : OneE (Fin 2) (Fin 3) ℂ) (I : TwoE (Fin 2) (Fin 3) ℂ) (T1 : Fin 3 → Fin 2 → ℂ) (T2 : Fin 3 → Fin 3 → Fin 2 → Fin 2 → ℂ) :
    InRange (n := fun k => k + 2) ccsd_stanton
      [.two true 0 0 F.oo, .two true 0 1 F.ov, .two true 1 0 F.vo, .two true 1 1 F.vv, .four true 0 0 0 0 I.oooo, .four true 0 0 0 1 I.ooov, .four true 0 0 1 1 I.oovv, .four true 1 0 0 0 I.vooo, .four true 1 0 1 0 I.vovo, .four true 1 0 1 1 I.vovv, .four true 1 1 0 0 I.vvoo, .four true 1 1 1 0 I.vvvo, .four true 1 1 1 1 I.vvvv, .two false 1 0 T1, .four false 1 1 0 0 T2]
      [.two true 1 0 (CC.ccsd_stanton F I T1 T2).1, .four true 1 1 0 0 (CC.ccsd_stanton F I T1 T2).2] :=
  C105_ccsd_stanton (n := fun k => k + 2) (fun h => absurd h (by decide)) F I T1 T2

/-- The energy of given amplitudes in IEEE arithmetic is finite and accurate if the largest number is large enough; the memory is that of a call. -/
example (t1 : Fin 3 → Fin 2 → ℝ) (f : Fin 2 → Fin 3 → ℝ) : ∃ C Ω₀, 0 ≤ C ∧ ∀ p : ℕ, (hp : 0 < p) → ∀ Ω, (hΩ : Ω ∈ F p (-1022 + 1 - p)) → Ω₀ ≤ Ω →
    ∃ (r : Ref) (M : Mem (Arr (Option ℝ))) (y : ℝ), (seen ((overflowing (binaryOver p (-1022 + 1 - p) hp hΩ) true id).total ⟨false, [], fun _ => none⟩ fun _ a _ => a) r.2 (M.heap r.1)).val [] = some y ∧
      |y - CC.cc_energy_s1 t1 f| ≤ C * (1 / 2) ^ p := by
  obtain ⟨C, Ω₀, hC, h⟩ := C105_binary (C105_cc_energy_s1 (n := fun k => k + 2) (i := false) (t := false) t1 f) (-1022)
  refine ⟨C, Ω₀, hC, fun p hp Ω hΩ hle => ?_⟩
  obtain ⟨rs, M, -, h3⟩ := h p hp Ω hΩ hle
    ⟨2, fun l => (([.two false 1 0 t1, .two false 0 1 f].map fun d : Desc (fun k => k + 2) ℝ => (⟨d.cx, d.ten.shape.map fun k => k + 2, fun idx => some (Cur.get d.ten.shape d.ten.val idx)⟩ : Arr (Option ℝ)))[l]?).getD ⟨false, [], fun _ => none⟩⟩
    [(0, []), (1, [])] rfl (by simp) (by
      refine .cons ⟨rfl, rfl, fun idx _ => ⟨_, rfl, ?_⟩⟩ (.cons ⟨rfl, rfl, fun idx _ => ⟨_, rfl, ?_⟩⟩ .nil)
      all_goals exact le_of_eq (by rw [norm_eq_zero]; exact sub_self _))
  match rs, h3 with
  | [r], .cons h3 .nil =>
    obtain ⟨y, e1, e2⟩ := h3.2.2 [] (by rw [h3.2.1]; exact .nil)
    exact ⟨r, M, y, e1, e2⟩

end Heap
