import Verif.Props.NumG
import Mathlib.Data.Rat.Defs
/-!
# C53, C54: the hypotheses can be met; imaginary parts that are dropped
-/

namespace Heap
open Prog CC
variable {n : ℕ → ℕ} {K : Type} [Field K]

/-- An array as described. -/
def Desc.arr (d : Desc n K) : Arr K := ⟨d.cx, d.ten.shape.map n, Cur.get d.ten.shape d.ten.val⟩

theorem Desc.arr_is (d : Desc n K) : Is d d.arr := ⟨rfl, rfl, fun _ _ => rfl⟩

/-- There are arguments meeting every list of descriptions: one buffer for each. -/
theorem exists_args (J : Interp (Arr K)) (ds : List (Desc n K)) : ∃ (M : Mem (Arr K)) (args : List Ref),
    args.length = ds.length ∧ (∀ r ∈ args, r.1 < M.next) ∧ List.Forall₂ Is ds (args.map fun r => seen J r.2 (M.heap r.1)) := by
  refine ⟨⟨ds.length, fun l => ((ds.map Desc.arr)[l]?).getD ⟨false, [], fun _ => 0⟩⟩, (List.range ds.length).map fun l => (l, []),
    by simp, by simp, ?_⟩
  rw [List.forall₂_iff_get]
  refine ⟨by simp, fun i h1 h2 => ?_⟩
  simp [seen, List.getElem?_eq_getElem h1]
  exact Desc.arr_is _

example (F : OneE (Fin 2) (Fin 3) ℚ) (I : TwoE (Fin 2) (Fin 3) ℚ) (T1 : Fin 3 → Fin 2 → ℚ) (T2 : Fin 3 → Fin 3 → Fin 2 → Fin 2 → ℚ) :
    ∃ (as rs : List (Arr ℚ)), Prog.ccsd_simple.nrun (numpy true id) as = .ok rs ∧
      List.Forall₂ (Is (n := fun k => k + 2)) [.two true 1 0 (CC.ccsd_simple F I T1 T2).1, .four true 1 1 0 0 (CC.ccsd_simple F I T1 T2).2] rs := by
  have h := C53_ccsd_simple (n := fun k => k + 2) (i := true) (t := false) (by simp) F I T1 T2 id ⟨false, [], fun _ => 0⟩ (fun _ a _ => a)
  obtain ⟨M, args, h1, h2, h3⟩ := exists_args (n := fun k => k + 2) ((numpy true id).total ⟨false, [], fun _ => 0⟩ fun _ a _ => a)
    [.two true 0 0 F.oo, .two true 0 1 F.ov, .two true 1 0 F.vo, .two true 1 1 F.vv, .four true 0 0 0 0 I.oooo, .four true 0 0 0 1 I.ooov,
      .four true 0 0 1 1 I.oovv, .four true 1 0 0 0 I.vooo, .four true 1 0 1 0 I.vovo, .four true 1 0 1 1 I.vovv, .four true 1 1 0 0 I.vvoo,
      .four true 1 1 1 0 I.vvvo, .four true 1 1 1 1 I.vvvv, .two false 1 0 T1, .four false 1 1 0 0 T2]
  obtain ⟨rs, M', h4, -, -, -, -, h5⟩ := h M args h1 h2 h3
  exact ⟨_, _, h4, h5⟩

/-- A complex Fock matrix with real two-electron integrals: `ccd_stanton` drops the imaginary parts of the Fock matrix
(`F.vv.astype(T2.dtype)`, where `T2` is a copy of `I.vvoo`); the only sign is a `ComplexWarning`. -/
theorem C54_ccd_stanton_loss {t : Bool} (F : OneE (Fin (n 0)) (Fin (n 1)) K) (I : TwoE (Fin (n 0)) (Fin (n 1)) K)
    (T2old : Fin (n 1) → Fin (n 1) → Fin (n 0) → Fin (n 0) → K) (re : K → K) (as : List (Arr K))
    (h : List.Forall₂ Is
      [.two true 0 0 F.oo, .two true 1 1 F.vv, .four false 0 0 0 0 I.oooo, .four false 0 0 1 1 I.oovv, .four false 1 0 1 0 I.vovo,
        .four false 1 1 0 0 I.vvoo, .four false 1 1 1 1 I.vvvv, .four t 1 1 0 0 T2old] as) :
    Prog.ccd_stanton.nrun (numpy true re) as = .error .loss := by
  have s1 := nrun_sim (RE.lifts _) (types_sim n true re) Prog.ccd_stanton (is_tys h)
  rw [show Prog.ccd_stanton.nrun (types true) _ = .error .loss by cases t <;> krfl] at s1
  exact s1 (.inr rfl)

end Heap
