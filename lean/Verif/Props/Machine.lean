import Verif.Props.Util
import Mathlib.Tactic.Linarith
import Mathlib.Data.Real.Basic
/-!
# C71: symmetries of random tensors and denominators in machine arithmetic

The generators of test_utils.py and the denominators of utils.py are run on numbers whose addition need not be associative.
-/
namespace CC.Num

/-- Numbers with the laws of signs and commutativity that rounded arithmetic has: no associativity, no distributivity.  (Zeros of either sign
are one number, as in comparisons; there is no NaN.) -/
class Machine (K : Type) extends Add K, Sub K, Neg K, Zero K where
  add_comm' : ∀ a b : K, a + b = b + a
  sub_swap : ∀ a b : K, a - b = -(b - a)
  neg_neg' : ∀ a : K, - -a = a
  sub_neg : ∀ a b : K, -a - -b = -(a - b)
  add_neg : ∀ a b : K, -a + -b = -(a + b)
  neg_zero' : -(0 : K) = 0

/-- Real numbers with a rounding after each operation. -/
structure RR (rd : ℝ → ℝ) where
  val : ℝ

/-- Rounding is odd: the only property needed here. -/
class Odd (rd : ℝ → ℝ) : Prop where
  odd : ∀ x, rd (-x) = -rd x

instance (rd : ℝ → ℝ) : Add (RR rd) := ⟨fun a b => ⟨rd (a.val + b.val)⟩⟩
instance (rd : ℝ → ℝ) : Sub (RR rd) := ⟨fun a b => ⟨rd (a.val - b.val)⟩⟩
instance (rd : ℝ → ℝ) : Neg (RR rd) := ⟨fun a => ⟨-a.val⟩⟩
instance (rd : ℝ → ℝ) : Zero (RR rd) := ⟨⟨0⟩⟩

instance (rd : ℝ → ℝ) [h : Odd rd] : Machine (RR rd) where
  add_comm' a b := congrArg RR.mk (by rw [add_comm])
  sub_swap a b := congrArg RR.mk (show rd (a.val - b.val) = -rd (b.val - a.val) by rw [← h.odd]; congr 1; ring)
  neg_neg' a := congrArg RR.mk (neg_neg _)
  sub_neg a b := congrArg RR.mk (show rd (-a.val - -b.val) = -rd (a.val - b.val) by rw [← h.odd]; congr 1; ring)
  add_neg a b := congrArg RR.mk (show rd (-a.val + -b.val) = -rd (a.val + b.val) by rw [← h.odd]; congr 1; ring)
  neg_zero' := congrArg RR.mk neg_zero

open Machine
variable {K : Type} [Machine K]

/-- Antisymmetric in each pair. -/
structure AntiM (T : ℕ → ℕ → ℕ → ℕ → K) : Prop where
  a12 : ∀ x y z w, T y x z w = -T x y z w
  a34 : ∀ x y z w, T x y w z = -T x y z w

theorem AntiM.both {T : ℕ → ℕ → ℕ → ℕ → K} (h : AntiM T) (x y z w : ℕ) : T y x w z = T x y z w := by
  rw [h.a12, h.a34, neg_neg']

theorem anti_dbl {C : ℕ → ℕ → ℕ → ℕ → K} (h : AntiM C) : AntiM (C + tr1032 C) := by
  constructor <;> intro x y z w
  · show C y x z w + C x y w z = -(C x y z w + C y x w z)
    rw [h.both x y z w, h.a12 x y z w, h.a34 x y z w, Machine.add_neg]
  · show C x y w z + C y x z w = -(C x y z w + C y x w z)
    rw [h.both x y z w, h.a12 x y z w, h.a34 x y z w, Machine.add_neg]

/-- Antisymmetrised in the last pair, then in the first. -/
theorem anti_first (A : ℕ → ℕ → ℕ → ℕ → K) :
    AntiM ((A - tr0132 A) - tr1023 (A - tr0132 A) + tr1032 ((A - tr0132 A) - tr1023 (A - tr0132 A))) := by
  have h1 : ∀ x y z w, (A - tr0132 A) x y w z = -(A - tr0132 A) x y z w := fun x y z w => sub_swap _ _
  generalize A - tr0132 A = B at h1
  refine anti_dbl ⟨fun x y z w => sub_swap _ _, fun x y z w => ?_⟩
  show B x y w z - B y x w z = -(B x y z w - B y x z w)
  rw [h1 x y z w, h1 y x z w, Machine.sub_neg]

/-- Antisymmetrised in the first pair, then in the last. -/
theorem anti_last (A : ℕ → ℕ → ℕ → ℕ → K) :
    AntiM ((A - tr1023 A) - tr0132 (A - tr1023 A) + tr1032 ((A - tr1023 A) - tr0132 (A - tr1023 A))) := by
  have h1 : ∀ x y z w, (A - tr1023 A) y x z w = -(A - tr1023 A) x y z w := fun x y z w => sub_swap _ _
  generalize A - tr1023 A = B at h1
  refine anti_dbl ⟨fun x y z w => ?_, fun x y z w => sub_swap _ _⟩
  show B y x z w - B y x w z = -(B x y z w - B x y w z)
  rw [h1 x y z w, h1 x y w z, Machine.sub_neg]

/-- C71: amplitudes and multipliers drawn by test_utils are antisymmetric to the last bit. -/
theorem C71_T (T1 : ℕ → ℕ → K) (T2 : ℕ → ℕ → ℕ → ℕ → K) : AntiM (make_random_T T1 T2).2 ∧ AntiM (make_random_L T1 T2).2 :=
  ⟨anti_last T2, anti_last T2⟩

/-- C71: the same-spin parts of spatial amplitudes. -/
theorem C71_T2_spatial (Taa Tbb Tab : ℕ → ℕ → ℕ → ℕ → K) :
    AntiM (make_random_T2_spatial Taa Tbb Tab).1 ∧ AntiM (make_random_T2_spatial Taa Tbb Tab).2.2 := ⟨anti_last Taa, anti_last Tbb⟩

/-- C71: amplitudes on a grid of times, and integrals without occupied-virtual blocks. -/
theorem C71_ft (F : ℕ → ℕ → K) (I : ℕ → ℕ → ℕ → ℕ → K) (T1 : ℕ → ℕ → ℕ → K) (T2 Ta Tb Tab : ℕ → ℕ → ℕ → ℕ → ℕ → K) (g : ℕ) :
    (∀ x y, (make_random_ft_integrals F I).1 y x = (make_random_ft_integrals F I).1 x y) ∧ AntiM (make_random_ft_integrals F I).2 ∧
      AntiM ((make_random_ft_T T1 T2).2 g) ∧ AntiM ((make_random_ft_T2_spatial Ta Tb Tab).1 g) ∧
      AntiM ((make_random_ft_T2_spatial Ta Tb Tab).2.2 g) :=
  ⟨fun _ _ => add_comm' _ _, anti_first I, anti_first (T2 g), anti_first (Ta g), anti_first (Tb g)⟩

/-- C71: the Fock matrix is symmetric to the last bit. -/
theorem C71_F (foo fov fvv : ℕ → ℕ → K) :
    (∀ i j, (make_random_F foo fov fvv).oo j i = (make_random_F foo fov fvv).oo i j) ∧
      (∀ a b, (make_random_F foo fov fvv).vv b a = (make_random_F foo fov fvv).vv a b) ∧
      ∀ i a, (make_random_F foo fov fvv).vo a i = (make_random_F foo fov fvv).ov i a :=
  ⟨fun _ _ => add_comm' _ _, fun _ _ => add_comm' _ _, fun _ _ => rfl⟩

/-- C71: the blocks of `make_random_I_anti` are slices of an array that is antisymmetric to the last bit. -/
theorem C71_I_anti (no nv : ℕ) (A : ℕ → ℕ → ℕ → ℕ → K) : ∃ B, AntiM B ∧ SlicesOf no nv B (make_random_I_anti no nv A) := by
  refine ⟨_, anti_first A, ?_⟩
  constructor <;> intro x hx y hy z hz w hw <;> simp only [make_random_I_anti, getSl4, zero_add] <;> rw [if_pos (by omega)]

/-- C71: `make_random_I` is symmetric under exchange of the electrons to the last bit. -/
theorem C71_I (no nv : ℕ) (A : ℕ → ℕ → ℕ → ℕ → K) :
    ∃ B, (∀ x y z w, B y x w z = B x y z w) ∧ SlicesOf no nv B (make_random_I no nv A) := by
  refine ⟨A + tr1032 A, fun x y z w => add_comm' _ _, ?_⟩
  constructor <;> intro x hx y hy z hz w hw <;> simp only [make_random_I, getSl4, zero_add] <;> rw [if_pos (by omega)]

/-- C71: `make_random_Itot` has the symmetries of its group to the last bit. -/
theorem C71_Itot (A : ℕ → ℕ → ℕ → ℕ → K) (x y z w : ℕ) :
    make_random_Itot A y x w z = make_random_Itot A x y z w ∧ make_random_Itot A z w x y = make_random_Itot A x y z w ∧
      make_random_Itot A w z y x = make_random_Itot A x y z w := by
  have h1 : ∀ x y z w, (A + tr1032 A) y x w z = (A + tr1032 A) x y z w := fun x y z w => add_comm' _ _
  unfold make_random_Itot
  generalize A + tr1032 A = B at h1
  have h2 : ∀ x y z w, (B + tr2301 B) z w x y = (B + tr2301 B) x y z w := fun x y z w => add_comm' _ _
  have h3 : ∀ x y z w, (B + tr2301 B) y x w z = (B + tr2301 B) x y z w := fun x y z w => by
    show B y x w z + B w z y x = B x y z w + B z w x y
    rw [h1, h1 z w]
  generalize B + tr2301 B = C at h2 h3
  have h4 : ∀ x y z w, C w z y x = C x y z w := fun x y z w => by rw [h2 y x w z, h3]
  refine ⟨?_, ?_, ?_⟩
  · show C y x w z + C z w x y = C x y z w + C w z y x
    rw [h2 x y z w, h3 x y z w, h4 x y z w]
  · show C z w x y + C y x w z = C x y z w + C w z y x
    rw [h2 x y z w, h3 x y z w, h4 x y z w]
  · exact add_comm' _ _

/-- C71: `make_random_Ifull`, which takes some blocks as transposes of others, consists of slices of one exactly antisymmetric array. -/
theorem C71_Ifull (no nv : ℕ) (A : ℕ → ℕ → ℕ → ℕ → K) :
    PairI (make_random_Ifull no nv A) ∧
    ∃ B, AntiM B ∧ ∃ R, make_two_e_blocks_full B (no + nv) (no + nv) (no + nv) (no + nv) no nv no nv no nv no nv = .ok R ∧
      R.vvvv = some (make_random_Ifull no nv A).vvvv ∧ R.vvvo = some (make_random_Ifull no nv A).vvvo ∧
      R.vvov = some (make_random_Ifull no nv A).vvov ∧ R.vovv = some (make_random_Ifull no nv A).vovv ∧
      R.ovvv = some (make_random_Ifull no nv A).ovvv ∧ R.vvoo = some (make_random_Ifull no nv A).vvoo ∧
      R.vovo = some (make_random_Ifull no nv A).vovo ∧ R.ovvo = some (make_random_Ifull no nv A).ovvo ∧
      R.voov = some (make_random_Ifull no nv A).voov ∧ R.ovov = some (make_random_Ifull no nv A).ovov ∧
      R.oovv = some (make_random_Ifull no nv A).oovv ∧ R.vooo = some (make_random_Ifull no nv A).vooo ∧
      R.ovoo = some (make_random_Ifull no nv A).ovoo ∧ R.oovo = some (make_random_Ifull no nv A).oovo ∧
      R.ooov = some (make_random_Ifull no nv A).ooov ∧ R.oooo = some (make_random_Ifull no nv A).oooo := by
  have h := anti_first A
  have sl : ∀ l1 h1 l2 h2 l3 h3 l4 h4 x y z w,
      getSl4 l1 h1 l2 h2 l3 h3 l4 h4 ((A - tr0132 A) - tr1023 (A - tr0132 A) + tr1032 ((A - tr0132 A) - tr1023 (A - tr0132 A))) x y z w =
      getSl4 l2 h2 l1 h1 l4 h4 l3 h3 ((A - tr0132 A) - tr1023 (A - tr0132 A) + tr1032 ((A - tr0132 A) - tr1023 (A - tr0132 A))) y x w z := by
    intro l1 h1 l2 h2 l3 h3 l4 h4 x y z w
    simp only [getSl4]
    split_ifs
    · exact (h.both _ _ _ _).symm
    · exfalso; omega
    · exfalso; omega
    · rfl
  constructor
  · constructor <;> intro x y z w <;> first | rfl | exact sl _ _ _ _ _ _ _ _ _ _ _ _
  · refine ⟨_, h, _, by simp only [make_two_e_blocks_full, ne_eq, not_true_eq_false, if_false]; rfl, ?_, ?_, ?_, ?_, ?_, ?_, ?_, ?_, ?_, ?_, ?_, ?_, ?_, ?_, ?_, ?_⟩ <;>
      first | rfl | (refine congrArg some ?_; funext x y z w; exact sl _ _ _ _ _ _ _ _ _ _ _ _)

/-- C71: the denominators of pairs are symmetric in the virtual orbitals to the last bit, ... -/
theorem C71_D2 (ev eo : ℕ → K) (a b i j : ℕ) : D2 ev eo b a i j = D2 ev eo a b i j := by
  show ev b + ev a - eo i - eo j = ev a + ev b - eo i - eo j
  rw [Machine.add_comm' (ev b)]

/-! ... but not in the occupied ones. -/

/-- Integers, those beyond 4 rounded to even numbers towards zero. -/
structure Z3 where
  val : ℤ
deriving DecidableEq

/-- rounding of `Z3` -/
def rz (n : ℤ) : ℤ := if n ≤ 4 ∧ -4 ≤ n then n else 2 * n.tdiv 2

theorem rz_neg (n : ℤ) : rz (-n) = -rz n := by
  unfold rz
  rw [Int.neg_tdiv]
  split_ifs <;> omega

instance : Machine Z3 where
  add a b := ⟨rz (a.val + b.val)⟩
  sub a b := ⟨rz (a.val - b.val)⟩
  neg a := ⟨-a.val⟩
  zero := ⟨0⟩
  add_comm' a b := congrArg Z3.mk (by rw [Int.add_comm])
  sub_swap a b := congrArg Z3.mk (show rz (a.val - b.val) = -rz (b.val - a.val) by rw [← rz_neg]; congr 1; omega)
  neg_neg' a := congrArg Z3.mk (Int.neg_neg _)
  sub_neg a b := congrArg Z3.mk (show rz (-a.val - -b.val) = -rz (a.val - b.val) by rw [← rz_neg]; congr 1; omega)
  add_neg a b := congrArg Z3.mk (show rz (-a.val + -b.val) = -rz (a.val + b.val) by rw [← rz_neg]; congr 1; omega)
  neg_zero' := rfl

/-- C71: exchanging the occupied orbitals changes the order of the subtractions, which matters in machine arithmetic. -/
theorem C71_D2_asymmetric : ∃ (ev eo : ℕ → Z3) (a b i j : ℕ), D2 ev eo a b j i ≠ D2 ev eo a b i j :=
  ⟨fun _ => ⟨2⟩, fun i => if i = 0 then ⟨-1⟩ else ⟨1⟩, 0, 0, 0, 1, by decide⟩

/-- C71: the error of a denominator is three roundings of the sizes of its terms, and so is its asymmetry. -/
theorem C71_D2_error (rd : ℝ → ℝ) (u : ℝ) (hu : ∀ x, |rd x - x| ≤ u * |x|) (h0 : 0 ≤ u) (ev eo : ℕ → RR rd) (a b i j : ℕ) :
    |(D2 ev eo a b i j).val - ((ev a).val + (ev b).val - (eo i).val - (eo j).val)| ≤
      ((1 + u) ^ 3 - 1) * (|(ev a).val| + |(ev b).val| + |(eo i).val| + |(eo j).val|) := by
  show |rd (rd (rd ((ev a).val + (ev b).val) - (eo i).val) - (eo j).val) - _| ≤ _
  generalize (ev a).val = p, (ev b).val = q, (eo i).val = r, (eo j).val = s
  have e1 := hu (p + q)
  have e2 := hu (rd (p + q) - r)
  have e3 := hu (rd (rd (p + q) - r) - s)
  generalize rd (p + q) = x at *
  generalize rd (x - r) = y at *
  generalize rd (y - s) = z at *
  have a1 := abs_add_le p q
  have t1 : |x| ≤ (1 + u) * (|p| + |q|) := by
    have := abs_sub_abs_le_abs_sub x (p + q)
    nlinarith
  have t2 : |y| ≤ (1 + u) * (|x| + |r|) := by
    have := abs_sub_abs_le_abs_sub y (x - r)
    have := abs_sub x r
    nlinarith
  have b2 : |x - r| ≤ |x| + |r| := abs_sub x r
  have b3 : |y - s| ≤ |y| + |s| := abs_sub y s
  have tri : |z - (p + q - r - s)| ≤ |z - (y - s)| + |y - (x - r)| + |x - (p + q)| := by
    have : z - (p + q - r - s) = (z - (y - s)) + (y - (x - r)) + (x - (p + q)) := by ring
    rw [this]; exact abs_add_three _ _ _
  have p0 := abs_nonneg p
  have q0 := abs_nonneg q
  have r0 := abs_nonneg r
  have s0 := abs_nonneg s
  have m1 : u * |p + q| ≤ u * (|p| + |q|) := mul_le_mul_of_nonneg_left a1 h0
  have m2 : u * |x - r| ≤ u * ((1 + u) * (|p| + |q|) + |r|) := mul_le_mul_of_nonneg_left (by linarith) h0
  have t3 : |y| ≤ (1 + u) * ((1 + u) * (|p| + |q|) + |r|) := t2.trans (mul_le_mul_of_nonneg_left (by linarith) (by linarith))
  have m3 : u * |y - s| ≤ u * ((1 + u) * ((1 + u) * (|p| + |q|) + |r|) + |s|) := mul_le_mul_of_nonneg_left (by linarith) h0
  have n1 : 0 ≤ u * u * |r| := by positivity
  have n2 : 0 ≤ u * u * |s| := by positivity
  have n3 : 0 ≤ u * u * u * |r| := by positivity
  have n4 : 0 ≤ u * u * u * |s| := by positivity
  have n5 : 0 ≤ u * |r| := by positivity
  have n6 : 0 ≤ u * |s| := by positivity
  nlinarith

/-- a rounding to which the theorems apply, and a result that is not zero -/
example : Machine (RR fun x => x) := @instMachineRROfOdd _ ⟨fun _ => rfl⟩
example : (make_random_T (fun _ _ => (⟨1⟩ : Z3)) fun a _ i _ => ⟨a * i⟩).2 0 1 0 1 ≠ ⟨0⟩ := by decide

end CC.Num
