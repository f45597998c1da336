import Verif.Model.SpinFin
import Verif.Model.Spin
import Verif.Spec.Closed
import Mathlib.Tactic.Ring
/-!
# C20, C21, C22: assembling and extracting spin blocks

All statements are about the numeric model `CC.Num` (arrays as functions of natural-number indices, slice
assignments in source order).  `Ext2 n m A` and `Ext4` say that `A` has extents `n`, `m`: it is zero beyond them.
-/
set_option linter.unusedVariables false
set_option linter.unusedTactic false
namespace CC.Num
open Verif.Tensor

variable {K : Type} [Field K]

/-- `A` is an `n × m` array. -/
def Ext2 (n m : ℕ) (A : ℕ → ℕ → K) : Prop := ∀ x y, ¬ (x < n ∧ y < m) → A x y = 0

/-- `A` is an `n × m × p × q` array. -/
def Ext4 (n m p q : ℕ) (A : ℕ → ℕ → ℕ → ℕ → K) : Prop :=
  ∀ x y z w, ¬ (x < n ∧ y < m ∧ z < p ∧ w < q) → A x y z w = 0

/-- Blocks of a one-electron operator with `no` occupied and `nv` virtual orbitals. -/
structure ExtOne (no nv : ℕ) (F : OneE ℕ ℕ K) : Prop where
  oo : Ext2 no no F.oo
  ov : Ext2 no nv F.ov
  vo : Ext2 nv no F.vo
  vv : Ext2 nv nv F.vv

/-- Nine blocks of two-electron integrals. -/
structure ExtTwo (no nv : ℕ) (I : TwoE ℕ ℕ K) : Prop where
  vvvv : Ext4 nv nv nv nv I.vvvv
  vvvo : Ext4 nv nv nv no I.vvvo
  vovv : Ext4 nv no nv nv I.vovv
  vvoo : Ext4 nv nv no no I.vvoo
  vovo : Ext4 nv no nv no I.vovo
  oovv : Ext4 no no nv nv I.oovv
  vooo : Ext4 nv no no no I.vooo
  ooov : Ext4 no no no nv I.ooov
  oooo : Ext4 no no no no I.oooo

/-- Sixteen blocks of two-electron integrals, electron 1 in the first pair of extents and electron 2 in the second. -/
structure ExtFull (o v o' v' : ℕ) (I : TwoEFull ℕ ℕ ℕ ℕ K) : Prop where
  oooo : Ext4 o o' o o' I.oooo
  ooov : Ext4 o o' o v' I.ooov
  oovo : Ext4 o o' v o' I.oovo
  oovv : Ext4 o o' v v' I.oovv
  ovoo : Ext4 o v' o o' I.ovoo
  ovov : Ext4 o v' o v' I.ovov
  ovvo : Ext4 o v' v o' I.ovvo
  ovvv : Ext4 o v' v v' I.ovvv
  vooo : Ext4 v o' o o' I.vooo
  voov : Ext4 v o' o v' I.voov
  vovo : Ext4 v o' v o' I.vovo
  vovv : Ext4 v o' v v' I.vovv
  vvoo : Ext4 v v' o o' I.vvoo
  vvov : Ext4 v v' o v' I.vvov
  vvvo : Ext4 v v' v o' I.vvvo
  vvvv : Ext4 v v' v v' I.vvvv

/-! ## Reading back a block -/

/-- A matrix with two diagonal blocks. -/
def two (na ma nb mb : ℕ) (A B : ℕ → ℕ → K) : ℕ → ℕ → K :=
  setSl2 na (na + nb) ma (ma + mb) B (setSl2 0 na 0 ma A (fun _ _ => 0))

theorem two_aa {na ma nb mb : ℕ} {A B : ℕ → ℕ → K} (h : Ext2 na ma A) :
    getSl2 0 na 0 ma (two na ma nb mb A B) = A := by
  funext x y
  simp only [two, getSl2, setSl2, Nat.zero_add, Nat.sub_zero, Nat.zero_le, true_and]
  split_ifs with h1 h2
  · omega
  · rfl
  · exact (h x y h1).symm

theorem two_bb {na ma nb mb : ℕ} {A B : ℕ → ℕ → K} (h : Ext2 nb mb B) :
    getSl2 na (na + nb) ma (ma + mb) (two na ma nb mb A B) = B := by
  funext x y
  simp only [two, getSl2, setSl2, Nat.add_sub_cancel_left]
  split_ifs with h1 h2 h3
  · rfl
  · omega
  · omega
  · exact (h x y (by omega)).symm

theorem two_ext (na ma nb mb : ℕ) (A B : ℕ → ℕ → K) : Ext2 (na + nb) (ma + mb) (two na ma nb mb A B) := by
  intro x y h
  simp only [two, setSl2]
  split_ifs <;> first | rfl | omega

theorem two_ab (na ma nb mb : ℕ) (A B : ℕ → ℕ → K) (x y : ℕ) (h : x < na ∧ ma ≤ y ∨ na ≤ x ∧ y < ma) :
    two na ma nb mb A B x y = 0 := by
  simp only [two, setSl2]
  split_ifs <;> first | rfl | omega

theorem two_back {na ma nb mb : ℕ} {X : ℕ → ℕ → K} (hX : Ext2 (na + nb) (ma + mb) X)
    (h0 : ∀ x y, x < na ∧ ma ≤ y ∨ na ≤ x ∧ y < ma → X x y = 0) :
    two na ma nb mb (getSl2 0 na 0 ma X) (getSl2 na (na + nb) ma (ma + mb) X) = X := by
  funext x y
  simp only [two, getSl2, setSl2, Nat.zero_add, Nat.sub_zero, Nat.zero_le, true_and]
  split_ifs with h1 h2 h3
  · congr 1 <;> omega
  · omega
  · rfl
  · by_cases h : x < na ∧ ma ≤ y ∨ na ≤ x ∧ y < ma
    · exact (h0 x y h).symm
    · exact (hX x y (by omega)).symm

section blocks
variable {n1 n2 n3 n4 m1 m2 m3 m4 : ℕ} {aaaa bbbb abab baba abba baab : ℕ → ℕ → ℕ → ℕ → K}

macro "blk_tac" h:ident : tactic => `(tactic| (
  funext x y z w
  simp only [int_to_spin_block, getSl4, setSl4, Nat.zero_add, Nat.sub_zero, Nat.add_sub_cancel_left]
  split_ifs <;> first | rfl | (exfalso; omega) | (exact ($h x y z w (by omega)).symm)))

theorem blk_aaaa (h : Ext4 n1 n2 n3 n4 aaaa) :
    getSl4 0 n1 0 n2 0 n3 0 n4 (int_to_spin_block aaaa bbbb abab baba abba baab n1 n2 n3 n4 m1 m2 m3 m4) = aaaa := by
  blk_tac h
theorem blk_bbbb (h : Ext4 m1 m2 m3 m4 bbbb) :
    getSl4 n1 (n1 + m1) n2 (n2 + m2) n3 (n3 + m3) n4 (n4 + m4)
      (int_to_spin_block aaaa bbbb abab baba abba baab n1 n2 n3 n4 m1 m2 m3 m4) = bbbb := by
  blk_tac h
theorem blk_abab (h : Ext4 n1 m2 n3 m4 abab) :
    getSl4 0 n1 n2 (n2 + m2) 0 n3 n4 (n4 + m4)
      (int_to_spin_block aaaa bbbb abab baba abba baab n1 n2 n3 n4 m1 m2 m3 m4) = abab := by
  blk_tac h
theorem blk_baba (h : Ext4 m1 n2 m3 n4 baba) :
    getSl4 n1 (n1 + m1) 0 n2 n3 (n3 + m3) 0 n4
      (int_to_spin_block aaaa bbbb abab baba abba baab n1 n2 n3 n4 m1 m2 m3 m4) = baba := by
  blk_tac h
theorem blk_abba (h : Ext4 n1 m2 m3 n4 abba) :
    getSl4 0 n1 n2 (n2 + m2) n3 (n3 + m3) 0 n4
      (int_to_spin_block aaaa bbbb abab baba abba baab n1 n2 n3 n4 m1 m2 m3 m4) = abba := by
  blk_tac h
theorem blk_baab (h : Ext4 m1 n2 n3 m4 baab) :
    getSl4 n1 (n1 + m1) 0 n2 0 n3 n4 (n4 + m4)
      (int_to_spin_block aaaa bbbb abab baba abba baab n1 n2 n3 n4 m1 m2 m3 m4) = baab := by
  blk_tac h

end blocks

/-! ## Relation to the disjoint-union model `Verif/Model/Spin.lean` -/

/-- Position on a concatenated axis of an alpha or beta index. -/
def enc (n m : ℕ) : Fin n ⊕ Fin m → ℕ
  | .inl a => a
  | .inr b => n + b

theorem exists_enc {n m x : ℕ} (h : x < n + m) : ∃ s, enc n m s = x := by
  rcases lt_or_ge x n with h1 | h1
  · exact ⟨.inl ⟨x, h1⟩, rfl⟩
  · exact ⟨.inr ⟨x - n, by omega⟩, by simp only [enc]; omega⟩

theorem fin_not_le {n : ℕ} (a : Fin n) : ¬ n ≤ (a : ℕ) := Nat.not_le.mpr a.2

/-- restriction of a numeric array to its extents -/
def r4 (n m p q : ℕ) (A : ℕ → ℕ → ℕ → ℕ → K) : Fin n → Fin m → Fin p → Fin q → K := fun a b c d => A a b c d

/-- restriction of a numeric array to its extents -/
def r2 (n m : ℕ) (A : ℕ → ℕ → K) : Fin n → Fin m → K := fun a b => A a b

theorem block_enc (aaaa bbbb abab baba abba baab : ℕ → ℕ → ℕ → ℕ → K) (n1 n2 n3 n4 m1 m2 m3 m4 : ℕ)
    (a : Fin n1 ⊕ Fin m1) (b : Fin n2 ⊕ Fin m2) (c : Fin n3 ⊕ Fin m3) (d : Fin n4 ⊕ Fin m4) :
    int_to_spin_block aaaa bbbb abab baba abba baab n1 n2 n3 n4 m1 m2 m3 m4
      (enc n1 m1 a) (enc n2 m2 b) (enc n3 m3 c) (enc n4 m4 d)
    = CC.int_to_spin_block (r4 n1 n2 n3 n4 aaaa) (r4 m1 m2 m3 m4 bbbb) (r4 n1 m2 n3 m4 abab) (r4 m1 n2 m3 n4 baba)
        (r4 n1 m2 m3 n4 abba) (r4 m1 n2 n3 m4 baab) a b c d := by
  rcases a with a | a <;> rcases b with b | b <;> rcases c with c | c <;> rcases d with d | d <;>
    simp [int_to_spin_block, CC.int_to_spin_block, setSl4, enc, r4, fin_not_le]

theorem block_ext (aaaa bbbb abab baba abba baab : ℕ → ℕ → ℕ → ℕ → K) (n1 n2 n3 n4 m1 m2 m3 m4 : ℕ) :
    Ext4 (n1 + m1) (n2 + m2) (n3 + m3) (n4 + m4)
      (int_to_spin_block aaaa bbbb abab baba abba baab n1 n2 n3 n4 m1 m2 m3 m4) := by
  intro x y z w h
  simp only [int_to_spin_block, setSl4]
  split_ifs <;> first | rfl | (exfalso; omega)

theorem two_enc (A B : ℕ → ℕ → K) (n1 n2 m1 m2 : ℕ) (a : Fin n1 ⊕ Fin m1) (b : Fin n2 ⊕ Fin m2) :
    two n1 n2 m1 m2 A B (enc n1 m1 a) (enc n2 m2 b) = blk2 (r2 n1 n2 A) (r2 m1 m2 B) a b := by
  rcases a with a | a <;> rcases b with b | b <;> simp [two, blk2, setSl2, enc, r2, fin_not_le]

/-! ## C20 -/

/-- C20: extraction undoes assembly of singles amplitudes. -/
theorem C20_T1_round_trip (Ta Tb : ℕ → ℕ → K) (noa nva nob nvb : ℕ) (ha : Ext2 nva noa Ta) (hb : Ext2 nvb nob Tb) :
    T1_to_spatial (T1_to_spin Ta Tb noa nva nob nvb) noa nva nob nvb = (Ta, Tb) :=
  Prod.ext (two_aa ha) (two_bb hb)

/-- C20: mixed-spin elements of assembled singles are zero, and its extents are the sums of the extents. -/
theorem C20_T1_mixed_zero (Ta Tb : ℕ → ℕ → K) (noa nva nob nvb : ℕ) :
    (∀ x y, x < nva ∧ noa ≤ y ∨ nva ≤ x ∧ y < noa → T1_to_spin Ta Tb noa nva nob nvb x y = 0) ∧
    Ext2 (nva + nvb) (noa + nob) (T1_to_spin Ta Tb noa nva nob nvb) :=
  ⟨fun x y h => two_ab nva noa nvb nob Ta Tb x y h, two_ext nva noa nvb nob Ta Tb⟩

/-- C20: assembly undoes extraction on arrays without mixed-spin elements. -/
theorem C20_T1_reassemble (T : ℕ → ℕ → K) (noa nva nob nvb : ℕ) (hT : Ext2 (nva + nvb) (noa + nob) T)
    (h0 : ∀ x y, x < nva ∧ noa ≤ y ∨ nva ≤ x ∧ y < noa → T x y = 0) :
    T1_to_spin (T1_to_spatial T noa nva nob nvb).1 (T1_to_spatial T noa nva nob nvb).2 noa nva nob nvb = T :=
  two_back hT h0

/-- C20: extraction undoes assembly of one-electron operators. -/
theorem C20_F_round_trip (Fa Fb : OneE ℕ ℕ K) (noa nva nob nvb : ℕ) (ha : ExtOne noa nva Fa) (hb : ExtOne nob nvb Fb) :
    F_to_spatial (F_to_spin Fa Fb noa nva nob nvb) noa nva nob nvb = (Fa, Fb) := by
  refine Prod.ext ?_ ?_
  · obtain ⟨oo, ov, vo, vv⟩ := Fa
    exact (OneE.mk.injEq ..).mpr ⟨two_aa ha.oo, two_aa ha.ov, two_aa ha.vo, two_aa ha.vv⟩
  · obtain ⟨oo, ov, vo, vv⟩ := Fb
    exact (OneE.mk.injEq ..).mpr ⟨two_bb hb.oo, two_bb hb.ov, two_bb hb.vo, two_bb hb.vv⟩

/-- C20: mixed-spin elements of an assembled one-electron operator are zero, and its extents are right. -/
theorem C20_F_mixed_zero (Fa Fb : OneE ℕ ℕ K) (noa nva nob nvb : ℕ) :
    ExtOne (noa + nob) (nva + nvb) (F_to_spin Fa Fb noa nva nob nvb) ∧
    (∀ x y, x < noa ∧ noa ≤ y ∨ noa ≤ x ∧ y < noa → (F_to_spin Fa Fb noa nva nob nvb).oo x y = 0) ∧
    (∀ x y, x < noa ∧ nva ≤ y ∨ noa ≤ x ∧ y < nva → (F_to_spin Fa Fb noa nva nob nvb).ov x y = 0) ∧
    (∀ x y, x < nva ∧ noa ≤ y ∨ nva ≤ x ∧ y < noa → (F_to_spin Fa Fb noa nva nob nvb).vo x y = 0) ∧
    (∀ x y, x < nva ∧ nva ≤ y ∨ nva ≤ x ∧ y < nva → (F_to_spin Fa Fb noa nva nob nvb).vv x y = 0) :=
  ⟨⟨two_ext _ _ _ _ _ _, two_ext _ _ _ _ _ _, two_ext _ _ _ _ _ _, two_ext _ _ _ _ _ _⟩, two_ab noa noa nob nob _ _, two_ab noa nva nob nvb _ _,
    two_ab nva noa nvb nob _ _, two_ab nva nva nvb nvb _ _⟩

/-- C20: assembly undoes extraction on one-electron operators without mixed-spin elements. -/
theorem C20_F_reassemble (F : OneE ℕ ℕ K) (noa nva nob nvb : ℕ) (hF : ExtOne (noa + nob) (nva + nvb) F)
    (hoo : ∀ x y, x < noa ∧ noa ≤ y ∨ noa ≤ x ∧ y < noa → F.oo x y = 0)
    (hov : ∀ x y, x < noa ∧ nva ≤ y ∨ noa ≤ x ∧ y < nva → F.ov x y = 0)
    (hvo : ∀ x y, x < nva ∧ noa ≤ y ∨ nva ≤ x ∧ y < noa → F.vo x y = 0)
    (hvv : ∀ x y, x < nva ∧ nva ≤ y ∨ nva ≤ x ∧ y < nva → F.vv x y = 0) :
    F_to_spin (F_to_spatial F noa nva nob nvb).1 (F_to_spatial F noa nva nob nvb).2 noa nva nob nvb = F := by
  obtain ⟨oo, ov, vo, vv⟩ := F
  exact (OneE.mk.injEq ..).mpr ⟨two_back hF.oo hoo, two_back hF.ov hov, two_back hF.vo hvo, two_back hF.vv hvv⟩

/-! ## C21 -/

/-- The doubles assembly is a block assembly (the six assignments are made to disjoint slices). -/
theorem T2_to_spin_blocks (Taa Tab Tbb : ℕ → ℕ → ℕ → ℕ → K) (noa nva nob nvb : ℕ) :
    T2_to_spin Taa Tab Tbb noa nva nob nvb
    = int_to_spin_block Taa Tbb Tab (fun x y z w => Tab y x w z) (fun x y z w => -Tab x y w z)
        (fun x y z w => -Tab y x z w) nva nva noa noa nvb nvb nob nob := by
  funext x y z w
  simp only [T2_to_spin, int_to_spin_block, setSl4]
  split_ifs <;> first | rfl | (exfalso; omega)

theorem T2_to_spin_ext (Taa Tab Tbb : ℕ → ℕ → ℕ → ℕ → K) (noa nva nob nvb : ℕ) :
    Ext4 (nva + nvb) (nva + nvb) (noa + nob) (noa + nob) (T2_to_spin Taa Tab Tbb noa nva nob nvb) := by
  rw [T2_to_spin_blocks]; exact block_ext _ _ _ _ _ _ _ _ _ _ _ _ _ _

/-- The numeric assembly of doubles is the disjoint-union one. -/
theorem T2_to_spin_enc (Taa Tab Tbb : ℕ → ℕ → ℕ → ℕ → K) (noa nva nob nvb : ℕ) (a b : Fin nva ⊕ Fin nvb)
    (i j : Fin noa ⊕ Fin nob) :
    T2_to_spin Taa Tab Tbb noa nva nob nvb (enc nva nvb a) (enc nva nvb b) (enc noa nob i) (enc noa nob j)
    = CC.T2_to_spin (r4 nva nva noa noa Taa) (r4 nva nvb noa nob Tab) (r4 nvb nvb nob nob Tbb) a b i j := by
  rw [T2_to_spin_blocks, block_enc]
  rcases a with a | a <;> rcases b with b | b <;> rcases i with i | i <;> rcases j with j | j <;> rfl

/-- C21: extraction undoes assembly of doubles amplitudes. -/
theorem C21_T2_round_trip (Taa Tab Tbb : ℕ → ℕ → ℕ → ℕ → K) (noa nva nob nvb : ℕ) (haa : Ext4 nva nva noa noa Taa)
    (hab : Ext4 nva nvb noa nob Tab) (hbb : Ext4 nvb nvb nob nob Tbb) :
    T2_to_spatial (T2_to_spin Taa Tab Tbb noa nva nob nvb) noa nva nob nvb = (Taa, Tab, Tbb) := by
  rw [T2_to_spin_blocks]
  exact Prod.ext (blk_aaaa haa) (Prod.ext (blk_abab hab) (blk_bbbb hbb))

/-- Antisymmetry of a numeric four-index array in each pair. -/
structure AntiN (T : ℕ → ℕ → ℕ → ℕ → K) : Prop where
  a12 : ∀ x y z w, T y x z w = -T x y z w
  a34 : ∀ x y z w, T x y w z = -T x y z w

/-- C21: assembled doubles are antisymmetric if the same-spin parts are. -/
theorem C21_T2_to_spin_anti (Taa Tab Tbb : ℕ → ℕ → ℕ → ℕ → K) (noa nva nob nvb : ℕ)
    (haa : AntiN Taa) (hbb : AntiN Tbb) : AntiN (T2_to_spin Taa Tab Tbb noa nva nob nvb) := by
  constructor
  · intro x y z w
    by_cases h : x < nva + nvb ∧ y < nva + nvb ∧ z < noa + nob ∧ w < noa + nob
    · obtain ⟨a, rfl⟩ := exists_enc h.1
      obtain ⟨b, rfl⟩ := exists_enc h.2.1
      obtain ⟨i, rfl⟩ := exists_enc h.2.2.1
      obtain ⟨j, rfl⟩ := exists_enc h.2.2.2
      rw [T2_to_spin_enc, T2_to_spin_enc]
      rcases a with a | a <;> rcases b with b | b <;> rcases i with i | i <;> rcases j with j | j <;>
        simp [CC.T2_to_spin, r4, haa.a12 a b, hbb.a12 a b]
    · rw [T2_to_spin_ext _ _ _ _ _ _ _ x y z w h, T2_to_spin_ext _ _ _ _ _ _ _ y x z w (by omega), neg_zero]
  · intro x y z w
    by_cases h : x < nva + nvb ∧ y < nva + nvb ∧ z < noa + nob ∧ w < noa + nob
    · obtain ⟨a, rfl⟩ := exists_enc h.1
      obtain ⟨b, rfl⟩ := exists_enc h.2.1
      obtain ⟨i, rfl⟩ := exists_enc h.2.2.1
      obtain ⟨j, rfl⟩ := exists_enc h.2.2.2
      rw [T2_to_spin_enc, T2_to_spin_enc]
      rcases a with a | a <;> rcases b with b | b <;> rcases i with i | i <;> rcases j with j | j <;>
        simp [CC.T2_to_spin, r4, haa.a34 a b i j, hbb.a34 a b i j]
    · rw [T2_to_spin_ext _ _ _ _ _ _ _ x y z w h, T2_to_spin_ext _ _ _ _ _ _ _ x y w z (by omega), neg_zero]

/-- spin of an orbital index on an axis whose first `n` entries are alpha -/
def spin (n x : ℕ) : ℕ := if x < n then 0 else 1

/-- C21: an antisymmetric spin-orbital array all of whose elements conserve spin is recovered from its three blocks. -/
theorem C21_T2_reassemble (T : ℕ → ℕ → ℕ → ℕ → K) (noa nva nob nvb : ℕ)
    (hT : Ext4 (nva + nvb) (nva + nvb) (noa + nob) (noa + nob) T) (hA : AntiN T)
    (hs : ∀ x y z w, spin nva x + spin nva y ≠ spin noa z + spin noa w → T x y z w = 0) :
    T2_to_spin (T2_to_spatial T noa nva nob nvb).1 (T2_to_spatial T noa nva nob nvb).2.1
      (T2_to_spatial T noa nva nob nvb).2.2 noa nva nob nvb = T := by
  funext x y z w
  by_cases h : x < nva + nvb ∧ y < nva + nvb ∧ z < noa + nob ∧ w < noa + nob
  · obtain ⟨a, rfl⟩ := exists_enc h.1
    obtain ⟨b, rfl⟩ := exists_enc h.2.1
    obtain ⟨i, rfl⟩ := exists_enc h.2.2.1
    obtain ⟨j, rfl⟩ := exists_enc h.2.2.2
    rw [T2_to_spin_enc]
    rcases a with a | a <;> rcases b with b | b <;> rcases i with i | i <;> rcases j with j | j <;>
      simp only [CC.T2_to_spin, r4, T2_to_spatial, getSl4, enc, Nat.zero_add, Fin.is_lt, Nat.add_lt_add_iff_left,
        and_self, if_true]
    all_goals try (symm; apply hs; simp [spin]; done)
    · exact (hA.a34 _ _ _ _).symm
    · exact (hA.a12 _ _ _ _).symm
    · rw [hA.a12, hA.a34, neg_neg]
  · rw [T2_to_spin_ext _ _ _ _ _ _ _ x y z w h, hT x y z w h]

/-! ### integrals -/

/-- C21: extraction undoes assembly of integrals: all nine same-spin blocks and all sixteen mixed-spin blocks are recovered.
(Note the different order of the extents in the arguments of `int_to_spatial`.) -/
theorem C21_int_round_trip (Ia Ib : TwoE ℕ ℕ K) (Iab : TwoEFull ℕ ℕ ℕ ℕ K) (noa nva nob nvb : ℕ)
    (ha : ExtTwo noa nva Ia) (hb : ExtTwo nob nvb Ib) (hab : ExtFull noa nva nob nvb Iab) :
    int_to_spatial (int_to_spin2 Ia Ib Iab noa nva nob nvb) noa nob nva nvb = (Ia, Ib, Iab) := by
  have sw : ∀ {n m p q : ℕ} {A : ℕ → ℕ → ℕ → ℕ → K}, Ext4 n m p q A →
      Ext4 n m q p (fun x y z w => -A x y w z) := by
    intro n m p q A h x y z w hh; show -A x y w z = 0; rw [h x y w z (by omega), neg_zero]
  have sw' : ∀ {n m p q : ℕ} {A : ℕ → ℕ → ℕ → ℕ → K}, Ext4 n m p q A →
      Ext4 m n p q (fun x y z w => -A y x z w) := by
    intro n m p q A h x y z w hh; show -A y x z w = 0; rw [h y x z w (by omega), neg_zero]
  have sw2 : ∀ {n m p q : ℕ} {A : ℕ → ℕ → ℕ → ℕ → K}, Ext4 n m p q A →
      Ext4 m n q p (fun x y z w => A y x w z) := by
    intro n m p q A h x y z w hh; exact h y x w z (by omega)
  simp only [int_to_spatial, int_to_spin2, blk_aaaa ha.vvvv, blk_aaaa ha.vvvo, blk_aaaa ha.vovv, blk_aaaa ha.vvoo, blk_aaaa ha.vovo,
    blk_aaaa ha.oovv, blk_aaaa ha.vooo, blk_aaaa ha.ooov, blk_aaaa ha.oooo, blk_bbbb hb.vvvv,
    blk_bbbb hb.vvvo, blk_bbbb hb.vovv, blk_bbbb hb.vvoo, blk_bbbb hb.vovo, blk_bbbb hb.oovv,
    blk_bbbb hb.vooo, blk_bbbb hb.ooov, blk_bbbb hb.oooo, blk_abab hab.vvvv, blk_abab hab.vvvo,
    blk_abab hab.vovv, blk_abab hab.vvoo, blk_abab hab.vovo, blk_abab hab.oovv, blk_abab hab.vooo,
    blk_abab hab.ooov, blk_abab hab.oooo, blk_abba (sw hab.vvov), blk_abba (sw hab.voov), blk_abba (sw hab.oovo),
    blk_baab (sw' hab.ovvv), blk_baab (sw' hab.ovvo), blk_baab (sw' hab.ovoo), blk_baba (sw2 hab.ovov), neg_neg]

/-- `D2_to_spin` (orbital-energy denominators) assigns the mixed-spin denominator, with its indices in the order of the
spins, to all four mixed-spin blocks. -/
theorem C21_D2_to_spin (Daa Dab Dbb : ℕ → ℕ → ℕ → ℕ → K) (noa nva nob nvb : ℕ) (a b i j : ℕ)
    (ha : a < nva + nvb) (hb : b < nva + nvb) (hi : i < noa + nob) (hj : j < noa + nob) :
    D2_to_spin Daa Dab Dbb noa nva nob nvb a b i j =
      if spin nva a = 0 ∧ spin nva b = 0 ∧ spin noa i = 0 ∧ spin noa j = 0 then Daa a b i j
      else if spin nva a = 1 ∧ spin nva b = 1 ∧ spin noa i = 1 ∧ spin noa j = 1 then
        Dbb (a - nva) (b - nva) (i - noa) (j - noa)
      else if spin nva a + spin nva b = 1 ∧ spin noa i + spin noa j = 1 then
        Dab (min a b) (max a b - nva) (min i j) (max i j - noa)
      else 0 := by
  obtain ⟨a, rfl⟩ := exists_enc ha
  obtain ⟨b, rfl⟩ := exists_enc hb
  obtain ⟨i, rfl⟩ := exists_enc hi
  obtain ⟨j, rfl⟩ := exists_enc hj
  have mx : ∀ {n m : ℕ} (x : Fin n) (y : Fin m), max (x : ℕ) (n + y) = n + y := fun x y => by omega
  have mn : ∀ {n m : ℕ} (x : Fin n) (y : Fin m), min (x : ℕ) (n + y) = x := fun x y => by omega
  have mx' : ∀ {n m : ℕ} (x : Fin n) (y : Fin m), max (n + (y : ℕ)) x = n + y := fun x y => by omega
  have mn' : ∀ {n m : ℕ} (x : Fin n) (y : Fin m), min (n + (y : ℕ)) x = x := fun x y => by omega
  rcases a with a | a <;> rcases b with b | b <;> rcases i with i | i <;> rcases j with j | j <;>
    simp [D2_to_spin, setSl4, spin, enc, fin_not_le, mx, mn, mx', mn']

/-! ## C22 -/

/-- C22: assembling non-antisymmetrised integrals with `int_to_spin` is assembling antisymmetrised same-spin integrals
with `int_to_spin2`. -/
theorem C22_int_to_spin_eq_int_to_spin2 (Ia Ib Iab : TwoEFull ℕ ℕ ℕ ℕ K) (noa nva nob nvb : ℕ) :
    int_to_spin Ia Ib Iab noa nva nob nvb = int_to_spin2 (asymI Ia) (asymI Ib) Iab noa nva nob nvb := rfl

/-- position of an orbital within its spin -/
def loc (n x : ℕ) : ℕ := if x < n then x else x - n

/-- Integrals for a given pair of spins: the beta-alpha integrals are the alpha-beta ones with the electrons exchanged. -/
def pick (Ia Ib Iab : TwoEFull ℕ ℕ ℕ ℕ K) (s t : ℕ) : TwoEFull ℕ ℕ ℕ ℕ K :=
  if s = 0 then (if t = 0 then Ia else Iab) else (if t = 0 then Iab.flip else Ib)

/-- C22: every element of the assembled integrals is the antisymmetrised spin-orbital integral
`⟨pq||rs⟩ = δ(σp,σr) δ(σq,σs) ⟨pq|rs⟩ - δ(σp,σs) δ(σq,σr) ⟨pq|sr⟩`, in all nine blocks. -/
theorem C22_int_to_spin_elements (Ia Ib Iab : TwoEFull ℕ ℕ ℕ ℕ K) (noa nva nob nvb : ℕ) :
    (∀ p < nva + nvb, ∀ q < nva + nvb, ∀ r < nva + nvb, ∀ s < nva + nvb,
      (int_to_spin Ia Ib Iab noa nva nob nvb).vvvv p q r s =
        (if spin nva p = spin nva r ∧ spin nva q = spin nva s then (pick Ia Ib Iab (spin nva p) (spin nva q)).vvvv (loc nva p) (loc nva q) (loc nva r) (loc nva s) else 0)
        - (if spin nva p = spin nva s ∧ spin nva q = spin nva r then (pick Ia Ib Iab (spin nva p) (spin nva q)).vvvv (loc nva p) (loc nva q) (loc nva s) (loc nva r) else 0)) ∧
    (∀ p < nva + nvb, ∀ q < nva + nvb, ∀ r < nva + nvb, ∀ s < noa + nob,
      (int_to_spin Ia Ib Iab noa nva nob nvb).vvvo p q r s =
        (if spin nva p = spin nva r ∧ spin nva q = spin noa s then (pick Ia Ib Iab (spin nva p) (spin nva q)).vvvo (loc nva p) (loc nva q) (loc nva r) (loc noa s) else 0)
        - (if spin nva p = spin noa s ∧ spin nva q = spin nva r then (pick Ia Ib Iab (spin nva p) (spin nva q)).vvov (loc nva p) (loc nva q) (loc noa s) (loc nva r) else 0)) ∧
    (∀ p < nva + nvb, ∀ q < noa + nob, ∀ r < nva + nvb, ∀ s < nva + nvb,
      (int_to_spin Ia Ib Iab noa nva nob nvb).vovv p q r s =
        (if spin nva p = spin nva r ∧ spin noa q = spin nva s then (pick Ia Ib Iab (spin nva p) (spin noa q)).vovv (loc nva p) (loc noa q) (loc nva r) (loc nva s) else 0)
        - (if spin nva p = spin nva s ∧ spin noa q = spin nva r then (pick Ia Ib Iab (spin nva p) (spin noa q)).vovv (loc nva p) (loc noa q) (loc nva s) (loc nva r) else 0)) ∧
    (∀ p < nva + nvb, ∀ q < nva + nvb, ∀ r < noa + nob, ∀ s < noa + nob,
      (int_to_spin Ia Ib Iab noa nva nob nvb).vvoo p q r s =
        (if spin nva p = spin noa r ∧ spin nva q = spin noa s then (pick Ia Ib Iab (spin nva p) (spin nva q)).vvoo (loc nva p) (loc nva q) (loc noa r) (loc noa s) else 0)
        - (if spin nva p = spin noa s ∧ spin nva q = spin noa r then (pick Ia Ib Iab (spin nva p) (spin nva q)).vvoo (loc nva p) (loc nva q) (loc noa s) (loc noa r) else 0)) ∧
    (∀ p < nva + nvb, ∀ q < noa + nob, ∀ r < nva + nvb, ∀ s < noa + nob,
      (int_to_spin Ia Ib Iab noa nva nob nvb).vovo p q r s =
        (if spin nva p = spin nva r ∧ spin noa q = spin noa s then (pick Ia Ib Iab (spin nva p) (spin noa q)).vovo (loc nva p) (loc noa q) (loc nva r) (loc noa s) else 0)
        - (if spin nva p = spin noa s ∧ spin noa q = spin nva r then (pick Ia Ib Iab (spin nva p) (spin noa q)).voov (loc nva p) (loc noa q) (loc noa s) (loc nva r) else 0)) ∧
    (∀ p < noa + nob, ∀ q < noa + nob, ∀ r < nva + nvb, ∀ s < nva + nvb,
      (int_to_spin Ia Ib Iab noa nva nob nvb).oovv p q r s =
        (if spin noa p = spin nva r ∧ spin noa q = spin nva s then (pick Ia Ib Iab (spin noa p) (spin noa q)).oovv (loc noa p) (loc noa q) (loc nva r) (loc nva s) else 0)
        - (if spin noa p = spin nva s ∧ spin noa q = spin nva r then (pick Ia Ib Iab (spin noa p) (spin noa q)).oovv (loc noa p) (loc noa q) (loc nva s) (loc nva r) else 0)) ∧
    (∀ p < nva + nvb, ∀ q < noa + nob, ∀ r < noa + nob, ∀ s < noa + nob,
      (int_to_spin Ia Ib Iab noa nva nob nvb).vooo p q r s =
        (if spin nva p = spin noa r ∧ spin noa q = spin noa s then (pick Ia Ib Iab (spin nva p) (spin noa q)).vooo (loc nva p) (loc noa q) (loc noa r) (loc noa s) else 0)
        - (if spin nva p = spin noa s ∧ spin noa q = spin noa r then (pick Ia Ib Iab (spin nva p) (spin noa q)).vooo (loc nva p) (loc noa q) (loc noa s) (loc noa r) else 0)) ∧
    (∀ p < noa + nob, ∀ q < noa + nob, ∀ r < noa + nob, ∀ s < nva + nvb,
      (int_to_spin Ia Ib Iab noa nva nob nvb).ooov p q r s =
        (if spin noa p = spin noa r ∧ spin noa q = spin nva s then (pick Ia Ib Iab (spin noa p) (spin noa q)).ooov (loc noa p) (loc noa q) (loc noa r) (loc nva s) else 0)
        - (if spin noa p = spin nva s ∧ spin noa q = spin noa r then (pick Ia Ib Iab (spin noa p) (spin noa q)).oovo (loc noa p) (loc noa q) (loc nva s) (loc noa r) else 0)) ∧
    (∀ p < noa + nob, ∀ q < noa + nob, ∀ r < noa + nob, ∀ s < noa + nob,
      (int_to_spin Ia Ib Iab noa nva nob nvb).oooo p q r s =
        (if spin noa p = spin noa r ∧ spin noa q = spin noa s then (pick Ia Ib Iab (spin noa p) (spin noa q)).oooo (loc noa p) (loc noa q) (loc noa r) (loc noa s) else 0)
        - (if spin noa p = spin noa s ∧ spin noa q = spin noa r then (pick Ia Ib Iab (spin noa p) (spin noa q)).oooo (loc noa p) (loc noa q) (loc noa s) (loc noa r) else 0)) := by
  refine ⟨?_, ?_, ?_, ?_, ?_, ?_, ?_, ?_, ?_⟩ <;> intro p hp q hq r hr s hs <;>
    obtain ⟨p, rfl⟩ := exists_enc hp <;> obtain ⟨q, rfl⟩ := exists_enc hq <;>
    obtain ⟨r, rfl⟩ := exists_enc hr <;> obtain ⟨s, rfl⟩ := exists_enc hs <;>
    simp only [int_to_spin] <;> rw [block_enc] <;>
    rcases p with p | p <;> rcases q with q | q <;> rcases r with r | r <;> rcases s with s | s <;>
    simp [CC.int_to_spin_block, r4, spin, enc, loc, pick, TwoEFull.flip]

section anti
variable {n1 n2 n3 n4 m1 m2 m3 m4 : ℕ} {aaaa bbbb abab baba abba baab : ℕ → ℕ → ℕ → ℕ → K}

theorem block_anti12 (ha : ∀ x y z w, aaaa y x z w = -aaaa x y z w) (hb : ∀ x y z w, bbbb y x z w = -bbbb x y z w)
    (h1 : ∀ x y z w, baab y x z w = -abab x y z w) (h2 : ∀ x y z w, baba y x z w = -abba x y z w) :
    Anti12 (int_to_spin_block aaaa bbbb abab baba abba baab n1 n1 n3 n4 m1 m1 m3 m4) := by
  intro x y z w
  by_cases h : x < n1 + m1 ∧ y < n1 + m1 ∧ z < n3 + m3 ∧ w < n4 + m4
  · obtain ⟨a, rfl⟩ := exists_enc h.1
    obtain ⟨b, rfl⟩ := exists_enc h.2.1
    obtain ⟨i, rfl⟩ := exists_enc h.2.2.1
    obtain ⟨j, rfl⟩ := exists_enc h.2.2.2
    rw [block_enc, block_enc]
    rcases a with a | a <;> rcases b with b | b <;> rcases i with i | i <;> rcases j with j | j <;>
      simp [CC.int_to_spin_block, r4, ha a b, hb a b, h1, h2]
  · rw [block_ext _ _ _ _ _ _ _ _ _ _ _ _ _ _ x y z w h, block_ext _ _ _ _ _ _ _ _ _ _ _ _ _ _ y x z w (by omega), neg_zero]

theorem block_anti34 (ha : ∀ x y z w, aaaa x y w z = -aaaa x y z w) (hb : ∀ x y z w, bbbb x y w z = -bbbb x y z w)
    (h1 : ∀ x y z w, abba x y w z = -abab x y z w) (h2 : ∀ x y z w, baba x y w z = -baab x y z w) :
    Anti34 (int_to_spin_block aaaa bbbb abab baba abba baab n1 n2 n3 n3 m1 m2 m3 m3) := by
  intro x y z w
  by_cases h : x < n1 + m1 ∧ y < n2 + m2 ∧ z < n3 + m3 ∧ w < n3 + m3
  · obtain ⟨a, rfl⟩ := exists_enc h.1
    obtain ⟨b, rfl⟩ := exists_enc h.2.1
    obtain ⟨i, rfl⟩ := exists_enc h.2.2.1
    obtain ⟨j, rfl⟩ := exists_enc h.2.2.2
    rw [block_enc, block_enc]
    rcases a with a | a <;> rcases b with b | b <;> rcases i with i | i <;> rcases j with j | j <;>
      simp [CC.int_to_spin_block, r4, ha a b i j, hb a b i j, h1, h2]
  · rw [block_ext _ _ _ _ _ _ _ _ _ _ _ _ _ _ x y z w h, block_ext _ _ _ _ _ _ _ _ _ _ _ _ _ _ x y w z (by omega), neg_zero]

end anti

/-- C22: `int_to_spin2` of antisymmetric same-spin integrals is antisymmetric. -/
theorem C22_int_to_spin2_anti (Ia Ib : TwoE ℕ ℕ K) (Iab : TwoEFull ℕ ℕ ℕ ℕ K) (noa nva nob nvb : ℕ)
    (ha : AntiI Ia) (hb : AntiI Ib) : AntiI (int_to_spin2 Ia Ib Iab noa nva nob nvb) := by
  constructor <;> simp only [int_to_spin2] <;> first
    | exact block_anti12 ha.vvvv12 hb.vvvv12 (fun _ _ _ _ => rfl) (fun _ _ _ _ => (neg_neg _).symm)
    | exact block_anti34 ha.vvvv34 hb.vvvv34 (fun _ _ _ _ => rfl) (fun _ _ _ _ => (neg_neg _).symm)
    | exact block_anti12 ha.vvvo12 hb.vvvo12 (fun _ _ _ _ => rfl) (fun _ _ _ _ => (neg_neg _).symm)
    | exact block_anti34 ha.vovv34 hb.vovv34 (fun _ _ _ _ => rfl) (fun _ _ _ _ => (neg_neg _).symm)
    | exact block_anti12 ha.vvoo12 hb.vvoo12 (fun _ _ _ _ => rfl) (fun _ _ _ _ => (neg_neg _).symm)
    | exact block_anti34 ha.vvoo34 hb.vvoo34 (fun _ _ _ _ => rfl) (fun _ _ _ _ => (neg_neg _).symm)
    | exact block_anti12 ha.oovv12 hb.oovv12 (fun _ _ _ _ => rfl) (fun _ _ _ _ => (neg_neg _).symm)
    | exact block_anti34 ha.oovv34 hb.oovv34 (fun _ _ _ _ => rfl) (fun _ _ _ _ => (neg_neg _).symm)
    | exact block_anti34 ha.vooo34 hb.vooo34 (fun _ _ _ _ => rfl) (fun _ _ _ _ => (neg_neg _).symm)
    | exact block_anti12 ha.ooov12 hb.ooov12 (fun _ _ _ _ => rfl) (fun _ _ _ _ => (neg_neg _).symm)
    | exact block_anti12 ha.oooo12 hb.oooo12 (fun _ _ _ _ => rfl) (fun _ _ _ _ => (neg_neg _).symm)
    | exact block_anti34 ha.oooo34 hb.oooo34 (fun _ _ _ _ => rfl) (fun _ _ _ _ => (neg_neg _).symm)

/-- antisymmetrised integrals are antisymmetric -/
theorem asymI_anti {O V : Type} (I : TwoEFull O V O V K) (h : PairI I) : AntiI (asymI I) := by
  obtain ⟨_, _, _, _, _, _, _, _, _, _⟩ := h
  constructor <;> intro x y z w <;> simp only [asymI] <;> grind

/-- C22: `int_to_spin` of same-spin integrals with the symmetry under exchange of both electrons is antisymmetric. -/
theorem C22_int_to_spin_anti (Ia Ib Iab : TwoEFull ℕ ℕ ℕ ℕ K) (noa nva nob nvb : ℕ) (ha : PairI Ia) (hb : PairI Ib) :
    AntiI (int_to_spin Ia Ib Iab noa nva nob nvb) := by
  rw [C22_int_to_spin_eq_int_to_spin2]
  exact C22_int_to_spin2_anti _ _ _ _ _ _ _ (asymI_anti Ia ha) (asymI_anti Ib hb)

/-! ## The hypotheses are satisfiable by arrays whose assembled forms are not zero -/

/-- an `n × m` array with the given elements -/
def cl2 (n m : ℕ) (f : ℕ → ℕ → ℚ) : ℕ → ℕ → ℚ := fun x y => if x < n ∧ y < m then f x y else 0

/-- an `n × m × p × q` array with the given elements -/
def cl4 (n m p q : ℕ) (f : ℕ → ℕ → ℕ → ℕ → ℚ) : ℕ → ℕ → ℕ → ℕ → ℚ := fun x y z w =>
  if x < n ∧ y < m ∧ z < p ∧ w < q then f x y z w else 0

theorem cl2_ext (n m : ℕ) (f : ℕ → ℕ → ℚ) : Ext2 n m (cl2 n m f) := fun x y h => if_neg h
theorem cl4_ext (n m p q : ℕ) (f : ℕ → ℕ → ℕ → ℕ → ℚ) : Ext4 n m p q (cl4 n m p q f) := fun x y z w h => if_neg h

/-- antisymmetric elements -/
def av (k : ℚ) (x y z w : ℕ) : ℚ := k * ((x : ℚ) - y) * ((z : ℚ) - w)

theorem cl4_anti (n m : ℕ) (k : ℚ) : AntiN (cl4 n n m m (av k)) := by
  constructor <;> intro x y z w <;> simp only [cl4, av] <;> split_ifs <;> first | ring1 | (exfalso; omega)

/-- one-electron blocks -/
def cF (no nv : ℕ) (k : ℚ) : OneE ℕ ℕ ℚ where
  oo := cl2 no no fun x y => k + x - 2 * y
  ov := cl2 no nv fun x y => k + x - 3 * y
  vo := cl2 nv no fun x y => k + x + y
  vv := cl2 nv nv fun x y => k + 2 * x + y

theorem cF_ext (no nv : ℕ) (k : ℚ) : ExtOne no nv (cF no nv k) :=
  ⟨cl2_ext _ _ _, cl2_ext _ _ _, cl2_ext _ _ _, cl2_ext _ _ _⟩

/-- same-spin two-electron blocks -/
def cI (no nv : ℕ) (k : ℚ) : TwoE ℕ ℕ ℚ where
  vvvv := cl4 nv nv nv nv (av k)
  vvvo := cl4 nv nv nv no fun x y z w => k * ((x : ℚ) - y) * (z + 1) * (w + 1)
  vovv := cl4 nv no nv nv fun x y z w => k * ((z : ℚ) - w) * (x + 1) * (y + 1)
  vvoo := cl4 nv nv no no (av k)
  vovo := cl4 nv no nv no fun x y z w => k + x + y * z + w
  oovv := cl4 no no nv nv (av k)
  vooo := cl4 nv no no no fun x y z w => k * ((z : ℚ) - w) * (x + 1) * (y + 1)
  ooov := cl4 no no no nv fun x y z w => k * ((x : ℚ) - y) * (z + 1) * (w + 1)
  oooo := cl4 no no no no (av k)

theorem cI_ext (no nv : ℕ) (k : ℚ) : ExtTwo no nv (cI no nv k) := by
  constructor <;> exact cl4_ext _ _ _ _ _

theorem cI_anti (no nv : ℕ) (k : ℚ) : AntiI (cI no nv k) := by
  constructor <;> intro x y z w <;> simp only [cI, cl4, av] <;> split_ifs <;> first | ring1 | (exfalso; omega)

/-- elements without symmetry under exchange of the electrons -/
def mv (k : ℚ) (x y z w : ℕ) : ℚ := k + x + 2 * y + 3 * x * z + 5 * w

/-- mixed-spin two-electron blocks -/
def cM (o v o' v' : ℕ) : TwoEFull ℕ ℕ ℕ ℕ ℚ where
  oooo := cl4 o o' o o' (mv 1)
  ooov := cl4 o o' o v' (mv 2)
  oovo := cl4 o o' v o' (mv 3)
  oovv := cl4 o o' v v' (mv 4)
  ovoo := cl4 o v' o o' (mv 5)
  ovov := cl4 o v' o v' (mv 6)
  ovvo := cl4 o v' v o' (mv 7)
  ovvv := cl4 o v' v v' (mv 8)
  vooo := cl4 v o' o o' (mv 9)
  voov := cl4 v o' o v' (mv 10)
  vovo := cl4 v o' v o' (mv 11)
  vovv := cl4 v o' v v' (mv 12)
  vvoo := cl4 v v' o o' (mv 13)
  vvov := cl4 v v' o v' (mv 14)
  vvvo := cl4 v v' v o' (mv 15)
  vvvv := cl4 v v' v v' (mv 16)

theorem cM_ext (o v o' v' : ℕ) : ExtFull o v o' v' (cM o v o' v') := by
  constructor <;> exact cl4_ext _ _ _ _ _

/-- C20: hypotheses of the round trips. -/
example : Ext2 3 2 (cl2 3 2 fun x y => 1 + x + y) ∧ Ext2 1 2 (cl2 1 2 fun x y => 5 - x - y) ∧
    T1_to_spin (cl2 3 2 fun x y => 1 + x + y) (cl2 1 2 fun x y => 5 - x - y) 2 3 2 1 3 2 = 5 ∧
    ExtOne 2 3 (cF 2 3 7) ∧ ExtOne 2 1 (cF 2 1 4) ∧ (F_to_spin (cF 2 3 7) (cF 2 1 4) 2 3 2 1).vo 3 3 = 5 :=
  ⟨cl2_ext _ _ _, cl2_ext _ _ _, by decide +kernel, cF_ext _ _ _, cF_ext _ _ _, by decide +kernel⟩

/-- C20: hypotheses of the reassembly theorems, met by assembled arrays. -/
example (Ta Tb : ℕ → ℕ → ℚ) : Ext2 (3 + 1) (2 + 2) (T1_to_spin Ta Tb 2 3 2 1) ∧
    ∀ x y, x < 3 ∧ 2 ≤ y ∨ 3 ≤ x ∧ y < 2 → T1_to_spin Ta Tb 2 3 2 1 x y = 0 :=
  ⟨(C20_T1_mixed_zero Ta Tb 2 3 2 1).2, (C20_T1_mixed_zero Ta Tb 2 3 2 1).1⟩

/-- C21: hypotheses on doubles. -/
example : Ext4 3 3 2 2 (cl4 3 3 2 2 (av 1)) ∧ AntiN (cl4 3 3 2 2 (av 1)) ∧ Ext4 3 2 2 3 (cl4 3 2 2 3 (mv 1)) ∧
    AntiN (T2_to_spin (cl4 3 3 2 2 (av 1)) (cl4 3 2 2 3 (mv 1)) (cl4 2 2 3 3 (av 2)) 2 3 3 2) ∧
    T2_to_spin (cl4 3 3 2 2 (av 1)) (cl4 3 2 2 3 (mv 1)) (cl4 2 2 3 3 (av 2)) 2 3 3 2 4 0 0 3 = -8 :=
  ⟨cl4_ext _ _ _ _ _, cl4_anti _ _ _, cl4_ext _ _ _ _ _, C21_T2_to_spin_anti _ _ _ _ _ _ _ (cl4_anti _ _ _) (cl4_anti _ _ _),
    by decide +kernel⟩

/-- C21, C22: hypotheses on integrals. -/
example : ExtTwo 2 3 (cI 2 3 1) ∧ ExtTwo 3 2 (cI 3 2 4) ∧ ExtFull 2 3 3 2 (cM 2 3 3 2) ∧ AntiI (cI 2 3 1) ∧ AntiI (cI 3 2 4) ∧
    (int_to_spin2 (cI 2 3 1) (cI 3 2 4) (cM 2 3 3 2) 2 3 3 2).vovo 0 2 3 1 ≠ 0 :=
  ⟨cI_ext _ _ _, cI_ext _ _ _, cM_ext _ _ _ _, cI_anti _ _ _, cI_anti _ _ _, by decide +kernel⟩

end CC.Num
