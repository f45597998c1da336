import Verif.Props.Num
/-!
# C20–C22: the two models of the spin conversions agree

`Model/SpinFin.lean` follows the slices of spin_utils.py.  `Model/Spin.lean` has the spin of an index in its type.  The assembling functions used by
the theorems on coupled cluster are compared in `Props/Num.lean`, the others here.
-/

namespace CC.Num
variable {K : Type} [Field K] (noa nva nob nvb : ℕ)

/-- C20: `F_to_spatial`. -/
theorem C20_F_to_spatial_sum (F : OneE ℕ ℕ K) :
    (f1 noa nva (F_to_spatial F noa nva nob nvb).1, f1 nob nvb (F_to_spatial F noa nva nob nvb).2) =
      CC.F_to_spatial (F.map (enc noa nob) (enc nva nvb)) := by
  simp only [F_to_spatial, CC.F_to_spatial, OneE.map, map2, Prod.mk.injEq, OneE.mk.injEq]
  refine ⟨⟨?_, ?_, ?_, ?_⟩, ?_, ?_, ?_, ?_⟩ <;> funext x y <;> simp [getSl2, enc, map2]

/-- C20: `T1_to_spatial`. -/
theorem C20_T1_to_spatial_sum (T : ℕ → ℕ → K) :
    (r2 nva noa (T1_to_spatial T noa nva nob nvb).1, r2 nvb nob (T1_to_spatial T noa nva nob nvb).2) =
      CC.T1_to_spatial (map2 (enc nva nvb) (enc noa nob) T) := by
  simp only [T1_to_spatial, CC.T1_to_spatial, Prod.mk.injEq]
  refine ⟨?_, ?_⟩ <;> funext x y <;> simp [getSl2, enc, map2, r2]

/-- C21: `T2_to_spatial`. -/
theorem C21_T2_to_spatial_sum (T : ℕ → ℕ → ℕ → ℕ → K) :
    (r4 nva nva noa noa (T2_to_spatial T noa nva nob nvb).1, r4 nva nvb noa nob (T2_to_spatial T noa nva nob nvb).2.1,
      r4 nvb nvb nob nob (T2_to_spatial T noa nva nob nvb).2.2) =
      CC.T2_to_spatial (map4 (enc nva nvb) (enc nva nvb) (enc noa nob) (enc noa nob) T) := by
  simp only [T2_to_spatial, CC.T2_to_spatial, Prod.mk.injEq]
  refine ⟨?_, ?_, ?_⟩ <;> funext x y z w <;> simp [getSl4, enc, map4, r4]

/-- C21: `D2_to_spin`. -/
theorem C21_D2_to_spin_sum (Daa Dab Dbb : ℕ → ℕ → ℕ → ℕ → K) :
    map4 (enc nva nvb) (enc nva nvb) (enc noa nob) (enc noa nob) (D2_to_spin Daa Dab Dbb noa nva nob nvb) =
      CC.D2_to_spin (r4 nva nva noa noa Daa) (r4 nva nvb noa nob Dab) (r4 nvb nvb nob nob Dbb) := by
  funext x y z w
  rcases x with x | x <;> rcases y with y | y <;> rcases z with z | z <;> rcases w with w | w <;>
    have hx := x.2 <;> have hy := y.2 <;> have hz := z.2 <;> have hw := w.2 <;>
    simp [D2_to_spin, CC.D2_to_spin, map4, enc, setSl4, r4, Nat.not_le.2 hx, Nat.not_le.2 hy, Nat.not_le.2 hz, Nat.not_le.2 hw]

/-- C22: `int_to_spin`. -/
theorem C22_int_to_spin_sum (Ia Ib Iab : TwoEFull ℕ ℕ ℕ ℕ K) :
    (int_to_spin Ia Ib Iab noa nva nob nvb).map (enc noa nob) (enc nva nvb) =
      CC.int_to_spin (f3 noa nva noa nva Ia) (f3 nob nvb nob nvb Ib) (f3 noa nva nob nvb Iab) := by
  simp only [int_to_spin, CC.int_to_spin, TwoE.map, TwoE.mk.injEq]
  refine ⟨?_, ?_, ?_, ?_, ?_, ?_, ?_, ?_, ?_⟩ <;> funext x y z w <;> exact block_enc ..

/-- C22: `int_to_spatial`. -/
theorem C22_int_to_spatial_sum (I : TwoE ℕ ℕ K) :
    (f2 noa nva (int_to_spatial I noa nob nva nvb).1, f2 nob nvb (int_to_spatial I noa nob nva nvb).2.1,
      f3 noa nva nob nvb (int_to_spatial I noa nob nva nvb).2.2) = CC.int_to_spatial (I.map (enc noa nob) (enc nva nvb)) := by
  simp only [int_to_spatial, CC.int_to_spatial, TwoE.map, TwoEFull.map, Prod.mk.injEq, TwoE.mk.injEq, TwoEFull.mk.injEq]
  refine ⟨⟨?_, ?_, ?_, ?_, ?_, ?_, ?_, ?_, ?_⟩, ⟨?_, ?_, ?_, ?_, ?_, ?_, ?_, ?_, ?_⟩,
    ?_, ?_, ?_, ?_, ?_, ?_, ?_, ?_, ?_, ?_, ?_, ?_, ?_, ?_, ?_, ?_⟩ <;> funext x y z w <;> simp [getSl4, enc]

example : (CC.F_to_spatial (OneE.map (enc 1 1) (enc 1 1) (⟨fun i j => i + 2 * j, fun _ _ => 0, fun _ _ => 0, fun _ _ => 0⟩ : OneE ℕ ℕ ℚ))).2.oo 0 0 = 3 := by
  norm_num [CC.F_to_spatial, OneE.map, map2, enc]

end CC.Num
