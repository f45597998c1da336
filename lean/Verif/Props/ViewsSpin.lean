import Verif.Props.Views
/-!
# C61: the conversions between spin and spatial orbitals on numpy arrays

The functions of spin_utils.py called with arrays of the documented shapes.  Nothing is raised, older arrays are unchanged, and the
elements are those of `Verif.Model.SpinFin`.
-/

set_option linter.unusedSectionVars false

namespace Np
variable {K : Type} [Field K]

/-- Arrays with two and with four axes. -/
def ten2 (A : ℕ → ℕ → K) : List ℕ → K
  | [x, y] => A x y
  | _ => 0
def ten4 (A : ℕ → ℕ → ℕ → ℕ → K) : List ℕ → K
  | [x, y, z, w] => A x y z w
  | _ => 0

theorem box2 {p q : ℕ} {idx : List ℕ} (h : InBox [p, q] idx) : ∃ x y, idx = [x, y] ∧ x < p ∧ y < q := by
  rcases h with _ | ⟨h1, _ | ⟨h2, _ | _⟩⟩
  exact ⟨_, _, rfl, h1, h2⟩

theorem box4 {p q r s : ℕ} {idx : List ℕ} (h : InBox [p, q, r, s] idx) :
    ∃ x y z w, idx = [x, y, z, w] ∧ x < p ∧ y < q ∧ z < r ∧ w < s := by
  rcases h with _ | ⟨h1, _ | ⟨h2, _ | ⟨h3, _ | ⟨h4, _ | _⟩⟩⟩⟩
  exact ⟨_, _, _, _, rfl, h1, h2, h3, h4⟩

variable {re : K →+ K} {m : Mem K} {noa nva nob nvb : ℕ}

/-- C61: `T1_to_spin` makes a new real array; imaginary parts of its arguments are lost, and a warning is issued if an argument is complex. -/
theorem C61_T1_to_spin {Ta Tb : View} {ca cb : Bool} {A B : ℕ → ℕ → K} (ha : Has m Ta ca [nva, noa] (ten2 A)) (hb : Has m Tb cb [nvb, nob] (ten2 B)) :
    Ok (T1_to_spin re Ta Tb noa nva nob nvb) m fun T m' => Keeps m m' ∧ m.next ≤ T.loc ∧ m'.warned = (m.warned || ca || cb) ∧
      Has m' T false [nva + nvb, noa + nob]
        (ten2 (CC.Num.T1_to_spin (fun a i => real re ca (A a i)) (fun a i => real re cb (B a i)) noa nva nob nvb)) := by
  refine (zeros_ok m _).bind fun T m1 h1 => ?_
  have b1 := h1.build
  refine (copy_ok (ha.keep b1.keeps)).bind fun w m2 h2 => ?_
  refine (set_ok re (b1.keep h2.keeps) h2.has (by simp [slShape, Sl.extent])).bind fun _ m3 h3 => ?_
  refine (copy_ok (hb.keep h3.1.keeps)).bind fun w m4 h4 => ?_
  refine (set_ok re (h3.1.keep h4.keeps) h4.has (by simp [slShape, Sl.extent])).bind fun _ m5 h5 => ?_
  refine .pure ⟨h5.1.keeps, h5.1.loc, ?_, h5.1.has.congr fun idx hi => ?_⟩
  · rw [h5.2.1, h4.warned, h3.2.1, h2.warned, h1.warned]
  · obtain ⟨x, y, rfl, hx, hy⟩ := box2 hi
    simp only [upd, slIn, unSl, ten2, CC.Num.T1_to_spin, CC.Num.setSl2, Bool.and_true, Bool.and_eq_true, decide_eq_true_eq, hx, hy, true_and, and_true,
      Nat.zero_le, Nat.sub_zero]

/-! ### slices and transposes of arrays with two and four axes -/

/-- The slice takes the part from `lo` up to `hi`, of length `e`, of an axis of length `n`. -/
def Sl.Is (l : Sl) (n lo hi e : ℕ) : Prop := l.extent n = e ∧ (∀ i, l.shift i = lo + i) ∧ lo + e = hi

theorem to_is (k b : ℕ) : (Sl.to k).Is (k + b) 0 k k := ⟨by simp [Sl.extent], by simp [Sl.shift], by simp⟩
theorem from_is (k b : ℕ) : (Sl.from k).Is (k + b) k (k + b) b := ⟨by simp [Sl.extent], by simp [Sl.shift], rfl⟩

theorem slice2_ok {v : View} {c : Bool} {n1 n2 : ℕ} {A : ℕ → ℕ → K} (h : Has m v c [n1, n2] (ten2 A)) {l1 l2 : Sl} {o1 h1 e1 o2 h2 e2 : ℕ}
    (i1 : l1.Is n1 o1 h1 e1) (i2 : l2.Is n2 o2 h2 e2) :
    Ok (slice v [l1, l2]) m fun w m' => m' = m ∧ w = ⟨v.loc, [e1, e2], fun idx => v.ix (slIx [l1, l2] idx)⟩ ∧
      Has m w c [e1, e2] (ten2 (CC.Num.getSl2 o1 h1 o2 h2 A)) := by
  refine (slice_ok (t := [e1, e2]) h (by simp [slShape, i1.1, i2.1])).imp fun w m' ⟨a, b, d⟩ => ⟨a, b, d.congr fun idx hi => ?_⟩
  obtain ⟨x, y, rfl, hx, hy⟩ := box2 hi
  obtain ⟨-, s1, b1⟩ := i1
  obtain ⟨-, s2, b2⟩ := i2
  simp only [slIx, s1, s2, ten2, CC.Num.getSl2]
  rw [if_pos ⟨by omega, by omega⟩]

theorem slice4_ok {v : View} {c : Bool} {n1 n2 n3 n4 : ℕ} {A : ℕ → ℕ → ℕ → ℕ → K} (h : Has m v c [n1, n2, n3, n4] (ten4 A)) {l1 l2 l3 l4 : Sl}
    {o1 h1 e1 o2 h2 e2 o3 h3 e3 o4 h4 e4 : ℕ} (i1 : l1.Is n1 o1 h1 e1) (i2 : l2.Is n2 o2 h2 e2) (i3 : l3.Is n3 o3 h3 e3) (i4 : l4.Is n4 o4 h4 e4) :
    Ok (slice v [l1, l2, l3, l4]) m fun w m' => m' = m ∧ w = ⟨v.loc, [e1, e2, e3, e4], fun idx => v.ix (slIx [l1, l2, l3, l4] idx)⟩ ∧
      Has m w c [e1, e2, e3, e4] (ten4 (CC.Num.getSl4 o1 h1 o2 h2 o3 h3 o4 h4 A)) := by
  refine (slice_ok (t := [e1, e2, e3, e4]) h (by simp [slShape, i1.1, i2.1, i3.1, i4.1])).imp fun w m' ⟨a, b, d⟩ => ⟨a, b, d.congr fun idx hi => ?_⟩
  obtain ⟨x, y, z, u, rfl, hx, hy, hz, hu⟩ := box4 hi
  obtain ⟨-, s1, b1⟩ := i1
  obtain ⟨-, s2, b2⟩ := i2
  obtain ⟨-, s3, b3⟩ := i3
  obtain ⟨-, s4, b4⟩ := i4
  simp only [slIx, s1, s2, s3, s4, ten4, CC.Num.getSl4]
  rw [if_pos ⟨by omega, by omega, by omega, by omega⟩]

section
variable {v : View} {c : Bool} {n1 n2 n3 n4 : ℕ} {A : ℕ → ℕ → ℕ → ℕ → K} (h : Has m v c [n1, n2, n3, n4] (ten4 A))
include h

theorem t1032_ok : Ok (transpose [1, 0, 3, 2] v) m fun w m' => m' = m ∧ w.loc = v.loc ∧
    Has m w c [n2, n1, n4, n3] (ten4 fun x y z u => A y x u z) := by
  refine (transpose_ok (p := [1, 0, 3, 2]) h rfl rfl).imp fun w m' ⟨a, b, d⟩ => ⟨a, b, d.congr fun idx hi => ?_⟩
  obtain ⟨x, y, z, u, rfl, -⟩ := box4 (p := n2) (q := n1) (r := n4) (s := n3) hi
  rfl

theorem t0132_ok : Ok (transpose [0, 1, 3, 2] v) m fun w m' => m' = m ∧ w.loc = v.loc ∧
    Has m w c [n1, n2, n4, n3] (ten4 fun x y z u => A x y u z) := by
  refine (transpose_ok (p := [0, 1, 3, 2]) h rfl rfl).imp fun w m' ⟨a, b, d⟩ => ⟨a, b, d.congr fun idx hi => ?_⟩
  obtain ⟨x, y, z, u, rfl, -⟩ := box4 (p := n1) (q := n2) (r := n4) (s := n3) hi
  rfl

theorem t1023_ok : Ok (transpose [1, 0, 2, 3] v) m fun w m' => m' = m ∧ w.loc = v.loc ∧
    Has m w c [n2, n1, n3, n4] (ten4 fun x y z u => A y x z u) := by
  refine (transpose_ok (p := [1, 0, 2, 3]) h rfl rfl).imp fun w m' ⟨a, b, d⟩ => ⟨a, b, d.congr fun idx hi => ?_⟩
  obtain ⟨x, y, z, u, rfl, -⟩ := box4 (p := n2) (q := n1) (r := n3) (s := n4) hi
  rfl

theorem neg4_ok : Ok (neg v) m fun w m' => Fresh m m' w c [n1, n2, n3, n4] (ten4 fun x y z u => -A x y z u) := by
  refine (neg_ok h).imp fun w m' q => ⟨q.keeps, q.loc, q.ix, q.has.congr fun idx hi => ?_, q.warned⟩
  obtain ⟨x, y, z, u, rfl, -⟩ := box4 hi
  rfl

theorem sub4_ok {w : View} {d : Bool} {B : ℕ → ℕ → ℕ → ℕ → K} (h' : Has m w d [n1, n2, n3, n4] (ten4 B)) :
    Ok (sub v w) m fun r m' => Fresh m m' r (c || d) [n1, n2, n3, n4] (ten4 fun x y z u => A x y z u - B x y z u) := by
  refine (sub_ok h h').imp fun w m' q => ⟨q.keeps, q.loc, q.ix, q.has.congr fun idx hi => ?_, q.warned⟩
  obtain ⟨x, y, z, u, rfl, -⟩ := box4 hi
  rfl
end

theorem real_neg (c : Bool) (x : K) : real re c (-x) = -real re c x := by cases c <;> simp [real]
theorem real_sub (c : Bool) (x y : K) : real re c (x - y) = real re c x - real re c y := by cases c <;> simp [real]

/-! ### one-electron arrays -/

/-- C61: `T1_to_spatial` makes two new arrays of the element type of its argument. -/
theorem C61_T1_to_spatial {T : View} {c : Bool} {A : ℕ → ℕ → K} (h : Has m T c [nva + nvb, noa + nob] (ten2 A)) :
    Ok (T1_to_spatial T noa nva nob nvb) m fun r m' => Keeps m m' ∧ m.next ≤ r.1.loc ∧ r.1.loc < r.2.loc ∧ m'.warned = m.warned ∧
      Has m' r.1 c [nva, noa] (ten2 (CC.Num.T1_to_spatial A noa nva nob nvb).1) ∧
      Has m' r.2 c [nvb, nob] (ten2 (CC.Num.T1_to_spatial A noa nva nob nvb).2) := by
  refine (slice2_ok h (to_is _ _) (to_is _ _)).bind fun w m1 ⟨e1, _, h1⟩ => ?_
  subst e1
  refine (copy_ok h1).bind fun Ta m2 h2 => ?_
  refine (slice2_ok (h.keep h2.keeps) (from_is _ _) (from_is _ _)).bind fun w m3 ⟨e3, _, h3⟩ => ?_
  subst e3
  refine (copy_ok h3).bind fun Tb m4 h4 => ?_
  refine .pure ⟨h2.keeps.trans h4.keeps, h2.loc.ge, ?_, by rw [h4.warned, h2.warned], h2.has.keep h4.keeps, h4.has⟩
  rw [h4.loc]; exact h2.has.loc

/-- Blocks of a one-electron operator in memory, of one element type. -/
structure HasOne (m : Mem K) (F : OneB) (c : Bool) (no nv : ℕ) (A : CC.OneE ℕ ℕ K) : Prop where
  oo : Has m F.oo c [no, no] (ten2 A.oo)
  ov : Has m F.ov c [no, nv] (ten2 A.ov)
  vo : Has m F.vo c [nv, no] (ten2 A.vo)
  vv : Has m F.vv c [nv, nv] (ten2 A.vv)

def OneB.views (F : OneB) : List View := [F.oo, F.ov, F.vo, F.vv]

/-- The blocks as real arrays receive them. -/
def realOne (re : K →+ K) (c : Bool) (A : CC.OneE ℕ ℕ K) : CC.OneE ℕ ℕ K :=
  ⟨fun x y => real re c (A.oo x y), fun x y => real re c (A.ov x y), fun x y => real re c (A.vo x y), fun x y => real re c (A.vv x y)⟩

/-- The three statements that `F_to_spin` repeats. -/
theorem pair_ok {β : Type} {k : View → Run K β} {Q : β → Mem K → Prop} {Fa Fb : View} {ca cb : Bool} {A B : ℕ → ℕ → K} {a1 a2 b1 b2 : ℕ}
    (ha : Has m Fa ca [a1, a2] (ten2 A)) (hb : Has m Fb cb [b1, b2] (ten2 B))
    (hk : ∀ T m', Keeps m m' → m.next ≤ T.loc → m'.warned = (m.warned || ca || cb) →
      Has m' T false [a1 + b1, a2 + b2] (ten2 (CC.Num.setSl2 a1 (a1 + b1) a2 (a2 + b2) (fun x y => real re cb (B x y))
        (CC.Num.setSl2 0 a1 0 a2 (fun x y => real re ca (A x y)) fun _ _ => 0))) → Ok (k T) m' Q) :
    Ok (do let T ← zeros [a1 + b1, a2 + b2]; setSlice re T [.to a1, .to a2] Fa; setSlice re T [.from a1, .from a2] Fb; k T) m Q := by
  refine (zeros_ok m _).bind fun T m1 h1 => ?_
  have b1 := h1.build
  refine (set_ok re b1 (ha.keep b1.keeps) (by simp [slShape, Sl.extent])).bind fun _ m2 h2 => ?_
  refine (set_ok re h2.1 (hb.keep h2.1.keeps) (by simp [slShape, Sl.extent])).bind fun _ m3 h3 => ?_
  refine hk T m3 h3.1.keeps h3.1.loc (by rw [h3.2.1, h2.2.1, h1.warned]) (h3.1.has.congr fun idx hi => ?_)
  obtain ⟨x, y, rfl, hx, hy⟩ := box2 hi
  simp only [upd, slIn, unSl, ten2, CC.Num.setSl2, Bool.and_true, Bool.and_eq_true, decide_eq_true_eq, hx, hy, true_and, and_true,
    Nat.zero_le, Nat.sub_zero]

/-- C61: `F_to_spin` makes four new real arrays. -/
theorem C61_F_to_spin {Fa Fb : OneB} {ca cb : Bool} {A B : CC.OneE ℕ ℕ K} (ha : HasOne m Fa ca noa nva A) (hb : HasOne m Fb cb nob nvb B) :
    Ok (F_to_spin re Fa Fb noa nva nob nvb) m fun F m' => Keeps m m' ∧ (∀ v ∈ F.views, m.next ≤ v.loc) ∧
      (F.views.map View.loc).Nodup ∧ m'.warned = (m.warned || ca || cb) ∧
      HasOne m' F false (noa + nob) (nva + nvb) (CC.Num.F_to_spin (realOne re ca A) (realOne re cb B) noa nva nob nvb) := by
  refine pair_ok ha.oo hb.oo fun oo m1 k1 l1 w1 h1 => ?_
  refine pair_ok (ha.ov.keep k1) (hb.ov.keep k1) fun ov m2 k2 l2 w2 h2 => ?_
  refine pair_ok (ha.vo.keep (k1.trans k2)) (hb.vo.keep (k1.trans k2)) fun vo m3 k3 l3 w3 h3 => ?_
  refine pair_ok (ha.vv.keep ((k1.trans k2).trans k3)) (hb.vv.keep ((k1.trans k2).trans k3)) fun vv m4 k4 l4 w4 h4 => ?_
  refine .pure ⟨((k1.trans k2).trans k3).trans k4, ?_, ?_, ?_, ⟨h1.keep ((k2.trans k3).trans k4), h2.keep (k3.trans k4), h3.keep k4, h4⟩⟩
  · have := k1.1; have := k2.1; have := k3.1
    simp only [OneB.views, List.mem_cons, List.not_mem_nil, or_false]
    rintro v (rfl | rfl | rfl | rfl) <;> omega
  · have := h1.loc; have := h2.loc; have := h3.loc
    simp only [OneB.views, List.map_cons, List.map_nil, List.nodup_cons, List.mem_cons, List.not_mem_nil, or_false, not_or, List.nodup_nil,
      not_false_eq_true, and_true]
    omega
  · rw [w4, w3, w2, w1]
    cases m.warned <;> cases ca <;> cases cb <;> rfl

/-- C61: `F_to_spatial` changes nothing and returns blocks of the element type of its argument ... -/
theorem C61_F_to_spatial {F : OneB} {c : Bool} {A : CC.OneE ℕ ℕ K} (h : HasOne m F c (noa + nob) (nva + nvb) A) :
    Ok (F_to_spatial F noa nva nob nvb) m fun r m' => m' = m ∧
      HasOne m r.1 c noa nva (CC.Num.F_to_spatial A noa nva nob nvb).1 ∧ HasOne m r.2 c nob nvb (CC.Num.F_to_spatial A noa nva nob nvb).2 := by
  refine (slice2_ok h.oo (to_is _ _) (to_is _ _)).bind fun v1 m1 ⟨e, _, h1⟩ => ?_; subst e
  refine (slice2_ok h.ov (to_is _ _) (to_is _ _)).bind fun v2 m1 ⟨e, _, h2⟩ => ?_; subst e
  refine (slice2_ok h.vo (to_is _ _) (to_is _ _)).bind fun v3 m1 ⟨e, _, h3⟩ => ?_; subst e
  refine (slice2_ok h.vv (to_is _ _) (to_is _ _)).bind fun v4 m1 ⟨e, _, h4⟩ => ?_; subst e
  refine (slice2_ok h.oo (from_is _ _) (from_is _ _)).bind fun v5 m1 ⟨e, _, h5⟩ => ?_; subst e
  refine (slice2_ok h.ov (from_is _ _) (from_is _ _)).bind fun v6 m1 ⟨e, _, h6⟩ => ?_; subst e
  refine (slice2_ok h.vo (from_is _ _) (from_is _ _)).bind fun v7 m1 ⟨e, _, h7⟩ => ?_; subst e
  refine (slice2_ok h.vv (from_is _ _) (from_is _ _)).bind fun v8 m1 ⟨e, _, h8⟩ => ?_; subst e
  exact .pure ⟨rfl, ⟨h1, h2, h3, h4⟩, ⟨h5, h6, h7, h8⟩⟩

/-! ### two-electron arrays -/

/-- C61: `T2_to_spin` makes a new real array. -/
theorem C61_T2_to_spin {Taa Tab Tbb : View} {ca cx cb : Bool} {A X B : ℕ → ℕ → ℕ → ℕ → K} (ha : Has m Taa ca [nva, nva, noa, noa] (ten4 A))
    (hx : Has m Tab cx [nva, nvb, noa, nob] (ten4 X)) (hb : Has m Tbb cb [nvb, nvb, nob, nob] (ten4 B)) :
    Ok (T2_to_spin re Taa Tab Tbb noa nva nob nvb) m fun T m' => Keeps m m' ∧ m.next ≤ T.loc ∧ m'.warned = (m.warned || ca || cb || cx) ∧
      Has m' T false [nva + nvb, nva + nvb, noa + nob, noa + nob]
        (ten4 (CC.Num.T2_to_spin (fun a b i j => real re ca (A a b i j)) (fun a b i j => real re cx (X a b i j)) (fun a b i j => real re cb (B a b i j))
          noa nva nob nvb)) := by
  refine (zeros_ok m _).bind fun T m1 h1 => ?_
  have b1 := h1.build
  refine (copy_ok (ha.keep b1.keeps)).bind fun w m2 h2 => ?_
  refine (set_ok re (b1.keep h2.keeps) h2.has (by simp [slShape, Sl.extent])).bind fun _ m3 h3 => ?_
  refine (copy_ok (hb.keep h3.1.keeps)).bind fun w m4 h4 => ?_
  refine (set_ok re (h3.1.keep h4.keeps) h4.has (by simp [slShape, Sl.extent])).bind fun _ m5 h5 => ?_
  refine (copy_ok (hx.keep h5.1.keeps)).bind fun w m6 h6 => ?_
  refine (set_ok re (h5.1.keep h6.keeps) h6.has (by simp [slShape, Sl.extent])).bind fun _ m7 h7 => ?_
  refine (t1032_ok (hx.keep h7.1.keeps)).bind fun u m8 ⟨e, _, h8⟩ => ?_; subst e
  refine (copy_ok h8).bind fun w m9 h9 => ?_
  refine (set_ok re (h7.1.keep h9.keeps) h9.has (by simp [slShape, Sl.extent])).bind fun _ m10 h10 => ?_
  refine (t0132_ok (hx.keep h10.1.keeps)).bind fun u m11 ⟨e, _, h11⟩ => ?_; subst e
  refine (copy_ok h11).bind fun w m12 h12 => ?_
  refine (neg4_ok h12.has).bind fun w m13 h13 => ?_
  refine (set_ok re ((h10.1.keep h12.keeps).keep h13.keeps) h13.has (by simp [slShape, Sl.extent])).bind fun _ m14 h14 => ?_
  refine (t1023_ok (hx.keep h14.1.keeps)).bind fun u m15 ⟨e, _, h15⟩ => ?_; subst e
  refine (copy_ok h15).bind fun w m16 h16 => ?_
  refine (neg4_ok h16.has).bind fun w m17 h17 => ?_
  refine (set_ok re ((h14.1.keep h16.keeps).keep h17.keeps) h17.has (by simp [slShape, Sl.extent])).bind fun _ m18 h18 => ?_
  refine .pure ⟨h18.1.keeps, h18.1.loc, ?_, h18.1.has.congr fun idx hi => ?_⟩
  · rw [h18.2.1, h17.warned, h16.warned, h14.2.1, h13.warned, h12.warned, h10.2.1, h9.warned, h7.2.1, h6.warned, h5.2.1, h4.warned, h3.2.1, h2.warned,
      h1.warned]
    simp only [Bool.or_assoc, Bool.or_self]
  · obtain ⟨x, y, z, u, rfl, hx, hy, hz, hu⟩ := box4 hi
    simp only [upd, slIn, unSl, ten4, CC.Num.T2_to_spin, CC.Num.setSl4, Bool.and_true, Bool.and_eq_true, decide_eq_true_eq, hx, hy, hz, hu, true_and,
      and_true, Nat.zero_le, Nat.sub_zero, real_neg]

/-- C61: `D2_to_spin` makes a new real array. -/
theorem C61_D2_to_spin {Daa Dab Dbb : View} {ca cx cb : Bool} {A X B : ℕ → ℕ → ℕ → ℕ → K} (ha : Has m Daa ca [nva, nva, noa, noa] (ten4 A))
    (hx : Has m Dab cx [nva, nvb, noa, nob] (ten4 X)) (hb : Has m Dbb cb [nvb, nvb, nob, nob] (ten4 B)) :
    Ok (D2_to_spin re Daa Dab Dbb noa nva nob nvb) m fun D m' => Keeps m m' ∧ m.next ≤ D.loc ∧ m'.warned = (m.warned || ca || cb || cx) ∧
      Has m' D false [nva + nvb, nva + nvb, noa + nob, noa + nob]
        (ten4 (CC.Num.D2_to_spin (fun a b i j => real re ca (A a b i j)) (fun a b i j => real re cx (X a b i j)) (fun a b i j => real re cb (B a b i j))
          noa nva nob nvb)) := by
  refine (zeros_ok m _).bind fun T m1 h1 => ?_
  have b1 := h1.build
  refine (copy_ok (ha.keep b1.keeps)).bind fun w m2 h2 => ?_
  refine (set_ok re (b1.keep h2.keeps) h2.has (by simp [slShape, Sl.extent])).bind fun _ m3 h3 => ?_
  refine (copy_ok (hb.keep h3.1.keeps)).bind fun w m4 h4 => ?_
  refine (set_ok re (h3.1.keep h4.keeps) h4.has (by simp [slShape, Sl.extent])).bind fun _ m5 h5 => ?_
  refine (copy_ok (hx.keep h5.1.keeps)).bind fun w m6 h6 => ?_
  refine (set_ok re (h5.1.keep h6.keeps) h6.has (by simp [slShape, Sl.extent])).bind fun _ m7 h7 => ?_
  refine (t1032_ok (hx.keep h7.1.keeps)).bind fun u m8 ⟨e, _, h8⟩ => ?_; subst e
  refine (copy_ok h8).bind fun w m9 h9 => ?_
  refine (set_ok re (h7.1.keep h9.keeps) h9.has (by simp [slShape, Sl.extent])).bind fun _ m10 h10 => ?_
  refine (t0132_ok (hx.keep h10.1.keeps)).bind fun u m11 ⟨e, _, h11⟩ => ?_; subst e
  refine (copy_ok h11).bind fun w m12 h12 => ?_
  refine (set_ok re (h10.1.keep h12.keeps) h12.has (by simp [slShape, Sl.extent])).bind fun _ m14 h14 => ?_
  refine (t1023_ok (hx.keep h14.1.keeps)).bind fun u m15 ⟨e, _, h15⟩ => ?_; subst e
  refine (copy_ok h15).bind fun w m16 h16 => ?_
  refine (set_ok re (h14.1.keep h16.keeps) h16.has (by simp [slShape, Sl.extent])).bind fun _ m18 h18 => ?_
  refine .pure ⟨h18.1.keeps, h18.1.loc, ?_, h18.1.has.congr fun idx hi => ?_⟩
  · rw [h18.2.1, h16.warned, h14.2.1, h12.warned, h10.2.1, h9.warned, h7.2.1, h6.warned, h5.2.1, h4.warned, h3.2.1, h2.warned, h1.warned]
    simp only [Bool.or_assoc, Bool.or_self]
  · obtain ⟨x, y, z, u, rfl, hx, hy, hz, hu⟩ := box4 hi
    simp only [upd, slIn, unSl, ten4, CC.Num.D2_to_spin, CC.Num.setSl4, Bool.and_true, Bool.and_eq_true, decide_eq_true_eq, hx, hy, hz, hu, true_and,
      and_true, Nat.zero_le, Nat.sub_zero]

/-- C61: `T2_to_spatial` makes three new arrays of the element type of its argument. -/
theorem C61_T2_to_spatial {T : View} {c : Bool} {A : ℕ → ℕ → ℕ → ℕ → K} (h : Has m T c [nva + nvb, nva + nvb, noa + nob, noa + nob] (ten4 A)) :
    Ok (T2_to_spatial T noa nva nob nvb) m fun r m' => Keeps m m' ∧ (∀ v ∈ [r.1, r.2.1, r.2.2], m.next ≤ v.loc) ∧
      ([r.1, r.2.1, r.2.2].map View.loc).Nodup ∧ m'.warned = m.warned ∧
      Has m' r.1 c [nva, nva, noa, noa] (ten4 (CC.Num.T2_to_spatial A noa nva nob nvb).1) ∧
      Has m' r.2.1 c [nva, nvb, noa, nob] (ten4 (CC.Num.T2_to_spatial A noa nva nob nvb).2.1) ∧
      Has m' r.2.2 c [nvb, nvb, nob, nob] (ten4 (CC.Num.T2_to_spatial A noa nva nob nvb).2.2) := by
  refine (slice4_ok h (to_is _ _) (to_is _ _) (to_is _ _) (to_is _ _)).bind fun w m1 ⟨e1, _, h1⟩ => ?_
  subst e1
  refine (copy_ok h1).bind fun Taa m2 h2 => ?_
  refine (slice4_ok (h.keep h2.keeps) (from_is _ _) (from_is _ _) (from_is _ _) (from_is _ _)).bind fun w m3 ⟨e3, _, h3⟩ => ?_
  subst e3
  refine (copy_ok h3).bind fun Tbb m4 h4 => ?_
  refine (slice4_ok ((h.keep h2.keeps).keep h4.keeps) (to_is _ _) (from_is _ _) (to_is _ _) (from_is _ _)).bind fun w m5 ⟨e5, _, h5⟩ => ?_
  subst e5
  refine (copy_ok h5).bind fun Tab m6 h6 => ?_
  refine .pure ⟨(h2.keeps.trans h4.keeps).trans h6.keeps, ?_, ?_, by rw [h6.warned, h4.warned, h2.warned],
    h2.has.keep (h4.keeps.trans h6.keeps), h6.has, h4.has.keep h6.keeps⟩
  all_goals
    have l2 := h2.loc; have l4 := h4.loc; have l6 := h6.loc
    have s2 := h2.has.loc; have s4 := h4.has.loc; have s6 := h6.has.loc
  · simp only [List.mem_cons, List.not_mem_nil, or_false]
    rintro v (rfl | rfl | rfl) <;> omega
  · simp only [List.map_cons, List.map_nil, List.nodup_cons, List.mem_cons, List.not_mem_nil, or_false, not_or, List.nodup_nil, not_false_eq_true, and_true]
    omega

/-- C61: `int_to_spin_block` makes a new real array. -/
theorem C61_int_to_spin_block {aaaa bbbb abab baba abba baab : View} {c1 c2 c3 c4 c5 c6 : Bool} {A1 A2 A3 A4 A5 A6 : ℕ → ℕ → ℕ → ℕ → K}
    {na1 na2 na3 na4 nb1 nb2 nb3 nb4 : ℕ}
    (h1 : Has m aaaa c1 [na1, na2, na3, na4] (ten4 A1)) (h2 : Has m bbbb c2 [nb1, nb2, nb3, nb4] (ten4 A2))
    (h3 : Has m abab c3 [na1, nb2, na3, nb4] (ten4 A3)) (h4 : Has m baba c4 [nb1, na2, nb3, na4] (ten4 A4))
    (h5 : Has m abba c5 [na1, nb2, nb3, na4] (ten4 A5)) (h6 : Has m baab c6 [nb1, na2, na3, nb4] (ten4 A6)) :
    Ok (int_to_spin_block re aaaa bbbb abab baba abba baab na1 na2 na3 na4 nb1 nb2 nb3 nb4) m fun I m' => Keeps m m' ∧ m.next ≤ I.loc ∧
      m'.warned = (m.warned || c1 || c2 || c3 || c5 || c6 || c4) ∧
      Has m' I false [na1 + nb1, na2 + nb2, na3 + nb3, na4 + nb4]
        (ten4 (CC.Num.int_to_spin_block (fun x y z w => real re c1 (A1 x y z w)) (fun x y z w => real re c2 (A2 x y z w))
          (fun x y z w => real re c3 (A3 x y z w)) (fun x y z w => real re c4 (A4 x y z w)) (fun x y z w => real re c5 (A5 x y z w))
          (fun x y z w => real re c6 (A6 x y z w)) na1 na2 na3 na4 nb1 nb2 nb3 nb4)) := by
  refine (zeros_ok m _).bind fun T m1 g0 => ?_
  have b0 := g0.build
  refine (set_ok re b0 (h1.keep b0.keeps) (by simp [slShape, Sl.extent])).bind fun _ m3 g1 => ?_
  refine (set_ok re g1.1 (h2.keep g1.1.keeps) (by simp [slShape, Sl.extent])).bind fun _ m3 g2 => ?_
  refine (set_ok re g2.1 (h3.keep g2.1.keeps) (by simp [slShape, Sl.extent])).bind fun _ m3 g3 => ?_
  refine (set_ok re g3.1 (h5.keep g3.1.keeps) (by simp [slShape, Sl.extent])).bind fun _ m3 g4 => ?_
  refine (set_ok re g4.1 (h6.keep g4.1.keeps) (by simp [slShape, Sl.extent])).bind fun _ m3 g5 => ?_
  refine (set_ok re g5.1 (h4.keep g5.1.keeps) (by simp [slShape, Sl.extent])).bind fun _ m3 g6 => ?_
  refine .pure ⟨g6.1.keeps, g6.1.loc, ?_, g6.1.has.congr fun idx hi => ?_⟩
  · rw [g6.2.1, g5.2.1, g4.2.1, g3.2.1, g2.2.1, g1.2.1, g0.warned]
  · obtain ⟨x, y, z, u, rfl, hx, hy, hz, hu⟩ := box4 hi
    simp only [upd, slIn, unSl, ten4, CC.Num.int_to_spin_block, CC.Num.setSl4, Bool.and_true, Bool.and_eq_true, decide_eq_true_eq, hx, hy, hz, hu, true_and,
      and_true, Nat.zero_le, Nat.sub_zero]

end Np
