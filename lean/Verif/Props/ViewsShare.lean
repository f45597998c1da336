import Verif.Props.ViewsInt
import Verif.Props.Spin
import Mathlib.Data.Complex.Basic
/-!
# C61, C62: what is shared, what is lost, and what is detected
-/

set_option linter.unusedSectionVars false

namespace Np
variable {K : Type} [Field K] {re : K →+ K} {m : Mem K} {noa nva nob nvb : ℕ}

/-- `t` is the slice `v[ls]` (and shares the memory of `v`). -/
def Part (ls : List Sl) (v t : View) : Prop := ∃ s, t = ⟨v.loc, s, fun idx => v.ix (slIx ls idx)⟩

/-- Different indices belong to different elements of the buffer. -/
def Inj (v : View) : Prop := ∀ a b, InBox v.shape a → InBox v.shape b → v.ix a = v.ix b → a = b

/-- C62: an assignment to an array that is new since `m₀` changes nothing that existed in `m₀`. -/
theorem C62_new {m₀ : Mem K} {t w : View} {m' : Mem K} (k : Keeps m₀ m) (h : m₀.next ≤ t.loc) (e : assign re t w m = .ok ((), m')) : Keeps m₀ m' := by
  unfold assign at e
  split_ifs at e
  cases e
  refine ⟨k.1, fun l hl => ?_⟩
  have : l ≠ t.loc := by omega
  simp only [Function.update_of_ne this]
  exact k.2 l hl

theorem upd_loc {β : Type} {h : ℕ → β} {b : β} {l l' : ℕ} (e : l = l') : Function.update h l b l' = b := by
  subst e; exact Function.update_self ..

/-- C62: an assignment to a slice of an array assigns to the array. -/
theorem C62_part {v t w : View} {ls : List Sl} {s u : List ℕ} {c d : Bool} {f g : List ℕ → K} (hp : Part ls v t) (hs : slShape ls s = some u)
    (ht : t.shape = u) (hv : Has m v c s f) (hi : Inj v) (hw : Has m w d u g) :
    Ok (assign re t w) m fun _ m' => m'.warned = (m.warned || (d && !c)) ∧ Has m' v c s (upd ls (fun i => real re (d && !c) (g i)) f) := by
  obtain ⟨s', e⟩ := hp
  have el : t.loc = v.loc := by rw [e]
  have ex : ∀ idx, t.ix idx = v.ix (slIx ls idx) := fun idx => by rw [e]
  have ec : m.cx t = c := by rw [← hv.cx]; unfold Mem.cx; rw [el]
  refine ⟨(), _, if_pos (by rw [hw.shape, ht]; exact bcToRev_self _), ?_⟩
  refine ⟨by rw [ec, hw.cx], hv.loc, ?_, hv.shape, fun j hj => ?_⟩
  · refine (congrArg Buf.cx (upd_loc el)).trans ?_
    exact ec
  · refine (congrFun (congrArg Buf.val (upd_loc el)) _).trans ?_
    dsimp only
    rw [hw.cx, ec, el]
    have inj : ∀ a b, InBox t.shape a → InBox t.shape b → t.ix a = t.ix b → a = b := by
      intro a b ha hb hab
      rw [ht] at ha hb
      rw [ex, ex] at hab
      have := hi _ _ (by rw [hv.shape]; exact slIx_box hs ha) (by rw [hv.shape]; exact slIx_box hs hb) hab
      have := congrArg (unSl ls) this
      rwa [unSl_slIx, unSl_slIx] at this
    by_cases hin : slIn ls j = true
    · obtain ⟨h1, h2⟩ := slIx_unSl hs hj hin
      unfold upd
      rw [if_pos hin]
      conv_lhs => rw [← h2, ← ex]
      rw [write_in _ _ (by rw [ht]; exact h1) inj, hw.shape, bcIx_self h1]
      have := hw.read _ h1
      rw [this]; rfl
    · unfold upd
      rw [if_neg hin, write_out]
      · exact hv.read j hj
      · intro idx hb hx
        rw [ht] at hb
        rw [ex] at hx
        have := hi _ _ (by rw [hv.shape]; exact slIx_box hs hb) (by rw [hv.shape]; exact hj) hx
        exact hin (by rw [← this]; exact slIn_slIx hs hb)

/-- C62: the blocks that `F_to_spatial` returns are views of its argument. -/
theorem C62_F_to_spatial {F : OneB} {c : Bool} {A : CC.OneE ℕ ℕ K} (h : HasOne m F c (noa + nob) (nva + nvb) A) :
    Ok (F_to_spatial F noa nva nob nvb) m fun r m' => m' = m ∧
      Part [.to noa, .to noa] F.oo r.1.oo ∧ Part [.to noa, .to nva] F.ov r.1.ov ∧
      Part [.to nva, .to noa] F.vo r.1.vo ∧ Part [.to nva, .to nva] F.vv r.1.vv ∧
      Part [.from noa, .from noa] F.oo r.2.oo ∧ Part [.from noa, .from nva] F.ov r.2.ov ∧
      Part [.from nva, .from noa] F.vo r.2.vo ∧ Part [.from nva, .from nva] F.vv r.2.vv := by
  refine (slice2_ok h.oo (to_is _ _) (to_is _ _)).bind fun v1 m1 ⟨e, h1, _⟩ => ?_; subst e
  refine (slice2_ok h.ov (to_is _ _) (to_is _ _)).bind fun v2 m1 ⟨e, h2, _⟩ => ?_; subst e
  refine (slice2_ok h.vo (to_is _ _) (to_is _ _)).bind fun v3 m1 ⟨e, h3, _⟩ => ?_; subst e
  refine (slice2_ok h.vv (to_is _ _) (to_is _ _)).bind fun v4 m1 ⟨e, h4, _⟩ => ?_; subst e
  refine (slice2_ok h.oo (from_is _ _) (from_is _ _)).bind fun v5 m1 ⟨e, h5, _⟩ => ?_; subst e
  refine (slice2_ok h.ov (from_is _ _) (from_is _ _)).bind fun v6 m1 ⟨e, h6, _⟩ => ?_; subst e
  refine (slice2_ok h.vo (from_is _ _) (from_is _ _)).bind fun v7 m1 ⟨e, h7, _⟩ => ?_; subst e
  refine (slice2_ok h.vv (from_is _ _) (from_is _ _)).bind fun v8 m1 ⟨e, h8, _⟩ => ?_; subst e
  exact .pure ⟨rfl, ⟨_, h1⟩, ⟨_, h2⟩, ⟨_, h3⟩, ⟨_, h4⟩, ⟨_, h5⟩, ⟨_, h6⟩, ⟨_, h7⟩, ⟨_, h8⟩⟩

/-- C62: setting the occupied block of the alpha Fock matrix returned by `F_to_spatial` sets the upper left part of the block it was taken from. -/
theorem C62_F_to_spatial_write {F : OneB} {w : View} {c d : Bool} {A : CC.OneE ℕ ℕ K} {B : ℕ → ℕ → K} (h : HasOne m F c (noa + nob) (nva + nvb) A)
    (hi : Inj F.oo) (hw : Has m w d [noa, noa] (ten2 B)) :
    Ok (do let r ← F_to_spatial F noa nva nob nvb; assign re r.1.oo w) m fun _ m' =>
      Has m' F.oo c [noa + nob, noa + nob] (ten2 (CC.Num.setSl2 0 noa 0 noa (fun i j => real re (d && !c) (B i j)) A.oo)) := by
  obtain ⟨r, m1, e1, h1⟩ := C61_F_to_spatial h
  obtain ⟨r', m2, e2, h2⟩ := C62_F_to_spatial h
  rw [e1] at e2
  simp only [Except.ok.injEq, Prod.mk.injEq] at e2
  obtain ⟨rfl, rfl⟩ := e2
  obtain ⟨rfl, h1, -⟩ := h1
  refine Ok.bind (Q := fun r' m' => r' = r ∧ m' = m1) ⟨r, m1, e1, rfl, rfl⟩ fun r' m' ⟨e, e'⟩ => ?_
  subst e e'
  refine (C62_part h2.2.1 (by simp [slShape, Sl.extent]) h1.oo.shape h.oo hi hw).imp fun _ m3 h3 => h3.2.congr fun idx hb => ?_
  obtain ⟨x, y, rfl, hx, hy⟩ := box2 hb
  simp only [upd, slIn, unSl, ten2, CC.Num.setSl2, Bool.and_true, Bool.and_eq_true, decide_eq_true_eq, Nat.zero_le, true_and, Nat.sub_zero]

/-- Transposing, with the indices of the view. -/
theorem tr1032_ok {v : View} {c : Bool} {n1 n2 n3 n4 : ℕ} {f : List ℕ → K} (h : Has m v c [n1, n2, n3, n4] f) :
    Ok (transpose [1, 0, 3, 2] v) m fun w m' => m' = m ∧ w.loc = v.loc ∧ ∀ x y z u, w.ix [x, y, z, u] = v.ix [y, x, u, z] :=
  ⟨_, _, if_pos (by rw [h.shape]; exact ⟨rfl, rfl⟩), rfl, rfl, fun _ _ _ _ => rfl⟩

/-- C62: all blocks that `int_to_spatial` returns are views of its argument, except the six blocks of the mixed-spin integrals that are
computed with a minus sign, which are new arrays. -/
theorem C62_int_to_spatial {I : TwoB} {c : Bool} {A : CC.TwoE ℕ ℕ K} (h : HasTwo m I c (noa + nob) (nva + nvb) A) :
    Ok (int_to_spatial I noa nob nva nvb) m fun r _ =>
      Part [.to nva, .to nva, .to nva, .to nva] I.vvvv r.1.vvvv ∧ Part [.to nva, .to nva, .to nva, .to noa] I.vvvo r.1.vvvo ∧ Part [.to nva, .to noa, .to nva, .to nva] I.vovv r.1.vovv ∧
      Part [.to nva, .to nva, .to noa, .to noa] I.vvoo r.1.vvoo ∧ Part [.to nva, .to noa, .to nva, .to noa] I.vovo r.1.vovo ∧ Part [.to noa, .to noa, .to nva, .to nva] I.oovv r.1.oovv ∧
      Part [.to nva, .to noa, .to noa, .to noa] I.vooo r.1.vooo ∧ Part [.to noa, .to noa, .to noa, .to nva] I.ooov r.1.ooov ∧ Part [.to noa, .to noa, .to noa, .to noa] I.oooo r.1.oooo ∧
      Part [.from nva, .from nva, .from nva, .from nva] I.vvvv r.2.1.vvvv ∧ Part [.from nva, .from nva, .from nva, .from noa] I.vvvo r.2.1.vvvo ∧ Part [.from nva, .from noa, .from nva, .from nva] I.vovv r.2.1.vovv ∧
      Part [.from nva, .from nva, .from noa, .from noa] I.vvoo r.2.1.vvoo ∧ Part [.from nva, .from noa, .from nva, .from noa] I.vovo r.2.1.vovo ∧ Part [.from noa, .from noa, .from nva, .from nva] I.oovv r.2.1.oovv ∧
      Part [.from nva, .from noa, .from noa, .from noa] I.vooo r.2.1.vooo ∧ Part [.from noa, .from noa, .from noa, .from nva] I.ooov r.2.1.ooov ∧ Part [.from noa, .from noa, .from noa, .from noa] I.oooo r.2.1.oooo ∧
      Part [.to nva, .from nva, .to nva, .from nva] I.vvvv r.2.2.vvvv ∧ Part [.to nva, .from nva, .to nva, .from noa] I.vvvo r.2.2.vvvo ∧ Part [.to nva, .from noa, .to nva, .from nva] I.vovv r.2.2.vovv ∧
      Part [.to nva, .from nva, .to noa, .from noa] I.vvoo r.2.2.vvoo ∧ Part [.to nva, .from noa, .to nva, .from noa] I.vovo r.2.2.vovo ∧ Part [.to noa, .from noa, .to nva, .from nva] I.oovv r.2.2.oovv ∧
      Part [.to nva, .from noa, .to noa, .from noa] I.vooo r.2.2.vooo ∧ Part [.to noa, .from noa, .to noa, .from nva] I.ooov r.2.2.ooov ∧ Part [.to noa, .from noa, .to noa, .from noa] I.oooo r.2.2.oooo ∧
      (r.2.2.ovov.loc = I.vovo.loc ∧ ∀ i a j b, r.2.2.ovov.ix [i, a, j, b] = I.vovo.ix [nva + a, i, nva + b, j]) ∧
      (∀ v ∈ [r.2.2.vvov, r.2.2.ovvv, r.2.2.voov, r.2.2.ovvo, r.2.2.ovoo, r.2.2.oovo], m.next ≤ v.loc) := by
  refine (slice4_ok h.vvvv (to_is _ _) (to_is _ _) (to_is _ _) (to_is _ _)).bind fun v1 m1 ⟨e, p1, _⟩ => ?_; subst e
  refine (slice4_ok h.vvvo (to_is _ _) (to_is _ _) (to_is _ _) (to_is _ _)).bind fun v2 m2 ⟨e, p2, _⟩ => ?_; subst e
  refine (slice4_ok h.vovv (to_is _ _) (to_is _ _) (to_is _ _) (to_is _ _)).bind fun v3 m3 ⟨e, p3, _⟩ => ?_; subst e
  refine (slice4_ok h.vvoo (to_is _ _) (to_is _ _) (to_is _ _) (to_is _ _)).bind fun v4 m4 ⟨e, p4, _⟩ => ?_; subst e
  refine (slice4_ok h.vovo (to_is _ _) (to_is _ _) (to_is _ _) (to_is _ _)).bind fun v5 m5 ⟨e, p5, _⟩ => ?_; subst e
  refine (slice4_ok h.oovv (to_is _ _) (to_is _ _) (to_is _ _) (to_is _ _)).bind fun v6 m6 ⟨e, p6, _⟩ => ?_; subst e
  refine (slice4_ok h.vooo (to_is _ _) (to_is _ _) (to_is _ _) (to_is _ _)).bind fun v7 m7 ⟨e, p7, _⟩ => ?_; subst e
  refine (slice4_ok h.ooov (to_is _ _) (to_is _ _) (to_is _ _) (to_is _ _)).bind fun v8 m8 ⟨e, p8, _⟩ => ?_; subst e
  refine (slice4_ok h.oooo (to_is _ _) (to_is _ _) (to_is _ _) (to_is _ _)).bind fun v9 m9 ⟨e, p9, _⟩ => ?_; subst e
  refine (slice4_ok h.vvvv (from_is _ _) (from_is _ _) (from_is _ _) (from_is _ _)).bind fun v10 m10 ⟨e, p10, _⟩ => ?_; subst e
  refine (slice4_ok h.vvvo (from_is _ _) (from_is _ _) (from_is _ _) (from_is _ _)).bind fun v11 m11 ⟨e, p11, _⟩ => ?_; subst e
  refine (slice4_ok h.vovv (from_is _ _) (from_is _ _) (from_is _ _) (from_is _ _)).bind fun v12 m12 ⟨e, p12, _⟩ => ?_; subst e
  refine (slice4_ok h.vvoo (from_is _ _) (from_is _ _) (from_is _ _) (from_is _ _)).bind fun v13 m13 ⟨e, p13, _⟩ => ?_; subst e
  refine (slice4_ok h.vovo (from_is _ _) (from_is _ _) (from_is _ _) (from_is _ _)).bind fun v14 m14 ⟨e, p14, _⟩ => ?_; subst e
  refine (slice4_ok h.oovv (from_is _ _) (from_is _ _) (from_is _ _) (from_is _ _)).bind fun v15 m15 ⟨e, p15, _⟩ => ?_; subst e
  refine (slice4_ok h.vooo (from_is _ _) (from_is _ _) (from_is _ _) (from_is _ _)).bind fun v16 m16 ⟨e, p16, _⟩ => ?_; subst e
  refine (slice4_ok h.ooov (from_is _ _) (from_is _ _) (from_is _ _) (from_is _ _)).bind fun v17 m17 ⟨e, p17, _⟩ => ?_; subst e
  refine (slice4_ok h.oooo (from_is _ _) (from_is _ _) (from_is _ _) (from_is _ _)).bind fun v18 m18 ⟨e, p18, _⟩ => ?_; subst e
  have j0 := Keeps.refl m18
  refine (slice4_ok (h.keep j0).vvvv (to_is _ _) (from_is _ _) (to_is _ _) (from_is _ _)).bind fun v19 m19 ⟨e, p19, _⟩ => ?_; subst e
  refine (slice4_ok (h.keep j0).vvvo (to_is _ _) (from_is _ _) (to_is _ _) (from_is _ _)).bind fun v20 m20 ⟨e, p20, _⟩ => ?_; subst e
  refine (slice4_ok (h.keep j0).vvvo (to_is _ _) (from_is _ _) (from_is _ _) (to_is _ _)).bind fun u21 m21 ⟨e, s21, f21⟩ => ?_; subst e
  refine (t0132_ok f21).bind fun v21 m21 ⟨e, _, g21⟩ => ?_; subst e
  refine (neg4_ok g21).bind fun v21 m21 q21 => ?_
  have l21 := j0.1.trans q21.loc.ge
  have j1 := j0.trans q21.keeps
  refine (slice4_ok (h.keep j1).vovv (to_is _ _) (from_is _ _) (to_is _ _) (from_is _ _)).bind fun v22 m22 ⟨e, p22, _⟩ => ?_; subst e
  refine (slice4_ok (h.keep j1).vovv (from_is _ _) (to_is _ _) (to_is _ _) (from_is _ _)).bind fun u23 m23 ⟨e, s23, f23⟩ => ?_; subst e
  refine (t1023_ok f23).bind fun v23 m23 ⟨e, _, g23⟩ => ?_; subst e
  refine (neg4_ok g23).bind fun v23 m23 q23 => ?_
  have l23 := j1.1.trans q23.loc.ge
  have j2 := j1.trans q23.keeps
  refine (slice4_ok (h.keep j2).vvoo (to_is _ _) (from_is _ _) (to_is _ _) (from_is _ _)).bind fun v24 m24 ⟨e, p24, _⟩ => ?_; subst e
  refine (slice4_ok (h.keep j2).vovo (to_is _ _) (from_is _ _) (to_is _ _) (from_is _ _)).bind fun v25 m25 ⟨e, p25, _⟩ => ?_; subst e
  refine (slice4_ok (h.keep j2).vovo (to_is _ _) (from_is _ _) (from_is _ _) (to_is _ _)).bind fun u26 m26 ⟨e, s26, f26⟩ => ?_; subst e
  refine (t0132_ok f26).bind fun v26 m26 ⟨e, _, g26⟩ => ?_; subst e
  refine (neg4_ok g26).bind fun v26 m26 q26 => ?_
  have l26 := j2.1.trans q26.loc.ge
  have j3 := j2.trans q26.keeps
  refine (slice4_ok (h.keep j3).vovo (from_is _ _) (to_is _ _) (from_is _ _) (to_is _ _)).bind fun u27 m27 ⟨e, s27, f27⟩ => ?_; subst e
  refine (tr1032_ok f27).bind fun v27 m27 ⟨e, p27⟩ => ?_; subst e
  refine (slice4_ok (h.keep j3).vovo (from_is _ _) (to_is _ _) (to_is _ _) (from_is _ _)).bind fun u28 m28 ⟨e, s28, f28⟩ => ?_; subst e
  refine (t1023_ok f28).bind fun v28 m28 ⟨e, _, g28⟩ => ?_; subst e
  refine (neg4_ok g28).bind fun v28 m28 q28 => ?_
  have l28 := j3.1.trans q28.loc.ge
  have j4 := j3.trans q28.keeps
  refine (slice4_ok (h.keep j4).oovv (to_is _ _) (from_is _ _) (to_is _ _) (from_is _ _)).bind fun v29 m29 ⟨e, p29, _⟩ => ?_; subst e
  refine (slice4_ok (h.keep j4).vooo (to_is _ _) (from_is _ _) (to_is _ _) (from_is _ _)).bind fun v30 m30 ⟨e, p30, _⟩ => ?_; subst e
  refine (slice4_ok (h.keep j4).vooo (from_is _ _) (to_is _ _) (to_is _ _) (from_is _ _)).bind fun u31 m31 ⟨e, s31, f31⟩ => ?_; subst e
  refine (t1023_ok f31).bind fun v31 m31 ⟨e, _, g31⟩ => ?_; subst e
  refine (neg4_ok g31).bind fun v31 m31 q31 => ?_
  have l31 := j4.1.trans q31.loc.ge
  have j5 := j4.trans q31.keeps
  refine (slice4_ok (h.keep j5).ooov (to_is _ _) (from_is _ _) (to_is _ _) (from_is _ _)).bind fun v32 m32 ⟨e, p32, _⟩ => ?_; subst e
  refine (slice4_ok (h.keep j5).ooov (to_is _ _) (from_is _ _) (from_is _ _) (to_is _ _)).bind fun u33 m33 ⟨e, s33, f33⟩ => ?_; subst e
  refine (t0132_ok f33).bind fun v33 m33 ⟨e, _, g33⟩ => ?_; subst e
  refine (neg4_ok g33).bind fun v33 m33 q33 => ?_
  have l33 := j5.1.trans q33.loc.ge
  have j6 := j5.trans q33.keeps
  refine (slice4_ok (h.keep j6).oooo (to_is _ _) (from_is _ _) (to_is _ _) (from_is _ _)).bind fun v34 m34 ⟨e, p34, _⟩ => ?_; subst e
  refine .pure ⟨⟨_, p1⟩, ⟨_, p2⟩, ⟨_, p3⟩, ⟨_, p4⟩, ⟨_, p5⟩, ⟨_, p6⟩, ⟨_, p7⟩, ⟨_, p8⟩, ⟨_, p9⟩, ⟨_, p10⟩, ⟨_, p11⟩, ⟨_, p12⟩, ⟨_, p13⟩, ⟨_, p14⟩, ⟨_, p15⟩, ⟨_, p16⟩, ⟨_, p17⟩, ⟨_, p18⟩, ⟨_, p19⟩, ⟨_, p20⟩, ⟨_, p22⟩, ⟨_, p24⟩, ⟨_, p25⟩, ⟨_, p29⟩, ⟨_, p30⟩, ⟨_, p32⟩, ⟨_, p34⟩,
    ⟨by rw [p27.1, s27], fun i a j b => by rw [p27.2, s27]; rfl⟩, ?_⟩
  simp only [List.mem_cons, List.not_mem_nil, or_false]
  rintro v (rfl | rfl | rfl | rfl | rfl | rfl) <;> assumption


/-! ### which shapes are accepted -/

/-- Every axis of a shape has the length that the other shape has there, or length one (which numpy stretches). -/
def Fits (s t : List ℕ) : Prop := List.Forall₂ (fun x y => x = y ∨ x = 1) s t

theorem bcToRev_iff : ∀ {s t : List ℕ}, s.length = t.length → (bcToRev s t = true ↔ Fits s t)
  | [], [], _ => by simp [bcToRev, Fits]
  | x :: xs, y :: ys, h => by
    have := bcToRev_iff (s := xs) (t := ys) (by simpa using h)
    simp only [Fits] at this ⊢
    simp [bcToRev, this]

theorem fits_reverse {s t : List ℕ} : Fits s.reverse t.reverse ↔ Fits s t := List.forall₂_reverse_iff

theorem fits {s t : List ℕ} (h : s.length = t.length) : bcToRev s.reverse t.reverse = true ↔ Fits s t := by
  rw [bcToRev_iff (by simpa using h), fits_reverse]

theorem copy_shape (m : Mem K) (v : View) : Ok (copy v) m fun w _ => w.shape = v.shape := ⟨_, _, rfl, rfl⟩

theorem neg_shape (m : Mem K) (v : View) : Ok (neg v) m fun w _ => w.shape = v.shape := ⟨_, _, rfl, rfl⟩

theorem zeros_shape (m : Mem K) (s : List ℕ) : Ok (zeros s) m fun w _ => w.shape = s := ⟨_, _, rfl, rfl⟩

theorem set_shape (m : Mem K) {T w : View} {ls : List Sl} {s u : List ℕ} (hT : T.shape = s) (hu : slShape ls s = some u) (hl : w.shape.length = u.length)
    (h : Fits w.shape u) : Ok (setSlice re T ls w) m fun _ _ => True := by
  have e : slice T ls m = .ok (⟨T.loc, u, fun idx => T.ix (slIx ls idx)⟩, m) := by simp only [slice, hT, hu]
  refine Ok.bind (Q := fun t m' => t.shape = u ∧ m' = m) ⟨_, _, e, rfl, rfl⟩ fun t m' ⟨ht, e'⟩ => ?_
  exact ⟨(), _, if_pos (by rw [ht]; exact (fits hl).2 h), trivial⟩

theorem set_raises (m : Mem K) {T w : View} {ls : List Sl} {s u : List ℕ} (hT : T.shape = s) (hu : slShape ls s = some u) (hl : w.shape.length = u.length)
    (h : ¬ Fits w.shape u) : setSlice re T ls w m = .error .value := by
  have e : slice T ls m = .ok (⟨T.loc, u, fun idx => T.ix (slIx ls idx)⟩, m) := by simp only [slice, hT, hu]
  show (slice T ls >>= fun t => assign re t w) m = _
  simp only [Bind.bind, StateT.bind, Except.bind, e]
  exact if_neg fun hh => h ((fits hl).1 hh)

theorem Ok.raises {α β : Type} {x : Run K α} {f : α → Run K β} {e : Err} {Q : α → Mem K → Prop} (h : Ok x m Q) (hf : ∀ a m', Q a m' → f a m' = .error e) :
    (x >>= f) m = .error e := by
  obtain ⟨a, m', e', q⟩ := h
  show StateT.bind x f m = _
  simp only [StateT.bind, e', Bind.bind, Except.bind]
  exact hf a m' q

theorem raises_bind {α β : Type} {x : Run K α} {f : α → Run K β} {e : Err} (h : x m = .error e) : (x >>= f) m = .error e := by
  show StateT.bind x f m = _
  simp only [StateT.bind, h, Bind.bind, Except.bind]

/-- C61: `T1_to_spin` accepts two-index arguments exactly if each axis has its documented length or length one; otherwise it raises `ValueError`. -/
theorem C61_T1_shapes (re : K →+ K) (m : Mem K) (Ta Tb : View) (noa nva nob nvb : ℕ) (ha : Ta.shape.length = 2) (hb : Tb.shape.length = 2) :
    (Fits Ta.shape [nva, noa] ∧ Fits Tb.shape [nvb, nob] → Ok (T1_to_spin re Ta Tb noa nva nob nvb) m fun T _ => T.shape = [nva + nvb, noa + nob]) ∧
    (¬ (Fits Ta.shape [nva, noa] ∧ Fits Tb.shape [nvb, nob]) → T1_to_spin re Ta Tb noa nva nob nvb m = .error .value) := by
  constructor
  · rintro ⟨fa, fb⟩
    refine (zeros_shape m _).bind fun T m1 h1 => ?_
    refine (copy_shape m1 Ta).bind fun w m2 h2 => ?_
    refine (set_shape m2 h1 (u := [nva, noa]) (by simp [slShape, Sl.extent]) (by rw [h2, ha]; rfl) (by rwa [h2])).bind fun _ m3 _ => ?_
    refine (copy_shape m3 Tb).bind fun w' m4 h4 => ?_
    refine (set_shape m4 h1 (u := [nvb, nob]) (by simp [slShape, Sl.extent]) (by rw [h4, hb]; rfl) (by rwa [h4])).bind fun _ m5 _ => ?_
    exact .pure h1
  · intro h
    refine (zeros_shape m _).raises fun T m1 h1 => ?_
    refine (copy_shape m1 Ta).raises fun w m2 h2 => ?_
    by_cases fa : Fits Ta.shape [nva, noa]
    · have fb : ¬ Fits Tb.shape [nvb, nob] := fun fb => h ⟨fa, fb⟩
      refine (set_shape m2 h1 (u := [nva, noa]) (by simp [slShape, Sl.extent]) (by rw [h2, ha]; rfl) (by rwa [h2])).raises fun _ m3 _ => ?_
      refine (copy_shape m3 Tb).raises fun w' m4 h4 => ?_
      exact raises_bind (set_raises m4 h1 (u := [nvb, nob]) (by simp [slShape, Sl.extent]) (by rw [h4, hb]; rfl) (by rwa [h4]))
    · exact raises_bind (set_raises m2 h1 (u := [nva, noa]) (by simp [slShape, Sl.extent]) (by rw [h2, ha]; rfl) (by rwa [h2]))

/-- The hypotheses on the shapes are met: an `(nva, noa)` array is accepted, a transposed one is not unless the axes agree or have length one, and a single row is
stretched without notice. -/
example : Fits [3, 2] [3, 2] ∧ ¬ Fits [2, 3] [3, 2] ∧ Fits [1, 2] [3, 2] := by
  simp [Fits]

/-! ### imaginary parts -/

/-- C61: splitting what `T1_to_spin` assembled returns the real parts of its arguments. -/
theorem C61_T1_round_trip {Ta Tb : View} {ca cb : Bool} {A B : ℕ → ℕ → K} (ha : Has m Ta ca [nva, noa] (ten2 A)) (hb : Has m Tb cb [nvb, nob] (ten2 B)) :
    Ok (do let T ← T1_to_spin re Ta Tb noa nva nob nvb; T1_to_spatial T noa nva nob nvb) m fun r m' => m'.warned = (m.warned || ca || cb) ∧
      Has m' r.1 false [nva, noa] (ten2 fun a i => real re ca (A a i)) ∧ Has m' r.2 false [nvb, nob] (ten2 fun a i => real re cb (B a i)) := by
  refine (C61_T1_to_spin ha hb).bind fun T m1 ⟨_, _, w1, h1⟩ => ?_
  refine (C61_T1_to_spatial h1).imp fun r m2 ⟨_, _, _, w2, h2, h3⟩ => ⟨w2.trans w1, h2.congr fun idx hx => ?_, h3.congr fun idx hx => ?_⟩
  · obtain ⟨x, y, rfl, hx, hy⟩ := box2 hx
    simp only [ten2, CC.Num.T1_to_spatial, CC.Num.T1_to_spin, CC.Num.getSl2, CC.Num.setSl2]
    clear * - hx hy
    grind
  · obtain ⟨x, y, rfl, hx, hy⟩ := box2 hx
    simp only [ten2, CC.Num.T1_to_spatial, CC.Num.T1_to_spin, CC.Num.getSl2, CC.Num.setSl2]
    clear * - hx hy
    grind

/-- C61: for complex amplitudes with a non-zero imaginary part the round trip does not return its argument. -/
theorem C61_complex_refuted {Ta Tb : View} {A B : ℕ → ℕ → K} (ha : Has m Ta true [nva, noa] (ten2 A)) (hb : Has m Tb true [nvb, nob] (ten2 B))
    {a i : ℕ} (hA : a < nva) (hI : i < noa) (him : re (A a i) ≠ A a i) :
    Ok (do let T ← T1_to_spin re Ta Tb noa nva nob nvb; T1_to_spatial T noa nva nob nvb) m fun r m' =>
      m'.warned = true ∧ m'.read r.1 [a, i] ≠ m'.read Ta [a, i] := by
  obtain ⟨r, m2, e, w, h1, h2⟩ := C61_T1_round_trip (re := re) ha hb
  refine ⟨r, m2, e, by simpa using w, ?_⟩
  have box : InBox [nva, noa] [a, i] := by simp [InBox, hA, hI]
  have keep : Has m2 Ta true [nva, noa] (ten2 A) := by
    obtain ⟨T, m1, e1, k1, l1, _, g1⟩ := C61_T1_to_spin (re := re) ha hb
    obtain ⟨r', m2', e2, k2, _⟩ := C61_T1_to_spatial g1
    have : (do let T ← T1_to_spin re Ta Tb noa nva nob nvb; T1_to_spatial T noa nva nob nvb : Run K _) m = .ok (r', m2') := by
      show StateT.bind _ _ m = _
      simp only [StateT.bind, e1, Bind.bind, Except.bind]
      exact e2
    rw [this] at e
    cases e
    exact ha.keep (k1.trans k2)
  rw [h1.read _ box, keep.read _ box]
  exact him

/-! ### make_two_e_blocks -/

/-- C62: `make_two_e_blocks` returns slices of its argument, with the elements at the block's offsets, and allocates nothing. -/
theorem C62_make_two_e_blocks {I : View} {c : Bool} {A : ℕ → ℕ → ℕ → ℕ → K} {n1o n1v n2o n2v n3o n3v n4o n4v : ℕ}
    (h : Has m I c [n1o + n1v, n2o + n2v, n3o + n3v, n4o + n4v] (ten4 A)) :
    Ok (make_two_e_blocks I n1o n1v n2o n2v n3o n3v n4o n4v) m fun r m' => m' = m ∧
      Part [.from n1o, .from n2o, .from n3o, .from n4o] I r.vvvv ∧ Has m r.vvvv c [n1v, n2v, n3v, n4v] (ten4 (fun x y z w => A (n1o + x) (n2o + y) (n3o + z) (n4o + w))) ∧
      Part [.from n1o, .from n2o, .from n3o, .to n4o] I r.vvvo ∧ Has m r.vvvo c [n1v, n2v, n3v, n4o] (ten4 (fun x y z w => A (n1o + x) (n2o + y) (n3o + z) w)) ∧
      Part [.from n1o, .to n2o, .from n3o, .from n4o] I r.vovv ∧ Has m r.vovv c [n1v, n2o, n3v, n4v] (ten4 (fun x y z w => A (n1o + x) y (n3o + z) (n4o + w))) ∧
      Part [.from n1o, .from n2o, .to n3o, .to n4o] I r.vvoo ∧ Has m r.vvoo c [n1v, n2v, n3o, n4o] (ten4 (fun x y z w => A (n1o + x) (n2o + y) z w)) ∧
      Part [.from n1o, .to n2o, .from n3o, .to n4o] I r.vovo ∧ Has m r.vovo c [n1v, n2o, n3v, n4o] (ten4 (fun x y z w => A (n1o + x) y (n3o + z) w)) ∧
      Part [.to n1o, .to n2o, .from n3o, .from n4o] I r.oovv ∧ Has m r.oovv c [n1o, n2o, n3v, n4v] (ten4 (fun x y z w => A x y (n3o + z) (n4o + w))) ∧
      Part [.from n1o, .to n2o, .to n3o, .to n4o] I r.vooo ∧ Has m r.vooo c [n1v, n2o, n3o, n4o] (ten4 (fun x y z w => A (n1o + x) y z w)) ∧
      Part [.to n1o, .to n2o, .to n3o, .from n4o] I r.ooov ∧ Has m r.ooov c [n1o, n2o, n3o, n4v] (ten4 (fun x y z w => A x y z (n4o + w))) ∧
      Part [.to n1o, .to n2o, .to n3o, .to n4o] I r.oooo ∧ Has m r.oooo c [n1o, n2o, n3o, n4o] (ten4 (fun x y z w => A x y z w)) := by
  unfold make_two_e_blocks
  rw [h.shape]
  simp only [ne_eq, not_true_eq_false, if_false]
  refine (slice4_ok h (from_is _ _) (from_is _ _) (from_is _ _) (from_is _ _)).bind fun v0 m1 ⟨e, p0, h0⟩ => ?_; subst e
  refine (slice4_ok h (from_is _ _) (from_is _ _) (from_is _ _) (to_is _ _)).bind fun v1 m1 ⟨e, p1, h1⟩ => ?_; subst e
  refine (slice4_ok h (from_is _ _) (to_is _ _) (from_is _ _) (from_is _ _)).bind fun v2 m1 ⟨e, p2, h2⟩ => ?_; subst e
  refine (slice4_ok h (from_is _ _) (from_is _ _) (to_is _ _) (to_is _ _)).bind fun v3 m1 ⟨e, p3, h3⟩ => ?_; subst e
  refine (slice4_ok h (from_is _ _) (to_is _ _) (from_is _ _) (to_is _ _)).bind fun v4 m1 ⟨e, p4, h4⟩ => ?_; subst e
  refine (slice4_ok h (to_is _ _) (to_is _ _) (from_is _ _) (from_is _ _)).bind fun v5 m1 ⟨e, p5, h5⟩ => ?_; subst e
  refine (slice4_ok h (from_is _ _) (to_is _ _) (to_is _ _) (to_is _ _)).bind fun v6 m1 ⟨e, p6, h6⟩ => ?_; subst e
  refine (slice4_ok h (to_is _ _) (to_is _ _) (to_is _ _) (from_is _ _)).bind fun v7 m1 ⟨e, p7, h7⟩ => ?_; subst e
  refine (slice4_ok h (to_is _ _) (to_is _ _) (to_is _ _) (to_is _ _)).bind fun v8 m1 ⟨e, p8, h8⟩ => ?_; subst e
  exact .pure ⟨rfl, ⟨_, p0⟩, h0.congr fun idx hb => by obtain ⟨x, y, z, w, rfl, hx, hy, hz, hw⟩ := box4 hb; simp [ten4, CC.Num.getSl4, hx, hy, hz, hw], ⟨_, p1⟩, h1.congr fun idx hb => by obtain ⟨x, y, z, w, rfl, hx, hy, hz, hw⟩ := box4 hb; simp [ten4, CC.Num.getSl4, hx, hy, hz, hw], ⟨_, p2⟩, h2.congr fun idx hb => by obtain ⟨x, y, z, w, rfl, hx, hy, hz, hw⟩ := box4 hb; simp [ten4, CC.Num.getSl4, hx, hy, hz, hw], ⟨_, p3⟩, h3.congr fun idx hb => by obtain ⟨x, y, z, w, rfl, hx, hy, hz, hw⟩ := box4 hb; simp [ten4, CC.Num.getSl4, hx, hy, hz, hw], ⟨_, p4⟩, h4.congr fun idx hb => by obtain ⟨x, y, z, w, rfl, hx, hy, hz, hw⟩ := box4 hb; simp [ten4, CC.Num.getSl4, hx, hy, hz, hw], ⟨_, p5⟩, h5.congr fun idx hb => by obtain ⟨x, y, z, w, rfl, hx, hy, hz, hw⟩ := box4 hb; simp [ten4, CC.Num.getSl4, hx, hy, hz, hw], ⟨_, p6⟩, h6.congr fun idx hb => by obtain ⟨x, y, z, w, rfl, hx, hy, hz, hw⟩ := box4 hb; simp [ten4, CC.Num.getSl4, hx, hy, hz, hw], ⟨_, p7⟩, h7.congr fun idx hb => by obtain ⟨x, y, z, w, rfl, hx, hy, hz, hw⟩ := box4 hb; simp [ten4, CC.Num.getSl4, hx, hy, hz, hw], ⟨_, p8⟩, h8.congr fun idx hb => by obtain ⟨x, y, z, w, rfl, hx, hy, hz, hw⟩ := box4 hb; simp [ten4, CC.Num.getSl4, hx, hy, hz, hw]⟩

/-- C62: `make_two_e_blocks` raises `AssertionError` if an axis does not have the length of the two ranges together, and `ValueError` if there are not four axes. -/
theorem C62_make_two_e_blocks_raises (m : Mem K) (I : View) (n1o n1v n2o n2v n3o n3v n4o n4v : ℕ) :
    (I.shape.length ≠ 4 → make_two_e_blocks I n1o n1v n2o n2v n3o n3v n4o n4v m = .error .value) ∧
    (I.shape.length = 4 → I.shape ≠ [n1o + n1v, n2o + n2v, n3o + n3v, n4o + n4v] → make_two_e_blocks I n1o n1v n2o n2v n3o n3v n4o n4v m = .error .assertion) := by
  obtain ⟨l, s, ix⟩ := I
  rcases s with _ | ⟨x, _ | ⟨y, _ | ⟨z, _ | ⟨w, _ | ⟨v, t⟩⟩⟩⟩⟩
  case cons.cons.cons.cons.nil =>
    refine ⟨fun h => absurd rfl h, fun _ h => ?_⟩
    simp only [make_two_e_blocks]
    by_cases h1 : x = n1o + n1v
    case neg => rw [if_pos h1]; rfl
    rw [if_neg (not_not.2 h1)]
    by_cases h2 : y = n2o + n2v
    case neg => rw [if_pos h2]; rfl
    rw [if_neg (not_not.2 h2)]
    by_cases h3 : z = n3o + n3v
    case neg => rw [if_pos h3]; rfl
    rw [if_neg (not_not.2 h3)]
    by_cases h4 : w = n4o + n4v
    case neg => rw [if_pos h4]; rfl
    subst h1 h2 h3 h4
    exact absurd rfl h
  all_goals exact ⟨fun _ => rfl, fun h => by simp at h⟩

/-- C62: `make_two_e_blocks_full` returns slices of its argument, with the elements at the block's offsets, and allocates nothing. -/
theorem C62_make_two_e_blocks_full {I : View} {c : Bool} {A : ℕ → ℕ → ℕ → ℕ → K} {n1o n1v n2o n2v n3o n3v n4o n4v : ℕ}
    (h : Has m I c [n1o + n1v, n2o + n2v, n3o + n3v, n4o + n4v] (ten4 A)) :
    Ok (make_two_e_blocks_full I n1o n1v n2o n2v n3o n3v n4o n4v) m fun r m' => m' = m ∧
      Part [.from n1o, .from n2o, .from n3o, .from n4o] I r.vvvv ∧ Has m r.vvvv c [n1v, n2v, n3v, n4v] (ten4 (fun x y z w => A (n1o + x) (n2o + y) (n3o + z) (n4o + w))) ∧
      Part [.from n1o, .from n2o, .from n3o, .to n4o] I r.vvvo ∧ Has m r.vvvo c [n1v, n2v, n3v, n4o] (ten4 (fun x y z w => A (n1o + x) (n2o + y) (n3o + z) w)) ∧
      Part [.from n1o, .from n2o, .to n3o, .from n4o] I r.vvov ∧ Has m r.vvov c [n1v, n2v, n3o, n4v] (ten4 (fun x y z w => A (n1o + x) (n2o + y) z (n4o + w))) ∧
      Part [.from n1o, .to n2o, .from n3o, .from n4o] I r.vovv ∧ Has m r.vovv c [n1v, n2o, n3v, n4v] (ten4 (fun x y z w => A (n1o + x) y (n3o + z) (n4o + w))) ∧
      Part [.to n1o, .from n2o, .from n3o, .from n4o] I r.ovvv ∧ Has m r.ovvv c [n1o, n2v, n3v, n4v] (ten4 (fun x y z w => A x (n2o + y) (n3o + z) (n4o + w))) ∧
      Part [.from n1o, .from n2o, .to n3o, .to n4o] I r.vvoo ∧ Has m r.vvoo c [n1v, n2v, n3o, n4o] (ten4 (fun x y z w => A (n1o + x) (n2o + y) z w)) ∧
      Part [.from n1o, .to n2o, .from n3o, .to n4o] I r.vovo ∧ Has m r.vovo c [n1v, n2o, n3v, n4o] (ten4 (fun x y z w => A (n1o + x) y (n3o + z) w)) ∧
      Part [.to n1o, .from n2o, .from n3o, .to n4o] I r.ovvo ∧ Has m r.ovvo c [n1o, n2v, n3v, n4o] (ten4 (fun x y z w => A x (n2o + y) (n3o + z) w)) ∧
      Part [.from n1o, .to n2o, .to n3o, .from n4o] I r.voov ∧ Has m r.voov c [n1v, n2o, n3o, n4v] (ten4 (fun x y z w => A (n1o + x) y z (n4o + w))) ∧
      Part [.to n1o, .from n2o, .to n3o, .from n4o] I r.ovov ∧ Has m r.ovov c [n1o, n2v, n3o, n4v] (ten4 (fun x y z w => A x (n2o + y) z (n4o + w))) ∧
      Part [.to n1o, .to n2o, .from n3o, .from n4o] I r.oovv ∧ Has m r.oovv c [n1o, n2o, n3v, n4v] (ten4 (fun x y z w => A x y (n3o + z) (n4o + w))) ∧
      Part [.from n1o, .to n2o, .to n3o, .to n4o] I r.vooo ∧ Has m r.vooo c [n1v, n2o, n3o, n4o] (ten4 (fun x y z w => A (n1o + x) y z w)) ∧
      Part [.to n1o, .from n2o, .to n3o, .to n4o] I r.ovoo ∧ Has m r.ovoo c [n1o, n2v, n3o, n4o] (ten4 (fun x y z w => A x (n2o + y) z w)) ∧
      Part [.to n1o, .to n2o, .from n3o, .to n4o] I r.oovo ∧ Has m r.oovo c [n1o, n2o, n3v, n4o] (ten4 (fun x y z w => A x y (n3o + z) w)) ∧
      Part [.to n1o, .to n2o, .to n3o, .from n4o] I r.ooov ∧ Has m r.ooov c [n1o, n2o, n3o, n4v] (ten4 (fun x y z w => A x y z (n4o + w))) ∧
      Part [.to n1o, .to n2o, .to n3o, .to n4o] I r.oooo ∧ Has m r.oooo c [n1o, n2o, n3o, n4o] (ten4 (fun x y z w => A x y z w)) := by
  unfold make_two_e_blocks_full
  rw [h.shape]
  simp only [ne_eq, not_true_eq_false, if_false]
  refine (slice4_ok h (from_is _ _) (from_is _ _) (from_is _ _) (from_is _ _)).bind fun v0 m1 ⟨e, p0, h0⟩ => ?_; subst e
  refine (slice4_ok h (from_is _ _) (from_is _ _) (from_is _ _) (to_is _ _)).bind fun v1 m1 ⟨e, p1, h1⟩ => ?_; subst e
  refine (slice4_ok h (from_is _ _) (from_is _ _) (to_is _ _) (from_is _ _)).bind fun v2 m1 ⟨e, p2, h2⟩ => ?_; subst e
  refine (slice4_ok h (from_is _ _) (to_is _ _) (from_is _ _) (from_is _ _)).bind fun v3 m1 ⟨e, p3, h3⟩ => ?_; subst e
  refine (slice4_ok h (to_is _ _) (from_is _ _) (from_is _ _) (from_is _ _)).bind fun v4 m1 ⟨e, p4, h4⟩ => ?_; subst e
  refine (slice4_ok h (from_is _ _) (from_is _ _) (to_is _ _) (to_is _ _)).bind fun v5 m1 ⟨e, p5, h5⟩ => ?_; subst e
  refine (slice4_ok h (from_is _ _) (to_is _ _) (from_is _ _) (to_is _ _)).bind fun v6 m1 ⟨e, p6, h6⟩ => ?_; subst e
  refine (slice4_ok h (to_is _ _) (from_is _ _) (from_is _ _) (to_is _ _)).bind fun v7 m1 ⟨e, p7, h7⟩ => ?_; subst e
  refine (slice4_ok h (from_is _ _) (to_is _ _) (to_is _ _) (from_is _ _)).bind fun v8 m1 ⟨e, p8, h8⟩ => ?_; subst e
  refine (slice4_ok h (to_is _ _) (from_is _ _) (to_is _ _) (from_is _ _)).bind fun v9 m1 ⟨e, p9, h9⟩ => ?_; subst e
  refine (slice4_ok h (to_is _ _) (to_is _ _) (from_is _ _) (from_is _ _)).bind fun v10 m1 ⟨e, p10, h10⟩ => ?_; subst e
  refine (slice4_ok h (from_is _ _) (to_is _ _) (to_is _ _) (to_is _ _)).bind fun v11 m1 ⟨e, p11, h11⟩ => ?_; subst e
  refine (slice4_ok h (to_is _ _) (from_is _ _) (to_is _ _) (to_is _ _)).bind fun v12 m1 ⟨e, p12, h12⟩ => ?_; subst e
  refine (slice4_ok h (to_is _ _) (to_is _ _) (from_is _ _) (to_is _ _)).bind fun v13 m1 ⟨e, p13, h13⟩ => ?_; subst e
  refine (slice4_ok h (to_is _ _) (to_is _ _) (to_is _ _) (from_is _ _)).bind fun v14 m1 ⟨e, p14, h14⟩ => ?_; subst e
  refine (slice4_ok h (to_is _ _) (to_is _ _) (to_is _ _) (to_is _ _)).bind fun v15 m1 ⟨e, p15, h15⟩ => ?_; subst e
  exact .pure ⟨rfl, ⟨_, p0⟩, h0.congr fun idx hb => by obtain ⟨x, y, z, w, rfl, hx, hy, hz, hw⟩ := box4 hb; simp [ten4, CC.Num.getSl4, hx, hy, hz, hw], ⟨_, p1⟩, h1.congr fun idx hb => by obtain ⟨x, y, z, w, rfl, hx, hy, hz, hw⟩ := box4 hb; simp [ten4, CC.Num.getSl4, hx, hy, hz, hw], ⟨_, p2⟩, h2.congr fun idx hb => by obtain ⟨x, y, z, w, rfl, hx, hy, hz, hw⟩ := box4 hb; simp [ten4, CC.Num.getSl4, hx, hy, hz, hw], ⟨_, p3⟩, h3.congr fun idx hb => by obtain ⟨x, y, z, w, rfl, hx, hy, hz, hw⟩ := box4 hb; simp [ten4, CC.Num.getSl4, hx, hy, hz, hw], ⟨_, p4⟩, h4.congr fun idx hb => by obtain ⟨x, y, z, w, rfl, hx, hy, hz, hw⟩ := box4 hb; simp [ten4, CC.Num.getSl4, hx, hy, hz, hw], ⟨_, p5⟩, h5.congr fun idx hb => by obtain ⟨x, y, z, w, rfl, hx, hy, hz, hw⟩ := box4 hb; simp [ten4, CC.Num.getSl4, hx, hy, hz, hw], ⟨_, p6⟩, h6.congr fun idx hb => by obtain ⟨x, y, z, w, rfl, hx, hy, hz, hw⟩ := box4 hb; simp [ten4, CC.Num.getSl4, hx, hy, hz, hw], ⟨_, p7⟩, h7.congr fun idx hb => by obtain ⟨x, y, z, w, rfl, hx, hy, hz, hw⟩ := box4 hb; simp [ten4, CC.Num.getSl4, hx, hy, hz, hw], ⟨_, p8⟩, h8.congr fun idx hb => by obtain ⟨x, y, z, w, rfl, hx, hy, hz, hw⟩ := box4 hb; simp [ten4, CC.Num.getSl4, hx, hy, hz, hw], ⟨_, p9⟩, h9.congr fun idx hb => by obtain ⟨x, y, z, w, rfl, hx, hy, hz, hw⟩ := box4 hb; simp [ten4, CC.Num.getSl4, hx, hy, hz, hw], ⟨_, p10⟩, h10.congr fun idx hb => by obtain ⟨x, y, z, w, rfl, hx, hy, hz, hw⟩ := box4 hb; simp [ten4, CC.Num.getSl4, hx, hy, hz, hw], ⟨_, p11⟩, h11.congr fun idx hb => by obtain ⟨x, y, z, w, rfl, hx, hy, hz, hw⟩ := box4 hb; simp [ten4, CC.Num.getSl4, hx, hy, hz, hw], ⟨_, p12⟩, h12.congr fun idx hb => by obtain ⟨x, y, z, w, rfl, hx, hy, hz, hw⟩ := box4 hb; simp [ten4, CC.Num.getSl4, hx, hy, hz, hw], ⟨_, p13⟩, h13.congr fun idx hb => by obtain ⟨x, y, z, w, rfl, hx, hy, hz, hw⟩ := box4 hb; simp [ten4, CC.Num.getSl4, hx, hy, hz, hw], ⟨_, p14⟩, h14.congr fun idx hb => by obtain ⟨x, y, z, w, rfl, hx, hy, hz, hw⟩ := box4 hb; simp [ten4, CC.Num.getSl4, hx, hy, hz, hw], ⟨_, p15⟩, h15.congr fun idx hb => by obtain ⟨x, y, z, w, rfl, hx, hy, hz, hw⟩ := box4 hb; simp [ten4, CC.Num.getSl4, hx, hy, hz, hw]⟩

/-- C62: `make_two_e_blocks_full` raises `AssertionError` if an axis does not have the length of the two ranges together, and `ValueError` if there are not four axes. -/
theorem C62_make_two_e_blocks_full_raises (m : Mem K) (I : View) (n1o n1v n2o n2v n3o n3v n4o n4v : ℕ) :
    (I.shape.length ≠ 4 → make_two_e_blocks_full I n1o n1v n2o n2v n3o n3v n4o n4v m = .error .value) ∧
    (I.shape.length = 4 → I.shape ≠ [n1o + n1v, n2o + n2v, n3o + n3v, n4o + n4v] → make_two_e_blocks_full I n1o n1v n2o n2v n3o n3v n4o n4v m = .error .assertion) := by
  obtain ⟨l, s, ix⟩ := I
  rcases s with _ | ⟨x, _ | ⟨y, _ | ⟨z, _ | ⟨w, _ | ⟨v, t⟩⟩⟩⟩⟩
  case cons.cons.cons.cons.nil =>
    refine ⟨fun h => absurd rfl h, fun _ h => ?_⟩
    simp only [make_two_e_blocks_full]
    by_cases h1 : x = n1o + n1v
    case neg => rw [if_pos h1]; rfl
    rw [if_neg (not_not.2 h1)]
    by_cases h2 : y = n2o + n2v
    case neg => rw [if_pos h2]; rfl
    rw [if_neg (not_not.2 h2)]
    by_cases h3 : z = n3o + n3v
    case neg => rw [if_pos h3]; rfl
    rw [if_neg (not_not.2 h3)]
    by_cases h4 : w = n4o + n4v
    case neg => rw [if_pos h4]; rfl
    subst h1 h2 h3 h4
    exact absurd rfl h
  all_goals exact ⟨fun _ => rfl, fun h => by simp at h⟩


/-! ### concrete memories -/

/-- Thirty complex arrays; the elements of number `l` are the sum of their indices plus `l i`. -/
noncomputable def demo : Mem ℂ := ⟨30, fun l => ⟨true, [], fun idx => idx.sum + l * Complex.I⟩, false⟩

theorem demo_has {l : ℕ} (h : l < 30) (s : List ℕ) : Has demo ⟨l, s, id⟩ true s fun idx => idx.sum + l * Complex.I :=
  ⟨h, rfl, rfl, fun _ _ => rfl⟩

theorem demo2 {l : ℕ} (h : l < 30) (x y : ℕ) : Has demo ⟨l, [x, y], id⟩ true [x, y] (ten2 fun i j => ((i + j : ℕ) : ℂ) + l * Complex.I) :=
  (demo_has h _).congr fun idx hb => by obtain ⟨x, y, rfl, hx, hy⟩ := box2 hb; simp [ten2]

theorem demo4 {l : ℕ} (h : l < 30) (x y z w : ℕ) :
    Has demo ⟨l, [x, y, z, w], id⟩ true [x, y, z, w] (ten4 fun i j k p => ((i + j + k + p : ℕ) : ℂ) + l * Complex.I) :=
  (demo_has h _).congr fun idx hb => by obtain ⟨x, y, z, w, rfl, hx, hy, hz, hw⟩ := box4 hb; simp [ten4, add_assoc]

theorem inj_id (l : ℕ) (s : List ℕ) : Inj ⟨l, s, id⟩ := fun _ _ _ _ h => h

/-- The real part. -/
noncomputable def rePart : ℂ →+ ℂ := Complex.ofRealHom.toAddMonoidHom.comp Complex.reAddGroupHom

/-- The hypotheses of the singles theorems are met, and `C61_complex_refuted` applies: the imaginary parts of array 1 are lost. -/
example : Ok (do let T ← T1_to_spin rePart ⟨1, [3, 2], id⟩ ⟨2, [2, 1], id⟩ 2 3 1 2; T1_to_spatial T 2 3 1 2) demo fun r m' =>
    m'.warned = true ∧ m'.read r.1 [2, 1] ≠ m'.read ⟨1, [3, 2], id⟩ [2, 1] :=
  C61_complex_refuted (demo2 (by norm_num) _ _) (demo2 (by norm_num) _ _) (by norm_num) (by norm_num) fun h => by
    have := congrArg Complex.im h
    simp [rePart] at this

/-- The hypotheses on Fock matrices are met, for the two spins and for spin orbitals. -/
example : (∃ A, HasOne demo ⟨⟨0, [2, 2], id⟩, ⟨1, [2, 3], id⟩, ⟨2, [3, 2], id⟩, ⟨3, [3, 3], id⟩⟩ true 2 3 A) ∧ Inj ⟨0, [2, 2], id⟩ :=
  ⟨⟨⟨_, _, _, _⟩, demo2 (by norm_num) _ _, demo2 (by norm_num) _ _, demo2 (by norm_num) _ _, demo2 (by norm_num) _ _⟩, inj_id _ _⟩

/-- Overwriting a block of the result of `F_to_spatial` on these arrays changes array 0. -/
example : Ok (do let r ← F_to_spatial ⟨⟨0, [3, 3], id⟩, ⟨1, [3, 5], id⟩, ⟨2, [5, 3], id⟩, ⟨3, [5, 5], id⟩⟩ 2 3 1 2; assign rePart r.1.oo ⟨7, [2, 2], id⟩) demo
    fun _ m' => m'.read ⟨0, [3, 3], id⟩ [1, 1] = 2 + 7 * Complex.I ∧ m'.read ⟨0, [3, 3], id⟩ [2, 2] = 4 := by
  refine (C62_F_to_spatial_write (noa := 2) (nob := 1) (nva := 3) (nvb := 2)
    (A := ⟨fun i j => ((i + j : ℕ) : ℂ) + (0 : ℕ) * Complex.I, fun i j => ((i + j : ℕ) : ℂ) + (1 : ℕ) * Complex.I, fun i j => ((i + j : ℕ) : ℂ) + (2 : ℕ) * Complex.I,
      fun i j => ((i + j : ℕ) : ℂ) + (3 : ℕ) * Complex.I⟩)
    ⟨demo2 (by norm_num) _ _, demo2 (by norm_num) _ _, demo2 (by norm_num) _ _, demo2 (by norm_num) _ _⟩
    (inj_id _ _) (demo2 (l := 7) (by norm_num) 2 2)).imp fun _ m' h => ⟨?_, ?_⟩
  · rw [h.read _ (by simp [InBox])]; simp [ten2, CC.Num.setSl2, real]
  · rw [h.read _ (by simp [InBox])]; simp [ten2, CC.Num.setSl2]

/-- The hypotheses on doubles and integrals are met. -/
example : ∃ A, Has demo ⟨0, [3, 3, 2, 2], id⟩ true [3, 3, 2, 2] (ten4 A) := ⟨_, demo4 (by norm_num) _ _ _ _⟩

example : ∃ A, HasTwo demo ⟨⟨0, [3, 3, 3, 3], id⟩, ⟨1, [3, 3, 3, 2], id⟩, ⟨2, [3, 2, 3, 3], id⟩, ⟨3, [3, 3, 2, 2], id⟩, ⟨4, [3, 2, 3, 2], id⟩,
    ⟨5, [2, 2, 3, 3], id⟩, ⟨6, [3, 2, 2, 2], id⟩, ⟨7, [2, 2, 2, 3], id⟩, ⟨8, [2, 2, 2, 2], id⟩⟩ true 2 3 A :=
  ⟨⟨_, _, _, _, _, _, _, _, _⟩, by constructor <;> exact demo4 (by norm_num) _ _ _ _⟩

example : ∃ A, HasFull demo { vvvv := ⟨0, [3, 2, 3, 2], id⟩, vvvo := ⟨1, [3, 2, 3, 1], id⟩, vvov := ⟨2, [3, 2, 2, 2], id⟩, vovv := ⟨3, [3, 1, 3, 2], id⟩, ovvv := ⟨4, [2, 2, 3, 2], id⟩, vvoo := ⟨5, [3, 2, 2, 1], id⟩, vovo := ⟨6, [3, 1, 3, 1], id⟩, voov := ⟨7, [3, 1, 2, 2], id⟩, ovov := ⟨8, [2, 2, 2, 2], id⟩, ovvo := ⟨9, [2, 2, 3, 1], id⟩, oovv := ⟨10, [2, 1, 3, 2], id⟩, vooo := ⟨11, [3, 1, 2, 1], id⟩, ovoo := ⟨12, [2, 2, 2, 1], id⟩, oovo := ⟨13, [2, 1, 3, 1], id⟩, ooov := ⟨14, [2, 1, 2, 2], id⟩, oooo := ⟨15, [2, 1, 2, 1], id⟩ } true 2 3 1 2 A :=
  ⟨⟨_, _, _, _, _, _, _, _, _, _, _, _, _, _, _, _⟩, by constructor <;> exact demo4 (by norm_num) _ _ _ _⟩

end Np
