import Verif.Props.ViewsSpin
/-!
# C61: assembling and taking apart two-electron integrals on numpy arrays
-/

set_option linter.unusedSectionVars false

namespace Np
variable {K : Type} [Field K] {re : K →+ K} {m : Mem K} {noa nva nob nvb : ℕ}

/-- Nine blocks of integrals in memory, of one element type. -/
structure HasTwo (m : Mem K) (I : TwoB) (c : Bool) (no nv : ℕ) (A : CC.TwoE ℕ ℕ K) : Prop where
  vvvv : Has m I.vvvv c [nv, nv, nv, nv] (ten4 A.vvvv)
  vvvo : Has m I.vvvo c [nv, nv, nv, no] (ten4 A.vvvo)
  vovv : Has m I.vovv c [nv, no, nv, nv] (ten4 A.vovv)
  vvoo : Has m I.vvoo c [nv, nv, no, no] (ten4 A.vvoo)
  vovo : Has m I.vovo c [nv, no, nv, no] (ten4 A.vovo)
  oovv : Has m I.oovv c [no, no, nv, nv] (ten4 A.oovv)
  vooo : Has m I.vooo c [nv, no, no, no] (ten4 A.vooo)
  ooov : Has m I.ooov c [no, no, no, nv] (ten4 A.ooov)
  oooo : Has m I.oooo c [no, no, no, no] (ten4 A.oooo)

/-- Sixteen blocks; the spins of electrons 1 and 2 may differ. -/
structure HasFull (m : Mem K) (I : TwoBF) (c : Bool) (no₁ nv₁ no₂ nv₂ : ℕ) (A : CC.TwoEFull ℕ ℕ ℕ ℕ K) : Prop where
  vvvv : Has m I.vvvv c [nv₁, nv₂, nv₁, nv₂] (ten4 A.vvvv)
  vvvo : Has m I.vvvo c [nv₁, nv₂, nv₁, no₂] (ten4 A.vvvo)
  vvov : Has m I.vvov c [nv₁, nv₂, no₁, nv₂] (ten4 A.vvov)
  vovv : Has m I.vovv c [nv₁, no₂, nv₁, nv₂] (ten4 A.vovv)
  ovvv : Has m I.ovvv c [no₁, nv₂, nv₁, nv₂] (ten4 A.ovvv)
  vvoo : Has m I.vvoo c [nv₁, nv₂, no₁, no₂] (ten4 A.vvoo)
  vovo : Has m I.vovo c [nv₁, no₂, nv₁, no₂] (ten4 A.vovo)
  ovvo : Has m I.ovvo c [no₁, nv₂, nv₁, no₂] (ten4 A.ovvo)
  voov : Has m I.voov c [nv₁, no₂, no₁, nv₂] (ten4 A.voov)
  ovov : Has m I.ovov c [no₁, nv₂, no₁, nv₂] (ten4 A.ovov)
  oovv : Has m I.oovv c [no₁, no₂, nv₁, nv₂] (ten4 A.oovv)
  vooo : Has m I.vooo c [nv₁, no₂, no₁, no₂] (ten4 A.vooo)
  ovoo : Has m I.ovoo c [no₁, nv₂, no₁, no₂] (ten4 A.ovoo)
  oovo : Has m I.oovo c [no₁, no₂, nv₁, no₂] (ten4 A.oovo)
  ooov : Has m I.ooov c [no₁, no₂, no₁, nv₂] (ten4 A.ooov)
  oooo : Has m I.oooo c [no₁, no₂, no₁, no₂] (ten4 A.oooo)

theorem HasTwo.keep {m' : Mem K} {I : TwoB} {c : Bool} {no nv : ℕ} {A : CC.TwoE ℕ ℕ K} (h : HasTwo m I c no nv A) (k : Keeps m m') :
    HasTwo m' I c no nv A := ⟨h.vvvv.keep k, h.vvvo.keep k, h.vovv.keep k, h.vvoo.keep k, h.vovo.keep k, h.oovv.keep k, h.vooo.keep k, h.ooov.keep k, h.oooo.keep k⟩

theorem HasFull.keep {m' : Mem K} {I : TwoBF} {c : Bool} {no₁ nv₁ no₂ nv₂ : ℕ} {A : CC.TwoEFull ℕ ℕ ℕ ℕ K}
    (h : HasFull m I c no₁ nv₁ no₂ nv₂ A) (k : Keeps m m') : HasFull m' I c no₁ nv₁ no₂ nv₂ A :=
  ⟨h.vvvv.keep k, h.vvvo.keep k, h.vvov.keep k, h.vovv.keep k, h.ovvv.keep k, h.vvoo.keep k, h.vovo.keep k, h.ovvo.keep k, h.voov.keep k, h.ovov.keep k, h.oovv.keep k, h.vooo.keep k, h.ovoo.keep k, h.oovo.keep k, h.ooov.keep k, h.oooo.keep k⟩

def TwoB.views (I : TwoB) : List View := [I.vvvv, I.vvvo, I.vovv, I.vvoo, I.vovo, I.oovv, I.vooo, I.ooov, I.oooo]

/-- The blocks as real arrays receive them. -/
def realTwo (re : K →+ K) (c : Bool) (A : CC.TwoE ℕ ℕ K) : CC.TwoE ℕ ℕ K where
  vvvv x y z w := real re c (A.vvvv x y z w)
  vvvo x y z w := real re c (A.vvvo x y z w)
  vovv x y z w := real re c (A.vovv x y z w)
  vvoo x y z w := real re c (A.vvoo x y z w)
  vovo x y z w := real re c (A.vovo x y z w)
  oovv x y z w := real re c (A.oovv x y z w)
  vooo x y z w := real re c (A.vooo x y z w)
  ooov x y z w := real re c (A.ooov x y z w)
  oooo x y z w := real re c (A.oooo x y z w)

def realFull (re : K →+ K) (c : Bool) (A : CC.TwoEFull ℕ ℕ ℕ ℕ K) : CC.TwoEFull ℕ ℕ ℕ ℕ K where
  vvvv x y z w := real re c (A.vvvv x y z w)
  vvvo x y z w := real re c (A.vvvo x y z w)
  vvov x y z w := real re c (A.vvov x y z w)
  vovv x y z w := real re c (A.vovv x y z w)
  ovvv x y z w := real re c (A.ovvv x y z w)
  vvoo x y z w := real re c (A.vvoo x y z w)
  vovo x y z w := real re c (A.vovo x y z w)
  ovvo x y z w := real re c (A.ovvo x y z w)
  voov x y z w := real re c (A.voov x y z w)
  ovov x y z w := real re c (A.ovov x y z w)
  oovv x y z w := real re c (A.oovv x y z w)
  vooo x y z w := real re c (A.vooo x y z w)
  ovoo x y z w := real re c (A.ovoo x y z w)
  oovo x y z w := real re c (A.oovo x y z w)
  ooov x y z w := real re c (A.ooov x y z w)
  oooo x y z w := real re c (A.oooo x y z w)

section
variable {a a' b b' p q r s : View} {ca cb cx : Bool} {A A' B B' P Q R S : ℕ → ℕ → ℕ → ℕ → K} {a1 a2 a3 a4 b1 b2 b3 b4 : ℕ}

theorem group_ok (ha : Has m a ca [a1, a2, a3, a4] (ten4 A)) (ha' : Has m a' ca [a1, a2, a4, a3] (ten4 A'))
    (hb : Has m b cb [b1, b2, b3, b4] (ten4 B)) (hb' : Has m b' cb [b1, b2, b4, b3] (ten4 B')) (hp : Has m p cx [a1, b2, a3, b4] (ten4 P))
    (hq : Has m q cx [a2, b1, a4, b3] (ten4 Q)) (hr : Has m r cx [a1, b2, a4, b3] (ten4 R)) (hs : Has m s cx [a2, b1, a3, b4] (ten4 S)) :
    Ok (spinGroup re a a' b b' p q r s a1 a2 a3 a4 b1 b2 b3 b4) m fun T m' => Keeps m m' ∧ m.next ≤ T.loc ∧
      m'.warned = (m.warned || ca || cb || cx) ∧ Has m' T false [a1 + b1, a2 + b2, a3 + b3, a4 + b4]
        (ten4 (CC.Num.int_to_spin_block (fun x y z w => real re ca (A x y z w) - real re ca (A' x y w z))
          (fun x y z w => real re cb (B x y z w) - real re cb (B' x y w z)) (fun x y z w => real re cx (P x y z w))
          (fun x y z w => real re cx (Q y x w z)) (fun x y z w => -real re cx (R x y w z)) (fun x y z w => -real re cx (S y x z w))
          a1 a2 a3 a4 b1 b2 b3 b4)) := by
  refine (t0132_ok ha').bind fun u m1 ⟨e, _, g1⟩ => ?_; subst e
  refine (sub4_ok ha g1).bind fun aaaa m2 g2 => ?_
  have k2 := g2.keeps
  refine (t0132_ok (hb'.keep k2)).bind fun u m1 ⟨e, _, g3⟩ => ?_; subst e
  refine (sub4_ok (hb.keep k2) g3).bind fun bbbb m4 g4 => ?_
  have k4 := k2.trans g4.keeps
  refine (t1032_ok (hq.keep k4)).bind fun baba m1 ⟨e, _, g5⟩ => ?_; subst e
  refine (t0132_ok (hr.keep k4)).bind fun u m1 ⟨e, _, g6⟩ => ?_; subst e
  refine (neg4_ok g6).bind fun abba m7 g7 => ?_
  have k7 := k4.trans g7.keeps
  refine (t1023_ok (hs.keep k7)).bind fun u m1 ⟨e, _, g8⟩ => ?_; subst e
  refine (neg4_ok g8).bind fun baab m9 g9 => ?_
  have k9 := k7.trans g9.keeps
  refine (C61_int_to_spin_block (g2.has.keep ((g4.keeps.trans g7.keeps).trans g9.keeps)) (g4.has.keep (g7.keeps.trans g9.keeps)) (hp.keep k9)
    (g5.keep (g7.keeps.trans g9.keeps)) (g7.has.keep g9.keeps) g9.has).imp fun T m' ⟨h1, h2, h3, h4⟩ =>
      ⟨k9.trans h1, k9.1.trans h2, ?_, ?_⟩
  · rw [h3, g9.warned, g7.warned, g4.warned, g2.warned]
    simp only [Bool.or_assoc, Bool.or_self]
  · simpa only [real_sub, real_neg, Bool.or_self] using h4

theorem group2_ok (ha : Has m a ca [a1, a2, a3, a4] (ten4 A)) (hb : Has m b cb [b1, b2, b3, b4] (ten4 B)) (hp : Has m p cx [a1, b2, a3, b4] (ten4 P))
    (hq : Has m q cx [a2, b1, a4, b3] (ten4 Q)) (hr : Has m r cx [a1, b2, a4, b3] (ten4 R)) (hs : Has m s cx [a2, b1, a3, b4] (ten4 S)) :
    Ok (spinGroup2 re a b p q r s a1 a2 a3 a4 b1 b2 b3 b4) m fun T m' => Keeps m m' ∧ m.next ≤ T.loc ∧
      m'.warned = (m.warned || ca || cb || cx) ∧ Has m' T false [a1 + b1, a2 + b2, a3 + b3, a4 + b4]
        (ten4 (CC.Num.int_to_spin_block (fun x y z w => real re ca (A x y z w)) (fun x y z w => real re cb (B x y z w))
          (fun x y z w => real re cx (P x y z w)) (fun x y z w => real re cx (Q y x w z)) (fun x y z w => -real re cx (R x y w z))
          (fun x y z w => -real re cx (S y x z w)) a1 a2 a3 a4 b1 b2 b3 b4)) := by
  refine (t1032_ok hq).bind fun baba m1 ⟨e, _, g5⟩ => ?_; subst e
  refine (t0132_ok hr).bind fun u m1 ⟨e, _, g6⟩ => ?_; subst e
  refine (neg4_ok g6).bind fun abba m7 g7 => ?_
  have k7 := g7.keeps
  refine (t1023_ok (hs.keep k7)).bind fun u m1 ⟨e, _, g8⟩ => ?_; subst e
  refine (neg4_ok g8).bind fun baab m9 g9 => ?_
  have k9 := k7.trans g9.keeps
  refine (C61_int_to_spin_block (ha.keep k9) (hb.keep k9) (hp.keep k9) (g5.keep k9) (g7.has.keep g9.keeps) g9.has).imp
    fun T m' ⟨h1, h2, h3, h4⟩ => ⟨k9.trans h1, k9.1.trans h2, ?_, ?_⟩
  · rw [h3, g9.warned, g7.warned]
    simp only [Bool.or_assoc, Bool.or_self]
  · simpa only [real_neg] using h4
end

theorem warn3 (w a b x : Bool) : (w || a || b || x || a || b || x) = (w || a || b || x) := by cases w <;> cases a <;> cases b <;> cases x <;> rfl

/-- C61: `int_to_spin` makes nine new real arrays. -/
theorem C61_int_to_spin {A B X : TwoBF} {ca cb cx : Bool} {A' B' X' : CC.TwoEFull ℕ ℕ ℕ ℕ K} (ha : HasFull m A ca noa nva noa nva A')
    (hb : HasFull m B cb nob nvb nob nvb B') (hx : HasFull m X cx noa nva nob nvb X') :
    Ok (int_to_spin re A B X noa nva nob nvb) m fun I m' => Keeps m m' ∧ (∀ v ∈ I.views, m.next ≤ v.loc) ∧ (I.views.map View.loc).Nodup ∧
      m'.warned = (m.warned || ca || cb || cx) ∧
      HasTwo m' I false (noa + nob) (nva + nvb) (CC.Num.int_to_spin (realFull re ca A') (realFull re cb B') (realFull re cx X') noa nva nob nvb) := by
  refine (group_ok ha.vvvv ha.vvvv hb.vvvv hb.vvvv hx.vvvv hx.vvvv hx.vvvv hx.vvvv).bind fun T1 m1 ⟨k1, l1, w1, h1⟩ => ?_
  have j1 := k1
  refine (group_ok (ha.keep j1).vvvo (ha.keep j1).vvov (hb.keep j1).vvvo (hb.keep j1).vvov (hx.keep j1).vvvo (hx.keep j1).vvov (hx.keep j1).vvov (hx.keep j1).vvvo).bind fun T2 m2 ⟨k2, l2, w2, h2⟩ => ?_
  have j2 := j1.trans k2
  refine (group_ok (ha.keep j2).vovv (ha.keep j2).vovv (hb.keep j2).vovv (hb.keep j2).vovv (hx.keep j2).vovv (hx.keep j2).ovvv (hx.keep j2).vovv (hx.keep j2).ovvv).bind fun T3 m3 ⟨k3, l3, w3, h3⟩ => ?_
  have j3 := j2.trans k3
  refine (group_ok (ha.keep j3).vvoo (ha.keep j3).vvoo (hb.keep j3).vvoo (hb.keep j3).vvoo (hx.keep j3).vvoo (hx.keep j3).vvoo (hx.keep j3).vvoo (hx.keep j3).vvoo).bind fun T4 m4 ⟨k4, l4, w4, h4⟩ => ?_
  have j4 := j3.trans k4
  refine (group_ok (ha.keep j4).vovo (ha.keep j4).voov (hb.keep j4).vovo (hb.keep j4).voov (hx.keep j4).vovo (hx.keep j4).ovov (hx.keep j4).voov (hx.keep j4).ovvo).bind fun T5 m5 ⟨k5, l5, w5, h5⟩ => ?_
  have j5 := j4.trans k5
  refine (group_ok (ha.keep j5).oovv (ha.keep j5).oovv (hb.keep j5).oovv (hb.keep j5).oovv (hx.keep j5).oovv (hx.keep j5).oovv (hx.keep j5).oovv (hx.keep j5).oovv).bind fun T6 m6 ⟨k6, l6, w6, h6⟩ => ?_
  have j6 := j5.trans k6
  refine (group_ok (ha.keep j6).vooo (ha.keep j6).vooo (hb.keep j6).vooo (hb.keep j6).vooo (hx.keep j6).vooo (hx.keep j6).ovoo (hx.keep j6).vooo (hx.keep j6).ovoo).bind fun T7 m7 ⟨k7, l7, w7, h7⟩ => ?_
  have j7 := j6.trans k7
  refine (group_ok (ha.keep j7).ooov (ha.keep j7).oovo (hb.keep j7).ooov (hb.keep j7).oovo (hx.keep j7).ooov (hx.keep j7).oovo (hx.keep j7).oovo (hx.keep j7).ooov).bind fun T8 m8 ⟨k8, l8, w8, h8⟩ => ?_
  have j8 := j7.trans k8
  refine (group_ok (ha.keep j8).oooo (ha.keep j8).oooo (hb.keep j8).oooo (hb.keep j8).oooo (hx.keep j8).oooo (hx.keep j8).oooo (hx.keep j8).oooo (hx.keep j8).oooo).bind fun T9 m9 ⟨k9, l9, w9, h9⟩ => ?_
  have j9 := j8.trans k9
  have r8 := k9
  have r7 := k8.trans r8
  have r6 := k7.trans r7
  have r5 := k6.trans r6
  have r4 := k5.trans r5
  have r3 := k4.trans r4
  have r2 := k3.trans r3
  have r1 := k2.trans r2
  refine .pure ⟨j9, ?_, ?_, ?_, ⟨h1.keep r1, h2.keep r2, h3.keep r3, h4.keep r4, h5.keep r5, h6.keep r6, h7.keep r7, h8.keep r8, h9⟩⟩
  · have := j1.1; have := j2.1; have := j3.1; have := j4.1; have := j5.1; have := j6.1; have := j7.1; have := j8.1; have := j9.1
    simp only [TwoB.views, List.mem_cons, List.not_mem_nil, or_false]
    rintro v (rfl | rfl | rfl | rfl | rfl | rfl | rfl | rfl | rfl) <;> omega
  · have := h1.loc; have := h2.loc; have := h3.loc; have := h4.loc; have := h5.loc; have := h6.loc; have := h7.loc; have := h8.loc
    have := k1.1; have := k2.1; have := k3.1; have := k4.1; have := k5.1; have := k6.1; have := k7.1; have := k8.1; have := k9.1
    simp only [TwoB.views, List.map_cons, List.map_nil, List.nodup_cons, List.mem_cons, List.not_mem_nil, or_false, not_or, List.nodup_nil,
      not_false_eq_true, and_true]
    omega
  · rw [w9, w8, w7, w6, w5, w4, w3, w2, w1]
    simp only [warn3]

/-- C61: `int_to_spin2` makes nine new real arrays. -/
theorem C61_int_to_spin2 {A B : TwoB} {X : TwoBF} {ca cb cx : Bool} {A' B' : CC.TwoE ℕ ℕ K} {X' : CC.TwoEFull ℕ ℕ ℕ ℕ K} (ha : HasTwo m A ca noa nva A')
    (hb : HasTwo m B cb nob nvb B') (hx : HasFull m X cx noa nva nob nvb X') :
    Ok (int_to_spin2 re A B X noa nva nob nvb) m fun I m' => Keeps m m' ∧ (∀ v ∈ I.views, m.next ≤ v.loc) ∧ (I.views.map View.loc).Nodup ∧
      m'.warned = (m.warned || ca || cb || cx) ∧
      HasTwo m' I false (noa + nob) (nva + nvb) (CC.Num.int_to_spin2 (realTwo re ca A') (realTwo re cb B') (realFull re cx X') noa nva nob nvb) := by
  refine (group2_ok ha.vvvv hb.vvvv hx.vvvv hx.vvvv hx.vvvv hx.vvvv).bind fun T1 m1 ⟨k1, l1, w1, h1⟩ => ?_
  have j1 := k1
  refine (group2_ok (ha.keep j1).vvvo (hb.keep j1).vvvo (hx.keep j1).vvvo (hx.keep j1).vvov (hx.keep j1).vvov (hx.keep j1).vvvo).bind fun T2 m2 ⟨k2, l2, w2, h2⟩ => ?_
  have j2 := j1.trans k2
  refine (group2_ok (ha.keep j2).vovv (hb.keep j2).vovv (hx.keep j2).vovv (hx.keep j2).ovvv (hx.keep j2).vovv (hx.keep j2).ovvv).bind fun T3 m3 ⟨k3, l3, w3, h3⟩ => ?_
  have j3 := j2.trans k3
  refine (group2_ok (ha.keep j3).vvoo (hb.keep j3).vvoo (hx.keep j3).vvoo (hx.keep j3).vvoo (hx.keep j3).vvoo (hx.keep j3).vvoo).bind fun T4 m4 ⟨k4, l4, w4, h4⟩ => ?_
  have j4 := j3.trans k4
  refine (group2_ok (ha.keep j4).vovo (hb.keep j4).vovo (hx.keep j4).vovo (hx.keep j4).ovov (hx.keep j4).voov (hx.keep j4).ovvo).bind fun T5 m5 ⟨k5, l5, w5, h5⟩ => ?_
  have j5 := j4.trans k5
  refine (group2_ok (ha.keep j5).oovv (hb.keep j5).oovv (hx.keep j5).oovv (hx.keep j5).oovv (hx.keep j5).oovv (hx.keep j5).oovv).bind fun T6 m6 ⟨k6, l6, w6, h6⟩ => ?_
  have j6 := j5.trans k6
  refine (group2_ok (ha.keep j6).vooo (hb.keep j6).vooo (hx.keep j6).vooo (hx.keep j6).ovoo (hx.keep j6).vooo (hx.keep j6).ovoo).bind fun T7 m7 ⟨k7, l7, w7, h7⟩ => ?_
  have j7 := j6.trans k7
  refine (group2_ok (ha.keep j7).ooov (hb.keep j7).ooov (hx.keep j7).ooov (hx.keep j7).oovo (hx.keep j7).oovo (hx.keep j7).ooov).bind fun T8 m8 ⟨k8, l8, w8, h8⟩ => ?_
  have j8 := j7.trans k8
  refine (group2_ok (ha.keep j8).oooo (hb.keep j8).oooo (hx.keep j8).oooo (hx.keep j8).oooo (hx.keep j8).oooo (hx.keep j8).oooo).bind fun T9 m9 ⟨k9, l9, w9, h9⟩ => ?_
  have j9 := j8.trans k9
  have r8 := k9
  have r7 := k8.trans r8
  have r6 := k7.trans r7
  have r5 := k6.trans r6
  have r4 := k5.trans r5
  have r3 := k4.trans r4
  have r2 := k3.trans r3
  have r1 := k2.trans r2
  refine .pure ⟨j9, ?_, ?_, ?_, ⟨h1.keep r1, h2.keep r2, h3.keep r3, h4.keep r4, h5.keep r5, h6.keep r6, h7.keep r7, h8.keep r8, h9⟩⟩
  · have := j1.1; have := j2.1; have := j3.1; have := j4.1; have := j5.1; have := j6.1; have := j7.1; have := j8.1; have := j9.1
    simp only [TwoB.views, List.mem_cons, List.not_mem_nil, or_false]
    rintro v (rfl | rfl | rfl | rfl | rfl | rfl | rfl | rfl | rfl) <;> omega
  · have := h1.loc; have := h2.loc; have := h3.loc; have := h4.loc; have := h5.loc; have := h6.loc; have := h7.loc; have := h8.loc
    have := k1.1; have := k2.1; have := k3.1; have := k4.1; have := k5.1; have := k6.1; have := k7.1; have := k8.1; have := k9.1
    simp only [TwoB.views, List.map_cons, List.map_nil, List.nodup_cons, List.mem_cons, List.not_mem_nil, or_false, not_or, List.nodup_nil,
      not_false_eq_true, and_true]
    omega
  · rw [w9, w8, w7, w6, w5, w4, w3, w2, w1]
    simp only [warn3]

/-- C61: `int_to_spatial` changes no array and returns blocks of the element type of its argument. -/
theorem C61_int_to_spatial {I : TwoB} {c : Bool} {A : CC.TwoE ℕ ℕ K} (h : HasTwo m I c (noa + nob) (nva + nvb) A) :
    Ok (int_to_spatial I noa nob nva nvb) m fun r m' => Keeps m m' ∧ m'.warned = m.warned ∧
      HasTwo m' r.1 c noa nva (CC.Num.int_to_spatial A noa nob nva nvb).1 ∧ HasTwo m' r.2.1 c nob nvb (CC.Num.int_to_spatial A noa nob nva nvb).2.1 ∧
      HasFull m' r.2.2 c noa nva nob nvb (CC.Num.int_to_spatial A noa nob nva nvb).2.2 := by
  refine (slice4_ok h.vvvv (to_is _ _) (to_is _ _) (to_is _ _) (to_is _ _)).bind fun v1 m1 ⟨e, _, g1⟩ => ?_; subst e
  refine (slice4_ok h.vvvo (to_is _ _) (to_is _ _) (to_is _ _) (to_is _ _)).bind fun v2 m2 ⟨e, _, g2⟩ => ?_; subst e
  refine (slice4_ok h.vovv (to_is _ _) (to_is _ _) (to_is _ _) (to_is _ _)).bind fun v3 m3 ⟨e, _, g3⟩ => ?_; subst e
  refine (slice4_ok h.vvoo (to_is _ _) (to_is _ _) (to_is _ _) (to_is _ _)).bind fun v4 m4 ⟨e, _, g4⟩ => ?_; subst e
  refine (slice4_ok h.vovo (to_is _ _) (to_is _ _) (to_is _ _) (to_is _ _)).bind fun v5 m5 ⟨e, _, g5⟩ => ?_; subst e
  refine (slice4_ok h.oovv (to_is _ _) (to_is _ _) (to_is _ _) (to_is _ _)).bind fun v6 m6 ⟨e, _, g6⟩ => ?_; subst e
  refine (slice4_ok h.vooo (to_is _ _) (to_is _ _) (to_is _ _) (to_is _ _)).bind fun v7 m7 ⟨e, _, g7⟩ => ?_; subst e
  refine (slice4_ok h.ooov (to_is _ _) (to_is _ _) (to_is _ _) (to_is _ _)).bind fun v8 m8 ⟨e, _, g8⟩ => ?_; subst e
  refine (slice4_ok h.oooo (to_is _ _) (to_is _ _) (to_is _ _) (to_is _ _)).bind fun v9 m9 ⟨e, _, g9⟩ => ?_; subst e
  refine (slice4_ok h.vvvv (from_is _ _) (from_is _ _) (from_is _ _) (from_is _ _)).bind fun v10 m10 ⟨e, _, g10⟩ => ?_; subst e
  refine (slice4_ok h.vvvo (from_is _ _) (from_is _ _) (from_is _ _) (from_is _ _)).bind fun v11 m11 ⟨e, _, g11⟩ => ?_; subst e
  refine (slice4_ok h.vovv (from_is _ _) (from_is _ _) (from_is _ _) (from_is _ _)).bind fun v12 m12 ⟨e, _, g12⟩ => ?_; subst e
  refine (slice4_ok h.vvoo (from_is _ _) (from_is _ _) (from_is _ _) (from_is _ _)).bind fun v13 m13 ⟨e, _, g13⟩ => ?_; subst e
  refine (slice4_ok h.vovo (from_is _ _) (from_is _ _) (from_is _ _) (from_is _ _)).bind fun v14 m14 ⟨e, _, g14⟩ => ?_; subst e
  refine (slice4_ok h.oovv (from_is _ _) (from_is _ _) (from_is _ _) (from_is _ _)).bind fun v15 m15 ⟨e, _, g15⟩ => ?_; subst e
  refine (slice4_ok h.vooo (from_is _ _) (from_is _ _) (from_is _ _) (from_is _ _)).bind fun v16 m16 ⟨e, _, g16⟩ => ?_; subst e
  refine (slice4_ok h.ooov (from_is _ _) (from_is _ _) (from_is _ _) (from_is _ _)).bind fun v17 m17 ⟨e, _, g17⟩ => ?_; subst e
  refine (slice4_ok h.oooo (from_is _ _) (from_is _ _) (from_is _ _) (from_is _ _)).bind fun v18 m18 ⟨e, _, g18⟩ => ?_; subst e
  have j0 := Keeps.refl m18
  refine (slice4_ok (h.keep j0).vvvv (to_is _ _) (from_is _ _) (to_is _ _) (from_is _ _)).bind fun v19 m19 ⟨e, _, g19⟩ => ?_; subst e
  refine (slice4_ok (h.keep j0).vvvo (to_is _ _) (from_is _ _) (to_is _ _) (from_is _ _)).bind fun v20 m20 ⟨e, _, g20⟩ => ?_; subst e
  refine (slice4_ok (h.keep j0).vvvo (to_is _ _) (from_is _ _) (from_is _ _) (to_is _ _)).bind fun u m21 ⟨e, _, f21⟩ => ?_; subst e
  refine (t0132_ok f21).bind fun v21 m21 ⟨e, _, g21⟩ => ?_; subst e
  refine (neg4_ok g21).bind fun v21 m21 q21 => ?_
  have j1 := j0.trans q21.keeps
  refine (slice4_ok (h.keep j1).vovv (to_is _ _) (from_is _ _) (to_is _ _) (from_is _ _)).bind fun v22 m22 ⟨e, _, g22⟩ => ?_; subst e
  refine (slice4_ok (h.keep j1).vovv (from_is _ _) (to_is _ _) (to_is _ _) (from_is _ _)).bind fun u m23 ⟨e, _, f23⟩ => ?_; subst e
  refine (t1023_ok f23).bind fun v23 m23 ⟨e, _, g23⟩ => ?_; subst e
  refine (neg4_ok g23).bind fun v23 m23 q23 => ?_
  have j2 := j1.trans q23.keeps
  refine (slice4_ok (h.keep j2).vvoo (to_is _ _) (from_is _ _) (to_is _ _) (from_is _ _)).bind fun v24 m24 ⟨e, _, g24⟩ => ?_; subst e
  refine (slice4_ok (h.keep j2).vovo (to_is _ _) (from_is _ _) (to_is _ _) (from_is _ _)).bind fun v25 m25 ⟨e, _, g25⟩ => ?_; subst e
  refine (slice4_ok (h.keep j2).vovo (to_is _ _) (from_is _ _) (from_is _ _) (to_is _ _)).bind fun u m26 ⟨e, _, f26⟩ => ?_; subst e
  refine (t0132_ok f26).bind fun v26 m26 ⟨e, _, g26⟩ => ?_; subst e
  refine (neg4_ok g26).bind fun v26 m26 q26 => ?_
  have j3 := j2.trans q26.keeps
  refine (slice4_ok (h.keep j3).vovo (from_is _ _) (to_is _ _) (from_is _ _) (to_is _ _)).bind fun u m27 ⟨e, _, f27⟩ => ?_; subst e
  refine (t1032_ok f27).bind fun v27 m27 ⟨e, _, g27⟩ => ?_; subst e
  refine (slice4_ok (h.keep j3).vovo (from_is _ _) (to_is _ _) (to_is _ _) (from_is _ _)).bind fun u m28 ⟨e, _, f28⟩ => ?_; subst e
  refine (t1023_ok f28).bind fun v28 m28 ⟨e, _, g28⟩ => ?_; subst e
  refine (neg4_ok g28).bind fun v28 m28 q28 => ?_
  have j4 := j3.trans q28.keeps
  refine (slice4_ok (h.keep j4).oovv (to_is _ _) (from_is _ _) (to_is _ _) (from_is _ _)).bind fun v29 m29 ⟨e, _, g29⟩ => ?_; subst e
  refine (slice4_ok (h.keep j4).vooo (to_is _ _) (from_is _ _) (to_is _ _) (from_is _ _)).bind fun v30 m30 ⟨e, _, g30⟩ => ?_; subst e
  refine (slice4_ok (h.keep j4).vooo (from_is _ _) (to_is _ _) (to_is _ _) (from_is _ _)).bind fun u m31 ⟨e, _, f31⟩ => ?_; subst e
  refine (t1023_ok f31).bind fun v31 m31 ⟨e, _, g31⟩ => ?_; subst e
  refine (neg4_ok g31).bind fun v31 m31 q31 => ?_
  have j5 := j4.trans q31.keeps
  refine (slice4_ok (h.keep j5).ooov (to_is _ _) (from_is _ _) (to_is _ _) (from_is _ _)).bind fun v32 m32 ⟨e, _, g32⟩ => ?_; subst e
  refine (slice4_ok (h.keep j5).ooov (to_is _ _) (from_is _ _) (from_is _ _) (to_is _ _)).bind fun u m33 ⟨e, _, f33⟩ => ?_; subst e
  refine (t0132_ok f33).bind fun v33 m33 ⟨e, _, g33⟩ => ?_; subst e
  refine (neg4_ok g33).bind fun v33 m33 q33 => ?_
  have j6 := j5.trans q33.keeps
  refine (slice4_ok (h.keep j6).oooo (to_is _ _) (from_is _ _) (to_is _ _) (from_is _ _)).bind fun v34 m34 ⟨e, _, g34⟩ => ?_; subst e
  have r5 := q33.keeps
  have r4 := q31.keeps.trans r5
  have r3 := q28.keeps.trans r4
  have r2 := q26.keeps.trans r3
  have r1 := q23.keeps.trans r2
  have r0 := q21.keeps.trans r1
  refine .pure ⟨j6, ?_, ⟨g1.keep r0, g2.keep r0, g3.keep r0, g4.keep r0, g5.keep r0, g6.keep r0, g7.keep r0, g8.keep r0, g9.keep r0⟩, ⟨g10.keep r0, g11.keep r0, g12.keep r0, g13.keep r0, g14.keep r0, g15.keep r0, g16.keep r0, g17.keep r0, g18.keep r0⟩, ⟨g19.keep r0, g20.keep r0, q21.has.keep r1, g22.keep r1, q23.has.keep r2, g24.keep r2, g25.keep r2, q28.has.keep r4, q26.has.keep r3, g27.keep r3, g29.keep r4, g30.keep r4, q31.has.keep r5, q33.has, g32.keep r5, g34⟩⟩
  rw [q33.warned, q31.warned, q28.warned, q26.warned, q23.warned, q21.warned]

end Np
