import Verif.Tensor.Ix
import Mathlib.Data.Fintype.Sum

/-!
# Splitting sums over disjoint unions

Proof infrastructure for the comparison of spin-orbital expressions (index types `A ⊕ C` and `B ⊕ D`)
with spin-blocked expressions (index types `A B C D`).  A table records, for each spin-orbital tensor
and each spin pattern, the spin-blocked tensor (with sign and order of indices) it is equal to.
-/

namespace Verif.Tensor

section
variable {K : Type} [Field K] {A B C D : Type}

/-- Inclusion of the spin-blocked indices into the spin-orbital indices. -/
def emb : Ix A B C D → Ix (A ⊕ C) (B ⊕ D) Empty Empty
  | .nil => .nil
  | .a x => .a (.inl x)
  | .b x => .b (.inl x)
  | .c x => .a (.inr x)
  | .d x => .b (.inr x)

def sortOf : Ix A B C D → Option Nat
  | .nil => none
  | .a _ => some 0
  | .b _ => some 1
  | .c _ => some 2
  | .d _ => some 3

/-- A tensor block: zero, or sign, tensor number and order of the indices. -/
abbrev Res := Option (Bool × Nat × List Nat)

def resEval {X : Type} (E : Env K X) (l : List X) : Res → K
  | none => 0
  | some r => match r.1 with
    | false => E.tens r.2.1 (permute r.2.2 l)
    | true => -E.tens r.2.1 (permute r.2.2 l)

/-- Quantification over lists of indices of given sorts. -/
def FA : List Nat → (List (Ix A B C D) → Prop) → Prop
  | [], P => P []
  | s :: ss, P => match s with
    | 0 => ∀ x : A, FA ss (fun l => P (.a x :: l))
    | 1 => ∀ x : B, FA ss (fun l => P (.b x :: l))
    | 2 => ∀ x : C, FA ss (fun l => P (.c x :: l))
    | 3 => ∀ x : D, FA ss (fun l => P (.d x :: l))
    | _ => True

theorem FA.spec (ss : List Nat) (P : List (Ix A B C D) → Prop) (h : FA ss P) (l : List (Ix A B C D))
    (hl : l.map sortOf = ss.map some) : P l := by
  induction ss generalizing l P with
  | nil =>
    cases l with
    | nil => exact h
    | cons x l => simp at hl
  | cons s ss ih =>
    cases l with
    | nil => simp at hl
    | cons x l =>
      simp only [List.map_cons, List.cons.injEq] at hl
      obtain ⟨h1, h2⟩ := hl
      cases x <;> simp only [sortOf, reduceCtorEq, Option.some.injEq] at h1 <;> subst h1
      · exact ih _ (h _) l h2
      · exact ih _ (h _) l h2
      · exact ih _ (h _) l h2
      · exact ih _ (h _) l h2

/-- Correctness of one table entry. -/
def Ent (E1 : Env K (Ix (A ⊕ C) (B ⊕ D) Empty Empty)) (E2 : Env K (Ix A B C D)) (t : Nat)
    (e : List Nat × Res) : Prop :=
  FA e.1 fun l => E1.tens t (l.map emb) = resEval E2 l e.2

def Ents (E1 : Env K (Ix (A ⊕ C) (B ⊕ D) Empty Empty)) (E2 : Env K (Ix A B C D)) (t : Nat) :
    List (List Nat × Res) → Prop
  | [] => True
  | e :: es => Ent E1 E2 t e ∧ Ents E1 E2 t es

def Tabs (E1 : Env K (Ix (A ⊕ C) (B ⊕ D) Empty Empty)) (E2 : Env K (Ix A B C D)) :
    Nat → List (List (List Nat × Res)) → Prop
  | _, [] => True
  | t, es :: tab => Ents E1 E2 t es ∧ Tabs E1 E2 (t + 1) tab

theorem Ents.nil (E1 : Env K (Ix (A ⊕ C) (B ⊕ D) Empty Empty)) (E2 : Env K (Ix A B C D)) (t) :
    Ents E1 E2 t [] := trivial
theorem Ents.cons {E1 : Env K (Ix (A ⊕ C) (B ⊕ D) Empty Empty)} {E2 : Env K (Ix A B C D)} {t e es}
    (h : Ent E1 E2 t e) (hs : Ents E1 E2 t es) : Ents E1 E2 t (e :: es) := ⟨h, hs⟩
theorem Tabs.nil (E1 : Env K (Ix (A ⊕ C) (B ⊕ D) Empty Empty)) (E2 : Env K (Ix A B C D)) (t) :
    Tabs E1 E2 t [] := trivial
theorem Tabs.cons {E1 : Env K (Ix (A ⊕ C) (B ⊕ D) Empty Empty)} {E2 : Env K (Ix A B C D)} {t es tab}
    (h : Ents E1 E2 t es) (hs : Tabs E1 E2 (t + 1) tab) : Tabs E1 E2 t (es :: tab) := ⟨h, hs⟩

def findE : List (List Nat × Res) → List Nat → Option Res
  | [], _ => none
  | e :: es, p => bif beqNL e.1 p then some e.2 else findE es p

def getTab : List (List (List Nat × Res)) → Nat → List (List Nat × Res)
  | [], _ => []
  | es :: _, 0 => es
  | _ :: tab, t + 1 => getTab tab t

theorem findE_spec {E1 : Env K (Ix (A ⊕ C) (B ⊕ D) Empty Empty)} {E2 : Env K (Ix A B C D)} {t es}
    (h : Ents E1 E2 t es) (p r) (hf : findE es p = some r) : Ent E1 E2 t (p, r) := by
  induction es with
  | nil => simp [findE] at hf
  | cons e es ih =>
    simp only [findE] at hf
    cases hb : beqNL e.1 p with
    | true =>
      rw [hb] at hf
      simp only [cond_true, Option.some.injEq] at hf
      have := beqNL_eq _ _ hb
      subst this; subst hf
      exact h.1
    | false =>
      rw [hb] at hf
      exact ih h.2 hf

theorem getTab_spec {E1 : Env K (Ix (A ⊕ C) (B ⊕ D) Empty Empty)} {E2 : Env K (Ix A B C D)} {n tab}
    (h : Tabs E1 E2 n tab) (t) : Ents E1 E2 (n + t) (getTab tab t) := by
  induction tab generalizing n t with
  | nil => trivial
  | cons es tab ih =>
    cases t with
    | zero => exact h.1
    | succ t =>
      have := ih h.2 t
      rwa [Nat.add_assoc, Nat.add_comm 1 t] at this

/-- Sorts of labels. -/
def lookS : List (Nat × Nat) → Nat → Option Nat
  | [], _ => none
  | p :: ps, x => bif Nat.beq p.1 x then some p.2 else lookS ps x

def lookAll (σ : List (Nat × Nat)) : List Nat → Option (List Nat)
  | [] => some []
  | x :: xs => match lookS σ x with
    | none => none
    | some s => match lookAll σ xs with
      | none => none
      | some l => some (s :: l)

/-- The assignment `ρ` respects the sorts `σ`. -/
def RespS (σ : List (Nat × Nat)) (ρ : Nat → Ix A B C D) : Prop :=
  ∀ x s, lookS σ x = some s → sortOf (ρ x) = some s

theorem lookAll_spec {σ : List (Nat × Nat)} {ρ : Nat → Ix A B C D} (h : RespS σ ρ) (ls p)
    (hl : lookAll σ ls = some p) : (ls.map ρ).map sortOf = p.map some := by
  induction ls generalizing p with
  | nil => simp only [lookAll, Option.some.injEq] at hl; subst hl; rfl
  | cons x xs ih =>
    simp only [lookAll] at hl
    cases hx : lookS σ x with
    | none => simp [hx] at hl
    | some s =>
      rw [hx] at hl
      cases ha : lookAll σ xs with
      | none => simp [ha] at hl
      | some l =>
        rw [ha] at hl
        simp only [Option.some.injEq] at hl
        subst hl
        simp only [List.map_cons, ih l ha, h x s hx]

theorem RespS.upd {σ : List (Nat × Nat)} {ρ : Nat → Ix A B C D} (h : RespS σ ρ) (x s : Nat)
    (v : Ix A B C D) (hv : sortOf v = some s) : RespS ((x, s) :: σ) (Tensor.upd ρ x v) := by
  intro y r hy
  simp only [lookS] at hy
  cases hb : Nat.beq x y with
  | true =>
    rw [hb] at hy
    have := Nat.eq_of_beq_eq_true hb
    subst this
    simp only [cond_true, Option.some.injEq] at hy
    subst hy
    rw [upd_same]; exact hv
  | false =>
    rw [hb] at hy
    have hne : y ≠ x := by rintro rfl; simp at hb
    rw [upd_ne _ _ hne]
    exact h y r hy

/-- Result of splitting a product: `none` is a failure, `some none` is zero. -/
def splitF (tab : List (List (List Nat × Res))) (σ : List (Nat × Nat)) :
    List (Nat × List Nat) → Option (Option (Bool × List (Nat × List Nat)))
  | [] => some (some (false, []))
  | f :: fs => match lookAll σ f.2 with
    | none => none
    | some p => match findE (getTab tab f.1) p with
      | none => none
      | some none => some none
      | some (some r) => match splitF tab σ fs with
        | none => none
        | some none => some none
        | some (some q) => some (some (r.1 ^^ q.1, (r.2.1, permute r.2.2 f.2) :: q.2))

/-- Some factor with the label `x` has all its labels in `σ` and vanishes. -/
def dead (tab : List (List (List Nat × Res))) (σ : List (Nat × Nat)) (x : Nat) : List (Nat × List Nat) → Bool
  | [] => false
  | f :: fs => bif memB x f.2 then
      match lookAll σ f.2 with
      | none => dead tab σ x fs
      | some p => match findE (getTab tab f.1) p with
        | some none => true
        | _ => dead tab σ x fs
    else dead tab σ x fs

/-- Split the sums of a monomial; branches in which a factor is already known to vanish are left out. -/
def splitD (tab : List (List (List Nat × Res))) (n : Int) (e : Nat) (fs : List (Nat × List Nat)) :
    List (Nat × Nat) → List (Nat × Nat) → Option (List Mono)
  | σ, [] => match splitF tab σ fs with
    | none => none
    | some none => some []
    | some (some q) => some [⟨bif q.1 then -n else n, e, [], q.2⟩]
  | σ, d :: ds =>
    match (bif dead tab ((d.1, d.2) :: σ) d.1 fs then some [] else splitD tab n e fs ((d.1, d.2) :: σ) ds) with
    | none => none
    | some l => match (bif dead tab ((d.1, d.2 + 2) :: σ) d.1 fs then some [] else splitD tab n e fs ((d.1, d.2 + 2) :: σ) ds) with
      | none => none
      | some r => some (bindL d.1 d.2 l ++ bindL d.1 (d.2 + 2) r)

def splitL (tab : List (List (List Nat × Res))) (σ : List (Nat × Nat)) : List Mono → Option (List Mono)
  | [] => some []
  | m :: ms => match splitD tab m.n m.e m.fs σ m.ds with
    | none => none
    | some l => match splitL tab σ ms with
      | none => none
      | some r => some (l ++ r)

variable [Fintype A] [Fintype B] [Fintype C] [Fintype D]

omit [Fintype A] [Fintype B] [Fintype C] [Fintype D] in
theorem splitF_sound {E1 : Env K (Ix (A ⊕ C) (B ⊕ D) Empty Empty)} {E2 : Env K (Ix A B C D)} {tab}
    (ht : Tabs E1 E2 0 tab) {σ : List (Nat × Nat)} {ρ : Nat → Ix A B C D} (hρ : RespS σ ρ) (fs r)
    (h : splitF tab σ fs = some r) :
    prodF E1 fs (fun x => emb (ρ x)) = match r with
      | none => 0
      | some q => sgn K q.1 * prodF E2 q.2 ρ := by
  induction fs generalizing r with
  | nil =>
    simp only [splitF, Option.some.injEq] at h
    subst h
    simp [prodF, sgn]
  | cons f fs ih =>
    simp only [splitF] at h
    cases hl : lookAll σ f.2 with
    | none => simp [hl] at h
    | some p =>
      rw [hl] at h
      simp only at h
      cases hf : findE (getTab tab f.1) p with
      | none => simp [hf] at h
      | some res =>
        rw [hf] at h
        have hent := findE_spec (getTab_spec ht f.1) p res hf
        rw [Nat.zero_add] at hent
        have hval := FA.spec _ _ hent (f.2.map ρ) (lookAll_spec hρ _ _ hl)
        have hm : (f.2.map ρ).map emb = f.2.map (fun x => emb (ρ x)) := by
          simp [List.map_map, Function.comp_def]
        rw [hm] at hval
        cases res with
        | none =>
          simp only [Option.some.injEq] at h
          subst h
          simp only [prodF, hval, resEval, zero_mul]
        | some res =>
          simp only at h
          cases hs : splitF tab σ fs with
          | none => simp [hs] at h
          | some q =>
            have ih := ih q hs
            rw [hs] at h
            cases q with
            | none =>
              simp only [Option.some.injEq] at h
              subst h
              simp only [prodF, ih, mul_zero]
            | some q =>
              simp only [Option.some.injEq] at h
              subst h
              simp only [prodF, ih, hval, resEval, sgn_xor, ← permute_map]
              cases res.1 <;> simp [sgn] <;> ring

theorem sumIx_split (s : Nat) (hs : s < 2) (f : Ix (A ⊕ C) (B ⊕ D) Empty Empty → K) :
    sumIx s f = sumIx (A := A) (B := B) (C := C) (D := D) s (fun v => f (emb v))
      + sumIx (A := A) (B := B) (C := C) (D := D) (s + 2) (fun v => f (emb v)) := by
  match s, hs with
  | 0, _ => exact Fintype.sum_sum_type _
  | 1, _ => exact Fintype.sum_sum_type _

theorem sumIx_congr (s : Nat) (hs : s < 4) (f g : Ix A B C D → K)
    (h : ∀ v, sortOf v = some s → f v = g v) : sumIx s f = sumIx s g := by
  match s, hs with
  | 0, _ => exact Finset.sum_congr rfl fun x _ => h _ rfl
  | 1, _ => exact Finset.sum_congr rfl fun x _ => h _ rfl
  | 2, _ => exact Finset.sum_congr rfl fun x _ => h _ rfl
  | 3, _ => exact Finset.sum_congr rfl fun x _ => h _ rfl

omit [Fintype A] [Fintype B] [Fintype C] [Fintype D] in
theorem emb_upd (ρ : Nat → Ix A B C D) (x : Nat) (v : Ix A B C D) :
    (fun y => emb (upd ρ x v y)) = upd (fun y => emb (ρ y)) x (emb v) := by
  funext y
  by_cases h : y = x
  · subst h; rw [upd_same, upd_same]
  · rw [upd_ne _ _ h, upd_ne _ _ h]

/-- bound labels have sort 0 or 1 -/
def lowD : List (Nat × Nat) → Bool
  | [] => true
  | d :: ds => Nat.blt d.2 2 && lowD ds

def lowL : List Mono → Bool
  | [] => true
  | m :: ms => lowD m.ds && lowL ms

omit [Fintype A] [Fintype B] [Fintype C] [Fintype D] in
theorem dead_sound {E1 : Env K (Ix (A ⊕ C) (B ⊕ D) Empty Empty)} {E2 : Env K (Ix A B C D)} {tab}
    (ht : Tabs E1 E2 0 tab) {σ : List (Nat × Nat)} {ρ : Nat → Ix A B C D} (hρ : RespS σ ρ) (x fs)
    (h : dead tab σ x fs = true) : prodF E1 fs (fun x => emb (ρ x)) = 0 := by
  induction fs with
  | nil => simp [dead] at h
  | cons f fs ih =>
    simp only [dead] at h
    simp only [prodF]
    cases hm : memB x f.2 with
    | false => rw [hm] at h; rw [ih h, mul_zero]
    | true =>
      rw [hm] at h
      simp only [cond_true] at h
      cases hl : lookAll σ f.2 with
      | none => rw [hl] at h; rw [ih h, mul_zero]
      | some p =>
        rw [hl] at h
        simp only at h
        cases hf : findE (getTab tab f.1) p with
        | none => rw [hf] at h; rw [ih h, mul_zero]
        | some res =>
          rw [hf] at h
          cases res with
          | some r => rw [ih h, mul_zero]
          | none =>
            have hent := findE_spec (getTab_spec ht f.1) p none hf
            rw [Nat.zero_add] at hent
            have hval := FA.spec _ _ hent (f.2.map ρ) (lookAll_spec hρ _ _ hl)
            have hm : (f.2.map ρ).map emb = f.2.map (fun x => emb (ρ x)) := by
              simp [List.map_map, Function.comp_def]
            rw [hm] at hval
            simp only [hval, resEval, zero_mul]

/-- The labels `ds` are distinct and not in `σ`. -/
def Fresh (σ : List (Nat × Nat)) : List (Nat × Nat) → Prop
  | [] => True
  | d :: ds => lookS σ d.1 = none ∧ (∀ s, Fresh ((d.1, s) :: σ) ds)

omit [Fintype A] [Fintype B] [Fintype C] [Fintype D] in
theorem RespS.keep {σ : List (Nat × Nat)} {ρ : Nat → Ix A B C D} (h : RespS σ ρ) {x : Nat} (v : Ix A B C D)
    (hx : lookS σ x = none) : RespS σ (Tensor.upd ρ x v) := by
  intro y r hy
  have hne : y ≠ x := by rintro rfl; rw [hx] at hy; exact nomatch hy
  rw [upd_ne _ _ hne]
  exact h y r hy

theorem Fresh.of_nodup {ds : List (Nat × Nat)} : ∀ {σ : List (Nat × Nat)}, (ds.map Prod.fst).Nodup →
    (∀ d ∈ ds, lookS σ d.1 = none) → Fresh σ ds := by
  induction ds with
  | nil => intros; trivial
  | cons d ds ih =>
    intro σ hn hl
    simp only [List.map_cons, List.nodup_cons] at hn
    refine ⟨hl d (by simp), fun s => ih hn.2 fun d' hd' => ?_⟩
    have hne : Nat.beq d.1 d'.1 = false := by
      rw [Bool.eq_false_iff]
      intro hb
      have := Nat.eq_of_beq_eq_true hb
      exact hn.1 (List.mem_map.2 ⟨d', hd', this.symm⟩)
    simp only [lookS, hne, cond_false]
    exact hl d' (List.mem_cons_of_mem _ hd')

theorem Fresh.forget {ds : List (Nat × Nat)} : ∀ {σ : List (Nat × Nat)} {p : Nat × Nat}, Fresh (p :: σ) ds → Fresh σ ds := by
  induction ds with
  | nil => intros; trivial
  | cons d ds ih =>
    intro σ p h
    refine ⟨?_, fun s => ?_⟩
    · have := h.1
      simp only [lookS] at this
      cases hb : Nat.beq p.1 d.1 with
      | true => rw [hb] at this; exact nomatch this
      | false => rw [hb] at this; exact this
    · have hs := h.2 s
      clear h
      revert hs
      generalize hq : (d.1, s) = q
      clear hq
      have swap : ∀ (ds : List (Nat × Nat)) (τ : List (Nat × Nat)) (p : Nat × Nat) (σ : List (Nat × Nat)), Fresh (τ ++ p :: σ) ds → Fresh (τ ++ σ) ds := by
        intro ds
        induction ds with
        | nil => intros; trivial
        | cons d ds ih =>
          intro τ p σ h
          refine ⟨?_, fun s => ih ((d.1, s) :: τ) p σ (h.2 s)⟩
          have := h.1
          clear h ih
          induction τ with
          | nil =>
            simp only [List.nil_append, lookS] at this ⊢
            cases hb : Nat.beq p.1 d.1 with
            | true => rw [hb] at this; exact nomatch this
            | false => rw [hb] at this; exact this
          | cons t τ ih =>
            simp only [List.cons_append, lookS] at this ⊢
            cases hb : Nat.beq t.1 d.1 with
            | true => rw [hb] at this; exact nomatch this
            | false => rw [hb] at this; exact ih this
      exact fun hs => swap ds [q] p σ hs

theorem sumS_mkEnv' (ts : List (List (Ix A B C D) → K)) : (mkEnv ts).sumS = sumIx := rfl

/-- A sum over fresh labels vanishes if the summand does for all indices of the given sorts. -/
theorem sumN_zero (ts1 : List (List (Ix (A ⊕ C) (B ⊕ D) Empty Empty) → K)) {σ : List (Nat × Nat)}
    (F : (Nat → Ix (A ⊕ C) (B ⊕ D) Empty Empty) → K) (hF : ∀ ρ : Nat → Ix A B C D, RespS σ ρ → F (fun x => emb (ρ x)) = 0) (ds) :
    ∀ {ρ : Nat → Ix A B C D}, RespS σ ρ → Fresh σ ds → lowD ds = true → sumN (mkEnv ts1) ds F (fun x => emb (ρ x)) = 0 := by
  induction ds with
  | nil => intro ρ hρ _ _; exact hF ρ hρ
  | cons d ds ih =>
    intro ρ hρ hd hlow
    simp only [lowD, Bool.and_eq_true, Nat.blt_eq] at hlow
    show sumIx d.2 (fun v => sumN (mkEnv ts1) ds F (upd (fun y => emb (ρ y)) d.1 v)) = 0
    rw [sumIx_split d.2 hlow.1]
    have z : ∀ v : Ix A B C D, sumN (mkEnv ts1) ds F (upd (fun y => emb (ρ y)) d.1 (emb v)) = 0 := fun v => by
      rw [← emb_upd]
      exact ih (hρ.keep v hd.1) (hd.2 0).forget hlow.2
    simp only [z]
    have s0 : ∀ s, sumIx (K := K) (A := A) (B := B) (C := C) (D := D) s (fun _ => 0) = 0 := fun s => by
      have := (mkEnv (K := K) (A := A) (B := B) (C := C) (D := D) []).sumS_mul s 0 (fun _ => 0)
      simpa [sumS_mkEnv'] using this
    rw [s0, s0, add_zero]

theorem sumS_mkEnv (ts : List (List (Ix A B C D) → K)) : (mkEnv ts).sumS = sumIx := rfl

theorem splitD_sound {ts1 : List (List (Ix (A ⊕ C) (B ⊕ D) Empty Empty) → K)}
    {ts2 : List (List (Ix A B C D) → K)} {tab}
    (ht : Tabs (mkEnv ts1) (mkEnv ts2) 0 tab) (n e fs) (ds) : ∀ {σ : List (Nat × Nat)}
    {ρ : Nat → Ix A B C D}, RespS σ ρ → Fresh σ ds → lowD ds = true → ∀ r, splitD tab n e fs σ ds = some r →
    (n : K) * (1 / 2) ^ e * sumN (mkEnv ts1) ds (prodF (mkEnv ts1) fs) (fun x => emb (ρ x))
      = evalL (mkEnv ts2) r ρ := by
  induction ds with
  | nil =>
    intro σ ρ hρ _ _ r h
    simp only [splitD] at h
    cases hs : splitF tab σ fs with
    | none => simp [hs] at h
    | some q =>
      have hf := splitF_sound ht hρ fs q hs
      rw [hs] at h
      cases q with
      | none =>
        simp only [Option.some.injEq] at h
        subst h
        simp only at hf
        simp [sumN, hf, evalL]
      | some q =>
        simp only [Option.some.injEq] at h
        subst h
        simp only at hf
        simp only [sumN, hf, evalL, Mono.eval, add_zero]
        cases q.1 <;> simp [sgn]
  | cons d ds ih =>
    intro σ ρ hρ hfr hlow r h
    simp only [lowD, Bool.and_eq_true, Nat.blt_eq] at hlow
    simp only [splitD] at h
    cases h1 : (bif dead tab ((d.1, d.2) :: σ) d.1 fs then some [] else splitD tab n e fs ((d.1, d.2) :: σ) ds) with
    | none => simp [h1] at h
    | some l =>
      rw [h1] at h
      simp only at h
      cases h2 : (bif dead tab ((d.1, d.2 + 2) :: σ) d.1 fs then some [] else splitD tab n e fs ((d.1, d.2 + 2) :: σ) ds) with
      | none => simp [h2] at h
      | some l' =>
        rw [h2] at h
        simp only [Option.some.injEq] at h
        subst h
        have key : ∀ s l, s < 4 → (bif dead tab ((d.1, s) :: σ) d.1 fs then some [] else splitD tab n e fs ((d.1, s) :: σ) ds) = some l →
            (n : K) * (1 / 2) ^ e * sumIx (A := A) (B := B) (C := C) (D := D) s (fun v =>
              sumN (mkEnv ts1) ds (prodF (mkEnv ts1) fs) (upd (fun y => emb (ρ y)) d.1 (emb v)))
            = evalL (mkEnv ts2) (bindL d.1 s l) ρ := by
          intro s l hs hl
          rw [evalL_bindL]
          show _ = sumIx s (fun v => evalL (mkEnv ts2) l (upd ρ d.1 v))
          refine ((mkEnv ts2).sumS_mul s ((n : K) * (1 / 2) ^ e) (fun v =>
            sumN (mkEnv ts1) ds (prodF (mkEnv ts1) fs)
              (upd (fun y => emb (ρ y)) d.1 (emb v)))).symm.trans ?_
          rw [sumS_mkEnv]
          refine sumIx_congr (K := K) (A := A) (B := B) (C := C) (D := D) s hs _ _ fun v hv => ?_
          rw [← emb_upd]
          cases hdd : dead tab ((d.1, s) :: σ) d.1 fs with
          | false => rw [hdd] at hl; exact ih (hρ.upd d.1 s v hv) (hfr.2 s) hlow.2 l hl
          | true =>
            rw [hdd] at hl
            simp only [cond_true, Option.some.injEq] at hl
            subst hl
            rw [sumN_zero ts1 _ (fun ρ' hρ' => dead_sound ht hρ' d.1 fs hdd) ds (hρ.upd d.1 s v hv) (hfr.2 s) hlow.2, mul_zero]
            rfl
        rw [evalL_append, ← key d.2 l (by omega) h1, ← key (d.2 + 2) l' (by omega) h2, ← mul_add]
        congr 1
        exact sumIx_split d.2 hlow.1 (fun v =>
          sumN (mkEnv ts1) ds (prodF (mkEnv ts1) fs) (upd (fun y => emb (ρ y)) d.1 v))

theorem splitL_sound {ts1 : List (List (Ix (A ⊕ C) (B ⊕ D) Empty Empty) → K)}
    {ts2 : List (List (Ix A B C D) → K)} {tab}
    (ht : Tabs (mkEnv ts1) (mkEnv ts2) 0 tab) {σ : List (Nat × Nat)}
    {ρ : Nat → Ix A B C D} (hρ : RespS σ ρ) (ms) (hfr : ∀ m ∈ ms, Fresh σ m.ds) (hlow : lowL ms = true) (r)
    (h : splitL tab σ ms = some r) :
    evalL (mkEnv ts1) ms (fun x => emb (ρ x)) = evalL (mkEnv ts2) r ρ := by
  induction ms generalizing r with
  | nil => simp only [splitL, Option.some.injEq] at h; subst h; rfl
  | cons m ms ih =>
    simp only [lowL, Bool.and_eq_true] at hlow
    simp only [splitL] at h
    cases h1 : splitD tab m.n m.e m.fs σ m.ds with
    | none => simp [h1] at h
    | some l =>
      rw [h1] at h
      simp only at h
      cases h2 : splitL tab σ ms with
      | none => simp [h2] at h
      | some l' =>
        rw [h2] at h
        simp only [Option.some.injEq] at h
        subst h
        rw [evalL_append]
        simp only [evalL]
        rw [ih (fun m hm => hfr m (List.mem_cons_of_mem _ hm)) hlow.2 l' h2]
        congr 1
        exact splitD_sound ht m.n m.e m.fs m.ds hρ (hfr m (by simp)) hlow.1 l h1

/-! ### Invariants of the split monomials -/

theorem mem_nth {α : Type} (l : List α) (i : Nat) (x : α) (h : nth l i = some x) : x ∈ l := by
  induction l generalizing i with
  | nil => simp [nth] at h
  | cons y l ih => cases i with
    | zero => simp only [nth, Option.some.injEq] at h; subst h; simp
    | succ i => exact List.mem_cons_of_mem _ (ih i h)

theorem mem_permute {α : Type} (p : List Nat) (l : List α) (x : α) (h : x ∈ permute p l) : x ∈ l := by
  induction p with
  | nil => simp [permute] at h
  | cons i p ih =>
    simp only [permute] at h
    cases hn : nth l i with
    | none => rw [hn] at h; exact ih h
    | some y =>
      rw [hn] at h
      rcases List.mem_cons.1 h with rfl | h
      · exact mem_nth _ _ _ hn
      · exact ih h

theorem splitF_lab (tab σ fs q) (h : splitF tab σ fs = some (some q)) :
    ∀ f ∈ q.2, ∀ x ∈ f.2, ∃ g ∈ fs, x ∈ g.2 := by
  induction fs generalizing q with
  | nil =>
    simp only [splitF, Option.some.injEq] at h
    subst h; simp
  | cons f fs ih =>
    simp only [splitF] at h
    cases hl : lookAll σ f.2 with
    | none => simp [hl] at h
    | some p =>
      rw [hl] at h
      simp only at h
      cases hf : findE (getTab tab f.1) p with
      | none => simp [hf] at h
      | some res =>
        rw [hf] at h
        cases res with
        | none => simp at h
        | some res =>
          simp only at h
          cases hs : splitF tab σ fs with
          | none => simp [hs] at h
          | some q' =>
            rw [hs] at h
            cases q' with
            | none => simp at h
            | some q' =>
              simp only [Option.some.injEq] at h
              subst h
              intro g hg x hx
              rcases List.mem_cons.1 hg with rfl | hg
              · exact ⟨f, by simp, mem_permute _ _ _ hx⟩
              · obtain ⟨g', hg', hx'⟩ := ih q' hs g hg x hx
                exact ⟨g', List.mem_cons_of_mem _ hg', hx'⟩

theorem bindL_mem (x s ms k) (h : k ∈ bindL x s ms) : ∃ m ∈ ms, k = m.bind x s := by
  induction ms with
  | nil => simp [bindL] at h
  | cons m ms ih =>
    rcases List.mem_cons.1 h with rfl | h
    · exact ⟨m, by simp, rfl⟩
    · obtain ⟨m', h', e⟩ := ih h
      exact ⟨m', List.mem_cons_of_mem _ h', e⟩

theorem splitD_lab (tab n e fs σ ds r) (h : splitD tab n e fs σ ds = some r) :
    ∀ k ∈ r, k.ds.map Prod.fst = ds.map Prod.fst ∧
      ∀ f ∈ k.fs, ∀ x ∈ f.2, ∃ g ∈ fs, x ∈ g.2 := by
  induction ds generalizing σ r with
  | nil =>
    simp only [splitD] at h
    cases hs : splitF tab σ fs with
    | none => simp [hs] at h
    | some q =>
      rw [hs] at h
      cases q with
      | none => simp only [Option.some.injEq] at h; subst h; simp
      | some q =>
        simp only [Option.some.injEq] at h; subst h
        intro k hk
        simp only [List.mem_singleton] at hk
        subst hk
        exact ⟨rfl, splitF_lab tab σ fs q hs⟩
  | cons d ds ih =>
    simp only [splitD] at h
    have br : ∀ s l, (bif dead tab ((d.1, s) :: σ) d.1 fs then some [] else splitD tab n e fs ((d.1, s) :: σ) ds) = some l →
        ∀ m ∈ l, m.ds.map Prod.fst = ds.map Prod.fst ∧ ∀ f ∈ m.fs, ∀ x ∈ f.2, ∃ g ∈ fs, x ∈ g.2 := by
      intro s l hl
      cases hdd : dead tab ((d.1, s) :: σ) d.1 fs with
      | false => rw [hdd] at hl; exact ih _ _ hl
      | true =>
        rw [hdd] at hl
        simp only [cond_true, Option.some.injEq] at hl
        subst hl
        intro m hm
        exact nomatch hm
    cases h1 : (bif dead tab ((d.1, d.2) :: σ) d.1 fs then some [] else splitD tab n e fs ((d.1, d.2) :: σ) ds) with
    | none => simp [h1] at h
    | some l =>
      rw [h1] at h
      simp only at h
      cases h2 : (bif dead tab ((d.1, d.2 + 2) :: σ) d.1 fs then some [] else splitD tab n e fs ((d.1, d.2 + 2) :: σ) ds) with
      | none => simp [h2] at h
      | some l' =>
        rw [h2] at h
        simp only [Option.some.injEq] at h
        subst h
        intro k hk
        rcases List.mem_append.1 hk with hk | hk
        · obtain ⟨m, hm, rfl⟩ := bindL_mem _ _ _ _ hk
          have := br _ _ h1 m hm
          exact ⟨by simp [Mono.bind, this.1], this.2⟩
        · obtain ⟨m, hm, rfl⟩ := bindL_mem _ _ _ _ hk
          have := br _ _ h2 m hm
          exact ⟨by simp [Mono.bind, this.1], this.2⟩

theorem splitL_ok (tab σ ms r) (h : splitL tab σ ms = some r) (sc lo hi)
    (hok : ∀ m ∈ ms, m.Ok sc lo hi) : ∀ k ∈ r, k.Ok sc lo hi := by
  induction ms generalizing r with
  | nil => simp only [splitL, Option.some.injEq] at h; subst h; simp
  | cons m ms ih =>
    simp only [splitL] at h
    cases h1 : splitD tab m.n m.e m.fs σ m.ds with
    | none => simp [h1] at h
    | some l =>
      rw [h1] at h
      simp only at h
      cases h2 : splitL tab σ ms with
      | none => simp [h2] at h
      | some l' =>
        rw [h2] at h
        simp only [Option.some.injEq] at h
        subst h
        intro k hk
        rcases List.mem_append.1 hk with hk | hk
        · obtain ⟨e1, e2⟩ := splitD_lab _ _ _ _ _ _ _ h1 k hk
          have hm := hok m (by simp)
          refine ⟨by rw [e1]; exact hm.nd, ?_, ?_⟩
          · intro d hd
            have : d.1 ∈ m.ds.map Prod.fst := by rw [← e1]; exact List.mem_map.2 ⟨d, hd, rfl⟩
            obtain ⟨d', hd', h'⟩ := List.mem_map.1 this
            rw [← h']; exact hm.rng d' hd'
          · intro f hf x hx
            obtain ⟨g, hg, hx'⟩ := e2 f hf x hx
            rw [e1]; exact hm.lab g hg x hx'
        · exact ih l' h2 (fun m hm => hok m (List.mem_cons_of_mem _ hm)) k hk

theorem negL_mem (ms k) (h : k ∈ negL ms) : ∃ m ∈ ms, k = m.neg := by
  induction ms with
  | nil => simp [negL] at h
  | cons m ms ih =>
    rcases List.mem_cons.1 h with rfl | h
    · exact ⟨m, by simp, rfl⟩
    · obtain ⟨m', h', e⟩ := ih h
      exact ⟨m', List.mem_cons_of_mem _ h', e⟩

/-- The labels of `σ` are below `n0`. -/
def extS (n0 : Nat) : List (Nat × Nat) → Bool
  | [] => true
  | p :: ps => Nat.blt p.1 n0 && extS n0 ps

theorem extS_spec (n0 : Nat) (σ : List (Nat × Nat)) (h : extS n0 σ = true) (x : Nat) (hx : n0 ≤ x) : lookS σ x = none := by
  induction σ with
  | nil => rfl
  | cons p ps ih =>
    simp only [extS, Bool.and_eq_true, Nat.blt_eq] at h
    have hb : Nat.beq p.1 x = false := by
      rw [Bool.eq_false_iff]
      intro hb
      have := Nat.eq_of_beq_eq_true hb
      omega
    simp only [lookS, hb, cond_false]
    exact ih h.2

/-- The check done by the `tensor_split` tactic: `a` is the spin-orbital side. -/
def checkSplit (n0 E : Nat) (tab : List (List (List Nat × Res))) (σ : List (Nat × Nat))
    (tbl : List (List Sym)) (a b : TE) (hints : List (List Nat)) : Bool :=
  match wf (upto n0) n0 a with
  | none => false
  | some _ => match wf (upto n0) n0 b with
    | none => false
    | some _ => match splitL tab σ (expand a) with
      | none => false
      | some ma => (extS n0 σ && lowL (expand a)) && match canonL n0 E tbl (ma ++ negL (expand b)) hints with
        | none => false
        | some ms => allCancel (msort 20 (addKeys ms))

/-- `ρ` assigns indices of sorts `σ`. -/
def respB : List (Nat × Nat) → (Nat → Ix A B C D) → Prop
  | [], _ => True
  | p :: ps, ρ => sortOf (ρ p.1) = some p.2 ∧ respB ps ρ

omit [Fintype A] [Fintype B] [Fintype C] [Fintype D] in
theorem respB_spec (σ : List (Nat × Nat)) (ρ : Nat → Ix A B C D) (h : respB σ ρ) : RespS σ ρ := by
  induction σ with
  | nil => intro x s hx; simp [lookS] at hx
  | cons p ps ih =>
    intro x s hx
    simp only [lookS] at hx
    cases hb : Nat.beq p.1 x with
    | true =>
      rw [hb] at hx
      have := Nat.eq_of_beq_eq_true hb
      subst this
      simp only [cond_true, Option.some.injEq] at hx
      subst hx; exact h.1
    | false => rw [hb] at hx; exact ih h.2 x s hx

/-- Entry point of the `tensor_split` tactic. -/
theorem tensor_split [CharZero K] (ts1 : List (List (Ix (A ⊕ C) (B ⊕ D) Empty Empty) → K))
    (ts2 : List (List (Ix A B C D) → K)) (tab) (ht : Tabs (mkEnv ts1) (mkEnv ts2) 0 tab)
    (sss) (hs : SymAll ts2 sss) (n0 e : Nat) (σ : List (Nat × Nat)) (a b : TE) (hints)
    (h : checkSplit n0 e tab σ sss a b hints = true) (ρ : Nat → Ix A B C D) (hρ : respB σ ρ) :
    a.eval (mkEnv ts1) (fun x => emb (ρ x)) = b.eval (mkEnv ts2) ρ := by
  have : NeZero (2 : K) := ⟨by
    have : ((2 : ℕ) : K) ≠ ((0 : ℕ) : K) := fun h => absurd (Nat.cast_injective h) (by decide)
    exact_mod_cast this⟩
  simp only [checkSplit] at h
  cases hwa : wf (upto n0) n0 a with
  | none => simp [hwa] at h
  | some hia =>
    rw [hwa] at h; simp only at h
    cases hwb : wf (upto n0) n0 b with
    | none => simp [hwb] at h
    | some hib =>
      rw [hwb] at h; simp only at h
      cases hsp : splitL tab σ (expand a) with
      | none => simp [hsp] at h
      | some ma =>
        rw [hsp] at h; simp only [Bool.and_eq_true] at h
        obtain ⟨⟨hext, hlow⟩, h⟩ := h
        cases hc : canonL n0 e sss (ma ++ negL (expand b)) hints with
        | none => simp [hc] at h
        | some ms =>
          rw [hc] at h; simp only at h
          have h1 := allCancel_sound (mkEnv ts2) _ h ρ
          rw [evalK_msort, evalK_addKeys] at h1
          have mono : ∀ (m : Mono) (hi hi' : Nat), hi ≤ hi' → m.Ok (upto n0) n0 hi → m.Ok (upto n0) n0 hi' :=
            fun m hi hi' hh ho => ⟨ho.nd, fun d hd => ⟨(ho.rng d hd).1, by have := (ho.rng d hd).2; omega⟩, ho.lab⟩
          have oka := splitL_ok tab σ _ _ hsp (upto n0) n0 hia (expand_ok a _ _ _ hwa).2
          have okb := (expand_ok b _ _ _ hwb).2
          have h2 := canonL_sound (mkEnv ts2) n0 e sss hs.ok (ma ++ negL (expand b)) (max hia hib) (by
            intro m hm
            rcases List.mem_append.1 hm with hm | hm
            · exact mono _ _ _ (le_max_left ..) (oka m hm)
            · obtain ⟨k, hk, rfl⟩ := negL_mem _ _ hm
              have := mono _ _ _ (le_max_right hia hib) (okb k hk)
              exact ⟨this.nd, this.rng, this.lab⟩) hints ms hc ρ
          have h3 := expand_sound (mkEnv ts1) a _ _ _ hwa (fun x hx => (upto_mem _ _).1 hx) (fun x => emb (ρ x))
          have h4 := expand_sound (mkEnv ts2) b _ _ _ hwb (fun x hx => (upto_mem _ _).1 hx) ρ
          rw [h3, h4, splitL_sound ht (respB_spec σ ρ hρ) _ (fun m hm => Fresh.of_nodup ((expand_ok a _ _ _ hwa).2 m hm).nd
            fun d hd => extS_spec n0 σ hext d.1 (((expand_ok a _ _ _ hwa).2 m hm).rng d hd).1) hlow ma hsp]
          rw [h1, evalL_append, evalL_negL] at h2
          linear_combination -h2

end
end Verif.Tensor
