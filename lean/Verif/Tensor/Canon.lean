import Verif.Tensor.Expr
import Mathlib.Data.List.Perm.Basic

/-!
# Deciding tensor identities

`check n0 E tbl t hints = true` implies that the tensor expression `t` (external labels
`0 .. n0-1`) is identically zero in every environment whose tensors have the index
symmetries listed in `tbl`.  The `hints` (one renaming of the bound labels for every
monomial) are found by untrusted code; the checker is sound for arbitrary hints.
-/

namespace Verif.Tensor

/-- `l[i]` -/
def nth {α : Type} : List α → Nat → Option α
  | [], _ => none
  | x :: _, 0 => some x
  | _ :: l, n + 1 => nth l n

def permute {α : Type} : List Nat → List α → List α
  | [], _ => []
  | i :: p, l => match nth l i with
    | none => permute p l
    | some x => x :: permute p l

theorem nth_map {α β : Type} (f : α → β) (l : List α) (i : Nat) : nth (l.map f) i = (nth l i).map f := by
  induction l generalizing i with
  | nil => rfl
  | cons x l ih => cases i with
    | zero => rfl
    | succ i => exact ih i

theorem permute_map {α β : Type} (f : α → β) (p : List Nat) (l : List α) :
    permute p (l.map f) = (permute p l).map f := by
  induction p with
  | nil => rfl
  | cons i p ih =>
    simp only [permute, nth_map]
    cases nth l i with
    | none => simpa using ih
    | some x => simp [ih]

structure Sym where
  perm : List Nat
  neg : Bool
  deriving Repr, Inhabited

def sgn (K : Type) [Field K] : Bool → K
  | false => 1
  | true => -1

theorem sgn_sq {K : Type} [Field K] (b : Bool) : sgn K b * sgn K b = 1 := by
  cases b <;> simp [sgn]

theorem sgn_xor {K : Type} [Field K] (a b : Bool) : sgn K (a ^^ b) = sgn K a * sgn K b := by
  cases a <;> cases b <;> simp [sgn]

def lexLt : List Nat → List Nat → Bool
  | [], [] => false
  | [], _ :: _ => true
  | _ :: _, [] => false
  | x :: xs, y :: ys => bif Nat.blt x y then true else bif Nat.beq x y then lexLt xs ys else false

def getSyms : List (List Sym) → Nat → List Sym
  | [], _ => []
  | x :: _, 0 => x
  | _ :: l, n + 1 => getSyms l n

def sameLen {α β : Type} : List α → List β → Bool
  | [], [] => true
  | _ :: a, _ :: b => sameLen a b
  | _, _ => false

theorem sameLen_iff {α β : Type} (a : List α) (b : List β) : sameLen a b = true ↔ a.length = b.length := by
  induction a generalizing b with
  | nil => cases b <;> simp [sameLen]
  | cons x a ih => cases b <;> simp [sameLen, ih]

/-- One pass over the symmetries, keeping a permuted label list whenever it is smaller. -/
def improve : List Sym → Bool → List Nat → Bool × List Nat
  | [], b, ls => (b, ls)
  | s :: ss, b, ls =>
    bif sameLen s.perm ls && lexLt (permute s.perm ls) ls then improve ss (b ^^ s.neg) (permute s.perm ls)
    else improve ss b ls

def canonF (ss : List Sym) (ls : List Nat) : Bool × List Nat :=
  match ss with
  | [] => (false, ls)
  | _ => match improve ss false ls with
    | (b, ls') => improve ss b ls'

def leF (f g : Nat × List Nat) : Bool :=
  bif Nat.blt f.1 g.1 then true else bif Nat.beq f.1 g.1 then !(lexLt g.2 f.2) else false

def insF (f : Nat × List Nat) : List (Nat × List Nat) → List (Nat × List Nat)
  | [] => [f]
  | g :: gs => bif leF f g then f :: g :: gs else g :: insF f gs

def insD (d : Nat × Nat) : List (Nat × Nat) → List (Nat × Nat)
  | [] => [d]
  | g :: gs => bif Nat.ble d.1 g.1 then d :: g :: gs else g :: insD d gs

/-- Renaming given by an association list; labels below `n0` are kept. -/
def look : List (Nat × Nat) → Nat → Nat
  | [], x => x
  | (a, b) :: l, x => bif Nat.beq x a then b else look l x

def ren (n0 : Nat) (al : List (Nat × Nat)) (x : Nat) : Nat :=
  bif Nat.blt x n0 then x else look al x

def renL (n0 : Nat) (al : List (Nat × Nat)) : List Nat → List Nat
  | [] => []
  | x :: xs => ren n0 al x :: renL n0 al xs

/-- Pair bound labels with their new names. -/
def mkAl : List (Nat × Nat) → List Nat → Option (List (Nat × Nat))
  | [], [] => some []
  | d :: ds, h :: hs => match mkAl ds hs with
    | none => none
    | some l => some ((d.1, h) :: l)
  | _, _ => none

def renD : List (Nat × Nat) → List Nat → List (Nat × Nat)
  | d :: ds, h :: hs => insD (h, d.2) (renD ds hs)
  | _, _ => []

/-- strictly increasing from `lo` on -/
def incr (lo : Nat) : List (Nat × Nat) → Bool
  | [] => true
  | d :: ds => Nat.ble lo d.1 && incr (d.1 + 1) ds

def canonFs (n0 : Nat) (tbl : List (List Sym)) (al : List (Nat × Nat)) :
    List (Nat × List Nat) → Bool × List (Nat × List Nat)
  | [] => (false, [])
  | f :: fs => match canonF (getSyms tbl f.1) (renL n0 al f.2) with
    | (b, ls) => match canonFs n0 tbl al fs with
      | (b', fs') => (b ^^ b', insF (f.1, ls) fs')

def canonM (n0 E : Nat) (tbl : List (List Sym)) (m : Mono) (h : List Nat) : Option Mono :=
  match mkAl m.ds h with
  | none => none
  | some al =>
    bif incr n0 (renD m.ds h) && Nat.ble m.e E then
      match canonFs n0 tbl al m.fs with
      | (b, fs) => some ⟨(bif b then -m.n else m.n) * ((2 ^ (E - m.e) : Nat) : Int), E, renD m.ds h, fs⟩
    else none

def canonL (n0 E : Nat) (tbl : List (List Sym)) : List Mono → List (List Nat) → Option (List Mono)
  | [], _ => some []
  | m :: ms, h :: hs => match canonM n0 E tbl m h with
    | none => none
    | some k => match canonL n0 E tbl ms hs with
      | none => none
      | some ks => some (k :: ks)
  | _ :: _, [] => none

/-! Sorting by a numeric key. -/

def keyL (k : Nat) : List Nat → Nat
  | [] => k
  | x :: xs => keyL (k * 64 + x) xs

def keyF (k : Nat) : List (Nat × List Nat) → Nat
  | [] => k
  | f :: fs => keyF (keyL (k * 64 + f.1) f.2) fs

def merge : Nat → List (Nat × Mono) → List (Nat × Mono) → List (Nat × Mono)
  | 0, a, b => a ++ b
  | _ + 1, [], b => b
  | _ + 1, a, [] => a
  | n + 1, x :: a, y :: b => bif Nat.ble x.1 y.1 then x :: merge n a (y :: b) else y :: merge n (x :: a) b

def split2 : List (Nat × Mono) → List (Nat × Mono) × List (Nat × Mono)
  | [] => ([], [])
  | [x] => ([x], [])
  | x :: y :: l => match split2 l with
    | (a, b) => (x :: a, y :: b)

def msort : Nat → List (Nat × Mono) → List (Nat × Mono)
  | 0, l => l
  | _ + 1, [] => []
  | _ + 1, [x] => [x]
  | n + 1, x :: y :: l => match split2 l with
    | (a, b) => merge 100000 (msort n (x :: a)) (msort n (y :: b))

def addKeys : List Mono → List (Nat × Mono)
  | [] => []
  | m :: ms => (keyF 1 m.fs, m) :: addKeys ms

def beqNL : List Nat → List Nat → Bool
  | [], [] => true
  | x :: xs, y :: ys => Nat.beq x y && beqNL xs ys
  | _, _ => false

def beqFs : List (Nat × List Nat) → List (Nat × List Nat) → Bool
  | [], [] => true
  | x :: xs, y :: ys => Nat.beq x.1 y.1 && (beqNL x.2 y.2 && beqFs xs ys)
  | _, _ => false

def beqDs : List (Nat × Nat) → List (Nat × Nat) → Bool
  | [], [] => true
  | x :: xs, y :: ys => Nat.beq x.1 y.1 && (Nat.beq x.2 y.2 && beqDs xs ys)
  | _, _ => false

/-- The monomials cancel: like terms are adjacent, and their coefficients add up to zero. -/
def cancel (acc : Int) (k : Nat) (m : Mono) : List (Nat × Mono) → Bool
  | [] => acc == 0
  | (k', m') :: l =>
    bif Nat.beq k k' then
      (beqFs m.fs m'.fs && (beqDs m.ds m'.ds && (Nat.beq m.e m'.e && cancel (acc + m'.n) k m l)))
    else (acc == 0 && cancel m'.n k' m' l)

def allCancel : List (Nat × Mono) → Bool
  | [] => true
  | (k, m) :: l => cancel m.n k m l

def upto : Nat → List Nat
  | 0 => []
  | n + 1 => n :: upto n

def check (n0 E : Nat) (tbl : List (List Sym)) (t : TE) (hints : List (List Nat)) : Bool :=
  match wf (upto n0) n0 t with
  | none => false
  | some _ => match canonL n0 E tbl (expand t) hints with
    | none => false
    | some ms => allCancel (msort 20 (addKeys ms))

/-! ### Soundness -/

section
variable {K X : Type} [Field K]

/-- The environment has the listed symmetries. -/
def SymOK (E : Env K X) (tbl : List (List Sym)) : Prop :=
  ∀ t, ∀ s ∈ getSyms tbl t, ∀ l : List X, l.length = s.perm.length →
    E.tens t (permute s.perm l) = sgn K s.neg * E.tens t l

theorem improve_sound (E : Env K X) (t : Nat) (ss : List Sym)
    (h : ∀ s ∈ ss, ∀ l : List X, l.length = s.perm.length →
    E.tens t (permute s.perm l) = sgn K s.neg * E.tens t l)
    (b : Bool) (ls : List Nat) (ρ : Nat → X) :
    sgn K (improve ss b ls).1 * E.tens t ((improve ss b ls).2.map ρ)
      = sgn K b * E.tens t (ls.map ρ) := by
  induction ss generalizing b ls with
  | nil => rfl
  | cons s ss ih =>
    have ih := ih (fun s' hs' => h s' (List.mem_cons_of_mem _ hs'))
    simp only [improve]
    cases hb : sameLen s.perm ls && lexLt (permute s.perm ls) ls with
    | false => exact ih b ls
    | true =>
      simp only [cond_true]
      rw [Bool.and_eq_true, sameLen_iff] at hb
      rw [ih, ← permute_map, h s (by simp) _ (by simp [hb.1]), sgn_xor]
      have := sgn_sq (K := K) s.neg
      linear_combination (sgn K b * E.tens t (ls.map ρ)) * this

theorem canonF_sound (E : Env K X) (t : Nat) (ss : List Sym)
    (h : ∀ s ∈ ss, ∀ l : List X, l.length = s.perm.length →
    E.tens t (permute s.perm l) = sgn K s.neg * E.tens t l)
    (ls : List Nat) (ρ : Nat → X) :
    sgn K (canonF ss ls).1 * E.tens t ((canonF ss ls).2.map ρ) = E.tens t (ls.map ρ) := by
  cases ss with
  | nil => simp [canonF, sgn]
  | cons s ss =>
    simp only [canonF]
    rw [improve_sound E t (s :: ss) h, improve_sound E t (s :: ss) h]
    simp [sgn]

theorem prodF_insF (E : Env K X) (f) (fs) (ρ : Nat → X) :
    prodF E (insF f fs) ρ = E.tens f.1 (f.2.map ρ) * prodF E fs ρ := by
  induction fs with
  | nil => rfl
  | cons g gs ih =>
    simp only [insF]
    cases leF f g with
    | true => rfl
    | false => simp only [cond_false, prodF, ih]; ring

theorem renL_eq (n0 al ls) : renL n0 al ls = ls.map (ren n0 al) := by
  induction ls with
  | nil => rfl
  | cons x xs ih => simp [renL, ih]

theorem canonFs_sound (E : Env K X) (n0) (tbl) (hs : SymOK E tbl) (al fs) (ρ : Nat → X) :
    sgn K (canonFs n0 tbl al fs).1 * prodF E (canonFs n0 tbl al fs).2 ρ
      = prodF E fs (fun x => ρ (ren n0 al x)) := by
  induction fs with
  | nil => simp [canonFs, prodF, sgn]
  | cons f fs ih =>
    simp only [canonFs, prodF, prodF_insF, sgn_xor]
    have h1 := canonF_sound E f.1 _ (hs f.1) (renL n0 al f.2) ρ
    rw [renL_eq, List.map_map] at h1
    rw [← ih]
    change _ = E.tens f.1 (f.2.map (ρ ∘ ren n0 al)) * _
    rw [← h1, renL_eq]
    ring

theorem insD_perm (d) (ds : List (Nat × Nat)) : (insD d ds).Perm (d :: ds) := by
  induction ds with
  | nil => exact List.Perm.refl _
  | cons g gs ih =>
    simp only [insD]
    cases Nat.ble d.1 g.1 with
    | true => exact List.Perm.refl _
    | false => exact (List.Perm.cons g ih).trans (List.Perm.swap d g gs)

theorem mkAl_some (ds h al) (hm : mkAl ds h = some al) :
    al.map Prod.fst = ds.map Prod.fst ∧ al.map Prod.snd = h ∧
      (renD ds h).Perm (List.zipWith (fun a d => (a.2, d.2)) al ds) := by
  induction ds generalizing h al with
  | nil =>
    cases h with
    | nil => simp only [mkAl, Option.some.injEq] at hm; subst hm; simp [renD]
    | cons => simp [mkAl] at hm
  | cons d ds ih =>
    cases h with
    | nil => simp [mkAl] at hm
    | cons x h =>
      simp only [mkAl] at hm
      cases hq : mkAl ds h with
      | none => simp [hq] at hm
      | some l =>
        simp only [hq, Option.some.injEq] at hm
        subst hm
        obtain ⟨a, b, c⟩ := ih h l hq
        refine ⟨by simp [a], by simp [b], ?_⟩
        simp only [renD, List.zipWith_cons_cons]
        exact (insD_perm _ _).trans (List.Perm.cons _ c)

theorem incr_spec (lo ds) (h : incr lo ds = true) :
    (ds.map Prod.fst).Nodup ∧ ∀ d ∈ ds, lo ≤ d.1 := by
  induction ds generalizing lo with
  | nil => simp
  | cons d ds ih =>
    simp only [incr, Bool.and_eq_true] at h
    have hle : lo ≤ d.1 := Nat.le_of_ble_eq_true h.1
    obtain ⟨nd, hr⟩ := ih _ h.2
    refine ⟨?_, ?_⟩
    · simp only [List.map_cons, List.nodup_cons]
      refine ⟨?_, nd⟩
      intro hm
      obtain ⟨e, he, h'⟩ := List.mem_map.1 hm
      have := hr e he; omega
    · intro e he
      rcases List.mem_cons.1 he with rfl | he
      · exact hle
      · have := hr e he; omega

/-- Sums over distinct labels commute. -/
theorem sumN_perm (E : Env K X) {ds es : List (Nat × Nat)} (hp : ds.Perm es)
    (hn : (ds.map Prod.fst).Nodup) (F : (Nat → X) → K) (ρ : Nat → X) :
    sumN E ds F ρ = sumN E es F ρ := by
  induction hp generalizing ρ with
  | nil => rfl
  | cons d _ ih =>
    simp only [List.map_cons, List.nodup_cons] at hn
    simp only [sumN]
    congr 1; funext v
    exact ih hn.2 _
  | swap x y l =>
    simp only [List.map_cons, List.nodup_cons, List.mem_cons, not_or] at hn
    simp only [sumN]
    rw [E.sumS_comm]
    congr 1; funext v; congr 1; funext w
    rw [upd_comm]
    exact hn.1.1
  | trans h1 h2 ih1 ih2 =>
    rw [ih1 hn]
    exact ih2 ((h1.map Prod.fst).nodup_iff.1 hn) _

/-- Renaming of bound labels. -/
theorem sumN_ren (E : Env K X) (σ : Nat → Nat) (L : Nat → Prop) (F G : (Nat → X) → K)
    (hFG : ∀ ρ η : Nat → X, (∀ x, L x → ρ x = η (σ x)) → F ρ = G η)
    (ds : List (Nat × Nat))
    (hinj : ∀ d ∈ ds, ∀ x, L x → σ x = σ d.1 → x = d.1)
    (ρ η : Nat → X) (h : ∀ x, L x → x ∈ ds.map Prod.fst ∨ ρ x = η (σ x)) :
    sumN E ds F ρ = sumN E (ds.map fun d => (σ d.1, d.2)) G η := by
  induction ds generalizing ρ η with
  | nil =>
    apply hFG
    intro x hx
    rcases h x hx with h | h
    · simp at h
    · exact h
  | cons d ds ih =>
    simp only [sumN, List.map_cons]
    congr 1; funext v
    apply ih (fun e he => hinj e (List.mem_cons_of_mem _ he))
    intro x hx
    by_cases hxd : x = d.1
    · subst hxd
      right
      rw [upd_same, upd_same]
    · rcases h x hx with h | h
      · simp only [List.map_cons, List.mem_cons] at h
        rcases h with h | h
        · exact absurd h hxd
        · exact .inl h
      · right
        rw [upd_ne _ _ hxd, upd_ne, h]
        intro hc
        exact hxd (hinj d (by simp) x hx hc)

theorem look_mem (al : List (Nat × Nat)) (x y) (hn : (al.map Prod.fst).Nodup) (h : (x, y) ∈ al) :
    look al x = y := by
  induction al with
  | nil => simp at h
  | cons a al ih =>
    obtain ⟨a1, a2⟩ := a
    simp only [List.map_cons, List.nodup_cons] at hn
    simp only [look]
    rcases List.mem_cons.1 h with h | h
    · cases h; simp
    · have hne : x ≠ a1 := by
        intro hxa
        exact hn.1 (List.mem_map.2 ⟨(x, y), h, hxa⟩)
      have : Nat.beq x a1 = false := by
        cases hb : Nat.beq x a1 with
        | false => rfl
        | true => exact absurd (Nat.eq_of_beq_eq_true hb) hne
      rw [this]
      exact ih hn.2 h

theorem zipWith_ren (n0 : Nat) (al ds : List (Nat × Nat)) (h1 : al.map Prod.fst = ds.map Prod.fst)
    (hn : (ds.map Prod.fst).Nodup) (hge : ∀ d ∈ ds, n0 ≤ d.1) :
    List.zipWith (fun a d => (a.2, d.2)) al ds = ds.map fun d => (ren n0 al d.1, d.2) := by
  have key : ∀ (al' ds' : List (Nat × Nat)), al'.map Prod.fst = ds'.map Prod.fst →
      (∀ a ∈ al', a ∈ al) → (∀ d ∈ ds', d ∈ ds) →
      List.zipWith (fun a d => (a.2, d.2)) al' ds' = ds'.map fun d => (ren n0 al d.1, d.2) := by
    intro al' ds'
    induction al' generalizing ds' with
    | nil => intro h _ _; cases ds' with
      | nil => rfl
      | cons => simp at h
    | cons a al' ih => intro h ha hd; cases ds' with
      | nil => simp at h
      | cons d ds' =>
        simp only [List.map_cons, List.cons.injEq] at h
        simp only [List.zipWith_cons_cons, List.map_cons, List.cons.injEq]
        refine ⟨?_, ih ds' h.2 (fun x hx => ha x (List.mem_cons_of_mem _ hx)) (fun x hx => hd x (List.mem_cons_of_mem _ hx))⟩
        have hlt : Nat.blt d.1 n0 = false := by
          have := hge d (hd d (by simp))
          cases hb : Nat.blt d.1 n0 with
          | false => rfl
          | true => have := Nat.le_of_ble_eq_true hb; omega
        have := look_mem al d.1 a.2 (by rw [h1]; exact hn) (by
          have := ha a (by simp); rw [← h.1]; exact this)
        simp [ren, hlt, this]
  exact key al ds h1 (fun _ h => h) (fun _ h => h)

theorem upto_mem (n x) : x ∈ upto n ↔ x < n := by
  induction n with
  | zero => simp [upto]
  | succ n ih => simp [upto, ih]; omega

theorem ren_lt {n0 x : Nat} (al) (h : x < n0) : ren n0 al x = x := by
  have : Nat.blt x n0 = true := Nat.ble_eq_true_of_le h
  simp only [ren, this, cond_true]

theorem canonM_sound [NeZero (2 : K)] (E : Env K X) (n0 e) (tbl) (hs : SymOK E tbl) (m : Mono) (hi) (hok : m.Ok (upto n0) n0 hi)
    (h : List Nat) (k : Mono) (hk : canonM n0 e tbl m h = some k) (ρ : Nat → X) :
    k.eval E ρ = m.eval E ρ := by
  simp only [canonM] at hk
  cases ha : mkAl m.ds h with
  | none => simp [ha] at hk
  | some al =>
    simp only [ha] at hk
    cases hi : incr n0 (renD m.ds h) && Nat.ble m.e e with
    | false => simp [hi] at hk
    | true =>
      simp only [hi, cond_true, Option.some.injEq] at hk
      subst hk
      simp only [Bool.and_eq_true] at hi
      obtain ⟨hinc, hele⟩ := hi
      have hele : m.e ≤ e := Nat.le_of_ble_eq_true hele
      obtain ⟨a1, a2, a3⟩ := mkAl_some _ _ _ ha
      obtain ⟨nd, hge⟩ := incr_spec _ _ hinc
      have hdge : ∀ d ∈ m.ds, n0 ≤ d.1 := fun d hd => (hok.rng d hd).1
      rw [zipWith_ren n0 al m.ds a1 hok.nd hdge] at a3
      have h1 : sumN E (renD m.ds h) (prodF E (canonFs n0 tbl al m.fs).2) ρ
          = sumN E (m.ds.map fun d => (ren n0 al d.1, d.2)) (prodF E (canonFs n0 tbl al m.fs).2) ρ :=
        sumN_perm E a3 nd _ _
      have nd' : ((m.ds.map fun d => (ren n0 al d.1, d.2)).map Prod.fst).Nodup :=
        (a3.map Prod.fst).nodup_iff.1 nd
      have h2 : sumN E m.ds (fun η => sgn K (canonFs n0 tbl al m.fs).1 * prodF E m.fs η) ρ
          = sumN E (m.ds.map fun d => (ren n0 al d.1, d.2)) (prodF E (canonFs n0 tbl al m.fs).2) ρ := by
        refine sumN_ren E (ren n0 al) (fun x => ∃ f ∈ m.fs, x ∈ f.2) _ _ ?_ m.ds ?_ ρ ρ ?_
        · intro ρ' η hη
          have c := canonFs_sound E n0 tbl hs al m.fs η
          have d := dep_prodF E m.fs ρ' (fun x => η (ren n0 al x)) hη
          rw [d, ← c]
          have := sgn_sq (K := K) (canonFs n0 tbl al m.fs).1
          linear_combination (prodF E (canonFs n0 tbl al m.fs).2 η) * this
        · rintro d hd x ⟨f, hf, hx⟩ he
          rcases hok.lab f hf x hx with hx | hx
          · exfalso
            have hx := (upto_mem _ _).1 hx
            have : ren n0 al x = x := ren_lt al hx
            have h3 : (ren n0 al d.1, d.2) ∈ renD m.ds h := a3.mem_iff.2 (List.mem_map.2 ⟨d, hd, rfl⟩)
            have := hge _ h3
            simp only at this
            omega
          · obtain ⟨d', hd', rfl⟩ := List.mem_map.1 hx
            rw [List.map_map] at nd'
            have key : ∀ a ∈ m.ds, ∀ b ∈ m.ds, ren n0 al a.1 = ren n0 al b.1 → a = b := by
              have := List.inj_on_of_nodup_map nd'
              intro a ha b hb hab
              exact this ha hb hab
            rw [key d' hd' d hd he]
        · rintro x ⟨f, hf, hx⟩
          rcases hok.lab f hf x hx with hx | hx
          · right
            have hx := (upto_mem _ _).1 hx
            rw [ren_lt al hx]
          · exact .inl hx
      simp only [Mono.eval]
      rw [h1, ← h2, sumN_mul]
      have hpow : ((2 ^ (e - m.e) : Nat) : K) * (1 / 2) ^ e = (1 / 2) ^ m.e := by
        have h2 : (2 : K) ≠ 0 := NeZero.ne _
        have : e = (e - m.e) + m.e := by omega
        conv_lhs => rw [this]
        rw [Nat.add_sub_cancel, pow_add]
        push_cast
        rw [← mul_assoc, ← mul_pow]
        simp [h2]
      cases hb : (canonFs n0 tbl al m.fs).1 with
      | false =>
        simp only [cond_false, sgn]
        push_cast at hpow ⊢
        linear_combination (m.n * sumN E m.ds (prodF E m.fs) ρ : K) * hpow
      | true =>
        simp only [cond_true, sgn]
        push_cast at hpow ⊢
        linear_combination (m.n * sumN E m.ds (prodF E m.fs) ρ : K) * hpow

theorem canonL_sound [NeZero (2 : K)] (E : Env K X) (n0 e) (tbl) (hs : SymOK E tbl) (ms : List Mono) (hi)
    (hok : ∀ m ∈ ms, m.Ok (upto n0) n0 hi)
    (h : List (List Nat)) (ks : List Mono) (hk : canonL n0 e tbl ms h = some ks) (ρ : Nat → X) :
    evalL E ks ρ = evalL E ms ρ := by
  induction ms generalizing h ks with
  | nil => simp only [canonL, Option.some.injEq] at hk; subst hk; rfl
  | cons m ms ih =>
    cases h with
    | nil => simp [canonL] at hk
    | cons x h =>
      simp only [canonL] at hk
      cases h1 : canonM n0 e tbl m x with
      | none => simp [h1] at hk
      | some k =>
        simp only [h1] at hk
        cases h2 : canonL n0 e tbl ms h with
        | none => simp [h2] at hk
        | some l =>
          simp only [h2, Option.some.injEq] at hk
          subst hk
          simp only [evalL]
          rw [canonM_sound E n0 e tbl hs m hi (hok m (by simp)) x k h1,
            ih (fun j hj => hok j (List.mem_cons_of_mem _ hj)) h l h2]

def evalK (E : Env K X) : List (Nat × Mono) → (Nat → X) → K
  | [], _ => 0
  | m :: ms, ρ => m.2.eval E ρ + evalK E ms ρ

theorem evalK_append (E : Env K X) (a b) (ρ : Nat → X) : evalK E (a ++ b) ρ = evalK E a ρ + evalK E b ρ := by
  induction a with
  | nil => simp [evalK]
  | cons x a ih => simp only [List.cons_append, evalK, ih]; ring

theorem evalK_addKeys (E : Env K X) (ms) (ρ : Nat → X) : evalK E (addKeys ms) ρ = evalL E ms ρ := by
  induction ms with
  | nil => rfl
  | cons m ms ih => simp only [addKeys, evalK, evalL, ih]

theorem evalK_merge (E : Env K X) (n a b) (ρ : Nat → X) :
    evalK E (merge n a b) ρ = evalK E a ρ + evalK E b ρ := by
  induction n generalizing a b with
  | zero => simp [merge, evalK_append]
  | succ n ih =>
    cases a with
    | nil => simp [merge, evalK]
    | cons x a => cases b with
      | nil => simp [merge, evalK]
      | cons y b =>
        simp only [merge]
        cases Nat.ble x.1 y.1 with
        | true => simp only [cond_true, evalK, ih]; ring
        | false => simp only [cond_false, evalK, ih]; ring

theorem evalK_split2 (E : Env K X) (l) (ρ : Nat → X) :
    evalK E (split2 l).1 ρ + evalK E (split2 l).2 ρ = evalK E l ρ := by
  induction l using split2.induct with
  | case1 => simp [split2, evalK]
  | case2 x => simp [split2, evalK]
  | case3 x y l a b _ ih =>
    simp only [split2, evalK]
    rw [← ih]; ring

theorem evalK_msort (E : Env K X) (n l) (ρ : Nat → X) : evalK E (msort n l) ρ = evalK E l ρ := by
  induction n generalizing l with
  | zero => rfl
  | succ n ih =>
    match l with
    | [] => rfl
    | [x] => rfl
    | x :: y :: l =>
      simp only [msort, evalK_merge, ih, evalK]
      rw [← evalK_split2 E l]; ring

theorem beqNL_eq (a b) (h : beqNL a b = true) : a = b := by
  induction a generalizing b with
  | nil => cases b with
    | nil => rfl
    | cons => simp [beqNL] at h
  | cons x a ih => cases b with
    | nil => simp [beqNL] at h
    | cons y b =>
      simp only [beqNL, Bool.and_eq_true] at h
      rw [Nat.eq_of_beq_eq_true h.1, ih b h.2]

theorem beqFs_eq (a b) (h : beqFs a b = true) : a = b := by
  induction a generalizing b with
  | nil => cases b with
    | nil => rfl
    | cons => simp [beqFs] at h
  | cons x a ih => cases b with
    | nil => simp [beqFs] at h
    | cons y b =>
      simp only [beqFs, Bool.and_eq_true] at h
      rw [ih b h.2.2, Prod.ext (Nat.eq_of_beq_eq_true h.1) (beqNL_eq _ _ h.2.1)]

theorem beqDs_eq (a b) (h : beqDs a b = true) : a = b := by
  induction a generalizing b with
  | nil => cases b with
    | nil => rfl
    | cons => simp [beqDs] at h
  | cons x a ih => cases b with
    | nil => simp [beqDs] at h
    | cons y b =>
      simp only [beqDs, Bool.and_eq_true] at h
      rw [ih b h.2.2, Prod.ext (Nat.eq_of_beq_eq_true h.1) (Nat.eq_of_beq_eq_true h.2.1)]

theorem cancel_sound (E : Env K X) (l : List (Nat × Mono)) (acc k) (m : Mono) (h : cancel acc k m l = true)
    (ρ : Nat → X) : Mono.eval E ⟨acc, m.e, m.ds, m.fs⟩ ρ + evalK E l ρ = 0 := by
  induction l generalizing acc k m with
  | nil =>
    simp only [cancel, beq_iff_eq] at h
    simp [Mono.eval, h, evalK]
  | cons x l ih =>
    obtain ⟨k', m'⟩ := x
    simp only [cancel] at h
    cases hb : Nat.beq k k' with
    | true =>
      simp only [hb, cond_true, Bool.and_eq_true] at h
      obtain ⟨hf, hd, he, hc⟩ := h
      have hf := beqFs_eq _ _ hf
      have hd := beqDs_eq _ _ hd
      have he := Nat.eq_of_beq_eq_true he
      have := ih _ _ _ hc
      simp only [evalK]
      rw [← this]
      simp only [Mono.eval, ← hf, ← hd, ← he]
      push_cast
      ring
    | false =>
      simp only [hb, cond_false, Bool.and_eq_true, beq_iff_eq] at h
      obtain ⟨h0, hc⟩ := h
      have := ih _ _ _ hc
      simp only [evalK]
      rw [this]
      simp [Mono.eval, h0]

theorem allCancel_sound (E : Env K X) (l : List (Nat × Mono)) (h : allCancel l = true) (ρ : Nat → X) :
    evalK E l ρ = 0 := by
  cases l with
  | nil => rfl
  | cons x l =>
    obtain ⟨k, m⟩ := x
    exact cancel_sound E l _ _ _ h ρ

/-- **Soundness of the checker.** -/
theorem check_sound [NeZero (2 : K)] (E : Env K X) (n0 e) (tbl) (hs : SymOK E tbl) (t : TE) (hints)
    (h : check n0 e tbl t hints = true) (ρ : Nat → X) : t.eval E ρ = 0 := by
  simp only [check] at h
  cases hw : wf (upto n0) n0 t with
  | none => simp [hw] at h
  | some hi =>
    simp only [hw] at h
    cases hc : canonL n0 e tbl (expand t) hints with
    | none => simp [hc] at h
    | some ms =>
      simp only [hc] at h
      have h1 := allCancel_sound E _ h ρ
      rw [evalK_msort, evalK_addKeys] at h1
      rw [expand_sound E t _ _ _ hw (fun x hx => (upto_mem _ _).1 hx),
        ← canonL_sound E n0 e tbl hs _ hi (expand_ok t _ _ _ hw).2 hints ms hc, h1]

theorem check_eq [NeZero (2 : K)] (E : Env K X) (n0 e) (tbl) (hs : SymOK E tbl) (a b : TE) (hints)
    (h : check n0 e tbl (.sub a b) hints = true) (ρ : Nat → X) : a.eval E ρ = b.eval E ρ :=
  sub_eq_zero.1 (check_sound E n0 e tbl hs _ hints h ρ)

end
end Verif.Tensor
