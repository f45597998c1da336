import Verif.Tensor.Split
import Verif.Tensor.Deriv
/-!
# The checker written with recursors

The functions of `Expr`, `Canon`, `Split` and `Deriv` again, with recursors instead of pattern matching: the kernel evaluates them in fewer steps.
Each is proved equal to the original.
-/
namespace Verif.Tensor.Fast
noncomputable section

abbrev sel {α : Type} (b : Bool) (t e : α) : α := Bool.rec (motive := fun _ => α) e t b

theorem sel_eq {α : Type} (b : Bool) (t e : α) : sel b t e = cond b t e := by cases b <;> rfl

def app {α : Type} (a b : List α) : List α := List.rec (motive := fun _ => List α) b (fun x _ r => x :: r) a

theorem app_eq {α : Type} (a b : List α) : app a b = a ++ b := by
  induction a with
  | nil => rfl
  | cons x a ih => exact congrArg (x :: ·) ih

def memB (x : Nat) (l : List Nat) : Bool :=
  List.rec (motive := fun _ => Bool) false (fun y _ r => Bool.rec (motive := fun _ => Bool) r true (Nat.beq x y)) l

theorem memB_eq (x : Nat) (l : List Nat) : memB x l = Tensor.memB x l := by
  induction l with
  | nil => rfl
  | cons y l ih =>
    show Bool.rec (motive := fun _ => Bool) (memB x l) true (Nat.beq x y) = (Nat.beq x y || Tensor.memB x l)
    rw [ih]; cases Nat.beq x y <;> rfl

def allMem (xs l : List Nat) : Bool :=
  List.rec (motive := fun _ => Bool) true (fun x _ r => Bool.rec (motive := fun _ => Bool) false r (memB x l)) xs

theorem allMem_eq (xs l : List Nat) : allMem xs l = Tensor.allMem xs l := by
  induction xs with
  | nil => rfl
  | cons x xs ih =>
    show Bool.rec (motive := fun _ => Bool) false (allMem xs l) (memB x l) = (Tensor.memB x l && Tensor.allMem xs l)
    rw [ih, memB_eq]; cases Tensor.memB x l <;> rfl

abbrev bnd (o : Option Nat) (f : Nat → Option Nat) : Option Nat := Option.rec (motive := fun _ => Option Nat) none f o

def wf (t : TE) : List Nat → Nat → Option Nat :=
  TE.rec (motive := fun _ => List Nat → Nat → Option Nat) (fun _ _ lo => some lo)
    (fun _ ls sc lo => Bool.rec (motive := fun _ => Option Nat) none (some lo) (allMem ls sc))
    (fun _ _ ra rb sc lo => Option.rec (motive := fun _ => Option Nat) none (fun m => rb sc m) (ra sc lo))
    (fun _ _ ra rb sc lo => Option.rec (motive := fun _ => Option Nat) none (fun m => rb sc m) (ra sc lo))
    (fun _ r sc lo => r sc lo)
    (fun _ _ ra rb sc lo => Option.rec (motive := fun _ => Option Nat) none (fun m => rb sc m) (ra sc lo))
    (fun x _ _ r sc lo => Bool.rec (motive := fun _ => Option Nat) none (r (lo :: sc) (Nat.succ lo)) (Nat.beq x lo)) t

theorem wf_eq (t : TE) : ∀ sc lo, wf t sc lo = Tensor.wf sc lo t := by
  have two : ∀ (sc lo) (a b : TE), (∀ sc lo, wf a sc lo = Tensor.wf sc lo a) → (∀ sc lo, wf b sc lo = Tensor.wf sc lo b) →
      Option.rec (motive := fun _ => Option Nat) none (fun m => wf b sc m) (wf a sc lo)
        = match Tensor.wf sc lo a with | none => none | some m => Tensor.wf sc m b := fun sc lo a b ha hb => by
    rw [ha]; cases Tensor.wf sc lo a with
    | none => rfl
    | some m => exact hb sc m
  induction t with
  | cst => intros; rfl
  | fac t ls =>
    intro sc lo
    show Bool.rec (motive := fun _ => Option Nat) none (some lo) (allMem ls sc) = bif Tensor.allMem ls sc then some lo else none
    rw [allMem_eq]; cases Tensor.allMem ls sc <;> rfl
  | add a b ha hb => exact fun sc lo => two sc lo a b ha hb
  | sub a b ha hb => exact fun sc lo => two sc lo a b ha hb
  | neg a ha => exact ha
  | mul a b ha hb => exact fun sc lo => two sc lo a b ha hb
  | sum x s b hb =>
    intro sc lo
    show Bool.rec (motive := fun _ => Option Nat) none (wf b (lo :: sc) (Nat.succ lo)) (Nat.beq x lo)
      = bif Nat.beq x lo then Tensor.wf (lo :: sc) (lo + 1) b else none
    rw [hb]; cases Nat.beq x lo <;> rfl

def negL (ms : List Mono) : List Mono :=
  List.rec (motive := fun _ => List Mono) [] (fun m _ r => ⟨Int.neg m.n, m.e, m.ds, m.fs⟩ :: r) ms
theorem negL_eq (ms) : negL ms = Tensor.negL ms := by
  induction ms with
  | nil => rfl
  | cons m ms ih => exact congrArg (Mono.neg m :: ·) ih

def mulM (m : Mono) (ks : List Mono) : List Mono :=
  List.rec (motive := fun _ => List Mono) [] (fun k _ r => ⟨Int.mul m.n k.n, Nat.add m.e k.e, app m.ds k.ds, app m.fs k.fs⟩ :: r) ks
theorem mulM_eq (m ks) : mulM m ks = Tensor.mulM m ks := by
  induction ks with
  | nil => rfl
  | cons k ks ih =>
    show (⟨Int.mul m.n k.n, Nat.add m.e k.e, app m.ds k.ds, app m.fs k.fs⟩ : Mono) :: mulM m ks = m.mul k :: Tensor.mulM m ks
    rw [ih, app_eq, app_eq]; rfl

def mulL (ms ks : List Mono) : List Mono :=
  List.rec (motive := fun _ => List Mono) [] (fun m _ r => app (mulM m ks) r) ms
theorem mulL_eq (ms ks) : mulL ms ks = Tensor.mulL ms ks := by
  induction ms with
  | nil => rfl
  | cons m ms ih =>
    show app (mulM m ks) (mulL ms ks) = Tensor.mulM m ks ++ Tensor.mulL ms ks
    rw [ih, app_eq, mulM_eq]

def bindL (x s : Nat) (ms : List Mono) : List Mono :=
  List.rec (motive := fun _ => List Mono) [] (fun m _ r => ⟨m.n, m.e, (x, s) :: m.ds, m.fs⟩ :: r) ms
theorem bindL_eq (x s ms) : bindL x s ms = Tensor.bindL x s ms := by
  induction ms with
  | nil => rfl
  | cons m ms ih => exact congrArg (Mono.bind x s m :: ·) ih

def expand (t : TE) : List Mono :=
  TE.rec (motive := fun _ => List Mono) (fun c => c.monos) (fun t ls => [⟨1, 0, [], [(t, ls)]⟩])
    (fun _ _ a b => app a b) (fun _ _ a b => app a (negL b)) (fun _ a => negL a) (fun _ _ a b => mulL a b)
    (fun x s _ b => bindL x s b) t
theorem expand_eq (t) : expand t = Tensor.expand t := by
  induction t with
  | cst => rfl
  | fac => rfl
  | add a b ha hb => show app (expand a) (expand b) = Tensor.expand a ++ Tensor.expand b; rw [ha, hb, app_eq]
  | sub a b ha hb => show app (expand a) (negL (expand b)) = Tensor.expand a ++ Tensor.negL (Tensor.expand b); rw [ha, hb, app_eq, negL_eq]
  | neg a ha => show negL (expand a) = Tensor.negL (Tensor.expand a); rw [ha, negL_eq]
  | mul a b ha hb => show mulL (expand a) (expand b) = Tensor.mulL (Tensor.expand a) (Tensor.expand b); rw [ha, hb, mulL_eq]
  | sum x s b hb => show bindL x s (expand b) = Tensor.bindL x s (Tensor.expand b); rw [hb, bindL_eq]

def nth {α : Type} (l : List α) : Nat → Option α :=
  List.rec (motive := fun _ => Nat → Option α) (fun _ => none) (fun x _ r i => Nat.rec (motive := fun _ => Option α) (some x) (fun n _ => r n) i) l
theorem nth_eq {α : Type} (l : List α) : ∀ i, nth l i = Tensor.nth l i := by
  induction l with
  | nil => intro i; cases i <;> rfl
  | cons x l ih =>
    intro i
    cases i with
    | zero => rfl
    | succ i => exact ih i

def permute {α : Type} (p : List Nat) (l : List α) : List α :=
  List.rec (motive := fun _ => List α) [] (fun i _ r => Option.rec (motive := fun _ => List α) r (fun x => x :: r) (nth l i)) p
theorem permute_eq {α : Type} (p) (l : List α) : permute p l = Tensor.permute p l := by
  induction p with
  | nil => rfl
  | cons i p ih =>
    show Option.rec (motive := fun _ => List α) (permute p l) (fun x => x :: permute p l) (nth l i) = _
    rw [ih, nth_eq]
    simp only [Tensor.permute]
    cases Tensor.nth l i <;> rfl

def lexLt (a : List Nat) : List Nat → Bool :=
  List.rec (motive := fun _ => List Nat → Bool)
    (fun b => List.rec (motive := fun _ => Bool) false (fun _ _ _ => true) b)
    (fun x _ r b => List.rec (motive := fun _ => Bool) false (fun y ys _ => Bool.rec (motive := fun _ => Bool)
      (Bool.rec (motive := fun _ => Bool) false (r ys) (Nat.beq x y)) true (Nat.blt x y)) b) a
theorem lexLt_eq (a) : ∀ b, lexLt a b = Tensor.lexLt a b := by
  induction a with
  | nil => intro b; cases b <;> rfl
  | cons x a ih =>
    intro b
    cases b with
    | nil => rfl
    | cons y b =>
      show Bool.rec (motive := fun _ => Bool) (Bool.rec (motive := fun _ => Bool) false (lexLt a b) (Nat.beq x y)) true (Nat.blt x y)
        = bif Nat.blt x y then true else bif Nat.beq x y then Tensor.lexLt a b else false
      rw [ih]; cases Nat.blt x y <;> cases Nat.beq x y <;> rfl

def getSyms (l : List (List Sym)) : Nat → List Sym :=
  List.rec (motive := fun _ => Nat → List Sym) (fun _ => []) (fun x _ r i => Nat.rec (motive := fun _ => List Sym) x (fun n _ => r n) i) l
theorem getSyms_eq (l) : ∀ i, getSyms l i = Tensor.getSyms l i := by
  induction l with
  | nil => intro i; cases i <;> rfl
  | cons x l ih =>
    intro i
    cases i with
    | zero => rfl
    | succ i => exact ih i

def sameLen {α β : Type} (a : List α) : List β → Bool :=
  List.rec (motive := fun _ => List β → Bool) (fun b => List.rec (motive := fun _ => Bool) true (fun _ _ _ => false) b)
    (fun _ _ r b => List.rec (motive := fun _ => Bool) false (fun _ b' _ => r b') b) a
theorem sameLen_eq {α β : Type} (a : List α) : ∀ b : List β, sameLen a b = Tensor.sameLen a b := by
  induction a with
  | nil => intro b; cases b <;> rfl
  | cons x a ih =>
    intro b
    cases b with
    | nil => rfl
    | cons y b => exact ih b

def improve (ss : List Sym) : Bool → List Nat → Bool × List Nat :=
  List.rec (motive := fun _ => Bool → List Nat → Bool × List Nat) (fun b ls => (b, ls))
    (fun s _ r b ls => Bool.rec (motive := fun _ => Bool × List Nat) (r b ls)
      (Bool.rec (motive := fun _ => Bool × List Nat) (r b ls) (r (xor b s.neg) (permute s.perm ls)) (lexLt (permute s.perm ls) ls)) (sameLen s.perm ls)) ss
theorem improve_eq (ss) : ∀ b ls, improve ss b ls = Tensor.improve ss b ls := by
  induction ss with
  | nil => intros; rfl
  | cons s ss ih =>
    intro b ls
    show Bool.rec (motive := fun _ => Bool × List Nat) (improve ss b ls)
      (Bool.rec (motive := fun _ => Bool × List Nat) (improve ss b ls) (improve ss (xor b s.neg) (permute s.perm ls)) (lexLt (permute s.perm ls) ls)) (sameLen s.perm ls)
      = bif Tensor.sameLen s.perm ls && Tensor.lexLt (Tensor.permute s.perm ls) ls then Tensor.improve ss (b ^^ s.neg) (Tensor.permute s.perm ls)
        else Tensor.improve ss b ls
    simp only [ih, permute_eq, lexLt_eq, sameLen_eq]
    cases Tensor.sameLen s.perm ls <;> cases Tensor.lexLt (Tensor.permute s.perm ls) ls <;> rfl

def canonF (ss : List Sym) (ls : List Nat) : Bool × List Nat :=
  List.rec (motive := fun _ => Bool × List Nat) (false, ls)
    (fun _ _ _ => Prod.rec (motive := fun _ => Bool × List Nat) (fun b ls' => improve ss b ls') (improve ss false ls)) ss
theorem canonF_eq (ss ls) : canonF ss ls = Tensor.canonF ss ls := by
  cases ss with
  | nil => rfl
  | cons s ss =>
    show Prod.rec (motive := fun _ => Bool × List Nat) (fun b ls' => improve (s :: ss) b ls') (improve (s :: ss) false ls) = _
    simp only [improve_eq, Tensor.canonF]

def leF (f g : Nat × List Nat) : Bool :=
  Bool.rec (motive := fun _ => Bool) (Bool.rec (motive := fun _ => Bool) false (Bool.rec (motive := fun _ => Bool) true false (lexLt g.2 f.2)) (Nat.beq f.1 g.1))
    true (Nat.blt f.1 g.1)
theorem leF_eq (f g) : leF f g = Tensor.leF f g := by
  unfold leF Tensor.leF
  rw [lexLt_eq]
  cases Nat.blt f.1 g.1 <;> cases Nat.beq f.1 g.1 <;> cases Tensor.lexLt g.2 f.2 <;> rfl

def insF (f : Nat × List Nat) (l : List (Nat × List Nat)) : List (Nat × List Nat) :=
  List.rec (motive := fun _ => List (Nat × List Nat)) [f]
    (fun g gs r => Bool.rec (motive := fun _ => List (Nat × List Nat)) (g :: r) (f :: g :: gs) (leF f g)) l
theorem insF_eq (f l) : insF f l = Tensor.insF f l := by
  induction l with
  | nil => rfl
  | cons g gs ih =>
    show Bool.rec (motive := fun _ => List (Nat × List Nat)) (g :: insF f gs) (f :: g :: gs) (leF f g) = bif Tensor.leF f g then f :: g :: gs else g :: Tensor.insF f gs
    rw [ih, leF_eq]; cases Tensor.leF f g <;> rfl

def insD (d : Nat × Nat) (l : List (Nat × Nat)) : List (Nat × Nat) :=
  List.rec (motive := fun _ => List (Nat × Nat)) [d]
    (fun g gs r => Bool.rec (motive := fun _ => List (Nat × Nat)) (g :: r) (d :: g :: gs) (Nat.ble d.1 g.1)) l
theorem insD_eq (d l) : insD d l = Tensor.insD d l := by
  induction l with
  | nil => rfl
  | cons g gs ih =>
    show Bool.rec (motive := fun _ => List (Nat × Nat)) (g :: insD d gs) (d :: g :: gs) (Nat.ble d.1 g.1) = bif Nat.ble d.1 g.1 then d :: g :: gs else g :: Tensor.insD d gs
    rw [ih]; cases Nat.ble d.1 g.1 <;> rfl

def look (l : List (Nat × Nat)) (x : Nat) : Nat :=
  List.rec (motive := fun _ => Nat) x (fun p _ r => Bool.rec (motive := fun _ => Nat) r p.2 (Nat.beq x p.1)) l
theorem look_eq (l x) : look l x = Tensor.look l x := by
  induction l with
  | nil => rfl
  | cons p l ih =>
    show Bool.rec (motive := fun _ => Nat) (look l x) p.2 (Nat.beq x p.1) = bif Nat.beq x p.1 then p.2 else Tensor.look l x
    rw [ih]; cases Nat.beq x p.1 <;> rfl

def renL (n0 : Nat) (al : List (Nat × Nat)) (xs : List Nat) : List Nat :=
  List.rec (motive := fun _ => List Nat) [] (fun x _ r => Bool.rec (motive := fun _ => Nat) (look al x) x (Nat.blt x n0) :: r) xs
theorem renL_eq (n0 al xs) : renL n0 al xs = Tensor.renL n0 al xs := by
  induction xs with
  | nil => rfl
  | cons x xs ih =>
    show Bool.rec (motive := fun _ => Nat) (look al x) x (Nat.blt x n0) :: renL n0 al xs = (bif Nat.blt x n0 then x else Tensor.look al x) :: Tensor.renL n0 al xs
    rw [ih, look_eq]; cases Nat.blt x n0 <;> rfl

def mkAl (ds : List (Nat × Nat)) : List Nat → Option (List (Nat × Nat)) :=
  List.rec (motive := fun _ => List Nat → Option (List (Nat × Nat)))
    (fun hs => List.rec (motive := fun _ => Option (List (Nat × Nat))) (some []) (fun _ _ _ => none) hs)
    (fun d _ r hs => List.rec (motive := fun _ => Option (List (Nat × Nat))) none
      (fun h hs' _ => Option.rec (motive := fun _ => Option (List (Nat × Nat))) none (fun l => some ((d.1, h) :: l)) (r hs')) hs) ds
theorem mkAl_eq (ds) : ∀ hs, mkAl ds hs = Tensor.mkAl ds hs := by
  induction ds with
  | nil => intro hs; cases hs <;> rfl
  | cons d ds ih =>
    intro hs
    cases hs with
    | nil => rfl
    | cons h hs =>
      show Option.rec (motive := fun _ => Option (List (Nat × Nat))) none (fun l => some ((d.1, h) :: l)) (mkAl ds hs) = _
      rw [ih]
      simp only [Tensor.mkAl]
      cases Tensor.mkAl ds hs <;> rfl

def renD (ds : List (Nat × Nat)) : List Nat → List (Nat × Nat) :=
  List.rec (motive := fun _ => List Nat → List (Nat × Nat)) (fun _ => [])
    (fun d _ r hs => List.rec (motive := fun _ => List (Nat × Nat)) [] (fun h hs' _ => insD (h, d.2) (r hs')) hs) ds
theorem renD_eq (ds) : ∀ hs, renD ds hs = Tensor.renD ds hs := by
  induction ds with
  | nil => intro hs; cases hs <;> rfl
  | cons d ds ih =>
    intro hs
    cases hs with
    | nil => rfl
    | cons h hs =>
      show insD (h, d.2) (renD ds hs) = Tensor.insD (h, d.2) (Tensor.renD ds hs)
      rw [ih, insD_eq]

def incr (ds : List (Nat × Nat)) : Nat → Bool :=
  List.rec (motive := fun _ => Nat → Bool) (fun _ => true) (fun d _ r lo => Bool.rec (motive := fun _ => Bool) false (r (Nat.succ d.1)) (Nat.ble lo d.1)) ds
theorem incr_eq (ds) : ∀ lo, incr ds lo = Tensor.incr lo ds := by
  induction ds with
  | nil => intros; rfl
  | cons d ds ih =>
    intro lo
    show Bool.rec (motive := fun _ => Bool) false (incr ds (Nat.succ d.1)) (Nat.ble lo d.1) = (Nat.ble lo d.1 && Tensor.incr (d.1 + 1) ds)
    rw [ih]; cases Nat.ble lo d.1 <;> rfl

def canonFs (n0 : Nat) (tbl : List (List Sym)) (al : List (Nat × Nat)) (fs : List (Nat × List Nat)) : Bool × List (Nat × List Nat) :=
  List.rec (motive := fun _ => Bool × List (Nat × List Nat)) (false, [])
    (fun f _ r => Prod.rec (motive := fun _ => Bool × List (Nat × List Nat))
      (fun b ls => Prod.rec (motive := fun _ => Bool × List (Nat × List Nat)) (fun b' fs' => (xor b b', insF (f.1, ls) fs')) r)
      (canonF (getSyms tbl f.1) (renL n0 al f.2))) fs
theorem canonFs_eq (n0 tbl al fs) : canonFs n0 tbl al fs = Tensor.canonFs n0 tbl al fs := by
  induction fs with
  | nil => rfl
  | cons f fs ih =>
    show Prod.rec (motive := fun _ => Bool × List (Nat × List Nat))
      (fun b ls => Prod.rec (motive := fun _ => Bool × List (Nat × List Nat)) (fun b' fs' => (xor b b', insF (f.1, ls) fs')) (canonFs n0 tbl al fs))
      (canonF (getSyms tbl f.1) (renL n0 al f.2)) = _
    simp only [ih, canonF_eq, getSyms_eq, renL_eq, insF_eq, Tensor.canonFs]

def canonM (n0 E : Nat) (tbl : List (List Sym)) (m : Mono) (h : List Nat) : Option Mono :=
  Option.rec (motive := fun _ => Option Mono) none
    (fun al => Bool.rec (motive := fun _ => Option Mono) none
      (Bool.rec (motive := fun _ => Option Mono) none
        (Prod.rec (motive := fun _ => Option Mono)
          (fun b fs => some ⟨Int.mul (Bool.rec (motive := fun _ => Int) m.n (Int.neg m.n) b) (Int.ofNat (Nat.pow 2 (Nat.sub E m.e))), E, renD m.ds h, fs⟩)
          (canonFs n0 tbl al m.fs))
        (Nat.ble m.e E))
      (incr (renD m.ds h) n0)) (mkAl m.ds h)
theorem canonM_eq (n0 E tbl m h) : canonM n0 E tbl m h = Tensor.canonM n0 E tbl m h := by
  unfold canonM Tensor.canonM
  simp only [mkAl_eq, incr_eq, renD_eq, canonFs_eq]
  cases Tensor.mkAl m.ds h with
  | none => rfl
  | some al =>
    show Bool.rec (motive := fun _ => Option Mono) none (Bool.rec (motive := fun _ => Option Mono) none _ (Nat.ble m.e E)) (Tensor.incr n0 (Tensor.renD m.ds h)) = _
    cases Tensor.incr n0 (Tensor.renD m.ds h) with
    | false => rfl
    | true =>
      cases Nat.ble m.e E with
      | false => rfl
      | true =>
        simp only [Bool.and_self, cond_true]
        generalize Tensor.canonFs n0 tbl al m.fs = p
        obtain ⟨b, fs⟩ := p
        cases b <;> rfl

/-- `a` reversed, in front of `b` -/
def revA {α : Type} (a : List α) : List α → List α :=
  List.rec (motive := fun _ => List α → List α) (fun b => b) (fun x _ r b => r (x :: b)) a
theorem revA_cons {α : Type} (x : α) (a b : List α) : revA (x :: a) b = revA a (x :: b) := rfl

/-- A step of `canonA`, a constant of its own: the kernel unfolds it before the next step, so
that its stack does not grow with the list. -/
def canonStep (n0 E : Nat) (tbl : List (List Sym)) (m : Mono) (r : List (List Nat) → List Mono → Option (List Mono)) (hs : List (List Nat))
    (acc : List Mono) : Option (List Mono) :=
  List.rec (motive := fun _ => Option (List Mono)) none
    (fun h hs' _ => Option.rec (motive := fun _ => Option (List Mono)) none (fun k => r hs' (k :: acc)) (canonM n0 E tbl m h)) hs
def canonA (n0 E : Nat) (tbl : List (List Sym)) (ms : List Mono) : List (List Nat) → List Mono → Option (List Mono) :=
  List.rec (motive := fun _ => List (List Nat) → List Mono → Option (List Mono)) (fun _ acc => some (revA acc []))
    (fun m _ r hs acc => canonStep n0 E tbl m r hs acc) ms
theorem canonA_eq (n0 E tbl ms) : ∀ hs acc, canonA n0 E tbl ms hs acc = (Tensor.canonL n0 E tbl ms hs).map (revA acc) := by
  induction ms with
  | nil => intro hs acc; cases hs <;> rfl
  | cons m ms ih =>
    intro hs acc
    cases hs with
    | nil => rfl
    | cons h hs =>
      show Option.rec (motive := fun _ => Option (List Mono)) none
        (fun k => canonA n0 E tbl ms hs (k :: acc)) (canonM n0 E tbl m h) = _
      simp only [ih, canonM_eq, Tensor.canonL]
      cases Tensor.canonM n0 E tbl m h with
      | none => rfl
      | some k => cases Tensor.canonL n0 E tbl ms hs <;> rfl

def canonL (n0 E : Nat) (tbl : List (List Sym)) (ms : List Mono) (hs : List (List Nat)) : Option (List Mono) := canonA n0 E tbl ms hs []
theorem canonL_eq (n0 E tbl ms) (hs) : canonL n0 E tbl ms hs = Tensor.canonL n0 E tbl ms hs := by
  unfold canonL
  rw [canonA_eq]
  cases Tensor.canonL n0 E tbl ms hs <;> rfl

def keyL (xs : List Nat) : Nat → Nat :=
  List.rec (motive := fun _ => Nat → Nat) (fun k => k) (fun x _ r k => r (Nat.add (Nat.mul k 64) x)) xs
theorem keyL_eq (xs) : ∀ k, keyL xs k = Tensor.keyL k xs := by
  induction xs with
  | nil => intros; rfl
  | cons x xs ih => exact fun k => ih _

def keyF (fs : List (Nat × List Nat)) : Nat → Nat :=
  List.rec (motive := fun _ => Nat → Nat) (fun k => k) (fun f _ r k => r (keyL f.2 (Nat.add (Nat.mul k 64) f.1))) fs
theorem keyF_eq (fs) : ∀ k, keyF fs k = Tensor.keyF k fs := by
  induction fs with
  | nil => intros; rfl
  | cons f fs ih =>
    intro k
    show keyF fs (keyL f.2 (Nat.add (Nat.mul k 64) f.1)) = _
    rw [ih, keyL_eq]; rfl

abbrev KL := List (Nat × Mono)

def merge (n : Nat) : KL → KL → KL :=
  Nat.rec (motive := fun _ => KL → KL → KL) (fun a b => app a b)
    (fun _ r a b => List.rec (motive := fun _ => KL) b
      (fun x a' _ => List.rec (motive := fun _ => KL) (x :: a')
        (fun y b' _ => Bool.rec (motive := fun _ => KL) (y :: r (x :: a') b') (x :: r a' (y :: b')) (Nat.ble x.1 y.1)) b) a) n
theorem merge_eq (n) : ∀ a b, merge n a b = Tensor.merge n a b := by
  induction n with
  | zero => exact fun a b => app_eq a b
  | succ n ih =>
    intro a b
    cases a with
    | nil => cases b <;> rfl
    | cons x a =>
      cases b with
      | nil => rfl
      | cons y b =>
        show Bool.rec (motive := fun _ => KL) (y :: merge n (x :: a) b) (x :: merge n a (y :: b)) (Nat.ble x.1 y.1)
          = bif Nat.ble x.1 y.1 then x :: Tensor.merge n a (y :: b) else y :: Tensor.merge n (x :: a) b
        rw [ih, ih]; cases Nat.ble x.1 y.1 <;> rfl

/-- A step of `halvesA`, a constant of its own for the same reason. -/
def halvesStep (x : Nat × Mono) (r : Bool → KL → KL → KL × KL) (p : Bool) (a b : KL) : KL × KL :=
  Bool.rec (motive := fun _ => KL × KL) (r true (x :: a) b) (r false a (x :: b)) p
def halvesA (l : KL) : Bool → KL → KL → KL × KL :=
  List.rec (motive := fun _ => Bool → KL → KL → KL × KL) (fun _ a b => (revA a [], revA b [])) (fun x _ r p a b => halvesStep x r p a b) l
/-- even and odd positions -/
def halves (l : KL) : KL × KL := halvesA l false [] []
theorem split2_cons (x : Nat × Mono) (l : KL) : Tensor.split2 (x :: l) = (x :: (Tensor.split2 l).2, (Tensor.split2 l).1) := by
  induction l using Tensor.split2.induct generalizing x with
  | case1 => rfl
  | case2 y => rfl
  | case3 y z l a b h ih =>
    have h1 := ih z
    rw [h] at h1
    rw [Tensor.split2, h1, Tensor.split2, h]
theorem halvesA_eq (l : KL) : ∀ a b, halvesA l false a b = (revA a (Tensor.split2 l).1, revA b (Tensor.split2 l).2) ∧
    halvesA l true a b = (revA a (Tensor.split2 l).2, revA b (Tensor.split2 l).1) := by
  induction l with
  | nil => exact fun a b => ⟨rfl, rfl⟩
  | cons x l ih =>
    intro a b
    rw [split2_cons]
    exact ⟨(ih (x :: a) b).2, (ih a (x :: b)).1⟩
theorem halves_eq (l : KL) : halves l = Tensor.split2 l := (halvesA_eq l [] []).1

def msort (n : Nat) : KL → KL :=
  Nat.rec (motive := fun _ => KL → KL) (fun l => l)
    (fun _ r l => List.rec (motive := fun _ => KL) []
      (fun x t _ => List.rec (motive := fun _ => KL) [x]
        (fun y t' _ => Prod.rec (motive := fun _ => KL) (fun a b => merge 100000 (r (x :: a)) (r (y :: b))) (halves t')) t) l) n
theorem msort_eq (n) : ∀ l, msort n l = Tensor.msort n l := by
  induction n with
  | zero => intro l; rfl
  | succ n ih =>
    intro l
    match l with
    | [] => rfl
    | [x] => rfl
    | x :: y :: t =>
      show Prod.rec (motive := fun _ => KL) (fun a b => merge 100000 (msort n (x :: a)) (msort n (y :: b))) (halves t) = _
      simp only [ih, merge_eq, halves_eq, Tensor.msort]

def addKeys (ms : List Mono) : KL := List.rec (motive := fun _ => KL) [] (fun m _ r => (keyF m.fs 1, m) :: r) ms
theorem addKeys_eq (ms) : addKeys ms = Tensor.addKeys ms := by
  induction ms with
  | nil => rfl
  | cons m ms ih =>
    show (keyF m.fs 1, m) :: addKeys ms = (Tensor.keyF 1 m.fs, m) :: Tensor.addKeys ms
    rw [ih, keyF_eq]

def beqNL (a : List Nat) : List Nat → Bool :=
  List.rec (motive := fun _ => List Nat → Bool) (fun b => List.rec (motive := fun _ => Bool) true (fun _ _ _ => false) b)
    (fun x _ r b => List.rec (motive := fun _ => Bool) false (fun y b' _ => Bool.rec (motive := fun _ => Bool) false (r b') (Nat.beq x y)) b) a
theorem beqNL_eq (a) : ∀ b, beqNL a b = Tensor.beqNL a b := by
  induction a with
  | nil => intro b; cases b <;> rfl
  | cons x a ih =>
    intro b
    cases b with
    | nil => rfl
    | cons y b =>
      show Bool.rec (motive := fun _ => Bool) false (beqNL a b) (Nat.beq x y) = (Nat.beq x y && Tensor.beqNL a b)
      rw [ih]; cases Nat.beq x y <;> rfl

def beqFs (a : List (Nat × List Nat)) : List (Nat × List Nat) → Bool :=
  List.rec (motive := fun _ => List (Nat × List Nat) → Bool) (fun b => List.rec (motive := fun _ => Bool) true (fun _ _ _ => false) b)
    (fun x _ r b => List.rec (motive := fun _ => Bool) false
      (fun y b' _ => Bool.rec (motive := fun _ => Bool) false (Bool.rec (motive := fun _ => Bool) false (r b') (beqNL x.2 y.2)) (Nat.beq x.1 y.1)) b) a
theorem beqFs_eq (a) : ∀ b, beqFs a b = Tensor.beqFs a b := by
  induction a with
  | nil => intro b; cases b <;> rfl
  | cons x a ih =>
    intro b
    cases b with
    | nil => rfl
    | cons y b =>
      show Bool.rec (motive := fun _ => Bool) false (Bool.rec (motive := fun _ => Bool) false (beqFs a b) (beqNL x.2 y.2)) (Nat.beq x.1 y.1)
        = (Nat.beq x.1 y.1 && (Tensor.beqNL x.2 y.2 && Tensor.beqFs a b))
      rw [ih, beqNL_eq]; cases Nat.beq x.1 y.1 <;> cases Tensor.beqNL x.2 y.2 <;> rfl

def beqDs (a : List (Nat × Nat)) : List (Nat × Nat) → Bool :=
  List.rec (motive := fun _ => List (Nat × Nat) → Bool) (fun b => List.rec (motive := fun _ => Bool) true (fun _ _ _ => false) b)
    (fun x _ r b => List.rec (motive := fun _ => Bool) false
      (fun y b' _ => Bool.rec (motive := fun _ => Bool) false (Bool.rec (motive := fun _ => Bool) false (r b') (Nat.beq x.2 y.2)) (Nat.beq x.1 y.1)) b) a
theorem beqDs_eq (a) : ∀ b, beqDs a b = Tensor.beqDs a b := by
  induction a with
  | nil => intro b; cases b <;> rfl
  | cons x a ih =>
    intro b
    cases b with
    | nil => rfl
    | cons y b =>
      show Bool.rec (motive := fun _ => Bool) false (Bool.rec (motive := fun _ => Bool) false (beqDs a b) (Nat.beq x.2 y.2)) (Nat.beq x.1 y.1)
        = (Nat.beq x.1 y.1 && (Nat.beq x.2 y.2 && Tensor.beqDs a b))
      rw [ih]; cases Nat.beq x.1 y.1 <;> cases Nat.beq x.2 y.2 <;> rfl

def isZero (z : Int) : Bool := Int.rec (motive := fun _ => Bool) (fun n => Nat.beq n 0) (fun _ => false) z
theorem isZero_eq (z : Int) : isZero z = (z == 0) := by
  cases z with
  | ofNat n => cases n <;> rfl
  | negSucc n => rfl

/-- A step of `cancel`, a constant of its own: the kernel unfolds it before the next step, so
that its stack does not grow with the list. -/
def cancelStep (x : Nat × Mono) (r : Int → Nat → Mono → Bool) (acc : Int) (k : Nat) (m : Mono) : Bool :=
  Bool.rec (motive := fun _ => Bool)
    (Bool.rec (motive := fun _ => Bool) false (r x.2.n x.1 x.2) (isZero acc))
    (Bool.rec (motive := fun _ => Bool) false
      (Bool.rec (motive := fun _ => Bool) false
        (Bool.rec (motive := fun _ => Bool) false (r (Int.add acc x.2.n) k m) (Nat.beq m.e x.2.e))
        (beqDs m.ds x.2.ds))
      (beqFs m.fs x.2.fs))
    (Nat.beq k x.1)

def cancel (l : KL) : Int → Nat → Mono → Bool :=
  List.rec (motive := fun _ => Int → Nat → Mono → Bool) (fun acc _ _ => isZero acc)
    (fun x _ r acc k m => cancelStep x r acc k m) l
theorem cancel_eq (l) : ∀ acc k m, cancel l acc k m = Tensor.cancel acc k m l := by
  induction l with
  | nil => exact fun acc k m => isZero_eq acc
  | cons x l ih =>
    intro acc k m
    obtain ⟨k', m'⟩ := x
    show Bool.rec (motive := fun _ => Bool)
      (Bool.rec (motive := fun _ => Bool) false (cancel l m'.n k' m') (isZero acc))
      (Bool.rec (motive := fun _ => Bool) false
        (Bool.rec (motive := fun _ => Bool) false
          (Bool.rec (motive := fun _ => Bool) false (cancel l (Int.add acc m'.n) k m) (Nat.beq m.e m'.e))
          (beqDs m.ds m'.ds))
        (beqFs m.fs m'.fs))
      (Nat.beq k k')
      = bif Nat.beq k k' then
        (Tensor.beqFs m.fs m'.fs && (Tensor.beqDs m.ds m'.ds && (Nat.beq m.e m'.e && Tensor.cancel (acc + m'.n) k m l)))
        else (acc == 0 && Tensor.cancel m'.n k' m' l)
    have e : Int.add acc m'.n = acc + m'.n := rfl
    rw [ih, ih, isZero_eq, beqDs_eq, beqFs_eq, e]
    cases Nat.beq k k' with
    | false => cases (acc == 0) <;> rfl
    | true =>
      cases Tensor.beqFs m.fs m'.fs <;> cases Tensor.beqDs m.ds m'.ds <;> cases Nat.beq m.e m'.e <;> rfl

def allCancel (l : KL) : Bool := List.rec (motive := fun _ => Bool) true (fun x t _ => cancel t x.2.n x.1 x.2) l
theorem allCancel_eq (l) : allCancel l = Tensor.allCancel l := by
  cases l with
  | nil => rfl
  | cons x l => exact cancel_eq l _ _ _

/-- the end of all checks -/
def fin (o : Option (List Mono)) : Bool := Option.rec (motive := fun _ => Bool) false (fun ms => allCancel (msort 20 (addKeys ms))) o
theorem fin_eq (o) : fin o = match o with | none => false | some ms => Tensor.allCancel (Tensor.msort 20 (Tensor.addKeys ms)) := by
  cases o with
  | none => rfl
  | some ms =>
    show allCancel (msort 20 (addKeys ms)) = _
    rw [allCancel_eq, msort_eq, addKeys_eq]

def check (n0 E : Nat) (tbl : List (List Sym)) (t : TE) (hints : List (List Nat)) : Bool :=
  Option.rec (motive := fun _ => Bool) false (fun _ => fin (canonL n0 E tbl (expand t) hints)) (wf t (upto n0) n0)
theorem check_eq (n0 E tbl t hints) : check n0 E tbl t hints = Tensor.check n0 E tbl t hints := by
  unfold check Tensor.check
  rw [wf_eq, canonL_eq, expand_eq, fin_eq]
  cases Tensor.wf (upto n0) n0 t with
  | none => rfl
  | some hi => cases Tensor.canonL n0 E tbl (Tensor.expand t) hints <;> rfl

/-! ### Splitting -/

abbrev Tab := List (List (List Nat × Res))

def findE (es : List (List Nat × Res)) (p : List Nat) : Option Res :=
  List.rec (motive := fun _ => Option Res) none (fun e _ r => Bool.rec (motive := fun _ => Option Res) r (some e.2) (beqNL e.1 p)) es
theorem findE_eq (es p) : findE es p = Tensor.findE es p := by
  induction es with
  | nil => rfl
  | cons e es ih =>
    show Bool.rec (motive := fun _ => Option Res) (findE es p) (some e.2) (beqNL e.1 p) = bif Tensor.beqNL e.1 p then some e.2 else Tensor.findE es p
    rw [ih, beqNL_eq]; cases Tensor.beqNL e.1 p <;> rfl

def getTab (l : Tab) : Nat → List (List Nat × Res) :=
  List.rec (motive := fun _ => Nat → List (List Nat × Res)) (fun _ => [])
    (fun x _ r i => Nat.rec (motive := fun _ => List (List Nat × Res)) x (fun n _ => r n) i) l
theorem getTab_eq (l) : ∀ i, getTab l i = Tensor.getTab l i := by
  induction l with
  | nil => intro i; cases i <;> rfl
  | cons x l ih =>
    intro i
    cases i with
    | zero => rfl
    | succ i => exact ih i

def lookS (l : List (Nat × Nat)) (x : Nat) : Option Nat :=
  List.rec (motive := fun _ => Option Nat) none (fun p _ r => Bool.rec (motive := fun _ => Option Nat) r (some p.2) (Nat.beq p.1 x)) l
theorem lookS_eq (l x) : lookS l x = Tensor.lookS l x := by
  induction l with
  | nil => rfl
  | cons p l ih =>
    show Bool.rec (motive := fun _ => Option Nat) (lookS l x) (some p.2) (Nat.beq p.1 x) = bif Nat.beq p.1 x then some p.2 else Tensor.lookS l x
    rw [ih]; cases Nat.beq p.1 x <;> rfl

def lookAll (σ : List (Nat × Nat)) (xs : List Nat) : Option (List Nat) :=
  List.rec (motive := fun _ => Option (List Nat)) (some [])
    (fun x _ r => Option.rec (motive := fun _ => Option (List Nat)) none
      (fun s => Option.rec (motive := fun _ => Option (List Nat)) none (fun l => some (s :: l)) r) (lookS σ x)) xs
theorem lookAll_eq (σ xs) : lookAll σ xs = Tensor.lookAll σ xs := by
  induction xs with
  | nil => rfl
  | cons x xs ih =>
    show Option.rec (motive := fun _ => Option (List Nat)) none
      (fun s => Option.rec (motive := fun _ => Option (List Nat)) none (fun l => some (s :: l)) (lookAll σ xs)) (lookS σ x) = _
    rw [ih, lookS_eq]
    simp only [Tensor.lookAll]
    cases Tensor.lookS σ x with
    | none => rfl
    | some s => cases Tensor.lookAll σ xs <;> rfl

abbrev SF := Option (Option (Bool × List (Nat × List Nat)))

def splitF (tab : Tab) (σ : List (Nat × Nat)) (fs : List (Nat × List Nat)) : SF :=
  List.rec (motive := fun _ => SF) (some (some (false, [])))
    (fun f _ r => Option.rec (motive := fun _ => SF) none
      (fun p => Option.rec (motive := fun _ => SF) none
        (fun res => Option.rec (motive := fun _ => SF) (some none)
          (fun v => Option.rec (motive := fun _ => SF) none
            (fun q => Option.rec (motive := fun _ => SF) (some none)
              (fun q => some (some (xor v.1 q.1, (v.2.1, permute v.2.2 f.2) :: q.2))) q) r) res)
        (findE (getTab tab f.1) p)) (lookAll σ f.2)) fs
theorem splitF_eq (tab σ fs) : splitF tab σ fs = Tensor.splitF tab σ fs := by
  induction fs with
  | nil => rfl
  | cons f fs ih =>
    show Option.rec (motive := fun _ => SF) none
      (fun p => Option.rec (motive := fun _ => SF) none
        (fun res => Option.rec (motive := fun _ => SF) (some none)
          (fun v => Option.rec (motive := fun _ => SF) none
            (fun q => Option.rec (motive := fun _ => SF) (some none)
              (fun q => some (some (xor v.1 q.1, (v.2.1, permute v.2.2 f.2) :: q.2))) q) (splitF tab σ fs)) res)
        (findE (getTab tab f.1) p)) (lookAll σ f.2) = _
    simp only [ih, lookAll_eq, getTab_eq, findE_eq, permute_eq, Tensor.splitF]
    cases Tensor.lookAll σ f.2 with
    | none => rfl
    | some p =>
      show Option.rec (motive := fun _ => SF) none _ (Tensor.findE (Tensor.getTab tab f.1) p) = _
      simp only []
      cases Tensor.findE (Tensor.getTab tab f.1) p with
      | none => rfl
      | some res =>
        cases res with
        | none => rfl
        | some v =>
          cases Tensor.splitF tab σ fs with
          | none => rfl
          | some q => cases q <;> rfl

def dead (tab : Tab) (σ : List (Nat × Nat)) (x : Nat) (fs : List (Nat × List Nat)) : Bool :=
  List.rec (motive := fun _ => Bool) false
    (fun f _ r => Bool.rec (motive := fun _ => Bool) r
      (Option.rec (motive := fun _ => Bool) r
        (fun p => Option.rec (motive := fun _ => Bool) r
          (fun res => Option.rec (motive := fun _ => Bool) true (fun _ => r) res) (findE (getTab tab f.1) p)) (lookAll σ f.2))
      (memB x f.2)) fs
theorem dead_eq (tab σ x fs) : dead tab σ x fs = Tensor.dead tab σ x fs := by
  induction fs with
  | nil => rfl
  | cons f fs ih =>
    show Bool.rec (motive := fun _ => Bool) (dead tab σ x fs)
      (Option.rec (motive := fun _ => Bool) (dead tab σ x fs)
        (fun p => Option.rec (motive := fun _ => Bool) (dead tab σ x fs)
          (fun res => Option.rec (motive := fun _ => Bool) true (fun _ => (dead tab σ x fs)) res) (findE (getTab tab f.1) p)) (lookAll σ f.2))
      (memB x f.2) = _
    simp only [ih, lookAll_eq, getTab_eq, findE_eq, memB_eq, Tensor.dead]
    cases Tensor.memB x f.2 with
    | false => rfl
    | true =>
      cases Tensor.lookAll σ f.2 with
      | none => rfl
      | some p =>
        show Option.rec (motive := fun _ => Bool) _ _ (Tensor.findE (Tensor.getTab tab f.1) p) = _
        simp only [cond_true]
        cases Tensor.findE (Tensor.getTab tab f.1) p with
        | none => rfl
        | some res => cases res <;> rfl

abbrev OL := Option (List Mono)

def splitD (tab : Tab) (n : Int) (e : Nat) (fs : List (Nat × List Nat)) (ds : List (Nat × Nat)) : List (Nat × Nat) → OL :=
  List.rec (motive := fun _ => List (Nat × Nat) → OL)
    (fun σ => Option.rec (motive := fun _ => OL) none
      (fun q => Option.rec (motive := fun _ => OL) (some [])
        (fun q => some [⟨Bool.rec (motive := fun _ => Int) n (Int.neg n) q.1, e, [], q.2⟩]) q) (splitF tab σ fs))
    (fun d _ r σ => Option.rec (motive := fun _ => OL) none
      (fun l => Option.rec (motive := fun _ => OL) none (fun k => some (app (bindL d.1 d.2 l) (bindL d.1 (Nat.add d.2 2) k)))
        (Bool.rec (motive := fun _ => OL) (r ((d.1, Nat.add d.2 2) :: σ)) (some []) (dead tab ((d.1, Nat.add d.2 2) :: σ) d.1 fs)))
      (Bool.rec (motive := fun _ => OL) (r ((d.1, d.2) :: σ)) (some []) (dead tab ((d.1, d.2) :: σ) d.1 fs))) ds
theorem splitD_eq (tab n e fs ds) : ∀ σ, splitD tab n e fs ds σ = Tensor.splitD tab n e fs σ ds := by
  induction ds with
  | nil =>
    intro σ
    show Option.rec (motive := fun _ => OL) none
      (fun q => Option.rec (motive := fun _ => OL) (some [])
        (fun q => some [⟨Bool.rec (motive := fun _ => Int) n (Int.neg n) q.1, e, [], q.2⟩]) q) (splitF tab σ fs) = _
    rw [splitF_eq]
    simp only [Tensor.splitD]
    cases Tensor.splitF tab σ fs with
    | none => rfl
    | some q =>
      cases q with
      | none => rfl
      | some q =>
        obtain ⟨b, q⟩ := q
        cases b <;> rfl
  | cons d ds ih =>
    intro σ
    show Option.rec (motive := fun _ => OL) none
      (fun l => Option.rec (motive := fun _ => OL) none (fun k => some (app (bindL d.1 d.2 l) (bindL d.1 (d.2 + 2) k)))
        (Bool.rec (motive := fun _ => OL) (splitD tab n e fs ds ((d.1, d.2 + 2) :: σ)) (some []) (dead tab ((d.1, d.2 + 2) :: σ) d.1 fs)))
      (Bool.rec (motive := fun _ => OL) (splitD tab n e fs ds ((d.1, d.2) :: σ)) (some []) (dead tab ((d.1, d.2) :: σ) d.1 fs)) = _
    have br : ∀ σ', Bool.rec (motive := fun _ => OL) (splitD tab n e fs ds σ') (some []) (dead tab σ' d.1 fs)
        = bif Tensor.dead tab σ' d.1 fs then some [] else Tensor.splitD tab n e fs σ' ds := fun σ' => by
      rw [ih, dead_eq]; cases Tensor.dead tab σ' d.1 fs <;> rfl
    rw [br, br]
    simp only [app_eq, bindL_eq, Tensor.splitD]
    cases (bif Tensor.dead tab ((d.1, d.2) :: σ) d.1 fs then some [] else Tensor.splitD tab n e fs ((d.1, d.2) :: σ) ds) with
    | none => rfl
    | some l =>
      cases (bif Tensor.dead tab ((d.1, d.2 + 2) :: σ) d.1 fs then some [] else Tensor.splitD tab n e fs ((d.1, d.2 + 2) :: σ) ds) <;> rfl

def splitL (tab : Tab) (σ : List (Nat × Nat)) (ms : List Mono) : OL :=
  List.rec (motive := fun _ => OL) (some [])
    (fun m _ r => Option.rec (motive := fun _ => OL) none
      (fun l => Option.rec (motive := fun _ => OL) none (fun k => some (app l k)) r) (splitD tab m.n m.e m.fs m.ds σ)) ms
theorem splitL_eq (tab σ ms) : splitL tab σ ms = Tensor.splitL tab σ ms := by
  induction ms with
  | nil => rfl
  | cons m ms ih =>
    show Option.rec (motive := fun _ => OL) none
      (fun l => Option.rec (motive := fun _ => OL) none (fun k => some (app l k)) (splitL tab σ ms)) (splitD tab m.n m.e m.fs m.ds σ) = _
    simp only [ih, splitD_eq, app_eq, Tensor.splitL]
    cases Tensor.splitD tab m.n m.e m.fs σ m.ds with
    | none => rfl
    | some l => cases Tensor.splitL tab σ ms <;> rfl

def lowD (ds : List (Nat × Nat)) : Bool :=
  List.rec (motive := fun _ => Bool) true (fun d _ r => Bool.rec (motive := fun _ => Bool) false r (Nat.blt d.2 2)) ds
theorem lowD_eq (ds) : lowD ds = Tensor.lowD ds := by
  induction ds with
  | nil => rfl
  | cons d ds ih =>
    show Bool.rec (motive := fun _ => Bool) false (lowD ds) (Nat.blt d.2 2) = (Nat.blt d.2 2 && Tensor.lowD ds)
    rw [ih]; cases Nat.blt d.2 2 <;> rfl

def lowL (ms : List Mono) : Bool :=
  List.rec (motive := fun _ => Bool) true (fun m _ r => Bool.rec (motive := fun _ => Bool) false r (lowD m.ds)) ms
theorem lowL_eq (ms) : lowL ms = Tensor.lowL ms := by
  induction ms with
  | nil => rfl
  | cons m ms ih =>
    show Bool.rec (motive := fun _ => Bool) false (lowL ms) (lowD m.ds) = (Tensor.lowD m.ds && Tensor.lowL ms)
    rw [ih, lowD_eq]; cases Tensor.lowD m.ds <;> rfl

def checkSplit (n0 E : Nat) (tab : Tab) (σ : List (Nat × Nat)) (tbl : List (List Sym)) (a b : TE) (hints : List (List Nat)) : Bool :=
  Option.rec (motive := fun _ => Bool) false
    (fun _ => Option.rec (motive := fun _ => Bool) false
      (fun _ => Option.rec (motive := fun _ => Bool) false
        (fun ma => Bool.rec (motive := fun _ => Bool) false
          (Bool.rec (motive := fun _ => Bool) false (fin (canonL n0 E tbl (app ma (negL (expand b))) hints)) (lowL (expand a))) (extS n0 σ))
        (splitL tab σ (expand a))) (wf b (upto n0) n0)) (wf a (upto n0) n0)
theorem checkSplit_eq (n0 E tab σ tbl a b hints) : checkSplit n0 E tab σ tbl a b hints = Tensor.checkSplit n0 E tab σ tbl a b hints := by
  unfold checkSplit Tensor.checkSplit
  simp only [wf_eq, canonL_eq, expand_eq, negL_eq, app_eq, lowL_eq, splitL_eq, fin_eq]
  cases Tensor.wf (upto n0) n0 a with
  | none => rfl
  | some _ =>
    show Option.rec (motive := fun _ => Bool) false _ (Tensor.wf (upto n0) n0 b) = _
    simp only []
    cases Tensor.wf (upto n0) n0 b with
    | none => rfl
    | some _ =>
      show Option.rec (motive := fun _ => Bool) false _ (Tensor.splitL tab σ (Tensor.expand a)) = _
      simp only []
      cases Tensor.splitL tab σ (Tensor.expand a) with
      | none => rfl
      | some ma =>
        simp only []
        cases extS n0 σ <;> cases Tensor.lowL (Tensor.expand a) <;> rfl

/-! ### Orders -/

def cnt0 (fs : List (Nat × List Nat)) : Nat :=
  List.rec (motive := fun _ => Nat) 0 (fun f _ r => Nat.rec (motive := fun _ => Nat) (Nat.succ r) (fun _ _ => r) f.1) fs
theorem cnt0_eq (fs) : cnt0 fs = Tensor.cnt0 fs := by
  induction fs with
  | nil => rfl
  | cons f fs ih =>
    obtain ⟨t, l⟩ := f
    cases t with
    | zero => exact congrArg Nat.succ ih
    | succ t => exact ih

def ok0 (fs : List (Nat × List Nat)) : Bool :=
  List.rec (motive := fun _ => Bool) true
    (fun f _ r => Nat.rec (motive := fun _ => Bool) (List.rec (motive := fun _ => Bool) r (fun _ _ _ => false) f.2) (fun _ _ => r) f.1) fs
theorem ok0_eq (fs) : ok0 fs = Tensor.ok0 fs := by
  induction fs with
  | nil => rfl
  | cons f fs ih =>
    obtain ⟨t, l⟩ := f
    cases t with
    | zero => cases l with
      | nil => exact ih
      | cons => rfl
    | succ t => exact ih

def okAll0 (ms : List Mono) : Bool :=
  List.rec (motive := fun _ => Bool) true (fun m _ r => Bool.rec (motive := fun _ => Bool) false r (ok0 m.fs)) ms
theorem okAll0_eq (ms) : okAll0 ms = Tensor.okAll0 ms := by
  induction ms with
  | nil => rfl
  | cons m ms ih =>
    show Bool.rec (motive := fun _ => Bool) false (okAll0 ms) (ok0 m.fs) = (Tensor.ok0 m.fs && Tensor.okAll0 ms)
    rw [ih, ok0_eq]; cases Tensor.ok0 m.fs <;> rfl

def keep0 (n : Nat) (ms : List Mono) : List Mono :=
  List.rec (motive := fun _ => List Mono) [] (fun m _ r => Bool.rec (motive := fun _ => List Mono) r (m :: r) (Nat.blt (cnt0 m.fs) n)) ms
theorem keep0_eq (n ms) : keep0 n ms = Tensor.keep0 n ms := by
  induction ms with
  | nil => rfl
  | cons m ms ih =>
    show Bool.rec (motive := fun _ => List Mono) (keep0 n ms) (m :: keep0 n ms) (Nat.blt (cnt0 m.fs) n)
      = bif Nat.blt (Tensor.cnt0 m.fs) n then m :: Tensor.keep0 n ms else Tensor.keep0 n ms
    rw [ih, cnt0_eq]; cases Nat.blt (Tensor.cnt0 m.fs) n <;> rfl

def checkMod (n n0 E : Nat) (tbl : List (List Sym)) (t : TE) (hints : List (List Nat)) : Bool :=
  Option.rec (motive := fun _ => Bool) false
    (fun _ => Bool.rec (motive := fun _ => Bool) false (fin (canonL n0 E tbl (keep0 n (expand t)) hints)) (okAll0 (expand t))) (wf t (upto n0) n0)
theorem checkMod_eq (n n0 E tbl t hints) : checkMod n n0 E tbl t hints = Tensor.checkMod n n0 E tbl t hints := by
  unfold checkMod Tensor.checkMod
  simp only [wf_eq, canonL_eq, expand_eq, keep0_eq, okAll0_eq, fin_eq]
  cases Tensor.wf (upto n0) n0 t with
  | none => rfl
  | some hi => simp only []; cases Tensor.okAll0 (Tensor.expand t) <;> rfl

end

section
variable {K : Type} [Field K] {A B C D : Type} [Fintype A] [Fintype B] [Fintype C] [Fintype D]

theorem tensor_eq [CharZero K] (ts : List (List (Ix A B C D) → K)) (sss) (hs : SymAll ts sss)
    (n0 e : Nat) (a b : TE) (hints) (h : check n0 e sss (.sub a b) hints = true)
    (ρ : Nat → Ix A B C D) : a.eval (mkEnv ts) ρ = b.eval (mkEnv ts) ρ :=
  Tensor.tensor_eq ts sss hs n0 e a b hints ((check_eq ..).symm.trans h) ρ

theorem tensor_mod [CharZero K] (n : Nat) (ts : List (List (Ix A B C D) → K)) (sss)
    (hs : SymAll ts sss) (n0 e : Nat) (a b : TE) (hints)
    (h : checkMod n n0 e ([] :: sss) (.sub a b) hints = true) (ρ : Nat → Ix A B C D) :
    EqMod n (fun ε => a.eval (mkEnv (t0 ε :: ts)) ρ) (fun ε => b.eval (mkEnv (t0 ε :: ts)) ρ) :=
  Tensor.tensor_mod n ts sss hs n0 e a b hints ((checkMod_eq ..).symm.trans h) ρ

theorem tensor_split [CharZero K] (ts1 : List (List (Ix (A ⊕ C) (B ⊕ D) Empty Empty) → K))
    (ts2 : List (List (Ix A B C D) → K)) (tab) (ht : Tabs (mkEnv ts1) (mkEnv ts2) 0 tab)
    (sss) (hs : SymAll ts2 sss) (n0 e : Nat) (σ : List (Nat × Nat)) (a b : TE) (hints)
    (h : checkSplit n0 e tab σ sss a b hints = true) (ρ : Nat → Ix A B C D) (hρ : respB σ ρ) :
    a.eval (mkEnv ts1) (fun x => emb (ρ x)) = b.eval (mkEnv ts2) ρ :=
  Tensor.tensor_split ts1 ts2 tab ht sss hs n0 e σ a b hints ((checkSplit_eq ..).symm.trans h) ρ hρ
end
end Verif.Tensor.Fast
