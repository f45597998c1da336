import Verif.Model.CIMem
import Verif.Props.CIBasis
import Mathlib.Data.List.Forall2
import Mathlib.Data.List.Infix
import Mathlib.Data.Set.Basic
import Mathlib.Tactic.Linarith
/-!
# Memory of the CI routines: lemmas

A run with memory (`CI.Memo`) is compared with the run of `Verif.Model.CI` on the values of the strings: same result or same exception, all arrays
that existed before unchanged, and all arrays of the result new.
-/
namespace CI
namespace Memo

variable {K : Type} {α β γ δ : Type}

/-- `μ'` arises from `μ` by making arrays, and by writing into the coefficient arrays of `S` only. -/
def Keeps (S : Set ℕ) (μ μ' : Mem K) : Prop :=
  μ.ints <+: μ'.ints ∧ μ.vecs.length ≤ μ'.vecs.length ∧ ∀ p < μ.vecs.length, p ∉ S → μ'.vecs[p]? = μ.vecs[p]?

/-- Both raise the same exception, or both return, and the results are related by `P`. -/
def Agree : R α → R β → (α → β → Prop) → Prop
  | .ok x, .ok y, P => P x y
  | .error e, .error e', _ => e = e'
  | _, _, _ => False

/-- Started in memory `μ`, `m` writes at most into the arrays of `S` and does what `r` does. -/
def Runs (S : Set ℕ) (μ : Mem K) (m : M K α) (r : R β) (post : Mem K → α → β → Prop) : Prop :=
  Keeps S μ (m μ).2 ∧ Agree (m μ).1 r (post (m μ).2)

theorem Keeps.refl (S : Set ℕ) (μ : Mem K) : Keeps S μ μ := ⟨List.prefix_rfl, le_rfl, fun _ _ _ => rfl⟩

theorem Keeps.trans {S : Set ℕ} {μ μ' μ'' : Mem K} (h : Keeps S μ μ') (h' : Keeps S μ' μ'') : Keeps S μ μ'' :=
  ⟨h.1.trans h'.1, h.2.1.trans h'.2.1, fun p hp hS => by rw [h'.2.2 p (by have := h.2.1; omega) hS, h.2.2 p hp hS]⟩

theorem Keeps.int {S : Set ℕ} {μ μ' : Mem K} (h : Keeps S μ μ') {p : ℕ} {l : List ℤ} (hl : μ.ints[p]? = some l) : μ'.ints[p]? = some l := by
  obtain ⟨t, ht⟩ := h.1
  rw [← ht, List.getElem?_append_left (List.getElem?_eq_some_iff.mp hl).1, hl]

theorem Keeps.len {S : Set ℕ} {μ μ' : Mem K} (h : Keeps S μ μ') : μ.ints.length ≤ μ'.ints.length := h.1.length_le

theorem Keeps.vec {S : Set ℕ} {μ μ' : Mem K} (h : Keeps S μ μ') {p : ℕ} {l : List K} (hp : p ∉ S) (hl : μ.vecs[p]? = some l) : μ'.vecs[p]? = some l := by
  rw [h.2.2 p (List.getElem?_eq_some_iff.mp hl).1 hp, hl]

theorem Runs.pure {S : Set ℕ} {μ : Mem K} {x : α} {y : β} {post : Mem K → α → β → Prop} (h : post μ x y) : Runs S μ (pure x) (.ok y) post :=
  ⟨Keeps.refl _ _, h⟩

theorem Runs.raise {S : Set ℕ} {μ : Mem K} {e : Err} {post : Mem K → α → β → Prop} : Runs S μ (raise e) (.error e) post :=
  ⟨Keeps.refl _ _, rfl⟩

theorem Runs.lift {S : Set ℕ} {μ : Mem K} {r : R α} : Runs S μ (lift r) r fun μ' x y => μ' = μ ∧ x = y ∧ r = .ok y := by
  refine ⟨Keeps.refl _ _, ?_⟩
  cases r with
  | ok x => exact ⟨rfl, rfl, rfl⟩
  | error e => exact rfl

theorem bind_apply (m : M K α) (f : α → M K γ) (μ : Mem K) :
    (m >>= f) μ = match m μ with
      | (.ok x, μ') => f x μ'
      | (.error e, μ') => (.error e, μ') := rfl

theorem Runs.bind {S : Set ℕ} {μ : Mem K} {m : M K α} {r : R β} {post : Mem K → α → β → Prop} {f : α → M K γ} {g : β → R δ} {post' : Mem K → γ → δ → Prop}
    (h : Runs S μ m r post) (h' : ∀ μ' x y, Keeps S μ μ' → post μ' x y → Runs S μ' (f x) (g y) post') : Runs S μ (m >>= f) (r >>= g) post' := by
  obtain ⟨h1, h2⟩ := h
  unfold Runs
  rw [bind_apply]
  generalize m μ = w at h1 h2 ⊢
  obtain ⟨x, μ'⟩ := w
  cases x with
  | error e =>
    cases r with
    | error e' => exact ⟨h1, h2⟩
    | ok y => exact h2.elim
  | ok x =>
    cases r with
    | error e' => exact h2.elim
    | ok y =>
      obtain ⟨h3, h4⟩ := h' μ' x y h1 h2
      exact ⟨h1.trans h3, h4⟩

/-- `bind` remembering the value -/
theorem Runs.bind' {S : Set ℕ} {μ : Mem K} {m : M K α} {r : R β} {post : Mem K → α → β → Prop} {f : α → M K γ} {g : β → R δ} {post' : Mem K → γ → δ → Prop}
    (h : Runs S μ m r post) (h' : ∀ μ' x y, Keeps S μ μ' → r = .ok y → post μ' x y → Runs S μ' (f x) (g y) post') : Runs S μ (m >>= f) (r >>= g) post' := by
  have hv : Runs S μ m r fun μ' x y => r = .ok y ∧ post μ' x y := by
    refine ⟨h.1, ?_⟩
    have h2 := h.2
    generalize (m μ).1 = w at h2 ⊢
    cases w <;> cases r <;> first | exact h2 | exact ⟨rfl, h2⟩
  exact Runs.bind hv fun μ' x y hk hp => h' μ' x y hk hp.1 hp.2

theorem Agree.imp {r : R α} {r' : R β} {P Q : α → β → Prop} (h : Agree r r' P) (hPQ : ∀ x y, P x y → Q x y) : Agree r r' Q := by
  cases r <;> cases r' <;> first | exact h | exact hPQ _ _ h

theorem Runs.imp {S : Set ℕ} {μ : Mem K} {m : M K α} {r : R β} {post post' : Mem K → α → β → Prop} (h : Runs S μ m r post)
    (h' : ∀ μ' x y, Keeps S μ μ' → post μ' x y → post' μ' x y) : Runs S μ m r post' :=
  ⟨h.1, h.2.imp fun x y hp => h' _ x y h.1 hp⟩

/-- A computation that needs no counterpart. -/
theorem Runs.step {S : Set ℕ} {μ : Mem K} {m : M K α} {f : α → M K γ} {r : R δ} {post' : Mem K → γ → δ → Prop} {x : α} {μ' : Mem K}
    (h : m μ = (.ok x, μ')) (hk : Keeps S μ μ') (h' : Runs S μ' (f x) r post') : Runs S μ (m >>= f) r post' := by
  unfold Runs
  rw [bind_apply, h]
  exact ⟨hk.trans h'.1, h'.2⟩

theorem run_ok {m : M K α} {μ μ' : Mem K} {x : α} (h : m μ = (.ok x, μ')) (f : α → M K γ) : (m >>= f) μ = f x μ' := by
  rw [bind_apply, h]

theorem Runs.of_eq {S : Set ℕ} {μ μ' : Mem K} {m m' : M K α} {r : R β} {post : Mem K → α → β → Prop} (he : m μ = m' μ') (hk : Keeps S μ μ')
    (h : Runs S μ' m' r post) : Runs S μ m r post := by
  unfold Runs
  rw [he]
  exact ⟨hk.trans h.1, h.2⟩

theorem Runs.stepR {S : Set ℕ} {μ : Mem K} {m : M K α} {r : R β} {g : β → R δ} {y : β} {post' : Mem K → α → δ → Prop}
    (h : r = .ok y) (h' : Runs S μ m (g y) post') : Runs S μ m (r >>= g) post' := by
  rw [h]; exact h'

/-! ### strings -/

/-- The string `d` has the value `D`. -/
def HasD (μ : Mem K) (d : DRef) (D : Dstring) : Prop := μ.ints[d.occ]? = some D.occ ∧ d.n = D.n
/-- The string `d` has the value `D`. -/
def HasP (μ : Mem K) (d : PRef) (D : Pstring) : Prop := μ.ints[d.occ]? = some D.occ ∧ d.n = D.n
/-- The value of a string or of `None`. -/
def HasO (μ : Mem K) : Option DRef → Option Dstring → Prop
  | some d, some D => HasD μ d D
  | none, none => True
  | _, _ => False
/-- The elements of an argument. -/
def HasL (μ : Mem K) : Occ → List ℤ → Prop
  | .list l, l' => l = l'
  | .array p, l => μ.ints[p]? = some l

theorem HasD.mono {S : Set ℕ} {μ μ' : Mem K} {d : DRef} {D : Dstring} (h : HasD μ d D) (hk : Keeps S μ μ') : HasD μ' d D := ⟨hk.int h.1, h.2⟩
theorem HasP.mono {S : Set ℕ} {μ μ' : Mem K} {d : PRef} {D : Pstring} (h : HasP μ d D) (hk : Keeps S μ μ') : HasP μ' d D := ⟨hk.int h.1, h.2⟩
theorem HasO.mono {S : Set ℕ} {μ μ' : Mem K} {d : Option DRef} {D : Option Dstring} (h : HasO μ d D) (hk : Keeps S μ μ') : HasO μ' d D := by
  cases d <;> cases D <;> first | exact h | exact HasD.mono h hk

theorem read_eq {μ : Mem K} {p : ℕ} {l : List ℤ} (h : μ.ints[p]? = some l) : read p μ = (.ok l, μ) := by
  simp [read, List.getD_eq_getElem?_getD, h]

/-- a new array in memory -/
def Mem.push (μ : Mem K) (l : List ℤ) : Mem K := { μ with ints := μ.ints ++ [l] }

theorem Keeps.push (S : Set ℕ) (μ : Mem K) (l : List ℤ) : Keeps S μ (μ.push l) := ⟨⟨[l], rfl⟩, le_rfl, fun _ _ _ => rfl⟩

theorem push_new (μ : Mem K) (l : List ℤ) : (μ.push l).ints[μ.ints.length]? = some l := by simp [Mem.push]

theorem copy_eq {μ : Mem K} {p : ℕ} {l : List ℤ} (h : μ.ints[p]? = some l) : copy p μ = (.ok μ.ints.length, μ.push l) := by
  unfold copy
  rw [bind_apply, read_eq h]
  rfl

theorem modify_last {α : Type} (f : α → α) (x : α) : ∀ l : List α, (l ++ [x]).modify l.length f = l ++ [f x]
  | [] => rfl
  | y :: l => by simpa using modify_last f x l

theorem write_push (μ : Mem K) (l : List ℤ) (i : ℕ) (v : ℤ) : write μ.ints.length i v (μ.push l) = (.ok (), μ.push (l.set i v)) := by
  simp [write, Mem.push, modify_last]

theorem newD_list {S : Set ℕ} {μ : Mem K} {n : ℕ} {l : List ℤ} :
    Runs S μ (newD n (.list l)) (Dstring.new n l) fun μ' d D => HasD μ' d D ∧ μ.ints.length ≤ d.occ := by
  unfold newD
  refine Runs.step (x := μ.ints.length) (μ' := μ.push l) rfl (Keeps.push ..) ?_
  refine Runs.step (read_eq (push_new μ l)) (Keeps.refl ..) ?_
  unfold Dstring.new
  split_ifs with h
  · exact Runs.pure ⟨⟨push_new μ l, rfl⟩, le_rfl⟩
  · exact Runs.raise

theorem newD_array {S : Set ℕ} {μ : Mem K} {n p : ℕ} {l : List ℤ} (h : μ.ints[p]? = some l) :
    Runs S μ (newD n (.array p)) (Dstring.new n l) fun μ' d D => μ' = μ ∧ HasD μ' d D ∧ d.occ = p := by
  unfold newD
  refine Runs.step (x := p) (μ' := μ) rfl (Keeps.refl ..) ?_
  refine Runs.step (read_eq h) (Keeps.refl ..) ?_
  unfold Dstring.new
  split_ifs with h'
  · exact Runs.pure ⟨rfl, ⟨h, rfl⟩, rfl⟩
  · exact Runs.raise

theorem newP_list {S : Set ℕ} {μ : Mem K} {n : ℕ} {l : List ℤ} :
    Runs S μ (newP n (.list l)) (Pstring.new n l) fun μ' d D => HasP μ' d D ∧ μ.ints.length ≤ d.occ := by
  unfold newP
  refine Runs.step (x := μ.ints.length) (μ' := μ.push l) rfl (Keeps.push ..) ?_
  refine Runs.step (read_eq (push_new μ l)) (Keeps.refl ..) ?_
  unfold Pstring.new
  split_ifs with h
  · exact Runs.pure ⟨⟨push_new μ l, rfl⟩, le_rfl⟩
  · exact Runs.raise

theorem newP_array {S : Set ℕ} {μ : Mem K} {n p : ℕ} {l : List ℤ} (h : μ.ints[p]? = some l) :
    Runs S μ (newP n (.array p)) (Pstring.new n l) fun μ' d D => μ' = μ ∧ HasP μ' d D ∧ d.occ = p := by
  unfold newP
  refine Runs.step (x := p) (μ' := μ) rfl (Keeps.refl ..) ?_
  refine Runs.step (read_eq h) (Keeps.refl ..) ?_
  unfold Pstring.new
  split_ifs with h'
  · exact Runs.pure ⟨rfl, ⟨h, rfl⟩, rfl⟩
  · exact Runs.raise

/-- The result of `excite`: same sign, same value, and an array made since `μ`. -/
def NewD (μ μ' : Mem K) : Option (ℤ × DRef) → Option (ℤ × Dstring) → Prop
  | some (s, d), some (s', D) => s = s' ∧ HasD μ' d D ∧ μ.ints.length ≤ d.occ
  | none, none => True
  | _, _ => False

/-- the common end of the branches of `excite` -/
theorem copied {S : Set ℕ} {μ : Mem K} {p n : ℕ} {occ : List ℤ} (h : μ.ints[p]? = some occ) (i a : ℕ) (u v : ℕ) :
    Runs S μ (do
      let occnew ← copy p
      write occnew i 0
      write occnew a 1
      let o ← read p
      let otemp := slice o u v
      let sign : ℤ := if otemp.sum % 2 = 0 then 1 else -1
      let new ← newD n (.array occnew)
      pure (some (sign, new)))
    (do
      let new ← Dstring.new n ((occ.set i 0).set a 1)
      return some (if (slice occ u v).sum % 2 = 0 then 1 else -1, new)) (NewD μ) := by
  refine Runs.of_eq ((run_ok (copy_eq h) _).trans ((run_ok (write_push μ occ i 0) _).trans ((run_ok (write_push μ _ a 1) _).trans
    (run_ok (read_eq ((Keeps.push ∅ μ _).int h)) _)))) (Keeps.push S μ _) ?_
  exact Runs.bind (newD_array (push_new μ _)) fun μ' x y hk hp => Runs.pure ⟨rfl, hp.2.1, by rw [hp.2.2]⟩

theorem excite_runs {S : Set ℕ} {μ : Mem K} {d : DRef} {D : Dstring} (h : HasD μ d D) (i a : ℕ) :
    Runs S μ (d.excite i a) (D.excite i a) (NewD μ) := by
  obtain ⟨n, occ⟩ := D
  obtain ⟨h, hn⟩ := h
  simp only at h hn
  unfold DRef.excite Dstring.excite
  rw [hn]
  refine Runs.step (read_eq h) (Keeps.refl ..) ?_
  refine Runs.bind Runs.lift ?_
  rintro μ' oi _ - ⟨rfl, rfl, hi⟩
  by_cases h1 : oi ≠ 1
  · rw [if_pos h1, if_pos h1]; exact Runs.pure trivial
  rw [if_neg h1, if_neg h1]
  refine Runs.bind (r := get occ a) Runs.lift ?_
  rintro μ oa _ - ⟨rfl, rfl, ha⟩
  by_cases h2 : oa ≠ 0
  · rw [if_pos h2, if_pos h2]; exact Runs.pure trivial
  rw [if_neg h2, if_neg h2]
  have hia : i ≠ a := by
    rintro rfl
    rw [hi] at ha
    cases ha
    omega
  rw [if_neg hia]
  by_cases h3 : i < a
  · rw [if_pos h3]
    change Runs S μ _ (if i = a then _ else _) _
    rw [if_neg hia, if_pos h3]
    exact copied h _ _ _ _
  · rw [if_neg h3]
    change Runs S μ _ (if i = a then _ else _) _
    rw [if_neg hia, if_neg h3]
    exact copied h _ _ _ _

theorem exciteO_runs {S : Set ℕ} {μ : Mem K} {d : Option DRef} {D : Option Dstring} (h : HasO μ d D) (i a : ℕ) :
    Runs S μ (exciteOM d i a) (exciteO D i a) (NewD μ) := by
  cases d <;> cases D
  · exact Runs.raise
  · exact h.elim
  · exact h.elim
  · exact excite_runs h i a

theorem NewD.str {μ μ' : Mem K} {r : Option (ℤ × DRef)} {r' : Option (ℤ × Dstring)} (h : NewD μ μ' r r') : HasO μ' (strM r) (CI.str r') := by
  rcases r with _ | ⟨s, d⟩ <;> rcases r' with _ | ⟨s', D⟩
  · trivial
  · exact h
  · exact h
  · exact h.2.1

/-! ### lists of strings -/

/-- A kind of object with values and at most one array. -/
structure Kind (K α β : Type) where
  has : Mem K → α → β → Prop
  adr : α → Option ℕ
  mono : ∀ {S μ μ' x y}, has μ x y → Keeps S μ μ' → has μ' x y
  bound : ∀ {μ x y p}, has μ x y → p ∈ adr x → p < μ.ints.length

/-- strings or `None` -/
def KD : Kind K (Option DRef) (Option Dstring) where
  has := HasO
  adr := Option.map DRef.occ
  mono := HasO.mono
  bound := by
    rintro μ (_ | d) (_ | D) p h hp
    · cases hp
    · cases hp
    · exact h.elim
    · cases hp; exact (List.getElem?_eq_some_iff.mp h.1).1

/-- vibrational strings -/
def KP : Kind K PRef Pstring where
  has := HasP
  adr := fun d => some d.occ
  mono := HasP.mono
  bound := by
    rintro μ d D p h hp
    cases hp; exact (List.getElem?_eq_some_iff.mp h.1).1

/-- The values of the objects of `l` are `L`, and each has an array of its own, made since `μ`. -/
def Own (k : Kind K α β) (μ μ' : Mem K) (l : List α) (L : List β) : Prop :=
  List.Forall₂ (k.has μ') l L ∧ (l.filterMap k.adr).Nodup ∧ ∀ p ∈ l.filterMap k.adr, μ.ints.length ≤ p

theorem forall₂_mono (k : Kind K α β) {S : Set ℕ} {μ μ' : Mem K} {l : List α} {L : List β} (h : List.Forall₂ (k.has μ) l L) (hk : Keeps S μ μ') :
    List.Forall₂ (k.has μ') l L := h.imp fun _ _ hx => k.mono hx hk

theorem Own.bound {k : Kind K α β} {μ : Mem K} {l : List α} {L : List β} (h : List.Forall₂ (k.has μ) l L) : ∀ p ∈ l.filterMap k.adr, p < μ.ints.length := by
  intro p hp
  obtain ⟨x, hx, hxp⟩ := List.mem_filterMap.mp hp
  induction h with
  | nil => cases hx
  | cons hxy _ ih =>
    rcases List.mem_cons.mp hx with rfl | hx
    · exact k.bound hxy hxp
    · exact ih (List.mem_filterMap.mpr ⟨x, hx, hxp⟩) hx

theorem Own.nil (k : Kind K α β) (μ μ' : Mem K) : Own k μ μ' [] [] := ⟨.nil, List.nodup_nil, nofun⟩

theorem Own.one {k : Kind K α β} {μ μ' : Mem K} {x : α} {y : β} (h : k.has μ' x y) (h' : ∀ p ∈ k.adr x, μ.ints.length ≤ p) : Own k μ μ' [x] [y] := by
  refine ⟨.cons h .nil, ?_, ?_⟩
  · cases hx : k.adr x <;> simp [hx]
  · intro p hp
    obtain ⟨z, hz, hzp⟩ := List.mem_filterMap.mp hp
    cases List.mem_singleton.mp hz
    exact h' p hzp

theorem Own.append {k : Kind K α β} {S : Set ℕ} {μ μ₁ μ₂ : Mem K} {l m : List α} {L N : List β} (h : Own k μ μ₁ l L) (hk : Keeps S μ₁ μ₂)
    (hle : μ.ints.length ≤ μ₁.ints.length) (h' : Own k μ₁ μ₂ m N) : Own k μ μ₂ (l ++ m) (L ++ N) := by
  refine ⟨List.rel_append (forall₂_mono k h.1 hk) h'.1, ?_, ?_⟩
  · rw [List.filterMap_append]
    refine List.Nodup.append h.2.1 h'.2.1 fun p hp hp' => ?_
    have := Own.bound h.1 p hp
    have := h'.2.2 p hp'
    omega
  · intro p hp
    rw [List.filterMap_append] at hp
    rcases List.mem_append.mp hp with hp | hp
    · exact h.2.2 p hp
    · exact hle.trans (h'.2.2 p hp)

theorem Own.earlier {k : Kind K α β} {μ₀ μ μ' : Mem K} {l : List α} {L : List β} (h : Own k μ μ' l L) (hle : μ₀.ints.length ≤ μ.ints.length) : Own k μ₀ μ' l L :=
  ⟨h.1, h.2.1, fun p hp => hle.trans (h.2.2 p hp)⟩

theorem collect_runs (k : Kind K γ δ) {S : Set ℕ} {f : α → M K (List γ)} {g : α → R (List δ)} (l : List α) {μ : Mem K}
    (h : ∀ x ∈ l, ∀ μ', Keeps S μ μ' → Runs S μ' (f x) (g x) (Own k μ')) : Runs S μ (collectM l f) (collect l g) (Own k μ) := by
  induction l generalizing μ with
  | nil => exact Runs.pure (Own.nil ..)
  | cons x l ih =>
    unfold collectM collect
    refine Runs.bind (h x List.mem_cons_self μ (Keeps.refl ..)) fun μ₁ u U hk hu => ?_
    refine Runs.bind (ih fun y hy μ' hk' => h y (List.mem_cons_of_mem _ hy) μ' (hk.trans hk')) fun μ₂ v V hk' hv => ?_
    exact Runs.pure (hu.append hk' hk.len hv)

theorem HasL.mono {S : Set ℕ} {μ μ' : Mem K} {o : Occ} {l : List ℤ} (h : HasL μ o l) (hk : Keeps S μ μ') : HasL μ' o l := by
  cases o with
  | list l' => exact h
  | array p => exact hk.int h

theorem elems_eq {μ : Mem K} {o : Occ} {l : List ℤ} (h : HasL μ o l) : o.elems μ = (.ok l, μ) := by
  cases o with
  | list l' => cases h; rfl
  | array p => exact read_eq h

theorem newD_runs {S : Set ℕ} {μ : Mem K} {n : ℕ} {o : Occ} {l : List ℤ} (h : HasL μ o l) :
    Runs S μ (newD n o) (Dstring.new n l) fun μ' d D => HasD μ' d D := by
  cases o with
  | list l' => cases h; exact newD_list.imp fun _ _ _ _ hp => hp.1
  | array p => exact (newD_array h).imp fun _ _ _ _ hp => hp.2.1

/-- The elements of an optional argument. -/
def HasOcc (μ : Mem K) : Option Occ → Option (List ℤ) → Prop
  | none, none => True
  | some o, some l => HasL μ o l
  | _, _ => False

theorem HasOcc.has {μ : Mem K} {n nocc : ℕ} {o : Option Occ} {l : Option (List ℤ)} (h : HasOcc μ o l) :
    HasL μ (o.getD (.list (aufbau n nocc))) (l.getD (aufbau n nocc)) := by
  cases o <;> cases l
  · rfl
  · exact h.elim
  · exact h.elim
  · exact h

theorem begin_runs {S : Set ℕ} {μ : Mem K} {n nocc : ℕ} {o : Option Occ} {l : Option (List ℤ)} (h : HasOcc μ o l) :
    Runs S μ (begin n nocc o) (Dstring.new n (l.getD (aufbau n nocc))) fun μ' x D =>
      x.1 = l.getD (aufbau n nocc) ∧ x.2.1 = positions (l.getD (aufbau n nocc)) ∧ x.2.2.1 = positions (virt (l.getD (aufbau n nocc))) ∧ HasD μ' x.2.2.2 D := by
  have hb : Dstring.new n (l.getD (aufbau n nocc)) = (Dstring.new n (l.getD (aufbau n nocc)) >>= fun D => .ok D) := by
    cases Dstring.new n (l.getD (aufbau n nocc)) <;> rfl
  rw [hb]
  unfold begin
  refine Runs.step (elems_eq h.has) (Keeps.refl ..) ?_
  exact Runs.bind (newD_runs h.has) fun μ' d D _ hd => Runs.pure ⟨rfl, rfl, rfl, hd⟩

theorem NewD.own {μ₀ μ μ' : Mem K} {r : Option (ℤ × DRef)} {r' : Option (ℤ × Dstring)} (h : NewD μ μ' r r') (hle : μ₀.ints.length ≤ μ.ints.length) :
    Own KD μ₀ μ' [strM r] [CI.str r'] := by
  refine Own.one h.str ?_
  rcases r with _ | ⟨s, d⟩ <;> rcases r' with _ | ⟨s', D⟩
  · nofun
  · exact h.elim
  · exact h.elim
  · intro p hp
    cases hp
    exact hle.trans h.2.2

/-- one after another -/
theorem bind_own {S : Set ℕ} {μ : Mem K} {m : M K (Option (ℤ × DRef))} {r : R (Option (ℤ × Dstring))} (h : Runs S μ m r (NewD μ)) :
    Runs S μ (m >>= fun r => pure [strM r]) (r >>= fun r => .ok [CI.str r]) (Own KD μ) :=
  Runs.bind h fun _ _ _ _ hp => Runs.pure (hp.own le_rfl)

theorem skip_runs {k : Kind K γ δ} {S : Set ℕ} {μ : Mem K} {c : Prop} [Decidable c] {m : M K (List γ)} {r : R (List δ)}
    (h : Runs S μ m r (Own k μ)) : Runs S μ (if c then pure [] else m) (if c then .ok [] else r) (Own k μ) := by
  split_ifs
  · exact Runs.pure (Own.nil ..)
  · exact h

theorem s_strings_runs {S : Set ℕ} {μ : Mem K} {n nocc : ℕ} {o : Option Occ} {l : Option (List ℤ)} (h : HasOcc μ o l) :
    Runs S μ (s_stringsM n nocc o) (s_strings n nocc l) (Own KD μ) := by
  unfold s_stringsM s_strings
  refine Runs.bind (begin_runs h) ?_
  rintro μ₁ ⟨o, io, iv, ref⟩ D hk ⟨rfl, rfl, rfl, hr⟩
  refine (collect_runs KD _ fun i _ μ₂ h₂ => collect_runs KD _ fun a _ μ₃ h₃ => ?_).imp fun _ _ _ _ ho => ho.earlier hk.len
  exact bind_own (excite_runs (hr.mono (h₂.trans h₃)) i a)

theorem d_strings_runs {S : Set ℕ} {μ : Mem K} {n nocc : ℕ} {o : Option Occ} {l : Option (List ℤ)} (h : HasOcc μ o l) :
    Runs S μ (d_stringsM n nocc o) (d_strings n nocc l) (Own KD μ) := by
  unfold d_stringsM d_strings
  refine Runs.bind (begin_runs h) ?_
  rintro μ₁ ⟨o, io, iv, ref⟩ D hk ⟨rfl, rfl, rfl, hr⟩
  refine (collect_runs KD _ fun i _ μ₂ h₂ => collect_runs KD _ fun a _ μ₃ h₃ => collect_runs KD _ fun j _ μ₄ h₄ => skip_runs <|
    collect_runs KD _ fun b _ μ₅ h₅ => skip_runs ?_).imp fun _ _ _ _ ho => ho.earlier hk.len
  refine Runs.bind (excite_runs (hr.mono (h₂.trans (h₃.trans (h₄.trans h₅)))) i a) fun μ₆ r1 R1 k₁ p₁ => ?_
  exact (bind_own (exciteO_runs p₁.str j b)).imp fun _ _ _ _ ho => ho.earlier k₁.len

theorem t_strings_runs {S : Set ℕ} {μ : Mem K} {n nocc : ℕ} {o : Option Occ} {l : Option (List ℤ)} (h : HasOcc μ o l) :
    Runs S μ (t_stringsM n nocc o) (t_strings n nocc l) (Own KD μ) := by
  unfold t_stringsM t_strings
  refine Runs.bind (begin_runs h) ?_
  rintro μ₁ ⟨o, io, iv, ref⟩ D hk ⟨rfl, rfl, rfl, hr⟩
  refine (collect_runs KD _ fun i _ μ₂ h₂ => collect_runs KD _ fun a _ μ₃ h₃ => collect_runs KD _ fun j _ μ₄ h₄ => skip_runs <|
    collect_runs KD _ fun b _ μ₅ h₅ => skip_runs <| collect_runs KD _ fun k _ μ₆ h₆ => skip_runs <|
    collect_runs KD _ fun c _ μ₇ h₇ => skip_runs ?_).imp fun _ _ _ _ ho => ho.earlier hk.len
  refine Runs.bind (excite_runs (hr.mono (h₂.trans (h₃.trans (h₄.trans (h₅.trans (h₆.trans h₇)))))) i a) fun μ₈ r1 R1 k₁ p₁ => ?_
  refine Runs.bind (exciteO_runs p₁.str j b) fun μ₉ r2 R2 k₂ p₂ => ?_
  exact (bind_own (exciteO_runs p₂.str k c)).imp fun _ _ _ _ ho => ho.earlier (k₁.trans k₂).len

theorem q_strings_runs {S : Set ℕ} {μ : Mem K} {n nocc : ℕ} {o : Option Occ} {l : Option (List ℤ)} (h : HasOcc μ o l) :
    Runs S μ (q_stringsM n nocc o) (q_strings n nocc l) (Own KD μ) := by
  unfold q_stringsM q_strings
  refine Runs.bind (begin_runs h) ?_
  rintro μ₁ ⟨o, io, iv, ref⟩ D hk ⟨rfl, rfl, rfl, hr⟩
  refine (collect_runs KD _ fun i _ μ₂ h₂ => collect_runs KD _ fun a _ μ₃ h₃ => collect_runs KD _ fun j _ μ₄ h₄ => skip_runs <|
    collect_runs KD _ fun b _ μ₅ h₅ => skip_runs <| collect_runs KD _ fun k _ μ₆ h₆ => skip_runs <|
    collect_runs KD _ fun c _ μ₇ h₇ => skip_runs <| collect_runs KD _ fun m _ μ₈ h₈ => skip_runs <|
    collect_runs KD _ fun d _ μ₉ h₉ => skip_runs ?_).imp fun _ _ _ _ ho => ho.earlier hk.len
  refine Runs.bind (excite_runs (hr.mono (h₂.trans (h₃.trans (h₄.trans (h₅.trans (h₆.trans (h₇.trans (h₈.trans h₉)))))))) i a) fun ν₁ r1 R1 k₁ p₁ => ?_
  refine Runs.bind (exciteO_runs p₁.str j b) fun ν₂ r2 R2 k₂ p₂ => ?_
  refine Runs.bind (exciteO_runs p₂.str k c) fun ν₃ r3 R3 k₃ p₃ => ?_
  exact (bind_own (exciteO_runs p₃.str m d)).imp fun _ _ _ _ ho => ho.earlier (k₁.trans (k₂.trans k₃)).len

theorem raize_runs {S : Set ℕ} {μ : Mem K} {d : PRef} {D : Pstring} (h : HasP μ d D) (p : ℕ) :
    Runs S μ (d.raize p) (D.raize p) fun μ' d' D' => HasP μ' d' D' ∧ μ.ints.length ≤ d'.occ := by
  obtain ⟨n, occ⟩ := D
  obtain ⟨h, hn⟩ := h
  simp only at h hn
  unfold PRef.raize Pstring.raize
  rw [hn]
  cases hg : get occ p with
  | error e =>
    refine Runs.of_eq ((run_ok (copy_eq h) _).trans (run_ok (read_eq (push_new μ occ)) _)) (Keeps.push S μ _) ?_
    rw [hg]
    exact ⟨Keeps.refl .., rfl⟩
  | ok x =>
    refine Runs.of_eq ((run_ok (copy_eq h) _).trans ((run_ok (read_eq (push_new μ occ)) _).trans ((run_ok (x := x) (μ' := μ.push occ) (by rw [hg]; rfl) _).trans
      (run_ok (write_push μ occ p (x + 1)) _)))) (Keeps.push S μ _) ?_
    refine (newP_array (push_new μ _)).imp fun μ' d D _ hp => ⟨hp.2.1, by rw [hp.2.2]⟩

theorem lower_runs {S : Set ℕ} {μ : Mem K} {d : PRef} {D : Pstring} (h : HasP μ d D) (p : ℕ) :
    Runs S μ (d.lower p) (D.lower p) fun μ' d' D' => match d', D' with
      | some d', some D' => HasP μ' d' D' ∧ μ.ints.length ≤ d'.occ
      | none, none => True
      | _, _ => False := by
  obtain ⟨n, occ⟩ := D
  obtain ⟨h, hn⟩ := h
  simp only at h hn
  unfold PRef.lower Pstring.lower
  rw [hn]
  cases hg : get occ p with
  | error e =>
    refine Runs.of_eq ((run_ok (copy_eq h) _).trans (run_ok (read_eq (push_new μ occ)) _)) (Keeps.push S μ _) ?_
    rw [hg]
    exact ⟨Keeps.refl .., rfl⟩
  | ok x =>
    by_cases hx : x = 0
    · refine Runs.of_eq ((run_ok (copy_eq h) _).trans ((run_ok (read_eq (push_new μ occ)) _).trans (run_ok (x := x) (μ' := μ.push occ) (by rw [hg]; rfl) _)))
        (Keeps.push S μ _) ?_
      change Runs _ _ _ (if x = 0 then _ else _) _
      rw [if_pos hx, if_pos hx]
      exact Runs.pure trivial
    · change Runs _ _ _ (if x = 0 then _ else _) _
      rw [if_neg hx]
      refine Runs.of_eq ((run_ok (copy_eq h) _).trans ((run_ok (read_eq (push_new μ occ)) _).trans ((run_ok (x := x) (μ' := μ.push occ) (by rw [hg]; rfl) _).trans
        ((congrFun (if_neg hx) _).trans (run_ok (write_push μ occ p (x - 1)) _))))) (Keeps.push S μ _) ?_
      exact Runs.bind (newP_array (push_new μ _)) fun μ' d D _ hp => Runs.pure ⟨hp.2.1, by rw [hp.2.2]⟩

theorem s_pstrings_runs {S : Set ℕ} {μ : Mem K} (nmode : ℕ) : Runs S μ (s_pstringsM nmode) (s_pstrings nmode) (Own KP μ) := by
  unfold s_pstringsM s_pstrings
  refine Runs.bind newP_list fun μ₁ ref D hk hr => ?_
  refine (collect_runs KP _ fun i _ μ₂ h₂ => ?_).imp fun _ _ _ _ ho => ho.earlier hk.len
  refine Runs.bind (raize_runs (hr.1.mono h₂) i) fun μ₃ t T k hp => Runs.pure (Own.one (k := KP) hp.1 ?_)
  intro p h; cases h; exact hp.2

theorem d_pstrings_runs {S : Set ℕ} {μ : Mem K} (nmode : ℕ) : Runs S μ (d_pstringsM nmode) (d_pstrings nmode) (Own KP μ) := by
  unfold d_pstringsM d_pstrings
  refine Runs.bind newP_list fun μ₁ ref D hk hr => ?_
  refine (collect_runs KP _ fun i _ μ₂ h₂ => collect_runs KP _ fun j _ μ₃ h₃ => ?_).imp fun _ _ _ _ ho => ho.earlier hk.len
  refine Runs.bind (raize_runs (hr.1.mono (h₂.trans h₃)) i) fun μ₄ t T k hp => ?_
  refine Runs.bind (raize_runs hp.1 j) fun μ₅ t T k' hp' => Runs.pure (Own.one (k := KP) hp'.1 ?_)
  intro p h; cases h; exact k.len.trans hp'.2

/-! ### bases -/

theorem newD_own {S : Set ℕ} {μ : Mem K} {n : ℕ} {l : List ℤ} :
    Runs S μ (newD n (.list l)) (Dstring.new n l) fun μ' d D => Own KD μ μ' [some d] [some D] :=
  newD_list.imp fun _ _ _ _ hp => Own.one (k := KD) hp.1 (by intro p h; cases h; exact hp.2)

theorem newP_own {S : Set ℕ} {μ : Mem K} {n : ℕ} {l : List ℤ} :
    Runs S μ (newP n (.list l)) (Pstring.new n l) fun μ' d D => Own KP μ μ' [d] [D] :=
  newP_list.imp fun _ _ _ _ hp => Own.one (k := KP) hp.1 (by intro p h; cases h; exact hp.2)

theorem gcis_runs {S : Set ℕ} {μ : Mem K} (nmo n : ℕ) (gs : Bool) : Runs S μ (gcis_basisM nmo n gs) (gcis_basis nmo n gs) (Own KD μ) := by
  unfold gcis_basisM gcis_basis
  refine Runs.bind newD_own fun μ₁ r R h₁ o₁ => Runs.bind (s_strings_runs (l := some (gocc nmo n)) rfl) fun μ₂ s S' h₂ o₂ => Runs.pure ?_
  cases gs
  · exact o₂.earlier h₁.len
  · exact o₁.append h₂ h₁.len o₂

theorem gcisd_runs {S : Set ℕ} {μ : Mem K} (nmo n : ℕ) : Runs S μ (gcisd_basisM nmo n) (gcisd_basis nmo n) (Own KD μ) := by
  unfold gcisd_basisM gcisd_basis
  refine Runs.bind newD_own fun μ₁ r R h₁ o₁ => Runs.bind (s_strings_runs (l := some (gocc nmo n)) rfl) fun μ₂ s S' h₂ o₂ =>
    Runs.bind (d_strings_runs (l := some (gocc nmo n)) rfl) fun μ₃ d D h₃ o₃ => Runs.pure ?_
  exact (o₁.append h₂ h₁.len o₂).append h₃ (h₁.trans h₂).len o₃

theorem gcisdt_runs {S : Set ℕ} {μ : Mem K} (nmo n : ℕ) : Runs S μ (gcisdt_basisM nmo n) (gcisdt_basis nmo n) (Own KD μ) := by
  unfold gcisdt_basisM gcisdt_basis
  refine Runs.bind newD_own fun μ₁ r R h₁ o₁ => Runs.bind (s_strings_runs (l := some (gocc nmo n)) rfl) fun μ₂ s S' h₂ o₂ =>
    Runs.bind (d_strings_runs (l := some (gocc nmo n)) rfl) fun μ₃ d D h₃ o₃ =>
    Runs.bind (t_strings_runs (l := some (gocc nmo n)) rfl) fun μ₄ t T h₄ o₄ => Runs.pure ?_
  exact ((o₁.append h₂ h₁.len o₂).append h₃ (h₁.trans h₂).len o₃).append h₄ (h₁.trans (h₂.trans h₃)).len o₄

theorem gcisdtq_runs {S : Set ℕ} {μ : Mem K} (nmo n : ℕ) : Runs S μ (gcisdtq_basisM nmo n) (gcisdtq_basis nmo n) (Own KD μ) := by
  unfold gcisdtq_basisM gcisdtq_basis
  refine Runs.bind newD_own fun μ₁ r R h₁ o₁ => Runs.bind (s_strings_runs (l := some (gocc nmo n)) rfl) fun μ₂ s S' h₂ o₂ =>
    Runs.bind (d_strings_runs (l := some (gocc nmo n)) rfl) fun μ₃ d D h₃ o₃ =>
    Runs.bind (t_strings_runs (l := some (gocc nmo n)) rfl) fun μ₄ t T h₄ o₄ =>
    Runs.bind (q_strings_runs (l := some (gocc nmo n)) rfl) fun μ₅ q Q h₅ o₅ => Runs.pure ?_
  exact (((o₁.append h₂ h₁.len o₂).append h₃ (h₁.trans h₂).len o₃).append h₄ (h₁.trans (h₂.trans h₃)).len o₄).append h₅
    (h₁.trans (h₂.trans (h₃.trans h₄))).len o₅

theorem vcis_runs {S : Set ℕ} {μ : Mem K} (nmode : ℕ) : Runs S μ (vcis_basisM nmode) (vcis_basis nmode) (Own KP μ) := by
  unfold vcis_basisM vcis_basis
  exact Runs.bind newP_own fun μ₁ r R h₁ o₁ => Runs.bind (s_pstrings_runs nmode) fun μ₂ s S' h₂ o₂ => Runs.pure (o₁.append h₂ h₁.len o₂)

theorem vcisd_runs {S : Set ℕ} {μ : Mem K} (nmode : ℕ) : Runs S μ (vcisd_basisM nmode) (vcisd_basis nmode) (Own KP μ) := by
  unfold vcisd_basisM vcisd_basis
  exact Runs.bind newP_own fun μ₁ r R h₁ o₁ => Runs.bind (s_pstrings_runs nmode) fun μ₂ s S' h₂ o₂ =>
    Runs.bind (d_pstrings_runs nmode) fun μ₃ d D h₃ o₃ => Runs.pure ((o₁.append h₂ h₁.len o₂).append h₃ (h₁.trans h₂).len o₃)

/-- Two lists of objects with arrays of their own; no array of the first is one of the second. -/
def Two (k : Kind K α β) (μ μ' : Mem K) (l : List α) (L : List β) (m : List α) (N : List β) : Prop :=
  Own k μ μ' l L ∧ Own k μ μ' m N ∧ ∀ p ∈ l.filterMap k.adr, p ∉ m.filterMap k.adr

theorem Two.nil (k : Kind K α β) (μ μ' : Mem K) : Two k μ μ' [] [] [] [] := ⟨Own.nil .., Own.nil .., nofun⟩

theorem Two.left {k : Kind K α β} {S : Set ℕ} {μ μ₁ μ₂ : Mem K} {l m u : List α} {L N U : List β} (h : Two k μ μ₁ l L m N) (hle : μ.ints.length ≤ μ₁.ints.length)
    (hk : Keeps S μ₁ μ₂) (hu : Own k μ₁ μ₂ u U) : Two k μ μ₂ (l ++ u) (L ++ U) m N := by
  refine ⟨h.1.append hk hle hu, ⟨forall₂_mono k h.2.1.1 hk, h.2.1.2⟩, fun p hp hp' => ?_⟩
  rw [List.filterMap_append] at hp
  rcases List.mem_append.mp hp with hp | hp
  · exact h.2.2 p hp hp'
  · have := hu.2.2 p hp
    have := Own.bound h.2.1.1 p hp'
    omega

theorem Two.right {k : Kind K α β} {S : Set ℕ} {μ μ₁ μ₂ : Mem K} {l m u : List α} {L N U : List β} (h : Two k μ μ₁ l L m N) (hle : μ.ints.length ≤ μ₁.ints.length)
    (hk : Keeps S μ₁ μ₂) (hu : Own k μ₁ μ₂ u U) : Two k μ μ₂ l L (m ++ u) (N ++ U) := by
  refine ⟨⟨forall₂_mono k h.1.1 hk, h.1.2⟩, h.2.1.append hk hle hu, fun p hp hp' => ?_⟩
  rw [List.filterMap_append] at hp'
  rcases List.mem_append.mp hp' with hp' | hp'
  · exact h.2.2 p hp hp'
  · have := hu.2.2 p hp'
    have := Own.bound h.1.1 p hp
    omega

/-- the value of a pair -/
def HasPair (μ : Mem K) (x : PairM) (X : Pair) : Prop := HasO μ x.1 X.1 ∧ HasO μ x.2 X.2

theorem forall₂_withB {μ : Mem K} {l : List (Option DRef)} {L : List (Option Dstring)} {d : DRef} {D : Dstring} (h : List.Forall₂ (HasO μ) l L) (hd : HasO μ (some d) (some D)) :
    List.Forall₂ (HasPair μ) (withBM l d) (withB L D) := by
  induction h with
  | nil => exact .nil
  | cons hx _ ih => exact .cons ⟨hx, hd⟩ ih

theorem forall₂_withA {μ : Mem K} {l : List (Option DRef)} {L : List (Option Dstring)} {d : DRef} {D : Dstring} (h : List.Forall₂ (HasO μ) l L) (hd : HasO μ (some d) (some D)) :
    List.Forall₂ (HasPair μ) (withAM d l) (withA D L) := by
  induction h with
  | nil => exact .nil
  | cons hx _ ih => exact .cons ⟨hd, hx⟩ ih

theorem forall₂_prod {μ : Mem K} {l m : List (Option DRef)} {L N : List (Option Dstring)} (h : List.Forall₂ (HasO μ) l L) (h' : List.Forall₂ (HasO μ) m N) :
    List.Forall₂ (HasPair μ) (prodM l m) (prod L N) := by
  unfold prodM prod
  induction h with
  | nil => exact .nil
  | cons hx _ ih =>
    simp only [List.flatMap_cons]
    refine List.rel_append ?_ ih
    clear ih
    induction h' with
    | nil => exact .nil
    | cons hy _ ih' => exact .cons ⟨hx, hy⟩ ih'

/-- The pairs of `B` have the values `V`; their first strings are taken from a list with the values `LA`, their second strings from one with the values `LB`,
whose strings have arrays of their own made since `μ`. -/
def Pools (LA LB : List (Option Dstring)) (μ μ' : Mem K) (B : List PairM) (V : List Pair) : Prop :=
  ∃ pa pb, Two KD μ μ' pa LA pb LB ∧ List.Forall₂ (HasPair μ') B V ∧ ∀ x ∈ B, x.1 ∈ pa ∧ x.2 ∈ pb

theorem Two.ref_left {S : Set ℕ} {μ μ₁ μ₂ : Mem K} {n k : ℕ} {l m : List (Option DRef)} {L N : List (Option Dstring)} {d : DRef} {D : Dstring}
    (h : Two KD μ μ₁ l L m N) (hle : μ.ints.length ≤ μ₁.ints.length) (hk : Keeps S μ₁ μ₂) (e : Dstring.new n (aufbau n k) = .ok D) (hu : Own KD μ₁ μ₂ [some d] [some D]) :
    Two KD μ μ₂ (l ++ [some d]) (L ++ [some ⟨n, aufbau n k⟩]) m N := by
  rw [new_aufbau] at e
  cases e
  exact h.left hle hk hu

theorem Two.ref_right {S : Set ℕ} {μ μ₁ μ₂ : Mem K} {n k : ℕ} {l m : List (Option DRef)} {L N : List (Option Dstring)} {d : DRef} {D : Dstring}
    (h : Two KD μ μ₁ l L m N) (hle : μ.ints.length ≤ μ₁.ints.length) (hk : Keeps S μ₁ μ₂) (e : Dstring.new n (aufbau n k) = .ok D) (hu : Own KD μ₁ μ₂ [some d] [some D]) :
    Two KD μ μ₂ l L (m ++ [some d]) (N ++ [some ⟨n, aufbau n k⟩]) := by
  rw [new_aufbau] at e
  cases e
  exact h.right hle hk hu

theorem mem_withBM {l : List (Option DRef)} {d : DRef} {x : PairM} (h : x ∈ withBM l d) : x.1 ∈ l ∧ x.2 = some d := by
  obtain ⟨a, ha, rfl⟩ := List.mem_map.mp h
  exact ⟨ha, rfl⟩

theorem mem_withAM {l : List (Option DRef)} {d : DRef} {x : PairM} (h : x ∈ withAM d l) : x.1 = some d ∧ x.2 ∈ l := by
  obtain ⟨a, ha, rfl⟩ := List.mem_map.mp h
  exact ⟨rfl, ha⟩

theorem mem_prodM {l m : List (Option DRef)} {x : PairM} (h : x ∈ prodM l m) : x.1 ∈ l ∧ x.2 ∈ m := by
  obtain ⟨a, ha, h⟩ := List.mem_flatMap.mp h
  obtain ⟨b, hb, rfl⟩ := List.mem_map.mp h
  exact ⟨ha, hb⟩

theorem ucis_runs {S : Set ℕ} {μ : Mem K} (n na nb : ℕ) (gs : Bool) : Runs S μ (ucis_basisM n na nb gs) (ucis_basis n na nb gs) fun μ' B V =>
    ∃ sa sb, s_strings n na = .ok sa ∧ s_strings n nb = .ok sb ∧ Pools (sa ++ [some ⟨n, aufbau n na⟩]) (sb ++ [some ⟨n, aufbau n nb⟩]) μ μ' B V := by
  unfold ucis_basisM ucis_basis
  refine Runs.bind' (s_strings_runs trivial) fun μ₁ sa SA h₁ e₁ o₁ => Runs.bind' (s_strings_runs trivial) fun μ₂ sb SB h₂ e₂ o₂ =>
    Runs.bind' newD_own fun μ₃ ra RA h₃ e₃ o₃ => Runs.bind' newD_own fun μ₄ rb RB h₄ e₄ o₄ => Runs.pure ⟨SA, SB, e₁, e₂, sa ++ [some ra], sb ++ [some rb], ?_, ?_, ?_⟩
  · exact ((((Two.nil KD μ μ).left le_rfl h₁ o₁).right h₁.len h₂ o₂).ref_left (h₁.trans h₂).len h₃ e₃ o₃).ref_right (h₁.trans (h₂.trans h₃)).len h₄ e₄ o₄
  · have fa := (List.forall₂_cons.mp (forall₂_mono KD o₃.1 h₄)).1
    have fb := (List.forall₂_cons.mp o₄.1).1
    have fsa := forall₂_mono KD o₁.1 (h₂.trans (h₃.trans h₄))
    have fsb := forall₂_mono KD o₂.1 (h₃.trans h₄)
    refine List.rel_append (List.rel_append ?_ (forall₂_withB fsa fb)) (forall₂_withA fsb fa)
    cases gs
    · exact .nil
    · exact .cons ⟨fa, fb⟩ .nil
  · intro x hx
    simp only [List.mem_append, or_assoc] at hx
    rcases hx with hx | hx | hx
    · cases gs
      · cases hx
      · cases List.mem_singleton.mp hx
        simp
    · obtain ⟨h1, h2⟩ := mem_withBM hx
      simp [h1, h2]
    · obtain ⟨h1, h2⟩ := mem_withAM hx
      simp [h1, h2]

theorem ucisd_runs {S : Set ℕ} {μ : Mem K} (n na nb : ℕ) : Runs S μ (ucisd_basisM n na nb) (ucisd_basis n na nb) fun μ' B V =>
    ∃ sa sb da db, s_strings n na = .ok sa ∧ s_strings n nb = .ok sb ∧ d_strings n na = .ok da ∧ d_strings n nb = .ok db ∧
      Pools (sa ++ da ++ [some ⟨n, aufbau n na⟩]) (sb ++ db ++ [some ⟨n, aufbau n nb⟩]) μ μ' B V := by
  unfold ucisd_basisM ucisd_basis
  refine Runs.bind' (s_strings_runs trivial) fun μ₁ sa SA h₁ e₁ o₁ => Runs.bind' (s_strings_runs trivial) fun μ₂ sb SB h₂ e₂ o₂ =>
    Runs.bind' (d_strings_runs trivial) fun μ₃ da DA h₃ e₃ o₃ => Runs.bind' (d_strings_runs trivial) fun μ₄ db DB h₄ e₄ o₄ =>
    Runs.bind' newD_own fun μ₅ ra RA h₅ e₅ o₅ => Runs.bind' newD_own fun μ₆ rb RB h₆ e₆ o₆ =>
    Runs.pure ⟨SA, SB, DA, DB, e₁, e₂, e₃, e₄, sa ++ da ++ [some ra], sb ++ db ++ [some rb], ?_, ?_, ?_⟩
  · have k₂ := h₁.trans h₂
    have k₃ := k₂.trans h₃
    have k₄ := k₃.trans h₄
    have k₅ := k₄.trans h₅
    exact ((((((Two.nil KD μ μ).left le_rfl h₁ o₁).right h₁.len h₂ o₂).left k₂.len h₃ o₃).right k₃.len h₄ o₄).ref_left k₄.len h₅ e₅ o₅).ref_right k₅.len h₆ e₆ o₆
  · have k₅ := h₆
    have k₄ := h₅.trans k₅
    have k₃ := h₄.trans k₄
    have k₂ := h₃.trans k₃
    have k₁ := h₂.trans k₂
    have fa := (List.forall₂_cons.mp (forall₂_mono KD o₅.1 k₅)).1
    have fb := (List.forall₂_cons.mp o₆.1).1
    have fsa := forall₂_mono KD o₁.1 k₁
    have fsb := forall₂_mono KD o₂.1 k₂
    have fda := forall₂_mono KD o₃.1 k₃
    have fdb := forall₂_mono KD o₄.1 k₄
    exact List.rel_append (List.rel_append (List.rel_append (List.rel_append (List.rel_append (.cons ⟨fa, fb⟩ .nil) (forall₂_withB fsa fb))
      (forall₂_withA fsb fa)) (forall₂_withB fda fb)) (forall₂_withA fdb fa)) (forall₂_prod fsa fsb)
  · intro x hx
    simp only [List.mem_append, or_assoc] at hx ⊢
    rcases hx with hx | hx | hx | hx | hx | hx
    · cases List.mem_singleton.mp hx
      simp
    all_goals first
      | (obtain ⟨h1, h2⟩ := mem_withBM hx; simp [h1, h2])
      | (obtain ⟨h1, h2⟩ := mem_withAM hx; simp [h1, h2])
      | (obtain ⟨h1, h2⟩ := mem_prodM hx; simp [h1, h2])

theorem ucisdt_runs {S : Set ℕ} {μ : Mem K} (n na nb : ℕ) : Runs S μ (ucisdt_basisM n na nb) (ucisdt_basis n na nb) fun μ' B V =>
    ∃ sa sb da db ta tb, s_strings n na = .ok sa ∧ s_strings n nb = .ok sb ∧ d_strings n na = .ok da ∧ d_strings n nb = .ok db ∧
      t_strings n na = .ok ta ∧ t_strings n nb = .ok tb ∧
      Pools (sa ++ da ++ ta ++ [some ⟨n, aufbau n na⟩]) (sb ++ db ++ tb ++ [some ⟨n, aufbau n nb⟩]) μ μ' B V := by
  unfold ucisdt_basisM ucisdt_basis
  refine Runs.bind' (s_strings_runs trivial) fun μ₁ sa SA h₁ e₁ o₁ => Runs.bind' (s_strings_runs trivial) fun μ₂ sb SB h₂ e₂ o₂ =>
    Runs.bind' (d_strings_runs trivial) fun μ₃ da DA h₃ e₃ o₃ => Runs.bind' (d_strings_runs trivial) fun μ₄ db DB h₄ e₄ o₄ =>
    Runs.bind' (t_strings_runs trivial) fun μ₅ ta TA h₅ e₅ o₅ => Runs.bind' (t_strings_runs trivial) fun μ₆ tb TB h₆ e₆ o₆ =>
    Runs.bind' newD_own fun μ₇ ra RA h₇ e₇ o₇ => Runs.bind' newD_own fun μ₈ rb RB h₈ e₈ o₈ =>
    Runs.pure ⟨SA, SB, DA, DB, TA, TB, e₁, e₂, e₃, e₄, e₅, e₆, sa ++ da ++ ta ++ [some ra], sb ++ db ++ tb ++ [some rb], ?_, ?_, ?_⟩
  · have k₂ := h₁.trans h₂
    have k₃ := k₂.trans h₃
    have k₄ := k₃.trans h₄
    have k₅ := k₄.trans h₅
    have k₆ := k₅.trans h₆
    have k₇ := k₆.trans h₇
    exact ((((((((Two.nil KD μ μ).left le_rfl h₁ o₁).right h₁.len h₂ o₂).left k₂.len h₃ o₃).right k₃.len h₄ o₄).left k₄.len h₅ o₅).right k₅.len h₆ o₆).ref_left
      k₆.len h₇ e₇ o₇).ref_right k₇.len h₈ e₈ o₈
  · have k₇ := h₈
    have k₆ := h₇.trans k₇
    have k₅ := h₆.trans k₆
    have k₄ := h₅.trans k₅
    have k₃ := h₄.trans k₄
    have k₂ := h₃.trans k₃
    have k₁ := h₂.trans k₂
    have fa := (List.forall₂_cons.mp (forall₂_mono KD o₇.1 k₇)).1
    have fb := (List.forall₂_cons.mp o₈.1).1
    have fsa := forall₂_mono KD o₁.1 k₁
    have fsb := forall₂_mono KD o₂.1 k₂
    have fda := forall₂_mono KD o₃.1 k₃
    have fdb := forall₂_mono KD o₄.1 k₄
    have fta := forall₂_mono KD o₅.1 k₅
    have ftb := forall₂_mono KD o₆.1 k₆
    exact List.rel_append (List.rel_append (List.rel_append (List.rel_append (List.rel_append (List.rel_append (List.rel_append (List.rel_append
      (List.rel_append (.cons ⟨fa, fb⟩ .nil) (forall₂_withB fsa fb))
      (forall₂_withA fsb fa)) (forall₂_withB fda fb)) (forall₂_withA fdb fa)) (forall₂_prod fsa fsb)) (forall₂_withB fta fb)) (forall₂_withA ftb fa))
      (forall₂_prod fda fsb)) (forall₂_prod fsa fdb)
  · intro x hx
    simp only [List.mem_append, or_assoc] at hx ⊢
    rcases hx with hx | hx | hx | hx | hx | hx | hx | hx | hx | hx
    · cases List.mem_singleton.mp hx
      simp
    all_goals first
      | (obtain ⟨h1, h2⟩ := mem_withBM hx; simp [h1, h2])
      | (obtain ⟨h1, h2⟩ := mem_withAM hx; simp [h1, h2])
      | (obtain ⟨h1, h2⟩ := mem_prodM hx; simp [h1, h2])

theorem ucisdtq_runs {S : Set ℕ} {μ : Mem K} (n na nb : ℕ) : Runs S μ (ucisdtq_basisM n na nb) (ucisdtq_basis n na nb) fun μ' B V =>
    ∃ sa sb da db ta tb qa qb, s_strings n na = .ok sa ∧ s_strings n nb = .ok sb ∧ d_strings n na = .ok da ∧ d_strings n nb = .ok db ∧
      t_strings n na = .ok ta ∧ t_strings n nb = .ok tb ∧ q_strings n na = .ok qa ∧ q_strings n nb = .ok qb ∧
      Pools (sa ++ da ++ ta ++ qa ++ [some ⟨n, aufbau n na⟩]) (sb ++ db ++ tb ++ qb ++ [some ⟨n, aufbau n nb⟩]) μ μ' B V := by
  unfold ucisdtq_basisM ucisdtq_basis
  refine Runs.bind' (s_strings_runs trivial) fun μ₁ sa SA h₁ e₁ o₁ => Runs.bind' (s_strings_runs trivial) fun μ₂ sb SB h₂ e₂ o₂ =>
    Runs.bind' (d_strings_runs trivial) fun μ₃ da DA h₃ e₃ o₃ => Runs.bind' (d_strings_runs trivial) fun μ₄ db DB h₄ e₄ o₄ =>
    Runs.bind' (t_strings_runs trivial) fun μ₅ ta TA h₅ e₅ o₅ => Runs.bind' (t_strings_runs trivial) fun μ₆ tb TB h₆ e₆ o₆ =>
    Runs.bind' (q_strings_runs trivial) fun μ₇ qa QA h₇ e₇ o₇ => Runs.bind' (q_strings_runs trivial) fun μ₈ qb QB h₈ e₈ o₈ =>
    Runs.bind' newD_own fun μ₉ ra RA h₉ e₉ o₉ => Runs.bind' newD_own fun ν rb RB h e o =>
    Runs.pure ⟨SA, SB, DA, DB, TA, TB, QA, QB, e₁, e₂, e₃, e₄, e₅, e₆, e₇, e₈, sa ++ da ++ ta ++ qa ++ [some ra], sb ++ db ++ tb ++ qb ++ [some rb], ?_, ?_, ?_⟩
  · have k₂ := h₁.trans h₂
    have k₃ := k₂.trans h₃
    have k₄ := k₃.trans h₄
    have k₅ := k₄.trans h₅
    have k₆ := k₅.trans h₆
    have k₇ := k₆.trans h₇
    have k₈ := k₇.trans h₈
    have k₉ := k₈.trans h₉
    exact ((((((((((Two.nil KD μ μ).left le_rfl h₁ o₁).right h₁.len h₂ o₂).left k₂.len h₃ o₃).right k₃.len h₄ o₄).left k₄.len h₅ o₅).right k₅.len h₆ o₆).left
      k₆.len h₇ o₇).right k₇.len h₈ o₈).ref_left k₈.len h₉ e₉ o₉).ref_right k₉.len h e o
  · have k₉ := h
    have k₈ := h₉.trans k₉
    have k₇ := h₈.trans k₈
    have k₆ := h₇.trans k₇
    have k₅ := h₆.trans k₆
    have k₄ := h₅.trans k₅
    have k₃ := h₄.trans k₄
    have k₂ := h₃.trans k₃
    have k₁ := h₂.trans k₂
    have fa := (List.forall₂_cons.mp (forall₂_mono KD o₉.1 k₉)).1
    have fb := (List.forall₂_cons.mp o.1).1
    have fsa := forall₂_mono KD o₁.1 k₁
    have fsb := forall₂_mono KD o₂.1 k₂
    have fda := forall₂_mono KD o₃.1 k₃
    have fdb := forall₂_mono KD o₄.1 k₄
    have fta := forall₂_mono KD o₅.1 k₅
    have ftb := forall₂_mono KD o₆.1 k₆
    have fqa := forall₂_mono KD o₇.1 k₇
    have fqb := forall₂_mono KD o₈.1 k₈
    exact List.rel_append (List.rel_append (List.rel_append (List.rel_append (List.rel_append
      (List.rel_append (List.rel_append (List.rel_append (List.rel_append (List.rel_append (List.rel_append (List.rel_append (List.rel_append
      (List.rel_append (.cons ⟨fa, fb⟩ .nil) (forall₂_withB fsa fb))
      (forall₂_withA fsb fa)) (forall₂_withB fda fb)) (forall₂_withA fdb fa)) (forall₂_prod fsa fsb)) (forall₂_withB fta fb)) (forall₂_withA ftb fa))
      (forall₂_prod fda fsb)) (forall₂_prod fsa fdb)) (forall₂_withB fqa fb)) (forall₂_withA fqb fa)) (forall₂_prod fta fsb)) (forall₂_prod fda fdb)) (forall₂_prod fsa ftb)
  · intro x hx
    simp only [List.mem_append, or_assoc] at hx ⊢
    rcases hx with hx | hx | hx | hx | hx | hx | hx | hx | hx | hx | hx | hx | hx | hx | hx
    · cases List.mem_singleton.mp hx
      simp
    all_goals first
      | (obtain ⟨h1, h2⟩ := mem_withBM hx; simp [h1, h2])
      | (obtain ⟨h1, h2⟩ := mem_withAM hx; simp [h1, h2])
      | (obtain ⟨h1, h2⟩ := mem_prodM hx; simp [h1, h2])

/-! ### operators on vectors -/

theorem value_eq {μ : Mem K} {d : DRef} {D : Dstring} (h : HasD μ d D) : d.value μ = (.ok D, μ) := by
  unfold DRef.value
  rw [run_ok (read_eq h.1), h.2]
  rfl

theorem eqO_eq {μ : Mem K} {x : Option DRef} {X : Option Dstring} {y : DRef} {Y : Dstring} (hx : HasO μ x X) (hy : HasD μ y Y) : eqOM x y μ = (eqO X Y, μ) := by
  cases x <;> cases X
  · rfl
  · exact hx.elim
  · exact hx.elim
  · exact (run_ok (value_eq hx) _).trans (run_ok (value_eq hy) _)

theorem index_eq {μ : Mem K} {l : List (Option DRef)} {L : List (Option Dstring)} {y : DRef} {Y : Dstring} (h : List.Forall₂ (HasO μ) l L) (hy : HasD μ y Y) :
    indexM l y μ = (index L Y, μ) := by
  induction h with
  | nil => rfl
  | @cons x X l L hx _ ih =>
    unfold indexM index
    rw [bind_apply, eqO_eq hx hy]
    cases eqO X Y with
    | error e => rfl
    | ok t =>
      cases t
      · change (indexM l y >>= fun k => pure (k + 1)) μ = _
        rw [bind_apply, ih]
        cases hi : index L Y <;> rfl
      · rfl

/-- the rest of the search -/
def indexTail (l : List PairM) (y z : DRef) : M K ℕ := do
  let k ← index2M l y z
  pure (k + 1)

theorem index2_eq {μ : Mem K} {l : List PairM} {L : List Pair} {y z : DRef} {Y Z : Dstring} (h : List.Forall₂ (HasPair μ) l L) (hy : HasD μ y Y) (hz : HasD μ z Z) :
    index2M l y z μ = (index2 L Y Z, μ) := by
  induction h with
  | nil => rfl
  | @cons x X l L hx _ ih =>
    have tail : (indexTail l y z) μ = (do let k ← index2 L Y Z; return k + 1, μ) := by
      change (index2M l y z >>= fun k => pure (k + 1)) μ = _
      rw [bind_apply, ih]
      cases hi : index2 L Y Z <;> rfl
    unfold index2M index2
    rw [bind_apply, eqO_eq hx.1 hy]
    cases eqO X.1 Y with
    | error e => rfl
    | ok t =>
      cases t
      · exact tail
      · change (eqOM x.2 z >>= fun t' => if t' = true then pure 0 else indexTail l y z) μ = _
        rw [bind_apply, eqO_eq hx.2 hz]
        cases hq : eqO X.2 Z with
        | error e => simp [bind, Except.bind]
        | ok t =>
          cases t
          · simpa [bind, Except.bind, hq] using tail
          · simp [bind, Except.bind]; rfl

variable [Field K]

omit [Field K] in
theorem Runs.weaken {μ : Mem K} {o : ℕ} {m : M K α} {r : R β} {post : Mem K → α → β → Prop} (h : Runs {o} μ m r post) (ho : μ.vecs.length ≤ o) : Runs ∅ μ m r post :=
  ⟨⟨h.1.1, h.1.2.1, fun p hp _ => h.1.2.2 p hp (by simp; omega)⟩, h.2⟩

omit [Field K] in
theorem loop_runs {α γ : Type} {Rl : α → γ → Prop} {S : Set ℕ} {o : ℕ} {l : List α} {L : List γ} (hl : List.Forall₂ Rl l L) {f : α → M K Unit}
    {g : γ → List K → R (List K)} {c : List K} {μ : Mem K} (hc : μ.vecs[o]? = some c)
    (h : ∀ x X, Rl x X → ∀ μ' c, Keeps S μ μ' → μ'.vecs[o]? = some c → Runs S μ' (f x) (g X c) fun μ'' _ c' => μ''.vecs[o]? = some c') :
    Runs S μ (loopM l f) (loop L g c) fun μ'' _ c' => μ''.vecs[o]? = some c' := by
  induction hl generalizing μ c with
  | nil => exact Runs.pure hc
  | cons hx _ ih =>
    unfold loopM loop
    exact Runs.bind (h _ _ hx μ c (Keeps.refl ..) hc) fun μ₁ _ c₁ hk hc₁ => ih hc₁ fun x X hX μ' c' hk' hc' => h x X hX μ' c' (hk.trans hk') hc'

theorem addV_runs {S : Set ℕ} {o : ℕ} (ho : o ∈ S) {μ : Mem K} {c : List K} (hc : μ.vecs[o]? = some c) (idx : ℕ) (x : K) :
    Runs S μ (addV o idx x) (addAt c idx x) fun μ' _ c' => μ'.vecs[o]? = some c' := by
  unfold Runs addV
  rw [List.getD_eq_getElem?_getD, hc]
  simp only [Option.getD_some]
  cases addAt c idx x with
  | error e => exact ⟨Keeps.refl .., rfl⟩
  | ok l =>
    have hlt := (List.getElem?_eq_some_iff.mp hc).1
    refine ⟨⟨List.prefix_rfl, by simp, fun p hp hpS => ?_⟩, ?_⟩
    · have : o ≠ p := fun e => hpS (e ▸ ho)
      simp [List.getElem?_set_ne this]
    · change (μ.vecs.set o l)[o]? = some l
      simp [List.getElem?_set_self hlt]

theorem tryAdd_runs {S : Set ℕ} {o : ℕ} (ho : o ∈ S) {μ : Mem K} {c : List K} (hc : μ.vecs[o]? = some c) {m : M K ℕ} {r : R ℕ} (hm : m μ = (r, μ)) (x : K) :
    Runs S μ (tryAddM m o x) (tryAdd r c x) fun μ' _ c' => μ'.vecs[o]? = some c' := by
  unfold Runs tryAddM
  rw [hm]
  cases r with
  | ok k => exact addV_runs ho hc k x
  | error e => cases e <;> first | exact ⟨Keeps.refl .., hc⟩ | exact ⟨Keeps.refl .., rfl⟩

omit [Field K] in
theorem readV_eq {μ : Mem K} {p : ℕ} {l : List K} (h : μ.vecs[p]? = some l) : readV p μ = (.ok l, μ) := by
  simp [readV, List.getD_eq_getElem?_getD, h]

omit [Field K] in
theorem forall₂_enum (v : List K) : List.Forall₂ (fun ix (p : ℕ × K) => p.1 = ix ∧ v[ix]? = some p.2) (List.range v.length) (enum v) := by
  refine List.forall₂_iff_get.mpr ⟨by simp [enum], fun i h1 h2 => ?_⟩
  simp [enum]

theorem forall₂_enum' {α β : Type} {P : α → β → Prop} {l : List α} {L : List β} (h : List.Forall₂ P l L) :
    List.Forall₂ (fun (p : ℕ × α) (q : ℕ × β) => p.1 = q.1 ∧ P p.2 q.2) (enum l) (enum L) := by
  obtain ⟨hl, h⟩ := List.forall₂_iff_get.mp h
  refine List.forall₂_iff_get.mpr ⟨by simp [enum, hl], fun i h1 h2 => ?_⟩
  simp only [enum, List.length_map, List.length_zipIdx] at h1 h2
  simpa [enum] using h i h1 h2

/-- The common frame: a new array of zeros, a loop writing into it only. -/
theorem out_runs {μ : Mem K} {v : List K} {f : ℕ → M K Unit} {r : R (List K)}
    (h : ∀ μ', μ' = { μ with vecs := μ.vecs ++ [List.replicate v.length 0] } → Runs {μ.vecs.length} μ' (f μ.vecs.length) r fun μ'' _ c' => μ''.vecs[μ.vecs.length]? = some c') :
    Runs ∅ μ (do let out ← allocV (List.replicate v.length 0); f out; pure out) r fun μ' out w => μ'.vecs[out]? = some w ∧ μ.vecs.length ≤ out := by
  refine Runs.weaken (o := μ.vecs.length) ?_ le_rfl
  have hk : Keeps {μ.vecs.length} μ { μ with vecs := μ.vecs ++ [List.replicate v.length (0 : K)] } :=
    ⟨List.prefix_rfl, by simp, fun p hp _ => by simp [List.getElem?_append_left hp]⟩
  refine Runs.step (x := μ.vecs.length) (μ' := { μ with vecs := μ.vecs ++ [List.replicate v.length (0 : K)] }) rfl hk ?_
  have hb : r = (r >>= fun c => .ok c) := by cases r <;> rfl
  rw [hb]
  exact Runs.bind (h _ rfl) fun _ _ _ _ hc => Runs.pure ⟨hc, le_rfl⟩

theorem overVec_runs {μ : Mem K} {vec : ℕ} {v : List K} (hv : μ.vecs[vec]? = some v) {f : ℕ → ℕ → K → M K Unit} {g : ℕ × K → List K → R (List K)}
    (h : ∀ o ix x μ' c, Keeps ∅ μ μ' → μ'.vecs[o]? = some c → Runs {o} μ' (f o ix x) (g (ix, x) c) fun μ'' _ c' => μ''.vecs[o]? = some c') :
    Runs ∅ μ (overVec vec f) (loop (enum v) g (zeros v)) fun μ' out w => μ'.vecs[out]? = some w ∧ μ.vecs.length ≤ out := by
  unfold overVec
  refine Runs.step (readV_eq hv) (Keeps.refl ..) (out_runs ?_)
  rintro μ₁ rfl
  have hlt := (List.getElem?_eq_some_iff.mp hv).1
  refine loop_runs (forall₂_enum v) (by simp [zeros]) ?_
  rintro ix ⟨_, x⟩ ⟨rfl, hx⟩ μ' c hk hc
  have hvk : μ'.vecs[vec]? = some v := hk.vec (by simp; omega) (by simpa [List.getElem?_append_left hlt] using hv)
  refine Runs.step (readV_eq hvk) (Keeps.refl ..) ?_
  refine Runs.step (x := x) (μ' := μ') (by simp only [lift, get] at *; rw [hx]) (Keeps.refl ..) ?_
  refine h _ _ x μ' c ⟨hk.1, by have := hk.2.1; simp at this; omega, fun p hp _ => ?_⟩ hc
  rw [hk.2.2 p (by simp; omega) (by simp; omega)]
  simp [List.getElem?_append_left hp]

omit [Field K] in
theorem forall₂_get {α β : Type} {P : α → β → Prop} {l : List α} {L : List β} (h : List.Forall₂ P l L) (ix : ℕ) {S : Set ℕ} {μ : Mem K} :
    Runs S μ (lift (get l ix)) (get L ix) fun μ' x X => μ' = μ ∧ P x X := by
  have hlen := h.length_eq
  by_cases hi : ix < l.length
  · have h1 : get l ix = .ok l[ix] := by simp [get, hi]
    have h2 : get L ix = .ok (L[ix]'(hlen ▸ hi)) := by simp [get, hlen ▸ hi]
    rw [h1, h2]
    exact ⟨Keeps.refl .., rfl, (List.forall₂_iff_get.mp h).2 ix hi (hlen ▸ hi)⟩
  · have h1 : get l ix = .error .index := by simp [get, hi]
    have h2 : get L ix = .error .index := by simp [get, hlen ▸ hi]
    rw [h1, h2]
    exact ⟨Keeps.refl .., rfl⟩

end Memo
end CI
