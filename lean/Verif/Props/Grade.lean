import Verif.Props.RotRun
import Verif.Spec.Select
import Mathlib.Tactic.Abel
/-!
# Programs and selection rules

Every orbital carries an element of a commutative group (an irreducible representation of an Abelian point group, a crystal momentum, a spin
projection).  A tensor obeys the selection rule when its elements vanish unless the sum over the bra axes is the sum over the
ket axes.  A program whose `einsum`s contract bra axes with ket axes only keeps this rule; the check is that of `Props/Rotate`.
-/

namespace Heap
open CC
variable {X : ℕ → Type} {K A : Type} [Field K] [AddCommGroup A]
variable (deg : (k : ℕ) → X k → A)

/-- the label of an index, for bra axes (`true`) and ket axes -/
def lab (v : Bool) : Option ((k : ℕ) × X k) → A
  | some ⟨k, x⟩ => if v then deg k x else -deg k x
  | none => 0

/-- the sum of the labels -/
def charge (vs : List Bool) (os : List (Option ((k : ℕ) × X k))) : A := (List.zipWith (lab deg) vs os).sum

/-- the selection rule -/
def Obeys (p : List Bool × Ten X K) : Prop :=
  p.1.length = p.2.shape.length ∧ ∀ os, Fits os p.2.shape → Cur.at p.2.shape p.2.val os ≠ 0 → charge deg p.1 os = 0

/-- the sum of the labels of all axes -/
def occSum (ρ : TEnv X) (P : List Occ) : A := (P.map fun e => lab deg e.v (ρ e.l)).sum

theorem occSum_append (ρ : TEnv X) (P Q : List Occ) : occSum deg ρ (P ++ Q) = occSum deg ρ P + occSum deg ρ Q := by
  simp [occSum]

theorem occSum_op (ρ : TEnv X) {p : ℕ} {ls s : List ℕ} {vs : List Bool} (h : ls.length = s.length) (hv : vs.length = s.length) :
    occSum deg ρ (opOcc p ls s vs) = charge deg vs (ls.map ρ) := by
  induction s generalizing p ls vs with
  | nil =>
    obtain rfl := List.length_eq_zero_iff.mp h
    obtain rfl := List.length_eq_zero_iff.mp hv
    rfl
  | cons k s ih =>
    cases ls with
    | nil => simp at h
    | cons l ls =>
      cases vs with
      | nil => simp at hv
      | cons v vs =>
        have := ih (p := p + 1) (ls := ls) (vs := vs) (by simpa using h) (by simpa using hv)
        simp only [charge, occSum] at this
        simp [opOcc, occSum, charge, this]

theorem occSum_split (ρ : TEnv X) {L : List ℕ} (hL : L.Nodup) {P : List Occ} (h : ∀ e ∈ P, e.l ∈ L) :
    occSum deg ρ P = (L.map fun l => occSum deg ρ (P.filter fun e => e.l = l)).sum := by
  induction P with
  | nil => simp [occSum]
  | cons e P ih =>
    have h1 : e.l ∈ L := h e (by simp)
    have key : ∀ l, occSum deg ρ ((e :: P).filter fun e => e.l = l)
        = (if l = e.l then lab deg e.v (ρ e.l) else 0) + occSum deg ρ (P.filter fun e => e.l = l) := fun l => by
      by_cases hl : e.l = l
      · subst hl
        rw [List.filter_cons_of_pos (by simp), if_pos rfl]; simp [occSum]
      · rw [List.filter_cons_of_neg (by simpa using hl), if_neg (fun h => hl h.symm), zero_add]
    simp only [key]
    rw [show occSum deg ρ (e :: P) = lab deg e.v (ρ e.l) + occSum deg ρ P by simp [occSum], ih fun e he => h e (by simp [he])]
    have hs : ∀ f g : ℕ → A, (L.map fun l => f l + g l).sum = (L.map f).sum + (L.map g).sum := fun f g => by
      exact List.sum_map_add
    rw [hs]
    congr 1
    clear ih key hs h
    induction L with
    | nil => simp at h1
    | cons l L ih =>
      rw [List.nodup_cons] at hL
      rw [List.map_cons, List.sum_cons]
      by_cases hl : l = e.l
      · rw [if_pos hl, List.sum_eq_zero, add_zero]
        intro x hx
        obtain ⟨l', hl', rfl⟩ := List.mem_map.mp hx
        rw [if_neg]; rintro rfl; exact hL.1 (hl ▸ hl')
      · rw [if_neg hl, zero_add]
        exact ih hL.2 ((List.mem_cons.1 h1).resolve_left fun h => hl h.symm)

variable [∀ k, Fintype (X k)]

theorem tenSum_zero (D : List (ℕ × ℕ)) (ρ : TEnv X) : tenSum D (fun _ => (0 : K)) ρ = 0 := by
  induction D generalizing ρ with
  | nil => rfl
  | cons d D ih => simp [tenSum, ih]

theorem tenMul_obeys {ρ : TEnv X} {p : ℕ} {ins : List (List ℕ)} {as : List (List Bool × Ten X K)} (h : ∀ a ∈ as, Obeys deg a)
    (hb : Binds ρ ins (as.map fun a => a.2.shape)) (hne : tenMul 1 ins (as.map Prod.snd) ρ ≠ 0) :
    occSum deg ρ (allOcc p ins (as.map fun a => (a.1, a.2.shape))) = 0 := by
  induction as generalizing p ins with
  | nil => cases ins <;> simp [allOcc, occSum]
  | cons a as ih =>
    cases ins with
    | nil => simp [allOcc, occSum]
    | cons ls ins =>
      simp only [Binds, List.map_cons, List.forall₂_cons] at hb
      simp only [List.map_cons, tenMul, one_mul] at hne
      rw [tenMul_lin] at hne
      have h1 := h a (by simp)
      have hz := h1.2 _ (fits_of hb.1) (by rw [← app_at]; exact left_ne_zero_of_mul hne)
      simp only [List.map_cons, allOcc, occSum_append]
      rw [occSum_op deg ρ hb.1.length_eq h1.1, hz, ih (fun a ha => h a (by simp [ha])) hb.2 (right_ne_zero_of_mul hne), add_zero]

theorem ein_obeys {ins : List (List ℕ)} {out : List ℕ} {as : List (List Bool × Ten X K)} (h : ∀ a ∈ as, Obeys deg a)
    {c : List Bool × Ten X K} (hc : rotEin ins out as = .ok c) : Obeys deg c := by
  unfold rotEin at hc
  have hmap : (as.map Prod.snd).map Ten.shape = as.map fun a => a.2.shape := by simp [Function.comp_def]
  unfold tenEin at hc
  rw [hmap] at hc
  cases he : einShape ins out (as.map fun a => a.2.shape) with
  | none => rw [he] at hc; simp at hc
  | some sD =>
    obtain ⟨s, D⟩ := sD
    rw [he] at hc
    simp only at hc
    unfold einShape at he
    cases hE : allDims ins (as.map fun a => a.2.shape) [] with
    | none => rw [hE] at he; simp at he
    | some E =>
      rw [hE] at he
      simp only at he
      cases ho : outDims E out with
      | none => rw [ho] at he; simp at he
      | some s' =>
        rw [ho] at he
        simp only [Option.some.injEq, Prod.mk.injEq] at he
        obtain ⟨rfl, rfl⟩ := he
        obtain ⟨hEn, -, hins⟩ := allDims_spec hE (by simp)
        obtain ⟨hon, hos⟩ := outDims_spec ho
        split at hc
        · next vs hov hsv =>
          cases hc
          have hpair : ((as.map fun a => (a.1, a.2.shape)).map Prod.snd) = as.map fun a => a.2.shape := by simp [Function.comp_def]
          have hk := allOcc_kind (p := 0) (by rw [hpair]; exact hins)
          obtain ⟨hvl, h1⟩ := outVars_spec hk hov hos
          set D := E.filter fun d => !out.contains d.1 with hDdef
          have h2 := sumVars_spec hk hEn hsv fun d hd => List.mem_of_mem_filter hd
          have hDn : (D.map Prod.fst).Nodup := hEn.sublist (List.filter_sublist.map _)
          have hdisj : (out ++ D.map Prod.fst).Nodup := by
            rw [List.nodup_append]
            refine ⟨hon, hDn, ?_⟩
            rintro a ha b hb rfl
            obtain ⟨d, hd, rfl⟩ := List.mem_map.1 hb
            have := (List.mem_filter.1 hd).2
            simp at this
            exact this ha
          have hall : ∀ e ∈ allOcc 0 ins (as.map fun a => (a.1, a.2.shape)), e.l ∈ out ++ D.map Prod.fst := by
            intro e he
            rw [List.mem_append]
            by_cases hlo : e.l ∈ out
            · exact .inl hlo
            · exact .inr (List.mem_map.2 ⟨_, List.mem_filter.2 ⟨mem_of_lookup (hk e he), by simpa using hlo⟩, rfl⟩)
          refine ⟨hvl, fun os hfit hne => ?_⟩
          have hlen := hos.length_eq
          simp only at hne hfit ⊢
          rw [at_of _ _ hlen hfit] at hne
          by_contra hch
          refine hne ?_
          rw [← tenSum_zero (K := K) D (bindO out os fun _ => none)]
          refine tenSum_congr hDn fun ρ' h3 h4 => ?_
          rw [tenProd_eq_tenMul]
          by_contra hz
          have hb : Binds ρ' ins (as.map fun a => a.2.shape) := by
            refine hins.imp fun ls s hls => hls.imp fun l k hl => ?_
            by_cases hlo : l ∈ out
            · rw [h3 l fun hm => (List.nodup_append.1 hdisj).2.2 l hlo l hm rfl]
              obtain ⟨j, hj⟩ := List.mem_iff_getElem?.1 hlo
              obtain ⟨k', hk', h'⟩ := forall₂_getElem? hos hj
              rw [hl] at h'
              cases h'
              obtain ⟨o, ho', y, rfl⟩ := forall₂_getElem? (hfit.flip) hk'
              refine ⟨y, ?_⟩
              have := bindO_map (ρ := fun _ => none) hon hlen hfit
              have h5 : (out.map (bindO out os fun _ => none))[j]? = some (some ⟨k, y⟩) := by rw [this]; exact ho'
              rw [List.getElem?_map, hj] at h5
              simpa using h5
            · exact h4 (l, k) (List.mem_filter.2 ⟨mem_of_lookup hl, by simpa using hlo⟩)
          have hsum := tenMul_obeys deg (p := 0) h hb hz
          rw [occSum_split deg ρ' hdisj hall, List.map_append, List.sum_append] at hsum
          have hD0 : ((D.map Prod.fst).map fun l => occSum deg ρ' ((allOcc 0 ins (as.map fun a => (a.1, a.2.shape))).filter
              fun e => e.l = l)).sum = 0 := by
            apply List.sum_eq_zero
            intro x hx
            rw [List.map_map] at hx
            obtain ⟨d, hd, rfl⟩ := List.mem_map.mp hx
            obtain ⟨p, v, p', v', he, hv⟩ := h2 d hd
            obtain ⟨z, hz⟩ := h4 d hd
            simp only [Function.comp, he, occSum, List.map_cons, List.map_nil, List.sum_cons, List.sum_nil, hz, lab, add_zero]
            cases v <;> cases v' <;> simp_all
          rw [hD0, add_zero] at hsum
          apply hch
          have hmo : out.map ρ' = os := by
            rw [← bindO_map (ρ := fun _ => none) hon hlen hfit]
            refine List.map_congr_left fun l hl => h3 l fun hm => (List.nodup_append.1 hdisj).2.2 l hl l hm rfl
          rw [← hsum, ← hmo, charge]
          congr 1
          clear * - h1 hvl
          induction vs generalizing out s' with
          | nil =>
            obtain rfl := List.length_eq_zero_iff.mp hvl.symm
            simp only [List.zip_nil_left, List.forall₂_nil_right_iff] at h1
            subst h1; rfl
          | cons v vs ih =>
            cases s' with
            | nil => simp at hvl
            | cons k s' =>
              cases out with
              | nil => simp at h1
              | cons l out =>
                simp only [List.zip_cons_cons, List.forall₂_cons] at h1
                obtain ⟨⟨p, hp⟩, h1⟩ := h1
                simp only [List.map_cons, List.zipWith_cons_cons, hp, occSum, List.map_nil, List.sum_cons, List.sum_nil, add_zero]
                congr 1
                exact ih _ (by simpa using hvl) h1
        · cases hc

omit [∀ k, Fintype (X k)] in
theorem bin_obeys (o : Op) {a b c : List Bool × Ten X K} (ha : Obeys deg a) (hb : Obeys deg b) (hc : rotBin o a b = .ok c) :
    Obeys deg c := by
  obtain ⟨va, s, f⟩ := a
  obtain ⟨vb, s', g⟩ := b
  obtain ⟨ha1, ha⟩ := ha
  obtain ⟨hb1, hb⟩ := hb
  simp only at ha1 ha hb1 hb
  have key : ∀ (φ : K → K → K), φ 0 0 = 0 → ∀ (g : Cur X K s), (∀ os, Fits os s → Cur.at s g os ≠ 0 → charge deg va os = 0) →
      Obeys deg (va, ⟨s, Cur.zip φ s f g⟩) := fun φ h0 g hg => by
    refine ⟨ha1, fun os hos hne => ?_⟩
    simp only at hos hne ⊢
    rw [at_zip _ _ _ hos] at hne
    by_cases h1 : Cur.at s f os = 0
    · by_cases h2 : Cur.at s g os = 0
      · rw [h1, h2, h0] at hne; exact absurd rfl hne
      · exact hg os hos h2
    · exact ha os hos h1
  cases o with
  | mul =>
    cases s with
    | nil =>
      simp only [rotBin, tenBin, true_or, if_true, Except.ok.injEq] at hc
      subst hc
      refine ⟨hb1, fun os hos hne => ?_⟩
      simp only at hos hne ⊢
      rw [at_map _ _ hos] at hne
      exact hb os hos (right_ne_zero_of_mul hne)
    | cons k s =>
      cases s' with
      | nil =>
        simp only [rotBin, tenBin, or_true, if_true, reduceCtorEq, if_false, Except.ok.injEq] at hc
        subst hc
        refine ⟨ha1, fun os hos hne => ?_⟩
        simp only at hos hne ⊢
        rw [at_map _ _ hos] at hne
        exact ha os hos (left_ne_zero_of_mul hne)
      | cons k' s' =>
        simp only [rotBin, tenBin] at hc
        split_ifs at hc <;> simp_all
  | add | sub =>
    cases s with
    | nil =>
      cases s' with
      | nil =>
        simp only [rotBin, tenBin] at hc
        split_ifs at hc with h
        · cases hc
          refine ⟨ha1, fun os hos hne => ?_⟩
          obtain rfl := List.length_eq_zero_iff.mp ha1
          simp [charge]
      | cons k' s' => simp [rotBin, tenBin] at hc
    | cons k s =>
      cases s' with
      | nil => simp [rotBin, tenBin] at hc
      | cons k' s' =>
        simp only [rotBin, tenBin] at hc
        split_ifs at hc with h1 h3
        · cases h1
          cases hc
          obtain ⟨rfl, -⟩ := h3
          exact key _ (by simp [opVal]) _ hb

omit [∀ k, Fintype (X k)] in
theorem transp_obeys (p : List ℕ) {a c : List Bool × Ten X K} (ha : Obeys deg a) (hc : rotTransp p a = .ok c) : Obeys deg c := by
  obtain ⟨vs, s, f⟩ := a
  obtain ⟨h1, h3⟩ := ha
  simp only at h1 h3
  simp only [rotTransp, tenTransp] at hc
  cases hs : transpShape p s with
  | none => rw [hs] at hc; simp at hc
  | some u =>
    rw [hs] at hc
    simp only [Except.ok.injEq] at hc
    subst hc
    unfold transpShape at hs
    split_ifs at hs with hp
    simp only [Option.some.injEq] at hs
    have hsub : List.range s.length ⊆ p := by
      intro y hy
      have := List.all_eq_true.1 hp.2 y hy
      simpa using this
    have hperm : (List.range s.length).Perm p := (List.nodup_range.subperm hsub).perm_of_length_le (by simp [hp.1])
    have hnd : p.Nodup := hperm.nodup_iff.1 List.nodup_range
    have hlen : p.length = u.length := by rw [← hs]; simp
    refine ⟨by simp [hlen], fun os hos hne => ?_⟩
    simp only at hos hne ⊢
    rw [at_of _ _ hlen hos, app_at] at hne
    have hb := bindO_map (ρ := fun _ => none) hnd hlen hos
    have hz := h3 _ (by
      unfold Fits
      rw [List.forall₂_map_left_iff, List.forall₂_iff_get]
      refine ⟨by simp [hp.1], fun x hx1 hx2 => ?_⟩
      simp only [List.get_eq_getElem, List.getElem_range]
      have hxp : x ∈ p := hperm.mem_iff.1 (by simpa using hx2)
      obtain ⟨j, hj⟩ := List.mem_iff_getElem?.1 hxp
      have hu : u[j]? = some s[x] := by
        rw [← hs, List.getElem?_map, hj]
        simp [List.getD_eq_getElem?_getD, List.getElem?_eq_getElem hx2]
      obtain ⟨o, ho', y, rfl⟩ := forall₂_getElem? (hos.flip) hu
      refine ⟨y, ?_⟩
      have h5 : (p.map (bindO p os fun _ => none))[j]? = some (some ⟨s[x], y⟩) := by rw [hb]; exact ho'
      rw [List.getElem?_map, hj] at h5
      simpa using h5) hne
    set ρ := bindO p os fun _ => none
    have hz' : ((List.range p.length).map fun x => lab deg (vs.getD x false) (ρ x)).sum = 0 := by
      rw [← hz, charge]
      congr 1
      have : vs = (List.range p.length).map fun x => vs.getD x false := by
        apply List.ext_getElem
        · simp [h1, hp.1]
        · intro i h1 h2; simp [h1]
      conv_rhs => rw [this]
      rw [List.zipWith_map, List.zipWith_self]
    rw [charge]
    conv_lhs => rw [← hb]
    rw [List.zipWith_map, List.zipWith_self, ← hz', hp.1]
    exact (hperm.symm.map _).sum_eq

/-- Programs that pass the check keep the selection rule. -/
theorem obeys_sim : Sim (RE fun _ => False) (sorted (X := X) (K := K)) sorted (fun a b => a = b ∧ Obeys deg a) where
  lit p q := ⟨rfl, rfl, fun os _ _ => by simp [sorted, charge]⟩
  ein ins out as bs h := by
    have e : as = bs := by
      induction h with
      | nil => rfl
      | cons h _ ih => rw [h.1, ih]
    subst e
    cases hc : (sorted (X := X) (K := K)).ein ins out as with
    | ok c =>
      refine ⟨c, rfl, rfl, ein_obeys deg (fun a ha => ?_) hc⟩
      obtain ⟨j, hj⟩ := List.mem_iff_getElem?.1 ha
      obtain ⟨_, _, _, h'⟩ := forall₂_getElem? h hj
      exact h'
    | error e => exact False.elim
  bin o a b a' b' ha hb := by
    obtain ⟨rfl, ha⟩ := ha
    obtain ⟨rfl, hb⟩ := hb
    cases hc : (sorted (X := X) (K := K)).bin o a b with
    | ok c => exact ⟨c, rfl, rfl, bin_obeys deg o ha hb hc⟩
    | error e => exact False.elim
  aug o a b a' b' ha hb := by
    obtain ⟨rfl, ha⟩ := ha
    obtain ⟨rfl, hb⟩ := hb
    cases hc : (sorted (X := X) (K := K)).aug o a b with
    | ok c =>
      refine ⟨c, rfl, rfl, ?_⟩
      simp only [sorted, rotAug] at hc
      split at hc
      · cases hc
      · exact bin_obeys deg _ ha hb hc
    | error e => exact False.elim
  neg a a' h := by
    obtain ⟨rfl, h⟩ := h
    refine ⟨rfl, h.1, fun os hos hne => ?_⟩
    simp only [tensors, sorted] at hos hne ⊢
    rw [at_map _ _ hos] at hne
    exact h.2 os hos fun h0 => hne (by rw [h0, neg_zero])
  cast a b a' b' ha _ := ⟨a', rfl, ha⟩
  transp p a a' h := by
    obtain ⟨rfl, h⟩ := h
    cases hc : (sorted (X := X) (K := K)).transp p a with
    | ok c => exact ⟨c, rfl, rfl, transp_obeys deg p h hc⟩
    | error e => exact False.elim

theorem obeys_run (f : Fun) {as cs : List (List Bool × Ten X K)} (h1 : f.nrun sorted as = .ok cs) (h : ∀ a ∈ as, Obeys deg a) :
    ∀ c ∈ cs, Obeys deg c := by
  have hs : List.Forall₂ (fun a b => a = b ∧ Obeys deg a) as as := List.forall₂_same.2 fun a ha => ⟨rfl, h a ha⟩
  have s := nrun_sim (RE.lifts _) (obeys_sim deg) f hs
  rw [h1] at s
  obtain ⟨_, hb, hr⟩ := s
  cases hb
  intro c hc
  obtain ⟨j, hj⟩ := List.mem_iff_getElem?.1 hc
  obtain ⟨_, _, _, h'⟩ := forall₂_getElem? hr hj
  exact h'

/-! ### the arguments and results of the routines -/

omit [∀ k, Fintype (X k)] in
theorem obeys_num (x : K) : Obeys deg (snum (X := X) x) := ⟨rfl, fun os _ _ => by simp [charge]⟩

omit [∀ k, Fintype (X k)] in
theorem obeys_two {k l : ℕ} (f : X k → X l → K) : Obeys deg (stwo k l f) ↔ Allowed2 (deg k) (deg l) f := by
  constructor
  · intro h x y hne
    have := h.2 [some ⟨k, x⟩, some ⟨l, y⟩] (.cons ⟨x, rfl⟩ (.cons ⟨y, rfl⟩ .nil)) (by simpa [Cur.at] using hne)
    simpa [charge, lab, ← sub_eq_add_neg, sub_eq_zero] using this
  · intro h
    refine ⟨rfl, fun os hos hne => ?_⟩
    cases hos with
    | cons h1 hos =>
      cases hos with
      | cons h2 hos =>
        cases hos
        obtain ⟨x, rfl⟩ := h1
        obtain ⟨y, rfl⟩ := h2
        have := h x y (by simpa [Cur.at] using hne)
        simpa [charge, lab, ← sub_eq_add_neg, sub_eq_zero] using this

omit [∀ k, Fintype (X k)] in
theorem obeys_sorts {k l m n : ℕ} {s₁ s₂ s₃ s₄ : Bool} (f : X k → X l → X m → X n → K) :
    Obeys deg ([s₁, s₂, s₃, s₄], ⟨[k, l, m, n], f⟩) ↔ ∀ x y z w, f x y z w ≠ 0 →
      lab deg s₁ (some ⟨k, x⟩) + (lab deg s₂ (some ⟨l, y⟩) + (lab deg s₃ (some ⟨m, z⟩) + lab deg s₄ (some ⟨n, w⟩))) = 0 := by
  constructor
  · intro h x y z w hne
    have := h.2 [some ⟨k, x⟩, some ⟨l, y⟩, some ⟨m, z⟩, some ⟨n, w⟩] (.cons ⟨x, rfl⟩ (.cons ⟨y, rfl⟩ (.cons ⟨z, rfl⟩ (.cons ⟨w, rfl⟩ .nil))))
      (by simpa [Cur.at] using hne)
    simpa [charge] using this
  · intro h
    refine ⟨rfl, fun os hos hne => ?_⟩
    cases hos with
    | cons h1 hos =>
      cases hos with
      | cons h2 hos =>
        cases hos with
        | cons h3 hos =>
          cases hos with
          | cons h4 hos =>
            cases hos
            obtain ⟨x, rfl⟩ := h1
            obtain ⟨y, rfl⟩ := h2
            obtain ⟨z, rfl⟩ := h3
            obtain ⟨w, rfl⟩ := h4
            have := h x y z w (by simpa [Cur.at] using hne)
            simpa [charge] using this

omit [∀ k, Fintype (X k)] in
theorem obeys_four {k l m n : ℕ} (f : X k → X l → X m → X n → K) :
    Obeys deg (sfour k l m n f) ↔ Allowed4 (deg k) (deg l) (deg m) (deg n) f := by
  rw [obeys_sorts]
  refine forall_congr' fun x => forall_congr' fun y => forall_congr' fun z => forall_congr' fun w => imp_congr_right fun _ => ?_
  simp only [lab, if_true, Bool.false_eq_true, if_false]
  rw [← sub_eq_zero (a := deg k x + deg l y)]
  refine Eq.congr ?_ rfl
  abel

omit [∀ k, Fintype (X k)] in
theorem obeys_ring1 {k l m n : ℕ} (f : X k → X l → X m → X n → K) :
    Obeys deg (sring true k l m n f) ↔ ∀ i j a b, f i j a b ≠ 0 → deg k i + deg n b = deg l j + deg m a := by
  rw [obeys_sorts]
  refine forall_congr' fun x => forall_congr' fun y => forall_congr' fun z => forall_congr' fun w => imp_congr_right fun _ => ?_
  simp only [lab, if_true, Bool.false_eq_true, if_false, Bool.not_true]
  rw [← sub_eq_zero (a := deg k x + deg n w)]
  refine Eq.congr ?_ rfl
  abel

omit [∀ k, Fintype (X k)] in
theorem obeys_ring2 {k l m n : ℕ} (f : X k → X l → X m → X n → K) :
    Obeys deg (sring false k l m n f) ↔ ∀ i j a b, f i j a b ≠ 0 → deg l j + deg m a = deg k i + deg n b := by
  rw [obeys_sorts]
  refine forall_congr' fun x => forall_congr' fun y => forall_congr' fun z => forall_congr' fun w => imp_congr_right fun _ => ?_
  simp only [lab, if_true, Bool.false_eq_true, if_false, Bool.not_false]
  rw [← sub_eq_zero (a := deg l y + deg m z)]
  refine Eq.congr ?_ rfl
  abel

/-- labels of the orbitals of the kinds 0 to 3 -/
def degs {O V P Q : Type} (o : O → A) (v : V → A) (p : P → A) (q : Q → A) : ∀ k, fam O V P Q k → A
  | 0 => o
  | 1 => v
  | 2 => p
  | _ + 3 => q

end Heap
