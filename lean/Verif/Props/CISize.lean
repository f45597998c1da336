import Verif.Props.CIQuad
import Verif.Props.CIVib
import Mathlib.Data.Nat.Choose.Sum
import Mathlib.Data.Nat.Choose.Vandermonde
import Mathlib.Tactic.IntervalCases
/-!
# C90: how many determinants the lists hold
-/
namespace CI
open Fock

/-! ### k-fold excitations -/

/-- A list of the `k`-fold excitations of a determinant holds one entry for each choice of `k` occupied and `k` empty orbitals. -/
theorem C90_enumerates {L : List (Option Dstring)} {ref : Dstring} {k : ℕ} (hr : IsDet ref) (h : Enumerates L ref k) :
    L.length = (supp ref).card.choose k * (ref.n - (supp ref).card).choose k := by
  have hS := supp_subset ref
  have e := ofSet_supp hr
  have hL : L.toFinset = ((supp ref).powersetCard k ×ˢ (Finset.range ref.n \ supp ref).powersetCard k).image
      fun p => some (ofSet ref.n (repl (supp ref) p.1 p.2)) := by
    ext x
    rw [List.mem_toFinset, h.2, Finset.mem_image]
    have hx := fun d => excitation_iff (k := k) (d := d) hS
    rw [e] at hx
    constructor
    · rintro ⟨d, rfl, hd⟩
      obtain ⟨I, A, h1, h2, h3, h4, h5, rfl⟩ := (hx d).mp hd
      refine ⟨(I, A), ?_, rfl⟩
      rw [Finset.mem_product, Finset.mem_powersetCard, Finset.mem_powersetCard, Finset.subset_sdiff]
      exact ⟨⟨h1, h4⟩, ⟨h2, h3.symm⟩, h5⟩
    · rintro ⟨⟨I, A⟩, hp, rfl⟩
      rw [Finset.mem_product, Finset.mem_powersetCard, Finset.mem_powersetCard, Finset.subset_sdiff] at hp
      obtain ⟨⟨h1, h4⟩, ⟨h2, h3⟩, h5⟩ := hp
      exact ⟨_, rfl, (hx _).mpr ⟨I, A, h1, h2, h3.symm, h4, h5, rfl⟩⟩
  rw [← List.toFinset_card_of_nodup h.1, hL, Finset.card_image_of_injOn, Finset.card_product, Finset.card_powersetCard, Finset.card_powersetCard,
    Finset.card_sdiff_of_subset hS, Finset.card_range]
  rintro ⟨I, A⟩ hp ⟨I', A'⟩ hq hpq
  simp only [Finset.coe_product, Set.mem_prod, Finset.mem_coe, Finset.mem_powersetCard, Finset.subset_sdiff] at hp hq
  have := repl_inj hS hp.2.1.1 hq.2.1.1 hp.1.1 hq.1.1 hp.2.1.2.symm hq.2.1.2.symm (Option.some.inj hpq)
  rw [this.1, this.2]

theorem card_aufbau_min (n k : ℕ) : (supp ⟨n, aufbau n k⟩).card = min k n := by rw [supp_aufbau, Finset.card_range]

/-- C90: the lengths of `s_strings`, `d_strings`, `t_strings` with `m` electrons in `n ≥ m` orbitals. -/
theorem C90_strings {n m : ℕ} (h : m ≤ n) :
    (∃ L, s_strings n m = .ok L ∧ L.length = m * (n - m)) ∧
    (∃ L, d_strings n m = .ok L ∧ L.length = m.choose 2 * (n - m).choose 2) ∧
    (∃ L, t_strings n m = .ok L ∧ L.length = m.choose 3 * (n - m).choose 3) := by
  obtain ⟨⟨L1, h1, e1⟩, ⟨L2, h2, e2⟩, ⟨L3, h3, e3⟩⟩ := C32_default n m
  have hd := isDet_aufbau n m
  have hm : min m n = m := min_eq_left h
  refine ⟨⟨L1, h1, ?_⟩, ⟨L2, h2, ?_⟩, ⟨L3, h3, ?_⟩⟩
  · rw [C90_enumerates hd e1, card_aufbau_min, hm, Nat.choose_one_right, Nat.choose_one_right]
  · rw [C90_enumerates hd e2, card_aufbau_min, hm]
  · rw [C90_enumerates hd e3, card_aufbau_min, hm]

/-! ### quadruple excitations -/

/-- the elements above `x` -/
def above (V : Finset ℕ) (x : ℕ) : Finset ℕ := V.filter (x < ·)

theorem above_above {V : Finset ℕ} {x y : ℕ} (h : x ≤ y) : above (above V x) y = above V y := by
  ext z; simp only [above, Finset.mem_filter]
  exact ⟨fun h => ⟨h.1.1, h.2⟩, fun h' => ⟨⟨h'.1, lt_of_le_of_lt h h'.2⟩, h'.2⟩⟩

/-- choosing a least element and `r` larger ones -/
theorem sum_above (V : Finset ℕ) (r : ℕ) : ∑ d ∈ V, (above V d).card.choose r = V.card.choose (r + 1) := by
  induction V using Finset.induction_on_min with
  | empty => simp
  | insert m V hm ih =>
    have hn : m ∉ V := fun h => lt_irrefl _ (hm m h)
    rw [Finset.sum_insert hn, Finset.card_insert_of_notMem hn, Nat.choose_succ_succ, ← ih]
    refine congrArg₂ (· + ·) (congrArg (fun W : Finset ℕ => W.card.choose r) ?_) (Finset.sum_congr rfl fun d hd => ?_)
    · ext z; simp only [above, Finset.mem_filter, Finset.mem_insert]
      constructor
      · rintro ⟨rfl | h, h'⟩
        · exact absurd h' (lt_irrefl _)
        · exact h
      · exact fun h => ⟨Or.inr h, hm z h⟩
    · refine congrArg (fun W : Finset ℕ => W.card.choose r) ?_
      ext z; simp only [above, Finset.mem_filter, Finset.mem_insert]
      constructor
      · rintro ⟨rfl | h, h'⟩
        · exact absurd (hm d hd) (not_lt.mpr h'.le)
        · exact ⟨h, h'⟩
      · exact fun h => ⟨Or.inr h.1, h.2⟩

theorem sum_above' (V : Finset ℕ) (x r : ℕ) : ∑ d ∈ V, (if d ≤ x then 0 else (above V d).card.choose r) = (above V x).card.choose (r + 1) := by
  rw [← sum_above (above V x) r]
  conv_rhs => rw [above, Finset.sum_filter]
  refine Finset.sum_congr rfl fun d _ => ?_
  by_cases h : d ≤ x
  · rw [if_pos h, if_neg (not_lt.mpr h)]
  · rw [if_neg h, if_pos (not_le.mp h)]
    change _ = (above (above V x) d).card.choose r
    rw [above_above (not_le.mp h).le]

theorem length_flatMap_nodup {α β : Type} [DecidableEq α] {L : List α} (h : L.Nodup) (f : α → List β) : (L.flatMap f).length = ∑ x ∈ L.toFinset, (f x).length := by
  rw [List.length_flatMap, List.sum_toFinset _ h]

theorem length_ite_nil {β : Type} (c : Prop) [Decidable c] (l : List β) : (if c then [] else l).length = if c then 0 else l.length := by
  split_ifs <;> rfl

theorem toFinset_occL {n : ℕ} {S : Finset ℕ} (h : S ⊆ Finset.range n) : (occL n S).toFinset = S := by
  ext x; rw [List.mem_toFinset, mem_occL]
  exact ⟨fun h => h.2, fun hx => ⟨Finset.mem_range.mp (h hx), hx⟩⟩

theorem length_qIn {n : ℕ} {S : Finset ℕ} (hS : S ⊆ Finset.range n) (i a j : ℕ) (h : i < j) :
    (qIn n S i a j).length = (above S j).card.choose 2 * (above (virL n S).toFinset a).card.choose 3 := by
  unfold qIn
  rw [if_neg (not_le.mpr h)]
  simp only [length_flatMap_nodup (nodup_virL n S), length_flatMap_nodup (nodup_occL n S), length_ite_nil, toFinset_occL hS, List.length_singleton]
  generalize (virL n S).toFinset = V
  have h1 : ∀ c, ∑ d ∈ V, (if d ≤ c then 0 else 1) = (above V c).card.choose 1 := fun c => by
    rw [← sum_above' V c 0]; simp only [Nat.choose_zero_right]
  have hk : ∀ k c, ∑ l ∈ S, (if l ≤ k then 0 else (above V c).card.choose 1) = (above S k).card.choose 1 * (above V c).card.choose 1 := fun k c => by
    rw [← sum_above' S k 0, Finset.sum_mul]
    refine Finset.sum_congr rfl fun l _ => ?_
    split_ifs <;> simp
  have hc : ∀ k b, ∑ c ∈ V, (if c ≤ b then 0 else (above S k).card.choose 1 * (above V c).card.choose 1) =
      (above S k).card.choose 1 * (above V b).card.choose 2 := fun k b => by
    rw [← sum_above' V b 1, Finset.mul_sum]
    refine Finset.sum_congr rfl fun l _ => ?_
    split_ifs <;> simp
  have hj : ∀ b, ∑ k ∈ S, (if k ≤ j then 0 else (above S k).card.choose 1 * (above V b).card.choose 2) =
      (above S j).card.choose 2 * (above V b).card.choose 2 := fun b => by
    rw [← sum_above' S j 1, Finset.sum_mul]
    refine Finset.sum_congr rfl fun l _ => ?_
    split_ifs <;> simp
  simp only [h1, hk, hc, hj]
  rw [← sum_above' V a 2, Finset.mul_sum]
  refine Finset.sum_congr rfl fun l _ => ?_
  split_ifs <;> simp

theorem sum_valL (n : ℕ) (S : Finset ℕ) (hS : S ⊆ Finset.range n) (f : ℕ → ℕ) :
    ((valL n S).map f).sum = (n - S.card) * f 0 + S.card * f 1 := by
  unfold valL
  rw [List.map_map, ← List.sum_toFinset _ List.nodup_range]
  have : (List.range n).toFinset = Finset.range n := by ext; simp
  rw [this]
  simp only [Function.comp]
  rw [← Finset.sum_sdiff hS, Finset.sum_congr (s₁ := S) rfl (g := fun _ => f 1) fun i hi => by rw [if_pos hi],
    Finset.sum_congr (s₁ := Finset.range n \ S) rfl (g := fun _ => f 0) fun i hi => by rw [if_neg (Finset.mem_sdiff.mp hi).2],
    Finset.sum_const, Finset.sum_const, Finset.card_sdiff_of_subset hS, Finset.card_range, smul_eq_mul, smul_eq_mul]

theorem length_qL {n : ℕ} {S : Finset ℕ} (hS : S ⊆ Finset.range n) :
    (qL n S).length = (n - S.card) * S.card * ((above S 1).card.choose 2 * (n - S.card).choose 4) := by
  have hV : (virL n S).toFinset = Finset.range n \ S := by
    ext x; rw [List.mem_toFinset, mem_virL, Finset.mem_sdiff, Finset.mem_range]
  have hv : (virL n S).toFinset.card = n - S.card := by rw [hV, Finset.card_sdiff_of_subset hS, Finset.card_range]
  unfold qL
  rw [List.length_flatMap, sum_valL n S hS]
  simp only [length_flatMap_nodup (nodup_virL n S)]
  have h1 : ∀ i a, 0 < i → ((valL n S).flatMap fun j => qIn n S i a j).length = 0 := fun i a hi => by
    rw [List.length_flatMap, sum_valL n S hS]
    have h0 : ∀ j, j ≤ 1 → qIn n S i a j = [] := fun j hj => by unfold qIn; rw [if_pos (by omega)]
    rw [h0 0 (by omega), h0 1 le_rfl]; simp
  have h2 : ∀ a, ((valL n S).flatMap fun j => qIn n S 0 a j).length = S.card * ((above S 1).card.choose 2 * (above (virL n S).toFinset a).card.choose 3) :=
    fun a => by
      rw [List.length_flatMap, sum_valL n S hS]
      have h0 : qIn n S 0 a 0 = [] := by unfold qIn; rw [if_pos le_rfl]
      rw [h0, length_qIn hS 0 a 1 (by omega)]; simp
  simp only [h1 1 _ one_pos, h2, Finset.sum_const_zero, mul_zero, add_zero]
  rw [← Finset.mul_sum, ← Finset.mul_sum, sum_above, hv]
  ring

/-- C90: `q_strings` returns `m (n - m) C(m - 2, 2) C(n - m, 4)` entries instead of the `C(m, 4) C(n - m, 4)` quadruple excitations. -/
theorem C90_q_strings {n m : ℕ} (h : m ≤ n) :
    ∃ L, q_strings n m = .ok L ∧ L.length = m * (n - m) * (m - 2).choose 2 * (n - m).choose 4 := by
  have hS : Finset.range m ⊆ Finset.range n := Finset.range_subset_range.mpr h
  have e : q_strings n m = q_strings n m (some (bits n (Finset.range m))) := by
    have := aufbau_eq n m
    rw [min_eq_left h] at this
    rw [← this]; rfl
  refine ⟨_, e.trans (q_strings_bits n m hS fun k hk h => ?_), ?_⟩
  · rw [Finset.mem_range] at hk; simp only [Finset.mem_range]; omega
  have ha : (above (Finset.range m) 1).card = m - 2 := by
    have : above (Finset.range m) 1 = Finset.Ico 2 m := by
      ext x; simp only [above, Finset.mem_filter, Finset.mem_range, Finset.mem_Ico]; omega
    rw [this, Nat.card_Ico]
  rw [length_qL hS, ha, Finset.card_range]
  ring

/-! ### bases -/

theorem length_prod (la lb : List (Option Dstring)) : (prod la lb).length = la.length * lb.length := by
  unfold prod
  rw [List.length_flatMap]
  simp only [List.length_map]
  rw [List.map_const', List.sum_replicate, smul_eq_mul]

theorem length_withB (la : List (Option Dstring)) (r : Dstring) : (withB la r).length = la.length := by simp [withB]

theorem length_withA (r : Dstring) (lb : List (Option Dstring)) : (withA r lb).length = lb.length := by simp [withA]

/-- the number of `k`-fold excitations of `m` electrons in `n` orbitals -/
def nexc (n m k : ℕ) : ℕ := m.choose k * (n - m).choose k

/-- C90: the sizes of the unrestricted bases. -/
theorem C90_unrestricted {n na nb : ℕ} (ha : na ≤ n) (hb : nb ≤ n) :
    (∀ gs, ∃ B, ucis_basis n na nb gs = .ok B ∧ B.length = (if gs then 1 else 0) + nexc n na 1 + nexc n nb 1) ∧
    (∃ B, ucisd_basis n na nb = .ok B ∧ B.length = 1 + nexc n na 1 + nexc n nb 1 + nexc n na 2 + nexc n nb 2 + nexc n na 1 * nexc n nb 1) ∧
    (∃ B, ucisdt_basis n na nb = .ok B ∧ B.length = 1 + nexc n na 1 + nexc n nb 1 + nexc n na 2 + nexc n nb 2 + nexc n na 1 * nexc n nb 1 +
      nexc n na 3 + nexc n nb 3 + nexc n na 2 * nexc n nb 1 + nexc n na 1 * nexc n nb 2) ∧
    (∃ B, ucisdtq_basis n na nb = .ok B ∧ B.length = 1 + nexc n na 1 + nexc n nb 1 + nexc n na 2 + nexc n nb 2 + nexc n na 1 * nexc n nb 1 +
      nexc n na 3 + nexc n nb 3 + nexc n na 2 * nexc n nb 1 + nexc n na 1 * nexc n nb 2 +
      na * (n - na) * (na - 2).choose 2 * (n - na).choose 4 + nb * (n - nb) * (nb - 2).choose 2 * (n - nb).choose 4 +
      nexc n na 3 * nexc n nb 1 + nexc n na 2 * nexc n nb 2 + nexc n na 1 * nexc n nb 3) := by
  obtain ⟨⟨sa, hsa, lsa⟩, ⟨da, hda, lda⟩, ⟨ta, hta, lta⟩⟩ := C90_strings ha
  obtain ⟨⟨sb, hsb, lsb⟩, ⟨db, hdb, ldb⟩, ⟨tb, htb, ltb⟩⟩ := C90_strings hb
  obtain ⟨qa, hqa, lqa⟩ := C90_q_strings ha
  obtain ⟨qb, hqb, lqb⟩ := C90_q_strings hb
  unfold ucis_basis ucisd_basis ucisdt_basis ucisdtq_basis
  simp only [hsa, hsb, hda, hdb, hta, htb, hqa, hqb, new_aufbau, bind, Except.bind, pure, Except.pure]
  refine ⟨fun gs => ⟨_, rfl, ?_⟩, ⟨_, rfl, ?_⟩, ⟨_, rfl, ?_⟩, ⟨_, rfl, ?_⟩⟩
  · cases gs <;> simp only [List.length_append, length_withA, length_withB, lsa, lsb, nexc, Nat.choose_one_right] <;> rfl
  all_goals
    simp only [List.length_append, length_withA, length_withB, length_prod, lsa, lsb, lda, ldb, lta, ltb, lqa, lqb, nexc, Nat.choose_one_right,
      List.length_singleton]

theorem card_gocc {nmo n : ℕ} (h : nmo % 2 = 0) (hn : n ≤ nmo) : (supp ⟨nmo, gocc nmo n⟩).card = n := by
  rw [(C33_reference h hn).2, Finset.card_union_of_disjoint, Finset.card_range, Finset.card_image_of_injective _ (add_right_injective _),
    Finset.card_range]
  · omega
  · rw [Finset.disjoint_left]
    intro x hx hx'
    rw [Finset.mem_range] at hx
    obtain ⟨y, hy, rfl⟩ := Finset.mem_image.mp hx'
    omega

/-- C90: the sizes of the bases of spin orbitals. -/
theorem C90_general {nmo n : ℕ} (h : nmo % 2 = 0) (hn : n ≤ nmo) :
    (∀ gs, ∃ B, gcis_basis nmo n gs = .ok B ∧ B.length = (if gs then 1 else 0) + nexc nmo n 1) ∧
    (∃ B, gcisd_basis nmo n = .ok B ∧ B.length = 1 + nexc nmo n 1 + nexc nmo n 2) ∧
    (∃ B, gcisdt_basis nmo n = .ok B ∧ B.length = 1 + nexc nmo n 1 + nexc nmo n 2 + nexc nmo n 3) := by
  have hd := isDet_gocc n h
  have hc := card_gocc h hn
  obtain ⟨s, hs, es⟩ := C32_singles hd n
  obtain ⟨d, hd', ed⟩ := C32_doubles hd n
  obtain ⟨t, ht, et⟩ := C32_triples hd n
  have ls := C90_enumerates hd es
  have ld := C90_enumerates hd ed
  have lt := C90_enumerates hd et
  rw [hc] at ls ld lt
  simp only at hs hd' ht ls ld lt
  unfold gcis_basis gcisd_basis gcisdt_basis
  simp only [new_gocc n h, hs, hd', ht, bind, Except.bind, pure, Except.pure]
  refine ⟨fun gs => ⟨_, rfl, ?_⟩, ⟨_, rfl, ?_⟩, ⟨_, rfl, ?_⟩⟩
  · cases gs <;> simp [ls, nexc, Nat.add_comm]
  · simp only [List.length_append, ls, ld, nexc, List.length_singleton]
  · simp only [List.length_append, ls, ld, lt, nexc, List.length_singleton]

/-- C90: the sizes of the vibrational bases. -/
theorem C90_vibrational (n : ℕ) :
    (∃ B, vcis_basis n = .ok B ∧ B.length = n + 1) ∧ (∃ B, vcisd_basis n = .ok B ∧ B.length = (n + 2).choose 2) := by
  unfold vcis_basis vcisd_basis
  simp only [new_zero, s_pstrings_eq, d_pstrings_eq, bind, Except.bind, pure, Except.pure]
  refine ⟨⟨_, rfl, ?_⟩, ⟨_, rfl, ?_⟩⟩
  · simp [List.length_flatMap]
  · have hs : ((List.range n).map fun i => n - i).sum = (n + 1).choose 2 := by
      induction n with
      | zero => rfl
      | succ n ih =>
        rw [List.range_succ_eq_map, List.map_cons, List.sum_cons, List.map_map]
        have : ((fun i => n + 1 - i) ∘ Nat.succ) = fun i => n - i := by funext i; simp
        rw [this, ih, Nat.choose_succ_succ (n + 1) 1, Nat.choose_one_right]; simp
    simp only [List.length_append, List.length_flatMap, List.length_singleton, List.map_const', List.sum_replicate, List.length_range,
      List.length_range', smul_eq_mul, mul_one, hs]
    have h2 : (n + 2).choose 2 = (n + 1).choose 1 + (n + 1).choose 2 := Nat.choose_succ_succ (n + 1) 1
    rw [Nat.choose_one_right] at h2
    omega

/-- C90: with at most two electrons `ucisd_basis` is the full configuration space, with at most three `ucisdt_basis`. -/
theorem C90_full {n na nb : ℕ} (ha : na ≤ n) (hb : nb ≤ n) :
    (na + nb ≤ 2 → ∃ B, ucisd_basis n na nb = .ok B ∧ B.length = n.choose na * n.choose nb) ∧
    (na + nb ≤ 3 → ∃ B, ucisdt_basis n na nb = .ok B ∧ B.length = n.choose na * n.choose nb) ∧
    (na + nb ≤ 4 → na < 4 → nb < 4 → ∃ B, ucisdtq_basis n na nb = .ok B ∧ B.length = n.choose na * n.choose nb) := by
  obtain ⟨-, ⟨B2, h2, l2⟩, ⟨B3, h3, l3⟩, ⟨B4, h4, l4⟩⟩ := C90_unrestricted ha hb
  -- Vandermonde
  have hV : ∀ m, m ≤ n → m ≤ 3 → n.choose m = 1 + nexc n m 1 + nexc n m 2 + nexc n m 3 := by
    intro m hm h3
    have := Nat.add_choose_eq m (n - m) m
    rw [Nat.add_sub_cancel' hm, Finset.Nat.sum_antidiagonal_eq_sum_range_succ fun i j => m.choose i * (n - m).choose j] at this
    rw [this]
    unfold nexc
    interval_cases m <;> simp [Finset.sum_range_succ, Nat.choose] <;> ring
  have h0 : ∀ m k, m < k → nexc n m k = 0 := fun m k h => by unfold nexc; rw [Nat.choose_eq_zero_of_lt h, zero_mul]
  refine ⟨fun h => ⟨B2, h2, ?_⟩, fun h => ⟨B3, h3, ?_⟩, fun h ha4 hb4 => ⟨B4, h4, ?_⟩⟩
  · rw [l2, hV na ha (by omega), hV nb hb (by omega)]
    have : na ≤ 2 := by omega
    interval_cases na <;> (have : nb ≤ 2 := by omega) <;> interval_cases nb <;> simp [h0] at * <;> ring
  · rw [l3, hV na ha (by omega), hV nb hb (by omega)]
    have : na ≤ 3 := by omega
    interval_cases na <;> (have : nb ≤ 3 := by omega) <;> interval_cases nb <;> simp [h0] at * <;> ring
  · rw [l4, hV na ha (by omega), hV nb hb (by omega)]
    interval_cases na <;> interval_cases nb <;> simp [h0] at * <;> ring

/-! ### concrete sizes -/

/-- Water in a minimal basis: seven orbitals, five electrons of each spin. -/
example : ∃ B, ucisd_basis 7 5 5 = .ok B ∧ B.length = 141 := by
  obtain ⟨B, h, l⟩ := (C90_unrestricted (n := 7) (na := 5) (nb := 5) (by norm_num) (by norm_num)).2.1
  exact ⟨B, h, l.trans (by decide)⟩

/-- The quadruples of four electrons in eight orbitals: sixteen entries, though there is a single quadruple excitation. -/
example : (∃ B, q_strings 8 4 = .ok B ∧ B.length = 16) ∧ nexc 8 4 4 = 1 := by
  obtain ⟨B, h, l⟩ := C90_q_strings (n := 8) (m := 4) (by norm_num)
  exact ⟨⟨B, h, l.trans (by decide)⟩, by decide⟩

/-- Two electrons in the ten spin orbitals of five orbitals, and five vibrational modes. -/
example : (∃ B, gcisd_basis 10 2 = .ok B ∧ B.length = 45) ∧ (∃ B, vcisd_basis 5 = .ok B ∧ B.length = 21) ∧
    (∃ B, ucisd_basis 5 1 1 = .ok B ∧ B.length = 25) := by
  obtain ⟨B, h, l⟩ := (C90_general (nmo := 10) (n := 2) (by norm_num) (by norm_num)).2.1
  obtain ⟨B', h', l'⟩ := (C90_vibrational 5).2
  obtain ⟨B'', h'', l''⟩ := (C90_full (n := 5) (na := 1) (nb := 1) (by norm_num) (by norm_num)).1 (by norm_num)
  exact ⟨⟨B, h, l.trans (by decide)⟩, ⟨B', h', l'.trans (by decide)⟩, ⟨B'', h'', l''.trans (by decide)⟩⟩

end CI
