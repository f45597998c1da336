import Verif.Model.CIType
import Mathlib.Tactic.Linarith
import Mathlib.Tactic.Ring
import Mathlib.Tactic.NormNum
import Mathlib.Tactic.Positivity
/-!
# C103: the element type of occupation arrays
-/
namespace CI
variable {K : Type} [Field K]

/-- Occupations are zero or one. -/
def Binary (d : Dstring) : Prop := ∀ x ∈ d.occ, x = 0 ∨ x = 1

theorem mapM_okD {α β : Type} (l : List α) (f : α → R β) (g : α → β) (h : ∀ x ∈ l, f x = .ok (g x)) : l.mapM f = .ok (l.map g) := by
  induction l with
  | nil => rfl
  | cons x l ih =>
    rw [List.mapM_cons, h x (by simp), ih fun y hy => h y (by simp [hy])]
    rfl

theorem sub_signed {w : ℕ} (hw : 2 ≤ w) {x y : ℤ} (hx : x = 0 ∨ x = 1) (hy : y = 0 ∨ y = 1) : (DType.signed w).sub x y = .ok (x - y) ∧ (DType.signed w).abs (x - y) = |x - y| := by
  have h4 : (4 : ℤ) ≤ 2 ^ w := by
    calc (4 : ℤ) = 2 ^ 2 := by norm_num
      _ ≤ 2 ^ w := pow_le_pow_right₀ (by norm_num) hw
  have key : ∀ z : ℤ, -1 ≤ z → z ≤ 1 → z.bmod (2 ^ w) = z := by
    intro z h1 h2
    rw [Int.bmod_eq_of_le] <;> push_cast <;> omega
  constructor
  · rw [DType.sub, key _ (by omega) (by omega)]
  · rw [DType.abs, key _ (by have := abs_nonneg (x - y); omega) (by rw [abs_le]; omega)]

theorem occdiff_signed {w : ℕ} (hw : 2 ≤ w) {bra ket : Dstring} (hb : Binary bra) (hk : Binary ket) : occdiffD (.signed w) bra ket = .ok (occdiff bra ket) := by
  rw [occdiffD, mapM_okD _ _ (fun p => p.1 - p.2) fun p hp => (sub_signed hw (hb _ (List.of_mem_zip hp).1) (hk _ (List.of_mem_zip hp).2)).1, occdiff, List.zip, List.map_zipWith]

/-- C103: for signed integers of any size the excitation level is that of the mathematical integers. -/
theorem C103_signed_level {w : ℕ} (hw : 2 ≤ w) {bra ket : Dstring} (hb : Binary bra) (hk : Binary ket) : levelD (.signed w) bra ket = .ok (level bra ket) := by
  rw [levelD, mapM_okD _ _ (fun p => |p.1 - p.2|) fun p hp => ?_]
  · change Except.ok _ = _
    rw [level, List.zip, List.map_zipWith]
  · obtain ⟨e1, e2⟩ := sub_signed hw (hb _ (List.of_mem_zip hp).1) (hk _ (List.of_mem_zip hp).2)
    rw [e1]
    change Except.ok _ = _
    rw [e2]

/-- C103: so are the matrix elements. -/
theorem C103_signed {w : ℕ} (hw : 2 ≤ w) {bra ket : Dstring} (hb : Binary bra) (hk : Binary ket) (h : ℕ → ℕ → K) (I : ℕ → ℕ → ℕ → ℕ → K) (c : K) :
    gci_matrixelD (.signed w) bra ket h I c = gci_matrixel bra ket h I c := by
  unfold gci_matrixelD
  rw [C103_signed_level hw hb hk, occdiff_signed hw hb hk]
  rfl

theorem C103_signed_u {w : ℕ} (hw : 2 ≤ w) {ba bb ka kb : Dstring} (h1 : Binary ba) (h2 : Binary bb) (h3 : Binary ka) (h4 : Binary kb) (ha hb : ℕ → ℕ → K)
    (Ia Ib J : ℕ → ℕ → ℕ → ℕ → K) (c : K) : ci_matrixelD (.signed w) ba bb ka kb ha hb Ia Ib J c = ci_matrixel ba bb ka kb ha hb Ia Ib J c := by
  unfold ci_matrixelD
  rw [C103_signed_level hw h1 h3, C103_signed_level hw h2 h4, occdiff_signed hw h1 h3, occdiff_signed hw h2 h4]
  rfl

/-- C103: for booleans every matrix element raises, also between equal strings. -/
theorem C103_bool {bra ket : Dstring} (hb : bra.occ ≠ []) (hk : ket.occ ≠ []) (h : ℕ → ℕ → K) (I : ℕ → ℕ → ℕ → ℕ → K) (c : K) :
    levelD .bool bra ket = .error .exception ∧ gci_matrixelD .bool bra ket h I c = .error .exception := by
  have e : levelD .bool bra ket = .error .exception := by
    obtain ⟨n, ob⟩ := bra
    obtain ⟨m, ok⟩ := ket
    cases ob with
    | nil => exact absurd rfl hb
    | cons x l =>
      cases ok with
      | nil => exact absurd rfl hk
      | cons y l' => rfl
  refine ⟨e, ?_⟩
  unfold gci_matrixelD
  rw [e]
  rfl

theorem C103_bool_u {ba bb ka kb : Dstring} (h1 : ba.occ ≠ []) (h3 : ka.occ ≠ []) (ha hb : ℕ → ℕ → K) (Ia Ib J : ℕ → ℕ → ℕ → ℕ → K) (c : K) :
    ci_matrixelD .bool ba bb ka kb ha hb Ia Ib J c = .error .exception := by
  unfold ci_matrixelD
  rw [(C103_bool (K := K) h1 h3 ha Ia c).1]
  rfl

/-! ### unsigned integers -/

theorem level_unsigned {w : ℕ} {bra ket : Dstring} : levelD (.unsigned w) bra ket = .ok (List.zipWith (fun x y : ℤ => (x - y) % 2 ^ w) bra.occ ket.occ).sum ∧
    occdiffD (.unsigned w) bra ket = .ok (List.zipWith (fun x y : ℤ => (x - y) % 2 ^ w) bra.occ ket.occ) := by
  constructor
  · rw [levelD, mapM_okD (bra.occ.zip ket.occ) (fun p => do
      let d ← (DType.unsigned w).sub p.1 p.2
      return (DType.unsigned w).abs d) (fun p : ℤ × ℤ => (p.1 - p.2) % 2 ^ w) fun p _ => rfl]
    change Except.ok _ = _
    rw [List.zip, List.map_zipWith]
  · rw [occdiffD, mapM_okD (bra.occ.zip ket.occ) (fun p => (DType.unsigned w).sub p.1 p.2) (fun p : ℤ × ℤ => (p.1 - p.2) % 2 ^ w) fun p _ => rfl, List.zip, List.map_zipWith]

theorem unsigned_sum {w : ℕ} (hw : 1 ≤ w) (l m : List ℤ) (hl : ∀ x ∈ l, x = 0 ∨ x = 1) (hm : ∀ x ∈ m, x = 0 ∨ x = 1) (e : l.length = m.length) :
    2 * (List.zipWith (fun x y : ℤ => (x - y) % 2 ^ w) l m).sum = 2 ^ w * (List.zipWith (fun x y : ℤ => |x - y|) l m).sum - (2 ^ w - 2) * (l.sum - m.sum) := by
  have h2 : (2 : ℤ) ≤ 2 ^ w := by
    calc (2 : ℤ) = 2 ^ 1 := by norm_num
      _ ≤ 2 ^ w := pow_le_pow_right₀ (by norm_num) hw
  induction l generalizing m with
  | nil =>
    obtain rfl := List.length_eq_zero_iff.1 e.symm
    simp
  | cons x l ih =>
    cases m with
    | nil => simp at e
    | cons y m =>
      have := ih m (fun z hz => hl z (by simp [hz])) (fun z hz => hm z (by simp [hz])) (by simpa using e)
      simp only [List.zipWith_cons_cons, List.sum_cons]
      have a : ((1 : ℤ) - 0) % 2 ^ w = 1 := by rw [sub_zero]; exact Int.emod_eq_of_lt (by norm_num) (by linarith)
      have b : ((0 : ℤ) - 1) % 2 ^ w = 2 ^ w - 1 := by
        rw [zero_sub, ← Int.add_emod_right, Int.emod_eq_of_lt (by linarith) (by linarith)]
        ring
      rcases hl x (by simp) with rfl | rfl <;> rcases hm y (by simp) with rfl | rfl
      · simp; linarith
      · rw [b]; simp; linarith
      · rw [a]; simp; linarith
      · simp; linarith

/-- Two strings of one reference: as many orbitals, as many electrons. -/
structure Alike (bra ket : Dstring) : Prop where
  bin : Binary bra
  bin' : Binary ket
  len : bra.occ.length = ket.occ.length
  sum : bra.occ.sum = ket.occ.sum

/-- C103: for unsigned integers of `w` bits the level of two strings with as many electrons is `2^(w-1)` times what it should be. -/
theorem C103_unsigned_level {w : ℕ} {bra ket : Dstring} (h : Alike bra ket) : levelD (.unsigned (w + 1)) bra ket = .ok (2 ^ w * level bra ket) := by
  rw [level_unsigned.1]
  have := unsigned_sum (w := w + 1) (by omega) _ _ h.bin h.bin' h.len
  rw [h.sum, sub_self, mul_zero, sub_zero, pow_succ, mul_comm ((2 : ℤ) ^ w) 2, mul_assoc] at this
  rw [pow_succ, mul_comm ((2 : ℤ) ^ w) 2]
  exact congrArg _ (mul_left_cancel₀ two_ne_zero this)

theorem level_zero {l m : List ℤ} (e : l.length = m.length) (h : (List.zipWith (fun x y : ℤ => |x - y|) l m).sum = 0) : l = m := by
  induction l generalizing m with
  | nil => exact (List.length_eq_zero_iff.1 e.symm).symm
  | cons x l ih =>
    cases m with
    | nil => simp at e
    | cons y m =>
      simp only [List.zipWith_cons_cons, List.sum_cons] at h
      have h1 := abs_nonneg (x - y)
      have h2 : 0 ≤ (List.zipWith (fun x y : ℤ => |x - y|) l m).sum := by
        refine List.sum_nonneg fun z hz => ?_
        obtain ⟨i, hi, rfl⟩ := List.mem_iff_getElem.1 hz
        rw [List.getElem_zipWith]
        exact abs_nonneg _
      rw [sub_eq_zero.1 (abs_eq_zero.1 (by linarith : |x - y| = 0)), ih (by simpa using e) (by linarith)]

theorem level_big {bra ket : Dstring} (h : Alike bra ket) (hn : bra.occ ≠ ket.occ) : 2 ≤ level bra ket := by
  have h0 : level bra ket ≠ 0 := fun e => hn (level_zero h.len e)
  have p : 0 ≤ level bra ket := by
    refine List.sum_nonneg fun z hz => ?_
    obtain ⟨i, hi, rfl⟩ := List.mem_iff_getElem.1 hz
    rw [List.getElem_zipWith]
    exact abs_nonneg _
  have := unsigned_sum (w := 2) (by omega) _ _ h.bin h.bin' h.len
  have q : ∀ l m : List ℤ, (∀ x ∈ l, x = 0 ∨ x = 1) → (∀ x ∈ m, x = 0 ∨ x = 1) → l.length = m.length → (2 : ℤ) ∣ (List.zipWith (fun x y : ℤ => |x - y|) l m).sum - (l.sum - m.sum) := by
    intro l
    induction l with
    | nil => intro m _ _ e; obtain rfl := List.length_eq_zero_iff.1 e.symm; simp
    | cons x l ih =>
      intro m hl hm e
      cases m with
      | nil => simp at e
      | cons y m =>
        have := ih m (fun z hz => hl z (by simp [hz])) (fun z hz => hm z (by simp [hz])) (by simpa using e)
        simp only [List.zipWith_cons_cons, List.sum_cons]
        rcases hl x (by simp) with rfl | rfl <;> rcases hm y (by simp) with rfl | rfl <;> simp <;> omega
  have := q _ _ h.bin h.bin' h.len
  rw [h.sum, sub_self, sub_zero] at this
  change (2 : ℤ) ∣ level bra ket at this
  omega

theorem big_unsigned {w : ℕ} {bra ket : Dstring} (h : Alike bra ket) (hn : bra.occ ≠ ket.occ) : ∃ L, levelD (.unsigned (w + 3)) bra ket = .ok L ∧ 3 ≤ L / 2 := by
  refine ⟨_, C103_unsigned_level h, ?_⟩
  have h1 := level_big h hn
  have h2 : (1 : ℤ) ≤ 2 ^ w := one_le_pow₀ (by norm_num)
  have : (8 : ℤ) ≤ 2 ^ (w + 2) * level bra ket := by
    rw [pow_add]
    nlinarith
  omega

/-- C103: so every matrix element between different strings comes out as zero, without an error: `gci_matrixel` mistakes them for strings that differ in more than two
electrons. -/
theorem C103_unsigned_zero {w : ℕ} (hw : 3 ≤ w) {bra ket : Dstring} (hs : Alike bra ket) (hn : bra.occ ≠ ket.occ) (h : ℕ → ℕ → K) (I : ℕ → ℕ → ℕ → ℕ → K) (c : K) :
    gci_matrixelD (.unsigned w) bra ket h I c = .ok 0 := by
  obtain ⟨w, rfl⟩ := Nat.exists_eq_add_of_le' hw
  obtain ⟨L, e, hL⟩ := big_unsigned (w := w) hs hn
  unfold gci_matrixelD
  rw [e, level_unsigned.2]
  simp only [bind, Except.bind]
  rw [if_neg (by omega), if_neg (by omega), if_neg (by omega)]
  rfl

theorem C103_unsigned_zero_u {w : ℕ} (hw : 3 ≤ w) {ba bb ka kb : Dstring} (h1 : Alike ba ka) (h2 : Alike bb kb) (hn : ba.occ ≠ ka.occ ∨ bb.occ ≠ kb.occ) (ha hb : ℕ → ℕ → K)
    (Ia Ib J : ℕ → ℕ → ℕ → ℕ → K) (c : K) : ci_matrixelD (.unsigned w) ba bb ka kb ha hb Ia Ib J c = .ok 0 := by
  obtain ⟨w, rfl⟩ := Nat.exists_eq_add_of_le' hw
  have e1 := C103_unsigned_level (w := w + 2) h1
  have e2 := C103_unsigned_level (w := w + 2) h2
  unfold ci_matrixelD
  rcases hn with hn | hn
  · obtain ⟨L, e, hL⟩ := big_unsigned (w := w) h1 hn
    rw [e, e2, level_unsigned.2, level_unsigned.2]
    simp only [bind, Except.bind]
    rw [if_neg (by omega), if_neg (by omega), if_neg (by omega), if_neg (by omega), if_neg (by omega), if_neg (by omega)]
    rfl
  · obtain ⟨L, e, hL⟩ := big_unsigned (w := w) h2 hn
    rw [e1, e, level_unsigned.2, level_unsigned.2]
    simp only [bind, Except.bind]
    rw [if_neg (by omega), if_neg (by omega), if_neg (by omega), if_neg (by omega), if_neg (by omega), if_neg (by omega)]
    rfl

theorem level_self (d : Dstring) : level d d = 0 := by
  have : ∀ l : List ℤ, (List.zipWith (fun x y : ℤ => |x - y|) l l).sum = 0 := by
    intro l
    induction l with
    | nil => rfl
    | cons x l ih => simp
  exact this d.occ

/-- C103: the diagonal elements are right. -/
theorem C103_unsigned_diagonal {w : ℕ} (hw : 1 ≤ w) {d : Dstring} (hd : Binary d) (h : ℕ → ℕ → K) (I : ℕ → ℕ → ℕ → ℕ → K) (c : K) :
    gci_matrixelD (.unsigned w) d d h I c = gci_matrixel d d h I c := by
  obtain ⟨w, rfl⟩ := Nat.exists_eq_add_of_le' hw
  have e := C103_unsigned_level (w := w) (bra := d) (ket := d) ⟨hd, hd, rfl, rfl⟩
  rw [level_self, mul_zero] at e
  unfold gci_matrixelD gci_matrixel
  rw [e, level_unsigned.2, diff, level_self]
  rfl

/-- C103 is false for unsigned integers: an electron in two orbitals. -/
theorem C103_unsigned_refuted : ∃ (bra ket : Dstring) (h : ℕ → ℕ → ℚ) (I : ℕ → ℕ → ℕ → ℕ → ℚ), Alike bra ket ∧ gci_matrixel bra ket h I 0 = .ok 1 ∧
    ∀ w, 3 ≤ w → gci_matrixelD (.unsigned w) bra ket h I 0 = .ok 0 := by
  have hs : Alike ⟨2, [1, 0]⟩ ⟨2, [0, 1]⟩ := ⟨by simp [Binary], by simp [Binary], rfl, rfl⟩
  exact ⟨⟨2, [1, 0]⟩, ⟨2, [0, 1]⟩, fun p q => if p = q then 0 else 1, fun _ _ _ _ => 0, hs, by decide +kernel, fun w hw => C103_unsigned_zero hw hs (by decide) _ _ _⟩

/-- two electrons in four orbitals, as bytes -/
example : levelD (.signed 8) ⟨4, [1, 1, 0, 0]⟩ ⟨4, [0, 1, 0, 1]⟩ = .ok 2 ∧ levelD (.unsigned 8) ⟨4, [1, 1, 0, 0]⟩ ⟨4, [0, 1, 0, 1]⟩ = .ok 256 := by decide +kernel

example : Binary ⟨4, [1, 1, 0, 0]⟩ ∧ Alike ⟨4, [1, 1, 0, 0]⟩ ⟨4, [0, 1, 0, 1]⟩ := ⟨by simp [Binary], by simp [Binary], by simp [Binary], rfl, rfl⟩

end CI
