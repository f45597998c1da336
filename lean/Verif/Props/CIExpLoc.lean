import Verif.Props.CIExpLemmas
/-!
# C37, C46: where `basis.index` finds a determinant
-/
namespace CI
open Fock
variable {K : Type} [Field K]

/-- `basis.index` finds every determinant where it stands in the list `L`, in which no set stands twice.  A basis that lists a
determinant several times is described by a list with arbitrary other sets in place of the repetitions. -/
def Locates (n : ℕ) (B : List (Option Dstring)) (L : List (Finset ℕ)) : Prop :=
  L.Nodup ∧ ∀ T, T ⊆ Finset.range n → index B (ofSet n T) = pos L T

theorem Basis.locates {n : ℕ} {B : List (Option Dstring)} {D : List Dstring} (h : Basis n B D) : Locates n B (D.map supp) :=
  ⟨h.nodup, fun _ hT => h.index hT⟩

theorem leafL {n order : ℕ} {R : Finset ℕ} {B : List (Option Dstring)} {L : List (Finset ℕ)} (hB : Locates n B L)
    (hL : FullG L R n order)
    {P : Module.End K (Finset ℕ → K)} {s : K} {S : Finset ℕ} {k : ℕ} (hs : GSt R n P s S k) (ho : k ≤ order) (x : K)
    {v : Finset ℕ → K} {y : K} (hv : v = y • P (det R)) (hx : y * s = x) (c : ℕ → K) :
    ((index B (ofSet n S)).bind fun idx => addAt (tab L.length c) idx x)
      = .ok (tab L.length fun k => c k + v (L.getD k ∅)) := by
  rw [hB.2 S hs.lev.1]
  refine addAt_pos hB.1 (hL S k hs.lev ho) x ?_ c
  rw [hv, hs.act, smul_smul, ← hx]

/-- The same for pairs of an alpha and a beta string. -/
def PLocates (na nb : ℕ) (B : List Pair) (L : List (Finset SO)) : Prop :=
  L.Nodup ∧ ∀ S T, S ⊆ Finset.range na → T ⊆ Finset.range nb → index2 B (ofSet na S) (ofSet nb T) = pos L (emb S T)

theorem PBasis.locates {na nb : ℕ} {B : List Pair} {D : List (Dstring × Dstring)} (h : PBasis na nb B D) : PLocates na nb B (D.map psupp) :=
  ⟨h.nodup, fun _ _ hS hT => h.index hS hT⟩

theorem leafUL {na nb noa nob order : ℕ} {B : List Pair} {L : List (Finset SO)} (hB : PLocates na nb B L)
    (hL : Full L noa na nob nb order)
    {P Q : Module.End K (Finset SO → K)} {s t : K} {S T : Finset ℕ} {k l : ℕ} (hs : ASt (Finset.range noa) na P s S k)
    (ht : BSt (Finset.range nob) nb Q t T l) (ho : k + l ≤ order) (x : K) {v : Finset SO → K}
    {y : K} (hv : v = y • P (Q (det (emb (Finset.range noa) (Finset.range nob))))) (hx : y * (t * s) = x) (c : ℕ → K) :
    ((index2 B (ofSet na S) (ofSet nb T)).bind fun idx => addAt (tab L.length c) idx x)
      = .ok (tab L.length fun k => c k + v (L.getD k ∅)) := by
  rw [hB.2 S T hs.lev.1 ht.lev.1]
  refine addAt_pos hB.1 (hL S T k l hs.lev ht.lev ho) x ?_ c
  rw [hv, ht.act, map_smul, hs.act, smul_smul, smul_smul, ← hx, mul_assoc]

end CI
