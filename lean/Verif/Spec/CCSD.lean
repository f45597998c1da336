import Verif.Model.Blocks
/-!
# Specification: the spin-orbital CCSD equations

The factorisation-free equations of T. D. Crawford and H. F. Schaefer, Rev. Comput. Chem. 14 (2000)
33, written with explicit permutation operators, independently of the code.  The paper uses
blocks such as `⟨kb||cj⟩` that the code does not store; they are obtained from the stored ones by
antisymmetry.
-/
namespace CC.Spec
open Finset

variable {K : Type} [Field K] {O V : Type} [Fintype O] [Fintype V]

/-- `P(ij) f = f(i,j) - f(j,i)` -/
def Pij (f : V → V → O → O → K) : V → V → O → O → K := fun a b i j => f a b i j - f a b j i
/-- `P(ab) f = f(a,b) - f(b,a)` -/
def Pab (f : V → V → O → O → K) : V → V → O → O → K := fun a b i j => f a b i j - f b a i j

section blocks
variable (I : TwoE O V K)
/-- `⟨kb||cj⟩` -/
def ovvo (k : O) (b : V) (c : V) (j : O) : K := - I.vovo b k c j
/-- `⟨kb||jc⟩` -/
def ovov (k : O) (b : V) (j : O) (c : V) : K := I.vovo b k c j
/-- `⟨ka||cd⟩` -/
def ovvv (k : O) (a c d : V) : K := - I.vovv a k c d
/-- `⟨kl||ci⟩` -/
def oovo (k l : O) (c : V) (i : O) : K := - I.ooov k l i c
/-- `⟨kb||ij⟩` -/
def ovoo (k : O) (b : V) (i j : O) : K := - I.vooo b k i j
end blocks

/-- Singles equation. -/
def singles (F : OneE O V K) (I : TwoE O V K) (t : V → O → K) (t2 : V → V → O → O → K)
    (a : V) (i : O) : K :=
  F.vo a i + ∑ c, F.vv a c * t c i - ∑ k, F.oo k i * t a k
  + ∑ k, ∑ c, ovvo I k a c i * t c k
  + ∑ k, ∑ c, F.ov k c * t2 a c i k
  + (1/2) * ∑ k, ∑ c, ∑ d, ovvv I k a c d * t2 c d k i
  - (1/2) * ∑ k, ∑ l, ∑ c, oovo I k l c i * t2 c a k l
  - ∑ k, ∑ c, F.ov k c * t c i * t a k
  - ∑ k, ∑ l, ∑ c, oovo I k l c i * t c k * t a l
  + ∑ k, ∑ c, ∑ d, ovvv I k a c d * t c k * t d i
  - ∑ k, ∑ l, ∑ c, ∑ d, I.oovv k l c d * t c k * t d i * t a l
  + ∑ k, ∑ l, ∑ c, ∑ d, I.oovv k l c d * t c k * t2 d a l i
  - (1/2) * ∑ k, ∑ l, ∑ c, ∑ d, I.oovv k l c d * t2 c d k i * t a l
  - (1/2) * ∑ k, ∑ l, ∑ c, ∑ d, I.oovv k l c d * t2 c a k l * t d i

/-- Doubles equation. -/
def doubles (F : OneE O V K) (I : TwoE O V K) (t : V → O → K) (t2 : V → V → O → O → K)
    (a b : V) (i j : O) : K :=
  I.vvoo a b i j
  + Pab (fun a b i j => ∑ c, F.vv b c * t2 a c i j) a b i j
  - Pij (fun a b i j => ∑ k, F.oo k j * t2 a b i k) a b i j
  + (1/2) * ∑ k, ∑ l, I.oooo k l i j * t2 a b k l
  + (1/2) * ∑ c, ∑ d, I.vvvv a b c d * t2 c d i j
  + Pij (Pab fun a b i j => ∑ k, ∑ c, ovvo I k b c j * t2 a c i k) a b i j
  + Pij (fun a b i j => ∑ c, I.vvvo a b c j * t c i) a b i j
  - Pab (fun a b i j => ∑ k, ovoo I k b i j * t a k) a b i j
  + (1/2) * Pij (Pab fun a b i j =>
      ∑ k, ∑ l, ∑ c, ∑ d, I.oovv k l c d * t2 a c i k * t2 d b l j) a b i j
  + (1/4) * ∑ k, ∑ l, ∑ c, ∑ d, I.oovv k l c d * t2 c d i j * t2 a b k l
  - (1/2) * Pab (fun a b i j =>
      ∑ k, ∑ l, ∑ c, ∑ d, I.oovv k l c d * t2 a c i j * t2 b d k l) a b i j
  - (1/2) * Pij (fun a b i j =>
      ∑ k, ∑ l, ∑ c, ∑ d, I.oovv k l c d * t2 a b i k * t2 c d j l) a b i j
  + (1/2) * Pab (fun a b i j => ∑ k, ∑ l, I.oooo k l i j * t a k * t b l) a b i j
  + (1/2) * Pij (fun a b i j => ∑ c, ∑ d, I.vvvv a b c d * t c i * t d j) a b i j
  - Pij (Pab fun a b i j => ∑ k, ∑ c, ovov I k b i c * t a k * t c j) a b i j
  + Pab (fun a b i j => ∑ k, ∑ c, F.ov k c * t a k * t2 b c i j) a b i j
  + Pij (fun a b i j => ∑ k, ∑ c, F.ov k c * t c i * t2 a b j k) a b i j
  - Pij (fun a b i j => ∑ k, ∑ l, ∑ c, oovo I k l c i * t c k * t2 a b l j) a b i j
  + Pab (fun a b i j => ∑ k, ∑ c, ∑ d, ovvv I k a c d * t c k * t2 d b i j) a b i j
  + Pij (Pab fun a b i j => ∑ k, ∑ c, ∑ d, I.vovv a k d c * t d i * t2 b c j k) a b i j
  + Pij (Pab fun a b i j => ∑ k, ∑ l, ∑ c, I.ooov k l i c * t a l * t2 b c j k) a b i j
  + (1/2) * Pij (fun a b i j => ∑ k, ∑ l, ∑ c, oovo I k l c j * t c i * t2 a b k l) a b i j
  - (1/2) * Pab (fun a b i j => ∑ k, ∑ c, ∑ d, ovvv I k b c d * t a k * t2 c d i j) a b i j
  - (1/2) * Pij (Pab fun a b i j =>
      ∑ k, ∑ c, ∑ d, ovvv I k b c d * t c i * t a k * t d j) a b i j
  + (1/2) * Pij (Pab fun a b i j =>
      ∑ k, ∑ l, ∑ c, oovo I k l c j * t c i * t a k * t b l) a b i j
  - Pij (fun a b i j =>
      ∑ k, ∑ l, ∑ c, ∑ d, I.oovv k l c d * t c k * t d i * t2 a b l j) a b i j
  - Pab (fun a b i j =>
      ∑ k, ∑ l, ∑ c, ∑ d, I.oovv k l c d * t c k * t a l * t2 d b i j) a b i j
  + (1/4) * Pij (fun a b i j =>
      ∑ k, ∑ l, ∑ c, ∑ d, I.oovv k l c d * t c i * t d j * t2 a b k l) a b i j
  + (1/4) * Pab (fun a b i j =>
      ∑ k, ∑ l, ∑ c, ∑ d, I.oovv k l c d * t a k * t b l * t2 c d i j) a b i j
  + Pij (Pab fun a b i j =>
      ∑ k, ∑ l, ∑ c, ∑ d, I.oovv k l c d * t c i * t b l * t2 a d k j) a b i j
  + (1/4) * Pij (Pab fun a b i j =>
      ∑ k, ∑ l, ∑ c, ∑ d, I.oovv k l c d * t c i * t a k * t d j * t b l) a b i j

end CC.Spec
