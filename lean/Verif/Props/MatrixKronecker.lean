import Verif.Lemmas.Kronecker
import Verif.Lemmas.Example
import Mathlib.LinearAlgebra.Matrix.Kronecker
import Mathlib.LinearAlgebra.Matrix.Notation
import Mathlib.Tactic.FinCases

/-!
# C25: Kronecker product

`kron A B` is Mathlib's Kronecker product `A ⊗ₖ B` with the pairs of indices numbered row by row
(`finProdFinEquiv (i, j) = j + q * i`).
-/

namespace Verif
open Spec
variable {R : Type} {m n p q : Nat}

/-- Mathlib's Kronecker product, with the blocks laid out in the usual order. -/
def Spec.kron [Mul R] (A : Matrix (Fin m) (Fin n) R) (B : Matrix (Fin p) (Fin q) R) :
    Matrix (Fin (m * p)) (Fin (n * q)) R :=
  (Matrix.kroneckerMap (· * ·) A B).submatrix finProdFinEquiv.symm finProdFinEquiv.symm

/-- Block `(i, k)` of `kron A B` is `A i k * B`. -/
theorem Spec.kron_block [Mul R] (A : Matrix (Fin m) (Fin n) R) (B : Matrix (Fin p) (Fin q) R) (i : Fin m) (k : Fin n)
    (j : Fin p) (l : Fin q) : kron A B (finProdFinEquiv (i, j)) (finProdFinEquiv (k, l)) = A i k * B j l := by
  simp [kron]

namespace Mat

theorem kron_cells [CommMagma R] {A : Matrix (Fin m) (Fin n) R} {B : Matrix (Fin p) (Fin q) R} {F G : Nat → Nat → R}
    (eF : ∀ i j, A i j = F i j) (eG : ∀ i j, B i j = G i j) (r : Fin (m * p)) (c : Fin (n * q)) :
    Spec.kron A B r c = G (r % p) (c % q) * F (r / p) (c / q) := by
  show A r.divNat c.divNat * B r.modNat c.modNat = _
  rw [eF, eG, mul_comm]; rfl

theorem kronecker_productn_spec [CommMagma R] {h : Heap R} (w : h.WF) {a b : Nat} {A : Matrix (Fin m) (Fin n) R}
    {B : Matrix (Fin p) (Fin q) R} (hA : IsMat h a A) (hB : IsMat h b B) (la : h.live (.m a)) (lb : h.live (.m b)) :
    ReturnsMat (kronecker_productn a (some b)) h (kron A B) := by
  obtain ⟨F, eF, cA⟩ := hA.cells w
  obtain ⟨G, eG, cB⟩ := hB.cells w
  unfold kronecker_productn
  refine Runs.step (size_run a h) (Runs.step (size_run b h) ?_)
  rw [cA.1, cB.1]
  refine Runs.newMat w rfl fun h1 w1 k1 f1 l1 s1 => ?_
  refine Runs.newVec w1 ⟨rfl, rfl⟩ fun h2 w2 k2 f2 l2 s2 => ?_
  have k12 := k1.trans k2
  have ne : ∀ {x}, h.live (.m x) → x ≠ h.next := fun hx e => f1 (e ▸ hx)
  have s3 : h2.size (.m h.next) = ⟨q * n, p * m, 1⟩ := by rw [(k2.2 _ l1 (fun e => e)).2, s1]
  have co : ∃ H, Cells h2 (.m h.next) (q * n) (p * m) H := ⟨_, s3, exists_cells _ (h2.junk 0 0) (by rw [w2.len, s3, count_mat])⟩
  obtain ⟨H, co⟩ := co
  refine Runs.bind (Runs.mono (kronLoop_run (h := h2) (a := a) (b := b) (out := h.next) (tmp := h1.next)
    ⟨w2, cA.keep k12 la (fun e => e), cB.keep k12 lb (fun e => e), k12.live la, k12.live lb, k2.live l1, l2, Keeps.refl _ _⟩ co
    (ne la) (ne lb)) ?_)
  rintro _ h3 ⟨k3, c3⟩
  refine ⟨h.next, rfl, f1, k3.lo, k3.wf, k12.trans_new k3.keep ?_, ?_⟩
  · rintro l (rfl | rfl) hl
    · exact f1 hl
    · exact f2 (k1.live hl)
  · rw [Nat.mul_comm q n, Nat.mul_comm p m] at c3
    exact c3.isMat (kron_cells eF eG)

theorem kronecker_productb_spec [CommMagma R] {h : Heap R} (w : h.WF) {t a b : Nat} {A : Matrix (Fin m) (Fin n) R}
    {B : Matrix (Fin p) (Fin q) R} (hA : IsMat h a A) (hB : IsMat h b B) (la : h.live (.m a)) (lb : h.live (.m b))
    (lt : h.live (.m t)) (ta : t ≠ a) (tb : t ≠ b) :
    SetsMat (kronecker_productb t (some a) (some b)) h t (kron A B) := by
  obtain ⟨F, eF, cA⟩ := hA.cells w
  obtain ⟨G, eG, cB⟩ := hB.cells w
  have na : Loc.m a ≠ .m t := fun e => ta (Loc.m.inj e).symm
  have nb : Loc.m b ≠ .m t := fun e => tb (Loc.m.inj e).symm
  unfold kronecker_productb
  refine Runs.step (size_run a h) (Runs.step (size_run b h) ?_)
  rw [cA.1, cB.1]
  refine Runs.resizeM w rfl fun h1 w1 k1 n1 s1 _ => ?_
  refine Runs.newVec w1 ⟨rfl, rfl⟩ fun h2 w2 k2 f2 l2 s2 => ?_
  have k12 := k1.trans (k2.mono fun _ _ h => h.elim)
  have s3 : h2.size (.m t) = ⟨q * n, p * m, 1⟩ := by rw [(k2.2 _ (k1.live lt) (fun e => e)).2, s1]
  have co : ∃ H, Cells h2 (.m t) (q * n) (p * m) H := ⟨_, s3, exists_cells _ (h2.junk 0 0) (by rw [w2.len, s3, count_mat])⟩
  obtain ⟨H, co⟩ := co
  have cA2 := cA.keep k12 la na
  have cB2 := cB.keep k12 lb nb
  refine Runs.step (size_run a _) ?_
  rw [cA2.1]
  refine Runs.mono (kronLoop_run (h := h2) (a := a) (b := b) (out := t) (tmp := h1.next)
    ⟨w2, cA2, cB2, k12.live la, k12.live lb, k12.live lt, l2, Keeps.refl _ _⟩ co (Ne.symm ta) (Ne.symm tb)) ?_
  rintro _ h3 ⟨k3, c3⟩
  refine ⟨k3.wf, k12.trans_new k3.keep ?_, ?_⟩
  · rintro l (rfl | rfl) hl
    · rfl
    · exact (f2 (k1.live hl)).elim
  · rw [Nat.mul_comm q n, Nat.mul_comm p m] at c3
    exact c3.isMat (kron_cells eF eG)

theorem kronecker_product_spec [CommMagma R] {h : Heap R} (w : h.WF) {a b : Nat} {A : Matrix (Fin m) (Fin n) R}
    {B : Matrix (Fin 1) (Fin 1) R} (hA : IsMat h a A) (hB : IsMat h b B) (la : h.live (.m a)) (lb : h.live (.m b))
    (ab : a ≠ b) : SetsMat (kronecker_product a (some b)) h a (kron A B) := by
  obtain ⟨G, eG, cB⟩ := hB.cells w
  unfold kronecker_product
  refine Runs.step (size_run a h) (Runs.step (size_run b h) ?_)
  refine (unN_id_spec w hA la).bind fun o h1 w1 k1 f1 l1 hA1 => ?_
  obtain ⟨F, eF, cA⟩ := hA1.cells w1
  refine Runs.step (derefM_run o h1) ?_
  rw [hA.1, hB.1]
  have na : o ≠ a := fun e => f1 (e ▸ la)
  have nb : Loc.m b ≠ .m a := fun e => ab (Loc.m.inj e).symm
  have no : Loc.m o ≠ .m a := fun e => na (Loc.m.inj e)
  refine Runs.resizeM w1 rfl fun h2 w2 k2 n2 s2 _ => ?_
  refine Runs.newVec w2 ⟨rfl, rfl⟩ fun h3 w3 k3 f3 l3 s3 => ?_
  have k13 := k2.trans (k3.mono (T := (· = .m a)) fun _ _ h => h.elim)
  have lt := k1.live la
  have s4 : h3.size (.m a) = ⟨1 * n, 1 * m, 1⟩ := by rw [(k3.2 _ (k2.live lt) (fun e => e)).2, s2]
  have co : ∃ H, Cells h3 (.m a) (1 * n) (1 * m) H := ⟨_, s4, exists_cells _ (h3.junk 0 0) (by rw [w3.len, s4, count_mat])⟩
  obtain ⟨H, co⟩ := co
  have cA2 := cA.keep k13 l1 no
  have cB2 := (cB.keep k1 lb (fun e => e)).keep k13 (k1.live lb) nb
  refine Runs.step (size_run a _) ?_
  rw [s4]
  dsimp only
  rw [Nat.one_mul, Nat.one_mul]
  refine Runs.mono (kronLoop_run (h := h3) (a := o) (b := b) (out := a) (tmp := h2.next)
    ⟨w3, cA2, cB2, k13.live l1, k13.live (k1.live lb), k13.live lt, l3, Keeps.refl _ _⟩ co na (Ne.symm ab)) ?_
  rintro _ h4 ⟨k4, c4⟩
  refine ⟨k4.wf, ((k1.mono fun _ _ h => h.elim).trans k13).trans_new k4.keep ?_, ?_⟩
  · rintro l (rfl | rfl) hl
    · rfl
    · exact (f3 (k2.live (k1.live hl))).elim
  · rw [Nat.mul_comm 1 n, Nat.mul_comm 1 m] at c4
    exact c4.isMat (kron_cells eF eG)

end Mat

/-- **C25**, `kronecker_productn`: a new matrix containing the Kronecker product, for every pair of shapes; the two
operands may be the same object. -/
theorem C25_kronecker_productn [CommMagma R] (h : Heap R) (w : h.WF) (a b : Nat) (A : Matrix (Fin m) (Fin n) R)
    (B : Matrix (Fin p) (Fin q) R) (hA : IsMat h a A) (hB : IsMat h b B) (la : h.live (.m a)) (lb : h.live (.m b)) :
    ReturnsMat (Mat.kronecker_productn a (some b)) h (kron A B) := Mat.kronecker_productn_spec w hA hB la lb

/-- **C25**, `kronecker_productb` into a matrix that is neither operand. Missing: aliased targets, see
`C25_kronecker_productb_aliased_fails`. -/
theorem C25_kronecker_productb_partial [CommMagma R] (h : Heap R) (w : h.WF) (t a b : Nat) (A : Matrix (Fin m) (Fin n) R)
    (B : Matrix (Fin p) (Fin q) R) (hA : IsMat h a A) (hB : IsMat h b B) (la : h.live (.m a)) (lb : h.live (.m b))
    (lt : h.live (.m t)) (ta : t ≠ a) (tb : t ≠ b) : SetsMat (Mat.kronecker_productb t (some a) (some b)) h t (kron A B) :=
  Mat.kronecker_productb_spec w hA hB la lb lt ta tb

/-- **C25**, in place: only right for a 1×1 second operand. Missing: everything else, see
`C25_kronecker_product_fails`. -/
theorem C25_kronecker_product_partial [CommMagma R] (h : Heap R) (w : h.WF) (a b : Nat) (A : Matrix (Fin m) (Fin n) R)
    (B : Matrix (Fin 1) (Fin 1) R) (hA : IsMat h a A) (hB : IsMat h b B) (la : h.live (.m a)) (lb : h.live (.m b))
    (ab : a ≠ b) : SetsMat (Mat.kronecker_product a (some b)) h a (kron A B) :=
  Mat.kronecker_product_spec w hA hB la lb ab

/-- **C25** is false of the in-place form: it runs over the rows and columns of the already enlarged receiver, and so
reads past the end of the copy of the first operand. -/
theorem C25_kronecker_product_fails :
    (Mat.kronecker_product 0 (some 1) (Heap.ofLists (0 : Int) [] [(2, 2, [1, 2, 3, 4]), (2, 1, [5, 6])])).isUb = true ∧
    (Mat.kronecker_product 0 (some 1) (Heap.ofLists (0 : Int) [] [(1, 1, [1]), (2, 2, [5, 6, 7, 8])])).isUb = true := by
  decide +kernel

/-- **C25** is false of `kronecker_productb` when the target is an operand: `[[1],[2]] ⊗ [[5,6]]` should be
`[[5,6],[10,12]]`. -/
theorem C25_kronecker_productb_aliased_fails :
    (Mat.kronecker_productb 0 (some 0) (some 1) (Heap.ofLists (0 : Int) [] [(1, 2, [1, 2]), (2, 1, [5, 6])])).bufOf (.m 0) =
      some [5, 6, 0, 0] := by decide +kernel

example : (Mat.kronecker_productn 0 (some 1) (Heap.ofLists (9 : Int) [] [(2, 1, [1, 2]), (2, 2, [0, 1, 3, 4])])).bufOf (.m 2) =
    some [0, 1, 0, 2, 3, 4, 6, 8] := by decide +kernel
example : (Mat.kronecker_productb 2 (some 0) (some 1)
    (Heap.ofLists (9 : Int) [] [(2, 1, [1, 2]), (2, 2, [0, 1, 3, 4]), (1, 1, [0])])).bufOf (.m 2) =
    some [0, 1, 0, 2, 3, 4, 6, 8] := by decide +kernel

/-- **C25.** A null operand changes nothing. -/
theorem C25_kronecker_null [Mul R] (h : Heap R) (t a : Nat) :
    Mat.kronecker_product t none h = .ok ((), h) ∧ Mat.kronecker_productn t none h = .ok (none, h) ∧
    Mat.kronecker_productb t none (some a) h = .ok ((), h) ∧ Mat.kronecker_productb t (some a) none h = .ok ((), h) :=
  ⟨rfl, rfl, rfl, rfl⟩

end Verif
