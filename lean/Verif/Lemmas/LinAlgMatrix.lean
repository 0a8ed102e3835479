import Verif.Lemmas.LinAlgDet
import Verif.Lemmas.Lift
import Verif.Props.MatrixKronecker

/-! # `MLPPLinAlg`: products, inverse, pseudo-inverse -/

namespace Verif
open Spec
open SortArray (tab upd tab_get tab_length tab_set tab_of_list)
variable {R : Type} {m n p q : Nat} {α β σ : Type}

namespace LinAlg

theorem matmultnm_spec [NonUnitalNonAssocSemiring R] {h : Heap R} (w : h.WF) {a b : Nat} {A : Matrix (Fin m) (Fin n) R}
    {B : Matrix (Fin n) (Fin p) R} (hA : IsMat h a A) (hB : IsMat h b B) (la : h.live (.m a)) (lb : h.live (.m b)) :
    ReturnsMat (matmultnm (some (.m a)) (some (.m b))) h (A * B) := by
  obtain ⟨F, eF, cA⟩ := hA.cells w
  obtain ⟨G, eG, cB⟩ := hB.cells w
  unfold matmultnm
  refine Runs.step (Mat.size_run a h) (Runs.step (Mat.size_run b h) ?_)
  rw [cA.1, cB.1]
  simp only [if_true]
  refine Runs.newMat w rfl fun h1 w1 k1 f1 l1 s1 => Runs.fill w1 s1 ?_
  refine Runs.step (getSize_run _ _) ?_
  rw [Gr_size, s1]
  refine Runs.step (multLoop_run (cA.keep k1 la nofun) (cB.keep k1 lb nofun) (live_ne_fresh la rfl) (live_ne_fresh lb rfl) _)
    (returnsMat_Gr w1 k1 f1 l1 s1 fun i j => foldl_mul_eq eF eG i j)

theorem transposenm_spec {h : Heap R} (w : h.WF) {a : Nat} {A : Matrix (Fin m) (Fin n) R} (hA : IsMat h a A)
    (la : h.live (.m a)) : ReturnsMat (transposenm (some (.m a))) h A.transpose := by
  have e : transposenm (some (.m a)) h = Mat.transposen a h := by
    unfold Mat.transposen transposenm
    exact (newMat_size (h := h) la fun o s => do
      resizeTo o ⟨s.y, s.x, 1⟩
      let ts ← getSize o
      Mat.transLoop (.m a) o s.y s.x s.x ts.x
      pure (some o)).symm
  exact Runs.congr e (Mat.transposen_spec w hA la)

theorem kronecker_productnm_spec [CommMagma R] {h : Heap R} (w : h.WF) {a b : Nat} {A : Matrix (Fin m) (Fin n) R}
    {B : Matrix (Fin p) (Fin q) R} (hA : IsMat h a A) (hB : IsMat h b B) (la : h.live (.m a)) (lb : h.live (.m b)) :
    ReturnsMat (kronecker_productnm (some (.m a)) (some (.m b))) h (kron A B) :=
  Mat.kronecker_productn_spec w hA hB la lb

theorem gram_matrix_spec [NonUnitalNonAssocSemiring R] {h : Heap R} (w : h.WF) {a : Nat} {A : Matrix (Fin m) (Fin n) R}
    (hA : IsMat h a A) (la : h.live (.m a)) : ReturnsMat (gram_matrix (some (.m a))) h (A.transpose * A) := by
  unfold gram_matrix
  refine Runs.step (derefM_run a h) ?_
  refine (Mat.transposen_spec w hA la).bind fun t h1 w1 k1 f1 l1 hT => ?_
  refine Runs.step (derefM_run t h1) ?_
  have k := k1
  advance k1
  exact (Mat.multn_spec w1 hT hA l1 la).from k

theorem detm_mat [CommRing R] [MathFns R] (hp : PowNegOne R) {h : Heap R} (w : h.WF) {a : Nat} (hn : 2 ≤ n)
    {A : Matrix (Fin n) (Fin n) R} (hA : IsMat h a A) (la : h.live (.m a)) :
    ReturnsVal (detm (some (.m a)) n) h A.det := by
  obtain ⟨F, eF, cA⟩ := hA.cells w
  have := detm_spec hp n hn h w a n n F cA la (Nat.le_refl _) (Nat.le_refl _)
  rw [of_cells eF]; exact this

theorem adjointnm_spec [CommRing R] [MathFns R] (hp : PowNegOne R) {h : Heap R} (w : h.WF) {a : Nat}
    {A : Matrix (Fin n) (Fin n) R} (hA : IsMat h a A) (la : h.live (.m a)) :
    ReturnsMat (adjointnm (some (.m a))) h A.adjugate := by
  obtain ⟨F, eF, cA⟩ := hA.cells w
  unfold adjointnm
  refine Runs.step (Mat.size_run a h) ?_
  rw [cA.1]
  simp only [if_true]
  refine Runs.newMat w rfl fun h1 w1 k1 f1 l1 s1 => ?_
  rw [of_cells eF]
  exact (adjLoopnm_spec hp w1 (cA.keep k1 la nofun) (k1.live la) l1 s1 (fun e => f1 (e ▸ la))).returns k1 f1 l1

theorem inversenm_spec [Field R] [MathFns R] (hp : PowNegOne R) {h : Heap R} (w : h.WF) {a : Nat} (hn : 2 ≤ n)
    {A : Matrix (Fin n) (Fin n) R} (hA : IsMat h a A) (la : h.live (.m a)) : ReturnsMat (inversenm (some (.m a))) h A⁻¹ := by
  unfold inversenm
  refine Runs.step (derefM_run a h) (Runs.step (Mat.size_run a h) ?_)
  rw [hA.1]
  refine (detm_mat hp w hn hA la).bind fun h1 w1 k1 => ?_
  have k := k1
  advance k1
  refine (adjointnm_spec hp w1 hA la).bind fun o h2 w2 k2 f2 l2 hJ => ?_
  advance k2
  have := (dupM_lifts (· * (1 / A.det))).mat w2 hJ l2
  have e : A⁻¹ = A.adjugate.map (· * (1 / A.det)) := by
    ext i j
    rw [Matrix.inv_def]
    simp [mul_comm]
  rw [← e] at this
  exact this.from k

theorem pinversenm_spec [Field R] [MathFns R] (hp : PowNegOne R) {h : Heap R} (w : h.WF) {a : Nat} (hn : 2 ≤ n)
    {A : Matrix (Fin m) (Fin n) R} (hA : IsMat h a A) (la : h.live (.m a)) :
    ReturnsMat (pinversenm (some (.m a))) h ((A.transpose * A)⁻¹ * A.transpose) := by
  unfold pinversenm
  refine (transposenm_spec w hA la).bind fun t h1 w1 k1 f1 l1 hT => ?_
  have k := k1
  advance k1
  refine (matmultnm_spec w1 hT hA l1 la).bind fun g h2 w2 k2 f2 l2 hG => ?_
  advance k2
  refine (inversenm_spec hp w2 hn hG l2).bind fun i h3 w3 k3 f3 l3 hI => ?_
  advance k3
  refine (transposenm_spec w3 hA la).bind fun t' h4 w4 k4 f4 l4 hT' => ?_
  advance k4
  exact (matmultnm_spec w4 hI hT' l3 l4).from k

theorem identitym_spec [Zero R] [One R] {h : Heap R} (w : h.WF) (d : Nat) :
    ReturnsMat (identitym d) h (1 : Matrix (Fin d) (Fin d) R) := Mat.identity_mat_spec w d

theorem solve_spec [Field R] [MathFns R] (hp : PowNegOne R) {h : Heap R} (w : h.WF) {a b : Nat} (hn : 2 ≤ n)
    {A : Matrix (Fin n) (Fin n) R} {v : Fin n → R} (hA : IsMat h a A) (hB : IsVec h b v) (la : h.live (.m a))
    (lb : h.live (.v b)) : ReturnsVec (solve (some (.m a)) (some (.v b))) h (A⁻¹.mulVec v) :=
  Mat.solve_spec hp w hn hA hB la lb

theorem mat_vec_multnv_spec [NonUnitalNonAssocSemiring R] {h : Heap R} (w : h.WF) {a b : Nat} {A : Matrix (Fin m) (Fin n) R}
    {v : Fin n → R} (hA : IsMat h a A) (hB : IsVec h b v) (la : h.live (.m a)) (lb : h.live (.v b)) :
    ReturnsVec (mat_vec_multnv (some (.m a)) (some (.v b))) h (A.mulVec v) := Mat.mult_vec_spec w hA hB la lb

theorem mat_vec_addnm_spec [Add R] {h : Heap R} (w : h.WF) {a b : Nat} {A : Matrix (Fin m) (Fin n) R}
    {v : Fin n → R} (hA : IsMat h a A) (hB : IsVec h b v) (la : h.live (.m a)) (lb : h.live (.v b)) :
    ReturnsMat (mat_vec_addnm (some (.m a)) (some (.v b))) h (Matrix.of fun i j => A i j + v j) :=
  Mat.add_vecn_spec w hA hB la lb

theorem outer_product_spec [Mul R] {h : Heap R} (w : h.WF) {a b : Nat} {u : Fin m → R}
    {v : Fin n → R} (hA : IsVec h a u) (hB : IsVec h b v) (la : h.live (.v a)) (lb : h.live (.v b)) :
    ReturnsMat (outer_product (some (.v a)) (some (.v b))) h (Matrix.of fun i j => u i * v j) :=
  Mat.outer_productn_spec w hA hB la lb

theorem flattenvvnv_spec {h : Heap R} (w : h.WF) {a : Nat} {A : Matrix (Fin m) (Fin n) R} (hA : IsMat h a A)
    (la : h.live (.m a)) :
    Runs (flattenvvnv (some (.m a))) h fun r h' => ∃ o, r = some (.v o) ∧ ¬ h.live (.v o) ∧ h'.live (.v o) ∧ h'.WF ∧
      Keeps h h' (fun _ => False) ∧ h'.size (.v o) = ⟨n * m, 1, 1⟩ ∧
      ∀ (i : Fin m) (j : Fin n), (h'.buf (.v o))[i.val * n + j.val]? = some (A i j) := Mat.flatten_spec w hA la

theorem diagnm_spec [Zero R] {h : Heap R} (w : h.WF) {a : Nat} {v : Fin n → R} (hv : IsVec h a v) (la : h.live (.v a)) :
    ReturnsMat (diagnm (some (.v a))) h (Matrix.diagonal v) := by
  obtain ⟨f, ef, cB⟩ := hv.cells w
  unfold diagnm Vec.size
  refine Runs.step (derefV_run a h) (Runs.step (bind_ok (getSize_run (.v a) h)) ?_)
  rw [cB.1]
  refine Runs.newMat w rfl fun h1 w1 k1 f1 l1 s1 => Runs.fill w1 s1 ?_
  have cB1 := cB.keep k1 la nofun
  refine Runs.step (diagLoop_run (c := .m h.next) (ms := n) (rows := n) (cols := n) cB1 nofun (Nat.le_refl _) (Nat.le_refl _)
    (Nat.le_refl _) _) (returnsMat_Gr w1 k1 f1 l1 s1 fun i j => ?_)
  rw [Matrix.diagonal_apply, ef]
  simp [Fin.ext_iff]

end LinAlg

/-! ## Rows subtracted from a vector -/

theorem subRowsLoop_run [Sub R] {h : Heap R} {l b : Loc} {rows : Nat} {F : Nat → Nat → R} (hb : Cells h b n rows F) (hne : b ≠ l)
    (K : Nat → R) : Vec.subRowsLoop l b ⟨n, rows, 1⟩ (SortArray.St h l n K) =
      .ok ((), SortArray.St h l n fun j => (List.range rows).foldl (fun acc i => acc - F i j) (K j)) := by
  unfold Vec.subRowsLoop
  dsimp only
  rw [forN_eq rows (fun t => SortArray.St h l n fun j => (List.range t).foldl (fun acc i => acc - F i j) (K j)) _ (SortArray.St h l n K) rfl ?_]
  intro i hi
  rw [forN_eq n (fun t => SortArray.St h l n fun j => if j < t then
      (List.range (i + 1)).foldl (fun acc i => acc - F i j) (K j) else
      (List.range i).foldl (fun acc i => acc - F i j) (K j)) _ _ (by simp) ?_]
  · congr 2
    unfold SortArray.St
    congr 1
    exact tab_congr fun j hj => by simp [hj]
  · intro j hj
    rw [bind_ok (SortArray.load_St hj)]
    unfold SortArray.St
    rw [bind_ok (load_ne (h := h) (l := l) hne (hb.get hi hj))]
    refine (SortArray.store_St _ hj).trans ?_
    unfold SortArray.St
    congr 4
    funext x
    simp only [upd]
    by_cases e : x = j
    · subst e; simp [List.range_succ]
    · have : x < j ↔ x < j + 1 := by omega
      simp [e, this]

theorem foldl_sub_eq [AddCommGroup R] (k : Nat) (f : Nat → R) (a : R) :
    (List.range k).foldl (fun acc i => acc - f i) a = a - ∑ i : Fin k, f i := by
  induction k with
  | zero => simp
  | succ k ih => rw [List.range_succ, List.foldl_append, ih, Fin.sum_univ_castSucc]; simp [sub_sub]

theorem subRows_eq [AddCommGroup R] {u : Fin n → R} {B : Matrix (Fin m) (Fin n) R} {f : Nat → R} {F : Nat → Nat → R}
    (ef : ∀ i, u i = f i) (eF : ∀ i j, B i j = F i j) (j : Fin n) :
    u j - ∑ i, B i j = (List.range m).foldl (fun acc i => acc - F i j) (f j) := by
  rw [foldl_sub_eq, ef]
  congr 1
  exact Finset.sum_congr rfl fun i _ => eF i j

theorem VCells.self {h : Heap R} {l : Loc} {f : Nat → R} (a : VCells h l n f) : h = SortArray.St h l n f := by
  unfold SortArray.St; rw [← a.2, setBuf_self]

theorem Vec.dup_spec {h : Heap R} (w : h.WF) {a : Nat} {v : Fin n → R} (hv : IsVec h a v) (la : h.live (.v a)) :
    ReturnsVec (Vec.duplicate_fast a) h v := by
  obtain ⟨f, ef, cB⟩ := hv.cells w
  obtain ⟨h2, e2, c2⟩ := duplicateFast_run (.v a) h (w.len _) la
  rw [cB.1, cB.2] at c2
  exact created_returnsVec w e2 c2 ef

theorem Vec.subtract_matrix_rows_spec [AddCommGroup R] {h : Heap R} (w : h.WF) {a b : Nat} {u : Fin n → R}
    {B : Matrix (Fin m) (Fin n) R} (hu : IsVec h a u) (hB : IsMat h b B) :
    SetsVec (Vec.subtract_matrix_rows a (some b)) h a (fun j => u j - ∑ i, B i j) := by
  obtain ⟨f, ef, cu⟩ := hu.cells w
  obtain ⟨F, eF, cB⟩ := hB.cells w
  unfold Vec.subtract_matrix_rows Vec.size
  refine Runs.step rfl (Runs.step (getSize_run (.m b) h) (Runs.step (bind_ok (getSize_run (.v a) h)) ?_))
  rw [cu.1, cB.1]
  simp only [if_true]
  have e := subRowsLoop_run (l := .v a) cB nofun f
  rw [← cu.self] at e
  exact Runs.of_eq e (setsVec_St w (Keeps.refl _ _) cu.1 fun j => subRows_eq ef eF j)

theorem Vec.subtract_matrix_rowsn_spec [AddCommGroup R] {h : Heap R} (w : h.WF) {a b : Nat} {u : Fin n → R}
    {B : Matrix (Fin m) (Fin n) R} (hu : IsVec h a u) (hB : IsMat h b B) (la : h.live (.v a)) (lb : h.live (.m b)) :
    ReturnsVec (Vec.subtract_matrix_rowsn a (some b)) h (fun j => u j - ∑ i, B i j) := by
  unfold Vec.subtract_matrix_rowsn
  refine (Vec.dup_spec w hu la).bind fun o h1 w1 k1 f1 l1 hO => ?_
  have k := k1
  advance k1
  obtain ⟨f, ef, cu⟩ := hO.cells w1
  obtain ⟨F, eF, cB⟩ := hB.cells w1
  refine Runs.step rfl (Runs.step rfl (Runs.step (getSize_run (.m b) h1) (Runs.step (getSize_run (.v o) h1) ?_)))
  rw [cu.1, cB.1]
  simp only [if_true]
  have e := subRowsLoop_run (l := .v o) cB nofun f
  rw [← cu.self] at e
  exact Runs.step e (returnsVec_St w1 k f1 l1 cu.1 fun j => subRows_eq ef eF j)

theorem LinAlg.subtract_matrix_rowsnv_spec [AddCommGroup R] {h : Heap R} (w : h.WF) {a b : Nat} {u : Fin n → R}
    {B : Matrix (Fin m) (Fin n) R} (hu : IsVec h a u) (hB : IsMat h b B) (la : h.live (.v a)) (lb : h.live (.m b)) :
    ReturnsVec (LinAlg.subtract_matrix_rowsnv (some (.v a)) (some (.m b))) h (fun j => u j - ∑ i, B i j) :=
  Vec.subtract_matrix_rowsn_spec w hu hB la lb

end Verif
