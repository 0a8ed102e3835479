import Verif.Lemmas.LinAlgMatrix
import Verif.Lemmas.RowCells
import Verif.Real
import Mathlib.Analysis.Matrix.PosDef
import Mathlib.LinearAlgebra.Matrix.SchurComplement

/-! # Cholesky decomposition -/

namespace Verif
open Spec
variable {n : Nat}

/-- The next pivot of a positive definite matrix is positive. -/
theorem chol_pivot {F K : Nat → Nat → ℝ} {j : Nat} (hj : j < n) (pd : (Matrix.of fun i k : Fin n => F i k).PosDef)
    (low : ∀ r c, c < j → c ≤ r → r < n → ∑ t ∈ Finset.range (c + 1), K r t * K c t = F r c) :
    0 < F j j - ∑ t ∈ Finset.range j, K j t * K j t := by
  set S := F j j - ∑ t ∈ Finset.range j, K j t * K j t with hS
  have sym : ∀ r c, r < n → c < n → F r c = F c r := by
    intro r c hr hc
    have := congrFun (congrFun pd.isHermitian ⟨c, hc⟩) ⟨r, hr⟩
    simpa using this
  let M : Matrix (Fin (j + 1)) (Fin (j + 1)) ℝ := Matrix.of fun i k => F i k
  have pM : M.PosDef := pd.submatrix (e := fun i : Fin (j + 1) => (⟨i, by omega⟩ : Fin n)) (by
    intro a b e; simpa [Fin.ext_iff] using e)
  let L : Matrix (Fin (j + 1)) (Fin (j + 1)) ℝ := Matrix.of fun r c => if c ≤ r then (if c.val < j then K r c else 1) else 0
  let D : Fin (j + 1) → ℝ := fun t => if t.val < j then 1 else S
  have half : ∀ r c : Fin (j + 1), c ≤ r → (L * Matrix.diagonal D * L.transpose) r c = F r c := by
    intro r c hcr
    have hcr' : c.val ≤ r.val := hcr
    have e0 : (L * Matrix.diagonal D * L.transpose) r c = ∑ t : Fin (j + 1), (fun t : Nat =>
        (if t ≤ r.val then (if t < j then K r t else 1) else 0) * (if t < j then 1 else S) *
        (if t ≤ c.val then (if t < j then K c t else 1) else 0)) t := by
      rw [Matrix.mul_apply]
      refine Finset.sum_congr rfl fun t _ => ?_
      rw [Matrix.mul_diagonal]
      rfl
    rw [e0, Fin.sum_univ_eq_sum_range (fun t : Nat =>
        (if t ≤ r.val then (if t < j then K r t else 1) else 0) * (if t < j then 1 else S) *
        (if t ≤ c.val then (if t < j then K c t else 1) else 0)) (j + 1)]
    by_cases hc : c.val < j
    · rw [← low r c hc hcr' (by omega)]
      rw [← Finset.sum_subset (Finset.range_subset_range.mpr (show c.val + 1 ≤ j + 1 by omega))]
      · refine Finset.sum_congr rfl fun t ht => ?_
        have := Finset.mem_range.mp ht
        rw [if_pos (by omega), if_pos (by omega), if_pos (by omega), if_pos (by omega), if_pos (by omega), mul_one]
      · intro t _ ht
        have : ¬ t < c.val + 1 := fun q => ht (Finset.mem_range.mpr q)
        rw [if_neg (show ¬ t ≤ c.val by omega), mul_zero]
    · have hc' : c.val = j := by omega
      have hr' : r.val = j := by omega
      rw [Finset.sum_range_succ, hc', hr']
      simp only [le_refl, if_true, lt_irrefl, if_false, one_mul, mul_one]
      rw [Finset.sum_congr rfl (g := fun t => K j t * K j t)]
      · rw [hS]; ring
      · intro t ht
        have := Finset.mem_range.mp ht
        simp only [this, this.le, if_true, mul_one]
  have eM : M = L * Matrix.diagonal D * L.transpose := by
    ext r c
    rcases le_total c r with q | q
    · rw [half r c q]; rfl
    · have := half c r q
      have tr : (L * Matrix.diagonal D * L.transpose).transpose = L * Matrix.diagonal D * L.transpose := by
        rw [Matrix.transpose_mul, Matrix.transpose_mul, Matrix.transpose_transpose, Matrix.diagonal_transpose, Matrix.mul_assoc]
      rw [← tr, Matrix.transpose_apply, this]
      exact sym r c (by omega) (by omega)
  have hd := pM.det_pos
  rw [eM, Matrix.det_mul, Matrix.det_mul, Matrix.det_transpose, Matrix.det_diagonal, Fin.prod_univ_castSucc] at hd
  have e1 : ∏ i : Fin j, D i.castSucc = 1 := Finset.prod_eq_one fun i _ => by simp [D]
  have e2 : D (Fin.last j) = S := by simp [D]
  rw [e1, e2, one_mul] at hd
  have : 0 < (L.det * L.det) * S := by linarith [mul_right_comm L.det S L.det]
  exact pos_of_mul_pos_right this (mul_self_nonneg _)

theorem cholSum_run {h : Heap ℝ} {L c r : Nat} {K : Nat → Nat → ℝ} (cK : Cells h (.m L) c r K) {i i' j : Nat} (hi : i < r)
    (hi' : i' < r) (hj : j ≤ c) : LinAlg.cholSum L i i' j h = .ok (∑ t ∈ Finset.range j, K i t * K i' t, h) := by
  unfold LinAlg.cholSum
  refine foldN_read j (fun k => ∑ t ∈ Finset.range k, K i t * K i' t) _ 0 h (by simp) ?_
  intro k hk
  rw [bind_ok (Mat.element_get_run cK hi (by omega)), bind_ok (Mat.element_get_run cK hi' (by omega)), Finset.sum_range_succ]
  rfl

/-- The finished columns `< j`, and the rows `< i` of column `j`. -/
structure CholInv (F K : Nat → Nat → ℝ) (n j i : Nat) : Prop where
  low : ∀ r c, c < j → c ≤ r → r < n → ∑ t ∈ Finset.range (c + 1), K r t * K c t = F r c
  col : ∀ r, j ≤ r → r < i → ∑ t ∈ Finset.range (j + 1), K r t * K j t = F r j
  diag : ∀ c, c < j → 0 < K c c
  piv : j < i → 0 < K j j
  up : ∀ r c, r < c → K r c = 0

theorem CholInv.next {F K : Nat → Nat → ℝ} {j : Nat} (a : CholInv F K n j n) (hj : j < n) : CholInv F K n (j + 1) (j + 1) where
  low := fun r c hc hcr hr => by
    by_cases e : c = j
    · subst e; exact a.col r hcr hr
    · exact a.low r c (by omega) hcr hr
  col := fun r h1 h2 => by omega
  diag := fun c hc => by
    by_cases e : c = j
    · subst e; exact a.piv hj
    · exact a.diag c (by omega)
  piv := fun h => by omega
  up := a.up

theorem sum_upd2_ne {K : Nat → Nat → ℝ} {i j : Nat} {v : ℝ} {r c k : Nat} (hk : k ≤ j) :
    ∑ t ∈ Finset.range k, upd2 K i j v r t * upd2 K i j v c t = ∑ t ∈ Finset.range k, K r t * K c t := by
  refine Finset.sum_congr rfl fun t ht => ?_
  have := Finset.mem_range.mp ht
  simp only [upd2]
  rw [if_neg (by omega), if_neg (by omega)]

theorem CholInv.setDiag {F K : Nat → Nat → ℝ} {j : Nat} (a : CholInv F K n j j)
    (hp : 0 < F j j - ∑ t ∈ Finset.range j, K j t * K j t) :
    CholInv F (upd2 K j j (Real.sqrt (F j j - ∑ t ∈ Finset.range j, K j t * K j t))) n j (j + 1) where
  low := fun r c hc hcr hr => by rw [sum_upd2_ne (by omega)]; exact a.low r c hc hcr hr
  col := fun r h1 h2 => by
    obtain rfl : r = j := by omega
    rw [Finset.sum_range_succ, sum_upd2_ne (Nat.le_refl _)]
    simp only [upd2, and_self, if_true]
    rw [Real.mul_self_sqrt hp.le]; ring
  diag := fun c hc => by simp only [upd2]; rw [if_neg (by omega)]; exact a.diag c hc
  piv := fun _ => by simp only [upd2, and_self, if_true]; exact Real.sqrt_pos.mpr hp
  up := fun r c hrc => by simp only [upd2]; rw [if_neg (by omega)]; exact a.up r c hrc

theorem CholInv.setOff {F K : Nat → Nat → ℝ} {i j : Nat} (a : CholInv F K n j i) (hij : j < i) :
    CholInv F (upd2 K i j ((F i j - ∑ t ∈ Finset.range j, K i t * K j t) / K j j)) n j (i + 1) where
  low := fun r c hc hcr hr => by rw [sum_upd2_ne (by omega)]; exact a.low r c hc hcr hr
  col := fun r h1 h2 => by
    rw [Finset.sum_range_succ, sum_upd2_ne (Nat.le_refl _)]
    by_cases e : r = i
    · subst e
      simp only [upd2, and_self, if_true]
      rw [if_neg (by omega), div_mul_cancel₀ _ (a.piv hij).ne']; ring
    · simp only [upd2]
      rw [if_neg (by omega), if_neg (by omega), ← Finset.sum_range_succ (fun t => K r t * K j t)]
      exact a.col r h1 (by omega)
  diag := fun c hc => by simp only [upd2]; rw [if_neg (by omega)]; exact a.diag c hc
  piv := fun _ => by simp only [upd2]; rw [if_neg (by omega)]; exact a.piv hij
  up := fun r c hrc => by simp only [upd2]; rw [if_neg (by omega)]; exact a.up r c hrc

/-- What the finished loops say. -/
theorem CholInv.mul {F K : Nat → Nat → ℝ} (a : CholInv F K n n n) (sym : ∀ r c, r < n → c < n → F r c = F c r) :
    (Matrix.of fun r c : Fin n => K r c) * (Matrix.of fun r c : Fin n => K r c).transpose = Matrix.of fun r c : Fin n => F r c := by
  have half : ∀ r c : Fin n, c ≤ r → ((Matrix.of fun r c : Fin n => K r c) * (Matrix.of fun r c : Fin n => K r c).transpose) r c =
      F r c := by
    intro r c hcr
    have hcr' : c.val ≤ r.val := hcr
    rw [Matrix.mul_apply, ← a.low r c c.2 hcr' r.2]
    simp only [Matrix.transpose_apply, Matrix.of_apply]
    rw [Fin.sum_univ_eq_sum_range (fun t => K r t * K c t) n,
      ← Finset.sum_subset (Finset.range_subset_range.mpr (show c.val + 1 ≤ n from c.2))]
    intro t _ ht
    have : ¬ t < c.val + 1 := fun q => ht (Finset.mem_range.mpr q)
    rw [a.up c t (by omega), mul_zero]
  ext r c
  rcases le_total c r with q | q
  · exact half r c q
  · have tr : ∀ L : Matrix (Fin n) (Fin n) ℝ, (L * L.transpose).transpose = L * L.transpose := by
      intro L; rw [Matrix.transpose_mul, Matrix.transpose_transpose]
    rw [← tr, Matrix.transpose_apply, half c r q]
    exact sym c r c.2 r.2

open LinAlg in
theorem cholesky_spec {h : Heap ℝ} (w : h.WF) {a : Nat} {A : Matrix (Fin n) (Fin n) ℝ} (hA : IsMat h a A) (la : h.live (.m a))
    (pd : A.PosDef) : Runs (cholesky (some (.m a))) h fun r h' => ∃ l t L, r = (some (.m l), some (.m t)) ∧
      ¬ h.live (.m l) ∧ ¬ h.live (.m t) ∧ l ≠ t ∧ h'.WF ∧ Keeps h h' (fun _ => False) ∧ IsMat h' l L ∧ IsMat h' t L.transpose ∧
      L * L.transpose = A ∧ (∀ i j : Fin n, i < j → L i j = 0) ∧ ∀ i : Fin n, 0 < L i i := by
  obtain ⟨F, eF, cA⟩ := hA.cells w
  have pd' : (Matrix.of fun i k : Fin n => F i k).PosDef := by rw [← of_cells eF]; exact pd
  unfold cholesky
  refine Runs.step (derefM_run a h) (Runs.step (Mat.size_run a h) ?_)
  rw [cA.1]
  simp only [if_true]
  have hz : ReturnsMat (zeromatnm (R := ℝ) n n) h (0 : Matrix (Fin n) (Fin n) ℝ) := Mat.const_spec w n n (0 : ℝ)
  refine hz.bind fun l h1 w1 k1 f1 l1 hL => ?_
  refine Runs.step (derefM_run l h1) ?_
  have nal : Loc.m a ≠ .m l := fun e => f1 (e ▸ la)
  obtain ⟨Z, eZ, cZ⟩ := hL.cells w1
  have c0 : Cells h1 (.m l) n n fun _ _ => (0 : ℝ) := cZ.congr fun i j hi hj => (eZ ⟨i, hi⟩ ⟨j, hj⟩).symm
  let I : Nat → Nat → Heap ℝ → Prop := fun j i h' => h'.WF ∧ Keeps h1 h' (· = .m l) ∧ ∃ K, Cells h' (.m l) n n K ∧ CholInv F K n j i
  refine Runs.bind (Runs.mono (Runs.forN n (fun j h' => I j j h') _ h1 ?_ ?_) ?_)
  · exact ⟨w1, Keeps.refl _ _, _, c0, fun _ _ h => by omega, fun _ _ h => by omega, fun _ h => by omega, fun h => by omega,
      fun _ _ _ => rfl⟩
  · rintro j h2 hj hI
    refine Runs.mono (Runs.forN (n - j) (fun d h' => I j (j + d) h') _ h2 hI ?_) ?_
    · rintro d h3 hd ⟨w3, k3, K, cK, iK⟩
      have cA3 : Cells h3 (.m a) n n F := (cA.keep k1 la nofun).keep k3 (k1.live la) nal
      have hi : j + d < n := by omega
      split_ifs with e
      · obtain rfl : d = 0 := by omega
        refine Runs.step (cholSum_run cK (i := j + 0) (i' := j + 0) hi hi hj.le) ?_
        refine Runs.step (Mat.element_get_run cA3 hi hj) ?_
        refine Runs.mono (Mat.set_cells w3 cK hi hj _) ?_
        rintro _ h4 ⟨w4, k4, _, c4⟩
        exact ⟨w4, k3.trans k4, _, c4, iK.setDiag (chol_pivot hj pd' iK.low)⟩
      · refine Runs.step (cholSum_run cK (i := j + d) (i' := j) hi hj hj.le) ?_
        refine Runs.step (Mat.element_get_run cA3 hi hj) (Runs.step (Mat.element_get_run cK hj hj) ?_)
        refine Runs.mono (Mat.set_cells w3 cK hi hj _) ?_
        rintro _ h4 ⟨w4, k4, _, c4⟩
        exact ⟨w4, k3.trans k4, _, c4, iK.setOff (by omega)⟩
    · rintro _ h3 ⟨w3, k3, K, cK, iK⟩
      rw [show j + (n - j) = n by omega] at iK
      exact ⟨w3, k3, K, cK, iK.next hj⟩
  · rintro _ h2 ⟨w2, k2, K, cK, iK⟩
    have hL2 : IsMat h2 l (Matrix.of fun r c : Fin n => K r c) := cK.isMat fun _ _ => rfl
    have l2 := k2.live l1
    refine (Mat.transposen_spec w2 hL2 l2).bind fun t h3 w3 k3 f3 l3 hT => ?_
    have kk : Keeps h h3 (fun _ => False) := (k1.trans_new k2 fun _ e hl => f1 (e ▸ hl)).trans k3
    have sym : ∀ r c, r < n → c < n → F r c = F c r := by
      intro r c hr hc
      have := congrFun (congrFun pd'.isHermitian ⟨c, hc⟩) ⟨r, hr⟩
      simpa using this
    refine ⟨l, t, _, rfl, f1, fun hl => f3 (k2.live (k1.live hl)), fun e => f3 (e ▸ l2), w3, kk, hL2.keep k3 l2 nofun, hT, ?_, ?_, ?_⟩
    · rw [iK.mul sym, of_cells eF]
    · intro i j hij; exact iK.up i j hij
    · intro i; exact iK.diag i i.2

end Verif
