import Verif.Props.OneHot
import Verif.Props.StatOrder
import Verif.Lemmas.Advance
import Verif.Lemmas.StdVector
import Verif.Lemmas.GramSchmidt
import Mathlib.LinearAlgebra.Matrix.Notation

/-! # C74: scaling and centring of data -/

namespace Verif.Data
open Spec Activation
variable {m n : Nat}

/-! ## Feature scaling -/

theorem max_cells [HasInf ℝ] {h : Heap ℝ} (w : h.WF) {x n : Nat} {f : Nat → ℝ} (c : VCells h (.v x) n f) {M : ℝ}
    (he : ∃ i, i < n ∧ f i = M) (hM : ∀ i, i < n → f i ≤ M) (hb : ∀ i, i < n → -(HasInf.inf : ℝ) < f i) :
    Vec.max_element x h = .ok (M, h) := by
  rw [Vec.max_element_run w x]
  have hbuf : h.vec x = (List.range n).map f := c.2
  rw [show (h.buf (.v x)) = (List.range n).map f from c.2]
  rcases maxIdx_fold (-(HasInf.inf : ℝ)) ((List.range n).map f) (by
    intro a ha; obtain ⟨i, hi, rfl⟩ := List.mem_map.mp ha; exact hb i (List.mem_range.mp hi)) with ⟨h0, _⟩ | ⟨i, M', e1, _, e3, e4, _⟩
  · obtain ⟨i, hi, _⟩ := he
    simp at h0; omega
  · rw [e1]
    obtain ⟨i0, hi0, rfl⟩ := he
    have h1 := e4 (f i0) (List.mem_map.mpr ⟨i0, List.mem_range.mpr hi0, rfl⟩)
    obtain ⟨k, hk, rfl⟩ := List.mem_map.mp (List.mem_of_getElem? e3)
    rw [le_antisymm (hM k (List.mem_range.mp hk)) h1]

theorem min_cells [HasInf ℝ] {h : Heap ℝ} (w : h.WF) {x n : Nat} {f : Nat → ℝ} (c : VCells h (.v x) n f) {M : ℝ}
    (he : ∃ i, i < n ∧ f i = M) (hM : ∀ i, i < n → M ≤ f i) (hb : ∀ i, i < n → f i < (HasInf.inf : ℝ)) :
    Vec.min_element x h = .ok (M, h) := by
  rw [Vec.min_element_run w x]
  rw [show (h.buf (.v x)) = (List.range n).map f from c.2]
  rcases minIdx_fold ((HasInf.inf : ℝ)) ((List.range n).map f) (by
    intro a ha; obtain ⟨i, hi, rfl⟩ := List.mem_map.mp ha; exact hb i (List.mem_range.mp hi)) with ⟨h0, _⟩ | ⟨i, M', e1, _, e3, e4, _⟩
  · obtain ⟨i, hi, _⟩ := he
    simp at h0; omega
  · rw [e1]
    obtain ⟨i0, hi0, rfl⟩ := he
    have h1 := e4 (f i0) (List.mem_map.mpr ⟨i0, List.mem_range.mpr hi0, rfl⟩)
    obtain ⟨k, hk, rfl⟩ := List.mem_map.mp (List.mem_of_getElem? e3)
    rw [le_antisymm h1 (hM k (List.mem_range.mp hk))]

/-- C74: `feature_scaling` returns a new matrix: every column is shifted by its smallest element and divided by its range. `hi j` and `lo j`
are the largest and the smallest element of column `j`; no column is constant (the program divides by zero then). -/
theorem C74_scaling [HasInf ℝ] {h : Heap ℝ} (w : h.WF) {a : Nat} (la : h.live (.m a)) {A : Matrix (Fin m) (Fin n) ℝ} (hA : IsMat h a A)
    (hb : ∀ i j, -(HasInf.inf : ℝ) < A i j ∧ A i j < (HasInf.inf : ℝ)) (hi lo : Fin n → ℝ)
    (hhi : ∀ j, (∃ i, A i j = hi j) ∧ ∀ i, A i j ≤ hi j) (hlo : ∀ j, (∃ i, A i j = lo j) ∧ ∀ i, lo j ≤ A i j)
    (_hne : ∀ j, lo j < hi j) :
    ReturnsMat (feature_scaling (some (.m a))) h fun i j => (A i j - lo j) / (hi j - lo j) := by
  unfold feature_scaling
  refine Runs.step (derefM_run a h) ?_
  refine (Mat.transposen_spec w hA la).bind fun t h1 w1 k1 f1 l1 hT => ?_
  refine Runs.step (derefM_run t h1) ?_
  obtain ⟨F, eF, cF⟩ := hT.cells w1
  refine Runs.step (Mat.size_run t h1) ?_
  rw [cF.1]
  dsimp only
  refine Runs.newVec w1 ⟨rfl, rfl⟩ ?_
  intro h2 w2 k2 nl2 ll2 s2
  have cF2 := cF.keep k2 l1 nofun
  have l2 := k2.live l1
  have k12 := k1.trans k2
  generalize h1.next = row at *
  have eF' : ∀ (i : Nat) (j : Nat) (hi' : i < n) (hj : j < m), F i j = A ⟨j, hj⟩ ⟨i, hi'⟩ := fun i j hi' hj => (eF ⟨i, hi'⟩ ⟨j, hj⟩).symm
  let H : Nat → ℝ := fun j => if hj : j < n then hi ⟨j, hj⟩ else 0
  let L : Nat → ℝ := fun j => if hj : j < n then lo ⟨j, hj⟩ else 0
  have hH : ∀ j (hj : j < n), H j = hi ⟨j, hj⟩ := fun j hj => dif_pos hj
  have hL : ∀ j (hj : j < n), L j = lo ⟨j, hj⟩ := fun j hj => dif_pos hj
  refine Runs.bind ((Runs.foldN n (fun i ext h' => h'.WF ∧ Keeps h2 h' (· = .v row) ∧ ext = (List.range i).map fun j => (H j, L j)) _ _ _
    ⟨w2, Keeps.refl _ _, rfl⟩ ?_).mono ?_)
  · rintro i ext h3 hi' ⟨w3, k3, rfl⟩
    have cF3 := cF2.keep k3 l2 nofun
    obtain ⟨h4, e4, u4⟩ := Mat.rowGet_run (v := row) w3 cF3 hi'
    refine Runs.step e4 ?_
    have w4 := u4.wf w3
    refine Runs.step (max_cells w4 u4.cells (M := H i) ?_ ?_ ?_) ?_
    · obtain ⟨⟨j, e⟩, _⟩ := hhi ⟨i, hi'⟩
      exact ⟨j, j.2, by rw [eF' i j hi' j.2, hH i hi', ← e]⟩
    · intro j hj
      rw [eF' i j hi' hj, hH i hi']; exact (hhi _).2 _
    · intro j hj
      rw [eF' i j hi' hj]; exact (hb _ _).1
    refine Runs.step (min_cells w4 u4.cells (M := L i) ?_ ?_ ?_) ?_
    · obtain ⟨⟨j, e⟩, _⟩ := hlo ⟨i, hi'⟩
      exact ⟨j, j.2, by rw [eF' i j hi' j.2, hL i hi', ← e]⟩
    · intro j hj
      rw [eF' i j hi' hj, hL i hi']; exact (hlo _).2 _
    · intro j hj
      rw [eF' i j hi' hj]; exact (hb _ _).2
    exact Runs.of_eq (a := _) (h' := h4) rfl ⟨w4, k3.trans (Updated.keeps u4), by rw [List.range_succ, List.map_append]; rfl⟩
  · rintro ext h3 ⟨w3, k3, rfl⟩
    have cF3 := cF2.keep k3 l2 nofun
    have l3 := k3.live l2
    have k13 := k12.newer k3 (by rintro l rfl q; exact nl2 (k1.live q))
    refine Runs.bind ((Runs.forN n (fun i h' => h'.WF ∧ Keeps h3 h' (· = .m t) ∧
      Cells h' (.m t) m n fun x y => if x < i then (F x y - L x) / (H x - L x) else F x y) _ _
      ⟨w3, Keeps.refl _ _, cF3.congr fun _ _ _ _ => by simp⟩ ?_).mono ?_)
    · rintro i h4 hi' ⟨w4, k4, c4⟩
      refine Runs.step (atS_ok (a := (H i, L i)) (by simp [hi']) h4) ?_
      refine (Runs.forN m (fun j h' => h'.WF ∧ Keeps h4 h' (· = .m t) ∧
        Cells h' (.m t) m n fun x y => if x < i ∨ (x = i ∧ y < j) then (F x y - L x) / (H x - L x) else F x y) _ _
        ⟨w4, Keeps.refl _ _, c4.congr fun _ _ _ _ => by simp⟩ ?_).mono ?_
      · rintro j h5 hj ⟨w5, k5, c5⟩
        refine Runs.step (Mat.element_get_run c5 hi' hj) ?_
        refine (Mat.set_cells w5 c5 hi' hj _).mono ?_
        rintro _ h6 ⟨w6, k6, _, c6⟩
        refine ⟨w6, k5.trans k6, c6.congr fun x y _ _ => ?_⟩
        unfold upd2
        by_cases e : x = i ∧ y = j
        · obtain ⟨rfl, rfl⟩ := e; simp
        · rw [if_neg e]
          have : (x < i ∨ x = i ∧ y < j + 1) ↔ (x < i ∨ x = i ∧ y < j) := by
            constructor
            · rintro (q | ⟨rfl, q⟩)
              · exact .inl q
              · exact .inr ⟨rfl, by have : y ≠ j := fun q => e ⟨rfl, q⟩
                                    omega⟩
            · rintro (q | ⟨q, q'⟩)
              · exact .inl q
              · exact .inr ⟨q, by omega⟩
          simp only [this]
      · rintro _ h5 ⟨w5, k5, c5⟩
        refine ⟨w5, k4.trans k5, c5.congr fun x y _ hy => ?_⟩
        have : (x < i ∨ x = i ∧ y < m) ↔ x < i + 1 := by omega
        simp only [this]
    · rintro _ h4 ⟨w4, k4, c4⟩
      have kn := k13.newer k4 (by rintro l rfl; exact f1)
      have hM : IsMat h4 t fun (j : Fin n) (i : Fin m) => (A i j - lo j) / (hi j - lo j) := c4.isMat fun j i => by
        rw [if_pos j.2, hH _ j.2, hL _ j.2, eF' _ _ j.2 i.2]
      exact (Mat.transposen_spec w4 hM (k4.live l3)).from kn

/-- C74: after feature scaling every element is between 0 and 1, and every column contains 0 and 1. -/
theorem C74_unit {A : Matrix (Fin m) (Fin n) ℝ} {hi lo : Fin n → ℝ}
    (hhi : ∀ j, (∃ i, A i j = hi j) ∧ ∀ i, A i j ≤ hi j) (hlo : ∀ j, (∃ i, A i j = lo j) ∧ ∀ i, lo j ≤ A i j)
    (hne : ∀ j, lo j < hi j) :
    (∀ i j, 0 ≤ (A i j - lo j) / (hi j - lo j) ∧ (A i j - lo j) / (hi j - lo j) ≤ 1) ∧
    ∀ j, (∃ i, (A i j - lo j) / (hi j - lo j) = 0) ∧ ∃ i, (A i j - lo j) / (hi j - lo j) = 1 := by
  have hp : ∀ j, 0 < hi j - lo j := fun j => sub_pos.mpr (hne j)
  refine ⟨fun i j => ⟨?_, ?_⟩, fun j => ⟨?_, ?_⟩⟩
  · exact div_nonneg (sub_nonneg.mpr ((hlo j).2 i)) (hp j).le
  · rw [div_le_one (hp j)]; linarith [(hhi j).2 i]
  · obtain ⟨i, e⟩ := (hlo j).1; exact ⟨i, by rw [e]; simp⟩
  · obtain ⟨i, e⟩ := (hhi j).1; exact ⟨i, by rw [e, div_self (hp j).ne']⟩

/-! ## Centring -/

theorem mean_cells {h : Heap ℝ} (w : h.WF) {x n : Nat} {f : Nat → ℝ} (c : VCells h (.v x) n f) :
    Stat.meanv (some x) h = .ok ((∑ j ∈ Finset.range n, f j) / n, h) := by
  rw [Stat.meanv_run w, show (h.buf (.v x)) = (List.range n).map f from c.2]
  unfold mean
  rw [List.length_map, List.length_range]
  rfl

/-- What `mean_centering` computes. -/
theorem mean_centering_run {h : Heap ℝ} (w : h.WF) {a : Nat} (la : h.live (.m a)) {A : Matrix (Fin m) (Fin n) ℝ} (hA : IsMat h a A) :
    ReturnsMat (mean_centering (some (.m a))) h fun i j => A i j - (∑ k, A i k) / n := by
  unfold mean_centering
  obtain ⟨F, eF, cA⟩ := hA.cells w
  refine Runs.newM w ?_
  intro h0 w0 k0 nl0 ll0 _
  have cA0 := cA.keep k0 la nofun
  have la0 := k0.live la
  refine Runs.step (derefM_run a h0) (Runs.step (Mat.size_run a h0) ?_)
  rw [cA0.1]
  refine Runs.resizeM w0 rfl ?_
  intro h1 w1 k1 _ s1 _
  have hne : a ≠ h.next := fun e => nl0 (e ▸ la)
  have cA1 := cA0.keep k1 la0 (by simp [hne])
  have la1 := k1.live la0
  have ll1 := k1.live ll0
  have kn1 := k0.newer k1 (by rintro l rfl; exact nl0)
  generalize h.next = o at *
  dsimp only
  refine Runs.newVec w1 ⟨rfl, rfl⟩ ?_
  intro h2 w2 k2 nl2 ll2 s2
  have cA2 := cA1.keep k2 la1 nofun
  have la2 := k2.live la1
  have lo2 := k2.live ll1
  have kn2 := kn1.trans k2
  have nlr : ¬ h.live (.v h1.next) := fun q => nl2 (kn1.live q)
  have so2 : h2.size (.m o) = ⟨n, m, 1⟩ := by rw [(k2.2 _ ll1 nofun).2]; exact s1
  generalize h1.next = row at *
  obtain ⟨G, cG⟩ := exists_Cells w2 so2
  let μ : Nat → ℝ := fun i => (∑ j ∈ Finset.range n, F i j) / n
  refine Runs.bind ((Runs.forN m (fun i h' => h'.WF ∧ Keeps h2 h' (fun l => l = .v row ∨ l = .m o) ∧
    Cells h' (.m o) n m fun x y => if x < i then F x y - μ x else G x y) _ _
    ⟨w2, Keeps.refl _ _, cG.congr fun _ _ _ _ => by simp⟩ ?_).mono ?_)
  · rintro i h3 hi ⟨w3, k3, c3⟩
    have cA3 := cA2.keep k3 la2 (by simp [hne])
    obtain ⟨h4, e4, u4⟩ := Mat.rowGet_run (v := row) w3 cA3 hi
    refine Runs.step e4 ?_
    have w4 := u4.wf w3
    have k4 := k3.trans ((Updated.keeps u4).mono (by rintro l _ rfl; exact .inl rfl))
    have cA4 := cA3.upd u4 nofun
    have c4 := c3.upd u4 nofun
    refine Runs.step (mean_cells w4 u4.cells) ?_
    refine (Runs.forN n (fun j h' => h'.WF ∧ Keeps h4 h' (· = .m o) ∧
      Cells h' (.m o) n m fun x y => if x < i ∨ (x = i ∧ y < j) then F x y - μ x else G x y) _ _
      ⟨w4, Keeps.refl _ _, c4.congr fun _ _ _ _ => by simp⟩ ?_).mono ?_
    · rintro j h5 hj ⟨w5, k5, c5⟩
      have cA5 := cA4.keep k5 (k4.live la2) (by simp [hne])
      refine Runs.step (Mat.element_get_run cA5 hi hj) ?_
      refine (Mat.set_cells w5 c5 hi hj _).mono ?_
      rintro _ h6 ⟨w6, k6, _, c6⟩
      refine ⟨w6, k5.trans k6, c6.congr fun x y _ _ => ?_⟩
      unfold upd2
      grind
    · rintro _ h5 ⟨w5, k5, c5⟩
      refine ⟨w5, k4.trans (k5.mono (by rintro l _ rfl; exact .inr rfl)), c5.congr fun x y _ hy => ?_⟩
      have : (x < i ∨ x = i ∧ y < n) ↔ x < i + 1 := by omega
      simp only [this]
  · rintro _ h3 ⟨w3, k3, c3⟩
    refine Runs.of_eq (a := some (.m o)) (h' := h3) rfl ⟨o, rfl, nl0, k3.live lo2, w3,
      kn2.newer k3 (by rintro l (rfl | rfl); exacts [nlr, nl0]), c3.isMat fun i j => ?_⟩
    rw [if_pos i.2, eF i j]
    congr 2
    simp only [eF]
    exact Fin.sum_univ_eq_sum_range (fun k => F i k) n

/-- C74: `mean_centering` returns a new matrix: from every element the mean of its row is subtracted. -/
theorem C74_centering {h : Heap ℝ} (w : h.WF) {a : Nat} (la : h.live (.m a)) {A : Matrix (Fin m) (Fin n) ℝ} (hA : IsMat h a A) :
    ReturnsMat (mean_centering (some (.m a))) h fun i j => A i j - (∑ k, A i k) / n := mean_centering_run w la hA

/-- C74: the mean of every row of the centred matrix is 0. -/
theorem C74_centred (A : Matrix (Fin m) (Fin n) ℝ) (i : Fin m) : ∑ j, (A i j - (∑ k, A i k) / n) = 0 := by
  rw [Finset.sum_sub_distrib, Finset.sum_const, Finset.card_univ, Fintype.card_fin, nsmul_eq_mul]
  by_cases hn : (n : ℝ) = 0
  · have : n = 0 := by exact_mod_cast hn
    subst this; simp
  · rw [mul_div_cancel₀ _ hn, sub_self]

/-! ## Normalisation -/

/-- The sample standard deviation of row `i`. -/
noncomputable def rowDev (A : Matrix (Fin m) (Fin n) ℝ) (i : Fin m) : ℝ :=
  Real.sqrt ((∑ j, (A i j - (∑ k, A i k) / n) ^ 2) / (n - 1))

theorem dev_cells {h : Heap ℝ} (w : h.WF) {x n : Nat} {f : Nat → ℝ} (c : VCells h (.v x) n f) :
    Stat.standard_deviationv (some x) h =
      .ok (Real.sqrt ((∑ j ∈ Finset.range n, (f j - (∑ k ∈ Finset.range n, f k) / n) ^ 2) / (n - 1)), h) := by
  rw [Stat.standard_deviationv_run w, show (h.buf (.v x)) = (List.range n).map f from c.2]
  unfold sampleVar mean
  rw [List.length_map, List.length_range, List.map_map]
  rfl

/-- C74: `mean_normalization` returns a new matrix: from every element the mean of its row is subtracted, then it is divided by the sample
standard deviation of its row (rows are not constant: the program divides by zero then). -/
theorem C74_normalization {h : Heap ℝ} (w : h.WF) {a : Nat} (la : h.live (.m a)) {A : Matrix (Fin m) (Fin n) ℝ} (hA : IsMat h a A)
    (_hd : ∀ i, rowDev A i ≠ 0) :
    ReturnsMat (mean_normalization (some (.m a))) h fun i j => (A i j - (∑ k, A i k) / n) / rowDev A i := by
  unfold mean_normalization
  refine (mean_centering_run w la hA).bind fun o h1 w1 k1 f1 l1 hC => ?_
  obtain ⟨F, eF, cF⟩ := hC.cells w1
  refine Runs.step (derefM_run o h1) (Runs.step (Mat.size_run o h1) ?_)
  rw [cF.1]
  dsimp only
  refine Runs.newVec w1 ⟨rfl, rfl⟩ ?_
  intro h2 w2 k2 nl2 ll2 s2
  have cF2 := cF.keep k2 l1 nofun
  have l2 := k2.live l1
  have k12 := k1.trans k2
  have nlr : ¬ h.live (.v h1.next) := fun q => nl2 (k1.live q)
  generalize h1.next = row at *
  let σ : Nat → ℝ := fun i => Real.sqrt ((∑ j ∈ Finset.range n, (F i j - (∑ k ∈ Finset.range n, F i k) / n) ^ 2) / (n - 1))
  refine Runs.bind ((Runs.forN m (fun i h' => h'.WF ∧ Keeps h2 h' (fun l => l = .v row ∨ l = .m o) ∧
    Cells h' (.m o) n m fun x y => if x < i then F x y * (1 / σ x) else F x y) _ _
    ⟨w2, Keeps.refl _ _, cF2.congr fun _ _ _ _ => by simp⟩ ?_).mono ?_)
  · rintro i h3 hi ⟨w3, k3, c3⟩
    obtain ⟨h4, e4, u4⟩ := Mat.rowGet_run (v := row) w3 c3 hi
    refine Runs.step e4 ?_
    have w4 := u4.wf w3
    have r4 : VCells h4 (.v row) n (F i) := u4.cells.congr fun j _ => by simp
    refine Runs.step (dev_cells w4 r4) ?_
    obtain ⟨h5, e5, u5⟩ := Vec.scalar_multiply_set w4 r4 (1 / σ i)
    refine Runs.step e5 ?_
    obtain ⟨h6, e6, u6⟩ := Mat.rowSet_run ((c3.upd u4 nofun).upd u5 nofun) u5.cells hi
    refine Runs.of_eq e6 ⟨u6.wf (u5.wf w4), ?_, u6.cells.congr fun x y _ _ => ?_⟩
    · exact ((k3.trans ((Updated.keeps u4).mono (by rintro l _ rfl; exact .inl rfl))).trans
        ((Updated.keeps u5).mono (by rintro l _ rfl; exact .inl rfl))).trans ((Updated.keeps u6).mono (by rintro l _ rfl; exact .inr rfl))
    · grind
  · rintro _ h3 ⟨w3, k3, c3⟩
    refine Runs.of_eq (a := some (.m o)) (h' := h3) rfl ⟨o, rfl, f1, k3.live l2, w3,
      k12.newer k3 (by rintro l (rfl | rfl); exacts [nlr, f1]), c3.isMat fun i j => ?_⟩
    have hs : σ i = rowDev A i := by
      have e1 : ∑ k ∈ Finset.range n, F i k = 0 := by
        rw [← Fin.sum_univ_eq_sum_range (fun k => F i k) n]
        simp only [← eF]
        exact C74_centred A i
      show Real.sqrt _ = Real.sqrt _
      rw [e1, ← Fin.sum_univ_eq_sum_range (fun k => (F i k - 0 / (n : ℝ)) ^ 2) n]
      simp only [← eF, zero_div, sub_zero]
    rw [if_pos i.2, ← eF i j, hs, mul_one_div]

/-- C74: after normalisation the sample variance of every row is 1. -/
theorem C74_variance (A : Matrix (Fin m) (Fin n) ℝ) (i : Fin m) (hd : rowDev A i ≠ 0) :
    (∑ j, ((A i j - (∑ k, A i k) / n) / rowDev A i) ^ 2) / ((n : ℝ) - 1) = 1 := by
  simp only [div_pow]
  rw [← Finset.sum_div, div_right_comm]
  have hsq : rowDev A i ^ 2 = (∑ j, (A i j - (∑ k, A i k) / n) ^ 2) / (n - 1) := by
    unfold rowDev at hd ⊢
    rw [Real.sq_sqrt]
    by_contra q
    exact hd (Real.sqrt_eq_zero_of_nonpos (not_le.mp q).le)
  rw [← hsq, div_self (pow_ne_zero 2 hd)]

example : ∃ h : Heap ℝ, h.WF ∧ h.live (.m 0) ∧ IsMat h 0 (!![1, 3; 2, 6] : Matrix (Fin 2) (Fin 2) ℝ) :=
  ⟨Heap.ofLists 0 [] [(2, 2, [1, 3, 2, 6])], Heap.ofLists_wf _ _ _ (by simp), by simp [Heap.ofLists, Heap.live, Loc.id],
    rfl, by intro i j; fin_cases i <;> fin_cases j <;> simp [Heap.ofLists]⟩

example : rowDev (!![1, 3; 2, 6] : Matrix (Fin 2) (Fin 2) ℝ) 0 ≠ 0 := by
  unfold rowDev
  rw [Real.sqrt_ne_zero']
  norm_num [Fin.sum_univ_two]

end Verif.Data
