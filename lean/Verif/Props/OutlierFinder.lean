import Verif.Model.Simple
import Verif.Lemmas.VecSpec
import Verif.Props.StatMoments
import Verif.Props.DataScaling

/-! # C83: finding outliers -/

namespace Verif

/-- `t` differs from the mean of the data by more than `thr` sample standard deviations. -/
def Spec.Outlier (thr : ℝ) (l : List ℝ) (t : ℝ) : Prop := thr * Real.sqrt (sampleVar l) < |t - mean l|

namespace OutlierFinder
open Spec
open SortArray (tab)
variable {m n : Nat}

theorem eq_mean {l : List ℝ} {t : ℝ} (ht : t ∈ l) (hv : Real.sqrt (sampleVar l) = 0) : t = mean l := by
  have hne : l ≠ [] := List.ne_nil_of_mem ht
  have hall : ∀ a ∈ l, a = t := by
    by_cases h2 : 2 ≤ l.length
    · have hz := (Real.sqrt_eq_zero (sampleVar_nonneg h2)).mp hv
      exact fun a ha => (sampleVar_eq_zero h2).mp hz a ha t ht
    · obtain ⟨x, rfl⟩ : ∃ x, l = [x] := List.length_eq_one_iff.mp (by have := List.length_pos_of_ne_nil hne; omega)
      intro a ha; rw [List.mem_singleton] at ha ht; rw [ha, ht]
  have := mean_between hne t t fun a ha => by rw [hall a ha]; exact ⟨le_rfl, le_rfl⟩
  exact le_antisymm this.1 this.2

theorem z_iff {thr t : ℝ} (hthr : 0 ≤ thr) {l : List ℝ} (ht : t ∈ l) :
    absC ((t - mean l) / Real.sqrt (sampleVar l)) > thr ↔ Outlier thr l t := by
  rw [absC_eq, Outlier, abs_div, abs_of_nonneg (Real.sqrt_nonneg _)]
  rcases (Real.sqrt_nonneg (sampleVar l)).eq_or_lt with e | p
  · rw [eq_mean ht e.symm, ← e]; simp [hthr]
  · rw [gt_iff_lt, lt_div_iff₀ p]

/-- The loop that collects the elements with a property. -/
theorem collect_step {β : Type} {l : List β} (P : β → Prop) [DecidablePred P] {i : Nat} (hi : i < l.length) :
    (l.take (i + 1)).filter (fun b => decide (P b)) =
      if P l[i] then (l.take i).filter (fun b => decide (P b)) ++ [l[i]] else (l.take i).filter (fun b => decide (P b)) := by
  rw [List.take_add_one, List.getElem?_eq_getElem hi, List.filter_append]
  by_cases h : P l[i] <;> simp [h]

open Classical in
theorem model_test_run {h : Heap ℝ} (w : h.WF) {x : Nat} {u : Fin n → ℝ} (hx : IsVec h x u) {thr : ℝ} (hthr : 0 ≤ thr) :
    model_test thr (some x) h = .ok ((List.ofFn u).filter fun t => decide (Outlier thr (List.ofFn u) t), h) := by
  have ex : h.buf (.v x) = List.ofFn u := hx.vec_eq w
  unfold model_test
  dsimp only
  rw [bind_ok (Stat.meanv_run w x), bind_ok (Stat.standard_deviationv_run w x), bind_ok (Vec.size_run w x)]
  have := foldN_read (h.vec x).length (fun k => ((List.ofFn u).take k).filter fun t => decide (Outlier thr (List.ofFn u) t))
    (fun i outliers => do
      let input_set_i ← load (.v x) i
      let z := (input_set_i - mean (h.buf (.v x))) / Real.sqrt (sampleVar (h.buf (.v x)))
      if absC z > thr then pure (outliers ++ [input_set_i]) else pure outliers) [] h (by simp) (by
      intro i hi
      have hi' : i < (h.buf (.v x)).length := hi
      rw [bind_ok (load_ok' hi')]
      rw [collect_step _ (by rw [← ex]; exact hi')]
      simp only [ex] at hi' ⊢
      have := z_iff hthr (List.getElem_mem hi')
      by_cases hp : Outlier thr (List.ofFn u) (List.ofFn u)[i]
      · rw [if_pos (this.mpr hp), if_pos hp]; rfl
      · rw [if_neg (fun q => hp (this.mp q)), if_neg hp]; rfl)
  refine this.trans ?_
  rw [List.take_of_length_le (by rw [show h.vec x = List.ofFn u from ex])]

open Classical in
/-- C83 (vector): `model_test` returns, in their order, the elements that differ from the mean of the vector by more than `threshold`
sample standard deviations, and changes nothing. -/
theorem C83_model_test {h : Heap ℝ} (w : h.WF) {x : Nat} {u : Fin n → ℝ} (hx : IsVec h x u) {thr : ℝ} (hthr : 0 ≤ thr) :
    Runs (model_test thr (some x)) h fun r h' => h' = h ∧
      r = (List.ofFn u).filter fun t => decide (thr * Real.sqrt (sampleVar (List.ofFn u)) < |t - mean (List.ofFn u)|) :=
  Runs.of_eq (model_test_run w hx hthr) ⟨rfl, rfl⟩

/-- C83 (few outliers): of `n ≥ 1` elements, the number of reported outliers times `threshold²` is at most `n - 1`; in particular
a threshold of at least `√n` never reports anything. -/
theorem C83_few {h : Heap ℝ} (w : h.WF) {x : Nat} {u : Fin n → ℝ} (hx : IsVec h x u) (hn : 1 ≤ n) {thr : ℝ} (hthr : 0 ≤ thr) :
    Runs (model_test thr (some x)) h fun r _ => r.length * thr ^ 2 ≤ n - 1 := by
  classical
  refine Runs.of_eq (model_test_run w hx hthr) ?_
  generalize hl : List.ofFn u = l
  have hlen : l.length = n := by rw [← hl, List.length_ofFn]
  have h1 : (1 : ℝ) ≤ n := by exact_mod_cast hn
  rcases (Real.sqrt_nonneg (sampleVar l)).eq_or_lt with e | p
  · rw [List.filter_eq_nil_iff.mpr]
    · simp [hn]
    · intro t ht
      simp only [Outlier, ← e, eq_mean ht e.symm]
      simp
  · have hv : 0 < sampleVar l := Real.sqrt_pos.mp p
    have h1' : (1 : ℝ) < n := by
      refine lt_of_le_of_ne h1 fun e => ?_
      rw [sampleVar, hlen, ← e] at hv; simp at hv
    have key : ∀ k : List ℝ, (k.filter fun t => decide (Outlier thr l t)).length * (thr ^ 2 * sampleVar l) ≤
        (k.map fun x => (x - mean l) ^ 2).sum := by
      intro k
      induction k with
      | nil => simp
      | cons a k ih =>
        rw [List.map_cons, List.sum_cons]
        by_cases ha : Outlier thr l a
        · rw [List.filter_cons_of_pos (by simpa using ha), List.length_cons]
          have : (thr * Real.sqrt (sampleVar l)) ^ 2 ≤ |a - mean l| ^ 2 :=
            pow_le_pow_left₀ (by positivity) (le_of_lt ha) 2
          rw [mul_pow, Real.sq_sqrt hv.le, sq_abs] at this
          push_cast
          linarith
        · rw [List.filter_cons_of_neg (by simpa using ha)]
          nlinarith [sq_nonneg (a - mean l)]
    have hk := key l
    have hs : (l.map fun x => (x - mean l) ^ 2).sum = (n - 1) * sampleVar l := by
      unfold sampleVar; rw [hlen]; field_simp [show (n : ℝ) - 1 ≠ 0 by linarith]
    rw [hs, ← mul_assoc] at hk
    exact le_of_mul_le_mul_right hk hv

theorem replicate_eq (m : Nat) : (List.replicate m ([] : List ℝ)) = (List.range m).map fun _ => [] := by
  apply List.ext_getElem <;> simp

open Classical in
/-- C83 (matrix): `model_set_test` returns one list for every row of the matrix: the outliers of that row. Nothing is changed. -/
theorem C83_set_test {h : Heap ℝ} (w : h.WF) {a : Nat} (la : h.live (.m a)) {A : Matrix (Fin m) (Fin n) ℝ} (hA : IsMat h a A) {thr : ℝ}
    (hthr : 0 ≤ thr) :
    ReturnsVal (model_set_test thr (some a)) h
      (List.ofFn fun i => (List.ofFn (A i)).filter fun t => decide (Outlier thr (List.ofFn (A i)) t)) := by
  obtain ⟨F, eF, cF⟩ := hA.cells w
  unfold model_set_test
  dsimp only
  refine Runs.step (Mat.size_run a h) ?_
  rw [cF.1]
  dsimp only
  refine Runs.newVec w ⟨rfl, rfl⟩ ?_
  intro h1 w1 k1 nl1 l1 s1
  have c1 := cF.keep k1 la nofun
  have la1 := k1.live la
  generalize h.next = row at *
  let L : Nat → List ℝ := fun i => (List.range n).map (F i)
  let fl : Nat → List ℝ → List ℝ := fun i l => l.filter fun t => decide (Outlier thr (L i) t)
  let T : Nat → Nat → List (List ℝ) := fun i j =>
    (List.range m).map fun b => if b < i then fl b (L b) else if b = i then fl b ((L b).take j) else []
  refine Runs.mono (Runs.foldN m (fun i o h' => h'.WF ∧ Keeps h1 h' (· = .v row) ∧ o = T i 0) _ _ _
    ⟨w1, Keeps.refl _ _, by rw [replicate_eq]; simp [T, fl]⟩ ?_) ?_
  · rintro i o h2 hi ⟨w2, k2, rfl⟩
    have c2 := c1.keep k2 la1 nofun
    obtain ⟨h3, e3, u3⟩ := Mat.rowGet_run (v := row) w2 c2 hi
    refine Runs.step e3 ?_
    have w3 := u3.wf w2
    have eb : h3.buf (.v row) = L i := u3.cells.2
    refine Runs.step (Stat.meanv_run w3 row) (Runs.step (Stat.standard_deviationv_run w3 row) ?_)
    rw [eb]
    have c3 := c2.upd u3 nofun
    have hlen : (L i).length = n := by simp [L]
    have := foldN_read n (fun j => T i j)
      (fun j outliers => do
        let input_set_i_j ← Mat.element_get a i j
        let z := (input_set_i_j - mean (L i)) / Real.sqrt (sampleVar (L i))
        if absC z > thr then pure (outliers.modify i (· ++ [input_set_i_j])) else pure outliers) (T i 0) h3 rfl (by
        intro j hj
        rw [bind_ok (Mat.element_get_run c3 hi hj)]
        have hj' : j < (L i).length := by omega
        have ej : (L i)[j] = F i j := by simp [L]
        have hz := z_iff hthr (List.getElem_mem hj')
        rw [ej] at hz
        have hstep := collect_step (fun t => Outlier thr (L i) t) hj'
        rw [ej] at hstep
        by_cases hp : Outlier thr (L i) (F i j)
        · rw [if_pos (hz.mpr hp)]
          rw [if_pos hp] at hstep
          refine congrArg (fun o => Out.ok (o, h3)) ?_
          refine List.ext_getElem (by simp [T]) fun b hb1 hb2 => ?_
          rw [List.getElem_modify]
          by_cases hb : i = b
          · subst hb; simp only [T, fl, List.getElem_map, List.getElem_range, lt_irrefl, if_true, if_false]; exact hstep.symm
          · simp only [T, List.getElem_map, List.getElem_range, if_neg hb, if_neg (Ne.symm hb)]
        · rw [if_neg (fun q => hp (hz.mp q))]
          rw [if_neg hp] at hstep
          refine congrArg (fun o => Out.ok (o, h3)) ?_
          refine List.ext_getElem (by simp [T]) fun b hb1 hb2 => ?_
          by_cases hb : i = b
          · subst hb; simp only [T, fl, List.getElem_map, List.getElem_range, lt_irrefl, if_true, if_false]; exact hstep.symm
          · simp only [T, List.getElem_map, List.getElem_range, if_neg (Ne.symm hb)])
    refine Runs.of_eq this ⟨w3, k2.trans u3.keeps, ?_⟩
    refine List.ext_getElem (by simp [T]) fun b hb1 hb2 => ?_
    simp only [T, List.getElem_map, List.getElem_range]
    by_cases hb : b = i
    · subst hb; rw [if_neg (lt_irrefl _), if_pos rfl, if_pos (Nat.lt_succ_self _), List.take_of_length_le (by omega)]
    · by_cases hb' : b < i
      · rw [if_pos hb', if_pos (by omega)]
      · rw [if_neg hb', if_neg hb, if_neg (by omega)]; simp [fl]
  · rintro o h' ⟨w', k', rfl⟩
    refine ⟨?_, w', k1.newer k' (by rintro l rfl; exact nl1)⟩
    have hL : ∀ i : Fin m, L i = List.ofFn (A i) := fun i => by
      apply List.ext_getElem
      · simp [L]
      · intro j h1 h2; simp [L, eF]
    refine List.ext_getElem (by simp [T]) fun b hb1 hb2 => ?_
    have hbm : b < m := by simpa [T] using hb1
    simp only [T, fl, List.getElem_map, List.getElem_range, List.getElem_ofFn, if_pos hbm]
    rw [show L b = List.ofFn (A ⟨b, hbm⟩) from hL ⟨b, hbm⟩]

open Classical in
theorem indices_run {h : Heap ℝ} (w : h.WF) {a : Nat} (la : h.live (.m a)) {F : Nat → Nat → ℝ} (cF : Cells h (.m a) n m F) {thr : ℝ}
    (hthr : 0 ≤ thr) :
    ReturnsVal (model_set_test_indices thr (some a)) h
      ((List.range m).flatMap fun i => ((List.range n).filter fun j =>
        decide (Outlier thr ((List.range n).map (F i)) (F i j))).map fun j => (j, i)) := by
  unfold model_set_test_indices
  dsimp only
  refine Runs.step (Mat.size_run a h) ?_
  rw [cF.1]
  dsimp only
  refine Runs.newVec w ⟨rfl, rfl⟩ ?_
  intro h1 w1 k1 nl1 l1 s1
  have c1 := cF.keep k1 la nofun
  have la1 := k1.live la
  generalize h.next = row at *
  let L : Nat → List ℝ := fun i => (List.range n).map (F i)
  let R : Nat → List (Nat × Nat) := fun i => ((List.range n).filter fun j => decide (Outlier thr (L i) (F i j))).map fun j => (j, i)
  refine Runs.mono (Runs.foldN m (fun i o h' => h'.WF ∧ Keeps h1 h' (· = .v row) ∧ o = (List.range i).flatMap R) _ _ _
    ⟨w1, Keeps.refl _ _, rfl⟩ ?_) ?_
  · rintro i o h2 hi ⟨w2, k2, rfl⟩
    have c2 := c1.keep k2 la1 nofun
    obtain ⟨h3, e3, u3⟩ := Mat.rowGet_run (v := row) w2 c2 hi
    refine Runs.step e3 ?_
    have w3 := u3.wf w2
    have eb : h3.buf (.v row) = L i := u3.cells.2
    refine Runs.step (Stat.meanv_run w3 row) (Runs.step (Stat.standard_deviationv_run w3 row) ?_)
    rw [eb]
    have c3 := c2.upd u3 nofun
    have hlen : (L i).length = n := by simp [L]
    have := foldN_read n (fun j => (List.range i).flatMap R ++ ((List.range j).filter fun j => decide (Outlier thr (L i) (F i j))).map fun j => (j, i))
      (fun j outliers => do
        let x ← Mat.element_get a i j
        let z := (x - mean (L i)) / Real.sqrt (sampleVar (L i))
        if absC z > thr then pure (outliers ++ [(j, i)]) else pure outliers) ((List.range i).flatMap R) h3 (by simp) (by
        intro j hj
        rw [bind_ok (Mat.element_get_run c3 hi hj)]
        have hj' : j < (L i).length := by omega
        have ej : (L i)[j] = F i j := by simp [L]
        have hz := z_iff hthr (List.getElem_mem hj')
        rw [ej] at hz
        rw [List.range_succ, List.filter_append, List.map_append]
        by_cases hp : Outlier thr (L i) (F i j)
        · rw [if_pos (hz.mpr hp)]
          refine congrArg (fun o => Out.ok (o, h3)) ?_
          simp [hp]
        · rw [if_neg (fun q => hp (hz.mp q))]
          refine congrArg (fun o => Out.ok (o, h3)) ?_
          simp [hp])
    refine Runs.of_eq this ⟨w3, k2.trans u3.keeps, ?_⟩
    rw [List.range_succ, List.flatMap_append]; simp [R]
  · rintro o h' ⟨w', k', rfl⟩
    exact ⟨rfl, w', k1.newer k' (by rintro l rfl; exact nl1)⟩

/-- C83 (indices): `model_set_test_indices` returns every position `(column, row)` whose element is an outlier of its row, each once, and
no other position. Nothing is changed. -/
theorem C83_indices {h : Heap ℝ} (w : h.WF) {a : Nat} (la : h.live (.m a)) {A : Matrix (Fin m) (Fin n) ℝ} (hA : IsMat h a A) {thr : ℝ}
    (hthr : 0 ≤ thr) :
    Runs (model_set_test_indices thr (some a)) h fun r h' => h'.WF ∧ Keeps h h' (fun _ => False) ∧ r.Nodup ∧
      (∀ p ∈ r, p.1 < n ∧ p.2 < m) ∧ ∀ (i : Fin m) (j : Fin n), ((j : Nat), (i : Nat)) ∈ r ↔ Outlier thr (List.ofFn (A i)) (A i j) := by
  classical
  obtain ⟨F, eF, cF⟩ := hA.cells w
  refine (indices_run w la cF hthr).mono fun r h' ⟨e, w', k'⟩ => ⟨w', k', ?_⟩
  subst e
  refine ⟨?_, ?_, ?_⟩
  · refine List.nodup_flatMap.mpr ⟨fun i _ => ?_, ?_⟩
    · refine List.Nodup.map (fun a b e => (Prod.mk.inj e).1) (List.nodup_range.filter _)
    · refine List.nodup_range.imp fun {i j} hij => ?_
      rw [Function.onFun, List.disjoint_left]
      rintro ⟨p, q⟩ h1 h2
      simp only [List.mem_map, List.mem_filter, Prod.mk.injEq] at h1 h2
      obtain ⟨_, _, _, rfl⟩ := h1
      obtain ⟨_, _, _, rfl⟩ := h2
      exact hij rfl
  · rintro ⟨p, q⟩ h1
    simp only [List.mem_flatMap, List.mem_map, List.mem_filter, List.mem_range, Prod.mk.injEq] at h1
    obtain ⟨i, hi, j, ⟨hj, _⟩, rfl, rfl⟩ := h1
    exact ⟨hj, hi⟩
  · intro i j
    have hL : (List.range n).map (F i) = List.ofFn (A i) := by
      apply List.ext_getElem
      · simp
      · intro j h1 h2; simp [eF]
    simp only [List.mem_flatMap, List.mem_map, List.mem_filter, List.mem_range, Prod.mk.injEq, decide_eq_true_eq]
    constructor
    · rintro ⟨i', _, j', ⟨_, ho⟩, e1, e2⟩
      subst e1 e2
      rw [hL, ← eF] at ho; exact ho
    · intro ho
      exact ⟨i, i.2, j, ⟨j.2, by rw [hL, ← eF]; exact ho⟩, rfl, rfl⟩

/-- C83 (missing data): without data the answers are empty. -/
theorem C83_null (h : Heap ℝ) (thr : ℝ) : model_test thr none h = .ok ([], h) ∧ model_set_test thr none h = .ok ([], h) ∧
    model_set_test_indices thr none h = .ok ([], h) := ⟨rfl, rfl, rfl⟩

/-- The hypotheses are met, and outliers exist: in `0, 0, 10` the element 10 is more than one standard deviation from the mean. -/
example : (let h : Heap ℝ := Heap.ofLists 0 [[0, 0, 10]] []; IsVec h 0 ![0, 0, 10]) ∧ Outlier 1 [0, 0, 10] 10 := by
  refine ⟨⟨by simp [Heap.ofLists], fun i => by fin_cases i <;> simp [Heap.ofLists]⟩, ?_⟩
  have hm : mean [0, 0, 10] = 10 / 3 := by norm_num [mean]
  have hv : sampleVar [0, 0, 10] = 100 / 3 := by norm_num [sampleVar, hm]
  rw [Outlier, hm, hv, one_mul, Real.sqrt_lt' (by norm_num)]
  norm_num [abs_of_pos]

end OutlierFinder
end Verif
