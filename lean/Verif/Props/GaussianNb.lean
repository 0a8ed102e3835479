import Verif.Lemmas.GaussianNb
import Verif.Props.Performance
import Verif.Props.Ann
import Verif.Lemmas.Example
import Mathlib.LinearAlgebra.Matrix.Notation

/-! # C129: `MLPPGaussianNB` -/

namespace Verif
open Spec
noncomputable section
variable {h : Heap ℝ} {n d m p : Nat} {s : GaussianNb} {X : Matrix (Fin n) (Fin d) ℝ} {y : Fin n → ℝ}

/-- C129 (training, as far as it holds): the constructor makes a classifier for the data and changes nothing that existed. For every class it has the
mean and the deviation of all values in the class, those of all features together; the frequencies of the classes, which it should know, are all 0
(`GaussianFit`). Missing: a mean and a deviation for every feature; the frequencies. -/
theorem C129_create_partial (w : h.WF) {a b : Ref} (hX : HasM h a X) (hy : HasV h b y) (small : ∀ i, |y i| < 2147483648) (m : Nat) :
    Runs (GaussianNb.create a b m) h fun s h' => GaussianFit s h' X y m ∧ s.input_set = a ∧ s.output_set = b ∧ Keeps h h' (fun _ => False) := by
  unfold GaussianNb.create
  refine stepV0 w fun o1 h1 v1 w1 k1 f1 hv1 => ?_
  have M1 : ∀ r, NotIn h1 r → NotIn h r := fun r f => f.mono k1
  refine stepV0 w1 fun o2 h2 v2 w2 k2 f2 hv2 => ?_
  have M2 : ∀ r, NotIn h2 r → NotIn h r := fun r f => f.mono (k1.trans k2)
  have n12 : (some (.v o1) : Ref) ≠ some (.v o2) := fun e => f2.ne hv1 e.symm
  have hv1 := adv_hasv k2 hv1
  refine stepV0 w2 fun o3 h3 v3 w3 k3 f3 hv3 => ?_
  have M3 : ∀ r, NotIn h3 r → NotIn h r := fun r f => f.mono ((k1.trans k2).trans k3)
  have n13 : (some (.v o1) : Ref) ≠ some (.v o3) := fun e => f3.ne hv1 e.symm
  have n23 : (some (.v o2) : Ref) ≠ some (.v o3) := fun e => f3.ne hv2 e.symm
  have hv1 := adv_hasv k3 hv1
  have hv2 := adv_hasv k3 hv2
  refine stepV0 w3 fun o4 h4 v4 w4 k4 f4 hv4 => ?_
  have n14 : (some (.v o1) : Ref) ≠ some (.v o4) := fun e => f4.ne hv1 e.symm
  have n24 : (some (.v o2) : Ref) ≠ some (.v o4) := fun e => f4.ne hv2 e.symm
  have n34 : (some (.v o3) : Ref) ≠ some (.v o4) := fun e => f4.ne hv3 e.symm
  have hv1 := adv_hasv k4 hv1
  have hv2 := adv_hasv k4 hv2
  have hv3 := adv_hasv k4 hv3
  have K4 : Keeps h h4 (fun _ => False) := ((k1.trans k2).trans k3).trans k4
  refine Runs.step (Hd.size_run (adv_hasv K4 hy)) ?_
  refine Runs.bind ((show Runs (resizeTo (.v o4) ⟨n, 1, 1⟩) h4 _ from Hd.resizev_run w4 hv4 n).mono fun _ h5 ⟨w5, k5, v5, hv5⟩ => ?_)
  dsimp only
  obtain ⟨s, es⟩ : ∃ s : GaussianNb, s = ⟨m, some (.v o3), some (.v o1), some (.v o2), a, b, some (.v o4), true⟩ := ⟨_, rfl⟩
  rw [← es]
  have A : GaussianNb.Apart s := by rw [es]; exact ⟨n12, n13, n14, n23, n24, n34⟩
  have F4 : GaussianNb.Frame h s h4 X y := by
    rw [es]
    exact ⟨w4, K4, adv_hasm K4 hX, adv_hasv K4 hy, f1, M1 _ f2, M2 _ f3, M3 _ f4, ⟨_, _, _, hX⟩, ⟨_, _, hy⟩⟩
  have ey : s.y_hat = some (.v o4) := by rw [es]
  have F5 := F4.wr w5 (q := s.y_hat) F4.fy (by rw [ey]; exact k5)
  have em : s.class_num = m := by rw [es]
  have hm : HasV h5 s.mu v1 := by rw [es]; exact hv1.off k5 n14
  have hs : HasV h5 s.sigma v2 := by rw [es]; exact hv2.off k5 n24
  have hp : HasV h5 s.priors v3 := by rw [es]; exact hv3.off k5 n34
  have hh : HasV h5 s.y_hat v5 := by rw [es]; exact hv5
  have ei : s.initialized = true ∧ s.input_set = a ∧ s.output_set = b := by rw [es]; exact ⟨rfl, rfl, rfl⟩
  clear es
  refine Runs.bind (Runs.mono (Q := fun _ h' => GaussianFit s h' X y m ∧ Keeps h h' (fun _ => False)) ?_ fun _ h' Q => Runs.of_eq rfl ⟨Q.1, ei.2.1, ei.2.2, Q.2⟩)
  unfold GaussianNb.evaluate
  refine Runs.bind ((GaussianNb.moments_run A F5 em hm hs hp hh).mono fun _ h6 ⟨F6, hm6, hs6, hp6, hh6⟩ => ?_)
  refine Runs.bind ((GaussianNb.countPriors_run A F6 em hm6 hs6 hp6 hh6 small).mono fun _ h7 ⟨F7, hm7, hs7, hp7, hh7⟩ => ?_)
  refine (GaussianNb.predictions_run A F7 em hm7 hs7 hp7 hh7).mono fun _ h8 ⟨F8, hm8, hs8, hp8, hh8⟩ => ?_
  exact ⟨⟨F8.wf, em, ei.1, F8.X, F8.y, hm8, hs8, hp8, hh8⟩, F8.keeps⟩

theorem GaussianNb.model_test_run (F : GaussianFit s h X y m) {x : Ref} {v : Fin p → ℝ} (hx : HasV h x v) : s.model_test x h = .ok (0, h) := by
  have key : Runs (s.model_test x) h fun r h' => h' = h ∧ r = 0 := by
    unfold GaussianNb.model_test
    rw [F.classes]
    refine Runs.bind ((Runs.foldN m (fun t r h' => h' = h ∧ r = (if t = 0 then Ext.fin 1 else .ninf, List.replicate t (Ext.fin 0))) _ _ h ⟨rfl, rfl⟩ ?_).mono
      fun r h2 ⟨e2, er⟩ => ?_)
    · rintro t r h2 ht ⟨rfl, er⟩
      dsimp only
      refine Runs.step (Hd.element_get_int F.wf F.sigma _) (Runs.step (Hd.element_get_int F.wf hx _) ?_)
      refine Runs.step (Hd.element_get_int F.wf F.mu _) (Runs.step (Hd.element_get_int F.wf F.priors _) ?_)
      rw [GaussianNb.at0_zero, GaussianNb.log_weight]
      refine Runs.of_eq rfl ⟨rfl, ?_⟩
      rw [er, if_neg (Nat.succ_ne_zero t), List.replicate_succ]
      dsimp only
      split <;> rfl
    · subst e2
      rw [er]
      dsimp only
      rw [NaiveBayes.best_same]
      exact Runs.of_eq rfl ⟨rfl, by simp⟩
  obtain ⟨r, h', e, rfl, rfl⟩ := runs_iff.mp key
  exact e

/-- C129 (predictions: false): whatever the data it was trained with, the classifier assigns every input to class 0. -/
theorem C129_constant_fails (F : GaussianFit s h X y m) {x : Ref} {v : Fin p → ℝ} (hx : HasV h x v) : s.model_test x h = .ok (0, h) :=
  GaussianNb.model_test_run F hx

/-- C129 (many inputs: false): all rows are assigned to class 0. -/
theorem C129_set_constant_fails (F : GaussianFit s h X y m) {x : Ref} {k : Nat} {A : Matrix (Fin k) (Fin p) ℝ} (hA : HasM h x A) :
    ReturnsVec (s.model_set_test x) h fun _ : Fin k => 0 := by
  refine ReturnsVec.of_has ?_
  unfold GaussianNb.model_set_test NaiveBayes.setTest
  refine Runs.step (Hd.sizem_run hA) ?_
  refine stepV0 F.wf fun o1 h1 v1 w1 k1 f1 hv1 => ?_
  refine Runs.bind ((show Runs (resizeTo (.v o1) ⟨k, 1, 1⟩) h1 _ from Hd.resizev_run w1 hv1 k).mono fun _ h2 ⟨w2, k2, v2, hv2⟩ => ?_)
  have K2 : Keeps h h2 (fun _ => False) := k1.wrt k2 f1
  refine stepV0 w2 fun o3 h3 v3 w3 k3 f3 hv3 => ?_
  have n13 : (some (.v o3) : Ref) ≠ some (.v o1) := f3.ne hv2
  have fr : NotIn h (some (.v o3)) := f3.mono K2
  refine Runs.bind ((show Runs (resizeTo (.v o3) ⟨p, 1, 1⟩) h3 _ from Hd.resizev_run w3 hv3 p).mono fun _ h4 ⟨w4, k4, v4, hv4⟩ => ?_)
  have K4 : Keeps h h4 (fun _ => False) := (K2.trans k3).wrt k4 fr
  refine Runs.bind ((Runs.forN k (fun j h' => h'.WF ∧ Keeps h h' (fun _ => False) ∧ (∃ u : Fin p → ℝ, HasV h' (some (.v o3)) u) ∧
      HasV h' (some (.v o1)) fun i : Fin k => if i.val < j then 0 else v2 i) _ h4
    ⟨w4, K4, ⟨_, hv4⟩, by simpa using (adv_hasv k3 hv2).off k4 n13.symm⟩ ?_).mono fun _ h5 ⟨w5, K5, _, hv5⟩ => ?_)
  · intro j h5 hj ⟨w5, K5, ⟨u5, hu5⟩, hv5⟩
    refine Runs.bind ((Hd.row_get_into_run w5 (adv_hasm K5 hA) hu5 ⟨j, hj⟩).mono fun _ h6 ⟨w6, k6, hu6⟩ => ?_)
    have K6 := K5.wrt k6 fr
    have F6 : GaussianFit s h6 X y m := ⟨w6, F.classes, F.init, adv_hasm K6 F.input_set, adv_hasv K6 F.output_set, adv_hasv K6 F.mu, adv_hasv K6 F.sigma,
      adv_hasv K6 F.priors, adv_hasv K6 F.y_hat⟩
    refine Runs.step (GaussianNb.model_test_run F6 hu6) ?_
    refine (Hd.element_set_run w6 (hv5.off k6 n13.symm) ⟨j, hj⟩ 0).mono fun _ h7 ⟨w7, k7, hv7⟩ => ?_
    refine ⟨w7, K6.wrt k7 f1, ⟨_, hu6.off k7 n13⟩, ?_⟩
    refine cast (congrArg _ (funext fun c => ?_)) hv7
    by_cases ec : c = ⟨j, hj⟩
    · subst ec; simp
    · have : c.val ≠ j := fun e => ec (Fin.ext e)
      rw [Function.update_of_ne ec]
      have : (c.val < j ↔ c.val < j + 1) := by omega
      simp only [this]
  · exact Runs.of_eq rfl ⟨w5, K5, f1, by simpa using hv5⟩

/-- C129 (score): for integer classes the score is the fraction of the samples of class 0, however well the classes can be told apart. -/
theorem C129_score_fails {yi : Fin n → Int} (F : GaussianFit s h X (fun i => (yi i : ℝ)) m) (hn : 0 < n) (small : ∀ i, |(yi i : ℝ)| < 99999) :
    s.score h = .ok (fraction fun i => yi i = 0, h) := by
  unfold GaussianNb.score
  obtain ⟨a, ea, la, ia⟩ := F.y_hat
  obtain ⟨b, eb, lb, ib⟩ := F.output_set
  rw [ea, eb]
  have := Utilities.C62_vec h F.wf a b _ yi hn ia ib small
  refine this.trans ?_
  congr 2
  refine congrArg _ (funext fun i => propext ?_)
  unfold Nearest
  constructor
  · rintro ⟨q, -⟩
    have q' : |((yi i : ℤ) : ℝ)| ≤ 1 / 2 := by simpa using q
    have : |yi i| < 1 := by
      have : ((|yi i| : ℤ) : ℝ) < ((1 : ℤ) : ℝ) := by push_cast; linarith
      exact_mod_cast this
    exact Int.abs_lt_one_iff.mp this
  · intro e
    rw [e]
    norm_num

/-- C129 (missing objects: false): null data in the constructor are dereferenced, and so is, by every prediction, what an object made without data has
not got, even after `initialize()`. -/
theorem C129_null_fails (w : h.WF) {x : Ref} (hy : HasV h x y) (m : Nat) (v : Ref) :
    GaussianNb.create v none m h = .ub ∧ GaussianNb.create none x (m + 1) h = .ub ∧
      (GaussianNb.initialize_ (GaussianNb.create_empty (m + 1))).model_test v h = .ub := by
  refine ⟨rfl, ?_, rfl⟩
  unfold GaussianNb.create
  refine ub_bind (newV_runs w) fun l1 h1 ⟨o1, v1, e1, w1, k1, f1, a1⟩ => ?_
  subst e1
  refine ub_bind (newV_runs w1) fun l2 h2 ⟨o2, v2, e2, w2, k2, f2, a2⟩ => ?_
  subst e2
  refine ub_bind (newV_runs w2) fun l3 h3 ⟨o3, v3, e3, w3, k3, f3, a3⟩ => ?_
  subst e3
  refine ub_bind (newV_runs w3) fun l4 h4 ⟨o4, v4, e4, w4, k4, f4, a4⟩ => ?_
  subst e4
  refine ub_step (Hd.size_run (adv_hasv (((k1.trans k2).trans k3).trans k4) hy)) ?_
  refine ub_bind (show Runs (resizeTo (.v o4) ⟨n, 1, 1⟩) h4 _ from Hd.resizev_run w4 a4 n) fun _ h5 ⟨w5, k5, v5, a5⟩ => ?_
  refine bind_ub ?_
  unfold GaussianNb.evaluate
  refine bind_ub ?_
  unfold GaussianNb.moments
  have b1 : HasV h5 (some (.v o1)) v1 := (adv_hasv k4 (adv_hasv k3 (adv_hasv k2 a1))).off k5 fun e => f4.ne (adv_hasv k3 (adv_hasv k2 a1)) e.symm
  have b2 : HasV h5 (some (.v o2)) v2 := (adv_hasv k4 (adv_hasv k3 a2)).off k5 fun e => f4.ne (adv_hasv k3 a2) e.symm
  refine ub_bind (Hd.resizev_run w5 b1 (m + 1)) fun _ h6 ⟨w6, k6, v6, a6⟩ => ?_
  have c2 := b2.off k6 fun e => f2.ne a1 e
  refine ub_bind (Hd.resizev_run w6 c2 (m + 1)) fun _ h7 ⟨w7, k7, v7, a7⟩ => ?_
  refine ub_bind (newV_runs w7) fun l8 h8 ⟨o8, v8, e8, w8, k8, f8, a8⟩ => ?_
  exact fold_first_ub (Nat.succ_pos m) () _ rfl

/-! ## What the answers should be -/

/-- Four samples of one feature, in two classes. -/
def nbX : Matrix (Fin 4) (Fin 1) ℝ := !![0; 2; 10; 12]
def nbY : Fin 4 → ℝ := ![0, 0, 1, 1]

/-- C129 (counterexample): the Gaussian classifier trained with 0, 2 (class 0) and 10, 12 (class 1) assigns 11 to class 1; by `C129_constant_fails` the
object assigns it to class 0. -/
theorem C129_wrong_fails : gaussianScore nbX nbY ![11] 0 < gaussianScore nbX nbY ![11] 1 := by
  have m0 : members nbY 0 = [0, 1] := by simp [members, List.finRange_succ, nbY]
  have m1 : members nbY 1 = [2, 3] := by simp [members, List.finRange_succ, nbY]
  have f0 : featureIn nbX nbY 0 0 = [0, 2] := by simp [featureIn, m0, nbX]
  have f1 : featureIn nbX nbY 1 0 = [10, 12] := by simp [featureIn, m1, nbX]
  have p0 : prior nbY 0 = 1 / 2 := by simp [prior, m0]; norm_num
  have p1 : prior nbY 1 = 1 / 2 := by simp [prior, m1]; norm_num
  have s0 : sampleVar [(0 : ℝ), 2] = 2 := by simp [sampleVar, mean]; norm_num
  have s1 : sampleVar [(10 : ℝ), 12] = 2 := by simp [sampleVar, mean]; norm_num
  have e0 : mean [(0 : ℝ), 2] = 1 := by simp [mean]
  have e1 : mean [(10 : ℝ), 12] = 11 := by simp [mean]; norm_num
  unfold gaussianScore
  simp only [Fin.prod_univ_one, Fin.isValue, f0, f1, p0, p1, s0, s1, e0, e1, Matrix.cons_val_zero]
  unfold normalDensity
  have : 0 < 1 / Real.sqrt (2 * Real.pi * Real.sqrt 2 ^ 2) := by positivity
  refine mul_lt_mul_of_pos_left (mul_lt_mul_of_pos_left (Real.exp_lt_exp.mpr ?_) this) (by norm_num)
  rw [Real.sq_sqrt (by norm_num)]
  norm_num

/-- These data as objects. -/
def nbHeap : Heap ℝ := Heap.ofLists 0 [[0, 0, 1, 1], [11]] [(1, 4, [0, 2, 10, 12])]

/-- The hypotheses of the theorems about the constructor and, with what it makes, those of the others are met. -/
example : ∃ s h', GaussianNb.create (some (.m 0)) (some (.v 0)) 2 nbHeap = .ok (s, h') ∧ GaussianFit s h' nbX nbY 2 ∧ HasV h' (some (.v 1)) ![11] := by
  have w : nbHeap.WF := Heap.ofLists_wf _ _ _ (by simp)
  have hX : HasM nbHeap (some (.m 0)) nbX := ⟨0, rfl, by simp [nbHeap, Heap.ofLists, Heap.live, Loc.id], by simp [nbHeap, Heap.ofLists], fun i j => by
    fin_cases i <;> fin_cases j <;> simp [nbHeap, Heap.ofLists, nbX]⟩
  have hy : HasV nbHeap (some (.v 0)) nbY := ⟨0, rfl, by simp [nbHeap, Heap.ofLists, Heap.live, Loc.id], by simp [nbHeap, Heap.ofLists], fun i => by
    fin_cases i <;> simp [nbHeap, Heap.ofLists, nbY]⟩
  have hx : HasV nbHeap (some (.v 1)) ![11] := ⟨1, rfl, by simp [nbHeap, Heap.ofLists, Heap.live, Loc.id], by simp [nbHeap, Heap.ofLists], fun i => by
    fin_cases i; simp [nbHeap, Heap.ofLists]⟩
  obtain ⟨s, h', e, F, -, -, k⟩ := runs_iff.mp (C129_create_partial w hX hy (fun i => by fin_cases i <;> norm_num [nbY]) 2)
  exact ⟨s, h', e, F, adv_hasv k hx⟩

end
end Verif
