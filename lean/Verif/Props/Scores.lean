import Verif.Props.GlmPredict
import Verif.Props.Performance
import Verif.Props.Svc
import Verif.Props.SoftmaxReg
import Verif.Props.Mlp
import Verif.Props.Ann
import Verif.Props.Pca

/-!
# C86, C100, C101, C102, C106: the scores; construction of `MLPPTanhReg`, `MLPPProbitReg`, `MLPPSVC` and `MLPPPCA`

`score()` compares the predictions stored by the last training with the wanted outputs; the theorems about training say that these are the
predictions of the trained model on the data.
-/

namespace Verif
open Spec
variable {h : Heap ℝ} {n k m q : Nat}

theorem performance_shown (w : h.WF) {y_hat output_set : Ref} {p : Fin n → ℝ} {t : Fin n → Int} (hn : 0 < n) (hp : HasV h y_hat p)
    (ht : HasV h output_set fun i => (t i : ℝ)) (hb : ∀ i, |(t i : ℝ)| < 99999) :
    Utilities.performance_vec y_hat.vec output_set.vec h = .ok (fraction fun i => Nearest (p i) (t i), h) := by
  obtain ⟨u, rfl, -, iu⟩ := hp
  obtain ⟨v, rfl, -, iv⟩ := ht
  exact Utilities.C62_vec h w u v p t hn iu iv hb

/-- **C86** (scores): for integer outputs, the score of each linear model is the fraction of its stored predictions that round to the wanted
output; nothing changes. -/
theorem C86_score {s : Glm} {X : Matrix (Fin n) (Fin k) ℝ} {t : Fin n → Int} {θ : Params k} {p : Fin n → ℝ} (R : Ready s h X (fun i => (t i : ℝ)) θ)
    (hi : s.initialized = true) (hn : 0 < n) (hp : HasV h s.y_hat p) (hb : ∀ i, |(t i : ℝ)| < 99999) :
    ∀ score ∈ [LinReg.score, LogReg.score, TanhReg.score, ProbitReg.score, CLogLogReg.score],
      score s h = .ok (fraction fun i => Nearest (p i) (t i), h) := by
  have e := performance_shown R.wf hn hp R.output hb
  have q := needs_init_run R hp
  intro f hf
  simp only [List.mem_cons, List.not_mem_nil, or_false] at hf
  rcases hf with rfl | rfl | rfl | rfl | rfl
  · unfold LinReg.score; rw [hi]; exact e
  · unfold LogReg.score; rw [hi]; exact e
  · unfold TanhReg.score; rw [bind_ok q]; exact e
  · unfold ProbitReg.score; rw [bind_ok q]; exact e
  · exact e

/-- **C100** (score): the fraction of the stored predictions of the classifier that equal the label. -/
theorem C100_score {s : Glm} {X : Matrix (Fin n) (Fin k) ℝ} {t : Fin n → Int} {θ : Params k} {p : Fin n → ℝ} (R : Ready s h X (fun i => (t i : ℝ)) θ)
    (hn : 0 < n) (hp : HasV h s.y_hat p) (hb : ∀ i, |(t i : ℝ)| < 99999) :
    Svc.score s h = .ok (fraction fun i => Nearest (p i) (t i), h) := by
  unfold Svc.score
  rw [bind_ok (needs_init_run R hp)]
  exact performance_shown R.wf hn hp R.output hb

/-- **C101** (score): the fraction of the rows of the stored predictions that agree with the wanted row in every class. -/
theorem C101_score {s : SoftmaxReg} {X : Matrix (Fin n) (Fin k) ℝ} {Y : Matrix (Fin n) (Fin q) Int} {θ} {P : Matrix (Fin n) (Fin q) ℝ}
    (R : SoftmaxReady s h X (Y.map fun k => (k : ℝ)) θ) (hp : HasM h s.y_hat P) (hn : 0 < n) (hq : 0 < q) (hb : ∀ i j, |(Y i j : ℝ)| < 99999) :
    SoftmaxReg.score s h = .ok (fraction fun i : Fin n => ∀ j, Nearest (P i j) (Y i j), h) := by
  unfold SoftmaxReg.score SoftmaxReg.guarded
  rw [bind_ok (SoftmaxReg.needs_init_run R hp)]
  obtain ⟨a, ea, -, ia⟩ := hp
  obtain ⟨b, eb, -, ib⟩ := R.output
  rw [ea, eb]
  exact Utilities.C62_mat h R.wf a b P Y hn hq ia ib hb

/-- **C102** (score): the fraction of the stored predictions that round to the label. -/
theorem C102_score {s : Mlp} (w : h.WF) {p : Fin n → ℝ} {t : Fin n → Int} (hn : 0 < n) (hp : HasV h s.y_hat p)
    (ht : HasV h s.output_set fun i => (t i : ℝ)) (hb : ∀ i, |(t i : ℝ)| < 99999) :
    Mlp.score s h = .ok (fraction fun i => Nearest (p i) (t i), h) := performance_shown w hn hp ht hb

/-- **C106** (score): for integer outputs, the fraction of the rows of the data whose prediction rounds to the wanted output - but of the network
whose hidden layers have been drawn again, which is the network afterwards. -/
theorem C106_score_partial (g : Ann.Draws) {s : Ann} {o : Top} {us : List Lay} {X : Matrix (Fin n) (Fin k) ℝ} {t : Fin n → Int} {N : Net k us}
    (R : AnnReady s h o us X (fun i => (t i : ℝ)) N) (hu : ∀ u ∈ us, u.Works) (ho : o.Works) (hn : 0 < n) (hb : ∀ i, |(t i : ℝ)| < 99999) :
    Runs (Ann.score g s) h fun r h' => r.2 = fraction (fun i : Fin n => Nearest (netAt o us (redrawn g o us N) (X i)) (t i)) ∧
      AnnTrained s h r.1 h' o us X (fun i => (t i : ℝ)) (redrawn g o us N) := by
  obtain ⟨l, C, -, -⟩ := Ann.core_of R
  unfold Ann.score
  refine Runs.bind ((Ann.forward_core g C R hu ho).mono fun s1 h1 ⟨l1, C1, P1, e1⟩ => ?_)
  have T := C1.trained R P1 e1
  refine Runs.step (performance_shown T.ready.wf hn T.shows T.ready.output_set hb) ?_
  exact Runs.of_eq rfl ⟨rfl, T⟩

/-! ## Constructors -/

/-- **C86** (constructors of `MLPPTanhReg` and `MLPPProbitReg`): the object is set up with the given data and settings; its weights and its bias
are the numbers drawn, in `[0, 1)`; nothing that existed changes. -/
theorem C86_create_z (gw gb : Utilities.Source) (w : h.WF) {a b : Ref} {X : Matrix (Fin n) (Fin k) ℝ} {y : Fin n → ℝ} (ha : HasM h a X) (hb : HasV h b y)
    (r : Reg.Kind) (l al : ℝ) :
    Runs (Glm.create_z gw gb a b r l al) h fun s h' => ∃ θ p, Ready s h' X y θ ∧ HasV h' s.y_hat (p : Fin n → ℝ) ∧
      Keeps h h' (fun _ => False) ∧ s.initialized = true ∧ s.input_set = a ∧ s.output_set = b ∧ s.reg = r ∧ s.lambda = l ∧ s.alpha = al ∧
      (∀ j, θ.1 j = gw.u j) ∧ θ.2 = gb.u 0 := by
  unfold Glm.create_z
  refine stepV0 w fun o1 h1 v1 w1 k1 f1 a1 => ?_
  refine stepV0 w1 fun o2 h2 v2 w2 k2 f2 a2 => ?_
  refine stepV0 w2 fun o3 h3 v3 w3 k3 f3 a3 => ?_
  have K3 := (k1.trans k2).trans k3
  have F2 : NotIn h (some (.v o2)) := f2.mono k1
  have F3 : NotIn h (some (.v o3)) := f3.mono (k1.trans k2)
  have ha3 := ha.keep K3 fun _ _ => id
  have hb3 := hb.keep K3 fun _ _ => id
  have n2b : b ≠ some (.v o2) := (F2.ne hb).symm
  have n3b : b ≠ some (.v o3) := (F3.ne hb).symm
  have a2' := a2.keep k3 fun _ _ => id
  have n23 : some (Loc.v o2) ≠ some (.v o3) := (f3.ne a2).symm
  obtain ⟨ia, rfl, -, -⟩ := id ha
  obtain ⟨ib, rfl, -, -⟩ := id hb
  unfold Glm.initialize_
  dsimp only
  refine Runs.step (Hd.sizem_run ha3) ?_
  refine Runs.step (derefV_run o2 h3) ?_
  refine Runs.bind ((show Runs (resizeTo (.v o2) ⟨n, 1, 1⟩) h3 _ from Hd.resizev_run w3 a2' n).mono fun _ h4 ⟨w4, k4, u4, a4⟩ => ?_)
  have ha4 := ha3.off k4 a2'
  have hb4 := hb3.off k4 n2b
  have a34 := a3.off k4 n23.symm
  refine Runs.step (derefV_run o3 h4) ?_
  refine Runs.bind ((show Runs (resizeTo (.v o3) ⟨k, 1, 1⟩) h4 _ from Hd.resizev_run w4 a34 k).mono fun _ h5 ⟨w5, k5, u5, a5⟩ => ?_)
  have ha5 := ha4.off k5 a34
  have hb5 := hb4.off k5 n3b
  have a25 := a4.off k5 n23
  obtain ⟨_, e5, l5, i5⟩ := id a5
  cases e5
  refine Runs.bind ((Utilities.C64_vector gw h5 w5 o3 u5 i5 .default).mono fun _ h6 ⟨w6, k6, a6⟩ => ?_)
  have K6 : Keeps h5 h6 (some · = some (Loc.v o3)) := k6.mono fun _ _ e => congrArg some e
  refine Runs.step (show Utilities.bias_initializationr gb h6 = .ok (gb.u 0, h6) from Utilities.uniform01_run gb 0 h6) ?_
  refine Runs.of_eq rfl ⟨(_, gb.u 0), u4, ⟨w6, rfl, rfl, ha5.off K6 a5, hb5.off K6 n3b, ⟨o3, rfl, K6.live l5, a6⟩, rfl, n3b⟩,
    a25.off K6 n23, ?_, rfl, rfl, rfl, rfl, rfl, rfl, fun _ => rfl, rfl⟩
  exact ((K3.wr_new k4 F2).wr_new k5 F3).wr_new K6 F3

/-- **C100** (constructor): the classifier is set up with the given data; its weights and its bias are the numbers drawn; nothing that existed
changes. -/
theorem C100_create (gw gb : Utilities.Source) (w : h.WF) {a b : Ref} {X : Matrix (Fin n) (Fin k) ℝ} {y : Fin n → ℝ} (ha : HasM h a X) (hb : HasV h b y) :
    Runs (Svc.create gw gb a b) h fun s h' => ∃ θ p, Ready s h' X y θ ∧ HasV h' s.y_hat (p : Fin n → ℝ) ∧
      Keeps h h' (fun _ => False) ∧ s.input_set = a ∧ s.output_set = b ∧ (∀ j, θ.1 j = gw.u j) ∧ θ.2 = gb.u 0 :=
  (C86_create_z gw gb w ha hb .none 0 0).mono fun _ _ ⟨θ, p, a1, a2, a3, _, a4, a5, _, _, _, a6, a7⟩ => ⟨θ, p, a1, a2, a3, a4, a5, a6, a7⟩

/-- **C126** (constructor and setters): an object made from data, and one made empty whose data and number of components are then set, are the same up
to the handles of their empty internal matrices, which are new; nothing that existed changes. -/
theorem C126_create (w : h.WF) (a : Ref) (k : Nat) :
    Runs (Pca.create a k) h (fun s h' => h'.WF ∧ Keeps h h' (fun _ => False) ∧ s.input_set = a ∧ s.k = k) ∧
    Runs (do let s ← Pca.create none 0; pure (Pca.set_k (Pca.set_input_set s a) k)) h
      (fun s h' => h'.WF ∧ Keeps h h' (fun _ => False) ∧ s.input_set = a ∧ s.k = k) := by
  have c : ∀ (a : Ref) (k : Nat), Runs (Pca.create a k) h (fun s h' => h'.WF ∧ Keeps h h' (fun _ => False) ∧ s.input_set = a ∧ s.k = k) := by
    intro a k
    unfold Pca.create
    refine stepM0 w fun o1 h1 v1 w1 k1 f1 a1 => ?_
    refine stepM0 w1 fun o2 h2 v2 w2 k2 f2 a2 => ?_
    refine stepM0 w2 fun o3 h3 v3 w3 k3 f3 a3 => ?_
    exact Runs.of_eq rfl ⟨w3, (k1.trans k2).trans k3, rfl, rfl⟩
  exact ⟨c a k, Runs.bind ((c none 0).mono fun s h' ⟨w', k', _, _⟩ => Runs.of_eq rfl ⟨w', k', rfl, rfl⟩)⟩

/-- The hypotheses are met by the data, the labels and the stored predictions of the example, with integer labels. -/
example : ∃ (t : Fin 3 → Int) (h : Heap ℝ) (s : Glm) (θ : Params 1) (p : Fin 3 → ℝ) (X : Matrix (Fin 3) (Fin 1) ℝ), Ready s h X (fun i => (t i : ℝ)) θ ∧ HasV h s.y_hat p ∧
    s.initialized = true ∧ ∀ i, |(t i : ℝ)| < 99999 := by
  refine ⟨![1, 0, 1], Heap.ofLists 0 [[1, 0, 1], [2], [3 / 4, 1 / 4, 1]] [(1, 3, [1, 2, 3])],
    ⟨true, some (.m 0), some (.v 0), none, some (.v 2), some (.v 1), 5, .none, 0, 0, 3, 1⟩, (![2], 5), ![3 / 4, 1 / 4, 1], fun i _ => (i.val : ℝ) + 1, ?_, ?_, rfl, ?_⟩
  · refine ⟨Heap.ofLists_wf _ _ _ (by simp), rfl, rfl, ⟨0, rfl, by simp [Heap.ofLists, Heap.live, Loc.id], ⟨rfl, fun i j => ?_⟩⟩, ⟨0, rfl, by simp [Heap.ofLists, Heap.live, Loc.id], ⟨rfl, fun i => ?_⟩⟩,
      ⟨1, rfl, by simp [Heap.ofLists, Heap.live, Loc.id], ⟨rfl, fun i => ?_⟩⟩, rfl, by simp⟩
    · fin_cases i <;> fin_cases j <;> simp [Heap.ofLists] <;> norm_num
    · fin_cases i <;> simp [Heap.ofLists]
    · fin_cases i <;> simp [Heap.ofLists]
  · exact ⟨2, rfl, by simp [Heap.ofLists, Heap.live, Loc.id], ⟨rfl, fun i => by fin_cases i <;> simp [Heap.ofLists]⟩⟩
  · intro i; fin_cases i <;> simp

end Verif
