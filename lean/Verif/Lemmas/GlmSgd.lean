import Verif.Lemmas.GlmTrain
import Verif.Lemmas.GlmMath

/-! # Stochastic gradient descent of the linear models -/

namespace Verif
open Spec Finset

theorem stepNewV {β : Type} {h : Heap ℝ} (w : h.WF) {n : Nat} {c : Loc → M ℝ β} {Q : β → Heap ℝ → Prop}
    (next : ∀ (o : Nat) (h1 : Heap ℝ) (v : Fin n → ℝ), h1.WF → Keeps h h1 (fun _ => False) → NotIn h (some (.v o)) →
      HasV h1 (some (.v o)) v → Runs (c (.v o)) h1 Q) : Runs (newVec >>= fun o => resizeTo o ⟨n, 1, 1⟩ >>= fun _ => c o) h Q := by
  refine Runs.newVec w ⟨rfl, rfl⟩ fun h1 w1 k1 f1 l1 s1 => ?_
  obtain ⟨f, hf⟩ := exists_VCells w1 s1
  exact next h.next h1 (fun i => f i) w1 k1 (fun l e => by cases e; exact f1) ⟨_, rfl, l1, hf.isVec fun _ => rfl⟩

namespace Glm
variable {n k : Nat} {h h' : Heap ℝ} {s : Glm} {X : Matrix (Fin n) (Fin k) ℝ} {y : Fin n → ℝ} {θ : Params k} {F : Fns} {f g : ℝ → ℝ}

/-- A vector of the loop: it is not one of the vectors of the object, and it did not exist before. -/
structure Tmp {m : Nat} (h0 : Heap ℝ) (s : Glm) (h : Heap ℝ) (r : Ref) (v : Fin m → ℝ) : Prop where
  has : HasV h r v
  new : NotIn h0 r
  weights : r ≠ s.weights
  output : r ≠ s.output_set

theorem Moves.tmp {s0 : Glm} {h0 : Heap ℝ} (m : Moves s0 h0 s h) {r : Ref} (hr : NotIn h0 r) (kk : Keeps h h' (some · = r)) :
    Moves s0 h0 s h' := by
  refine ⟨m.same, m.keeps.trans_new kk fun l e hl => absurd hl (hr l e.symm), m.fresh⟩

theorem _root_.Verif.Spec.Ready.tmp {p : Nat} {v : Fin p → ℝ} (R : Ready s h X y θ) {h0 : Heap ℝ} {r : Ref} (t : Tmp h0 s h r v) (w : h'.WF)
    (kk : Keeps h h' (some · = r)) : Ready s h' X y θ :=
  ⟨w, R.rows, R.cols, R.input.off kk t.has, R.output.off kk t.output.symm, R.weights.off kk t.weights.symm, R.bias, R.apart⟩

theorem Tmp.off {p : Nat} {v : Fin p → ℝ} {h0 : Heap ℝ} {r q : Ref} (t : Tmp h0 s h r v) (kk : Keeps h h' (some · = q)) (ne : r ≠ q) :
    Tmp h0 s h' r v := ⟨t.has.off kk ne, t.new, t.weights, t.output⟩

theorem Tmp.keep {p : Nat} {v : Fin p → ℝ} {h0 : Heap ℝ} {r : Ref} (t : Tmp h0 s h r v) (kk : Keeps h h' (fun _ => False)) :
    Tmp h0 s h' r v := ⟨adv_hasv kk t.has, t.new, t.weights, t.output⟩

theorem Tmp.bias {p : Nat} {v : Fin p → ℝ} {h0 : Heap ℝ} {r : Ref} (t : Tmp h0 s h r v) (b : ℝ) :
    Tmp h0 { s with bias := b } h r v := ⟨t.has, t.new, t.weights, t.output⟩

/-- What is subtracted from the weights and the bias. -/
noncomputable def sgdCoef (f : ℝ → ℝ) (factor : ℝ → ℝ → ℝ) (X : Matrix (Fin n) (Fin k) ℝ) (y : Fin n → ℝ) (lr : ℝ) (i : Fin n) (θ : Params k) : ℝ :=
  lr * (f (linear X θ i) - y i) * factor (linear X θ i) (f (linear X θ i))

/-- The step with sample `i`. -/
noncomputable def sgdWith (f : ℝ → ℝ) (factor : ℝ → ℝ → ℝ) (T : (Fin k → ℝ) → (Fin k → ℝ) → Fin k → ℝ) (X : Matrix (Fin n) (Fin k) ℝ)
    (y : Fin n → ℝ) (lr : ℝ) (i : Fin n) (θ : Params k) : Params k :=
  (T θ.1 (fun j => X i j * sgdCoef f factor X y lr i θ), θ.2 - sgdCoef f factor X y lr i θ)

/-- The step of the weights does `T`. -/
structure Steps (step : Glm → Ref → M ℝ Glm) (r : Reg.Kind) (l a : ℝ) (k : Nat) (T : (Fin k → ℝ) → (Fin k → ℝ) → Fin k → ℝ) : Prop where
  run : ∀ {n : Nat} {X : Matrix (Fin n) (Fin k) ℝ} {y : Fin n → ℝ} {θ : Params k} {s : Glm} {h : Heap ℝ}, Ready s h X y θ → s.reg = r →
    s.lambda = l → s.alpha = a → ∀ {d : Ref} {u : Fin k → ℝ}, HasV h d u → Runs (step s d) h fun s' h' =>
      ∃ r, s' = { s with weights := r } ∧ Ready s' h' X y (T θ.1 u, θ.2) ∧ Moves s h s' h'

theorem subStep_steps (r : Reg.Kind) (l a : ℝ) (k : Nat) : Steps subStep r l a k fun w u j => decay r l a (w j - u j) := by
  constructor
  intro n X y θ s h R er el ea d u hd
  subst er el ea
  exact subStep_ready R hd

theorem sgd_run (C : Computes F f) (R : Ready s h X y θ) (hn : 0 < n) {pick : Nat → Nat} (hp : ∀ e, pick e < n) (factor shown : ℝ → ℝ → ℝ)
    {step : Glm → Ref → M ℝ Glm} {T : (Fin k → ℝ) → (Fin k → ℝ) → Fin k → ℝ} (hT : Steps step s.reg s.lambda s.alpha k T) (lr : ℝ) (e : Int) :
    Runs (sgd F factor shown step s n pick lr e) h fun s' h' => Trained f s h s' h' X y
      (walk (fun i => sgdWith f factor T X y lr ⟨pick (i + 1), hp _⟩) θ (epochCount e)) := by
  unfold sgd
  rw [if_neg hn.ne']
  refine Runs.step (Hd.sizem_run R.input) ?_
  refine stepNewV R.wf fun o1 h1 v1 w1 k1 f1 a1 => ?_
  have R1 := R.keep w1 k1
  refine stepNewV w1 fun o2 h2 v2 w2 k2 f2 a2 => ?_
  have R2 := R1.keep w2 k2
  refine stepNewV w2 fun o3 h3 v3 w3 k3 f3 a3 => ?_
  have R3 := R2.keep w3 k3
  have n12 : some (Loc.v o2) ≠ some (Loc.v o1) := f2.ne a1
  have n13 : some (Loc.v o3) ≠ some (Loc.v o1) := f3.ne (adv_hasv k2 a1)
  have n23 : some (Loc.v o3) ≠ some (Loc.v o2) := f3.ne a2
  have T1 : Tmp h s h3 (some (.v o1)) v1 := ⟨adv_hasv k3 (adv_hasv k2 a1), f1, f1.ne R.weights, f1.ne R.output⟩
  have T2 : Tmp h s h3 (some (.v o2)) v2 := ⟨adv_hasv k3 a2, f2.mono k1, f2.ne R1.weights, f2.ne R1.output⟩
  have T3 : Tmp h s h3 (some (.v o3)) v3 := ⟨a3, (f3.mono k2).mono k1, f3.ne R2.weights, f3.ne R2.output⟩
  have M3 : Moves s h s h3 := (((Moves.refl s h).new k1).new k2).new k3
  let I : Nat → Glm → Heap ℝ → Prop := fun i s' h' =>
    Ready s' h' X y (walk (fun i => sgdWith f factor T X y lr ⟨pick (i + 1), hp _⟩) θ i) ∧ Moves s h s' h' ∧
    (∃ v : Fin k → ℝ, Tmp h s' h' (some (.v o1)) v) ∧ (∃ v : Fin 1 → ℝ, Tmp h s' h' (some (.v o2)) v) ∧
    (∃ v : Fin 1 → ℝ, Tmp h s' h' (some (.v o3)) v)
  refine Runs.bind ((epochs_run e s _ I ⟨R3, M3, ⟨_, T1⟩, ⟨_, T2⟩, ⟨_, T3⟩⟩ ?_).mono fun s' h' J => ?_)
  · rintro i s4 h4 ⟨R4, M4, ⟨u1, T1⟩, ⟨u2, T2⟩, ⟨u3, T3⟩⟩
    have st : walk (fun i => sgdWith f factor T X y lr ⟨pick (i + 1), hp _⟩) θ (i + 1) =
      sgdWith f factor T X y lr ⟨pick (i + 1), hp _⟩ (walk (fun i => sgdWith f factor T X y lr ⟨pick (i + 1), hp _⟩) θ i) := rfl
    show Runs _ _ fun s' h' => Ready s' h' X y (walk (fun i => sgdWith f factor T X y lr ⟨pick (i + 1), hp _⟩) θ (i + 1)) ∧ _
    rw [st]
    obtain ⟨η, eη⟩ : ∃ η, η = walk (fun i => sgdWith f factor T X y lr ⟨pick (i + 1), hp _⟩) θ i := ⟨_, rfl⟩
    rw [← eη] at R4 ⊢
    obtain ⟨q, eq⟩ : ∃ q : Fin n, q = ⟨pick (i + 1), hp _⟩ := ⟨_, rfl⟩
    rw [← eq]
    have eq' : pick (i + 1) = q := by rw [eq]
    dsimp only
    rw [eq']
    refine Runs.bind ((Hd.row_get_into_run R4.wf R4.input T1.has q).mono fun _ h5 ⟨w5, k5, a5⟩ => ?_)
    have R5 := R4.tmp T1 w5 k5
    have M5 := M4.tmp T1.new k5
    have T1 : Tmp h s4 h5 _ (X q) := ⟨a5, T1.new, T1.weights, T1.output⟩
    have T2 := T2.off k5 n12
    have T3 := T3.off k5 n13
    refine Runs.step (Hd.element_get_run w5 R5.output q) ?_
    refine Runs.bind ((Hd.element_set_run w5 T2.has 0 (y q)).mono fun _ h6 ⟨w6, k6, a6⟩ => ?_)
    have R6 := R5.tmp T2 w6 k6
    have M6 := M5.tmp T2.new k6
    have T2 : Tmp h s4 h6 _ _ := ⟨a6, T2.new, T2.weights, T2.output⟩
    have T1 := T1.off k6 n12.symm
    have T3 := T3.off k6 n23
    have el : ∑ j, η.1 j * X q j + s4.bias = linear X η q := by
      rw [R6.bias]; unfold linear; simp only [mul_comm]
    have ev := evaluatev_run C w6 T1.has R6.weights
    rw [el] at ev
    refine Runs.step ev ?_
    refine Runs.bind ((Hd.element_set_run w6 T3.has 0 _).mono fun _ h7 ⟨w7, k7, a7⟩ => ?_)
    have R7 := R6.tmp T3 w7 k7
    have M7 := M6.tmp T3.new k7
    have T3 : Tmp h s4 h7 _ _ := ⟨a7, T3.new, T3.weights, T3.output⟩
    have T1 := T1.off k7 n13.symm
    have T2 := T2.off k7 n23.symm
    have pv := propagatev_run (s := s4) w7 T1.has R7.weights
    rw [el] at pv
    refine Runs.step pv ?_
    obtain ⟨c, ec⟩ := cost_run C w7 T3.has T2.has R7.weights
    refine Runs.step ec ?_
    refine stepV (Hd.scalar_multiplyn_spec w7 T1.has _) fun d h8 w8 k8 f8 a8 => ?_
    have R8 := R7.keep w8 k8
    have M8 := M7.new k8
    have T1 := T1.keep k8
    have T2 := T2.keep k8
    have T3 := T3.keep k8
    refine Runs.bind ((hT.run R8 M8.same.reg M8.same.lambda M8.same.alpha a8).mono fun s9 h9 ⟨r, e9, R9, M9⟩ => ?_)
    have TT : ∀ {m : Nat} {o : Nat} {v : Fin m → ℝ}, Tmp h s4 h8 (some (.v o)) v → Tmp h s9 h9 (some (.v o)) v := by
      intro m o v t
      refine ⟨t.has.off M9.keeps t.weights, t.new, ?_, ?_⟩
      · rcases M9.fresh with q | q
        · rw [q]; exact t.weights
        · exact (q.ne t.has).symm
      · rw [M9.same.output_set]; exact t.output
    obtain ⟨b, eb⟩ : ∃ b, b = s9.bias - lr * (f (linear X η q) - y q) * factor (linear X η q) (f (linear X η q)) := ⟨_, rfl⟩
    rw [← eb]
    have R10 := R9.setBias b
    have M10 := (M8.trans M9).bias b
    have T1 := (TT T1).bias b
    have T2 := (TT T2).bias b
    have T3 := (TT T3).bias b
    refine Runs.of_eq rfl ⟨?_, M10, ⟨_, T1⟩, ⟨_, T2⟩, ⟨_, T3⟩⟩
    rw [eb, R9.bias] at R10 ⊢
    exact R10
  · obtain ⟨R4, M4, -, -, -⟩ := J
    exact (forward_inv C R4 M4).mono fun _ _ I => I.trained

end Glm
end Verif
