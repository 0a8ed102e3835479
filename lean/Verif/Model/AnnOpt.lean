import Verif.Model.Ann

/-!
# The adaptive training methods of `MLPPANN` (modules/ann)

All of them share the loops of `mbgd`. `g e i` are the numbers drawn by the passes before and after the step with batch `i` in epoch `e`, `last` those
drawn by the pass at the end. The printing of costs is not modelled.
-/

namespace Verif
noncomputable section

namespace LinAlg
/-- `resizevt(r_target, A)`, lin_alg.cpp:1902-1912: the new value of `r_target`, matrices with the extents of those of `A`, contents arbitrary. -/
def resizevt (A : List Ref) : M ℝ (List Ref) := mapL sameSize A
end LinAlg

namespace Hd
/-- `a->addb(x, y)`, mlpp_vector.cpp:579-597. -/
def addb (a x y : Ref) : M ℝ Unit := do Vec.addb (← derefV a) x.vec y.vec
/-- `a->maxb(x, y)`, mlpp_vector.cpp:1107-1132. -/
def maxb (a x y : Ref) : M ℝ Unit := do Vec.maxb (← derefV a) x.vec y.vec
/-- `a->max(b)`, mlpp_vector.cpp:1063-1081. -/
def max (a b : Ref) : M ℝ Unit := do Vec.max (← derefV a) b.vec
end Hd

/-- A moment: `v_hidden` and `v_output`. -/
structure Moment where
  hidden : List Ref
  output : Ref

namespace Ann
open Glm (epochs batchAt)

/-- `Vector<Ref<MLPPMatrix>> v_hidden; Ref<MLPPVector> v_output; v_output.instance();`, ann.cpp:253-256 and so on. -/
def newMoment : M ℝ Moment := do
  let v ← newVec
  pure ⟨[], some v⟩

/-- `alg.resizevt(v_hidden, …)` if `c`, ann.cpp:271-273 and so on. -/
def startHidden (c : Bool) (gs hidden : List Ref) : M ℝ (List Ref) := if c then LinAlg.resizevt gs else pure hidden

/-- `v_output->resize(grads.output_w_grad->size())` if `c`, ann.cpp:275-277 and so on: the new cells are not initialised. -/
def startOutput (c : Bool) (g output : Ref) : M ℝ Unit :=
  if c then do
    let n ← Hd.size g
    Hd.resizev output n
  else pure ()

/-- The moments before a step with one of them, ann.cpp:271-277, 337-343, 402-408. -/
def start1 (s : Ann) (gs : List Ref) (g : Ref) (v : Moment) : M ℝ Moment := do
  let hidden ← startHidden (!s.network.isEmpty && v.hidden.isEmpty) gs v.hidden
  let n ← Hd.size v.output
  startOutput (n == 0) g v.output
  pure ⟨hidden, v.output⟩

/-- The moments before a step with two of them, ann.cpp:548-556, 624-632; `adam`, 472-480, checks the sizes `c` of the outputs in another way. -/
def start2 (c : Nat → Nat → Bool) (s : Ann) (gs : List Ref) (g : Ref) (p : Moment × Moment) : M ℝ (Moment × Moment) := do
  let b := !s.network.isEmpty && p.1.hidden.isEmpty && p.2.hidden.isEmpty
  let m ← startHidden b gs p.1.hidden
  let v ← startHidden b gs p.2.hidden
  let i ← Hd.size p.1.output
  let j ← Hd.size p.2.output
  startOutput (c i j) g p.1.output
  startOutput (c i j) g p.2.output
  pure (⟨m, p.1.output⟩, ⟨v, p.2.output⟩)

/-- The moments before a step with three of them, ann.cpp:711-721. -/
def start3 (s : Ann) (gs : List Ref) (g : Ref) (p : Moment × Moment × Moment) : M ℝ (Moment × Moment × Moment) := do
  let b := !s.network.isEmpty && p.1.hidden.isEmpty && p.2.1.hidden.isEmpty
  let m ← startHidden b gs p.1.hidden
  let v ← startHidden b gs p.2.1.hidden
  let w ← startHidden b gs p.2.2.hidden
  let i ← Hd.size p.1.output
  let j ← Hd.size p.2.1.output
  startOutput (i == 0 && j == 0) g p.1.output
  startOutput (i == 0 && j == 0) g p.2.1.output
  startOutput (i == 0 && j == 0) g p.2.2.output
  pure (⟨m, p.1.output⟩, ⟨v, p.2.1.output⟩, ⟨w, p.2.2.output⟩)

/-- The body of the inner loop of all methods, for example ann.cpp:262-294. `start` initialises the moments, `look` changes the parameters before the step,
`rule` makes the moments and the updates out of the gradients. -/
def optBody {σ : Type} (fuel : Nat) (start : Ann → List Ref → Ref → σ → M ℝ σ) (look : σ → Ann → M ℝ Ann)
    (rule : List Ref → Ref → σ → M ℝ (σ × List Ref × Ref)) (learning_rate : ℝ) (g g' : Draws) (X y : Ref) (p : Ann × σ) : M ℝ (Ann × σ) := do
  let t ← model_set_test g p.1 X
  let _ ← cost t.1 t.2 y
  let r ← compute_gradients fuel t.1 t.2 y
  let st ← start r.1 r.2.1 r.2.2 p.2
  let s ← look st r.1
  let u ← rule r.2.1 r.2.2 st
  let s ← update_parameters s u.2.1 u.2.2 learning_rate
  let t ← model_set_test g' s X
  pure (t.1, u.1)

/-- The loops of all methods, for example ann.cpp:237-301. The rule knows the epoch and the learning rate divided by the number of samples. -/
def optimise {σ : Type} (fuel : Nat) (g : Nat → Nat → Draws × Draws) (last : Draws) (s : Ann) (learning_rate : ℝ) (max_epoch mini_batch_size : Int)
    (init : M ℝ σ) (start : Ann → List Ref → Ref → σ → M ℝ σ) (look : σ → Ann → M ℝ Ann)
    (rule : Nat → ℝ → List Ref → Ref → σ → M ℝ (σ × List Ref × Ref)) : M ℝ Ann :=
  if mini_batch_size = 0 then ub else do
    let n_mini_batch := (s.n : Int).tdiv mini_batch_size
    let batches ← Utilities.create_mini_batchesmv s.input_set s.output_set n_mini_batch
    let st ← init
    let p ← epochs max_epoch (s, st) fun e p => do
      let lr ← apply_learning_rate_scheduler p.1 learning_rate p.1.decay_constant e p.1.drop_rate
      foldN n_mini_batch.toNat p fun i p => do
        let X ← batchAt batches.1 i
        let y ← batchAt batches.2 i
        optBody fuel start look (rule e (lr / p.1.n)) lr (g e i).1 (g e i).2 X y p
    forward_pass last p.1

/-- Nothing happens before the step. -/
def noLook {σ : Type} (_ : σ) (s : Ann) : M ℝ Ann := pure s

/-- `update_parameters(v_hidden, v_output, 0)` if `nag`, ann.cpp:279-281. -/
def nagLook (nag : Bool) (v : Moment) (s : Ann) : M ℝ Ann := if nag then update_parameters s v.hidden v.output 0 else pure s

/-- ann.cpp:283-284; `c` is the learning rate divided by the number of samples. -/
def momentumRule (gamma : ℝ) (_epoch : Nat) (c : ℝ) (gs : List Ref) (g : Ref) (v : Moment) : M ℝ (Moment × List Ref × Ref) := do
  let a ← LinAlg.scalar_multiplynvt gamma v.hidden
  let b ← LinAlg.scalar_multiplynvt c gs
  let v_hidden ← LinAlg.additionnvt a b
  let a ← Hd.scalar_multiplyn v.output gamma
  let b ← Hd.scalar_multiplyn g c
  let v_output ← Hd.addn a b
  pure (⟨v_hidden, v_output⟩, v_hidden, v_output)

/-- `momentum(learning_rate, max_epoch, mini_batch_size, gamma, nag, ui)`, ann.cpp:237-301. -/
def momentum (fuel : Nat) (g : Nat → Nat → Draws × Draws) (last : Draws) (s : Ann) (learning_rate : ℝ) (max_epoch mini_batch_size : Int)
    (gamma : ℝ) (nag : Bool) : M ℝ Ann :=
  optimise fuel g last s learning_rate max_epoch mini_batch_size newMoment start1 (nagLook nag) (momentumRule gamma)

/-- `alg.scalar_multiplynvt(c, alg.division_element_wisenvnvt(m, alg.scalar_addnvt(e, alg.sqrtnvt(v))))`, ann.cpp:348, 412, 494, 652, 733. -/
def ratioHidden (c e : ℝ) (m v : List Ref) : M ℝ (List Ref) := do
  let r ← LinAlg.sqrtnvt v
  let d ← LinAlg.scalar_addnvt e r
  let q ← LinAlg.division_element_wisenvnvt m d
  LinAlg.scalar_multiplynvt c q

/-- `m->division_element_wisen(v->sqrtn()->scalar_addn(e))->scalar_multiplyn(c)`, ann.cpp:350, 413, 495, 653, 734. -/
def ratioOutput (c e : ℝ) (m v : Ref) : M ℝ Ref := do
  let r ← Hd.sqrtn v
  let d ← Hd.scalar_addn r e
  let q ← Hd.division_element_wisen m d
  Hd.scalar_multiplyn q c

/-- ann.cpp:345-350. -/
def adagradRule (e : ℝ) (_epoch : Nat) (c : ℝ) (gs : List Ref) (g : Ref) (v : Moment) : M ℝ (Moment × List Ref × Ref) := do
  let a ← LinAlg.exponentiatenvt gs 2
  let v_hidden ← LinAlg.additionnvt v.hidden a
  let a ← Hd.exponentiaten g 2
  Hd.add v.output a
  let us ← ratioHidden c e gs v_hidden
  let u ← ratioOutput c e g v.output
  pure (⟨v_hidden, v.output⟩, us, u)

/-- `adagrad(learning_rate, max_epoch, mini_batch_size, e, ui)`, ann.cpp:303-367. -/
def adagrad (fuel : Nat) (g : Nat → Nat → Draws × Draws) (last : Draws) (s : Ann) (learning_rate : ℝ) (max_epoch mini_batch_size : Int)
    (e : ℝ) : M ℝ Ann :=
  optimise fuel g last s learning_rate max_epoch mini_batch_size newMoment start1 noLook (adagradRule e)

/-- ann.cpp:409-413: the moment of the output is not decayed. -/
def adadeltaRule (b1 e : ℝ) (_epoch : Nat) (c : ℝ) (gs : List Ref) (g : Ref) (v : Moment) : M ℝ (Moment × List Ref × Ref) := do
  let a ← LinAlg.scalar_multiplynvt (1 - b1) v.hidden
  let b ← LinAlg.exponentiatenvt gs 2
  let b ← LinAlg.scalar_multiplynvt b1 b
  let v_hidden ← LinAlg.additionnvt a b
  let a ← Hd.exponentiaten g 2
  Hd.add v.output a
  let us ← ratioHidden c e gs v_hidden
  let u ← ratioOutput c e g v.output
  pure (⟨v_hidden, v.output⟩, us, u)

/-- `adadelta(learning_rate, max_epoch, mini_batch_size, b1, e, ui)`, ann.cpp:369-431. -/
def adadelta (fuel : Nat) (g : Nat → Nat → Draws × Draws) (last : Draws) (s : Ann) (learning_rate : ℝ) (max_epoch mini_batch_size : Int)
    (b1 e : ℝ) : M ℝ Ann :=
  optimise fuel g last s learning_rate max_epoch mini_batch_size newMoment start1 noLook (adadeltaRule b1 e)

/-- Two moments, ann.cpp:450-456 and so on. -/
def newMoment2 : M ℝ (Moment × Moment) := do
  let m ← newMoment
  let v ← newMoment
  pure (m, v)

/-- `alg.additionnvt(alg.scalar_multiplynvt(b1, m), alg.scalar_multiplynvt(1 - b1, gs))`, ann.cpp:482, 558, 634, 723. -/
def firstHidden (b1 : ℝ) (m gs : List Ref) : M ℝ (List Ref) := do
  let a ← LinAlg.scalar_multiplynvt b1 m
  let b ← LinAlg.scalar_multiplynvt (1 - b1) gs
  LinAlg.additionnvt a b

/-- `alg.additionnvt(alg.scalar_multiplynvt(b2, v), alg.scalar_multiplynvt(1 - b2, alg.exponentiatenvt(gs, 2)))`, ann.cpp:483, 635, 724. -/
def secondHidden (b2 : ℝ) (v gs : List Ref) : M ℝ (List Ref) := do
  let a ← LinAlg.scalar_multiplynvt b2 v
  let b ← LinAlg.exponentiatenvt gs 2
  let b ← LinAlg.scalar_multiplynvt (1 - b2) b
  LinAlg.additionnvt a b

/-- ann.cpp:482-495: the moments of the output are new vectors. -/
def adamRule (b1 b2 e : ℝ) (epoch : Nat) (c : ℝ) (gs : List Ref) (g : Ref) (p : Moment × Moment) : M ℝ ((Moment × Moment) × List Ref × Ref) := do
  let m_hidden ← firstHidden b1 p.1.hidden gs
  let v_hidden ← secondHidden b2 p.2.hidden gs
  let a ← Hd.scalar_multiplyn p.1.output b1
  let b ← Hd.scalar_multiplyn g (1 - b1)
  let m_output ← Hd.addn a b
  let a ← Hd.scalar_multiplyn p.2.output b2
  let b ← Hd.exponentiaten g 2
  let b ← Hd.scalar_multiplyn b (1 - b2)
  let v_output ← Hd.addn a b
  let m_hidden_hat ← LinAlg.scalar_multiplynvt (1 / (1 - MathFns.pow b1 (epoch : ℝ))) m_hidden
  let v_hidden_hat ← LinAlg.scalar_multiplynvt (1 / (1 - MathFns.pow b2 (epoch : ℝ))) v_hidden
  let m_output_hat ← Hd.scalar_multiplyn m_output (1 / (1 - MathFns.pow b1 (epoch : ℝ)))
  let v_output_hat ← Hd.scalar_multiplyn v_output (1 / (1 - MathFns.pow b2 (epoch : ℝ)))
  let us ← ratioHidden c e m_hidden_hat v_hidden_hat
  let u ← ratioOutput c e m_output_hat v_output_hat
  pure ((⟨m_hidden, m_output⟩, ⟨v_hidden, v_output⟩), us, u)

/-- `adam(learning_rate, max_epoch, mini_batch_size, b1, b2, e, ui)`, ann.cpp:433-508. The outputs are resized if the first is empty and the second is
not (478). -/
def adam (fuel : Nat) (g : Nat → Nat → Draws × Draws) (last : Draws) (s : Ann) (learning_rate : ℝ) (max_epoch mini_batch_size : Int)
    (b1 b2 e : ℝ) : M ℝ Ann :=
  optimise fuel g last s learning_rate max_epoch mini_batch_size newMoment2 (start2 fun i j => i == 0 && j != 0) noLook (adamRule b1 b2 e)

/-- `m->addb(m->scalar_multiplyn(b1), g->scalar_multiplyn(1 - b1))`, ann.cpp:561, 637, 726. -/
def firstOutput (b1 : ℝ) (m g : Ref) : M ℝ Unit := do
  let a ← Hd.scalar_multiplyn m b1
  let b ← Hd.scalar_multiplyn g (1 - b1)
  Hd.addb m a b

/-- `v->addb(v->scalar_multiplyn(b2), g->exponentiaten(2)->scalar_multiplyn(1 - b2))`, ann.cpp:638, 727. -/
def secondOutput (b2 : ℝ) (v g : Ref) : M ℝ Unit := do
  let a ← Hd.scalar_multiplyn v b2
  let b ← Hd.exponentiaten g 2
  let b ← Hd.scalar_multiplyn b (1 - b2)
  Hd.addb v a b

/-- ann.cpp:558-568. -/
def adamaxRule (b1 b2 e : ℝ) (epoch : Nat) (c : ℝ) (gs : List Ref) (g : Ref) (p : Moment × Moment) : M ℝ ((Moment × Moment) × List Ref × Ref) := do
  let m_hidden ← firstHidden b1 p.1.hidden gs
  let a ← LinAlg.scalar_multiplynvt b2 p.2.hidden
  let b ← LinAlg.absnvt gs
  let u_hidden ← LinAlg.maxnvt a b
  firstOutput b1 p.1.output g
  let a ← Hd.scalar_multiplyn p.2.output b2
  let b ← Hd.absn g
  Hd.maxb p.2.output a b
  let m_hidden_hat ← LinAlg.scalar_multiplynvt (1 / (1 - MathFns.pow b1 (epoch : ℝ))) m_hidden
  let m_output_hat ← Hd.scalar_multiplyn p.1.output (1 / (1 - MathFns.pow b1 (epoch : ℝ)))
  let d ← LinAlg.scalar_addnvt e u_hidden
  let q ← LinAlg.division_element_wisenvnvt m_hidden_hat d
  let us ← LinAlg.scalar_multiplynvt c q
  let d ← Hd.scalar_addn p.2.output e
  let q ← Hd.division_element_wisen m_output_hat d
  let u ← Hd.scalar_multiplyn q c
  pure ((⟨m_hidden, p.1.output⟩, ⟨u_hidden, p.2.output⟩), us, u)

/-- `adamax(learning_rate, max_epoch, mini_batch_size, b1, b2, e, ui)`, ann.cpp:510-583. -/
def adamax (fuel : Nat) (g : Nat → Nat → Draws × Draws) (last : Draws) (s : Ann) (learning_rate : ℝ) (max_epoch mini_batch_size : Int)
    (b1 b2 e : ℝ) : M ℝ Ann :=
  optimise fuel g last s learning_rate max_epoch mini_batch_size newMoment2 (start2 fun i j => i == 0 && j == 0) noLook (adamaxRule b1 b2 e)

/-- ann.cpp:634-653. -/
def nadamRule (b1 b2 e : ℝ) (epoch : Nat) (c : ℝ) (gs : List Ref) (g : Ref) (p : Moment × Moment) : M ℝ ((Moment × Moment) × List Ref × Ref) := do
  let m_hidden ← firstHidden b1 p.1.hidden gs
  let v_hidden ← secondHidden b2 p.2.hidden gs
  firstOutput b1 p.1.output g
  secondOutput b2 p.2.output g
  let m_hidden_hat ← LinAlg.scalar_multiplynvt (1 / (1 - MathFns.pow b1 (epoch : ℝ))) m_hidden
  let v_hidden_hat ← LinAlg.scalar_multiplynvt (1 / (1 - MathFns.pow b2 (epoch : ℝ))) v_hidden
  let a ← LinAlg.scalar_multiplynvt b1 m_hidden_hat
  let b ← LinAlg.scalar_multiplynvt ((1 - b1) / (1 - MathFns.pow b1 (epoch : ℝ))) gs
  let m_hidden_final ← LinAlg.additionnvt a b
  let m_output_hat ← Hd.scalar_multiplyn p.1.output (1 / (1 - MathFns.pow b1 (epoch : ℝ)))
  let v_output_hat ← Hd.scalar_multiplyn p.2.output (1 / (1 - MathFns.pow b2 (epoch : ℝ)))
  let a ← Hd.scalar_multiplyn m_output_hat b1
  let b ← Hd.scalar_multiplyn g ((1 - b1) / (1 - MathFns.pow b1 (epoch : ℝ)))
  let m_output_final ← Hd.addn a b
  let us ← ratioHidden c e m_hidden_final v_hidden_hat
  let u ← ratioOutput c e m_output_final v_output_hat
  pure ((⟨m_hidden, p.1.output⟩, ⟨v_hidden, p.2.output⟩), us, u)

/-- `nadam(learning_rate, max_epoch, mini_batch_size, b1, b2, e, ui)`, ann.cpp:585-665. -/
def nadam (fuel : Nat) (g : Nat → Nat → Draws × Draws) (last : Draws) (s : Ann) (learning_rate : ℝ) (max_epoch mini_batch_size : Int)
    (b1 b2 e : ℝ) : M ℝ Ann :=
  optimise fuel g last s learning_rate max_epoch mini_batch_size newMoment2 (start2 fun i j => i == 0 && j == 0) noLook (nadamRule b1 b2 e)

/-- Three moments, ann.cpp:684-696. -/
def newMoment3 : M ℝ (Moment × Moment × Moment) := do
  let m ← newMoment
  let v ← newMoment
  let w ← newMoment
  pure (m, v, w)

/-- ann.cpp:723-734. -/
def amsgradRule (b1 b2 e : ℝ) (_epoch : Nat) (c : ℝ) (gs : List Ref) (g : Ref) (p : Moment × Moment × Moment) :
    M ℝ ((Moment × Moment × Moment) × List Ref × Ref) := do
  let m_hidden ← firstHidden b1 p.1.hidden gs
  let v_hidden ← secondHidden b2 p.2.1.hidden gs
  firstOutput b1 p.1.output g
  secondOutput b2 p.2.1.output g
  let v_hidden_hat ← LinAlg.maxnvt p.2.2.hidden v_hidden
  Hd.max p.2.2.output p.2.1.output
  let us ← ratioHidden c e m_hidden v_hidden_hat
  let u ← ratioOutput c e p.1.output p.2.2.output
  pure ((⟨m_hidden, p.1.output⟩, ⟨v_hidden, p.2.1.output⟩, ⟨v_hidden_hat, p.2.2.output⟩), us, u)

/-- `amsgrad(learning_rate, max_epoch, mini_batch_size, b1, b2, e, ui)`, ann.cpp:667-748. -/
def amsgrad (fuel : Nat) (g : Nat → Nat → Draws × Draws) (last : Draws) (s : Ann) (learning_rate : ℝ) (max_epoch mini_batch_size : Int)
    (b1 b2 e : ℝ) : M ℝ Ann :=
  optimise fuel g last s learning_rate max_epoch mini_batch_size newMoment3 start3 noLook (amsgradRule b1 b2 e)

end Ann
end
end Verif
