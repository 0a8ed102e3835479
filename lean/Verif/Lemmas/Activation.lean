import Verif.Lemmas.Lift
import Verif.Model.Activation

/-! # The functions of `MLPPLinAlg` used by `MLPPActivation`, on vectors and matrices of real numbers -/

namespace Verif.Activation
open Spec LinAlg

theorem absC_fun : (absC : ℝ → ℝ) = fun x => |x| := funext absC_eq

/-! ## Evaluation rules -/

theorem subtractionnm_lifts : Lifts2 Loc.m (fun x y : ℝ => x - y) subtractionnm := binM_lifts _
theorem additionnm_lifts : Lifts2 Loc.m (fun x y : ℝ => x + y) additionnm := binM_lifts _
theorem hadamard_productnm_lifts : Lifts2 Loc.m (fun x y : ℝ => x * y) hadamard_productnm := gridM_lifts _
theorem division_element_wisenvnm_lifts : Lifts2 Loc.m (fun x y : ℝ => x / y) division_element_wisenvnm := gridM_lifts _
theorem scalar_multiplynm_lifts (k : ℝ) : Lifts Loc.m (fun x => x * k) (scalar_multiplynm k) := dupM_lifts _
theorem scalar_addnm_lifts (k : ℝ) : Lifts Loc.m (fun x => x + k) (scalar_addnm k) := dupM_lifts _
theorem lognm_lifts : Lifts Loc.m Real.log lognm := unM_lifts _
theorem expnm_lifts : Lifts Loc.m Real.exp expnm := unM_lifts _
theorem erfnm_lifts : Lifts Loc.m erfReal erfnm := unM_lifts _
theorem sqrtnm_lifts : Lifts Loc.m Real.sqrt sqrtnm := unM_lifts _
theorem sinnm_lifts : Lifts Loc.m Real.sin sinnm := unM_lifts _
theorem cosnm_lifts : Lifts Loc.m Real.cos cosnm := unM_lifts _
theorem absnm_lifts : Lifts Loc.m (fun x : ℝ => |x|) absnm := absC_fun ▸ unM_lifts _

theorem subtractionnv_lifts : Lifts2 Loc.v (fun x y : ℝ => x - y) subtractionnv := subV_lifts
theorem additionnv_lifts : Lifts2 Loc.v (fun x y : ℝ => x + y) additionnv := binV_lifts _
theorem hadamard_productnv_lifts : Lifts2 Loc.v (fun x y : ℝ => x * y) hadamard_productnv := binV_lifts _
theorem division_element_wisenv_lifts : Lifts2 Loc.v (fun x y : ℝ => x / y) division_element_wisenv := binV_lifts _
theorem scalar_multiplynv_lifts (k : ℝ) : Lifts Loc.v (fun x => x * k) (scalar_multiplynv k) := unV_lifts _
theorem scalar_addnv_lifts (k : ℝ) : Lifts Loc.v (fun x => x + k) (scalar_addnv k) := unV_lifts _
theorem lognv_lifts : Lifts Loc.v Real.log lognv := unV_lifts _
theorem expnv_lifts : Lifts Loc.v Real.exp expnv := unV_lifts _
theorem erfnv_lifts : Lifts Loc.v erfReal erfnv := unV_lifts _
theorem sqrtnv_lifts : Lifts Loc.v Real.sqrt sqrtnv := unV_lifts _
theorem sinnv_lifts : Lifts Loc.v Real.sin sinnv := unV_lifts _
theorem cosnv_lifts : Lifts Loc.v Real.cos cosnv := unV_lifts _
theorem absv_lifts : Lifts Loc.v (fun x : ℝ => |x|) absv := absC_fun ▸ unV_lifts _
theorem exponentiatenv_lifts (p : ℝ) : Lifts Loc.v (fun x => x ^ p) (exponentiatenv p) := unV_lifts _

theorem loopV_lifts (f : ℝ → ℝ) : Lifts Loc.v f (loopV f) := fun h w z l => unN_lifts kindV f h w z l
theorem loopM_lifts (f : ℝ → ℝ) : Lifts Loc.m f (loopM f) := fun h w z l => unN_lifts kindM f h w z l

section
variable {h0 : Heap ℝ} {z : Nat} {g : ℝ → ℝ} {fr : Prop} {d : List ℝ}

theorem Ev_vsize (l : h0.live (.v z)) {k : Nat → M ℝ Ref} {s : Size}
    (a : Ev Loc.v fr h0 s d (k (h0.size (.v z)).x) g) : Ev Loc.v fr h0 s d (vsize (some (.v z)) >>= k) g := by
  refine Ev.step (a := (h0.size (.v z)).x) (fun h _ kk => ?_) a
  rw [← (kk.2 _ l (by simp)).2]
  rfl

theorem Ev_msize (l : h0.live (.m z)) {k : Size → M ℝ Ref} {s : Size}
    (a : Ev Loc.m fr h0 s d (k (h0.size (.m z))) g) : Ev Loc.m fr h0 s d (msize (some (.m z)) >>= k) g := by
  refine Ev.step (a := h0.size (.m z)) (fun h _ kk => ?_) a
  rw [← (kk.2 _ l (by simp)).2]
  rfl

theorem Ev_fullV (w : h0.WF) (k : ℝ) : Ev Loc.v True h0 (h0.size (.v z)) (h0.buf (.v z)) (fullV (h0.size (.v z)).x k) fun _ => k := by
  have := w.vec z
  refine Ev.fullV ?_ ?_ k
  · rcases e : h0.size (.v z) with ⟨x, y, zz⟩
    rw [e] at this; obtain ⟨rfl, rfl⟩ := this; rfl
  · rw [w.len, Size.count, this.1, this.2]; simp

theorem Ev_fullM (w : h0.WF) (k : ℝ) : Ev Loc.m True h0 (h0.size (.m z)) (h0.buf (.m z)) (fullM ⟨(h0.size (.m z)).x, (h0.size (.m z)).y, 1⟩ k) fun _ => k := by
  have := w.mat z
  refine Ev.fullM ?_ ?_ k
  · rcases e : h0.size (.m z) with ⟨x, y, zz⟩
    rw [e] at this; obtain rfl := this; rfl
  · rw [w.len, Size.count, this]; simp

theorem Ev_onevecnv (w : h0.WF) : Ev Loc.v True h0 (h0.size (.v z)) (h0.buf (.v z)) (onevecnv (h0.size (.v z)).x) fun _ => (1 : ℝ) := Ev_fullV w 1
theorem Ev_fullnv (w : h0.WF) (k : Int) : Ev Loc.v True h0 (h0.size (.v z)) (h0.buf (.v z)) (fullnv (h0.size (.v z)).x k) fun _ => (k : ℝ) := Ev_fullV w _
theorem Ev_onematnm (w : h0.WF) : Ev Loc.m True h0 (h0.size (.m z)) (h0.buf (.m z)) (onematnm (h0.size (.m z)).y (h0.size (.m z)).x) fun _ => (1 : ℝ) := Ev_fullM w 1
theorem Ev_fullnm (w : h0.WF) (k : Int) : Ev Loc.m True h0 (h0.size (.m z)) (h0.buf (.m z)) (fullnm (h0.size (.m z)).y (h0.size (.m z)).x k) fun _ => (k : ℝ) := Ev_fullM w _
end

/-- Known element-wise functions. -/
macro "known" : tactic => `(tactic| with_reducible first
  | exact subtractionnm_lifts | exact additionnm_lifts | exact hadamard_productnm_lifts | exact division_element_wisenvnm_lifts
  | exact scalar_multiplynm_lifts _ | exact scalar_addnm_lifts _ | exact lognm_lifts | exact expnm_lifts | exact erfnm_lifts
  | exact sqrtnm_lifts | exact sinnm_lifts | exact cosnm_lifts | exact absnm_lifts
  | exact subtractionnv_lifts | exact additionnv_lifts | exact hadamard_productnv_lifts | exact division_element_wisenv_lifts
  | exact scalar_multiplynv_lifts _ | exact scalar_addnv_lifts _ | exact lognv_lifts | exact expnv_lifts | exact erfnv_lifts
  | exact sqrtnv_lifts | exact sinnv_lifts | exact cosnv_lifts | exact absv_lifts | exact exponentiatenv_lifts _
  | assumption)

/-- Syntax-directed evaluation of an expression. -/
macro "evaluate" w:ident l:ident : tactic => `(tactic| repeat' (with_reducible first
  | exact Ev.self $l
  | exact Ev_onevecnv $w | exact Ev_onematnm $w | exact Ev_fullnv $w _ | exact Ev_fullnm $w _
  | (apply Ev.app1; known) | (apply Ev.app2; known)
  | apply Ev_vsize $l | apply Ev_msize $l))

theorem sinh_normr_eq (x : ℝ) : sinh_normr x = Real.sinh x := by rw [sinh_normr, Real.sinh_eq]; ring
theorem cosh_normr_eq (x : ℝ) : cosh_normr x = Real.cosh x := by rw [cosh_normr, Real.cosh_eq]; ring
theorem tanh_normr_eq (x : ℝ) : tanh_normr x = Real.tanh x := by rw [tanh_normr, Real.tanh_eq]

/-! ## The activation functions -/

theorem linear_normv_lifts : Lifts Loc.v linear_normr linear_normv := by
  intro h w z l
  obtain ⟨h', e, c⟩ := duplicateFast_run (.v z) h (w.len _) l
  have q := created_returnsNew (c := linear_normv (some (.v z))) kindV w (w.len _) rfl e c
  have : (h.buf (.v z)).map linear_normr = h.buf (.v z) := by
    rw [show linear_normr = id from rfl, List.map_id]
  rwa [← this] at q

theorem linear_normm_lifts : Lifts Loc.m linear_normr linear_normm := by
  intro h w z l
  obtain ⟨h', e, c⟩ := duplicateFast_run (.m z) h (w.len _) l
  have q := created_returnsNew (c := linear_normm (some (.m z))) kindM w (w.len _) rfl e c
  have : (h.buf (.m z)).map linear_normr = h.buf (.m z) := by
    rw [show linear_normr = id from rfl, List.map_id]
  rwa [← this] at q

theorem linear_derivv_lifts : Lifts Loc.v linear_derivr linear_derivv := by
  refine Ev.lifts fun h w z l => ?_
  unfold linear_derivv
  apply Ev.congr
  case a => evaluate w l
  intro x; rfl

theorem linear_derivm_lifts : Lifts Loc.m linear_derivr linear_derivm := by
  refine Ev.lifts fun h w z l => ?_
  unfold linear_derivm
  apply Ev.congr
  case a => evaluate w l
  intro x; rfl

theorem sigmoid_normv_lifts : Lifts Loc.v sigmoid_normr sigmoid_normv := by
  refine Ev.lifts fun h w z l => ?_
  unfold sigmoid_normv
  apply Ev.congr
  case a => evaluate w l
  intro x; simp [sigmoid_normr]

theorem sigmoid_normm_lifts : Lifts Loc.m sigmoid_normr sigmoid_normm := by
  refine Ev.lifts fun h w z l => ?_
  unfold sigmoid_normm
  apply Ev.congr
  case a => evaluate w l
  intro x; simp [sigmoid_normr]

theorem sigmoid_derivv_lifts : Lifts Loc.v sigmoid_derivr sigmoid_derivv := by
  refine Ev.lifts fun h w z l => ?_
  unfold sigmoid_derivv
  refine Ev.let (Ev.call sigmoid_normv_lifts l) fun h1 o w1 k1 l1 q1 => ?_
  apply Ev.congr
  case a =>
    apply Ev.app2 subtractionnv_lifts (Ev.var l1 q1)
    exact Ev.app2 hadamard_productnv_lifts (Ev.var l1 q1) (Ev.var l1 q1)
  intro x; simp only [sigmoid_derivr]; ring

theorem sigmoid_derivm_lifts : Lifts Loc.m sigmoid_derivr sigmoid_derivm := by
  refine Ev.lifts fun h w z l => ?_
  unfold sigmoid_derivm
  refine Ev.let (Ev.call sigmoid_normm_lifts l) fun h1 o w1 k1 l1 q1 => ?_
  apply Ev.congr
  case a =>
    apply Ev.app2 subtractionnm_lifts (Ev.var l1 q1)
    exact Ev.app2 hadamard_productnm_lifts (Ev.var l1 q1) (Ev.var l1 q1)
  intro x; simp only [sigmoid_derivr]; ring

theorem softplus_normv_lifts : Lifts Loc.v softplus_normr softplus_normv := by
  refine Ev.lifts fun h w z l => ?_
  unfold softplus_normv
  apply Ev.congr
  case a => evaluate w l
  intro x; rfl

theorem softplus_derivv_lifts : Lifts Loc.v softplus_derivr softplus_derivv := by
  refine Ev.lifts fun h w z l => ?_
  have := sigmoid_normv_lifts
  unfold softplus_derivv
  apply Ev.congr
  case a => evaluate w l
  intro x; rfl

theorem softplus_derivm_lifts : Lifts Loc.m softplus_derivr softplus_derivm := by
  refine Ev.lifts fun h w z l => ?_
  have := sigmoid_normm_lifts
  unfold softplus_derivm
  apply Ev.congr
  case a => evaluate w l
  intro x; rfl

theorem softsign_normv_lifts : Lifts Loc.v softsign_normr softsign_normv := by
  refine Ev.lifts fun h w z l => ?_
  unfold softsign_normv
  apply Ev.congr
  case a => evaluate w l
  intro x; rfl

theorem softsign_derivv_lifts : Lifts Loc.v softsign_derivr softsign_derivv := by
  refine Ev.lifts fun h w z l => ?_
  unfold softsign_derivv
  apply Ev.congr
  case a => evaluate w l
  intro x; simp [softsign_derivr, sq]

theorem gaussian_cdf_normv_lifts : Lifts Loc.v gaussian_cdf_normr gaussian_cdf_normv := by
  refine Ev.lifts fun h w z l => ?_
  unfold gaussian_cdf_normv
  apply Ev.congr
  case a => evaluate w l
  intro x; simp only [gaussian_cdf_normr]; rw [mul_comm, mul_one_div]

theorem gaussian_cdf_normm_lifts : Lifts Loc.m gaussian_cdf_normr gaussian_cdf_normm := by
  refine Ev.lifts fun h w z l => ?_
  unfold gaussian_cdf_normm
  apply Ev.congr
  case a => evaluate w l
  intro x; simp only [gaussian_cdf_normr]; rw [mul_comm, mul_one_div]

theorem gaussian_cdf_derivv_lifts : Lifts Loc.v gaussian_cdf_derivr gaussian_cdf_derivv := by
  refine Ev.lifts fun h w z l => ?_
  unfold gaussian_cdf_derivv
  apply Ev.congr
  case a => evaluate w l
  intro x; simp only [gaussian_cdf_derivr]; rw [mul_comm]; congr 2; ring

theorem gaussian_cdf_derivm_lifts : Lifts Loc.m gaussian_cdf_derivr gaussian_cdf_derivm := by
  refine Ev.lifts fun h w z l => ?_
  unfold gaussian_cdf_derivm
  apply Ev.congr
  case a => evaluate w l
  intro x; simp only [gaussian_cdf_derivr]; rw [mul_comm]; congr 2; ring

theorem cloglog_normv_lifts : Lifts Loc.v cloglog_normr cloglog_normv := by
  refine Ev.lifts fun h w z l => ?_
  unfold cloglog_normv
  apply Ev.congr
  case a => evaluate w l
  intro x; simp [cloglog_normr]; ring

theorem cloglog_normm_lifts : Lifts Loc.m cloglog_normr cloglog_normm := by
  refine Ev.lifts fun h w z l => ?_
  unfold cloglog_normm
  apply Ev.congr
  case a => evaluate w l
  intro x; simp [cloglog_normr]; ring

theorem logit_normv_lifts : Lifts Loc.v logit_normr logit_normv := by
  refine Ev.lifts fun h w z l => ?_
  unfold logit_normv
  apply Ev.congr
  case a => evaluate w l
  intro x; rfl

theorem logit_normm_lifts : Lifts Loc.m logit_normr logit_normm := by
  refine Ev.lifts fun h w z l => ?_
  unfold logit_normm
  apply Ev.congr
  case a => evaluate w l
  intro x; rfl

theorem logit_derivv_lifts : Lifts Loc.v logit_derivr logit_derivv := by
  refine Ev.lifts fun h w z l => ?_
  unfold logit_derivv
  apply Ev.congr
  case a => evaluate w l
  intro x; rfl

theorem logit_derivm_lifts : Lifts Loc.m logit_derivr logit_derivm := by
  refine Ev.lifts fun h w z l => ?_
  unfold logit_derivm
  apply Ev.congr
  case a => evaluate w l
  intro x; rfl

theorem unit_step_normv_lifts : Lifts Loc.v unit_step_normr unit_step_normv := loopV_lifts _

theorem unit_step_normm_lifts : Lifts Loc.m unit_step_normr unit_step_normm := loopM_lifts _

theorem unit_step_derivv_lifts : Lifts Loc.v unit_step_derivr unit_step_derivv := by
  refine Ev.lifts fun h w z l => ?_
  exact Ev_vsize l (Ev_fullV w 0)

theorem unit_step_derivm_lifts : Lifts Loc.m unit_step_derivr unit_step_derivm := by
  refine Ev.lifts fun h w z l => ?_
  refine Ev_msize l ?_
  have := Ev_fullM (z := z) w 0
  rwa [← w.mat z] at this

theorem swish_normv_lifts : Lifts Loc.v swish_normr swish_normv := by
  refine Ev.lifts fun h w z l => ?_
  have := sigmoid_normv_lifts
  unfold swish_normv
  apply Ev.congr
  case a => evaluate w l
  intro x; rfl

theorem swish_derivv_lifts : Lifts Loc.v swish_derivr swish_derivv := by
  refine Ev.lifts fun h w z l => ?_
  have := sigmoid_normv_lifts
  have := swish_normv_lifts
  unfold swish_derivv
  apply Ev.congr
  case a => evaluate w l
  intro x; simp only [swish_derivr]; ring

theorem tanh_normv_lifts : Lifts Loc.v tanh_normr tanh_normv := by
  refine Ev.lifts fun h w z l => ?_
  unfold tanh_normv
  apply Ev.congr
  case a => evaluate w l
  intro x; simp [tanh_normr]

theorem mish_normv_lifts : Lifts Loc.v mish_normr mish_normv := by
  refine Ev.lifts fun h w z l => ?_
  have := softplus_normv_lifts
  have := tanh_normv_lifts
  unfold mish_normv
  apply Ev.congr
  case a => evaluate w l
  intro x; simp [mish_normr, tanh_normr_eq]

theorem tanh_normm_lifts : Lifts Loc.m tanh_normr tanh_normm := by
  refine Ev.lifts fun h w z l => ?_
  unfold tanh_normm
  apply Ev.congr
  case a => evaluate w l
  intro x; simp [tanh_normr]

theorem cosh_normv_lifts : Lifts Loc.v cosh_normr cosh_normv := by
  refine Ev.lifts fun h w z l => ?_
  unfold cosh_normv
  apply Ev.congr
  case a => evaluate w l
  intro x; simp [cosh_normr]; ring

theorem sech_normv_lifts : Lifts Loc.v sech_normr sech_normv := by
  refine Ev.lifts fun h w z l => ?_
  have := cosh_normv_lifts
  unfold sech_normv
  apply Ev.congr
  case a => evaluate w l
  intro x; simp [sech_normr, cosh_normr_eq]

theorem mish_derivv_lifts : Lifts Loc.v mish_derivr mish_derivv := by
  refine Ev.lifts fun h w z l => ?_
  have := mish_normv_lifts
  have := sech_normv_lifts
  have := sigmoid_normv_lifts
  have := softplus_normv_lifts
  unfold mish_derivv
  apply Ev.congr
  case a => evaluate w l
  intro x; rfl

theorem cosh_normm_lifts : Lifts Loc.m cosh_normr cosh_normm := by
  refine Ev.lifts fun h w z l => ?_
  unfold cosh_normm
  apply Ev.congr
  case a => evaluate w l
  intro x; simp [cosh_normr]; ring

theorem sech_normm_lifts : Lifts Loc.m sech_normr sech_normm := by
  refine Ev.lifts fun h w z l => ?_
  have := cosh_normm_lifts
  unfold sech_normm
  apply Ev.congr
  case a => evaluate w l
  intro x; simp [sech_normr, cosh_normr_eq]

theorem sinc_normv_lifts : Lifts Loc.v sinc_normr sinc_normv := by
  refine Ev.lifts fun h w z l => ?_
  unfold sinc_normv
  apply Ev.congr
  case a => evaluate w l
  intro x; rfl

theorem sinc_normm_lifts : Lifts Loc.m sinc_normr sinc_normm := by
  refine Ev.lifts fun h w z l => ?_
  unfold sinc_normm
  apply Ev.congr
  case a => evaluate w l
  intro x; rfl

theorem sinc_derivv_lifts : Lifts Loc.v sinc_derivr sinc_derivv := by
  refine Ev.lifts fun h w z l => ?_
  unfold sinc_derivv
  apply Ev.congr
  case a => evaluate w l
  intro x; rfl

theorem sinc_derivm_lifts : Lifts Loc.m sinc_derivr sinc_derivm := by
  refine Ev.lifts fun h w z l => ?_
  unfold sinc_derivm
  apply Ev.congr
  case a => evaluate w l
  intro x; rfl

theorem relu_normv_lifts : Lifts Loc.v relu_normr relu_normv := loopV_lifts _

theorem relu_normm_lifts : Lifts Loc.m relu_normr relu_normm := loopM_lifts _

theorem relu_derivv_lifts : Lifts Loc.v relu_derivr relu_derivv := loopV_lifts _

theorem relu_derivm_lifts : Lifts Loc.m relu_derivr relu_derivm := loopM_lifts _

theorem leaky_relu_normv_lifts (c : ℝ) : Lifts Loc.v (fun x => leaky_relu_normr x c) (fun z => leaky_relu_normv z c) := loopV_lifts _

theorem leaky_relu_normm_lifts (c : ℝ) : Lifts Loc.m (fun x => leaky_relu_normr x c) (fun z => leaky_relu_normm z c) := loopM_lifts _

theorem leaky_relu_derivv_lifts (c : ℝ) : Lifts Loc.v (fun x => leaky_relu_derivr x c) (fun z => leaky_relu_derivv z c) := loopV_lifts _

theorem leaky_relu_derivm_lifts (c : ℝ) : Lifts Loc.m (fun x => leaky_relu_derivr x c) (fun z => leaky_relu_derivm z c) := loopM_lifts _

theorem elu_normv_lifts (c : ℝ) : Lifts Loc.v (fun x => elu_normr x c) (fun z => elu_normv z c) := loopV_lifts _

theorem elu_normm_lifts (c : ℝ) : Lifts Loc.m (fun x => elu_normr x c) (fun z => elu_normm z c) := loopM_lifts _

theorem elu_derivv_lifts (c : ℝ) : Lifts Loc.v (fun x => elu_derivr x c) (fun z => elu_derivv z c) := loopV_lifts _

theorem elu_derivm_lifts (c : ℝ) : Lifts Loc.m (fun x => elu_derivr x c) (fun z => elu_derivm z c) := loopM_lifts _

theorem selu_normv_lifts (lambda c : ℝ) : Lifts Loc.v (fun x => selu_normr x lambda c) (fun z => selu_normv z lambda c) := loopV_lifts _

theorem selu_normm_lifts (lambda c : ℝ) : Lifts Loc.m (fun x => selu_normr x lambda c) (fun z => selu_normm z lambda c) := loopM_lifts _

theorem selu_derivv_lifts (lambda c : ℝ) : Lifts Loc.v (fun x => selu_derivr x lambda c) (fun z => selu_derivv z lambda c) := loopV_lifts _

theorem selu_derivm_lifts (lambda c : ℝ) : Lifts Loc.m (fun x => selu_derivr x lambda c) (fun z => selu_derivm z lambda c) := loopM_lifts _

theorem gelu_normv_lifts : Lifts Loc.v gelu_normr gelu_normv := loopV_lifts _

theorem gelu_normm_lifts : Lifts Loc.m gelu_normr gelu_normm := loopM_lifts _

theorem gelu_derivv_lifts : Lifts Loc.v gelu_derivr gelu_derivv := loopV_lifts _

theorem gelu_derivm_lifts : Lifts Loc.m gelu_derivr gelu_derivm := loopM_lifts _

theorem sign_normv_lifts : Lifts Loc.v sign_normr sign_normv := loopV_lifts _

theorem sign_normm_lifts : Lifts Loc.m sign_normr sign_normm := loopM_lifts _

theorem sign_derivv_lifts : Lifts Loc.v sign_derivr sign_derivv := loopV_lifts _

theorem sign_derivm_lifts : Lifts Loc.m sign_derivr sign_derivm := loopM_lifts _

theorem sinh_normv_lifts : Lifts Loc.v sinh_normr sinh_normv := by
  refine Ev.lifts fun h w z l => ?_
  unfold sinh_normv
  apply Ev.congr
  case a => evaluate w l
  intro x; simp [sinh_normr]; ring

theorem sinh_normm_lifts : Lifts Loc.m sinh_normr sinh_normm := by
  refine Ev.lifts fun h w z l => ?_
  unfold sinh_normm
  apply Ev.congr
  case a => evaluate w l
  intro x; simp [sinh_normr]; ring

theorem sinh_derivv_lifts : Lifts Loc.v sinh_derivr sinh_derivv := by
  refine Ev.lifts fun h w z l => ?_
  have := cosh_normv_lifts
  unfold sinh_derivv
  apply Ev.congr
  case a => evaluate w l
  intro x; rfl

theorem sinh_derivm_lifts : Lifts Loc.m sinh_derivr sinh_derivm := by
  refine Ev.lifts fun h w z l => ?_
  have := cosh_normm_lifts
  unfold sinh_derivm
  apply Ev.congr
  case a => evaluate w l
  intro x; rfl

theorem cosh_derivv_lifts : Lifts Loc.v cosh_derivr cosh_derivv := by
  refine Ev.lifts fun h w z l => ?_
  have := sinh_normv_lifts
  unfold cosh_derivv
  apply Ev.congr
  case a => evaluate w l
  intro x; rfl

theorem cosh_derivm_lifts : Lifts Loc.m cosh_derivr cosh_derivm := by
  refine Ev.lifts fun h w z l => ?_
  have := sinh_normm_lifts
  unfold cosh_derivm
  apply Ev.congr
  case a => evaluate w l
  intro x; rfl

theorem tanh_derivv_lifts : Lifts Loc.v tanh_derivr tanh_derivv := by
  refine Ev.lifts fun h w z l => ?_
  have := tanh_normv_lifts
  unfold tanh_derivv
  apply Ev.congr
  case a => evaluate w l
  intro x; simp only [tanh_derivr, tanh_normr_eq]; ring

theorem tanh_derivm_lifts : Lifts Loc.m tanh_derivr tanh_derivm := by
  refine Ev.lifts fun h w z l => ?_
  have := tanh_normm_lifts
  unfold tanh_derivm
  apply Ev.congr
  case a => evaluate w l
  intro x; simp only [tanh_derivr, tanh_normr_eq]; ring

theorem csch_normv_lifts : Lifts Loc.v csch_normr csch_normv := by
  refine Ev.lifts fun h w z l => ?_
  have := sinh_normv_lifts
  unfold csch_normv
  apply Ev.congr
  case a => evaluate w l
  intro x; simp [csch_normr, sinh_normr_eq]

theorem csch_normm_lifts : Lifts Loc.m csch_normr csch_normm := by
  refine Ev.lifts fun h w z l => ?_
  have := sinh_normm_lifts
  unfold csch_normm
  apply Ev.congr
  case a => evaluate w l
  intro x; simp [csch_normr, sinh_normr_eq]

theorem coth_normv_lifts : Lifts Loc.v coth_normr coth_normv := by
  refine Ev.lifts fun h w z l => ?_
  have := tanh_normv_lifts
  unfold coth_normv
  apply Ev.congr
  case a => evaluate w l
  intro x; simp [coth_normr, tanh_normr_eq]

theorem csch_derivv_lifts : Lifts Loc.v csch_derivr csch_derivv := by
  refine Ev.lifts fun h w z l => ?_
  have := coth_normv_lifts
  have := csch_normv_lifts
  unfold csch_derivv
  apply Ev.congr
  case a => evaluate w l
  intro x; simp [csch_derivr]

theorem coth_normm_lifts : Lifts Loc.m coth_normr coth_normm := by
  refine Ev.lifts fun h w z l => ?_
  have := tanh_normm_lifts
  unfold coth_normm
  apply Ev.congr
  case a => evaluate w l
  intro x; simp [coth_normr, tanh_normr_eq]

theorem csch_derivm_lifts : Lifts Loc.m csch_derivr csch_derivm := by
  refine Ev.lifts fun h w z l => ?_
  have := coth_normm_lifts
  have := csch_normm_lifts
  unfold csch_derivm
  apply Ev.congr
  case a => evaluate w l
  intro x; simp [csch_derivr]

theorem sech_derivv_lifts : Lifts Loc.v sech_derivr sech_derivv := by
  refine Ev.lifts fun h w z l => ?_
  have := sech_normv_lifts
  have := tanh_normv_lifts
  unfold sech_derivv
  apply Ev.congr
  case a => evaluate w l
  intro x; simp [sech_derivr]

theorem sech_derivm_lifts : Lifts Loc.m sech_derivr sech_derivm := by
  refine Ev.lifts fun h w z l => ?_
  have := sech_normm_lifts
  have := tanh_normm_lifts
  unfold sech_derivm
  apply Ev.congr
  case a => evaluate w l
  intro x; simp [sech_derivr]

theorem coth_derivv_lifts : Lifts Loc.v coth_derivr coth_derivv := by
  refine Ev.lifts fun h w z l => ?_
  have := csch_normv_lifts
  unfold coth_derivv
  apply Ev.congr
  case a => evaluate w l
  intro x; simp [coth_derivr]

theorem coth_derivm_lifts : Lifts Loc.m coth_derivr coth_derivm := by
  refine Ev.lifts fun h w z l => ?_
  have := csch_normm_lifts
  unfold coth_derivm
  apply Ev.congr
  case a => evaluate w l
  intro x; simp [coth_derivr]

theorem arsinh_normv_lifts : Lifts Loc.v arsinh_normr arsinh_normv := by
  refine Ev.lifts fun h w z l => ?_
  unfold arsinh_normv
  apply Ev.congr
  case a => evaluate w l
  intro x; rfl

theorem arsinh_normm_lifts : Lifts Loc.m arsinh_normr arsinh_normm := by
  refine Ev.lifts fun h w z l => ?_
  unfold arsinh_normm
  apply Ev.congr
  case a => evaluate w l
  intro x; rfl

theorem arsinh_derivv_lifts : Lifts Loc.v arsinh_derivr arsinh_derivv := by
  refine Ev.lifts fun h w z l => ?_
  unfold arsinh_derivv
  apply Ev.congr
  case a => evaluate w l
  intro x; rfl

theorem arsinh_derivm_lifts : Lifts Loc.m arsinh_derivr arsinh_derivm := by
  refine Ev.lifts fun h w z l => ?_
  unfold arsinh_derivm
  apply Ev.congr
  case a => evaluate w l
  intro x; rfl

theorem arcosh_normv_lifts : Lifts Loc.v arcosh_normr arcosh_normv := by
  refine Ev.lifts fun h w z l => ?_
  unfold arcosh_normv
  apply Ev.congr
  case a => evaluate w l
  intro x; rfl

theorem arcosh_normm_lifts : Lifts Loc.m arcosh_normr arcosh_normm := by
  refine Ev.lifts fun h w z l => ?_
  unfold arcosh_normm
  apply Ev.congr
  case a => evaluate w l
  intro x; rfl

theorem arcosh_derivv_lifts : Lifts Loc.v arcosh_derivr arcosh_derivv := by
  refine Ev.lifts fun h w z l => ?_
  unfold arcosh_derivv
  apply Ev.congr
  case a => evaluate w l
  intro x; rfl

theorem arcosh_derivm_lifts : Lifts Loc.m arcosh_derivr arcosh_derivm := by
  refine Ev.lifts fun h w z l => ?_
  unfold arcosh_derivm
  apply Ev.congr
  case a => evaluate w l
  intro x; rfl

theorem artanh_normv_lifts : Lifts Loc.v artanh_normr artanh_normv := by
  refine Ev.lifts fun h w z l => ?_
  unfold artanh_normv
  apply Ev.congr
  case a => evaluate w l
  intro x; simp only [artanh_normr]; rw [mul_comm]

theorem artanh_normm_lifts : Lifts Loc.m artanh_normr artanh_normm := by
  refine Ev.lifts fun h w z l => ?_
  unfold artanh_normm
  apply Ev.congr
  case a => evaluate w l
  intro x; simp only [artanh_normr]; rw [mul_comm]

theorem artanh_derivv_lifts : Lifts Loc.v artanh_derivr artanh_derivv := by
  refine Ev.lifts fun h w z l => ?_
  unfold artanh_derivv
  apply Ev.congr
  case a => evaluate w l
  intro x; rfl

theorem arcsch_normv_lifts : Lifts Loc.v arcsch_normr arcsch_normv := by
  refine Ev.lifts fun h w z l => ?_
  unfold arcsch_normv
  apply Ev.congr
  case a => evaluate w l
  intro x; rfl

theorem arcsch_normm_lifts : Lifts Loc.m arcsch_normr arcsch_normm := by
  refine Ev.lifts fun h w z l => ?_
  unfold arcsch_normm
  apply Ev.congr
  case a => evaluate w l
  intro x; rfl

theorem arcsch_derivm_lifts : Lifts Loc.m arcsch_derivr arcsch_derivm := by
  refine Ev.lifts fun h w z l => ?_
  unfold arcsch_derivm
  apply Ev.congr
  case a => evaluate w l
  intro x; simp [arcsch_derivr]

theorem arsech_normv_lifts : Lifts Loc.v arsech_normr arsech_normv := by
  refine Ev.lifts fun h w z l => ?_
  unfold arsech_normv
  apply Ev.congr
  case a => evaluate w l
  intro x; rfl

theorem arsech_normm_lifts : Lifts Loc.m arsech_normr arsech_normm := by
  refine Ev.lifts fun h w z l => ?_
  unfold arsech_normm
  apply Ev.congr
  case a => evaluate w l
  intro x; rfl

theorem arsech_derivv_lifts : Lifts Loc.v arsech_derivr arsech_derivv := by
  refine Ev.lifts fun h w z l => ?_
  unfold arsech_derivv
  apply Ev.congr
  case a => evaluate w l
  intro x; simp [arsech_derivr]

theorem arsech_derivm_lifts : Lifts Loc.m arsech_derivr arsech_derivm := by
  refine Ev.lifts fun h w z l => ?_
  unfold arsech_derivm
  apply Ev.congr
  case a => evaluate w l
  intro x; simp [arsech_derivr]

theorem arcoth_normv_lifts : Lifts Loc.v arcoth_normr arcoth_normv := by
  refine Ev.lifts fun h w z l => ?_
  unfold arcoth_normv
  apply Ev.congr
  case a => evaluate w l
  intro x; simp only [arcoth_normr]; rw [mul_comm]

theorem arcoth_normm_lifts : Lifts Loc.m arcoth_normr arcoth_normm := by
  refine Ev.lifts fun h w z l => ?_
  unfold arcoth_normm
  apply Ev.congr
  case a => evaluate w l
  intro x; simp only [arcoth_normr]; rw [mul_comm]

theorem arcoth_derivv_lifts : Lifts Loc.v arcoth_derivr arcoth_derivv := by
  refine Ev.lifts fun h w z l => ?_
  unfold arcoth_derivv
  apply Ev.congr
  case a => evaluate w l
  intro x; rfl

theorem arcoth_derivm_lifts : Lifts Loc.m arcoth_derivr arcoth_derivm := by
  refine Ev.lifts fun h w z l => ?_
  unfold arcoth_derivm
  apply Ev.congr
  case a => evaluate w l
  intro x; rfl

end Verif.Activation
