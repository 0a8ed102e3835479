import Verif.Lemmas.ActivationNull
import Verif.Spec.Activation

/-!
# C45, C49: the vector and matrix forms of the activation functions, and the `deriv` flag (exact real arithmetic)

`normVector f`, `derivMatrix f`, ... are the functions `run_activation_norm_vector(f, .)`, ... dispatch to; `normReal f` is
`f_normr`, `ownDerivReal f` is `f_derivr`.
-/

namespace Verif
open Spec Activation

/-- **C45.** `f_normv(z)` is a new vector holding `f_normr` of each element, for every element-wise activation. -/
theorem C45_norm_vector (f : Fn) (hf : Elementwise f) : Lifts Loc.v (normReal f) (normVector f) := by
  cases f with
  | linear => exact linear_normv_lifts
  | sigmoid => exact sigmoid_normv_lifts
  | swish => exact swish_normv_lifts
  | mish => exact mish_normv_lifts
  | sinc => exact sinc_normv_lifts
  | softmax => exact hf.elim
  | softplus => exact softplus_normv_lifts
  | softsign => exact softsign_normv_lifts
  | adj_softmax => exact hf.elim
  | cloglog => exact cloglog_normv_lifts
  | logit => exact logit_normv_lifts
  | gaussian_cdf => exact gaussian_cdf_normv_lifts
  | relu => exact relu_normv_lifts
  | gelu => exact gelu_normv_lifts
  | sign => exact sign_normv_lifts
  | unit_step => exact unit_step_normv_lifts
  | sinh => exact sinh_normv_lifts
  | cosh => exact cosh_normv_lifts
  | tanh => exact tanh_normv_lifts
  | csch => exact csch_normv_lifts
  | sech => exact sech_normv_lifts
  | coth => exact coth_normv_lifts
  | arsinh => exact arsinh_normv_lifts
  | arcosh => exact arcosh_normv_lifts
  | artanh => exact artanh_normv_lifts
  | arcsch => exact arcsch_normv_lifts
  | arsech => exact arsech_normv_lifts
  | arcoth => exact arcoth_normv_lifts

/-- **C45** (part). `f_normm(z)` is a new matrix holding `f_normr` of each cell. Missing: swish, mish, softplus, softsign, below. -/
theorem C45_norm_matrix_partial (f : Fn) (hf : Elementwise f) (hb : f ∉ [Fn.swish, Fn.mish, Fn.softplus, Fn.softsign]) : Lifts Loc.m (normReal f) (normMatrix f) := by
  cases f with
  | linear => exact linear_normm_lifts
  | sigmoid => exact sigmoid_normm_lifts
  | swish => simp at hb
  | mish => simp at hb
  | sinc => exact sinc_normm_lifts
  | softmax => exact hf.elim
  | softplus => simp at hb
  | softsign => simp at hb
  | adj_softmax => exact hf.elim
  | cloglog => exact cloglog_normm_lifts
  | logit => exact logit_normm_lifts
  | gaussian_cdf => exact gaussian_cdf_normm_lifts
  | relu => exact relu_normm_lifts
  | gelu => exact gelu_normm_lifts
  | sign => exact sign_normm_lifts
  | unit_step => exact unit_step_normm_lifts
  | sinh => exact sinh_normm_lifts
  | cosh => exact cosh_normm_lifts
  | tanh => exact tanh_normm_lifts
  | csch => exact csch_normm_lifts
  | sech => exact sech_normm_lifts
  | coth => exact coth_normm_lifts
  | arsinh => exact arsinh_normm_lifts
  | arcosh => exact arcosh_normm_lifts
  | artanh => exact artanh_normm_lifts
  | arcsch => exact arcsch_normm_lifts
  | arsech => exact arsech_normm_lifts
  | arcoth => exact arcoth_normm_lifts

/-- **C45** (part). `f_derivv(z)` is a new vector holding `f_derivr` of each element. Missing: cloglog, arcsch, below. -/
theorem C45_deriv_vector_partial (f : Fn) (hf : Elementwise f) (hb : f ∉ [Fn.cloglog, Fn.arcsch]) : Lifts Loc.v (ownDerivReal f) (derivVector f) := by
  cases f with
  | linear => exact linear_derivv_lifts
  | sigmoid => exact sigmoid_derivv_lifts
  | swish => exact swish_derivv_lifts
  | mish => exact mish_derivv_lifts
  | sinc => exact sinc_derivv_lifts
  | softmax => exact hf.elim
  | softplus => exact softplus_derivv_lifts
  | softsign => exact softsign_derivv_lifts
  | adj_softmax => exact hf.elim
  | cloglog => simp at hb
  | logit => exact logit_derivv_lifts
  | gaussian_cdf => exact gaussian_cdf_derivv_lifts
  | relu => exact relu_derivv_lifts
  | gelu => exact gelu_derivv_lifts
  | sign => exact sign_derivv_lifts
  | unit_step => exact unit_step_derivv_lifts
  | sinh => exact sinh_derivv_lifts
  | cosh => exact cosh_derivv_lifts
  | tanh => exact tanh_derivv_lifts
  | csch => exact csch_derivv_lifts
  | sech => exact sech_derivv_lifts
  | coth => exact coth_derivv_lifts
  | arsinh => exact arsinh_derivv_lifts
  | arcosh => exact arcosh_derivv_lifts
  | artanh => exact artanh_derivv_lifts
  | arcsch => simp at hb
  | arsech => exact arsech_derivv_lifts
  | arcoth => exact arcoth_derivv_lifts

/-- **C45** (part). `f_derivm(z)` is a new matrix holding `f_derivr` of each cell. Missing: swish, mish, softsign, cloglog, artanh, below. -/
theorem C45_deriv_matrix_partial (fuel : Nat) (f : Fn) (hf : Elementwise f) (hb : f ∉ [Fn.swish, Fn.mish, Fn.softsign, Fn.cloglog, Fn.artanh]) : Lifts Loc.m (ownDerivReal f) (derivMatrix fuel f) := by
  cases f with
  | linear => exact linear_derivm_lifts
  | sigmoid => exact sigmoid_derivm_lifts
  | swish => simp at hb
  | mish => simp at hb
  | sinc => exact sinc_derivm_lifts
  | softmax => exact hf.elim
  | softplus => exact softplus_derivm_lifts
  | softsign => simp at hb
  | adj_softmax => exact hf.elim
  | cloglog => simp at hb
  | logit => exact logit_derivm_lifts
  | gaussian_cdf => exact gaussian_cdf_derivm_lifts
  | relu => exact relu_derivm_lifts
  | gelu => exact gelu_derivm_lifts
  | sign => exact sign_derivm_lifts
  | unit_step => exact unit_step_derivm_lifts
  | sinh => exact sinh_derivm_lifts
  | cosh => exact cosh_derivm_lifts
  | tanh => exact tanh_derivm_lifts
  | csch => exact csch_derivm_lifts
  | sech => exact sech_derivm_lifts
  | coth => exact coth_derivm_lifts
  | arsinh => exact arsinh_derivm_lifts
  | arcosh => exact arcosh_derivm_lifts
  | artanh => simp at hb
  | arcsch => exact arcsch_derivm_lifts
  | arsech => exact arsech_derivm_lifts
  | arcoth => exact arcoth_derivm_lifts

/-- **C45.** `leaky_relu` and its derivative on vectors and matrices. -/
theorem C45_leaky_relu (c : ℝ) :
    Lifts Loc.v (fun x => leaky_relu_normr x c) (fun z => leaky_relu_normv z c) ∧
    Lifts Loc.m (fun x => leaky_relu_normr x c) (fun z => leaky_relu_normm z c) ∧
    Lifts Loc.v (fun x => leaky_relu_derivr x c) (fun z => leaky_relu_derivv z c) ∧
    Lifts Loc.m (fun x => leaky_relu_derivr x c) (fun z => leaky_relu_derivm z c) :=
  ⟨leaky_relu_normv_lifts c, leaky_relu_normm_lifts c, leaky_relu_derivv_lifts c, leaky_relu_derivm_lifts c⟩

/-- **C45.** `elu` and its derivative on vectors and matrices. -/
theorem C45_elu (c : ℝ) :
    Lifts Loc.v (fun x => elu_normr x c) (fun z => elu_normv z c) ∧
    Lifts Loc.m (fun x => elu_normr x c) (fun z => elu_normm z c) ∧
    Lifts Loc.v (fun x => elu_derivr x c) (fun z => elu_derivv z c) ∧
    Lifts Loc.m (fun x => elu_derivr x c) (fun z => elu_derivm z c) :=
  ⟨elu_normv_lifts c, elu_normm_lifts c, elu_derivv_lifts c, elu_derivm_lifts c⟩

/-- **C45.** `selu` and its derivative on vectors and matrices. -/
theorem C45_selu (lambda c : ℝ) :
    Lifts Loc.v (fun x => selu_normr x lambda c) (fun z => selu_normv z lambda c) ∧
    Lifts Loc.m (fun x => selu_normr x lambda c) (fun z => selu_normm z lambda c) ∧
    Lifts Loc.v (fun x => selu_derivr x lambda c) (fun z => selu_derivv z lambda c) ∧
    Lifts Loc.m (fun x => selu_derivr x lambda c) (fun z => selu_derivm z lambda c) :=
  ⟨selu_normv_lifts lambda c, selu_normm_lifts lambda c, selu_derivv_lifts lambda c, selu_derivm_lifts lambda c⟩

/-- **C45.** `activationr(z, f)` applies the given function to each element. -/
theorem C45_activationr (f : ℝ → ℝ) : Lifts Loc.v f (fun z => activationr z f) := loopV_lifts f

/-! ## What fails -/

section
variable {h : Heap ℝ} {z : Nat}

/-- `softplus_normm` returns null for every matrix: it passes matrices to a function for vectors. -/
theorem C45_softplus_normm_fails (w : h.WF) (lz : h.live (.m z)) : ReturnsVal (softplus_normm (some (.m z))) h none :=
  (softplus_normm_gv lz h w (Keeps.refl _ _)).mono fun _ _ ⟨p, q, r⟩ => ⟨p, q, r⟩

/-- `softsign_normm` returns null for every matrix: it passes matrices to a function for vectors. -/
theorem C45_softsign_normm_fails (w : h.WF) (lz : h.live (.m z)) : ReturnsVal (softsign_normm (some (.m z))) h none :=
  (softsign_normm_gv lz h w (Keeps.refl _ _)).mono fun _ _ ⟨p, q, r⟩ => ⟨p, q, r⟩

/-- `softsign_derivm` returns null for every matrix: it passes matrices to a function for vectors. -/
theorem C45_softsign_derivm_fails (w : h.WF) (lz : h.live (.m z)) : ReturnsVal (softsign_derivm (some (.m z))) h none :=
  (softsign_derivm_gv lz w h w (Keeps.refl _ _)).mono fun _ _ ⟨p, q, r⟩ => ⟨p, q, r⟩

/-- `swish_normm` returns null for every matrix: it passes matrices to a function for vectors. -/
theorem C45_swish_normm_fails (w : h.WF) (lz : h.live (.m z)) : ReturnsVal (swish_normm (some (.m z))) h none :=
  (swish_normm_gv lz h w (Keeps.refl _ _)).mono fun _ _ ⟨p, q, r⟩ => ⟨p, q, r⟩

/-- `swish_derivm` returns null for every matrix: it passes matrices to a function for vectors. -/
theorem C45_swish_derivm_fails (w : h.WF) (lz : h.live (.m z)) : ReturnsVal (swish_derivm (some (.m z))) h none :=
  (swish_derivm_gv lz h w (Keeps.refl _ _)).mono fun _ _ ⟨p, q, r⟩ => ⟨p, q, r⟩

/-- `artanh_derivm` returns null for every matrix: it passes matrices to a function for vectors. -/
theorem C45_artanh_derivm_fails (w : h.WF) (lz : h.live (.m z)) : ReturnsVal (artanh_derivm (some (.m z))) h none :=
  (artanh_derivm_gv lz h w (Keeps.refl _ _)).mono fun _ _ ⟨p, q, r⟩ => ⟨p, q, r⟩

/-- `arcsch_derivv` returns null for every vector: it passes vectors to a function for matrices. -/
theorem C45_arcsch_derivv_fails (w : h.WF) (lz : h.live (.v z)) : ReturnsVal (arcsch_derivv (some (.v z))) h none :=
  (arcsch_derivv_gv lz w h w (Keeps.refl _ _)).mono fun _ _ ⟨p, q, r⟩ => ⟨p, q, r⟩

/-- `mish_normm` dereferences the null result of `softplus_normm`. -/
theorem C45_mish_normm_fails (w : h.WF) (lz : h.live (.m z)) : mish_normm (some (.m z)) h = .ub :=
  mish_normm_ub lz w (Keeps.refl _ _)

/-- So does `mish_derivm`. -/
theorem C45_mish_derivm_fails (w : h.WF) (lz : h.live (.m z)) : mish_derivm (some (.m z)) h = .ub :=
  mish_derivm_ub lz w (Keeps.refl _ _)
end

/-- `cloglog_derivv` computes `exp(-exp(z))`, not `exp(z - exp(z))`. -/
theorem C45_cloglog_derivv_fails : Lifts Loc.v (fun z => Real.exp (-Real.exp z)) cloglog_derivv := by
  refine Ev.lifts fun h w z l => ?_
  exact (Ev.app1 expnv_lifts (Ev.app1 (scalar_multiplynv_lifts (-1)) (Ev.app1 expnv_lifts (Ev.self l)))).congr
    fun x => by simp

/-- The same for matrices. -/
theorem C45_cloglog_derivm_fails : Lifts Loc.m (fun z => Real.exp (-Real.exp z)) cloglog_derivm := by
  refine Ev.lifts fun h w z l => ?_
  exact (Ev.app1 expnm_lifts (Ev.app1 (scalar_multiplynm_lifts (-1)) (Ev.app1 expnm_lifts (Ev.self l)))).congr
    fun x => by simp

/-- The two differ except where `exp(z) = 1`. -/
theorem C45_cloglog_differ_fails {z : ℝ} (hz : z ≠ 0) : Real.exp (-Real.exp z) ≠ cloglog_derivr z := by
  intro e
  have := Real.exp_injective e
  exact hz (by linarith)

/-! ## C49: the `deriv` flag -/

/-- `run_activation_vector(f, z, deriv = true)` evaluates the function and `deriv = false` its derivative, for every `f`
and every argument. -/
theorem C49_vector_fails (f : Fn) (z : Ref) :
    run_activation_vector f z true = normVector f z ∧ run_activation_vector f z false = derivVector f z := ⟨rfl, rfl⟩

/-- The same for matrices. -/
theorem C49_matrix_fails (fuel : Nat) (f : Fn) (z : Ref) :
    run_activation_matrix fuel f z true = normMatrix f z ∧ run_activation_matrix fuel f z false = derivMatrix fuel f z :=
  ⟨rfl, rfl⟩

/-- For real numbers the flag has no effect: both settings evaluate the function. -/
theorem C49_real_fails (f : Fn) (z : ℝ) (deriv : Bool) : run_activation_real f z deriv = normReal f z := by
  cases deriv <;> cases f <;> rfl

/-- Concretely: with `deriv = true`, the linear activation returns a copy of its argument instead of ones. -/
theorem C49_linear_fails {h : Heap ℝ} (w : h.WF) {z : Nat} (l : h.live (.v z)) :
    ReturnsNew Loc.v (run_activation_vector .linear (some (.v z)) true) h (h.size (.v z)) (h.buf (.v z)) ∧
    ReturnsNew Loc.v (run_activation_vector .linear (some (.v z)) false) h (h.size (.v z)) ((h.buf (.v z)).map fun _ => 1) := by
  have := linear_normv_lifts h w z l
  rw [show linear_normr = id from rfl, List.map_id] at this
  exact ⟨this, linear_derivv_lifts h w z l⟩

/-- **C49** (part). Negating the flag gives what is asked for: for the element-wise activations other than cloglog and
arcsch, `run_activation_vector(f, z, !deriv)` is the derivative of `f` at each element if `deriv`, else `f`. -/
theorem C49_vector_partial (f : Fn) (hf : Elementwise f) (hb : f ∉ [Fn.cloglog, Fn.arcsch]) (deriv : Bool) :
    Lifts Loc.v (if deriv then ownDerivReal f else normReal f) (fun z => run_activation_vector f z (!deriv)) := by
  cases deriv
  · exact C45_norm_vector f hf
  · exact C45_deriv_vector_partial f hf hb

/-! ## Non-vacuity -/

example : Lifts Loc.m Real.tanh tanh_normm := by
  have := C45_norm_matrix_partial .tanh trivial (by simp)
  rwa [show normReal .tanh = Real.tanh from funext tanh_normr_eq] at this

end Verif
