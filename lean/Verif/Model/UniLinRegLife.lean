import Verif.Model.Simple

/-! # The setters and getters of `MLPPUniLinReg` (modules/uni_lin_reg/uni_lin_reg.cpp); histories of calls -/

namespace Verif.UniLinReg
noncomputable section

/-- `MLPPUniLinReg()`, uni_lin_reg.cpp:92-95. -/
def blank : UniLinReg := ⟨none, none, 0, 0⟩

/-- `set_input_set(val)`, uni_lin_reg.cpp:43-45. -/
def set_input_set (s : UniLinReg) (val : Option Nat) : UniLinReg := { s with input_set := val }
/-- `set_output_set(val)`, uni_lin_reg.cpp:50-52. -/
def set_output_set (s : UniLinReg) (val : Option Nat) : UniLinReg := { s with output_set := val }
/-- `set_b0(val)`, uni_lin_reg.cpp:57-59. -/
def set_b0 (s : UniLinReg) (val : ℝ) : UniLinReg := { s with b0 := val }
/-- `set_b1(val)`, uni_lin_reg.cpp:64-66. -/
def set_b1 (s : UniLinReg) (val : ℝ) : UniLinReg := { s with b1 := val }

/-- `get_input_set()`, uni_lin_reg.cpp:40-42. -/
def get_input_set (s : UniLinReg) : Option Nat := s.input_set
/-- `get_output_set()`, uni_lin_reg.cpp:47-49. -/
def get_output_set (s : UniLinReg) : Option Nat := s.output_set
/-- `get_b0()`, uni_lin_reg.cpp:54-56. -/
def get_b0 (s : UniLinReg) : ℝ := s.b0
/-- `get_b1()`, uni_lin_reg.cpp:61-63. -/
def get_b1 (s : UniLinReg) : ℝ := s.b1

/-- A call on an object: of a setter, or of `train`. -/
inductive Call where
  | set_input_set (val : Option Nat)
  | set_output_set (val : Option Nat)
  | set_b0 (val : ℝ)
  | set_b1 (val : ℝ)
  | train

/-- What a call does to the object. -/
def call (s : UniLinReg) : Call → M ℝ UniLinReg
  | .set_input_set v => pure (UniLinReg.set_input_set s v)
  | .set_output_set v => pure (UniLinReg.set_output_set s v)
  | .set_b0 v => pure (UniLinReg.set_b0 s v)
  | .set_b1 v => pure (UniLinReg.set_b1 s v)
  | .train => UniLinReg.train s

/-- A history of calls. -/
def run (s : UniLinReg) : List Call → M ℝ UniLinReg
  | [] => pure s
  | c :: hist => do
    let s ← call s c
    run s hist

end
end Verif.UniLinReg
