import Verif.Lemmas.GlmMath
import Verif.Lemmas.Example
import Mathlib.LinearAlgebra.Matrix.Notation

/-! # An object with three samples of two columns, for the examples about the linear models -/

namespace Verif
open Spec

/-- The inputs. -/
def exX : Matrix (Fin 3) (Fin 2) ℝ := !![1, 2; 3, 4; 5, 6]
/-- The outputs. -/
def exY : Fin 3 → ℝ := ![1, 0, 1]
/-- The weights and the bias. -/
noncomputable def exθ : Params 2 := (![7, 8], 9)
/-- The heap: outputs, weights, predictions, another vector; inputs. -/
noncomputable def glmHeap : Heap ℝ := Heap.ofLists 0 [[1, 0, 1], [7, 8], [0, 0, 0], [5, -5]] [(2, 3, [1, 2, 3, 4, 5, 6])]
/-- The object. -/
noncomputable def exGlm (r : Reg.Kind) : Glm := ⟨true, some (.m 0), some (.v 0), none, some (.v 2), some (.v 1), 9, r, 0, 0, 3, 2⟩

theorem exReady (r : Reg.Kind) : Ready (exGlm r) glmHeap exX exY exθ := by
  unfold exGlm glmHeap exX exY exθ
  refine ⟨Heap.ofLists_wf _ _ _ (by simp), rfl, rfl, ⟨0, rfl, ?_, ?_⟩, ⟨0, rfl, ?_, ?_⟩, ⟨1, rfl, ?_, ?_⟩, rfl, by simp⟩
  · simp [Heap.ofLists, Heap.live, Loc.id]
  · refine ⟨by simp [Heap.ofLists], fun i j => ?_⟩
    fin_cases i <;> fin_cases j <;> simp [Heap.ofLists]
  · simp [Heap.ofLists, Heap.live, Loc.id]
  · exact ⟨by simp [Heap.ofLists], fun i => by fin_cases i <;> simp [Heap.ofLists]⟩
  · simp [Heap.ofLists, Heap.live, Loc.id]
  · exact ⟨by simp [Heap.ofLists], fun i => by fin_cases i <;> simp [Heap.ofLists]⟩

theorem exShown (r : Reg.Kind) : HasV glmHeap (exGlm r).y_hat (![0, 0, 0] : Fin 3 → ℝ) := by
  refine ⟨2, rfl, ?_, ?_⟩
  · simp [glmHeap, Heap.ofLists, Heap.live, Loc.id]
  · exact ⟨by simp [glmHeap, Heap.ofLists], fun i => by fin_cases i <;> simp [glmHeap, Heap.ofLists]⟩

theorem exSample : HasV glmHeap (some (.v 3)) (![5, -5] : Fin 2 → ℝ) := by
  refine ⟨3, rfl, ?_, ?_⟩
  · simp [glmHeap, Heap.ofLists, Heap.live, Loc.id]
  · exact ⟨by simp [glmHeap, Heap.ofLists], fun i => by fin_cases i <;> simp [glmHeap, Heap.ofLists]⟩

end Verif
