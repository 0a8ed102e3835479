import Verif.Model.NumAnalysis
import Verif.Lemmas.LinAlgMatrix
import Verif.Lemmas.Advance
import Verif.Lemmas.Softmax

/-! # Callbacks, perturbed copies -/

namespace Verif
open Spec NumAnalysis
variable {R : Type} {n : Nat}

theorem Runs.andThen {α β : Type} {m : M R α} {k : α → M R β} {h : Heap R} {P : α → Heap R → Prop} {Q : β → Heap R → Prop}
    (r : Runs m h P) (s : ∀ a h', P a h' → Runs (k a) h' Q) : Runs (m >>= k) h Q := Runs.bind (r.mono s)

theorem Spec.IsVec.vec_eq {h : Heap R} (w : h.WF) {o : Nat} {v : Fin n → R} (a : IsVec h o v) : h.vec o = List.ofFn v := by
  have hl : (h.buf (.v o)).length = n := by rw [w.len, a.1, count_vec]
  refine List.ext_getElem? fun i => ?_
  by_cases hi : i < n
  · rw [List.getElem?_ofFn, dif_pos hi]; exact a.2 ⟨i, hi⟩
  · unfold Heap.vec
    rw [List.getElem?_eq_none (show (h.buf (.v o)).length ≤ i by omega), List.getElem?_eq_none (by simpa using not_lt.mp hi)]

theorem isVec_of_vec {h : Heap R} (w : h.WF) {o : Nat} {v : Fin n → R} (e : h.vec o = List.ofFn v) : IsVec h o v := by
  have hs := w.vsize o
  refine ⟨by rw [hs, e, List.length_ofFn], fun i => ?_⟩
  show (h.vec o)[i.val]? = _
  rw [e, List.getElem?_ofFn, dif_pos i.isLt]

theorem callV_run {h : Heap ℝ} (w : h.WF) (f : List ℝ → ℝ) {o : Nat} {v : Fin n → ℝ} (a : IsVec h o v) :
    callV f o h = .ok (f (List.ofFn v), h) := by
  unfold callV
  rw [bind_ok (Vec.get_data_run w o), a.vec_eq w]; rfl

theorem Vec.index_get_run {h : Heap R} (w : h.WF) {o i : Nat} {x : R} (e : (h.vec o)[i]? = some x) : Vec.index_get o (i : Int) h = .ok (x, h) := by
  have hlt : i < (h.vec o).length := (List.getElem?_eq_some_iff.mp e).1
  unfold Vec.index_get
  rw [bind_ok (Vec.size_run w o), if_pos (idxOk_nat hlt), Int.toNat_natCast]
  exact load_ok e

theorem bump_run {h : Heap ℝ} (w : h.WF) {o : Nat} {v : Fin n → ℝ} (a : IsVec h o v) (eps : ℝ) (i : Fin n) :
    Runs (bump o eps (i : Nat)) h fun _ h' => h'.WF ∧ Keeps h h' (· = .v o) ∧ h'.next = h.next ∧ IsVec h' o (v + Pi.single i eps) := by
  have hl : (h.vec o).length = n := by rw [a.vec_eq w, List.length_ofFn]
  unfold bump
  refine Runs.step (Vec.size_run w o) ?_
  rw [if_pos (idxOk_nat (by omega)), Int.toNat_natCast]
  refine Runs.step (load_ok (a.2 i)) ?_
  have u := updated_setBuf h (.v o) ((h.buf (.v o)).set i (v i + eps))
  have w' := u.wf w (by rw [List.length_set, w.len]) (fun _ _ => w.vec o) nofun
  refine Runs.of_eq (store_ok _ (show i.val < (h.buf (.v o)).length from hl ▸ i.isLt)) ⟨w', u.keeps, rfl, a.1, fun j => ?_⟩
  rw [setBuf_buf_same, List.getElem?_set]
  by_cases e : i = j
  · subst e
    have : i.val < (h.buf (.v o)).length := hl ▸ i.isLt
    simp [this]
  · have : i.val ≠ j.val := fun q => e (Fin.ext q)
    rw [if_neg this, a.2 j]
    simp [Ne.symm e]

theorem bumps_run (eps : ℝ) (o : Nat) : ∀ (axes : List (Fin n)) {h : Heap ℝ} (_ : h.WF) {v : Fin n → ℝ} (_ : IsVec h o v),
    Runs (bumps o eps (axes.map fun a => ((a : Nat) : Int))) h fun _ h' => h'.WF ∧ Keeps h h' (· = .v o) ∧ h'.next = h.next ∧
      IsVec h' o (axes.foldl (fun u a => u + Pi.single a eps) v)
  | [], h, w, v, a => Runs.of_eq (a := ()) (h' := h) rfl ⟨w, Keeps.refl _ _, rfl, a⟩
  | i :: is, h, w, v, a => by
    show Runs (do bump o eps (i : Nat); bumps o eps (is.map fun a => ((a : Nat) : Int))) h _
    refine (bump_run w a eps i).andThen fun _ h1 ⟨w1, k1, n1, a1⟩ => ?_
    refine (bumps_run eps o is w1 a1).mono fun _ h2 ⟨w2, k2, n2, a2⟩ => ⟨w2, k1.trans k2, n2.trans n1, a2⟩

theorem perturbed_run {h : Heap ℝ} (w : h.WF) {o : Nat} {v : Fin n → ℝ} (a : IsVec h o v) (l : h.live (.v o)) (eps : ℝ) (axes : List (Fin n)) :
    Runs (perturbed o eps (axes.map fun a => ((a : Nat) : Int))) h fun d h' => h'.WF ∧ Keeps h h' (fun _ => False) ∧ ¬ h.live (.v d) ∧
      h'.live (.v d) ∧ IsVec h' d (axes.foldl (fun u a => u + Pi.single a eps) v) := by
  unfold perturbed
  refine (Vec.dup_spec w a l).bind fun d h1 w1 k1 f1 l1 a1 => ?_
  refine Runs.step (derefV_run d h1) ?_
  refine (bumps_run eps d axes w1 a1).andThen fun _ h2 ⟨w2, k2, n2, a2⟩ => ?_
  refine Runs.of_eq (a := d) (h' := h2) rfl ⟨w2, ?_, f1, k2.live l1, a2⟩
  refine ⟨k1.1.trans k2.1, fun l hl _ => ?_⟩
  obtain ⟨p, q⟩ := k1.2 l hl nofun
  obtain ⟨p', q'⟩ := k2.2 l (k1.live hl) (by rintro rfl; exact f1 hl)
  exact ⟨p'.trans p, q'.trans q⟩

theorem num_diffv_run {h : Heap ℝ} (w : h.WF) (f : List ℝ → ℝ) {o : Nat} {v : Fin n → ℝ} (a : IsVec h o v) (l : h.live (.v o)) (i : Fin n) :
    ReturnsVal (num_diffv f (some (.v o)) (i : Nat)) h
      ((f (List.ofFn (v + Pi.single i 1e-10)) - f (List.ofFn v)) / 1e-10) := by
  unfold num_diffv
  refine Runs.step (derefV_run o h) ?_
  refine (perturbed_run w a l 1e-10 [i]).andThen fun d h1 ⟨w1, k1, f1, l1, a1⟩ => ?_
  advance k1
  refine Runs.step (callV_run w1 f a1) (Runs.step (callV_run w1 f a) ?_)
  exact Runs.of_eq rfl ⟨rfl, w1, k1⟩

theorem num_diff_2v_run {h : Heap ℝ} (w : h.WF) (f : List ℝ → ℝ) {o : Nat} {v : Fin n → ℝ} (a : IsVec h o v) (l : h.live (.v o))
    (i j : Fin n) : ReturnsVal (num_diff_2v f (some (.v o)) (i : Nat) (j : Nat)) h
      ((f (List.ofFn (v + Pi.single i 1e-5 + Pi.single j 1e-5)) - f (List.ofFn (v + Pi.single j 1e-5)) -
        f (List.ofFn (v + Pi.single i 1e-5)) + f (List.ofFn v)) / (1e-5 * 1e-5)) := by
  have kp := Keeps.refl h (fun _ => False)
  unfold num_diff_2v
  refine Runs.step (derefV_run o h) ?_
  refine (perturbed_run w a l 1e-5 [i, j]).andThen fun d1 h1 ⟨w1, k1, f1, l1, a1⟩ => ?_
  advance k1
  refine (perturbed_run w1 a l 1e-5 [j]).andThen fun d2 h2 ⟨w2, k2, f2, l2, a2⟩ => ?_
  advance k2
  refine (perturbed_run w2 a l 1e-5 [i]).andThen fun d3 h3 ⟨w3, k3, f3, l3, a3⟩ => ?_
  advance k3
  refine Runs.step (callV_run w3 f a1) (Runs.step (callV_run w3 f a2) (Runs.step (callV_run w3 f a3) (Runs.step (callV_run w3 f a) ?_)))
  exact Runs.of_eq rfl ⟨rfl, w3, kp⟩

theorem num_diff_3v_run {h : Heap ℝ} (w : h.WF) (f : List ℝ → ℝ) {o : Nat} {v : Fin n → ℝ} (a : IsVec h o v) (l : h.live (.v o))
    (i j k : Fin n) : ReturnsVal (num_diff_3v f (some (.v o)) (i : Nat) (j : Nat) (k : Nat)) h
      (((f (List.ofFn (v + Pi.single i 1e-5 + Pi.single j 1e-5 + Pi.single k 1e-5)) - f (List.ofFn (v + Pi.single j 1e-5 + Pi.single k 1e-5)) -
        f (List.ofFn (v + Pi.single i 1e-5 + Pi.single k 1e-5)) + f (List.ofFn (v + Pi.single k 1e-5))) -
        (f (List.ofFn (v + Pi.single i 1e-5 + Pi.single j 1e-5)) - f (List.ofFn (v + Pi.single j 1e-5)) -
        f (List.ofFn (v + Pi.single i 1e-5)) + f (List.ofFn v))) / (1e-5 * 1e-5 * 1e-5)) := by
  have kp := Keeps.refl h (fun _ => False)
  unfold num_diff_3v
  refine Runs.step (derefV_run o h) ?_
  refine (perturbed_run w a l 1e-5 [i, j, k]).andThen fun d1 h1 ⟨w1, k1, f1, l1, a1⟩ => ?_
  advance k1
  refine (perturbed_run w1 a l 1e-5 [j, k]).andThen fun d2 h2 ⟨w2, k2, f2, l2, a2⟩ => ?_
  advance k2
  refine (perturbed_run w2 a l 1e-5 [i, k]).andThen fun d3 h3 ⟨w3, k3, f3, l3, a3⟩ => ?_
  advance k3
  refine (perturbed_run w3 a l 1e-5 [k]).andThen fun d4 h4 ⟨w4, k4, f4, l4, a4⟩ => ?_
  advance k4
  refine (perturbed_run w4 a l 1e-5 [i, j]).andThen fun d5 h5 ⟨w5, k5, f5, l5, a5⟩ => ?_
  advance k5
  refine (perturbed_run w5 a l 1e-5 [j]).andThen fun d6 h6 ⟨w6, k6, f6, l6, a6⟩ => ?_
  advance k6
  refine (perturbed_run w6 a l 1e-5 [i]).andThen fun d7 h7 ⟨w7, k7, f7, l7, a7⟩ => ?_
  advance k7
  refine Runs.step (callV_run w7 f a1) (Runs.step (callV_run w7 f a2) (Runs.step (callV_run w7 f a3) (Runs.step (callV_run w7 f a4) ?_)))
  refine Runs.step (callV_run w7 f a5) (Runs.step (callV_run w7 f a6) (Runs.step (callV_run w7 f a7) (Runs.step (callV_run w7 f a) ?_)))
  exact Runs.of_eq rfl ⟨rfl, w7, kp⟩

end Verif
