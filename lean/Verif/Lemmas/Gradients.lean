import Verif.Lemmas.Convolutions

/-! # Image gradients -/

namespace Verif
open Spec SortArray Convolutions
variable {m n F : Nat}

/-- What `dx` computes: the slope, except in the column whose number is the number of rows less one. -/
noncomputable def codeDx (A : Matrix (Fin m) (Fin n) ℝ) : Matrix (Fin m) (Fin n) ℝ := fun i j =>
  if j.val ≠ 0 ∧ (j.val : Int) = m - 1 then - ext A i.val (j.val - 1) else slopeX A i j

theorem codeDx_eq (A : Matrix (Fin m) (Fin n) ℝ) (hn : n ≤ m) : codeDx A = slopeX A := by
  funext i j
  unfold codeDx
  split_ifs with c
  · unfold slopeX
    rw [ext_out (i := (i.val : Int)) (j := (j.val : Int) + 1) (by have := j.2; omega)]; ring
  · rfl

theorem fillNew {h : Heap ℝ} (w : h.WF) {g : Fin m → Fin n → ℝ} (get : Nat → Nat → M ℝ ℝ)
    (hg : ∀ (i : Fin m) (j : Fin n) (h' : Heap ℝ), h'.WF → Keeps h h' (fun _ => False) → ReturnsVal (get i j) h' (g i j)) :
    ReturnsMat (do
      let o ← newMat
      resizeTo o ⟨n, m, 1⟩
      forN m fun i => forN n fun j => do
        let d ← get i j
        Mat.element_set o.id (i : Int) (j : Int) d
      pure (some o)) h (Matrix.of g) := by
  refine Runs.newM w fun h1 w1 k1 f1 l1 s1 => ?_
  generalize h.next = q at *
  refine Runs.resizeM w1 rfl fun h2 w2 k2 n2 s2 _ => ?_
  have kk : Keeps h h2 (fun _ => False) := k1.newer k2 (by rintro l rfl; exact f1)
  refine (fillMat_run (g := g) f1 w2 kk (k2.live l1) s2 get ?_).andThen fun _ h3 ⟨w3, k3, _, l3, a3⟩ => ?_
  · intro i j h' w' k'; exact hg i j h' w' k'
  · exact Runs.of_eq rfl ⟨q, rfl, f1, l3, w3, k3, a3⟩

theorem dx_run {h : Heap ℝ} (w : h.WF) {a : Nat} {A : Matrix (Fin m) (Fin n) ℝ} (hA : IsMat h a A) (la : h.live (.m a)) :
    ReturnsMat (dx (some (.m a))) h (codeDx A) := by
  unfold dx
  refine Runs.step (derefM_run a h) (Runs.step (size_mat hA) ?_)
  dsimp only
  refine fillNew w (g := codeDx A) (dxCell a ⟨n, m, 1⟩) fun i j h' w' k' => Runs.of_eq ?_ ⟨rfl, w', Keeps.refl _ _⟩
  have a' := hA.keep k' la nofun
  unfold dxCell codeDx slopeX
  dsimp only
  by_cases c : j.val = 0
  · rw [if_neg (by omega), if_pos c, if_neg (by omega), Mat.element_get_ext a',
      ext_out (i := (i.val : Int)) (j := (j.val : Int) - 1) (by omega), sub_zero]
  by_cases c2 : (j.val : Int) = m - 1
  · rw [if_neg (by omega), if_neg c, if_pos ⟨c, c2⟩, bind_ok (Mat.element_get_ext a' _ _)]; rfl
  · rw [if_pos ⟨c, c2⟩, if_neg (by omega), bind_ok (Mat.element_get_ext a' _ _), bind_ok (Mat.element_get_ext a' _ _)]; rfl

theorem dy_run {h : Heap ℝ} (w : h.WF) {a : Nat} {A : Matrix (Fin m) (Fin n) ℝ} (hA : IsMat h a A) (la : h.live (.m a)) :
    ReturnsMat (dy (some (.m a))) h (slopeY A) := by
  unfold dy
  refine Runs.step (derefM_run a h) (Runs.step (size_mat hA) ?_)
  dsimp only
  refine fillNew w (g := slopeY A) (dyCell a ⟨n, m, 1⟩) fun i j h' w' k' => Runs.of_eq ?_ ⟨rfl, w', Keeps.refl _ _⟩
  have a' := hA.keep k' la nofun
  unfold dyCell slopeY
  dsimp only
  by_cases c : i.val = 0
  · rw [if_neg (by omega), if_pos c, bind_ok (Mat.element_get_ext a' _ _),
      ext_out (i := (i.val : Int) - 1) (j := (j.val : Int)) (by omega), zero_sub]; rfl
  by_cases c2 : (i.val : Int) = m - 1
  · rw [if_neg (by omega), if_neg c, Mat.element_get_ext a', ext_out (i := (i.val : Int) + 1) (j := (j.val : Int)) (by omega), sub_zero]
  · rw [if_pos ⟨c, c2⟩, bind_ok (Mat.element_get_ext a' _ _), bind_ok (Mat.element_get_ext a' _ _)]; rfl

theorem dx_spec {h : Heap ℝ} (w : h.WF) {a : Ref} {A : Matrix (Fin m) (Fin n) ℝ} (hA : HasM h a A) : ReturnsMat (dx a) h (codeDx A) := by
  obtain ⟨a, rfl, la, hA⟩ := hA; exact dx_run w hA la

theorem dy_spec {h : Heap ℝ} (w : h.WF) {a : Ref} {A : Matrix (Fin m) (Fin n) ℝ} (hA : HasM h a A) : ReturnsMat (dy a) h (slopeY A) := by
  obtain ⟨a, rfl, la, hA⟩ := hA; exact dy_run w hA la

theorem had_spec {h : Heap ℝ} (w : h.WF) {a b : Ref} {A B : Matrix (Fin m) (Fin n) ℝ} (ha : HasM h a A) (hb : HasM h b B) :
    ReturnsMat (had a b) h (Matrix.of fun i j => A i j * B i j) := by
  obtain ⟨a, rfl, la, hA⟩ := ha
  obtain ⟨b, rfl, lb, hB⟩ := hb
  exact Runs.step (derefM_run a h) (Mat.bin_spec (· * ·) w hA hB la lb)

theorem subm_spec {h : Heap ℝ} (w : h.WF) {a b : Ref} {A B : Matrix (Fin m) (Fin n) ℝ} (ha : HasM h a A) (hb : HasM h b B) :
    ReturnsMat (subm a b) h (A - B) := by
  obtain ⟨a, rfl, la, hA⟩ := ha
  obtain ⟨b, rfl, lb, hB⟩ := hb
  exact Runs.step (derefM_run a h) (Mat.bin_spec (· - ·) w hA hB la lb)

theorem Mat.un_spec {R : Type} {h : Heap R} (f : R → R) (w : h.WF) {a : Nat} {A : Matrix (Fin m) (Fin n) R}
    (hu : IsMat h a A) (la : h.live (.m a)) : ReturnsMat (unN f (.m a)) h (A.map f) := by
  obtain ⟨F, eF, cu⟩ := hu.cells w
  obtain ⟨h', e, c⟩ := unN_run f (.m a) h (w.len _) la
  rw [cu.1, cu.2, show List.map f (SortArray.tab (n * m) (flat n F)) =
    SortArray.tab (n * m) (flat n fun i j => f (F i j)) by apply List.ext_getElem <;> simp [SortArray.tab, flat]] at c
  exact created_returnsMat w e c (fun i j => by rw [Matrix.map_apply, eF])

theorem grad_magnitude_run {h : Heap ℝ} (w : h.WF) {a : Ref} {A : Matrix (Fin m) (Fin n) ℝ} (hA : HasM h a A) :
    ReturnsMat (grad_magnitude a) h (Matrix.of fun i j => Real.sqrt (codeDx A i j ^ 2 + slopeY A i j ^ 2)) := by
  apply ReturnsMat.of_has
  unfold grad_magnitude
  refine stepM (dx_spec w hA) fun r1 h1 w1 k1 f1 a1 => ?_
  refine stepM (dx_spec w1 (adv_hasm k1 hA)) fun r2 h2 w2 k2 f2 a2 => ?_
  have k02 := k1.trans k2
  refine stepM (had_spec w2 (adv_hasm k2 a1) a2) fun r3 h3 w3 k3 f3 a3 => ?_
  have k03 := k02.trans k3
  refine stepM (dy_spec w3 (adv_hasm k03 hA)) fun r4 h4 w4 k4 f4 a4 => ?_
  refine stepM (dy_spec w4 (adv_hasm (k03.trans k4) hA)) fun r5 h5 w5 k5 f5 a5 => ?_
  refine stepM (had_spec w5 (adv_hasm k5 a4) a5) fun r6 h6 w6 k6 f6 a6 => ?_
  refine stepM (Hd.addnm_spec w6 (adv_hasm ((k4.trans k5).trans k6) a3) a6) fun r7 h7 w7 k7 f7 a7 => ?_
  have k07 := (((k03.trans k4).trans k5).trans k6).trans k7
  obtain ⟨o, rfl, lo, ho⟩ := a7
  refine Runs.step (derefM_run o h7) ?_
  refine (Mat.un_spec _ w7 ho lo).has.mono fun r h8 ⟨w8, k8, f8, a8⟩ => ⟨w8, k07.trans k8, f8.mono k07, ?_⟩
  convert a8 using 1
  funext i j
  simp only [Matrix.of_apply, Matrix.map_apply, Matrix.add_apply, sq]
  rfl

theorem grad_orientation_run {h : Heap ℝ} (w : h.WF) {a : Ref} {A : Matrix (Fin m) (Fin n) ℝ} (hA : HasM h a A) :
    ReturnsMat (grad_orientation a) h (Matrix.of fun i j => atan2 (slopeY A i j) (codeDx A i j)) := by
  unfold grad_orientation
  refine Runs.newM w fun h1 w1 k1 f1 l1 s1 => ?_
  generalize h.next = q at *
  refine Runs.step (Hd.sizem_run (adv_hasm k1 hA)) ?_
  refine Runs.resizeM w1 rfl fun h2 w2 k2 n2 s2 _ => ?_
  have k02 : Keeps h h2 (fun _ => False) := k1.newer k2 (by rintro l rfl; exact f1)
  refine Runs.step (show Mat.size (Loc.m q).id h2 = .ok (⟨n, m, 1⟩, h2) by rw [Mat.size_run]; exact congrArg (fun s => Out.ok (s, h2)) s2) ?_
  have l2 := k2.live l1
  refine stepM (dx_spec w2 (adv_hasm k02 hA)) fun r3 h3 w3 k3 f3 a3 => ?_
  have k03 := k02.trans k3
  refine stepM (dy_spec w3 (adv_hasm k03 hA)) fun r4 h4 w4 k4 f4 a4 => ?_
  have k04 := k03.trans k4
  have k24 := k3.trans k4
  have a3' := adv_hasm k4 a3
  have f3' : NotIn h r3 := f3.mono k02
  have g3 : ¬ r3 = some (.m q) := fun e => f3 _ e l2
  have g4 : ¬ r4 = some (.m q) := fun e => f4 _ e (k3.live l2)
  obtain ⟨x, rfl, lx, hx⟩ := a3'
  obtain ⟨y, rfl, ly, hy⟩ := a4
  refine Runs.step (derefM_run x h4) (Runs.step (derefM_run y h4) ?_)
  have s4 : h4.size (.m q) = ⟨n, m, 1⟩ := by rw [(k24.2 _ l2 nofun).2]; exact s2
  obtain ⟨f, hf⟩ := exists_Cells w4 s4
  refine (Runs.cells2 (l := .m q) (c := n) (r := m) m n (fun h' => h'.WF ∧ Keeps h4 h' (· = .m q))
    (fun i j => if hi : i < m ∧ j < n then atan2 (slopeY A ⟨i, hi.1⟩ ⟨j, hi.2⟩) (codeDx A ⟨i, hi.1⟩ ⟨j, hi.2⟩) else f i j) _ ⟨w4, Keeps.refl _ _⟩ hf ?_).andThen ?_
  · intro i j h5 f' hi hj ⟨w5, k5⟩ c5
    have ey := Mat.element_get_ext (hy.keep k5 ly fun e => g4 (congrArg some e)) i j
    have ex := Mat.element_get_ext (hx.keep k5 lx fun e => g3 (congrArg some e)) i j
    rw [ext_in (A := slopeY A) ⟨i, hi⟩ ⟨j, hj⟩] at ey
    rw [ext_in (A := codeDx A) ⟨i, hi⟩ ⟨j, hj⟩] at ex
    refine Runs.step ey (Runs.step ex ?_)
    refine (Mat.set_cells w5 c5 hi hj _).mono fun _ h6 ⟨w6, k6, n6, c6⟩ => ⟨⟨w6, k5.trans k6⟩, ?_⟩
    rw [dif_pos ⟨hi, hj⟩]; exact c6
  · rintro _ h5 ⟨⟨w5, k5⟩, c5⟩
    exact Runs.of_eq rfl ⟨q, rfl, f1, k5.live (k24.live l2), w5, k04.newer k5 (by rintro l rfl; exact f1), c5.isMat fun i j => by simp⟩

/-! ## Gaussian filters -/

theorem gaussian_filter_run {h : Heap ℝ} (w : h.WF) (N : Nat) (std : ℝ) :
    ReturnsMat (gaussian_filter_2d (N : Int) std) h (Matrix.of fun i j : Fin N =>
      gaussian_2d (((i.val : Int) - ((N : Int) - 1).tdiv 2 : Int) : ℝ) ((((N : Int) - 1).tdiv 2 - (j.val : Int) : Int) : ℝ) std) := by
  unfold gaussian_filter_2d
  rw [Int.toNat_natCast]
  refine (fillNew w (g := fun i j : Fin N =>
      gaussian_2d (((i.val : Int) - ((N : Int) - 1).tdiv 2 : Int) : ℝ) ((((N : Int) - 1).tdiv 2 - (j.val : Int) : Int) : ℝ) std)
      (fun i j => pure (gaussian_2d (((i : Int) - ((N : Int) - 1).tdiv 2 : Int) : ℝ) ((((N : Int) - 1).tdiv 2 - (j : Int) : Int) : ℝ) std))
      fun i j h' w' k' => Runs.of_eq rfl ⟨rfl, w', Keeps.refl _ _⟩).congr ?_
  simp only [pure_bind, resizeMat_nat]

end Verif
