import Verif.Lemmas.Gradients
import Verif.Lemmas.Pool

/-! # Structure tensor and Harris corners -/

namespace Verif
open Spec SortArray Convolutions
variable {m n F : Nat}

theorem Spec.NotIn.neM {R : Type} {h : Heap R} {r q : Ref} (a : NotIn h r) {A : Matrix (Fin m) (Fin n) R} (b : HasM h q A) : q ≠ r := by
  obtain ⟨o, rfl, l, -⟩ := b
  rintro rfl
  exact a _ rfl l

theorem start_one (i : Nat) : start 1 i = i := by unfold start; split_ifs <;> omega

theorem smooth_spec {h : Heap ℝ} (w : h.WF) {a b : Ref} {A : Matrix (Fin m) (Fin m) ℝ} (hm : 1 ≤ m) (hA : HasM h a A)
    (hG : HasM h b gauss3) : ReturnsMat (convolve_2d a b 1 1) h (smooth A) := by
  obtain ⟨a, rfl, la, hA⟩ := hA
  obtain ⟨b, rfl, lb, hb⟩ := hG
  have := convolve_2d_run w hA la hb lb (S := 1) (P := 1) (L := m) le_rfl (by omega) (by omega)
  simp only [Nat.cast_one, start_one] at this
  exact this

theorem gauss3_spec {h : Heap ℝ} (w : h.WF) : ReturnsMat (gaussian_filter_2d 3 1) h gauss3 := by
  have := gaussian_filter_run w 3 1
  rw [Nat.cast_ofNat] at this
  refine cast (congrArg _ ?_) this
  funext i j
  simp only [Matrix.of_apply, gauss3, gaussian_2d]
  congr 2
  · ring
  · norm_num
    ring

theorem compute_mv_run {h : Heap ℝ} (w : h.WF) {a : Ref} {A : Matrix (Fin m) (Fin m) ℝ} (hm : 1 ≤ m) (hA : HasM h a A) :
    Runs (compute_mv a) h fun q h' => h'.WF ∧ Keeps h h' (fun _ => False) ∧ NotIn h q.1 ∧ NotIn h q.2.1 ∧ NotIn h q.2.2 ∧
      HasM h' q.1 (tensorXX A) ∧ HasM h' q.2.1 (tensorYY A) ∧ HasM h' q.2.2 (tensorXY A) ∧ q.1 ≠ q.2.1 ∧ q.1 ≠ q.2.2 ∧ q.2.1 ≠ q.2.2 := by
  unfold compute_mv
  refine Runs.step (Hd.sizem_run hA) ?_
  refine stepM (dx_spec w hA) fun rx h1 w1 k1 f1 ax => ?_
  rw [codeDx_eq A le_rfl] at ax
  refine stepM (dy_spec w1 (adv_hasm k1 hA)) fun ry h2 w2 k2 f2 ay => ?_
  have k02 := k1.trans k2
  replace ax := adv_hasm k2 ax
  refine stepM (gauss3_spec w2) fun rg h3 w3 k3 f3 ag => ?_
  have k03 := k02.trans k3
  replace ax := adv_hasm k3 ax
  replace ay := adv_hasm k3 ay
  refine stepM (had_spec w3 ax ax) fun r4 h4 w4 k4 f4 a4 => ?_
  have k04 := k03.trans k4
  refine stepM (smooth_spec w4 hm a4 (adv_hasm k4 ag)) fun r5 h5 w5 k5 f5 a5 => ?_
  have k35 := k4.trans k5
  replace ax := adv_hasm k35 ax
  replace ay := adv_hasm k35 ay
  replace ag := adv_hasm k35 ag
  have k05 := k04.trans k5
  refine stepM (had_spec w5 ay ay) fun r6 h6 w6 k6 f6 a6 => ?_
  have k06 := k05.trans k6
  refine stepM (smooth_spec w6 hm a6 (adv_hasm k6 ag)) fun r7 h7 w7 k7 f7 a7 => ?_
  have n57 : r5 ≠ r7 := f7.neM (adv_hasm k6 a5)
  have k57 := k6.trans k7
  have k07 := k06.trans k7
  replace ax := adv_hasm k57 ax
  replace ay := adv_hasm k57 ay
  replace ag := adv_hasm k57 ag
  replace a5 := adv_hasm k57 a5
  refine stepM (had_spec w7 ax ay) fun r8 h8 w8 k8 f8 a8 => ?_
  have k08 := k07.trans k8
  have a7' := adv_hasm k8 a7
  refine stepM (smooth_spec w8 hm a8 (adv_hasm k8 ag)) fun r9 h9 w9 k9 f9 a9 => ?_
  have n59 : r5 ≠ r9 := f9.neM (adv_hasm k8 a5)
  have n79 : r7 ≠ r9 := f9.neM a7'
  refine Runs.of_eq rfl ⟨w9, k08.trans k9, f5.mono k04, f7.mono k06, f9.mono k08, ?_, ?_, ?_, ?_, ?_, ?_⟩
  · convert adv_hasm (k8.trans k9) a5 using 1
    unfold tensorXX; congr 1; funext i j; simp [sq]
  · convert adv_hasm k9 a7' using 1
    unfold tensorYY; congr 1; funext i j; simp [sq]
  · exact a9
  · exact n57
  · exact n59
  · exact n79

theorem compute_m_run {h : Heap ℝ} (w : h.WF) {a : Ref} {A : Matrix (Fin m) (Fin m) ℝ} (hm : 1 ≤ m) (hA : HasM h a A) :
    ReturnsTen (compute_m a) h (fun z : Fin 3 => ![tensorXX A, tensorYY A, tensorXY A] z) := by
  unfold compute_m
  refine (compute_mv_run w hm hA).andThen ?_
  rintro ⟨p0, p1, p2⟩ h1 ⟨w1, k1, f0, f1, f2, a0, a1, a2, -, -, -⟩
  dsimp only at f0 f1 f2 a0 a1 a2 ⊢
  refine Runs.step (Hd.sizem_run a0) ?_
  refine Runs.newT w1 fun h2 w2 k2 g2 l2 s2 => ?_
  generalize h1.next = q at *
  refine Runs.resizeT w2 fun h3 w3 k3 n3 s3 _ => ?_
  have k13 : Keeps h1 h3 (fun _ => False) := k2.newer k3 (by rintro l rfl; exact g2)
  have k03 := k1.trans k13
  have g : ¬ h.live (.t q) := fun c => g2 (k1.live c)
  have l3 := k3.live l2
  obtain ⟨p0, rfl, lp0, b0⟩ := adv_hasm k13 a0
  obtain ⟨p1, rfl, lp1, b1⟩ := adv_hasm k13 a1
  obtain ⟨p2, rfl, lp2, b2⟩ := adv_hasm k13 a2
  obtain ⟨G, hG⟩ : ∃ G : Fin 3 → Fin m → Fin m → ℝ, IsTen h3 q G := IsTen.existsOf w3 s3
  refine (Ten.z_slice_set_spec w3 hG (0 : Fin 3) (B := tensorXX A) b0).andThen ?_
  rintro _ h4 ⟨w4, k4, n4, T4⟩
  refine (Ten.z_slice_set_spec w4 T4 (1 : Fin 3) (B := tensorYY A) (b1.keep k4 lp1 nofun)).andThen ?_
  rintro _ h5 ⟨w5, k5, n5, T5⟩
  refine (Ten.z_slice_set_spec w5 T5 (2 : Fin 3) (B := tensorXY A) ((b2.keep k4 lp2 nofun).keep k5 (k4.live lp2) nofun)).andThen ?_
  rintro _ h6 ⟨w6, k6, n6, T6⟩
  refine Runs.of_eq rfl ⟨q, rfl, g, k6.live (k5.live (k4.live l3)), w6, ?_, ?_⟩
  · exact ((k03.newer k4 (by rintro l rfl; exact g)).newer k5 (by rintro l rfl; exact g)).newer k6 (by rintro l rfl; exact g)
  · have e : (fun z : Fin 3 => (![tensorXX A, tensorYY A, tensorXY A] z : Fin m → Fin m → ℝ)) = fun z' : Fin 3 =>
        if z' = 2 then tensorXY A else if z' = 1 then tensorYY A else if z' = 0 then tensorXX A else G z' := by
      funext z
      fin_cases z <;> rfl
    rw [e]
    exact T6

theorem harris_r_run {h : Heap ℝ} (w : h.WF) {a : Ref} {A : Matrix (Fin m) (Fin m) ℝ} (hm : 1 ≤ m) (hA : HasM h a A) :
    ReturnsMat (harris_r a) h (harris A) := by
  apply ReturnsMat.of_has
  unfold harris_r
  refine (compute_mv_run w hm hA).andThen ?_
  rintro ⟨p0, p1, p2⟩ h1 ⟨w1, k1, f0, f1, f2, a0, a1, a2, -, -, -⟩
  dsimp only at f0 f1 f2 a0 a1 a2 ⊢
  refine stepM (had_spec w1 a0 a1) fun r2 h2 w2 k2 f2 b2 => ?_
  refine stepM (had_spec w2 (adv_hasm k2 a2) (adv_hasm k2 a2)) fun r3 h3 w3 k3 f3 b3 => ?_
  refine stepM (subm_spec w3 (adv_hasm k3 b2) b3) fun r4 h4 w4 k4 f4 b4 => ?_
  have k14 := (k2.trans k3).trans k4
  refine stepM (Hd.addnm_spec w4 (adv_hasm k14 a0) (adv_hasm k14 a1)) fun r5 h5 w5 k5 f5 b5 => ?_
  refine stepM (had_spec w5 b5 b5) fun r6 h6 w6 k6 f6 b6 => ?_
  refine stepM (Hd.scalar_multiplynm_spec w6 b6 0.05) fun r7 h7 w7 k7 f7 b7 => ?_
  have k47 := (k5.trans k6).trans k7
  have k07 := (k1.trans k14).trans k47
  refine (subm_spec w7 (adv_hasm k47 b4) b7).has.mono fun r h8 ⟨w8, k8, f8, a8⟩ => ⟨w8, k07.trans k8, f8.mono k07, ?_⟩
  convert a8 using 1
  funext i j
  simp only [harris, Matrix.sub_apply, Matrix.of_apply, Matrix.map_apply, Matrix.add_apply]
  ring

theorem rowFold_run {h : Heap ℝ} {o : Nat} {A : Matrix (Fin m) (Fin n) ℝ} (hA : IsMat h o A) (i : Fin m) (f : ℝ → Char) :
    (foldN n ([] : List Char) fun j row => do
      let e ← Mat.element_get o (i.val : Int) (j : Int)
      pure (row ++ [f e])) h = .ok (List.ofFn fun j => f (A i j), h) := by
  have : Runs (foldN n ([] : List Char) fun j row => do
      let e ← Mat.element_get o (i.val : Int) (j : Int)
      pure (row ++ [f e])) h fun r h' => h' = h ∧ r = List.ofFn fun j => f (A i j) := by
    refine (Runs.foldN n (fun t s h' => h' = h ∧ s = List.ofFn fun j : Fin t => f (ext A i.val j.val)) _ [] h ⟨rfl, by simp⟩ ?_).mono ?_
    · rintro j s h1 hj ⟨rfl, rfl⟩
      refine Runs.step (Mat.element_get_ext hA _ _) (Runs.of_eq rfl ⟨rfl, ?_⟩)
      rw [List.ofFn_succ_last]; simp
    · rintro s h1 ⟨rfl, rfl⟩
      exact ⟨rfl, by congr 1; funext j; rw [ext_in]⟩
  obtain ⟨r, h', e, rfl, rfl⟩ := runs_iff.mp this
  exact e

theorem harris_run {h : Heap ℝ} (w : h.WF) {a : Ref} {A : Matrix (Fin m) (Fin m) ℝ} (hm : 1 ≤ m) (hA : HasM h a A) :
    ReturnsVal (harris_corner_detection a) h (List.ofFn fun i => List.ofFn fun j => cornerType (harris A i j)) := by
  unfold harris_corner_detection
  refine stepM (harris_r_run w hm hA) fun r h1 w1 k1 f1 a1 => ?_
  obtain ⟨o, rfl, lo, ho⟩ := a1
  refine Runs.step (derefM_run o h1) (Runs.step (size_mat ho) ?_)
  dsimp only
  refine (Runs.foldN m (fun t s h' => h' = h1 ∧ ∃ ht : t ≤ m, s = List.ofFn fun i : Fin t => List.ofFn fun j => cornerType (harris A (i.castLE ht) j)) _ [] h1
    ⟨rfl, by omega, by simp⟩ ?_).mono ?_
  · rintro i s h2 hi ⟨rfl, hi', rfl⟩
    refine Runs.step (rowFold_run ho ⟨i, hi⟩ cornerType) (Runs.of_eq rfl ⟨rfl, hi, ?_⟩)
    rw [List.ofFn_succ_last]
    rfl
  · rintro s h2 ⟨rfl, _, rfl⟩
    exact ⟨rfl, w1, k1⟩

end Verif
