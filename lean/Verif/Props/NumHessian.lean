import Verif.Spec.NumAnalysis
import Verif.Spec.Batches
import Verif.Lemmas.NumAnalysis
import Verif.Lemmas.Build
import Verif.Lemmas.Example
import Verif.Props.MatrixAlgebra
import Mathlib.Analysis.Calculus.Deriv.MeanValue
import Mathlib.Analysis.Calculus.Deriv.Shift
import Mathlib.LinearAlgebra.Matrix.Symmetric
import Mathlib.LinearAlgebra.Matrix.DotProduct

/-! # C78: Jacobian, Hessian, third derivatives, Laplacian -/

namespace Verif
open NumAnalysis Spec Set
variable {n : Nat}

/-! ## What the calls return -/

/-- First difference quotient. -/
noncomputable def fd1 (F : (Fin n → ℝ) → ℝ) (v : Fin n → ℝ) (i : Fin n) : ℝ := (F (v + Pi.single i 1e-10) - F v) / 1e-10
/-- Second difference quotient. -/
noncomputable def fd2 (F : (Fin n → ℝ) → ℝ) (v : Fin n → ℝ) (i j : Fin n) : ℝ :=
  (F (v + Pi.single i 1e-5 + Pi.single j 1e-5) - F (v + Pi.single j 1e-5) - F (v + Pi.single i 1e-5) + F v) / (1e-5 * 1e-5)
/-- Third difference quotient. -/
noncomputable def fd3 (F : (Fin n → ℝ) → ℝ) (v : Fin n → ℝ) (i j k : Fin n) : ℝ :=
  ((F (v + Pi.single i 1e-5 + Pi.single j 1e-5 + Pi.single k 1e-5) - F (v + Pi.single j 1e-5 + Pi.single k 1e-5) -
    F (v + Pi.single i 1e-5 + Pi.single k 1e-5) + F (v + Pi.single k 1e-5)) -
    (F (v + Pi.single i 1e-5 + Pi.single j 1e-5) - F (v + Pi.single j 1e-5) - F (v + Pi.single i 1e-5) + F v)) / (1e-5 * 1e-5 * 1e-5)

theorem jacobian_run {h : Heap ℝ} (w : h.WF) (f : List ℝ → ℝ) {o : Nat} {v : Fin n → ℝ} (a : IsVec h o v) (l : h.live (.v o)) :
    ReturnsVec (jacobian f (some (.v o))) h (fd1 (asFun n f) v) := by
  unfold jacobian
  refine Runs.newV w fun h1 w1 k1 f1 l1 s1 => ?_
  generalize h.next = q at *
  refine Runs.step (derefV_run o h1) ?_
  refine Runs.step (show Vec.size o h1 = .ok (n, h1) by
    have := (a.keep k1 l nofun).1
    unfold Vec.size; rw [bind_ok (getSize_run _ _), this]; rfl) ?_
  refine Runs.resizeV w1 ⟨rfl, rfl⟩ fun h2 w2 k2 n2 s2 _ => ?_
  have kk : Keeps h h2 (fun _ => False) := k1.newer k2 (by rintro l rfl; exact f1)
  refine Runs.step (show Vec.size (Loc.v q).id h2 = .ok (n, h2) by
    unfold Vec.size; rw [bind_ok (getSize_run _ _)]; simp only [Loc.id]; rw [s2]; rfl) ?_
  refine (fillVec_run (g := fd1 (asFun n f) v) f1 w2 kk (k2.live l1) s2 (fun i => num_diffv f (some (.v o)) (i : Int)) ?_).andThen fun _ h3 ⟨w3, k3, _, l3, a3⟩ => ?_
  · intro i h' w' k'
    exact num_diffv_run w' f (a.keep k' l nofun) (k'.live l) i
  · exact Runs.of_eq rfl ⟨q, rfl, f1, l3, w3, k3, a3⟩

theorem hessian_run {h : Heap ℝ} (w : h.WF) (f : List ℝ → ℝ) {o : Nat} {v : Fin n → ℝ} (a : IsVec h o v) (l : h.live (.v o)) :
    ReturnsMat (hessian f (some (.v o))) h (Matrix.of (fd2 (asFun n f) v)) := by
  unfold hessian
  refine Runs.newM w fun h1 w1 k1 f1 l1 s1 => ?_
  generalize h.next = q at *
  refine Runs.step (derefV_run o h1) ?_
  refine Runs.step (show Vec.size o h1 = .ok (n, h1) by
    have := (a.keep k1 l nofun).1
    unfold Vec.size; rw [bind_ok (getSize_run _ _), this]; rfl) ?_
  refine Runs.resizeM w1 rfl fun h2 w2 k2 n2 s2 _ => ?_
  have kk : Keeps h h2 (fun _ => False) := k1.newer k2 (by rintro l rfl; exact f1)
  refine Runs.step (getSize_run _ _) ?_
  rw [s2]
  refine (fillMat_run (g := fd2 (asFun n f) v) f1 w2 kk (k2.live l1) s2 (fun i j => num_diff_2v f (some (.v o)) (i : Int) (j : Int)) ?_).andThen
    fun _ h3 ⟨w3, k3, _, l3, a3⟩ => ?_
  · intro i j h' w' k'
    exact num_diff_2v_run w' f (a.keep k' l nofun) (k'.live l) i j
  · exact Runs.of_eq rfl ⟨q, rfl, f1, l3, w3, k3, a3⟩

theorem Runs.newT {R β : Type} {h : Heap R} (w : h.WF) {k : Loc → M R β} {Q : β → Heap R → Prop}
    (hk : ∀ h1 : Heap R, h1.WF → Keeps h h1 (fun _ => False) → ¬ h.live (.t h.next) → h1.live (.t h.next) →
      h1.size (.t h.next) = ⟨0, 0, 0⟩ → Runs (k (.t h.next)) h1 Q) :
    Runs (Verif.newTen >>= k) h Q := by
  refine Runs.step (show Verif.newTen h = .ok (.t h.next, _) from rfl) ?_
  have cr : Created h { (h.setBuf (.t h.next) []).setSize (.t h.next) ⟨0, 0, 0⟩ with next := h.next + 1 }
      (.t h.next) ⟨0, 0, 0⟩ [] :=
    ⟨rfl, by simp, by simp, fun l hl => by simp [setBuf_buf, hl], fun l hl => by simp [setSize_size, hl], rfl, rfl⟩
  exact hk _ (cr.wf w rfl nofun nofun) (cr.keeps _) (Nat.lt_irrefl _) (Nat.lt_succ_self _) cr.size

theorem third_order_tensor_run {h : Heap ℝ} (w : h.WF) (f : List ℝ → ℝ) {o : Nat} {v : Fin n → ℝ} (a : IsVec h o v) (l : h.live (.v o)) :
    ReturnsTen (third_order_tensor f (some (.v o))) h (fd3 (asFun n f) v) := by
  unfold third_order_tensor
  refine Runs.newT w fun h1 w1 k1 f1 l1 s1 => ?_
  generalize h.next = q at *
  refine Runs.step (derefV_run o h1) ?_
  refine Runs.step (show Vec.size o h1 = .ok (n, h1) by
    have := (a.keep k1 l nofun).1
    unfold Vec.size; rw [bind_ok (getSize_run _ _), this]; rfl) ?_
  refine Runs.resize (l := .t q) w1 nofun nofun fun h2 w2 k2 n2 s2 _ => ?_
  have kk : Keeps h h2 (fun _ => False) := k1.newer k2 (by rintro l rfl; exact f1)
  refine Runs.step (getSize_run _ _) ?_
  rw [s2]
  refine (fillTen_run (g := fd3 (asFun n f) v) f1 w2 kk (k2.live l1) s2 (fun i j k => num_diff_3v f (some (.v o)) (i : Int) (j : Int) (k : Int)) ?_).andThen
    fun _ h3 ⟨w3, k3, l3, a3⟩ => ?_
  · intro i j k h' w' k'
    exact num_diff_3v_run w' f (a.keep k' l nofun) (k'.live l) i j k
  · exact Runs.of_eq rfl ⟨q, rfl, f1, l3, w3, k3, a3⟩

theorem third_order_tensorvt_run {h : Heap ℝ} (w : h.WF) (f : List ℝ → ℝ) {o : Nat} {v : Fin n → ℝ} (a : IsVec h o v) (l : h.live (.v o)) :
    Runs (third_order_tensorvt f (some (.v o))) h fun rs h' => h'.WF ∧ Keeps h h' (fun _ => False) ∧
      NewMats h h' rs (fun i => Matrix.of (fd3 (asFun n f) v i)) := by
  unfold third_order_tensorvt
  refine Runs.step (derefV_run o h) ?_
  refine Runs.step (show Vec.size o h = .ok (n, h) by
    unfold Vec.size; rw [bind_ok (getSize_run _ _), a.1]; rfl) ?_
  let P : Nat → Loc → Heap ℝ → Prop := fun _ l h' => (∃ m, l = .m m) ∧ h'.size l = ⟨n, n, 1⟩
  refine (Runs.foldN n (fun i (rs : List Ref) h' => h'.WF ∧ Keeps h h' (fun _ => False) ∧ rs.length = i ∧ NewAll h h' rs P) _ [] h
    ⟨w, Keeps.refl _ _, rfl, NewAll.nil _ _ _⟩ ?_).andThen ?_
  · intro i rs h1 hi ⟨w1, k1, e1, na⟩
    refine Runs.newM w1 fun h2 w2 k2 f2 l2 s2 => ?_
    generalize h1.next = q at *
    refine Runs.resizeM w2 rfl fun h3 w3 k3 n3 s3 _ => ?_
    have kk : Keeps h1 h3 (fun _ => False) := k2.newer k3 (by rintro l rfl; exact f2)
    refine Runs.of_eq (a := rs ++ [some (.m q)]) (h' := h3) rfl ⟨w3, k1.trans kk, by simp [e1], ?_⟩
    refine na.snoc kk nofun (fun t l' ll _ ⟨p1, p2⟩ => ⟨p1, ?_⟩) k1.1 f2 (k3.live l2) ⟨⟨q, rfl⟩, s3⟩
    rw [(kk.2 _ ll nofun).2]; exact p2
  · intro rs h1 ⟨w1, k1, e1, nd, na⟩
    have hex : ∀ t : Fin n, ∃ m, rs[t.val]? = some (some (.m m)) ∧ ¬ h.live (.m m) ∧ h1.live (.m m) ∧ h1.size (.m m) = ⟨n, n, 1⟩ := by
      intro t
      obtain ⟨l', x1, x2, x3, ⟨m, rfl⟩, x4⟩ := na t.val (by rw [e1]; exact t.isLt)
      exact ⟨m, x1, x2, x3, x4⟩
    choose ids hids using hex
    have inj : ∀ s t : Fin n, s ≠ t → ids s ≠ ids t := by
      intro s t hne q
      have hs := (hids s).1
      have ht := (hids t).1
      rw [q] at hs
      have hs' : s.val < rs.length := by rw [e1]; exact s.isLt
      have ht' : t.val < rs.length := by rw [e1]; exact t.isLt
      rw [List.getElem?_eq_getElem hs'] at hs
      rw [List.getElem?_eq_getElem ht'] at ht
      exact hne (Fin.ext ((List.Nodup.getElem_inj_iff nd).mp (Option.some.inj (hs.trans ht.symm))))
    rw [e1]
    refine (Runs.forN n (fun i h' => h'.WF ∧ Keeps h h' (fun _ => False) ∧ ∀ t : Fin n, h'.live (.m (ids t)) ∧
      h'.size (.m (ids t)) = ⟨n, n, 1⟩ ∧ (t.val < i → IsMat h' (ids t) (Matrix.of (fd3 (asFun n f) v t)))) _ h1 ⟨w1, k1, ?_⟩ ?_).andThen ?_
    · exact fun t => ⟨(hids t).2.2.1, (hids t).2.2.2, fun q => absurd q (Nat.not_lt_zero _)⟩
    · intro i h2 hi ⟨w2, k2, inv⟩
      have e := (hids ⟨i, hi⟩).1
      simp only at e
      rw [e]
      refine Runs.step (derefM_run _ h2) ?_
      obtain ⟨li, si, _⟩ := inv ⟨i, hi⟩
      refine (fillMat_run (g := fd3 (asFun n f) v ⟨i, hi⟩) (hids ⟨i, hi⟩).2.1 w2 k2 li si
        (fun j k => num_diff_3v f (some (.v o)) (i : Int) (j : Int) (k : Int)) ?_).mono ?_
      · intro j k h' w' k'
        exact num_diff_3v_run w' f (a.keep k' l nofun) (k'.live l) ⟨i, hi⟩ j k
      · rintro _ h3 ⟨w3, k3, kk3, l3, a3⟩
        refine ⟨w3, k3, fun t => ?_⟩
        by_cases q : t = ⟨i, hi⟩
        · subst q
          exact ⟨l3, a3.1, fun _ => a3⟩
        · obtain ⟨lt, st, it⟩ := inv t
          have ne : ¬ Loc.m (ids t) = .m (ids ⟨i, hi⟩) := fun z => inj _ _ q (by injection z)
          refine ⟨kk3.live lt, by rw [(kk3.2 _ lt ne).2]; exact st, fun z => (it ?_).keep kk3 lt ne⟩
          have : t.val ≠ i := fun z => q (Fin.ext z)
          omega
    · rintro _ h2 ⟨w2, k2, inv⟩
      exact Runs.of_eq (a := rs) (h' := h2) rfl ⟨w2, k2, e1, nd, fun i => ⟨ids i, (hids i).1, (hids i).2.1, (inv i).1, (inv i).2.2 i.isLt⟩⟩

/-! ## Calculus -/

theorem Spec.HasPartials.hasDerivAt {F : (Fin n → ℝ) → ℝ} (hF : HasPartials F) (y : Fin n → ℝ) (i : Fin n) (t : ℝ) :
    HasDerivAt (fun t : ℝ => F (y + Pi.single i t)) (partialD F i (y + Pi.single i t)) t := by
  have h := (hF (y + Pi.single i t) i).hasDerivAt
  have e : (fun s : ℝ => F (y + Pi.single i t + Pi.single i s)) = fun s => F (y + Pi.single i (t + s)) := by
    funext s; rw [add_assoc, ← Pi.single_add]
  have h' : HasDerivAt (fun s : ℝ => F (y + Pi.single i (t + s))) (partialD F i (y + Pi.single i t)) (t - t) := by
    rw [sub_self]; rw [← e]; exact h
  have := h'.comp_sub_const t t
  simpa using this

/-- Mean value theorem along a coordinate. -/
theorem Spec.HasPartials.mvt {F : (Fin n → ℝ) → ℝ} (hF : HasPartials F) (y : Fin n → ℝ) (i : Fin n) {e : ℝ} (he : 0 < e) :
    ∃ t ∈ Ioo 0 e, F (y + Pi.single i e) - F y = e * partialD F i (y + Pi.single i t) := by
  obtain ⟨t, ht, q⟩ := exists_hasDerivAt_eq_slope _ _ he (fun t _ => (hF.hasDerivAt y i t).continuousAt.continuousWithinAt)
    (fun t _ => hF.hasDerivAt y i t)
  refine ⟨t, ht, ?_⟩
  rw [q]
  have : (Pi.single i (0 : ℝ) : Fin n → ℝ) = 0 := Pi.single_zero i
  rw [this, add_zero, sub_zero]; field_simp

theorem partialD_diff {F : (Fin n → ℝ) → ℝ} (hF : HasPartials F) (c : Fin n → ℝ) :
    HasPartials (fun y => F (y + c) - F y) ∧ ∀ i, partialD (fun y => F (y + c) - F y) i = fun y => partialD F i (y + c) - partialD F i y := by
  have key : ∀ y i, HasDerivAt (fun t : ℝ => F (y + Pi.single i t + c) - F (y + Pi.single i t)) (partialD F i (y + c) - partialD F i y) 0 := by
    intro y i
    have h1 := hF.hasDerivAt (y + c) i 0
    have h2 := hF.hasDerivAt y i 0
    simp only [Pi.single_zero, add_zero] at h1 h2
    have e : (fun t : ℝ => F (y + Pi.single i t + c)) = fun t => F (y + c + Pi.single i t) := by
      funext t; rw [add_right_comm]
    have := h1.sub h2
    refine this.congr_of_eventuallyEq (Filter.Eventually.of_forall fun t => ?_)
    simp [add_right_comm]
  exact ⟨fun y i => (key y i).differentiableAt, fun i => funext fun y => (key y i).deriv⟩

theorem diff2_mvtv {F : (Fin n → ℝ) → ℝ} (hF : HasPartials F) (hF2 : ∀ i, HasPartials (partialD F i)) (v : Fin n → ℝ) (i j : Fin n) {e : ℝ}
    (he : 0 < e) : ∃ s ∈ Ioo 0 e, ∃ t ∈ Ioo 0 e,
      F (v + Pi.single i e + Pi.single j e) - F (v + Pi.single j e) - F (v + Pi.single i e) + F v =
        e * e * partialD (partialD F i) j (v + Pi.single i s + Pi.single j t) := by
  obtain ⟨hG, eG⟩ := partialD_diff hF (Pi.single j e)
  obtain ⟨s, hs, q⟩ := hG.mvt v i he
  rw [eG] at q
  obtain ⟨t, ht, q2⟩ := (hF2 i).mvt (v + Pi.single i s) j he
  refine ⟨s, hs, t, ht, ?_⟩
  beta_reduce at q
  rw [q2] at q
  linarith

theorem diff3_mvtv {F : (Fin n → ℝ) → ℝ} (hF : HasPartials F) (hF2 : ∀ i, HasPartials (partialD F i))
    (hF3 : ∀ i j, HasPartials (partialD (partialD F i) j)) (v : Fin n → ℝ) (i j k : Fin n) {e : ℝ}
    (he : 0 < e) : ∃ s ∈ Ioo 0 e, ∃ t ∈ Ioo 0 e, ∃ u ∈ Ioo 0 e,
      (F (v + Pi.single i e + Pi.single j e + Pi.single k e) - F (v + Pi.single j e + Pi.single k e) -
        F (v + Pi.single i e + Pi.single k e) + F (v + Pi.single k e)) -
        (F (v + Pi.single i e + Pi.single j e) - F (v + Pi.single j e) - F (v + Pi.single i e) + F v) =
        e * e * e * partialD (partialD (partialD F i) j) k (v + Pi.single i s + Pi.single j t + Pi.single k u) := by
  obtain ⟨hG, eG⟩ := partialD_diff hF (Pi.single k e)
  have hG2 : ∀ a, HasPartials (partialD (fun y => F (y + Pi.single k e) - F y) a) := by
    intro a; rw [eG]; exact (partialD_diff (hF2 a) (Pi.single k e)).1
  obtain ⟨s, hs, t, ht, q⟩ := diff2_mvtv hG hG2 v i j he
  rw [eG, (partialD_diff (hF2 i) (Pi.single k e)).2] at q
  obtain ⟨u, hu, q2⟩ := (hF3 i j).mvt (v + Pi.single i s + Pi.single j t) k he
  refine ⟨s, hs, t, ht, u, hu, ?_⟩
  beta_reduce at q
  rw [q2] at q
  linarith

/-! ## The theorems -/

/-- **C78.** Each entry of `jacobian` is the partial derivative at a point less than `1e-10` away along that coordinate. -/
theorem C78_jacobian (h : Heap ℝ) (w : h.WF) (f : List ℝ → ℝ) (o : Nat) (v : Fin n → ℝ) (a : IsVec h o v) (l : h.live (.v o))
    (hF : HasPartials (asFun n f)) :
    ∃ J : Fin n → ℝ, ReturnsVec (jacobian f (some (.v o))) h J ∧
      ∀ i, ∃ t ∈ Ioo (0 : ℝ) 1e-10, J i = partialD (asFun n f) i (v + Pi.single i t) := by
  refine ⟨_, jacobian_run w f a l, fun i => ?_⟩
  obtain ⟨t, ht, q⟩ := hF.mvt v i (e := 1e-10) (by norm_num)
  refine ⟨t, ht, ?_⟩
  unfold fd1
  rw [q]; field_simp

/-- **C78.** The Jacobian of an affine function is its vector of coefficients. -/
theorem C78_jacobian_affine (h : Heap ℝ) (w : h.WF) (f : List ℝ → ℝ) (o : Nat) (v : Fin n → ℝ) (a : IsVec h o v) (l : h.live (.v o))
    (b : Fin n → ℝ) (c : ℝ) (hf : ∀ u : Fin n → ℝ, f (List.ofFn u) = c + b ⬝ᵥ u) : ReturnsVec (jacobian f (some (.v o))) h b := by
  have r := jacobian_run w f a l
  have e : fd1 (asFun n f) v = b := by
    funext i
    unfold fd1 asFun
    rw [hf, hf]
    simp only [dotProduct_add, dotProduct_single]
    field_simp; ring
  rwa [e] at r

/-- **C78.** Each entry of `hessian` is the mixed second partial derivative at a point less than `1e-5` away along each of the two
coordinates, and the matrix is symmetric. -/
theorem C78_hessian (h : Heap ℝ) (w : h.WF) (f : List ℝ → ℝ) (o : Nat) (v : Fin n → ℝ) (a : IsVec h o v) (l : h.live (.v o))
    (hF : HasPartials (asFun n f)) (hF2 : ∀ i, HasPartials (partialD (asFun n f) i)) :
    ∃ H : Matrix (Fin n) (Fin n) ℝ, ReturnsMat (hessian f (some (.v o))) h H ∧ H.IsSymm ∧
      ∀ i j, ∃ s ∈ Ioo (0 : ℝ) 1e-5, ∃ t ∈ Ioo (0 : ℝ) 1e-5,
        H i j = partialD (partialD (asFun n f) i) j (v + Pi.single i s + Pi.single j t) := by
  refine ⟨_, hessian_run w f a l, ?_, fun i j => ?_⟩
  · ext i j
    simp only [Matrix.transpose_apply, Matrix.of_apply, fd2]
    rw [add_right_comm v]; ring
  · obtain ⟨s, hs, t, ht, q⟩ := diff2_mvtv hF hF2 v i j (e := 1e-5) (by norm_num)
    refine ⟨s, hs, t, ht, ?_⟩
    simp only [Matrix.of_apply, fd2]
    rw [q]; field_simp

theorem fd2_quadratic (f : List ℝ → ℝ) (v : Fin n → ℝ) (A : Matrix (Fin n) (Fin n) ℝ) (b : Fin n → ℝ) (c : ℝ)
    (hf : ∀ u : Fin n → ℝ, f (List.ofFn u) = c + b ⬝ᵥ u + u ⬝ᵥ A.mulVec u) : Matrix.of (fd2 (asFun n f) v) = A + A.transpose := by
  ext i j
  simp only [Matrix.of_apply, fd2, asFun, hf]
  simp only [dotProduct_add, add_dotProduct, Matrix.mulVec_add, dotProduct_single, Matrix.mulVec_single, single_dotProduct,
    Matrix.add_apply, Matrix.transpose_apply]
  simp
  field_simp
  ring

/-- **C78.** The Hessian of a quadratic function `c + b·u + u·A u` is `A + Aᵀ`, exactly. -/
theorem C78_hessian_quadratic (h : Heap ℝ) (w : h.WF) (f : List ℝ → ℝ) (o : Nat) (v : Fin n → ℝ) (a : IsVec h o v) (l : h.live (.v o))
    (A : Matrix (Fin n) (Fin n) ℝ) (b : Fin n → ℝ) (c : ℝ) (hf : ∀ u : Fin n → ℝ, f (List.ofFn u) = c + b ⬝ᵥ u + u ⬝ᵥ A.mulVec u) :
    ReturnsMat (hessian f (some (.v o))) h (A + A.transpose) := by
  rw [← fd2_quadratic f v A b c hf]
  exact hessian_run w f a l

/-- **C78.** Each entry of `third_order_tensor` is the mixed third partial derivative at a point less than `1e-5` away along each
coordinate; the order of the three indices does not matter; `third_order_tensorvt` returns the same numbers as a list of matrices. -/
theorem C78_third_order (h : Heap ℝ) (w : h.WF) (f : List ℝ → ℝ) (o : Nat) (v : Fin n → ℝ) (a : IsVec h o v) (l : h.live (.v o))
    (hF : HasPartials (asFun n f)) (hF2 : ∀ i, HasPartials (partialD (asFun n f) i))
    (hF3 : ∀ i j, HasPartials (partialD (partialD (asFun n f) i) j)) :
    ∃ T : Fin n → Fin n → Fin n → ℝ, ReturnsTen (third_order_tensor f (some (.v o))) h T ∧
      Runs (third_order_tensorvt f (some (.v o))) h (fun rs h' => h'.WF ∧ Keeps h h' (fun _ => False) ∧
        NewMats h h' rs (fun i => Matrix.of (T i))) ∧
      (∀ i j k, T i j k = T j i k ∧ T i j k = T i k j) ∧
      ∀ i j k, ∃ s ∈ Ioo (0 : ℝ) 1e-5, ∃ t ∈ Ioo (0 : ℝ) 1e-5, ∃ u ∈ Ioo (0 : ℝ) 1e-5,
        T i j k = partialD (partialD (partialD (asFun n f) i) j) k (v + Pi.single i s + Pi.single j t + Pi.single k u) := by
  refine ⟨_, third_order_tensor_run w f a l, third_order_tensorvt_run w f a l, fun i j k => ⟨?_, ?_⟩, fun i j k => ?_⟩
  · unfold fd3; rw [add_right_comm v (Pi.single i 1e-5) (Pi.single j 1e-5)]; ring
  · unfold fd3; rw [add_right_comm (v + _), add_right_comm v (Pi.single j 1e-5)]; ring
  · obtain ⟨s, hs, t, ht, u, hu, q⟩ := diff3_mvtv hF hF2 hF3 v i j k (e := 1e-5) (by norm_num)
    refine ⟨s, hs, t, ht, u, hu, ?_⟩
    unfold fd3
    rw [q]; field_simp

/-- **C78.** `laplacian` returns the trace of what `hessian` returns. -/
theorem C78_laplacian (h : Heap ℝ) (w : h.WF) (f : List ℝ → ℝ) (o : Nat) (v : Fin n → ℝ) (a : IsVec h o v) (l : h.live (.v o)) :
    ∃ H : Matrix (Fin n) (Fin n) ℝ, ReturnsMat (hessian f (some (.v o))) h H ∧ ReturnsVal (laplacian f (some (.v o))) h H.trace := by
  refine ⟨_, hessian_run w f a l, ?_⟩
  unfold laplacian
  refine (hessian_run w f a l).bind fun q h1 w1 k1 f1 l1 a1 => ?_
  refine Runs.step (derefM_run q h1) (Runs.step (Mat.size_run q h1) ?_)
  rw [a1.1]
  obtain ⟨F, eF, c⟩ := a1.cells w1
  refine Runs.of_eq (foldN_eq n (fun k => ∑ i ∈ Finset.range k, F i i) (fun _ => h1) _ 0 h1 (by simp) rfl ?_) ⟨?_, w1, k1⟩
  · intro k hk
    rw [bind_ok (Mat.element_get_run c hk hk), Finset.sum_range_succ]; rfl
  · rw [Matrix.trace, Finset.sum_range]
    exact Finset.sum_congr rfl fun i _ => (eF i i).symm

/-- **C78.** An axis that does not exist aborts the program. -/
theorem C78_bad_axis (h : Heap ℝ) (w : h.WF) (f : List ℝ → ℝ) (o : Nat) (v : Fin n → ℝ) (a : IsVec h o v) (l : h.live (.v o)) (i : Int)
    (hi : i < 0 ∨ (n : Int) ≤ i) : num_diffv f (some (.v o)) i h = .crash := by
  have hd := Vec.dup_spec w a l
  unfold ReturnsVec at hd
  rw [runs_iff] at hd
  obtain ⟨_, h1, e1, q, rfl, f1, l1, w1, k1, a1⟩ := hd
  unfold num_diffv
  rw [bind_ok (derefV_run o h)]
  have : perturbed o 1e-10 [i] h = .crash := by
    unfold perturbed
    rw [bind_ok e1, bind_ok (derefV_run q h1)]
    refine bind_crash ?_
    show (bump q 1e-10 i >>= fun _ => bumps q 1e-10 []) h1 = .crash
    refine bind_crash ?_
    unfold bump
    rw [bind_ok (Vec.size_run w1 q), a1.vec_eq w1, List.length_ofFn, if_neg]
    · rfl
    · simp [idxOk]; omega
  exact bind_crash this

/-- The hypotheses of `C78_jacobian` and `C78_hessian` are met by the function `(x, y) ↦ x² + x y` at `(1, 2)`. -/
example : ∃ (h : Heap ℝ) (f : List ℝ → ℝ) (v : Fin 2 → ℝ), h.WF ∧ h.live (.v 0) ∧ IsVec h 0 v ∧ HasPartials (asFun 2 f) ∧
    ∀ i, HasPartials (partialD (asFun 2 f) i) := by
  let f : List ℝ → ℝ := fun l => l[0]! ^ 2 + l[0]! * l[1]!
  have e : asFun 2 f = fun u => u 0 ^ 2 + u 0 * u 1 := by
    funext u; simp [asFun, f, List.ofFn_succ]
  have key : ∀ (p q : ℝ) (y : Fin 2 → ℝ) (i : Fin 2), HasDerivAt (fun t : ℝ => p * (y + (Pi.single i t : Fin 2 → ℝ)) 0 + q * (y + (Pi.single i t : Fin 2 → ℝ)) 1)
      (p * (Pi.single i 1 : Fin 2 → ℝ) 0 + q * (Pi.single i 1 : Fin 2 → ℝ) 1) 0 := by
    intro p q y i
    have h0 : ∀ k : Fin 2, HasDerivAt (fun t : ℝ => (y + (Pi.single i t : Fin 2 → ℝ)) k) ((Pi.single i 1 : Fin 2 → ℝ) k) 0 := by
      intro k
      by_cases hk : k = i
      · subst hk; simpa using (hasDerivAt_id (0 : ℝ)).const_add (y k)
      · simpa [hk] using hasDerivAt_const (0 : ℝ) (y k)
    exact ((h0 0).const_mul p).add ((h0 1).const_mul q)
  have d1 : ∀ (y : Fin 2 → ℝ) (i : Fin 2), HasDerivAt (fun t : ℝ => asFun 2 f (y + (Pi.single i t : Fin 2 → ℝ)))
      (2 * y 0 * (Pi.single i 1 : Fin 2 → ℝ) 0 + (y 0 * (Pi.single i 1 : Fin 2 → ℝ) 1 + (Pi.single i 1 : Fin 2 → ℝ) 0 * y 1)) 0 := by
    intro y i
    have a0 := key 1 0 y i
    have a1 := key 0 1 y i
    simp only [one_mul, zero_mul, add_zero, zero_add] at a0 a1
    have := (a0.mul a0).add (a0.mul a1)
    rw [e]
    simp only [pow_two]
    refine this.congr_deriv ?_
    fin_cases i <;> (simp; try ring)
  have d2 : ∀ i, partialD (asFun 2 f) i = fun y => (2 * (Pi.single i 1 : Fin 2 → ℝ) 0 + (Pi.single i 1 : Fin 2 → ℝ) 1) * y 0 +
      (Pi.single i 1 : Fin 2 → ℝ) 0 * y 1 := by
    intro i; funext y
    rw [show partialD (asFun 2 f) i y = _ from (d1 y i).deriv]; ring
  refine ⟨Heap.ofLists 0 [[1, 2]] [], f, ![1, 2], Heap.ofLists_wf _ _ _ (by simp), by simp [Heap.ofLists, Heap.live, Loc.id],
    ⟨by simp [Heap.ofLists], fun i => by fin_cases i <;> simp [Heap.ofLists]⟩, fun y i => (d1 y i).differentiableAt, fun i => ?_⟩
  rw [d2]
  exact fun y j => (key _ _ y j).differentiableAt

end Verif
