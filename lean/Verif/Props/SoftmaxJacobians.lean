import Verif.Model.SoftmaxJacobians
import Verif.Props.Softmax
import Verif.Lemmas.Thread
import Verif.Lemmas.Harris
import Verif.Lemmas.KMeans
import Verif.Lemmas.GlmSgd
import Verif.Lemmas.AnnOptRules
import Verif.Lemmas.Activation
import Verif.Lemmas.LiftSpec

/-! # C44: softmax_deriv_normm -/

namespace Verif
open Spec Activation
variable {m n : Nat} {h : Heap ℝ}

theorem Hd.lifts2_vec {f : ℝ → ℝ → ℝ} {op : Ref → Ref → M ℝ Ref} (l : Lifts2 Loc.v f op) (w : h.WF) {a b : Ref} {u v : Fin n → ℝ} (ha : HasV h a u)
    (hb : HasV h b v) : ReturnsVec (op a b) h fun i => f (u i) (v i) := by
  obtain ⟨x, rfl, la, i⟩ := ha
  obtain ⟨y, rfl, lb, j⟩ := hb
  exact l.vec w i j la lb

/-- What row `j` of the matrix for sample `i` becomes. -/
def crossRow (P : Matrix (Fin m) (Fin n) ℝ) (i j : Fin m) (k : Fin n) : ℝ :=
  if i = j then P i k - P i k * P i k else P i k * P j k * (-1)

theorem jacobianRow_run (w : h.WF) {a s t d : Ref} {P : Matrix (Fin m) (Fin n) ℝ} {D : Matrix (Fin m) (Fin n) ℝ} {x y : Fin n → ℝ} (ha : HasM h a P) (hs : HasV h s x)
    (ht : HasV h t y) (hd : HasM h d D) (nst : s ≠ t) (i j : Fin m) :
    Runs (jacobianRow a s t d i j) h fun _ h' => h'.WF ∧ Keeps h h' (some · ∈ [s, t, d]) ∧ (∃ x : Fin n → ℝ, HasV h' s x) ∧ (∃ y : Fin n → ℝ, HasV h' t y) ∧
      HasM h' d (fun r c => if r = j then crossRow P i j c else D r c) := by
  unfold jacobianRow
  refine Runs.bind ((Hd.row_get_into_run w ha hs i).mono fun _ h1 ⟨w1, k1, hs1⟩ => ?_)
  have K1 : Keeps h h1 (some · ∈ [s, t, d]) := (Keeps.refl h _).into k1 (by simp)
  have ha1 := ha.off k1 hs
  have hd1 := hd.off k1 hs
  have ht1 : HasV h1 t y := ht.keep k1 fun l e e' => nst (e'.symm.trans e.symm)
  clear ha hd ht hs
  by_cases e : i.val = j.val
  · rw [if_pos e]
    have e := Fin.ext e
    subst e
    refine stepV (Hd.lifts2_vec hadamard_productnv_lifts w1 hs1 hs1) fun q h2 w2 k2 f2 hq => ?_
    have K2 := K1.more k2
    nw f2 k2
    refine stepV (Hd.lifts2_vec subtractionnv_lifts w2 hs1 hq) fun v h3 w3 k3 f3 hv => ?_
    have K3 := K2.more k3
    nw f3 k3
    refine (Hd.row_set_run w3 hd1 hv i).mono fun _ h4 ⟨w4, k4, hd4⟩ => ?_
    refine ⟨w4, K3.into k4 (by simp), ⟨_, hs1.offm k4 hd1⟩, ⟨_, ht1.offm k4 hd1⟩, cast (congrArg _ ?_) hd4⟩
    funext r c
    simp only [crossRow, if_true]
  · rw [if_neg e]
    refine Runs.bind ((Hd.row_get_into_run w1 ha1 ht1 j).mono fun _ h2 ⟨w2, k2, ht2⟩ => ?_)
    have K2 := K1.into k2 (by simp)
    have hd2 := hd1.off k2 ht1
    have hs2 : HasV h2 s (P i) := hs1.keep k2 fun l e e' => nst (e.trans e')
    clear ha1 hd1 ht1 hs1
    refine stepV (Hd.lifts2_vec hadamard_productnv_lifts w2 hs2 ht2) fun q h3 w3 k3 f3 hq => ?_
    have K3 := K2.more k3
    nw f3 k3
    refine stepV (Hd.lifts_vec (scalar_multiplynv_lifts (-1)) w3 hq) fun v h4 w4 k4 f4 hv => ?_
    have K4 := K3.more k4
    nw f4 k4
    refine (Hd.row_set_run w4 hd2 hv j).mono fun _ h5 ⟨w5, k5, hd5⟩ => ?_
    refine ⟨w5, K4.into k5 (by simp), ⟨_, hs2.offm k5 hd2⟩, ⟨_, ht2.offm k5 hd2⟩, cast (congrArg _ ?_) hd5⟩
    funext r c
    simp only [crossRow, Fin.ext_iff, if_neg e]

theorem softmax_deriv_normm_run (w : h.WF) {z : Ref} {A : Matrix (Fin m) (Fin n) ℝ} (hz : HasM h z A) :
    Runs (softmax_deriv_normm z) h fun r h' => h'.WF ∧ Keeps h h' (fun _ => False) ∧ r.length = m ∧
      ∀ i : Fin m, ∃ d, r[i.val]? = some d ∧ NotIn h d ∧ HasM h' d (crossRow (fun i => softmax (A i)) i) := by
  unfold softmax_deriv_normm
  refine Runs.step (Hd.sizem_run hz) ?_
  refine stepM (Hd.softmax_normm_spec w hz) fun a h1 w1 k1 f1 ha => ?_
  have K1 := k1
  clear hz
  nw f1 k1
  refine Runs.step (Hd.sizem_run ha) ?_
  dsimp only
  refine stepNewV w1 fun s h2 x w2 k2 f2 hs => ?_
  have K2 := K1.trans k2
  have gs : NotIn h (some (.v s)) := f2.mono K1
  nw f2 k2
  refine stepNewV w2 fun t h3 y w3 k3 f3 ht => ?_
  have K3 := K2.trans k3
  have gt : NotIn h (some (.v t)) := f3.mono K2
  have nst := f3.ne hs
  nw f3 k3
  clear k1 k2 k3 K1 K2 f1 f2 f3
  generalize eP : (fun i => softmax (A i) : Matrix (Fin m) (Fin n) ℝ) = P at ha ⊢
  refine (Runs.foldN m (fun c (r : List Ref) h' => h'.WF ∧ Keeps h h' (fun _ => False) ∧ HasM h' a P ∧ (∃ x : Fin n → ℝ, HasV h' (some (.v s)) x) ∧
      (∃ y : Fin n → ℝ, HasV h' (some (.v t)) y) ∧ r.length = c ∧
      ∀ i : Fin m, i.val < c → ∃ d, r[i.val]? = some d ∧ NotIn h d ∧ HasM h' d (crossRow P i)) _ [] h3
    ⟨w3, K3, ha, ⟨x, hs⟩, ⟨y, ht⟩, rfl, fun i q => absurd q (Nat.not_lt_zero _)⟩ ?_).mono ?_
  · clear w3 K3 ha hs ht
    intro c r h4 hc ⟨w4, K4, ha, ⟨x, hs⟩, ⟨y, ht⟩, hl, hr⟩
    refine stepNewM w4 fun d h5 D w5 k5 f5 hd => ?_
    have K5 := K4.trans k5
    have gd : NotIn h (some (.m d)) := f5.mono K4
    have f5' : NotIn h4 (some (.m d)) := f5
    have na : a ≠ some (.m d) := f5'.neM ha
    have hr5 : ∀ i : Fin m, i.val < c → ∃ e, r[i.val]? = some e ∧ NotIn h e ∧ e ≠ some (.m d) ∧ HasM h5 e (crossRow P i) := by
      intro i q
      obtain ⟨e, e1, e2, e3⟩ := hr i q
      exact ⟨e, e1, e2, f5'.neM e3, e3.keep k5 fun _ _ q => q⟩
    have ha5 := ha.keep k5 fun _ _ q => q
    have hs5 := hs.keep k5 fun _ _ q => q
    have ht5 := ht.keep k5 fun _ _ q => q
    clear ha hs ht hr
    refine Runs.bind ((Runs.forN m (fun b h' => h'.WF ∧ Keeps h5 h' (some · ∈ [some (.v s), some (.v t), some (.m d)]) ∧
      (∃ x : Fin n → ℝ, HasV h' (some (.v s)) x) ∧ (∃ y : Fin n → ℝ, HasV h' (some (.v t)) y) ∧
      HasM h' (some (.m d)) (fun j k => if j.val < b then crossRow P ⟨c, hc⟩ j k else D j k)) _ h5
      ⟨w5, Keeps.refl h5 _, ⟨_, hs5⟩, ⟨_, ht5⟩, by simpa using hd⟩ ?_).mono ?_)
    · intro b h6 hb ⟨w6, k6, ⟨x6, hs6⟩, ⟨y6, ht6⟩, hd6⟩
      have ha6 : HasM h6 a P := by
        refine ha5.keep k6 fun l e => ?_
        obtain ⟨o, eo, -⟩ := id ha5
        rw [e] at na eo
        simp only [List.mem_cons, List.not_mem_nil, or_false, not_or]
        refine ⟨?_, ?_, na⟩ <;> · rw [eo]; simp
      refine (jacobianRow_run w6 ha6 hs6 ht6 hd6 nst.symm ⟨c, hc⟩ ⟨b, hb⟩).mono fun _ h7 ⟨w7, k7, hs7, ht7, hd7⟩ => ?_
      refine ⟨w7, k6.trans k7, hs7, ht7, cast (congrArg _ ?_) hd7⟩
      funext j k
      by_cases e : j = ⟨b, hb⟩
      · subst e; simp
      · rw [if_neg e]
        have : j.val < b + 1 ↔ j.val < b := by
          have : j.val ≠ b := fun q => e (Fin.ext q)
          omega
        simp only [this]
    · intro _ h6 ⟨w6, k6, hs6, ht6, hd6⟩
      have keepM : ∀ {e : Ref} {B : Matrix (Fin m) (Fin n) ℝ}, HasM h5 e B → e ≠ some (.m d) → HasM h6 e B := by
        intro e B hB ne
        refine hB.keep k6 fun l el => ?_
        obtain ⟨o, eo, -⟩ := id hB
        rw [el] at ne eo
        simp only [List.mem_cons, List.not_mem_nil, or_false, not_or]
        refine ⟨?_, ?_, ne⟩ <;> · rw [eo]; simp
      have K6 : Keeps h h6 (fun _ => False) := K5.trans_new k6 fun l e hl => by
        simp only [List.mem_cons, List.not_mem_nil, or_false] at e
        rcases e with e | e | e
        · exact gs l e.symm hl
        · exact gt l e.symm hl
        · exact gd l e.symm hl
      refine Runs.of_eq rfl ⟨w6, K6, keepM ha5 na, hs6, ht6, by simp [hl], fun i q => ?_⟩
      by_cases e : i.val < c
      · obtain ⟨e', e1, e2, e3, e4⟩ := hr5 i e
        refine ⟨e', ?_, e2, keepM e4 e3⟩
        rw [List.getElem?_append_left (by omega)]
        exact e1
      · have ec : i.val = c := by omega
        refine ⟨some (.m d), ?_, gd, cast (congrArg _ ?_) hd6⟩
        · rw [List.getElem?_append_right (by omega)]
          simp [ec, hl]
        · have : i = ⟨c, hc⟩ := Fin.ext ec
          subst this
          funext j k
          simp
  · intro r h' ⟨w', K, _, _, _, hl, hr⟩
    exact ⟨w', K, hl, fun i => hr i i.isLt⟩

/-- **C44** (what `softmax_deriv_normm` and `softmax_deriv_derivm` do): one new matrix per row of the argument, of the same shape as the
argument (not square), with row `j` of the matrix for row `i` made of products of the softmax of rows `i` and `j`. -/
theorem C44_jacobians_partial (w : h.WF) {z : Nat} {A : Matrix (Fin m) (Fin n) ℝ} (hA : IsMat h z A) (lz : h.live (.m z)) :
    Runs (softmax_deriv_normm (some (.m z))) h fun r h' => h'.WF ∧ Keeps h h' (fun _ => False) ∧ r.length = m ∧
      ∀ i : Fin m, ∃ d, r[i.val]? = some d ∧ NotIn h d ∧ HasM h' d (fun (j : Fin m) (k : Fin n) =>
        if i = j then softmax (A i) k - softmax (A i) k ^ 2 else -(softmax (A i) k * softmax (A j) k)) := by
  refine (softmax_deriv_normm_run w ⟨z, rfl, lz, hA⟩).mono fun r h' ⟨w', k', l, q⟩ => ⟨w', k', l, fun i => ?_⟩
  obtain ⟨d, e1, e2, e3⟩ := q i
  refine ⟨d, e1, e2, cast (congrArg _ ?_) e3⟩
  funext j k
  unfold crossRow
  split
  · rw [sq]
  · ring

/-- **C44** is false for `softmax_deriv_normm`: for two or more rows (and at least one column) none of the matrices is the Jacobian matrix of
softmax at the row it belongs to. -/
theorem C44_jacobians_fails (w : h.WF) {z : Nat} {A : Matrix (Fin m) (Fin n) ℝ} (hA : IsMat h z A) (lz : h.live (.m z)) (hm : 2 ≤ m) (hn : 1 ≤ n) :
    Runs (softmax_deriv_normm (some (.m z))) h fun r h' => ∀ i : Fin m, ∃ d, r[i.val]? = some d ∧ ∀ J : Matrix (Fin n) (Fin n) ℝ,
      (∀ j k, HasDerivAt (fun t => softmax (Function.update (A i) k t) j) (J j k) (A i k)) → ¬ HasM h' d J := by
  refine (C44_jacobians_partial w hA lz).mono fun r h' ⟨w', k', l, q⟩ i => ?_
  obtain ⟨d, e1, e2, o, rfl, lo, e3⟩ := q i
  refine ⟨_, e1, fun J hJ ⟨o', eo, _, e4⟩ => ?_⟩
  cases eo
  have emn : m = n := by
    have h1 := e3.1
    have h2 := e4.1
    rw [h1] at h2
    injection h2
  subst emn
  obtain ⟨j, hj⟩ : ∃ j : Fin m, i ≠ j := by
    by_cases q : i.val = 0
    · exact ⟨⟨1, hm⟩, fun e => by rw [e] at q; simp at q⟩
    · exact ⟨⟨0, by omega⟩, fun e => q (by rw [e])⟩
  have v1 := e3.2 j j
  have v2 := e4.2 j j
  have v3 := (hJ j j).unique (softmax_partial (A i) j j)
  rw [v1, v3, if_pos rfl] at v2
  have v2 : (if i = j then softmax (A i) j - softmax (A i) j ^ 2 else -(softmax (A i) j * softmax (A j) j)) = softmax (A i) j * (1 - softmax (A i) j) :=
    Option.some.inj v2
  rw [if_neg hj] at v2
  have p1 := softmax_pos (A i) j
  have p2 := softmax_pos (A j) j
  have p3 : softmax (A i) j ≤ 1 := by
    obtain ⟨m, rfl⟩ : ∃ p, m = p + 1 := ⟨m - 1, by omega⟩
    rw [← softmax_sum (A i)]
    exact Finset.single_le_sum (fun k _ => (softmax_pos (A i) k).le) (Finset.mem_univ j)
  have := mul_pos p1 p2
  have v4 : softmax (A i) j * (1 - softmax (A i) j) < 0 := by linarith
  nlinarith

/-- A matrix that meets the hypotheses. -/
example : (Heap.ofLists (0 : ℝ) [] [(2, 2, [1, 2, -3, 0])]).WF ∧ IsMat (Heap.ofLists (0 : ℝ) [] [(2, 2, [1, 2, -3, 0])]) 0 (fun i j => ![![1, 2], ![-3, 0]] i j : Matrix (Fin 2) (Fin 2) ℝ) ∧
    (Heap.ofLists (0 : ℝ) [] [(2, 2, [1, 2, -3, 0])]).live (.m 0) := by
  refine ⟨Heap.ofLists_wf _ _ _ (by simp), ⟨by simp [Heap.ofLists], fun i j => ?_⟩, by simp [Heap.ofLists, Heap.live, Loc.id]⟩
  fin_cases i <;> fin_cases j <;> simp [Heap.ofLists]

end Verif
