import Verif.Lemmas.Eigen
import Verif.Props.MatrixAlgebra
import Verif.Props.LinAlgElementwise

/-! # Running `svd` -/

namespace Verif
open Spec
variable {n m : Nat} {h : Heap ℝ} {a b : Ref}

namespace Hd

theorem element_getm_out (w : h.WF) {A : Matrix (Fin m) (Fin n) ℝ} (ha : HasM h a A) (i j : Nat) :
    element_getm a (i : Nat) (j : Nat) h = .ok (if q : i < m ∧ j < n then A ⟨i, q.1⟩ ⟨j, q.2⟩ else 0, h) := by
  by_cases q : i < m ∧ j < n
  · rw [dif_pos q]
    exact element_getm_run w ha ⟨i, q.1⟩ ⟨j, q.2⟩
  · rw [dif_neg q]
    obtain ⟨x, rfl, l, hA⟩ := ha
    show Mat.element_get x (i : Nat) (j : Nat) h = _
    unfold Mat.element_get
    rw [bind_ok (Mat.size_run x h), hA.1]
    dsimp only
    by_cases c : idxOk (j : Int) n
    · have c2 : ¬ idxOk (i : Int) m := by
        simp only [idxOk_iff] at c ⊢
        intro hc
        exact q ⟨Int.ofNat_lt.mp hc.2, Int.ofNat_lt.mp c.2⟩
      rw [if_pos c, if_neg c2]; rfl
    · rw [if_neg c]; rfl

theorem element_setm_any (w : h.WF) {A : Matrix (Fin m) (Fin n) ℝ} (ha : HasM h a A) (i j : Nat) (x : ℝ) :
    Runs (element_setm a (i : Nat) (j : Nat) x) h fun _ h' => h'.WF ∧ Keeps h h' (some · = a) ∧
      HasM h' a (fun i' j' => if i'.val = i ∧ j'.val = j then x else A i' j') := by
  by_cases q : i < m ∧ j < n
  · refine (element_setm_run w ha ⟨i, q.1⟩ ⟨j, q.2⟩ x).mono fun _ h' ⟨w', k', hA'⟩ => ⟨w', k', cast (congrArg _ ?_) hA'⟩
    funext i' j'
    simp [Fin.ext_iff]
  · obtain ⟨y, rfl, l, hA⟩ := ha
    have e : element_setm (some (.m y)) (i : Nat) (j : Nat) x h = .ok ((), h) := by
      show Mat.element_set y (i : Nat) (j : Nat) x h = _
      unfold Mat.element_set
      rw [bind_ok (Mat.size_run y h), hA.1]
      dsimp only
      by_cases c : idxOk (j : Int) n
      · have c2 : ¬ idxOk (i : Int) m := by
          simp only [idxOk_iff] at c ⊢
          intro hc
          exact q ⟨Int.ofNat_lt.mp hc.2, Int.ofNat_lt.mp c.2⟩
        rw [if_pos c, if_neg c2]; rfl
      · rw [if_neg c]; rfl
    refine Runs.of_eq e ⟨w, Keeps.refl _ _, y, rfl, l, cast (congrArg _ ?_) hA⟩
    funext i' j'
    rw [if_neg]
    intro z
    exact q ⟨z.1 ▸ i'.isLt, z.2 ▸ j'.isLt⟩

end Hd

namespace Eigen

/-- The square roots of `D`, cut or filled up with zeros to `n` columns. -/
noncomputable def sigmaOf (D : Matrix (Fin m) (Fin m) ℝ) : Matrix (Fin m) (Fin n) ℝ := fun i j =>
  if q : j.val < m then Real.sqrt (D i ⟨j, q⟩) else 0

/-- The loop of `MLPPMatrix::svd` that fills `sigma`. -/
theorem sigma_run (w : h.WF) {T : Matrix (Fin m) (Fin m) ℝ} (hT : HasM h b T) (ha : HasM h a (fun (_ : Fin m) (_ : Fin n) => (0 : ℝ))) (ne : b ≠ a) :
    Runs (forN m fun i => forN m fun j => do
      let x ← Hd.element_getm b (i : Nat) (j : Nat)
      Hd.element_setm a (i : Nat) (j : Nat) x) h fun _ h' => h'.WF ∧ Keeps h h' (some · = a) ∧
        HasM h' a (fun (i : Fin m) (j : Fin n) => if q : j.val < m then T i ⟨j, q⟩ else 0) := by
  refine (Runs.forN m (fun k h' => h'.WF ∧ Keeps h h' (some · = a) ∧ HasM h' a (fun (i : Fin m) (j : Fin n) =>
    if q : j.val < m then if i.val < k then T i ⟨j, q⟩ else 0 else 0)) _ h ⟨w, Keeps.refl h _, by simpa using ha⟩ ?_).mono
      fun _ h' ⟨w', k', q⟩ => ⟨w', k', by simpa using q⟩
  intro i h1 hi ⟨w1, k1, q1⟩
  refine (Runs.forN m (fun c h' => h'.WF ∧ Keeps h h' (some · = a) ∧ HasM h' a (fun (i' : Fin m) (j : Fin n) =>
    if q : j.val < m then if i'.val < i ∨ (i'.val = i ∧ j.val < c) then T i' ⟨j, q⟩ else 0 else 0)) _ h1 ⟨w1, k1, by simpa using q1⟩ ?_).mono ?_
  · intro j h2 hj ⟨w2, k2, q2⟩
    refine Runs.step (Hd.element_getm_run w2 (hT.offm k2 ne) ⟨i, hi⟩ ⟨j, hj⟩) ?_
    refine (Hd.element_setm_any w2 q2 i j _).mono fun _ h3 ⟨w3, k3, q3⟩ => ⟨w3, k2.trans k3, cast (congrArg _ ?_) q3⟩
    funext i' j'
    by_cases e : i'.val = i ∧ j'.val = j
    · have ei : i' = ⟨i, hi⟩ := Fin.ext e.1
      subst ei
      obtain ⟨-, e⟩ := e
      simp [e, hj]
    · rw [if_neg e]
      have : (i'.val < i ∨ (i'.val = i ∧ j'.val < j + 1)) ↔ (i'.val < i ∨ (i'.val = i ∧ j'.val < j)) := by omega
      simp only [this]
  · intro _ h2 ⟨w2, k2, q2⟩
    refine ⟨w2, k2, cast (congrArg _ ?_) q2⟩
    funext i' j'
    split
    · next q =>
      have : (i'.val < i ∨ (i'.val = i ∧ j'.val < m)) ↔ i'.val < i + 1 := by omega
      simp only [this]
    · rfl

/-- What `svd` gives. -/
def SvdPost (k : Nat) (A : Matrix (Fin m) (Fin n) ℝ) (h : Heap ℝ) (r : Option SvdResult) (h' : Heap ℝ) : Prop :=
  h'.WF ∧ Keeps h h' (fun _ => False) ∧
    match jac k (A * A.transpose) 1, jac k (A.transpose * A) 1 with
    | some (B1, W1), some (B2, W2) => ∃ (e : SvdResult) (D1 U : Matrix (Fin m) (Fin m) ℝ) (D2 V : Matrix (Fin n) (Fin n) ℝ), r = some e ∧
        NotIn h e.U ∧ NotIn h e.S ∧ NotIn h e.Vt ∧
        HasM h' e.U U ∧ HasM h' e.S (sigmaOf D1 : Matrix (Fin m) (Fin n) ℝ) ∧ HasM h' e.Vt V ∧ Arranged B1 W1 D1 U ∧ Arranged B2 W2 D2 V
    | _, _ => r = none

theorem matSvd_run (hm : 2 ≤ m) (hn : 2 ≤ n) (w : h.WF) (k : Nat) {A : Matrix (Fin m) (Fin n) ℝ} (ha : HasM h a A) :
    Runs (matSvd k a) h (SvdPost k A h) := by
  unfold matSvd
  refine stepM (Hd.transposen_spec w ha) fun At h1 w1 k1 f1 hAt => ?_
  nw f1 k1
  refine stepM (Hd.multn_spec w1 ha hAt) fun AAt h2 w2 k2 f2 hAAt => ?_
  have K2 := k1.trans k2
  have M2 : ∀ r, NotIn h2 r → NotIn h r := fun r f => f.mono K2
  nw f2 k2
  refine Runs.bind ((eigen_run (matOps_ok hm) hm w2 k hAAt).mono fun r h3 ⟨w3, k3, q⟩ => ?_)
  have K3 := K2.trans k3
  adv k3
  refine stepM (Hd.transposen_spec w3 ha) fun At2 h4 w4 k4 f4 hAt2 => ?_
  have K4 := K3.trans k4
  nw f4 k4
  refine stepM (Hd.multn_spec w4 hAt2 ha) fun AtA h5 w5 k5 f5 hAtA => ?_
  have K5 := K4.trans k5
  have M5 : ∀ r, NotIn h5 r → NotIn h r := fun r f => f.mono K5
  nw f5 k5
  refine Runs.bind ((eigen_run (matOps_ok hn) hn w5 k hAtA).mono fun r2 h6 ⟨w6, k6, q'⟩ => ?_)
  have K6 := K5.trans k6
  adv k6
  unfold SvdPost
  cases e1 : jac k (A * A.transpose) 1 with
  | none =>
    rw [e1] at q
    subst q
    dsimp only
    exact Runs.of_eq rfl ⟨w6, K6, rfl⟩
  | some BW =>
    obtain ⟨B1, W1⟩ := BW
    rw [e1] at q
    obtain ⟨l, D1, U, rfl, fl1, fl2, nel, hD1, hU, ar1⟩ := q
    have fU := M2 _ fl2
    have hD1 := hD1.keep k4 (fun _ _ q => q)
    have hU := hU.keep k4 (fun _ _ q => q)
    cases e2 : jac k (A.transpose * A) 1 with
    | none =>
      rw [e2] at q'
      subst q'
      dsimp only
      exact Runs.of_eq rfl ⟨w6, K6, rfl⟩
    | some BW2 =>
      obtain ⟨B2, W2⟩ := BW2
      rw [e2] at q'
      obtain ⟨l2, D2, V, rfl, fr1, fr2, ner, hD2, hV, ar2⟩ := q'
      have fV := M5 _ fr2
      dsimp only
      refine stepM (Hd.sqrtnm_spec w6 hD1) fun sv h7 w7 k7 f7 hsv => ?_
      have K7 := K6.trans k7
      nw f7 k7
      refine Runs.step (Hd.sizem_run ha) ?_
      refine stepM (C26_constant h7 w7 m n 0).1 fun sg h8 w8 k8 f8 hsg => ?_
      have fS := f8.mono K7
      have K8 := K7.trans k8
      have n1 := f8.neM hU
      have n2 := f8.neM hV
      have n3 := f8.neM hsv
      nw f8 k8
      refine Runs.step (Hd.sizem_run hsv) ?_
      refine Runs.bind ((sigma_run w8 hsv hsg n3).mono fun _ h9 ⟨w9, k9, hS⟩ => ?_)
      refine Runs.of_eq rfl ⟨w9, K8.wr_new k9 fS, _, D1, U, D2, V, rfl, fU, fS, fV, hU.offm k9 n1, ?_, hV.offm k9 n2, ar1, ar2⟩
      exact hS

theorem linAlgSvd_run (hm : 2 ≤ m) (hn : 2 ≤ n) (w : h.WF) (k : Nat) {A : Matrix (Fin m) (Fin n) ℝ} (ha : HasM h a A) :
    Runs (linAlgSvd k a) h (SvdPost k A h) := by
  obtain ⟨o, rfl, la, hA⟩ := ha
  unfold linAlgSvd
  dsimp only
  refine Runs.step (Hd.sizem_run ⟨o, rfl, la, hA⟩) ?_
  refine stepM (LinAlg.transposenm_spec w hA la) fun At h1 w1 k1 f1 hAt => ?_
  have ha : HasM h1 (some (.m o)) A := HasM.keep ⟨o, rfl, la, hA⟩ k1 (fun _ _ q => q)
  have mulM : ∀ {p q r : Nat} {h : Heap ℝ} {a b : Ref} {A : Matrix (Fin p) (Fin q) ℝ} {B : Matrix (Fin q) (Fin r) ℝ}, h.WF → HasM h a A → HasM h b B →
      ReturnsMat (LinAlg.matmultnm a b) h (A * B) :=
    fun w ⟨_, e, l, i⟩ ⟨_, e', l', i'⟩ => by subst e; subst e'; exact LinAlg.matmultnm_spec w i i' l l'
  have trM : ∀ {p q : Nat} {h : Heap ℝ} {a : Ref} {A : Matrix (Fin p) (Fin q) ℝ}, h.WF → HasM h a A → ReturnsMat (LinAlg.transposenm a) h A.transpose :=
    fun w ⟨_, e, l, i⟩ => by subst e; exact LinAlg.transposenm_spec w i l
  have sqM : ∀ {p q : Nat} {h : Heap ℝ} {a : Ref} {A : Matrix (Fin p) (Fin q) ℝ}, h.WF → HasM h a A →
      ReturnsMat (LinAlg.sqrtnm a) h (A.map Real.sqrt) :=
    fun w ⟨_, e, l, i⟩ => by subst e; exact Mat.un_spec Real.sqrt w i l
  refine stepM (mulM w1 ha hAt) fun AAt h2 w2 k2 f2 hAAt => ?_
  have K2 := k1.trans k2
  have M2 : ∀ r, NotIn h2 r → NotIn h r := fun r f => f.mono K2
  nw f2 k2
  refine Runs.bind ((eigen_run (linAlgOps_ok hm) hm w2 k hAAt).mono fun r h3 ⟨w3, k3, q⟩ => ?_)
  have K3 := K2.trans k3
  adv k3
  refine stepM (trM w3 ha) fun At2 h4 w4 k4 f4 hAt2 => ?_
  have K4 := K3.trans k4
  nw f4 k4
  refine stepM (mulM w4 hAt2 ha) fun AtA h5 w5 k5 f5 hAtA => ?_
  have K5 := K4.trans k5
  have M5 : ∀ r, NotIn h5 r → NotIn h r := fun r f => f.mono K5
  nw f5 k5
  refine Runs.bind ((eigen_run (linAlgOps_ok hn) hn w5 k hAtA).mono fun r2 h6 ⟨w6, k6, q'⟩ => ?_)
  have K6 := K5.trans k6
  adv k6
  unfold SvdPost
  cases e1 : jac k (A * A.transpose) 1 with
  | none =>
    rw [e1] at q
    subst q
    dsimp only
    exact Runs.of_eq rfl ⟨w6, K6, rfl⟩
  | some BW =>
    obtain ⟨B1, W1⟩ := BW
    rw [e1] at q
    obtain ⟨l, D1, U, rfl, fl1, fl2, nel, hD1, hU, ar1⟩ := q
    have fU := M2 _ fl2
    have hD1 := hD1.keep k4 (fun _ _ q => q)
    have hU := hU.keep k4 (fun _ _ q => q)
    cases e2 : jac k (A.transpose * A) 1 with
    | none =>
      rw [e2] at q'
      subst q'
      dsimp only
      exact Runs.of_eq rfl ⟨w6, K6, rfl⟩
    | some BW2 =>
      obtain ⟨B2, W2⟩ := BW2
      rw [e2] at q'
      obtain ⟨l2, D2, V, rfl, fr1, fr2, ner, hD2, hV, ar2⟩ := q'
      have fV := M5 _ fr2
      dsimp only
      refine stepM (sqM w6 hD1) fun sv h7 w7 k7 f7 hsv => ?_
      have K7 := K6.trans k7
      nw f7 k7
      have hz : ReturnsMat (LinAlg.zeromatnm (R := ℝ) m n) h7 (fun (_ : Fin m) (_ : Fin n) => (0 : ℝ)) := Mat.const_spec w7 m n (0 : ℝ)
      refine stepM hz fun sg h8 w8 k8 f8 hsg => ?_
      have fS := f8.mono K7
      have K8 := K7.trans k8
      have n1 := f8.neM hU
      have n2 := f8.neM hV
      have n3 := f8.neM hsv
      nw f8 k8
      refine Runs.step (Hd.sizem_run hsg) ?_
      have key := Hd.grid_run w8 hsg (fun i j _ => (sigmaOf D1 : Matrix (Fin m) (Fin n) ℝ) i j) (fun i j => do
        let x ← Hd.element_getm sv (i : Nat) (j : Nat)
        Hd.element_setm sg (i : Nat) (j : Nat) x) fun i j h' F w' k' hF => ?_
      · refine Runs.bind (key.mono fun _ h9 ⟨w9, k9, hS⟩ => ?_)
        exact Runs.of_eq rfl ⟨w9, K8.wr_new k9 fS, _, D1, U, D2, V, rfl, fU, fS, fV, hU.offm k9 n1, hS, hV.offm k9 n2, ar1, ar2⟩
      · refine Runs.step (Hd.element_getm_out w' (hsv.offm k' n3) i j) ?_
        refine cast ?_ (Hd.element_setm_run w' hF i j ((sigmaOf D1 : Matrix (Fin m) (Fin n) ℝ) i j))
        congr 2
        unfold sigmaOf
        by_cases q : j.val < m
        · rw [dif_pos q, dif_pos ⟨i.isLt, q⟩]; rfl
        · rw [dif_neg q, dif_neg (fun z => q z.2)]

end Eigen
end Verif
