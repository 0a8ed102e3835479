import Verif.Lemmas.EigenMath
import Verif.Lemmas.KMeans
import Verif.Lemmas.LinAlgMatrix
import Verif.Lemmas.Harris
import Verif.Props.MatrixRows

/-! # Running `eigen` -/

namespace Verif
open Spec
variable {n m : Nat} {h : Heap ℝ} {a b : Ref}

namespace Hd

theorem duplicate_fastm_spec (w : h.WF) {A : Matrix (Fin m) (Fin n) ℝ} (ha : HasM h a A) : ReturnsMat (duplicate_fastm a) h A := by
  obtain ⟨x, rfl, l, i⟩ := ha
  exact Mat.un_spec id w i l

theorem sqrtnm_spec (w : h.WF) {A : Matrix (Fin m) (Fin n) ℝ} (ha : HasM h a A) :
    ReturnsMat (sqrtnm a) h (fun i j => Real.sqrt (A i j)) := by
  obtain ⟨x, rfl, l, i⟩ := ha
  exact Mat.un_spec Real.sqrt w i l

theorem is_equal_approxm_run (w : h.WF) {A B : Matrix (Fin m) (Fin n) ℝ} (ha : HasM h a A) (hb : HasM h b B) (tol : ℝ) (ne : a ≠ b) :
    ∃ r, is_equal_approxm a b tol h = .ok (r, h) ∧ (r = true ↔ ∀ i j, A i j = B i j ∨ |A i j - B i j| < tol) := by
  obtain ⟨x, rfl, l, hA⟩ := ha
  obtain ⟨y, rfl, l', hB⟩ := hb
  obtain ⟨r, e, q, -⟩ := C16_matrix_is_equal_approx h w x y tol
  refine ⟨r, e, q.trans ?_⟩
  have nxy : x ≠ y := fun e => ne (by rw [e])
  obtain ⟨F, eF, cA⟩ := hA.cells w
  obtain ⟨G, eG, cB⟩ := hB.cells w
  simp only [nxy, false_or]
  rw [hA.1, hB.1]
  simp only [true_and]
  constructor
  · intro c i j
    exact c _ _ _ (hA.2 i j) (hB.2 i j)
  · intro c k u v hu hv
    rw [cA.2] at hu
    rw [cB.2] at hv
    simp only [SortArray.tab, List.getElem?_map, Option.map_eq_some_iff, List.getElem?_range, flat] at hu hv
    obtain ⟨k1, e1, rfl⟩ := hu
    obtain ⟨k2, e2, rfl⟩ := hv
    have hk : k < n * m ∧ k = k1 := by
      by_cases lt : k < n * m
      · rw [List.getElem?_range lt] at e1
        exact ⟨lt, Option.some.inj e1⟩
      · rw [List.getElem?_eq_none (by simpa using lt)] at e1; cases e1
    have hk2 : k = k2 := by
      rw [List.getElem?_range hk.1] at e2; exact Option.some.inj e2
    obtain ⟨lt, rfl⟩ := hk
    subst hk2
    have hn : 0 < n := Nat.pos_of_ne_zero fun z => by subst z; simp at lt
    have h1 : k / n < m := Nat.div_lt_of_lt_mul lt
    have h2 : k % n < n := Nat.mod_lt _ hn
    have := c ⟨_, h1⟩ ⟨_, h2⟩
    rw [eF, eG] at this
    exact this

/-- A loop over the cells of a matrix that replaces each by a function of it. -/
theorem grid_run (w : h.WF) {A : Matrix (Fin m) (Fin n) ℝ} (ha : HasM h a A) (g : Fin m → Fin n → ℝ → ℝ) (body : Nat → Nat → M ℝ Unit)
    (hb : ∀ (i : Fin m) (j : Fin n) h' (F : Matrix (Fin m) (Fin n) ℝ), h'.WF → Keeps h h' (some · = a) → HasM h' a F →
      Runs (body i j) h' fun _ h'' => h''.WF ∧ Keeps h' h'' (some · = a) ∧
        HasM h'' a (fun i' j' => if i' = i ∧ j' = j then g i j (F i j) else F i' j')) :
    Runs (forN m fun i => forN n (body i)) h fun _ h' => h'.WF ∧ Keeps h h' (some · = a) ∧ HasM h' a (fun i j => g i j (A i j)) := by
  refine (Runs.forN m (fun k h' => h'.WF ∧ Keeps h h' (some · = a) ∧ HasM h' a (fun i j => if i.val < k then g i j (A i j) else A i j)) _ h
    ⟨w, Keeps.refl h _, by simpa using ha⟩ ?_).mono fun _ h' ⟨w', k', q⟩ => ⟨w', k', by simpa using q⟩
  intro i h1 hi ⟨w1, k1, q1⟩
  refine (Runs.forN n (fun k h' => h'.WF ∧ Keeps h h' (some · = a) ∧ HasM h' a (fun i' j =>
    if i'.val < i ∨ (i'.val = i ∧ j.val < k) then g i' j (A i' j) else A i' j)) _ h1 ⟨w1, k1, by simpa using q1⟩ ?_).mono ?_
  · intro j h2 hj ⟨w2, k2, q2⟩
    refine (hb ⟨i, hi⟩ ⟨j, hj⟩ h2 _ w2 k2 q2).mono fun _ h3 ⟨w3, k3, q3⟩ => ⟨w3, k2.trans k3, ?_⟩
    refine cast (congrArg _ ?_) q3
    funext i' j'
    by_cases e : i' = ⟨i, hi⟩ ∧ j' = ⟨j, hj⟩
    · obtain ⟨rfl, rfl⟩ := e; simp
    · rw [if_neg e]
      have : (i'.val < i ∨ (i'.val = i ∧ j'.val < j + 1)) ↔ (i'.val < i ∨ (i'.val = i ∧ j'.val < j)) := by
        simp only [Fin.ext_iff] at e; omega
      simp only [this]
  · intro _ h2 ⟨w2, k2, q2⟩
    refine ⟨w2, k2, cast (congrArg _ ?_) q2⟩
    funext i' j'
    have : (i'.val < i ∨ (i'.val = i ∧ j'.val < n)) ↔ i'.val < i + 1 := by have := j'.isLt; omega
    simp only [this]

end Hd

namespace Eigen

/-- The three functions do what their names say. -/
structure Ops.Ok (ops : Ops) (n : Nat) : Prop where
  eye : ∀ {h : Heap ℝ}, h.WF → ReturnsMat (ops.eye n) h (1 : Matrix (Fin n) (Fin n) ℝ)
  mul : ∀ {h : Heap ℝ} {a b : Ref} {A B : Matrix (Fin n) (Fin n) ℝ}, h.WF → HasM h a A → HasM h b B → ReturnsMat (ops.mul a b) h (A * B)
  inv : ∀ {h : Heap ℝ} {a : Ref} {A : Matrix (Fin n) (Fin n) ℝ}, h.WF → HasM h a A → ReturnsMat (ops.inv a) h A⁻¹

theorem matOps_ok (hn : 2 ≤ n) : matOps.Ok n :=
  ⟨fun w => Mat.identity_mat_spec w n, fun w ha hb => Hd.multn_spec w ha hb, fun w ha => Hd.inverse_spec w hn ha⟩

theorem linAlgOps_ok (hn : 2 ≤ n) : linAlgOps.Ok n :=
  ⟨fun w => LinAlg.identitym_spec w n,
    fun w ⟨_, e, l, i⟩ ⟨_, e', l', i'⟩ => by subst e; subst e'; exact LinAlg.matmultnm_spec w i i' l l',
    fun w ⟨_, e, l, i⟩ => by subst e; exact LinAlg.inversenm_spec powNegOne_real w hn i l⟩

theorem pivot_run (w : h.WF) {A : Matrix (Fin n) (Fin n) ℝ} (ha : HasM h a A) (hn : 2 ≤ n) :
    pivot a ⟨n, n, 1⟩ h = .ok (pivotOf A, h) := by
  unfold pivot
  have h0 : 0 < n := by omega
  have h1 : 1 < n := by omega
  have e0 : Hd.element_getm a 0 1 h = .ok (at0 A 0 1, h) := by
    refine (Hd.element_getm_run w ha ⟨0, h0⟩ ⟨1, h1⟩).trans ?_
    simp [at0, h0, h1]
  rw [bind_ok e0]
  refine foldN_read n (fun i => pivotRows A i) _ _ h rfl fun i hi => ?_
  have e : pivotRows A (i + 1) = pivotRow A i (pivotRows A i) n := by
    unfold pivotRows
    rw [List.range_succ, List.foldl_append]; rfl
  rw [e]
  refine foldN_read n (fun j => pivotRow A i (pivotRows A i) j) _ _ h rfl fun j hj => ?_
  have e2 : pivotRow A i (pivotRows A i) (j + 1) = pivotStep i j (at0 A i j) (pivotRow A i (pivotRows A i) j) := by
    unfold pivotRow
    rw [List.range_succ, List.foldl_append]; rfl
  rw [e2, bind_ok (Hd.element_getm_run w ha ⟨i, hi⟩ ⟨j, hj⟩), at0, dif_pos ⟨hi, hj⟩]
  rfl

theorem rotation_spec {ops : Ops} (ok : ops.Ok n) (w : h.WF) (i j : Fin n) (θ : ℝ) : ReturnsMat (rotation ops n i j θ) h (rot i j θ) := by
  unfold rotation
  refine ReturnsMat.of_has ?_
  refine stepM (ok.eye w) fun P h1 w1 k1 f1 hP => ?_
  refine Runs.bind ((Hd.element_setm_run w1 hP i j _).mono fun _ h2 ⟨w2, k2, hP2⟩ => ?_)
  refine Runs.bind ((Hd.element_setm_run w2 hP2 i i _).mono fun _ h3 ⟨w3, k3, hP3⟩ => ?_)
  refine Runs.bind ((Hd.element_setm_run w3 hP3 j j _).mono fun _ h4 ⟨w4, k4, hP4⟩ => ?_)
  refine Runs.bind ((Hd.element_setm_run w4 hP4 j i _).mono fun _ h5 ⟨w5, k5, hP5⟩ => ?_)
  refine Runs.of_eq rfl ⟨w5, ?_, f1, ?_⟩
  · exact k1.wr_new (((k2.trans k3).trans k4).trans k5) f1
  · refine cast (congrArg _ ?_) hP5
    funext x y
    simp only [rot, Matrix.one_apply]
    rfl

theorem erase_run (w : h.WF) {A : Matrix (Fin n) (Fin n) ℝ} (ha : HasM h a A) :
    Runs (erase a ⟨n, n, 1⟩) h fun _ h' => h'.WF ∧ Keeps h h' (some · = a) ∧ HasM h' a (clean A) := by
  refine Hd.grid_run w ha (fun i j x => if i ≠ j ∧ small x = true then 0 else x) _ fun i j h' F w' k' hF => ?_
  by_cases c : i = j
  · subst c
    rw [if_neg (by simp)]
    refine Runs.of_eq rfl ⟨w', Keeps.refl _ _, cast (congrArg _ ?_) hF⟩
    funext i' j'
    split
    · next q => obtain ⟨rfl, rfl⟩ := q; simp
    · rfl
  · have c' : i.val ≠ j.val := fun e => c (Fin.ext e)
    rw [if_pos c']
    refine Runs.step (Hd.element_getm_run w' hF i j) ?_
    by_cases s : small (F i j) = true
    · rw [if_pos s]
      refine (Hd.element_setm_run w' hF i j 0).mono fun _ h'' ⟨w'', k'', q⟩ => ⟨w'', k'', cast (congrArg _ ?_) q⟩
      simp only [if_pos (show i ≠ j ∧ small (F i j) = true from ⟨c, s⟩)]
    · rw [if_neg s]
      refine Runs.of_eq rfl ⟨w', Keeps.refl _ _, cast (congrArg _ ?_) hF⟩
      funext i' j'
      rw [if_neg (fun (q : i ≠ j ∧ small (F i j) = true) => s q.2)]
      split
      · next q => rw [q.1, q.2]
      · rfl

theorem eraseAll_run (w : h.WF) {A : Matrix (Fin n) (Fin n) ℝ} (ha : HasM h a A) :
    Runs (eraseAll a ⟨n, n, 1⟩) h fun _ h' => h'.WF ∧ Keeps h h' (some · = a) ∧ HasM h' a (diagPart A) := by
  refine Hd.grid_run w ha (fun i j x => if i ≠ j then 0 else x) _ fun i j h' F w' k' hF => ?_
  by_cases c : i = j
  · subst c
    rw [if_neg (by simp)]
    refine Runs.of_eq rfl ⟨w', Keeps.refl _ _, cast (congrArg _ ?_) hF⟩
    funext i' j'
    split
    · next q => obtain ⟨rfl, rfl⟩ := q; simp
    · rfl
  · have c' : i.val ≠ j.val := fun e => c (Fin.ext e)
    rw [if_pos c']
    refine (Hd.element_setm_run w' hF i j 0).mono fun _ h'' ⟨w'', k'', q⟩ => ⟨w'', k'', cast (congrArg _ ?_) q⟩
    simp only [if_pos c]

open Classical in
theorem nonZero_run (w : h.WF) {A : Matrix (Fin n) (Fin n) ℝ} (ha : HasM h a A) :
    ∃ r, nonZero a ⟨n, n, 1⟩ h = .ok (r, h) ∧ (r = true ↔ NonZero A) := by
  unfold nonZero
  have key := foldN_read (R := ℝ) n (fun i => decide (∃ x y : Fin n, x.val < i ∧ x ≠ y ∧ small (A x y) = true)) (fun i b => foldN n b fun j b =>
    if i ≠ j then do
      let x ← Hd.element_getm a (i : Nat) (j : Nat)
      pure (if small x then true else b)
    else pure b) false h (by simp) fun i hi => ?_
  · exact ⟨_, key, by simp [NonZero]⟩
  · have e : decide (∃ x y : Fin n, x.val < i + 1 ∧ x ≠ y ∧ small (A x y) = true) =
        decide (∃ x y : Fin n, (x.val < i ∨ (x.val = i ∧ y.val < n)) ∧ x ≠ y ∧ small (A x y) = true) := by
      congr 1
      refine propext ⟨fun ⟨x, y, l, q⟩ => ⟨x, y, by have := y.isLt; omega, q⟩, fun ⟨x, y, l, q⟩ => ⟨x, y, by omega, q⟩⟩
    rw [e]
    refine foldN_read n (fun j => decide (∃ x y : Fin n, (x.val < i ∨ (x.val = i ∧ y.val < j)) ∧ x ≠ y ∧ small (A x y) = true)) _ _ h
      (by simp) fun j hj => ?_
    by_cases c : i = j
    · subst c
      rw [if_neg (by simp)]
      show Out.ok _ = Out.ok _
      congr 3
      refine propext ⟨fun ⟨x, y, l, q⟩ => ⟨x, y, by omega, q⟩, fun ⟨x, y, l, q⟩ => ⟨x, y, ?_, q⟩⟩
      have : x.val ≠ y.val := fun e => q.1 (Fin.ext e)
      omega
    · rw [if_pos c, bind_ok (Hd.element_getm_run w ha ⟨i, hi⟩ ⟨j, hj⟩)]
      show Out.ok _ = Out.ok _
      congr 2
      by_cases s : small (A ⟨i, hi⟩ ⟨j, hj⟩) = true
      · rw [if_pos s, eq_comm, decide_eq_true_eq]
        exact ⟨⟨i, hi⟩, ⟨j, hj⟩, .inr ⟨rfl, by simp⟩, fun e => c (congrArg Fin.val e), s⟩
      · rw [if_neg s]
        congr 1
        refine propext ⟨fun ⟨x, y, l, q⟩ => ⟨x, y, by omega, q⟩, fun ⟨x, y, l, q⟩ => ⟨x, y, ?_, q⟩⟩
        rcases l with l | ⟨l, l'⟩
        · exact .inl l
        · refine .inr ⟨l, ?_⟩
          rcases Nat.lt_succ_iff_lt_or_eq.mp l' with z | z
          · exact z
          · exact absurd q.2 (by rw [show x = ⟨i, hi⟩ from Fin.ext l, show y = ⟨j, hj⟩ from Fin.ext z]; exact s)

theorem round_run {ops : Ops} (ok : ops.Ok n) (hn : 2 ≤ n) (w : h.WF) {A V : Matrix (Fin n) (Fin n) ℝ} (ha : HasM h a A) (hv : HasM h b V) :
    Runs (round ops ⟨n, n, 1⟩ a b) h fun r h' => h'.WF ∧ Keeps h h' (fun _ => False) ∧ r.1 = (stepOf A).1 ∧
      NotIn h r.2.1 ∧ NotIn h r.2.2 ∧ r.2.1 ≠ r.2.2 ∧ HasM h' r.2.1 (stepOf A).2 ∧ HasM h' r.2.2 (V * rotOf A) := by
  obtain ⟨i, j, hij, ep, eP⟩ := rotOf_eq A hn
  unfold round
  refine Runs.step (pivot_run w ha hn) ?_
  rw [ep]
  refine Runs.step (Hd.element_getm_run w ha i i) ?_
  refine Runs.step (Hd.element_getm_run w ha j j) ?_
  refine Runs.step (Hd.sizem_run ha) ?_
  refine stepM (rotation_spec ok w i j _) fun P h1 w1 k1 f1 hP => ?_
  rw [← eP] at hP
  nw f1 k1
  refine stepM (ok.inv w1 hP) fun Pi h2 w2 k2 f2 hPi => ?_
  have K2 := k1.trans k2
  nw f2 k2
  refine stepM (ok.mul w2 hPi ha) fun PiA h3 w3 k3 f3 hPiA => ?_
  have K3 := K2.trans k3
  nw f3 k3
  refine stepM (ok.mul w3 hPiA hP) fun An h4 w4 k4 f4 hAn => ?_
  have fAn := f4.mono K3
  have K4 := K3.trans k4
  nw f4 k4
  refine Runs.step (Hd.sizem_run hAn) ?_
  refine Runs.bind ((erase_run w4 hAn).mono fun _ h5 ⟨w5, k5, hN⟩ => ?_)
  have K5 := K4.wr_new k5 fAn
  clear hAn
  wr k5
  change HasM h5 An (nextOf A) at hN
  obtain ⟨nz, e1, q1⟩ := nonZero_run w5 hN
  refine Runs.step e1 ?_
  obtain ⟨eq, e2, q2⟩ := Hd.is_equal_approxm_run w5 hN ha eps (by assumption)
  refine Runs.step e2 ?_
  have q2' : eq = true ↔ Close (nextOf A) A := q2
  cases eq with
  | true =>
    have cl := q2'.mp rfl
    have es : stepOf A = (true, diagPart (nextOf A)) := if_pos cl
    rw [if_pos rfl]
    refine Runs.bind ((eraseAll_run w5 hN).mono fun _ h6 ⟨w6, k6, hD⟩ => ?_)
    have K6 := K5.wr_new k6 fAn
    clear hN
    wr k6
    refine stepM (ok.mul w6 hv hP) fun E h7 w7 k7 f7 hE => ?_
    have fE := f7.mono K6
    have ne := f7.neM hD
    refine Runs.of_eq rfl ⟨w7, K6.trans k7, by rw [es], fAn, fE, ne, ?_, hE⟩
    rw [es]
    exact hD.keep k7 (fun _ _ q => q)
  | false =>
    have cl : ¬ Close (nextOf A) A := fun c => Bool.false_ne_true (q2'.mpr c)
    have es : (stepOf A).1 = !nz ∧ (stepOf A).2 = nextOf A := by
      unfold stepOf
      rw [if_neg cl]
      refine ⟨congrArg not ?_, rfl⟩
      rw [Bool.eq_iff_iff, q1]; simp
    rw [if_neg Bool.false_ne_true]
    refine stepM (ok.mul w5 hv hP) fun E h7 w7 k7 f7 hE => ?_
    have fE := f7.mono K5
    have ne := f7.neM hN
    refine Runs.of_eq rfl ⟨w7, K5.trans k7, es.1.symm, fAn, fE, ne, ?_, hE⟩
    rw [es.2]
    exact hN.keep k7 (fun _ _ q => q)

theorem loop_run {ops : Ops} (ok : ops.Ok n) (hn : 2 ≤ n) : ∀ (k : Nat) {h : Heap ℝ} {a b : Ref} {A V : Matrix (Fin n) (Fin n) ℝ}, h.WF →
    HasM h a A → HasM h b V →
    Runs (loop ops ⟨n, n, 1⟩ k a b) h fun r h' => h'.WF ∧ Keeps h h' (fun _ => False) ∧
      match jac k A V with
      | none => r = none
      | some (B, W) => ∃ x y, r = some (x, y) ∧ NotIn h x ∧ NotIn h y ∧ x ≠ y ∧ HasM h' x B ∧ HasM h' y W
  | 0, h, a, b, A, V, w, _, _ => Runs.of_eq rfl ⟨w, Keeps.refl h _, rfl⟩
  | k + 1, h, a, b, A, V, w, ha, hv => by
    unfold loop
    refine Runs.bind ((round_run ok hn w ha hv).mono fun r h1 ⟨w1, k1, e, f1, f2, ne, h1a, h1v⟩ => ?_)
    obtain ⟨d, x, y⟩ := r
    dsimp only at e f1 f2 ne h1a h1v ⊢
    unfold jac
    by_cases c : (stepOf A).1 = true
    · rw [if_pos (e.trans c), if_pos c]
      exact Runs.of_eq rfl ⟨w1, k1, x, y, rfl, f1, f2, ne, h1a, h1v⟩
    · rw [if_neg (by rw [e]; exact c), if_neg c]
      refine (loop_run ok hn k w1 h1a h1v).mono fun r h2 ⟨w2, k2, q⟩ => ⟨w2, k1.trans k2, ?_⟩
      cases ej : jac k (stepOf A).2 (V * rotOf A) with
      | none => rw [ej] at q; exact q
      | some BW =>
        rw [ej] at q
        obtain ⟨B, W⟩ := BW
        obtain ⟨x', y', e', g1, g2, ne', q⟩ := q
        exact ⟨x', y', e', g1.mono k1, g2.mono k1, ne', q⟩

/-- The matrix `B` with the diagonal `d`. -/
def withDiag (B : Matrix (Fin n) (Fin n) ℝ) (d : Fin n → ℝ) : Matrix (Fin n) (Fin n) ℝ := fun i j => if i = j then d i else B i j

theorem withDiag_set (B : Matrix (Fin n) (Fin n) ℝ) (d : Fin n → ℝ) (p : Fin n) (x : ℝ) :
    (fun i j => if i = p ∧ j = p then x else withDiag B d i j) = withDiag B (fun i => if i = p then x else d i) := by
  funext i j
  unfold withDiag
  by_cases e : i = j
  · subst e; simp
  · have : ¬ (i = p ∧ j = p) := fun q => e (q.1.trans q.2.symm)
    simp [e, this]

/-- The bubble sort arranges the diagonal in descending order. -/
theorem sort_run (w : h.WF) {B : Matrix (Fin n) (Fin n) ℝ} (ha : HasM h a B) :
    Runs (sortDiagonal a ⟨n, n, 1⟩) h fun _ h' => h'.WF ∧ Keeps h h' (some · = a) ∧ ∃ σ : Equiv.Perm (Fin n),
      (∀ i j, i ≤ j → B (σ j) (σ j) ≤ B (σ i) (σ i)) ∧ HasM h' a (withDiag B fun i => B (σ i) (σ i)) := by
  refine (Runs.forN (n - 1) (fun k h' => h'.WF ∧ Keeps h h' (some · = a) ∧ ∃ σ : Equiv.Perm (Fin n),
      (∀ i j, i ≤ j → n - k ≤ j.val → B (σ j) (σ j) ≤ B (σ i) (σ i)) ∧ HasM h' a (withDiag B fun i => B (σ i) (σ i))) _ h
    ⟨w, Keeps.refl h _, 1, fun i j _ l => by have := j.isLt; omega, ?_⟩ ?_).mono ?_
  · refine cast (congrArg _ ?_) ha
    funext i j
    unfold withDiag
    split
    · next e => subst e; rfl
    · rfl
  · intro k h1 hk ⟨w1, k1, σ1, s1, q1⟩
    refine (Runs.forN (n - 1 - k) (fun c h' => h'.WF ∧ Keeps h h' (some · = a) ∧ ∃ σ : Equiv.Perm (Fin n),
      (∀ i j, i ≤ j → n - k ≤ j.val → B (σ j) (σ j) ≤ B (σ i) (σ i)) ∧
      (∀ i j, i ≤ j → j.val = c → B (σ j) (σ j) ≤ B (σ i) (σ i)) ∧ HasM h' a (withDiag B fun i => B (σ i) (σ i))) _ h1
      ⟨w1, k1, σ1, s1, fun i j l e => by rw [show i = j from Fin.ext (by have : i.val ≤ j.val := l; omega)], q1⟩ ?_).mono ?_
    · intro c h2 hc ⟨w2, k2, σ, s2, m2, q2⟩
      have c0 : c < n := by omega
      have c1 : c + 1 < n := by omega
      have e1 := Hd.element_getm_run w2 q2 ⟨c, c0⟩ ⟨c, c0⟩
      have e2 := Hd.element_getm_run w2 q2 ⟨c + 1, c1⟩ ⟨c + 1, c1⟩
      simp only [withDiag, if_true] at e1 e2
      refine Runs.step e1 (Runs.step e2 ?_)
      split
      · next lt =>
        refine Runs.bind ((Hd.element_setm_run w2 q2 ⟨c + 1, c1⟩ ⟨c + 1, c1⟩ _).mono fun _ h3 ⟨w3, k3, q3⟩ => ?_)
        rw [withDiag_set] at q3
        refine (Hd.element_setm_run w3 q3 ⟨c, c0⟩ ⟨c, c0⟩ _).mono fun _ h4 ⟨w4, k4, q4⟩ => ?_
        rw [withDiag_set] at q4
        refine ⟨w4, (k2.trans k3).trans k4, σ * Equiv.swap ⟨c, c0⟩ ⟨c + 1, c1⟩, ?_, ?_, cast (congrArg _ (congrArg _ ?_)) q4⟩
        · intro i j hij hj
          have hj1 : j ≠ ⟨c, c0⟩ := fun e => by rw [e] at hj; simp at hj; omega
          have hj2 : j ≠ ⟨c + 1, c1⟩ := fun e => by rw [e] at hj; simp at hj; omega
          simp only [Equiv.Perm.mul_apply]
          rw [Equiv.swap_apply_of_ne_of_ne hj1 hj2]
          refine s2 _ _ ?_ hj
          by_cases i1 : i = ⟨c, c0⟩
          · rw [i1, Equiv.swap_apply_left]; exact Fin.mk_le_of_le_val (by omega)
          · by_cases i2 : i = ⟨c + 1, c1⟩
            · rw [i2, Equiv.swap_apply_right]; exact Fin.mk_le_of_le_val (by omega)
            · rw [Equiv.swap_apply_of_ne_of_ne i1 i2]; exact hij
        · intro i j hij hj
          have ej : j = ⟨c + 1, c1⟩ := Fin.ext hj
          subst ej
          simp only [Equiv.Perm.mul_apply, Equiv.swap_apply_right]
          by_cases i1 : i = ⟨c, c0⟩
          · rw [i1, Equiv.swap_apply_left]; exact lt.le
          · by_cases i2 : i = ⟨c + 1, c1⟩
            · rw [i2, Equiv.swap_apply_right]
            · rw [Equiv.swap_apply_of_ne_of_ne i1 i2]
              refine m2 i ⟨c, c0⟩ ?_ rfl
              have l : i.val ≤ c + 1 := hij
              have : i.val ≠ c + 1 := fun e => i2 (Fin.ext e)
              exact Fin.mk_le_of_le_val (by simp; omega)
        · funext i
          simp only [Equiv.Perm.mul_apply]
          by_cases i1 : i = ⟨c, c0⟩
          · rw [if_pos i1, i1, Equiv.swap_apply_left]
          · by_cases i2 : i = ⟨c + 1, c1⟩
            · rw [if_neg i1, if_pos i2, i2, Equiv.swap_apply_right]
            · rw [if_neg i1, if_neg i2, Equiv.swap_apply_of_ne_of_ne i1 i2]
      · next nlt =>
        refine Runs.of_eq rfl ⟨w2, k2, σ, s2, fun i j hij hj => ?_, q2⟩
        have ej : j = ⟨c + 1, c1⟩ := Fin.ext hj
        subst ej
        by_cases i2 : i = ⟨c + 1, c1⟩
        · rw [i2]
        · refine (not_lt.mp nlt).trans (m2 i ⟨c, c0⟩ ?_ rfl)
          have l : i.val ≤ c + 1 := hij
          have : i.val ≠ c + 1 := fun e => i2 (Fin.ext e)
          exact Fin.mk_le_of_le_val (by simp; omega)
    · intro _ h2 ⟨w2, k2, σ, s2, m2, q2⟩
      refine ⟨w2, k2, σ, fun i j hij hj => ?_, q2⟩
      rcases Nat.lt_or_ge j.val (n - k) with l | l
      · exact m2 i j hij (by omega)
      · exact s2 i j hij l
  · intro _ h2 ⟨w2, k2, σ, s2, q2⟩
    refine ⟨w2, k2, σ, fun i j hij => ?_, q2⟩
    by_cases z : j.val = 0
    · have : i.val ≤ j.val := hij
      rw [show i = j from Fin.ext (by omega)]
    · exact s2 i j hij (by omega)

theorem valToVec_run (w : h.WF) {D B : Matrix (Fin n) (Fin n) ℝ} (ha : HasM h a D) (hb : HasM h b B) :
    ∃ f, valToVec a b ⟨n, n, 1⟩ h = .ok (f, h) ∧ ∀ i : Fin n, f i = lastIdx (fun j => at0 B j j) (D i i) n := by
  unfold valToVec
  refine ⟨_, foldN_read n (fun i k => if k < i then lastIdx (fun j => at0 B j j) (at0 D k k) n else 0) _ _ h (by simp) fun i hi => ?_,
    fun i => ?_⟩
  · have e : (fun k => if k < i + 1 then lastIdx (fun j => at0 B j j) (at0 D k k) n else 0) =
        fun k => if k < i then lastIdx (fun j => at0 B j j) (at0 D k k) n else if k = i then lastIdx (fun j => at0 B j j) (at0 D k k) n else 0 := by
      funext k; grind
    rw [e]
    refine foldN_read n (fun c k => if k < i then lastIdx (fun j => at0 B j j) (at0 D k k) n else if k = i then
      lastIdx (fun j => at0 B j j) (at0 D k k) c else 0) _ _ h ?_ fun c hc => ?_
    · funext k
      simp [lastIdx]
    · rw [bind_ok (Hd.element_getm_run w ha ⟨i, hi⟩ ⟨i, hi⟩), bind_ok (Hd.element_getm_run w hb ⟨c, hc⟩ ⟨c, hc⟩)]
      show Out.ok _ = Out.ok _
      congr 2
      have e1 : at0 D i i = D ⟨i, hi⟩ ⟨i, hi⟩ := by simp [at0, hi]
      have e2 : at0 B c c = B ⟨c, hc⟩ ⟨c, hc⟩ := by simp [at0, hc]
      have e3 : ∀ k, lastIdx (fun j => at0 B j j) (at0 D k k) (c + 1) =
          if at0 D k k = at0 B c c then c else lastIdx (fun j => at0 B j j) (at0 D k k) c := by
        intro k
        unfold lastIdx
        rw [List.range_succ, List.foldl_append]; rfl
      funext k
      rw [e3]
      by_cases z : k = i
      · subst z
        rw [e1, e2]
        by_cases q : D ⟨k, hi⟩ ⟨k, hi⟩ = B ⟨c, hc⟩ ⟨c, hc⟩
        · simp [q]
        · simp [q, e1]
      · by_cases q : D ⟨i, hi⟩ ⟨i, hi⟩ = B ⟨c, hc⟩ ⟨c, hc⟩
        · simp [q, z]
        · simp [q, z]
  · simp [at0]

theorem finish_run (w : h.WF) {B W : Matrix (Fin n) (Fin n) ℝ} (ha : HasM h a B) (hb : HasM h b W) (ne : a ≠ b) :
    Runs (finish a b) h fun r h' => h'.WF ∧ Keeps h h' (fun l => some l = a ∨ some l = b) ∧ r = ⟨b, a⟩ ∧
      ∃ D V, HasM h' a D ∧ HasM h' b V ∧ Arranged B W D V := by
  unfold finish
  refine stepM (Hd.duplicate_fastm_spec w ha) fun p h1 w1 k1 f1 hp => ?_
  have f1' := f1
  nw f1 k1
  refine Runs.step (Hd.sizem_run ha) ?_
  refine Runs.bind ((sort_run w1 ha).mono fun _ h2 ⟨w2, k2, σ, hs, hD⟩ => ?_)
  have K2 : Keeps h h2 (fun l => some l = a ∨ some l = b) := (k1.mono fun _ _ e => e.elim).trans (k2.mono fun _ _ e => .inl e)
  clear ha
  wr k2
  obtain ⟨f, ef, qf⟩ := valToVec_run w2 hD hp
  refine Runs.step ef ?_
  refine stepM (Hd.duplicate_fastm_spec w2 hb) fun t h3 w3 k3 f3 ht => ?_
  have f3' := f3
  nw f3 k3
  refine Runs.step (Hd.sizem_run hb) ?_
  have hv : ∀ i : Fin n, f i < n ∧ ∀ l : f i < n, B ⟨f i, l⟩ ⟨f i, l⟩ = B (σ i) (σ i) := by
    intro i
    have z := lastIdx_spec (d := fun j => at0 B j j) (x := B (σ i) (σ i)) (k := n) ⟨σ i, (σ i).isLt, (at0_fin B _ _).symm⟩
    have e := qf i
    simp only [withDiag, if_true] at e
    rw [← e] at z
    refine ⟨z.1, fun l => ?_⟩
    rw [z.2]
    simp [at0, l]
  have key := Hd.grid_run w3 hb (fun i j _ => W i ⟨f j, (hv j).1⟩) (fun i j => do
    let x ← Hd.element_getm t (i : Nat) (f j : Nat)
    Hd.element_setm b (i : Nat) (j : Nat) x) fun i j h4 F w4 k4 hF => ?_
  · refine Runs.bind (key.mono fun _ h4 ⟨w4, k4, hV⟩ => ?_)
    clear hb
    wr k4
    refine Runs.of_eq rfl ⟨w4, ?_, rfl, _, _, hD, hV, σ, fun j => ⟨f j, (hv j).1⟩, hs, fun i j => rfl, fun i j => rfl, fun i => (hv i).2 _, fun i => ?_⟩
    · exact (K2.trans (k3.mono fun _ _ e => e.elim)).trans (k4.mono fun _ _ e => .inr e)
    · have e := qf i
      simp only [withDiag, if_true] at e
      exact e
  · have ht' := ht.offm k4 (by assumption)
    refine Runs.step (Hd.element_getm_run w4 ht' i ⟨f j, (hv j).1⟩) ?_
    exact Hd.element_setm_run w4 hF i j _

theorem eigen_run {ops : Ops} (ok : ops.Ok n) (hn : 2 ≤ n) (w : h.WF) (k : Nat) {A : Matrix (Fin n) (Fin n) ℝ} (ha : HasM h a A) :
    Runs (eigen ops k a) h fun r h' => h'.WF ∧ Keeps h h' (fun _ => False) ∧
      match jac k A 1 with
      | none => r = none
      | some (B, W) => ∃ e D V, r = some e ∧ NotIn h e.eigen_values ∧ NotIn h e.eigen_vectors ∧ e.eigen_values ≠ e.eigen_vectors ∧
          HasM h' e.eigen_values D ∧ HasM h' e.eigen_vectors V ∧ Arranged B W D V := by
  unfold eigen
  refine Runs.step (Hd.sizem_run ha) ?_
  refine stepM (ok.eye w) fun E h1 w1 k1 f1 hE => ?_
  nw f1 k1
  refine Runs.step (Hd.sizem_run ha) ?_
  refine Runs.bind ((loop_run ok hn k w1 ha hE).mono fun r h2 ⟨w2, k2, q⟩ => ?_)
  cases ej : jac k A 1 with
  | none =>
    rw [ej] at q
    dsimp only at q ⊢
    subst q
    exact Runs.of_eq rfl ⟨w2, k1.trans k2, rfl⟩
  | some BW =>
    obtain ⟨B, W⟩ := BW
    rw [ej] at q
    obtain ⟨x, y, rfl, f2, f3, ne, hx, hy⟩ := q
    dsimp only
    refine Runs.bind ((finish_run w2 hx hy ne).mono fun r h3 ⟨w3, k3, er, D, V, hD, hV, ar⟩ => ?_)
    subst er
    have fx := f2.mono k1
    have fy := f3.mono k1
    refine Runs.of_eq rfl ⟨w3, ?_, _, D, V, rfl, fx, fy, ne, hD, hV, ar⟩
    exact (k1.trans k2).wrt2 k3 fx fy

end Eigen
end Verif
