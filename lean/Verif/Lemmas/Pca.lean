import Verif.Spec.Pca
import Verif.Lemmas.Svd
import Verif.Lemmas.Cov
import Verif.Props.DataScaling
import Verif.Lemmas.KMeans
import Verif.Lemmas.GlmSgd

/-! # Running the principal component analysis -/

namespace Verif.Pca
open Spec Eigen
variable {m n : Nat} {h : Heap ℝ}

/-- The first `k` columns of `U`. -/
def firstCols (U : Matrix (Fin m) (Fin m) ℝ) {k : Nat} (hk : k ≤ m) : Matrix (Fin m) (Fin k) ℝ := fun i j => U i (Fin.castLE hk j)

theorem reduce_run (w : h.WF) {k : Nat} (hk : k ≤ m) {a b : Ref} {P : Matrix (Fin m) (Fin k) ℝ} {U : Matrix (Fin m) (Fin m) ℝ} (ha : HasM h a P)
    (hb : HasM h b U) (ne : b ≠ a) :
    Runs (reduce a b k m) h fun _ h' => h'.WF ∧ Keeps h h' (some · = a) ∧ HasM h' a (firstCols U hk) := by
  unfold reduce
  refine (Runs.forN k (fun c h' => h'.WF ∧ Keeps h h' (some · = a) ∧ HasM h' a (fun (i : Fin m) (j : Fin k) =>
    if j.val < c then firstCols U hk i j else P i j)) _ h ⟨w, Keeps.refl h _, by simpa using ha⟩ ?_).mono
      fun _ h' ⟨w', k', q⟩ => ⟨w', k', by simpa using q⟩
  intro c h1 hc ⟨w1, k1, q1⟩
  refine (Runs.forN m (fun r h' => h'.WF ∧ Keeps h h' (some · = a) ∧ HasM h' a (fun (i : Fin m) (j : Fin k) =>
    if j.val < c ∨ (j.val = c ∧ i.val < r) then firstCols U hk i j else P i j)) _ h1 ⟨w1, k1, by simpa using q1⟩ ?_).mono ?_
  · intro r h2 hr ⟨w2, k2, q2⟩
    refine Runs.step (Hd.element_getm_run w2 (hb.offm k2 ne) ⟨r, hr⟩ (Fin.castLE hk ⟨c, hc⟩)) ?_
    refine (Hd.element_setm_run w2 q2 ⟨r, hr⟩ ⟨c, hc⟩ _).mono fun _ h3 ⟨w3, k3, q3⟩ => ⟨w3, k2.trans k3, cast (congrArg _ ?_) q3⟩
    funext i j
    by_cases e : i = ⟨r, hr⟩ ∧ j = ⟨c, hc⟩
    · obtain ⟨rfl, rfl⟩ := e
      simp [firstCols]
    · rw [if_neg e]
      have : (j.val < c ∨ (j.val = c ∧ i.val < r + 1)) ↔ (j.val < c ∨ (j.val = c ∧ i.val < r)) := by
        have e' : ¬ (i.val = r ∧ j.val = c) := fun q => e ⟨Fin.ext q.1, Fin.ext q.2⟩
        omega
      simp only [this]
  · intro _ h2 ⟨w2, k2, q2⟩
    refine ⟨w2, k2, cast (congrArg _ ?_) q2⟩
    funext i j
    have : (j.val < c ∨ (j.val = c ∧ i.val < m)) ↔ j.val < c + 1 := by omega
    simp only [this]

theorem principal_components_run (hn : 2 ≤ n) (hmn : n ≤ m) (w : h.WF) (fuel : Nat) {s : Pca} {A : Matrix (Fin m) (Fin n) ℝ} (hA : HasM h s.input_set A)
    {p q : Nat} {P : Matrix (Fin p) (Fin q) ℝ} (hP : HasM h s.u_reduce P) (ne : s.input_set ≠ s.u_reduce) (hk0 : s.k ≠ 0) (hk : s.k ≤ m) :
    Runs (principal_components fuel s) h fun r h' => h'.WF ∧ Keeps h h' (some · = s.u_reduce) ∧
      match jac fuel (covCells A hmn * (covCells A hmn).transpose) 1, jac fuel ((covCells A hmn).transpose * covCells A hmn) 1 with
      | some (B1, W1), some (B2, W2) => ∃ (x z : Ref) (D U : Matrix (Fin m) (Fin m) ℝ) (_D2 V : Matrix (Fin n) (Fin n) ℝ),
          r = some (z, { s with x_normalized := x, z := z }) ∧ NotIn h x ∧ NotIn h z ∧ HasM h' x (centred A) ∧ HasM h' s.u_reduce (firstCols U hk) ∧
          HasM h' z ((firstCols U hk).transpose * centred A) ∧ HasM h' s.input_set A ∧ Arranged B1 W1 D U ∧ Arranged B2 W2 _D2 V
      | _, _ => r = none := by
  obtain ⟨S, k, X, Pr, Z⟩ := s
  dsimp only at *
  unfold principal_components
  dsimp only
  obtain ⟨a, rfl, la, hA'⟩ := id hA
  rw [if_neg (by simp [hk0])]
  refine Runs.step (derefM_run a h) ?_
  refine stepM (Mat.cov_spec w hA' la hmn) fun c h1 w1 k1 f1 hc => ?_
  have K1 := k1
  clear hA'
  nw f1 k1
  refine Runs.bind ((matSvd_run (le_trans hn hmn) hn w1 fuel hc).mono fun r h2 ⟨w2, k2, z⟩ => ?_)
  have M1 : ∀ r, NotIn h1 r → NotIn h r := fun r f => f.mono K1
  have K2 := K1.trans k2
  have P2 : ∀ r, NotIn h1 r → r ≠ Pr := fun r f e => by
    obtain ⟨o, e', l, _⟩ := hP
    exact f _ (e.trans e') l
  adv k2
  cases e1 : jac fuel (covCells A hmn * (covCells A hmn).transpose) 1 with
  | none =>
    rw [e1] at z
    subst z
    exact Runs.of_eq rfl ⟨w2, K2.mono fun _ _ q => q.elim, rfl⟩
  | some BW =>
    obtain ⟨B1, W1⟩ := BW
    rw [e1] at z
    cases e2 : jac fuel ((covCells A hmn).transpose * covCells A hmn) 1 with
    | none =>
      rw [e2] at z
      subst z
      exact Runs.of_eq rfl ⟨w2, K2.mono fun _ _ q => q.elim, rfl⟩
    | some BW2 =>
      obtain ⟨B2, W2⟩ := BW2
      rw [e2] at z
      obtain ⟨e, D, U, D2, V, rfl, fU, fS, fV, hU, hS, hV, ar, ar2⟩ := z
      have nU : e.U ≠ Pr := P2 _ fU
      clear hS hV
      dsimp only
      obtain ⟨a', ea, la2, hA2⟩ := id hA
      cases ea
      refine stepM (Data.mean_centering_run w2 la2 hA2) fun x h3 w3 k3 f3 hx => ?_
      have K3 := K2.trans k3
      have fx := f3.mono K2
      have nx := f3.neM hP
      clear hA2
      nw f3 k3
      refine Runs.step (Hd.sizem_run hU) ?_
      dsimp only
      refine Runs.bind ((Hd.resizem_run w3 hP m k).mono fun _ h4 ⟨w4, k4, B4, hP4⟩ => ?_)
      have K4 : Keeps h h4 (some · = Pr) := (K3.mono fun _ _ q => q.elim).trans k4
      clear hP
      have hU4 := hU.offm k4 nU
      have hA4 := hA.offm k4 ne
      have hx4 := hx.offm k4 nx.symm
      refine Runs.bind ((reduce_run w4 hk hP4 hU4 nU).mono fun _ h5 ⟨w5, k5, hP5⟩ => ?_)
      have K5 := K4.trans k5
      have hA5 := hA4.offm k5 ne
      have hx5 := hx4.offm k5 nx.symm
      clear hA hx hU hA4 hx4 hU4 hP4
      refine stepM (Hd.transposen_spec w5 hP5) fun t h6 w6 k6 f6 ht => ?_
      have K6 := K5.trans (k6.mono fun _ _ q => q.elim)
      nw f6 k6
      refine stepM (Hd.multn_spec w6 ht hx5) fun z h7 w7 k7 f7 hz => ?_
      have K7 := K6.trans (k7.mono fun _ _ q => q.elim)
      have fz := f7.mono K6
      nw f7 k7
      exact Runs.of_eq rfl ⟨w7, K7, x, z, D, U, D2, V, rfl, fx, fz, hx5, hP5, hz, hA5, ar, ar2⟩

/-- The sum over the first `k` rows. -/
def rowSum (f : Fin m → ℝ) (k : Nat) : ℝ := ∑ i ∈ Finset.range k, if q : i < m then f ⟨i, q⟩ else 0

theorem rowSum_all (f : Fin m → ℝ) : rowSum f m = ∑ i, f i := by
  unfold rowSum
  rw [Finset.sum_range]
  exact Finset.sum_congr rfl fun i _ => by simp

theorem rowSum_succ (f : Fin m → ℝ) {k : Nat} (hk : k < m) : rowSum f (k + 1) = rowSum f k + f ⟨k, hk⟩ := by
  unfold rowSum
  rw [Finset.sum_range_succ, dif_pos hk]

theorem score_run (w : h.WF) {s : Pca} {X : Matrix (Fin m) (Fin n) ℝ} {P : Matrix (Fin m) (Fin s.k) ℝ} {Z : Matrix (Fin s.k) (Fin n) ℝ}
    (hi : s.input_set ≠ none) (hk : s.k ≠ 0) (hX : HasM h s.x_normalized X) (hP : HasM h s.u_reduce P) (hZ : HasM h s.z Z) :
    Runs (score s) h fun r h' => h'.WF ∧ Keeps h h' (fun _ => False) ∧
      r = 1 - sumSq (X - P * Z) / m / (if sumSq X / m = 0 then sumSq X / m + 1e-10 else sumSq X / m) := by
  obtain ⟨S, k, xn, Pr, Zr⟩ := s
  dsimp only at *
  unfold score
  dsimp only
  rw [if_neg (by simp [hi, hk])]
  refine stepM (Hd.multn_spec w hP hZ) fun x h1 w1 k1 f1 hx => ?_
  have K1 := k1
  nw f1 k1
  refine Runs.step (Hd.sizem_run hX) ?_
  refine Runs.step (Hd.sizem_run hx) ?_
  dsimp only
  refine stepNewV w1 fun oa h2 va w2 k2 f2 ha => ?_
  have fa : NotIn h (some (Loc.v oa)) := f2.mono K1
  have K2 := K1.trans k2
  nw f2 k2
  refine stepNewV w2 fun ob h3 vb w3 k3 f3 hb => ?_
  have fb : NotIn h (some (Loc.v ob)) := f3.mono K2
  have K3 := K2.trans k3
  nw f3 k3
  clear hP hZ k1 k2 k3
  unfold residual spread
  refine Runs.bind ((Runs.foldN m (fun i y h' => h'.WF ∧ Keeps h h' (fun _ => False) ∧ HasM h' xn X ∧ HasM h' x (P * Z) ∧
    (∃ v : Fin n → ℝ, HasV h' (some (.v oa)) v) ∧ (∃ v : Fin n → ℝ, HasV h' (some (.v ob)) v) ∧
    y = rowSum (fun i => ∑ j, (X - P * Z) i j ^ 2) i) _ _ h3 ⟨w3, K3, hX, hx, ⟨_, ha⟩, ⟨_, hb⟩, by simp [rowSum]⟩ ?_).mono
    fun y h4 ⟨w4, K4, hX4, _, _, ⟨vb4, hb4⟩, ey⟩ => ?_)
  · intro i y h4 hi ⟨w4, K4, hX4, hx4, ⟨va4, ha4⟩, ⟨vb4, hb4⟩, ey⟩
    clear hX hx ha hb
    refine Runs.bind ((Hd.row_get_into_run w4 hX4 hb4 ⟨i, hi⟩).mono fun _ h5 ⟨w5, k5, hb5⟩ => ?_)
    have K5 := K4.wrt k5 fb
    wr k5
    refine Runs.bind ((Hd.row_get_into_run w5 hx4 ha4 ⟨i, hi⟩).mono fun _ h6 ⟨w6, k6, ha6⟩ => ?_)
    have K6 := K5.wrt k6 fa
    wr k6
    refine stepV (Hd.subn_spec w6 hb5 ha6) fun d h7 w7 k7 f7 hd => ?_
    have K7 := K6.trans k7
    nw f7 k7
    refine Runs.step (Hd.norm_sq_run w7 hd) ?_
    refine Runs.of_eq rfl ⟨w7, K7, hX4, hx4, ⟨_, ha6⟩, ⟨_, hb5⟩, ?_⟩
    rw [rowSum_succ _ hi, ey]
    rfl
  rw [rowSum_all] at ey
  clear hX hx ha hb
  refine Runs.bind ((Runs.foldN m (fun i y h' => h'.WF ∧ Keeps h h' (fun _ => False) ∧ HasM h' xn X ∧
    (∃ v : Fin n → ℝ, HasV h' (some (.v ob)) v) ∧
    y = rowSum (fun i => ∑ j, X i j ^ 2) i) _ _ h4 ⟨w4, K4, hX4, ⟨_, hb4⟩, by simp [rowSum]⟩ ?_).mono
    fun y' h5 ⟨w5, K5, _, _, ey'⟩ => ?_)
  · intro i y h5 hi ⟨w5, K5, hX5, ⟨vb5, hb5⟩, ey⟩
    clear hX4 hb4
    refine Runs.bind ((Hd.row_get_into_run w5 hX5 hb5 ⟨i, hi⟩).mono fun _ h6 ⟨w6, k6, hb6⟩ => ?_)
    have K6 := K5.wrt k6 fb
    wr k6
    refine Runs.step (Hd.norm_sq_run w6 hb6) ?_
    refine Runs.of_eq rfl ⟨w6, K6, hX5, ⟨_, hb6⟩, ?_⟩
    rw [rowSum_succ _ hi, ey]
  rw [rowSum_all] at ey'
  subst ey ey'
  exact Runs.of_eq rfl ⟨w5, K5, rfl⟩

end Verif.Pca
