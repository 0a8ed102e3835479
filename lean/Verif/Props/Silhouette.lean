import Verif.Lemmas.Silhouette

/-! # C138: silhouette scores -/

namespace Verif
open Spec KMeans
variable {h : Heap ℝ} {s : KMeans} {n d k : Nat} {X : Matrix (Fin n) (Fin d) ℝ} {C : Matrix (Fin k) (Fin d) ℝ} {R : Matrix (Fin n) (Fin k) ℝ} {c : Fin n → Fin k} {tol : ℝ}

/-- The numbers among which `silhouette_scores` takes the least one for the point `i`, whose closest centroid is `v`. -/
def rivals (tol : ℝ) (X : Matrix (Fin n) (Fin d) ℝ) (C : Matrix (Fin k) (Fin d) ℝ) (v : Fin d → ℝ) (i : Fin n) : Set ℝ :=
  {y | ∃ j, Counts tol X C v j ∧ y = allSum X i / coincide tol X (C j)}

/-- **C138** (partial): `silhouette_scores()` of an initialised object whose memberships put each point into one cluster answers with a new vector, with one
score for each point, and changes nothing else. The score of point `i` is `(b - a) / max a b`, where `a` is the sum of the distances to the other points of its
cluster, divided by the number of columns less one, and `b` is the least, over the centroids other than the closest one that coincide with a point, of the sum of the
distances to all points divided by the number of points that coincide with the centroid. If there is no such centroid the score is not a number.
Missing: `a` should be divided by the number of the other points of the cluster, and `b` should be the mean of the distances to the points of another cluster
(`C138_fails`). -/
theorem C138_formula_partial (nan : ℝ) (hk : 0 < k) (hn : 0 < n) (t1 : tol ≤ 1) (Q : KReady h s X C R) (hi : s.initialized = true) (m : Members R c) :
    ∃ v : Fin n → ℝ, ReturnsVec (silhouette_scores s tol nan) h v ∧ ∀ i, ∃ f, FirstNearest C (X i) f ∧
      (rivals tol X C (C f) i = ∅ → v i = nan) ∧
      ∀ b, IsLeast (rivals tol X C (C f) i) b → d ≠ 1 → max (ownSum X c i / ((d : ℝ) - 1)) b ≠ 0 →
        v i = (b - ownSum X c i / ((d : ℝ) - 1)) / max (ownSum X c i / ((d : ℝ) - 1)) b := by
  obtain ⟨o, h', e, w', K', f, v, hv, ev⟩ := runs_iff.1 (silhouette_run nan hk hn t1 Q hi m)
  refine ⟨v, .of_has (Runs.of_eq e ⟨w', K', f, hv⟩), fun i => ?_⟩
  obtain ⟨f, b, q1, ⟨l1, l2⟩, q3⟩ := ev i
  refine ⟨f, q1, fun em => ?_, fun b' L hd hm => ?_⟩
  · cases b with
    | none => exact q3
    | some x =>
      obtain ⟨j, _, cj, ex⟩ := l2 x rfl
      exact absurd (show x ∈ rivals tol X C (C f) i from ⟨j, cj, ex⟩) (by simp [em])
  · obtain ⟨⟨j, cj, ej⟩, low⟩ := L
    obtain ⟨x, ex, lx⟩ := l1 j j.isLt cj
    obtain ⟨j', _, cj', ej'⟩ := l2 x ex
    have : x = b' := le_antisymm (ej ▸ lx) (low ⟨j', cj', ej'⟩)
    subst this ex
    rw [q3]
    unfold quotient
    dsimp only
    rw [if_neg (not_or.2 ⟨hd, hm⟩)]

/-- **C138**: the scores that are numbers are between -1 and 1 (with at least two columns). -/
theorem C138_range_partial (nan : ℝ) (hk : 0 < k) (hn : 0 < n) (t1 : tol ≤ 1) (Q : KReady h s X C R) (hi : s.initialized = true) (m : Members R c) (hd : 2 ≤ d) :
    ∃ v : Fin n → ℝ, ReturnsVec (silhouette_scores s tol nan) h v ∧ ∀ i, v i = nan ∨ (-1 ≤ v i ∧ v i ≤ 1) := by
  obtain ⟨o, h', e, w', K', f, v, hv, ev⟩ := runs_iff.1 (silhouette_run nan hk hn t1 Q hi m)
  refine ⟨v, .of_has (Runs.of_eq e ⟨w', K', f, hv⟩), fun i => ?_⟩
  obtain ⟨f, b, q1, ⟨l1, l2⟩, q3⟩ := ev i
  rw [q3]
  cases b with
  | none => exact .inl rfl
  | some x =>
    obtain ⟨j, _, _, ex⟩ := l2 x rfl
    unfold quotient
    dsimp only
    split
    · exact .inl rfl
    · rename_i ne
      right
      have hd' : (2 : ℝ) ≤ d := by exact_mod_cast hd
      have a0 : 0 ≤ ownSum X c i / ((d : ℝ) - 1) := div_nonneg (Finset.sum_nonneg fun _ _ => Real.sqrt_nonneg _) (by linarith)
      have x0 : 0 ≤ x := by rw [ex]; exact div_nonneg (Finset.sum_nonneg fun _ _ => Real.sqrt_nonneg _) (Nat.cast_nonneg _)
      generalize ownSum X c i / ((d : ℝ) - 1) = a at *
      have p : 0 < max a x := lt_of_le_of_ne (le_max_of_le_left a0) fun q => ne (.inr q.symm)
      constructor
      · rw [le_div_iff₀ p]; linarith [le_max_left a x]
      · rw [div_le_one p]; linarith [le_max_right a x]

/-- **C138** fails: if no point coincides with a centroid — after training the centroids are means, usually no points — no score is a number, however good the
clusters are. -/
theorem C138_fails (nan : ℝ) (hk : 0 < k) (hn : 0 < n) (t1 : tol ≤ 1) (Q : KReady h s X C R) (hi : s.initialized = true) (m : Members R c)
    (none : ∀ i j, ¬ Close tol (X i) (C j)) : ReturnsVec (silhouette_scores s tol nan) h fun _ : Fin n => nan := by
  obtain ⟨v, r, ev⟩ := C138_formula_partial nan hk hn t1 Q hi m
  have : v = fun _ => nan := by
    funext i
    obtain ⟨f, _, e, _⟩ := ev i
    refine e (Set.eq_empty_of_forall_notMem ?_)
    rintro y ⟨j, ⟨_, q⟩, _⟩
    refine q ?_
    classical
    exact Finset.card_eq_zero.2 (Finset.filter_eq_empty_iff.2 fun l _ => none l j)
  exact this ▸ r

/-- **C138** fails for data with one column. -/
theorem C138_one_column_fails {X : Matrix (Fin n) (Fin 1) ℝ} {C : Matrix (Fin k) (Fin 1) ℝ} (nan : ℝ) (hk : 0 < k) (hn : 0 < n) (t1 : tol ≤ 1) (Q : KReady h s X C R)
    (hi : s.initialized = true) (m : Members R c) : ReturnsVec (silhouette_scores s tol nan) h fun _ : Fin n => nan := by
  obtain ⟨o, h', e, w', K', f, v, hv, ev⟩ := runs_iff.1 (silhouette_run nan hk hn t1 Q hi m)
  have : v = fun _ => nan := by
    funext i
    obtain ⟨f, b, _, _, q3⟩ := ev i
    rw [q3]
    cases b with
    | none => rfl
    | some x => unfold quotient; simp
  exact .of_has (Runs.of_eq e ⟨w', K', f, this ▸ hv⟩)

/-- **C138**: an object that is not initialised answers with null and changes nothing. -/
theorem C138_uninitialised (nan : ℝ) (hi : s.initialized = false) : silhouette_scores s tol nan h = .ok (none, h) := by
  unfold silhouette_scores
  rw [if_pos hi]
  rfl

/-! ## Example: four points in two good clusters -/

/-- The points (0, 0), (2, 0), (10, 0), (12, 0), the centroids (1, 0), (11, 0), and the memberships. -/
noncomputable def silHeap : Heap ℝ := Heap.ofLists 0 [] [(2, 4, [0, 0, 2, 0, 10, 0, 12, 0]), (2, 2, [1, 0, 11, 0]), (2, 4, [1, 0, 1, 0, 0, 1, 0, 1])]

/-- The object. -/
def exSil : KMeans := ⟨some (.m 0), some (.m 1), some (.m 2), 2, true, .centroid⟩

theorem exSil_ready : KReady silHeap exSil !![0, 0; 2, 0; 10, 0; 12, 0] !![1, 0; 11, 0] !![1, 0; 1, 0; 0, 1; 0, 1] where
  wf := Heap.ofLists_wf _ _ _ (by simp)
  data := ⟨0, rfl, by simp [silHeap, Heap.ofLists, Heap.live, Loc.id], by simp [silHeap, Heap.ofLists], fun i j => by
    fin_cases i <;> fin_cases j <;> simp [silHeap, Heap.ofLists]⟩
  mu := ⟨1, rfl, by simp [silHeap, Heap.ofLists, Heap.live, Loc.id], by simp [silHeap, Heap.ofLists], fun i j => by
    fin_cases i <;> fin_cases j <;> simp [silHeap, Heap.ofLists]⟩
  r := ⟨2, rfl, by simp [silHeap, Heap.ofLists, Heap.live, Loc.id], by simp [silHeap, Heap.ofLists], fun i j => by
    fin_cases i <;> fin_cases j <;> simp [silHeap, Heap.ofLists]⟩
  data_mu := by simp [exSil]
  data_r := by simp [exSil]
  mu_r := by simp [exSil]

theorem exSil_members : Members !![1, 0; 1, 0; 0, 1; 0, 1] (![0, 0, 1, 1] : Fin 4 → Fin 2) := by
  intro i j
  fin_cases i <;> fin_cases j <;> simp

/-- None of the scores of the four points is a number. -/
example (nan : ℝ) : ReturnsVec (silhouette_scores exSil (1 / 100000) nan) silHeap fun _ : Fin 4 => nan := by
  have Q := exSil_ready
  have e : exSil.initialized = true := rfl
  generalize exSil = s at *
  generalize silHeap = h at *
  refine C138_fails nan (by decide) (by decide) (by norm_num) Q e exSil_members fun i j q => ?_
  have := q 0
  fin_cases i <;> fin_cases j <;> norm_num at this

/-- The silhouette of the first point should be 9/11. -/
example : IsSilhouette !![0, 0; 2, 0; 10, 0; 12, 0] (![0, 0, 1, 1] : Fin 4 → Fin 2) 0 (9 / 11) := by
  have e1 : ownMean !![0, 0; 2, 0; 10, 0; 12, 0] (![0, 0, 1, 1] : Fin 4 → Fin 2) 0 = 2 := by
    have c2 : count (![0, 0, 1, 1] : Fin 4 → Fin 2) 0 = 2 := by decide
    have : ((![0, 0, 1, 1] : Fin 4 → Fin 2) 0) = 0 := rfl
    rw [ownMean, this, c2, ownSum, Finset.sum_filter]
    simp [Fin.sum_univ_succ, straight, sqDist]
    norm_num
  have e2 : meanTo !![0, 0; 2, 0; 10, 0; 12, 0] (![0, 0, 1, 1] : Fin 4 → Fin 2) 0 1 = 11 := by
    have c2 : count (![0, 0, 1, 1] : Fin 4 → Fin 2) 1 = 2 := by decide
    rw [meanTo, c2, Finset.sum_filter]
    simp [Fin.sum_univ_succ, straight, sqDist]
    norm_num
  refine ⟨11, ⟨⟨1, by decide, by decide, e2.symm⟩, ?_⟩, by rw [e1]; norm_num⟩
  rintro y ⟨j, hj, _, rfl⟩
  fin_cases j
  · exact absurd rfl hj
  · exact e2.ge

end Verif
