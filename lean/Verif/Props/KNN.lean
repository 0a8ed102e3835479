import Verif.Model.Simple
import Verif.Lemmas.VecSpec
import Verif.Lemmas.GramSchmidt
import Verif.Lemmas.StdVector
import Verif.Lemmas.Softmax
import Verif.Props.Performance
import Mathlib.LinearAlgebra.Matrix.Notation

/-! # C84, C85: k nearest neighbours -/

namespace Verif.KNN
open Spec Activation
open SortArray (tab)
variable {m n : Nat}

/-! ## The search, as a function of the distances -/

open Classical in
/-- What the inner loop finds among the first `j` rows. -/
noncomputable def cand (d : Nat → ℝ) (skip : List Nat) : Nat → Nat
  | 0 => 0
  | j + 1 => if j ∈ skip then cand d skip j else if d j < d (cand d skip j) then j else cand d skip j

theorem cand_spec (d : Nat → ℝ) (skip : List Nat) : ∀ j, (cand d skip j = 0 ∨ (cand d skip j < j ∧ cand d skip j ∉ skip ∧
    d (cand d skip j) < d 0)) ∧ d (cand d skip j) ≤ d 0 ∧ ∀ i < j, i ∉ skip → d (cand d skip j) ≤ d i
  | 0 => ⟨.inl rfl, le_rfl, nofun⟩
  | j + 1 => by
    obtain ⟨a, b, c⟩ := cand_spec d skip j
    unfold cand
    by_cases h1 : j ∈ skip
    · rw [if_pos h1]
      refine ⟨a.imp id (fun ⟨p, q⟩ => ⟨by omega, q⟩), b, fun i hi hs => ?_⟩
      rcases Nat.lt_succ_iff_lt_or_eq.mp hi with q | rfl
      · exact c i q hs
      · exact absurd h1 hs
    · rw [if_neg h1]
      by_cases h2 : d j < d (cand d skip j)
      · rw [if_pos h2]
        refine ⟨.inr ⟨by omega, h1, lt_of_lt_of_le h2 b⟩, le_trans h2.le b, fun i hi hs => ?_⟩
        rcases Nat.lt_succ_iff_lt_or_eq.mp hi with q | rfl
        · exact le_trans h2.le (c i q hs)
        · exact le_rfl
      · rw [if_neg h2]
        refine ⟨a.imp id (fun ⟨p, q⟩ => ⟨by omega, q⟩), b, fun i hi hs => ?_⟩
        rcases Nat.lt_succ_iff_lt_or_eq.mp hi with q | rfl
        · exact c i q hs
        · exact not_lt.mp h2

theorem cand_le (d : Nat → ℝ) (skip : List Nat) (j : Nat) (hj : 0 < m) (hjm : j ≤ m) : cand d skip j < m := by
  rcases (cand_spec d skip j).1 with e | ⟨e, _⟩ <;> omega

/-- The list of neighbours after `i` rounds. -/
noncomputable def near (d : Nat → ℝ) (m : Nat) : Nat → List Nat
  | 0 => []
  | i + 1 => if cand d (near d m i) m ∈ near d m i then near d m i else near d m i ++ [cand d (near d m i) m]

open Classical in
theorem near_spec (d : Nat → ℝ) (hm : 0 < m) : ∀ i, (near d m i).Nodup ∧ (∀ a ∈ near d m i, a < m) ∧
    (near d m i).Pairwise (fun a b => d a ≤ d b) ∧ (∀ a ∈ near d m i, ∀ j < m, j ∉ near d m i → d a ≤ d j) ∧
    ((0 ∉ near d m i ∧ (near d m i).length = i ∧ ∀ a ∈ near d m i, d a < d 0) ∨
     (0 ∈ near d m i ∧ (near d m i).length ≤ i ∧ (near d m i).toFinset = insert 0 ((Finset.range m).filter fun j => d j < d 0)))
  | 0 => by simp [near]
  | i + 1 => by
    obtain ⟨nd, rg, so, le, st⟩ := near_spec d hm i
    have cl := cand_le d (near d m i) m hm le_rfl
    obtain ⟨c1, c2, c3⟩ := cand_spec d (near d m i) m
    unfold near
    generalize cand d (near d m i) m = c at *
    generalize near d m i = N at *
    by_cases hc : c ∈ N
    · rw [if_pos hc]
      refine ⟨nd, rg, so, le, ?_⟩
      have c0 : c = 0 := c1.resolve_right fun q => q.2.1 hc
      subst c0
      rcases st with st | ⟨s1, s2, s3⟩
      · exact absurd hc st.1
      · exact .inr ⟨s1, by omega, s3⟩
    · rw [if_neg hc]
      refine ⟨?_, ?_, ?_, ?_, ?_⟩
      · exact List.nodup_append.mpr ⟨nd, List.nodup_singleton _, fun a ha b hb => by
          rw [List.mem_singleton] at hb; subst hb; exact fun e => hc (e ▸ ha)⟩
      · intro a ha
        rcases List.mem_append.mp ha with q | q
        · exact rg a q
        · rw [List.mem_singleton.mp q]; exact cl
      · exact List.pairwise_append.mpr ⟨so, List.pairwise_singleton _ _, fun a ha b hb => by
          rw [List.mem_singleton] at hb; subst hb; exact le a ha b cl hc⟩
      · intro a ha j hj hjn
        rw [List.mem_append, not_or] at hjn
        rcases List.mem_append.mp ha with q | q
        · exact le a q j hj hjn.1
        · rw [List.mem_singleton.mp q]; exact c3 j hj hjn.1
      · rcases st with ⟨s1, s2, s3⟩ | ⟨s1, s2, s3⟩
        · by_cases c0 : c = 0
          · subst c0
            refine .inr ⟨by simp, by simp [s2], ?_⟩
            ext j
            simp only [List.mem_toFinset, List.mem_append, List.mem_singleton, Finset.mem_insert, Finset.mem_filter, Finset.mem_range]
            constructor
            · rintro (q | q)
              · exact .inr ⟨rg j q, s3 j q⟩
              · exact .inl q
            · rintro (q | ⟨q, q'⟩)
              · exact .inr q
              · refine .inl ?_
                by_contra hj
                exact absurd q' (not_lt.mpr (c3 j q hj))
          · obtain ⟨_, _, q3⟩ := c1.resolve_left c0
            refine .inl ⟨by simp [s1, Ne.symm c0], by simp [s2], fun a ha => ?_⟩
            rcases List.mem_append.mp ha with q | q
            · exact s3 a q
            · rw [List.mem_singleton.mp q]; exact q3
        · exfalso
          rcases c1 with c0 | ⟨q1, q2, q3⟩
          · exact hc (c0 ▸ s1)
          · apply hc
            have : c ∈ N.toFinset := by rw [s3]; simp [q1, q3]
            exact List.mem_toFinset.mp this

open Classical in
theorem near_length (d : Nat → ℝ) (hm : 0 < m) (i : Nat) :
    (near d m i).length = min i (((Finset.range m).filter fun j => d j < d 0).card + 1) := by
  obtain ⟨nd, rg, _, _, st⟩ := near_spec d hm i
  rcases st with ⟨s1, s2, s3⟩ | ⟨s1, s2, s3⟩
  · have : (near d m i).toFinset ⊆ (Finset.range m).filter fun j => d j < d 0 := fun a ha => by
      rw [List.mem_toFinset] at ha
      simp [rg a ha, s3 a ha]
    have := Finset.card_le_card this
    rw [List.toFinset_card_of_nodup nd] at this
    omega
  · have := congrArg Finset.card s3
    rw [List.toFinset_card_of_nodup nd, Finset.card_insert_of_notMem (by simp)] at this
    omega

/-! ## The method -/

/-- The Euclidean distance. -/
noncomputable def _root_.Verif.Spec.dist2 {n : Nat} (a b : Fin n → ℝ) : ℝ := Real.sqrt (∑ t, (a t - b t) ^ 2)

theorem distance_run {h : Heap ℝ} (w : h.WF) {x y : Nat} {f g : Nat → ℝ} (cx : VCells h (.v x) n f) (cy : VCells h (.v y) n g) :
    Vec.euclidean_distance x (some y) h = .ok (Real.sqrt (∑ t ∈ Finset.range n, (f t - g t) ^ 2), h) := by
  rw [Vec.euclidean_distance_run w x y (by rw [cx.2, cy.2]; simp [tab])]
  refine congrArg (fun o => Out.ok (o, h)) (congrArg Real.sqrt ?_)
  rw [cx.2, cy.2, show (tab n f).zip (tab n g) = (List.range n).map fun t => (f t, g t) by
    apply List.ext_getElem <;> simp [tab], List.foldl_map, foldl_range_sum]
  simp only [sq]

theorem candidate_run {h : Heap ℝ} (w : h.WF) {a v1 v2 x : Nat} {F : Nat → Nat → ℝ} {f : Nat → ℝ} (cF : Cells h (.m a) n m F)
    (cx : VCells h (.v x) n f) (h12 : v1 ≠ v2) (hx1 : x ≠ v1) (hx2 : x ≠ v2) (hm : 0 < m) (skip : List Nat) :
    Runs (candidate a v1 v2 (some (.v x)) m skip) h fun r h' => h'.WF ∧ Keeps h h' (fun l => l = .v v1 ∨ l = .v v2) ∧ h'.next = h.next ∧
      Cells h' (.m a) n m F ∧ VCells h' (.v x) n f ∧
      r = cand (fun i => Real.sqrt (∑ t ∈ Finset.range n, (f t - F i t) ^ 2)) skip m := by
  unfold candidate
  refine Runs.foldN m (fun j r h' => h'.WF ∧ Keeps h h' (fun l => l = .v v1 ∨ l = .v v2) ∧ h'.next = h.next ∧
      Cells h' (.m a) n m F ∧ VCells h' (.v x) n f ∧
      r = cand (fun i => Real.sqrt (∑ t ∈ Finset.range n, (f t - F i t) ^ 2)) skip j) _ _ _ ⟨w, Keeps.refl _ _, rfl, cF, cx, rfl⟩ ?_
  rintro j r h1 hj ⟨w1, k1, n1, c1, x1, rfl⟩
  generalize hc : cand (fun i => Real.sqrt (∑ t ∈ Finset.range n, (f t - F i t) ^ 2)) skip j = c
  have hcm : c < m := by rw [← hc]; exact cand_le _ _ _ hm (le_of_lt hj)
  by_cases hs : j ∈ skip
  · rw [if_pos hs]
    exact Runs.of_eq rfl ⟨w1, k1, n1, c1, x1, by rw [cand, if_pos hs, hc]⟩
  · rw [if_neg hs]
    obtain ⟨h2, e2, u2⟩ := Mat.rowGet_run (v := v1) w1 c1 hj
    refine Runs.step e2 ?_
    have w2 := u2.wf w1
    have c2 := c1.upd u2 nofun
    have x2 := x1.upd u2 (by simpa using hx1)
    obtain ⟨h3, e3, u3⟩ := Mat.rowGet_run (v := v2) w2 c2 hcm
    refine Runs.step e3 ?_
    have w3 := u3.wf w2
    have c3 := c2.upd u3 nofun
    have x3 := x2.upd u3 (by simpa using hx2)
    have y3 := u2.cells.upd u3 (by simpa using h12)
    refine Runs.step (derefV_run x h3) (Runs.step (distance_run w3 x3 y3) (Runs.step (distance_run w3 x3 u3.cells) ?_))
    have k3 : Keeps h h3 (fun l => l = .v v1 ∨ l = .v v2) :=
      (k1.trans (u2.keeps.mono fun _ _ e => .inl e)).trans (u3.keeps.mono fun _ _ e => .inr e)
    have n3 : h3.next = h.next := by rw [u3.next, u2.next, n1]
    by_cases hd : Real.sqrt (∑ t ∈ Finset.range n, (f t - F j t) ^ 2) < Real.sqrt (∑ t ∈ Finset.range n, (f t - F c t) ^ 2)
    · rw [if_pos hd]
      exact Runs.of_eq rfl ⟨w3, k3, n3, c3, x3, by rw [cand, if_neg hs, hc, if_pos hd]⟩
    · rw [if_neg hd]
      exact Runs.of_eq rfl ⟨w3, k3, n3, c3, x3, by rw [cand, if_neg hs, hc, if_neg hd]⟩

theorem nearest_run {h : Heap ℝ} (w : h.WF) (s : KNN) {a x : Nat} (hs : s.input_set = some a) {F : Nat → Nat → ℝ} {f : Nat → ℝ}
    (cF : Cells h (.m a) n m F) (cx : VCells h (.v x) n f) (la : h.live (.m a)) (lx : h.live (.v x)) (hm : 0 < m) :
    ReturnsVal (nearest_neighbors s (some (.v x))) h
      (near (fun i => Real.sqrt (∑ t ∈ Finset.range n, (f t - F i t) ^ 2)) m s.k.toNat) := by
  unfold nearest_neighbors
  rw [hs]
  dsimp only
  refine Runs.newV w fun h1 w1 k1 f1 l1 _ => ?_
  have hv1 : h.next < h1.next := l1
  have c1 := cF.keep k1 la nofun
  have x1 := cx.keep k1 lx nofun
  have la1 := k1.live la
  have lx1 := k1.live lx
  refine Runs.newV w1 fun h2 w2 k2 f2 l2 _ => ?_
  have c2 := c1.keep k2 la1 nofun
  have x2 := x1.keep k2 lx1 nofun
  have k02 := k1.trans k2
  refine Runs.step (Mat.size_run a h2) ?_
  rw [c2.1]
  dsimp only [Loc.id]
  have hx1 : x ≠ h.next := by rintro rfl; exact f1 lx
  have hx2 : x ≠ h1.next := by rintro rfl; exact f2 lx1
  have h12 : h.next ≠ h1.next := by omega
  have nf1 : ¬ h.live (.v h.next) := f1
  have nf2 : ¬ h.live (.v h1.next) := fun q => by simp only [Heap.live, Loc.id] at q; omega
  refine Runs.mono (Runs.foldN s.k.toNat (fun i r h' => h'.WF ∧ Keeps h2 h' (fun l => l = .v h.next ∨ l = .v h1.next) ∧
    Cells h' (.m a) n m F ∧ VCells h' (.v x) n f ∧
    r = near (fun i => Real.sqrt (∑ t ∈ Finset.range n, (f t - F i t) ^ 2)) m i) _ _ _ ⟨w2, Keeps.refl _ _, c2, x2, rfl⟩ ?_) ?_
  · rintro i r h3 _ ⟨w3, k3, c3, x3, rfl⟩
    refine (candidate_run w3 c3 x3 h12 hx1 hx2 hm _).andThen fun r h4 ⟨w4, k4, n4, c4, x4, e4⟩ => ?_
    subst e4
    by_cases hin : cand (fun i => Real.sqrt (∑ t ∈ Finset.range n, (f t - F i t) ^ 2))
        (near (fun i => Real.sqrt (∑ t ∈ Finset.range n, (f t - F i t) ^ 2)) m i) m ∈
        near (fun i => Real.sqrt (∑ t ∈ Finset.range n, (f t - F i t) ^ 2)) m i
    · rw [if_pos hin]
      exact Runs.of_eq rfl ⟨w4, k3.trans k4, c4, x4, by rw [near, if_pos hin]⟩
    · rw [if_neg hin]
      exact Runs.of_eq rfl ⟨w4, k3.trans k4, c4, x4, by rw [near, if_neg hin]⟩
  · rintro r h' ⟨w', k', _, _, rfl⟩
    exact ⟨rfl, w', k02.newer k' (by rintro l (rfl | rfl) <;> assumption)⟩

theorem dist_fin {F : Nat → Nat → ℝ} {f : Nat → ℝ} {A : Matrix (Fin m) (Fin n) ℝ} {u : Fin n → ℝ} (eF : ∀ i j, A i j = F i j)
    (ef : ∀ i, u i = f i) (i : Fin m) : Real.sqrt (∑ t ∈ Finset.range n, (f t - F i t) ^ 2) = dist2 u (A i) := by
  rw [dist2, Finset.sum_range]; simp only [eF, ef]

open Classical in
theorem card_fin (d : Nat → ℝ) (D : Fin (m + 1) → ℝ) (e : ∀ i : Fin (m + 1), d (i : Nat) = D i) :
    ((Finset.range (m + 1)).filter fun j => d j < d 0).card = (Finset.univ.filter fun j => D j < D 0).card := by
  symm
  refine Finset.card_bij (fun j _ => (j : Nat)) (fun j hj => ?_) (fun a _ b _ q => Fin.ext q) (fun b hb => ?_)
  · have e0 : d 0 = D 0 := e 0
    simp only [Finset.mem_filter, Finset.mem_range, Finset.mem_univ, true_and] at hj ⊢
    rw [e, e0]; exact ⟨j.2, hj⟩
  · have e0 : d 0 = D 0 := e 0
    simp only [Finset.mem_filter, Finset.mem_range] at hb
    refine ⟨⟨b, hb.1⟩, ?_, rfl⟩
    simp only [Finset.mem_filter, Finset.mem_univ, true_and]
    rw [← e, ← e0]; exact hb.2

open Classical in
/-- C84 (neighbours): for a point of the right size, `nearest_neighbors` lists different rows of the input set, nearest first; no row
that is not listed is nearer than one that is. What is missing from the property: the list has `k` entries only if at least `k - 1` rows
are strictly nearer than row 0; its exact length is given. -/
theorem C84_neighbours_partial {h : Heap ℝ} (w : h.WF) (s : KNN) {a x : Nat} (hs : s.input_set = some a)
    {A : Matrix (Fin (m + 1)) (Fin n) ℝ} (hA : IsMat h a A) {u : Fin n → ℝ} (hx : IsVec h x u) (la : h.live (.m a)) (lx : h.live (.v x)) :
    Runs (nearest_neighbors s (some (.v x))) h fun r h' => h'.WF ∧ Keeps h h' (fun _ => False) ∧ r.Nodup ∧ ∃ q : List (Fin (m + 1)),
      r = q.map Fin.val ∧ q.Pairwise (fun i j => dist2 u (A i) ≤ dist2 u (A j)) ∧
      (∀ i ∈ q, ∀ j, j ∉ q → dist2 u (A i) ≤ dist2 u (A j)) ∧
      r.length = min s.k.toNat ((Finset.univ.filter fun j => dist2 u (A j) < dist2 u (A 0)).card + 1) := by
  obtain ⟨F, eF, cF⟩ := hA.cells w
  obtain ⟨f, ef, cx⟩ := hx.cells w
  refine (nearest_run w s hs cF cx la lx (Nat.succ_pos m)).mono fun r h' ⟨e, w', k'⟩ => ⟨w', k', ?_⟩
  generalize hd : (fun i => Real.sqrt (∑ t ∈ Finset.range n, (f t - F i t) ^ 2)) = d at e
  have hD : ∀ i : Fin (m + 1), d i = dist2 u (A i) := fun i => by rw [← hd]; exact dist_fin eF ef i
  obtain ⟨nd, rg, so, le, _⟩ := near_spec d (Nat.succ_pos m) s.k.toNat
  have hl := near_length d (Nat.succ_pos m) s.k.toNat
  rw [← e] at nd rg so le hl
  refine ⟨nd, r.attach.map fun p => ⟨p.1, rg p.1 p.2⟩, ?_, ?_, ?_, ?_⟩
  · rw [List.map_map]
    simp [Function.comp_def]
  · rw [List.pairwise_map]
    simp only [← hD]
    refine List.pairwise_iff_getElem.mpr fun i j hi hj hij => ?_
    simp only [List.getElem_attach]
    exact List.pairwise_iff_getElem.mp so i j _ _ hij
  · intro i hi j hj
    rw [← hD, ← hD]
    simp only [List.mem_map, List.mem_attach, true_and, Subtype.exists] at hi hj
    obtain ⟨p, hp, rfl⟩ := hi
    refine le p hp j j.2 fun q => hj ⟨j, q, rfl⟩
  · rw [hl, card_fin d _ hD]

/-- C84 (defect): if row 0 is at least as near as every other row, then only row 0 is found, however large `k` is. -/
theorem C84_fails {h : Heap ℝ} (w : h.WF) (s : KNN) {a x : Nat} (hs : s.input_set = some a)
    {A : Matrix (Fin (m + 1)) (Fin n) ℝ} (hA : IsMat h a A) {u : Fin n → ℝ} (hx : IsVec h x u) (la : h.live (.m a)) (lx : h.live (.v x))
    (hk : 1 ≤ s.k) (h0 : ∀ j, dist2 u (A 0) ≤ dist2 u (A j)) :
    Runs (nearest_neighbors s (some (.v x))) h fun r _ => r = [0] := by
  classical
  obtain ⟨F, eF, cF⟩ := hA.cells w
  obtain ⟨f, ef, cx⟩ := hx.cells w
  refine (nearest_run w s hs cF cx la lx (Nat.succ_pos m)).mono fun r h' ⟨e, w', k'⟩ => ?_
  generalize hd : (fun i => Real.sqrt (∑ t ∈ Finset.range n, (f t - F i t) ^ 2)) = d at e
  have hD : ∀ i : Fin (m + 1), d i = dist2 u (A i) := fun i => by rw [← hd]; exact dist_fin eF ef i
  have hmin : ∀ j < m + 1, ¬ d j < d 0 := fun j hj => by
    have e0 : d 0 = _ := hD 0
    rw [show d j = _ from hD ⟨j, hj⟩, e0]; exact not_lt.mpr (h0 _)
  obtain ⟨nd, rg, _, _, st⟩ := near_spec d (Nat.succ_pos m) s.k.toNat
  have hl := near_length d (Nat.succ_pos m) s.k.toNat
  rw [← e] at nd rg hl st
  rw [Finset.filter_eq_empty_iff.mpr (by intro j hj; exact hmin j (Finset.mem_range.mp hj)), Finset.card_empty] at hl
  obtain ⟨b, rfl⟩ := List.length_eq_one_iff.mp (show r.length = 1 by omega)
  rcases st with ⟨_, _, s3⟩ | ⟨s1, _⟩
  · exact absurd (s3 b (by simp)) (hmin b (rg b (by simp)))
  · rw [List.mem_singleton.mp s1]

/-! ## The class -/

open Classical in
/-- How often the neighbour list contains the number `v`, times how many rows have the class `v`. -/
noncomputable def _root_.Verif.Spec.votes {p : Nat} (knn : List Nat) (cls : Fin p → ℤ) (v : ℤ) : ℕ :=
  (knn.filter fun a : Nat => decide ((a : ℤ) = v)).length * (Finset.univ.filter fun j => cls j = v).card

theorem classAt_run {h : Heap ℝ} {o p : Nat} {g : Nat → ℝ} (co : VCells h (.v o) p g) {i : Nat} (hi : i < p) (q : InInt (g i)) :
    classAt o i h = .ok (trunc (g i), h) := by
  unfold classAt
  rw [bind_ok (load_ok (co.get hi))]
  exact toInt_run q h

open Classical in
/-- The votes, on numbers. -/
noncomputable def votesN (knn : List Nat) (p : Nat) (g : Nat → ℝ) (v : ℤ) : ℕ :=
  (knn.filter fun a : Nat => decide ((a : ℤ) = v)).length * ((List.range p).filter fun j => decide (trunc (g j) = v)).length

/-- The first index with the most votes. -/
noncomputable def best (V : Nat → ℕ) : Nat → Nat
  | 0 => 0
  | i + 1 => if V i > V (best V i) then i else best V i

theorem best_spec (V : Nat → ℕ) : ∀ i, (best V i = 0 ∨ best V i < i) ∧ (∀ j < i, V j ≤ V (best V i)) ∧ ∀ j < best V i, V j < V (best V i)
  | 0 => ⟨.inl rfl, nofun, nofun⟩
  | i + 1 => by
    obtain ⟨b1, b2, b3⟩ := best_spec V i
    rw [best]
    by_cases hv : V i > V (best V i)
    · rw [if_pos hv]
      refine ⟨.inr (by omega), fun j hj => ?_, fun j hj => lt_of_le_of_lt (b2 j hj) hv⟩
      rcases Nat.lt_succ_iff_lt_or_eq.mp hj with z | rfl
      · exact le_of_lt (lt_of_le_of_lt (b2 j z) hv)
      · exact le_rfl
    · rw [if_neg hv]
      refine ⟨by omega, fun j hj => ?_, b3⟩
      rcases Nat.lt_succ_iff_lt_or_eq.mp hj with z | rfl
      · exact b2 j z
      · exact not_lt.mp hv

theorem determine_eq {h : Heap ℝ} (w : h.WF) (s : KNN) {o p : Nat} (hs : s.output_set = some o) {g : Nat → ℝ} (hp : 0 < p)
    (co : VCells h (.v o) p g) (q : ∀ i < p, InInt (g i)) (knn : List Nat) :
    determine_class s knn h = .ok (trunc (g (best (fun i => votesN knn p g (trunc (g i))) p)), h) := by
  classical
  let V : ℤ → ℕ := fun v => (knn.filter fun a : Nat => decide ((a : ℤ) = v)).length * ((List.range p).filter fun j => decide (trunc (g j) = v)).length
  have hVn : ∀ v, votesN knn p g v = V v := fun v => by simp only [votesN, V]
  simp only [hVn]
  let B : Nat → Nat := best (fun i => V (trunc (g i)))
  have best_succ : ∀ i, B (i + 1) = if V (trunc (g i)) > V (trunc (g (B i))) then i else B i := fun i => rfl
  show _ = Out.ok (trunc (g (B p)), h)
  unfold determine_class
  rw [hs]
  dsimp only
  have hlen : (h.vec o).length = p := by show (h.buf (.v o)).length = p; rw [co.2]; simp [tab]
  rw [bind_ok (Vec.size_run w o), hlen, if_neg (by omega)]
  rw [bind_ok (foldN_read p (fun _ => fun _ : Int => (0 : Int)) _ _ h rfl (by
    intro i hi
    rw [bind_ok (classAt_run co hi (q i hi))]
    show Out.ok (_, h) = _
    rw [Function.update_eq_self_iff.mpr rfl]))]
  have hin : ∀ i (hi : i < knn.length), foldN p (fun v => (((knn.take i).filter fun a : Nat => decide ((a : ℤ) = v)).length *
        ((List.range p).filter fun j => decide (trunc (g j) = v)).length : ℤ)) (fun j nums => do
          let opj ← classAt o j
          let kn ← atS knn i
          if (kn : Int) = opj then pure (Function.update nums opj (nums opj + 1)) else pure nums) h =
      .ok (fun v => (((knn.take (i + 1)).filter fun a : Nat => decide ((a : ℤ) = v)).length *
        ((List.range p).filter fun j => decide (trunc (g j) = v)).length : ℤ), h) := by
    intro i hi
    rw [foldN_read p (fun k v => (((knn.take i).filter fun a : Nat => decide ((a : ℤ) = v)).length *
        ((List.range p).filter fun j => decide (trunc (g j) = v)).length +
        (if (knn[i] : ℤ) = v then ((List.range k).filter fun j => decide (trunc (g j) = v)).length else 0 : ℕ) : ℤ)) _ _ h (by simp) (by
      intro j hj
      rw [bind_ok (classAt_run co hj (q j hj)), bind_ok (atS_lt hi h)]
      by_cases hk : (knn[i] : ℤ) = trunc (g j)
      · rw [if_pos hk]
        refine congrArg (fun o => Out.ok (o, h)) ?_
        funext v
        rw [List.range_succ, List.filter_append]
        by_cases hv : v = trunc (g j)
        · subst hv; rw [Function.update_self]; simp [hk]; ring
        · rw [Function.update_of_ne hv]; simp [Ne.symm hv]
      · rw [if_neg hk]
        refine congrArg (fun o => Out.ok (o, h)) ?_
        funext v
        rw [List.range_succ, List.filter_append]
        by_cases hv : (knn[i] : ℤ) = v
        · subst hv; simp [Ne.symm hk]
        · simp [hv])]
    refine congrArg (fun o => Out.ok (o, h)) ?_
    funext v
    rw [List.take_add_one, List.getElem?_eq_getElem hi, List.filter_append]
    by_cases hv : (knn[i] : ℤ) = v
    · subst hv; simp; ring
    · simp [hv]
  rw [bind_ok (foldN_read knn.length (fun i v => (((knn.take i).filter fun a : Nat => decide ((a : ℤ) = v)).length *
        ((List.range p).filter fun j => decide (trunc (g j) = v)).length : ℤ)) _ _ h (by simp) hin)]
  rw [bind_ok (classAt_run co hp (q 0 hp)), List.take_length]
  have hV : ∀ v, (((knn.filter fun a : Nat => decide ((a : ℤ) = v)).length *
        ((List.range p).filter fun j => decide (trunc (g j) = v)).length : ℤ)) = ((V v : ℕ) : ℤ) := fun v => by simp [V]
  simp only [hV]
  rw [bind_ok (foldN_read p (fun i => (trunc (g (B i)), ((V (trunc (g (B i))) : ℕ) : ℤ))) _ (trunc (g 0), ((V (trunc (g 0)) : ℕ) : ℤ)) h rfl (by
    intro i hi
    rw [bind_ok (classAt_run co hi (q i hi)), best_succ]
    by_cases hv : V (trunc (g i)) > V (trunc (g (B i)))
    · rw [if_pos hv, if_pos (show ((V (trunc (g i)) : ℕ) : ℤ) > ((V (trunc (g (B i))) : ℕ) : ℤ) by exact_mod_cast hv)]; rfl
    · rw [if_neg hv, if_neg (show ¬ ((V (trunc (g i)) : ℕ) : ℤ) > ((V (trunc (g (B i))) : ℕ) : ℤ) by exact_mod_cast hv)]; rfl))]
  rfl

theorem determine_run {h : Heap ℝ} (w : h.WF) (s : KNN) {o p : Nat} (hs : s.output_set = some o) {g : Nat → ℝ} (hp : 0 < p)
    (co : VCells h (.v o) p g) (q : ∀ i < p, InInt (g i)) (knn : List Nat) :
    ∃ i, i < p ∧ determine_class s knn h = .ok (trunc (g i), h) ∧
      (∀ j < p, votesN knn p g (trunc (g j)) ≤ votesN knn p g (trunc (g i))) ∧
      ∀ j < i, votesN knn p g (trunc (g j)) < votesN knn p g (trunc (g i)) := by
  have hb := best_spec (fun i => votesN knn p g (trunc (g i))) p
  refine ⟨_, ?_, determine_eq w s hs hp co q knn, hb.2⟩
  rcases hb.1 with z | z <;> omega

open Classical in
theorem filter_range_card {p : Nat} (cls : Fin p → ℤ) (c : Nat → ℤ) (e : ∀ i, cls i = c i) (v : ℤ) :
    ((List.range p).filter fun j => decide (c j = v)).length = (Finset.univ.filter fun j => cls j = v).card := by
  rw [← List.toFinset_card_of_nodup (List.nodup_range.filter _)]
  symm
  refine Finset.card_bij (fun j _ => (j : Nat)) (fun j hj => ?_) (fun a _ b _ q => Fin.ext q) (fun b hb => ?_)
  · simp only [Finset.mem_filter, Finset.mem_univ, true_and] at hj
    simp [← e, hj]
  · simp only [List.mem_toFinset, List.mem_filter, List.mem_range, decide_eq_true_eq] at hb
    exact ⟨⟨b, hb.1⟩, by simp [e, hb.2], rfl⟩

open Classical in
theorem determine_spec {h : Heap ℝ} (w : h.WF) (s : KNN) {o p : Nat} (hs : s.output_set = some o) {c : Fin (p + 1) → ℝ} (ho : IsVec h o c)
    (q : ∀ i, InInt (c i)) (knn : List Nat) : ∃ i, determine_class s knn h = .ok (trunc (c i), h) ∧
      (∀ j, votes knn (fun j => trunc (c j)) (trunc (c j)) ≤ votes knn (fun j => trunc (c j)) (trunc (c i))) ∧
      ∀ j < i, votes knn (fun j => trunc (c j)) (trunc (c j)) < votes knn (fun j => trunc (c j)) (trunc (c i)) := by
  obtain ⟨g, eg, co⟩ := ho.cells w
  obtain ⟨i, hi, e, v1, v2⟩ := determine_run w s hs (Nat.succ_pos p) co (fun i hi => by have := q ⟨i, hi⟩; rw [eg] at this; exact this) knn
  simp only [votesN, filter_range_card (fun j : Fin (p + 1) => trunc (c j)) (fun j => trunc (g j)) (fun j => by rw [eg])] at v1 v2
  refine ⟨⟨i, hi⟩, by rw [eg]; exact e, fun j => ?_, fun j hj => ?_⟩
  · have := v1 j j.2; simp only [votes, eg] at this ⊢; exact this
  · have := v2 j hj; simp only [votes, eg] at this ⊢; exact this

/-- C85 (what is counted): the class that is returned is the class of some row, and no class has more votes, where the votes of a class
`v` are the number of times the *number* `v` occurs in the list of neighbour row numbers, times the number of rows of class `v`. Among
equals the class of the earliest row wins. -/
theorem C85_votes {h : Heap ℝ} (w : h.WF) (s : KNN) {o p : Nat} (hs : s.output_set = some o) {c : Fin (p + 1) → ℝ} (ho : IsVec h o c)
    (q : ∀ i, InInt (c i)) (knn : List Nat) : Runs (determine_class s knn) h fun r h' => h' = h ∧ ∃ i, r = trunc (c i) ∧
      (∀ j, votes knn (fun j => trunc (c j)) (trunc (c j)) ≤ votes knn (fun j => trunc (c j)) (trunc (c i))) ∧
      ∀ j < i, votes knn (fun j => trunc (c j)) (trunc (c j)) < votes knn (fun j => trunc (c j)) (trunc (c i)) := by
  obtain ⟨i, e, v⟩ := determine_spec w s hs ho q knn
  exact Runs.of_eq e ⟨rfl, i, rfl, v⟩

/-- C85 (defect): the classes of the neighbours do not matter. If no class number is the number of a row, the answer is the class of
the first row, whichever rows are the neighbours. -/
theorem C85_majority_fails {h : Heap ℝ} (w : h.WF) (s : KNN) {o p : Nat} (hs : s.output_set = some o) {c : Fin (p + 1) → ℝ}
    (ho : IsVec h o c) (q : ∀ i, InInt (c i)) (knn : List Nat) (hk : ∀ a ∈ knn, a < p + 1)
    (hc : ∀ i, trunc (c i) < 0 ∨ (p + 1 : ℤ) ≤ trunc (c i)) :
    determine_class s knn h = .ok (trunc (c 0), h) := by
  classical
  obtain ⟨i, e, _, v⟩ := determine_spec w s hs ho q knn
  have z : ∀ j, votes knn (fun j => trunc (c j)) (trunc (c j)) = 0 := by
    intro j
    unfold votes
    rw [List.filter_eq_nil_iff.mpr]
    · simp
    · intro a ha
      have := hk a ha
      have := hc j
      simp; omega
  have : i = 0 := by
    by_contra hi
    have := v 0 (Fin.pos_iff_ne_zero.mpr hi)
    rw [z, z] at this; exact lt_irrefl _ this
  rw [e, this]

/-- A concrete instance of the defect: three rows of classes 7, 8, 8, the neighbours being the two rows of class 8; the answer is 7. -/
example : let h : Heap ℝ := Heap.ofLists 0 [[7, 8, 8]] []
    determine_class ⟨none, some 0, 2⟩ [1, 2] h = .ok (7, h) := by
  intro h
  have w : h.WF := Heap.ofLists_wf _ _ _ (by simp)
  have hv : IsVec h 0 ![7, 8, 8] := ⟨by simp [h, Heap.ofLists], fun i => by fin_cases i <;> simp [h, Heap.ofLists]⟩
  have t7 : trunc (7 : ℝ) = 7 := by
    unfold trunc; rw [if_pos (by norm_num)]; exact_mod_cast Int.floor_natCast (R := ℝ) 7
  have t8 : trunc (8 : ℝ) = 8 := by
    unfold trunc; rw [if_pos (by norm_num)]; exact_mod_cast Int.floor_natCast (R := ℝ) 8
  have := C85_majority_fails w ⟨none, some 0, 2⟩ rfl hv (fun i => by fin_cases i <;> norm_num [InInt]) [1, 2] (by simp)
    (fun i => by fin_cases i <;> simp [t7, t8])
  simpa [t7] using this

/-! ## The model -/

/-- The model as a function. -/
noncomputable def answer (k : Int) (m n p : Nat) (F : Nat → Nat → ℝ) (g : Nat → ℝ) (u : Fin n → ℝ) : ℤ :=
  trunc (g (best (fun i => votesN (near (fun i => Real.sqrt (∑ t : Fin n, (u t - F i t) ^ 2)) m k.toNat) p g (trunc (g i))) p))

theorem model_test_run {h : Heap ℝ} (w : h.WF) (s : KNN) {a o x p : Nat} (hi : s.input_set = some a) (hs : s.output_set = some o)
    {F : Nat → Nat → ℝ} (cF : Cells h (.m a) n m F) {g : Nat → ℝ} (co : VCells h (.v o) p g) (q : ∀ i < p, InInt (g i))
    {u : Fin n → ℝ} (hx : IsVec h x u) (la : h.live (.m a)) (lo : h.live (.v o)) (lx : h.live (.v x)) (hm : 0 < m) (hp : 0 < p) :
    ReturnsVal (model_test s (some (.v x))) h (answer s.k m n p F g u) := by
  unfold model_test
  obtain ⟨f, ef, cx⟩ := hx.cells w
  refine (nearest_run w s hi cF cx la lx hm).bind fun h1 w1 k1 => ?_
  have co1 := co.keep k1 lo nofun
  refine Runs.of_eq (determine_eq w1 s hs hp co1 q _) ⟨?_, w1, k1⟩
  unfold answer
  simp only [Finset.sum_range, ef]

theorem fraction_cast {k l : Nat} (e : k = l) {P : Fin k → Prop} {Q : Fin l → Prop} (hpq : ∀ i, P i ↔ Q (Fin.cast e i)) :
    fraction P = fraction Q := by
  subst e
  have : P = Q := funext fun i => propext (hpq i)
  rw [this]

open Classical in
/-- C85 (model): the answers of `model_test` depend only on the values of the point; `model_set_test` gives, for every row of a matrix,
the answer that `model_test` gives for a vector with the values of the row; and `score` is the fraction of the rows of the input set
for which this answer is (to the nearest integer) the stored output. None of the calls changes an existing object. -/
theorem C85_model {h : Heap ℝ} (w : h.WF) (s : KNN) {a o : Nat} (hi : s.input_set = some a) (hs : s.output_set = some o)
    {A : Matrix (Fin (m + 1)) (Fin n) ℝ} (hA : IsMat h a A) {c : Fin (m + 1) → ℝ} (ho : IsVec h o c) (q : ∀ i, InInt (c i))
    (la : h.live (.m a)) (lo : h.live (.v o)) : ∃ f : (Fin n → ℝ) → ℤ,
      (∀ (x : Nat) (u : Fin n → ℝ), IsVec h x u → h.live (.v x) → ReturnsVal (model_test s (some (.v x))) h (f u)) ∧
      (∀ (X l : Nat) (B : Matrix (Fin l) (Fin n) ℝ), IsMat h X B → h.live (.m X) →
        ReturnsVal (model_set_test s (some X)) h (List.ofFn fun i => f (B i))) ∧
      ReturnsVal (score s) h (fraction fun i => Nearest (c i) (f (A i))) := by
  obtain ⟨F, eF, cF⟩ := hA.cells w
  obtain ⟨g, eg, co⟩ := ho.cells w
  have q' : ∀ i < m + 1, InInt (g i) := fun i hi => by have := q ⟨i, hi⟩; rw [eg] at this; exact this
  have hset : ∀ (X l : Nat) (B : Matrix (Fin l) (Fin n) ℝ), IsMat h X B → h.live (.m X) →
        ReturnsVal (model_set_test s (some X)) h (List.ofFn fun i => answer s.k (m + 1) n (m + 1) F g (B i)) := by
    intro X l B hB lX
    obtain ⟨G, eG, cG⟩ := hB.cells w
    unfold model_set_test
    dsimp only
    refine Runs.newV w fun h1 w1 k1 f1 l1 _ => ?_
    have cF1 := cF.keep k1 la nofun
    have co1 := co.keep k1 lo nofun
    have cG1 := cG.keep k1 lX nofun
    have la1 := k1.live la
    have lo1 := k1.live lo
    have lX1 := k1.live lX
    have hov : o ≠ h.next := by rintro rfl; exact f1 lo
    generalize h.next = v at *
    refine Runs.step (Mat.size_run X h1) ?_
    rw [cG1.1]
    dsimp only [Loc.id]
    refine Runs.mono (Runs.foldN l (fun i r h' => h'.WF ∧ Keeps h1 h' (· = .v v) ∧ r = (List.range i).map fun i =>
      answer s.k (m + 1) n (m + 1) F g (fun t => G i t)) _ _ _ ⟨w1, Keeps.refl _ _, rfl⟩ ?_) ?_
    · rintro i r h2 hil ⟨w2, k2, rfl⟩
      obtain ⟨h3, e3, u3⟩ := Mat.rowGet_run (v := v) w2 (cG1.keep k2 lX1 nofun) hil
      refine Runs.step e3 ?_
      have w3 := u3.wf w2
      have k13 := k2.trans u3.keeps
      have hv3 : IsVec h3 v (fun t : Fin n => G i t) := VCells.isVec u3.cells fun _ => rfl
      refine (model_test_run w3 s hi hs (cF1.keep k13 la1 nofun) (co1.keep k13 lo1 (by simpa using hov)) q' hv3 (k13.live la1)
        (k13.live lo1) (k13.live l1) (Nat.succ_pos m) (Nat.succ_pos m)).bind fun h4 w4 k4 => ?_
      refine Runs.of_eq rfl ⟨w4, k13.trans (k4.mono fun _ _ => False.elim), ?_⟩
      rw [List.range_succ, List.map_append]; rfl
    · rintro r h' ⟨w', k', rfl⟩
      refine ⟨?_, w', k1.newer k' (by rintro _ rfl; exact f1)⟩
      apply List.ext_getElem
      · simp
      · intro i h1 h2
        simp only [List.getElem_map, List.getElem_range, List.getElem_ofFn]
        congr 1; funext t; rw [eG]
  refine ⟨answer s.k (m + 1) n (m + 1) F g, ?_, hset, ?_⟩
  · intro x u hx lx
    exact model_test_run w s hi hs cF co q' hx la lo lx (Nat.succ_pos m) (Nat.succ_pos m)
  · unfold score
    rw [hi]
    refine (hset a (m + 1) A hA la).bind fun h1 w1 k1 => ?_
    generalize hph : (List.ofFn fun i => answer s.k (m + 1) n (m + 1) F g (A i)) = ph
    have hlen : ph.length = m + 1 := by rw [← hph, List.length_ofFn]
    have ho1 := ho.keep k1 lo nofun
    rw [hs]
    have hy : IsVec h1 o (fun i : Fin ph.length => c (Fin.cast hlen i)) := by
      refine ⟨by rw [hlen]; exact ho1.1, fun i => ?_⟩
      have := ho1.2 (Fin.cast hlen i)
      exact this
    refine Runs.of_eq (Utilities.C62_pool h1 w1 ph o _ hy) ⟨?_, w1, k1⟩
    refine fraction_cast hlen fun i => ?_
    subst hph
    rw [show (List.ofFn fun i => answer s.k (m + 1) n (m + 1) F g (A i))[i] = _ from List.getElem_ofFn _]
    rfl

/-- C84, C85 (missing data): without an input set there are no neighbours, without an output set the class is 0, and testing no matrix
gives an empty list. -/
theorem C84_null (h : Heap ℝ) (s : KNN) (x : Ref) (knn : List Nat) : (s.input_set = none → nearest_neighbors s x h = .ok ([], h)) ∧
    (s.output_set = none → determine_class s knn h = .ok (0, h)) ∧ model_set_test s none h = .ok ([], h) := by
  refine ⟨fun e => ?_, fun e => ?_, rfl⟩
  · unfold nearest_neighbors; rw [e]; rfl
  · unfold determine_class; rw [e]; rfl

/-- The hypotheses are met; in this instance row 0 is the nearest one, so only one neighbour is found although `k = 2`. -/
example : let h : Heap ℝ := Heap.ofLists 0 [[0, 1], [1, 2]] [(2, 2, [0, 1, 3, 3])]
    h.WF ∧ IsMat h 0 !![0, 1; 3, 3] ∧ IsVec h 0 ![0, 1] ∧ IsVec h 1 ![1, 2] ∧ h.live (.m 0) ∧ h.live (.v 0) ∧
      dist2 ![0, 1] ((!![0, 1; 3, 3] : Matrix (Fin 2) (Fin 2) ℝ) 0) < dist2 ![0, 1] ((!![0, 1; 3, 3] : Matrix (Fin 2) (Fin 2) ℝ) 1) := by
  refine ⟨Heap.ofLists_wf _ _ _ (by simp), ?_, ?_, ?_, ?_, ?_, ?_⟩
  · exact ⟨by simp [Heap.ofLists], fun i j => by fin_cases i <;> fin_cases j <;> simp [Heap.ofLists]⟩
  · exact ⟨by simp [Heap.ofLists], fun i => by fin_cases i <;> simp [Heap.ofLists]⟩
  · exact ⟨by simp [Heap.ofLists], fun i => by fin_cases i <;> simp [Heap.ofLists]⟩
  · simp [Heap.ofLists, Heap.live, Loc.id]
  · simp [Heap.ofLists, Heap.live, Loc.id]
  · refine Real.sqrt_lt_sqrt (Finset.sum_nonneg fun i _ => sq_nonneg _) ?_
    simp [Fin.sum_univ_two]; norm_num

end Verif.KNN
