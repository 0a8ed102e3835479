import Verif.Spec.KMeans
import Verif.Lemmas.Thread
import Verif.Lemmas.Reduce
import Verif.Lemmas.VecSpec
import Verif.Lemmas.GlmSgd

/-! # Lemmas about `MLPPKMeans` -/

namespace Verif
open Spec

theorem zip_foldl_sum {n : Nat} (u v : Fin n → ℝ) (f : ℝ → ℝ → ℝ) :
    ((List.ofFn u).zip (List.ofFn v)).foldl (fun c p => c + f p.1 p.2) 0 = ∑ i, f (u i) (v i) := by
  have : (List.ofFn u).zip (List.ofFn v) = List.ofFn fun i => (u i, v i) := by
    apply List.ext_getElem <;> simp
  rw [this]
  have h : ∀ (l : List (ℝ × ℝ)) (a : ℝ), l.foldl (fun c p => c + f p.1 p.2) a = a + (l.map fun p => f p.1 p.2).sum := by
    intro l
    induction l with
    | nil => intro a; simp
    | cons p l ih => intro a; simp [ih, add_assoc]
  rw [h, zero_add, List.map_ofFn, List.sum_ofFn]
  rfl

theorem Spec.Keeps.wrt {h h' h'' : Heap ℝ} {S : Loc → Prop} {q : Ref} (k : Keeps h h' S) (k' : Keeps h' h'' (some · = q)) (f : NotIn h q) :
    Keeps h h'' S := k.trans_new k' fun l e hl => (f l e.symm hl).elim

theorem Spec.Keeps.wrt2 {h h' h'' : Heap ℝ} {S : Loc → Prop} {p q : Ref} (k : Keeps h h' S)
    (k' : Keeps h' h'' fun l => some l = p ∨ some l = q) (f : NotIn h p) (g : NotIn h q) :
    Keeps h h'' S := k.trans_new k' fun l e hl => (e.elim (fun e => f l e.symm hl) fun e => g l e.symm hl).elim

/-- Two handles of the context are different. -/
macro "neq" : tactic => `(tactic| first | assumption | exact Ne.symm (by assumption))

namespace Hd
variable {h : Heap ℝ} {a b c : Ref} {n m p : Nat} {u v : Fin n → ℝ}

theorem euclidean_distance_run (w : h.WF) (ha : HasV h a u) (hb : HasV h b v) :
    euclidean_distance a b h = .ok (Real.sqrt (sqDist u v), h) := by
  obtain ⟨x, rfl, l, i⟩ := ha; obtain ⟨y, rfl, l', i'⟩ := hb
  have ex := i.vec_eq w
  have ey := i'.vec_eq w
  show Vec.euclidean_distance x (some y) h = _
  rw [Vec.euclidean_distance_run w x y (by rw [show h.buf (.v x) = _ from ex, show h.buf (.v y) = _ from ey]; simp),
    show h.buf (.v x) = _ from ex, show h.buf (.v y) = _ from ey, zip_foldl_sum u v fun p q => (p - q) * (p - q)]
  simp only [sqDist, pow_two]
  rfl

theorem norm_sq_run (w : h.WF) (ha : HasV h a u) : norm_sq a h = .ok (∑ i, u i ^ 2, h) := by
  obtain ⟨x, rfl, l, i⟩ := ha
  have ex := i.vec_eq w
  show Vec.norm_sq x h = _
  rw [Vec.norm_sq_run w x, show h.buf (.v x) = _ from ex]
  have : ∀ (l : List ℝ) (a : ℝ), l.foldl (fun c x => c + x * x) a = a + (l.map fun x => x * x).sum := by
    intro l
    induction l with
    | nil => intro a; simp
    | cons p l ih => intro a; simp [ih, add_assoc]
  rw [this, zero_add, List.map_ofFn, List.sum_ofFn]
  simp only [pow_two]
  rfl

theorem subb_run (w : h.WF) {t : Fin m → ℝ} (ha : HasV h a t) (hb : HasV h b u) (hc : HasV h c v) :
    Runs (subb a b c) h fun _ h' => h'.WF ∧ Keeps h h' (some · = a) ∧ HasV h' a (fun i => u i - v i) := by
  obtain ⟨x, rfl, l, i⟩ := ha; obtain ⟨y, rfl, l', i'⟩ := hb; obtain ⟨z, rfl, l'', i''⟩ := hc
  obtain ⟨F, eF, cu⟩ := i'.cells w
  obtain ⟨G, eG, cv⟩ := i''.cells w
  obtain ⟨h', e, up⟩ := binB_run (fun x y : ℝ => x - y) (.v x) (.v y) (.v z) h (w.len _) (w.len _) (w.len _) (by rw [cu.1, cv.1])
  rw [cu.1, cu.2, cv.2, show List.zipWith (fun x y : ℝ => x - y) (SortArray.tab n F) (SortArray.tab n G) = SortArray.tab n (fun i => F i - G i) by
    apply List.ext_getElem <;> simp [SortArray.tab]] at up
  exact (updated_setsVec (v := fun i => u i - v i) w e up fun i => by rw [eF, eG]).hasV l

theorem scalar_multiplyb_run (w : h.WF) {t : Fin m → ℝ} (ha : HasV h a t) (hb : HasV h b u) (k : ℝ) :
    Runs (scalar_multiplyb a k b) h fun _ h' => h'.WF ∧ Keeps h h' (some · = a) ∧ HasV h' a (fun i => u i * k) := by
  obtain ⟨x, rfl, l, i⟩ := ha; obtain ⟨y, rfl, l', i'⟩ := hb
  obtain ⟨F, eF, cu⟩ := i'.cells w
  obtain ⟨h', e, up⟩ := unBX_run (· * k) (.v x) (.v y) h (w.len _) (w.len _)
  rw [cu.1, cu.2, show (SortArray.tab n F).map (· * k) = SortArray.tab n (fun i => F i * k) by simp [SortArray.tab]] at up
  exact (updated_setsVec (v := fun i => u i * k) w e up fun i => by rw [eF]).hasV l

theorem fillv_run (w : h.WF) (ha : HasV h a u) (x : ℝ) :
    Runs (fillv a x) h fun _ h' => h'.WF ∧ Keeps h h' (some · = a) ∧ HasV h' a (fun _ : Fin n => x) := by
  obtain ⟨y, rfl, l, i⟩ := ha
  have e := fillAll_run (.v y) x h (w.len _)
  have up := updated_setBuf h (.v y) (List.replicate (h.size (.v y)).count x)
  rw [i.1, count_vec, replicate_eq_vtab] at up
  rw [i.1, count_vec, replicate_eq_vtab] at e
  exact (updated_setsVec (v := fun _ : Fin n => x) w e up fun i => rfl).hasV l

theorem fillm_run (w : h.WF) {A : Matrix (Fin m) (Fin n) ℝ} (ha : HasM h a A) (x : ℝ) :
    Runs (fillm a x) h fun _ h' => h'.WF ∧ Keeps h h' (some · = a) ∧ HasM h' a (fun (_ : Fin m) (_ : Fin n) => x) := by
  obtain ⟨y, rfl, l, i⟩ := ha
  have e := fillAll_run (.m y) x h (w.len _)
  have up := updated_setBuf h (.m y) (List.replicate (h.size (.m y)).count x)
  rw [i.1, count_mat, replicate_eq_tab] at up
  rw [i.1, count_mat, replicate_eq_tab] at e
  exact (updated_setsMat (A := fun (_ : Fin m) (_ : Fin n) => x) w e up fun i j => rfl).hasM l

theorem element_getm_run (w : h.WF) {A : Matrix (Fin m) (Fin n) ℝ} (ha : HasM h a A) (i : Fin m) (j : Fin n) :
    element_getm a (i : Nat) (j : Nat) h = .ok (A i j, h) := by
  obtain ⟨y, rfl, l, q⟩ := ha
  obtain ⟨F, eF, c⟩ := q.cells w
  show Mat.element_get y (i : Nat) (j : Nat) h = _
  rw [Mat.element_get_run c i.isLt j.isLt, eF]

theorem element_setm_run (w : h.WF) {A : Matrix (Fin m) (Fin n) ℝ} (ha : HasM h a A) (i : Fin m) (j : Fin n) (x : ℝ) :
    Runs (element_setm a (i : Nat) (j : Nat) x) h fun _ h' => h'.WF ∧ Keeps h h' (some · = a) ∧
      HasM h' a (fun i' j' => if i' = i ∧ j' = j then x else A i' j') := by
  obtain ⟨y, rfl, l, q⟩ := ha
  obtain ⟨F, eF, c⟩ := q.cells w
  refine (Mat.set_cells w c i.isLt j.isLt x).mono fun _ h' ⟨w', k, _, c'⟩ => ?_
  refine ⟨w', k.mono fun _ _ q => congrArg some q, y, rfl, k.live l, c'.isMat fun i' j' => ?_⟩
  simp [upd2, Fin.ext_iff, eF]

/-- Adding a vector of another length does nothing. -/
theorem add_short {t : Fin m → ℝ} (ha : HasV h a u) (hb : HasV h b t) (ne : n ≠ m) : add a b h = .ok ((), h) := by
  obtain ⟨x, rfl, l, i⟩ := ha; obtain ⟨y, rfl, l', i'⟩ := hb
  show binIn _ (.v x) (some (.v y)) h = _
  simp only [binIn]
  rw [bind_ok (getSize_run _ h), bind_ok (getSize_run _ h), if_neg]
  · rfl
  · rw [i.1, i'.1]; intro e; cases e; exact ne rfl

/-- A row of the wrong length is not written. -/
theorem row_set_short {A : Matrix (Fin m) (Fin n) ℝ} {v : Fin p → ℝ} (ha : HasM h a A) (hb : HasV h b v) (ne : p ≠ n) (i : Int) :
    row_set_mlpp_vector a i b h = .ok ((), h) := by
  obtain ⟨x, rfl, l, q⟩ := ha; obtain ⟨y, rfl, l', q'⟩ := hb
  show Mat.row_set_mlpp_vector x i (some y) h = _
  unfold Mat.row_set_mlpp_vector Vec.size Mat.size
  dsimp only
  have e1 : (getSize (.v y) >>= fun t => pure t.x : M ℝ Nat) h = .ok (p, h) := by
    rw [bind_ok (getSize_run _ h), q'.1]; rfl
  rw [bind_ok e1, bind_ok (getSize_run _ h), q.1, if_neg ne]
  rfl

end Hd

namespace KMeans
variable {h : Heap ℝ} {s : KMeans} {n d k : Nat}

theorem sqDist_nonneg (u v : Fin d → ℝ) : 0 ≤ sqDist u v := Finset.sum_nonneg fun _ _ => sq_nonneg _

theorem fit_run (w : h.WF) {p q : Nat} {A : Matrix (Fin p) (Fin q) ℝ} {m : Ref} (ha : HasM h m A) (r c : Nat) :
    Runs (fit m ⟨c, r, 1⟩) h fun _ h' => h'.WF ∧ Keeps h h' (some · = m) ∧
      ∃ B : Matrix (Fin r) (Fin c) ℝ, HasM h' m B ∧ (∀ i j (e : p = r) (e' : q = c), B (Fin.cast e i) (Fin.cast e' j) = A i j) := by
  unfold fit
  refine Runs.step (Hd.sizem_run ha) ?_
  split
  · rename_i e
    cases e
    exact Runs.of_eq rfl ⟨w, Keeps.refl _ _, A, ha, fun _ _ _ _ => rfl⟩
  · rename_i e
    refine (Hd.resizem_run w ha r c).mono fun _ h' ⟨w', k', B, hB⟩ => ⟨w', k', B, hB, fun i j e1 e2 => ?_⟩
    subst e1; subst e2
    exact absurd rfl e

/-- Between turns of the search: `c` is the first of the closest among the centroids before `j`, or the first one. -/
def Best (C : Matrix (Fin k) (Fin d) ℝ) (x : Fin d → ℝ) (j : Nat) (c : Fin k) : Prop :=
  (∀ l : Fin k, l.val < j → sqDist x (C c) ≤ sqDist x (C l)) ∧ (∀ l, l < c → sqDist x (C c) < sqDist x (C l)) ∧ c.val ≤ j

theorem Best.zero (C : Matrix (Fin k) (Fin d) ℝ) (x : Fin d → ℝ) (hk : 0 < k) : Best C x 0 ⟨0, hk⟩ :=
  ⟨fun _ e => absurd e (by omega), fun l e => absurd e (by simp [Fin.lt_def]), le_rfl⟩

theorem Best.take {C : Matrix (Fin k) (Fin d) ℝ} {x : Fin d → ℝ} {j : Nat} {c : Fin k} (b : Best C x j c) (hj : j < k)
    (e : sqDist x (C ⟨j, hj⟩) < sqDist x (C c)) : Best C x (j + 1) ⟨j, hj⟩ := by
  refine ⟨fun l hl => ?_, fun l hl => lt_of_lt_of_le e (b.1 l hl), Nat.le_succ j⟩
  rcases Nat.lt_succ_iff_lt_or_eq.mp hl with h | h
  · exact (lt_of_lt_of_le e (b.1 l h)).le
  · exact le_of_eq (by congr; exact h.symm)

theorem Best.skip {C : Matrix (Fin k) (Fin d) ℝ} {x : Fin d → ℝ} {j : Nat} {c : Fin k} (b : Best C x j c) (hj : j < k)
    (e : ¬ sqDist x (C ⟨j, hj⟩) < sqDist x (C c)) : Best C x (j + 1) c := by
  refine ⟨fun l hl => ?_, b.2.1, Nat.le_succ_of_le b.2.2⟩
  rcases Nat.lt_succ_iff_lt_or_eq.mp hl with h | h
  · exact b.1 l h
  · have : l = ⟨j, hj⟩ := Fin.ext h
    rw [this]; exact not_lt.mp e

theorem Best.first {C : Matrix (Fin k) (Fin d) ℝ} {x : Fin d → ℝ} {c : Fin k} (b : Best C x k c) : FirstNearest C x c :=
  ⟨fun l => b.1 l l.isLt, b.2.1⟩

theorem first_unique {C : Matrix (Fin k) (Fin d) ℝ} {x : Fin d → ℝ} {a b : Fin k} (ha : FirstNearest C x a) (hb : FirstNearest C x b) : a = b := by
  rcases lt_trichotomy a b with e | e | e
  · exact absurd (ha.1 b) (not_le.mpr (hb.2 a e))
  · exact e
  · exact absurd (hb.1 a) (not_le.mpr (ha.2 b e))

theorem first_exists (C : Matrix (Fin k) (Fin d) ℝ) (x : Fin d → ℝ) (hk : 0 < k) : ∃ c, FirstNearest C x c := by
  have : ∀ j ≤ k, ∃ c, Best C x j c := by
    intro j
    induction j with
    | zero => exact fun _ => ⟨_, Best.zero C x hk⟩
    | succ j ih =>
      intro hj
      obtain ⟨c, b⟩ := ih (by omega)
      by_cases e : sqDist x (C ⟨j, hj⟩) < sqDist x (C c)
      · exact ⟨_, b.take hj e⟩
      · exact ⟨_, b.skip hj e⟩
  obtain ⟨c, b⟩ := this k le_rfl
  exact ⟨c, b.first⟩

theorem scan_run (w : h.WF) {C : Matrix (Fin k) (Fin d) ℝ} {x : Fin d → ℝ} {p : Nat} {m : Fin p → ℝ} {point muj closest : Ref} (hk : 0 < k)
    (hm : HasM h s.mu C) (hx : HasV h point x) (hj : HasV h muj m) (hc : HasV h closest (C ⟨0, hk⟩))
    (n1 : point ≠ muj) (n2 : point ≠ closest) (n3 : muj ≠ closest) (r : Nat) (hr : r ≤ k) :
    Runs (scan s point muj closest r) h fun _ h' => h'.WF ∧ Keeps h h' (fun l => some l = muj ∨ some l = closest) ∧
      (∃ (p : Nat) (m : Fin p → ℝ), HasV h' muj m) ∧ ∃ c, Best C x r c ∧ HasV h' closest (C c) := by
  unfold scan
  refine Runs.forN r (fun j h' => h'.WF ∧ Keeps h h' (fun l => some l = muj ∨ some l = closest) ∧
    (∃ (p : Nat) (m : Fin p → ℝ), HasV h' muj m) ∧ ∃ c, Best C x j c ∧ HasV h' closest (C c)) _ h
    ⟨w, Keeps.refl _ _, ⟨p, m, hj⟩, _, Best.zero C x hk, hc⟩ fun j h1 hjr ⟨w1, K1, ⟨p1, m1, hj1⟩, c, b, hc1⟩ => ?_
  have hjk : j < k := lt_of_lt_of_le hjr hr
  have hm1 := hm.off2 K1 (hj1.ne_mat hm).symm (hc1.ne_mat hm).symm
  have hx1 := hx.off2 K1 n1 n2
  refine Runs.bind ((Hd.row_get_into_run w1 hm1 hj1 ⟨j, hjk⟩).mono fun _ h2 ⟨w2, k2, hj2⟩ => ?_)
  wr k2
  refine Runs.step (Hd.euclidean_distance_run w2 hx1 hj2) ?_
  refine Runs.step (Hd.euclidean_distance_run w2 hx1 hc1) ?_
  have K2 : Keeps h h2 (fun l => some l = muj ∨ some l = closest) := K1.trans (k2.mono fun _ _ e => .inl e)
  split
  · rename_i e
    rw [Real.sqrt_lt_sqrt_iff (sqDist_nonneg _ _)] at e
    refine (Hd.set_from_mlpp_vector_run w2 hc1 hj2).mono fun _ h3 ⟨w3, k3, hc3⟩ => ?_
    wr k3
    exact ⟨w3, K2.trans (k3.mono fun _ _ e => .inr e), ⟨_, _, hj2⟩, _, b.take hjk e, hc3⟩
  · rename_i e
    rw [Real.sqrt_lt_sqrt_iff (sqDist_nonneg _ _)] at e
    exact Runs.of_eq rfl ⟨w2, K2, ⟨_, _, hj2⟩, _, b.skip hjk e, hc1⟩

/-- The index kept after the search that ended at `c`. -/
def kept (prev c : Fin k) : Fin k := if c.val = 0 then prev else c

theorem assign_run (w : h.WF) {C : Matrix (Fin k) (Fin d) ℝ} {x : Fin d → ℝ} {p : Nat} {m : Fin p → ℝ} {point muj closest : Ref} (hk : 0 < k)
    (hm : HasM h s.mu C) (hx : HasV h point x) (hj : HasV h muj m) (hc : HasV h closest (C ⟨0, hk⟩))
    (n1 : point ≠ muj) (n2 : point ≠ closest) (n3 : muj ≠ closest) (prev : Fin k) :
    Runs (assign s point muj closest k (Real.sqrt (sqDist x (C ⟨0, hk⟩))) prev) h fun st h' =>
      h'.WF ∧ Keeps h h' (fun l => some l = muj ∨ some l = closest) ∧
      (∃ (p : Nat) (m : Fin p → ℝ), HasV h' muj m) ∧ ∃ c, FirstNearest C x c ∧ HasV h' closest (C c) ∧ st.2 = (kept prev c).val := by
  unfold assign
  refine (Runs.foldN k (fun j st h' => h'.WF ∧ Keeps h h' (fun l => some l = muj ∨ some l = closest) ∧
    (∃ (p : Nat) (m : Fin p → ℝ), HasV h' muj m) ∧ ∃ c, Best C x j c ∧ HasV h' closest (C c) ∧ st.1 = Real.sqrt (sqDist x (C c)) ∧
      st.2 = (kept prev c).val) _ _ h
    ⟨w, Keeps.refl _ _, ⟨p, m, hj⟩, _, Best.zero C x hk, hc, rfl, by simp [kept]⟩
    fun j st h1 hjk ⟨w1, K1, ⟨p1, m1, hj1⟩, c, b, hc1, e1, e2⟩ => ?_).mono
    fun st h' ⟨w', K', hm', c, b, hc', _, e⟩ => ⟨w', K', hm', c, b.first, hc', e⟩
  have hm1 := hm.off2 K1 (hj1.ne_mat hm).symm (hc1.ne_mat hm).symm
  have hx1 := hx.off2 K1 n1 n2
  refine Runs.bind ((Hd.row_get_into_run w1 hm1 hj1 ⟨j, hjk⟩).mono fun _ h2 ⟨w2, k2, hj2⟩ => ?_)
  wr k2
  refine Runs.step (Hd.euclidean_distance_run w2 hx1 hj2) ?_
  have K2 : Keeps h h2 (fun l => some l = muj ∨ some l = closest) := K1.trans (k2.mono fun _ _ e => .inl e)
  rw [e1]
  split
  · rename_i e
    rw [Real.sqrt_lt_sqrt_iff (sqDist_nonneg _ _)] at e
    refine Runs.bind ((Hd.row_get_into_run w2 hm1 hc1 ⟨j, hjk⟩).mono fun _ h3 ⟨w3, k3, hc3⟩ => ?_)
    wr k3
    refine Runs.step (Hd.euclidean_distance_run w3 hx1 hc3) ?_
    refine Runs.of_eq rfl ⟨w3, K2.trans (k3.mono fun _ _ e => .inr e), ⟨_, _, hj2⟩, _, b.take hjk e, hc3, rfl, ?_⟩
    have : j ≠ 0 := by
      rintro rfl
      have h0 := b.2.1 ⟨0, hk⟩
      rcases Nat.eq_zero_or_pos c.val with hz | hz
      · have : c = ⟨0, hk⟩ := Fin.ext hz
        rw [this] at e; exact lt_irrefl _ e
      · exact absurd e (not_lt.mpr (h0 hz).le)
    simp [kept, this]
  · rename_i e
    rw [Real.sqrt_lt_sqrt_iff (sqDist_nonneg _ _)] at e
    exact Runs.of_eq rfl ⟨w2, K2, ⟨_, _, hj2⟩, _, b.skip hjk e, hc1, e1, e2⟩

/-- The clusters of the points: entry `i + 1` belongs to point `i`. -/
noncomputable def walkOwners (X : Matrix (Fin n) (Fin d) ℝ) (C : Matrix (Fin k) (Fin d) ℝ) (hk : 0 < k) : Nat → Fin k
  | 0 => ⟨0, hk⟩
  | i + 1 => if hi : i < n then kept (walkOwners X C hk i) (first_exists C (X ⟨i, hi⟩) hk).choose else ⟨0, hk⟩

theorem walkOwners_carried (X : Matrix (Fin n) (Fin d) ℝ) (C : Matrix (Fin k) (Fin d) ℝ) (hk : 0 < k) :
    Carried X C fun i => walkOwners X C hk (i + 1) := by
  intro i j hj
  have e := first_unique (first_exists C (X i) hk).choose_spec hj
  show walkOwners X C hk (i.val + 1) = _
  rw [walkOwners, dif_pos i.isLt]
  refine (congrArg (kept _) e).trans ?_
  unfold kept
  split
  · rename_i h0
    unfold before
    split
    · rename_i hi
      rw [hi]
      exact Fin.ext h0.symm
    · rename_i hi
      show _ = walkOwners X C hk (i.val - 1 + 1)
      rw [Nat.sub_add_cancel (Nat.pos_of_ne_zero hi)]
  · rfl

theorem evaluate_run {X : Matrix (Fin n) (Fin d) ℝ} {C : Matrix (Fin k) (Fin d) ℝ} {a b : Nat} {R : Matrix (Fin a) (Fin b) ℝ} (hk : 0 < k)
    (Q : KReady h s X C R) (hi : s.initialized = true) (ek : s.k = k) :
    Runs (evaluate s) h fun _ h' => Keeps h h' (some · = s.r) ∧ ∃ (R' : Matrix (Fin n) (Fin k) ℝ) (c : Fin n → Fin k),
      KReady h' s X C R' ∧ Members R' c ∧ Carried X C c := by
  unfold evaluate
  rw [if_neg (by simp [hi])]
  obtain ⟨w, hX, hC, hR, n1, n2, n3⟩ := Q
  refine Runs.step (Hd.sizem_run hX) ?_
  dsimp only
  rw [ek]
  refine Runs.bind ((fit_run w hR n k).mono fun _ h1 ⟨w1, k1, R1, hR1, _⟩ => ?_)
  wr k1
  refine Runs.step (Hd.sizem_run hR1) ?_
  refine Runs.step (Hd.sizem_run hC) ?_
  dsimp only
  refine stepNewV w1 fun oc h2 vc w2 k2 f2 hc => ?_
  have K2 : Keeps h h2 (some · = s.r) := k1.trans (k2.mono fun _ _ => False.elim)
  nw f2 k2
  refine stepNewV w2 fun op h3 vp w3 k3 f3 hp => ?_
  have K3 : Keeps h h3 (some · = s.r) := K2.trans (k3.mono fun _ _ => False.elim)
  nw f3 k3
  refine stepNewV w3 fun oj h4 vj w4 k4 f4 hj => ?_
  have K4 : Keeps h h4 (some · = s.r) := K3.trans (k4.mono fun _ _ => False.elim)
  nw f4 k4
  refine Runs.bind ((Hd.fillm_run w4 hR1 0).mono fun _ h5 ⟨w5, k5, hR5⟩ => ?_)
  wr k5
  have K5 : Keeps h h5 (some · = s.r) := K4.trans k5
  have fc : NotIn h (some (Loc.v oc)) := f2.mono k1
  have fp : NotIn h (some (Loc.v op)) := f3.mono K2
  have fj : NotIn h (some (Loc.v oj)) := f4.mono K3
  have key := Runs.foldN n (fun i idx h' => h'.WF ∧ Keeps h h' (some · = s.r) ∧ HasM h' s.input_set X ∧ HasM h' s.mu C ∧
      (∃ v : Fin d → ℝ, HasV h' (some (.v oc)) v) ∧ (∃ v : Fin d → ℝ, HasV h' (some (.v op)) v) ∧
      (∃ (p : Nat) (v : Fin p → ℝ), HasV h' (some (.v oj)) v) ∧ idx = (walkOwners X C hk i).val ∧ ∃ R' : Matrix (Fin n) (Fin k) ℝ,
        HasM h' s.r R' ∧ ∀ a b, R' a b = if a.val < i ∧ b = walkOwners X C hk (a + 1) then 1 else 0)
    (fun i index => do
      Hd.row_get_into s.mu 0 (some (.v oc))
      Hd.row_get_into s.input_set i (some (.v op))
      let d ← Hd.euclidean_distance (some (.v op)) (some (.v oc))
      let st ← assign s (some (.v op)) (some (.v oj)) (some (.v oc)) k d index
      Hd.element_setm s.r i st.2 1
      pure st.2) 0 h5 ⟨w5, K5, hX, hC, ⟨_, hc⟩, ⟨_, hp⟩, ⟨_, _, hj⟩, rfl, _, hR5, fun a b => by simp⟩ ?_
  · refine Runs.bind (key.mono fun _ h' ⟨w', K', hX', hC', _, _, _, _, R', hR', e⟩ => ?_)
    refine Runs.of_eq rfl ⟨K', R', fun i => walkOwners X C hk (i + 1), ⟨w', hX', hC', hR', n1, n2, n3⟩, fun i j => ?_, walkOwners_carried X C hk⟩
    rw [e]; simp
  · intro i idx h6 hin ⟨w6, K6, hX6, hC6, ⟨vc6, hc6⟩, ⟨vp6, hp6⟩, ⟨q6, vj6, hj6⟩, ei, R6, hR6, eR⟩
    clear hX hC hc hp hj hR5
    refine Runs.bind ((Hd.row_get_into_run w6 hC6 hc6 ⟨0, hk⟩).mono fun _ h7 ⟨w7, k7, hc7⟩ => ?_)
    have K7 := K6.wrt k7 fc
    wr k7
    refine Runs.bind ((Hd.row_get_into_run w7 hX6 hp6 ⟨i, hin⟩).mono fun _ h8 ⟨w8, k8, hp8⟩ => ?_)
    have K8 := K7.wrt k8 fp
    wr k8
    refine Runs.step (Hd.euclidean_distance_run w8 hp8 hc7) ?_
    subst ei
    refine Runs.bind ((assign_run w8 hk hC6 hp8 hj6 hc7 (by neq) (by neq) (by neq) _).mono
      fun st h9 ⟨w9, k9, ⟨q9, vj9, hj9⟩, c, hcn, hc9, est⟩ => ?_)
    have K9 := K8.wrt2 k9 fj fc
    wr k9
    have ew : walkOwners X C hk (i + 1) = kept (walkOwners X C hk i) c := by
      rw [walkOwners, dif_pos hin]
      exact congrArg (kept _) (first_unique (first_exists C (X ⟨i, hin⟩) hk).choose_spec hcn)
    rw [est, ← ew]
    refine Runs.bind ((Hd.element_setm_run w9 hR6 ⟨i, hin⟩ (walkOwners X C hk (i + 1)) 1).mono fun _ h10 ⟨w10, k10, hR10⟩ => ?_)
    have K10 := K9.trans k10
    wr k10
    refine Runs.of_eq rfl ⟨w10, K10, hX6, hC6, ⟨_, hc9⟩, ⟨_, hp8⟩, ⟨_, _, hj9⟩, rfl, _, hR10, fun a b => ?_⟩
    rw [eR]
    by_cases ha : a = ⟨i, hin⟩
    · subst ha; simp
    · have : (a.val < i + 1 ↔ a.val < i) := by
        have : a.val ≠ i := fun e => ha (Fin.ext e)
        omega
      simp [ha, this]

/-- The terms of a sum, for all natural numbers. -/
noncomputable def term (f : Fin n → ℝ) (i : Nat) : ℝ := if h : i < n then f ⟨i, h⟩ else 0

theorem term_sum (f : Fin n → ℝ) : ∑ i ∈ Finset.range n, term f i = ∑ i, f i := by
  rw [Finset.sum_range]; exact Finset.sum_congr rfl fun i _ => by simp [term]

theorem term_lt (f : Fin n → ℝ) {i : Nat} (h : i < n) : term f i = f ⟨i, h⟩ := dif_pos h

theorem gather_run {h0 : Heap ℝ} {S : Loc → Prop} {L b p : Nat} {X : Matrix (Fin n) (Fin d) ℝ} {R : Matrix (Fin n) (Fin b) ℝ} {num point mt : Ref}
    (w : h.WF) (K : Keeps h0 h S) (hX : HasM h s.input_set X) (hR : HasM h s.r R) {vp : Fin p → ℝ} {q : Nat} {vm : Fin q → ℝ}
    (hn : HasV h num (fun _ : Fin L => (0 : ℝ))) (hp : HasV h point vp) (hm : HasV h mt vm) (fn : NotIn h0 num) (fp : NotIn h0 point)
    (fm : NotIn h0 mt) (n1 : num ≠ point) (n2 : num ≠ mt) (n3 : point ≠ mt) (j : Fin b) :
    Runs (gather s num point mt n j) h fun den h' => h'.WF ∧ Keeps h0 h' S ∧ Keeps h h' (fun l => some l = num ∨ some l = point ∨ some l = mt) ∧
      (∃ (p : Nat) (v : Fin p → ℝ), HasV h' point v) ∧ (∃ (q : Nat) (v : Fin q → ℝ), HasV h' mt v) ∧
      HasV h' num (fun c : Fin L => if e : L = d then ∑ i, X i (Fin.cast e c) * R i j else 0) ∧ den = ∑ i, R i j := by
  unfold gather
  refine (Runs.foldN n (fun i den h' => h'.WF ∧ Keeps h0 h' S ∧ Keeps h h' (fun l => some l = num ∨ some l = point ∨ some l = mt) ∧
    HasM h' s.input_set X ∧ HasM h' s.r R ∧
    (∃ (p : Nat) (v : Fin p → ℝ), HasV h' point v) ∧ (∃ (q : Nat) (v : Fin q → ℝ), HasV h' mt v) ∧
    HasV h' num (fun c : Fin L => if e : L = d then ∑ a ∈ Finset.range i, term (fun i => X i (Fin.cast e c) * R i j) a else 0) ∧
    den = ∑ a ∈ Finset.range i, term (fun i => R i j) a) _ _ h
    ⟨w, K, Keeps.refl _ _, hX, hR, ⟨_, _, hp⟩, ⟨_, _, hm⟩, by simpa using hn, by simp⟩ ?_).mono
    fun den h' ⟨w', K', K'', _, _, hp', hm', hn', e⟩ => ⟨w', K', K'', hp', hm', by simpa only [term_sum] using hn', by rw [e, term_sum]⟩
  intro i den h1 hi ⟨w1, K1, K1', hX1, hR1, ⟨p1, vp1, hp1⟩, ⟨q1, vm1, hm1⟩, hn1, e⟩
  clear hX hR hn hp hm
  refine Runs.bind ((Hd.row_get_into_run w1 hX1 hp1 ⟨i, hi⟩).mono fun _ h2 ⟨w2, k2, hp2⟩ => ?_)
  have K2 := K1.wrt k2 fp
  have K2' := K1'.trans (k2.mono fun _ _ e => .inr (.inl e))
  wr k2
  refine Runs.step (Hd.element_getm_run w2 hR1 ⟨i, hi⟩ j) ?_
  refine Runs.step (Hd.element_getm_run w2 hR1 ⟨i, hi⟩ j) ?_
  refine Runs.bind ((Hd.scalar_multiplyb_run w2 hm1 hp2 _).mono fun _ h3 ⟨w3, k3, hm3⟩ => ?_)
  have K3 := K2.wrt k3 fm
  have K3' := K2'.trans (k3.mono fun _ _ e => .inr (.inr e))
  wr k3
  have ed : den + R ⟨i, hi⟩ j = ∑ a ∈ Finset.range (i + 1), term (fun i => R i j) a := by
    rw [e, Finset.sum_range_succ, term_lt _ hi]
  by_cases eL : L = d
  · subst eL
    refine Runs.bind ((Hd.add_run w3 hn1 hm3).mono fun _ h4 ⟨w4, k4, hn4⟩ => ?_)
    have K4 := K3.wrt k4 fn
    have K4' := K3'.trans (k4.mono fun _ _ e => .inl e)
    wr k4
    refine Runs.of_eq rfl ⟨w4, K4, K4', hX1, hR1, ⟨_, _, hp2⟩, ⟨_, _, hm3⟩, ?_, ed⟩
    refine cast (congrArg _ ?_) hn4
    funext c
    simp [Finset.sum_range_succ, term_lt _ hi]
  · refine Runs.step (Hd.add_short hn1 hm3 eL) ?_
    refine Runs.of_eq rfl ⟨w3, K3, K3', hX1, hR1, ⟨_, _, hp2⟩, ⟨_, _, hm3⟩, ?_, ed⟩
    refine cast (congrArg _ ?_) hn1
    funext c
    simp [eL]

/-- The centroids after `_compute_mu`. -/
noncomputable def moved (X : Matrix (Fin n) (Fin d) ℝ) (C : Matrix (Fin k) (Fin d) ℝ) (R : Matrix (Fin n) (Fin k) ℝ) : Matrix (Fin k) (Fin d) ℝ :=
  fun j q => if k = d then (∑ i, X i q * R i j) * (1 / ∑ i, R i j) else C j q

theorem compute_mu_run {X : Matrix (Fin n) (Fin d) ℝ} {C : Matrix (Fin k) (Fin d) ℝ} {R : Matrix (Fin n) (Fin k) ℝ} (Q : KReady h s X C R) :
    Runs (compute_mu s) h fun _ h' => Keeps h h' (some · = s.mu) ∧ KReady h' s X (moved X C R) R := by
  unfold compute_mu
  obtain ⟨w, hX, hC, hR, n1, n2, n3⟩ := Q
  refine Runs.step (Hd.sizem_run hC) ?_
  refine Runs.step (Hd.sizem_run hR) ?_
  dsimp only
  refine stepNewV w fun on h1 vn w1 k1 f1 hn => ?_
  have K1 : Keeps h h1 (some · = s.mu) := k1.mono fun _ _ => False.elim
  nw f1 k1
  refine Runs.step (Hd.sizem_run hX) ?_
  dsimp only
  refine stepNewV w1 fun op h2 vp w2 k2 f2 hp => ?_
  have K2 : Keeps h h2 (some · = s.mu) := K1.trans (k2.mono fun _ _ => False.elim)
  nw f2 k2
  refine stepNewV w2 fun om h3 vm w3 k3 f3 hm => ?_
  have K3 : Keeps h h3 (some · = s.mu) := K2.trans (k3.mono fun _ _ => False.elim)
  nw f3 k3
  refine stepNewV w3 fun ot h4 vt w4 k4 f4 ht => ?_
  have K4 : Keeps h h4 (some · = s.mu) := K3.trans (k4.mono fun _ _ => False.elim)
  nw f4 k4
  have fn : NotIn h (some (Loc.v on)) := f1
  have fp : NotIn h (some (Loc.v op)) := f2.mono K1
  have fm : NotIn h (some (Loc.v om)) := f3.mono K2
  have ft : NotIn h (some (Loc.v ot)) := f4.mono K3
  have key := Runs.forN k (fun j h' => h'.WF ∧ Keeps h h' (some · = s.mu) ∧ HasM h' s.input_set X ∧ HasM h' s.r R ∧
      (∃ v : Fin k → ℝ, HasV h' (some (.v on)) v) ∧ (∃ (p : Nat) (v : Fin p → ℝ), HasV h' (some (.v op)) v) ∧
      (∃ (p : Nat) (v : Fin p → ℝ), HasV h' (some (.v om)) v) ∧ (∃ (p : Nat) (v : Fin p → ℝ), HasV h' (some (.v ot)) v) ∧
      HasM h' s.mu fun a q => if a.val < j then moved X C R a q else C a q)
    (fun i => do
      Hd.fillv (some (.v on)) 0
      let den ← gather s (some (.v on)) (some (.v op)) (some (.v om)) n i
      Hd.scalar_multiplyb (some (.v ot)) (1 / den) (some (.v on))
      Hd.row_set_mlpp_vector s.mu i (some (.v ot))) h4
    ⟨w4, K4, hX, hR, ⟨_, hn⟩, ⟨_, _, hp⟩, ⟨_, _, hm⟩, ⟨_, _, ht⟩, by simpa using hC⟩ ?_
  · refine key.mono fun _ h' ⟨w', K', hX', hR', _, _, _, _, hC'⟩ => ⟨K', w', hX', ?_, hR', n1, n2, n3⟩
    refine cast (congrArg _ ?_) hC'
    funext a q
    simp
  · intro j h5 hj ⟨w5, K5, hX5, hR5, ⟨vn5, hn5⟩, ⟨p5, vp5, hp5⟩, ⟨q5, vm5, hm5⟩, ⟨r5, vt5, ht5⟩, hC5⟩
    clear hX hC hR hn hp hm ht
    refine Runs.bind ((Hd.fillv_run w5 hn5 0).mono fun _ h6 ⟨w6, k6, hn6⟩ => ?_)
    have K6 := K5.wrt k6 fn
    wr k6
    refine Runs.bind ((gather_run w6 K6 hX5 hR5 hn6 hp5 hm5 fn fp fm (by neq) (by neq) (by neq) ⟨j, hj⟩).mono
      fun den h7 ⟨w7, K7, k7, ⟨p7, vp7, hp7⟩, ⟨q7, vm7, hm7⟩, hn7, ed⟩ => ?_)
    have off : ∀ {r : Ref}, r ≠ some (Loc.v on) → r ≠ some (Loc.v op) → r ≠ some (Loc.v om) → ∀ l, r = some l →
        ¬ (some l = some (Loc.v on) ∨ some l = some (Loc.v op) ∨ some l = some (Loc.v om)) := by
      rintro r a b c l rfl (e | e | e)
      · exact a e
      · exact b e
      · exact c e
    have hX7 := hX5.keep k7 (off (by neq) (by neq) (by neq))
    have hR7 := hR5.keep k7 (off (by neq) (by neq) (by neq))
    have hC7 := hC5.keep k7 (off (by neq) (by neq) (by neq))
    have ht7 := ht5.keep k7 (off (by neq) (by neq) (by neq))
    clear hX5 hR5 hC5 ht5
    refine Runs.bind ((Hd.scalar_multiplyb_run w7 ht7 hn7 _).mono fun _ h8 ⟨w8, k8, ht8⟩ => ?_)
    have K8 := K7.wrt k8 ft
    wr k8
    by_cases eL : k = d
    · subst eL
      refine (Hd.row_set_run w8 hC7 ht8 ⟨j, hj⟩).mono fun _ h9 ⟨w9, k9, hC9⟩ => ?_
      have K9 := K8.trans k9
      wr k9
      refine ⟨w9, K9, hX7, hR7, ⟨_, hn7⟩, ⟨_, _, hp7⟩, ⟨_, _, hm7⟩, ⟨_, _, ht8⟩, ?_⟩
      refine cast (congrArg _ ?_) hC9
      funext a q
      by_cases ha : a = ⟨j, hj⟩
      · subst ha; simp [moved, ed]
      · have : (a.val < j + 1 ↔ a.val < j) := by
          have : a.val ≠ j := fun e => ha (Fin.ext e)
          omega
        simp [ha, this]
    · refine Runs.of_eq (Hd.row_set_short hC7 ht8 eL _) ⟨w8, K8, hX7, hR7, ⟨_, hn7⟩, ⟨_, _, hp7⟩, ⟨_, _, hm7⟩, ⟨_, _, ht8⟩, ?_⟩
      refine cast (congrArg _ ?_) hC7
      funext a q
      simp [moved, eL]

theorem cost_run {X : Matrix (Fin n) (Fin d) ℝ} {C : Matrix (Fin k) (Fin d) ℝ} {R : Matrix (Fin n) (Fin k) ℝ} (Q : KReady h s X C R)
    (hi : s.initialized = true) :
    Runs (cost s) h fun x h' => Keeps h h' (fun _ => False) ∧ h'.WF ∧ x = ∑ i, ∑ j, R i j * sqDist (X i) (C j) := by
  unfold cost
  rw [if_neg (by simp [hi])]
  obtain ⟨w, hX, hC, hR, n1, n2, n3⟩ := Q
  refine Runs.step (Hd.sizem_run hX) ?_
  dsimp only
  refine stepNewV w fun op h1 vp w1 k1 f1 hp => ?_
  have K1 := k1
  nw f1 k1
  refine Runs.step (Hd.sizem_run hC) ?_
  dsimp only
  refine stepNewV w1 fun oj h2 vj w2 k2 f2 hj => ?_
  have fj : NotIn h (some (Loc.v oj)) := f2.mono K1
  have K2 := K1.trans k2
  nw f2 k2
  refine stepNewV w2 fun ot h3 vt w3 k3 f3 ht => ?_
  have ft : NotIn h (some (Loc.v ot)) := f3.mono K2
  have K3 := K2.trans k3
  nw f3 k3
  refine Runs.step (Hd.sizem_run hR) ?_
  dsimp only
  have fp : NotIn h (some (Loc.v op)) := f1
  clear k1 k2 k3
  refine (Runs.foldN n (fun i x h' => h'.WF ∧ Keeps h h' (fun _ => False) ∧ HasM h' s.input_set X ∧ HasM h' s.mu C ∧ HasM h' s.r R ∧
    (∃ v : Fin d → ℝ, HasV h' (some (.v op)) v) ∧ (∃ v : Fin d → ℝ, HasV h' (some (.v oj)) v) ∧
    (∃ v : Fin d → ℝ, HasV h' (some (.v ot)) v) ∧ x = ∑ a ∈ Finset.range i, term (fun i => ∑ j, R i j * sqDist (X i) (C j)) a) _ _ h3
    ⟨w3, K3, hX, hC, hR, ⟨_, hp⟩, ⟨_, hj⟩, ⟨_, ht⟩, by simp⟩ ?_).mono
    fun x h' ⟨w', K', _, _, _, _, _, _, e⟩ => ⟨K', w', by rw [e, term_sum]⟩
  intro i x h4 hi ⟨w4, K4, hX4, hC4, hR4, ⟨vp4, hp4⟩, ⟨vj4, hj4⟩, ⟨vt4, ht4⟩, ex⟩
  clear hX hC hR hp hj ht
  refine Runs.bind ((Hd.row_get_into_run w4 hX4 hp4 ⟨i, hi⟩).mono fun _ h5 ⟨w5, k5, hp5⟩ => ?_)
  have K5 := K4.wrt k5 fp
  wr k5
  refine (Runs.foldN k (fun j y h' => h'.WF ∧ Keeps h h' (fun _ => False) ∧ HasM h' s.input_set X ∧ HasM h' s.mu C ∧ HasM h' s.r R ∧
    HasV h' (some (.v op)) (X ⟨i, hi⟩) ∧ (∃ v : Fin d → ℝ, HasV h' (some (.v oj)) v) ∧
    (∃ v : Fin d → ℝ, HasV h' (some (.v ot)) v) ∧
      y = x + ∑ a ∈ Finset.range j, term (fun j => R ⟨i, hi⟩ j * sqDist (X ⟨i, hi⟩) (C j)) a) _ _ h5
    ⟨w5, K5, hX4, hC4, hR4, hp5, ⟨_, hj4⟩, ⟨_, ht4⟩, by simp⟩ ?_).mono
    fun y h' ⟨w', K', hX', hC', hR', hp', hj', ht', e⟩ => ⟨w', K', hX', hC', hR', ⟨_, hp'⟩, hj', ht', by
      rw [e, ex, Finset.sum_range_succ, term_lt _ hi, term_sum]⟩
  intro j y h6 hjk ⟨w6, K6, hX6, hC6, hR6, hp6, ⟨vj6, hj6⟩, ⟨vt6, ht6⟩, ey⟩
  clear hX4 hC4 hR4 hp5 hj4 ht4
  refine Runs.bind ((Hd.row_get_into_run w6 hC6 hj6 ⟨j, hjk⟩).mono fun _ h7 ⟨w7, k7, hj7⟩ => ?_)
  have K7 := K6.wrt k7 fj
  wr k7
  refine Runs.bind ((Hd.subb_run w7 ht6 hp6 hj7).mono fun _ h8 ⟨w8, k8, ht8⟩ => ?_)
  have K8 := K7.wrt k8 ft
  wr k8
  refine Runs.step (Hd.element_getm_run w8 hR6 ⟨i, hi⟩ ⟨j, hjk⟩) ?_
  refine Runs.step (Hd.norm_sq_run w8 ht8) ?_
  refine Runs.of_eq rfl ⟨w8, K8, hX6, hC6, hR6, hp6, ⟨_, hj7⟩, ⟨_, ht8⟩, ?_⟩
  rw [Finset.sum_range_succ, term_lt _ hjk, ey, sqDist, add_assoc]

/-- What `_compute_mu` does to the centroids `C` when the points belong to the clusters `c`. -/
def Step (X : Matrix (Fin n) (Fin d) ℝ) (c : Fin n → Fin k) (C C' : Matrix (Fin k) (Fin d) ℝ) : Prop :=
  (k = d → Means X c C') ∧ (k ≠ d → C' = C)

theorem members_count {R : Matrix (Fin n) (Fin k) ℝ} {c : Fin n → Fin k} (m : Members R c) (j : Fin k) : ∑ i, R i j = count c j := by
  rw [count, Finset.card_filter]
  push_cast
  refine Finset.sum_congr rfl fun i _ => ?_
  rw [m i j]
  simp only [eq_comm]

theorem moved_step {X : Matrix (Fin n) (Fin d) ℝ} {C : Matrix (Fin k) (Fin d) ℝ} {R : Matrix (Fin n) (Fin k) ℝ} {c : Fin n → Fin k}
    (m : Members R c) : Step X c C (moved X C R) := by
  refine ⟨fun e j _ q => ?_, fun e => ?_⟩
  · rw [moved, if_pos e, members_count m, mul_one_div, Finset.sum_filter]
    congr 1
    refine Finset.sum_congr rfl fun i _ => ?_
    rw [m i j]
    simp only [eq_comm, mul_ite, mul_one, mul_zero]
  · funext j q; rw [moved, if_neg e]

theorem turn_run {X : Matrix (Fin n) (Fin d) ℝ} {C : Matrix (Fin k) (Fin d) ℝ} {R : Matrix (Fin n) (Fin k) ℝ} {c : Fin n → Fin k} (hk : 0 < k)
    (Q : KReady h s X C R) (m : Members R c) (hi : s.initialized = true) (ek : s.k = k) :
    Runs (turn s) h fun _ h' => Keeps h h' (fun l => some l = s.mu ∨ some l = s.r) ∧
      ∃ (C' : Matrix (Fin k) (Fin d) ℝ) (R' : Matrix (Fin n) (Fin k) ℝ) (c' : Fin n → Fin k),
        KReady h' s X C' R' ∧ Members R' c' ∧ Carried X C' c' ∧ Step X c C C' := by
  unfold turn
  refine Runs.bind ((cost_run Q hi).mono fun _ h1 ⟨k1, w1, _⟩ => ?_)
  have Q1 : KReady h1 s X C R := ⟨w1, adv_hasm k1 Q.data, adv_hasm k1 Q.mu, adv_hasm k1 Q.r, Q.data_mu, Q.data_r, Q.mu_r⟩
  refine Runs.bind ((compute_mu_run Q1).mono fun _ h2 ⟨k2, Q2⟩ => ?_)
  refine (evaluate_run hk Q2 hi ek).mono fun _ h3 ⟨k3, R', c', Q3, m', ca⟩ => ?_
  exact ⟨((k1.mono fun _ _ => False.elim).trans (k2.mono fun _ _ e => .inl e)).trans (k3.mono fun _ _ e => .inr e), _, R', c', Q3, m', ca,
    moved_step m⟩

/-- The turns of a training that starts with the centroids `C`. -/
structure Turns (X : Matrix (Fin n) (Fin d) ℝ) (C : Matrix (Fin k) (Fin d) ℝ) (Cs : ℕ → Matrix (Fin k) (Fin d) ℝ) (cs : ℕ → Fin n → Fin k)
    (e : ℕ) : Prop where
  zero : Cs 0 = C
  carried : ∀ t ≤ e, Carried X (Cs t) (cs t)
  step : ∀ t < e, Step X (cs t) (Cs t) (Cs (t + 1))

theorem turns_run {X : Matrix (Fin n) (Fin d) ℝ} {C : Matrix (Fin k) (Fin d) ℝ} {a b : Nat} {R : Matrix (Fin a) (Fin b) ℝ} (hk : 0 < k)
    (Q : KReady h s X C R) (hi : s.initialized = true) (ek : s.k = k) (e : Nat) :
    Runs (do evaluate s; forN e fun _ => turn s) h fun _ h' => Keeps h h' (fun l => some l = s.mu ∨ some l = s.r) ∧
      ∃ (Cs : ℕ → Matrix (Fin k) (Fin d) ℝ) (cs : ℕ → Fin n → Fin k) (R' : Matrix (Fin n) (Fin k) ℝ),
        Turns X C Cs cs e ∧ KReady h' s X (Cs e) R' ∧ Members R' (cs e) := by
  refine Runs.bind ((evaluate_run hk Q hi ek).mono fun _ h1 ⟨k1, R1, c1, Q1, m1, ca1⟩ => ?_)
  refine Runs.forN e (fun t h' => Keeps h h' (fun l => some l = s.mu ∨ some l = s.r) ∧
      ∃ (Cs : ℕ → Matrix (Fin k) (Fin d) ℝ) (cs : ℕ → Fin n → Fin k) (R' : Matrix (Fin n) (Fin k) ℝ),
        Turns X C Cs cs t ∧ KReady h' s X (Cs t) R' ∧ Members R' (cs t)) _ h1
    ⟨k1.mono fun _ _ e => .inr e, fun _ => C, fun _ => c1, R1, ⟨rfl, fun t ht => ca1, fun t ht => absurd ht (by omega)⟩, Q1, m1⟩ ?_
  intro t h2 _ ⟨K2, Cs, cs, R2, T, Q2, m2⟩
  refine (turn_run hk Q2 m2 hi ek).mono fun _ h3 ⟨k3, C', R', c', Q3, m', ca, st⟩ => ?_
  refine ⟨K2.trans k3, Function.update Cs (t + 1) C', Function.update cs (t + 1) c', R', ⟨?_, ?_, ?_⟩, ?_, ?_⟩
  · rw [Function.update_of_ne (by omega)]; exact T.zero
  · intro u hu
    by_cases e : u = t + 1
    · subst e; simpa using ca
    · rw [Function.update_of_ne e, Function.update_of_ne e]; exact T.carried u (by omega)
  · intro u hu
    by_cases e : u = t
    · subst e
      rw [Function.update_of_ne (by omega), Function.update_of_ne (by omega), Function.update_self]; exact st
    · rw [Function.update_of_ne (by omega), Function.update_of_ne (by omega), Function.update_of_ne (by omega)]
      exact T.step u (by omega)
  · simpa using Q3
  · simpa using m'

end KMeans
end Verif
