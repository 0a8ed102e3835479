import Verif.Lemmas.KMeans

/-! # The initial centroids -/

namespace Verif.KMeans
open Spec
variable {h : Heap ℝ} {s : KMeans} {n d k : Nat}

/-- A row that does not exist is not read. -/
theorem _root_.Verif.Hd.row_get_into_out {m n p : Nat} {A : Matrix (Fin m) (Fin n) ℝ} {v : Fin p → ℝ} {a b : Ref} (ha : HasM h a A) (hb : HasV h b v)
    {i : Nat} (hi : m ≤ i) : Hd.row_get_into a i b h = .ok ((), h) := by
  obtain ⟨x, rfl, l, q⟩ := ha; obtain ⟨y, rfl, l', q'⟩ := hb
  show Mat.row_get_into_mlpp_vector x i (some y) h = _
  unfold Mat.row_get_into_mlpp_vector Mat.size
  dsimp only
  rw [bind_ok (getSize_run _ h), q.1, if_neg]
  · rfl
  · simp [idxOk]; omega

theorem centroid_run {p q : Nat} {X : Matrix (Fin n) (Fin d) ℝ} {C : Matrix (Fin p) (Fin q) ℝ} {a b : Nat} {R : Matrix (Fin a) (Fin b) ℝ}
    (Q : KReady h s X C R) (pick : Nat → Fin n) (ek : s.k = k) :
    Runs (centroid_initialization s fun i => ((pick i).val : Int)) h fun _ h' => Keeps h h' (some · = s.mu) ∧
      KReady h' s X (fun (i : Fin k) => X (pick i)) R := by
  unfold centroid_initialization
  obtain ⟨w, hX, hC, hR, n1, n2, n3⟩ := Q
  refine Runs.step (Hd.sizem_run hX) ?_
  dsimp only
  rw [ek]
  refine Runs.bind ((fit_run w hC k d).mono fun _ h1 ⟨w1, k1, C1, hC1, _⟩ => ?_)
  wr k1
  refine stepV0 w1 fun o h2 v2 w2 k2 f2 hv => ?_
  have K2 : Keeps h h2 (some · = s.mu) := k1.trans (k2.mono fun _ _ => False.elim)
  have fv : NotIn h (some (Loc.v o)) := f2.mono k1
  nw f2 k2
  refine Runs.step (Hd.sizem_run hC1) ?_
  dsimp only
  refine Runs.bind ((Hd.resizev_run w2 hv d).mono fun _ h3 ⟨w3, k3, v3, hv3⟩ => ?_)
  have K3 := K2.wrt k3 fv
  wr k3
  refine (Runs.forN k (fun j h' => h'.WF ∧ Keeps h h' (some · = s.mu) ∧ HasM h' s.input_set X ∧ HasM h' s.r R ∧
      (∃ v : Fin d → ℝ, HasV h' (some (.v o)) v) ∧ HasM h' s.mu fun (a : Fin k) q => if a.val < j then X (pick a) q else C1 a q) _ h3
    ⟨w3, K3, hX, hR, ⟨_, hv3⟩, by simpa using hC1⟩ ?_).mono fun _ h' ⟨w', K', hX', hR', _, hC'⟩ => ⟨K', w', hX', ?_, hR', n1, n2, n3⟩
  · intro j h4 hj ⟨w4, K4, hX4, hR4, ⟨v4, hv4⟩, hC4⟩
    clear hX hR hv3 hC1
    refine Runs.bind ((Hd.row_get_into_run w4 hX4 hv4 (pick j)).mono fun _ h5 ⟨w5, k5, hv5⟩ => ?_)
    have K5 := K4.wrt k5 fv
    wr k5
    refine (Hd.row_set_run w5 hC4 hv5 ⟨j, hj⟩).mono fun _ h6 ⟨w6, k6, hC6⟩ => ?_
    have K6 := K5.trans k6
    wr k6
    refine ⟨w6, K6, hX4, hR4, ⟨_, hv5⟩, ?_⟩
    refine cast (congrArg _ ?_) hC6
    funext a q
    by_cases ha : a = ⟨j, hj⟩
    · subst ha; simp
    · have : (a.val < j + 1 ↔ a.val < j) := by
        have : a.val ≠ j := fun e => ha (Fin.ext e)
        omega
      simp [ha, this]
  · refine cast (congrArg _ ?_) hC'
    funext a q
    simp

theorem distances_run {h0 : Heap ℝ} {S : Loc → Prop} (w : h.WF) (K : Keeps h0 h S) {C : Matrix (Fin k) (Fin d) ℝ} {x : Fin d → ℝ} {p : Nat}
    {m : Fin p → ℝ} {point mt : Ref} (hC : HasM h s.mu C) (hx : HasV h point x) (hm : HasV h mt m) (fm : NotIn h0 mt) (ne : point ≠ mt)
    {i : Nat} (hi : i ≤ k) :
    Runs (distances s point mt i) h fun y h' => h'.WF ∧ Keeps h0 h' S ∧ Keeps h h' (some · = mt) ∧ (∃ (p : Nat) (m : Fin p → ℝ), HasV h' mt m) ∧
      y = ∑ a ∈ Finset.range i, term (fun l => Real.sqrt (sqDist x (C l))) a := by
  unfold distances
  refine Runs.foldN i (fun j y h' => h'.WF ∧ Keeps h0 h' S ∧ Keeps h h' (some · = mt) ∧ (∃ (p : Nat) (m : Fin p → ℝ), HasV h' mt m) ∧
      y = ∑ a ∈ Finset.range j, term (fun l => Real.sqrt (sqDist x (C l))) a) _ _ h ⟨w, K, Keeps.refl _ _, ⟨_, _, hm⟩, by simp⟩ ?_
  intro j y h1 hj ⟨w1, K1, k1, ⟨p1, m1, hm1⟩, ey⟩
  wr k1
  refine Runs.bind ((Hd.row_get_into_run w1 hC hm1 ⟨j, by omega⟩).mono fun _ h2 ⟨w2, k2, hm2⟩ => ?_)
  wr k2
  refine Runs.step (Hd.euclidean_distance_run w2 hx hm2) ?_
  exact Runs.of_eq rfl ⟨w2, K1.wrt k2 fm, k1.trans k2, ⟨_, _, hm2⟩, by rw [ey, Finset.sum_range_succ, term_lt _ (by omega)]⟩

theorem sqDist_eq_zero {u v : Fin d → ℝ} : sqDist u v = 0 ↔ u = v := by
  unfold sqDist
  rw [Finset.sum_eq_zero_iff_of_nonneg fun _ _ => sq_nonneg _]
  constructor
  · intro e; funext i
    have := e i (Finset.mem_univ i)
    exact sub_eq_zero.mp (pow_eq_zero_iff (two_ne_zero) |>.mp this)
  · rintro rfl i _; simp

theorem apart_iff {C : Matrix (Fin k) (Fin d) ℝ} {x : Fin d → ℝ} {i : Nat} (hi : i ≤ k) :
    0 < (∑ a ∈ Finset.range i, term (fun l => Real.sqrt (sqDist x (C l))) a) * ∑ a ∈ Finset.range i, term (fun l => Real.sqrt (sqDist x (C l))) a ↔
      Apart C i x := by
  have nn : ∀ a ∈ Finset.range i, 0 ≤ term (fun l => Real.sqrt (sqDist x (C l))) a := by
    intro a ha
    rw [term_lt _ (by have := Finset.mem_range.mp ha; omega)]; exact Real.sqrt_nonneg _
  rw [mul_self_pos, Ne, Finset.sum_eq_zero_iff_of_nonneg nn]
  constructor
  · intro e
    push Not at e
    obtain ⟨a, ha, e⟩ := e
    have ha' := Finset.mem_range.mp ha
    refine ⟨⟨a, by omega⟩, ha', fun e' => e ?_⟩
    rw [term_lt _ (by omega : a < k), sqDist_eq_zero.mpr e', Real.sqrt_zero]
  · rintro ⟨l, hl, ne⟩ e
    have := e l.val (Finset.mem_range.mpr hl)
    rw [term_lt _ l.isLt, Real.sqrt_eq_zero (sqDist_nonneg _ _)] at this
    exact ne (sqDist_eq_zero.mp this)

/-- The last of the points before `j` that differs from one of the first `i` centroids; `v` when there is none. -/
def Last (X : Matrix (Fin n) (Fin d) ℝ) (C : Matrix (Fin k) (Fin d) ℝ) (i j : Nat) (v y : Fin d → ℝ) : Prop :=
  (∃ a : Fin n, a.val < j ∧ y = X a ∧ Apart C i (X a) ∧ ∀ b : Fin n, a < b → b.val < j → ¬ Apart C i (X b)) ∨
  (y = v ∧ ∀ b : Fin n, b.val < j → ¬ Apart C i (X b))

theorem farthest_run {h0 : Heap ℝ} {S : Loc → Prop} (w : h.WF) (K : Keeps h0 h S) {X : Matrix (Fin n) (Fin d) ℝ} {C : Matrix (Fin k) (Fin d) ℝ}
    {p q : Nat} {m : Fin p → ℝ} {x : Fin q → ℝ} {v : Fin d → ℝ} {mt point far : Ref} (hX : HasM h s.input_set X) (hC : HasM h s.mu C)
    (hm : HasV h mt m) (hx : HasV h point x) (hv : HasV h far v) (fm : NotIn h0 mt) (fp : NotIn h0 point) (ff : NotIn h0 far) (n1 : mt ≠ point)
    (n2 : mt ≠ far) (n3 : point ≠ far) {i : Nat} (hi : i ≤ k) :
    Runs (farthest s mt point far n i) h fun _ h' => h'.WF ∧ Keeps h0 h' S ∧
      Keeps h h' (fun l => some l = mt ∨ some l = point ∨ some l = far) ∧ (∃ (p : Nat) (m : Fin p → ℝ), HasV h' mt m) ∧
      (∃ (p : Nat) (m : Fin p → ℝ), HasV h' point m) ∧ ∃ y, HasV h' far y ∧ Last X C i n v y := by
  unfold farthest
  refine (Runs.forN n (fun j h' => h'.WF ∧ Keeps h0 h' S ∧ HasM h' s.input_set X ∧ HasM h' s.mu C ∧
      Keeps h h' (fun l => some l = mt ∨ some l = point ∨ some l = far) ∧ (∃ (p : Nat) (m : Fin p → ℝ), HasV h' mt m) ∧
      (∃ (p : Nat) (m : Fin p → ℝ), HasV h' point m) ∧ ∃ y, HasV h' far y ∧ Last X C i j v y) _ h
    ⟨w, K, hX, hC, Keeps.refl _ _, ⟨_, _, hm⟩, ⟨_, _, hx⟩, v, hv, .inr ⟨rfl, fun b hb => absurd hb (by omega)⟩⟩ ?_).mono
    fun _ h' ⟨w', K', _, _, a, b, c, e⟩ => ⟨w', K', a, b, c, e⟩
  intro j h1 hj ⟨w1, K1, hX1, hC1, k1, ⟨p1, m1, hm1⟩, ⟨q1, x1, hx1⟩, y, hy1, L⟩
  clear hX hC hm hx hv
  refine Runs.bind ((Hd.row_get_into_run w1 hX1 hx1 ⟨j, hj⟩).mono fun _ h2 ⟨w2, k2, hx2⟩ => ?_)
  have K2 := K1.wrt k2 fp
  have k2' := k1.trans (k2.mono fun _ _ e => .inr (.inl e))
  wr k2
  refine Runs.bind ((distances_run w2 K2 hC1 hx2 hm1 fm (by neq) hi).mono fun sum h3 ⟨w3, K3, k3, ⟨p3, m3, hm3⟩, es⟩ => ?_)
  have k3' := k2'.trans (k3.mono fun _ _ e => .inl e)
  wr k3
  subst es
  split
  · rename_i e
    rw [gt_iff_lt, apart_iff hi] at e
    refine (Hd.set_from_mlpp_vector_run w3 hy1 hx2).mono fun _ h4 ⟨w4, k4, hy4⟩ => ?_
    have K4 := K3.wrt k4 ff
    have k4' := k3'.trans (k4.mono fun _ _ e => .inr (.inr e))
    wr k4
    refine ⟨w4, K4, hX1, hC1, k4', ⟨_, _, hm3⟩, ⟨_, _, hx2⟩, _, hy4, .inl ⟨⟨j, hj⟩, Nat.lt_succ_self j, rfl, e, fun b hb hb' => ?_⟩⟩
    have : j < b.val := hb
    omega
  · rename_i e
    rw [gt_iff_lt, apart_iff hi] at e
    refine Runs.of_eq rfl ⟨w3, K3, hX1, hC1, k3', ⟨_, _, hm3⟩, ⟨_, _, hx2⟩, _, hy1, ?_⟩
    have last : ∀ b : Fin n, b.val < j + 1 → (b.val < j → ¬ Apart C i (X b)) → ¬ Apart C i (X b) := by
      intro b hb f
      rcases Nat.lt_succ_iff_lt_or_eq.mp hb with hb | hb
      · exact f hb
      · rw [show b = ⟨j, hj⟩ from Fin.ext hb]; exact e
    rcases L with ⟨a, ha, ey, ap, no⟩ | ⟨ey, no⟩
    · exact .inl ⟨a, by omega, ey, ap, fun b hb hb' => last b hb' (no b hb)⟩
    · exact .inr ⟨ey, fun b hb => last b hb (no b)⟩

theorem apart_congr {C C' : Matrix (Fin k) (Fin d) ℝ} {i : Nat} (e : ∀ l : Fin k, l.val < i → C' l = C l) {x : Fin d → ℝ} :
    Apart C' i x ↔ Apart C i x :=
  exists_congr fun l => and_congr_right fun hl => by rw [e l hl]

theorem kmeanspp_run {p q : Nat} {X : Matrix (Fin n) (Fin d) ℝ} {C : Matrix (Fin p) (Fin q) ℝ} {a b : Nat} {R : Matrix (Fin a) (Fin b) ℝ}
    (Q : KReady h s X C R) (pick : Fin n) (ek : s.k = k) (hk : 0 < k) (dif : ∃ j, X j ≠ X pick) :
    Runs (kmeanspp_initialization s (pick.val : Int)) h fun _ h' => Keeps h h' (some · = s.mu) ∧
      ∃ C' : Matrix (Fin k) (Fin d) ℝ, KReady h' s X C' R ∧ C' ⟨0, hk⟩ = X pick ∧ (∀ i : Fin k, 0 < i.val → i.val + 1 < k → Chosen X C' i) ∧
        ∀ (i : Fin k), 0 < i.val → i.val + 1 = k → ∀ (e : p = k) (e' : q = d), C' i = fun j => C (Fin.cast e.symm i) (Fin.cast e'.symm j) := by
  unfold kmeanspp_initialization
  obtain ⟨w, hX, hC, hR, n1, n2, n3⟩ := Q
  refine Runs.step (Hd.sizem_run hX) ?_
  dsimp only
  rw [ek]
  refine Runs.bind ((fit_run w hC k d).mono fun _ h1 ⟨w1, k1, C1, hC1, eC1⟩ => ?_)
  wr k1
  refine stepV0 w1 fun o h2 v2 w2 k2 f2 hv => ?_
  have K2 : Keeps h h2 (some · = s.mu) := k1.trans (k2.mono fun _ _ => False.elim)
  have fv : NotIn h (some (Loc.v o)) := f2.mono k1
  nw f2 k2
  refine Runs.step (Hd.sizem_run hC1) ?_
  dsimp only
  refine Runs.bind ((Hd.resizev_run w2 hv d).mono fun _ h3 ⟨w3, k3, v3, hv3⟩ => ?_)
  have K3 := K2.wrt k3 fv
  wr k3
  refine Runs.bind ((Hd.row_get_into_run w3 hX hv3 pick).mono fun _ h4 ⟨w4, k4, hv4⟩ => ?_)
  have K4 := K3.wrt k4 fv
  wr k4
  refine Runs.bind ((Hd.row_set_run w4 hC1 hv4 ⟨0, hk⟩).mono fun _ h5 ⟨w5, k5, hC5⟩ => ?_)
  have K5 := K4.trans k5
  wr k5
  refine stepNewV w5 fun op h6 vp w6 k6 f6 hp => ?_
  have fp : NotIn h (some (Loc.v op)) := f6.mono K5
  have K6 : Keeps h h6 (some · = s.mu) := K5.trans (k6.mono fun _ _ => False.elim)
  nw f6 k6
  refine stepNewV w6 fun of h7 vf w7 k7 f7 hf => ?_
  have ff : NotIn h (some (Loc.v of)) := f7.mono K6
  have K7 : Keeps h h7 (some · = s.mu) := K6.trans (k7.mono fun _ _ => False.elim)
  nw f7 k7
  refine (Runs.loop (fun i _ h' => h'.WF ∧ Keeps h h' (some · = s.mu) ∧ HasM h' s.input_set X ∧ HasM h' s.r R ∧
      (∃ (p : Nat) (v : Fin p → ℝ), HasV h' (some (.v o)) v) ∧ (∃ (p : Nat) (v : Fin p → ℝ), HasV h' (some (.v op)) v) ∧
      (∃ v : Fin d → ℝ, HasV h' (some (.v of)) v) ∧ ∃ C' : Matrix (Fin k) (Fin d) ℝ, HasM h' s.mu C' ∧ C' ⟨0, hk⟩ = X pick ∧
        (∀ l : Fin k, 0 < l.val → l.val < i → Chosen X C' l) ∧ ∀ l : Fin k, 0 < l.val → i ≤ l.val → C' l = C1 l) _ (k - 1 - 1) 1 () h7
    ⟨w7, K7, hX, hR, ⟨_, _, hv4⟩, ⟨_, _, hp⟩, ⟨_, hf⟩, _, hC5, by simp, fun l a b => absurd a (by omega), fun l a _ => by
      funext q
      have : l ≠ ⟨0, hk⟩ := fun e => by rw [e] at a; exact absurd a (by simp)
      simp [this]⟩ ?_).mono ?_
  · intro i _ h8 hi1 hi2 ⟨w8, K8, hX8, hR8, ⟨p8, v8, hv8⟩, ⟨q8, x8, hp8⟩, ⟨y8, hf8⟩, C8, hC8, e0, ch, un⟩
    clear hX hR hv4 hp hf hC5
    have hik : i < k := by omega
    refine Runs.bind ((farthest_run w8 K8 hX8 hC8 hv8 hp8 hf8 fv fp ff (by neq) (by neq) (by neq) hik.le).mono
      fun _ h9 ⟨w9, K9, k9, ⟨p9, v9, hv9⟩, ⟨q9, x9, hp9⟩, y, hf9, L⟩ => ?_)
    have off : ∀ {r : Ref}, r ≠ some (Loc.v o) → r ≠ some (Loc.v op) → r ≠ some (Loc.v of) → ∀ l, r = some l →
        ¬ (some l = some (Loc.v o) ∨ some l = some (Loc.v op) ∨ some l = some (Loc.v of)) := by
      rintro r a b c l rfl (e | e | e)
      · exact a e
      · exact b e
      · exact c e
    have hX9 := hX8.keep k9 (off (by neq) (by neq) (by neq))
    have hR9 := hR8.keep k9 (off (by neq) (by neq) (by neq))
    have hC9 := hC8.keep k9 (off (by neq) (by neq) (by neq))
    clear hX8 hR8 hC8
    refine (Hd.row_set_run w9 hC9 hf9 ⟨i, hik⟩).mono fun _ h10 ⟨w10, k10, hC10⟩ => ?_
    have K10 := K9.trans k10
    wr k10
    refine ⟨w10, K10, hX9, hR9, ⟨_, _, hv9⟩, ⟨_, _, hp9⟩, ⟨_, hf9⟩, _, hC10, ?_, ?_, ?_⟩
    · funext q
      rw [if_neg (fun e => by have := congrArg Fin.val e; simp at this; omega)]
      exact congrFun e0 q
    · intro l hl hli
      have same : ∀ m : Fin k, m.val < i → (fun c => if m = ⟨i, hik⟩ then y c else C8 m c) = C8 m := by
        intro m hm
        funext q
        rw [if_neg (fun e => by rw [e] at hm; exact absurd hm (by simp))]
      rcases Nat.lt_succ_iff_lt_or_eq.mp hli with hli | hli
      · obtain ⟨a, ea, ap, no⟩ := ch l hl hli
        refine ⟨a, (same l hli).trans ea, ?_, ?_⟩
        · rwa [apart_congr (C := C8) (fun m hm => same m (by omega))]
        · intro b hb
          rw [apart_congr (C := C8) (fun m hm => same m (by omega))]; exact no b hb
      · have el : l = ⟨i, hik⟩ := Fin.ext hli
        rcases L with ⟨a, _, ey, ap, no⟩ | ⟨_, no⟩
        · refine ⟨a, ?_, ?_, ?_⟩
          · rw [← ey]; funext q; exact if_pos el
          · rw [apart_congr (C := C8) (fun m hm => same m (by omega)), hli]; exact ap
          · intro b hb
            rw [apart_congr (C := C8) (fun m hm => same m (by omega)), hli]; exact no b hb b.isLt
        · obtain ⟨j, ne⟩ := dif
          exact absurd ⟨⟨0, hk⟩, hi1, by rw [e0]; exact ne⟩ (no j j.isLt)
    · intro l hl hli
      rw [← un l hl (by omega)]
      funext q
      rw [if_neg (fun e => by have := congrArg Fin.val e; simp at this; omega)]
  · intro _ h' ⟨w', K', hX', hR', _, _, _, C', hC', e0, ch, un⟩
    refine ⟨K', C', ⟨w', hX', hC', hR', n1, n2, n3⟩, e0, fun i a b => ch i a (by omega), fun i a b e e' => ?_⟩
    rw [un i a (by omega)]
    subst e; subst e'
    funext j
    exact eC1 i j rfl rfl

end Verif.KMeans
