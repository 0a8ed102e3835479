import Verif.Lemmas.KMeansInit
import Verif.Lemmas.Example
import Mathlib.LinearAlgebra.Matrix.Notation

/-! # C109–C112: k-means clustering -/

namespace Verif
open Spec KMeans
variable {h : Heap ℝ} {s : KMeans} {n d k m a b p q : Nat} {X : Matrix (Fin n) (Fin d) ℝ} {C : Matrix (Fin k) (Fin d) ℝ}
  {R : Matrix (Fin a) (Fin b) ℝ}

/-! ## Predictions -/

/-- **C109**: `model_test(x)` of an initialised object with at least one centroid returns a new vector: the first of the centroids closest to `x`.
Nothing else changes. -/
theorem C109_model_test (hk : 0 < k) (Q : KReady h s X C R) (hi : s.initialized = true) {r : Ref} {x : Fin d → ℝ} (hx : HasV h r x) :
    ∃ j, FirstNearest C x j ∧ ReturnsVec (model_test s r) h (C j) := by
  obtain ⟨j, hj⟩ := first_exists C x hk
  refine ⟨j, hj, .of_has ?_⟩
  obtain ⟨y, rfl, l, i⟩ := hx
  have hx : HasV h (some (.v y)) x := ⟨y, rfl, l, i⟩
  unfold model_test
  dsimp only
  rw [if_neg (by simp [hi])]
  obtain ⟨w, -, hC, -, -, -, -⟩ := Q
  refine stepV0 w fun oc h1 vc w1 k1 f1 hc => ?_
  have K1 := k1
  have fc := f1
  nw f1 k1
  refine Runs.step (Hd.sizem_run hC) ?_
  dsimp only
  refine Runs.bind ((Hd.resizev_run w1 hc d).mono fun _ h2 ⟨w2, k2, v2, hc2⟩ => ?_)
  have K2 := K1.wrt k2 fc
  wr k2
  refine Runs.bind ((Hd.row_get_into_run w2 hC hc2 ⟨0, hk⟩).mono fun _ h3 ⟨w3, k3, hc3⟩ => ?_)
  have K3 := K2.wrt k3 fc
  wr k3
  refine stepNewV w3 fun oj h4 vj w4 k4 f4 hj4 => ?_
  have fj : NotIn h (some (Loc.v oj)) := f4.mono K3
  have K4 := K3.trans k4
  clear k1
  nw f4 k4
  refine Runs.bind ((scan_run w4 hk hC hx hj4 hc3 (by neq) (by neq) (by neq) k le_rfl).mono fun _ h5 ⟨w5, k5, _, c, b, hc5⟩ => ?_)
  rw [first_unique hj b.first]
  exact Runs.of_eq rfl ⟨w5, K4.wrt2 k5 fj fc, fc, hc5⟩

/-- What `model_set_test` computes: row `i` of the answer is the closest to row `min i (m - 1)` of the argument among the first `b` centroids. -/
theorem set_test_core (hk : 0 < k) (Q : KReady h s X C R) (hi : s.initialized = true) {r : Ref} {Z : Matrix (Fin m) (Fin d) ℝ} (hm : 0 < m)
    (hZ : HasM h r Z) (hb : b ≤ k) :
    Runs (model_set_test s r) h fun o h' => h'.WF ∧ Keeps h h' (fun _ => False) ∧ NotIn h o ∧ ∃ c : Fin n → Fin k,
      (∀ i : Fin n, Best C (Z ⟨min i (m - 1), by omega⟩) b (c i)) ∧ HasM h' o (fun i => C (c i)) := by
  obtain ⟨y, rfl, l, iz⟩ := hZ
  have hZ : HasM h (some (.m y)) Z := ⟨y, rfl, l, iz⟩
  unfold model_set_test
  dsimp only
  rw [if_neg (by simp [hi])]
  obtain ⟨w, hX, hC, hR, -, -, -⟩ := Q
  refine Runs.step (Hd.sizem_run hX) ?_
  dsimp only
  refine stepM0 w fun oo h1 A1 w1 k1 f1 ho => ?_
  have K1 := k1
  have fo := f1
  nw f1 k1
  clear k1
  refine Runs.step (Hd.sizem_run hC) ?_
  dsimp only
  refine Runs.bind ((Hd.resizem_run w1 ho n d).mono fun _ h2 ⟨w2, k2, A2, ho2⟩ => ?_)
  have K2 := K1.wrt k2 fo
  wr k2
  refine stepNewV w2 fun oc h3 vc w3 k3 f3 hc => ?_
  have fc : NotIn h (some (Loc.v oc)) := f3.mono K2
  have K3 := K2.trans k3
  nw f3 k3
  clear k3
  refine stepV0 w3 fun ox h4 vx w4 k4 f4 hx => ?_
  have fx : NotIn h (some (Loc.v ox)) := f4.mono K3
  have K4 := K3.trans k4
  nw f4 k4
  clear k4
  refine Runs.step (Hd.sizem_run hZ) ?_
  dsimp only
  refine Runs.bind ((Hd.resizev_run w4 hx d).mono fun _ h5 ⟨w5, k5, v5, hx5⟩ => ?_)
  have K5 := K4.wrt k5 fx
  wr k5
  refine stepNewV w5 fun oj h6 vj w6 k6 f6 hj => ?_
  have fj : NotIn h (some (Loc.v oj)) := f6.mono K5
  have K6 := K5.trans k6
  nw f6 k6
  clear k6
  refine Runs.step (Hd.sizem_run hR) ?_
  dsimp only
  refine Runs.bind ((Runs.forN n (fun i h' => h'.WF ∧ Keeps h h' (fun _ => False) ∧ HasM h' s.mu C ∧ HasM h' (some (.m y)) Z ∧
    (∃ v : Fin d → ℝ, HasV h' (some (.v oc)) v) ∧ (∃ v : Fin d → ℝ, HasV h' (some (.v ox)) v ∧ (0 < i → v = Z ⟨min (i - 1) (m - 1), by omega⟩)) ∧
    (∃ (p : Nat) (v : Fin p → ℝ), HasV h' (some (.v oj)) v) ∧ ∃ (A : Matrix (Fin n) (Fin d) ℝ) (c : Fin n → Fin k), HasM h' (some (.m oo)) A ∧
      ∀ e : Fin n, e.val < i → Best C (Z ⟨min e (m - 1), by omega⟩) b (c e) ∧ A e = C (c e)) _ h6
    ⟨w6, K6, hC, hZ, ⟨_, hc⟩, ⟨_, hx5, fun e => absurd e (by omega)⟩, ⟨_, _, hj⟩, A2, fun _ => ⟨0, hk⟩, ho2, fun e he => absurd he (by omega)⟩
    ?_).mono ?_)
  · intro i h7 hin ⟨w7, K7, hC7, hZ7, ⟨vc7, hc7⟩, ⟨vx7, hx7, ex7⟩, ⟨p7, vj7, hj7⟩, A, c, ho7, eA⟩
    clear hC hZ hc hx5 hj ho2 hX hR
    refine Runs.bind ((Hd.row_get_into_run w7 hC7 hc7 ⟨0, hk⟩).mono fun _ h8 ⟨w8, k8, hc8⟩ => ?_)
    have K8 := K7.wrt k8 fc
    wr k8
    have rd : Runs (Hd.row_get_into (some (.m y)) (i : Nat) (some (.v ox))) h8 fun _ h9 => h9.WF ∧ Keeps h8 h9 (some · = some (Loc.v ox)) ∧
        HasV h9 (some (.v ox)) (Z ⟨min i (m - 1), by omega⟩) := by
      by_cases him : i < m
      · refine (Hd.row_get_into_run w8 hZ7 hx7 ⟨i, him⟩).mono fun _ h9 ⟨w9, k9, hx9⟩ => ⟨w9, k9, ?_⟩
        have : (⟨min i (m - 1), by omega⟩ : Fin m) = ⟨i, him⟩ := Fin.ext (by simp; omega)
        rw [this]; exact hx9
      · refine Runs.of_eq (Hd.row_get_into_out hZ7 hx7 (by omega)) ⟨w8, Keeps.refl _ _, ?_⟩
        have : (⟨min i (m - 1), by omega⟩ : Fin m) = ⟨min (i - 1) (m - 1), by omega⟩ := Fin.ext (by simp; omega)
        rw [this, ← ex7 (by omega)]; exact hx7
    refine Runs.bind (rd.mono fun _ h9 ⟨w9, k9, hx9⟩ => ?_)
    have K9 := K8.wrt k9 fx
    wr k9
    refine Runs.bind ((scan_run w9 hk hC7 hx9 hj7 hc8 (by neq) (by neq) (by neq) b hb).mono
      fun _ h10 ⟨w10, k10, ⟨p10, vj10, hj10⟩, cc, bb, hc10⟩ => ?_)
    have K10 := K9.wrt2 k10 fj fc
    wr k10
    refine (Hd.row_set_run w10 ho7 hc10 ⟨i, hin⟩).mono fun _ h11 ⟨w11, k11, ho11⟩ => ?_
    have K11 := K10.wrt k11 fo
    wr k11
    refine ⟨w11, K11, hC7, hZ7, ⟨_, hc10⟩, ⟨_, hx9, fun _ => by simp⟩, ⟨_, _, hj10⟩, _, Function.update c ⟨i, hin⟩ cc, ho11, fun e he => ?_⟩
    by_cases ee : e = ⟨i, hin⟩
    · subst ee
      refine ⟨by simpa using bb, ?_⟩
      funext q
      simp
    · have he' : e.val < i := by
        have : e.val ≠ i := fun x => ee (Fin.ext x)
        omega
      obtain ⟨b1, b2⟩ := eA e he'
      refine ⟨by simpa [ee] using b1, ?_⟩
      funext q
      simp [ee, b2]
  · intro _ h' ⟨w', K', _, _, _, _, _, A, c, ho', eA⟩
    refine Runs.of_eq rfl ⟨w', K', fo, c, fun i => (eA i i.isLt).1, ?_⟩
    refine cast (congrArg _ ?_) ho'
    funext i
    exact (eA i i.isLt).2

/-- **C109**: `model_set_test(X)` of a trained object (the memberships have a column for each centroid), for `X` with as many rows (at least one) as the data set:
row `i` of the new matrix is the first of the centroids closest to row `i`. Missing: other numbers of rows, objects that are initialised but not trained
(`C109_rows_fails`, `C109_untrained_fails`). -/
theorem C109_set_test_partial (hk : 0 < k) (hn : 0 < n) {R : Matrix (Fin a) (Fin k) ℝ} (Q : KReady h s X C R) (hi : s.initialized = true) {r : Ref}
    {Z : Matrix (Fin n) (Fin d) ℝ} (hZ : HasM h r Z) :
    ∃ c : Fin n → Fin k, (∀ i, FirstNearest C (Z i) (c i)) ∧ ReturnsMat (model_set_test s r) h fun i => C (c i) := by
  choose c hc using fun i => first_exists C (Z i) hk
  refine ⟨c, hc, .of_has ((set_test_core hk Q hi hn hZ le_rfl).mono fun o h' ⟨w', K', f, c', hc', ho⟩ => ⟨w', K', f, ?_⟩)⟩
  have : c' = c := by
    funext i
    have e := (hc' i).first
    rw [show (⟨min i.val (n - 1), by omega⟩ : Fin n) = i from Fin.ext (by simp; omega)] at e
    exact first_unique e (hc i)
  rw [← this]; exact ho

/-- **C109** (fails): the answer of `model_set_test(X)` has as many rows as the *data set*, whatever the number of rows of `X`; past the last row of `X`
the answer for the last row is repeated. -/
theorem C109_rows_fails (hk : 0 < k) {R : Matrix (Fin a) (Fin k) ℝ} (Q : KReady h s X C R) (hi : s.initialized = true) {r : Ref}
    {Z : Matrix (Fin m) (Fin d) ℝ} (hm : 0 < m) (hZ : HasM h r Z) :
    ∃ c : Fin n → Fin k, (∀ i : Fin n, FirstNearest C (Z ⟨min i (m - 1), by omega⟩) (c i)) ∧
      ReturnsMat (model_set_test s r) h fun i => C (c i) := by
  choose c hc using fun i : Fin n => first_exists C (Z ⟨min i (m - 1), by omega⟩) hk
  refine ⟨c, hc, .of_has ((set_test_core hk Q hi hm hZ le_rfl).mono fun o h' ⟨w', K', f, c', hc', ho⟩ => ⟨w', K', f, ?_⟩)⟩
  have : c' = c := by
    funext i
    exact first_unique (hc' i).first (hc i)
  rw [← this]; exact ho

/-- **C109** (fails): an object that is initialised but not trained (the memberships have no column) answers every row with the first centroid. -/
theorem C109_untrained_fails (hk : 0 < k) {R : Matrix (Fin a) (Fin 0) ℝ} (Q : KReady h s X C R) (hi : s.initialized = true) {r : Ref}
    {Z : Matrix (Fin m) (Fin d) ℝ} (hm : 0 < m) (hZ : HasM h r Z) :
    ReturnsMat (model_set_test s r) h fun (_ : Fin n) => C ⟨0, hk⟩ := by
  refine .of_has ((set_test_core hk Q hi hm hZ (Nat.zero_le _)).mono fun o h' ⟨w', K', f, c', hc', ho⟩ => ⟨w', K', f, ?_⟩)
  have : c' = fun _ => ⟨0, hk⟩ := by
    funext i
    exact Fin.ext (by simpa using (hc' i).2.2)
  rw [this] at ho; exact ho

/-- **C109**: an object that is not initialised, or no argument: no answer, and nothing changes. -/
theorem C109_not_ready (r : Ref) (e : r = none ∨ s.initialized = false) :
    model_test s r h = .ok (none, h) ∧ model_set_test s r h = .ok (none, h) := by
  cases r with
  | none => exact ⟨rfl, rfl⟩
  | some l =>
    have e : s.initialized = false := by simpa using e
    unfold model_test model_set_test
    dsimp only
    rw [if_pos e, if_pos e]
    exact ⟨rfl, rfl⟩

/-! ## Initial centroids -/

/-- **C110**: a new object has no data, two empty matrices of its own, no clusters, and is not initialised. -/
theorem C110_create (w : h.WF) :
    Runs KMeans.create h fun s h' => h'.WF ∧ Keeps h h' (fun _ => False) ∧ s.input_set = none ∧ s.k = 0 ∧ s.initialized = false ∧
      s.mean_type = .centroid ∧ s.mu ≠ s.r ∧ NotIn h s.mu ∧ NotIn h s.r ∧ (∃ C : Matrix (Fin 0) (Fin 0) ℝ, HasM h' s.mu C) ∧
      ∃ R : Matrix (Fin 0) (Fin 0) ℝ, HasM h' s.r R := by
  unfold KMeans.create
  refine stepM0 w fun om h1 A1 w1 k1 f1 h1m => ?_
  have fm := f1
  have K1 := k1
  refine stepM0 w1 fun or h2 A2 w2 k2 f2 h2r => ?_
  have fr := f2.mono K1
  have K2 := K1.trans k2
  fresh f2
  adv k2
  exact Runs.of_eq rfl ⟨w2, K2, rfl, rfl, rfl, rfl, by neq, fm, fr, ⟨_, h1m⟩, _, h2r⟩

/-- **C110**: changing the data, the number of clusters or the kind of initialisation makes the object uninitialised and changes nothing else. -/
theorem C110_setters (val : Ref) (j : Nat) (t : MeanType) :
    set_input_set s val = ⟨val, s.mu, s.r, s.k, false, s.mean_type⟩ ∧ set_k s j = ⟨s.input_set, s.mu, s.r, j, false, s.mean_type⟩ ∧
      set_mean_type s t = ⟨s.input_set, s.mu, s.r, s.k, false, t⟩ := ⟨rfl, rfl, rfl⟩

theorem initialise_eq {l : Loc} (e : s.input_set = some l) (pick : Nat → Int) (t : s.mean_type = .centroid) :
    initialise s pick = centroid_initialization s pick >>= fun _ => pure { s with initialized := true } := by
  unfold initialise; rw [e, t]

theorem initialise_eq' {l : Loc} (e : s.input_set = some l) (pick : Nat → Int) (t : s.mean_type = .kmeanspp) :
    initialise s pick = kmeanspp_initialization s (pick 0) >>= fun _ => pure { s with initialized := true } := by
  unfold initialise; rw [e, t]

theorem KReady.some {C : Matrix (Fin p) (Fin q) ℝ} (Q : KReady h s X C R) : ∃ l, s.input_set = some l := by
  obtain ⟨x, e, _⟩ := Q.data
  exact ⟨_, e⟩

/-- **C110**: `initialize()` with random centroids, whatever rows are drawn: the centroids are these rows of the data set, whatever the object held
before; the object is initialised, nothing but the matrix of centroids changes. -/
theorem C110_centroids {C : Matrix (Fin p) (Fin q) ℝ} (Q : KReady h s X C R) (t : s.mean_type = .centroid) (pick : Nat → Fin n) :
    Runs (initialise s fun i => ((pick i).val : Int)) h fun s' h' => s' = { s with initialized := true } ∧ Keeps h h' (some · = s.mu) ∧
      KReady h' s' X (fun i : Fin s.k => X (pick i)) R := by
  obtain ⟨l, e⟩ := KReady.some Q
  rw [initialise_eq e _ t]
  refine Runs.bind ((centroid_run Q pick rfl).mono fun _ h' ⟨K, Q'⟩ => ?_)
  exact Runs.of_eq rfl ⟨rfl, K, Q'.wf, Q'.data, Q'.mu, Q'.r, Q'.data_mu, Q'.data_r, Q'.mu_r⟩

/-- **C110**: `initialize()` with k-means++, for data in which some row differs from the row drawn: the first centroid is the row drawn; centroids
`1, …, k - 2` are rows of the data set, each the last that differs from one of the centroids before it. Missing: the last centroid
(`C110_last_fails`), that a centroid is far from the others (`C110_farthest_fails`). -/
theorem C110_kmeanspp_partial {C : Matrix (Fin p) (Fin q) ℝ} (Q : KReady h s X C R) (t : s.mean_type = .kmeanspp) (hk : 0 < s.k) (pick : Nat → Fin n)
    (dif : ∃ j, X j ≠ X (pick 0)) :
    Runs (initialise s fun i => ((pick i).val : Int)) h fun s' h' => s' = { s with initialized := true } ∧ Keeps h h' (some · = s.mu) ∧
      ∃ C' : Matrix (Fin s.k) (Fin d) ℝ, KReady h' s' X C' R ∧ C' ⟨0, hk⟩ = X (pick 0) ∧
        ∀ i : Fin s.k, 0 < i.val → i.val + 1 < s.k → Chosen X C' i := by
  obtain ⟨l, e⟩ := KReady.some Q
  rw [initialise_eq' e _ t]
  refine Runs.bind ((kmeanspp_run Q (pick 0) rfl hk dif).mono fun _ h' ⟨K, C', Q', e0, ch, _⟩ => ?_)
  exact Runs.of_eq rfl ⟨rfl, K, C', ⟨Q'.wf, Q'.data, Q'.mu, Q'.r, Q'.data_mu, Q'.data_r, Q'.mu_r⟩, e0, ch⟩

/-- **C110** (fails): k-means++ does not choose the last of two or more centroids: it is what the matrix held before. -/
theorem C110_last_fails {C : Matrix (Fin s.k) (Fin d) ℝ} (Q : KReady h s X C R) (t : s.mean_type = .kmeanspp) (hk : 2 ≤ s.k) (pick : Nat → Fin n)
    (dif : ∃ j, X j ≠ X (pick 0)) :
    Runs (initialise s fun i => ((pick i).val : Int)) h fun _ h' => ∃ C' : Matrix (Fin s.k) (Fin d) ℝ, HasM h' s.mu C' ∧
      C' ⟨s.k - 1, by omega⟩ = C ⟨s.k - 1, by omega⟩ := by
  obtain ⟨l, e⟩ := KReady.some Q
  rw [initialise_eq' e _ t]
  refine Runs.bind ((kmeanspp_run Q (pick 0) rfl (by omega) dif).mono fun _ h' ⟨K, C', Q', e0, ch, la⟩ => ?_)
  exact Runs.of_eq rfl ⟨C', Q'.mu, la ⟨s.k - 1, by omega⟩ (by simp; omega) (by simp; omega) rfl rfl⟩

/-- **C110** (fails): the second of three or more centroids of k-means++ is not the point farthest from the first: it is the last point, if this
differs from the first centroid. -/
theorem C110_farthest_fails {C : Matrix (Fin p) (Fin q) ℝ} (Q : KReady h s X C R) (t : s.mean_type = .kmeanspp) (hk : 3 ≤ s.k) (pick : Nat → Fin n)
    (last : Fin n) (hl : last.val + 1 = n) (dif : X last ≠ X (pick 0)) :
    Runs (initialise s fun i => ((pick i).val : Int)) h fun _ h' => ∃ C' : Matrix (Fin s.k) (Fin d) ℝ, HasM h' s.mu C' ∧
      C' ⟨0, by omega⟩ = X (pick 0) ∧ C' ⟨1, by omega⟩ = X last := by
  refine (C110_kmeanspp_partial Q t (by omega) pick ⟨last, dif⟩).mono fun s' h' ⟨es, _, C', Q', e0, ch⟩ => ⟨C', ?_, e0, ?_⟩
  · have := Q'.mu; rw [es] at this; exact this
  · obtain ⟨a, ea, ap, no⟩ := ch ⟨1, by omega⟩ (by simp) (by simp; omega)
    rw [ea]
    have al : ¬ a < last := fun hlt => no last hlt ⟨⟨0, by omega⟩, by simp, by rw [e0]; exact dif⟩
    have : a = last := Fin.ext (by have := a.isLt; have : ¬ a.val < last.val := al; omega)
    rw [this]

/-! ## Training -/

theorem train_eq {l : Loc} (e : s.input_set = some l) (epoch_num : Int) (pick : Nat → Int) :
    train s epoch_num pick = ensure s pick >>= fun s => (do evaluate s; forN (max epoch_num.toNat 1) fun _ => turn s) >>= fun _ => pure s := by
  unfold train; rw [e]; simp only [bind_assoc]

theorem train_core (hk : 0 < k) (Q : KReady h s X C R) (hi : s.initialized = true) (ek : s.k = k) (epoch_num : Int) (pick : Nat → Int) :
    Runs (train s epoch_num pick) h fun s' h' => s' = s ∧ Keeps h h' (fun l => some l = s.mu ∨ some l = s.r) ∧
      ∃ (Cs : ℕ → Matrix (Fin k) (Fin d) ℝ) (cs : ℕ → Fin n → Fin k) (R' : Matrix (Fin n) (Fin k) ℝ),
        Turns X C Cs cs (max epoch_num.toNat 1) ∧ KReady h' s X (Cs (max epoch_num.toNat 1)) R' ∧ Members R' (cs (max epoch_num.toNat 1)) := by
  obtain ⟨l, e⟩ := KReady.some Q
  rw [train_eq e]
  have e1 : ensure s pick h = .ok (s, h) := by unfold ensure; rw [if_pos hi]; rfl
  refine Runs.step e1 ?_
  refine Runs.bind ((turns_run hk Q hi ek _).mono fun _ h' ⟨K, Cs, cs, R', T, Q', m⟩ => ?_)
  exact Runs.of_eq rfl ⟨rfl, K, Cs, cs, R', T, Q', m⟩

/-- **C111**: after `train` every point belongs to exactly one cluster; a point whose nearest centroid is not the first one belongs to its nearest
centroid, and so does the first point. Missing: the points nearest to the first centroid (`C111_kept_fails`). -/
theorem C111_members_partial (hk : 0 < k) (Q : KReady h s X C R) (hi : s.initialized = true) (ek : s.k = k) (epoch_num : Int) (pick : Nat → Int) :
    Runs (train s epoch_num pick) h fun s' h' => s' = s ∧ Keeps h h' (fun l => some l = s.mu ∨ some l = s.r) ∧
      ∃ (C' : Matrix (Fin k) (Fin d) ℝ) (R' : Matrix (Fin n) (Fin k) ℝ) (c : Fin n → Fin k), KReady h' s X C' R' ∧ Members R' c ∧
        ∀ (i : Fin n) (j : Fin k), FirstNearest C' (X i) j → j.val ≠ 0 ∨ i.val = 0 → c i = j := by
  refine (train_core hk Q hi ek epoch_num pick).mono fun s' h' ⟨es, K, Cs, cs, R', T, Q', m⟩ => ⟨es, K, _, R', _, Q', m, fun i j hj e => ?_⟩
  rw [T.carried _ le_rfl i j hj]
  rcases e with e | e
  · rw [if_neg e]
  · unfold before; rw [dif_pos e, ite_self]

/-- **C111** (fails): after `train` a point nearest to the first centroid belongs to the cluster of the point before it in the data set, whatever
that is. -/
theorem C111_kept_fails (hk : 0 < k) (Q : KReady h s X C R) (hi : s.initialized = true) (ek : s.k = k) (epoch_num : Int) (pick : Nat → Int) :
    Runs (train s epoch_num pick) h fun _ h' =>
      ∃ (C' : Matrix (Fin k) (Fin d) ℝ) (R' : Matrix (Fin n) (Fin k) ℝ) (c : Fin n → Fin k), KReady h' s X C' R' ∧ Members R' c ∧
        ∀ (i : Fin n) (hi : i.val + 1 < n), FirstNearest C' (X ⟨i + 1, hi⟩) ⟨0, hk⟩ → c ⟨i + 1, hi⟩ = c i := by
  refine (train_core hk Q hi ek epoch_num pick).mono fun s' h' ⟨es, K, Cs, cs, R', T, Q', m⟩ => ⟨_, R', _, Q', m, fun i hi hj => ?_⟩
  rw [T.carried _ le_rfl _ _ hj]
  simp [before]

/-- **C112**: `train(e)` of an initialised object with as many clusters as columns runs `max(e, 1)` turns of assigning the points and moving the
centroids to the means of their points. The assignment is not to the nearest centroid (C111). Missing: other numbers of clusters
(`C112_stuck_fails`). -/
theorem C112_lloyd_partial (hd : 0 < d) {C : Matrix (Fin d) (Fin d) ℝ} (Q : KReady h s X C R) (hi : s.initialized = true) (ek : s.k = d)
    (epoch_num : Int) (pick : Nat → Int) :
    Runs (train s epoch_num pick) h fun s' h' => s' = s ∧ Keeps h h' (fun l => some l = s.mu ∨ some l = s.r) ∧
      ∃ (Cs : ℕ → Matrix (Fin d) (Fin d) ℝ) (cs : ℕ → Fin n → Fin d) (R' : Matrix (Fin n) (Fin d) ℝ), Cs 0 = C ∧
        LloydRun X Cs cs (max epoch_num.toNat 1) ∧ KReady h' s X (Cs (max epoch_num.toNat 1)) R' ∧ Members R' (cs (max epoch_num.toNat 1)) :=
  (train_core hd Q hi ek epoch_num pick).mono fun s' h' ⟨es, K, Cs, cs, R', T, Q', m⟩ =>
    ⟨es, K, Cs, cs, R', T.zero, ⟨T.carried, fun t ht => (T.step t ht).1 rfl⟩, Q', m⟩

/-- **C112** (fails): with a number of clusters different from the number of columns `train` never moves a centroid. -/
theorem C112_stuck_fails (hk : 0 < k) (ne : k ≠ d) (Q : KReady h s X C R) (hi : s.initialized = true) (ek : s.k = k) (epoch_num : Int)
    (pick : Nat → Int) : Runs (train s epoch_num pick) h fun _ h' => HasM h' s.mu C := by
  refine (train_core hk Q hi ek epoch_num pick).mono fun _ _ ⟨es, K, Cs, cs, R', T, Q', m⟩ => ?_
  have : ∀ t ≤ max epoch_num.toNat 1, Cs t = C := by
    intro t
    induction t with
    | zero => exact fun _ => T.zero
    | succ t ih => exact fun ht => ((T.step t (by omega)).2 ne).trans (ih (by omega))
  rw [← this _ le_rfl]
  exact Q'.mu

/-- **C112**: `train` of an object that is not initialised (random centroids) starts from the rows drawn. -/
theorem C112_fresh {C : Matrix (Fin p) (Fin q) ℝ} (hk : 0 < s.k) (Q : KReady h s X C R) (hi : s.initialized = false) (t : s.mean_type = .centroid)
    (pick : Nat → Fin n) (epoch_num : Int) :
    Runs (train s epoch_num fun i => ((pick i).val : Int)) h fun s' h' => s' = { s with initialized := true } ∧
      Keeps h h' (fun l => some l = s.mu ∨ some l = s.r) ∧
      ∃ (Cs : ℕ → Matrix (Fin s.k) (Fin d) ℝ) (cs : ℕ → Fin n → Fin s.k) (R' : Matrix (Fin n) (Fin s.k) ℝ),
        Cs 0 = (fun i : Fin s.k => X (pick i)) ∧ (∀ t ≤ max epoch_num.toNat 1, Carried X (Cs t) (cs t)) ∧
        (s.k = d → ∀ t < max epoch_num.toNat 1, Means X (cs t) (Cs (t + 1))) ∧
        KReady h' s' X (Cs (max epoch_num.toNat 1)) R' ∧ Members R' (cs (max epoch_num.toNat 1)) := by
  obtain ⟨l, e⟩ := KReady.some Q
  rw [train_eq e]
  have e1 : ∀ f : Nat → Int, ensure s f = initialise s f := fun f => by unfold ensure; rw [if_neg (by simp [hi])]
  rw [e1]
  refine Runs.bind ((C110_centroids Q t pick).mono fun s' h1 ⟨es, K1, Q1⟩ => ?_)
  subst es
  refine Runs.bind ((turns_run hk Q1 rfl rfl _).mono fun _ h' ⟨K, Cs, cs, R', T, Q', m⟩ => ?_)
  exact Runs.of_eq rfl ⟨rfl, (K1.mono fun _ _ e => .inl e).trans K, Cs, cs, R', T.zero, T.carried, fun e t ht => (T.step t ht).1 e, Q', m⟩

/-- **C112**: `train` with no data does nothing. -/
theorem C112_no_data (e : s.input_set = none) (epoch_num : Int) (pick : Nat → Int) :
    train s epoch_num pick h = .ok (s, h) ∧ initialise s pick h = .ok (s, h) := by
  unfold train initialise; rw [e]; exact ⟨rfl, rfl⟩

/-- **C112**: `score()` of a trained object is the sum of the squared distances of the points to the centroids of their clusters. -/
theorem C112_score {R : Matrix (Fin n) (Fin k) ℝ} {c : Fin n → Fin k} (Q : KReady h s X C R) (m : Members R c) (hi : s.initialized = true) :
    Runs (score s) h fun x h' => Keeps h h' (fun _ => False) ∧ x = clusterCost X C c := by
  refine (cost_run Q hi).mono fun x h' ⟨K, _, e⟩ => ⟨K, ?_⟩
  rw [e, clusterCost]
  refine Finset.sum_congr rfl fun i _ => ?_
  simp [m i]

/-- The mean of numbers minimises the sum of the squared distances to them. -/
theorem mean_min {ι : Type} (S : Finset ι) (x : ι → ℝ) (y : ℝ) (hS : 0 < S.card) :
    ∑ i ∈ S, (x i - (∑ i ∈ S, x i) / S.card) ^ 2 ≤ ∑ i ∈ S, (x i - y) ^ 2 := by
  have hc : (0 : ℝ) < S.card := by exact_mod_cast hS
  set μ := (∑ i ∈ S, x i) / (S.card : ℝ) with hμ
  have hs : ∑ i ∈ S, x i = S.card * μ := by rw [hμ]; field_simp
  have e : ∑ i ∈ S, (x i - y) ^ 2 = ∑ i ∈ S, (x i - μ) ^ 2 + S.card * (μ - y) ^ 2 := by
    have : ∀ i ∈ S, (x i - y) ^ 2 = (x i - μ) ^ 2 + (2 * (μ - y) * x i + (y ^ 2 - μ ^ 2)) := fun i _ => by ring
    rw [Finset.sum_congr rfl this, Finset.sum_add_distrib, Finset.sum_add_distrib, ← Finset.mul_sum, hs, Finset.sum_const, nsmul_eq_mul]
    ring
  rw [e]
  have := mul_nonneg hc.le (sq_nonneg (μ - y))
  linarith

theorem clusterCost_eq (c : Fin n → Fin k) : clusterCost X C c = ∑ j, ∑ i with c i = j, ∑ q, (X i q - C j q) ^ 2 := by
  unfold clusterCost sqDist
  rw [← Finset.sum_fiberwise (s := Finset.univ) (g := c)]
  refine Finset.sum_congr rfl fun j _ => Finset.sum_congr rfl fun i hi => ?_
  rw [(Finset.mem_filter.mp hi).2]

/-- **C112**: moving the centroids to the means of their points never increases the sum of the squared distances: the means are the best centroids for
the clusters. -/
theorem C112_means_best {c : Fin n → Fin k} {C' : Matrix (Fin k) (Fin d) ℝ} (M : Means X c C') (C : Matrix (Fin k) (Fin d) ℝ) :
    clusterCost X C' c ≤ clusterCost X C c := by
  rw [clusterCost_eq, clusterCost_eq]
  refine Finset.sum_le_sum fun j _ => ?_
  rw [Finset.sum_comm, Finset.sum_comm (s := Finset.univ.filter _)]
  refine Finset.sum_le_sum fun q _ => ?_
  rcases Nat.eq_zero_or_pos (Finset.univ.filter fun i => c i = j).card with hz | hp
  · rw [Finset.card_eq_zero.mp hz]; simp
  · rw [M j hp q]
    exact mean_min _ (fun i => X i q) (C j q) hp

/-! ## Example -/

/-- Three points on a line, two centroids. -/
noncomputable def kmHeap : Heap ℝ := Heap.ofLists 0 [[9]] [(1, 3, [0, 10, 1]), (1, 2, [0, 10]), (0, 0, [])]

/-- The object. -/
def exKMeans : KMeans := ⟨some (.m 0), some (.m 1), some (.m 2), 2, true, .centroid⟩

theorem exKMeans_ready : KReady kmHeap exKMeans !![0; 10; 1] !![0; 10] (!![] : Matrix (Fin 0) (Fin 0) ℝ) where
  wf := Heap.ofLists_wf _ _ _ (by simp)
  data := ⟨0, rfl, by simp [kmHeap, Heap.ofLists, Heap.live, Loc.id], by simp [kmHeap, Heap.ofLists], fun i j => by
    fin_cases i <;> fin_cases j <;> simp [kmHeap, Heap.ofLists]⟩
  mu := ⟨1, rfl, by simp [kmHeap, Heap.ofLists, Heap.live, Loc.id], by simp [kmHeap, Heap.ofLists], fun i j => by
    fin_cases i <;> fin_cases j <;> simp [kmHeap, Heap.ofLists]⟩
  r := ⟨2, rfl, by simp [kmHeap, Heap.ofLists, Heap.live, Loc.id], by simp [kmHeap, Heap.ofLists], fun i j => i.elim0⟩
  data_mu := by simp [exKMeans]
  data_r := by simp [exKMeans]
  mu_r := by simp [exKMeans]

/-- The hypotheses of C111, C112 are met: three points, two centroids. The third point, nearest to the first centroid, ends in the cluster of the
second. -/
example (e : Int) : Runs (train exKMeans e fun _ => 0) kmHeap fun _ h' => HasM h' exKMeans.mu !![0; 10] := by
  have Q := exKMeans_ready
  have e1 : exKMeans.initialized = true := rfl
  have e2 : exKMeans.k = 2 := rfl
  generalize exKMeans = s at *
  generalize kmHeap = h at *
  exact C112_stuck_fails (by decide) (by decide) Q e1 e2 e _

/-- The third point (1) is nearest to the first centroid (0) but is put into the cluster of the second (10), where the point before it is. -/
example (e : Int) : Runs (train exKMeans e fun _ => 0) kmHeap fun _ h' => ∃ R : Matrix (Fin 3) (Fin 2) ℝ, HasM h' exKMeans.r R ∧ R 2 0 = 0 ∧ R 2 1 = 1 := by
  have Q := exKMeans_ready
  have e1 : exKMeans.initialized = true := rfl
  have e2 : exKMeans.k = 2 := rfl
  generalize exKMeans = s at *
  generalize kmHeap = h at *
  refine (train_core (by decide) Q e1 e2 e _).mono ?_
  rintro s' h' ⟨_, _, Cs, cs, R', T, Q', m⟩
  refine ⟨R', Q'.r, ?_⟩
  have st : ∀ t ≤ max e.toNat 1, Cs t = !![0; 10] := by
    intro t
    induction t with
    | zero => exact fun _ => T.zero
    | succ t ih => exact fun ht => ((T.step t (by omega)).2 (by norm_num)).trans (ih (by omega))
  have ca := T.carried _ le_rfl
  rw [st _ le_rfl] at ca
  have c1 := ca 1 1 ⟨fun l => by fin_cases l <;> simp [sqDist], fun l hl => by
    fin_cases l
    · simp [sqDist]
    · exact absurd hl (by simp)⟩
  have c2 := ca 2 0 ⟨fun l => by
    have x2 : (!![0; 10; 1] : Matrix (Fin 3) (Fin 1) ℝ) 2 0 = 1 := rfl
    have y0 : (!![0; 10] : Matrix (Fin 2) (Fin 1) ℝ) 0 0 = 0 := rfl
    have y1 : (!![0; 10] : Matrix (Fin 2) (Fin 1) ℝ) 1 0 = 10 := rfl
    unfold sqDist
    rw [Fin.sum_univ_one, Fin.sum_univ_one]
    fin_cases l
    · exact le_rfl
    · show (_ - _) ^ 2 ≤ (_ - (!![0; 10] : Matrix (Fin 2) (Fin 1) ℝ) 1 0) ^ 2
      rw [x2, y0, y1]; norm_num, fun l hl => absurd hl (by simp)⟩
  have c2' : cs (max e.toNat 1) 2 = 1 := by
    rw [c2]
    simp only [before]
    exact c1.trans (by simp)
  rw [m 2 0, m 2 1, c2']
  simp

example : ∃ j, FirstNearest (!![0; 10] : Matrix (Fin 2) (Fin 1) ℝ) ![9] j ∧ ReturnsVec (model_test exKMeans (some (.v 0))) kmHeap ((!![0; 10] : Matrix (Fin 2) (Fin 1) ℝ) j) :=
  C109_model_test (k := 2) (d := 1) (by decide) exKMeans_ready rfl ⟨0, rfl, by simp [kmHeap, Heap.ofLists, Heap.live, Loc.id], by simp [kmHeap, Heap.ofLists], fun i => by
    fin_cases i; simp [kmHeap, Heap.ofLists]⟩

end Verif
