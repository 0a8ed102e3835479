import Verif.Spec.KMeansLife
import Verif.Props.KMeans
import Verif.Props.MlpLife

/-! # C154: a k-means object over its whole life -/

namespace Verif
open Spec
namespace KMeans
open Spec.KMeansLife
variable {n d k : Nat} {h h0 : Heap ℝ} {s : KMeans} {P : Progress} {pick : Nat → Int}

/-- The turns of a training follow those made before. -/
theorem turned_turns {X : Matrix (Fin n) (Fin d) ℝ} {C : Matrix (Fin k) (Fin d) ℝ} {t : ℕ} (T : Turned X pick t C) {Cs : ℕ → Matrix (Fin k) (Fin d) ℝ}
    {cs : ℕ → Fin n → Fin k} {e : ℕ} (S : Turns X C Cs cs e) : Turned X pick (t + e) (Cs e) := by
  have : ∀ τ ≤ e, Turned X pick (t + τ) (Cs τ) := by
    intro τ
    induction τ with
    | zero => intro _; rw [S.zero]; exact T
    | succ τ ih => exact fun l => .turn (ih (by omega)) (cs τ) (S.carried τ (by omega)) (S.step τ (by omega)).1 (S.step τ (by omega)).2
  exact this e le_rfl

/-- What holds of an object of which `P` is known. -/
structure Life (h0 : Heap ℝ) (P : Progress) (s : KMeans) (h : Heap ℝ) : Prop where
  wf : h.WF
  keep : Keeps h0 h (fun _ => False)
  e_input : s.input_set = P.input
  e_k : s.k = P.k
  e_type : s.mean_type = .centroid
  e_init : s.initialized = P.drawn.isSome
  input : P.input = none ∨ ∃ (n d : Nat) (X : Matrix (Fin n) (Fin d) ℝ), HasM h0 P.input X
  own_mu : ∃ (p q : Nat) (C : Matrix (Fin p) (Fin q) ℝ), HasM h s.mu C
  own_r : ∃ (p q : Nat) (C : Matrix (Fin p) (Fin q) ℝ), HasM h s.r C
  new_mu : NotIn h0 s.mu
  new_r : NotIn h0 s.r
  ne : s.mu ≠ s.r
  drawn : ∀ pick t, P.drawn = some (pick, t) → ∃ (n d : Nat) (X : Matrix (Fin n) (Fin d) ℝ) (C : Matrix (Fin P.k) (Fin d) ℝ), HasM h0 P.input X ∧
    Turned X pick t C ∧ HasM h s.mu C ∧
    (0 < t → 0 < P.k ∧ 0 < n ∧ ∃ (R : Matrix (Fin n) (Fin P.k) ℝ) (c : Fin n → Fin P.k), HasM h s.r R ∧ Members R c ∧ Carried X C c)

theorem Life.ready (L : Life h0 P s h) {X : Matrix (Fin n) (Fin d) ℝ} (hX : HasM h0 P.input X) {p q a b : Nat} {C : Matrix (Fin p) (Fin q) ℝ}
    {R : Matrix (Fin a) (Fin b) ℝ} (hC : HasM h s.mu C) (hR : HasM h s.r R) : KReady h s X C R :=
  ⟨L.wf, L.e_input ▸ adv_hasm L.keep hX, hC, hR, L.e_input ▸ (L.new_mu.ne_mat hX).symm, L.e_input ▸ (L.new_r.ne_mat hX).symm, L.ne⟩

/-- A call that makes new objects only and leaves the object as it is. -/
theorem Life.adv (L : Life h0 P s h) {h' : Heap ℝ} (w : h'.WF) (K : Keeps h h' (fun _ => False)) : Life h0 P s h' := by
  obtain ⟨_, _, C, hC⟩ := L.own_mu
  obtain ⟨_, _, R, hR⟩ := L.own_r
  refine ⟨w, L.keep.trans K, L.e_input, L.e_k, L.e_type, L.e_init, L.input, ⟨_, _, C, adv_hasm K hC⟩, ⟨_, _, R, adv_hasm K hR⟩, L.new_mu, L.new_r, L.ne,
    fun pick t e => ?_⟩
  obtain ⟨n, d, X, C, hX, T, hC, f⟩ := L.drawn pick t e
  refine ⟨n, d, X, C, hX, T, adv_hasm K hC, fun t0 => ?_⟩
  obtain ⟨k0, n0, R, c, hR, m, ca⟩ := f t0
  exact ⟨k0, n0, R, c, adv_hasm K hR, m, ca⟩

/-- A setter. -/
theorem Life.set (L : Life h0 P s h) {s' : KMeans} {v : Ref} {k : Nat} (e1 : s'.input_set = v) (e2 : s'.k = k) (e3 : s'.mean_type = .centroid)
    (e4 : s'.initialized = false) (e5 : s'.mu = s.mu) (e6 : s'.r = s.r) (hv : v = none ∨ ∃ (n d : Nat) (X : Matrix (Fin n) (Fin d) ℝ), HasM h0 v X) :
    Life h0 ⟨v, k, none⟩ s' h :=
  ⟨L.wf, L.keep, e1, e2, e3, e4, hv, e5 ▸ L.own_mu, e6 ▸ L.own_r, e5 ▸ L.new_mu, e6 ▸ L.new_r, e5 ▸ e6 ▸ L.ne, fun _ _ => nofun⟩

theorem Life.call_init (L : Life h0 P s h) {X : Matrix (Fin n) (Fin d) ℝ} (hX : HasM h0 P.input X) (hp : ∀ i, 0 ≤ pick i ∧ pick i < n) :
    Runs (initialise s pick) h fun s' h' => s' = { s with initialized := true } ∧ Life h0 ⟨P.input, P.k, some (pick, 0)⟩ s' h' := by
  obtain ⟨_, _, C, hC⟩ := L.own_mu
  obtain ⟨_, _, R, hR⟩ := L.own_r
  have n0 : 0 < n := by have := hp 0; omega
  let row : Nat → Fin n := fun i => ⟨(pick i).toNat, by have := hp i; omega⟩
  have er : pick = fun i => ((row i).val : Int) := by
    funext i
    have := hp i
    simp [row, this.1]
  have := C110_centroids (L.ready hX hC hR) L.e_type row
  rw [← er] at this
  refine this.mono fun s' h' ⟨es, K, Q⟩ => ⟨es, ?_⟩
  subst es
  obtain ⟨pi, pk, pd⟩ := P
  have ek : s.k = pk := L.e_k
  subst ek
  refine ⟨Q.wf, L.keep.trans_new K fun l e hl => L.new_mu l e.symm hl, L.e_input, rfl, L.e_type, rfl, .inr ⟨_, _, X, hX⟩, ⟨_, _, _, Q.mu⟩, ⟨_, _, _, Q.r⟩,
    L.new_mu, L.new_r, L.ne, fun p t e => ?_⟩
  cases e
  exact ⟨n, d, X, _, hX, .start _ fun i => ⟨row i.val, (congrFun er i.val).symm, rfl⟩, Q.mu, fun z => absurd z (by simp)⟩

theorem Life.call_train (L : Life h0 P s h) {X : Matrix (Fin n) (Fin d) ℝ} (hX : HasM h0 P.input X) (n0 : 0 < n) (hk : 0 < P.k) {t : ℕ}
    (ed : P.drawn = some (pick, t)) (epoch_num : Int) (pick' : Nat → Int) :
    Runs (train s epoch_num pick') h fun s' h' => Life h0 ⟨P.input, P.k, some (pick, t + max epoch_num.toNat 1)⟩ s' h' := by
  obtain ⟨_, _, R, hR⟩ := L.own_r
  obtain ⟨n', d', X', C, hX', T, hC, -⟩ := L.drawn pick t ed
  have Q := L.ready hX' hC hR
  refine (train_core hk Q (by rw [L.e_init, ed]; rfl) L.e_k epoch_num pick').mono fun s' h' ⟨es, K, Cs, cs, R', S, Q', m⟩ => ?_
  subst es
  have nn : 0 < n' := by
    obtain ⟨i, ei, -, q, -⟩ := hX
    obtain ⟨j, ej, -, q', -⟩ := hX'
    rw [ei] at ej
    cases ej
    rw [q] at q'
    cases q'
    exact n0
  refine ⟨Q'.wf, L.keep.trans_new K fun l e hl => ?_, L.e_input, L.e_k, L.e_type, by rw [L.e_init, ed]; rfl, L.input, ⟨_, _, _, Q'.mu⟩, ⟨_, _, _, Q'.r⟩,
    L.new_mu, L.new_r, L.ne, fun p u e => ?_⟩
  · rcases e with e | e
    · exact L.new_mu l e.symm hl
    · exact L.new_r l e.symm hl
  · cases e
    exact ⟨n', d', X', _, hX', turned_turns T S, Q'.mu, fun _ => ⟨hk, nn, R', _, Q'.r, m, S.carried _ le_rfl⟩⟩

theorem train_fresh {l : Loc} (e : s.input_set = some l) (hi : s.initialized = false) (epoch_num : Int) {h1 : Heap ℝ}
    (r : initialise s pick h = .ok ({ s with initialized := true }, h1)) :
    train s epoch_num pick h = train { s with initialized := true } epoch_num pick h1 := by
  rw [train_eq e, train_eq (s := { s with initialized := true }) e]
  unfold ensure
  rw [if_neg (by simp [hi]), if_pos rfl, bind_ok r]
  rfl

theorem not_drawn (L : Life h0 P s h) (e : P.drawn = none) (r : Ref) (h' : Heap ℝ) :
    model_test s r h' = .ok (none, h') ∧ model_set_test s r h' = .ok (none, h') ∧ score s h' = .ok (0, h') := by
  have hi : s.initialized = false := by rw [L.e_init, e]; rfl
  refine ⟨(C109_not_ready r (.inr hi)).1, (C109_not_ready r (.inr hi)).2, ?_⟩
  unfold score cost
  rw [if_pos hi]
  rfl

theorem Life.step (L : Life h0 P s h) (c : Call) (hc : Admissible h0 P c) : Runs (call s c) h fun s' h' => Life h0 (progressBy P c) s' h' := by
  cases c with
  | set_input_set v => exact Runs.of_eq rfl (L.set rfl L.e_k L.e_type rfl rfl rfl hc)
  | set_k v => exact Runs.of_eq rfl (L.set L.e_input rfl L.e_type rfl rfl rfl L.input)
  | set_mean_type v => exact Runs.of_eq rfl (L.set L.e_input L.e_k hc rfl rfl rfl L.input)
  | initialise pick =>
    show Runs (KMeans.initialise s pick) h _
    by_cases z : P.input = none
    · refine Runs.of_eq (C112_no_data (L.e_input.trans z) 0 pick).2 ?_
      dsimp only [progressBy]
      rw [if_pos z]
      exact L
    · obtain ⟨n, d, X, hX⟩ := L.input.resolve_left z
      refine (L.call_init hX (hc n d X hX)).mono fun s' h' ⟨_, L'⟩ => ?_
      dsimp only [progressBy]
      rw [if_neg z]
      exact L'
  | train e pick =>
    show Runs (KMeans.train s e pick) h _
    by_cases z : P.input = none
    · refine Runs.of_eq (C112_no_data (L.e_input.trans z) e pick).1 ?_
      dsimp only [progressBy]
      rw [if_pos z]
      exact L
    · obtain ⟨n, d, X, hX⟩ := L.input.resolve_left z
      obtain ⟨k0, hp⟩ := hc.resolve_left z
      have hp := hp n d X hX
      have n0 : 0 < n := by have := hp 0; omega
      dsimp only [progressBy]
      rw [if_neg z]
      cases ed : P.drawn with
      | none =>
        obtain ⟨s1, h1, r, es, L1⟩ := runs_iff.1 (L.call_init hX hp)
        subst es
        obtain ⟨o, eo, -⟩ := id hX
        have hi : s.initialized = false := by rw [L.e_init, ed]; rfl
        have := L1.call_train hX n0 k0 rfl e pick
        obtain ⟨s2, h2, r2, L2⟩ := runs_iff.1 this
        refine Runs.of_eq ((train_fresh (L.e_input.trans eo) hi e r).trans r2) ?_
        simpa using L2
      | some q =>
        obtain ⟨pick', t⟩ := q
        exact L.call_train hX n0 k0 ed e pick
  | model_test x =>
    show Runs (KMeans.model_test s x >>= fun _ => pure s) h _
    rcases hc with rfl | e | ⟨k0, hv⟩
    · exact Runs.step (C109_not_ready none (.inl rfl)).1 (Runs.of_eq rfl L)
    · exact Runs.step (not_drawn L e x h).1 (Runs.of_eq rfl L)
    · cases ed : P.drawn with
      | none => exact Runs.step (not_drawn L ed x h).1 (Runs.of_eq rfl L)
      | some q =>
        obtain ⟨pick, t⟩ := q
        obtain ⟨_, _, R, hR⟩ := L.own_r
        obtain ⟨n, d, X, C, hX, -, hC, -⟩ := L.drawn pick t ed
        obtain ⟨v, hx⟩ := hv n d X hX
        obtain ⟨j, -, ret⟩ := C109_model_test k0 (L.ready hX hC hR) (by rw [L.e_init, ed]; rfl) (adv_hasv L.keep hx)
        exact Runs.bind (ret.mono fun _ h' ⟨_, _, _, _, w, K, _⟩ => Runs.of_eq rfl (L.adv w K))
  | model_set_test Z =>
    show Runs (KMeans.model_set_test s Z >>= fun _ => pure s) h _
    rcases hc with rfl | e | ⟨⟨pick, t, ed, t0⟩, hv⟩
    · exact Runs.step (C109_not_ready none (.inl rfl)).2 (Runs.of_eq rfl L)
    · exact Runs.step (not_drawn L e Z h).2.1 (Runs.of_eq rfl L)
    · obtain ⟨n, d, X, C, hX, -, hC, f⟩ := L.drawn pick t ed
      obtain ⟨k0, -, R, c, hR, -, -⟩ := f t0
      obtain ⟨m, V, m0, hV⟩ := hv n d X hX
      refine Runs.bind ((set_test_core k0 (L.ready hX hC hR) (by rw [L.e_init, ed]; rfl) m0 (adv_hasm L.keep hV) le_rfl).mono fun _ h' ⟨w, K, _⟩ => ?_)
      exact Runs.of_eq rfl (L.adv w K)
  | score =>
    show Runs (KMeans.score s >>= fun _ => pure s) h _
    rcases hc with e | ⟨pick, t, ed, t0⟩
    · exact Runs.step (not_drawn L e none h).2.2 (Runs.of_eq rfl L)
    · obtain ⟨n, d, X, C, hX, -, hC, f⟩ := L.drawn pick t ed
      obtain ⟨k0, -, R, c, hR, -, -⟩ := f t0
      refine Runs.bind ((cost_run (L.ready hX hC hR) (by rw [L.e_init, ed]; rfl)).mono fun _ h' ⟨K, w, _⟩ => ?_)
      exact Runs.of_eq rfl (L.adv w K)

theorem Life.run {pre : List Call} (L : Life h0 (progress pre) s h) (hist : List Call)
    (hc : ∀ before c after, hist = before ++ c :: after → Admissible h0 (progress (pre ++ before)) c) :
    Runs (run s hist) h fun s' h' => Life h0 (progress (pre ++ hist)) s' h' := by
  induction hist generalizing pre s h with
  | nil => exact Runs.of_eq rfl (by simpa using L)
  | cons c hist ih =>
    refine Runs.bind ((L.step c (by simpa using hc [] c hist rfl)).mono fun s' h' L' => ?_)
    have e : progressBy (progress pre) c = progress (pre ++ [c]) := by simp [progress]
    rw [e] at L'
    have := ih L' fun before x after q => by simpa using hc (c :: before) x after (by rw [q]; rfl)
    simpa using this

/-- **C154**: a new k-means object is given any sequence of calls of its setters, `initialize`, `train`, `model_test`, `model_set_test` and `score`, with random
centroids, for data and numbers of clusters that may change in between. No call fails, and nothing that existed before the object was made is ever changed; the getters
return what was set last. Without centroids drawn since the last setter (there was no `initialize` or `train` with data) every prediction is refused and the score is 0.
Otherwise the centroids are those reached from the rows of the present data drawn then, by as many turns as the trainings since then had; `model_test` answers the first
of them closest to its argument; if there was a training since then, `score()` is the sum of the squared distances of the points to the centroids of the clusters they
were assigned to. -/
theorem C154_history (w : h.WF) (hist : List Call) (hc : AllAdmissible h hist) :
    Runs (create >>= fun s => run s hist) h fun s h' => h'.WF ∧ Keeps h h' (fun _ => False) ∧
      get_input_set s = (progress hist).input ∧ get_k s = (progress hist).k ∧ get_mean_type s = .centroid ∧
      ((progress hist).drawn = none →
        ∀ r, model_test s r h' = .ok (none, h') ∧ model_set_test s r h' = .ok (none, h') ∧ score s h' = .ok (0, h')) ∧
      ∀ pick t, (progress hist).drawn = some (pick, t) →
        ∃ (n d : Nat) (X : Matrix (Fin n) (Fin d) ℝ) (C : Matrix (Fin (progress hist).k) (Fin d) ℝ), HasM h (progress hist).input X ∧ Turned X pick t C ∧
          (∀ r (x : Fin d → ℝ), 0 < (progress hist).k → HasV h' r x → ∃ j, FirstNearest C x j ∧ ReturnsVec (model_test s r) h' (C j)) ∧
          (0 < t → ∃ c : Fin n → Fin (progress hist).k, Carried X C c ∧
            (∀ r (V : Matrix (Fin n) (Fin d) ℝ), HasM h' r V →
              ∃ c : Fin n → Fin (progress hist).k, (∀ i, FirstNearest C (V i) (c i)) ∧ ReturnsMat (model_set_test s r) h' fun i => C (c i)) ∧
            Runs (score s) h' fun v h'' => Keeps h' h'' (fun _ => False) ∧ v = clusterCost X C c) := by
  refine Runs.bind ((C110_create w).mono fun s h1 ⟨w1, K, e1, e2, e3, e4, ne, n1, n2, ⟨C, hC⟩, R, hR⟩ => ?_)
  have L : Life h (progress []) s h1 := ⟨w1, K, e1, e2, e4, e3, .inl rfl, ⟨_, _, C, hC⟩, ⟨_, _, R, hR⟩, n1, n2, ne, fun _ _ => nofun⟩
  refine (L.run hist fun b c a e => by rw [List.nil_append]; exact hc b c a e).mono fun s' h' L' => ?_
  rw [List.nil_append] at L'
  refine ⟨L'.wf, L'.keep, L'.e_input, L'.e_k, L'.e_type, fun e r => not_drawn L' e r h', fun pick t ed => ?_⟩
  obtain ⟨n, d, X, C, hX, T, hC, f⟩ := L'.drawn pick t ed
  obtain ⟨_, _, R, hR⟩ := L'.own_r
  have hi : s'.initialized = true := by rw [L'.e_init, ed]; rfl
  refine ⟨n, d, X, C, hX, T, fun r x k0 hx => C109_model_test k0 (L'.ready hX hC hR) hi hx, fun t0 => ?_⟩
  obtain ⟨k0, n0, R, c, hR, m, ca⟩ := f t0
  exact ⟨c, ca, fun r V hV => C109_set_test_partial k0 n0 (L'.ready hX hC hR) hi hV, C112_score (L'.ready hX hC hR) m hi⟩

/-- A history that meets the hypotheses of `C154_history`: it sets the data and two clusters, trains twice, and changes the number of clusters in between. -/
example : AllAdmissible kmHeap [.set_input_set (some (.m 0)), .set_k 2, .train 5 fun _ => 1, .score, .train 2 fun _ => 0, .set_k 1, .initialise fun _ => 2,
      .model_test none] ∧
    (progress [.set_input_set (some (.m 0)), .set_k 2, .train 5 fun _ => 1, .score, .train 2 fun _ => 0]).drawn = some (fun _ => 1, 7) := by
  have hX : HasM kmHeap (some (.m 0)) (!![0; 10; 1] : Matrix (Fin 3) (Fin 1) ℝ) := exKMeans_ready.data
  have pk : ∀ j : Int, 0 ≤ j → j < 3 → ∀ (n d : Nat) (X : Matrix (Fin n) (Fin d) ℝ), HasM kmHeap (some (.m 0)) X → ∀ _ : Nat, 0 ≤ j ∧ j < n := by
    intro j j0 j1 n d X hX' _
    obtain ⟨a, ea, -, q, -⟩ := hX
    obtain ⟨b, eb, -, q', -⟩ := hX'
    cases ea
    cases eb
    rw [q] at q'
    cases q'
    exact ⟨j0, j1⟩
  refine ⟨?_, ?_⟩
  · intro before c after e
    match before, e with
    | [], e => cases e; exact .inr ⟨_, _, _, hX⟩
    | [_], e => cases e; exact (by decide : 0 < 2)
    | [_, _], e => cases e; exact .inr ⟨by decide, pk 1 (by decide) (by decide)⟩
    | [_, _, _], e => cases e; exact .inr ⟨_, _, rfl, by decide⟩
    | [_, _, _, _], e => cases e; exact .inr ⟨by decide, pk 0 (by decide) (by decide)⟩
    | [_, _, _, _, _], e => cases e; exact (by decide : 0 < 1)
    | [_, _, _, _, _, _], e => cases e; exact pk 2 (by decide) (by decide)
    | [_, _, _, _, _, _, _], e => cases e; exact .inl rfl
    | _ :: _ :: _ :: _ :: _ :: _ :: _ :: _ :: _, e => simp at e
  · rfl

end KMeans
end Verif
