import Verif.Props.Performance
import Verif.Lemmas.MultinomialNb
import Verif.Lemmas.Example
import Verif.Lemmas.BernoulliNb
import Mathlib.LinearAlgebra.Matrix.Notation

/-! # C131: `MLPPMultinomialNB` -/

namespace Verif
open Spec Classical NaiveBayes
noncomputable section
variable {h h' : Heap ℝ} {n d m p q : Nat} {s : MultinomialNb} {X : Matrix (Fin n) (Fin d) ℝ} {y : Fin n → ℝ}

/-- C131 (training, as far as it holds): if the constructor returns, the object has the data and the number of classes, every sample was assigned to one of
the classes, and nothing that existed has changed; its vocabulary is empty, and its priors are not the frequencies of the classes (`MultinomialFit`).
`junk` is what the memory of the scores contained. Missing: that it returns; the vocabulary; the frequencies. -/
theorem C131_create_partial {a b : Ref} {junk : Nat → Nat → Ext} (w : h.WF) (hX : HasM h a X) (hy : HasV h b y) (hn : 0 < n)
    (nat : ∀ i, ∃ k : Nat, k < 2147483648 ∧ y i = k) (m : Nat) (e : MultinomialNb.create junk a b m h = .ok (s, h')) :
    MultinomialFit s h' X y m ∧ s.input_set = a ∧ s.output_set = b ∧ Keeps h h' (fun _ => False) := by
  revert e
  refine (show Ends (MultinomialNb.create junk a b m) h fun s h' => MultinomialFit s h' X y m ∧ s.input_set = a ∧ s.output_set = b ∧ Keeps h h' (fun _ => False) from ?_) s h'
  unfold MultinomialNb.create
  refine Ends.bind ((Ends.of_runs (newV_runs w)).mono fun l1 h1 ⟨o1, v1, e1, w1, k1, f1, a1⟩ => ?_)
  subst e1
  refine Ends.bind ((Ends.of_runs (newV_runs w1)).mono fun l2 h2 ⟨o2, v2, e2, w2, k2, f2, a2⟩ => ?_)
  subst e2
  refine Ends.bind ((Ends.of_runs (newV_runs w2)).mono fun l3 h3 ⟨o3, v3, e3, w3, k3, f3, a3⟩ => ?_)
  subst e3
  have K3 := (k1.trans k2).trans k3
  have fv : NotIn h (some (.v o2)) := f2.mono k1
  have fy : NotIn h (some (.v o3)) := f3.mono (k1.trans k2)
  have n12 : (some (.v o1) : Ref) ≠ some (.v o2) := fun e => f2.ne a1 e.symm
  have n13 : (some (.v o1) : Ref) ≠ some (.v o3) := fun e => f3.ne (adv_hasv k2 a1) e.symm
  have n23 : (some (.v o2) : Ref) ≠ some (.v o3) := fun e => f3.ne a2 e.symm
  refine Ends.step (Hd.size_run (adv_hasv K3 hy)) ?_
  refine Ends.bind ((Ends.of_runs (show Runs (resizeTo (.v o3) ⟨n, 1, 1⟩) h3 _ from Hd.resizev_run w3 a3 n)).mono fun u4 h4 ⟨w4, k4, v4, a4⟩ => ?_)
  have K4 := K3.wrt k4 fy
  unfold MultinomialNb.evaluate
  refine Ends.step (Hd.size_run (adv_hasv K4 hy)) (Ends.step (Hd.sizem_run (adv_hasm K4 hX)) ?_)
  obtain ⟨s0, es⟩ : ∃ s0 : MultinomialNb, s0 = ⟨some (.v o1), [], some (.v o2), m, a, b, some (.v o3), true⟩ := ⟨_, rfl⟩
  rw [← es]
  have A : MultinomialNb.Apart s0 := by rw [es]; exact ⟨n12, n13, n23⟩
  have S0 : MultinomialNb.Step h s0 s0 h4 y m 0 := by
    rw [es]
    refine ⟨w4, K4, ⟨[], rfl⟩, ?_, fun _ => ⟨v1, ((adv_hasv k3 (adv_hasv k2 a1)).off k4 n13)⟩, fun q => absurd q (lt_irrefl 0), v4, a4, fun i hi => absurd hi (Nat.not_lt_zero _)⟩
    exact cast (congrArg _ (funext fun i => i.elim0)) ((adv_hasv k3 a2).off k4 n23)
  have ea : s0.input_set = a := by rw [es]
  have eb : s0.output_set = b := by rw [es]
  have ep : s0.priors = some (.v o1) := by rw [es]
  have ev : s0.vocab = some (.v o2) := by rw [es]
  have ey : s0.y_hat = some (.v o3) := by rw [es]
  have em : s0.class_num = m := by rw [es]
  have ei : s0.initialized = true := by rw [es]
  clear es
  refine (Ends.foldN n (fun j s h' => MultinomialNb.Step h s0 s h' y m j) _ s0 h4 S0 fun j s h' hj S =>
    MultinomialNb.step_ends A (by rw [ea]; exact hX) (by rw [eb]; exact hy) em nat (by rw [ep]; exact f1) (by rw [ev]; exact fv) (by rw [ey]; exact fy) (junk j) hj _ S).mono ?_
  rintro s h' ⟨w5, K5, ⟨t, rfl⟩, hv5, -, hp5, u, hh5, uh⟩
  exact ⟨⟨w5, em, ei, by rw [ea]; exact adv_hasm K5 hX, by rw [eb]; exact adv_hasv K5 hy, hv5, hp5 hn, u, hh5, fun i => uh i i.isLt⟩, ea, eb, K5⟩

/-- The prediction of an object whose vocabulary is empty: only the priors and the contents of the memory count. -/
theorem MultinomialNb.model_test_empty (hi : s.initialized = true) (w : h.WF) (hX : HasM h s.input_set X) (hy : HasV h s.output_set y) {v : Fin 0 → ℝ}
    (hv : HasV h s.vocab v) {u : Fin p → ℝ} (hp : HasV h s.priors u) {k : Nat} {f : Fin k → ℝ} (hh : HasV h s.y_hat f) {x : Ref} {xs : Fin q → ℝ} (hx : HasV h x xs)
    (junk : Nat → Ext) : s.model_test junk x h = (do
      let s ← s.compute_theta
      let score ← s.addPriors ((List.range s.class_num).map junk)
      let r ← MultinomialNb.argmax score
      pure (s, (r : ℝ)) : M ℝ (MultinomialNb × ℝ)) h := by
  unfold MultinomialNb.model_test
  rw [if_pos hi, bind_ok (Hd.size_run hx)]
  rw [bind_run, bind_run (m := s.compute_theta)]
  cases e : s.compute_theta h with
  | crash => rfl
  | ub => rfl
  | ok r =>
    obtain ⟨s', h1⟩ := r
    obtain ⟨rfl, t, rfl⟩ := MultinomialNb.compute_theta_ends w hX hy hv hp hh s' h1 e
    dsimp only
    rw [bind_ok (show Hd.size s.vocab h1 = .ok (0, h1) from Hd.size_run hv)]
    have : Runs (foldN q ((List.range s.class_num).map junk) fun j score =>
      foldN 0 score fun k score => do
        let x_j ← Hd.element_get x (j : Nat)
        let vocab_k ← Hd.element_get s.vocab (k : Nat)
        if Utilities.isEqualApprox x_j vocab_k then
          foldN s.class_num score fun t' score => do
            let p : Nat := s.class_num - 1 - t'
            let th ← readAt t p vocab_k
            pure (score.modify p fun a => a.add (Ext.log (th : Int)))
        else pure score) h1 fun r h' => h' = h1 ∧ r = (List.range s.class_num).map junk := by
      refine Runs.foldN q (fun _ r h' => h' = h1 ∧ r = (List.range s.class_num).map junk) _ _ h1 ⟨rfl, rfl⟩ ?_
      rintro j r h2 hj ⟨rfl, er⟩
      exact Runs.of_eq (a := r) rfl ⟨rfl, er⟩
    obtain ⟨r, h2, e2, rfl, rfl⟩ := runs_iff.mp this
    rw [bind_ok e2]

/-- C131 (predictions: false): the answer does not depend on the input. -/
theorem C131_constant_fails (F : MultinomialFit s h X y m) {x x' : Ref} {v : Fin p → ℝ} {v' : Fin q → ℝ} (hx : HasV h x v) (hx' : HasV h x' v') (junk : Nat → Ext) :
    s.model_test junk x h = s.model_test junk x' h := by
  obtain ⟨u, hp⟩ := F.priors
  obtain ⟨f, hh, -⟩ := F.y_hat
  rw [MultinomialNb.model_test_empty F.init F.wf F.input_set F.output_set F.vocab hp hh hx, MultinomialNb.model_test_empty F.init F.wf F.input_set F.output_set F.vocab hp hh hx']

theorem best_index : ∀ (l : List Ext) (i c : Nat), (∀ k (hk : k < l.length), l[k] = if i + k = c then .fin 1 else .fin 0) → best (.fin 1) c i l = c := by
  intro l
  induction l with
  | nil => intros; rfl
  | cons a l ih =>
    intro i c hl
    unfold best
    have : ¬ a.gt (.fin 1) := by
      have := hl 0 (by simp)
      rw [List.getElem_cons_zero] at this
      rw [this]
      split
      · exact lt_irrefl (1 : ℝ)
      · show ¬ (0 : ℝ) > 1
        norm_num
    rw [if_neg this]
    refine ih (i + 1) c fun k hk => ?_
    have := hl (k + 1) (by simpa using hk)
    rw [List.getElem_cons_succ] at this
    rw [this]
    congr 1
    simp only [eq_iff_iff]
    omega

theorem best_first : ∀ (l : List Ext) (i c : Nat), (∀ k (hk : k < l.length), l[k] = if i + k = c then .fin 1 else .fin 0) → i ≤ c → c < i + l.length → best (.fin 0) 0 i l = c := by
  intro l
  induction l with
  | nil => intro i c _ h1 h2; simp at h2; omega
  | cons a l ih =>
    intro i c hl h1 h2
    unfold best
    have h0 := hl 0 (by simp)
    rw [List.getElem_cons_zero] at h0
    have next : ∀ k (hk : k < l.length), l[k] = if i + 1 + k = c then Ext.fin 1 else .fin 0 := fun k hk => by
      have := hl (k + 1) (by simpa using hk)
      rw [List.getElem_cons_succ] at this
      rw [this]
      congr 1
      simp only [eq_iff_iff]
      omega
    by_cases e : i = c
    · subst e
      have h0' : a = .fin 1 := h0.trans (if_pos rfl)
      rw [h0', if_pos (show (Ext.fin 1).gt (.fin 0) from one_pos)]
      exact best_index l (i + 1) i next
    · have h0' : a = .fin 0 := h0.trans (if_neg e)
      rw [h0', if_neg (show ¬ (Ext.fin 0).gt (.fin 0) from lt_irrefl (0 : ℝ))]
      exact ih (i + 1) c next (by omega) (by rw [List.length_cons] at h2; omega)

/-- C131 (predictions: false): for every class there are contents of the uninitialised memory with which every input is assigned to that class, if the
table can be computed and the priors are positive. -/
theorem C131_any_fails (F : MultinomialFit s h X y m) {u : Fin m → ℝ} (hp : HasV h s.priors u) (pos : ∀ c, 0 < u c) {s' : MultinomialNb} {h' : Heap ℝ}
    (e : s.compute_theta h = .ok (s', h')) (c : Fin m) :
    ∃ junk : Nat → Ext, ∀ (x : Ref) (v : Fin p → ℝ), HasV h x v → s.model_test junk x h = .ok ((s', (c : ℝ)), h) := by
  obtain ⟨f, hh, -⟩ := F.y_hat
  obtain ⟨rfl, t, es⟩ := MultinomialNb.compute_theta_ends F.wf F.input_set F.output_set F.vocab hp hh s' h' e
  let z (k : Nat) : ℝ := if k = c.val then 1 else 0
  let lg (k : Nat) : ℝ := if q : k < m then Real.log (u ⟨k, q⟩) else 0
  refine ⟨fun k => .fin (z k - lg k), fun x v hx => ?_⟩
  rw [MultinomialNb.model_test_empty F.init F.wf F.input_set F.output_set F.vocab hp hh hx, bind_ok e]
  have ec : s'.class_num = m := by rw [es]; exact F.classes
  have ep : s'.priors = s.priors := by rw [es]
  have key : Runs (s'.addPriors ((List.range s'.class_num).map fun k => Ext.fin (z k - lg k))) h' fun r h1 => h1 = h' ∧ r = (List.range m).map fun k => Ext.fin (z k) := by
    unfold MultinomialNb.addPriors
    rw [ep, ec]
    refine Runs.step (Hd.size_run hp) ?_
    refine (Runs.foldN m (fun j r h1 => h1 = h' ∧ r = (List.range m).map fun k => Ext.fin (if k < j then z k else z k - lg k)) _ _ h' ⟨rfl, by simp⟩ ?_).mono
      fun r h1 ⟨e1, er⟩ => ⟨e1, er.trans ?_⟩
    · rintro j r h1 hj ⟨rfl, er⟩
      refine Runs.step (Hd.element_get_run F.wf hp ⟨j, hj⟩) ?_
      rw [if_pos (by rw [er]; simpa using hj)]
      refine Runs.of_eq rfl ⟨rfl, ?_⟩
      rw [er]
      refine List.ext_getElem (by simp) fun k h1 h2 => ?_
      rw [List.getElem_modify]
      simp only [List.getElem_map, List.getElem_range]
      by_cases ek : j = k
      · subst ek
        rw [if_pos rfl, if_neg (lt_irrefl j), if_pos (Nat.lt_succ_self j)]
        unfold Ext.log
        rw [if_pos (pos _)]
        simp only [Ext.add]
        congr 1
        simp only [lg, dif_pos hj]
        ring
      · rw [if_neg ek]
        have : k < j ↔ k < j + 1 := by omega
        simp only [this]
    · refine List.map_congr_left fun k hk => ?_
      rw [if_pos (List.mem_range.mp hk)]
  obtain ⟨r, h1, er, rfl, rfl⟩ := runs_iff.mp key
  rw [bind_ok er]
  have hm : 0 < m := c.pos
  obtain ⟨m, rfl⟩ : ∃ k, m = k + 1 := ⟨m - 1, by omega⟩
  have el : (List.range (m + 1)).map (fun k => Ext.fin (z k)) = .fin (z 0) :: (List.range m).map fun k => Ext.fin (z (k + 1)) := by
    rw [List.range_succ_eq_map]; simp
  have hl : ∀ k (hk : k < ((List.range m).map fun k => Ext.fin (z (k + 1))).length), ((List.range m).map fun k => Ext.fin (z (k + 1)))[k] = if 1 + k = c.val then Ext.fin 1 else .fin 0 := by
    intro k hk
    simp only [List.getElem_map, List.getElem_range, z, Nat.add_comm 1 k]
    split <;> rfl
  have ea : MultinomialNb.argmax ((List.range (m + 1)).map fun k => Ext.fin (z k)) h1 = .ok (c.val, h1) := by
    rw [el]
    show Out.ok (best (.fin (z 0)) 0 1 _, h1) = _
    congr 2
    by_cases e0 : c.val = 0
    · have : z 0 = 1 := by simp [z, e0]
      rw [this, e0]
      rw [e0] at hl
      exact best_index _ 1 0 hl
    · have : z 0 = 0 := by simp only [z]; rw [if_neg (fun q => e0 q.symm)]
      rw [this]
      exact best_first _ 1 c.val hl (by omega) (by simp; omega)
  rw [bind_ok ea]
  rfl

/-- C131 (range): an answer of `model_test` is one of the classes; of the object only the frequencies change. -/
theorem C131_range (F : MultinomialFit s h X y m) {x : Ref} {v : Fin p → ℝ} (hx : HasV h x v) (junk : Nat → Ext) {s' : MultinomialNb} {h' : Heap ℝ} {r : ℝ}
    (e : s.model_test junk x h = .ok ((s', r), h')) : (∃ c < m, r = (c : ℝ)) ∧ h' = h ∧ MultinomialFit s' h X y m ∧ s' = { s with theta := s'.theta } := by
  obtain ⟨u, hp⟩ := F.priors
  obtain ⟨f, hh, hf⟩ := F.y_hat
  rw [MultinomialNb.model_test_empty F.init F.wf F.input_set F.output_set F.vocab hp hh hx] at e
  have key : Ends (do
      let s ← s.compute_theta
      let score ← s.addPriors ((List.range s.class_num).map junk)
      let r ← MultinomialNb.argmax score
      pure (s, (r : ℝ)) : M ℝ (MultinomialNb × ℝ)) h fun r h' => (∃ c < m, r.2 = (c : ℝ)) ∧ h' = h ∧ MultinomialFit r.1 h X y m ∧
      r.1 = { s with theta := r.1.theta } := by
    refine Ends.bind ((MultinomialNb.compute_theta_ends F.wf F.input_set F.output_set F.vocab hp hh).mono ?_)
    rintro s1 h1 ⟨rfl, t, rfl⟩
    refine Ends.bind ((MultinomialNb.addPriors_ends (s := { s with theta := t }) F.wf hp _).mono ?_)
    rintro l h2 ⟨rfl, el⟩
    refine Ends.bind ((MultinomialNb.argmax_ends _).mono ?_)
    rintro r h3 ⟨rfl, er⟩
    refine Ends.pure ⟨⟨r, ?_, rfl⟩, rfl, ⟨F.wf, F.classes, F.init, F.input_set, F.output_set, F.vocab, ⟨_, hp⟩, ⟨f, hh, hf⟩⟩, rfl⟩
    rw [el] at er
    simpa [F.classes] using er
  exact key _ _ e

theorem MultinomialNb.fit_keep (F : MultinomialFit s h X y m) (w : h'.WF) (K : Keeps h h' (fun _ => False)) : MultinomialFit s h' X y m := by
  obtain ⟨u, hp⟩ := F.priors
  obtain ⟨f, hh, hf⟩ := F.y_hat
  exact ⟨w, F.classes, F.init, adv_hasm K F.input_set, adv_hasv K F.output_set, adv_hasv K F.vocab, ⟨u, adv_hasv K hp⟩, f, adv_hasv K hh, hf⟩

/-- C131 (`model_set_test`): if it returns, there is one answer for each row; they are the answers of `model_test` at the rows, in order, each call going on
with the state that the one before left; of the existing objects nothing changes. -/
theorem C131_set (F : MultinomialFit s h X y m) {x : Ref} {k : Nat} {A : Matrix (Fin k) (Fin p) ℝ} (hA : HasM h x A) (junk : Nat → Nat → Ext) {s' : MultinomialNb}
    {h' : Heap ℝ} {r : Ref} (e : s.model_set_test junk x h = .ok ((s', r), h')) :
    ∃ (u : Fin k → ℝ) (t : Nat → MultinomialNb), HasV h' r u ∧ NotIn h r ∧ Keeps h h' (fun _ => False) ∧ MultinomialFit s' h' X y m ∧ t 0 = s ∧ t k = s' ∧
      ∀ i : Fin k, ∃ (row : Ref) (g : Heap ℝ), HasV g row (A i) ∧ Keeps h g (fun _ => False) ∧ (t i).model_test (junk i) row g = .ok ((t (i + 1), u i), g) := by
  have key : Ends (s.model_set_test junk x) h fun q h' => ∃ (u : Fin k → ℝ) (t : Nat → MultinomialNb), HasV h' q.2 u ∧ NotIn h q.2 ∧ Keeps h h' (fun _ => False) ∧
      MultinomialFit q.1 h' X y m ∧ t 0 = s ∧ t k = q.1 ∧
      ∀ i : Fin k, ∃ (row : Ref) (g : Heap ℝ), HasV g row (A i) ∧ Keeps h g (fun _ => False) ∧ (t i).model_test (junk i) row g = .ok ((t (i + 1), u i), g) := by
    unfold MultinomialNb.model_set_test
    rw [if_pos F.init]
    refine Ends.step (Hd.sizem_run hA) ?_
    refine Ends.bind ((Ends.of_runs (newV_runs F.wf)).mono fun l1 h1 ⟨o1, v1, e1, w1, k1, f1, hv1⟩ => ?_)
    subst e1
    refine Ends.bind ((Ends.of_runs (show Runs (resizeTo (.v o1) ⟨p, 1, 1⟩) h1 _ from Hd.resizev_run w1 hv1 p)).mono fun _ h2 ⟨w2, k2, v2, hv2⟩ => ?_)
    have K2 : Keeps h h2 (fun _ => False) := k1.wrt k2 f1
    refine Ends.bind ((Ends.of_runs (newV_runs w2)).mono fun l3 h3 ⟨o3, v3, e3, w3, k3, f3, hv3⟩ => ?_)
    subst e3
    have n13 : (some (.v o3) : Ref) ≠ some (.v o1) := f3.ne hv2
    have fr : NotIn h (some (.v o3)) := f3.mono K2
    refine Ends.bind ((Ends.of_runs (show Runs (resizeTo (.v o3) ⟨k, 1, 1⟩) h3 _ from Hd.resizev_run w3 hv3 k)).mono fun _ h4 ⟨w4, k4, v4, hv4⟩ => ?_)
    have K4 : Keeps h h4 (fun _ => False) := (K2.trans k3).wrt k4 fr
    refine Ends.bind ((Ends.foldN k (fun j (q : MultinomialNb) h' => h'.WF ∧ Keeps h h' (fun _ => False) ∧ (∃ v : Fin p → ℝ, HasV h' (some (.v o1)) v) ∧
        q = { s with theta := q.theta } ∧ ∃ (u : Fin k → ℝ) (t : Nat → MultinomialNb), HasV h' (some (.v o3)) u ∧ t 0 = s ∧ t j = q ∧
      ∀ i : Fin k, i.val < j → ∃ (row : Ref) (g : Heap ℝ), HasV g row (A i) ∧ Keeps h g (fun _ => False) ∧ (t i).model_test (junk i) row g = .ok ((t (i + 1), u i), g))
      _ s h4 ⟨w4, K4, ⟨_, (adv_hasv k3 hv2).off k4 n13.symm⟩, rfl, v4, fun _ => s, hv4, rfl, rfl, fun i hi => by omega⟩ ?_).mono
      fun q h5 ⟨w5, K5, _, F5, u, t, hu, t0, tk, steps⟩ => Ends.pure ⟨u, t, hu, fr, K5, by
        rw [F5]
        exact MultinomialNb.fit_keep ⟨F.wf, F.classes, F.init, F.input_set, F.output_set, F.vocab, F.priors, F.y_hat⟩ w5 K5, t0, tk, fun i => steps i i.2⟩)
    rintro j q h5 hj ⟨w5, K5, ⟨v5, hv5⟩, F5, u, t, hu, t0, tj, steps⟩
    refine Ends.bind ((Ends.of_runs (Hd.row_get_into_run w5 (adv_hasm K5 hA) hv5 ⟨j, hj⟩)).mono fun _ h6 ⟨w6, k6, hv6⟩ => ?_)
    have K6 : Keeps h h6 (fun _ => False) := K5.wrt k6 f1
    have hu6 := hu.off k6 n13
    have F6 : MultinomialFit q h6 X y m := by
      rw [F5]
      exact MultinomialNb.fit_keep ⟨F.wf, F.classes, F.init, F.input_set, F.output_set, F.vocab, F.priors, F.y_hat⟩ w6 K6
    have mt : Ends (q.model_test (junk j) (some (.v o1))) h6 fun r h' => q.model_test (junk j) (some (.v o1)) h6 = .ok (r, h6) ∧ h' = h6 ∧ r.1 = { q with theta := r.1.theta } := by
      intro r h' e
      obtain ⟨-, rfl, -, F'⟩ := C131_range F6 hv6 (junk j) (s' := r.1) (r := r.2) e
      exact ⟨e, rfl, F'⟩
    refine Ends.bind (mt.mono fun r h7 ⟨e7, eh, F7⟩ => ?_)
    subst eh
    refine Ends.bind ((Ends.of_runs (Hd.element_set_run w6 hu6 ⟨j, hj⟩ r.2)).mono fun _ h8 ⟨w8, k8, hu8⟩ => ?_)
    refine Ends.pure ⟨w8, K6.wrt k8 fr, ⟨_, hv6.off k8 n13.symm⟩, ?_, _, Function.update t (j + 1) r.1, hu8, ?_, ?_, fun i hi => ?_⟩
    · rw [F7, F5]
    · rw [Function.update_of_ne (by omega)]; exact t0
    · simp
    · by_cases ei : i = ⟨j, hj⟩
      · subst ei
        refine ⟨_, _, hv6, K6, ?_⟩
        rw [Function.update_of_ne (by simp), Function.update_self, Function.update_self]
        dsimp only
        rw [tj]; exact e7
      · have hne : i.val ≠ j := fun e => ei (Fin.ext e)
        have hlt : i.val < j := by omega
        obtain ⟨row, g, a, b, c⟩ := steps i hlt
        refine ⟨row, g, a, b, ?_⟩
        rw [Function.update_of_ne (by omega), Function.update_of_ne (by omega), Function.update_of_ne ei]
        exact c
  exact key _ _ e

/-- C131 (score): for integer classes the score is the fraction of the samples at which the classes found while fitting are those of the data. -/
theorem C131_score {yi : Fin n → Int} (F : MultinomialFit s h X (fun i => (yi i : ℝ)) m) (hn : 0 < n) (small : ∀ i, |(yi i : ℝ)| < 99999) :
    ∃ u : Fin n → Nat, HasV h s.y_hat (fun i => (u i : ℝ)) ∧ s.score h = .ok (fraction fun i => (u i : Int) = yi i, h) := by
  obtain ⟨f, hh, hf⟩ := F.y_hat
  choose u hu ef using hf
  obtain rfl : f = fun i => (u i : ℝ) := funext ef
  refine ⟨u, hh, ?_⟩
  unfold MultinomialNb.score
  rw [if_pos F.init]
  obtain ⟨a, ea, la, ia⟩ := hh
  obtain ⟨b, eb, lb, ib⟩ := F.output_set
  rw [ea, eb]
  have := Utilities.C62_vec h F.wf a b _ yi hn ia ib small
  refine this.trans ?_
  congr 2
  refine congrArg _ (funext fun i => propext ?_)
  unfold Nearest
  constructor
  · rintro ⟨q, -⟩
    have : |(u i : ℤ) - yi i| < 1 := by
      have : ((|(u i : ℤ) - yi i| : ℤ) : ℝ) < ((1 : ℤ) : ℝ) := by push_cast; linarith
      exact_mod_cast this
    have := Int.abs_lt_one_iff.mp this
    omega
  · intro e
    rw [← e]
    norm_num

/-- C131 (priors: false): with at least two samples, the prior of a class that occurs is larger than its frequency, if the memory contained no negative
number `v c` for it. -/
theorem C131_priors_fails (F : MultinomialFit s h X y m) (hn : 2 ≤ n) :
    ∃ v : Fin m → ℝ, (HasV h s.priors fun c => v c / (n : ℝ) ^ n + (members y c).length * ∑ k ∈ Finset.range n, 1 / (n : ℝ) ^ (k + 1)) ∧
      ∀ c : Fin m, 0 < (members y c).length → 0 ≤ v c → prior y c < v c / (n : ℝ) ^ n + (members y c).length * ∑ k ∈ Finset.range n, 1 / (n : ℝ) ^ (k + 1) := by
  obtain ⟨v, hp⟩ := F.priors
  refine ⟨v, hp, fun c hc hv => ?_⟩
  have n0 : (0 : ℝ) < n := by
    have : 0 < n := by omega
    exact_mod_cast this
  have c0 : (0 : ℝ) < (members y c).length := by exact_mod_cast hc
  have : (1 : ℝ) / n < ∑ k ∈ Finset.range n, 1 / (n : ℝ) ^ (k + 1) := by
    obtain ⟨k, rfl⟩ : ∃ k, n = k + 2 := ⟨n - 2, by omega⟩
    rw [Finset.sum_range_succ', Finset.sum_range_succ']
    have : 0 ≤ ∑ i ∈ Finset.range k, 1 / ((k + 2 : ℕ) : ℝ) ^ (i + 1 + 1 + 1) := Finset.sum_nonneg fun i _ => by positivity
    have : 0 < 1 / ((k + 2 : ℕ) : ℝ) ^ (0 + 1 + 1) := by positivity
    rw [zero_add, pow_one]
    linarith
  unfold prior
  have h1 : ((members y c).length : ℝ) / n < (members y c).length * ∑ k ∈ Finset.range n, 1 / (n : ℝ) ^ (k + 1) := by
    rw [div_eq_mul_one_div]
    exact mul_lt_mul_of_pos_left this c0
  have : 0 ≤ v c / (n : ℝ) ^ n := by positivity
  linarith

/-- C131 (initialisation): before `initialize()` an object made without data answers with 0, without a vector, and with the score 0. -/
theorem C131_uninitialised (c : Nat) (junk : Nat → Ext) (junks : Nat → Nat → Ext) (x : Ref) (h : Heap ℝ) :
    (MultinomialNb.create_empty c).model_test junk x h = .ok ((MultinomialNb.create_empty c, 0), h) ∧
      (MultinomialNb.create_empty c).model_set_test junks x h = .ok ((MultinomialNb.create_empty c, none), h) ∧
      (MultinomialNb.create_empty c).score h = .ok (0, h) := ⟨rfl, rfl, rfl⟩

/-- C131 (missing objects: false): null data in the constructor are dereferenced, and so is what an object made without data has not got, after
`initialize()`. -/
theorem C131_null_fails (junk : Nat → Nat → Ext) (c : Nat) {x : Ref} {v : Fin p → ℝ} (hx : HasV h x v) :
    MultinomialNb.create junk x none c h = .ub ∧ (MultinomialNb.initialize_ (MultinomialNb.create_empty (c + 1))).model_test (junk 0) x h = .ub := by
  refine ⟨rfl, ?_⟩
  unfold MultinomialNb.model_test
  rw [if_pos (show (MultinomialNb.initialize_ (MultinomialNb.create_empty (c + 1))).initialized = true from rfl)]
  exact ub_step (Hd.size_run hx) rfl

theorem NaiveBayes.countTheta_guarded (w : h.WF) {a b : Ref} (hX : HasM h a X) (hy : HasV h b y) {k : Fin n → Nat} (nat : ∀ i, k i < 2147483648 ∧ y i = k i) (hd : 0 < d)
    (theta : List IntMap) : Guarded (countTheta a b theta) h (∀ i, k i < theta.length) fun t h' => h' = h ∧ t.length = theta.length := by
  unfold countTheta
  refine Guarded.step (Hd.sizem_run hX) ?_
  refine (Guarded.foldN n (fun _ (t : List IntMap) h' => h' = h ∧ t.length = theta.length) (fun i => ∀ hi : i < n, k ⟨i, hi⟩ < theta.length) _ _ h ⟨rfl, rfl⟩ ?_).mono
    ⟨fun q i => q i i.isLt i.isLt, fun q i _ hi => q ⟨i, hi⟩⟩ fun _ _ _ q => q
  rintro i t h1 hi ⟨rfl, et⟩
  refine (Guarded.foldN d (fun _ (t : List IntMap) h' => h' = h1 ∧ t.length = theta.length) (fun _ => k ⟨i, hi⟩ < theta.length) _ _ h1 ⟨rfl, et⟩ ?_).mono
    ⟨fun q _ => q 0 hd, fun q _ _ => q hi⟩ fun _ _ _ q => q
  rintro j t h2 hj ⟨rfl, et⟩
  refine Guarded.step (Hd.element_get_run w hy ⟨i, hi⟩) ?_
  rw [(nat ⟨i, hi⟩).2]
  refine Guarded.step (toInt_nat _ (nat ⟨i, hi⟩).1 h2) (Guarded.step (Hd.element_getm_run w hX ⟨i, hi⟩ ⟨j, hj⟩) ?_)
  by_cases q : k ⟨i, hi⟩ < theta.length
  · exact Or.inl ⟨q, Runs.of_eq (writeAt_ok (by rw [et]; exact q) _ _ _) ⟨rfl, by simpa using et⟩⟩
  · refine Or.inr ⟨q, ?_⟩
    unfold writeAt
    rw [if_neg (by simp [idxOk]; omega)]
    rfl

/-- C131 (classes): a sample whose class is not below the number of classes stops the program. -/
theorem C131_classes {a b : Ref} {junk : Nat → Nat → Ext} (w : h.WF) (hX : HasM h a X) (hy : HasV h b y) {k : Fin n → Nat}
    (nat : ∀ i, k i < 2147483648 ∧ y i = k i) (hd : 0 < d) (m : Nat) (i : Fin n) (hi : m ≤ k i) : MultinomialNb.create junk a b m h = .crash := by
  unfold MultinomialNb.create
  obtain ⟨l1, h1, r1, o1, v1, e1, w1, k1, f1, a1⟩ := runs_iff.mp (newV_runs w)
  rw [bind_ok r1]
  subst e1
  obtain ⟨l2, h2, r2, o2, v2, e2, w2, k2, f2, a2⟩ := runs_iff.mp (newV_runs w1)
  rw [bind_ok r2]
  subst e2
  obtain ⟨l3, h3, r3, o3, v3, e3, w3, k3, f3, a3⟩ := runs_iff.mp (newV_runs w2)
  rw [bind_ok r3]
  subst e3
  have K3 := (k1.trans k2).trans k3
  have fy : NotIn h (some (.v o3)) := f3.mono (k1.trans k2)
  have n12 : (some (.v o1) : Ref) ≠ some (.v o2) := fun e => f2.ne a1 e.symm
  have n13 : (some (.v o1) : Ref) ≠ some (.v o3) := fun e => f3.ne (adv_hasv k2 a1) e.symm
  have n23 : (some (.v o2) : Ref) ≠ some (.v o3) := fun e => f3.ne a2 e.symm
  rw [bind_ok (Hd.size_run (adv_hasv K3 hy))]
  obtain ⟨u4, h4, r4, w4, k4, v4, a4⟩ := runs_iff.mp (show Runs (resizeTo (.v o3) ⟨n, 1, 1⟩) h3 _ from Hd.resizev_run w3 a3 n)
  rw [bind_ok r4]
  have K4 := K3.wrt k4 fy
  have p4 := (adv_hasv k3 (adv_hasv k2 a1)).off k4 n13
  have q4 := (adv_hasv k3 a2).off k4 n23
  have y4 := adv_hasv K4 hy
  unfold MultinomialNb.evaluate
  rw [bind_ok (Hd.size_run y4), bind_ok (Hd.sizem_run (adv_hasm K4 hX))]
  obtain ⟨n, rfl⟩ : ∃ p, n = p + 1 := ⟨n - 1, by have := i.pos; omega⟩
  refine bind_crash ?_
  have ny : b ≠ some (.v o1) := fun e => f1.ne hy e.symm
  obtain ⟨u5, h5, r5, w5, k5, u, -, p5⟩ := runs_iff.mp (MultinomialNb.countPriors_run (P := fun _ => True) (m := m)
    (s := ⟨some (.v o1), [], some (.v o2), m, a, b, some (.v o3), true⟩) y4 ny (fun i => ⟨k i, nat i⟩)
    ((Hd.resizev_run w4 p4 m).mono fun _ h1 ⟨w1, k1, u1, q1⟩ => ⟨w1, k1, u1, trivial, q1⟩) rfl)
  refine (bind_ok r5).trans ?_
  refine bind_crash ?_
  have q5 := q4.off k5 n12.symm
  have K5 := K4.wrt k5 f1
  unfold MultinomialNb.compute_theta
  dsimp only
  have z : zeroTheta m (some (.v o2)) (resizeTheta [] m) h5 = .ok (resizeTheta [] m, h5) := by
    have : Runs (zeroTheta m (some (.v o2)) (resizeTheta [] m)) h5 fun t h' => h' = h5 ∧ t = resizeTheta [] m := by
      unfold zeroTheta
      refine Runs.foldN m (fun _ t h' => h' = h5 ∧ t = resizeTheta [] m) _ _ h5 ⟨rfl, rfl⟩ ?_
      rintro j t h6 hj ⟨rfl, et⟩
      exact Runs.step (Hd.size_run q5) (Runs.of_eq (a := t) rfl ⟨rfl, et⟩)
    obtain ⟨t, h6, e, rfl, rfl⟩ := runs_iff.mp this
    exact e
  rw [bind_ok z]
  refine bind_crash ?_
  rcases NaiveBayes.countTheta_guarded w5 (adv_hasm K5 hX) (adv_hasv K5 hy) nat hd (resizeTheta [] m) with ⟨q, -⟩ | ⟨-, r⟩
  · have := q i
    simp [resizeTheta] at this
    omega
  · exact r

/-- The hypotheses are met: two samples, of the classes 0 and 5, and two classes. -/
example (junk : Nat → Nat → Ext) : MultinomialNb.create junk (some (.m 0)) (some (.v 0)) 2 (Heap.ofLists 0 [[0, 5]] [(1, 2, [0, 1])]) = .crash :=
  C131_classes (X := !![0; 1]) (y := ![0, 5]) (k := ![0, 5]) (Heap.ofLists_wf _ _ _ (by simp))
    ⟨0, rfl, by simp [Heap.ofLists, Heap.live, Loc.id], by simp [Heap.ofLists], fun i j => by fin_cases i <;> fin_cases j <;> simp [Heap.ofLists]⟩
    ⟨0, rfl, by simp [Heap.ofLists, Heap.live, Loc.id], by simp [Heap.ofLists], fun i => by fin_cases i <;> simp [Heap.ofLists]⟩
    (fun i => by fin_cases i <;> simp) (by decide) 2 1 (by decide)

/-! ## An example -/

theorem MultinomialNb.divide_run {t : IntMap} (S : Sane t) (b : ∀ v, 0 ≤ t.val v ∧ t.val v < 2147483648) {k : Nat} {u : Fin p → ℝ} {f : Fin k → ℝ} (w : h.WF)
    (hp : HasV h s.priors u) (hh : HasV h s.y_hat f) (c : Fin p) (hq : 1 ≤ u c * k) :
    Runs (foldN t.keys.length t fun j t => do
      let p ← Hd.element_get s.priors (c : Nat)
      let n ← Hd.size s.y_hat
      divideAt t j (p * n)) h fun _ h' => h' = h := by
  refine (Runs.foldN t.keys.length (fun _ t h' => h' = h ∧ Sane t ∧ ∀ v, 0 ≤ t.val v ∧ t.val v < 2147483648) _ _ h ⟨rfl, S, b⟩ ?_).mono fun _ _ q => q.1
  rintro j t h1 hj ⟨rfl, S, b⟩
  refine Runs.step (Hd.element_get_run w hp c) (Runs.step (Hd.size_run hh) (Runs.of_eq (BernoulliNb.divideAt_run S hq j b h1) ⟨rfl, S.upd _ _, fun v => ?_⟩))
  rw [S.val_upd]
  split
  · exact BernoulliNb.floor_bound hq (b _)
  · exact b v

/-- The table can be computed: two classes, priors of at least one sample. -/
theorem MultinomialNb.compute_theta_two (w : h.WF) (hX : HasM h s.input_set X) (hy : HasV h s.output_set y) (hv : HasV h s.vocab (Fin.elim0 : Fin 0 → ℝ))
    {u : Fin 2 → ℝ} (hp : HasV h s.priors u) {f : Fin n → ℝ} (hh : HasV h s.y_hat f) (ec : s.class_num = 2) (lab : ∀ i, y i = 0 ∨ y i = 1) (big : ∀ c, 1 ≤ u c * n)
    {t0 t1 : IntMap} (et : s.theta = [t0, t1]) (S0 : Sane t0) (S1 : Sane t1) (b : ∀ v, (0 ≤ t0.val v ∧ 0 ≤ t1.val v) ∧ t0.val v + n * d < 2147483648 ∧ t1.val v + n * d < 2147483648) :
    ∃ s', s.compute_theta h = .ok (s', h) := by
  have key : Runs s.compute_theta h fun _ h' => h' = h := by
    unfold MultinomialNb.compute_theta
    rw [ec, et]
    have hv' : HasV h s.vocab (List.get []) := cast (congrArg _ (funext fun i => i.elim0)) hv
    refine Runs.step (zeroTheta_run w hv' t0 t1) (Runs.step (countTheta_run w hX hy lab _ _) ?_)
    obtain ⟨a1, a2, a3⟩ := (S0.zeroed []).1.counted (valuesIn X y 0)
    obtain ⟨b1, b2, b3⟩ := (S1.zeroed []).1.counted (valuesIn X y 1)
    have cnt : ∀ c v, ((valuesIn X y c).count v : Int) ≤ n * d := fun c v => by
      have := List.count_le_length (a := v) (l := valuesIn X y c)
      have := BernoulliNb.length_valuesIn X y c
      exact_mod_cast (by omega : (valuesIn X y c).count v ≤ n * d)
    have v0 : ∀ v, 0 ≤ (counted (zeroed t0 []) (valuesIn X y 0)).val v ∧ (counted (zeroed t0 []) (valuesIn X y 0)).val v < 2147483648 := fun v => by
      rw [a3, (S0.zeroed []).2.2]
      have := b v
      have := cnt 0 v
      simp only [List.not_mem_nil, if_false]
      omega
    have v1 : ∀ v, 0 ≤ (counted (zeroed t1 []) (valuesIn X y 1)).val v ∧ (counted (zeroed t1 []) (valuesIn X y 1)).val v < 2147483648 := fun v => by
      rw [b3, (S1.zeroed []).2.2]
      have := b v
      have := cnt 1 v
      simp only [List.not_mem_nil, if_false]
      omega
    generalize counted (zeroed t0 []) (valuesIn X y 0) = m0 at *
    generalize counted (zeroed t1 []) (valuesIn X y 1) = m1 at *
    refine Runs.bind (Runs.mono (Q := fun _ h' => h' = h) ?_ fun _ _ e => Runs.of_eq rfl e)
    unfold foldN
    rw [show [m0, m1].length = 1 + 1 from rfl, loop_succ]
    refine Runs.bind (Runs.bind ((MultinomialNb.divide_run (s := s) a1 v0 w hp hh 0 (big 0)).mono ?_))
    rintro m0' h' rfl
    refine Runs.of_eq rfl ?_
    rw [show (1 : Nat) = 0 + 1 from rfl, loop_succ]
    refine Runs.bind (Runs.bind ((MultinomialNb.divide_run (s := s) b1 v1 w hp hh 1 (big 1)).mono ?_))
    rintro m1' h2 rfl
    exact Runs.of_eq rfl (Runs.of_eq rfl rfl)
  obtain ⟨s', h', e, rfl⟩ := runs_iff.mp key
  exact ⟨s', e⟩

/-- An object trained with the values 0 (class 0) and 1 (class 1), when all memory contained zeros. -/
def mnHeap : Heap ℝ := Heap.ofLists 0 [[0, 1], [3 / 4, 3 / 4], [], [0, 0], [1]] [(1, 2, [0, 1])]
def exMn : MultinomialNb := ⟨some (.v 1), [IntMap.empty.upd 0 fun _ => 1, (IntMap.empty.upd 1 fun _ => 1).upd 0 fun _ => 0], some (.v 2), 2, some (.m 0), some (.v 0), some (.v 3), true⟩

theorem mn_fit : MultinomialFit exMn mnHeap (!![0; 1] : Matrix (Fin 2) (Fin 1) ℝ) ![0, 1] 2 ∧ (HasV mnHeap exMn.priors fun _ : Fin 2 => (3 / 4 : ℝ)) ∧
    HasV mnHeap (some (.v 4)) ![(1 : ℝ)] := by
  have hp : HasV mnHeap exMn.priors fun _ : Fin 2 => (3 / 4 : ℝ) := ⟨1, rfl, by simp [mnHeap, Heap.ofLists, Heap.live, Loc.id], by simp [mnHeap, Heap.ofLists], fun i => by
    fin_cases i <;> simp [mnHeap, Heap.ofLists]⟩
  have hh : HasV mnHeap exMn.y_hat fun _ : Fin 2 => (0 : ℝ) := ⟨3, rfl, by simp [mnHeap, Heap.ofLists, Heap.live, Loc.id], by simp [mnHeap, Heap.ofLists], fun i => by
    fin_cases i <;> simp [mnHeap, Heap.ofLists]⟩
  refine ⟨⟨Heap.ofLists_wf _ _ _ (by simp), rfl, rfl, ⟨0, rfl, by simp [mnHeap, Heap.ofLists, Heap.live, Loc.id], by simp [mnHeap, Heap.ofLists], fun i j => by
      fin_cases i <;> fin_cases j <;> simp [mnHeap, Heap.ofLists]⟩,
    ⟨0, rfl, by simp [mnHeap, Heap.ofLists, Heap.live, Loc.id], by simp [mnHeap, Heap.ofLists], fun i => by fin_cases i <;> simp [mnHeap, Heap.ofLists]⟩,
    ⟨2, rfl, by simp [mnHeap, Heap.ofLists, Heap.live, Loc.id], by simp [mnHeap, Heap.ofLists], fun i => i.elim0⟩,
    ⟨fun _ => 0, cast (congrArg _ (funext fun c => ?_)) hp⟩, _, hh, fun i => ⟨0, by decide, by simp⟩⟩, hp,
    ⟨4, rfl, by simp [mnHeap, Heap.ofLists, Heap.live, Loc.id], by simp [mnHeap, Heap.ofLists], fun i => by fin_cases i; simp [mnHeap, Heap.ofLists]⟩⟩
  fin_cases c <;> simp [members, List.finRange_succ, Finset.sum_range_succ] <;> norm_num

/-- With this object, the value 1, seen only in class 1, can be assigned to class 0. -/
example : ∃ junk s', exMn.model_test junk (some (.v 4)) mnHeap = .ok ((s', 0), mnHeap) := by
  obtain ⟨F, hp, hx⟩ := mn_fit
  obtain ⟨f, hh, -⟩ := F.y_hat
  obtain ⟨s', e⟩ := MultinomialNb.compute_theta_two F.wf F.input_set F.output_set F.vocab hp hh rfl (fun i => by fin_cases i <;> simp) (fun c => by norm_num) (t0 := _) (t1 := _) rfl
    (sane_empty.upd _ _) ((sane_empty.upd _ _).upd _ _) (fun v => by
      rw [sane_empty.val_upd, (sane_empty.upd _ _).val_upd, sane_empty.val_upd]
      split_ifs <;> simp [IntMap.empty])
  obtain ⟨junk, q⟩ := C131_any_fails (p := 1) F hp (fun _ => by norm_num) e 0
  exact ⟨junk, s', by simpa using q _ _ hx⟩

end
end Verif
