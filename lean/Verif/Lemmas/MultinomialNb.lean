import Verif.Lemmas.NaiveBayes
import Verif.Spec.MultinomialNb
import Verif.Lemmas.VecSpec
import Verif.Props.Ann
import Verif.Lemmas.Layers

/-! # Lemmas about `MLPPMultinomialNB` -/

namespace Verif
open Spec

/-- Whenever `c` returns normally, `Q` holds. -/
def Ends {α : Type} (c : M ℝ α) (h : Heap ℝ) (Q : α → Heap ℝ → Prop) : Prop := ∀ a h', c h = .ok (a, h') → Q a h'

namespace Ends
variable {α β σ : Type} {h : Heap ℝ}

theorem of_runs {c : M ℝ α} {Q : α → Heap ℝ → Prop} (r : Runs c h Q) : Ends c h Q := by
  intro a h' e
  obtain ⟨a', h'', e', q⟩ := runs_iff.mp r
  rw [e] at e'
  cases e'
  exact q

theorem mono {c : M ℝ α} {Q Q' : α → Heap ℝ → Prop} (r : Ends c h Q) (q : ∀ a h', Q a h' → Q' a h') : Ends c h Q' := fun a h' e => q a h' (r a h' e)

theorem bind {c : M ℝ α} {k : α → M ℝ β} {R : β → Heap ℝ → Prop} (r : Ends c h fun a h' => Ends (k a) h' R) : Ends (c >>= k) h R := by
  intro b h' e
  rw [bind_run] at e
  cases ec : c h with
  | ok p =>
    obtain ⟨a, h1⟩ := p
    rw [ec] at e
    exact r a h1 ec b h' e
  | crash => rw [ec] at e; cases e
  | ub => rw [ec] at e; cases e

theorem step {c : M ℝ α} {k : α → M ℝ β} {a : α} {h' : Heap ℝ} {R : β → Heap ℝ → Prop} (e : c h = .ok (a, h')) (g : Ends (k a) h' R) : Ends (c >>= k) h R := by
  intro b h2 e2
  rw [bind_ok e] at e2
  exact g b h2 e2

theorem pure {a : α} {Q : α → Heap ℝ → Prop} (q : Q a h) : Ends (Pure.pure a) h Q := by
  intro a' h' e
  cases e
  exact q

theorem loop (I : Nat → σ → Heap ℝ → Prop) (body : Nat → σ → M ℝ σ) (n : Nat) (st : ∀ j s h, j < n → I j s h → Ends (body j s) h (I (j + 1))) :
    ∀ k lo s h, lo + k = n → I lo s h → Ends (Verif.loop lo k s body) h (I n) := by
  intro k
  induction k with
  | zero =>
    intro lo s h e i
    have : lo = n := by omega
    subst this
    exact pure i
  | succ k ih =>
    intro lo s h e i
    exact bind ((st lo s h (by omega) i).mono fun a h' q => ih (lo + 1) a h' (by omega) q)

theorem foldN (n : Nat) (I : Nat → σ → Heap ℝ → Prop) (body : Nat → σ → M ℝ σ) (s : σ) (h : Heap ℝ) (h0 : I 0 s h)
    (st : ∀ j s h, j < n → I j s h → Ends (body j s) h (I (j + 1))) : Ends (Verif.foldN n s body) h (I n) :=
  loop I body n st n 0 s h (by omega) h0

end Ends

namespace MultinomialNb
open NaiveBayes Classical
variable {h : Heap ℝ} {n d m : Nat} {s : MultinomialNb} {X : Matrix (Fin n) (Fin d) ℝ} {y : Fin n → ℝ}

/-! ## The table changes nothing else -/

/-- Reading: the heap is as before. -/
def Reads {α : Type} (c : M ℝ α) (h : Heap ℝ) : Prop := Ends c h fun _ h' => h' = h

theorem Reads.bind {α β : Type} {c : M ℝ α} {k : α → M ℝ β} (r : Reads c h) (next : ∀ a, Reads (k a) h) : Reads (c >>= k) h :=
  Ends.bind (r.mono fun a h' e => e ▸ next a)

theorem Reads.foldN {σ : Type} {body : Nat → σ → M ℝ σ} (b : ∀ j s, Reads (body j s) h) (n : Nat) (s : σ) : Reads (Verif.foldN n s body) h :=
  Ends.foldN n (fun _ _ h' => h' = h) body s h rfl fun j s h' _ e => e ▸ b j s

theorem reads_pure {α : Type} (a : α) : Reads (pure a) h := Ends.pure rfl

theorem reads_size (r : Ref) : Reads (Hd.size r) h := by
  cases r with
  | none => intro a h' e; cases e
  | some l => intro a h' e; cases l <;> cases e <;> rfl

theorem reads_sizem (r : Ref) : Reads (Hd.sizem r) h := by
  cases r with
  | none => intro a h' e; cases e
  | some l => intro a h' e; cases l <;> cases e <;> rfl

theorem reads_ok {α : Type} {c : M ℝ α} {a : α} (e : c h = .ok (a, h)) : Reads c h := fun a' h' e' => by
  rw [e] at e'; cases e'; rfl

theorem reads_toInt (x : ℝ) : Reads (Activation.toInt x) h := by
  unfold Activation.toInt
  split
  · exact reads_pure _
  · intro a h' e; cases e

theorem reads_writeAt (t : List IntMap) (i : Int) (k : ℝ) (f : Int → Int) : Reads (writeAt t i k f) h := by
  unfold writeAt
  split
  · exact reads_pure _
  · intro a h' e; cases e

theorem reads_divideAt (t : IntMap) (j : Nat) (q : ℝ) : Reads (divideAt t j q) h := by
  unfold divideAt
  split
  · intro a h' e; cases e
  · exact (reads_toInt _).bind fun _ => reads_pure _

theorem reads_get (w : h.WF) {a : Ref} {u : Fin n → ℝ} (ha : HasV h a u) (i : Int) : Reads (Hd.element_get a i) h := reads_ok (Hd.element_get_int w ha i)

theorem compute_theta_ends {p r q : Nat} (w : h.WF) (hX : HasM h s.input_set X) (hy : HasV h s.output_set y) {v : Fin p → ℝ} (hv : HasV h s.vocab v) {u : Fin r → ℝ}
    (hp : HasV h s.priors u) {f : Fin q → ℝ} (hh : HasV h s.y_hat f) :
    Ends (compute_theta s) h fun s' h' => h' = h ∧ ∃ t, s' = { s with theta := t } := by
  unfold compute_theta
  have r1 : ∀ t, Reads (zeroTheta s.class_num s.vocab t) h := fun t =>
    Reads.foldN (fun _ _ => (reads_size _).bind fun _ => Reads.foldN (fun _ _ => (reads_get w hv _).bind fun _ => reads_writeAt _ _ _ _) _ _) _ _
  have r2 : ∀ t, Reads (countTheta s.input_set s.output_set t) h := fun t => by
    unfold countTheta
    refine Ends.step (Hd.sizem_run hX) ?_
    refine Ends.foldN n (fun _ _ h' => h' = h) _ _ h rfl fun i t h' hi e => ?_
    subst e
    refine Ends.foldN d (fun _ _ h2 => h2 = h') _ _ h' rfl fun j t h2 hj e => ?_
    subst e
    exact (reads_get w hy _).bind fun _ => (reads_toInt _).bind fun _ => (reads_ok (Hd.element_getm_run w hX ⟨i, hi⟩ ⟨j, hj⟩)).bind fun _ => reads_writeAt _ _ _ _
  refine Ends.bind ((r1 _).mono fun t h1 e1 => ?_)
  subst e1
  refine Ends.bind ((r2 _).mono fun t h2 e2 => ?_)
  subst e2
  refine Ends.bind (Ends.mono (Q := fun _ h' => h' = h2) (Reads.foldN (fun i t => ?_) _ _) fun t h3 e3 => Ends.pure ⟨e3, t, rfl⟩)
  exact Reads.bind (Reads.foldN (fun j m => (reads_get w hp _).bind fun _ => (reads_ok (Hd.size_run hh)).bind fun _ => reads_divideAt _ _ _) _ _) fun _ => reads_pure _

/-! ## Scores -/

theorem best_lt : ∀ (l : List Ext) (m : Ext) (x i N : Nat), x < N → i + l.length = N → best m x i l < N := by
  intro l
  induction l with
  | nil => intro m x i N hx _; exact hx
  | cons a l ih =>
    intro m x i N hx e
    unfold best
    rw [List.length_cons] at e
    split
    · exact ih _ _ _ _ (by omega) (by omega)
    · exact ih _ _ _ _ hx (by omega)

theorem argmax_ends (l : List Ext) : Ends (argmax l) h fun r h' => h' = h ∧ r < l.length := by
  cases l with
  | nil => intro a h' e; cases e
  | cons x l => exact Ends.pure ⟨rfl, best_lt l x 0 1 _ (by simp) (by simp; omega)⟩

theorem addPriors_ends {p : Nat} (w : h.WF) {u : Fin p → ℝ} (hp : HasV h s.priors u) (l : List Ext) :
    Ends (addPriors s l) h fun r h' => h' = h ∧ r.length = l.length := by
  unfold addPriors
  refine Ends.step (Hd.size_run hp) ?_
  refine Ends.foldN p (fun _ (r : List Ext) h' => h' = h ∧ r.length = l.length) _ _ h ⟨rfl, rfl⟩ ?_
  rintro j r h1 hj ⟨rfl, el⟩
  refine Ends.step (Hd.element_get_int w hp _) ?_
  split
  · exact Ends.pure ⟨rfl, by simpa using el⟩
  · intro a h' e; cases e

theorem scores_empty (hX : HasM h s.input_set X) {v : Fin 0 → ℝ} (hv : HasV h s.vocab v) (i rows : Nat) (l : List Ext) : scores s i rows l h = .ok (l, h) := by
  have : Runs (scores s i rows l) h fun r h' => h' = h ∧ r = l := by
    unfold scores
    refine Runs.foldN rows (fun _ r h' => h' = h ∧ r = l) _ _ h ⟨rfl, rfl⟩ ?_
    rintro j r h1 hj ⟨rfl, er⟩
    exact Runs.step (Hd.size_run hv) (Runs.of_eq (a := r) rfl ⟨rfl, er⟩)
  obtain ⟨r, h', e, rfl, rfl⟩ := runs_iff.mp this
  exact e

/-! ## Priors -/

theorem countPriors_run (hy : HasV h s.output_set y) (ne : s.output_set ≠ s.priors) (nat : ∀ i, ∃ k : Nat, k < 2147483648 ∧ y i = k) {P : (Fin m → ℝ) → Prop}
    (hr : Runs (Hd.resizev s.priors m) h fun _ h' => h'.WF ∧ Keeps h h' (some · = s.priors) ∧ ∃ u : Fin m → ℝ, P u ∧ HasV h' s.priors u) (em : s.class_num = m) :
    Runs (countPriors s) h fun _ h' => h'.WF ∧ Keeps h h' (some · = s.priors) ∧ ∃ u, P u ∧ HasV h' s.priors fun c : Fin m => (u c + (members y c).length) / n := by
  unfold countPriors
  rw [em]
  refine Runs.bind (hr.mono fun _ h1 ⟨w1, k1, u, Pu, hp1⟩ => ?_)
  have hy1 := hy.off k1 ne
  refine Runs.step (Hd.size_run hy1) ?_
  refine Runs.bind ((Runs.forN n (fun k h' => h'.WF ∧ Keeps h h' (some · = s.priors) ∧
    HasV h' s.priors fun c => u c + (((List.finRange n).take k).filter fun i => y i = ((c : Nat) : ℝ)).length) _ h1 ⟨w1, k1, by simpa using hp1⟩ ?_).mono ?_)
  · intro i h2 hi ⟨w2, k2, hp2⟩
    refine Runs.step (Hd.element_get_run w2 (hy.off k2 ne) ⟨i, hi⟩) ?_
    obtain ⟨k, hk, e⟩ := nat ⟨i, hi⟩
    rw [e]
    refine Runs.step (toInt_nat k hk h2) (Runs.step (Hd.element_get_int w2 hp2 _) ?_)
    refine (Hd.element_set_int w2 hp2 _ _).mono fun _ h3 ⟨w3, k3, hp3⟩ => ⟨w3, k2.trans k3, ?_⟩
    refine cast (congrArg _ (funext fun c => ?_)) hp3
    rw [List.take_succ_eq_append_getElem (by simpa using hi), List.filter_append, List.length_append]
    have ei : (List.finRange n)[i]'(by simpa using hi) = ⟨i, hi⟩ := by simp
    rw [ei]
    by_cases ec : (c : Int) = (k : Int)
    · have ec' : c.val = k := by exact_mod_cast ec
      rw [if_pos ec, List.filter_cons_of_pos (by simp [e, ec'])]
      unfold Hd.at0
      rw [dif_pos ⟨by omega, by have := c.isLt; omega⟩]
      have : (⟨((k : Int)).toNat, by have := c.isLt; omega⟩ : Fin m) = c := Fin.ext (by simp [ec'])
      rw [this]
      push_cast
      simp
      ring
    · have ec' : y ⟨i, hi⟩ ≠ ((c : Nat) : ℝ) := by
        rw [e]
        intro q
        exact ec (by exact_mod_cast q.symm)
      rw [if_neg ec, List.filter_cons_of_neg (by simpa using ec')]
      simp
  · rintro - h2 ⟨w2, k2, hp2⟩
    obtain ⟨x, ex, lx, ix⟩ := hp2
    rw [ex]
    refine Runs.step (a := x) (h' := h2) rfl ?_
    refine ((Vec.unIn_spec (fun z => z * (1 / (n : ℝ))) w2 ix).hasV lx).mono fun _ h3 ⟨w3, k3, hp3⟩ => ⟨w3, ?_, u, Pu, ?_⟩
    · rw [ex] at k2
      exact k2.trans k3
    · refine cast (congrArg _ (funext fun c => ?_)) hp3
      rw [List.take_of_length_le (by simp), mul_one_div]
      rfl

/-! ## Training -/

/-- The handles of an object are different. -/
structure Apart (s : MultinomialNb) : Prop where
  pv : s.priors ≠ s.vocab
  py : s.priors ≠ s.y_hat
  vy : s.vocab ≠ s.y_hat

/-- What is known after `j` samples. -/
structure Step (h0 : Heap ℝ) (s0 s : MultinomialNb) (h : Heap ℝ) (y : Fin n → ℝ) (m j : Nat) : Prop where
  wf : h.WF
  keeps : Keeps h0 h (fun _ => False)
  same : ∃ t, s = { s0 with theta := t }
  vocab : HasV h s0.vocab (Fin.elim0 : Fin 0 → ℝ)
  priors0 : j = 0 → ∃ u : Fin 0 → ℝ, HasV h s0.priors u
  priors : 0 < j → ∃ v : Fin m → ℝ, HasV h s0.priors fun c => v c / (n : ℝ) ^ j + (members y c).length * ∑ k ∈ Finset.range j, 1 / (n : ℝ) ^ (k + 1)
  y_hat : ∃ u : Fin n → ℝ, HasV h s0.y_hat u ∧ ∀ i : Fin n, i.val < j → ∃ c < m, u i = (c : ℝ)

theorem accumulate (v c x : ℝ) (hx : x ≠ 0) (j : Nat) : ((v / x ^ j + c * ∑ k ∈ Finset.range j, 1 / x ^ (k + 1)) + c) / x =
    v / x ^ (j + 1) + c * ∑ k ∈ Finset.range (j + 1), 1 / x ^ (k + 1) := by
  rw [Finset.sum_range_succ', add_div, add_div, mul_div_assoc, Finset.sum_div, div_div, ← pow_succ]
  have : ∀ k, 1 / x ^ (k + 1) / x = 1 / x ^ (k + 1 + 1) := fun k => by rw [div_div, ← pow_succ]
  simp only [this]
  rw [zero_add, pow_one]
  ring

theorem step_ends {h0 : Heap ℝ} {s0 : MultinomialNb} (A : Apart s0) (hX : HasM h0 s0.input_set X) (hy : HasV h0 s0.output_set y) (em : s0.class_num = m)
    (nat : ∀ i, ∃ k : Nat, k < 2147483648 ∧ y i = k) (fp : NotIn h0 s0.priors) (fv : NotIn h0 s0.vocab) (fy : NotIn h0 s0.y_hat) (junk : Nat → Ext) {j : Nat} (hj : j < n) (rows : Nat)
    (S : Step h0 s0 s h y m j) :
    Ends (do
      countPriors s
      let s ← compute_theta s
      let score ← scores s j rows ((List.range s.class_num).map junk)
      let score ← addPriors s score
      let r ← argmax (score.map Ext.exp)
      Hd.element_set s.y_hat (j : Nat) (r : ℝ)
      pure s) h fun s' h' => Step h0 s0 s' h' y m (j + 1) := by
  obtain ⟨w, K, ⟨t, es⟩, hv, hp0, hp, u, hh, uh⟩ := S
  have hn : (n : ℝ) ≠ 0 := by
    have : n ≠ 0 := by omega
    exact_mod_cast this
  have ep : s.priors = s0.priors := by rw [es]
  have eo : s.output_set = s0.output_set := by rw [es]
  have key : Runs (countPriors s) h fun _ h' => h'.WF ∧ Keeps h h' (some · = s0.priors) ∧ ∃ v : Fin m → ℝ, HasV h' s0.priors fun c =>
      v c / (n : ℝ) ^ (j + 1) + (members y c).length * ∑ k ∈ Finset.range (j + 1), 1 / (n : ℝ) ^ (k + 1) := by
    have hy1 : HasV h s.output_set y := by rw [eo]; exact adv_hasv K hy
    have ne : s.output_set ≠ s.priors := by rw [eo, ep]; exact fun e => fp.ne hy e.symm
    have ec : s.class_num = m := by rw [es]; exact em
    have := countPriors_run (P := fun u => ∃ v : Fin m → ℝ, ∀ c, u c = v c / (n : ℝ) ^ j + (members y c).length * ∑ k ∈ Finset.range j, 1 / (n : ℝ) ^ (k + 1))
      (m := m) (s := s) hy1 ne nat (by
        rw [ep]
        rcases Nat.eq_zero_or_pos j with e | e
        · obtain ⟨u0, q⟩ := hp0 e
          refine (Hd.resizev_run w q m).mono fun _ h1 ⟨w1, k1, u1, q1⟩ => ⟨w1, k1, u1, ⟨u1, fun c => ?_⟩, q1⟩
          rw [e]; simp
        · obtain ⟨v, q⟩ := hp e
          exact (Hd.resizev_same w q).mono fun _ h1 ⟨w1, k1, q1⟩ => ⟨w1, k1.mono fun _ _ f => f.elim, _, ⟨v, fun _ => rfl⟩, q1⟩) ec
    rw [ep] at this
    refine this.mono fun _ h1 ⟨w1, k1, u1, ⟨v, e⟩, q1⟩ => ⟨w1, k1, v, ?_⟩
    refine cast (congrArg _ (funext fun c => ?_)) q1
    rw [e, accumulate _ _ _ hn]
  refine Ends.bind ((Ends.of_runs key).mono fun _ h1 ⟨w1, k1, v, hp1⟩ => ?_)
  have K1 := K.wrt k1 fp
  have hv1 := hv.off k1 A.pv.symm
  have hh1 := hh.off k1 A.py.symm
  have hX1 : HasM h1 s.input_set X := by rw [es]; exact adv_hasm K1 hX
  have hy1 : HasV h1 s.output_set y := by rw [eo]; exact adv_hasv K1 hy
  refine Ends.bind ((compute_theta_ends (s := s) (v := Fin.elim0) w1 hX1 hy1 (by rw [es]; exact hv1) (by rw [ep]; exact hp1) (by rw [es]; exact hh1)).mono ?_)
  rintro s2 h2 ⟨rfl, t2, es2⟩
  have f0 : s2 = { s0 with theta := t2 } := by rw [es2, es]
  have f1 : s2.vocab = s0.vocab := by rw [f0]
  have f2 : s2.priors = s0.priors := by rw [f0]
  have f3 : s2.y_hat = s0.y_hat := by rw [f0]
  have f4 : s2.class_num = m := by rw [f0]; exact em
  have hX2 : HasM h2 s2.input_set X := by rw [f0]; exact adv_hasm K1 hX
  refine Ends.step (scores_empty hX2 (by rw [f1]; exact hv1) j rows _) ?_
  refine Ends.bind ((addPriors_ends w1 (by rw [f2]; exact hp1) _).mono ?_)
  rintro l h3 ⟨rfl, el⟩
  refine Ends.bind ((argmax_ends _).mono ?_)
  rintro r h4 ⟨rfl, er⟩
  have lr : r < m := by
    rw [List.length_map, el, List.length_map, List.length_range, f4] at er
    exact er
  rw [f3]
  refine Ends.bind ((Ends.of_runs (Hd.element_set_run w1 hh1 ⟨j, hj⟩ (r : ℝ))).mono fun _ h5 ⟨w5, k5, hh5⟩ => Ends.pure ?_)
  refine ⟨w5, K1.wrt k5 fy, ⟨t2, f0⟩, hv1.off k5 A.vy, fun q => absurd q (Nat.succ_ne_zero j), fun _ => ⟨v, hp1.off k5 A.py⟩, _, hh5, fun i hi => ?_⟩
  by_cases ei : i = ⟨j, hj⟩
  · subst ei
    exact ⟨r, lr, by simp⟩
  · rw [Function.update_of_ne ei]
    refine uh i ?_
    have : i.val ≠ j := fun e => ei (Fin.ext e)
    omega

end MultinomialNb
end Verif
