import Verif.Model.BernoulliNb
import Verif.Lemmas.GaussianNb

/-! # Lemmas for the classifiers that count values -/

namespace Verif
open Spec

/-- If `P`, then `c` returns normally with `Q`; otherwise it stops the program. -/
def Guarded {α : Type} (c : M ℝ α) (h : Heap ℝ) (P : Prop) (Q : α → Heap ℝ → Prop) : Prop := P ∧ Runs c h Q ∨ ¬ P ∧ c h = .crash

namespace Guarded
variable {α β σ : Type} {h : Heap ℝ}

theorem of_runs {c : M ℝ α} {Q : α → Heap ℝ → Prop} (r : Runs c h Q) : Guarded c h True Q := Or.inl ⟨trivial, r⟩

theorem mono {c : M ℝ α} {P P' : Prop} {Q Q' : α → Heap ℝ → Prop} (g : Guarded c h P Q) (e : P ↔ P') (q : P → ∀ a h', Q a h' → Q' a h') : Guarded c h P' Q' := by
  rcases g with ⟨p, r⟩ | ⟨p, r⟩
  · exact Or.inl ⟨e.mp p, r.mono fun a h' => q p a h'⟩
  · exact Or.inr ⟨fun x => p (e.mpr x), r⟩

theorem bind {c : M ℝ α} {k : α → M ℝ β} {P P' : Prop} {Q : α → Heap ℝ → Prop} {R : β → Heap ℝ → Prop} (g : Guarded c h P Q)
    (next : P → ∀ a h', Q a h' → Guarded (k a) h' P' R) : Guarded (c >>= k) h (P ∧ P') R := by
  rcases g with ⟨p, r⟩ | ⟨p, r⟩
  · obtain ⟨a, h', e, q⟩ := runs_iff.mp r
    rcases next p a h' q with ⟨p', r'⟩ | ⟨p', r'⟩
    · exact Or.inl ⟨⟨p, p'⟩, Runs.step e r'⟩
    · exact Or.inr ⟨fun x => p' x.2, by rw [bind_ok e]; exact r'⟩
  · exact Or.inr ⟨fun x => p x.1, bind_crash r⟩

theorem step {c : M ℝ α} {k : α → M ℝ β} {P : Prop} {a : α} {h' : Heap ℝ} {R : β → Heap ℝ → Prop} (e : c h = .ok (a, h')) (g : Guarded (k a) h' P R) :
    Guarded (c >>= k) h P R := by
  rcases g with ⟨p, r⟩ | ⟨p, r⟩
  · exact Or.inl ⟨p, Runs.step e r⟩
  · exact Or.inr ⟨p, by rw [bind_ok e]; exact r⟩

theorem foldN (n : Nat) (I : Nat → σ → Heap ℝ → Prop) (P : Nat → Prop) (body : Nat → σ → M ℝ σ) (s : σ) (h : Heap ℝ) (h0 : I 0 s h)
    (st : ∀ j s h, j < n → I j s h → Guarded (body j s) h (P j) (I (j + 1))) : Guarded (Verif.foldN n s body) h (∀ j < n, P j) (I n) := by
  have key : ∀ k lo s h, lo + k = n → I lo s h → Guarded (loop lo k s body) h (∀ j, lo ≤ j → j < n → P j) (I n) := by
    intro k
    induction k with
    | zero =>
      intro lo s h e i
      have : lo = n := by omega
      subst this
      exact (of_runs (Runs.of_eq (a := s) (h' := h) rfl i)).mono ⟨fun _ j q q' => absurd q' (by omega), fun _ => trivial⟩ fun _ _ _ q => q
    | succ k ih =>
      intro lo s h e i
      refine ((st lo s h (by omega) i).bind fun _ a h' q => ih (lo + 1) a h' (by omega) q).mono ⟨?_, ?_⟩ fun _ _ _ q => q
      · rintro ⟨p, q⟩ j hj hj'
        by_cases ej : j = lo
        · subst ej; exact p
        · exact q j (by omega) hj'
      · exact fun q => ⟨q lo le_rfl (by omega), fun j hj hj' => q j (by omega) hj'⟩
  exact (key n 0 s h (by omega) h0).mono ⟨fun q j hj => q j (by omega) hj, fun q j _ hj => q j hj⟩ fun _ _ _ q => q

end Guarded

namespace NaiveBayes
open Classical
variable {h : Heap ℝ} {n d : Nat}

/-- A map without stray values and without repeated keys. -/
structure Sane (m : IntMap) : Prop where
  zero : ∀ v, v ∉ m.keys → m.val v = 0
  nodup : m.keys.Nodup

theorem sane_empty : Sane IntMap.empty := ⟨fun _ _ => rfl, List.nodup_nil⟩

theorem mem_upd (m : IntMap) (k v : ℝ) (f : Int → Int) : v ∈ (m.upd k f).keys ↔ v ∈ m.keys ∨ v = k := by
  unfold IntMap.upd
  dsimp only
  split
  · next q => exact ⟨Or.inl, fun q' => q'.elim id fun e => e ▸ q⟩
  · simp

theorem Sane.val_upd {m : IntMap} (S : Sane m) (k v : ℝ) (f : Int → Int) : (m.upd k f).val v = if v = k then f (m.val k) else m.val v := by
  unfold IntMap.upd
  dsimp only
  by_cases e : v = k
  · subst e
    rw [Function.update_self, if_pos rfl]
    split
    · rfl
    · next q => rw [S.zero _ q]
  · rw [Function.update_of_ne e, if_neg e]

theorem Sane.upd {m : IntMap} (S : Sane m) (k : ℝ) (f : Int → Int) : Sane (m.upd k f) := by
  refine ⟨fun v q => ?_, ?_⟩
  · rw [mem_upd, not_or] at q
    rw [S.val_upd, if_neg q.2, S.zero v q.1]
  · unfold IntMap.upd
    dsimp only
    split
    · exact S.nodup
    · next q => exact List.nodup_append.mpr ⟨S.nodup, by simp, by simp only [List.mem_singleton]; rintro a qa b rfl rfl; exact q qa⟩

/-- All of `l` get the value 0. -/
noncomputable def zeroed (m : IntMap) (l : List ℝ) : IntMap := l.foldl (fun m v => m.upd v fun _ => 0) m

/-- The elements of `l` are counted. -/
noncomputable def counted (m : IntMap) (l : List ℝ) : IntMap := l.foldl (fun m v => m.upd v fun k => k + 1) m

theorem Sane.zeroed {m : IntMap} (S : Sane m) (l : List ℝ) : Sane (zeroed m l) ∧ (∀ v, v ∈ (zeroed m l).keys ↔ v ∈ m.keys ∨ v ∈ l) ∧
    ∀ v, (NaiveBayes.zeroed m l).val v = if v ∈ l then 0 else m.val v := by
  induction l generalizing m with
  | nil => exact ⟨S, by simp [NaiveBayes.zeroed], by simp [NaiveBayes.zeroed]⟩
  | cons x l ih =>
    obtain ⟨a, b, c⟩ := ih (S.upd x fun _ => 0)
    refine ⟨a, fun v => (b v).trans ?_, fun v => (c v).trans ?_⟩
    · rw [mem_upd, List.mem_cons]; tauto
    · rw [S.val_upd]
      by_cases h1 : v ∈ l <;> by_cases h2 : v = x <;> simp [h1, h2]

theorem Sane.counted {m : IntMap} (S : Sane m) (l : List ℝ) : Sane (counted m l) ∧ (∀ v, v ∈ (counted m l).keys ↔ v ∈ m.keys ∨ v ∈ l) ∧
    ∀ v, (NaiveBayes.counted m l).val v = m.val v + l.count v := by
  induction l generalizing m with
  | nil => exact ⟨S, by simp [NaiveBayes.counted], by simp [NaiveBayes.counted]⟩
  | cons x l ih =>
    obtain ⟨a, b, c⟩ := ih (S.upd x fun k => k + 1)
    refine ⟨a, fun v => (b v).trans ?_, fun v => (c v).trans ?_⟩
    · rw [mem_upd, List.mem_cons]; tauto
    · rw [S.val_upd, List.count_cons]
      by_cases h2 : v = x
      · subst h2; simp; ring
      · have : (x == v) = false := by simpa using fun e => h2 e.symm
        simp [h2, this]

theorem writeAt_ok {theta : List IntMap} {i : Nat} (hi : i < theta.length) (v : ℝ) (f : Int → Int) (h : Heap ℝ) :
    writeAt theta (i : Nat) v f h = .ok (theta.modify i fun m => m.upd v f, h) := by
  unfold writeAt
  rw [if_pos (by simp [idxOk]; omega)]
  rfl

theorem readAt_guarded {theta : List IntMap} {i : Nat} {m : IntMap} (hi : theta[i]? = some m) (v : ℝ) :
    Guarded (readAt theta i v) h (v ∈ m.keys) fun r h' => r = m.val v ∧ h' = h := by
  unfold readAt
  rw [hi]
  dsimp only
  by_cases q : v ∈ m.keys
  · rw [if_pos q]; exact Or.inl ⟨q, Runs.of_eq rfl ⟨rfl, rfl⟩⟩
  · rw [if_neg q]; exact Or.inr ⟨q, rfl⟩

theorem zeroTheta_run (w : h.WF) {vocab : Ref} {V : List ℝ} (hv : HasV h vocab V.get) (t0 t1 : IntMap) :
    zeroTheta 2 vocab [t0, t1] h = .ok ([zeroed t0 V, zeroed t1 V], h) := by
  have inner : ∀ (i : Nat) (theta : List IntMap), i < theta.length → (do
      let vs ← Hd.size vocab
      foldN vs theta fun j theta => do
        let v ← Hd.element_get vocab (j : Nat)
        writeAt theta (i : Nat) v fun _ => 0) h = .ok (theta.modify i fun m => zeroed m V, h) := by
    intro i theta hi
    rw [bind_ok (Hd.size_run hv)]
    have : Runs (foldN V.length theta fun j theta => do
        let v ← Hd.element_get vocab (j : Nat)
        writeAt theta (i : Nat) v fun _ => 0) h fun r h' => h' = h ∧ r = theta.modify i fun m => zeroed m V := by
      refine (Runs.foldN V.length (fun j r h' => h' = h ∧ r = theta.modify i fun m => zeroed m (V.take j)) _ _ h ⟨rfl, ?_⟩ ?_).mono
        fun r h' ⟨e, q⟩ => ⟨e, by rw [q, List.take_length]⟩
      · simp only [List.take_zero]
        exact (List.modify_id _ _).symm
      · rintro j r h1 hj ⟨rfl, er⟩
        refine Runs.step (Hd.element_get_run w hv ⟨j, hj⟩) ?_
        refine Runs.of_eq (writeAt_ok (by rw [er, List.length_modify]; exact hi) _ _ _) ⟨rfl, ?_⟩
        rw [er, List.modify_modify_eq]
        congr 1
        funext m
        unfold zeroed
        rw [List.take_succ_eq_append_getElem hj, List.foldl_append]
        rfl
    obtain ⟨r, h', e, rfl, rfl⟩ := runs_iff.mp this
    exact e
  unfold zeroTheta
  show (_ >>= fun s' => loop 1 1 s' _) h = _
  rw [bind_ok (inner 1 [t0, t1] (by simp))]
  show (_ >>= fun s' => loop 2 0 s' _) h = _
  rw [bind_ok (inner 0 _ (by simp))]
  rfl

theorem toInt_nat (k : Nat) (hk : k < 2147483648) (h : Heap ℝ) : Activation.toInt (k : ℝ) h = .ok ((k : Int), h) := by
  unfold Activation.toInt
  have : (k : ℝ) < 2147483648 := by exact_mod_cast hk
  have h0 : (0 : ℝ) ≤ k := by positivity
  rw [if_pos ⟨by linarith, this⟩, if_pos h0]
  simp [pure, M.pure]

theorem countTheta_run (w : h.WF) {a b : Ref} {X : Matrix (Fin n) (Fin d) ℝ} {y : Fin n → ℝ} (hX : HasM h a X) (hy : HasV h b y)
    (lab : ∀ i, y i = 0 ∨ y i = 1) (t0 t1 : IntMap) :
    countTheta a b [t0, t1] h = .ok ([counted t0 (valuesIn X y 0), counted t1 (valuesIn X y 1)], h) := by
  let P (c : Nat) (i : Nat) : List ℝ := ((List.ofFn fun i => if y i = (c : ℝ) then List.ofFn (X i) else []).take i).flatten
  let Q (c : Nat) (i : Fin n) (k : Nat) : List ℝ := P c i ++ if y i = (c : ℝ) then (List.ofFn (X i)).take k else []
  have key : Runs (countTheta a b [t0, t1]) h fun r h' => h' = h ∧ r = [counted t0 (valuesIn X y 0), counted t1 (valuesIn X y 1)] := by
    unfold countTheta
    refine Runs.step (Hd.sizem_run hX) ?_
    refine (Runs.foldN n (fun i r h' => h' = h ∧ r = [counted t0 (P 0 i), counted t1 (P 1 i)]) _ _ h ⟨rfl, rfl⟩ ?_).mono fun r h' ⟨e, q⟩ => ⟨e, q.trans ?_⟩
    · rintro i r h1 hi ⟨rfl, er⟩
      dsimp only
      refine (Runs.foldN d (fun k r h' => h' = h1 ∧ r = [counted t0 (Q 0 ⟨i, hi⟩ k), counted t1 (Q 1 ⟨i, hi⟩ k)]) _ _ h1
        ⟨rfl, by rw [er]; simp [Q]⟩ ?_).mono fun r h' ⟨e, q⟩ => ⟨e, q.trans ?_⟩
      · rintro k r h2 hk ⟨rfl, er⟩
        refine Runs.step (Hd.element_get_run w hy ⟨i, hi⟩) ?_
        rcases lab ⟨i, hi⟩ with e | e
        · rw [e]
          refine Runs.step (by simpa using toInt_nat 0 (by norm_num) h2) ?_
          refine Runs.step (Hd.element_getm_run w hX ⟨i, hi⟩ ⟨k, hk⟩) ?_
          refine Runs.of_eq (writeAt_ok (i := 0) (by rw [er]; simp) _ _ _) ⟨rfl, ?_⟩
          rw [er]
          simp only [Q, e, Nat.cast_zero, Nat.cast_one, if_true, if_neg (zero_ne_one (α := ℝ)), take_ofFn _ k hk, ← List.append_assoc]
          simp [counted]
        · rw [e]
          refine Runs.step (by simpa using toInt_nat 1 (by norm_num) h2) ?_
          refine Runs.step (Hd.element_getm_run w hX ⟨i, hi⟩ ⟨k, hk⟩) ?_
          refine Runs.of_eq (writeAt_ok (i := 1) (by rw [er]; simp) _ _ _) ⟨rfl, ?_⟩
          rw [er]
          simp only [Q, e, Nat.cast_zero, Nat.cast_one, if_true, if_neg (one_ne_zero (α := ℝ)), take_ofFn _ k hk, ← List.append_assoc]
          simp [counted]
      · have : ∀ c, Q c ⟨i, hi⟩ d = P c (i + 1) := by
          intro c
          simp only [Q, P]
          rw [take_ofFn _ i hi, List.flatten_append]
          congr 1
          by_cases e : y ⟨i, hi⟩ = c
          · rw [if_pos e, if_pos e, List.take_of_length_le (by simp)]; simp
          · rw [if_neg e, if_neg e]; simp
        rw [this, this]
    · have : ∀ c, P c n = valuesIn X y c := by
        intro c
        simp only [P]
        rw [List.take_of_length_le (by simp)]
        rfl
      rw [this, this]
  obtain ⟨r, h', e, rfl, rfl⟩ := runs_iff.mp key
  exact e

end NaiveBayes
end Verif
