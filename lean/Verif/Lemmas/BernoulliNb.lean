import Verif.Lemmas.NaiveBayes
import Verif.Props.Loading
import Verif.Spec.BernoulliNb
import Verif.Props.Ann

/-! # Lemmas about `MLPPBernoulliNB` -/

namespace Verif.BernoulliNb
open Spec NaiveBayes Classical
variable {h : Heap ℝ} {n d : Nat} {s : BernoulliNb} {t0 t1 : IntMap} {V : List ℝ}

/-! ## Dividing by the number of samples -/

theorem length_ge {l : List ℝ} {j : Nat} {z : ℝ} (hz : z ∈ l) (hj : ∀ k < j, (k : ℝ) ∈ l) (nz : ∀ k < j, z ≠ (k : ℝ)) : j < l.length := by
  have nd : ((List.range j).map (fun k : Nat => (k : ℝ)) ++ [z]).Nodup := by
    refine List.nodup_append.mpr ⟨(List.nodup_range).map Nat.cast_injective, by simp, ?_⟩
    simp only [List.mem_map, List.mem_range, List.mem_singleton]
    rintro a ⟨k, hk, rfl⟩ b rfl e
    exact nz k hk e.symm
  have sub : ((List.range j).map (fun k : Nat => (k : ℝ)) ++ [z]) ⊆ l := by
    intro v q
    simp only [List.mem_append, List.mem_map, List.mem_range, List.mem_singleton] at q
    rcases q with ⟨k, hk, rfl⟩ | rfl
    · exact hj k hk
    · exact hz
  have := (nd.subperm sub).length_le
  simp at this
  omega

theorem length_le {l : List ℝ} {M : Nat} (nd : l.Nodup) (hl : ∀ v ∈ l, ∃ k : Nat, k ≤ M ∧ v = k) : l.length ≤ M + 1 := by
  have sub : l ⊆ (List.range (M + 1)).map (fun k : Nat => (k : ℝ)) := by
    intro v q
    obtain ⟨k, hk, rfl⟩ := hl v q
    exact List.mem_map.mpr ⟨k, by simp; omega, rfl⟩
  have := (nd.subperm sub).length_le
  simpa using this

theorem divideAt_run {m : IntMap} (S : Sane m) {q : ℝ} (hq : 1 ≤ q) (j : Nat) (b : ∀ v, 0 ≤ m.val v ∧ m.val v < 2147483648) (h : Heap ℝ) :
    divideAt m j q h = .ok (m.upd (j : ℝ) fun _ => ⌊(m.val j : ℝ) / q⌋, h) := by
  unfold divideAt
  rw [if_neg (by linarith)]
  have ev : (m.upd (j : ℝ) fun k => k).val (j : ℝ) = m.val j := by rw [S.val_upd, if_pos rfl]
  have e : Activation.toInt (((m.upd (j : ℝ) fun k => k).val (j : ℝ) : Int) / q) h = .ok (⌊(m.val j : ℝ) / q⌋, h) := by
    rw [ev]
    unfold Activation.toInt
    have b0 : (0 : ℝ) ≤ m.val j := by exact_mod_cast (b j).1
    have b1 : ((m.val j : Int) : ℝ) < 2147483648 := by exact_mod_cast (b j).2
    have d0 : 0 ≤ (m.val j : ℝ) / q := by positivity
    have d1 : (m.val j : ℝ) / q ≤ m.val j := div_le_self b0 hq
    rw [if_pos ⟨by linarith, by linarith⟩, if_pos d0]
    rfl
  rw [bind_ok e]
  rfl

theorem floor_bound {k : Int} {q : ℝ} (hq : 1 ≤ q) (b : 0 ≤ k ∧ k < 2147483648) : 0 ≤ ⌊(k : ℝ) / q⌋ ∧ ⌊(k : ℝ) / q⌋ < 2147483648 := by
  have b0 : (0 : ℝ) ≤ k := by exact_mod_cast b.1
  have d0 : 0 ≤ (k : ℝ) / q := by positivity
  have d1 : (k : ℝ) / q ≤ k := div_le_self b0 hq
  refine ⟨Int.floor_nonneg.mpr d0, lt_of_le_of_lt ?_ b.2⟩
  have : ((⌊(k : ℝ) / q⌋ : Int) : ℝ) ≤ k := (Int.floor_le _).trans d1
  exact_mod_cast this

theorem scale_run {q : ℝ} (hq : 1 ≤ q) {M : Nat} : ∀ (g j fuel : Nat) (m : IntMap), Sane m → (∀ v ∈ m.keys, ∃ k : Nat, k ≤ M ∧ v = k) → (M : ℝ) ∈ m.keys →
    (∀ k < j, (k : ℝ) ∈ m.keys) → (∀ v, 0 ≤ m.val v ∧ m.val v < 2147483648) → j + g = M + 1 → g ≤ fuel →
    Runs (scale q fuel j m) h fun m' h' => h' = h ∧ Sane m' ∧ (∀ v, v ∈ m'.keys ↔ ∃ k : Nat, k ≤ M ∧ v = k) ∧
      ∀ v, m'.val v = if ∃ k : Nat, j ≤ k ∧ v = k then ⌊(m.val v : ℝ) / q⌋ else m.val v := by
  intro g
  induction g with
  | zero =>
    intro j fuel m S hk hM hj b e hf
    unfold scale
    rw [if_neg (by have := length_le S.nodup hk; omega)]
    refine Runs.of_eq rfl ⟨rfl, S, fun v => ⟨hk v, ?_⟩, fun v => ?_⟩
    · rintro ⟨k, hk', rfl⟩; exact hj k (by omega)
    · split
      · next q' =>
        obtain ⟨k, hk', rfl⟩ := q'
        have : (k : ℝ) ∉ m.keys := by
          intro q'
          obtain ⟨k', h1, h2⟩ := hk _ q'
          have : k = k' := by exact_mod_cast h2
          omega
        rw [S.zero _ this]
        simp
      · rfl
  | succ g ih =>
    intro j fuel m S hk hM hj b e hf
    obtain ⟨fuel, rfl⟩ : ∃ f, fuel = f + 1 := ⟨fuel - 1, by omega⟩
    unfold scale
    rw [if_pos (length_ge hM hj fun k hk' e' => by
      have : M = k := by exact_mod_cast e'
      omega)]
    dsimp only
    refine Runs.step (divideAt_run S hq j b h) ?_
    have S' := S.upd (j : ℝ) fun _ => ⌊(m.val j : ℝ) / q⌋
    refine (ih (j + 1) fuel _ S' ?_ ?_ ?_ ?_ (by omega) (by omega)).mono fun m' h' ⟨e1, e2, e3, e4⟩ => ⟨e1, e2, e3, fun v => ?_⟩
    · intro v q'
      rcases (mem_upd _ _ _ _).mp q' with q' | rfl
      · exact hk v q'
      · exact ⟨j, by omega, rfl⟩
    · exact (mem_upd _ _ _ _).mpr (Or.inl hM)
    · intro k hk'
      by_cases ek : k = j
      · subst ek; exact (mem_upd _ _ _ _).mpr (Or.inr rfl)
      · exact (mem_upd _ _ _ _).mpr (Or.inl (hj k (by omega)))
    · intro v
      rw [S.val_upd]
      split
      · exact floor_bound hq (b _)
      · exact b v
    · rw [e4, S.val_upd]
      by_cases ev : v = j
      · rw [if_pos ev, if_neg (by
          rintro ⟨k, hk', e'⟩
          have : k = j := by exact_mod_cast (e'.symm.trans ev)
          omega), if_pos ⟨j, le_rfl, ev⟩, ev]
      · rw [if_neg ev]
        have : (∃ k : Nat, j + 1 ≤ k ∧ v = k) ↔ ∃ k : Nat, j ≤ k ∧ v = k := by
          constructor
          · rintro ⟨k, a, b⟩; exact ⟨k, by omega, b⟩
          · rintro ⟨k, a, b⟩
            refine ⟨k, ?_, b⟩
            rcases Nat.eq_or_lt_of_le a with rfl | a
            · exact absurd b ev
            · exact a
        simp only [this]

theorem scale_empty (q : ℝ) (fuel : Nat) {m : IntMap} (e : m.keys = []) (h : Heap ℝ) : scale q fuel 0 m h = .ok (m, h) := by
  unfold scale
  rw [if_neg (by rw [e]; simp)]
  rfl

/-- Dividing is undefined, or a key is added. -/
theorem divideAt_cases (m : IntMap) (j : Nat) (q : ℝ) (h : Heap ℝ) : divideAt m j q h = .ub ∨ ∃ v, divideAt m j q h = .ok (m.upd (j : ℝ) fun _ => v, h) := by
  unfold divideAt
  split
  · exact Or.inl rfl
  · unfold Activation.toInt
    split
    · exact Or.inr ⟨_, rfl⟩
    · exact Or.inl rfl

theorem scale_cases (q : ℝ) (fuel : Nat) : ∀ (j : Nat) (m : IntMap), scale q fuel j m h = .ub ∨ ∃ m', scale q fuel j m h = .ok (m', h) := by
  induction fuel with
  | zero =>
    intro j m
    unfold scale
    split
    · exact Or.inl rfl
    · exact Or.inr ⟨_, rfl⟩
  | succ fuel ih =>
    intro j m
    unfold scale
    split
    · dsimp only
      rcases divideAt_cases m j q h with e | ⟨v, e⟩
      · exact Or.inl (bind_ub e)
      · rw [bind_ok e]; exact ih _ _
    · exact Or.inr ⟨_, rfl⟩

theorem scale_ub (q : ℝ) {z : ℝ} (nz : ∀ k : Nat, z ≠ k) (fuel : Nat) : ∀ (j : Nat) (m : IntMap), z ∈ m.keys → (∀ k < j, (k : ℝ) ∈ m.keys) →
    scale q fuel j m h = .ub := by
  induction fuel with
  | zero =>
    intro j m hz hj
    unfold scale
    rw [if_pos (length_ge hz hj fun k _ => nz k)]
    rfl
  | succ fuel ih =>
    intro j m hz hj
    unfold scale
    rw [if_pos (length_ge hz hj fun k _ => nz k)]
    dsimp only
    rcases divideAt_cases m j q h with e | ⟨v, e⟩
    · exact bind_ub e
    · rw [bind_ok e]
      refine ih _ _ ((mem_upd _ _ _ _).mpr (Or.inl hz)) fun k hk => ?_
      by_cases ek : k = j
      · subst ek; exact (mem_upd _ _ _ _).mpr (Or.inr rfl)
      · exact (mem_upd _ _ _ _).mpr (Or.inl (hj k (by omega)))

/-! ## The two loops of a prediction -/

theorem nodup_take {k : Nat} (nd : V.Nodup) (hk : k < V.length) : V[k] ∉ V.take k := by
  have : (V.take (k + 1)).Nodup := nd.sublist (List.take_sublist _ _)
  rw [List.take_succ_eq_append_getElem hk] at this
  exact fun q => (List.nodup_append.mp this).2.2 _ q _ (by simp) rfl

/-- The values of the features that are in the vocabulary. -/
noncomputable def foundIn (V : List ℝ) (l : List ℝ) : List ℝ := l.filter fun v => v ∈ V

theorem foundLoop_guarded {α : Type} (w : h.WF) (hv : HasV h s.vocab V.get) (nd : V.Nodup) (et : s.theta = [t0, t1]) {x : Nat → M ℝ ℝ} {l : List ℝ}
    (hx : ∀ j (hj : j < l.length), x j h = .ok (l[j], h)) (mul : α → Int → α) (one : α) :
    Guarded (foundLoop s l.length x mul one) h (∀ v ∈ foundIn V l, v ∈ t0.keys ∧ v ∈ t1.keys) fun r h' => h' = h ∧
      r = (((foundIn V l).map t0.val).foldl mul one, ((foundIn V l).map t1.val).foldl mul one, foundIn V l) := by
  have inner : ∀ j (hj : j < l.length) (r : α × α × List ℝ), Guarded (do
      let vs ← Hd.size s.vocab
      foldN vs r fun k r => do
        let xj ← x j
        let v ← Hd.element_get s.vocab (k : Nat)
        if xj = v then do
          let t0 ← readAt s.theta 0 v
          let t1 ← readAt s.theta 1 v
          pure (mul r.1 t0, mul r.2.1 t1, r.2.2 ++ [v])
        else pure r) h (l[j] ∈ V → l[j] ∈ t0.keys ∧ l[j] ∈ t1.keys) fun r' h' => h' = h ∧
        r' = if l[j] ∈ V then (mul r.1 (t0.val l[j]), mul r.2.1 (t1.val l[j]), r.2.2 ++ [l[j]]) else r := by
    intro j hj r
    refine Guarded.step (Hd.size_run hv) ?_
    refine (Guarded.foldN V.length (fun k r' h' => h' = h ∧
      r' = if l[j] ∈ V.take k then (mul r.1 (t0.val l[j]), mul r.2.1 (t1.val l[j]), r.2.2 ++ [l[j]]) else r)
      (fun k => ∀ hk : k < V.length, l[j] = V[k] → l[j] ∈ t0.keys ∧ l[j] ∈ t1.keys) _ _ h ⟨rfl, by simp⟩ ?_).mono ⟨?_, ?_⟩ fun _ _ _ ⟨e, q⟩ => ⟨e, ?_⟩
    · rintro k r' h1 hk ⟨rfl, er⟩
      refine Guarded.step (hx j hj) (Guarded.step (Hd.element_get_run w hv ⟨k, hk⟩) ?_)
      rw [show V.get ⟨k, hk⟩ = V[k] from rfl]
      by_cases e : l[j] = V[k]
      · rw [if_pos e]
        have nt : l[j] ∉ V.take k := by rw [e]; exact nodup_take nd hk
        rw [if_neg nt] at er
        refine Guarded.mono (P := V[k] ∈ t0.keys ∧ V[k] ∈ t1.keys) ((readAt_guarded (theta := s.theta) (i := 0) (m := t0) (by rw [et]; rfl) V[k]).bind fun _ a h2 ⟨ea, e2⟩ => ?_) ?_ fun _ _ _ q => q
        rotate_left
        · subst e2
          refine ((readAt_guarded (theta := s.theta) (i := 1) (m := t1) (by rw [et]; rfl) V[k]).bind fun _ b h3 ⟨eb, e3⟩ => Guarded.of_runs (Runs.of_eq (a := (mul r'.1 a, mul r'.2.1 b, r'.2.2 ++ [V[k]])) rfl ⟨e3, ?_⟩)).mono
            ⟨fun q => q.1, fun q => ⟨q, trivial⟩⟩ fun _ _ _ q => q
          rw [ea, eb, er, if_pos (by rw [List.take_succ_eq_append_getElem hk, e]; exact List.mem_append_right _ (List.mem_singleton_self _)), e]
        · rw [e]; exact ⟨fun q _ _ => q, fun q => q hk rfl⟩
      · rw [if_neg e]
        refine (Guarded.of_runs (Runs.of_eq (a := r') (h' := h1) rfl ⟨rfl, ?_⟩)).mono ⟨fun _ _ q => absurd q e, fun _ => trivial⟩ fun _ _ _ q => q
        rw [er]
        have : l[j] ∈ V.take (k + 1) ↔ l[j] ∈ V.take k := by
          rw [List.take_succ_eq_append_getElem hk, List.mem_append, List.mem_singleton]
          exact ⟨fun q => q.elim id fun q => absurd q e, Or.inl⟩
        simp only [this]
    · intro q qV
      obtain ⟨k, hk, e⟩ := List.getElem_of_mem qV
      exact q k hk hk e.symm
    · intro q k hk _ e
      exact q (e ▸ List.getElem_mem hk)
    · rw [q, List.take_length]
  unfold foundLoop
  refine (Guarded.foldN l.length (fun j r h' => h' = h ∧
      r = (((foundIn V (l.take j)).map t0.val).foldl mul one, ((foundIn V (l.take j)).map t1.val).foldl mul one, foundIn V (l.take j)))
    (fun j => ∀ hj : j < l.length, l[j] ∈ V → l[j] ∈ t0.keys ∧ l[j] ∈ t1.keys) _ _ h ⟨rfl, by simp [foundIn]⟩ ?_).mono ⟨?_, ?_⟩ fun _ _ _ ⟨e, q⟩ => ⟨e, by rw [q, List.take_length]⟩
  · rintro j r h1 hj ⟨rfl, er⟩
    refine (inner j hj r).mono ⟨fun q _ => q, fun q => q hj⟩ fun _ r' h' ⟨e, q⟩ => ⟨e, ?_⟩
    have ef : foundIn V (l.take (j + 1)) = foundIn V (l.take j) ++ if l[j] ∈ V then [l[j]] else [] := by
      unfold foundIn
      rw [List.take_succ_eq_append_getElem hj, List.filter_append]
      congr 1
      by_cases e : l[j] ∈ V <;> simp [e]
    rw [q, er, ef]
    by_cases e : l[j] ∈ V
    · rw [if_pos e, if_pos e, List.map_append, List.map_append, List.foldl_append, List.foldl_append]; rfl
    · rw [if_neg e, if_neg e, List.append_nil]
  · intro q v qv
    obtain ⟨q1, q2⟩ := List.mem_filter.mp qv
    obtain ⟨j, hj, rfl⟩ := List.getElem_of_mem q1
    exact q j hj hj (by simpa using q2)
  · intro q j hj _ qV
    exact q _ (List.mem_filter.mpr ⟨List.getElem_mem hj, by simpa using qV⟩)

theorem missingLoop_guarded {α : Type} (w : h.WF) (hv : HasV h s.vocab V.get) (et : s.theta = [t0, t1]) (mul : α → Int → α) (r : α × α × List ℝ) :
    Guarded (missingLoop s mul r) h (∀ v ∈ V, v ∉ r.2.2 → v ∈ t0.keys ∧ v ∈ t1.keys) fun q h' => h' = h ∧
      q = (((V.filter fun v => v ∉ r.2.2).map t0.val).foldl mul r.1, ((V.filter fun v => v ∉ r.2.2).map t1.val).foldl mul r.2.1) := by
  unfold missingLoop
  refine Guarded.step (Hd.size_run hv) ?_
  refine (Guarded.foldN V.length (fun k q h' => h' = h ∧
      q = ((((V.take k).filter fun v => v ∉ r.2.2).map t0.val).foldl mul r.1, (((V.take k).filter fun v => v ∉ r.2.2).map t1.val).foldl mul r.2.1))
    (fun k => ∀ hk : k < V.length, V[k] ∉ r.2.2 → V[k] ∈ t0.keys ∧ V[k] ∈ t1.keys) _ _ h ⟨rfl, by simp⟩ ?_).mono ⟨?_, ?_⟩
      fun _ _ _ ⟨e, q⟩ => ⟨e, by rw [q, List.take_length]⟩
  · rintro k q h1 hk ⟨rfl, eq⟩
    have ef : ((V.take (k + 1)).filter fun v => v ∉ r.2.2) = ((V.take k).filter fun v => v ∉ r.2.2) ++ if V[k] ∈ r.2.2 then [] else [V[k]] := by
      rw [List.take_succ_eq_append_getElem hk, List.filter_append]
      congr 1
      by_cases e : V[k] ∈ r.2.2 <;> simp [e]
    refine Guarded.step (Hd.element_get_run w hv ⟨k, hk⟩) ?_
    rw [show V.get ⟨k, hk⟩ = V[k] from rfl]
    by_cases e : V[k] ∈ r.2.2
    · rw [if_pos e]
      refine (Guarded.of_runs (Runs.of_eq (a := q) (h' := h1) rfl ⟨rfl, ?_⟩)).mono ⟨fun _ _ q => absurd e q, fun _ => trivial⟩ fun _ _ _ q => q
      rw [eq, ef, if_pos e, List.append_nil]
    · rw [if_neg e]
      refine Guarded.mono (P := V[k] ∈ t0.keys ∧ V[k] ∈ t1.keys) ((readAt_guarded (theta := s.theta) (i := 0) (m := t0) (by rw [et]; rfl) V[k]).bind fun _ a h2 ⟨ea, e2⟩ => ?_) ?_ fun _ _ _ q => q
      rotate_left
      · subst e2
        refine ((readAt_guarded (theta := s.theta) (i := 1) (m := t1) (by rw [et]; rfl) V[k]).bind fun _ b h3 ⟨eb, e3⟩ => Guarded.of_runs (Runs.of_eq (a := (mul q.1 a, mul q.2 b)) rfl ⟨e3, ?_⟩)).mono
          ⟨fun q => q.1, fun q => ⟨q, trivial⟩⟩ fun _ _ _ q => q
        rw [ea, eb, eq, ef, if_neg e, List.map_append, List.map_append, List.foldl_append, List.foldl_append]; rfl
      · exact ⟨fun q _ _ => q, fun q => q hk e⟩
  · intro q v qV
    obtain ⟨k, hk, rfl⟩ := List.getElem_of_mem qV
    exact q k hk hk
  · intro q k hk _
    exact q _ (List.getElem_mem hk)


/-! ## Products -/

theorem prod_found {p : Nat} (x : Fin p → ℝ) (f : ℝ → ℝ) (W : Finset ℝ) (hV : ∀ v, v ∈ V ↔ v ∈ W) :
    ((foundIn V (List.ofFn x)).map f).prod = ∏ j, if x j ∈ W then f (x j) else 1 := by
  have : ∀ l : List ℝ, ((foundIn V l).map f).prod = (l.map fun v => if v ∈ W then f v else 1).prod := by
    intro l
    induction l with
    | nil => rfl
    | cons a l ih =>
      unfold foundIn at ih ⊢
      by_cases e : a ∈ V
      · have e' := (hV a).mp e
        simp [e, e', ih]
      · have e' : a ∉ W := fun q => e ((hV a).mpr q)
        simp [e, e', ih]
  rw [this, List.map_ofFn, List.prod_ofFn]
  rfl

theorem prod_missing {p : Nat} (x : Fin p → ℝ) (f : ℝ → ℝ) (W : Finset ℝ) (nd : V.Nodup) (hV : ∀ v, v ∈ V ↔ v ∈ W) :
    ((V.filter fun v => v ∉ foundIn V (List.ofFn x)).map f).prod = ∏ v ∈ W.filter fun v => ∀ j, x j ≠ v, f v := by
  rw [← List.prod_toFinset f (nd.filter _)]
  refine Finset.prod_congr ?_ fun _ _ => rfl
  ext v
  simp only [List.mem_toFinset, List.mem_filter, decide_eq_true_eq, Finset.mem_filter, hV, foundIn, List.mem_ofFn]
  refine and_congr_right fun q => ?_
  constructor
  · intro a j e; exact a ⟨⟨j, e⟩, q⟩
  · rintro a ⟨⟨j, e⟩, -⟩; exact a j e

theorem foldl_mul (f : Int → ℝ) (l : List Int) (a : ℝ) : l.foldl (fun a t => a * f t) a = a * (l.map f).prod := by
  induction l generalizing a with
  | nil => simp
  | cons x l ih => rw [List.foldl_cons, ih, List.map_cons, List.prod_cons, mul_assoc]

theorem exp_add_log {a : Ext} {r t : ℝ} (e : a.exp = .fin r) (hx : 0 ≤ t) : (a.add (Ext.log t)).exp = .fin (r * t) := by
  unfold Ext.log
  rcases hx.lt_or_eq with hx | hx
  · rw [if_pos hx]
    cases a with
    | nan => cases e
    | ninf => cases e; simp [Ext.add, Ext.exp]
    | fin a =>
      cases e
      simp [Ext.add, Ext.exp, Real.exp_add, Real.exp_log hx]
  · rw [if_neg (by rw [← hx]; exact lt_irrefl _), if_pos hx.symm, ← hx]
    cases a with
    | nan => cases e
    | ninf => cases e; simp [Ext.add, Ext.exp]
    | fin a => cases e; simp [Ext.add, Ext.exp]

theorem foldl_log (f : Int → ℝ) : ∀ (l : List Int) (a : Ext) (r : ℝ), a.exp = .fin r → (∀ t ∈ l, 0 ≤ f t) →
    (l.foldl (fun a t => a.add (Ext.log (f t))) a).exp = .fin (r * (l.map f).prod) := by
  intro l
  induction l with
  | nil => intro a r e _; simpa using e
  | cons x l ih =>
    intro a r e hl
    rw [List.foldl_cons, List.map_cons, List.prod_cons, ← mul_assoc]
    exact ih _ _ (exp_add_log e (hl x (by simp))) fun t q => hl t (by simp [q])

theorem foldl_nan (f : Int → ℝ) : ∀ (l : List Int) (a : Ext), (a = .nan ∨ ∃ t ∈ l, f t < 0) → l.foldl (fun a t => a.add (Ext.log (f t))) a = .nan := by
  intro l
  induction l with
  | nil => rintro a (e | ⟨t, q, -⟩); exacts [e, by cases q]
  | cons x l ih =>
    intro a q
    rw [List.foldl_cons]
    refine ih _ ?_
    rcases q with rfl | ⟨t, q, ht⟩
    · left; rfl
    · rcases List.mem_cons.mp q with rfl | q
      · left
        unfold Ext.log
        rw [if_neg (by linarith), if_neg (by linarith)]
        cases a <;> rfl
      · right; exact ⟨t, q, ht⟩

/-! ## Counting -/

theorem mem_valuesIn {X : Matrix (Fin n) (Fin d) ℝ} {y : Fin n → ℝ} {c : Nat} {v : ℝ} : v ∈ valuesIn X y c ↔ ∃ i j, y i = c ∧ X i j = v := by
  unfold valuesIn
  rw [List.mem_flatten]
  constructor
  · rintro ⟨l, q, qv⟩
    obtain ⟨i, rfl⟩ := List.mem_ofFn.mp q
    split at qv
    · next e =>
      obtain ⟨j, rfl⟩ := List.mem_ofFn.mp qv
      exact ⟨i, j, e, rfl⟩
    · cases qv
  · rintro ⟨i, j, e, rfl⟩
    exact ⟨List.ofFn (X i), List.mem_ofFn.mpr ⟨i, if_pos e⟩, List.mem_ofFn.mpr ⟨j, rfl⟩⟩

theorem mem_vocabulary {X : Matrix (Fin n) (Fin d) ℝ} {v : ℝ} : v ∈ vocabulary X ↔ ∃ i j, X i j = v := by
  simp [vocabulary]

theorem length_valuesIn (X : Matrix (Fin n) (Fin d) ℝ) (y : Fin n → ℝ) (c : Nat) : (valuesIn X y c).length ≤ n * d := by
  unfold valuesIn
  rw [List.length_flatten, List.map_ofFn, List.sum_ofFn]
  refine (Finset.sum_le_card_nsmul _ _ d fun i _ => ?_).trans (by simp)
  dsimp only [Function.comp]
  split <;> simp

theorem members_count (y : Fin n → ℝ) (lab : ∀ i, y i = 0 ∨ y i = 1) : (members y 0).length + (members y 1).length = n := by
  have : ∀ l : List (Fin n), (l.filter fun i => y i = ((0 : Nat) : ℝ)).length + (l.filter fun i => y i = ((1 : Nat) : ℝ)).length = l.length := by
    intro l
    induction l with
    | nil => rfl
    | cons a l ih =>
      rcases lab a with e | e
      · rw [List.filter_cons_of_pos (by simp [e]), List.filter_cons_of_neg (by simp [e])]; simp only [List.length_cons]; omega
      · rw [List.filter_cons_of_neg (by simp [e]), List.filter_cons_of_pos (by simp [e])]; simp only [List.length_cons]; omega
  have := this (List.finRange n)
  simpa [members] using this

theorem members_pos {X : Matrix (Fin n) (Fin d) ℝ} {y : Fin n → ℝ} {c : Nat} {v : ℝ} (q : v ∈ valuesIn X y c) : 1 ≤ (members y c).length := by
  obtain ⟨i, j, e, -⟩ := mem_valuesIn.mp q
  exact List.length_pos_of_mem (List.mem_filter.mpr ⟨List.mem_finRange i, by simpa using e⟩)

theorem ones_run (w : h.WF) {y : Fin n → ℝ} (hy : HasV h s.output_set y) : ones s h = .ok (((members y 1).length : ℝ), h) := by
  have key : Runs (ones s) h fun r h' => h' = h ∧ r = (members y 1).length := by
    unfold ones
    refine Runs.step (Hd.size_run hy) ?_
    refine (Runs.foldN n (fun k (r : ℝ) h' => h' = h ∧ r = (((List.finRange n).take k).filter fun i => y i = ((1 : Nat) : ℝ)).length) _ _ h ⟨rfl, by simp⟩ ?_).mono
      fun r h' ⟨e, q⟩ => ⟨e, q.trans ?_⟩
    · rintro k r h1 hk ⟨rfl, er⟩
      refine Runs.step (Hd.element_get_run w hy ⟨k, hk⟩) (Runs.of_eq rfl ⟨rfl, ?_⟩)
      rw [List.take_succ_eq_append_getElem (by simpa using hk), List.filter_append, List.length_append, er]
      by_cases e : y ⟨k, hk⟩ = 1
      · rw [if_pos e, List.filter_cons_of_pos (by simpa using e)]; simp
      · rw [if_neg e, List.filter_cons_of_neg (by simpa using e)]; simp
    · rw [List.take_of_length_le (by simp)]; rfl
  obtain ⟨r, h', e, rfl, rfl⟩ := runs_iff.mp key
  exact e

/-! ## The table of frequencies -/

/-- The natural numbers up to the largest value of the class. -/
def Upto (X : Matrix (Fin n) (Fin d) ℝ) (y : Fin n → ℝ) (c : Nat) (v : ℝ) : Prop := ∃ k : Nat, v = k ∧ ∃ u ∈ valuesIn X y c, v ≤ u

theorem scale_class {X : Matrix (Fin n) (Fin d) ℝ} {y : Fin n → ℝ} {fuel c : Nat} (nat : ∀ i j, ∃ k : Nat, k < fuel ∧ X i j = k) (hs : n * d < 2147483648)
    {m : IntMap} (S : Sane m) (hk : ∀ v, v ∈ m.keys ↔ v ∈ valuesIn X y c ∨ (v ∈ m.keys ∧ Upto X y c v)) (hv : ∀ v, m.val v = (valuesIn X y c).count v) :
    Runs (scale (members y c).length fuel 0 m) h fun m' h' => h' = h ∧ Sane m' ∧ (∀ v, v ∈ m'.keys ↔ Upto X y c v) ∧
      ∀ v, (m'.val v : ℝ) = share X y c v := by
  have up : ∀ v ∈ m.keys, Upto X y c v := by
    intro v q
    rcases (hk v).mp q with q | q
    · obtain ⟨i, j, -, e⟩ := mem_valuesIn.mp q
      obtain ⟨k, -, e'⟩ := nat i j
      exact ⟨k, e ▸ e', v, q, le_rfl⟩
    · exact q.2
  by_cases em : m.keys = []
  · have nv : ∀ v, v ∉ valuesIn X y c := fun v q => by
      have := (hk v).mpr (Or.inl q)
      rw [em] at this
      cases this
    refine Runs.of_eq (scale_empty _ fuel em h) ⟨rfl, S, fun v => ⟨up v, ?_⟩, fun v => ?_⟩
    · rintro ⟨k, -, u, q, -⟩
      exact absurd q (nv u)
    · rw [hv, share, frequency, List.count_eq_zero_of_not_mem (nv v)]
      simp
  · obtain ⟨v0, q0⟩ := List.exists_mem_of_ne_nil _ em
    obtain ⟨-, -, u, qu, -⟩ := up v0 q0
    have hq : (1 : ℝ) ≤ (members y c).length := by exact_mod_cast members_pos qu
    obtain ⟨M, qM, hM⟩ : ∃ M ∈ valuesIn X y c, ∀ u ∈ valuesIn X y c, u ≤ M := by
      obtain ⟨M, e1, e2⟩ := Finset.exists_max_image (valuesIn X y c).toFinset id ⟨u, by simpa using qu⟩
      exact ⟨M, by simpa using e1, fun u q => e2 u (by simpa using q)⟩
    obtain ⟨k, hk', rfl⟩ : ∃ k : Nat, k < fuel ∧ M = k := by
      obtain ⟨i, j, -, e⟩ := mem_valuesIn.mp qM
      exact e ▸ nat i j
    refine (scale_run hq (M := k) (k + 1) 0 fuel m S ?_ ((hk _).mpr (Or.inl qM)) (fun k hk => absurd hk (Nat.not_lt_zero k)) ?_ (by omega) (by omega)).mono
      fun m' h' ⟨e1, e2, e3, e4⟩ => ⟨e1, e2, fun v => (e3 v).trans ?_, fun v => ?_⟩
    · intro v q
      obtain ⟨k', e, u, q, hu⟩ := up v q
      refine ⟨k', ?_, e⟩
      have := hu.trans (hM u q)
      rw [e] at this
      exact_mod_cast this
    · intro v
      rw [hv]
      refine ⟨by omega, ?_⟩
      have := List.count_le_length (a := v) (l := valuesIn X y c)
      have := length_valuesIn X y c
      omega
    · constructor
      · rintro ⟨k', a, e⟩
        exact ⟨k', e, k, qM, by rw [e]; exact_mod_cast a⟩
      · rintro ⟨k', e, u, q, hu⟩
        refine ⟨k', ?_, e⟩
        have := hu.trans (hM u q)
        rw [e] at this
        exact_mod_cast this
    · rw [e4, share, frequency, hv]
      split
      · push_cast; rfl
      · next ne =>
        have : v ∉ valuesIn X y c := by
          intro q
          obtain ⟨i, j, -, e⟩ := mem_valuesIn.mp q
          obtain ⟨k', -, e'⟩ := nat i j
          exact ne ⟨k', Nat.zero_le _, e ▸ e'⟩
        rw [List.count_eq_zero_of_not_mem this]
        simp

/-- What is known about the table before a sample is treated. -/
structure Before (s : BernoulliNb) (h : Heap ℝ) (X : Matrix (Fin n) (Fin d) ℝ) (y : Fin n → ℝ) : Prop where
  vocab : ∃ W : List ℝ, HasV h s.vocab W.get ∧ (∀ v ∈ W, Upto X y 0 v ∧ Upto X y 1 v) ∧
    ∃ u0 u1, resizeTheta s.theta 2 = [u0, u1] ∧ (Sane u0 ∧ Sane u1) ∧ (∀ v, v ∉ W → u0.val v = 0 ∧ u1.val v = 0) ∧
      (∀ v ∈ u0.keys, Upto X y 0 v) ∧ ∀ v ∈ u1.keys, Upto X y 1 v

/-- What is known about the table afterwards. -/
structure After (theta : List IntMap) (X : Matrix (Fin n) (Fin d) ℝ) (y : Fin n → ℝ) (t0 t1 : IntMap) : Prop where
  eq : theta = [t0, t1]
  sane0 : Sane t0
  sane1 : Sane t1
  keys0 : ∀ v, v ∈ t0.keys ↔ Upto X y 0 v
  keys1 : ∀ v, v ∈ t1.keys ↔ Upto X y 1 v
  val0 : ∀ v, (t0.val v : ℝ) = share X y 0 v
  val1 : ∀ v, (t1.val v : ℝ) = share X y 1 v

theorem counted_zeroed {X : Matrix (Fin n) (Fin d) ℝ} {y : Fin n → ℝ} {c : Nat} {u : IntMap} {W : List ℝ} (S : Sane u) (hu : ∀ v, v ∉ W → u.val v = 0)
    (hW : ∀ v ∈ W, Upto X y c v) (hk : ∀ v ∈ u.keys, Upto X y c v) :
    Sane (counted (zeroed u W) (valuesIn X y c)) ∧
      (∀ v, v ∈ (counted (zeroed u W) (valuesIn X y c)).keys ↔ v ∈ valuesIn X y c ∨ (v ∈ (counted (zeroed u W) (valuesIn X y c)).keys ∧ Upto X y c v)) ∧
      ∀ v, (counted (zeroed u W) (valuesIn X y c)).val v = (valuesIn X y c).count v := by
  obtain ⟨a1, a2, a3⟩ := S.zeroed W
  obtain ⟨b1, b2, b3⟩ := a1.counted (valuesIn X y c)
  refine ⟨b1, fun v => ⟨fun q => ?_, fun q => ?_⟩, fun v => ?_⟩
  · rcases (b2 v).mp q with q' | q'
    · rcases (a2 v).mp q' with q' | q'
      · exact Or.inr ⟨q, hk v q'⟩
      · exact Or.inr ⟨q, hW v q'⟩
    · exact Or.inl q'
  · exact q.elim (fun q => (b2 v).mpr (Or.inr q)) And.left
  · rw [b3, a3]
    split
    · simp
    · next q => rw [hu v q]; simp

theorem compute_theta_run {X : Matrix (Fin n) (Fin d) ℝ} {y : Fin n → ℝ} {fuel : Nat} (nat : ∀ i j, ∃ k : Nat, k < fuel ∧ X i j = k) (hs : n * d < 2147483648)
    (lab : ∀ i, y i = 0 ∨ y i = 1) (w : h.WF) (hX : HasM h s.input_set X) (hy : HasV h s.output_set y) {f : Fin n → ℝ} (hh : HasV h s.y_hat f)
    (ec : s.class_num = 2) (B : Before s h X y) (p0 : s.prior_0 * n = (members y 0).length) (p1 : s.prior_1 * n = (members y 1).length) :
    Runs (compute_theta fuel s) h fun s' h' => h' = h ∧ ∃ t0 t1, s' = { s with theta := [t0, t1] } ∧ After s'.theta X y t0 t1 := by
  obtain ⟨W, hW, uW, u0, u1, er, ⟨S0, S1⟩, z, k0, k1⟩ := B.vocab
  unfold compute_theta
  rw [ec, er]
  refine Runs.step (zeroTheta_run w hW u0 u1) (Runs.step (countTheta_run w hX hy lab _ _) (Runs.step (Hd.size_run hh) ?_))
  obtain ⟨a1, a2, a3⟩ := counted_zeroed (X := X) (y := y) (c := 0) S0 (fun v q => (z v q).1) (fun v q => (uW v q).1) k0
  obtain ⟨b1, b2, b3⟩ := counted_zeroed (X := X) (y := y) (c := 1) S1 (fun v q => (z v q).2) (fun v q => (uW v q).2) k1
  generalize counted (zeroed u0 W) (valuesIn X y 0) = m0 at *
  generalize counted (zeroed u1 W) (valuesIn X y 1) = m1 at *
  refine Runs.bind (Runs.mono (Q := fun theta h' => h' = h ∧ ∃ t0 t1, After theta X y t0 t1) ?_ fun theta h' ⟨e, t0, t1, A⟩ =>
    Runs.of_eq rfl ⟨e, t0, t1, by rw [A.eq], A⟩)
  unfold foldN
  rw [show [m0, m1].length = 1 + 1 from rfl, loop_succ]
  rw [if_pos rfl, p0]
  refine Runs.bind (Runs.bind ((show Runs (scale (members y 0).length fuel 0 m0) h _ from scale_class nat hs a1 a2 a3).mono ?_))
  rintro m0' h' ⟨rfl, e1, e2, e3⟩
  refine Runs.of_eq rfl ?_
  rw [show (1 : Nat) = 0 + 1 from rfl, loop_succ]
  rw [if_neg (by decide), p1]
  refine Runs.bind (Runs.bind ((show Runs (scale (members y 1).length fuel 0 m1) h' _ from scale_class nat hs b1 b2 b3).mono ?_))
  rintro m1' h2 ⟨rfl, f1, f2, f3⟩
  exact Runs.of_eq rfl (Runs.of_eq rfl ⟨rfl, m0', m1', ⟨rfl, e1, f1, e2, f2, e3, f3⟩⟩)

theorem compute_vocab_run {X : Matrix (Fin n) (Fin d) ℝ} (w : h.WF) (hX : HasM h s.input_set X) :
    Runs (compute_vocab s) h fun s' h' => h'.WF ∧ Keeps h h' (fun _ => False) ∧ ∃ r V, s' = { s with vocab := r } ∧ NotIn h r ∧ HasV h' r (List.get V) ∧ V.Nodup ∧
      ∀ v, v ∈ V ↔ v ∈ vocabulary X := by
  unfold compute_vocab
  obtain ⟨a, ea, la, ia⟩ := hX
  rw [ea]
  refine Runs.step (a := a) (h' := h) rfl ?_
  refine Runs.bind ((Mat.flatten_spec w ia la).mono fun r h1 ⟨o, er, f1, l1, w1, k1, z1, c1⟩ => ?_)
  subst er
  refine Runs.bind ((Data.C69_vector w1 l1).mono fun r h2 ⟨o2, er, f2, l2, w2, k2, e2⟩ => ?_)
  subst er
  have len : (h1.vec o).length = d * n := by
    have := w1.vsize o
    rw [z1] at this
    simpa using this.symm
  refine Runs.of_eq rfl ⟨w2, k1.trans k2, some (.v o2), firsts (h1.vec o), rfl, ?_, ?_, Text.firsts_nodup _, fun v => ?_⟩
  · have F2 : NotIn h1 (some (.v o2)) := fun l e => by cases e; exact f2
    exact F2.mono k1
  · exact ⟨o2, rfl, l2, isVec_of_vec w2 (by rw [e2, List.ofFn_get])⟩
  · rw [Text.mem_firsts, mem_vocabulary]
    constructor
    · intro q
      obtain ⟨k, hk, e⟩ := List.getElem_of_mem q
      rw [len] at hk
      have hd : 0 < d := by
        rcases Nat.eq_zero_or_pos d with rfl | q
        · simp at hk
        · exact q
      have hi : k / d < n := by
        rw [Nat.div_lt_iff_lt_mul hd]; rwa [Nat.mul_comm] at hk
      have := c1 ⟨k / d, hi⟩ ⟨k % d, Nat.mod_lt _ hd⟩
      refine ⟨⟨k / d, hi⟩, ⟨k % d, Nat.mod_lt _ hd⟩, ?_⟩
      have ek : k / d * d + k % d = k := by rw [Nat.mul_comm]; exact Nat.div_add_mod k d
      dsimp only at this
      rw [ek] at this
      have e' : (h1.buf (.v o))[k]? = some v := by
        rw [show h1.buf (.v o) = h1.vec o from rfl, ← e]
        exact List.getElem?_eq_getElem _
      exact Option.some.inj (this.symm.trans e')
    · rintro ⟨i, j, rfl⟩
      exact List.mem_of_getElem? (c1 i j)

/-! ## The predictions -/

theorem share_nonneg (X : Matrix (Fin n) (Fin d) ℝ) (y : Fin n → ℝ) (c : Nat) (v : ℝ) : 0 ≤ share X y c v := by
  unfold share frequency
  have : (0 : Int) ≤ ⌊((valuesIn X y c).count v : ℝ) / (members y c).length⌋ := Int.floor_nonneg.mpr (by positivity)
  exact_mod_cast this

theorem prior_nonneg (y : Fin n → ℝ) (c : Nat) : 0 ≤ prior y c := by unfold prior; positivity

/-- One score of a prediction while training. -/
theorem score_eq {X : Matrix (Fin n) (Fin d) ℝ} {y : Fin n → ℝ} {c p : Nat} {t : IntMap} (nd : V.Nodup) (hV : ∀ v, v ∈ V ↔ v ∈ vocabulary X)
    (hv : ∀ v, (t.val v : ℝ) = share X y c v) (x : Fin p → ℝ) :
    (((((V.filter fun v => v ∉ foundIn V (List.ofFn x)).map t.val).foldl (fun (a : Ext) t => a.add (Ext.log (1 - (t : Int))))
        (((foundIn V (List.ofFn x)).map t.val).foldl (fun (a : Ext) t => a.add (Ext.log (t : Int))) (.fin 1))).add (Ext.log (prior y c))).exp) =
      if ∀ v ∈ vocabulary X, (∀ j, x j ≠ v) → share X y c v ≤ 1 then .fin (Real.exp 1 * bernoulliScore (share X y) X y x c) else .nan := by
  have e1 : (((foundIn V (List.ofFn x)).map t.val).foldl (fun (a : Ext) t => a.add (Ext.log (t : Int))) (.fin 1)).exp =
      .fin (Real.exp 1 * ∏ j, if x j ∈ vocabulary X then share X y c (x j) else 1) := by
    rw [foldl_log (fun t => (t : ℝ)) _ (.fin 1) (Real.exp 1) rfl, List.map_map, ← prod_found x _ _ hV]
    · congr 3
      exact List.map_congr_left fun v _ => hv v
    · intro k q
      obtain ⟨v, -, rfl⟩ := List.mem_map.mp q
      rw [hv]
      exact share_nonneg X y c v
  have mem : ∀ v, v ∈ (V.filter fun v => v ∉ foundIn V (List.ofFn x)) ↔ v ∈ vocabulary X ∧ ∀ j, x j ≠ v := by
    intro v
    simp only [List.mem_filter, decide_eq_true_eq, hV, foundIn, List.mem_ofFn]
    refine and_congr_right fun q => ?_
    constructor
    · intro a j e; exact a ⟨⟨j, e⟩, q⟩
    · rintro a ⟨⟨j, e⟩, -⟩; exact a j e
  split
  · next q =>
    have e2 := foldl_log (fun t => 1 - (t : ℝ)) ((V.filter fun v => v ∉ foundIn V (List.ofFn x)).map t.val) _ _ e1 (by
      intro k qk
      obtain ⟨v, qv, rfl⟩ := List.mem_map.mp qk
      have := q v ((mem v).mp qv).1 ((mem v).mp qv).2
      rw [hv]
      linarith)
    rw [exp_add_log e2 (prior_nonneg y c), List.map_map]
    congr 1
    unfold bernoulliScore
    rw [← prod_missing x (fun v => 1 - share X y c v) _ nd hV, ← mul_assoc, ← mul_assoc]
    congr 3
    refine List.map_congr_left fun v _ => ?_
    show 1 - (t.val v : ℝ) = _
    rw [hv]
  · next q =>
    push Not at q
    obtain ⟨v, q1, q2, q3⟩ := q
    rw [foldl_nan (fun t => 1 - (t : ℝ)) _ _ (Or.inr ⟨t.val v, List.mem_map.mpr ⟨v, (mem v).mpr ⟨q1, q2⟩, rfl⟩, by rw [hv]; linarith⟩)]
    rfl

/-- Every value can be looked up. -/
def Covers (X : Matrix (Fin n) (Fin d) ℝ) (y : Fin n → ℝ) : Prop := ∀ v ∈ vocabulary X, Upto X y 0 v ∧ Upto X y 1 v

theorem predict_guarded {X : Matrix (Fin n) (Fin d) ℝ} {y : Fin n → ℝ} (w : h.WF) (hX : HasM h s.input_set X) (hv : HasV h s.vocab V.get) (nd : V.Nodup)
    (hV : ∀ v, v ∈ V ↔ v ∈ vocabulary X) (A : After s.theta X y t0 t1) (p0 : s.prior_0 = prior y 0) (p1 : s.prior_1 = prior y 1) {f : Fin n → ℝ}
    (hh : HasV h s.y_hat f) (i : Fin n) :
    Guarded (predict s i) h (Covers X y) fun _ h' => h'.WF ∧ Keeps h h' (some · = s.y_hat) ∧ HasV h' s.y_hat (Function.update f i (assigned X y (X i))) := by
  unfold predict
  refine Guarded.step (Hd.sizem_run hX) ?_
  dsimp only
  have hl : ∀ j (hj : j < (List.ofFn (X i)).length), Hd.element_getm s.input_set (i : Nat) (j : Nat) h = .ok ((List.ofFn (X i))[j], h) := by
    intro j hj
    rw [List.getElem_ofFn]
    exact Hd.element_getm_run w hX i ⟨j, by simpa using hj⟩
  have g1 := foundLoop_guarded w hv nd A.eq hl (fun (a : Ext) t => a.add (Ext.log (t : Int))) (.fin 1)
  rw [List.length_ofFn] at g1
  refine Guarded.mono (P := (∀ v ∈ foundIn V (List.ofFn (X i)), v ∈ t0.keys ∧ v ∈ t1.keys) ∧ (∀ v ∈ V, v ∉ foundIn V (List.ofFn (X i)) → v ∈ t0.keys ∧ v ∈ t1.keys) ∧ True)
    (g1.bind fun _ r h1 ⟨e1, er⟩ => ?_) ?_ fun _ _ _ q => q
  rotate_left
  · constructor
    · rintro ⟨q1, q2, -⟩ v qv
      rw [← A.keys0, ← A.keys1]
      by_cases q : v ∈ foundIn V (List.ofFn (X i))
      · exact q1 v q
      · exact q2 v ((hV v).mpr qv) q
    · intro q
      have q' : ∀ v ∈ V, v ∈ t0.keys ∧ v ∈ t1.keys := fun v qv => by
        rw [A.keys0, A.keys1]; exact q v ((hV v).mp qv)
      exact ⟨fun v qv => q' v (by simpa using (List.mem_filter.mp qv).2), fun v qv _ => q' v qv, trivial⟩
  · subst e1
    have g2 := missingLoop_guarded w hv A.eq (fun (a : Ext) t => a.add (Ext.log (1 - (t : Int)))) r
    have er2 : r.2.2 = foundIn V (List.ofFn (X i)) := by rw [er]
    rw [← er2]
    refine g2.bind fun _ q h2 ⟨e2, eq⟩ => Guarded.of_runs ?_
    subst e2
    refine (Hd.element_set_run w hh i _).mono fun _ h3 ⟨w3, k3, hv3⟩ => ⟨w3, k3, cast (congrArg (fun z => HasV h3 s.y_hat (Function.update f i z)) ?_) hv3⟩
    have s0 := score_eq (V := V) (X := X) (y := y) (c := 0) (t := t0) nd hV A.val0 (X i)
    have s1 := score_eq (V := V) (X := X) (y := y) (c := 1) (t := t1) nd hV A.val1 (X i)
    rw [eq, er2, er, p0, p1]
    dsimp only at s0 s1 ⊢
    rw [s0, s1]
    unfold assigned chosen
    by_cases c0 : ∀ v ∈ vocabulary X, (∀ j, X i j ≠ v) → share X y 0 v ≤ 1
    · by_cases c1 : ∀ v ∈ vocabulary X, (∀ j, X i j ≠ v) → share X y 1 v ≤ 1
      · rw [if_pos c0, if_pos c1, if_pos fun v q1 q2 => ⟨c0 v q1 q2, c1 v q1 q2⟩]
        have : (Ext.fin (Real.exp 1 * bernoulliScore (share X y) X y (X i) 0)).gt (.fin (Real.exp 1 * bernoulliScore (share X y) X y (X i) 1)) ↔
            bernoulliScore (share X y) X y (X i) 0 > bernoulliScore (share X y) X y (X i) 1 := mul_lt_mul_iff_right₀ (Real.exp_pos 1)
        simp only [this]
      · have nn : ∀ e : Ext, ¬ e.gt .nan := fun e => by cases e <;> exact id
        rw [if_neg c1, if_neg (nn _), if_neg fun q => c1 fun v q1 q2 => (q v q1 q2).2]
    · have nn : ∀ e : Ext, ¬ Ext.nan.gt e := fun e => by cases e <;> exact id
      rw [if_neg c0, if_neg (nn _), if_neg fun q => c0 fun v q1 q2 => (q v q1 q2).1]

/-! ## Training -/

/-- What is known after `j` samples. -/
structure Step (h0 : Heap ℝ) (s0 s : BernoulliNb) (h : Heap ℝ) (X : Matrix (Fin n) (Fin d) ℝ) (y : Fin n → ℝ) (f : Fin n → ℝ) (j : Nat) : Prop where
  wf : h.WF
  keeps : Keeps h0 h (fun _ => False)
  input_set : s.input_set = s0.input_set
  output_set : s.output_set = s0.output_set
  eq_hat : s.y_hat = s0.y_hat
  classes : s.class_num = 2
  before : Before s h X y
  y_hat : HasV h s.y_hat fun i : Fin n => if i.val < j then assigned X y (X i) else f i
  fit : 0 < j → (∃ V : List ℝ, HasV h s.vocab V.get ∧ V.Nodup ∧ ∀ v, v ∈ V ↔ v ∈ vocabulary X) ∧ (∃ t0 t1, After s.theta X y t0 t1) ∧
    s.prior_0 = prior y 0 ∧ s.prior_1 = prior y 1

theorem step_guarded {h0 : Heap ℝ} {s0 : BernoulliNb} {X : Matrix (Fin n) (Fin d) ℝ} {y f : Fin n → ℝ} {fuel : Nat}
    (nat : ∀ i j, ∃ k : Nat, k < fuel ∧ X i j = k) (hs : n * d < 2147483648) (lab : ∀ i, y i = 0 ∨ y i = 1) (hX : HasM h0 s0.input_set X)
    (hy : HasV h0 s0.output_set y) (fy : NotIn h0 s0.y_hat) {j : Nat} (hj : j < n) (S : Step h0 s0 s h X y f j) :
    Guarded (do
      let sum ← ones s
      let m ← Hd.size s.y_hat
      let s ← compute_theta fuel { s with prior_1 := sum / m, prior_0 := 1 - sum / m }
      let s ← compute_vocab s
      predict s j
      pure s) h (Covers X y) fun s' h' => Step h0 s0 s' h' X y f (j + 1) := by
  have hn : (n : ℝ) ≠ 0 := by have : n ≠ 0 := by omega
                              exact_mod_cast this
  have hX1 : HasM h s.input_set X := by rw [S.input_set]; exact adv_hasm S.keeps hX
  have hy1 : HasV h s.output_set y := by rw [S.output_set]; exact adv_hasv S.keeps hy
  have hh := S.y_hat
  refine Guarded.step (ones_run S.wf hy1) (Guarded.step (Hd.size_run hh) ?_)
  have e1 : ((members y 1).length : ℝ) / n = prior y 1 := rfl
  have e0 : 1 - ((members y 1).length : ℝ) / n = prior y 0 := by
    have : ((members y 0).length : ℝ) + (members y 1).length = n := by exact_mod_cast members_count y lab
    unfold prior
    field_simp
    linarith
  rw [e0, e1]
  have B := S.before
  have eh := S.eq_hat
  have ei := S.input_set
  have eo := S.output_set
  have ec := S.classes
  have w := S.wf
  have K := S.keeps
  clear S
  obtain ⟨s1, es⟩ : ∃ s1 : BernoulliNb, s1 = { s with prior_1 := prior y 1, prior_0 := prior y 0 } := ⟨_, rfl⟩
  rw [← es]
  have hX2 : HasM h s1.input_set X := by rw [es]; exact hX1
  have hy2 : HasV h s1.output_set y := by rw [es]; exact hy1
  have hh2 : HasV h s1.y_hat fun i : Fin n => if i.val < j then assigned X y (X i) else f i := by rw [es]; exact hh
  have B2 : Before s1 h X y := by rw [es]; exact ⟨B.vocab⟩
  have p0 : s1.prior_0 = prior y 0 := by rw [es]
  have p1 : s1.prior_1 = prior y 1 := by rw [es]
  have eh2 : s1.y_hat = s0.y_hat := by rw [es]; exact eh
  have ei2 : s1.input_set = s0.input_set := by rw [es]; exact ei
  have eo2 : s1.output_set = s0.output_set := by rw [es]; exact eo
  have ec2 : s1.class_num = 2 := by rw [es]; exact ec
  clear es B hh hX1 hy1 eh ei eo ec
  obtain ⟨s2, h2, r2, rfl, t0, t1, es2, A⟩ := runs_iff.mp (compute_theta_run nat hs lab w hX2 hy2 hh2 ec2 B2
    (by rw [p0]; unfold prior; field_simp) (by rw [p1]; unfold prior; field_simp))
  refine Guarded.step r2 ?_
  have hX3 : HasM h2 s2.input_set X := by rw [es2]; exact hX2
  obtain ⟨s3, h3, r3, w3, k3, r, V, es3, fr, hV, nd, mV⟩ := runs_iff.mp (compute_vocab_run (s := s2) w hX3)
  refine Guarded.step r3 ?_
  have f1 : s3.input_set = s1.input_set := by rw [es3, es2]
  have f2 : s3.output_set = s1.output_set := by rw [es3, es2]
  have f3 : s3.y_hat = s1.y_hat := by rw [es3, es2]
  have f4 : s3.class_num = 2 := by rw [es3, es2]; exact ec2
  have f5 : s3.prior_0 = prior y 0 := by rw [es3, es2]; exact p0
  have f6 : s3.prior_1 = prior y 1 := by rw [es3, es2]; exact p1
  have f7 : s3.vocab = r := by rw [es3]
  have A3 : After s3.theta X y t0 t1 := by rw [es3]; exact A
  have hX4 : HasM h3 s3.input_set X := by rw [f1]; exact adv_hasm k3 hX2
  have hh4 : HasV h3 s3.y_hat fun i : Fin n => if i.val < j then assigned X y (X i) else f i := by rw [f3]; exact adv_hasv k3 hh2
  have hV4 : HasV h3 s3.vocab V.get := by rw [f7]; exact hV
  have ne : s3.vocab ≠ s3.y_hat := by rw [f7, f3]; exact fr.ne hh2
  clear es3 es2
  have g := predict_guarded w3 hX4 hV4 nd mV A3 f5 f6 hh4 ⟨j, hj⟩
  refine Guarded.mono (P := Covers X y ∧ True) (g.bind fun q _ h5 ⟨w5, k5, hh5⟩ => Guarded.of_runs (Runs.of_eq (a := s3) rfl ?_)) (and_iff_left trivial) fun _ _ _ q => q
  have hV5 := hV4.off k5 ne
  refine ⟨w5, (K.trans k3).wrt k5 (by rw [f3, eh2]; exact fy), by rw [f1, ei2], by rw [f2, eo2], by rw [f3, eh2], f4, ?_, ?_, fun _ => ⟨⟨V, hV5, nd, mV⟩, ⟨t0, t1, A3⟩, f5, f6⟩⟩
  · refine ⟨V, hV5, fun v qv => q v ((mV v).mp qv), t0, t1, by rw [A3.eq]; rfl, ⟨A3.sane0, A3.sane1⟩, ?_, fun v => (A3.keys0 v).mp, fun v => (A3.keys1 v).mp⟩
    intro v qv
    have nv : ∀ c, v ∉ valuesIn X y c := by
      intro c q'
      obtain ⟨i, j, -, e⟩ := mem_valuesIn.mp q'
      exact qv ((mV v).mpr (mem_vocabulary.mpr ⟨i, j, e⟩))
    have z : ∀ c, share X y c v = 0 := by
      intro c
      rw [share, frequency, List.count_eq_zero_of_not_mem (nv c)]
      simp
    exact ⟨by have := (A3.val0 v).trans (z 0); exact_mod_cast this, by have := (A3.val1 v).trans (z 1); exact_mod_cast this⟩
  · refine cast (congrArg _ (funext fun c => ?_)) hh5
    by_cases ec : c = ⟨j, hj⟩
    · subst ec; simp
    · have : c.val ≠ j := fun e => ec (Fin.ext e)
      rw [Function.update_of_ne ec]
      have : (c.val < j ↔ c.val < j + 1) := by omega
      simp only [this]

theorem create_guarded {X : Matrix (Fin n) (Fin d) ℝ} {y : Fin n → ℝ} {fuel : Nat} {a b : Ref} (w : h.WF) (hX : HasM h a X) (hy : HasV h b y)
    (nat : ∀ i j, ∃ k : Nat, k < fuel ∧ X i j = k) (hs : n * d < 2147483648) (lab : ∀ i, y i = 0 ∨ y i = 1) (hn : 0 < n) :
    Guarded (create fuel a b) h (Covers X y) fun s h' => BernoulliFit s h' X y ∧ s.input_set = a ∧ s.output_set = b ∧ Keeps h h' (fun _ => False) := by
  unfold create
  obtain ⟨l1, h1, r1, o1, v1, e1, w1, k1, f1, a1⟩ := runs_iff.mp (newV_runs w)
  refine Guarded.step r1 ?_
  subst e1
  obtain ⟨l2, h2, r2, o2, v2, e2, w2, k2, f2, a2⟩ := runs_iff.mp (newV_runs w1)
  refine Guarded.step r2 ?_
  subst e2
  have K2 := k1.trans k2
  refine Guarded.step (Hd.size_run (adv_hasv K2 hy)) ?_
  obtain ⟨u3, h3, r3, w3, k3, v3, a3⟩ := runs_iff.mp (show Runs (resizeTo (.v o2) ⟨n, 1, 1⟩) h2 _ from Hd.resizev_run w2 a2 n)
  refine Guarded.step r3 ?_
  have fy : NotIn h (some (.v o2)) := f2.mono k1
  have K3 := K2.wrt k3 fy
  have ne : (some (.v o1) : Ref) ≠ some (.v o2) := fun e => f2.ne a1 e.symm
  have b1 := (adv_hasv k2 a1).off k3 ne
  unfold evaluate
  refine Guarded.step (Hd.size_run (adv_hasv K3 hy)) ?_
  obtain ⟨s, es⟩ : ∃ s : BernoulliNb, s = ⟨0, 0, [], some (.v o1), 2, a, b, some (.v o2)⟩ := ⟨_, rfl⟩
  rw [← es]
  have S0 : Step h s s h3 X y v3 0 := by
    refine ⟨w3, K3, rfl, rfl, rfl, by rw [es], ⟨[], ?_, by simp, IntMap.empty, IntMap.empty, by rw [es]; rfl, ⟨sane_empty, sane_empty⟩, fun _ _ => ⟨rfl, rfl⟩,
      by simp [IntMap.empty], by simp [IntMap.empty]⟩, by rw [es]; simpa using a3, fun q => absurd q (lt_irrefl 0)⟩
    rw [es]
    refine cast (congrArg _ (funext fun i => i.elim0)) b1
  have ea : s.input_set = a := by rw [es]
  have eb : s.output_set = b := by rw [es]
  have ey : s.y_hat = some (.v o2) := by rw [es]
  clear es
  refine (Guarded.foldN n (fun j s' h' => Step h s s' h' X y v3 j) (fun _ => Covers X y) _ s h3 S0 fun j s' h' hj S =>
    step_guarded nat hs lab (by rw [ea]; exact hX) (by rw [eb]; exact hy) (by rw [ey]; exact fy) hj S).mono ⟨fun q => q 0 hn, fun q _ _ => q⟩ ?_
  intro q s' h' S
  have cov : Covers X y := q 0 hn
  obtain ⟨hV, ⟨t0, t1, A⟩, p0, p1⟩ := S.fit hn
  refine ⟨⟨S.wf, by rw [S.input_set, ea]; exact adv_hasm S.keeps hX, by rw [S.output_set, eb]; exact adv_hasv S.keeps hy, hV,
    ⟨t0, t1, A.eq, fun v qv => ⟨⟨(A.keys0 v).mpr (cov v qv).1, (A.keys1 v).mpr (cov v qv).2⟩, A.val0 v, A.val1 v⟩⟩, p0, p1, by simpa using S.y_hat⟩,
    by rw [S.input_set, ea], by rw [S.output_set, eb], S.keeps⟩

end Verif.BernoulliNb
