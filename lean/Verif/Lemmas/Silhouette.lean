import Verif.Lemmas.KMeans
import Verif.Spec.Silhouette
import Verif.Props.VectorMisc
import Verif.Props.KMeans

/-! # Lemmas about `silhouette_scores` -/

namespace Verif
open Spec

theorem Hd.is_equal_approx_run {h : Heap ℝ} (w : h.WF) {a b : Ref} {d : Nat} {u v : Fin d → ℝ} (ha : HasV h a u) (hb : HasV h b v) (tol : ℝ) :
    ∃ r, Hd.is_equal_approx a b tol h = .ok (r, h) ∧ (r = true ↔ Close tol u v) := by
  obtain ⟨x, rfl, -, iu⟩ := ha; obtain ⟨y, rfl, -, iv⟩ := hb
  obtain ⟨r, e, hr⟩ := C16_is_equal_approx h w (.v x) (.v y) tol
  have bu := iu.vec_eq w
  have bv := iv.vec_eq w
  refine ⟨r, e, hr.trans ⟨?_, fun c => .inr ⟨by rw [iu.1, iv.1], ?_⟩⟩⟩
  · rintro (e | ⟨_, q⟩)
    · cases e
      intro i
      have := (iu.2 i).symm.trans (iv.2 i)
      exact .inl (by simpa using this)
    · intro i
      exact q i _ _ (iu.2 i) (iv.2 i)
  · intro j x' y' hx hy
    have hj : j < d := by
      have := (List.getElem?_eq_some_iff.mp hx).1
      rw [w.len, iu.1] at this
      simpa [Size.count] using this
    have e1 := iu.2 ⟨j, hj⟩
    have e2 := iv.2 ⟨j, hj⟩
    rw [hx] at e1; rw [hy] at e2
    cases e1; cases e2
    exact c ⟨j, hj⟩

namespace KMeans
variable {h : Heap ℝ} {s : KMeans} {n d k : Nat}

theorem total_run {X : Matrix (Fin n) (Fin d) ℝ} {xi xk : Ref} {x : Fin d → ℝ} {p : Nat} {v : Fin p → ℝ} (w : h.WF) (hX : HasM h s.input_set X) (hi : HasV h xi x)
    (hk : HasV h xk v) (ne : xi ≠ xk) :
    Runs (total s xi xk n) h fun r h' => h'.WF ∧ Keeps h h' (some · = xk) ∧ (∃ (p : Nat) (v : Fin p → ℝ), HasV h' xk v) ∧ r = ∑ j, straight x (X j) := by
  unfold total
  refine (Runs.foldN n (fun t r h' => h'.WF ∧ Keeps h h' (some · = xk) ∧ HasM h' s.input_set X ∧ HasV h' xi x ∧ (∃ (p : Nat) (v : Fin p → ℝ), HasV h' xk v) ∧
    r = ∑ a ∈ Finset.range t, term (fun j => straight x (X j)) a) _ _ h ⟨w, Keeps.refl _ _, hX, hi, ⟨_, _, hk⟩, by simp⟩ ?_).mono
    fun r h' ⟨w', K', _, _, v', e⟩ => ⟨w', K', v', by rw [e, term_sum]⟩
  intro t r h1 ht ⟨w1, K1, hX1, hi1, ⟨p1, v1, hk1⟩, er⟩
  clear hX hi hk
  refine Runs.bind ((Hd.row_get_into_run w1 hX1 hk1 ⟨t, ht⟩).mono fun _ h2 ⟨w2, k2, hk2⟩ => ?_)
  have K2 := K1.trans k2
  wr k2
  refine Runs.step (Hd.euclidean_distance_run w2 hi1 hk2) ?_
  refine Runs.of_eq rfl ⟨w2, K2, hX1, hi1, ⟨_, _, hk2⟩, ?_⟩
  rw [Finset.sum_range_succ, term_lt _ ht, er]; rfl

open Classical in
theorem matching_run {X : Matrix (Fin n) (Fin d) ℝ} {ck muj : Ref} {u : Fin d → ℝ} {p : Nat} {v : Fin p → ℝ} (tol : ℝ) (w : h.WF) (hX : HasM h s.input_set X) (hm : HasV h muj u)
    (hk : HasV h ck v) (ne : muj ≠ ck) :
    Runs (matching s tol ck muj n) h fun r h' => h'.WF ∧ Keeps h h' (some · = ck) ∧ (∃ (p : Nat) (v : Fin p → ℝ), HasV h' ck v) ∧ r = coincide tol X u := by
  unfold matching
  refine (Runs.foldN n (fun t r h' => h'.WF ∧ Keeps h h' (some · = ck) ∧ HasM h' s.input_set X ∧ HasV h' muj u ∧ (∃ (p : Nat) (v : Fin p → ℝ), HasV h' ck v) ∧
    r = ∑ a ∈ Finset.range t, term (fun j => if Close tol (X j) u then 1 else 0) a) _ _ h ⟨w, Keeps.refl _ _, hX, hm, ⟨_, _, hk⟩, by simp⟩ ?_).mono
    fun r h' ⟨w', K', _, _, v', e⟩ => ⟨w', K', v', by rw [e, term_sum, coincide, Finset.sum_boole]⟩
  intro t r h1 ht ⟨w1, K1, hX1, hm1, ⟨p1, v1, hk1⟩, er⟩
  clear hX hm hk
  refine Runs.bind ((Hd.row_get_into_run w1 hX1 hk1 ⟨t, ht⟩).mono fun _ h2 ⟨w2, k2, hk2⟩ => ?_)
  have K2 := K1.trans k2
  wr k2
  obtain ⟨b, eb, hb⟩ := Hd.is_equal_approx_run w2 hk2 hm1 tol
  refine Runs.step eb ?_
  have fin : ∀ q : ℝ, (q = r + if Close tol (X ⟨t, ht⟩) u then 1 else 0) → Runs (pure q : M ℝ ℝ) h2 fun r h' => h'.WF ∧ Keeps h h' (some · = ck) ∧ HasM h' s.input_set X ∧ HasV h' muj u ∧
      (∃ (p : Nat) (v : Fin p → ℝ), HasV h' ck v) ∧ r = ∑ a ∈ Finset.range (t + 1), term (fun j => if Close tol (X j) u then 1 else 0) a := by
    intro q e
    refine Runs.of_eq rfl ⟨w2, K2, hX1, hm1, ⟨_, _, hk2⟩, ?_⟩
    rw [Finset.sum_range_succ, term_lt _ ht, ← er, e]
  cases b
  · exact fin r (by rw [if_neg (fun c => Bool.false_ne_true (hb.2 c)), add_zero])
  · exact fin (r + 1) (by rw [if_pos (hb.1 rfl)])

open Classical in
theorem inner_run {X : Matrix (Fin n) (Fin d) ℝ} {R : Matrix (Fin n) (Fin k) ℝ} {c : Fin n → Fin k} {ri rj xi xj : Ref} {p q : Nat} {v : Fin p → ℝ} {u : Fin q → ℝ} {tol : ℝ}
    (i : Fin n) (m : Members R c) (t1 : tol ≤ 1) (w : h.WF) (hX : HasM h s.input_set X) (hR : HasM h s.r R) (hri : HasV h ri (R i)) (hxi : HasV h xi (X i))
    (hrj : HasV h rj v) (hxj : HasV h xj u) (n1 : ri ≠ rj) (n2 : ri ≠ xj) (n3 : xi ≠ rj) (n4 : xi ≠ xj) (n5 : rj ≠ xj) :
    Runs (inner s tol ri rj xi xj n i) h fun r h' => h'.WF ∧ Keeps h h' (fun x => some x = rj ∨ some x = xj) ∧ (∃ (p : Nat) (v : Fin p → ℝ), HasV h' rj v) ∧
      (∃ (p : Nat) (v : Fin p → ℝ), HasV h' xj v) ∧ r = ownSum X c i := by
  unfold inner
  have hown : ownSum X c i = ∑ j, if j ≠ i ∧ c j = c i then straight (X i) (X j) else 0 := by rw [ownSum, Finset.sum_filter]
  refine (Runs.foldN n (fun t r h' => h'.WF ∧ Keeps h h' (fun x => some x = rj ∨ some x = xj) ∧ HasM h' s.input_set X ∧ HasM h' s.r R ∧ HasV h' ri (R i) ∧ HasV h' xi (X i) ∧
    (∃ (p : Nat) (v : Fin p → ℝ), HasV h' rj v) ∧ (∃ (p : Nat) (v : Fin p → ℝ), HasV h' xj v) ∧
    r = ∑ a ∈ Finset.range t, term (fun j => if j ≠ i ∧ c j = c i then straight (X i) (X j) else 0) a) _ _ h
    ⟨w, Keeps.refl _ _, hX, hR, hri, hxi, ⟨_, _, hrj⟩, ⟨_, _, hxj⟩, by simp⟩ ?_).mono
    fun r h' ⟨w', K', _, _, _, _, v', u', e⟩ => ⟨w', K', v', u', by rw [e, term_sum, hown]⟩
  intro t r h1 ht ⟨w1, K1, hX1, hR1, hri1, hxi1, ⟨p1, v1, hrj1⟩, ⟨q1, u1, hxj1⟩, er⟩
  clear hX hR hri hxi hrj hxj
  have step : ∀ x : ℝ, (x = r + if (⟨t, ht⟩ : Fin n) ≠ i ∧ c ⟨t, ht⟩ = c i then straight (X i) (X ⟨t, ht⟩) else 0) →
      x = ∑ a ∈ Finset.range (t + 1), term (fun j => if j ≠ i ∧ c j = c i then straight (X i) (X j) else 0) a := by
    intro x e
    rw [Finset.sum_range_succ, term_lt _ ht, ← er, e]
  by_cases e : i.val = t
  · rw [if_pos e]
    exact Runs.of_eq rfl ⟨w1, K1, hX1, hR1, hri1, hxi1, ⟨_, _, hrj1⟩, ⟨_, _, hxj1⟩, step _ (by rw [if_neg (fun a => a.1 (Fin.ext e.symm)), add_zero])⟩
  rw [if_neg e]
  refine Runs.bind ((Hd.row_get_into_run w1 hR1 hrj1 ⟨t, ht⟩).mono fun _ h2 ⟨w2, k2, hrj2⟩ => ?_)
  have K2 : Keeps h h2 (fun x => some x = rj ∨ some x = xj) := K1.trans (k2.mono fun _ _ => .inl)
  wr k2
  obtain ⟨b, eb, hb⟩ := Hd.is_equal_approx_run w2 hri1 hrj2 tol
  have same : Close tol (R i) (R ⟨t, ht⟩) ↔ c ⟨t, ht⟩ = c i := by
    refine ⟨fun q => ?_, fun q j => .inl (by rw [m, m, q])⟩
    by_contra ne
    have := q (c i)
    rw [m, m, if_pos rfl, if_neg (Ne.symm ne)] at this
    rcases this with this | this
    · exact one_ne_zero this
    · rw [sub_zero, abs_one] at this; linarith
  refine Runs.step eb ?_
  cases b
  · exact Runs.of_eq rfl ⟨w2, K2, hX1, hR1, hri1, hxi1, ⟨_, _, hrj2⟩, ⟨_, _, hxj1⟩,
      step _ (by rw [if_neg (fun a => Bool.false_ne_true (hb.2 (same.2 a.2))), add_zero])⟩
  · rw [if_pos rfl]
    refine Runs.bind ((Hd.row_get_into_run w2 hX1 hxj1 ⟨t, ht⟩).mono fun _ h3 ⟨w3, k3, hxj3⟩ => ?_)
    have K3 : Keeps h h3 (fun x => some x = rj ∨ some x = xj) := K2.trans (k3.mono fun _ _ => .inr)
    wr k3
    refine Runs.step (Hd.euclidean_distance_run w3 hxi1 hxj3) ?_
    exact Runs.of_eq rfl ⟨w3, K3, hX1, hR1, hri1, hxi1, ⟨_, _, hrj2⟩, ⟨_, _, hxj3⟩,
      step _ (by rw [if_pos ⟨fun a => e (congrArg Fin.val a).symm, same.1 (hb.1 rfl)⟩]; rfl)⟩

/-- The least of the values of the centroids before `t` that count, if there is one. -/
def Lowest (tol : ℝ) (X : Matrix (Fin n) (Fin d) ℝ) (C : Matrix (Fin k) (Fin d) ℝ) (v : Fin d → ℝ) (S : ℝ) (t : Nat) (b : Option ℝ) : Prop :=
  (∀ j : Fin k, j.val < t → Counts tol X C v j → ∃ x, b = some x ∧ x ≤ S / coincide tol X (C j)) ∧
  ∀ x, b = some x → ∃ j : Fin k, j.val < t ∧ Counts tol X C v j ∧ x = S / coincide tol X (C j)

theorem outer_run {X : Matrix (Fin n) (Fin d) ℝ} {C : Matrix (Fin k) (Fin d) ℝ} {ci muj xi xk ck : Ref} {p q r : Nat} {v : Fin p → ℝ} {u : Fin q → ℝ} {t : Fin r → ℝ} (tol : ℝ)
    {y x : Fin d → ℝ} (w : h.WF) (hX : HasM h s.input_set X) (hC : HasM h s.mu C) (hci : HasV h ci y) (hxi : HasV h xi x)
    (hmj : HasV h muj v) (hxk : HasV h xk u) (hck : HasV h ck t) (n1 : ci ≠ muj) (n2 : ci ≠ xk) (n3 : ci ≠ ck) (n4 : xi ≠ muj) (n5 : xi ≠ xk) (n6 : xi ≠ ck)
    (n7 : muj ≠ xk) (n8 : muj ≠ ck) (n9 : xk ≠ ck) :
    Runs (outer s tol ci muj xi xk ck k n n) h fun b h' => h'.WF ∧ Keeps h h' (fun l => some l = muj ∨ some l = xk ∨ some l = ck) ∧ (∃ (p : Nat) (v : Fin p → ℝ), HasV h' muj v) ∧
      (∃ (p : Nat) (v : Fin p → ℝ), HasV h' xk v) ∧ (∃ (p : Nat) (v : Fin p → ℝ), HasV h' ck v) ∧ Lowest tol X C y (∑ j, straight x (X j)) k b := by
  unfold outer
  refine (Runs.foldN k (fun j b h' => h'.WF ∧ Keeps h h' (fun l => some l = muj ∨ some l = xk ∨ some l = ck) ∧ HasM h' s.input_set X ∧ HasM h' s.mu C ∧ HasV h' ci y ∧ HasV h' xi x ∧
    (∃ (p : Nat) (v : Fin p → ℝ), HasV h' muj v) ∧ (∃ (p : Nat) (v : Fin p → ℝ), HasV h' xk v) ∧ (∃ (p : Nat) (v : Fin p → ℝ), HasV h' ck v) ∧
    Lowest tol X C y (∑ j, straight x (X j)) j b) _ _ h
    ⟨w, Keeps.refl _ _, hX, hC, hci, hxi, ⟨_, _, hmj⟩, ⟨_, _, hxk⟩, ⟨_, _, hck⟩, ⟨fun _ e => absurd e (Nat.not_lt_zero _), fun _ e => by cases e⟩⟩ ?_).mono
    fun r h' ⟨w', K', _, _, _, _, a1, a2, a3, e⟩ => ⟨w', K', a1, a2, a3, e⟩
  intro j b h1 hj ⟨w1, K1, hX1, hC1, hci1, hxi1, ⟨p1, v1, hmj1⟩, ⟨q1, u1, hxk1⟩, ⟨r1, t1, hck1⟩, L⟩
  clear hX hC hci hxi hmj hxk hck
  refine Runs.bind ((Hd.row_get_into_run w1 hC1 hmj1 ⟨j, hj⟩).mono fun _ h2 ⟨w2, k2, hmj2⟩ => ?_)
  have K2 : Keeps h h2 (fun l => some l = muj ∨ some l = xk ∨ some l = ck) := K1.trans (k2.mono fun _ _ => .inl)
  wr k2
  obtain ⟨z, ez, hz⟩ := Hd.is_equal_approx_run w2 hci1 hmj2 tol
  refine Runs.step ez ?_
  have stay : ¬ Counts tol X C y ⟨j, hj⟩ → Lowest tol X C y (∑ j, straight x (X j)) (j + 1) b := fun nc =>
    ⟨fun l hl cl => L.1 l (by
      rcases Nat.lt_succ_iff_lt_or_eq.1 hl with e | e
      · exact e
      · exact absurd (by rwa [show l = ⟨j, hj⟩ from Fin.ext e] at cl) nc) cl,
    fun x e => let ⟨l, a, b, c⟩ := L.2 x e; ⟨l, Nat.lt_succ_of_lt a, b, c⟩⟩
  cases z
  · rw [if_neg Bool.false_ne_true]
    refine Runs.bind ((total_run w2 hX1 hxi1 hxk1 n5).mono fun S h3 ⟨w3, k3, ⟨q3, u3, hxk3⟩, eS⟩ => ?_)
    have K3 : Keeps h h3 (fun l => some l = muj ∨ some l = xk ∨ some l = ck) := K2.trans (k3.mono fun _ _ e => .inr (.inl e))
    wr k3
    refine Runs.bind ((matching_run tol w3 hX1 hmj2 hck1 n8).mono fun m h4 ⟨w4, k4, ⟨r4, t4, hck4⟩, em⟩ => ?_)
    have K4 : Keeps h h4 (fun l => some l = muj ∨ some l = xk ∨ some l = ck) := K3.trans (k4.mono fun _ _ e => .inr (.inr e))
    wr k4
    refine Runs.of_eq rfl ⟨w4, K4, hX1, hC1, hci1, hxi1, ⟨_, _, hmj2⟩, ⟨_, _, hxk3⟩, ⟨_, _, hck4⟩, ?_⟩
    subst eS em
    have nc : ¬ Close tol y (C ⟨j, hj⟩) := fun c => Bool.false_ne_true (hz.2 c)
    unfold lower
    by_cases m0 : coincide tol X (C ⟨j, hj⟩) = 0
    · rw [if_neg (fun a => a.1 (by rw [m0, Nat.cast_zero]))]
      exact stay fun a => a.2 m0
    have m0' : ((coincide tol X (C ⟨j, hj⟩) : ℕ) : ℝ) ≠ 0 := Nat.cast_ne_zero.2 m0
    by_cases lt : ∀ z, b = some z → (∑ j, straight x (X j)) / (coincide tol X (C ⟨j, hj⟩) : ℝ) < z
    · rw [if_pos ⟨m0', lt⟩]
      refine ⟨fun l hl cl => ⟨_, rfl, ?_⟩, fun z e => ⟨⟨j, hj⟩, Nat.lt_succ_self _, ⟨nc, m0⟩, (Option.some.inj e).symm⟩⟩
      rcases Nat.lt_succ_iff_lt_or_eq.1 hl with e | e
      · obtain ⟨z, ez, lz⟩ := L.1 l e cl
        exact (lt z ez).le.trans lz
      · rw [show l = ⟨j, hj⟩ from Fin.ext e]
    · rw [if_neg fun a => lt a.2]
      push Not at lt
      obtain ⟨z, ez, lz⟩ := lt
      refine ⟨fun l hl cl => ?_, fun x e => let ⟨l, a, b, c⟩ := L.2 x e; ⟨l, Nat.lt_succ_of_lt a, b, c⟩⟩
      rcases Nat.lt_succ_iff_lt_or_eq.1 hl with e | e
      · exact L.1 l e cl
      · rw [show l = ⟨j, hj⟩ from Fin.ext e]; exact ⟨z, ez, lz⟩
  · rw [if_pos rfl]
    exact Runs.of_eq rfl ⟨w2, K2, hX1, hC1, hci1, hxi1, ⟨_, _, hmj2⟩, ⟨_, _, hxk1⟩, ⟨_, _, hck1⟩, stay fun a => a.1 (hz.1 rfl)⟩

/-- What `silhouette_scores` computes for each point. -/
theorem silhouette_run {X : Matrix (Fin n) (Fin d) ℝ} {C : Matrix (Fin k) (Fin d) ℝ} {R : Matrix (Fin n) (Fin k) ℝ} {c : Fin n → Fin k} {tol : ℝ} (nan : ℝ)
    (hk : 0 < k) (hn : 0 < n) (t1 : tol ≤ 1) (Q : KReady h s X C R) (hi : s.initialized = true) (m : Members R c) :
    Runs (silhouette_scores s tol nan) h fun o h' => h'.WF ∧ Keeps h h' (fun _ => False) ∧ NotIn h o ∧ ∃ v : Fin n → ℝ, HasV h' o v ∧
      ∀ i, ∃ f b, FirstNearest C (X i) f ∧ Lowest tol X C (C f) (allSum X i) k b ∧ v i = quotient nan (ownSum X c i) d b := by
  unfold silhouette_scores
  rw [if_neg (by simp [hi])]
  refine Runs.bind ((set_test_core hk Q hi hn Q.data le_rfl).mono fun o0 h1 ⟨w1, k1, f0, cf, hcf, ho⟩ => ?_)
  have hfirst : ∀ i, FirstNearest C (X i) (cf i) := fun i => by
    have := (hcf i).first
    rwa [show (⟨min i (n - 1), by omega⟩ : Fin n) = i from Fin.ext (by simp; omega)] at this
  obtain ⟨-, hX, hC, hR, -, -, -⟩ := Q
  have K1 := k1
  adv k1
  clear k1
  obtain ⟨oc, rfl, lo, io⟩ := ho
  have ho : HasM h1 (some (.m oc)) fun i => C (cf i) := ⟨oc, rfl, lo, io⟩
  clear lo io
  refine Runs.step (Hd.sizem_run hX) ?_
  refine Runs.step (Hd.sizem_run hC) ?_
  refine Runs.step (Hd.sizem_run ho) ?_
  dsimp only
  refine stepNewV w1 fun os h2 vs w2 k2 f2 hs => ?_
  have fs : NotIn h (some (Loc.v os)) := f2.mono K1
  have K2 := K1.trans k2
  nw f2 k2
  clear k2
  refine stepNewV w2 fun oxi h3 vxi w3 k3 f3 hxi => ?_
  have fxi : NotIn h (some (Loc.v oxi)) := f3.mono K2
  have K3 := K2.trans k3
  nw f3 k3
  clear k3
  refine stepNewV w3 fun oxj h4 vxj w4 k4 f4 hxj => ?_
  have fxj : NotIn h (some (Loc.v oxj)) := f4.mono K3
  have K4 := K3.trans k4
  nw f4 k4
  clear k4
  refine stepNewV w4 fun oxk h5 vxk w5 k5 f5 hxk => ?_
  have fxk : NotIn h (some (Loc.v oxk)) := f5.mono K4
  have K5 := K4.trans k5
  nw f5 k5
  clear k5
  refine Runs.step (Hd.sizem_run hR) ?_
  dsimp only
  refine stepNewV w5 fun ori h6 vri w6 k6 f6 hri => ?_
  have fri : NotIn h (some (Loc.v ori)) := f6.mono K5
  have K6 := K5.trans k6
  nw f6 k6
  clear k6
  refine stepNewV w6 fun orj h7 vrj w7 k7 f7 hrj => ?_
  have frj : NotIn h (some (Loc.v orj)) := f7.mono K6
  have K7 := K6.trans k7
  nw f7 k7
  clear k7
  refine stepNewV w7 fun oci h8 vci w8 k8 f8 hci => ?_
  have fci : NotIn h (some (Loc.v oci)) := f8.mono K7
  have K8 := K7.trans k8
  nw f8 k8
  clear k8
  refine stepNewV w8 fun ock h9 vck w9 k9 f9 hck => ?_
  have fck : NotIn h (some (Loc.v ock)) := f9.mono K8
  have K9 := K8.trans k9
  nw f9 k9
  clear k9
  refine stepNewV w9 fun omj h10 vmj w10 k10 f10 hmj => ?_
  have fmj : NotIn h (some (Loc.v omj)) := f10.mono K9
  have K10 := K9.trans k10
  nw f10 k10
  clear k10
  refine Runs.bind ((Runs.forN n (fun i h' => h'.WF ∧ Keeps h h' (fun _ => False) ∧ HasM h' s.input_set X ∧ HasM h' s.mu C ∧ HasM h' s.r R ∧
    HasM h' (some (.m oc)) (fun i => C (cf i)) ∧ (∃ (p : Nat) (v : Fin p → ℝ), HasV h' (some (.v oxi)) v) ∧ (∃ (p : Nat) (v : Fin p → ℝ), HasV h' (some (.v oxj)) v) ∧
    (∃ (p : Nat) (v : Fin p → ℝ), HasV h' (some (.v oxk)) v) ∧ (∃ (p : Nat) (v : Fin p → ℝ), HasV h' (some (.v ori)) v) ∧
    (∃ (p : Nat) (v : Fin p → ℝ), HasV h' (some (.v orj)) v) ∧ (∃ (p : Nat) (v : Fin p → ℝ), HasV h' (some (.v oci)) v) ∧
    (∃ (p : Nat) (v : Fin p → ℝ), HasV h' (some (.v ock)) v) ∧ (∃ (p : Nat) (v : Fin p → ℝ), HasV h' (some (.v omj)) v) ∧
    ∃ v : Fin n → ℝ, HasV h' (some (.v os)) v ∧ ∀ e : Fin n, e.val < i → ∃ f b, FirstNearest C (X e) f ∧ Lowest tol X C (C f) (allSum X e) k b ∧
      v e = quotient nan (ownSum X c e) d b) _ h10
    ⟨w10, K10, hX, hC, hR, ho, ⟨_, _, hxi⟩, ⟨_, _, hxj⟩, ⟨_, _, hxk⟩, ⟨_, _, hri⟩, ⟨_, _, hrj⟩, ⟨_, _, hci⟩, ⟨_, _, hck⟩, ⟨_, _, hmj⟩, _, hs,
      fun e he => absurd he (by omega)⟩ ?_).mono ?_)
  · clear hX hC hR ho hxi hxj hxk hri hrj hci hck hmj hs K1 K2 K3 K4 K5 K6 K7 K8 K9 K10
    intro i h11 hin ⟨w11, K11, hX, hC, hR, ho, ⟨_, _, hxi⟩, ⟨_, _, hxj⟩, ⟨_, _, hxk⟩, ⟨_, _, hri⟩, ⟨_, _, hrj⟩, ⟨_, _, hci⟩, ⟨_, _, hck⟩, ⟨_, _, hmj⟩, v, hs, ev⟩
    refine Runs.bind ((Hd.row_get_into_run w11 hR hri ⟨i, hin⟩).mono fun _ h12 ⟨w12, k12, hri2⟩ => ?_)
    have K12 := K11.wrt k12 fri
    wr k12
    refine Runs.bind ((Hd.row_get_into_run w12 hX hxi ⟨i, hin⟩).mono fun _ h13 ⟨w13, k13, hxi2⟩ => ?_)
    have K13 := K12.wrt k13 fxi
    wr k13
    refine Runs.bind ((inner_run ⟨i, hin⟩ m t1 w13 hX hR hri2 hxi2 hrj hxj (by neq) (by neq) (by neq) (by neq) (by neq)).mono
      fun a h14 ⟨w14, k14, ⟨_, _, hrj2⟩, ⟨_, _, hxj2⟩, ea⟩ => ?_)
    have K14 := K13.wrt2 k14 frj fxj
    wr k14
    refine Runs.bind ((Hd.row_get_into_run w14 ho hci ⟨i, hin⟩).mono fun _ h15 ⟨w15, k15, hci2⟩ => ?_)
    have K15 := K14.wrt k15 fci
    wr k15
    refine Runs.bind ((outer_run tol w15 hX hC hci2 hxi2 hmj hxk hck (by neq) (by neq) (by neq) (by neq) (by neq) (by neq) (by neq) (by neq) (by neq)).mono
      fun b h16 ⟨w16, k16, ⟨_, _, hmj2⟩, ⟨_, _, hxk2⟩, ⟨_, _, hck2⟩, L⟩ => ?_)
    have K16 : Keeps h h16 (fun _ => False) := K15.trans_new k16 fun l e hl => by
      rcases e with e | e | e
      · exact (fmj l e.symm hl).elim
      · exact (fxk l e.symm hl).elim
      · exact (fck l e.symm hl).elim
    have offM : ∀ {p q : Nat} {r : Ref} {A : Matrix (Fin p) (Fin q) ℝ}, HasM h15 r A → HasM h16 r A := fun a => a.keep k16 fun l e e' => by
      rcases e' with e' | e' | e'
      · exact hmj.ne_mat a (e'.symm.trans e.symm)
      · exact hxk.ne_mat a (e'.symm.trans e.symm)
      · exact hck.ne_mat a (e'.symm.trans e.symm)
    have offV : ∀ {p : Nat} {r : Ref} {u : Fin p → ℝ}, HasV h15 r u → r ≠ some (.v omj) → r ≠ some (.v oxk) → r ≠ some (.v ock) → HasV h16 r u :=
      fun a n1 n2 n3 => a.keep k16 fun l e e' => by
        rcases e' with e' | e' | e'
        · exact n1 (e.trans e')
        · exact n2 (e.trans e')
        · exact n3 (e.trans e')
    replace hX := offM hX; replace hC := offM hC; replace hR := offM hR; replace ho := offM ho
    replace hxi2 := offV hxi2 (by neq) (by neq) (by neq); replace hri2 := offV hri2 (by neq) (by neq) (by neq)
    replace hxj2 := offV hxj2 (by neq) (by neq) (by neq); replace hrj2 := offV hrj2 (by neq) (by neq) (by neq)
    replace hci2 := offV hci2 (by neq) (by neq) (by neq); replace hs := offV hs (by neq) (by neq) (by neq)
    clear offM offV hmj hxk hck
    refine (Hd.element_set_run w16 hs ⟨i, hin⟩ _).mono fun _ h17 ⟨w17, k17, hs2⟩ => ?_
    have K17 := K16.wrt k17 fs
    wr k17
    refine ⟨w17, K17, hX, hC, hR, ho, ⟨_, _, hxi2⟩, ⟨_, _, hxj2⟩, ⟨_, _, hxk2⟩, ⟨_, _, hri2⟩, ⟨_, _, hrj2⟩, ⟨_, _, hci2⟩, ⟨_, _, hck2⟩, ⟨_, _, hmj2⟩, _, hs2, fun e he => ?_⟩
    by_cases ee : e = ⟨i, hin⟩
    · subst ee
      exact ⟨_, b, hfirst _, L, by rw [Function.update_self, ea]⟩
    · have he' : e.val < i := by
        have : e.val ≠ i := fun x => ee (Fin.ext x)
        omega
      obtain ⟨f, b', q1, q2, q3⟩ := ev e he'
      exact ⟨f, b', q1, q2, by rw [Function.update_of_ne ee, q3]⟩
  · intro _ h' ⟨w', K', _, _, _, _, _, _, _, _, _, _, _, _, v, hv, ev⟩
    exact Runs.of_eq rfl ⟨w', K', fs, v, hv, fun i => ev i i.isLt⟩

end KMeans
end Verif
