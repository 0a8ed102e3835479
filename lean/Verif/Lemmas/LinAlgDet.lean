import Verif.Lemmas.Advance
import Verif.Lemmas.LiftSpec
import Verif.Model.LinAlgMatrix

/-! # `MLPPLinAlg`: determinant, cofactors, adjugate -/

namespace Verif
open Spec
open SortArray (tab upd tab_get tab_length tab_set tab_of_list)
variable {R : Type} {m n p : Nat} {α β σ : Type}

theorem detm_spec [CommRing R] [MathFns R] (hp : PowNegOne R) :
    ∀ (d : Nat), 2 ≤ d → ∀ (h : Heap R), h.WF → ∀ (a ca ra : Nat) (F : Nat → Nat → R), Cells h (.m a) ca ra F → h.live (.m a) →
      d ≤ ca → d ≤ ra → ReturnsVal (LinAlg.detm (some (.m a)) d) h (Matrix.det (Matrix.of fun i j : Fin d => F i j)) := by
  intro d hd
  induction d, hd using Nat.le_induction with
  | base =>
    intro h w a ca ra F ha la h1 h2
    unfold LinAlg.detm
    refine Runs.newMat w rfl fun h1' w1 k1 f1 l1 s1 => Runs.fill w1 s1 ?_
    have na : Loc.m a ≠ .m h.next := live_ne_fresh la rfl
    have ha3 := (ha.keep k1 la nofun).Gr (c' := 2) (r' := 2) (G := fun _ _ => (0 : R)) na
    have g : ∀ i j : Nat, i < 2 → j < 2 → Mat.element_get a i j _ = .ok (F i j, _) :=
      fun i j hi hj => Mat.element_get_run ha3 (by omega) (by omega)
    refine Runs.step (g 0 0 (by omega) (by omega)) (Runs.step (g 1 1 (by omega) (by omega))
      (Runs.step (g 0 1 (by omega) (by omega)) (Runs.step (g 1 0 (by omega) (by omega)) ?_)))
    exact ⟨by rw [Matrix.det_fin_two]; rfl, Gr_wf w1 _ s1,
      k1.trans_new (Gr_updated h1' _ _ s1).keeps (fun _ e hl' => f1 (e ▸ hl'))⟩
  | succ d hd ih =>
    intro h w a ca ra F ha la h1 h2
    unfold LinAlg.detm
    have hd2 : d ≠ 1 := by omega
    split
    · omega
    · omega
    · next d' hne heq =>
      obtain rfl : d' = d := by omega
      refine Runs.newMat w rfl fun h1' w1 k1 f1 l1 s1 => Runs.fill w1 s1 ?_
      have na : Loc.m a ≠ .m h.next := live_ne_fresh la rfl
      let minorDet : Nat → R := fun i => MathFns.pow (-1 : R) (i : R) * F 0 i *
        Matrix.det (Matrix.of fun x y : Fin d' => F (x + 1) (skip i y))
      have inv := Runs.foldN (d' + 1) (fun i s (h2 : Heap R) => h2.WF ∧ Keeps h h2 (fun _ => False) ∧ h2.live (.m h.next) ∧
          h2.size (.m h.next) = ⟨d' + 1, d' + 1, 1⟩ ∧ s = (List.range i).foldl (fun acc k => acc + minorDet k) 0)
        (fun i deter => do
          let _ ← loop 1 d' 0 fun j sub_i => do
            let _ ← Mat.detRow a h.next (d' + 1) i j sub_i
            pure (sub_i + 1)
          let x ← Mat.element_get a 0 i
          let m ← LinAlg.detm (some (.m h.next)) d'
          pure (deter + MathFns.pow (-1 : R) (i : R) * x * m)) 0 (Gr h1' (.m h.next) (d' + 1) (d' + 1) fun _ _ => 0)
        ⟨Gr_wf w1 _ s1, k1.trans_new (Gr_updated h1' _ _ s1).keeps (fun _ e hl' => f1 (e ▸ hl')), l1, s1, rfl⟩ ?_
      · refine Runs.mono inv ?_
        rintro s h2 ⟨w2, k2, _, _, es⟩
        refine ⟨?_, w2, k2⟩
        rw [es, foldl_add_eq_sum, zero_add, Matrix.det_succ_row_zero]
        apply Finset.sum_congr rfl
        intro i _
        simp only [minorDet, Matrix.of_apply, Fin.val_zero]
        rw [hp i]
        congr 2
        ext x y
        simp [Matrix.submatrix_apply, succAbove_val]
      · rintro i s h2 hi ⟨w2, k2, l2, s2, es⟩
        have hl : (h2.buf (.m h.next)).length = (d' + 1) * (d' + 1) := by rw [w2.len, s2]; simp [Size.count]
        have ha2 := ha.keep k2 la nofun
        obtain ⟨K, eK⟩ : ∃ K, h2 = Gr h2 (.m h.next) (d' + 1) (d' + 1) K := ⟨_, self_Gr hl⟩
        have mr := minor_run (i := i) ha2 s2 na (by omega) (by omega) (Nat.le_refl _) (by omega) hi K
        rw [← eK] at mr
        refine Runs.step mr ?_
        have ha3 := ha2.Gr (c' := d' + 1) (r' := d' + 1)
          (G := fun x y => if x < d' ∧ y < d' then F (x + 1) (skip i y) else K x y) na
        refine Runs.step (Mat.element_get_run ha3 (i := 0) (j := i) (by omega) (by omega)) ?_
        have rd := ih _ (Gr_wf w2 _ s2) h.next (d' + 1) (d' + 1) _
          (Gr_cells h2 h.next _ _ (fun x y => if x < d' ∧ y < d' then F (x + 1) (skip i y) else K x y) s2) l2
          (by omega) (by omega)
        refine rd.bind fun h3 w3 k3 => ?_
        refine ⟨w3, ?_, k3.live l2, ?_, ?_⟩
        · exact (k2.trans_new (Gr_updated h2 _ _ s2).keeps (fun _ e hl' => f1 (e ▸ hl'))).trans k3
        · rw [(k3.2 _ l2 nofun).2]; exact s2
        · rw [List.range_succ, List.foldl_append, ← es]
          simp only [List.foldl_cons, List.foldl_nil, minorDet]
          congr 3
          ext x y
          simp

theorem cofactornm_spec [Zero R] {h : Heap R} (w : h.WF) {a : Nat} {F : Nat → Nat → R} {i j : Nat} (hn : 2 ≤ n) (hi : i < n)
    (hj : j < n) (ha : Cells h (.m a) n n F) (la : h.live (.m a)) :
    Runs (LinAlg.cofactornm (some (.m a)) n i j) h fun r h' => ∃ o G, r = some (.m o) ∧ ¬ h.live (.m o) ∧ h'.live (.m o) ∧ h'.WF ∧
      Keeps h h' (fun _ => False) ∧ Cells h' (.m o) n n G ∧ ∀ x y, x < n - 1 → y < n - 1 → G x y = F (skip i x) (skip j y) := by
  exact cofactor_spec w hn hi hj ha la

theorem adjLoopnm_big [CommRing R] [MathFns R] (hp : PowNegOne R) {h : Heap R} (w : h.WF) {a t : Nat}
    {F : Nat → Nat → R} (hn : 2 ≤ n) (ha : Cells h (.m a) (n + 1) (n + 1) F) (la : h.live (.m a)) (lt : h.live (.m t))
    (hs : h.size (.m t) = ⟨n + 1, n + 1, 1⟩) (hat : a ≠ t) :
    SetsMat (LinAlg.adjLoopnm (some (.m a)) a t (n + 1)) h t (Matrix.adjugate (Matrix.of fun i j : Fin (n + 1) => F i j)) := by
  unfold LinAlg.adjLoopnm
  rw [if_neg (by omega), if_neg (by omega)]
  have nat : ¬ (Loc.m a = .m t) := fun e => hat (Loc.m.inj e)
  let V : Nat → Nat → R := fun i j => (if (i + j) % 2 = 0 then 1 else -1) *
        Matrix.det (Matrix.of fun x y : Fin n => F (skip i x) (skip j y))
  -- invariant: the listed cells of `t` are right
  have step : ∀ i j (h1 : Heap R) (K : Nat → Nat → R), i < n + 1 → j < n + 1 → h1.WF → Keeps h h1 (· = .m t) →
      Cells h1 (.m t) (n + 1) (n + 1) K →
      Runs (do
        let cof ← LinAlg.cofactornm (some (.m a)) (n + 1) i j
        let d ← LinAlg.detm cof (n + 1 - 1)
        Mat.element_set t j i ((if (i + j) % 2 = 0 then (1 : R) else -1) * d)) h1 fun _ h2 =>
          h2.WF ∧ Keeps h h2 (· = .m t) ∧ Cells h2 (.m t) (n + 1) (n + 1) (upd2 K j i (V i j)) := by
    intro i j h1 K hi hj w1 k1 cK
    have ha1 := ha.keep k1 la nat
    refine Runs.bind (Runs.mono (cofactornm_spec w1 (by omega) hi hj ha1 (k1.live la)) ?_)
    rintro _ h2 ⟨o, G, rfl, f2, l2, w2, k2, cG, eG⟩
    have rd := detm_spec hp n hn h2 w2 o (n + 1) (n + 1) G cG l2 (by omega) (by omega)
    refine rd.bind fun h3 w3 k3 => ?_
    have cK2 := cK.keep k2 (k1.live lt) nofun
    have cK3 := cK2.keep k3 (k2.live (k1.live lt)) nofun
    have e0 : h3 = Gr h3 (.m t) (n + 1) (n + 1) K := by unfold Gr; rw [← cK3.2, setBuf_self]
    have es := Mat.element_set_run (h := h3) (o := t) K cK3.1 hj hi
      ((if (i + j) % 2 = 0 then (1 : R) else -1) * Matrix.det (Matrix.of fun x y : Fin n => G x y))
    rw [← e0] at es
    have ev : (if (i + j) % 2 = 0 then (1 : R) else -1) * Matrix.det (Matrix.of fun x y : Fin n => G x y) = V i j := by
      simp only [V]
      congr 2
      ext x y
      simp only [Matrix.of_apply]
      exact eG x y (by omega) (by omega)
    refine Runs.of_eq (es.trans (by rw [ev])) ⟨Gr_wf w3 _ cK3.1, ?_, Gr_cells h3 t _ _ _ cK3.1⟩
    exact ((k1.trans (k2.mono fun _ _ => False.elim)).trans (k3.mono fun _ _ => False.elim)).trans
      (Gr_updated h3 _ _ cK3.1).keeps
  have hl : (h.buf (.m t)).length = (n + 1) * (n + 1) := by rw [w.len, hs]; simp [Size.count]
  have main := Runs.forN (n + 1) (fun i (h1 : Heap R) => h1.WF ∧ Keeps h h1 (· = .m t) ∧
      ∃ K, Cells h1 (.m t) (n + 1) (n + 1) K ∧ ∀ x y, x < i → y < n + 1 → K y x = V x y)
    (fun i => forN (n + 1) fun j => do
        let cof ← LinAlg.cofactornm (some (.m a)) (n + 1) i j
        let d ← LinAlg.detm cof (n + 1 - 1)
        Mat.element_set t j i ((if (i + j) % 2 = 0 then (1 : R) else -1) * d)) h
    ⟨w, Keeps.refl _ _, _, ⟨hs, exists_cells (h.buf (.m t)) (h.junk 0 0) hl⟩, by intro x y hx; omega⟩ ?_
  · refine Runs.mono main ?_
    rintro _ h1 ⟨w1, k1, K, cK, eK⟩
    refine ⟨w1, k1, cK.isMat fun i j => ?_⟩
    rw [eK j i j.2 i.2, adj_eq]
  · rintro i h1 hi ⟨w1, k1, K, cK, eK⟩
    have inner := Runs.forN (n + 1) (fun j (h1 : Heap R) => h1.WF ∧ Keeps h h1 (· = .m t) ∧
      ∃ K, Cells h1 (.m t) (n + 1) (n + 1) K ∧ (∀ x y, x < i → y < n + 1 → K y x = V x y) ∧ ∀ y, y < j → K y i = V i y)
      (fun j => do
        let cof ← LinAlg.cofactornm (some (.m a)) (n + 1) i j
        let d ← LinAlg.detm cof (n + 1 - 1)
        Mat.element_set t j i ((if (i + j) % 2 = 0 then (1 : R) else -1) * d)) h1
      ⟨w1, k1, K, cK, eK, by intro y hy; omega⟩ ?_
    · refine Runs.mono inner ?_
      rintro _ h2 ⟨w2, k2, K2, cK2, e1, e2⟩
      refine ⟨w2, k2, K2, cK2, ?_⟩
      intro x y hx hy
      by_cases e : x = i
      · subst e; exact e2 y hy
      · exact e1 x y (by omega) hy
    · rintro j h2 hj ⟨w2, k2, K2, cK2, e1, e2⟩
      refine Runs.mono (step i j h2 K2 hi hj w2 k2 cK2) ?_
      rintro _ h3 ⟨w3, k3, cK3⟩
      refine ⟨w3, k3, _, cK3, ?_, ?_⟩
      · intro x y hx hy
        simp only [upd2]
        rw [if_neg (by omega)]; exact e1 x y hx hy
      · intro y hy
        simp only [upd2]
        by_cases e : y = j
        · subst e; simp
        · rw [if_neg (by omega)]; exact e2 y (by omega)

theorem adjLoopnm_spec [CommRing R] [MathFns R] (hp : PowNegOne R) {h : Heap R} (w : h.WF) {a t : Nat}
    {F : Nat → Nat → R} (ha : Cells h (.m a) n n F) (la : h.live (.m a)) (lt : h.live (.m t))
    (hs : h.size (.m t) = ⟨n, n, 1⟩) (hat : a ≠ t) :
    SetsMat (LinAlg.adjLoopnm (some (.m a)) a t n) h t (Matrix.adjugate (Matrix.of fun i j : Fin n => F i j)) := by
  have hl : (h.buf (.m t)).length = n * n := by rw [w.len, hs]; simp [Size.count]
  have na : Loc.m a ≠ .m t := fun e => hat (Loc.m.inj e)
  obtain ⟨K, eK⟩ : ∃ K, h = Gr h (.m t) n n K := ⟨_, self_Gr hl⟩
  match n, ha, hs, hl, eK with
  | 0, ha, hs, hl, eK =>
    unfold LinAlg.adjLoopnm
    exact ⟨w, Keeps.refl _ _, hs, fun i => i.elim0⟩
  | 1, ha, hs, hl, eK =>
    unfold LinAlg.adjLoopnm
    rw [if_pos rfl]
    have es := Mat.element_set_run (h := h) (o := t) K hs (i := 0) (j := 0) (by omega) (by omega) (1 : R)
    rw [← eK] at es
    refine Runs.of_eq es (setsMat_Gr w (Keeps.refl _ _) hs fun i j => ?_)
    rw [Matrix.adjugate_fin_one, Subsingleton.elim i j, Matrix.one_apply_eq, Subsingleton.elim j 0]
    simp [upd2]
  | 2, ha, hs, hl, eK =>
    unfold LinAlg.adjLoopnm
    rw [if_neg (by omega), if_pos rfl]
    have g : ∀ (K : Nat → Nat → R) (i j : Nat), i < 2 → j < 2 →
        Mat.element_get a i j (Gr h (.m t) 2 2 K) = .ok (F i j, Gr h (.m t) 2 2 K) :=
      fun K i j hi hj => Mat.element_get_run (ha.Gr na) hi hj
    have s : ∀ (K : Nat → Nat → R) (i j : Nat) (v : R), i < 2 → j < 2 →
        Mat.element_set t i j v (Gr h (.m t) 2 2 K) = .ok ((), Gr h (.m t) 2 2 (upd2 K i j v)) :=
      fun K i j v hi hj => Mat.element_set_run K hs hi hj v
    rw [eK]
    refine Runs.step (g _ 1 1 (by omega) (by omega)) (Runs.step (s _ 0 0 _ (by omega) (by omega))
      (Runs.step (g _ 0 0 (by omega) (by omega)) (Runs.step (s _ 1 1 _ (by omega) (by omega))
      (Runs.step (g _ 0 1 (by omega) (by omega)) (Runs.step (s _ 0 1 _ (by omega) (by omega))
      (Runs.step (g _ 1 0 (by omega) (by omega)) (Runs.of_eq (s _ 1 0 _ (by omega) (by omega)) ?_)))))))
    rw [← eK]
    refine setsMat_Gr w (Keeps.refl _ _) hs fun i j => ?_
    rw [Matrix.adjugate_fin_two]
    match i, j with
    | 0, 0 => simp [upd2]
    | 0, 1 => simp [upd2]
    | 1, 0 => simp [upd2]
    | 1, 1 => simp [upd2]
  | k + 3, ha, hs, hl, eK => exact adjLoopnm_big (n := k + 2) hp w (by omega) ha la lt hs hat

end Verif
