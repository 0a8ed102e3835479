import Verif.Lemmas.MatrixDet
import Mathlib.LinearAlgebra.Matrix.ZPow

/-! # Inverse, powers, identity, diagonal -/

namespace Verif
open Spec
open SortArray (tab upd tab_get tab_length tab_set tab_of_list)
variable {R : Type} {m n p : Nat} {α β σ : Type}

theorem Cells.self {h : Heap R} {l : Loc} {c r : Nat} {F : Nat → Nat → R} (a : Cells h l c r F) : h = Verif.Gr h l c r F := by
  unfold Verif.Gr; rw [← a.2, setBuf_self]

theorem map_tab_flat (c r : Nat) (F : Nat → Nat → R) (f : R → R) :
    (tab (c * r) (flat c F)).map f = tab (c * r) (flat c fun i j => f (F i j)) := by
  simp [tab, flat]

theorem adjLoop_spec [CommRing R] [MathFns R] (hp : PowNegOne R) {h : Heap R} (w : h.WF) {a t : Nat}
    {F : Nat → Nat → R} (ha : Cells h (.m a) n n F) (la : h.live (.m a)) (lt : h.live (.m t))
    (hs : h.size (.m t) = ⟨n, n, 1⟩) (hat : a ≠ t) :
    SetsMat (Mat.adjLoop a t n) h t (Matrix.adjugate (Matrix.of fun i j : Fin n => F i j)) := by
  have hl : (h.buf (.m t)).length = n * n := by rw [w.len, hs]; simp [Size.count]
  have na : Loc.m a ≠ .m t := fun e => hat (Loc.m.inj e)
  obtain ⟨K, eK⟩ : ∃ K, h = Gr h (.m t) n n K := ⟨_, self_Gr hl⟩
  match n, ha, hs, hl, eK with
  | 0, ha, hs, hl, eK =>
    unfold Mat.adjLoop
    exact ⟨w, Keeps.refl _ _, hs, fun i => i.elim0⟩
  | 1, ha, hs, hl, eK =>
    unfold Mat.adjLoop
    rw [if_pos rfl]
    have es := Mat.element_set_run (h := h) (o := t) K hs (i := 0) (j := 0) (by omega) (by omega) (1 : R)
    rw [← eK] at es
    refine Runs.of_eq es (setsMat_Gr w (Keeps.refl _ _) hs fun i j => ?_)
    rw [Matrix.adjugate_fin_one, Subsingleton.elim i j, Matrix.one_apply_eq, Subsingleton.elim j 0]
    simp [upd2]
  | 2, ha, hs, hl, eK =>
    unfold Mat.adjLoop
    rw [if_neg (by omega), if_pos rfl]
    have g : ∀ (K : Nat → Nat → R) (i j : Nat), i < 2 → j < 2 →
        Mat.element_get a i j (Gr h (.m t) 2 2 K) = .ok (F i j, Gr h (.m t) 2 2 K) :=
      fun K i j hi hj => Mat.element_get_run (ha.Gr na) hi hj
    have s : ∀ (K : Nat → Nat → R) (i j : Nat) (v : R), i < 2 → j < 2 →
        Mat.element_set t i j v (Gr h (.m t) 2 2 K) = .ok ((), Gr h (.m t) 2 2 (upd2 K i j v)) :=
      fun K i j v hi hj => Mat.element_set_run K hs hi hj v
    rw [eK]
    refine Runs.step (g _ 1 1 (by omega) (by omega)) (Runs.step (s _ 0 0 _ (by omega) (by omega))
      (Runs.step (g _ 0 0 (by omega) (by omega)) (Runs.step (s _ 1 1 _ (by omega) (by omega))
      (Runs.step (g _ 0 1 (by omega) (by omega)) (Runs.step (s _ 0 1 _ (by omega) (by omega))
      (Runs.step (g _ 1 0 (by omega) (by omega)) (Runs.of_eq (s _ 1 0 _ (by omega) (by omega)) ?_)))))))
    rw [← eK]
    refine setsMat_Gr w (Keeps.refl _ _) hs fun i j => ?_
    rw [Matrix.adjugate_fin_two]
    match i, j with
    | 0, 0 => simp [upd2]
    | 0, 1 => simp [upd2]
    | 1, 0 => simp [upd2]
    | 1, 1 => simp [upd2]
  | k + 3, ha, hs, hl, eK => exact adjLoop_big (n := k + 2) hp w (by omega) ha la lt hs hat

theorem of_cells {A : Matrix (Fin m) (Fin n) R} {F : Nat → Nat → R} (e : ∀ i j, A i j = F i j) :
    A = Matrix.of fun (i : Fin m) (j : Fin n) => F i j := by ext i j; exact e i j

theorem Spec.SetsMat.returns {c : M R Unit} {h h1 : Heap R} {o : Nat} {A : Matrix (Fin m) (Fin n) R}
    (r : SetsMat c h1 o A) (k1 : Keeps h h1 (fun _ => False)) (f1 : ¬ h.live (.m o)) (l1 : h1.live (.m o)) :
    Runs (c >>= fun _ => pure (some (Loc.m o))) h1 fun r h' => ∃ o, r = some (.m o) ∧ ¬ h.live (.m o) ∧ h'.live (.m o) ∧ h'.WF ∧
    Keeps h h' (fun _ => False) ∧ IsMat h' o A := by
  refine Runs.bind (Runs.mono r ?_)
  rintro _ h2 ⟨w2, k2, hA⟩
  exact ⟨o, rfl, f1, k2.live l1, w2, k1.trans_new k2 (fun _ e hl => f1 (e ▸ hl)), hA⟩

namespace Mat

theorem adjoint_spec [CommRing R] [MathFns R] (hp : PowNegOne R) {h : Heap R} (w : h.WF) {a : Nat}
    {A : Matrix (Fin n) (Fin n) R} (hA : IsMat h a A) (la : h.live (.m a)) : ReturnsMat (adjoint a) h A.adjugate := by
  obtain ⟨F, eF, cA⟩ := hA.cells w
  unfold adjoint
  refine Runs.step (size_run a h) ?_
  rw [cA.1]
  simp only [if_true]
  refine Runs.newMat w rfl fun h1 w1 k1 f1 l1 s1 => ?_
  rw [of_cells eF]
  exact (adjLoop_spec hp w1 (cA.keep k1 la nofun) (k1.live la) l1 s1 (fun e => f1 (e ▸ la))).returns k1 f1 l1

theorem adjointo_spec [CommRing R] [MathFns R] (hp : PowNegOne R) {h : Heap R} (w : h.WF) {a t : Nat}
    {A : Matrix (Fin n) (Fin n) R} (hA : IsMat h a A) (la : h.live (.m a)) (lt : h.live (.m t)) (hat : a ≠ t) :
    SetsMat (adjointo a (some t)) h t A.adjugate := by
  obtain ⟨F, eF, cA⟩ := hA.cells w
  unfold adjointo
  refine Runs.step (size_run a h) ?_
  rw [cA.1]
  simp only [if_true]
  refine Runs.ensureM w rfl fun h1 w1 k1 n1 s1 _ => ?_
  rw [of_cells eF]
  refine Runs.mono (adjLoop_spec hp w1 (cA.keep k1 la fun e => hat (Loc.m.inj e)) (k1.live la) (k1.live lt) s1 hat) ?_
  rintro _ h2 ⟨w2, k2, hA2⟩
  exact ⟨w2, k1.trans k2, hA2⟩

theorem unIn_spec {h : Heap R} (w : h.WF) {a : Nat} {A : Matrix (Fin m) (Fin n) R} (hA : IsMat h a A) (f : R → R) :
    SetsMat (unIn f (.m a)) h a (A.map f) := by
  obtain ⟨F, eF, cA⟩ := hA.cells w
  have e := unIn_run f (.m a) h (w.len _)
  have u := updated_setBuf h (.m a) ((h.buf (.m a)).map f)
  rw [cA.2, map_tab_flat, cA.1] at u
  rw [cA.2, map_tab_flat] at e
  exact updated_setsMat w e u fun i j => by simp [eF]

theorem dup_unIn_spec {h : Heap R} (w : h.WF) {a : Nat} {A : Matrix (Fin m) (Fin n) R} (hA : IsMat h a A)
    (la : h.live (.m a)) (f : R → R) : ReturnsMat (do
      let AN ← duplicate_fast a
      let an ← derefM AN
      unIn f (.m an)
      pure AN) h (A.map f) := by
  refine (unN_id_spec w hA la).bind fun o h1 w1 k1 f1 l1 hA1 => ?_
  refine Runs.step (derefM_run o h1) ?_
  exact (unIn_spec w1 hA1 f).returns k1 f1 l1

theorem scalar_multiplyn_spec [Mul R] {h : Heap R} (w : h.WF) {a : Nat} {A : Matrix (Fin m) (Fin n) R} (hA : IsMat h a A)
    (la : h.live (.m a)) (k : R) : ReturnsMat (scalar_multiplyn a k) h (A.map (· * k)) := dup_unIn_spec w hA la _

theorem inverse_spec [Field R] [MathFns R] (hp : PowNegOne R) {h : Heap R} (w : h.WF) {a : Nat} (hn : 2 ≤ n)
    {A : Matrix (Fin n) (Fin n) R} (hA : IsMat h a A) (la : h.live (.m a)) : ReturnsMat (inverse a) h A⁻¹ := by
  unfold inverse
  refine (adjoint_spec hp w hA la).bind fun o h1 w1 k1 f1 l1 hA1 => ?_
  refine Runs.step (derefM_run o h1) ?_
  refine (det_spec hp w1 hn (hA.keep k1 la nofun) (k1.live la)).bind fun h2 w2 k2 => ?_
  refine (k1.trans k2).returnsMat (scalar_multiplyn_spec w2 (hA1.keep k2 l1 nofun) (k2.live l1) (1 / A.det)) ?_
  intro o' h3 f3 l3 w3 k3 hA3
  refine ⟨o', rfl, f3, l3, w3, k3, ?_⟩
  have : A⁻¹ = A.adjugate.map (· * (1 / A.det)) := by
    ext i j
    rw [Matrix.inv_def]
    simp [mul_comm]
  rw [this]; exact hA3

theorem solve_spec [Field R] [MathFns R] (hp : PowNegOne R) {h : Heap R} (w : h.WF) {a b : Nat} (hn : 2 ≤ n)
    {A : Matrix (Fin n) (Fin n) R} {v : Fin n → R} (hA : IsMat h a A) (hB : IsVec h b v) (la : h.live (.m a))
    (lb : h.live (.v b)) : ReturnsVec (solve a (some b)) h (A⁻¹.mulVec v) := by
  unfold solve
  refine (inverse_spec hp w hn hA la).bind fun o h1 w1 k1 f1 l1 hA1 => ?_
  refine Runs.step (derefM_run o h1) ?_
  exact k1.returnsVec (mult_vec_spec w1 hA1 (hB.keep k1 lb nofun) l1 (k1.live lb))
    fun o' h3 f3 l3 w3 k3 hA3 => ⟨o', rfl, f3, l3, w3, k3, hA3⟩

theorem set_from_spec {h : Heap R} (w : h.WF) {a t : Nat} {A : Matrix (Fin m) (Fin n) R} (hA : IsMat h a A) :
    SetsMat (set_from_mlpp_matrix t (some a)) h t A := by
  obtain ⟨F, eF, cA⟩ := hA.cells w
  obtain ⟨h', e, u⟩ := unB_run id (.m t) (.m a) h (w.len _) (w.len _)
  rw [cA.1, cA.2, List.map_id] at u
  exact updated_setsMat w e u eF

theorem inverseo_spec [Field R] [MathFns R] (hp : PowNegOne R) {h : Heap R} (w : h.WF) {a t : Nat} (hn : 2 ≤ n)
    {A : Matrix (Fin n) (Fin n) R} (hA : IsMat h a A) (la : h.live (.m a)) : SetsMat (inverseo a (some t)) h t A⁻¹ := by
  unfold inverseo
  refine (inverse_spec hp w hn hA la).bind fun o h1 w1 k1 f1 l1 hA1 => ?_
  refine Runs.step (derefM_run o h1) ?_
  refine Runs.mono (set_from_spec w1 hA1) ?_
  rintro _ h2 ⟨w2, k2, hA2⟩
  exact ⟨w2, (k1.mono fun _ _ => False.elim).trans k2, hA2⟩

/-! ### Identity and diagonal -/

theorem identity_mat_spec [Zero R] [One R] {h : Heap R} (w : h.WF) (d : Nat) :
    ReturnsMat (identity_mat d) h (1 : Matrix (Fin d) (Fin d) R) := by
  unfold identity_mat
  refine Runs.newMat w rfl fun h1 w1 k1 f1 l1 s1 => Runs.fill w1 s1 ?_
  refine Runs.step (diagOnes_run (Nat.le_refl _) (Nat.le_refl _) _) (returnsMat_Gr w1 k1 f1 l1 s1 fun i j => ?_)
  rw [Matrix.one_apply]
  simp [Fin.ext_iff]

theorem identity_spec [Zero R] [One R] {h : Heap R} (w : h.WF) {a : Nat} (hs : h.size (.m a) = ⟨n, m, 1⟩) :
    SetsMat (identity a) h a (eyeRect R m n) := by
  unfold identity fill
  refine Runs.fill w hs ?_
  refine Runs.step (size_run a _) ?_
  rw [Gr_size, hs]
  refine Runs.of_eq (diagOnes_run (Nat.min_le_right _ _) (Nat.min_le_left _ _) _)
    (setsMat_Gr w (Keeps.refl _ _) hs fun i j => ?_)
  unfold eyeRect
  have := i.2
  have := j.2
  by_cases e : i.val = j.val
  · rw [if_pos e, if_pos ⟨e, by show i.val < Min.min n m; omega⟩]
  · rw [if_neg e, if_neg (fun h => e h.1)]

theorem identityn_spec [Zero R] [One R] {h : Heap R} (w : h.WF) {a : Nat} (la : h.live (.m a)) (hs : h.size (.m a) = ⟨n, m, 1⟩) :
    ReturnsMat (identityn a) h (eyeRect R m n) := by
  unfold identityn
  refine Runs.congr (newMat_size la _) ?_
  rw [hs]
  refine Runs.newMat w rfl fun h1 w1 k1 f1 l1 s1 => ?_
  exact (identity_spec w1 s1).returns k1 f1 l1

theorem const_spec {h : Heap R} (w : h.WF) (r c : Nat) (v : R) :
    ReturnsMat (do
      let mat ← newMat
      resizeTo mat ⟨c, r, 1⟩
      fillAll mat v
      pure (some mat)) h (fun (_ : Fin r) (_ : Fin c) => v) := by
  refine Runs.newMat w rfl fun h1 w1 k1 f1 l1 s1 => Runs.fill w1 s1 ?_
  exact returnsMat_Gr w1 k1 f1 l1 s1 fun i j => rfl

theorem trace_spec [AddCommMonoid R] {h : Heap R} (w : h.WF) {a : Nat} {A : Matrix (Fin n) (Fin n) R} (hA : IsMat h a A) :
    ReturnsVal (trace a) h A.trace := by
  obtain ⟨F, eF, cA⟩ := hA.cells w
  unfold trace
  refine Runs.step (size_run a h) ?_
  rw [cA.1]
  have := foldN_read (Nat.min n n) (fun k => (List.range k).foldl (fun acc i => acc + F i i) 0)
    (fun (i : Nat) t => do
      let x ← element_get a i i
      pure (t + x)) 0 h rfl (by
      intro i hi
      have hi : i < n := by simpa using hi
      rw [bind_ok (element_get_run cA hi hi), List.range_succ, List.foldl_append]; rfl)
  refine Runs.of_eq this ⟨?_, w, Keeps.refl _ _⟩
  rw [show Nat.min n n = n from Nat.min_self n, foldl_add_eq_sum, zero_add]
  exact Finset.sum_congr rfl fun i _ => (eF i i).symm

theorem diag_cells {k : Nat} {A : Matrix (Fin m) (Fin n) R} {v : Fin k → R} {F : Nat → Nat → R} {f : Nat → R}
    (eF : ∀ i j, A i j = F i j) (ef : ∀ i, v i = f i) (i : Fin m) (j : Fin n) :
    diagReplace A v i j = if i.val = j.val ∧ i.val < Nat.min (Nat.min n m) k then f i else F i j := by
  unfold diagReplace
  have := i.2
  have := j.2
  have hm : Nat.min (Nat.min n m) k = Min.min (Min.min n m) k := rfl
  rw [hm]
  by_cases e : i.val = j.val
  · by_cases hk : i.val < k
    · rw [if_pos e, dif_pos hk, if_pos ⟨e, by omega⟩, ef]
    · rw [if_pos e, dif_neg hk, if_neg (fun h => hk (by omega)), eF]
  · rw [if_neg e, if_neg (fun h => e h.1), eF]

theorem diagonal_set_spec {k : Nat} {h : Heap R} (w : h.WF) {a b : Nat} {A : Matrix (Fin m) (Fin n) R} {v : Fin k → R}
    (hA : IsMat h a A) (hB : IsVec h b v) : SetsMat (diagonal_set a (some b)) h a (diagReplace A v) := by
  obtain ⟨F, eF, cA⟩ := hA.cells w
  obtain ⟨f, ef, cB⟩ := hB.cells w
  unfold diagonal_set Vec.size
  refine Runs.step (bind_ok (getSize_run (.v b) h)) (Runs.step (size_run a h) ?_)
  rw [cA.1, cB.1]
  have e1 := diagLoop_run (c := .m a) (ms := Nat.min (Nat.min n m) k) (rows := m) (cols := n) cB nofun (Nat.min_le_right _ _)
    ((Nat.min_le_left _ _).trans (Nat.min_le_right _ _)) ((Nat.min_le_left _ _).trans (Nat.min_le_left _ _)) F
  rw [← cA.self] at e1
  exact Runs.of_eq e1 (setsMat_Gr w (Keeps.refl _ _) cA.1 fun i j => diag_cells eF ef i j)

theorem diagonal_setn_spec {k : Nat} {h : Heap R} (w : h.WF) {a b : Nat} {A : Matrix (Fin m) (Fin n) R} {v : Fin k → R}
    (hA : IsMat h a A) (hB : IsVec h b v) (la : h.live (.m a)) (lb : h.live (.v b)) :
    ReturnsMat (diagonal_setn a (some b)) h (diagReplace A v) := by
  unfold diagonal_setn Vec.size
  refine (unN_id_spec w hA la).bind fun o h1 w1 k1 f1 l1 hA1 => ?_
  obtain ⟨F, eF, cA⟩ := hA1.cells w1
  obtain ⟨f, ef, cB⟩ := (hB.keep k1 lb nofun).cells w1
  refine Runs.step (derefM_run o h1) (Runs.step (bind_ok (getSize_run (.v b) h1)) (Runs.step (size_run a h1) ?_))
  rw [(hA.keep k1 la nofun).1, cB.1]
  have e1 := diagLoop_run (c := .m o) (ms := Nat.min (Nat.min n m) k) (rows := m) (cols := n) cB nofun (Nat.min_le_right _ _)
    ((Nat.min_le_left _ _).trans (Nat.min_le_right _ _)) ((Nat.min_le_left _ _).trans (Nat.min_le_left _ _)) F
  rw [← cA.self] at e1
  exact Runs.step e1 (returnsMat_Gr w1 k1 f1 l1 cA.1 fun i j => diag_cells eF ef i j)

theorem diagonal_zeroed_spec [Zero R] {k : Nat} {h : Heap R} (w : h.WF) {a b : Nat} {v : Fin k → R}
    (hs : h.size (.m a) = ⟨n, m, 1⟩) (hB : IsVec h b v) :
    SetsMat (diagonal_zeroed a (some b)) h a (diagReplace (0 : Matrix (Fin m) (Fin n) R) v) := by
  obtain ⟨f, ef, cB⟩ := hB.cells w
  unfold diagonal_zeroed Vec.size fill
  refine Runs.fill w hs ?_
  refine Runs.step (bind_ok (getSize_run (.v b) _)) (Runs.step (size_run a _) ?_)
  rw [Gr_size, hs, cB.1]
  exact Runs.of_eq (diagLoop_run (c := .m a) (ms := Nat.min (Nat.min n m) k) (rows := m) (cols := n) cB nofun
    (Nat.min_le_right _ _) ((Nat.min_le_left _ _).trans (Nat.min_le_right _ _))
    ((Nat.min_le_left _ _).trans (Nat.min_le_left _ _)) _)
    (setsMat_Gr w (Keeps.refl _ _) hs fun i j => diag_cells (A := (0 : Matrix (Fin m) (Fin n) R)) (F := fun _ _ => 0) (fun _ _ => rfl) ef i j)

theorem diagonal_zeroedn_spec [Zero R] {k : Nat} {h : Heap R} (w : h.WF) {a b : Nat} {v : Fin k → R} (la : h.live (.m a))
    (lb : h.live (.v b)) (hs : h.size (.m a) = ⟨n, m, 1⟩) (hB : IsVec h b v) :
    ReturnsMat (diagonal_zeroedn a (some b)) h (diagReplace (0 : Matrix (Fin m) (Fin n) R) v) := by
  obtain ⟨f, ef, cB⟩ := hB.cells w
  unfold diagonal_zeroedn Vec.size
  dsimp only
  refine Runs.congr (newMat_size la _) ?_
  rw [hs]
  refine Runs.newMat w rfl fun h1 w1 k1 f1 l1 s1 => Runs.fill w1 s1 ?_
  refine Runs.step (bind_ok (getSize_run (.v b) _)) ?_
  have cB1 := cB.keep k1 lb nofun
  rw [Gr_size, cB1.1]
  exact Runs.step (diagLoop_run (c := .m h.next) (ms := Nat.min (Nat.min n m) k) (rows := m) (cols := n) cB1 nofun
    (Nat.min_le_right _ _) ((Nat.min_le_left _ _).trans (Nat.min_le_right _ _))
    ((Nat.min_le_left _ _).trans (Nat.min_le_left _ _)) _)
    (returnsMat_Gr w1 k1 f1 l1 s1 fun i j => diag_cells (A := (0 : Matrix (Fin m) (Fin n) R)) (F := fun _ _ => 0) (fun _ _ => rfl) ef i j)

/-! ### Powers -/

theorem powLoop_spec [Semiring R] {h : Heap R} (w : h.WF) {a b : Nat} {A : Matrix (Fin n) (Fin n) R}
    (hA : IsMat h a A) (hB : IsMat h b (1 : Matrix (Fin n) (Fin n) R)) (la : h.live (.m a)) (lb : h.live (.m b))
    (hab : b ≠ a) (k : Nat) : SetsMat (forN k fun _ => mult b (some a)) h b (A ^ k) := by
  refine Runs.mono (Runs.forN k (fun i (h1 : Heap R) => h1.WF ∧ Keeps h h1 (· = .m b) ∧ IsMat h1 b (A ^ i)) _ h
    ⟨w, Keeps.refl _ _, by simpa using hB⟩ ?_) fun _ _ r => r
  rintro i h1 hi ⟨w1, k1, hB1⟩
  refine Runs.mono (mult_spec w1 hB1 (hA.keep k1 la fun e => hab (Loc.m.inj e).symm) (k1.live lb) (k1.live la) hab) ?_
  rintro _ h2 ⟨w2, k2, hB2⟩
  exact ⟨w2, k1.trans k2, by rw [pow_succ]; exact hB2⟩

theorem matrix_powern_spec [Field R] [MathFns R] (hp : PowNegOne R) {h : Heap R} (w : h.WF) {a : Nat}
    {A : Matrix (Fin n) (Fin n) R} (hA : IsMat h a A) (la : h.live (.m a)) (z : Int) (hz : z < 0 → 2 ≤ n) :
    ReturnsMat (matrix_powern a z) h (A ^ z) := by
  unfold matrix_powern
  refine Runs.step (size_run a h) ?_
  rw [hA.1]
  by_cases z0 : z = 0
  · rw [if_pos z0]; subst z0; rw [zpow_zero]; exact identity_mat_spec w n
  · rw [if_neg z0]
    refine (identity_mat_spec w n).bind fun b h1 w1 k1 f1 l1 hB => ?_
    refine Runs.step (derefM_run b h1) ?_
    have hA1 := hA.keep k1 la nofun
    by_cases zneg : z < 0
    · rw [if_pos zneg]
      refine (inverse_spec hp w1 (hz zneg) hA1 (k1.live la)).bind fun i h2 w2 k2 f2 l2 hI => ?_
      refine Runs.step (derefM_run i h2) ?_
      have e : A ^ z = A⁻¹ ^ z.natAbs := by
        obtain ⟨k, rfl⟩ : ∃ k : Nat, z = -(k : Int) := ⟨z.natAbs, by omega⟩
        rw [Matrix.zpow_neg_natCast, Matrix.inv_pow']
        simp
      rw [e]
      exact (powLoop_spec w2 hI (hB.keep k2 l1 nofun) l2 (k2.live l1) (fun e => f2 (e ▸ l1)) z.natAbs).returns
        (k1.trans k2) f1 (k2.live l1)
    · rw [if_neg zneg]
      refine Runs.step (pure_run _ _) (Runs.step (derefM_run a h1) ?_)
      have e : A ^ z = A ^ z.natAbs := by
        obtain ⟨k, rfl⟩ : ∃ k : Nat, z = (k : Int) := ⟨z.natAbs, by omega⟩
        simp
      rw [e]
      exact (powLoop_spec w1 hA1 hB (k1.live la) l1 (fun e => f1 (e ▸ la)) z.natAbs).returns k1 f1 l1

end Mat
end Verif
