import Verif.Lemmas.MatrixOps
import Mathlib.LinearAlgebra.Matrix.Determinant.Basic
import Mathlib.LinearAlgebra.Matrix.Adjugate
import Mathlib.LinearAlgebra.Matrix.NonsingularInverse

/-! # Determinant, cofactors, adjugate -/

namespace Verif
open Spec
open SortArray (tab upd tab_get tab_length tab_set tab_of_list)
variable {R : Type} {m n p : Nat} {α β σ : Type}

/-- The `t`-th index different from `i`. -/
def skip (i t : Nat) : Nat := if t < i then t else t + 1
/-- The number of indices below `k` that differ from `i`. -/
def below (i k : Nat) : Nat := if i < k then k - 1 else k

theorem succAbove_val (i : Fin (n + 1)) (t : Fin n) : (i.succAbove t).val = skip i t := by
  unfold skip Fin.succAbove
  simp only [Fin.lt_def, Fin.val_castSucc]
  split <;> simp_all

section
variable {h : Heap R} {a B : Nat} {F : Nat → Nat → R}

/-- One row of the minor. -/
theorem detRow_run [Zero R] {ca ra cB rB d i j s : Nat} (ha : Cells h (.m a) ca ra F) (hB : h.size (.m B) = ⟨cB, rB, 1⟩)
    (hab : Loc.m a ≠ .m B) (hd : d ≤ ca) (hj : j < ra) (hs : s < rB) (hdB : d ≤ cB) (K : Nat → Nat → R) :
    Mat.detRow a B d i j s (Gr h (.m B) cB rB K) =
      .ok (below i d, Gr h (.m B) cB rB fun x y => if x = s ∧ y < below i d then F j (skip i y) else K x y) := by
  unfold Mat.detRow
  refine foldN_eq d (fun k => below i k)
    (fun k => Gr h (.m B) cB rB fun x y => if x = s ∧ y < below i k then F j (skip i y) else K x y) _ _ _ (by simp [below])
    (by simp [below]) ?_
  intro k hk
  by_cases e : k = i
  · subst e
    simp only [if_true]
    simp [below]
  · rw [if_neg e]
    have hb : below i k < cB := by unfold below; split <;> omega
    rw [bind_ok (Mat.element_get_run (ha.Gr hab) hj (by omega)), bind_ok (Mat.element_set_run _ hB hs hb _)]
    have h1 : below i k + 1 = below i (k + 1) := by unfold below; grind
    rw [pure_run, h1]
    congr 3
    funext x y
    have h2 : skip i (below i k) = k := by unfold below skip; grind
    simp only [upd2, ← h1]
    by_cases hx : x = s
    · by_cases hy : y = below i k
      · simp [hx, hy, h2]
      · simp only [hx, true_and, hy, if_false]
        have : y < below i k ↔ y < below i k + 1 := by omega
        simp [this]
    · simp [hx]

/-- The minor without row 0 and column `i`. -/
theorem minor_run [Zero R] {ca ra cB rB d i : Nat} (ha : Cells h (.m a) ca ra F) (hB : h.size (.m B) = ⟨cB, rB, 1⟩)
    (hab : Loc.m a ≠ .m B) (hd : d + 1 ≤ ca) (hdr : d + 1 ≤ ra) (hdB : d + 1 ≤ cB) (hdB' : d ≤ rB) (hi : i < d + 1)
    (K : Nat → Nat → R) :
    loop 1 d 0 (fun j sub_i => do
        let _ ← Mat.detRow a B (d + 1) i j sub_i
        pure (sub_i + 1)) (Gr h (.m B) cB rB K) =
      .ok (d, Gr h (.m B) cB rB fun x y => if x < d ∧ y < d then F (x + 1) (skip i y) else K x y) := by
  have := loop_eq (fun k => k - 1)
    (fun k => Gr h (.m B) cB rB fun x y => if x < k - 1 ∧ y < d then F (x + 1) (skip i y) else K x y)
    (fun j sub_i => do
        let _ ← Mat.detRow a B (d + 1) i j sub_i
        pure (sub_i + 1)) d 1 0 (Gr h (.m B) cB rB K) rfl (by simp) ?_
  · rw [this, Nat.add_comm]; rfl
  · intro k hk1 hk2
    have hb : below i (d + 1) = d := by unfold below; simp [hi]
    rw [bind_ok (detRow_run ha hB hab hd (by omega) (by omega) hdB _), hb, pure_run]
    obtain ⟨k, rfl⟩ : ∃ k', k = k' + 1 := ⟨k - 1, by omega⟩
    simp only [Nat.add_sub_cancel]
    congr 3
    funext x y
    grind
end

/-- `pow(-1, i)` is what it should be. -/
def PowNegOne (R : Type) [CommRing R] [MathFns R] : Prop := ∀ i : Nat, MathFns.pow (-1 : R) (i : R) = (-1) ^ i

theorem detb_spec [CommRing R] [MathFns R] (hp : PowNegOne R) :
    ∀ (d : Nat), 2 ≤ d → ∀ (h : Heap R), h.WF → ∀ (a ca ra : Nat) (F : Nat → Nat → R), Cells h (.m a) ca ra F → h.live (.m a) →
      d ≤ ca → d ≤ ra → ReturnsVal (Mat.detb a d) h (Matrix.det (Matrix.of fun i j : Fin d => F i j)) := by
  intro d hd
  induction d, hd using Nat.le_induction with
  | base =>
    intro h w a ca ra F ha la h1 h2
    unfold Mat.detb
    have g : ∀ i j : Nat, i < 2 → j < 2 → Mat.element_get a i j h = .ok (F i j, h) :=
      fun i j hi hj => Mat.element_get_run ha (by omega) (by omega)
    refine Runs.step (g 0 0 (by omega) (by omega)) (Runs.step (g 1 1 (by omega) (by omega))
      (Runs.step (g 0 1 (by omega) (by omega)) (Runs.step (g 1 0 (by omega) (by omega)) ?_)))
    exact ⟨by rw [Matrix.det_fin_two]; rfl, w, Keeps.refl _ _⟩
  | succ d hd ih =>
    intro h w a ca ra F ha la h1 h2
    unfold Mat.detb
    have hd2 : d ≠ 1 := by omega
    split
    · omega
    · omega
    · next d' hne heq =>
      obtain rfl : d' = d := by omega
      refine Runs.newMat w rfl fun h1' w1 k1 f1 l1 s1 => Runs.fill w1 s1 ?_
      have na : Loc.m a ≠ .m h.next := live_ne_fresh la rfl
      let minorDet : Nat → R := fun i => MathFns.pow (-1 : R) (i : R) * F 0 i *
        Matrix.det (Matrix.of fun x y : Fin d' => F (x + 1) (skip i y))
      have inv := Runs.foldN (d' + 1) (fun i s (h2 : Heap R) => h2.WF ∧ Keeps h h2 (fun _ => False) ∧ h2.live (.m h.next) ∧
          h2.size (.m h.next) = ⟨d' + 1, d' + 1, 1⟩ ∧ s = (List.range i).foldl (fun acc k => acc + minorDet k) 0)
        (fun i deter => do
          let _ ← loop 1 d' 0 fun j sub_i => do
            let _ ← Mat.detRow a h.next (d' + 1) i j sub_i
            pure (sub_i + 1)
          let x ← Mat.element_get a 0 i
          let m ← Mat.detb h.next d'
          pure (deter + MathFns.pow (-1 : R) (i : R) * x * m)) 0 (Gr h1' (.m h.next) (d' + 1) (d' + 1) fun _ _ => 0)
        ⟨Gr_wf w1 _ s1, k1.trans_new (Gr_updated h1' _ _ s1).keeps (fun _ e hl' => f1 (e ▸ hl')), l1, s1, rfl⟩ ?_
      · refine Runs.mono inv ?_
        rintro s h2 ⟨w2, k2, _, _, es⟩
        refine ⟨?_, w2, k2⟩
        rw [es, foldl_add_eq_sum, zero_add, Matrix.det_succ_row_zero]
        apply Finset.sum_congr rfl
        intro i _
        simp only [minorDet, Matrix.of_apply, Fin.val_zero]
        rw [hp i]
        congr 2
        ext x y
        simp [Matrix.submatrix_apply, succAbove_val]
      · rintro i s h2 hi ⟨w2, k2, l2, s2, es⟩
        have hl : (h2.buf (.m h.next)).length = (d' + 1) * (d' + 1) := by rw [w2.len, s2]; simp [Size.count]
        have ha2 := ha.keep k2 la nofun
        obtain ⟨K, eK⟩ : ∃ K, h2 = Gr h2 (.m h.next) (d' + 1) (d' + 1) K := ⟨_, self_Gr hl⟩
        have mr := minor_run (i := i) ha2 s2 na (by omega) (by omega) (Nat.le_refl _) (by omega) hi K
        rw [← eK] at mr
        refine Runs.step mr ?_
        have ha3 := ha2.Gr (c' := d' + 1) (r' := d' + 1)
          (G := fun x y => if x < d' ∧ y < d' then F (x + 1) (skip i y) else K x y) na
        refine Runs.step (Mat.element_get_run ha3 (i := 0) (j := i) (by omega) (by omega)) ?_
        have rd := ih _ (Gr_wf w2 _ s2) h.next (d' + 1) (d' + 1) _
          (Gr_cells h2 h.next _ _ (fun x y => if x < d' ∧ y < d' then F (x + 1) (skip i y) else K x y) s2) l2
          (by omega) (by omega)
        refine rd.bind fun h3 w3 k3 => ?_
        refine ⟨w3, ?_, k3.live l2, ?_, ?_⟩
        · exact (k2.trans_new (Gr_updated h2 _ _ s2).keeps (fun _ e hl' => f1 (e ▸ hl'))).trans k3
        · rw [(k3.2 _ l2 nofun).2]; exact s2
        · rw [List.range_succ, List.foldl_append, ← es]
          simp only [List.foldl_cons, List.foldl_nil, minorDet]
          congr 3
          ext x y
          simp

theorem det_spec [CommRing R] [MathFns R] (hp : PowNegOne R) {h : Heap R} (w : h.WF) {a : Nat} (hn : 2 ≤ n)
    {A : Matrix (Fin n) (Fin n) R} (hA : IsMat h a A) (la : h.live (.m a)) : ReturnsVal (Mat.det a) h A.det := by
  obtain ⟨F, eF, cA⟩ := hA.cells w
  unfold Mat.det
  refine Runs.step (Mat.size_run a h) ?_
  rw [cA.1]
  have := detb_spec hp n hn h w a n n F cA la (Nat.le_refl _) (Nat.le_refl _)
  have e : A = Matrix.of fun i j : Fin n => F i j := by ext i j; exact eF i j
  rw [e]; exact this

/-! ## Cofactors -/

section
variable {h : Heap R} {a B : Nat} {F : Nat → Nat → R}

/-- Position in the cofactor matrix after `col` columns of a copied row. -/
def cofPos (n j s col : Nat) : Nat × Nat := if below j col = n - 1 then (s + 1, 0) else (s, below j col)

theorem cofLoop_run [Zero R] {i j : Nat} (hn : 2 ≤ n) (hi : i < n) (hj : j < n) (ha : Cells h (.m a) n n F)
    (hB : h.size (.m B) = ⟨n, n, 1⟩) (hab : Loc.m a ≠ .m B) (K : Nat → Nat → R) :
    Mat.cofLoop a B n i j (Gr h (.m B) n n K) =
      .ok ((n - 1, 0), Gr h (.m B) n n fun x y => if x < n - 1 ∧ y < n - 1 then F (skip i x) (skip j y) else K x y) := by
  unfold Mat.cofLoop
  have outer := foldN_eq n (fun row => ((below i row, 0) : Nat × Nat))
    (fun row => Gr h (.m B) n n fun x y => if x < below i row ∧ y < n - 1 then F (skip i x) (skip j y) else K x y)
    (fun row p =>
    foldN n p fun col p =>
      if row ≠ i ∧ col ≠ j then do
        let x ← Mat.element_get a row col
        Mat.element_set B p.1 p.2 x
        let sub_j := p.2 + 1
        if (sub_j : Int) = (n : Int) - 1 then pure (p.1 + 1, 0) else pure (p.1, sub_j)
      else pure p) (0, 0) (Gr h (.m B) n n K) (by simp [below]) (by simp [below]) ?_
  · rw [outer]
    have : below i n = n - 1 := by unfold below; simp [hi]
    rw [this]
  · intro row hrow
    by_cases hr : row = i
    · subst hr
      have := foldN_read n (fun _ => ((below row row, 0) : Nat × Nat)) (fun col p =>
        if row ≠ row ∧ col ≠ j then do
          let x ← Mat.element_get a row col
          Mat.element_set B p.1 p.2 x
          let sub_j := p.2 + 1
          if (sub_j : Int) = (n : Int) - 1 then pure (p.1 + 1, 0) else pure (p.1, sub_j)
        else pure p) (below row row, 0)
        (Gr h (.m B) n n fun x y => if x < below row row ∧ y < n - 1 then F (skip row x) (skip j y) else K x y) rfl
        (by intro k hk; simp)
      rw [this]
      simp [below]
    · have hb1 : below i (row + 1) = below i row + 1 := by unfold below; grind
      have hbn : below i row < n - 1 := by unfold below; grind
      have hsk : skip i (below i row) = row := by unfold below skip; grind
      have := foldN_eq n (fun col => cofPos n j (below i row) col)
        (fun col => Gr h (.m B) n n fun x y => if x = below i row ∧ y < below j col then F row (skip j y) else
          if x < below i row ∧ y < n - 1 then F (skip i x) (skip j y) else K x y)
        (fun col p =>
        if row ≠ i ∧ col ≠ j then do
          let x ← Mat.element_get a row col
          Mat.element_set B p.1 p.2 x
          let sub_j := p.2 + 1
          if (sub_j : Int) = (n : Int) - 1 then pure (p.1 + 1, 0) else pure (p.1, sub_j)
        else pure p) (below i row, 0)
        (Gr h (.m B) n n fun x y => if x < below i row ∧ y < n - 1 then F (skip i x) (skip j y) else K x y)
        (by simp [cofPos, below]; omega) (by simp [below]) ?_
      · rw [this]
        have hjn : below j n = n - 1 := by unfold below; simp [hj]
        simp only [cofPos, hjn, if_true, hb1]
        congr 3
        funext x y
        by_cases hx : x = below i row
        · subst hx; simp [hsk]
        · have : x < below i row + 1 ↔ x < below i row := by omega
          simp [hx, this]
      · intro col hcol
        by_cases hc : col = j
        · subst hc
          rw [if_neg (by simp)]
          have : below col (col + 1) = below col col := by unfold below; simp
          simp only [cofPos, this]
          rfl
        · rw [if_pos ⟨hr, hc⟩]
          have hp : below j col ≠ n - 1 := by unfold below; grind
          have hp2 : below j col < n := by unfold below; grind
          have hj1 : below j (col + 1) = below j col + 1 := by unfold below; grind
          have hjs : skip j (below j col) = col := by unfold below skip; grind
          simp only [cofPos, if_neg hp, hj1]
          rw [bind_ok (Mat.element_get_run (ha.Gr hab) hrow hcol),
            bind_ok (Mat.element_set_run _ hB (by omega) hp2 _)]
          have hup : (upd2 (fun x y => if x = below i row ∧ y < below j col then F row (skip j y) else
              if x < below i row ∧ y < n - 1 then F (skip i x) (skip j y) else K x y) (below i row) (below j col) (F row col)) =
              (fun x y => if x = below i row ∧ y < below j col + 1 then F row (skip j y) else
              if x < below i row ∧ y < n - 1 then F (skip i x) (skip j y) else K x y) := by
            funext x y
            simp only [upd2]
            by_cases hx : x = below i row
            · by_cases hy : y = below j col
              · subst hx; subst hy; simp [hjs]
              · have : y < below j col ↔ y < below j col + 1 := by omega
                simp [hx, hy, this]
            · simp [hx]
          rw [hup]
          have hiff : (((below j col + 1 : Nat) : Int) = (n : Int) - 1) ↔ below j col + 1 = n - 1 := by omega
          by_cases hw : below j col + 1 = n - 1
          · rw [if_pos hw, if_pos (hiff.mpr hw)]; rfl
          · rw [if_neg hw, if_neg (fun e => hw (hiff.mp e))]; rfl
end

theorem cofactor_spec [Zero R] {h : Heap R} (w : h.WF) {a : Nat} {F : Nat → Nat → R} {i j : Nat} (hn : 2 ≤ n) (hi : i < n)
    (hj : j < n) (ha : Cells h (.m a) n n F) (la : h.live (.m a)) :
    Runs (Mat.cofactor a n i j) h fun r h' => ∃ o G, r = some (.m o) ∧ ¬ h.live (.m o) ∧ h'.live (.m o) ∧ h'.WF ∧
      Keeps h h' (fun _ => False) ∧ Cells h' (.m o) n n G ∧ ∀ x y, x < n - 1 → y < n - 1 → G x y = F (skip i x) (skip j y) := by
  unfold Mat.cofactor
  refine Runs.congr (newMat_size la _) ?_
  rw [ha.1]
  refine Runs.newMat w rfl fun h1 w1 k1 f1 l1 s1 => ?_
  have hl : (h1.buf (.m h.next)).length = n * n := by rw [w1.len, s1]; simp [Size.count]
  obtain ⟨K, eK⟩ : ∃ K, h1 = Gr h1 (.m h.next) n n K := ⟨_, self_Gr hl⟩
  have cr := cofLoop_run hn hi hj (ha.keep k1 la nofun) s1 (live_ne_fresh la rfl) K
  rw [← eK] at cr
  refine Runs.step cr ?_
  refine ⟨h.next, _, rfl, f1, l1, Gr_wf w1 _ s1, k1.trans_new (Gr_updated h1 _ _ s1).keeps (fun _ e hl' => f1 (e ▸ hl')),
    Gr_cells h1 h.next n n _ s1, fun x y hx hy => by rw [if_pos ⟨hx, hy⟩]⟩

/-! ## Adjugate -/

theorem adj_eq [CommRing R] {F : Nat → Nat → R} (i j : Fin (n + 1)) :
    Matrix.adjugate (Matrix.of fun i j : Fin (n + 1) => F i j) j i =
      (if (i.val + j.val) % 2 = 0 then 1 else -1) *
        Matrix.det (Matrix.of fun x y : Fin n => F (skip i x) (skip j y)) := by
  rw [Matrix.adjugate_fin_succ_eq_det_submatrix]
  congr 1
  · rw [neg_one_pow_eq_pow_mod_two]
    rcases Nat.mod_two_eq_zero_or_one (i.val + j.val) with e | e <;> simp [e]
  · congr 1
    ext x y
    simp [Matrix.submatrix_apply, succAbove_val]

theorem adjLoop_big [CommRing R] [MathFns R] (hp : PowNegOne R) {h : Heap R} (w : h.WF) {a t : Nat}
    {F : Nat → Nat → R} (hn : 2 ≤ n) (ha : Cells h (.m a) (n + 1) (n + 1) F) (la : h.live (.m a)) (lt : h.live (.m t))
    (hs : h.size (.m t) = ⟨n + 1, n + 1, 1⟩) (hat : a ≠ t) :
    SetsMat (Mat.adjLoop a t (n + 1)) h t (Matrix.adjugate (Matrix.of fun i j : Fin (n + 1) => F i j)) := by
  unfold Mat.adjLoop
  rw [if_neg (by omega), if_neg (by omega)]
  have nat : ¬ (Loc.m a = .m t) := fun e => hat (Loc.m.inj e)
  let V : Nat → Nat → R := fun i j => (if (i + j) % 2 = 0 then 1 else -1) *
        Matrix.det (Matrix.of fun x y : Fin n => F (skip i x) (skip j y))
  -- invariant: the listed cells of `t` are right
  have step : ∀ i j (h1 : Heap R) (K : Nat → Nat → R), i < n + 1 → j < n + 1 → h1.WF → Keeps h h1 (· = .m t) →
      Cells h1 (.m t) (n + 1) (n + 1) K →
      Runs (do
        let cof ← Mat.cofactor a (n + 1) i j
        let c ← derefM cof
        let d ← Mat.detb c (n + 1 - 1)
        Mat.element_set t j i ((if (i + j) % 2 = 0 then (1 : R) else -1) * d)) h1 fun _ h2 =>
          h2.WF ∧ Keeps h h2 (· = .m t) ∧ Cells h2 (.m t) (n + 1) (n + 1) (upd2 K j i (V i j)) := by
    intro i j h1 K hi hj w1 k1 cK
    have ha1 := ha.keep k1 la nat
    refine Runs.bind (Runs.mono (cofactor_spec w1 (by omega) hi hj ha1 (k1.live la)) ?_)
    rintro _ h2 ⟨o, G, rfl, f2, l2, w2, k2, cG, eG⟩
    refine Runs.step (derefM_run o h2) ?_
    have rd := detb_spec hp n hn h2 w2 o (n + 1) (n + 1) G cG l2 (by omega) (by omega)
    refine rd.bind fun h3 w3 k3 => ?_
    have cK2 := cK.keep k2 (k1.live lt) nofun
    have cK3 := cK2.keep k3 (k2.live (k1.live lt)) nofun
    have e0 : h3 = Gr h3 (.m t) (n + 1) (n + 1) K := by unfold Gr; rw [← cK3.2, setBuf_self]
    have es := Mat.element_set_run (h := h3) (o := t) K cK3.1 hj hi
      ((if (i + j) % 2 = 0 then (1 : R) else -1) * Matrix.det (Matrix.of fun x y : Fin n => G x y))
    rw [← e0] at es
    have ev : (if (i + j) % 2 = 0 then (1 : R) else -1) * Matrix.det (Matrix.of fun x y : Fin n => G x y) = V i j := by
      simp only [V]
      congr 2
      ext x y
      simp only [Matrix.of_apply]
      exact eG x y (by omega) (by omega)
    refine Runs.of_eq (es.trans (by rw [ev])) ⟨Gr_wf w3 _ cK3.1, ?_, Gr_cells h3 t _ _ _ cK3.1⟩
    exact ((k1.trans (k2.mono fun _ _ => False.elim)).trans (k3.mono fun _ _ => False.elim)).trans
      (Gr_updated h3 _ _ cK3.1).keeps
  have hl : (h.buf (.m t)).length = (n + 1) * (n + 1) := by rw [w.len, hs]; simp [Size.count]
  have main := Runs.forN (n + 1) (fun i (h1 : Heap R) => h1.WF ∧ Keeps h h1 (· = .m t) ∧
      ∃ K, Cells h1 (.m t) (n + 1) (n + 1) K ∧ ∀ x y, x < i → y < n + 1 → K y x = V x y)
    (fun i => forN (n + 1) fun j => do
        let cof ← Mat.cofactor a (n + 1) i j
        let c ← derefM cof
        let d ← Mat.detb c (n + 1 - 1)
        Mat.element_set t j i ((if (i + j) % 2 = 0 then (1 : R) else -1) * d)) h
    ⟨w, Keeps.refl _ _, _, ⟨hs, exists_cells (h.buf (.m t)) (h.junk 0 0) hl⟩, by intro x y hx; omega⟩ ?_
  · refine Runs.mono main ?_
    rintro _ h1 ⟨w1, k1, K, cK, eK⟩
    refine ⟨w1, k1, cK.isMat fun i j => ?_⟩
    rw [eK j i j.2 i.2, adj_eq]
  · rintro i h1 hi ⟨w1, k1, K, cK, eK⟩
    have inner := Runs.forN (n + 1) (fun j (h1 : Heap R) => h1.WF ∧ Keeps h h1 (· = .m t) ∧
      ∃ K, Cells h1 (.m t) (n + 1) (n + 1) K ∧ (∀ x y, x < i → y < n + 1 → K y x = V x y) ∧ ∀ y, y < j → K y i = V i y)
      (fun j => do
        let cof ← Mat.cofactor a (n + 1) i j
        let c ← derefM cof
        let d ← Mat.detb c (n + 1 - 1)
        Mat.element_set t j i ((if (i + j) % 2 = 0 then (1 : R) else -1) * d)) h1
      ⟨w1, k1, K, cK, eK, by intro y hy; omega⟩ ?_
    · refine Runs.mono inner ?_
      rintro _ h2 ⟨w2, k2, K2, cK2, e1, e2⟩
      refine ⟨w2, k2, K2, cK2, ?_⟩
      intro x y hx hy
      by_cases e : x = i
      · subst e; exact e2 y hy
      · exact e1 x y (by omega) hy
    · rintro j h2 hj ⟨w2, k2, K2, cK2, e1, e2⟩
      refine Runs.mono (step i j h2 K2 hi hj w2 k2 cK2) ?_
      rintro _ h3 ⟨w3, k3, cK3⟩
      refine ⟨w3, k3, _, cK3, ?_, ?_⟩
      · intro x y hx hy
        simp only [upd2]
        rw [if_neg (by omega)]; exact e1 x y hx hy
      · intro y hy
        simp only [upd2]
        by_cases e : y = j
        · subst e; simp
        · rw [if_neg (by omega)]; exact e2 y (by omega)

end Verif
