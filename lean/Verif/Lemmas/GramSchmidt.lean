import Verif.Lemmas.LinAlgMatrix
import Verif.Lemmas.RowCells
import Verif.Lemmas.Fill
import Verif.Real
import Mathlib.LinearAlgebra.LinearIndependent.Lemmas
import Mathlib.LinearAlgebra.Matrix.DotProduct
import Mathlib.LinearAlgebra.FiniteDimensional.Basic

/-! # Gram-Schmidt and QR -/

namespace Verif
open Spec
open SortArray (tab upd tab_get tab_length tab_set tab_of_list)
variable {m n : Nat}

/-! ## Vector operations on cells -/

section
variable {h : Heap ℝ} {a b : Nat} {f g : Nat → ℝ}

theorem foldl_range_sum (k : Nat) (f : Nat → ℝ) : (List.range k).foldl (fun acc i => acc + f i) 0 = ∑ i ∈ Finset.range k, f i := by
  induction k with
  | zero => simp
  | succ k ih => rw [List.range_succ, List.foldl_append, ih, Finset.sum_range_succ]; rfl

theorem Vec.dot_sum (w : h.WF) (ca : VCells h (.v a) n f) (cb : VCells h (.v b) n g) :
    Vec.dot a (some b) h = .ok (∑ i ∈ Finset.range n, f i * g i, h) := by
  rw [Vec.dot_cells w ca cb, foldl_range_sum]

theorem Vec.norm_2_sum (w : h.WF) (ca : VCells h (.v a) n f) :
    Vec.norm_2 a h = .ok (Real.sqrt (∑ i ∈ Finset.range n, f i * f i), h) := by
  rw [Vec.norm_2_run w a, ca.2, tab, List.foldl_map, foldl_range_sum]; rfl

theorem Vec.scalar_multiply_set (w : h.WF) (ca : VCells h (.v a) n f) (k : ℝ) :
    ∃ h', Vec.scalar_multiply a k h = .ok ((), h') ∧ VSet h h' a n (fun i => f i * k) := by
  refine ⟨_, unIn_run _ _ h (w.len _), ?_⟩
  have u := updated_setBuf h (.v a) ((h.buf (.v a)).map (· * k))
  rw [ca.1, ca.2] at u
  have e : (tab n f).map (· * k) = tab n fun i => f i * k := by simp [tab]
  rw [e] at u
  rw [ca.2, e]; exact u

theorem Vec.sub_set (w : h.WF) (ca : VCells h (.v a) n f) (cb : VCells h (.v b) n g) :
    ∃ h', Vec.sub a (some b) h = .ok ((), h') ∧ VSet h h' a n (fun i => f i - g i) := by
  refine ⟨_, binIn_run _ _ (.v b) h (w.len _) (w.len _) (by rw [ca.1, cb.1]), ?_⟩
  have u := updated_setBuf h (.v a) (List.zipWith (· - ·) (h.buf (.v a)) (h.buf (.v b)))
  rw [ca.1, ca.2, cb.2] at u
  have e : List.zipWith (· - ·) (tab n f) (tab n g) = tab n fun i => f i - g i := by
    simp [tab, List.zipWith_map]
  rw [e] at u
  rw [ca.2, cb.2, e]; exact u

/-- `vector_projection(a, b)`. -/
theorem vector_projection_cells (w : h.WF) (la : h.live (.v a)) (ca : VCells h (.v a) n f) (cb : VCells h (.v b) n g) :
    Runs (LinAlg.vector_projection (some (.v a)) (some (.v b))) h fun r h' => ∃ o, r = some (.v o) ∧ ¬ h.live (.v o) ∧
      h'.live (.v o) ∧ h'.WF ∧ Keeps h h' (fun _ => False) ∧ VCells h' (.v o) n fun i =>
        f i * ((∑ i ∈ Finset.range n, f i * g i) / ∑ i ∈ Finset.range n, f i * f i) := by
  unfold LinAlg.vector_projection
  refine Runs.step (derefV_run a h) (Runs.step (Vec.dot_sum w ca cb) (Runs.step (Vec.dot_sum w ca ca) ?_))
  obtain ⟨h', e, cr⟩ := unN_run (· * ((∑ i ∈ Finset.range n, f i * g i) / ∑ i ∈ Finset.range n, f i * f i)) (.v a) h (w.len _) la
  rw [ca.1, ca.2] at cr
  have e2 : (tab n f).map (· * ((∑ i ∈ Finset.range n, f i * g i) / ∑ i ∈ Finset.range n, f i * f i)) =
      tab n fun i => f i * ((∑ i ∈ Finset.range n, f i * g i) / ∑ i ∈ Finset.range n, f i * f i) := by simp [tab]
  rw [e2] at cr
  refine Runs.of_eq e ⟨h.next, rfl, Nat.lt_irrefl _, ?_, cr.wf w (by simp [Size.count]) (fun _ _ => ⟨rfl, rfl⟩) nofun, cr.keeps _,
    cr.size, cr.buf⟩
  exact Nat.lt_of_lt_of_eq (Nat.lt_succ_self _) cr.next.symm
end

/-! ## The loops -/

/-- Objects the loops of `gram_schmidt_process` write to. -/
def GsOwn (B bi ai bj : Nat) (l : Loc) : Prop := l = .m B ∨ l = .v bi ∨ l = .v ai ∨ l = .v bj

structure GsOk (h0 h : Heap ℝ) (A B bi ai bj c r : Nat) (F K : Nat → Nat → ℝ) : Prop where
  wf : h.WF
  ca : Cells h (.m A) c r F
  cb : Cells h (.m B) c r K
  keep : Keeps h0 h (GsOwn B bi ai bj)
  lA : h.live (.m A)
  lB : h.live (.m B)
  l1 : h.live (.v bi)
  l2 : h.live (.v ai)
  l3 : h.live (.v bj)

section
variable {h0 h : Heap ℝ} {A B bi ai bj c r : Nat} {F K : Nat → Nat → ℝ}

/-- A step that only writes a scratch vector. -/
theorem GsOk.stepV (g : GsOk h0 h A B bi ai bj c r F K) {h' : Heap ℝ} {v k : Nat} {f : Nat → ℝ} (u : VSet h h' v k f)
    (hv : v = bi ∨ v = ai ∨ v = bj) : GsOk h0 h' A B bi ai bj c r F K := by
  have kp := u.keeps
  refine ⟨u.wf g.wf, g.ca.keep kp g.lA nofun, g.cb.keep kp g.lB nofun, g.keep.trans (kp.mono ?_), kp.live g.lA, kp.live g.lB,
    kp.live g.l1, kp.live g.l2, kp.live g.l3⟩
  rintro l _ rfl
  rcases hv with rfl | rfl | rfl
  · exact Or.inr (Or.inl rfl)
  · exact Or.inr (Or.inr (Or.inl rfl))
  · exact Or.inr (Or.inr (Or.inr rfl))

theorem GsOk.stepM (g : GsOk h0 h A B bi ai bj c r F K) (hab : A ≠ B) {h' : Heap ℝ} {K' : Nat → Nat → ℝ} (u : MSet h h' B c r K') :
    GsOk h0 h' A B bi ai bj c r F K' := by
  have kp := u.keeps
  exact ⟨u.wf g.wf, g.ca.keep kp g.lA fun e => hab (Loc.m.inj e), u.cells, g.keep.trans (kp.mono fun _ _ e => Or.inl e),
    kp.live g.lA, kp.live g.lB, kp.live g.l1, kp.live g.l2, kp.live g.l3⟩

theorem GsOk.stepN (g : GsOk h0 h A B bi ai bj c r F K) {h' : Heap ℝ} (w : h'.WF) (kp : Keeps h h' (fun _ => False)) :
    GsOk h0 h' A B bi ai bj c r F K :=
  ⟨w, g.ca.keep kp g.lA nofun, g.cb.keep kp g.lB nofun, g.keep.trans (kp.mono fun _ _ e => e.elim), kp.live g.lA, kp.live g.lB,
    kp.live g.l1, kp.live g.l2, kp.live g.l3⟩

/-- Normalising row `i`. -/
theorem gsNormalise_run (g : GsOk h0 h A B bi ai bj c r F K) (hab : A ≠ B) {f : Nat → ℝ} (cf : VCells h (.v bi) c f) {i : Nat}
    (hi : i < r) : Runs (LinAlg.gsNormalise B bi (i : Int)) h fun _ h' => GsOk h0 h' A B bi ai bj c r F (fun x y => if x = i then
      f y * (1 / Real.sqrt (∑ t ∈ Finset.range c, f t * f t)) else K x y) := by
  unfold LinAlg.gsNormalise
  refine Runs.step (Vec.norm_2_sum g.wf cf) ?_
  obtain ⟨h1, e1, u1⟩ := Vec.scalar_multiply_set g.wf cf (1 / Real.sqrt (∑ t ∈ Finset.range c, f t * f t))
  refine Runs.step e1 ?_
  have g1 := g.stepV u1 (Or.inl rfl)
  obtain ⟨h2, e2, u2⟩ := Mat.rowSet_run g1.cb u1.cells hi
  exact Runs.of_eq e2 (g1.stepM hab u2)

/-- One projection is subtracted from row `i`. -/
theorem gsInner_run (g : GsOk h0 h A B bi ai bj c r F K) (hab : A ≠ B) (d1 : bi ≠ ai) (d2 : bi ≠ bj) (d3 : ai ≠ bj) {i j : Nat}
    (hi : i < r) (hj : j < r) : Runs (LinAlg.gsInner A B bi ai bj i j) h fun _ h' => GsOk h0 h' A B bi ai bj c r F
      (fun x y => if x = i then K i y - K j y * ((∑ t ∈ Finset.range c, K j t * F i t) / ∑ t ∈ Finset.range c, K j t * K j t)
        else K x y) := by
  unfold LinAlg.gsInner
  obtain ⟨h1, e1, u1⟩ := Mat.rowGet_run (v := ai) g.wf g.ca hi
  have g1 := g.stepV u1 (by simp)
  obtain ⟨h2, e2, u2⟩ := Mat.rowGet_run (v := bj) g1.wf g1.cb hj
  have g2 := g1.stepV u2 (by simp)
  obtain ⟨h3, e3, u3⟩ := Mat.rowGet_run (v := bi) g2.wf g2.cb hi
  have g3 := g2.stepV u3 (by simp)
  refine Runs.step e1 (Runs.step e2 (Runs.step e3 ?_))
  have cai : VCells h3 (.v ai) c (F i) := (u1.cells.upd u2 fun e => d3 (Loc.v.inj e)).upd u3 fun e => d1 (Loc.v.inj e).symm
  have cbj : VCells h3 (.v bj) c (K j) := u2.cells.upd u3 fun e => d2 (Loc.v.inj e).symm
  refine Runs.bind (Runs.mono (vector_projection_cells g3.wf g3.l3 cbj cai) ?_)
  rintro _ h4 ⟨o, rfl, f4, l4, w4, k4, co⟩
  have g4 := g3.stepN w4 k4
  have cbi : VCells h4 (.v bi) c (K i) := u3.cells.keep k4 g3.l1 nofun
  obtain ⟨h5, e5, u5⟩ := Vec.sub_set w4 cbi co
  have g5 := g4.stepV u5 (by simp)
  refine Runs.step (show Vec.sub bi (Ref.vec? (some (.v o))) h4 = .ok ((), h5) from e5) ?_
  obtain ⟨h6, e6, u6⟩ := Mat.rowSet_run g5.cb u5.cells hi
  exact Runs.of_eq e6 (g5.stepM hab u6)
end

/-- Row `i` of `K` is the normalised remainder of row `i` of `F` after the projections onto the rows before it. -/
def GsRow (c : Nat) (F K : Nat → Nat → ℝ) (i : Nat) : Prop := ∃ u : Nat → ℝ,
  (∀ y, y < c → u y = F i y - ∑ j ∈ Finset.range i,
    K j y * ((∑ t ∈ Finset.range c, K j t * F i t) / ∑ t ∈ Finset.range c, K j t * K j t)) ∧
  ∀ y, y < c → K i y = u y * (1 / Real.sqrt (∑ t ∈ Finset.range c, u t * u t))

theorem GsRow.congr {c : Nat} {F K K' : Nat → Nat → ℝ} {i : Nat} (a : GsRow c F K i) (e : ∀ x y, x ≤ i → y < c → K' x y = K x y) :
    GsRow c F K' i := by
  obtain ⟨u, h1, h2⟩ := a
  refine ⟨u, fun y hy => ?_, fun y hy => by rw [e i y (Nat.le_refl _) hy, h2 y hy]⟩
  rw [h1 y hy]
  congr 1
  refine Finset.sum_congr rfl fun j hj => ?_
  have hj' : j ≤ i := (Finset.mem_range.mp hj).le
  rw [e j y hj' hy]
  congr 2
  · exact Finset.sum_congr rfl fun t ht => by rw [e j t hj' (Finset.mem_range.mp ht)]
  · exact Finset.sum_congr rfl fun t ht => by rw [e j t hj' (Finset.mem_range.mp ht)]

open LinAlg in
/-- The loop over the rows after the first. -/
theorem gsLoop_run {h0 h : Heap ℝ} {A B bi ai bj c r : Nat} {F K : Nat → Nat → ℝ} (g : GsOk h0 h A B bi ai bj c r F K)
    (hab : A ≠ B) (d1 : bi ≠ ai) (d2 : bi ≠ bj) (d3 : ai ≠ bj) (hr : 0 < r) (h00 : GsRow c F K 0) :
    Runs (forN (r - 1) fun k => do
      let i := k + 1
      Mat.row_get_into_mlpp_vector A (i : Int) (some bi)
      Mat.row_set_mlpp_vector B (i : Int) (some bi)
      forN i fun l => gsInner A B bi ai bj i (i - 1 - l)
      Mat.row_get_into_mlpp_vector B (i : Int) (some bi)
      gsNormalise B bi (i : Int)) h fun _ h' => ∃ K', GsOk h0 h' A B bi ai bj c r F K' ∧ ∀ i, i < r → GsRow c F K' i := by
  refine Runs.mono (Runs.forN (r - 1) (fun k h' => ∃ K', GsOk h0 h' A B bi ai bj c r F K' ∧ ∀ i, i ≤ k → GsRow c F K' i) _ h
    ⟨K, g, fun i hi => Nat.le_zero.mp hi ▸ h00⟩ ?_) ?_
  · rintro k h1 hk ⟨K1, g1, q1⟩
    have hi : k + 1 < r := by omega
    obtain ⟨h2, e2, u2⟩ := Mat.rowGet_run (v := bi) g1.wf g1.ca hi
    have g2 := g1.stepV u2 (by simp)
    obtain ⟨h3, e3, u3⟩ := Mat.rowSet_run g2.cb u2.cells hi
    have g3 := g2.stepM hab u3
    refine Runs.step e2 (Runs.step e3 ?_)
    let P : Nat → Nat → ℝ := fun j y => K1 j y * ((∑ t ∈ Finset.range c, K1 j t * F (k + 1) t) / ∑ t ∈ Finset.range c, K1 j t * K1 j t)
    refine Runs.bind (Runs.mono (Runs.forN (k + 1) (fun l h' => ∃ K', GsOk h0 h' A B bi ai bj c r F K' ∧
      (∀ x y, x ≠ k + 1 → K' x y = K1 x y) ∧ ∀ y, K' (k + 1) y = F (k + 1) y - ∑ j ∈ Finset.range l, P (k - j) y) _ h3
      ⟨_, g3, fun x y hx => by simp [hx], fun y => by simp⟩ ?_) ?_)
    · rintro l h4 hl ⟨K4, g4, n4, y4⟩
      refine Runs.mono (gsInner_run (i := k + 1) (j := k + 1 - 1 - l) g4 hab d1 d2 d3 hi (by omega)) ?_
      intro _ h5 g5
      refine ⟨_, g5, fun x y hx => by rw [if_neg hx, n4 x y hx], fun y => ?_⟩
      have hne : k + 1 - 1 - l ≠ k + 1 := by omega
      rw [if_pos rfl, y4, Finset.sum_range_succ, ← sub_sub]
      simp only [n4 _ _ hne]
      rfl
    · rintro _ h4 ⟨K4, g4, n4, y4⟩
      obtain ⟨h5, e5, u5⟩ := Mat.rowGet_run (v := bi) g4.wf g4.cb hi
      have g5 := g4.stepV u5 (by simp)
      refine Runs.step e5 (Runs.mono (gsNormalise_run g5 hab u5.cells hi) ?_)
      intro _ h6 g6
      refine ⟨_, g6, fun i hik => ?_⟩
      by_cases e : i = k + 1
      · subst e
        refine ⟨K4 (k + 1), fun y hy => ?_, fun y hy => by simp⟩
        have er : ∑ j ∈ Finset.range (k + 1), P (k - j) y = ∑ j ∈ Finset.range (k + 1), P j y :=
          Finset.sum_range_reflect (fun j => P j y) (k + 1)
        rw [y4 y, er]
        congr 1
        refine Finset.sum_congr rfl fun j hj => ?_
        have : j ≠ k + 1 := by have := Finset.mem_range.mp hj; omega
        simp only [if_neg this, n4 _ _ this]
        rfl
      · refine (q1 i (by omega)).congr fun x y hx hy => ?_
        have : x ≠ k + 1 := by omega
        rw [if_neg this, n4 x y this]
  · rintro _ h1 ⟨K1, g1, q1⟩
    exact ⟨K1, g1, fun i hi => q1 i (by omega)⟩

/-! ## Orthonormality -/

/-- Rows built by normalised projection of linearly independent rows: up to row `k`, they are orthonormal, each lies in the span of
the rows given, and each given row is the sum of its components. -/
structure GsOrtho (c : Nat) (a b : Nat → Fin c → ℝ) (k : Nat) : Prop where
  ortho : ∀ i j, i < k → j < k → b i ⬝ᵥ b j = if i = j then 1 else 0
  span : ∀ i, i < k → b i ∈ Submodule.span ℝ (a '' {j | j ≤ i})
  comp : ∀ i, i < k → a i = ∑ j ∈ Finset.range (i + 1), (b j ⬝ᵥ a i) • b j
  pos : ∀ i, i < k → 0 < b i ⬝ᵥ a i

theorem sum_range_dot {c : Nat} (f g : Nat → ℝ) : ∑ t ∈ Finset.range c, f t * g t = (fun y : Fin c => f y) ⬝ᵥ (fun y : Fin c => g y) :=
  Finset.sum_range fun t => f t * g t

theorem gsOrtho_step {c : Nat} {a b : Nat → Fin c → ℝ} {k r : Nat} (hk : k < r) (li : LinearIndependent ℝ fun i : Fin r => a i)
    (o : GsOrtho c a b k) (u : Fin c → ℝ)
    (hu : u = a k - ∑ j ∈ Finset.range k, ((b j ⬝ᵥ a k) / (b j ⬝ᵥ b j)) • b j)
    (hb : b k = (1 / Real.sqrt (u ⬝ᵥ u)) • u) : GsOrtho c a b (k + 1) := by
  have hu' : u = a k - ∑ j ∈ Finset.range k, (b j ⬝ᵥ a k) • b j := by
    rw [hu]
    congr 1
    refine Finset.sum_congr rfl fun j hj => ?_
    rw [o.ortho j j (Finset.mem_range.mp hj) (Finset.mem_range.mp hj), if_pos rfl, div_one]
  have hspan : (∑ j ∈ Finset.range k, (b j ⬝ᵥ a k) • b j) ∈ Submodule.span ℝ (a '' {j | j < k}) := by
    refine Submodule.sum_mem _ fun j hj => Submodule.smul_mem _ _ ?_
    have hj' := Finset.mem_range.mp hj
    refine Submodule.span_mono (Set.image_mono fun x (hx : x ≤ j) => ?_) (o.span j hj')
    exact lt_of_le_of_lt hx hj'
  have hne : u ≠ 0 := by
    intro e
    have e' : a k = ∑ j ∈ Finset.range k, (b j ⬝ᵥ a k) • b j := by
      rw [e] at hu'; exact (sub_eq_zero.mp hu'.symm)
    have hmem : a k ∈ Submodule.span ℝ (a '' {j | j < k}) := by rw [e']; rw [← e']; exact e' ▸ hspan
    have := li.notMem_span_image (s := {j : Fin r | (j : Nat) < k}) (x := ⟨k, hk⟩) (by simp)
    apply this
    have hs : (fun i : Fin r => a i) '' {j : Fin r | (j : Nat) < k} = a '' {j | j < k} := by
      ext v; constructor
      · rintro ⟨j, hj, rfl⟩; exact ⟨j, hj, rfl⟩
      · rintro ⟨j, hj, rfl⟩; exact ⟨⟨j, lt_trans hj hk⟩, hj, rfl⟩
    rw [hs]; exact hmem
  have hN : 0 < u ⬝ᵥ u := lt_of_le_of_ne (Finset.sum_nonneg fun i _ => mul_self_nonneg _)
    (fun e => hne (dotProduct_self_eq_zero.mp e.symm))
  have hs : 0 < Real.sqrt (u ⬝ᵥ u) := Real.sqrt_pos.mpr hN
  have hss : Real.sqrt (u ⬝ᵥ u) * Real.sqrt (u ⬝ᵥ u) = u ⬝ᵥ u := Real.mul_self_sqrt hN.le
  have hortho : ∀ i, i < k → b i ⬝ᵥ u = 0 := by
    intro i hi
    rw [hu', dotProduct_sub, dotProduct_sum, Finset.sum_eq_single i]
    · rw [dotProduct_smul, o.ortho i i hi hi, if_pos rfl, smul_eq_mul, mul_one, sub_self]
    · intro j hj hji
      rw [dotProduct_smul, o.ortho i j hi (Finset.mem_range.mp hj), if_neg (Ne.symm hji), smul_zero]
    · intro hn; exact absurd (Finset.mem_range.mpr hi) hn
  have hak : a k = u + ∑ j ∈ Finset.range k, (b j ⬝ᵥ a k) • b j := by
    conv_rhs => rw [hu']
    rw [sub_add_cancel]
  have hua : u ⬝ᵥ a k = u ⬝ᵥ u := by
    conv_lhs => rw [hak]
    rw [dotProduct_add, dotProduct_sum, Finset.sum_eq_zero, add_zero]
    intro j hj
    rw [dotProduct_smul, dotProduct_comm u, hortho j (Finset.mem_range.mp hj), smul_zero]
  have hba : b k ⬝ᵥ a k = Real.sqrt (u ⬝ᵥ u) := by
    rw [hb, smul_dotProduct, hua, smul_eq_mul]
    field_simp
    rw [sq, hss]
  have hbk : ∀ i, i < k → b i ⬝ᵥ b k = 0 := fun i hi => by rw [hb, dotProduct_smul, hortho i hi, smul_zero]
  refine ⟨fun i j hi hj => ?_, fun i hi => ?_, fun i hi => ?_, fun i hi => ?_⟩
  · rcases Nat.lt_succ_iff_lt_or_eq.mp hi with hi | rfl <;> rcases Nat.lt_succ_iff_lt_or_eq.mp hj with hj | rfl
    · exact o.ortho i j hi hj
    · rw [hbk i hi, if_neg (by omega)]
    · rw [dotProduct_comm, hbk j hj, if_neg (by omega)]
    · rw [if_pos rfl, hb, dotProduct_smul, smul_dotProduct, smul_eq_mul, smul_eq_mul]
      field_simp
      rw [sq, hss]
  · rcases Nat.lt_succ_iff_lt_or_eq.mp hi with hi | rfl
    · exact o.span i hi
    · rw [hb, hu']
      refine Submodule.smul_mem _ _ (Submodule.sub_mem _ (Submodule.subset_span ⟨i, le_refl i, rfl⟩) ?_)
      exact Submodule.span_mono (Set.image_mono fun x (hx : x < i) => le_of_lt hx) hspan
  · rcases Nat.lt_succ_iff_lt_or_eq.mp hi with hi | rfl
    · exact o.comp i hi
    · rw [Finset.sum_range_succ, hba, hb, smul_smul]
      conv_lhs => rw [hak]
      rw [mul_one_div_cancel hs.ne', one_smul, add_comm]
  · rcases Nat.lt_succ_iff_lt_or_eq.mp hi with hi | rfl
    · exact o.pos i hi
    · rw [hba]; exact hs

theorem gsOrtho_of_rows {c r : Nat} {F K : Nat → Nat → ℝ} (li : LinearIndependent ℝ fun i : Fin r => fun y : Fin c => F i y)
    (q : ∀ i, i < r → GsRow c F K i) : GsOrtho c (fun i y => F i y) (fun i y => K i y) r := by
  have : ∀ k, k ≤ r → GsOrtho c (fun i y => F i y) (fun i y => K i y) k := by
    intro k
    induction k with
    | zero => exact fun _ => ⟨fun _ _ h => absurd h (Nat.not_lt_zero _), fun _ h => absurd h (Nat.not_lt_zero _),
        fun _ h => absurd h (Nat.not_lt_zero _), fun _ h => absurd h (Nat.not_lt_zero _)⟩
    | succ k ih =>
      intro hk
      obtain ⟨u, hu, hb⟩ := q k hk
      refine gsOrtho_step hk li (ih (by omega)) (fun y => u y) ?_ ?_
      · funext y
        rw [hu y y.2]
        simp only [Pi.sub_apply, Finset.sum_apply, Pi.smul_apply, smul_eq_mul, sum_range_dot]
        congr 1
        exact Finset.sum_congr rfl fun j _ => mul_comm _ _
      · funext y
        rw [hb y y.2, sum_range_dot, Pi.smul_apply, smul_eq_mul, mul_comm]
  exact this r le_rfl

/-! ## The functions -/

theorem Gr_mset {h : Heap ℝ} {o c r : Nat} (F : Nat → Nat → ℝ) (hs : h.size (.m o) = ⟨c, r, 1⟩) : MSet h (Gr h (.m o) c r F) o c r F :=
  Gr_updated h (.m o) F hs

theorem GsRow.zero {c : Nat} {F K : Nat → Nat → ℝ} (e : ∀ y, y < c → K 0 y = F 0 y * (1 / Real.sqrt (∑ t ∈ Finset.range c, F 0 t * F 0 t))) :
    GsRow c F K 0 := ⟨F 0, fun y _ => by simp, e⟩

namespace LinAlg

/-- `gram_schmidt_process(A)` for linearly independent columns. -/
theorem gram_schmidt_spec {h : Heap ℝ} (w : h.WF) {a : Nat} {A : Matrix (Fin m) (Fin n) ℝ} (hA : IsMat h a A) (la : h.live (.m a))
    (hn : 0 < n) (li : LinearIndependent ℝ fun j : Fin n => fun i : Fin m => A i j) :
    Runs (gram_schmidt_process (some (.m a))) h fun r h' => ∃ o Q, r = some (.m o) ∧ ¬ h.live (.m o) ∧ h'.live (.m o) ∧ h'.WF ∧
      Keeps h h' (fun _ => False) ∧ IsMat h' o (Q : Matrix (Fin m) (Fin n) ℝ) ∧ Q.transpose * Q = 1 ∧
      Q * (Q.transpose * A) = A ∧ (∀ i j : Fin n, j < i → (Q.transpose * A) i j = 0) ∧ ∀ i : Fin n, 0 < (Q.transpose * A) i i := by
  unfold gram_schmidt_process
  refine Runs.step (derefM_run a h) ?_
  refine (Mat.transposen_spec w hA la).bind fun t h1 w1 k1 f1 l1 hT => ?_
  refine Runs.step (derefM_run t h1) (Runs.step (Mat.size_run t h1) ?_)
  obtain ⟨F, eF, cT⟩ := hT.cells w1
  rw [cT.1]
  have k := k1
  refine Runs.newMat w1 rfl fun h2 w2 k2 f2 l2 s2 => Runs.fill w2 s2 ?_
  have nB : ¬ h.live (.m h1.next) := fun e => f2 (k1.live e)
  have nAB : t ≠ h1.next := fun e => f2 (e ▸ l1)
  advance k2
  have u3 := Gr_mset (fun _ _ => 0) s2
  have w3 := u3.wf w2
  have cB := u3.cells
  have k3 : Keeps h (Gr h2 (.m h1.next) m n fun _ _ => 0) (fun _ => False) := k.trans_new u3.keeps fun _ e hl => nB (e ▸ hl)
  have cT3 := cT.keep u3.keeps l1 fun e => nAB (Loc.m.inj e)
  have lT3 := u3.keeps.live l1
  have lB3 := u3.keeps.live l2
  generalize Gr h2 (.m h1.next) m n (fun _ _ => 0) = h3 at *
  refine Runs.newVec w3 ⟨rfl, rfl⟩ fun h4 w4 k4 f4 l4 s4 => ?_
  obtain ⟨z4, c4⟩ := exists_VCells w4 s4
  have g4 : GsOk h h4 t h1.next h3.next h3.next h3.next m n F (fun _ _ => 0) :=
    ⟨w4, cT3.keep k4 lT3 nofun, cB.keep k4 lB3 nofun, (k3.trans k4).mono fun _ _ e => e.elim, k4.live lT3, k4.live lB3, l4, l4, l4⟩
  obtain ⟨h5, e5, u5⟩ := Mat.rowGet_run (v := h3.next) w4 g4.ca hn
  have g5 := g4.stepV u5 (by simp)
  refine Runs.step e5 (Runs.bind (Runs.mono (gsNormalise_run g5 nAB u5.cells hn) ?_))
  intro _ h6 g6
  refine Runs.newVec g6.wf ⟨rfl, rfl⟩ fun h7 w7 k7 f7 l7 s7 => ?_
  refine Runs.newVec w7 ⟨rfl, rfl⟩ fun h8 w8 k8 f8 l8 s8 => ?_
  have n1 : h3.next ≠ h6.next := fun e => f7 (by rw [← e]; exact g6.l1)
  have n2 : h3.next ≠ h7.next := fun e => f8 (by rw [← e]; exact k7.live g6.l1)
  have n3 : h6.next ≠ h7.next := fun e => f8 (by rw [← e]; exact l7)
  have k78 := k7.trans k8
  have g8 : GsOk h h8 t h1.next h3.next h6.next h7.next m n F _ :=
    ⟨w8, g6.ca.keep k78 g6.lA nofun, g6.cb.keep k78 g6.lB nofun, (g6.keep.trans (k78.mono fun _ _ e => e.elim)).mono
      (fun _ _ e => by rcases e with e | e | e | e <;> simp [GsOwn, e]), k78.live g6.lA, k78.live g6.lB, k78.live g6.l1, k8.live l7, l8⟩
  refine Runs.bind (Runs.mono (gsLoop_run g8 nAB n1 n2 n3 hn (GsRow.zero fun y hy => by simp)) ?_)
  rintro _ h9 ⟨K, g9, q9⟩
  have hB9 : IsMat h9 h1.next (Matrix.of fun (i : Fin n) (j : Fin m) => K i j) := g9.cb.isMat fun _ _ => rfl
  have k9 : Keeps h h9 (fun _ => False) := g9.keep.mono fun l hl e => by
    rcases e with rfl | rfl | rfl | rfl
    · exact nB hl
    · exact f4 (k3.live hl)
    · exact f7 (g6.keep.live hl)
    · exact f8 (k7.live (g6.keep.live hl))
  have li' : LinearIndependent ℝ fun i : Fin n => fun y : Fin m => F i y := by
    convert li using 3 with i y
    exact (eF i y).symm
  have o := gsOrtho_of_rows li' q9
  have hAF : ∀ (i : Fin m) (j : Fin n), A i j = F j i := fun i j => eF j i
  have hR : ∀ i j : Fin n, ((Matrix.of fun (i : Fin n) (j : Fin m) => K i j) * A) i j =
      (fun y : Fin m => K i y) ⬝ᵥ fun y : Fin m => F j y := by
    intro i j
    rw [Matrix.mul_apply]
    exact Finset.sum_congr rfl fun y _ => by rw [hAF]; rfl
  have hz : ∀ i j : Nat, i < n → j < i → (fun y : Fin m => K i y) ⬝ᵥ (fun y : Fin m => F j y) = 0 := by
    intro i j hi hj
    rw [o.comp j (hj.trans hi), dotProduct_sum]
    refine Finset.sum_eq_zero fun l hl => ?_
    have hl' := Finset.mem_range.mp hl
    rw [dotProduct_smul, o.ortho i l hi (by omega), if_neg (by omega), smul_zero]
  refine Runs.mono ((Mat.transposen_spec g9.wf hB9 g9.lB).from k9) ?_
  rintro _ h' ⟨x, rfl, fx, lx, wx, kx, hx⟩
  refine ⟨x, _, rfl, fx, lx, wx, kx, hx, ?_, ?_, ?_, ?_⟩
  · rw [Matrix.transpose_transpose]
    ext i j
    rw [Matrix.mul_apply, Matrix.one_apply]
    exact (o.ortho i j i.2 j.2).trans (by simp [Fin.ext_iff])
  · rw [Matrix.transpose_transpose]
    ext i j
    rw [Matrix.mul_apply]
    simp only [hR]
    have e1 := congrFun (o.comp j j.2) i
    simp only [Finset.sum_apply, Pi.smul_apply, smul_eq_mul] at e1
    rw [hAF, e1, Finset.sum_subset (s₁ := Finset.range (j + 1)) (s₂ := Finset.range n)]
    · rw [Finset.sum_range]
      exact Finset.sum_congr rfl fun l _ => mul_comm _ _
    · intro x hx; have := Finset.mem_range.mp hx; exact Finset.mem_range.mpr (by omega)
    · intro x hx hx'
      have := Finset.mem_range.mp hx
      rw [hz x j this (by simp at hx'; omega), zero_mul]
  · intro i j hij
    rw [Matrix.transpose_transpose, hR]
    exact hz i j i.2 hij
  · intro i
    rw [Matrix.transpose_transpose, hR]
    exact o.pos i i.2

/-- `qrd(A)` for linearly independent columns. -/
theorem qrd_spec {h : Heap ℝ} (w : h.WF) {a : Nat} {A : Matrix (Fin m) (Fin n) ℝ} (hA : IsMat h a A) (la : h.live (.m a))
    (hn : 0 < n) (li : LinearIndependent ℝ fun j : Fin n => fun i : Fin m => A i j) :
    Runs (qrd (some (.m a))) h fun r h' => ∃ q t Q U, r = (some (.m q), some (.m t)) ∧ ¬ h.live (.m q) ∧ ¬ h.live (.m t) ∧ q ≠ t ∧
      h'.WF ∧ Keeps h h' (fun _ => False) ∧ IsMat h' q (Q : Matrix (Fin m) (Fin n) ℝ) ∧ IsMat h' t (U : Matrix (Fin n) (Fin n) ℝ) ∧
      Q.transpose * Q = 1 ∧ Q * U = A ∧ (∀ i j : Fin n, j < i → U i j = 0) ∧ ∀ i : Fin n, 0 < U i i := by
  unfold qrd
  refine Runs.bind (Runs.mono (gram_schmidt_spec w hA la hn li) ?_)
  rintro _ h1 ⟨q, Q, rfl, f1, l1, w1, k1, hQ, o1, o2, o3, o4⟩
  refine Runs.step (derefM_run q h1) ?_
  have k := k1
  advance k1
  refine (Mat.transposen_spec w1 hQ l1).bind fun t h2 w2 k2 f2 l2 hT => ?_
  refine Runs.step (derefM_run t h2) ?_
  advance k2
  refine (Mat.multn_spec w2 hT hA l2 la).bind fun p h3 w3 k3 f3 l3 hP => ?_
  have n1 : ¬ h.live (.m p) := fun e => f3 (k.live e)
  have n2 : q ≠ p := fun e => f3 (e ▸ l1)
  advance k3
  exact ⟨q, p, Q, _, rfl, f1, n1, n2, w3, k, hQ, hP, o1, o2, o3, o4⟩

end LinAlg

end Verif
