import Verif.Lemmas.GramSchmidt
import Verif.Lemmas.Stat

/-! # The covariance matrix -/

namespace Verif
open Spec
open SortArray (tab upd tab_get tab_length tab_set tab_of_list)
variable {m n : Nat}

/-- A step that writes one cell of the output. -/
theorem GsOk.stepC {h0 h : Heap ℝ} {A B bi ai bj c r : Nat} {F K : Nat → Nat → ℝ} (g : GsOk h0 h A B bi ai bj c r F K) (hab : A ≠ B)
    {i j : Nat} (hi : i < r) (hj : j < c) (v : ℝ) :
    Runs (Mat.element_set B (i : Int) (j : Int) v) h fun _ h' => GsOk h0 h' A B bi ai bj c r F (upd2 K i j v) := by
  refine Runs.mono (Mat.set_cells g.wf g.cb hi hj v) ?_
  rintro _ h' ⟨w', k', _, c'⟩
  exact ⟨w', g.ca.keep k' g.lA fun e => hab (Loc.m.inj e), c', g.keep.trans (k'.mono fun _ _ e => Or.inl e), k'.live g.lA,
    k'.live g.lB, k'.live g.l1, k'.live g.l2, k'.live g.l3⟩

theorem covLoop_run {h0 h : Heap ℝ} {A B ri rj c r : Nat} {F K : Nat → Nat → ℝ} (g : GsOk h0 h A B ri rj rj c r F K) (hab : A ≠ B)
    (d : ri ≠ rj) (hcr : c ≤ r) : Runs (LinAlg.covLoop A B ri rj r c) h fun _ h' =>
      GsOk h0 h' A B ri rj rj c r F fun i j => if i < r ∧ j < c then sampleCov (tab c (F i)) (tab c (F j)) else K i j := by
  unfold LinAlg.covLoop
  let G : Nat → Nat → ℝ := fun i j => sampleCov (tab c (F i)) (tab c (F j))
  refine Runs.mono (Runs.forN r (fun i h' => GsOk h0 h' A B ri rj rj c r F fun x y => if x < i ∧ y < c then G x y else K x y) _ h
    (by simpa using g) ?_) fun _ _ q => q
  intro i h1 hi g1
  obtain ⟨h2, e2, u2⟩ := Mat.rowGet_run (v := ri) g1.wf g1.ca hi
  have g2 := g1.stepV u2 (by simp)
  refine Runs.step e2 ?_
  refine Runs.mono (Runs.forN c (fun j h' => VCells h' (.v ri) c (F i) ∧ GsOk h0 h' A B ri rj rj c r F fun x y =>
    if (x < i ∧ y < c) ∨ (x = i ∧ y < j) then G x y else K x y) _ h2 ⟨u2.cells, by simpa using g2⟩ ?_) ?_
  · rintro j h3 hj ⟨ci, g3⟩
    obtain ⟨h4, e4, u4⟩ := Mat.rowGet_run (v := rj) g3.wf g3.ca (lt_of_lt_of_le hj hcr)
    have g4 := g3.stepV u4 (by simp)
    have ci4 := ci.upd u4 fun e => d (Loc.v.inj e)
    refine Runs.step e4 (Runs.step (Stat.covariancev_run g4.wf ri rj (by rw [ci4.2, u4.cells.2, tab_length, tab_length])) ?_)
    rw [ci4.2, u4.cells.2]
    have hs := g4.stepC hab hi hj (sampleCov (tab c (F i)) (tab c (F j)))
    obtain ⟨x, h5, e5, w5, k5, n5, c5⟩ := runs_iff.mp (Mat.set_cells g4.wf g4.cb hi hj (sampleCov (tab c (F i)) (tab c (F j))))
    obtain ⟨x', h5', e5', g5⟩ := runs_iff.mp hs
    rw [e5] at e5'
    obtain ⟨rfl, rfl⟩ : x = x' ∧ h5 = h5' := by injection e5' with q; exact ⟨congrArg Prod.fst q, congrArg Prod.snd q⟩
    refine Runs.of_eq e5 ⟨ci4.keep k5 g4.l1 nofun, ⟨g5.wf, g5.ca, g5.cb.congr fun x y hx hy => ?_, g5.keep, g5.lA, g5.lB, g5.l1, g5.l2, g5.l3⟩⟩
    simp only [upd2, G]; grind
  · rintro _ h3 ⟨_, g3⟩
    refine ⟨g3.wf, g3.ca, g3.cb.congr fun x y hx hy => ?_, g3.keep, g3.lA, g3.lB, g3.l1, g3.l2, g3.l3⟩
    grind

/-- What `cov` leaves in its output, for a matrix with at least as many rows as columns. -/
noncomputable def covCells (A : Matrix (Fin m) (Fin n) ℝ) (hmn : n ≤ m) : Matrix (Fin m) (Fin n) ℝ :=
  Matrix.of fun i j => sampleCov (List.ofFn (A i)) (List.ofFn (A (Fin.castLE hmn j)))

theorem ofFn_eq_tab {A : Fin n → ℝ} {f : Nat → ℝ} (e : ∀ i, A i = f i) : List.ofFn A = tab n f := by
  apply List.ext_getElem
  · simp
  · intro i h1 h2
    simp [SortArray.tab, e]

theorem Mat.cov_spec {h : Heap ℝ} (w : h.WF) {a : Nat} {A : Matrix (Fin m) (Fin n) ℝ} (hA : IsMat h a A) (la : h.live (.m a))
    (hmn : n ≤ m) : ReturnsMat (Mat.cov a) h (covCells A hmn) := by
  obtain ⟨F, eF, cA⟩ := hA.cells w
  have e := newMat_size (h := h) (l := .m a) la fun o s => do
    resizeTo o s
    let ri ← newVec
    resizeTo ri ⟨s.x, 1, 1⟩
    let rj ← newVec
    resizeTo rj ⟨s.x, 1, 1⟩
    LinAlg.covLoop a o.id ri.id rj.id s.y s.x
    pure (some o)
  refine Runs.congr e ?_
  rw [cA.1]
  have k := Keeps.refl h (fun _ => False)
  refine Runs.newMat w rfl fun h1 w1 k1 f1 l1 s1 => ?_
  have nAB : a ≠ h.next := fun e => f1 (e ▸ la)
  advance k1
  obtain ⟨K, cB⟩ := exists_Cells w1 s1
  refine Runs.newVec w1 ⟨rfl, rfl⟩ fun h2 w2 k2 f2 l2 s2 => ?_
  refine Runs.newVec w2 ⟨rfl, rfl⟩ fun h3 w3 k3 f3 l3 s3 => ?_
  have d : h1.next ≠ h2.next := fun e => f3 (by rw [← e]; exact l2)
  have k23 := k2.trans k3
  have kk : Keeps h h3 (fun _ => False) := k.trans k23
  have g : GsOk h h3 a h.next h1.next h2.next h2.next n m F K := ⟨w3, cA.keep k23 la nofun, cB.keep k23 l1 nofun,
    kk.mono fun _ _ e => e.elim, k23.live la, k23.live l1, k3.live l2, l3, l3⟩
  refine Runs.bind (Runs.mono (covLoop_run g nAB d hmn) ?_)
  intro _ h4 g4
  refine ⟨h.next, rfl, f1, g4.lB, g4.wf, g4.keep.mono fun l hl e => ?_, g4.cb.isMat fun i j => ?_⟩
  · rcases e with rfl | rfl | rfl | rfl
    · exact f1 hl
    · exact f2 (k.live hl)
    · exact f3 (k2.live (k.live hl))
    · exact f3 (k2.live (k.live hl))
  · rw [if_pos ⟨i.2, j.2⟩]
    show sampleCov _ _ = _
    rw [ofFn_eq_tab (eF i), ofFn_eq_tab (eF (Fin.castLE hmn j))]; rfl

theorem LinAlg.covnm_spec {h : Heap ℝ} (w : h.WF) {a : Nat} {A : Matrix (Fin m) (Fin n) ℝ} (hA : IsMat h a A) (la : h.live (.m a))
    (hmn : n ≤ m) : ReturnsMat (LinAlg.covnm (some (.m a))) h (covCells A hmn) := Mat.cov_spec w hA la hmn

theorem Mat.covo_spec {h : Heap ℝ} (w : h.WF) {a o : Nat} {A : Matrix (Fin m) (Fin n) ℝ} (hA : IsMat h a A) (la : h.live (.m a))
    (lo : h.live (.m o)) (hne : a ≠ o) (hmn : n ≤ m) : SetsMat (Mat.covo a (some o)) h o (covCells A hmn) := by
  obtain ⟨F, eF, cA⟩ := hA.cells w
  unfold Mat.covo
  dsimp only
  refine Runs.step (Mat.size_run a h) ?_
  rw [cA.1]
  refine Runs.ensureM w rfl fun h1 w1 k1 n1 s1 _ => ?_
  obtain ⟨K, cB⟩ := exists_Cells w1 s1
  have cA1 := cA.keep k1 la fun e => hne (Loc.m.inj e)
  have la1 := k1.live la
  have lo1 := k1.live lo
  refine Runs.newVec w1 ⟨rfl, rfl⟩ fun h2 w2 k2 f2 l2 s2 => ?_
  refine Runs.newVec w2 ⟨rfl, rfl⟩ fun h3 w3 k3 f3 l3 s3 => ?_
  have d : h1.next ≠ h2.next := fun e => f3 (by rw [← e]; exact l2)
  have k23 := k2.trans k3
  have g : GsOk h h3 a o h1.next h2.next h2.next n m F K := ⟨w3, cA1.keep k23 la1 nofun, cB.keep k23 lo1 nofun,
    (k1.mono fun _ _ e => Or.inl e).trans (k23.mono fun _ _ e => e.elim), k23.live la1, k23.live lo1, k3.live l2, l3, l3⟩
  refine Runs.mono (covLoop_run g hne d hmn) ?_
  intro _ h4 g4
  refine ⟨g4.wf, g4.keep.mono fun l hl e => ?_, g4.cb.isMat fun i j => ?_⟩
  · rcases e with rfl | rfl | rfl | rfl
    · rfl
    · exact (f2 (k1.live hl)).elim
    · exact (f3 (k2.live (k1.live hl))).elim
    · exact (f3 (k2.live (k1.live hl))).elim
  · rw [if_pos ⟨i.2, j.2⟩]
    show sampleCov _ _ = _
    rw [ofFn_eq_tab (eF i), ofFn_eq_tab (eF (Fin.castLE hmn j))]; rfl

end Verif
