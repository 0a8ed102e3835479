import Verif.Props.OneHot
import Mathlib.Data.Fintype.EquivFin
import Mathlib.LinearAlgebra.Matrix.Notation

/-! # C72: splitting data into training and test sets -/

namespace Verif.Data
open Spec Activation
variable {ma mb n p : Nat}

/-- C72: `shuffle` permutes its argument, whatever the random numbers are. -/
theorem C72_shuffle {α : Type} (rand : Nat → Nat) (a : List α) : (shuffle rand a).Perm a := by
  unfold shuffle
  generalize List.range (a.length - 1) = ts
  have : ∀ b : List α, (ts.foldl (fun a t =>
      let i := a.length - 1 - t
      let j := rand i % (i + 1)
      match a[j]?, a[i]? with
      | some x, some y => (a.set j y).set i x
      | _, _ => a) b).Perm b := by
    induction ts with
    | nil => intro b; exact List.Perm.refl _
    | cons t ts ih =>
      intro b
      rw [List.foldl_cons]
      refine (ih _).trans ?_
      dsimp only
      generalize b.length - 1 - t = i
      generalize rand i % (i + 1) = j
      by_cases hj : j < b.length
      · by_cases hi : i < b.length
        · rw [List.getElem?_eq_getElem hj, List.getElem?_eq_getElem hi]
          exact List.set_set_perm hj hi
        · rw [List.getElem?_eq_none (by omega : b.length ≤ i)]
          split <;> first | exact List.Perm.refl _ | simp_all
      · rw [List.getElem?_eq_none (by omega : b.length ≤ j)]
  exact this a

/-- What the copying loop does. -/
theorem copyRows_run {h : Heap ℝ} (w : h.WF) {inp out it ot ri ro s cnt ca cb : Nat} {F G S T : Nat → Nat → ℝ} {indices : List Nat}
    (ci : Cells h (.m inp) n ca F) (co : Cells h (.m out) p cb G) (cs : Cells h (.m it) n cnt S) (ct : Cells h (.m ot) p cnt T)
    (li : h.live (.m inp)) (lo : h.live (.m out))
    (h1 : it ≠ inp) (h2 : it ≠ out) (h3 : ot ≠ inp) (h4 : ot ≠ out) (h5 : it ≠ ot) (h6 : ri ≠ ro)
    (idx : Nat → Nat) (hidx : ∀ i, i < cnt → indices[s + i]? = some (idx i) ∧ idx i < ca ∧ idx i < cb) :
    Runs (copyRows indices s cnt inp out it ot ri ro) h fun _ h' => h'.WF ∧
      Keeps h h' (fun l => l = .m it ∨ l = .m ot ∨ l = .v ri ∨ l = .v ro) ∧
      Cells h' (.m it) n cnt (fun i => F (idx i)) ∧ Cells h' (.m ot) p cnt (fun i => G (idx i)) := by
  unfold copyRows
  refine (Runs.forN cnt (fun k h' => h'.WF ∧ Keeps h h' (fun l => l = .m it ∨ l = .m ot ∨ l = .v ri ∨ l = .v ro) ∧
    Cells h' (.m it) n cnt (fun i j => if i < k then F (idx i) j else S i j) ∧
    Cells h' (.m ot) p cnt (fun i j => if i < k then G (idx i) j else T i j)) _ _
    ⟨w, Keeps.refl _ _, cs.congr fun _ _ _ _ => by simp, ct.congr fun _ _ _ _ => by simp⟩ ?_).mono ?_
  · rintro i g hi ⟨wg, kg, cs, ct⟩
    obtain ⟨e, hia, hib⟩ := hidx i hi
    have ci := ci.keep kg li (by simp [h1.symm, h3.symm])
    have co := co.keep kg lo (by simp [h2.symm, h4.symm])
    refine Runs.step (show field indices (s + i) g = .ok (idx i, g) by unfold field; rw [e]; rfl) ?_
    obtain ⟨g1, e1, u1⟩ := Mat.rowGet_run (v := ri) wg ci hia
    obtain ⟨g2, e2, u2⟩ := Mat.rowGet_run (v := ro) (u1.wf wg) (co.upd u1 nofun) hib
    obtain ⟨g3, e3, u3⟩ := Mat.rowSet_run ((cs.upd u1 nofun).upd u2 nofun) (u1.cells.upd u2 (by simpa using h6)) hi
    obtain ⟨g4, e4, u4⟩ := Mat.rowSet_run (((ct.upd u1 nofun).upd u2 nofun).upd u3 (by simpa using h5.symm)) (u2.cells.upd u3 nofun) hi
    refine Runs.step e1 (Runs.step e2 (Runs.step e3 (Runs.of_eq e4 ⟨u4.wf (u3.wf (u2.wf (u1.wf wg))), ?_, ?_, ?_⟩)))
    · exact (((kg.trans ((Updated.keeps u1).mono (by rintro l _ rfl; simp))).trans ((Updated.keeps u2).mono (by rintro l _ rfl; simp))).trans
        ((Updated.keeps u3).mono (by rintro l _ rfl; simp))).trans ((Updated.keeps u4).mono (by rintro l _ rfl; simp))
    · refine (u3.cells.upd u4 (by simpa using h5)).congr fun x y _ _ => ?_
      grind
    · refine u4.cells.congr fun x y _ _ => ?_
      grind
  · rintro _ g ⟨wg, kg, cs, ct⟩
    exact ⟨wg, kg, cs.congr fun x y hx _ => by simp [hx], ct.congr fun x y hx _ => by simp [hx]⟩

/-- A list of the numbers below `k` in some order, as a permutation. -/
theorem exists_perm {k : Nat} {l : List Nat} (hl : l.Perm (List.range k)) :
    ∃ σ : Equiv.Perm (Fin k), ∀ i : Fin k, l[i.val]? = some (σ i).val := by
  have hlen : l.length = k := by rw [hl.length_eq, List.length_range]
  have hlt : ∀ i : Fin k, l[i.val]'(by omega) < k := fun i => List.mem_range.mp (hl.mem_iff.mp (List.getElem_mem _))
  let f : Fin k → Fin k := fun i => ⟨l[i.val]'(by omega), hlt i⟩
  have hinj : Function.Injective f := by
    intro i j e
    have hn : l.Nodup := hl.nodup_iff.mpr List.nodup_range
    have := (List.Nodup.getElem_inj_iff hn).mp (Fin.mk.inj e)
    exact Fin.ext this
  refine ⟨Equiv.ofBijective f ⟨hinj, Finite.injective_iff_surjective.mp hinj⟩, fun i => ?_⟩
  rw [List.getElem?_eq_getElem (by omega)]; rfl

/-- C72: `train_test_split` returns four new matrices. There is a permutation `σ` of the rows (of the shorter of the two matrices) such that the
first `t` permuted rows of the inputs and of the outputs are the test set and the rest are the training set, `t` being `test_size` times the
number of rows, rounded down; in both sets, inputs and outputs correspond. The data is not changed. -/
theorem C72_split {h : Heap ℝ} (w : h.WF) {a b : Nat} (la : h.live (.m a)) (lb : h.live (.m b)) {A : Matrix (Fin ma) (Fin n) ℝ}
    {B : Matrix (Fin mb) (Fin p) ℝ} (hA : IsMat h a A) (hB : IsMat h b B) (test_size : ℝ) (h0 : 0 ≤ test_size) (h1 : test_size ≤ 1)
    (N : Nat) (hN : N = min ma mb) (hn : N < 2147483648) (rand : Nat → Nat) (t : Nat) (ht : t = ⌊test_size * (N : ℝ)⌋₊) :
    ∃ (htn : t ≤ N) (σ : Equiv.Perm (Fin N)),
    Runs (train_test_split rand a b test_size) h fun r h' => ∃ ti tr ei eo : Nat,
      r = (⟨some (.m ti), some (.m tr)⟩, ⟨some (.m ei), some (.m eo)⟩) ∧ h'.WF ∧ Keeps h h' (fun _ => False) ∧
      (∀ x ∈ [ti, tr, ei, eo], ¬ h.live (.m x) ∧ h'.live (.m x)) ∧ [ti, tr, ei, eo].Nodup ∧
      IsMat h' ei (fun (i : Fin t) j => A ((σ (i.castLE htn)).castLE (by omega)) j) ∧
      IsMat h' eo (fun (i : Fin t) j => B ((σ (i.castLE htn)).castLE (by omega)) j) ∧
      IsMat h' ti (fun (i : Fin (N - t)) j => A ((σ ⟨t + i.val, by omega⟩).castLE (by omega)) j) ∧
      IsMat h' tr (fun (i : Fin (N - t)) j => B ((σ ⟨t + i.val, by omega⟩).castLE (by omega)) j) := by
  have hpos : 0 ≤ test_size * (N : ℝ) := mul_nonneg h0 (Nat.cast_nonneg _)
  have hle : test_size * (N : ℝ) ≤ (N : ℝ) := mul_le_of_le_one_left (Nat.cast_nonneg _) h1
  have htn : t ≤ N := by rw [ht]; exact Nat.floor_le_of_le hle
  have hma : N ≤ ma := by omega
  have hmb : N ≤ mb := by omega
  obtain ⟨σ, hσ⟩ := exists_perm (C72_shuffle rand (List.range N))
  refine ⟨htn, σ, ?_⟩
  obtain ⟨F, eF, cF⟩ := hA.cells w
  obtain ⟨G, eG, cG⟩ := hB.cells w
  have hfl : trunc (test_size * (N : ℝ)) = (t : Int) := by
    unfold trunc
    rw [if_pos hpos, ht, Int.natCast_floor_eq_floor hpos]
  have hrange : -2147483649 < test_size * (N : ℝ) ∧ test_size * (N : ℝ) < 2147483648 :=
    ⟨by linarith, lt_of_le_of_lt hle (by exact_mod_cast hn)⟩
  have hNN : min ma mb = N := hN.symm
  unfold train_test_split
  refine Runs.newM w ?_
  intro g1 w1 k1 n1 l1 _
  refine Runs.newM w1 ?_
  intro g2 w2 k2 n2 l2 _
  refine Runs.newM w2 ?_
  intro g3 w3 k3 n3 l3 _
  refine Runs.newM w3 ?_
  intro g4 w4 k4 n4 l4 _
  have k04 := ((k1.trans k2).trans k3).trans k4
  have cF4 := cF.keep k04 la nofun
  have cG4 := cG.keep k04 lb nofun
  refine Runs.step (Mat.size_run a g4) (Runs.step (Mat.size_run b g4) ?_)
  rw [cF4.1, cG4.1]
  dsimp only
  rw [hNN]
  refine Runs.newVec w4 ⟨rfl, rfl⟩ ?_
  intro g5 w5 k5 n5 l5 s5
  refine Runs.newVec w5 ⟨rfl, rfl⟩ ?_
  intro g6 w6 k6 n6 l6 s6
  have k06 := (k04.trans k5).trans k6
  refine Runs.step (toInt_run hrange) ?_
  rw [hfl, if_neg (by omega)]
  simp only [Int.toNat_natCast]
  have la6 := k06.live la
  have lb6 := k06.live lb
  have cF6 := cF.keep k06 la nofun
  have cG6 := cG.keep k06 lb nofun
  simp only [Heap.live, Loc.id] at la lb n1 l1 n2 l2 n3 l3 n4 l4 n5 l5 n6 l6
  have m1 : g1.next ≤ g2.next := k2.1
  have m2 : g2.next ≤ g3.next := k3.1
  have m3 : g3.next ≤ g4.next := k4.1
  have m4 : g4.next ≤ g5.next := k5.1
  have m5 : g5.next ≤ g6.next := k6.1
  generalize hti : h.next = ti at *
  generalize g1.next = tr at *
  generalize g2.next = ei at *
  generalize g3.next = eo at *
  generalize g4.next = ri at *
  generalize g5.next = ro at *
  refine Runs.resizeM w6 rfl ?_
  intro g7 w7 k7 x7 s7 _
  refine Runs.resizeM w7 rfl ?_
  intro g8 w8 k8 x8 s8 _
  have lei7 : g7.live (.m ei) := by show ei < g7.next; omega
  obtain ⟨S1, cS1⟩ := exists_Cells w8 (show g8.size (.m ei) = ⟨n, t, 1⟩ by rw [(k8.2 _ lei7 (by simp; omega)).2, s7])
  obtain ⟨T1, cT1⟩ := exists_Cells w8 s8
  have k68 : Keeps g6 g8 (fun l => l = .m ei ∨ l = .m eo) := (k7.mono (by rintro l _ rfl; simp)).trans (k8.mono (by rintro l _ rfl; simp))
  let idx : Nat → Nat := fun i => if hi : i < N then (σ ⟨i, hi⟩).val else 0
  have hidx : ∀ i (hi : i < N), (shuffle rand (List.range N))[i]? = some (idx i) ∧ idx i < N := by
    intro i hi
    have := hσ ⟨i, hi⟩
    simp only [idx, dif_pos hi]
    exact ⟨this, (σ _).2⟩
  refine Runs.bind ((copyRows_run (ri := ri) (ro := ro) w8 (cF6.keep k68 la6 (by simp; omega)) (cG6.keep k68 lb6 (by simp; omega)) cS1 cT1
    (k68.live la6) (k68.live lb6) (by omega) (by omega) (by omega) (by omega) (by omega) (by omega) idx
    (fun i hi => ?_)).mono ?_)
  · obtain ⟨e, q⟩ := hidx i (by omega)
    exact ⟨by rw [Nat.zero_add]; exact e, by omega, by omega⟩
  rintro _ g9 ⟨w9, k9, cE, cO⟩
  have k69 : Keeps g6 g9 (fun l => l = .m ei ∨ l = .m eo ∨ l = .v ri ∨ l = .v ro) :=
    (k68.mono (by rintro l _ (rfl | rfl) <;> simp)).trans k9
  have x9 : g6.next ≤ g9.next := k69.1
  refine Runs.resizeM w9 rfl ?_
  intro g10 w10 k10 x10 s10 _
  refine Runs.resizeM w10 rfl ?_
  intro g11 w11 k11 x11 s11 _
  obtain ⟨S2, cS2⟩ := exists_Cells w11 (show g11.size (.m ti) = ⟨n, N - t, 1⟩ by
    rw [(k11.2 (.m ti) (show ti < g10.next by omega) (by simp; omega)).2, s10])
  obtain ⟨T2, cT2⟩ := exists_Cells w11 s11
  have k911 : Keeps g9 g11 (fun l => l = .m ti ∨ l = .m tr) := (k10.mono (by rintro l _ rfl; simp)).trans (k11.mono (by rintro l _ rfl; simp))
  refine Runs.bind ((copyRows_run (ri := ri) (ro := ro) w11
    ((cF6.keep k69 la6 (by simp; omega)).keep k911 (k69.live la6) (by simp; omega))
    ((cG6.keep k69 lb6 (by simp; omega)).keep k911 (k69.live lb6) (by simp; omega)) cS2 cT2
    (k911.live (k69.live la6)) (k911.live (k69.live lb6)) (by omega) (by omega) (by omega) (by omega) (by omega) (by omega) (fun i => idx (t + i))
    (fun i hi => ?_)).mono ?_)
  · obtain ⟨e, q⟩ := hidx (t + i) (by omega)
    exact ⟨e, by omega, by omega⟩
  rintro _ g12 ⟨w12, k12, cI, cR⟩
  have k912 : Keeps g9 g12 (fun l => l = .m ti ∨ l = .m tr ∨ l = .v ri ∨ l = .v ro) :=
    (k911.mono (by rintro l _ (rfl | rfl) <;> simp)).trans k12
  have x12 : g9.next ≤ g12.next := k912.1
  have kall : Keeps h g12 (fun _ => False) := (k06.newer k69 (by
    rintro l (rfl | rfl | rfl | rfl) q <;> simp only [Heap.live, Loc.id] at q <;> omega)).newer k912 (by
    rintro l (rfl | rfl | rfl | rfl) q <;> simp only [Heap.live, Loc.id] at q <;> omega)
  have cE' := cE.keep k912 (show ei < g9.next by omega) (by simp; omega)
  have cO' := cO.keep k912 (show eo < g9.next by omega) (by simp; omega)
  refine Runs.of_eq (a := (⟨some (.m ti), some (.m tr)⟩, ⟨some (.m ei), some (.m eo)⟩)) (h' := g12) rfl
    ⟨ti, tr, ei, eo, rfl, w12, kall, ?_, ?_, ?_, ?_, ?_, ?_⟩
  · intro x hx
    simp only [Heap.live, Loc.id]
    simp at hx
    omega
  · simp; omega
  · refine cE'.isMat fun i j => ?_
    have hi : i.val < N := by omega
    simp only [idx, dif_pos hi]
    exact eF _ j
  · refine cO'.isMat fun i j => ?_
    have hi : i.val < N := by omega
    simp only [idx, dif_pos hi]
    exact eG _ j
  · refine cI.isMat fun i j => ?_
    have hi : t + i.val < N := by omega
    simp only [idx, dif_pos hi]
    exact eF _ j
  · refine cR.isMat fun i j => ?_
    have hi : t + i.val < N := by omega
    simp only [idx, dif_pos hi]
    exact eG _ j

example : ∃ h : Heap ℝ, h.WF ∧ h.live (.m 0) ∧ h.live (.m 1) ∧ IsMat h 0 !![1, 2; 3, 4; (5 : ℝ), 6] ∧ IsMat h 1 !![7; 8; (9 : ℝ)] :=
  ⟨Heap.ofLists 0 [] [(2, 3, [1, 2, 3, 4, 5, 6]), (1, 3, [7, 8, 9])], Heap.ofLists_wf _ _ _ (by simp), by simp [Heap.ofLists, Heap.live, Loc.id],
    by simp [Heap.ofLists, Heap.live, Loc.id], ⟨rfl, fun i j => by fin_cases i <;> fin_cases j <;> simp [Heap.ofLists]⟩,
    ⟨rfl, fun i j => by fin_cases i <;> fin_cases j <;> simp [Heap.ofLists]⟩⟩

end Verif.Data
