import Verif.Lemmas.MatrixInv
import Verif.Lemmas.ElementwiseSpec
import Verif.Lemmas.Example
import Verif.Spec.Vector

/-!
# C03, C09, C15, C17, C31 (matrices): cells, element-wise methods, rejection of bad operands, data round trip

For an arbitrary element type with arbitrary operations (IEEE floats included).
-/

namespace Verif
open Spec
variable {R : Type} {m n : Nat}

/-! ## C31 (matrices) -/

/-- **C31** for the two-operand matrix methods: all three variants, every aliasing. -/
theorem C31_matrix_binary [Add R] [Sub R] [Mul R] [Div R] [LT R] [DecidableLT R] :
    ElemBinary Loc.m (R := R) (fun x y => x + y) Mat.add Mat.addn Mat.addb ∧
    ElemBinary Loc.m (R := R) (fun x y => x - y) Mat.sub Mat.subn Mat.subb ∧
    ElemBinary Loc.m (R := R) (fun x y => x * y) Mat.hadamard_product Mat.hadamard_productn Mat.hadamard_productb ∧
    ElemBinary Loc.m (R := R) (fun x y => x / y) Mat.division_element_wise Mat.division_element_wisen
      Mat.division_element_wiseb ∧
    ElemBinary Loc.m (R := R) (fun x y => if y < x then x else y) Mat.max Mat.maxn Mat.maxb ∧
    ElemBinary Loc.m (R := R) (fun x y => if x < y then x else y) Mat.min Mat.minn Mat.minb :=
  ⟨elemBinary_mk kindM _, elemBinary_mk kindM _, elemBinary_mk kindM _, elemBinary_mk kindM _, elemBinary_mk kindM _,
    elemBinary_mk kindM _⟩

/-- **C31** for the one-operand matrix functions: all three variants, every aliasing. -/
theorem C31_matrix_functions [MathFns R] :
    ElemUnary Loc.m (R := R) MathFns.log Mat.log Mat.logn Mat.logb ∧
    ElemUnary Loc.m (R := R) MathFns.log10 Mat.log10 Mat.log10n Mat.log10b ∧
    ElemUnary Loc.m (R := R) MathFns.exp Mat.exp Mat.expn Mat.expb ∧
    ElemUnary Loc.m (R := R) MathFns.erf Mat.erf Mat.erfn Mat.erfb ∧
    ElemUnary Loc.m (R := R) MathFns.sqrt Mat.sqrt Mat.sqrtn Mat.sqrtb ∧
    ElemUnary Loc.m (R := R) MathFns.sin Mat.sin Mat.sinn Mat.sinb ∧
    ElemUnary Loc.m (R := R) MathFns.cos Mat.cos Mat.cosn Mat.cosb :=
  ⟨elemUnaryC_mk kindM _, elemUnaryC_mk kindM _, elemUnaryC_mk kindM _, elemUnaryC_mk kindM _, elemUnaryC_mk kindM _,
    elemUnaryC_mk kindM _, elemUnaryC_mk kindM _⟩

/-- **C31** for `exponentiate*`. -/
theorem C31_matrix_exponentiate [MathFns R] (p : R) : ElemUnary Loc.m (fun x => MathFns.pow x p)
    (fun this => Mat.exponentiate this p) (fun this => Mat.exponentiaten this p)
    (fun this a => Mat.exponentiateb this a p) := elemUnaryC_mk kindM _

/-- **C31** for `cbrt*`: the power 1/3. -/
theorem C31_matrix_cbrt [MathFns R] [Div R] [NatCast R] :
    ElemUnary Loc.m (R := R) (fun x => MathFns.pow x (((1 : Nat) : R) / ((3 : Nat) : R))) Mat.cbrt Mat.cbrtn Mat.cbrtb :=
  elemUnaryC_mk kindM _

/-- **C31** for `abs*`. -/
theorem C31_matrix_abs [LT R] [DecidableLT R] [Neg R] [Zero R] :
    ElemUnary Loc.m (R := R) (fun x => if x < 0 then -x else x) Mat.abs Mat.absn Mat.absb := elemUnaryC_mk kindM _

/-- The shape shared by `scalar_multiplyn` and `scalar_addn`: copy, then change the copy. -/
theorem dupMap_run (f : R → R) (h : Heap R) (w : h.WF) (this : Nat) (l1 : h.live (.m this)) :
    Runs (do
      let AN ← Mat.duplicate_fast this
      let an ← derefM AN
      unIn f (.m an)
      pure AN) h fun r h' => ∃ o, r = some (.m o) ∧ ¬ h.live (.m o) ∧ h'.WF ∧ OthersSame h h' (.m o) ∧
        Holds h' (.m o) (h.size (.m this)) ((h.buf (.m this)).map f) := by
  have d := un_new kindM (R := R) id h w this l1
  refine Runs.bind (d.mono ?_)
  rintro r h1 ⟨o, rfl, f1, w1, o1, s1⟩
  refine Runs.step (derefM_run o h1) ?_
  refine Runs.bind ((un_inPlace kindM f h1 w1 o).mono ?_)
  rintro _ h2 ⟨w2, o2, s2⟩
  refine ⟨o, rfl, f1, w2, fun l hl => ?_, ?_⟩
  · exact ⟨by rw [(o2 l hl).1, (o1 l hl).1], by rw [(o2 l hl).2, (o1 l hl).2]⟩
  · rw [s1.1, s1.2] at s2
    simpa using s2

/-- **C31** for `scalar_multiply`, `scalar_multiplyn`, `scalar_add`, `scalar_addn`. Missing: `scalar_multiplyb`,
`scalar_addb`, which do not read their operand (`C31_scalar_b_fails`). -/
theorem C31_matrix_scalar_partial [Mul R] [Add R] (k : R) (h : Heap R) (w : h.WF) (this : Nat) (l : h.live (.m this)) :
    (Runs (Mat.scalar_multiply this k) h fun _ h' => h'.WF ∧ OthersSame h h' (.m this) ∧
      Holds h' (.m this) (h.size (.m this)) ((h.buf (.m this)).map (· * k))) ∧
    (Runs (Mat.scalar_multiplyn this k) h fun r h' => ∃ o, r = some (.m o) ∧ ¬ h.live (.m o) ∧ h'.WF ∧
      OthersSame h h' (.m o) ∧ Holds h' (.m o) (h.size (.m this)) ((h.buf (.m this)).map (· * k))) ∧
    (Runs (Mat.scalar_add this k) h fun _ h' => h'.WF ∧ OthersSame h h' (.m this) ∧
      Holds h' (.m this) (h.size (.m this)) ((h.buf (.m this)).map (· + k))) ∧
    (Runs (Mat.scalar_addn this k) h fun r h' => ∃ o, r = some (.m o) ∧ ¬ h.live (.m o) ∧ h'.WF ∧
      OthersSame h h' (.m o) ∧ Holds h' (.m o) (h.size (.m this)) ((h.buf (.m this)).map (· + k))) :=
  ⟨un_inPlace kindM _ h w this, dupMap_run _ h w this l, un_inPlace kindM _ h w this, dupMap_run _ h w this l⟩

/-- **C31** is false of `scalar_multiplyb(k, A)`, `scalar_addb(k, A)`: when the target already has the shape of `A`, the
result depends on the target's old cells and not on `A` at all. -/
theorem C31_scalar_b_fails [Mul R] [Add R] (k : R) (h : Heap R) (w : h.WF) (this a : Nat)
    (hs : h.size (.m this) = h.size (.m a)) :
    (Runs (Mat.scalar_multiplyb this k (some a)) h fun _ h' => h'.buf (.m this) = (h.buf (.m this)).map (· * k)) ∧
    (Runs (Mat.scalar_addb this k (some a)) h fun _ h' => h'.buf (.m this) = (h.buf (.m this)).map (· + k)) := by
  constructor
  · refine Runs.step (Mat.size_run a h) (Runs.step (ensureSize_same _ _ h hs) ?_)
    exact (un_inPlace kindM _ h w this).mono fun _ _ p => p.2.2.2
  · refine Runs.step (Mat.size_run a h) (Runs.step (ensureSize_same _ _ h hs) ?_)
    exact (un_inPlace kindM _ h w this).mono fun _ _ p => p.2.2.2

/-- A witness: the target holds zeros, the operand does not; the product is zero. -/
example : (Mat.scalar_multiplyb 0 5 (some 1) (Heap.ofLists (0 : Int) [] [(2, 1, [0, 0]), (2, 1, [3, 4])])).bufOf (.m 0) =
    some [0, 0] := by decide +kernel
example : (Mat.subb 1 (some 0) (some 1) (Heap.ofLists (0 : Int) [] [(2, 1, [10, 20]), (2, 1, [3, 4])])).bufOf (.m 1) =
    some [7, 16] := by decide +kernel

/-! ## C09 (matrices) -/

/-- **C09 (matrices)**: null operands and shape mismatches change nothing, and the 'n' variants return null. -/
theorem C09_matrix_rejects [Add R] [Sub R] [Mul R] [Div R] [LT R] [DecidableLT R] :
    RejectsBinary Loc.m (R := R) Mat.add Mat.addn Mat.addb ∧
    RejectsBinary Loc.m (R := R) Mat.sub Mat.subn Mat.subb ∧
    RejectsBinary Loc.m (R := R) Mat.hadamard_product Mat.hadamard_productn Mat.hadamard_productb ∧
    RejectsBinary Loc.m (R := R) Mat.division_element_wise Mat.division_element_wisen Mat.division_element_wiseb ∧
    RejectsBinary Loc.m (R := R) Mat.max Mat.maxn Mat.maxb ∧
    RejectsBinary Loc.m (R := R) Mat.min Mat.minn Mat.minb :=
  ⟨rejectsBinary_mk _, rejectsBinary_mk _, rejectsBinary_mk _, rejectsBinary_mk _, rejectsBinary_mk _,
    rejectsBinary_mk _⟩

/-! ## C03, C17 (matrices) -/

/-- **C03 (matrices).** With an index outside the valid range `element_get` answers 0 and nothing changes; `element_set`,
the row setters, `row_swap` and the row removals do nothing at all. -/
theorem C03_matrix_bad_index [Zero R] (h : Heap R) (o : Nat) (y x : Int) (v : R) (p : List R) (r : Option Nat)
    (hb : ¬ Valid y (h.size (.m o)).y ∨ ¬ Valid x (h.size (.m o)).x) :
    Mat.element_get o y x h = .ok (0, h) ∧ Mat.element_set o y x v h = .ok ((), h) ∧
    (¬ Valid y (h.size (.m o)).y → Mat.row_remove o y h = .ok ((), h) ∧ Mat.row_remove_unordered o y h = .ok ((), h) ∧
      Mat.row_set_vector o y p h = .ok ((), h) ∧ Mat.row_set_mlpp_vector o y r h = .ok ((), h) ∧
      Mat.row_get_vector o y h = .ok ([], h) ∧ Mat.row_get_mlpp_vector o y h = .ok (none, h) ∧
      Mat.row_get_into_mlpp_vector o y r h = .ok ((), h) ∧
      (∀ y', Mat.row_swap o y y' h = .ok ((), h) ∧ Mat.row_swap o y' y h = .ok ((), h))) := by
  have bad : ∀ (p : Int) (n : Nat), ¬ Valid p n → idxOk p n = false := fun p n hp => by
    unfold Valid at hp; simp only [idxOk]; exact decide_eq_false hp
  refine ⟨?_, ?_, fun hy => ?_⟩
  · show (if idxOk x _ then (if idxOk y _ then _ else _) else _ : M R R) h = _
    rcases hb with hb | hb
    · rw [bad _ _ hb]; cases idxOk x (h.size (.m o)).x <;> rfl
    · rw [bad _ _ hb]; rfl
  · show (if idxOk x _ then (if idxOk y _ then _ else _) else _ : M R Unit) h = _
    rcases hb with hb | hb
    · rw [bad _ _ hb]; cases idxOk x (h.size (.m o)).x <;> rfl
    · rw [bad _ _ hb]; rfl
  · have by' := bad _ _ hy
    refine ⟨?_, ?_, ?_, ?_, ?_, ?_, ?_, fun y' => ⟨?_, ?_⟩⟩
    · unfold Mat.row_remove; rw [bind_ok (Mat.size_run o h), by']; rfl
    · unfold Mat.row_remove_unordered; rw [bind_ok (Mat.size_run o h), by']; rfl
    · unfold Mat.row_set_vector; rw [bind_ok (Mat.size_run o h), by']
      by_cases e : p.length = (h.size (.m o)).x <;> simp [e]
    · cases r with
      | none => rfl
      | some r =>
        show (if (h.size (.v r)).x = (h.size (.m o)).x then (if idxOk y _ then _ else _) else _ : M R Unit) h = _
        rw [by']; split <;> rfl
    · unfold Mat.row_get_vector; rw [bind_ok (Mat.size_run o h), by']; rfl
    · unfold Mat.row_get_mlpp_vector; rw [bind_ok (Mat.size_run o h), by']; rfl
    · cases r with
      | none => rfl
      | some r => unfold Mat.row_get_into_mlpp_vector; dsimp only; rw [bind_ok (Mat.size_run o h), by']; rfl
    · unfold Mat.row_swap; rw [bind_ok (Mat.size_run o h), by']; rfl
    · unfold Mat.row_swap; rw [bind_ok (Mat.size_run o h), by']; cases idxOk y' (h.size (.m o)).y <;> rfl

/-- **C17.** In-range `element_get(y, x)` reads the cell in row `y`, column `x`; in-range `element_set(y, x, v)` replaces
exactly that cell and changes no other object. Nothing leaves the allocation (`Runs` excludes undefined behaviour). -/
theorem C17_matrix_cells [Zero R] (h : Heap R) (w : h.WF) (o : Nat) (A : Matrix (Fin m) (Fin n) R) (hA : IsMat h o A)
    (i : Fin m) (j : Fin n) (v : R) :
    Mat.element_get o (i.val : Int) (j.val : Int) h = .ok (A i j, h) ∧
    SetsMat (Mat.element_set o (i.val : Int) (j.val : Int) v) h o (fun i' j' => if i' = i ∧ j' = j then v else A i' j') := by
  obtain ⟨F, eF, cA⟩ := hA.cells w
  have hx := hA.1
  have ix : idxOk (j.val : Int) n = true := by simp [idxOk]
  have iy : idxOk (i.val : Int) m = true := by simp [idxOk]
  have hpos : ((i.val : Int) * (n : Int) + (j.val : Int)).toNat = i.val * n + j.val := by
    rw [← Int.natCast_mul, ← Int.natCast_add, Int.toNat_natCast]
  constructor
  · unfold Mat.element_get
    rw [bind_ok (Mat.size_run o h), hx]
    dsimp only
    rw [if_pos ix, if_pos iy, hpos]
    exact load_ok (hA.2 i j)
  · have hlt : i.val * n + j.val < (h.buf (.m o)).length := (List.getElem?_eq_some_iff.mp (hA.2 i j)).1
    have u := updated_setBuf h (.m o) ((h.buf (.m o)).set (i.val * n + j.val) v)
    refine Runs.of_eq (a := ()) (h' := h.setBuf (.m o) ((h.buf (.m o)).set (i.val * n + j.val) v)) ?_
      ⟨u.wf w (by simp [w.len]) nofun (fun _ e => by cases e; exact w.mat o), u.keeps, hx, fun i' j' => ?_⟩
    · unfold Mat.element_set
      rw [bind_ok (Mat.size_run o h), hx]
      dsimp only
      rw [if_pos ix, if_pos iy, hpos, store_ok _ hlt]
    · rw [u.buf, List.getElem?_set]
      by_cases e : i' = i ∧ j' = j
      · obtain ⟨rfl, rfl⟩ := e
        simp [hlt]
      · rw [if_neg (fun e' => e ?_), hA.2 i' j']
        · dsimp only; rw [if_neg e]
        have hj := j.isLt
        have hj' := j'.isLt
        have h1 : i.val = i'.val := by
          have q := congrArg (· / n) e'
          simp only [Nat.mul_comm _ n] at q
          rwa [Nat.mul_add_div (by omega), Nat.mul_add_div (by omega), Nat.div_eq_of_lt hj, Nat.div_eq_of_lt hj',
            Nat.add_zero, Nat.add_zero] at q
        rw [h1] at e'
        exact ⟨Fin.ext h1.symm, Fin.ext (by omega)⟩

/-! ## C15 (matrices) -/

theorem Mat.get_data_run (h : Heap R) (w : h.WF) (o : Nat) :
    Mat.get_data o h = .ok ((h.size (.m o), h.buf (.m o)), h) := by
  unfold Mat.get_data
  rw [bind_ok (Mat.size_run o h), bind_ok (readAll_run (.m o) _ h (w.len _))]; rfl

/-- **C15 (matrices).** `set_data(x.get_data())` makes any matrix equal to `x` in shape and contents. -/
theorem C15_matrix_data_round_trip (h : Heap R) (w : h.WF) (i j : Nat) :
    Runs (do let d ← Mat.get_data j; Mat.set_data i ((d.1.x, d.1.y), d.2)) h fun _ h' =>
      h'.buf (.m i) = h.buf (.m j) ∧ h'.size (.m i) = h.size (.m j) ∧ OthersSame h h' (.m i) := by
  refine Runs.step (Mat.get_data_run h w j) ?_
  have hz := w.mat j
  have hl := w.len (.m j)
  have hc : (h.size (.m j)).x * (h.size (.m j)).y = (h.buf (.m j)).length := by
    rw [hl]; unfold Size.count; rw [hz, Nat.mul_one]
  have hsz : h.size (.m j) = ⟨(h.size (.m j)).x, (h.size (.m j)).y, 1⟩ := by
    cases e : h.size (.m j) with
    | mk x y z => rw [e] at hz; simp only at hz; subst hz; rfl
  unfold Mat.set_data
  dsimp only
  rw [if_pos hc]
  refine Runs.step (Mat.size_run i h) ?_
  by_cases e : h.size (.m i) = ⟨(h.size (.m j)).x, (h.size (.m j)).y, 1⟩
  · rw [if_pos e]
    refine Runs.of_eq (storeList_run (.m i) _ h (by rw [w.len, e, ← hsz, hl])) ⟨by simp, by simp [e, ← hsz], ?_⟩
    intro l hl'; exact ⟨setBuf_buf_ne _ _ hl', rfl⟩
  · rw [if_neg e]
    obtain ⟨d, c, e1, hd, _⟩ := resizeTo_run (.m i) ⟨(h.size (.m j)).x, (h.size (.m j)).y, 1⟩ h
    refine Runs.step e1 ?_
    refine Runs.of_eq (storeList_run (.m i) _ _ (by simp [hd, ← hsz, hl])) ⟨by simp, by simp [← hsz], ?_⟩
    intro l hl'; simp [setBuf_buf, setSize_size, hl']

/-- Two matrices of different shapes. -/
example : (do let d ← Mat.get_data 0; Mat.set_data 1 ((d.1.x, d.1.y), d.2) : M Int Unit)
    (Heap.ofLists (0 : Int) [] [(2, 2, [1, 2, 3, 4]), (3, 1, [5, 6, 7])]) |>.bufOf (.m 1) |> (· = some [1, 2, 3, 4]) := by
  decide +kernel

end Verif
