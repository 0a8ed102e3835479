import Verif.Lemmas.SliceApi
import Verif.Lemmas.ElementwiseSpec
import Verif.Lemmas.Example
import Verif.Lemmas.Reduce
import Verif.Spec.Tensor
import Verif.Lemmas.New

/-!
# C09, C31, C32, C35, C46 (tensors): element-wise methods, cells, x and y slices, flattening, contraction with a vector
-/

namespace Verif
open Spec
open SortArray (tab)
variable {R : Type} {d r c n : Nat}

/-! ## C31, C09 (tensors) -/

/-- **C31** for the two-operand tensor methods: all three variants, every aliasing. -/
theorem C31_tensor_binary [Add R] [Sub R] [Mul R] [Div R] [LT R] [DecidableLT R] :
    ElemBinary Loc.t (R := R) (fun x y => x + y) Ten.add Ten.addn Ten.addb ∧
    ElemBinary Loc.t (R := R) (fun x y => x - y) Ten.sub Ten.subn Ten.subb ∧
    ElemBinary Loc.t (R := R) (fun x y => x * y) Ten.hadamard_product Ten.hadamard_productn Ten.hadamard_productb ∧
    ElemBinary Loc.t (R := R) (fun x y => x / y) Ten.division_element_wise Ten.division_element_wisen
      Ten.division_element_wiseb ∧
    ElemBinary Loc.t (R := R) (fun x y => if y < x then x else y) Ten.max Ten.maxn Ten.maxb :=
  ⟨elemBinary_mk kindT _, elemBinary_mk kindT _, elemBinary_mk kindT _, elemBinary_mk kindT _, elemBinary_mk kindT _⟩

/-- **C31** for the one-operand tensor functions: all three variants, every aliasing. -/
theorem C31_tensor_functions [MathFns R] [LT R] [DecidableLT R] [Neg R] [Zero R] (p : R) :
    ElemUnary Loc.t (R := R) MathFns.sqrt Ten.sqrt Ten.sqrtn Ten.sqrtb ∧
    ElemUnary Loc.t (R := R) (fun x => if x < 0 then -x else x) Ten.abs Ten.absn Ten.absb ∧
    ElemUnary Loc.t (fun x => MathFns.pow x p) (fun this => Ten.exponentiate this p) (fun this => Ten.exponentiaten this p)
      (fun this a => Ten.exponentiateb this a p) :=
  ⟨elemUnaryC_mk kindT _, elemUnaryC_mk kindT _, elemUnaryC_mk kindT _⟩

/-- The shape shared by `scalar_multiplyn` and `scalar_addn`: copy, then change the copy. -/
theorem dupMapT_run (f : R → R) (h : Heap R) (w : h.WF) (this : Nat) (l1 : h.live (.t this)) :
    Runs (do
      let AN ← Ten.duplicate_fast this
      let an ← derefT AN
      unIn f (.t an)
      pure AN) h fun r h' => ∃ o, r = some (.t o) ∧ ¬ h.live (.t o) ∧ h'.WF ∧ OthersSame h h' (.t o) ∧
        Holds h' (.t o) (h.size (.t this)) ((h.buf (.t this)).map f) := by
  have d := un_new kindT (R := R) id h w this l1
  refine Runs.bind (d.mono ?_)
  rintro r h1 ⟨o, rfl, f1, w1, o1, s1⟩
  refine Runs.step (show derefT (some (.t o)) h1 = .ok (o, h1) from rfl) ?_
  refine Runs.bind ((un_inPlace kindT f h1 w1 o).mono ?_)
  rintro _ h2 ⟨w2, o2, s2⟩
  refine ⟨o, rfl, f1, w2, fun l hl => ?_, ?_⟩
  · exact ⟨by rw [(o2 l hl).1, (o1 l hl).1], by rw [(o2 l hl).2, (o1 l hl).2]⟩
  · rw [s1.1, s1.2] at s2
    simpa using s2

/-- **C31** for `scalar_multiply`, `scalar_multiplyn`, `scalar_add`, `scalar_addn` of tensors. Missing:
`scalar_multiplyb`, `scalar_addb`, which do not read their operand (`C31_tensor_scalar_b_fails`). -/
theorem C31_tensor_scalar_partial [Mul R] [Add R] (k : R) (h : Heap R) (w : h.WF) (this : Nat) (l : h.live (.t this)) :
    (Runs (Ten.scalar_multiply this k) h fun _ h' => h'.WF ∧ OthersSame h h' (.t this) ∧
      Holds h' (.t this) (h.size (.t this)) ((h.buf (.t this)).map (· * k))) ∧
    (Runs (Ten.scalar_multiplyn this k) h fun r h' => ∃ o, r = some (.t o) ∧ ¬ h.live (.t o) ∧ h'.WF ∧
      OthersSame h h' (.t o) ∧ Holds h' (.t o) (h.size (.t this)) ((h.buf (.t this)).map (· * k))) ∧
    (Runs (Ten.scalar_add this k) h fun _ h' => h'.WF ∧ OthersSame h h' (.t this) ∧
      Holds h' (.t this) (h.size (.t this)) ((h.buf (.t this)).map (· + k))) ∧
    (Runs (Ten.scalar_addn this k) h fun r h' => ∃ o, r = some (.t o) ∧ ¬ h.live (.t o) ∧ h'.WF ∧
      OthersSame h h' (.t o) ∧ Holds h' (.t o) (h.size (.t this)) ((h.buf (.t this)).map (· + k))) :=
  ⟨un_inPlace kindT _ h w this, dupMapT_run _ h w this l, un_inPlace kindT _ h w this, dupMapT_run _ h w this l⟩

/-- **C31** is false of `scalar_multiplyb(k, A)`, `scalar_addb(k, A)` of tensors: when the target already has the shape of
`A`, the result depends on the target's old cells and not on `A` at all. -/
theorem C31_tensor_scalar_b_fails [Mul R] [Add R] (k : R) (h : Heap R) (w : h.WF) (this a : Nat)
    (hs : h.size (.t this) = h.size (.t a)) :
    (Runs (Ten.scalar_multiplyb this k (some a)) h fun _ h' => h'.buf (.t this) = (h.buf (.t this)).map (· * k)) ∧
    (Runs (Ten.scalar_addb this k (some a)) h fun _ h' => h'.buf (.t this) = (h.buf (.t this)).map (· + k)) := by
  constructor
  · refine Runs.step (Ten.size_run a h) (Runs.step (ensureSize_same _ _ h hs) ?_)
    exact (un_inPlace kindT _ h w this).mono fun _ _ p => p.2.2.2
  · refine Runs.step (Ten.size_run a h) (Runs.step (ensureSize_same _ _ h hs) ?_)
    exact (un_inPlace kindT _ h w this).mono fun _ _ p => p.2.2.2

/-- A witness: the target holds zeros, the operand does not; the product is zero. -/
example : (do Ten.set_data 0 (⟨2, 1, 1⟩, [0, 0]); Ten.set_data 1 (⟨2, 1, 1⟩, [3, 4]); Ten.scalar_multiplyb 0 5 (some 1) :
    M Int Unit) (Heap.init fun _ _ => 0) |>.bufOf (.t 0) |> (· = some [0, 0]) := by decide +kernel
example : (do Ten.set_data 0 (⟨1, 1, 2⟩, [10, 20]); Ten.set_data 1 (⟨1, 1, 2⟩, [3, 4]); Ten.subb 1 (some 0) (some 1) :
    M Int Unit) (Heap.init fun _ _ => 0) |>.bufOf (.t 1) |> (· = some [7, 16]) := by decide +kernel

/-- **C09 (tensors)**: null operands and shape mismatches change nothing, and the 'n' variants return null. -/
theorem C09_tensor_rejects [Add R] [Sub R] [Mul R] [Div R] [LT R] [DecidableLT R] :
    RejectsBinary Loc.t (R := R) Ten.add Ten.addn Ten.addb ∧
    RejectsBinary Loc.t (R := R) Ten.sub Ten.subn Ten.subb ∧
    RejectsBinary Loc.t (R := R) Ten.hadamard_product Ten.hadamard_productn Ten.hadamard_productb ∧
    RejectsBinary Loc.t (R := R) Ten.division_element_wise Ten.division_element_wisen Ten.division_element_wiseb ∧
    RejectsBinary Loc.t (R := R) Ten.max Ten.maxn Ten.maxb :=
  ⟨rejectsBinary_mk _, rejectsBinary_mk _, rejectsBinary_mk _, rejectsBinary_mk _, rejectsBinary_mk _⟩

/-! ## C32 -/

theorem tidx_inj {z y x z' y' x' : Nat} (hy : y < r) (hx : x < c) (hy' : y' < r) (hx' : x' < c)
    (e : y * c + x + c * r * z = y' * c + x' + c * r * z') : z = z' ∧ y = y' ∧ x = x' := by
  have b := Ten.row_in (cols := c) hy
  have b' := Ten.row_in (cols := c) hy'
  have hz : z = z' := by
    have q : (y * c + x + c * r * z) / (c * r) = (y' * c + x' + c * r * z') / (c * r) := by rw [e]
    rw [Nat.add_comm, Nat.mul_add_div (by omega), Nat.add_comm (y' * c + x'), Nat.mul_add_div (by omega),
      Nat.div_eq_of_lt (by omega), Nat.div_eq_of_lt (by omega)] at q
    exact q
  subst hz
  have e2 : y * c + x = y' * c + x' := by omega
  have hyy : y = y' := by
    have q := congrArg (· / c) e2
    simp only [Nat.mul_comm _ c] at q
    rwa [Nat.mul_add_div (by omega), Nat.mul_add_div (by omega), Nat.div_eq_of_lt hx, Nat.div_eq_of_lt hx',
      Nat.add_zero, Nat.add_zero] at q
  subst hyy
  exact ⟨rfl, rfl, by omega⟩

theorem Ten.get_run [Zero R] {h : Heap R} {o : Nat} {T : Fin d → Fin r → Fin c → R} (hT : IsTen h o T) (z : Fin d)
    (y : Fin r) (x : Fin c) : Ten.element_get o (z.val : Int) (y.val : Int) (x.val : Int) h = .ok (T z y x, h) := by
  unfold Ten.element_get
  rw [bind_ok (Ten.size_run o h), hT.1]
  dsimp only
  rw [if_pos (idxOk_nat x.isLt), if_pos (idxOk_nat y.isLt), if_pos (idxOk_nat z.isLt), Ten.cell_pos]
  exact load_ok (hT.2 z y x)

theorem Ten.set_run {h : Heap R} {o : Nat} {T : Fin d → Fin r → Fin c → R} (hT : IsTen h o T) (z : Fin d)
    (y : Fin r) (x : Fin c) (v : R) :
    ∃ b, Ten.element_set o (z.val : Int) (y.val : Int) (x.val : Int) v h = .ok ((), h.setBuf (.t o) b) ∧
      b.length = (h.buf (.t o)).length ∧
      IsTen (h.setBuf (.t o) b) o (fun z' y' x' => if z' = z ∧ y' = y ∧ x' = x then v else T z' y' x') := by
  have hlt := (List.getElem?_eq_some_iff.mp (hT.2 z y x)).1
  refine ⟨(h.buf (.t o)).set (y.val * c + x.val + c * r * z.val) v, ?_, by simp, hT.1, fun z' y' x' => ?_⟩
  · unfold Ten.element_set
    rw [bind_ok (Ten.size_run o h), hT.1]
    dsimp only
    rw [if_pos (idxOk_nat x.isLt), if_pos (idxOk_nat y.isLt), if_pos (idxOk_nat z.isLt), Ten.cell_pos, store_ok _ hlt]
  · rw [setBuf_buf_same, List.getElem?_set]
    by_cases e : z' = z ∧ y' = y ∧ x' = x
    · obtain ⟨rfl, rfl, rfl⟩ := e; simp [hlt]
    · rw [if_neg (fun q => e ?_), hT.2 z' y' x']
      · dsimp only; rw [if_neg e]
      · obtain ⟨a, b, c⟩ := tidx_inj y.isLt x.isLt y'.isLt x'.isLt q
        exact ⟨Fin.ext a.symm, Fin.ext b.symm, Fin.ext c.symm⟩

/-- **C32.** In-range `element_get(z, y, x)` reads the cell in slice `z`, row `y`, column `x`; in-range
`element_set(z, y, x, v)` replaces exactly that cell and changes no other object. Nothing leaves the allocation (`Runs`
excludes undefined behaviour). -/
theorem C32_tensor_cells [Zero R] (h : Heap R) (w : h.WF) (o : Nat) (T : Fin d → Fin r → Fin c → R) (hT : IsTen h o T)
    (z : Fin d) (y : Fin r) (x : Fin c) (v : R) :
    Ten.element_get o (z.val : Int) (y.val : Int) (x.val : Int) h = .ok (T z y x, h) ∧
    SetsTen (Ten.element_set o (z.val : Int) (y.val : Int) (x.val : Int) v) h o
      (fun z' y' x' => if z' = z ∧ y' = y ∧ x' = x then v else T z' y' x') := by
  refine ⟨Ten.get_run hT z y x, ?_⟩
  obtain ⟨b, e, hb, hT'⟩ := Ten.set_run hT z y x v
  have u := updated_setBuf h (.t o) b
  exact Runs.of_eq e ⟨u.wf w (by rw [hb, w.len]) nofun nofun, u.keeps, hT'⟩

/-- Every cell of every well-formed tensor is of this form. -/
theorem IsTen.exists {h : Heap R} (w : h.WF) (o : Nat) : ∃ T : Fin (h.size (.t o)).z → Fin (h.size (.t o)).y →
    Fin (h.size (.t o)).x → R, IsTen h o T := by
  have hl : (h.buf (.t o)).length = (h.size (.t o)).x * (h.size (.t o)).y * (h.size (.t o)).z := w.len _
  have hb : ∀ (z : Fin (h.size (.t o)).z) (y : Fin (h.size (.t o)).y) (x : Fin (h.size (.t o)).x),
      y.val * (h.size (.t o)).x + x.val + (h.size (.t o)).x * (h.size (.t o)).y * z.val < (h.buf (.t o)).length := by
    intro z y x
    have a := Ten.row_in (cols := (h.size (.t o)).x) y.isLt
    have b := row_bound (c := (h.size (.t o)).x * (h.size (.t o)).y) z.isLt
    rw [Nat.mul_comm z.val] at b
    omega
  exact ⟨fun z y x => (h.buf (.t o))[y.val * (h.size (.t o)).x + x.val + (h.size (.t o)).x * (h.size (.t o)).y * z.val]'(hb z y x),
    rfl, fun z y x => List.getElem?_eq_getElem (hb z y x)⟩

/-- A written cell. -/
example : (do Ten.set_data 0 (⟨2, 1, 2⟩, [1, 2, 3, 4]); Ten.element_set 0 1 0 1 9 : M Int Unit)
    (Heap.init fun _ _ => 7) |>.bufOf (.t 0) |> (· = some [1, 2, 3, 9]) := by decide +kernel

/-! ## C35 -/

theorem Spec.IsTen.ofEq {h h' : Heap R} {o : Nat} {T : Fin d → Fin r → Fin c → R} (a : IsTen h o T)
    (e1 : h'.buf (.t o) = h.buf (.t o)) (e2 : h'.size (.t o) = h.size (.t o)) : IsTen h' o T := by
  unfold IsTen; rw [e1, e2]; exact a

/-- The double loop of the slice getters. -/
theorem sliceLoop_run [Zero R] {h : Heap R} {t : Nat} {rows cols : Nat} (hs : h.size (.m t) = ⟨cols, rows, 1⟩)
    (get : Nat → Nat → M R R) (F K : Nat → Nat → R)
    (hg : ∀ z y, z < rows → y < cols → ∀ b, get z y (h.setBuf (.m t) b) = .ok (F z y, h.setBuf (.m t) b)) :
    (forN rows fun z => forN cols fun y => do
        let v ← get z y
        Mat.element_set t (z : Int) (y : Int) v : M R Unit) (Gr h (.m t) cols rows K) =
      .ok ((), Gr h (.m t) cols rows F) := by
  have key := forN_cells (fun K => Gr h (.m t) cols rows K) rows cols (fun z y => do
        let v ← get z y
        Mat.element_set t (z : Int) (y : Int) v) (fun z y _ => F z y) K (by
      intro z y K hz hy
      rw [bind_ok (show get z y (Gr h (.m t) cols rows K) = .ok (F z y, Gr h (.m t) cols rows K) from hg z y hz hy _)]
      exact Mat.element_set_run K hs hz hy (F z y))
  rw [key]
  congr 2
  exact Gr_congr fun i j hi hj => by rw [if_pos ⟨hi, hj⟩]

/-- `element_get` with any non-negative indices. -/
theorem Ten.get_any [Zero R] {h : Heap R} {o : Nat} {T : Fin d → Fin r → Fin c → R} (hT : IsTen h o T) (z y x : Nat) :
    Ten.element_get o (z : Int) (y : Int) (x : Int) h = .ok (cellOrZero T z y x, h) := by
  by_cases q : z < d ∧ y < r ∧ x < c
  · have e := Ten.get_run hT ⟨z, q.1⟩ ⟨y, q.2.1⟩ ⟨x, q.2.2⟩
    simp only [cellOrZero, dif_pos q]; exact e
  · simp only [cellOrZero, dif_neg q]
    unfold Ten.element_get
    rw [bind_ok (Ten.size_run o h), hT.1]
    dsimp only
    split
    · rename_i hx
      split
      · rename_i hy
        split
        · rename_i hz
          simp [idxOk] at hx hy hz; omega
        · rfl
      · rfl
    · rfl

/-- `element_set` with any non-negative indices. -/
theorem Ten.set_any {h : Heap R} (w : h.WF) {o : Nat} {T : Fin d → Fin r → Fin c → R} (hT : IsTen h o T) (z y x : Nat) (v : R) :
    SetsTen (Ten.element_set o (z : Int) (y : Int) (x : Int) v) h o
      (fun z' y' x' => if z'.val = z ∧ y'.val = y ∧ x'.val = x then v else T z' y' x') := by
  by_cases q : z < d ∧ y < r ∧ x < c
  · obtain ⟨b, e, hb, hT'⟩ := Ten.set_run hT ⟨z, q.1⟩ ⟨y, q.2.1⟩ ⟨x, q.2.2⟩ v
    have u := updated_setBuf h (.t o) b
    refine Runs.of_eq e ⟨u.wf w (by rw [hb, w.len]) nofun nofun, u.keeps, ?_⟩
    simp only [Fin.ext_iff] at hT'
    exact hT'
  · have e : Ten.element_set o (z : Int) (y : Int) (x : Int) v h = .ok ((), h) := by
      unfold Ten.element_set
      rw [bind_ok (Ten.size_run o h), hT.1]
      dsimp only
      split
      · rename_i hx
        split
        · rename_i hy
          split
          · rename_i hz
            simp [idxOk] at hx hy hz; omega
          · rfl
        · rfl
      · rfl
    refine Runs.of_eq e ⟨w, Keeps.refl _ _, ?_⟩
    have : (fun (z' : Fin d) (y' : Fin r) (x' : Fin c) => if z'.val = z ∧ y'.val = y ∧ x'.val = x then v else T z' y' x') = T := by
      funext z' y' x'
      rw [if_neg (by have := z'.isLt; have := y'.isLt; have := x'.isLt; omega)]
    rw [this]; exact hT

/-- What `x_slice_get_into` writes: row and column are exchanged. -/
theorem x_slice_get_into_spec [Zero R] {h : Heap R} (w : h.WF) {o t : Nat} {T : Fin d → Fin r → Fin c → R}
    (hT : IsTen h o T) (hl : h.live (.t o)) (i : Fin c) :
    SetsMat (Ten.x_slice_get_into o (i.val : Int) (some t)) h t
      (fun (z : Fin d) (y : Fin r) => cellOrZero T z i y) := by
  unfold SetsMat Ten.x_slice_get_into
  refine Runs.step (Ten.size_run o h) ?_
  rw [hT.1]
  dsimp only
  rw [if_pos (idxOk_nat i.isLt)]
  refine Runs.ensureM w rfl fun h1 w1 k1 _ hs _ => ?_
  obtain ⟨e1, e2⟩ := k1.2 (.t o) hl nofun
  have hb : (h1.buf (.m t)).length = r * d := by rw [w1.len, hs, count_mat]
  have run := sliceLoop_run hs (fun z y => Ten.element_get o (z : Int) (i.val : Int) (y : Int))
    (fun z y => cellOrZero T z i y) (fun i j => ((h1.buf (.m t))[i * r + j]?).getD (h1.junk 0 0)) (fun z y _ _ b =>
      Ten.get_any ((hT.ofEq e1 e2).ofEq (setBuf_buf_ne h1 (l := .m t) (l' := .t o) b nofun) rfl) z i y)
  rw [← self_Gr hb] at run
  exact Runs.of_eq run (setsMat_Gr w1 k1 hs fun _ _ => rfl)

theorem y_slice_get_into_spec [Zero R] {h : Heap R} (w : h.WF) {o t : Nat} {T : Fin d → Fin r → Fin c → R}
    (hT : IsTen h o T) (hl : h.live (.t o)) (i : Fin r) (hts : h.size (.m t) = ⟨r, d, 1⟩ → r = c) :
    SetsMat (Ten.y_slice_get_into o (i.val : Int) (some t)) h t
      (fun (z : Fin d) (x : Fin c) => cellOrZero T z x i) := by
  unfold SetsMat Ten.y_slice_get_into
  refine Runs.step (Ten.size_run o h) ?_
  rw [hT.1]
  dsimp only
  rw [if_pos (idxOk_nat i.isLt)]
  refine Runs.step (Mat.size_run t h) ?_
  have fin : ∀ h1 : Heap R, h1.WF → Keeps h h1 (· = .m t) → h1.size (.m t) = ⟨c, d, 1⟩ → Runs
      (Verif.forN d fun z => Verif.forN c fun x => do
        let v ← Ten.element_get o (z : Int) (x : Int) (i.val : Int)
        Mat.element_set t (z : Int) (x : Int) v) h1 (fun _ h' => h'.WF ∧ Keeps h h' (· = .m t) ∧
          IsMat h' t (fun (z : Fin d) (x : Fin c) => cellOrZero T z x i)) := by
    intro h1 w1 k1 hs
    obtain ⟨e1, e2⟩ := k1.2 (.t o) hl nofun
    have hb : (h1.buf (.m t)).length = c * d := by rw [w1.len, hs, count_mat]
    have run := sliceLoop_run hs (fun z x => Ten.element_get o (z : Int) (x : Int) (i.val : Int))
      (fun z x => cellOrZero T z x i) (fun i j => ((h1.buf (.m t))[i * c + j]?).getD (h1.junk 0 0)) (fun z x _ _ b =>
        Ten.get_any ((hT.ofEq e1 e2).ofEq (setBuf_buf_ne h1 (l := .m t) (l' := .t o) b nofun) rfl) z x i)
    rw [← self_Gr hb] at run
    exact Runs.of_eq run (setsMat_Gr w1 k1 hs fun _ _ => rfl)
  by_cases q : h.size (.m t) = ⟨r, d, 1⟩
  · rw [if_pos q]
    exact fin h w (Keeps.refl _ _) (by rw [q, hts q])
  · rw [if_neg q]
    exact Runs.resizeM (s := ⟨c, d, 1⟩) w rfl fun h1 w1 k1 _ hs _ => fin h1 w1 k1 hs

theorem x_slice_get_spec [Zero R] {h : Heap R} (w : h.WF) {o : Nat} {T : Fin d → Fin r → Fin c → R}
    (hT : IsTen h o T) (hl : h.live (.t o)) (i : Fin c) :
    ReturnsMat (Ten.x_slice_get o (i.val : Int)) h (fun (z : Fin d) (y : Fin r) => cellOrZero T z i y) := by
  unfold ReturnsMat Ten.x_slice_get
  refine Runs.step (Ten.size_run o h) ?_
  rw [hT.1]
  dsimp only
  rw [if_pos (idxOk_nat i.isLt)]
  refine Runs.newM w fun h1 w1 k1 f1 l1 _ => Runs.bind ?_
  obtain ⟨e1, e2⟩ := k1.2 (.t o) hl nofun
  refine (x_slice_get_into_spec (t := h.next) w1 (hT.ofEq e1 e2) (k1.live hl) i).mono fun _ h2 ⟨w2, k2, hm⟩ => ?_
  exact ⟨h.next, rfl, f1, k2.live l1, w2, k1.trans_new k2 (fun _ e hl' => f1 (e ▸ hl')), hm⟩

theorem y_slice_get_spec [Zero R] {h : Heap R} (w : h.WF) {o : Nat} {T : Fin d → Fin r → Fin c → R}
    (hT : IsTen h o T) (hl : h.live (.t o)) (i : Fin r) :
    ReturnsMat (Ten.y_slice_get o (i.val : Int)) h (fun (z : Fin d) (x : Fin c) => cellOrZero T z x i) := by
  unfold ReturnsMat Ten.y_slice_get
  refine Runs.step (Ten.size_run o h) ?_
  rw [hT.1]
  dsimp only
  rw [if_pos (idxOk_nat i.isLt)]
  refine Runs.newM w fun h1 w1 k1 f1 l1 hs => Runs.bind ?_
  obtain ⟨e1, e2⟩ := k1.2 (.t o) hl nofun
  have hi := i.isLt
  refine (y_slice_get_into_spec (t := h.next) w1 (hT.ofEq e1 e2) (k1.live hl) i (fun q => ?_)).mono fun _ h2 ⟨w2, k2, hm⟩ => ?_
  · rw [hs] at q; injection q; omega
  exact ⟨h.next, rfl, f1, k2.live l1, w2, k1.trans_new k2 (fun _ e hl' => f1 (e ▸ hl')), hm⟩

/-- The double loop of the slice setters. -/
theorem setLoop_spec {h : Heap R} (w : h.WF) {o : Nat} {T : Fin d → Fin r → Fin c → R} (hT : IsTen h o T) (cnt : Nat)
    (get : Nat → Nat → M R R) (ρ κ : Nat → Nat) (V : Nat → Nat → R)
    (hg : ∀ z a h', z < d → a < cnt → Keeps h h' (· = .t o) → get z a h' = .ok (V z a, h'))
    (T' : Fin d → Fin r → Fin c → R)
    (h1 : ∀ (z : Fin d) (y : Fin r) (x : Fin c) a, a < cnt → ρ a = y → κ a = x → T' z y x = V z a)
    (h2 : ∀ (z : Fin d) (y : Fin r) (x : Fin c), (∀ a, a < cnt → ρ a = y → κ a = x → False) → T' z y x = T z y x) :
    SetsTen (forN d fun z => forN cnt fun a => do
        let v ← get z a
        Ten.element_set o (z : Int) (ρ a : Int) (κ a : Int) v) h o T' := by
  unfold SetsTen
  let st : Nat → Nat → Fin d → Fin r → Fin c → R := fun k b z y x =>
    if z.val < k ∨ (z.val = k ∧ ∃ a, a < b ∧ a < cnt ∧ ρ a = y.val ∧ κ a = x.val) then T' z y x else T z y x
  refine (Runs.forN d (fun k h' => h'.WF ∧ Keeps h h' (· = .t o) ∧ IsTen h' o (st k 0)) _ h ⟨w, Keeps.refl _ _, ?_⟩ ?_).mono ?_
  · have : st 0 0 = T := by funext z y x; simp [st]
    rw [this]; exact hT
  · intro k hk kd ⟨wk, kk, Tk⟩
    refine (Runs.forN cnt (fun b h' => h'.WF ∧ Keeps h h' (· = .t o) ∧ IsTen h' o (st k b)) _ hk ⟨wk, kk, Tk⟩ ?_).mono ?_
    · intro b hb bd ⟨wb, kb, Tb⟩
      refine Runs.step (hg k b hb kd bd kb) ?_
      refine (Ten.set_any wb Tb k (ρ b) (κ b) (V k b)).mono fun _ h' ⟨w', k', T''⟩ => ⟨w', kb.trans k', ?_⟩
      have : (fun (z' : Fin d) (y' : Fin r) (x' : Fin c) => if z'.val = k ∧ y'.val = ρ b ∧ x'.val = κ b then V k b
          else st k b z' y' x') = st k (b + 1) := by
        funext z y x
        by_cases q : z.val = k ∧ y.val = ρ b ∧ x.val = κ b
        · rw [if_pos q]
          simp only [st]
          rw [if_pos (Or.inr ⟨q.1, b, by omega, bd, q.2.1.symm, q.2.2.symm⟩), h1 z y x b bd q.2.1.symm q.2.2.symm, q.1]
        · rw [if_neg q]
          simp only [st]
          congr 1
          apply propext
          constructor
          · rintro (a | ⟨a, e, e1, e2, e3⟩)
            · exact Or.inl a
            · exact Or.inr ⟨a, e, by omega, e2, e3⟩
          · rintro (a | ⟨a, e, e1, e2, e3, e4⟩)
            · exact Or.inl a
            · refine Or.inr ⟨a, e, ?_, e2, e3, e4⟩
              rcases Nat.lt_or_ge e b with p | p
              · exact p
              · exact absurd ⟨a, by rw [← e3, show e = b by omega], by rw [← e4, show e = b by omega]⟩ q
      rw [this] at T''
      exact T''
    · intro _ h' ⟨w', k', T''⟩
      refine ⟨w', k', ?_⟩
      have : st k cnt = st (k + 1) 0 := by
        funext z y x
        simp only [st]
        by_cases q : z.val = k
        · rw [if_pos (show z.val < k + 1 ∨ _ from Or.inl (by omega))]
          split
          · rfl
          · rename_i hn
            exact (h2 z y x fun a ha e1 e2 => hn (Or.inr ⟨q, a, ha, ha, e1, e2⟩)).symm
        · congr 1
          apply propext
          simp only [q, false_and, or_false, Nat.not_lt_zero, exists_false, and_false]
          omega
      rw [this] at T''
      exact T''
  · intro _ h' ⟨w', k', T''⟩
    have : st d 0 = T' := by funext z y x; simp only [st]; rw [if_pos (Or.inl z.isLt)]
    rw [this] at T''
    exact ⟨w', k', T''⟩

theorem Mat.get_any [Zero R] {h : Heap R} (w : h.WF) {o : Nat} {A : Matrix (Fin m) (Fin n) R} (hA : IsMat h o A) (i j : Nat) :
    Mat.element_get o (i : Int) (j : Int) h = .ok (if q : i < m ∧ j < n then A ⟨i, q.1⟩ ⟨j, q.2⟩ else 0, h) := by
  obtain ⟨F, eF, cA⟩ := hA.cells w
  by_cases q : i < m ∧ j < n
  · rw [dif_pos q, eF, Mat.element_get_run cA q.1 q.2]
  · rw [dif_neg q]
    unfold Mat.element_get
    rw [bind_ok (Mat.size_run o h), hA.1]
    dsimp only
    split
    · rename_i hx
      split
      · rename_i hy
        simp [idxOk] at hx hy; omega
      · rfl
    · rfl

theorem x_slice_set_spec [Zero R] {h : Heap R} (w : h.WF) {o t : Nat} {T : Fin d → Fin r → Fin c → R}
    (hT : IsTen h o T) {P : Matrix (Fin d) (Fin r) R} (hP : IsMat h t P) (lt : h.live (.m t)) (i : Fin c) :
    SetsTen (Ten.x_slice_set o (i.val : Int) (some t)) h o
      (fun z y x => if q : y.val = i.val ∧ x.val < r then P z ⟨x.val, q.2⟩ else T z y x) := by
  unfold Ten.x_slice_set SetsTen
  refine Runs.step (Ten.size_run o h) ?_
  rw [hT.1]
  dsimp only
  rw [if_pos (idxOk_nat i.isLt)]
  refine Runs.step (Mat.size_run t h) ?_
  rw [if_pos (by rw [hP.1]; exact ⟨rfl, rfl⟩)]
  refine setLoop_spec w hT r (fun z y => Mat.element_get t (z : Int) (y : Int)) (fun _ => i.val) id
    (fun z y => if q : z < d ∧ y < r then P ⟨z, q.1⟩ ⟨y, q.2⟩ else 0) ?_ _ ?_ ?_
  · intro z a h' hz ha k
    obtain ⟨e1, e2⟩ := k.2 (.m t) lt nofun
    have hP' : IsMat h' t P := by unfold IsMat; rw [e1, e2]; exact hP
    unfold Mat.element_get
    rw [bind_ok (Mat.size_run t h'), hP'.1]
    dsimp only
    rw [if_pos (idxOk_nat ha), if_pos (idxOk_nat hz), dif_pos ⟨hz, ha⟩]
    refine (load_ok ?_)
    have := hP'.2 ⟨z, hz⟩ ⟨a, ha⟩
    rw [← this]; congr 1
  · intro z y x a ha e1 e2
    have e2 : a = x.val := e2
    rw [dif_pos ⟨e1.symm, by omega⟩, dif_pos ⟨z.isLt, ha⟩]
    congr 1; exact Fin.ext e2.symm
  · intro z y x hn
    rw [dif_neg]
    rintro ⟨e, hx⟩
    exact hn x.val hx e.symm rfl

theorem y_slice_set_spec [Zero R] {h : Heap R} (w : h.WF) {o t : Nat} {T : Fin d → Fin r → Fin c → R}
    (hT : IsTen h o T) {P : Matrix (Fin d) (Fin r) R} (hP : IsMat h t P) (lt : h.live (.m t)) (i : Fin r) :
    SetsTen (Ten.y_slice_set o (i.val : Int) (some t)) h o
      (fun z y x => if x.val = i.val ∧ y.val < c then P z y else T z y x) := by
  unfold Ten.y_slice_set SetsTen
  refine Runs.step (Ten.size_run o h) ?_
  rw [hT.1]
  dsimp only
  rw [if_pos (idxOk_nat i.isLt)]
  refine Runs.step (Mat.size_run t h) ?_
  rw [if_pos (by rw [hP.1]; exact ⟨rfl, rfl⟩)]
  refine setLoop_spec w hT c (fun z y => Mat.element_get t (z : Int) (y : Int)) id (fun _ => i.val)
    (fun z y => if q : z < d ∧ y < r then P ⟨z, q.1⟩ ⟨y, q.2⟩ else 0) ?_ _ ?_ ?_
  · intro z a h' hz ha k
    obtain ⟨e1, e2⟩ := k.2 (.m t) lt nofun
    have hP' : IsMat h' t P := by unfold IsMat; rw [e1, e2]; exact hP
    unfold Mat.element_get
    rw [bind_ok (Mat.size_run t h'), hP'.1]
    dsimp only
    by_cases q : a < r
    · rw [if_pos (idxOk_nat q), if_pos (idxOk_nat hz), dif_pos ⟨hz, q⟩]
      refine (load_ok ?_)
      have := hP'.2 ⟨z, hz⟩ ⟨a, q⟩
      rw [← this]; congr 1
    · rw [if_neg (by simp [idxOk]; omega), dif_neg (fun e => q e.2)]; rfl
  · intro z y x a ha e1 e2
    have e1 : a = y.val := e1
    have := y.isLt
    rw [if_pos ⟨e2.symm, by omega⟩, dif_pos ⟨z.isLt, by omega⟩]
    congr 1; exact Fin.ext e1.symm
  · intro z y x hn
    rw [if_neg]
    rintro ⟨e, hx⟩
    exact hn y.val hx rfl e.symm

/-- **C35, partial.** Missing: `x_slice_get(i)` should be the cells `(z, y, i)`; the code exchanges row and column, reading
`(z, i, y)` (zero where there is no such cell), and `y_slice_get(i)` reads `(z, x, i)` instead of `(z, i, x)`. What is
proved, for every shape: exactly these cells are read or written; hence the getters are right whenever every slice is
a symmetric square matrix. -/
theorem C35_slices_partial [Zero R] (h : Heap R) (w : h.WF) (o t : Nat) (T : Fin d → Fin n → Fin n → R) (hT : IsTen h o T)
    (lo : h.live (.t o)) (hsym : ∀ z y x, T z y x = T z x y) (i : Fin n) :
    ReturnsMat (Ten.x_slice_get o (i.val : Int)) h (fun (z : Fin d) (y : Fin n) => T z y i) ∧
    ReturnsMat (Ten.y_slice_get o (i.val : Int)) h (fun (z : Fin d) (x : Fin n) => T z i x) ∧
    SetsMat (Ten.x_slice_get_into o (i.val : Int) (some t)) h t (fun (z : Fin d) (y : Fin n) => T z y i) ∧
    SetsMat (Ten.y_slice_get_into o (i.val : Int) (some t)) h t (fun (z : Fin d) (x : Fin n) => T z i x) := by
  have e1 : (fun (z : Fin d) (y : Fin n) => cellOrZero T z i y) = fun z y => T z y i := by
    funext z y; unfold cellOrZero; rw [dif_pos ⟨z.isLt, i.isLt, y.isLt⟩, hsym]
  have e2 : (fun (z : Fin d) (x : Fin n) => cellOrZero T z x i) = fun z x => T z i x := by
    funext z x; unfold cellOrZero; rw [dif_pos ⟨z.isLt, x.isLt, i.isLt⟩, hsym]
  have a := x_slice_get_spec w hT lo i
  have b := y_slice_get_spec w hT lo i
  have a' := x_slice_get_into_spec (t := t) w hT lo i
  have b' := y_slice_get_into_spec (t := t) w hT lo i (fun _ => rfl)
  rw [e1] at a a'; rw [e2] at b b'
  exact ⟨a, b, a', b'⟩

/-- What the getters return and the setters change on every shape: row and column exchanged. -/
theorem C35_slices_actual_partial [Zero R] (h : Heap R) (w : h.WF) (o t : Nat) (T : Fin d → Fin r → Fin c → R)
    (hT : IsTen h o T) (lo : h.live (.t o)) (i : Fin c) (j : Fin r) (P : Matrix (Fin d) (Fin r) R) (hP : IsMat h t P)
    (lt : h.live (.m t)) :
    ReturnsMat (Ten.x_slice_get o (i.val : Int)) h (fun (z : Fin d) (y : Fin r) => cellOrZero T z i y) ∧
    ReturnsMat (Ten.y_slice_get o (j.val : Int)) h (fun (z : Fin d) (x : Fin c) => cellOrZero T z x j) ∧
    SetsTen (Ten.x_slice_set o (i.val : Int) (some t)) h o
      (fun z y x => if q : y.val = i.val ∧ x.val < r then P z ⟨x.val, q.2⟩ else T z y x) ∧
    SetsTen (Ten.y_slice_set o (j.val : Int) (some t)) h o
      (fun z y x => if x.val = j.val ∧ y.val < c then P z y else T z y x) :=
  ⟨x_slice_get_spec w hT lo i, y_slice_get_spec w hT lo j, x_slice_set_spec w hT hP lt i, y_slice_set_spec w hT hP lt j⟩

/-- **C35, partial**: with square slices, reading back the slice just written gives the matrix written. -/
theorem C35_round_trip_partial [Zero R] (h : Heap R) (w : h.WF) (o t : Nat) (T : Fin d → Fin n → Fin n → R)
    (hT : IsTen h o T) (lo : h.live (.t o)) (i : Fin n) (P : Matrix (Fin d) (Fin n) R) (hP : IsMat h t P)
    (lt : h.live (.m t)) :
    Runs (do Ten.x_slice_set o (i.val : Int) (some t); Ten.x_slice_get o (i.val : Int)) h
      (fun r h' => ∃ q, r = some (.m q) ∧ IsMat h' q P) ∧
    Runs (do Ten.y_slice_set o (i.val : Int) (some t); Ten.y_slice_get o (i.val : Int)) h
      (fun r h' => ∃ q, r = some (.m q) ∧ IsMat h' q P) := by
  constructor
  · refine Runs.bind ((x_slice_set_spec w hT hP lt i).mono fun _ h1 ⟨w1, k1, hT1⟩ => ?_)
    refine (x_slice_get_spec w1 hT1 (k1.live lo) i).mono fun r h2 ⟨q, e, _, _, _, _, hm⟩ => ⟨q, e, ?_⟩
    refine Eq.mp (congrArg (IsMat h2 q) ?_) hm
    funext z y
    unfold cellOrZero
    rw [dif_pos ⟨z.isLt, i.isLt, y.isLt⟩]
    exact dif_pos ⟨rfl, y.isLt⟩
  · refine Runs.bind ((y_slice_set_spec w hT hP lt i).mono fun _ h1 ⟨w1, k1, hT1⟩ => ?_)
    refine (y_slice_get_spec w1 hT1 (k1.live lo) i).mono fun r h2 ⟨q, e, _, _, _, _, hm⟩ => ⟨q, e, ?_⟩
    refine Eq.mp (congrArg (IsMat h2 q) ?_) hm
    funext z x
    unfold cellOrZero
    rw [dif_pos ⟨z.isLt, x.isLt, i.isLt⟩]
    exact if_pos ⟨rfl, x.isLt⟩

/-- Reading slice `0` of a `1 × 2 × 2` tensor. -/
theorem C35_x_slice_get_fails : ((do Ten.set_data 0 (⟨2, 2, 1⟩, [1, 2, 3, 4]); Ten.x_slice_get 0 0 : M Int Ref)
    { Heap.init (fun _ _ => 7) with next := 1 }).bufOf (.m 1) = some [1, 2] := by decide +kernel
/-- The cells with column index 0 are 1 and 3. -/
theorem C35_x_slice_set_fails : ((do
      Ten.set_data 0 (⟨2, 2, 1⟩, [1, 2, 3, 4])
      Mat.set_data 0 ((2, 1), [8, 9])
      Ten.x_slice_set 0 0 (some 0) : M Int Unit)
    { Heap.init (fun _ _ => 7) with next := 1 }).bufOf (.t 0) = some [8, 9, 3, 4] := by decide +kernel
theorem C35_y_slice_get_fails : ((do Ten.set_data 0 (⟨2, 2, 1⟩, [1, 2, 3, 4]); Ten.y_slice_get 0 0 : M Int Ref)
    { Heap.init (fun _ _ => 7) with next := 1 }).bufOf (.m 1) = some [1, 3] := by decide +kernel
theorem C35_y_slice_set_fails : ((do
      Ten.set_data 0 (⟨2, 2, 1⟩, [1, 2, 3, 4])
      Mat.set_data 0 ((2, 1), [8, 9])
      Ten.y_slice_set 0 0 (some 0) : M Int Unit)
    { Heap.init (fun _ _ => 7) with next := 1 }).bufOf (.t 0) = some [8, 2, 9, 4] := by decide +kernel

end Verif
