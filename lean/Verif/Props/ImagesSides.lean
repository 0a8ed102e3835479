import Verif.Props.ImagesTensor

/-! # C141: x and y slices of tensors and images -/

namespace Verif
open Spec
variable {h : Heap ℝ} {d r c : Nat} {o : Nat}

theorem byte_cell {T : Fin d → Fin r → Fin c → ℝ} (hb : ∀ z y x, -1 < T z y x * 255 ∧ T z y x * 255 < 256) (z y x : Nat) :
    -1 < cellOrZero T z y x * 255 ∧ cellOrZero T z y x * 255 < 256 := by
  unfold cellOrZero
  split
  · exact hb _ _ _
  · norm_num

/-- What `x_slice_get_image` makes: in column `y` and row `z` the cell with row `p_index_x` and column `y`, or zero if there is none. -/
theorem C141_x_get_image_actual {T : Fin d → Fin r → Fin c → ℝ} (hT : IsTen h o T) (hd : 0 < d) (hr : 0 < r) (ld : d ≤ 16384) (lr : r ≤ 16384) (j : Fin c)
    (hb : ∀ z y x, -1 < T z y x * 255 ∧ T z y x * 255 < 256) :
    ∃ i, Ten.x_slice_get_image o (j.val : Int) h = .ok (some i, h) ∧ Gray i (fun (z : Fin d) (y : Fin r) => cellOrZero T z j y) := by
  have g := create_l8_gray (v := fun z y => cellOrZero T z j y) Img.empty hr hd lr ld
  refine ⟨_, ?_, g⟩
  have hj := j.isLt
  unfold Ten.x_slice_get_image
  rw [bind_ok (Ten.size_run o h), hT.1]
  dsimp only
  rw [if_pos (idxOk_nat j.isLt), if_neg (count_ne rfl (by omega) hr hd), Nat.mul_comm d r]
  rw [bind_ok (bytesOf_run (v := fun k => cellOrZero T (k / r) j (k % r)) (fun k _ => Ten.get_any hT _ _ _) fun k _ => byte_cell hb _ _ _)]
  rfl

/-- What `y_slice_get_image` makes: in column `x` and row `z` the cell with row `x` and column `p_index_y`, or zero if there is none. -/
theorem C141_y_get_image_actual {T : Fin d → Fin r → Fin c → ℝ} (hT : IsTen h o T) (hd : 0 < d) (hc : 0 < c) (ld : d ≤ 16384) (lc : c ≤ 16384) (j : Fin r)
    (hb : ∀ z y x, -1 < T z y x * 255 ∧ T z y x * 255 < 256) :
    ∃ i, Ten.y_slice_get_image o (j.val : Int) h = .ok (some i, h) ∧ Gray i (fun (z : Fin d) (x : Fin c) => cellOrZero T z x j) := by
  have g := create_l8_gray (v := fun z x => cellOrZero T z x j) Img.empty hc hd lc ld
  refine ⟨_, ?_, g⟩
  have hj := j.isLt
  unfold Ten.y_slice_get_image
  rw [bind_ok (Ten.size_run o h), hT.1]
  dsimp only
  rw [if_pos (idxOk_nat j.isLt), if_neg (count_ne rfl hc (by omega) hd), Nat.mul_comm d c]
  rw [bind_ok (bytesOf_run (v := fun k => cellOrZero T (k / c) (k % c) j) (fun k _ => Ten.get_any hT _ _ _) fun k _ => byte_cell hb _ _ _)]
  rfl

/-- C141, for tensors whose z slices are symmetric matrices (of at most 16384 rows and columns, at most 16384 of them) with cells that fit a byte:
`x_slice_get_image` and `y_slice_get_image` make grey images whose columns are the rows (columns) and whose rows are the z slices of the slice. Full
property: for every tensor. -/
theorem C141_get_image_partial {n : Nat} {T : Fin d → Fin n → Fin n → ℝ} (hT : IsTen h o T) (hd : 0 < d) (ld : d ≤ 16384) (ln : n ≤ 16384) (j : Fin n)
    (sym : ∀ z y x, T z y x = T z x y) (hb : ∀ z y x, -1 < T z y x * 255 ∧ T z y x * 255 < 256) :
    (∃ i, Ten.x_slice_get_image o (j.val : Int) h = .ok (some i, h) ∧ Gray i (fun (z : Fin d) (y : Fin n) => T z y j)) ∧
    ∃ i, Ten.y_slice_get_image o (j.val : Int) h = .ok (some i, h) ∧ Gray i (fun (z : Fin d) (x : Fin n) => T z j x) := by
  have hn : 0 < n := by have := j.isLt; omega
  constructor
  · obtain ⟨i, e, g⟩ := C141_x_get_image_actual hT hd hn ld ln j hb
    refine ⟨i, e, cast (congrArg _ ?_) g⟩
    funext z y
    simp [cellOrZero, sym z j y]
  · obtain ⟨i, e, g⟩ := C141_y_get_image_actual hT hd hn ld ln j hb
    refine ⟨i, e, cast (congrArg _ ?_) g⟩
    funext z y
    simp [cellOrZero, sym z y j]

/-- C141 fails: of a tensor with one slice of one row and two columns the cells with column 1 make a grey image of value 0 (black), whatever they are;
of one with two rows and one column the row 1 makes an image of value 0. -/
theorem C141_get_image_fails :
    (∀ T : Fin 1 → Fin 1 → Fin 2 → ℝ, IsTen h o T → (∀ z y x, 0 ≤ T z y x ∧ T z y x ≤ 1) →
      Ten.x_slice_get_image o 1 h = .ok (some ⟨1, 1, .l8, [[0]]⟩, h)) ∧
    ∀ T : Fin 1 → Fin 2 → Fin 1 → ℝ, IsTen h o T → (∀ z y x, 0 ≤ T z y x ∧ T z y x ≤ 1) →
      Ten.y_slice_get_image o 1 h = .ok (some ⟨1, 1, .l8, [[0]]⟩, h) := by
  constructor
  · intro T hT h01
    obtain ⟨i, e, g1, g2, g3, g4, g5⟩ := C141_x_get_image_actual hT (by norm_num) (by norm_num) (by norm_num) (by norm_num) 1 fun z y x => unit_byte (h01 z y x)
    refine e.trans (congrArg (fun q => Out.ok (some q, h)) ?_)
    have : i.px = [[0]] := by
      have q := g5 0 0
      simp [cellOrZero] at q
      obtain ⟨p, ep⟩ := List.length_eq_one_iff.1 g4
      rw [ep] at q ⊢
      simpa using q
    cases i
    simp_all
  · intro T hT h01
    obtain ⟨i, e, g1, g2, g3, g4, g5⟩ := C141_y_get_image_actual hT (by norm_num) (by norm_num) (by norm_num) (by norm_num) 1 fun z y x => unit_byte (h01 z y x)
    refine e.trans (congrArg (fun q => Out.ok (some q, h)) ?_)
    have : i.px = [[0]] := by
      have q := g5 0 0
      simp [cellOrZero] at q
      obtain ⟨p, ep⟩ := List.length_eq_one_iff.1 g4
      rw [ep] at q ⊢
      simpa using q
    cases i
    simp_all

/-- C141: `y_slice_set_image` copies the first channel named to the cells with the given row, column `x` and row `z` of the image to column `x` and slice `z`,
and changes nothing else. -/
theorem C141_y_set (w : h.WF) {T : Fin d → Fin r → Fin c → ℝ} (hT : IsTen h o T) (j : Fin r) {flags : Nat} {k : Fin 4} (hk : FirstNamed flags k)
    (dbg : Bool) {i : Img} (g : Good i) (ew : i.width = c) (eh : i.height = d) :
    SetsTen (Ten.y_slice_set_image dbg o (some i) (j.val : Int) flags) h o (fun z y x => if y = j then colorAt i x z k else T z y x) := by
  unfold SetsTen Ten.y_slice_set_image
  dsimp only
  refine Runs.step (Ten.size_run o h) ?_
  rw [hT.1]
  dsimp only
  rw [if_pos (idxOk_nat j.isLt), Ten.firstChannel_iff hk]
  dsimp only
  rw [if_pos ⟨ew, eh⟩]
  subst ew eh
  have := setLoop_spec w hT i.width (fun z x => do let co ← Img.get_pixel dbg i x z; pure (co k)) (fun _ => j.val) id (fun z x => colorAt i x z k)
    (fun z a h' hz ha _ => bind_ok (Img.get_pixel_run g ha hz dbg)) (fun z y x => if y = j then colorAt i x z k else T z y x)
    (fun z y x a _ e1 e2 => by
      have q1 : y = j := Fin.ext e1.symm
      have q2 : a = x.val := e2
      subst q1 q2
      rw [if_pos rfl])
    (fun z y x q => by
      rw [if_neg]
      intro e
      exact q x.val x.isLt (congrArg Fin.val e.symm) rfl)
  unfold SetsTen at this
  simp only [bind_assoc, pure_bind] at this
  exact this

/-- What `x_slice_set_image` does: the image is transposed, and only as many rows as there are slices, and only as many slices as there are rows, are
written. -/
theorem C141_x_set_actual (w : h.WF) {T : Fin d → Fin r → Fin c → ℝ} (hT : IsTen h o T) (j : Fin c) {flags : Nat} {k : Fin 4} (hk : FirstNamed flags k)
    (dbg : Bool) {i : Img} (g : Good i) (ew : i.width = r) (eh : i.height = d) :
    SetsTen (Ten.x_slice_set_image dbg o (some i) (j.val : Int) flags) h o
      (fun z y x => if x = j ∧ z.val < r ∧ y.val < d then colorAt i z y k else T z y x) := by
  unfold SetsTen Ten.x_slice_set_image
  dsimp only
  refine Runs.step (Ten.size_run o h) ?_
  rw [hT.1]
  dsimp only
  rw [if_pos (idxOk_nat j.isLt), Ten.firstChannel_iff hk]
  dsimp only
  rw [if_pos ⟨ew, eh⟩]
  let V : Fin d → Fin r → Fin c → ℝ := fun z y _ => colorAt i z y k
  let st : Nat → Nat → Fin d → Fin r → Fin c → ℝ := fun b a z y x =>
    if x = j ∧ ((y.val < b ∧ z.val < r) ∨ (y.val = b ∧ z.val < a)) then V z y x else T z y x
  unfold Ten.xImageLoop
  refine (Runs.forN d (fun b h' => h'.WF ∧ Keeps h h' (· = .t o) ∧ IsTen h' o (st b 0)) _ h ⟨w, Keeps.refl _ _, ?_⟩ ?_).mono ?_
  · refine cast (congrArg _ ?_) hT
    funext z y x
    simp [st]
  · intro b h1 hb ⟨w1, k1, T1⟩
    refine (Runs.forN r (fun a h' => h'.WF ∧ Keeps h h' (· = .t o) ∧ IsTen h' o (st b a)) _ h1 ⟨w1, k1, T1⟩ ?_).mono ?_
    · intro a h2 ha ⟨w2, k2, T2⟩
      refine Runs.step (Img.get_pixel_run g (by rw [ew]; exact ha) (by rw [eh]; exact hb) dbg) ?_
      refine (Ten.set_any w2 T2 a b j _).mono fun _ h3 ⟨w3, k3, T3⟩ => ⟨w3, k2.trans k3, ?_⟩
      refine cast (congrArg _ ?_) T3
      funext z y x
      by_cases q : z.val = a ∧ y.val = b ∧ x.val = j.val
      · rw [if_pos q]
        have e2 : st b (a + 1) z y x = V z y x := if_pos ⟨Fin.ext q.2.2, .inr ⟨q.2.1, by omega⟩⟩
        rw [e2]
        simp only [V, q.1, q.2.1]
      · rw [if_neg q]
        simp only [st, Fin.ext_iff]
        congr 1
        apply propext
        omega
    · intro _ h2 ⟨w2, k2, T2⟩
      refine ⟨w2, k2, ?_⟩
      refine cast (congrArg _ ?_) T2
      funext z y x
      simp only [st]
      congr 1
      apply propext
      omega
  · intro _ h' ⟨w', k', T'⟩
    refine ⟨w', k', ?_⟩
    refine cast (congrArg _ ?_) T'
    funext z y x
    simp only [st, V]
    congr 1
    apply propext
    omega

/-- C141, for tensors with as many rows as slices and images that do not change when transposed: `x_slice_set_image` copies the first channel named to the
cells with the given column, column `y` and row `z` of the image to row `y` and slice `z`. Full property: for every tensor and image. -/
theorem C141_x_set_partial {n : Nat} (w : h.WF) {T : Fin n → Fin n → Fin c → ℝ} (hT : IsTen h o T) (j : Fin c) {flags : Nat} {k : Fin 4}
    (hk : FirstNamed flags k) (dbg : Bool) {i : Img} (g : Good i) (ew : i.width = n) (eh : i.height = n) (sym : ∀ x y, colorAt i x y = colorAt i y x) :
    SetsTen (Ten.x_slice_set_image dbg o (some i) (j.val : Int) flags) h o (fun z y x => if x = j then colorAt i y z k else T z y x) := by
  refine (C141_x_set_actual w hT j hk dbg g ew eh).mono fun _ h1 ⟨w1, k1, t1⟩ => ⟨w1, k1, ?_⟩
  refine cast (congrArg _ ?_) t1
  funext z y x
  simp only [z.isLt, y.isLt, and_true, sym z.val y.val]

/-- C141 fails: of a tensor with one slice, one column and two rows, only the first row is written. -/
theorem C141_x_set_fails (w : h.WF) {T : Fin 1 → Fin 2 → Fin 1 → ℝ} (hT : IsTen h o T) {i : Img} (g : Good i) (ew : i.width = 2) (eh : i.height = 1)
    (dbg : Bool) : SetsTen (Ten.x_slice_set_image dbg o (some i) 0 1) h o (fun z y x => if y = 0 then colorAt i 0 0 0 else T z y x) := by
  have f : FirstNamed 1 0 := ⟨rfl, fun j hj => absurd hj (by simp)⟩
  refine (C141_x_set_actual w hT 0 f dbg g ew eh).mono fun _ h1 ⟨w1, k1, t1⟩ => ⟨w1, k1, ?_⟩
  refine cast (congrArg _ ?_) t1
  funext z y x
  fin_cases z; fin_cases x; fin_cases y <;> simp

/-- What `x_slice_get_into_image` makes: the image has a column for every row and a row for every slice, but the pixel in column `a` and row `b` is made of
the cell in slice `a` and row `b` (zero if there is none). -/
theorem C141_x_get_into_actual {T : Fin d → Fin r → Fin c → ℝ} (hT : IsTen h o T) (hd : 0 < d) (hr : 0 < r) (ld : d ≤ 16384) (lr : r ≤ 16384) (j : Fin c)
    (flags : Nat) (nf : named flags ≠ []) (dbg : Bool) {i : Img} (g : Good i) (ne : i.px.length ≠ 0) :
    ∃ i', Ten.x_slice_get_into_image dbg o (some i) (j.val : Int) flags h = .ok (some i', h) ∧
      Painted i' i.format fun (b : Fin d) (a : Fin r) => colorOf fun k => if flags.testBit k then some (cellOrZero T a b j) else none := by
  obtain ⟨q1, q2, q3, q4⟩ := Img.resize_spec g ne hr hd lr ld
  have hj := j.isLt
  obtain ⟨i', e, p⟩ := paint_run (h := h)
    (color := fun z y => do
          let e ← Ten.element_get o (z : Int) (y : Int) (j.val : Int)
          pure (Ten.spread (Ten.channels flags) e))
    (c := fun z y => Ten.spread (Ten.channels flags) (cellOrZero T z y j)) dbg
    (fun z _ y _ => bind_ok (Ten.get_any hT z y j)) q1 q2 q3 q4
  refine ⟨i', ?_, ?_⟩
  · unfold Ten.x_slice_get_into_image
    rw [bind_ok (Ten.size_run o h), hT.1]
    dsimp only
    rw [if_pos (idxOk_nat j.isLt), if_neg (Ten.channels_length nf), if_neg (count_ne rfl (by omega) hr hd), bind_ok e]
    rfl
  · refine cast (congrArg _ ?_) p
    funext y x k
    simp only [Ten.spread, Ten.channels, List.mem_filter, List.mem_finRange, true_and, colorOf]
    split
    · rfl
    · fin_cases k <;> rfl

/-- What `y_slice_get_into_image` makes: the image has a column for every column and a row for every slice, but the pixel in column `a` and row `b` is made
of the cell in slice `a` and column `b` (zero if there is none). -/
theorem C141_y_get_into_actual {T : Fin d → Fin r → Fin c → ℝ} (hT : IsTen h o T) (hd : 0 < d) (hc : 0 < c) (ld : d ≤ 16384) (lc : c ≤ 16384) (j : Fin r)
    (flags : Nat) (nf : named flags ≠ []) (dbg : Bool) {i : Img} (g : Good i) (ne : i.px.length ≠ 0) :
    ∃ i', Ten.y_slice_get_into_image dbg o (some i) (j.val : Int) flags h = .ok (some i', h) ∧
      Painted i' i.format fun (b : Fin d) (a : Fin c) => colorOf fun k => if flags.testBit k then some (cellOrZero T a j b) else none := by
  obtain ⟨q1, q2, q3, q4⟩ := Img.resize_spec g ne hc hd lc ld
  have hj := j.isLt
  obtain ⟨i', e, p⟩ := paint_run (h := h)
    (color := fun z x => do
          let e ← Ten.element_get o (z : Int) (j.val : Int) (x : Int)
          pure (Ten.spread (Ten.channels flags) e))
    (c := fun z x => Ten.spread (Ten.channels flags) (cellOrZero T z j x)) dbg
    (fun z _ x _ => bind_ok (Ten.get_any hT z j x)) q1 q2 q3 q4
  refine ⟨i', ?_, ?_⟩
  · unfold Ten.y_slice_get_into_image
    rw [bind_ok (Ten.size_run o h), hT.1]
    dsimp only
    rw [if_pos (idxOk_nat j.isLt), if_neg (Ten.channels_length nf), if_neg (count_ne rfl hc (by omega) hd), bind_ok e]
    rfl
  · refine cast (congrArg _ ?_) p
    funext y x k
    simp only [Ten.spread, Ten.channels, List.mem_filter, List.mem_finRange, true_and, colorOf]
    split
    · rfl
    · fin_cases k <;> rfl

/-- C141 fails: with one slice of one column and two rows, the target of `x_slice_get_into_image` gets the first row right and the second as zero. -/
theorem C141_x_get_into_fails {T : Fin 1 → Fin 2 → Fin 1 → ℝ} (hT : IsTen h o T) (dbg : Bool) {i : Img} (g : Good i) (ne : i.px.length ≠ 0) :
    ∃ i', Ten.x_slice_get_into_image dbg o (some i) 0 1 h = .ok (some i', h) ∧
      Painted i' i.format fun (_ : Fin 1) (y : Fin 2) => (![if y = 0 then T 0 0 0 else 0, 0, 0, 1] : Color) := by
  obtain ⟨i', e, p⟩ := C141_x_get_into_actual hT (by norm_num) (by norm_num) (by norm_num) (by norm_num) 0 1 (by decide) dbg g ne
  refine ⟨i', e, cast (congrArg _ ?_) p⟩
  funext b a k
  fin_cases b; fin_cases a <;> fin_cases k <;> simp [colorOf, cellOrZero, Nat.testBit]

/-- C141 fails: with one slice of one row and two columns, the target of `y_slice_get_into_image` gets the first column right and the second as zero. -/
theorem C141_y_get_into_fails {T : Fin 1 → Fin 1 → Fin 2 → ℝ} (hT : IsTen h o T) (dbg : Bool) {i : Img} (g : Good i) (ne : i.px.length ≠ 0) :
    ∃ i', Ten.y_slice_get_into_image dbg o (some i) 0 1 h = .ok (some i', h) ∧
      Painted i' i.format fun (_ : Fin 1) (x : Fin 2) => (![if x = 0 then T 0 0 0 else 0, 0, 0, 1] : Color) := by
  obtain ⟨i', e, p⟩ := C141_y_get_into_actual hT (by norm_num) (by norm_num) (by norm_num) (by norm_num) 0 1 (by decide) dbg g ne
  refine ⟨i', e, cast (congrArg _ ?_) p⟩
  funext b a k
  fin_cases b; fin_cases a <;> fin_cases k <;> simp [colorOf, cellOrZero, Nat.testBit]

/-! Cases that meet the hypotheses. -/

example : ∃ i, Ten.x_slice_get_image 0 ((1 : Fin 2).val : Int) exPicTen = .ok (some i, exPicTen) ∧
    Gray i (fun (z : Fin 2) (y : Fin 1) => cellOrZero exPicCells z 1 y) :=
  C141_x_get_image_actual exPicTen_ten (by norm_num) (by norm_num) (by norm_num) (by norm_num) 1 fun z y x => unit_byte (exPicCells_unit z y x)

/-- Cell (0, 0, 1) is 0, cell (1, 0, 1) is 1/4; the rows with index 1 that are read do not exist. -/
example : exPicCells 1 0 1 = 1 / 4 ∧ cellOrZero exPicCells 1 1 0 = 0 := by simp [exPicCells, cellOrZero]

def exPicTall : Img := ⟨2, 2, .rgb8, [[1, 2, 3], [4, 5, 6], [7, 8, 9], [10, 11, 12]]⟩

example : SetsTen (Ten.y_slice_set_image false 0 (some exPicTall) ((0 : Fin 1).val : Int) 4) exPicTen 0
    (fun z y x => if y = 0 then colorAt exPicTall x z 2 else exPicCells z y x) :=
  C141_y_set exPicTen_wf exPicTen_ten 0 ⟨by decide, by decide⟩ false rfl rfl rfl

example : colorAt exPicTall 1 0 2 = 6 / 255 := by simp [colorAt, exPicTall, Img.decode, Img.part]

end Verif
