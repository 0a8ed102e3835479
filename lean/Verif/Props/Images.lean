import Verif.Lemmas.Image
import Verif.Lemmas.Example
import Verif.Lemmas.ExampleTen

/-! # C139: matrices and images -/

namespace Verif
open Spec
variable {h : Heap ℝ} {m n : Nat} {o : Nat}

/-- C139: `set_from_image` gives the matrix the size of the image, and every cell the chosen component of its pixel. -/
theorem C139_set_from_image (w : h.WF) {i : Img} (g : Good i) (k : Fin 4) (dbg : Bool) :
    SetsMat (Mat.set_from_image dbg o (some i) (k.val : Int)) h o
      (Matrix.of fun (y : Fin i.height) (x : Fin i.width) => colorAt i x y k) := by
  unfold SetsMat Mat.set_from_image
  dsimp only
  rw [dif_pos ⟨by omega, by have := k.isLt; omega⟩]
  refine Runs.ensureM w rfl fun h1 w1 k1 _ s1 _ => ?_
  obtain ⟨F, c1⟩ := exists_Cells w1 s1
  unfold Mat.imageLoop
  refine (Runs.cells2 (l := .m o) (c := i.width) (r := i.height) i.height i.width (fun h' => h'.WF ∧ Keeps h1 h' (· = .m o))
    (fun y x => colorAt i x y k) _ ⟨w1, Keeps.refl _ _⟩ c1 ?_).mono ?_
  · intro y x h2 F' hy hx ⟨w2, k2⟩ c2
    refine Runs.step (Img.get_pixel_run g hx hy dbg) ?_
    exact (Mat.set_cells w2 c2 hy hx _).mono fun _ h3 ⟨w3, k3, _, c3⟩ => ⟨⟨w3, k2.trans k3⟩, c3⟩
  · rintro _ h2 ⟨⟨w2, k2⟩, c2⟩
    exact ⟨w2, k1.trans k2, c2.isMat fun y x => by simp⟩

/-- C139: a missing image, or a channel that is not 0 to 3, leaves the matrix as it is. -/
theorem C139_set_rejects (h : Heap ℝ) (o : Nat) (i : Img) (dbg : Bool) :
    (∀ k, Mat.set_from_image dbg o none k h = .ok ((), h)) ∧
    ∀ k : Int, k < 0 ∨ 4 ≤ k → Mat.set_from_image dbg o (some i) k h = .ok ((), h) := by
  refine ⟨fun _ => rfl, fun k q => ?_⟩
  unfold Mat.set_from_image
  dsimp only
  rw [dif_neg (by omega)]
  rfl

/-- The entry in row `y` and column `x`. -/
def entry (A : Matrix (Fin m) (Fin n) ℝ) (y x : Nat) : ℝ := if q : y < m ∧ x < n then A ⟨y, q.1⟩ ⟨x, q.2⟩ else 0

theorem Mat.load_entry {A : Matrix (Fin m) (Fin n) ℝ} (hA : IsMat h o A) : ∀ k < n * m, load (.m o) k h = .ok (entry A (k / n) (k % n), h) := by
  intro k hk
  have hn : 0 < n := by
    rcases Nat.eq_zero_or_pos n with q | q
    · rw [q] at hk; simp at hk
    · exact q
  have q1 : k / n < m := Nat.div_lt_of_lt_mul hk
  have q2 : k % n < n := Nat.mod_lt _ hn
  refine load_ok ?_
  have := hA.2 ⟨k / n, q1⟩ ⟨k % n, q2⟩
  simp only [] at this
  rw [Nat.mul_comm, Nat.div_add_mod] at this
  rw [this]
  unfold entry
  rw [dif_pos ⟨q1, q2⟩]

theorem entry_byte {A : Matrix (Fin m) (Fin n) ℝ} (hb : ∀ i j, -1 < A i j * 255 ∧ A i j * 255 < 256) (y x : Nat) :
    -1 < entry A y x * 255 ∧ entry A y x * 255 < 256 := by
  unfold entry
  split
  · exact hb _ _
  · norm_num

theorem Mat.image_bytes {A : Matrix (Fin m) (Fin n) ℝ} (hA : IsMat h o A) (hb : ∀ i j, -1 < A i j * 255 ∧ A i j * 255 < 256) :
    bytesOf (n * m) (fun k => load (.m o) k) h = .ok ((List.range (n * m)).map fun k => ⌊entry A (k / n) (k % n) * 255⌋₊, h) :=
  bytesOf_run (v := fun k => entry A (k / n) (k % n)) (Mat.load_entry hA) fun _ _ => entry_byte hb _ _

/-- C139, for matrices with 1 to 16384 rows and columns and entries between 0 and 1 (or so little outside
that `255 * A i j`, truncated, is a byte): `get_into_image` and `get_as_image` make a grey image of the same
size, with pixels `255 * A i j`, rounded down, and change no object. Full property: for every matrix. -/
theorem C139_get_image_partial {A : Matrix (Fin m) (Fin n) ℝ} (hA : IsMat h o A) (hm : 0 < m) (hn : 0 < n) (lm : m ≤ 16384) (ln : n ≤ 16384)
    (hb : ∀ i j, -1 < A i j * 255 ∧ A i j * 255 < 256) :
    (∀ i : Img, ∃ i', Mat.get_into_image o (some i) h = .ok (some i', h) ∧ Gray i' A) ∧
    ∃ i', Mat.get_as_image o h = .ok (some i', h) ∧ Gray i' A := by
  have main : ∀ i : Img, ∃ i', Mat.get_into_image o (some i) h = .ok (some i', h) ∧ Gray i' A := by
    intro i
    have g := create_l8_gray (v := entry A) i hn hm ln lm
    have eA : (fun (y : Fin m) (x : Fin n) => entry A y x) = A := by
      funext y x
      simp [entry]
    rw [eA] at g
    refine ⟨_, ?_, g⟩
    unfold Mat.get_into_image
    dsimp only
    rw [bind_ok (Mat.size_run o h), hA.1]
    dsimp only
    rw [if_neg (Nat.mul_ne_zero (by omega) (by omega)), bind_ok (Mat.image_bytes hA hb)]
    rfl
  exact ⟨main, main _⟩

/-- C139: no target: nothing happens; a matrix without elements clears the target. -/
theorem C139_get_edge (h : Heap ℝ) (o : Nat) (i : Img) :
    Mat.get_into_image o none h = .ok (none, h) ∧
    ((h.size (.m o)).x * (h.size (.m o)).y = 0 → Mat.get_into_image o (some i) h = .ok (some ⟨0, 0, i.format, []⟩, h)) := by
  refine ⟨rfl, fun e => ?_⟩
  unfold Mat.get_into_image
  dsimp only
  rw [bind_ok (Mat.size_run o h), if_pos e]
  rfl

theorem _root_.Verif.Spec.Gray.good {A : Fin m → Fin n → ℝ} {i : Img} (g : Gray i A) : Good i := by
  unfold Good; rw [g.2.2.2.1, g.1, g.2.1]

theorem _root_.Verif.Spec.Gray.colorAt {A : Fin m → Fin n → ℝ} {i : Img} (g : Gray i A) (y : Fin m) (x : Fin n) (k : Fin 4) :
    colorAt i x y k = if k = 3 then 1 else (⌊A y x * 255⌋₊ : ℝ) / 255 := by
  unfold Spec.colorAt
  rw [g.1, g.2.2.2.2 y x, g.2.2.1]
  simp only [Option.map_some, Option.getD_some, Img.decode, Img.part, List.getD_cons_zero]
  fin_cases k <;> simp

/-- C139, for the same matrices: writing a matrix to an image and reading any of the channels red, green and blue back (in any later state, into any
matrix) gives the entries, rounded down to a multiple of 1/255, so at most 1/255 smaller. -/
theorem C139_round_trip_partial {A : Matrix (Fin m) (Fin n) ℝ} (hA : IsMat h o A) (hm : 0 < m) (hn : 0 < n) (lm : m ≤ 16384) (ln : n ≤ 16384)
    (h01 : ∀ i j, 0 ≤ A i j ∧ A i j ≤ 1) :
    ∃ i', Mat.get_as_image o h = .ok (some i', h) ∧ ∃ B : Matrix (Fin m) (Fin n) ℝ, (∀ i j, A i j - 1 / 255 < B i j ∧ B i j ≤ A i j) ∧
      ∀ (h' : Heap ℝ) (o' : Nat) (dbg : Bool) (k : Int), h'.WF → 0 ≤ k → k < 3 → SetsMat (Mat.set_from_image dbg o' (some i') k) h' o' B := by
  obtain ⟨i', e, g⟩ := (C139_get_image_partial hA hm hn lm ln fun i j => unit_byte (h01 i j)).2
  refine ⟨i', e, Matrix.of fun y x => (⌊A y x * 255⌋₊ : ℝ) / 255, fun i j => ?_, fun h' o' dbg k w' k0 k3 => ?_⟩
  · have q1 := Nat.floor_le (a := A i j * 255) (by have := (h01 i j).1; positivity)
    have q2 := Nat.lt_floor_add_one (A i j * 255)
    simp only [Matrix.of_apply]
    constructor
    · rw [lt_div_iff₀ (by norm_num)]; linarith
    · rw [div_le_iff₀ (by norm_num)]; linarith
  · obtain ⟨n', rfl⟩ := Int.eq_ofNat_of_zero_le k0
    have lt : n' < 4 := by omega
    have q := C139_set_from_image (o := o') w' g.good ⟨n', lt⟩ dbg
    refine q.mono fun _ h2 ⟨w2, k2, hM⟩ => ⟨w2, k2, ?_, fun y x => ?_⟩
    · rw [hM.1, g.1, g.2.1]
    · have := hM.2 ⟨y, by rw [g.2.1]; exact y.isLt⟩ ⟨x, by rw [g.1]; exact x.isLt⟩
      simp only [g.1, Matrix.of_apply] at this
      rw [this, g.colorAt y x, if_neg (by intro q; have := congrArg Fin.val q; simp at this; omega)]
      rfl

/-- C139: reading a grey image of at most 16384 rows and columns into a matrix and writing that matrix to an image gives the same image. -/
theorem C139_image_round_trip (w : h.WF) {i : Img} (g : Good i) (f : i.format = .l8) (bytes : ∀ p ∈ i.px, ∃ b, b ≤ 255 ∧ p = [b])
    (w0 : 0 < i.width) (h0 : 0 < i.height) (lw : i.width ≤ 16384) (lh : i.height ≤ 16384) (k : Int) (k0 : 0 ≤ k) (k3 : k < 3) (dbg : Bool) :
    Runs (do Mat.set_from_image dbg o (some i) k; Mat.get_as_image o) h fun r _ => r = some i := by
  obtain ⟨n', rfl⟩ := Int.eq_ofNat_of_zero_le k0
  refine Runs.bind ((C139_set_from_image (o := o) w g ⟨n', by omega⟩ dbg).mono fun _ h1 ⟨w1, _, hM⟩ => ?_)
  have px : ∀ (y : Fin i.height) (x : Fin i.width), ∃ b, b ≤ 255 ∧ i.px[y.val * i.width + x.val]? = some [b] := by
    intro y x
    have lt : y.val * i.width + x.val < i.px.length := by rw [show i.px.length = _ from g]; exact pixel_lt x.isLt y.isLt
    obtain ⟨b, hb, e⟩ := bytes _ (List.getElem_mem lt)
    exact ⟨b, hb, by rw [List.getElem?_eq_getElem lt, e]⟩
  have val : ∀ (y : Fin i.height) (x : Fin i.width), ∃ b : Nat, b ≤ 255 ∧ i.px[y.val * i.width + x.val]? = some [b] ∧
      colorAt i x y ⟨n', by omega⟩ = (b : ℝ) / 255 := by
    intro y x
    obtain ⟨b, hb, e⟩ := px y x
    refine ⟨b, hb, e, ?_⟩
    unfold Spec.colorAt
    rw [e, f]
    simp only [Option.map_some, Option.getD_some, Img.decode, Img.part, List.getD_cons_zero]
    have : n' = 0 ∨ n' = 1 ∨ n' = 2 := by omega
    rcases this with rfl | rfl | rfl <;> rfl
  obtain ⟨i', e, gr⟩ := (C139_get_image_partial hM h0 w0 lh lw (fun y x => unit_byte (by
    obtain ⟨b, hb, _, e⟩ := val y x
    have : (b : ℝ) ≤ 255 := by exact_mod_cast hb
    simp only [Matrix.of_apply]
    rw [e]
    exact ⟨by positivity, by rw [div_le_one (by norm_num)]; exact this⟩))).2
  refine Runs.of_eq e (congrArg some ?_)
  obtain ⟨g1, g2, g3, g4, g5⟩ := gr
  have : i'.px = i.px := by
    apply List.ext_getElem?
    intro q
    by_cases hq : q < i.width * i.height
    · have q1 : q / i.width < i.height := Nat.div_lt_of_lt_mul hq
      have q2 : q % i.width < i.width := Nat.mod_lt _ w0
      have e1 := g5 ⟨q / i.width, q1⟩ ⟨q % i.width, q2⟩
      obtain ⟨b, hb, e2, e3⟩ := val ⟨q / i.width, q1⟩ ⟨q % i.width, q2⟩
      simp only [Matrix.of_apply] at e1 e2 e3
      rw [Nat.mul_comm, Nat.div_add_mod] at e1 e2
      rw [e1, e2, e3, div_mul_cancel₀ _ (by norm_num), Nat.floor_natCast]
    · rw [List.getElem?_eq_none (by omega), List.getElem?_eq_none (by rw [show i.px.length = _ from g]; omega)]
  cases i'; cases i
  simp only [Img.mk.injEq]
  exact ⟨g1, g2, g3.trans f.symm, this⟩

/-- C139 fails for matrices with more than 16384 rows or columns: the target keeps its size and its pixels. -/
theorem C139_large_fails {A : Matrix (Fin m) (Fin n) ℝ} (hA : IsMat h o A) (big : 16384 < m ∨ 16384 < n) (hm : 0 < m) (hn : 0 < n)
    (hb : ∀ i j, -1 < A i j * 255 ∧ A i j * 255 < 256) (i : Img) :
    Mat.get_into_image o (some i) h = .ok (some i, h) ∧ Mat.get_as_image o h = .ok (some ⟨0, 0, .l8, []⟩, h) := by
  have main : ∀ i : Img, Mat.get_into_image o (some i) h = .ok (some i, h) := by
    intro i
    unfold Mat.get_into_image
    dsimp only
    rw [bind_ok (Mat.size_run o h), hA.1]
    dsimp only
    rw [if_neg (Nat.mul_ne_zero (by omega) (by omega)), bind_ok (Mat.image_bytes hA hb)]
    unfold Img.create_l8
    rw [if_neg (by simp [Img.sizeOk]; omega)]
    rfl
  exact ⟨main i, main _⟩

/-- C139 fails for an entry whose product with 255, truncated, is not a byte: the conversion is undefined behaviour. -/
theorem C139_range_fails {A : Matrix (Fin m) (Fin n) ℝ} (hA : IsMat h o A) (a : Fin m) (b : Fin n) (bad : A a b * 255 ≤ -1 ∨ 256 ≤ A a b * 255) (i : Img) :
    Mat.get_into_image o (some i) h = .ub ∧ Mat.get_as_image o h = .ub := by
  have hm : 0 < m := by have := a.isLt; omega
  have hn : 0 < n := by have := b.isLt; omega
  have main : ∀ i : Img, Mat.get_into_image o (some i) h = .ub := by
    intro i
    unfold Mat.get_into_image
    dsimp only
    rw [bind_ok (Mat.size_run o h), hA.1]
    dsimp only
    rw [if_neg (Nat.mul_ne_zero (by omega) (by omega))]
    refine bind_ub (bytesOf_ub (v := fun k => entry A (k / n) (k % n)) (Mat.load_entry hA) (k := a.val * n + b.val) (pixel_lt b.isLt a.isLt) ?_)
    have e1 : (a.val * n + b.val) / n = a.val := by
      rw [Nat.mul_comm, Nat.mul_add_div hn, Nat.div_eq_of_lt b.isLt, Nat.add_zero]
    have e2 : (a.val * n + b.val) % n = b.val := by
      rw [Nat.mul_comm, Nat.mul_add_mod, Nat.mod_eq_of_lt b.isLt]
    rw [e1, e2]
    simpa [entry] using bad
  exact ⟨main i, main _⟩

/-! A case that meets the hypotheses: a 2×2 matrix, and a grey image of one row and two columns. -/

noncomputable def exPicHeap : Heap ℝ := Heap.ofLists 0 [] [(2, 2, [1 / 2, 0, 1, 1 / 4])]
noncomputable def exPicMat : Matrix (Fin 2) (Fin 2) ℝ := fun i j => [1 / 2, 0, 1, 1 / 4].getD (i.val * 2 + j.val) 0
def exPic : Img := ⟨2, 1, .l8, [[7], [255]]⟩

theorem exPicHeap_wf : exPicHeap.WF := Heap.ofLists_wf _ _ _ (by simp)
theorem exPicHeap_mat : IsMat exPicHeap 0 exPicMat :=
  ⟨by simp [exPicHeap, Heap.ofLists], fun i j => by fin_cases i <;> fin_cases j <;> simp [exPicHeap, exPicMat, Heap.ofLists]⟩
theorem exPic_good : Good exPic := rfl

example : ∃ i', Mat.get_as_image 0 exPicHeap = .ok (some i', exPicHeap) ∧ i'.px[2]? = some [255] ∧ i'.px[3]? = some [63] := by
  obtain ⟨i', e, g⟩ := (C139_get_image_partial exPicHeap_mat (by norm_num) (by norm_num) (by norm_num) (by norm_num) (fun i j => unit_byte (by
    fin_cases i <;> fin_cases j <;> simp [exPicMat] <;> norm_num))).2
  refine ⟨i', e, ?_, ?_⟩
  · have := g.2.2.2.2 1 0
    simpa [exPicMat] using this
  · have := g.2.2.2.2 1 1
    have q : ⌊((4 : ℝ)⁻¹ * 255)⌋₊ = 63 := by rw [Nat.floor_eq_iff (by norm_num)]; norm_num
    simp only [exPicMat] at this
    simp at this
    rw [this, q]

example : Runs (do Mat.set_from_image true 0 (some exPic) 1; Mat.get_as_image 0) exPicHeap fun r _ => r = some exPic :=
  C139_image_round_trip exPicHeap_wf exPic_good rfl (by simp [exPic]) (by simp [exPic]) (by simp [exPic]) (by simp [exPic]) (by simp [exPic]) 1 (by norm_num)
    (by norm_num) true

example : SetsMat (Mat.set_from_image false 0 (some exPic) 0) exPicHeap 0
    (Matrix.of fun (y : Fin 1) (x : Fin 2) => if x = 0 then (7 : ℝ) / 255 else 1) := by
  refine (C139_set_from_image (o := 0) exPicHeap_wf exPic_good 0 false).mono fun _ h1 ⟨w1, k1, m1⟩ => ⟨w1, k1, ?_⟩
  refine cast (congrArg (IsMat h1 0) ?_) m1
  funext y x
  fin_cases y
  change Fin 2 at x
  show colorAt exPic x 0 0 = if x = 0 then (7 : ℝ) / 255 else 1
  fin_cases x <;> simp [colorAt, exPic, Img.decode, Img.part]

/-- A matrix with an entry 2 cannot be made an image. -/
example : Mat.get_as_image 0 (Heap.ofLists 0 [] [(1, 1, [(2 : ℝ)])]) = .ub :=
  (C139_range_fails (A := fun (_ : Fin 1) (_ : Fin 1) => (2 : ℝ)) ⟨by simp [Heap.ofLists], fun i j => by fin_cases i; fin_cases j; simp [Heap.ofLists]⟩
    0 0 (.inr (by norm_num)) Img.empty).2

end Verif
