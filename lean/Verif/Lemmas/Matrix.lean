import Verif.Lemmas.Grid
import Verif.Model.Matrix
import Verif.Spec.Matrix

/-! # Matrices as cells: loops and composition -/

namespace Verif
open Spec
open SortArray (tab upd tab_get tab_length tab_set tab_of_list)
variable {R : Type} {m n : Nat}

/-! ## `Keeps` -/

theorem Spec.Keeps.refl (h : Heap R) (S : Loc → Prop) : Keeps h h S := ⟨Nat.le_refl _, fun _ _ _ => ⟨rfl, rfl⟩⟩

theorem Spec.Keeps.live {h h' : Heap R} {S : Loc → Prop} (k : Keeps h h' S) {l : Loc} (hl : h.live l) : h'.live l :=
  Nat.lt_of_lt_of_le hl k.1

theorem Spec.Keeps.mono {h h' : Heap R} {S T : Loc → Prop} (k : Keeps h h' S) (st : ∀ l, h.live l → S l → T l) : Keeps h h' T :=
  ⟨k.1, fun l hl ht => k.2 l hl fun hs => ht (st l hl hs)⟩

theorem Spec.Keeps.trans {h h' h'' : Heap R} {S : Loc → Prop} (k : Keeps h h' S) (k' : Keeps h' h'' S) : Keeps h h'' S :=
  ⟨Nat.le_trans k.1 k'.1, fun l hl ht => by
    rw [(k'.2 l (k.live hl) ht).1, (k'.2 l (k.live hl) ht).2]; exact k.2 l hl ht⟩

/-- A step that changes only objects created after `h`. -/
theorem Spec.Keeps.trans_new {h h' h'' : Heap R} {S T : Loc → Prop} (k : Keeps h h' S) (k' : Keeps h' h'' T)
    (ht : ∀ l, T l → h.live l → S l) : Keeps h h'' S :=
  ⟨Nat.le_trans k.1 k'.1, fun l hl hs => by
    have := k'.2 l (k.live hl) (fun hT => hs (ht l hT hl))
    rw [this.1, this.2]; exact k.2 l hl hs⟩

theorem Created.keeps {h h' : Heap R} {o : Loc} {s : Size} {d : List R} (c : Created h h' o s d) (S : Loc → Prop) :
    Keeps h h' S :=
  ⟨by rw [c.next]; omega, fun l hl _ => ⟨c.bufFrame l (live_ne_fresh hl c.fresh), c.sizeFrame l (live_ne_fresh hl c.fresh)⟩⟩

theorem Updated.keeps {h h' : Heap R} {o : Loc} {s : Size} {d : List R} (c : Updated h h' o s d) :
    Keeps h h' (· = o) :=
  ⟨by rw [c.next], fun l _ hne => ⟨c.bufFrame l hne, c.sizeFrame l hne⟩⟩

theorem Spec.IsMat.keep {h h' : Heap R} {S : Loc → Prop} {o : Nat} {A : Matrix (Fin m) (Fin n) R} (a : IsMat h o A)
    (k : Keeps h h' S) (hl : h.live (.m o)) (hs : ¬ S (.m o)) : IsMat h' o A := by
  obtain ⟨h1, h2⟩ := k.2 _ hl hs
  unfold IsMat; rw [h1, h2]; exact a

theorem Spec.IsVec.keep {h h' : Heap R} {S : Loc → Prop} {o : Nat} {v : Fin n → R} (a : IsVec h o v)
    (k : Keeps h h' S) (hl : h.live (.v o)) (hs : ¬ S (.v o)) : IsVec h' o v := by
  obtain ⟨h1, h2⟩ := k.2 _ hl hs
  unfold IsVec; rw [h1, h2]; exact a

/-! ## Cells -/

/-- Object `l` has `c` columns and `r` rows holding the cells `F`. -/
def Cells (h : Heap R) (l : Loc) (c r : Nat) (F : Nat → Nat → R) : Prop :=
  h.size l = ⟨c, r, 1⟩ ∧ h.buf l = tab (c * r) (flat c F)

/-- Vector `l` holds `f 0, ..., f (n-1)`. -/
def VCells (h : Heap R) (l : Loc) (n : Nat) (f : Nat → R) : Prop :=
  h.size l = ⟨n, 1, 1⟩ ∧ h.buf l = tab n f

theorem Spec.IsMat.cells {h : Heap R} (w : h.WF) {o : Nat} {A : Matrix (Fin m) (Fin n) R} (a : IsMat h o A) :
    ∃ F : Nat → Nat → R, (∀ i j, A i j = F i j) ∧ Cells h (.m o) n m F := by
  refine ⟨fun i j => ((h.buf (.m o))[i * n + j]?).getD (h.junk 0 0), fun i j => by simp [a.2 i j], a.1, ?_⟩
  apply exists_cells
  rw [w.len, a.1]; simp [Size.count]

theorem Cells.isMat {h : Heap R} {o : Nat} {F : Nat → Nat → R} (c : Cells h (.m o) n m F)
    {A : Matrix (Fin m) (Fin n) R} (e : ∀ i j, A i j = F i j) : IsMat h o A :=
  ⟨c.1, fun i j => by rw [c.2, tab_flat_get F i.2 j.2, e]⟩

theorem Spec.IsVec.cells {h : Heap R} (w : h.WF) {o : Nat} {v : Fin n → R} (a : IsVec h o v) :
    ∃ f : Nat → R, (∀ i, v i = f i) ∧ VCells h (.v o) n f := by
  refine ⟨fun i => ((h.buf (.v o))[i]?).getD (h.junk 0 0), fun i => by simp [a.2 i], a.1, ?_⟩
  have hl : (h.buf (.v o)).length = n := by rw [w.len, a.1]; simp [Size.count]
  have := tab_of_list (h.buf (.v o)) (h.junk 0 0)
  rwa [hl] at this

theorem VCells.isVec {h : Heap R} {o : Nat} {f : Nat → R} (c : VCells h (.v o) n f)
    {v : Fin n → R} (e : ∀ i, v i = f i) : IsVec h o v :=
  ⟨c.1, fun i => by rw [c.2, tab_get _ _ _ i.2, e]⟩

/-- Two descriptions of the same object agree. -/
theorem Spec.IsMat.eq {h : Heap R} {o : Nat} {A B : Matrix (Fin m) (Fin n) R} (a : IsMat h o A) (b : IsMat h o B) :
    A = B := by
  funext i j
  have := a.2 i j; rw [b.2 i j] at this; exact (Option.some.inj this).symm

theorem Cells.get {h : Heap R} {l : Loc} {c r : Nat} {F : Nat → Nat → R} (a : Cells h l c r F) {i j : Nat} (hi : i < r)
    (hj : j < c) : (h.buf l)[i * c + j]? = some (F i j) := by rw [a.2, tab_flat_get F hi hj]
theorem VCells.get {h : Heap R} {l : Loc} {n : Nat} {f : Nat → R} (a : VCells h l n f) {i : Nat} (hi : i < n) :
    (h.buf l)[i]? = some (f i) := by rw [a.2, tab_get _ _ _ hi]

theorem replicate_eq_tab (c r : Nat) (v : R) : List.replicate (c * r) v = tab (c * r) (flat c fun _ _ => v) := by
  apply List.ext_getElem?
  intro i
  by_cases hi : i < c * r
  · rw [tab_get _ _ _ hi]; simp [hi, flat]
  · rw [List.getElem?_eq_none (by simp; omega), List.getElem?_eq_none (by simp; omega)]

theorem replicate_eq_vtab (n : Nat) (v : R) : List.replicate n v = tab n fun _ => v := by
  simp [tab, List.map_const']

theorem count_mat (c r : Nat) : (Size.mk c r 1).count = c * r := by simp [Size.count]
theorem count_vec (n : Nat) : (Size.mk n 1 1).count = n := by simp [Size.count]

/-! ## Results of creating and updating calls -/

theorem created_returnsMat {c : M R Ref} {h h' : Heap R} (w : h.WF) {F : Nat → Nat → R} {o : Nat}
    (e : c h = .ok (some (.m o), h')) (cr : Created h h' (.m o) ⟨n, m, 1⟩ (tab (n * m) (flat n F)))
    {A : Matrix (Fin m) (Fin n) R} (ea : ∀ i j, A i j = F i j) : ReturnsMat c h A := by
  have hf : o = h.next := cr.fresh
  refine Runs.of_eq e ⟨o, rfl, ?_, ?_, cr.wf w (by simp [Size.count]) nofun (fun _ _ => rfl), cr.keeps _, ?_⟩
  · subst hf; exact Nat.lt_irrefl _
  · subst hf; exact Nat.lt_of_lt_of_eq (Nat.lt_succ_self _) cr.next.symm
  · exact Cells.isMat ⟨cr.size, cr.buf⟩ ea

theorem created_returnsVec {c : M R Ref} {h h' : Heap R} (w : h.WF) {f : Nat → R} {o : Nat}
    (e : c h = .ok (some (.v o), h')) (cr : Created h h' (.v o) ⟨n, 1, 1⟩ (tab n f))
    {v : Fin n → R} (ea : ∀ i, v i = f i) : ReturnsVec c h v := by
  have hf : o = h.next := cr.fresh
  refine Runs.of_eq e ⟨o, rfl, ?_, ?_, cr.wf w (by simp [Size.count]) (fun _ _ => ⟨rfl, rfl⟩) nofun, cr.keeps _, ?_⟩
  · subst hf; exact Nat.lt_irrefl _
  · subst hf; exact Nat.lt_of_lt_of_eq (Nat.lt_succ_self _) cr.next.symm
  · exact VCells.isVec ⟨cr.size, cr.buf⟩ ea

theorem updated_setsMat {c : M R Unit} {h h' : Heap R} (w : h.WF) {F : Nat → Nat → R} {o : Nat}
    (e : c h = .ok ((), h')) (u : Updated h h' (.m o) ⟨n, m, 1⟩ (tab (n * m) (flat n F)))
    {A : Matrix (Fin m) (Fin n) R} (ea : ∀ i j, A i j = F i j) : SetsMat c h o A :=
  Runs.of_eq e ⟨u.wf w (by simp [Size.count]) nofun (fun _ _ => rfl), u.keeps, Cells.isMat ⟨u.size, u.buf⟩ ea⟩

theorem updated_setsVec {c : M R Unit} {h h' : Heap R} (w : h.WF) {f : Nat → R} {o : Nat}
    (e : c h = .ok ((), h')) (u : Updated h h' (.v o) ⟨n, 1, 1⟩ (tab n f))
    {v : Fin n → R} (ea : ∀ i, v i = f i) : SetsVec c h o v :=
  Runs.of_eq e ⟨u.wf w (by simp [Size.count]) (fun _ _ => ⟨rfl, rfl⟩) nofun, u.keeps, VCells.isVec ⟨u.size, u.buf⟩ ea⟩

/-! ## Composition -/

section
variable {α β : Type} {h : Heap R} {p q : Nat} {A : Matrix (Fin m) (Fin n) R} {B : Matrix (Fin p) (Fin q) R}
  {v : Fin n → R} {c : M R Ref}

theorem Spec.ReturnsMat.bind {k : Ref → M R β} {Q : β → Heap R → Prop} (r : ReturnsMat c h A)
    (s : ∀ o h', h'.WF → Keeps h h' (fun _ => False) → ¬ h.live (.m o) → h'.live (.m o) → IsMat h' o A →
      Runs (k (some (.m o))) h' Q) : Runs (c >>= k) h Q := by
  refine Runs.bind (Runs.mono r ?_)
  rintro _ h' ⟨o, rfl, h1, h2, h3, h4, h5⟩
  exact s o h' h3 h4 h1 h2 h5

theorem Spec.ReturnsVec.bind {k : Ref → M R β} {Q : β → Heap R → Prop} (r : ReturnsVec c h v)
    (s : ∀ o h', h'.WF → Keeps h h' (fun _ => False) → ¬ h.live (.v o) → h'.live (.v o) → IsVec h' o v →
      Runs (k (some (.v o))) h' Q) : Runs (c >>= k) h Q := by
  refine Runs.bind (Runs.mono r ?_)
  rintro _ h' ⟨o, rfl, h1, h2, h3, h4, h5⟩
  exact s o h' h3 h4 h1 h2 h5

theorem Spec.ReturnsVal.bind {c : M R α} {x : α} {k : α → M R β} {Q : β → Heap R → Prop} (r : ReturnsVal c h x)
    (s : ∀ h', h'.WF → Keeps h h' (fun _ => False) → Runs (k x) h' Q) : Runs (c >>= k) h Q := by
  refine Runs.bind (Runs.mono r ?_)
  rintro _ h' ⟨rfl, h1, h2⟩
  exact s h' h1 h2

theorem Spec.Keeps.returnsMat {h0 : Heap R} {Q : Ref → Heap R → Prop} (k : Keeps h0 h (fun _ => False)) (r : ReturnsMat c h A)
    (hq : ∀ o h', ¬ h0.live (.m o) → h'.live (.m o) → h'.WF → Keeps h0 h' (fun _ => False) → IsMat h' o A →
      Q (some (.m o)) h') : Runs c h Q := by
  refine Runs.mono r ?_
  rintro _ h' ⟨o, rfl, h1, h2, h3, h4, h5⟩
  exact hq o h' (fun hl => h1 (k.live hl)) h2 h3 (k.trans h4) h5

theorem Spec.Keeps.returnsVec {h0 : Heap R} {Q : Ref → Heap R → Prop} (k : Keeps h0 h (fun _ => False)) (r : ReturnsVec c h v)
    (hq : ∀ o h', ¬ h0.live (.v o) → h'.live (.v o) → h'.WF → Keeps h0 h' (fun _ => False) → IsVec h' o v →
      Q (some (.v o)) h') : Runs c h Q := by
  refine Runs.mono r ?_
  rintro _ h' ⟨o, rfl, h1, h2, h3, h4, h5⟩
  exact hq o h' (fun hl => h1 (k.live hl)) h2 h3 (k.trans h4) h5
end

@[simp] theorem derefM_run (o : Nat) (h : Heap R) : derefM (some (.m o)) h = .ok (o, h) := rfl
@[simp] theorem derefV_run (o : Nat) (h : Heap R) : derefV (some (.v o)) h = .ok (o, h) := rfl

namespace Mat

theorem size_run (o : Nat) (h : Heap R) : size o h = .ok (h.size (.m o), h) := rfl

theorem element_get_run [Zero R] {h : Heap R} {o c r : Nat} {F : Nat → Nat → R} (a : Cells h (.m o) c r F) {i j : Nat}
    (hi : i < r) (hj : j < c) : element_get o i j h = .ok (F i j, h) := by
  unfold element_get
  rw [bind_ok (size_run o h), a.1]
  have h1 : idxOk (j : Int) c = true := by simp [idxOk]; omega
  have h2 : idxOk (i : Int) r = true := by simp [idxOk]; omega
  simp only [h1, h2, if_true]
  rw [show ((i : Int) * (c : Int) + (j : Int)).toNat = i * c + j by
    rw [← Int.natCast_mul, ← Int.natCast_add, Int.toNat_natCast]]
  exact load_ok (a.get hi hj)

theorem element_set_run {h : Heap R} {o c r : Nat} (F : Nat → Nat → R) (hs : h.size (.m o) = ⟨c, r, 1⟩) {i j : Nat}
    (hi : i < r) (hj : j < c) (v : R) : element_set o i j v (Gr h (.m o) c r F) =
      .ok ((), Gr h (.m o) c r (upd2 F i j v)) := by
  unfold element_set
  rw [bind_ok (size_run o _), Gr_size, hs]
  have h1 : idxOk (j : Int) c = true := by simp [idxOk]; omega
  have h2 : idxOk (i : Int) r = true := by simp [idxOk]; omega
  simp only [h1, h2, if_true]
  rw [show ((i : Int) * (c : Int) + (j : Int)).toNat = i * c + j by
    rw [← Int.natCast_mul, ← Int.natCast_add, Int.toNat_natCast]]
  exact store_Gr v hi hj

end Mat

theorem Gr_cells (h : Heap R) (o c r : Nat) (F : Nat → Nat → R) (hs : h.size (.m o) = ⟨c, r, 1⟩) :
    Cells (Gr h (.m o) c r F) (.m o) c r F := ⟨hs, by simp⟩

theorem Cells.Gr {h : Heap R} {l l' : Loc} {c r c' r' : Nat} {F G : Nat → Nat → R} (a : Cells h l c r F) (hne : l ≠ l') :
    Cells (Gr h l' c' r' G) l c r F := ⟨a.1, by rw [Gr_buf_ne _ hne, a.2]⟩
theorem VCells.Gr {h : Heap R} {l l' : Loc} {c' r' n : Nat} {f : Nat → R} {G : Nat → Nat → R} (a : VCells h l n f)
    (hne : l ≠ l') : VCells (Gr h l' c' r' G) l n f := ⟨a.1, by rw [Gr_buf_ne _ hne, a.2]⟩

/-! ## The loops -/

section loops
variable {h : Heap R} {a b c : Loc} {F G : Nat → Nat → R}

theorem foldl_pointwise {ι : Type} (l : List ι) (f : ι → Nat → Nat → R → R) (K : Nat → Nat → R) (x y : Nat) :
    (l.foldl (fun K k => fun a b => f k a b (K a b)) K) x y = l.foldl (fun acc k => f k x y acc) (K x y) := by
  induction l generalizing K with
  | nil => rfl
  | cons k l ih => rw [List.foldl_cons, ih]; rfl

/-- `c += a * b`, cell by cell. -/
theorem multLoop_run [Add R] [Mul R] {rows mid cols : Nat} (ha : Cells h a mid rows F) (hb : Cells h b cols mid G)
    (hac : a ≠ c) (hbc : b ≠ c) (K : Nat → Nat → R) :
    Mat.multLoop a b c rows mid cols mid cols cols (Gr h c cols rows K) =
      .ok ((), Gr h c cols rows fun i j => (List.range mid).foldl (fun acc k => acc + F i k * G k j) (K i j)) := by
  unfold Mat.multLoop
  have inner : ∀ i, i < rows → ∀ k, k < mid → ∀ K, forN cols (fun j => do
        let z ← load c (i * cols + j)
        let x ← load a (i * mid + k)
        let y ← load b (k * cols + j)
        store c (i * cols + j) (z + x * y)) (Gr h c cols rows K) =
      .ok ((), Gr h c cols rows fun x y => if x = i ∧ y < cols then K x y + F i k * G k y else K x y) := by
    intro i hi k hk K
    refine forN_cols (Gr h c cols rows) cols i _ (fun j z => z + F i k * G k j) K ?_
    intro j K hj
    rw [bind_ok (load_Gr hi hj), bind_ok (load_Gr_ne hac (ha.get hi hk)), bind_ok (load_Gr_ne hbc (hb.get hk hj)),
      store_Gr _ hi hj]
  have row : ∀ i, i < rows → ∀ K, forN mid (fun k => forN cols (fun j => do
        let z ← load c (i * cols + j)
        let x ← load a (i * mid + k)
        let y ← load b (k * cols + j)
        store c (i * cols + j) (z + x * y))) (Gr h c cols rows K) =
      .ok ((), Gr h c cols rows fun x y => if x = i ∧ y < cols then
        (List.range mid).foldl (fun acc k => acc + F i k * G k y) (K x y) else K x y) := by
    intro i hi K
    rw [forN_step (Gr h c cols rows) mid _ (fun k K => fun x y => if x = i ∧ y < cols then K x y + F i k * G k y else K x y) K
      (fun k K hk => inner i hi k hk K)]
    congr 3
    funext x y
    rw [foldl_pointwise (List.range mid) (fun k x y z => if x = i ∧ y < cols then z + F i k * G k y else z)]
    by_cases e : x = i ∧ y < cols
    · simp [e]
    · simp [e]
  rw [forN_eq rows (fun k => Gr h c cols rows fun x y => if x < k ∧ y < cols then
        (List.range mid).foldl (fun acc k => acc + F x k * G k y) (K x y) else K x y) _ _ (by simp) ?_]
  · congr 2
    apply Gr_congr
    intro i j hi hj
    simp [hi, hj]
  · intro i hi
    rw [row i hi]
    congr 3
    funext x y
    grind

theorem transLoop_run {rows cols : Nat} (ha : Cells h a cols rows F) (hac : a ≠ c) (K : Nat → Nat → R) :
    Mat.transLoop a c rows cols cols rows (Gr h c rows cols K) =
      .ok ((), Gr h c rows cols fun i j => F j i) := by
  unfold Mat.transLoop
  rw [forN_cellsT (Gr h c rows cols) rows cols _ (fun i j _ => F i j) K ?_]
  · congr 2
    apply Gr_congr
    intro i j hi hj
    simp [hi, hj]
  · intro i j K hi hj
    rw [bind_ok (load_Gr_ne hac (ha.get hi hj)), store_Gr _ hj hi]

/-- `out[i][j] = a[i][j] + b[j]`; `out` may be `a`. -/
theorem addVecLoop_run [Add R] {rows cols : Nat} {g : Nat → R} (ha : Cells h a cols rows F)
    (hb : VCells h b cols g) (hbc : b ≠ c) (hc : (h.buf c).length = cols * rows) :
    Mat.addVecLoop a b c rows cols h = .ok ((), Gr h c cols rows fun i j => F i j + g j) := by
  unfold Mat.addVecLoop
  by_cases hac : a = c
  · subst hac
    have e0 : h = Gr h a cols rows F := by unfold Gr; rw [← ha.2, setBuf_self]
    conv => lhs; rw [e0]
    rw [forN_cells (Gr h a cols rows) rows cols _ (fun i j z => z + g j) F ?_]
    · congr 2
      apply Gr_congr
      intro i j hi hj
      simp [hi, hj]
    · intro i j K hi hj
      rw [bind_ok (load_Gr hi hj), bind_ok (load_Gr_ne hbc (hb.get hj)), store_Gr _ hi hj]
  · have e0 := self_Gr (h := h) (l := c) (c := cols) (r := rows) hc
    conv => lhs; rw [e0]
    rw [forN_cells (Gr h c cols rows) rows cols _ (fun i j _ => F i j + g j) _ ?_]
    · congr 2
      apply Gr_congr
      intro i j hi hj
      simp [hi, hj]
    · intro i j K hi hj
      rw [bind_ok (load_Gr_ne hac (ha.get hi hj)), bind_ok (load_Gr_ne hbc (hb.get hj)), store_Gr _ hi hj]

theorem outerLoop_run [Mul R] {rows cols o : Nat} {f g : Nat → R} (ha : VCells h a rows f) (hb : VCells h b cols g)
    (hac : a ≠ .m o) (hbc : b ≠ .m o) (hs : h.size (.m o) = ⟨cols, rows, 1⟩) (K : Nat → Nat → R) :
    Mat.outerLoop o a b rows cols (Gr h (.m o) cols rows K) =
      .ok ((), Gr h (.m o) cols rows fun i j => f i * g j) := by
  unfold Mat.outerLoop
  rw [forN_eq rows (fun k => Gr h (.m o) cols rows fun i j => if i < k ∧ j < cols then f i * g j else K i j) _ _
    (by simp) ?_]
  · congr 2
    apply Gr_congr
    intro i j hi hj
    simp [hi, hj]
  · intro i hi
    rw [bind_ok (load_Gr_ne hac (ha.get hi))]
    rw [forN_cols (Gr h (.m o) cols rows) cols i _ (fun j _ => f i * g j) _ ?_]
    · congr 3
      funext x y
      grind
    · intro j K hj
      rw [bind_ok (load_Gr_ne hbc (hb.get hj)), Mat.element_set_run _ hs hi hj]

/-- The diagonal loops. -/
theorem diagLoop_run {rows cols ms k : Nat} {f : Nat → R} (ha : VCells h a k f) (hac : a ≠ c) (h1 : ms ≤ k)
    (h2 : ms ≤ rows) (h3 : ms ≤ cols) (K : Nat → Nat → R) :
    Mat.diagLoop c a ms cols (Gr h c cols rows K) =
      .ok ((), Gr h c cols rows fun i j => if i = j ∧ i < ms then f i else K i j) := by
  unfold Mat.diagLoop
  rw [forN_eq ms (fun k => Gr h c cols rows fun i j => if i = j ∧ i < k then f i else K i j) _ _ (by simp) ?_]
  intro i hi
  rw [bind_ok (load_Gr_ne hac (ha.get (by omega))), store_Gr _ (by omega) (by omega)]
  congr 3
  funext x y
  simp only [upd2]
  grind

theorem diagOnes_run [One R] {rows cols ms : Nat} (h2 : ms ≤ rows) (h3 : ms ≤ cols) (K : Nat → Nat → R) :
    Mat.diagOnes c ms cols (Gr h c cols rows K) =
      .ok ((), Gr h c cols rows fun i j => if i = j ∧ i < ms then 1 else K i j) := by
  unfold Mat.diagOnes
  rw [forN_eq ms (fun k => Gr h c cols rows fun i j => if i = j ∧ i < k then 1 else K i j) _ _ (by simp) ?_]
  intro i hi
  rw [store_Gr _ (by omega) (by omega)]
  congr 3
  funext x y
  simp only [upd2]
  grind

/-- `c[i] += a[i][k] * b[k]` for the first `bn` columns. -/
theorem multVecLoop_run [Add R] [Mul R] {rows ca bn : Nat} {g : Nat → R} (ha : Cells h a ca rows F) (hb : VCells h b bn g)
    (hn : bn ≤ ca) (hac : a ≠ c) (hbc : b ≠ c) (K : Nat → R) :
    Mat.multVecLoop a b c rows bn ca (SortArray.St h c rows K) =
      .ok ((), SortArray.St h c rows fun i => (List.range bn).foldl (fun acc k => acc + F i k * g k) (K i)) := by
  unfold Mat.multVecLoop
  rw [forN_eq rows (fun t => SortArray.St h c rows fun i => if i < t then
      (List.range bn).foldl (fun acc k => acc + F i k * g k) (K i) else K i) _ _ (by simp) ?_]
  · congr 2
    unfold SortArray.St
    congr 1
    unfold tab
    apply List.map_congr_left
    intro i hi
    have : i < rows := by simpa using hi
    simp [this]
  · intro i hi
    rw [forN_eq bn (fun t => SortArray.St h c rows fun x => if x < i then
        (List.range bn).foldl (fun acc k => acc + F x k * g k) (K x) else if x = i then
        (List.range t).foldl (fun acc k => acc + F x k * g k) (K x) else K x) _ _ (by
          congr 1; funext x; grind) ?_]
    · congr 3
      funext x
      grind
    · intro k hk
      have hl : (i * ca + k : Nat) < ca * rows := idx_lt hi (by omega)
      rw [bind_ok (SortArray.load_St hi)]
      unfold SortArray.St
      rw [bind_ok (load_ne (h := h) (l := c) hac (ha.get hi (by omega)))]
      rw [bind_ok (load_ne (h := h) (l := c) hbc (hb.get hk))]
      refine (SortArray.store_St _ hi).trans ?_
      unfold SortArray.St
      congr 4
      funext x
      rw [List.range_succ, List.foldl_append]
      simp only [upd]
      grind
end loops

end Verif
