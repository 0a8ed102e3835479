import Verif.Model.StdVec
import Verif.Props.TensorMore
import Verif.Props.MatrixAlgebra
import Verif.Lemmas.RowApi
import Verif.Lemmas.Pool
import Verif.Lemmas.Image
import Verif.Lemmas.Kronecker
import Verif.Lemmas.Example
import Verif.Lemmas.ExampleTen

/-! # C142: conversions from and to `std::vector`, arrays of vectors and raw memory -/

namespace Verif
open Spec
variable {R : Type} {m n d r c : Nat}

theorem idx_bound' (i : Fin m) (j : Fin n) : i.val * n + j.val < m * n := by
  have h1 := Nat.mul_le_mul_right n i.2
  have h2 := j.2
  rw [Nat.succ_mul] at h1
  omega

/-! ## Vectors -/

/-- **C142** (`MLPPVector::set_from_std_vector`): the vector gets the elements of the list, in order; no other object changes. -/
theorem C142_vec_set (h : Heap R) (w : h.WF) (o : Nat) (l : List R) :
    SetsVec (Vec.set_from_std_vector o l) h o (fun i : Fin l.length => l[i]) := by
  unfold SetsVec Vec.set_from_std_vector
  refine Runs.resizeV w ⟨rfl, rfl⟩ fun h1 w1 k1 n1 s1 _ => ?_
  have hl : (h1.buf (.v o)).length = l.length := by rw [w1.len, s1, count_vec]
  have u := updated_setBuf h1 (.v o) l
  refine Runs.of_eq (storeList_run (.v o) l h1 hl) ⟨u.wf w1 (by rw [s1, count_vec]) (fun _ _ => by rw [s1]; exact ⟨rfl, rfl⟩) nofun, k1.trans u.keeps, s1, fun i => ?_⟩
  rw [setBuf_buf_same]
  simp

/-- **C142** (`MLPPVector::to_std_vector`): the list holds the elements of the vector, in order; nothing changes. -/
theorem C142_vec_get_partial (h : Heap R) (w : h.WF) (o : Nat) (v : Fin n → R) (hv : IsVec h o v) (hn : 0 < n) :
    Vec.to_std_vector o h = .ok (List.ofFn v, h) := by
  have hl : (h.buf (.v o)).length = n := by rw [w.len, hv.1, count_vec]
  have e : Vec.size o h = .ok (n, h) := by rw [Vec.size_run w o]; exact congrArg Out.ok (congrArg (·, h) hl)
  unfold Vec.to_std_vector
  rw [bind_ok e, if_neg hn.ne', readAll_run _ _ _ hl]
  exact congrArg Out.ok (congrArg (·, h) (hv.vec_eq w))

/-- **C142** fails for an empty vector: `to_std_vector` takes the address of the first element of an empty list. -/
theorem C142_vec_get_empty_fails (h : Heap R) (w : h.WF) (o : Nat) (v : Fin 0 → R) (hv : IsVec h o v) : Vec.to_std_vector o h = .ub := by
  have hl : (h.buf (.v o)).length = 0 := by rw [w.len, hv.1, count_vec]
  have e : Vec.size o h = .ok (0, h) := by rw [Vec.size_run w o]; exact congrArg Out.ok (congrArg (·, h) hl)
  unfold Vec.to_std_vector
  rw [bind_ok e, if_pos rfl]
  rfl

/-- **C142**: a list put into a vector comes back unchanged. -/
theorem C142_vec_round_trip_partial (h : Heap R) (w : h.WF) (o : Nat) (l : List R) (hl : l ≠ []) :
    Runs (do Vec.set_from_std_vector o l; Vec.to_std_vector o) h fun q h' => q = l ∧ h'.WF ∧ Keeps h h' (· = .v o) := by
  refine (C142_vec_set h w o l).andThen fun _ h1 ⟨w1, k1, v1⟩ => ?_
  refine Runs.of_eq (C142_vec_get_partial h1 w1 o _ v1 (List.length_pos_iff.mpr hl)) ⟨?_, w1, k1⟩
  exact List.ofFn_getElem

/-! ## Matrices -/

/-- The rows of a matrix, one after another. -/
def rowsOf (A : Matrix (Fin m) (Fin n) R) : List (List R) := List.ofFn fun i => List.ofFn (A i)

theorem rowsOf_flat (A : Matrix (Fin m) (Fin n) R) (hn : 0 < n) :
    (rowsOf A).flatten = List.ofFn fun t : Fin (m * n) => A t.divNat t.modNat := by
  rw [List.ofFn_mul]
  refine congrArg List.flatten (congrArg List.ofFn (funext fun i => congrArg List.ofFn (funext fun j => ?_)))
  have e1 : (i.val * n + j.val) / n = i.val := by rw [mul_comm, Nat.mul_add_div hn, Nat.div_eq_of_lt j.2, add_zero]
  have e2 : (i.val * n + j.val) % n = j.val := by rw [mul_comm, Nat.mul_add_mod, Nat.mod_eq_of_lt j.2]
  exact congrArg₂ A (Fin.ext e1.symm) (Fin.ext e2.symm)

theorem rowsOf_get (A : Matrix (Fin m) (Fin n) R) (i : Fin m) (j : Fin n) : (rowsOf A).flatten[i.val * n + j.val]? = some (A i j) := by
  have hn : 0 < n := by have := j.2; omega
  rw [rowsOf_flat A hn]
  have e1 : (i.val * n + j.val) / n = i.val := by rw [mul_comm, Nat.mul_add_div hn, Nat.div_eq_of_lt j.2, add_zero]
  have e2 : (i.val * n + j.val) % n = j.val := by rw [mul_comm, Nat.mul_add_mod, Nat.mod_eq_of_lt j.2]
  rw [List.getElem?_ofFn, dif_pos (idx_bound' i j)]
  exact congrArg some (congrArg₂ A (Fin.ext e1) (Fin.ext e2))

theorem rowsOf_buf {h : Heap R} (w : h.WF) {o : Nat} {A : Matrix (Fin m) (Fin n) R} (a : IsMat h o A) : h.buf (.m o) = (rowsOf A).flatten := by
  have hl : (h.buf (.m o)).length = m * n := by rw [w.len, a.1, count_mat, mul_comm]
  refine List.ext_getElem? fun t => ?_
  have hf : (rowsOf A).flatten.length = m * n := by simp [rowsOf, List.length_flatten, Function.comp_def]
  by_cases ht : t < m * n
  · have hn : 0 < n := Nat.pos_of_ne_zero fun e => by subst e; simp at ht
    have h1 : t / n < m := Nat.div_lt_of_lt_mul (by rw [mul_comm]; exact ht)
    have e : t = t / n * n + t % n := (Nat.div_add_mod' t n).symm
    rw [e]
    exact (a.2 ⟨_, h1⟩ ⟨_, Nat.mod_lt _ hn⟩).trans (rowsOf_get A ⟨_, h1⟩ ⟨_, Nat.mod_lt _ hn⟩).symm
  · rw [List.getElem?_eq_none (by omega), List.getElem?_eq_none (by omega)]

theorem rowsOf_rep {h : Heap R} (w : h.WF) {o : Nat} {A : Matrix (Fin m) (Fin n) R} (a : IsMat h o A) (hn : 0 < n) : MRep h o ⟨n, rowsOf A⟩ := by
  refine ⟨by rw [a.1]; simp [rowsOf], rowsOf_buf w a, ⟨fun q hq => ?_, fun e => absurd e hn.ne'⟩⟩
  obtain ⟨i, rfl⟩ := (List.mem_ofFn' _ _).1 hq
  simp

theorem MUpd.setsMat {h h' : Heap R} (w : h.WF) {o : Nat} {A : Matrix (Fin m) (Fin n) R} (u : MUpd h h' o ⟨n, rowsOf A⟩) :
    h'.WF ∧ Keeps h h' (· = .m o) ∧ IsMat h' o A := by
  have hs : h'.size (.m o) = ⟨n, m, 1⟩ := by rw [u.upd.size]; simp [rowsOf]
  refine ⟨u.upd.wf w ?_ nofun (fun _ _ => rfl), u.upd.keeps, hs, fun i j => ?_⟩
  · simp [rowsOf, List.length_flatten, Function.comp_def, count_mat, mul_comm]
  · rw [u.upd.buf]; exact rowsOf_get A i j

/-- **C142** (`MLPPMatrix::to_std_vector`): list `i` of the result is row `i` of the matrix; nothing changes. -/
theorem C142_mat_get (h : Heap R) (o : Nat) (A : Matrix (Fin m) (Fin n) R) (hA : IsMat h o A) :
    Mat.to_std_vector o h = .ok (List.ofFn fun i => List.ofFn (A i), h) := by
  unfold Mat.to_std_vector
  rw [bind_ok (Mat.size_run o h), hA.1]
  dsimp only
  rw [foldN_read m (fun i => (List.ofFn fun i => List.ofFn (A i)).take i) _ [] h (by simp)]
  · rw [List.take_of_length_le (by simp)]
  · intro i hi
    have row : foldN n [] (fun j row => do let v ← load (.m o) (i * n + j); pure (row ++ [v])) h = .ok (List.ofFn (A ⟨i, hi⟩), h) := by
      rw [foldN_read n (fun j => (List.ofFn (A ⟨i, hi⟩)).take j) _ [] h (by simp)]
      · rw [List.take_of_length_le (by simp)]
      · intro j hj
        rw [bind_ok (load_ok (hA.2 ⟨i, hi⟩ ⟨j, hj⟩))]
        refine congrArg Out.ok (congrArg (·, h) ?_)
        rw [List.take_add_one]
        simp [hj]
    refine (bind_ok row).trans ?_
    refine congrArg Out.ok (congrArg (·, h) ?_)
    rw [List.take_add_one]
    simp [hi]

/-- **C142** (`MLPPMatrix::to_flat_std_vector`): the cells of the matrix, row by row; nothing changes. -/
theorem C142_mat_flat_partial (h : Heap R) (w : h.WF) (o : Nat) (A : Matrix (Fin m) (Fin n) R) (hA : IsMat h o A) (hm : 0 < m) (hn : 0 < n) :
    Mat.to_flat_std_vector o h = .ok ((List.ofFn fun i => List.ofFn (A i)).flatten, h) := by
  unfold Mat.to_flat_std_vector
  rw [bind_ok (Mat.size_run o h), hA.1, count_mat, if_neg (Nat.mul_pos hn hm).ne',
    readAll_run _ _ _ (by rw [w.len, hA.1, count_mat]), rowsOf_buf w hA]
  rfl

/-- **C142** fails for a matrix without cells: `to_flat_std_vector` takes the address of the first element of an empty list. -/
theorem C142_mat_flat_empty_fails (h : Heap R) (o : Nat) (A : Matrix (Fin m) (Fin n) R) (hA : IsMat h o A) (he : m = 0 ∨ n = 0) :
    Mat.to_flat_std_vector o h = .ub := by
  unfold Mat.to_flat_std_vector
  rw [bind_ok (Mat.size_run o h), hA.1, count_mat, if_pos (by rcases he with rfl | rfl <;> simp)]
  rfl

/-- **C142** (`MLPPMatrix::set_from_std_vectors`): lists of one nonzero length become the rows of the matrix; no other object changes. -/
theorem C142_mat_set_partial (h : Heap R) (w : h.WF) (o : Nat) (A : Matrix (Fin m) (Fin n) R) (hm : 0 < m) (hn : 0 < n) :
    SetsMat (Mat.set_from_std_vectors o (List.ofFn fun i => List.ofFn (A i))) h o A := by
  obtain ⟨k, rfl⟩ : ∃ k, m = k + 1 := ⟨m - 1, by omega⟩
  obtain ⟨h', e, u⟩ := Mat.set_from_vectors_cons (h := h) (o := o) (List.ofFn (A 0)) (List.ofFn fun i : Fin k => List.ofFn (A i.succ)) hn (by
    intro x hx
    rw [← List.ofFn_succ (f := fun i => List.ofFn (A i))] at hx
    obtain ⟨i, rfl⟩ := (List.mem_ofFn' _ _).1 hx
    simp)
  rw [← List.ofFn_succ (f := fun i => List.ofFn (A i))] at e u
  exact Runs.of_eq e (u.setsMat w)

/-- **C142** fails for lists of several lengths: the row of another length keeps what the allocation contained (here 7). -/
theorem C142_mat_ragged_fails : ((Mat.set_from_std_vectors 0 [[1, 2], [3]] : M Int Unit) (Heap.init fun _ _ => 7)).bufOf (.m 0) = some [1, 2, 7, 7] := by
  decide +kernel

/-- **C142**: rows put into a matrix come back unchanged. -/
theorem C142_mat_round_trip_partial (h : Heap R) (w : h.WF) (o : Nat) (A : Matrix (Fin m) (Fin n) R) (hm : 0 < m) (hn : 0 < n) :
    Runs (do Mat.set_from_std_vectors o (List.ofFn fun i => List.ofFn (A i)); Mat.to_std_vector o) h fun q h' =>
      q = (List.ofFn fun i => List.ofFn (A i)) ∧ h'.WF ∧ Keeps h h' (· = .m o) :=
  (C142_mat_set_partial h w o A hm hn).andThen fun _ h1 ⟨w1, k1, a1⟩ => Runs.of_eq (C142_mat_get h1 o A a1) ⟨rfl, w1, k1⟩

/-- **C142** (`MLPPMatrix::set_row_std_vector`): row `i` becomes the list; the other rows and all other objects are unchanged. -/
theorem C142_row_set (h : Heap R) (w : h.WF) (o : Nat) (A : Matrix (Fin m) (Fin n) R) (hA : IsMat h o A) (hn : 0 < n) (i : Fin m) (v : Fin n → R) :
    SetsMat (Mat.set_row_std_vector o (i : Int) (List.ofFn v)) h o (Matrix.updateRow A i v) := by
  obtain ⟨h', e, u⟩ := Mat.row_set_vector_run (rowsOf_rep w hA hn) (k := i) (by simp [rowsOf]) (List.ofFn v) (by simp)
  have er : (rowsOf A).set i (List.ofFn v) = rowsOf (Matrix.updateRow A i v) := by
    refine List.ext_getElem? fun t => ?_
    rw [List.getElem?_set]
    by_cases ht : t < m
    · by_cases hi : i.val = t
      · subst hi
        simp [rowsOf]
      · have : (⟨t, ht⟩ : Fin m) ≠ i := fun e => hi (congrArg Fin.val e).symm
        simp [rowsOf, hi, ht, this]
    · have : i.val ≠ t := by have := i.2; omega
      simp [rowsOf, ht, this]
  dsimp only at u
  rw [er] at u
  exact Runs.of_eq e (u.setsMat w)

/-- **C142** (`MLPPMatrix::set_row_std_vector`): a list of another length or an index that is not a row changes nothing. -/
theorem C142_row_set_bad (h : Heap R) (o : Nat) (A : Matrix (Fin m) (Fin n) R) (hA : IsMat h o A) (y : Int) (l : List R)
    (hb : l.length ≠ n ∨ y < 0 ∨ (m : Int) ≤ y) : Mat.set_row_std_vector o y l h = .ok ((), h) := by
  unfold Mat.set_row_std_vector Mat.row_set_vector
  rw [bind_ok (Mat.size_run o h), hA.1]
  dsimp only
  by_cases e : l.length = n
  · rw [if_pos e, if_neg (fun q => by have := idxOk_iff.1 q; simp only [Valid] at this; omega)]; rfl
  · rw [if_neg e]; rfl

/-- **C142** (`MLPPMatrix::set_from_ptr`): the matrix gets the first `rows · columns` numbers of the memory, row by row. -/
theorem C142_ptr (h : Heap R) (w : h.WF) (o : Nat) (A : Matrix (Fin m) (Fin n) R) (l : List R)
    (hl : ∀ i j, l[i.val * n + j.val]? = some (A i j)) : SetsMat (Mat.set_from_ptr o (some l) m n) h o A := by
  unfold SetsMat Mat.set_from_ptr
  refine Runs.step (show memfree (.m o) h = .ok ((), h.setBuf (.m o) []) from rfl) ?_
  obtain ⟨b, cl, e, hb, _⟩ := resizeTo_run (.m o) ⟨n, m, 1⟩ (h.setBuf (.m o) [])
  refine Runs.step e ?_
  generalize hh : ({ ((h.setBuf (.m o) []).setSize (.m o) ⟨n, m, 1⟩).setBuf (.m o) b with clock := cl } : Heap R) = h1
  have u1 : Updated h h1 (.m o) ⟨n, m, 1⟩ b := by
    subst hh
    exact ⟨by simp, by simp, fun l' hl => by simp [setBuf_buf, hl], fun l' hl => by simp [setSize_size, hl], rfl, rfl⟩
  clear hh e
  refine Runs.step (Mat.size_run o h1) ?_
  rw [u1.size]
  have hb' : b.length = n * m := by rw [hb, count_mat]
  rw [count_mat]
  have cell : ∀ t, t < n * m → ∃ (i : Fin m) (j : Fin n), t = i.val * n + j.val := by
    intro t ht
    have hn : 0 < n := Nat.pos_of_ne_zero fun e => by subst e; simp at ht
    exact ⟨⟨t / n, Nat.div_lt_of_lt_mul ht⟩, ⟨t % n, Nat.mod_lt _ hn⟩, (Nat.div_add_mod' t n).symm⟩
  have hlen : n * m ≤ l.length := by
    rcases Nat.eq_zero_or_pos (n * m) with z | z
    · omega
    · obtain ⟨i, j, e⟩ := cell (n * m - 1) (by omega)
      have := (List.getElem?_eq_some_iff.1 (hl i j)).1
      omega
  have run : forN (n * m) (fun i => match l[i]? with | some v => store (.m o) i v | none => ub) h1 =
      .ok ((), h1.setBuf (.m o) (l.take (n * m))) := by
    rw [forN_eq _ (fun i => h1.setBuf (.m o) (l.take i ++ b.drop i)) _ h1 (by rw [List.take_zero, List.drop_zero, List.nil_append, ← u1.buf, setBuf_self])]
    · rw [List.drop_of_length_le (by omega), List.append_nil]
    · intro i hi
      rw [List.getElem?_eq_getElem (by omega : i < l.length)]
      dsimp only
      rw [store_ok _ (by simp; omega)]
      refine congrArg Out.ok (congrArg (Prod.mk ()) ?_)
      rw [setBuf_buf_same, setBuf_setBuf]
      refine congrArg _ ?_
      refine List.ext_getElem? fun t => ?_
      simp only [List.getElem?_set, List.getElem?_append, List.getElem?_take, List.getElem?_drop, List.length_take, List.length_append, List.length_drop]
      grind
  have u := updated_setBuf h1 (.m o) (l.take (n * m))
  have w1 : h1.WF := u1.wf w (by rw [hb', count_mat]) nofun (fun _ _ => rfl)
  refine Runs.of_eq run ⟨u.wf w1 (by rw [u1.size, count_mat, List.length_take]; omega) nofun (fun _ _ => by rw [u1.size]), u1.keeps.trans u.keeps, u1.size, fun i j => ?_⟩
  rw [setBuf_buf_same, List.getElem?_take, if_pos (by rw [mul_comm n m]; exact idx_bound' i j), hl]

/-- **C142** fails for a null pointer: `set_from_ptr` drops the memory but not the size, so the next read of a cell is a read of null memory. -/
theorem C142_ptr_null_fails [Zero R] (h : Heap R) (o : Nat) (A : Matrix (Fin m) (Fin n) R) (hA : IsMat h o A) (i : Fin m) (j : Fin n) :
    (do Mat.set_from_ptr o none m n; Mat.element_get o (i : Int) (j : Int) : M R R) h = .ub := by
  unfold Mat.set_from_ptr Mat.element_get
  simp only [bind_assoc, pure_bind]
  rw [bind_ok (show memfree (.m o) h = .ok ((), h.setBuf (.m o) []) from rfl), bind_ok (Mat.size_run _ _)]
  have hs : (h.setBuf (.m o) []).size (.m o) = ⟨n, m, 1⟩ := hA.1
  rw [hs]
  dsimp only
  rw [if_pos (idxOk_nat j.2), if_pos (idxOk_nat i.2)]
  unfold load
  simp

/-- **C142** (`MLPPMatrix::set_from_mlpp_vectors`, `set_from_mlpp_vectors_array`): vectors of one nonzero length become the rows of the matrix; no other
object changes. Missing: null entries and entries of another length are skipped, leaving uninitialised cells. -/
theorem C142_vectors_partial (h : Heap R) (w : h.WF) (o : Nat) (ids : Fin m → Nat) (A : Matrix (Fin m) (Fin n) R) (hv : ∀ i, IsVec h (ids i) (A i))
    (hl : ∀ i, h.live (.v (ids i))) (hm : 0 < m) (hn : 0 < n) :
    SetsMat (Mat.set_from_mlpp_vectors o (List.ofFn fun i => some (ids i))) h o A := by
  unfold SetsMat Mat.set_from_mlpp_vectors
  obtain ⟨k, rfl⟩ : ∃ k, m = k + 1 := ⟨m - 1, by omega⟩
  have hof : (List.ofFn fun z => some (ids z)) = some (ids 0) :: List.ofFn fun z : Fin k => some (ids z.succ) := by rw [List.ofFn_succ]
  have hlen : (List.ofFn fun z => some (ids z)).length = k + 1 := by simp
  have vsz : ∀ {h' : Heap R} (w' : h'.WF) (v : Nat) (f : Fin n → R), IsVec h' v f → Vec.size v h' = .ok (n, h') := by
    intro h' w' v f q
    rw [Vec.size_run w' v]
    congr 2
    have := w'.len (.v v); rw [q.1, count_vec] at this; exact this
  rw [hof]; dsimp only; rw [← hof, hlen]
  refine Runs.step (vsz w _ _ (hv 0)) ?_
  refine Runs.resizeM (s := ⟨n, k + 1, 1⟩) w rfl fun h1 w1 k1 n1 s1 _ => ?_
  refine Runs.step (Mat.size_run o h1) ?_
  rw [s1, if_neg (by rw [count_mat]; exact (Nat.mul_pos hn hm).ne')]
  have hv1 : ∀ z, IsVec h1 (ids z) (A z) := fun z => (hv z).keep k1 (hl z) nofun
  refine (Runs.forN (k + 1) (fun t h' => h'.WF ∧ Keeps h1 h' (· = .m o) ∧ h'.size (.m o) = ⟨n, k + 1, 1⟩ ∧
      ∀ (i : Fin (k + 1)) (j : Fin n), i.val < t → (h'.buf (.m o))[i.val * n + j.val]? = some (A i j)) _ h1
    ⟨w1, Keeps.refl _ _, s1, fun i j hi => absurd hi (Nat.not_lt_zero _)⟩ ?_).mono fun _ h2 ⟨w2, k2, s2, c2⟩ =>
      ⟨w2, k1.trans k2, s2, fun i j => c2 i j i.2⟩
  intro t h2 ht ⟨w2, k2, s2, c2⟩
  have hv2 := (hv1 ⟨t, ht⟩).keep k2 (k1.live (hl _)) nofun
  rw [List.getElem?_ofFn, dif_pos ht]
  dsimp only
  refine Runs.step (vsz w2 _ _ hv2) ?_
  rw [if_pos rfl]
  refine (Runs.forN n (fun q h' => h'.WF ∧ Keeps h2 h' (· = .m o) ∧ h'.size (.m o) = ⟨n, k + 1, 1⟩ ∧
      ∀ (i : Fin (k + 1)) (j : Fin n), i.val < t ∨ (i.val = t ∧ j.val < q) → (h'.buf (.m o))[i.val * n + j.val]? = some (A i j)) _ h2
    ⟨w2, Keeps.refl _ _, s2, fun i j hi => c2 i j (by omega)⟩ ?_).mono fun _ h3 ⟨w3, k3, s3, c3⟩ =>
      ⟨w3, k2.trans k3, s3, fun i j hi => c3 i j (by have := j.2; omega)⟩
  intro q h3 hq ⟨w3, k3, s3, c3⟩
  have hv3 := hv2.keep k3 (k2.live (k1.live (hl _))) nofun
  refine Runs.step (load_ok (hv3.2 ⟨q, hq⟩)) ?_
  have hl3 : (h3.buf (.m o)).length = (k + 1) * n := by rw [w3.len, s3, count_mat, mul_comm]
  have hin : t * n + q < (k + 1) * n := idx_bound' ⟨t, ht⟩ ⟨q, hq⟩
  have u := updated_setBuf h3 (.m o) ((h3.buf (.m o)).set (t * n + q) (A ⟨t, ht⟩ ⟨q, hq⟩))
  refine Runs.of_eq (store_ok _ (by omega)) ⟨u.wf w3 (by rw [List.length_set, w3.len]) nofun (fun _ _ => by rw [s3]), k3.trans u.keeps, s3, fun i j hi => ?_⟩
  rw [setBuf_buf_same, List.getElem?_set]
  by_cases e : t * n + q = i.val * n + j.val
  · have e1 : t = i.val := by
      have : (t * n + q) / n = (i.val * n + j.val) / n := congrArg (· / n) e
      rwa [mul_comm, Nat.mul_add_div hn, Nat.div_eq_of_lt hq, mul_comm i.val, Nat.mul_add_div hn, Nat.div_eq_of_lt j.2] at this
    have e2 : q = j.val := by rw [e1] at e; omega
    rw [if_pos e, if_pos (by omega)]
    exact congrArg some (congrArg₂ A (Fin.ext e1) (Fin.ext e2))
  · rw [if_neg e]
    refine c3 i j ?_
    rcases hi with hi | ⟨h1, h2⟩
    · exact Or.inl hi
    · refine Or.inr ⟨h1, ?_⟩
      rcases Nat.lt_or_ge j.val q with p | p
      · exact p
      · exact absurd (by rw [h1, show q = j.val by omega]) e

/-- **C142** (`set_from_mlpp_vectors`): an empty list, and a list that begins with a null entry, leave an empty matrix; no other object changes. -/
theorem C142_vectors_none (h : Heap R) (w : h.WF) (o : Nat) (A : Matrix (Fin m) (Fin n) R) (hA : IsMat h o A) (l : List (Option Nat))
    (hl : l.head? = none ∨ l.head? = some none) (hm : 0 < m) (hn : 0 < n) :
    SetsMat (Mat.set_from_mlpp_vectors o l) h o (fun (i : Fin 0) (_ : Fin 0) => i.elim0) := by
  have e : (Mat.set_from_mlpp_vectors o l : M R Unit) = Mat.reset o := by
    match l, hl with
    | [], _ => rfl
    | none :: _, _ => rfl
    | some _ :: _, hl => simp at hl
  rw [e]
  have hb : (h.buf (.m o)).isEmpty = false := by
    have := w.len (.m o)
    rw [hA.1, count_mat] at this
    have hp := Nat.mul_pos hn hm
    cases q : h.buf (.m o) with
    | nil => rw [q] at this; simp at this; omega
    | cons _ _ => rfl
  have run : Mat.reset o h = .ok ((), (h.setBuf (.m o) []).setSize (.m o) ⟨0, 0, 1⟩) := by
    unfold Mat.reset
    rw [bind_ok (show isNull (.m o) h = .ok ((h.buf (.m o)).isEmpty, h) from rfl), hb]
    rfl
  have u : Updated h ((h.setBuf (.m o) []).setSize (.m o) ⟨0, 0, 1⟩) (.m o) ⟨0, 0, 1⟩ [] :=
    ⟨by simp, by simp, fun l q => by simp [setBuf_buf, q], fun l q => by simp [setSize_size, q], rfl, rfl⟩
  exact Runs.of_eq run ⟨u.wf w (by simp [count_mat]) nofun (fun _ _ => rfl), u.keeps, u.size, fun i => i.elim0⟩

/-- **C142** fails for a shorter vector in the list: its row keeps what the allocation contained (here 7). -/
theorem C142_vectors_ragged_fails : ((do Vec.set_data 0 [1, 2]; Vec.set_data 1 [3]; Mat.set_from_mlpp_vectors 0 [some 0, some 1] : M Int Unit)
    { Heap.init (fun _ _ => 7) with next := 2 }).bufOf (.m 0) = some [1, 2, 7, 7] := by decide +kernel

/-! ## Tensors -/

/-- **C142** (`MLPPTensor3::to_std_vector`): list `j` of list `k` of the result is row `j` of slice `k`; nothing changes. -/
theorem C142_ten_get (h : Heap R) (o : Nat) (T : Fin d → Fin r → Fin c → R) (hT : IsTen h o T) :
    Ten.to_std_vector o h = .ok (List.ofFn fun z => List.ofFn fun y => List.ofFn (T z y), h) := by
  unfold Ten.to_std_vector
  rw [bind_ok (Ten.size_run o h), hT.1]
  dsimp only
  rw [foldN_read d (fun z => (List.ofFn fun z => List.ofFn fun y => List.ofFn (T z y)).take z) _ [] h (by simp)]
  · rw [List.take_of_length_le (by simp)]
  · intro z hz
    have plane : foldN r [] (fun i plane => do
        let row ← foldN c [] fun j row => do
          let v ← load (.t o) (i * c + j + c * r * z)
          pure (row ++ [v])
        pure (plane ++ [row])) h = .ok (List.ofFn fun y => List.ofFn (T ⟨z, hz⟩ y), h) := by
      rw [foldN_read r (fun i => (List.ofFn fun y => List.ofFn (T ⟨z, hz⟩ y)).take i) _ [] h (by simp)]
      · rw [List.take_of_length_le (by simp)]
      · intro i hi
        have row : foldN c [] (fun j row => do let v ← load (.t o) (i * c + j + c * r * z); pure (row ++ [v])) h = .ok (List.ofFn (T ⟨z, hz⟩ ⟨i, hi⟩), h) := by
          rw [foldN_read c (fun j => (List.ofFn (T ⟨z, hz⟩ ⟨i, hi⟩)).take j) _ [] h (by simp)]
          · rw [List.take_of_length_le (by simp)]
          · intro j hj
            rw [bind_ok (load_ok (hT.2 ⟨z, hz⟩ ⟨i, hi⟩ ⟨j, hj⟩))]
            refine congrArg Out.ok (congrArg (·, h) ?_)
            rw [List.take_add_one]
            simp [hj]
        refine (bind_ok row).trans ?_
        refine congrArg Out.ok (congrArg (·, h) ?_)
        rw [List.take_add_one]
        simp [hi]
    refine (bind_ok plane).trans ?_
    refine congrArg Out.ok (congrArg (·, h) ?_)
    rw [List.take_add_one]
    simp [hz]

/-- **C142** (`MLPPTensor3::to_flat_std_vector`): as many numbers as there are cells; cell (z, y, x) is number (z · rows + y) · columns + x. -/
theorem C142_ten_flat_partial (h : Heap R) (w : h.WF) (o : Nat) (T : Fin d → Fin r → Fin c → R) (hT : IsTen h o T) (hd : 0 < d) (hr : 0 < r) (hc : 0 < c) :
    ∃ l : List R, Ten.to_flat_std_vector o h = .ok (l, h) ∧ l.length = d * r * c ∧
      ∀ z y x, l[(z.val * r + y.val) * c + x.val]? = some (T z y x) := by
  have hl : (h.buf (.t o)).length = c * r * d := by rw [w.len, hT.1, count_ten]
  refine ⟨h.buf (.t o), ?_, by rw [hl]; ring, fun z y x => ?_⟩
  · unfold Ten.to_flat_std_vector
    rw [bind_ok (Ten.size_run o h), hT.1, count_ten, if_neg (Nat.mul_pos (Nat.mul_pos hc hr) hd).ne', readAll_run _ _ _ hl]
  · rw [← hT.2 z y x]
    exact congrArg _ (by ring)

/-- **C142** fails for a tensor without cells: `to_flat_std_vector` takes the address of the first element of an empty list. -/
theorem C142_ten_flat_empty_fails (h : Heap R) (o : Nat) (T : Fin d → Fin r → Fin c → R) (hT : IsTen h o T) (he : d = 0 ∨ r = 0 ∨ c = 0) :
    Ten.to_flat_std_vector o h = .ub := by
  unfold Ten.to_flat_std_vector
  rw [bind_ok (Ten.size_run o h), hT.1, count_ten, if_pos (by rcases he with rfl | rfl | rfl <;> simp)]
  rfl

/-- **C142** (`MLPPTensor3::set_from_std_vectors`): planes of one shape, none of them empty, become the slices of the tensor; no other object changes. -/
theorem C142_ten_set_partial (h : Heap R) (w : h.WF) (o : Nat) (T : Fin d → Fin r → Fin c → R) (hd : 0 < d) (hr : 0 < r) (hc : 0 < c) :
    SetsTen (Ten.set_from_std_vectors o (List.ofFn fun z => List.ofFn fun y => List.ofFn (T z y))) h o T := by
  unfold SetsTen
  obtain ⟨d, rfl⟩ : ∃ k, d = k + 1 := ⟨d - 1, by omega⟩
  obtain ⟨r, rfl⟩ : ∃ k, r = k + 1 := ⟨r - 1, by omega⟩
  have e1 : (List.ofFn fun z => List.ofFn fun y => List.ofFn (T z y)) =
      (List.ofFn (T 0 0) :: List.ofFn fun y : Fin r => List.ofFn (T 0 y.succ)) :: List.ofFn fun z : Fin d => List.ofFn fun y => List.ofFn (T z.succ y) := by
    rw [List.ofFn_succ]
    exact congrArg (· :: _) (List.ofFn_succ ..)
  have e2 : Ten.set_from_std_vectors o (List.ofFn fun z => List.ofFn fun y => List.ofFn (T z y)) = (do
      Ten.resize o ⟨c, r + 1, d + 1⟩
      let s ← Ten.size o
      if s.count = 0 then Ten.reset o else Ten.stdLoop o (List.ofFn fun z => List.ofFn fun y => List.ofFn (T z y)) s) := by
    conv_lhs => rw [e1]
    unfold Ten.set_from_std_vectors
    dsimp only
    rw [← e1]
    simp
  rw [e2]
  refine Runs.resizeT w fun h1 w1 k1 n1 s1 _ => ?_
  refine Runs.step (Ten.size_run o h1) ?_
  rw [s1, if_neg (by rw [count_ten]; exact (Nat.mul_pos (Nat.mul_pos hc hr) hd).ne')]
  unfold Ten.stdLoop
  rw [List.length_ofFn]
  obtain ⟨T0, h0⟩ := IsTen.existsOf w1 s1
  refine (Runs.forN (d + 1) (fun t h' => h'.WF ∧ Keeps h1 h' (· = .t o) ∧ IsTen h' o (fun z y x => if z.val < t then T z y x else T0 z y x)) _ h1
    ⟨w1, Keeps.refl _ _, by simpa using h0⟩ ?_).mono fun _ h2 ⟨w2, k2, t2⟩ => ⟨w2, k1.trans k2, by
      refine cast (congrArg _ ?_) t2
      funext z y x
      exact if_pos z.2⟩
  intro z h2 hz ⟨w2, k2, t2⟩
  rw [List.getElem?_ofFn, dif_pos hz]
  dsimp only
  rw [List.length_ofFn]
  refine (Runs.forN (r + 1) (fun t h' => h'.WF ∧ Keeps h2 h' (· = .t o) ∧
      IsTen h' o (fun z' y x => if z'.val < z ∨ (z'.val = z ∧ y.val < t) then T z' y x else T0 z' y x)) _ h2
    ⟨w2, Keeps.refl _ _, by simpa using t2⟩ ?_).mono fun _ h3 ⟨w3, k3, t3⟩ => ⟨w3, k2.trans k3, ?_⟩
  · intro y h3 hy ⟨w3, k3, t3⟩
    rw [if_pos rfl, List.getElem?_ofFn, dif_pos hy]
    dsimp only
    rw [List.length_ofFn, if_pos rfl]
    refine (Runs.forN c (fun t h' => h'.WF ∧ Keeps h3 h' (· = .t o) ∧
        IsTen h' o (fun z' y' x => if z'.val < z ∨ (z'.val = z ∧ (y'.val < y ∨ (y'.val = y ∧ x.val < t))) then T z' y' x else T0 z' y' x)) _ h3
      ⟨w3, Keeps.refl _ _, by simpa using t3⟩ ?_).mono fun _ h4 ⟨w4, k4, t4⟩ => ⟨w4, k3.trans k4, ?_⟩
    · intro x h4 hx ⟨w4, k4, t4⟩
      rw [List.getElem?_ofFn, dif_pos hx]
      refine (Ten.set_any w4 t4 z y x _).mono fun _ h5 ⟨w5, k5, t5⟩ => ⟨w5, k4.trans k5, ?_⟩
      refine cast (congrArg _ ?_) t5
      funext z' y' x'
      by_cases e : z'.val = z ∧ y'.val = y ∧ x'.val = x
      · obtain ⟨rfl, rfl, rfl⟩ := e
        simp
      · rw [if_neg e]
        refine if_congr ?_ rfl rfl
        omega
    · refine cast (congrArg _ ?_) t4
      funext z' y' x'
      refine if_congr ?_ rfl rfl
      have := x'.2
      omega
  · refine cast (congrArg _ ?_) t3
    funext z' y' x'
    refine if_congr ?_ rfl rfl
    have := y'.2
    omega

/-- **C142** fails if the first plane has no rows: its first row is read although there is none. -/
theorem C142_first_plane_fails (h : Heap R) (o : Nat) (l : List (List (List R))) : Ten.set_from_std_vectors o ([] :: l) h = .ub := rfl

/-- **C142**: planes put into a tensor come back unchanged. -/
theorem C142_ten_round_trip_partial (h : Heap R) (w : h.WF) (o : Nat) (T : Fin d → Fin r → Fin c → R) (hd : 0 < d) (hr : 0 < r) (hc : 0 < c) :
    Runs (do Ten.set_from_std_vectors o (List.ofFn fun z => List.ofFn fun y => List.ofFn (T z y)); Ten.to_std_vector o) h fun q h' =>
      q = (List.ofFn fun z => List.ofFn fun y => List.ofFn (T z y)) ∧ h'.WF ∧ Keeps h h' (· = .t o) :=
  (C142_ten_set_partial h w o T hd hr hc).andThen fun _ h1 ⟨w1, k1, t1⟩ => Runs.of_eq (C142_ten_get h1 o T t1) ⟨rfl, w1, k1⟩

/-! ## Rotations in place (C28) -/

/-- **C28**: rotating the rows of a matrix in place (`rotate`, axes 0 and 1) preserves their squared lengths. -/
theorem C28_rotate_preserves_length_partial (h : Heap ℝ) (w : h.WF) (θ : ℝ) (axis : Int) (hax : axis = 0 ∨ axis = 1) (a : Nat)
    (A : Matrix (Fin m) (Fin 3) ℝ) (hA : IsMat h a A) (la : h.live (.m a)) :
    ∃ B : Matrix (Fin m) (Fin 3) ℝ, SetsMat (Mat.rotate a θ axis) h a B ∧ ReturnsMat (Mat.rotaten a θ axis) h B ∧ ∀ i, ∑ j, B i j ^ 2 = ∑ j, A i j ^ 2 := by
  have t := Real.sin_sq_add_cos_sq θ
  have key : ∀ C : Matrix (Fin 3) (Fin 3) ℝ, ReturnsMat (Mat.create_rotation_matrix θ axis) h C →
      SetsMat (Mat.rotate a θ axis) h a (A * C) ∧ ReturnsMat (Mat.rotaten a θ axis) h (A * C) := by
    intro C hC
    refine ⟨?_, ?_⟩
    · unfold Mat.rotate
      refine hC.bind fun o h1 w1 k1 f1 l1 h1A => ?_
      refine Runs.step (derefM_run o h1) ?_
      refine (Mat.mult_spec w1 (hA.keep k1 la nofun) h1A (k1.live la) l1 (fun e => f1 (e ▸ la))).mono fun _ h2 ⟨w2, k2, a2⟩ => ⟨w2, ?_, a2⟩
      exact (k1.mono fun _ _ e => e.elim).trans k2
    · unfold Mat.rotaten
      refine hC.bind fun o h1 w1 k1 f1 l1 h1A => ?_
      refine Runs.step (derefM_run o h1) ?_
      exact k1.returnsMat (Mat.multn_spec w1 (hA.keep k1 la nofun) h1A (k1.live la) l1)
        fun o' h3 f3 l3 w3 k3 hA3 => ⟨o', rfl, f3, l3, w3, k3, hA3⟩
  rcases hax with rfl | rfl
  · refine ⟨_, (key _ (rotation_matrix_0 h w θ)).1, (key _ (rotation_matrix_0 h w θ)).2, fun i => ?_⟩
    simp only [Matrix.mul_apply, Fin.sum_univ_three]
    simp
    linear_combination (A i 1 ^ 2 + A i 2 ^ 2) * t
  · refine ⟨_, (key _ (rotation_matrix_1 h w θ)).1, (key _ (rotation_matrix_1 h w θ)).2, fun i => ?_⟩
    simp only [Matrix.mul_apply, Fin.sum_univ_three]
    simp
    linear_combination (A i 0 ^ 2 + A i 2 ^ 2) * t

/-- **C28**: storing the rotated rows of another matrix (`rotateb`, axes 0 and 1) gives what `rotaten` returns; their squared lengths are preserved. -/
theorem C28_rotateb_preserves_length_partial (h : Heap ℝ) (w : h.WF) (θ : ℝ) (axis : Int) (hax : axis = 0 ∨ axis = 1) (t a : Nat) (ta : t ≠ a)
    (A : Matrix (Fin m) (Fin 3) ℝ) (hA : IsMat h a A) (la : h.live (.m a)) (lt : h.live (.m t)) :
    ∃ B : Matrix (Fin m) (Fin 3) ℝ, SetsMat (Mat.rotateb t (some a) θ axis) h t B ∧ ReturnsMat (Mat.rotaten a θ axis) h B ∧
      ∀ i, ∑ j, B i j ^ 2 = ∑ j, A i j ^ 2 := by
  obtain ⟨B, s, q, e⟩ := C28_rotate_preserves_length_partial h w θ axis hax a A hA la
  have key : ∀ C : Matrix (Fin 3) (Fin 3) ℝ, ReturnsMat (Mat.create_rotation_matrix θ axis) h C →
      SetsMat (Mat.rotateb t (some a) θ axis) h t (A * C) ∧ SetsMat (Mat.rotate a θ axis) h a (A * C) := by
    intro C hC
    refine ⟨?_, ?_⟩
    · unfold Mat.rotateb
      refine hC.bind fun o h1 w1 k1 f1 l1 h1A => ?_
      refine Runs.step (derefM_run o h1) ?_
      refine (Mat.multb_spec w1 (hA.keep k1 la nofun) h1A (k1.live la) l1 ta (fun e => f1 (e ▸ lt))).mono fun _ h2 ⟨w2, k2, a2⟩ => ⟨w2, ?_, a2⟩
      exact (k1.mono fun _ _ e => e.elim).trans k2
    · unfold Mat.rotate
      refine hC.bind fun o h1 w1 k1 f1 l1 h1A => ?_
      refine Runs.step (derefM_run o h1) ?_
      refine (Mat.mult_spec w1 (hA.keep k1 la nofun) h1A (k1.live la) l1 (fun e => f1 (e ▸ la))).mono fun _ h2 ⟨w2, k2, a2⟩ => ⟨w2, ?_, a2⟩
      exact (k1.mono fun _ _ e => e.elim).trans k2
  have hC : ∃ C : Matrix (Fin 3) (Fin 3) ℝ, ReturnsMat (Mat.create_rotation_matrix θ axis) h C := by
    rcases hax with rfl | rfl
    · exact ⟨_, rotation_matrix_0 h w θ⟩
    · exact ⟨_, rotation_matrix_1 h w θ⟩
  obtain ⟨C, hC⟩ := hC
  obtain ⟨q1, q2⟩ := key C hC
  have : A * C = B := by
    obtain ⟨_, h1, e1, _, _, m1⟩ := runs_iff.1 q2
    obtain ⟨_, h2, e2, _, _, m2⟩ := runs_iff.1 s
    rw [e1] at e2
    obtain ⟨-, rfl⟩ := Prod.mk.inj (Out.ok.inj e2)
    funext i j
    exact Option.some.inj ((m1.2 i j).symm.trans (m2.2 i j))
  exact ⟨B, this ▸ q1, q, e⟩

/-! ## Examples -/

/-- Two rows of two numbers go into a matrix and come back. -/
example : ((do Mat.set_from_std_vectors 0 [[1, 2], [3, 4]]; Mat.set_row_std_vector 0 1 [5, 6]; Mat.to_std_vector 0 : M Int (List (List Int)))
    { Heap.init (fun _ _ => 7) with next := 1 }).valOf = some [[1, 2], [5, 6]] := by decide +kernel

/-- A 2 × 1 × 2 tensor. -/
example : ((do Ten.set_from_std_vectors 0 [[[1, 2]], [[3, 4]]]; Ten.to_std_vector 0 : M Int (List (List (List Int))))
    { Heap.init (fun _ _ => 7) with next := 1 }).valOf = some [[[1, 2]], [[3, 4]]] := by decide +kernel

/-- Raw memory. -/
example : ((do Mat.set_from_ptr 0 (some [1, 2, 3, 4, 5, 6]) 2 3; Mat.to_flat_std_vector 0 : M Int (List Int))
    { Heap.init (fun _ _ => 7) with next := 1 }).valOf = some [1, 2, 3, 4, 5, 6] := by decide +kernel

/-- The hypotheses of the vector statements hold of a vector of two elements. -/
example : Vec.to_std_vector 0 (Heap.ofLists (R := Int) 7 [[1, 2]] []) = .ok ([1, 2], Heap.ofLists (R := Int) 7 [[1, 2]] []) :=
  C142_vec_get_partial (n := 2) _ (Heap.ofLists_wf _ _ _ (by simp)) 0 ![1, 2]
    ⟨by simp [Heap.ofLists], fun i => by fin_cases i <;> simp [Heap.ofLists]⟩ (by norm_num)

end Verif
