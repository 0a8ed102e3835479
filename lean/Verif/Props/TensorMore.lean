import Verif.Props.TensorOps
import Mathlib.Algebra.BigOperators.Fin

/-!
# C46: flattening and contracting tensors; C47: building tensors from vectors and matrices
-/

namespace Verif
open Spec SortArray
variable {R : Type} {d r c : Nat}

theorem count_ten (c r d : Nat) : (Size.mk c r d).count = c * r * d := rfl

/-- **C46 (flatten)**: `flatten()` returns a new vector holding all cells, slice by slice, row by row; the tensor is
unchanged. -/
theorem C46_flatten (h : Heap R) (w : h.WF) (o : Nat) (T : Fin d → Fin r → Fin c → R) (hT : IsTen h o T)
    (lo : h.live (.t o)) :
    Runs (Ten.flatten o) h fun q h' => ∃ v, q = some (.v v) ∧ ¬ h.live (.v v) ∧ h'.live (.v v) ∧ h'.WF ∧
      Keeps h h' (fun _ => False) ∧ (h'.buf (.v v)).length = d * r * c ∧
      ∀ z y x, (h'.buf (.v v))[(z.val * r + y.val) * c + x.val]? = some (T z y x) := by
  unfold Ten.flatten
  refine Runs.step (Ten.size_run o h) ?_
  rw [hT.1, count_ten]
  refine Runs.newVec w ⟨rfl, rfl⟩ fun h1 w1 k1 f1 l1 s1 => ?_
  obtain ⟨e1, e2⟩ := k1.2 _ lo nofun
  refine Runs.step (unLoop_run id (.t o) (.v h.next) (c * r * d) h1 (by rw [e1, w.len, hT.1, count_ten])
    (by rw [w1.len, s1, count_vec])) ?_
  have u := updated_setBuf h1 (.v h.next) ((h1.buf (.t o)).map id)
  have hl : (h.buf (.t o)).length = c * r * d := by rw [w.len, hT.1, count_ten]
  refine ⟨h.next, rfl, f1, l1, u.wf w1 ?_ (fun _ _ => by rw [s1]; exact ⟨rfl, rfl⟩) nofun,
    k1.trans_new u.keeps (fun _ e hl' => f1 (e ▸ hl')), ?_, ?_⟩
  · rw [s1, count_vec, List.length_map, e1, hl]
  · rw [setBuf_buf_same, List.length_map, e1, hl]; ring
  · intro z y x
    rw [setBuf_buf_same, List.map_id, e1, ← hT.2 z y x]
    congr 1; ring

/-- **C46 (flatteno)**: the same into an existing vector, whatever its size was. -/
theorem C46_flatteno (h : Heap R) (w : h.WF) (o t : Nat) (T : Fin d → Fin r → Fin c → R) (hT : IsTen h o T)
    (lo : h.live (.t o)) :
    Runs (Ten.flatteno o (some t)) h fun _ h' => h'.WF ∧ Keeps h h' (· = .v t) ∧ (h'.buf (.v t)).length = d * r * c ∧
      ∀ z y x, (h'.buf (.v t))[(z.val * r + y.val) * c + x.val]? = some (T z y x) := by
  unfold Ten.flatteno
  refine Runs.step (Ten.size_run o h) ?_
  rw [hT.1, count_ten]
  refine Runs.ensureV w ⟨rfl, rfl⟩ fun h1 w1 k1 n1 s1 _ => ?_
  obtain ⟨e1, e2⟩ := k1.2 _ lo nofun
  refine Runs.of_eq (unLoop_run id (.t o) (.v t) (c * r * d) h1 (by rw [e1, w.len, hT.1, count_ten])
    (by rw [w1.len, s1, count_vec])) ?_
  have u := updated_setBuf h1 (.v t) ((h1.buf (.t o)).map id)
  have hl : (h.buf (.t o)).length = c * r * d := by rw [w.len, hT.1, count_ten]
  refine ⟨u.wf w1 ?_ (fun _ _ => by rw [s1]; exact ⟨rfl, rfl⟩) nofun, k1.trans u.keeps, ?_, ?_⟩
  · rw [s1, count_vec, List.length_map, e1, hl]
  · rw [setBuf_buf_same, List.length_map, e1, hl]; ring
  · intro z y x
    rw [setBuf_buf_same, List.map_id, e1, ← hT.2 z y x]
    congr 1; ring

theorem Ten.row_get_into_cells {h : Heap R} (w : h.WF) {o v : Nat} {T : Fin d → Fin r → Fin c → R} (hT : IsTen h o T)
    {g : Nat → R} {z : Fin d} {y : Fin r} (hg : ∀ x : Fin c, g x.val = T z y x) :
    ∃ h', Ten.row_get_into_mlpp_vector o (z.val : Int) (y.val : Int) (some v) h = .ok ((), h') ∧ VUpd h h' v (tab c g) := by
  unfold Ten.row_get_into_mlpp_vector
  dsimp only
  rw [bind_ok (Ten.size_run o h), hT.1]
  dsimp only
  rw [if_pos (idxOk_nat y.isLt), if_pos (idxOk_nat z.isLt), Int.toNat_natCast, Int.toNat_natCast]
  obtain ⟨dd, cl, e, hd, _⟩ := ensureSize_run (.v v) ⟨c, 1, 1⟩ h (w.len _)
  rw [count_vec] at hd
  rw [bind_ok e]
  unfold Ten.copyOut
  generalize hH : ({ (h.setSize (.v v) ⟨c, 1, 1⟩).setBuf (.v v) dd with clock := cl } : Heap R) = H
  have hb1 : H.buf (.v v) = dd := by subst hH; simp
  have hb2 : H.buf (.t o) = h.buf (.t o) := by subst hH; simp [setBuf_buf]
  rw [storeForN_run (.v v) c 0 _ (tab c g) H (by simp) (by rw [hb1]; omega)]
  · have : overwrite dd 0 (tab c g) = tab c g := by
      unfold overwrite; rw [List.drop_of_length_le (by simp; omega)]; simp
    rw [hb1, this]
    refine ⟨_, rfl, ?_⟩
    subst hH
    unfold VUpd
    rw [tab_length]
    refine ⟨by simp, by simp, ?_, ?_, rfl, rfl⟩
    · intro l hl; simp [setBuf_buf, hl]
    · intro l hl; simp [setSize_size, hl]
  · intro t ht
    rw [bind_ok (load_ok (v := g t) (by
      rw [setBuf_buf_ne (l := .v v) (l' := .t o) _ _ nofun, hb2, hg ⟨t, ht⟩, ← hT.2 z y ⟨t, ht⟩]; congr 1; dsimp only; omega)), Nat.zero_add]
    congr 1
    simp [tab]

/-- **C46 (tensor_vec_mult)**: entry `(z, y)` of the returned matrix is the inner product of row `y` of slice `z` with the
vector. -/
theorem C46_tensor_vec_mult [NonUnitalNonAssocSemiring R] (h : Heap R) (w : h.WF) (o b : Nat)
    (T : Fin d → Fin r → Fin c → R) (hT : IsTen h o T) (lo : h.live (.t o)) (v : Fin c → R) (hv : IsVec h b v)
    (lb : h.live (.v b)) :
    ReturnsMat (Ten.tensor_vec_mult o (some b)) h (fun (z : Fin d) (y : Fin r) => ∑ x, T z y x * v x) := by
  obtain ⟨g, eg, cb⟩ := hv.cells w
  unfold ReturnsMat Ten.tensor_vec_mult
  refine Runs.step (Ten.size_run o h) ?_
  rw [hT.1]
  dsimp only
  refine Runs.newMat w rfl fun h1 w1 k1 f1 l1 s1 => ?_
  refine Runs.newVec w1 ⟨rfl, rfl⟩ fun h2 w2 k2 f2 l2 s2 => ?_
  obtain ⟨F, cF⟩ := exists_Cells w1 s1
  let S : Nat → Nat → R := fun z y => if q : z < d ∧ y < r then ∑ x, T ⟨z, q.1⟩ ⟨y, q.2⟩ x * v x else 0
  refine Runs.bind ((Runs.cells2 (l := .m h.next) (c := r) (r := d) d r
    (fun h' => h'.WF ∧ Keeps h h' (fun _ => False) ∧ h'.live (.m h.next) ∧ h'.live (.v h1.next)) S _
    ⟨w2, k1.trans k2, k2.live l1, l2⟩ (cF.keep k2 l1 nofun) ?_).mono ?_)
  · intro z y h3 F3 hz hy ⟨w3, k3, l3, l3'⟩ c3
    obtain ⟨e1, e2⟩ := k3.2 _ lo nofun
    have hne : Loc.v b ≠ .v h1.next := live_ne_fresh (k1.live lb) rfl
    obtain ⟨h4, e4, u4⟩ := Ten.row_get_into_cells (v := h1.next) w3 (hT.ofEq e1 e2)
      (g := fun x => if q : x < c then T ⟨z, hz⟩ ⟨y, hy⟩ ⟨x, q⟩ else 0) (z := ⟨z, hz⟩) (y := ⟨y, hy⟩)
      (fun x => by rw [dif_pos x.isLt])
    refine Runs.step e4 ?_
    have w4 := u4.wf w3
    have k4 : Keeps h3 h4 (· = .v h1.next) := u4.keeps
    have cb4 : VCells h4 (.v b) c g := (cb.keep k3 lb nofun).keep k4 (k3.live lb) hne
    refine Runs.step (Vec.dot_cells w4 u4.vcells cb4) ?_
    refine (Mat.set_cells w4 (c3.keep k4 l3 nofun) hz hy _).mono fun _ h5 ⟨w5, k5, _, c5⟩ => ?_
    have hfr : ¬ h.live (.v h1.next) := fun e => f2 (k1.live e)
    refine ⟨⟨w5, (k3.trans_new k4 (fun _ e hl => hfr (e ▸ hl))).trans_new k5 (fun _ e hl => f1 (e ▸ hl)),
      k5.live (k4.live l3), k5.live (k4.live l3')⟩, c5.congr fun i j _ _ => ?_⟩
    simp only [upd2]
    split
    · rename_i q
      rw [foldl_add_eq_sum c (fun i => (if q : i < c then T ⟨z, hz⟩ ⟨y, hy⟩ ⟨i, q⟩ else 0) * g i), zero_add]
      simp only [S]
      rw [dif_pos ⟨hz, hy⟩]
      exact Finset.sum_congr rfl fun x _ => by rw [dif_pos x.isLt, eg]
    · rfl
  · intro _ h3 ⟨⟨w3, k3, l3, _⟩, c3⟩
    refine ⟨h.next, rfl, f1, l3, w3, k3, c3.isMat fun i j => ?_⟩
    rw [if_pos ⟨i.isLt, j.isLt⟩]
    simp only [S]
    rw [dif_pos ⟨i.isLt, j.isLt⟩]

/-- A contraction of a `1 × 2 × 2` tensor. -/
example : ((do Ten.set_data 0 (⟨2, 2, 1⟩, [1, 2, 3, 4]); Vec.set_data 0 [10, 100]; Ten.tensor_vec_mult 0 (some 0) : M Int Ref)
    { Heap.init (fun _ _ => 7) with next := 1 }).bufOf (.m 1) = some [210, 430] := by decide +kernel

/-! ## C47 -/

/-- The loop that copies one object after another into consecutive blocks. -/
theorem stackLoop_spec {h : Heap R} (w : h.WF) {o b k : Nat} (src : Nat → Loc) (hsrc : ∀ i, i < k → src i ≠ .t o)
    (hlen : ∀ i, i < k → (h.buf (src i)).length = b) (ho : (h.buf (.t o)).length = b * k) (live : ∀ i, i < k → h.live (src i))
    (body : Nat → M R Unit) (hb : ∀ i h', i < k → h'.WF → Keeps h h' (· = .t o) → h'.size (.t o) = h.size (.t o) →
      body i h' = Ten.copyIn o (b * i) b (src i) h') :
    Runs (forN k body) h fun _ h' => h'.WF ∧ Keeps h h' (· = .t o) ∧ h'.size (.t o) = h.size (.t o) ∧
      ∀ i q, i < k → q < b → (h'.buf (.t o))[b * i + q]? = (h.buf (src i))[q]? := by
  refine (Runs.forN k (fun t h' => h'.WF ∧ Keeps h h' (· = .t o) ∧ h'.size (.t o) = h.size (.t o) ∧
      ∀ i q, i < t → q < b → (h'.buf (.t o))[b * i + q]? = (h.buf (src i))[q]?) _ h
    ⟨w, Keeps.refl _ _, rfl, fun i q hi _ => absurd hi (Nat.not_lt_zero _)⟩ ?_).mono fun _ _ q => q
  intro t h1 ht ⟨w1, k1, s1, c1⟩
  obtain ⟨e1, _⟩ := k1.2 _ (live t ht) (hsrc t ht)
  have hl : (h1.buf (.t o)).length = b * k := by rw [w1.len, s1, ← w.len, ho]
  have hfit : b * t + b ≤ (h1.buf (.t o)).length := by
    rw [hl]; calc b * t + b = b * (t + 1) := by ring
      _ ≤ b * k := Nat.mul_le_mul_left _ (by omega)
  have hp : (h1.buf (src t)).length = b := by rw [e1, hlen t ht]
  have run := Ten.copyIn_run o (b * t) b (src t) h1 (hsrc t ht) hfit hp
  rw [← hb t h1 ht w1 k1 s1] at run
  have u := updated_setBuf h1 (.t o) (overwrite (h1.buf (.t o)) (b * t) (h1.buf (src t)))
  refine Runs.of_eq run ⟨u.wf w1 ?_ nofun nofun, k1.trans u.keeps, s1, ?_⟩
  · rw [length_overwrite _ _ _ (by omega), w1.len]
  · intro i q hi hq
    rw [setBuf_buf_same, overwrite_getElem? _ _ _ (by omega), hp]
    rcases Nat.lt_or_ge i t with p | p
    · have : b * i + q < b * t := by
        calc b * i + q < b * i + b := by omega
          _ = b * (i + 1) := by ring
          _ ≤ b * t := Nat.mul_le_mul_left _ (by omega)
      rw [if_pos this]; exact c1 i q p hq
    · obtain rfl : i = t := by omega
      rw [if_neg (by omega), if_pos (by omega), e1, Nat.add_sub_cancel_left]

/-- **C47, partial** (`set_from_mlpp_matricess`, `set_from_mlpp_matrices_array`): a list of matrices of one shape becomes the
stack of its slices. Missing: null entries and entries of another shape are skipped, leaving uninitialised cells. -/
theorem C47_set_from_matrices_partial {k : Nat} (h : Heap R) (w : h.WF) (o : Nat) (ids : Fin k → Nat)
    (Ms : Fin k → Matrix (Fin r) (Fin c) R) (hM : ∀ z, IsMat h (ids z) (Ms z)) (hl : ∀ z, h.live (.m (ids z)))
    (hk : 0 < k) (hr : 0 < r) (hc : 0 < c) :
    SetsTen (Ten.set_from_mlpp_matrices o (List.ofFn fun z => some (ids z))) h o (fun (z : Fin k) (y : Fin r) (x : Fin c) => Ms z y x) := by
  unfold SetsTen Ten.set_from_mlpp_matrices
  obtain ⟨n, rfl⟩ : ∃ n, k = n + 1 := ⟨k - 1, by omega⟩
  have hof : (List.ofFn fun z => some (ids z)) = some (ids 0) :: List.ofFn fun z : Fin n => some (ids z.succ) := by
    rw [List.ofFn_succ]
  have hlen : (List.ofFn fun z => some (ids z)).length = n + 1 := by simp
  rw [hof]; dsimp only; rw [← hof, hlen]
  refine Runs.step (Mat.size_run _ h) ?_
  rw [(hM 0).1]
  refine Runs.resize (l := .t o) (s := ⟨c, r, n + 1⟩) w nofun nofun fun h1 w1 k1 n1 s1 _ => ?_
  refine Runs.step (Ten.size_run o h1) ?_
  rw [s1]
  rw [if_neg (by rw [count_ten]; exact (Nat.mul_pos (Nat.mul_pos hc hr) hk).ne')]
  let src : Nat → Loc := fun i => if q : i < n + 1 then .m (ids ⟨i, q⟩) else .m 0
  have hsrc : ∀ i (q : i < n + 1), src i = .m (ids ⟨i, q⟩) := fun i q => dif_pos q
  have hM1 : ∀ z, IsMat h1 (ids z) (Ms z) := fun z => (hM z).keep k1 (hl z) nofun
  refine (stackLoop_spec (o := o) (b := c * r) w1 src ?_ ?_ ?_ ?_ _ ?_).mono ?_
  · intro i hi; rw [hsrc i hi]; nofun
  · intro i hi; rw [hsrc i hi, w1.len, (hM1 _).1, count_mat]
  · rw [w1.len, s1, count_ten]
  · intro i hi; rw [hsrc i hi]; exact k1.live (hl _)
  · intro i h' hi w' k' s'
    rw [List.getElem?_ofFn, dif_pos hi]
    dsimp only
    have := (hM1 ⟨i, hi⟩).keep k' (k1.live (hl _)) nofun
    rw [bind_ok (Mat.size_run _ h'), this.1, if_pos ⟨rfl, rfl⟩, hsrc i hi]
  · intro _ h2 ⟨w2, k2, s2, c2⟩
    refine ⟨w2, k1.trans k2, by rw [s2, s1], fun z y x => ?_⟩
    rw [Nat.add_comm (y.val * c + x.val), c2 z.val (y.val * c + x.val) z.isLt (idx_bound y.isLt x.isLt), hsrc z.val z.isLt,
      ← (hM1 z).2 y x]

/-- **C47, partial** (`set_from_mlpp_vectors`, `set_from_mlpp_vectors_array`): vectors of one length become the rows of a
single slice. Missing: null entries and entries of another length are skipped, leaving uninitialised cells. -/
theorem C47_set_from_vectors_partial {k : Nat} (h : Heap R) (w : h.WF) (o : Nat) (ids : Fin k → Nat)
    (vs : Fin k → Fin c → R) (hM : ∀ z, IsVec h (ids z) (vs z)) (hl : ∀ z, h.live (.v (ids z)))
    (hk : 0 < k) (hc : 0 < c) :
    SetsTen (Ten.set_from_mlpp_vectors o (List.ofFn fun z => some (ids z))) h o (fun (_ : Fin 1) (y : Fin k) (x : Fin c) => vs y x) := by
  unfold SetsTen Ten.set_from_mlpp_vectors
  obtain ⟨n, rfl⟩ : ∃ n, k = n + 1 := ⟨k - 1, by omega⟩
  have hof : (List.ofFn fun z => some (ids z)) = some (ids 0) :: List.ofFn fun z : Fin n => some (ids z.succ) := by
    rw [List.ofFn_succ]
  have hlen : (List.ofFn fun z => some (ids z)).length = n + 1 := by simp
  have vsz : ∀ {h' : Heap R} (w' : h'.WF) (v : Nat) (f : Fin c → R), IsVec h' v f → Vec.size v h' = .ok (c, h') := by
    intro h' w' v f q
    rw [Vec.size_run w' v]
    congr 2
    have := w'.len (.v v); rw [q.1, count_vec] at this; exact this
  rw [hof]; dsimp only; rw [← hof, hlen]
  refine Runs.step (vsz w _ _ (hM 0)) ?_
  refine Runs.resize (l := .t o) (s := ⟨c, n + 1, 1⟩) w nofun nofun fun h1 w1 k1 n1 s1 _ => ?_
  refine Runs.step (Ten.size_run o h1) ?_
  rw [s1]
  rw [if_neg (by rw [count_ten]; exact (Nat.mul_pos (Nat.mul_pos hc hk) (by omega)).ne')]
  let src : Nat → Loc := fun i => if q : i < n + 1 then .v (ids ⟨i, q⟩) else .v 0
  have hsrc : ∀ i (q : i < n + 1), src i = .v (ids ⟨i, q⟩) := fun i q => dif_pos q
  have hM1 : ∀ z, IsVec h1 (ids z) (vs z) := fun z => (hM z).keep k1 (hl z) nofun
  refine (stackLoop_spec (o := o) (b := c) w1 src ?_ ?_ ?_ ?_ _ ?_).mono ?_
  · intro i hi; rw [hsrc i hi]; nofun
  · intro i hi; rw [hsrc i hi, w1.len, (hM1 _).1, count_vec]
  · rw [w1.len, s1, count_ten]; ring
  · intro i hi; rw [hsrc i hi]; exact k1.live (hl _)
  · intro i h' hi w' k' s'
    rw [List.getElem?_ofFn, dif_pos hi]
    dsimp only
    have := (hM1 ⟨i, hi⟩).keep k' (k1.live (hl _)) nofun
    rw [bind_ok (vsz w' _ _ this), if_pos rfl, hsrc i hi, Nat.mul_comm]
  · intro _ h2 ⟨w2, k2, s2, c2⟩
    refine ⟨w2, k1.trans k2, by rw [s2, s1], fun z y x => ?_⟩
    have hz : z.val = 0 := by omega
    rw [hz, Nat.mul_zero, Nat.add_zero, Nat.mul_comm y.val, c2 y.val x.val y.isLt x.isLt, hsrc y.val y.isLt,
      ← (hM1 y).2 x]

/-- **C47** (`set_from_mlpp_matrix`): a matrix becomes a single slice. -/
theorem C47_set_from_matrix (h : Heap R) (w : h.WF) (o a : Nat) (A : Matrix (Fin r) (Fin c) R) (hA : IsMat h a A)
    (la : h.live (.m a)) :
    SetsTen (Ten.set_from_mlpp_matrix o (some a)) h o (fun (_ : Fin 1) (y : Fin r) (x : Fin c) => A y x) := by
  unfold SetsTen Ten.set_from_mlpp_matrix
  refine Runs.step (Mat.size_run a h) ?_
  rw [hA.1, count_mat]
  refine Runs.resize (l := .t o) (s := ⟨c, r, 1⟩) w nofun nofun fun h1 w1 k1 n1 s1 _ => ?_
  have hA1 := hA.keep k1 la nofun
  refine Runs.of_eq (unLoop_run id (.m a) (.t o) (c * r) h1 (by rw [w1.len, hA1.1, count_mat])
    (by rw [w1.len, s1, count_mat])) ?_
  have u := updated_setBuf h1 (.t o) ((h1.buf (.m a)).map id)
  refine ⟨u.wf w1 ?_ nofun nofun, k1.trans u.keeps, s1, fun z y x => ?_⟩
  · rw [s1, count_mat, List.length_map, w1.len, hA1.1, count_mat]
  · rw [setBuf_buf_same, List.map_id, ← hA1.2 y x]
    have hz : z.val = 0 := by omega
    rw [hz, Nat.mul_zero, Nat.add_zero]

/-- A shorter vector in the list leaves a row of whatever the fresh allocation contained (here 7). -/
theorem C47_ragged_fails : ((do
      Vec.set_data 0 [1, 2]; Vec.set_data 1 [3]
      Ten.set_from_mlpp_vectors 0 [some 0, some 1] : M Int Unit)
    { Heap.init (fun _ _ => 7) with next := 2 }).bufOf (.t 0) = some [1, 2, 7, 7] := by decide +kernel

/-- A stack of two rows. -/
example : ((do
      Vec.set_data 0 [1, 2]; Vec.set_data 1 [3, 4]
      Ten.set_from_mlpp_vectors 0 [some 0, some 1] : M Int Unit)
    { Heap.init (fun _ _ => 7) with next := 2 }).bufOf (.t 0) = some [1, 2, 3, 4] := by decide +kernel

end Verif
