import Verif.Lemmas.Matrix
import Mathlib.Algebra.BigOperators.Fin
import Mathlib.Data.Matrix.Mul

/-! # Matrix methods against mathematical matrices -/

namespace Verif
open Spec
open SortArray (tab upd tab_get tab_length tab_set tab_of_list)
variable {R : Type} {m n p : Nat} {α β : Type}

/-! ## Running one statement -/

theorem Runs.step {c : M R α} {k : α → M R β} {h h' : Heap R} {a : α} {Q : β → Heap R → Prop} (e : c h = .ok (a, h'))
    (r : Runs (k a) h' Q) : Runs (c >>= k) h Q := by
  unfold Runs at *; rw [bind_ok e]; exact r

theorem Runs.congr {c c' : M R α} {h : Heap R} {Q : α → Heap R → Prop} (e : c h = c' h) (r : Runs c' h Q) : Runs c h Q := by
  unfold Runs at *; rw [e]; exact r

theorem Runs.newMat {h : Heap R} (w : h.WF) {s : Size} (hz : s.z = 1) {k : Loc → M R β} {Q : β → Heap R → Prop}
    (hk : ∀ h1 : Heap R, h1.WF → Keeps h h1 (fun _ => False) → ¬ h.live (.m h.next) → h1.live (.m h.next) →
      h1.size (.m h.next) = s → Runs (k (.m h.next)) h1 Q) :
    Runs (Verif.newMat >>= fun o => resizeTo o s >>= fun _ => k o) h Q := by
  obtain ⟨d, c, e, hd⟩ := newResize_run (.m 0) s h
  have e2 : (Verif.newMat >>= fun o => resizeTo o s >>= fun _ => k o) =
      ((do let o ← newLike (.m 0); resizeTo o s; pure o : M R Loc) >>= k) := by
    simp [newLike]
  rw [e2]
  refine Runs.step e ?_
  have cr : Created h { (h.setSize (.m h.next) s).setBuf (.m h.next) d with clock := c, next := h.next + 1 }
      (.m h.next) s d :=
    ⟨rfl, by simp, by simp, fun l hl => by simp [setBuf_buf, hl], fun l hl => by simp [setSize_size, hl], rfl, rfl⟩
  exact hk _ (cr.wf w hd nofun (fun _ _ => hz)) (cr.keeps _) (Nat.lt_irrefl _) (Nat.lt_succ_self _) cr.size

theorem Runs.newVec {h : Heap R} (w : h.WF) {s : Size} (hz : s.y = 1 ∧ s.z = 1) {k : Loc → M R β} {Q : β → Heap R → Prop}
    (hk : ∀ h1 : Heap R, h1.WF → Keeps h h1 (fun _ => False) → ¬ h.live (.v h.next) → h1.live (.v h.next) →
      h1.size (.v h.next) = s → Runs (k (.v h.next)) h1 Q) :
    Runs (Verif.newVec >>= fun o => resizeTo o s >>= fun _ => k o) h Q := by
  obtain ⟨d, c, e, hd⟩ := newResize_run (.v 0) s h
  have e2 : (Verif.newVec >>= fun o => resizeTo o s >>= fun _ => k o) =
      ((do let o ← newLike (.v 0); resizeTo o s; pure o : M R Loc) >>= k) := by
    simp [newLike]
  rw [e2]
  refine Runs.step e ?_
  have cr : Created h { (h.setSize (.v h.next) s).setBuf (.v h.next) d with clock := c, next := h.next + 1 }
      (.v h.next) s d :=
    ⟨rfl, by simp, by simp, fun l hl => by simp [setBuf_buf, hl], fun l hl => by simp [setSize_size, hl], rfl, rfl⟩
  exact hk _ (cr.wf w hd (fun _ _ => hz) nofun) (cr.keeps _) (Nat.lt_irrefl _) (Nat.lt_succ_self _) cr.size

/-- `if (size() != s) resize(s);` -/
theorem Runs.ensure {h : Heap R} (w : h.WF) {l : Loc} {s : Size} (hv : ∀ i, l = .v i → s.y = 1 ∧ s.z = 1)
    (hm : ∀ i, l = .m i → s.z = 1) {k : M R β} {Q : β → Heap R → Prop}
    (hk : ∀ h1 : Heap R, h1.WF → Keeps h h1 (· = l) → h1.next = h.next → h1.size l = s →
      (h.size l = s → h1.buf l = h.buf l) → Runs k h1 Q) :
    Runs (ensureSize l s >>= fun _ => k) h Q := by
  obtain ⟨d, c, e, hd, hsame⟩ := ensureSize_run l s h (w.len l)
  refine Runs.step e ?_
  have u : Updated h { (h.setSize l s).setBuf l d with clock := c } l s d :=
    ⟨by simp, by simp, fun l' hl => by simp [setBuf_buf, hl], fun l' hl => by simp [setSize_size, hl], rfl, rfl⟩
  exact hk _ (u.wf w hd hv hm) u.keeps u.next u.size (fun hs => by rw [u.buf]; exact hsame hs)

theorem Runs.resize {h : Heap R} (w : h.WF) {l : Loc} {s : Size} (hv : ∀ i, l = .v i → s.y = 1 ∧ s.z = 1)
    (hm : ∀ i, l = .m i → s.z = 1) {k : M R β} {Q : β → Heap R → Prop}
    (hk : ∀ h1 : Heap R, h1.WF → Keeps h h1 (· = l) → h1.next = h.next → h1.size l = s →
      (h.size l = s → h1.buf l = h.buf l) → Runs k h1 Q) :
    Runs (resizeTo l s >>= fun _ => k) h Q := by
  obtain ⟨d, c, e, hd, hsame⟩ := resizeTo_run' l s h (w.len l)
  refine Runs.step e ?_
  have u : Updated h { (h.setSize l s).setBuf l d with clock := c } l s d :=
    ⟨by simp, by simp, fun l' hl => by simp [setBuf_buf, hl], fun l' hl => by simp [setSize_size, hl], rfl, rfl⟩
  exact hk _ (u.wf w hd hv hm) u.keeps u.next u.size (fun hs => by rw [u.buf]; exact hsame hs)

theorem Runs.ensureM {h : Heap R} (w : h.WF) {o : Nat} {s : Size} (hz : s.z = 1) {k : M R β} {Q : β → Heap R → Prop}
    (hk : ∀ h1 : Heap R, h1.WF → Keeps h h1 (· = .m o) → h1.next = h.next → h1.size (.m o) = s →
      (h.size (.m o) = s → h1.buf (.m o) = h.buf (.m o)) → Runs k h1 Q) :
    Runs (ensureSize (.m o) s >>= fun _ => k) h Q :=
  Runs.ensure (l := .m o) w (fun _ e => nomatch e) (fun _ _ => hz) hk

theorem Runs.ensureV {h : Heap R} (w : h.WF) {o : Nat} {s : Size} (hz : s.y = 1 ∧ s.z = 1) {k : M R β} {Q : β → Heap R → Prop}
    (hk : ∀ h1 : Heap R, h1.WF → Keeps h h1 (· = .v o) → h1.next = h.next → h1.size (.v o) = s →
      (h.size (.v o) = s → h1.buf (.v o) = h.buf (.v o)) → Runs k h1 Q) :
    Runs (ensureSize (.v o) s >>= fun _ => k) h Q :=
  Runs.ensure (l := .v o) w (fun _ _ => hz) (fun _ e => nomatch e) hk

theorem Runs.resizeM {h : Heap R} (w : h.WF) {o : Nat} {s : Size} (hz : s.z = 1) {k : M R β} {Q : β → Heap R → Prop}
    (hk : ∀ h1 : Heap R, h1.WF → Keeps h h1 (· = .m o) → h1.next = h.next → h1.size (.m o) = s →
      (h.size (.m o) = s → h1.buf (.m o) = h.buf (.m o)) → Runs k h1 Q) :
    Runs (resizeTo (.m o) s >>= fun _ => k) h Q :=
  Runs.resize (l := .m o) w (fun _ e => nomatch e) (fun _ _ => hz) hk

theorem Runs.resizeV {h : Heap R} (w : h.WF) {o : Nat} {s : Size} (hz : s.y = 1 ∧ s.z = 1) {k : M R β} {Q : β → Heap R → Prop}
    (hk : ∀ h1 : Heap R, h1.WF → Keeps h h1 (· = .v o) → h1.next = h.next → h1.size (.v o) = s →
      (h.size (.v o) = s → h1.buf (.v o) = h.buf (.v o)) → Runs k h1 Q) :
    Runs (resizeTo (.v o) s >>= fun _ => k) h Q :=
  Runs.resize (l := .v o) w (fun _ _ => hz) (fun _ e => nomatch e) hk

theorem newMat_size {h : Heap R} {l : Loc} (ll : h.live l) (k : Loc → Size → M R β) :
    (newMat >>= fun o => getSize l >>= fun s => k o s) h = (newMat >>= fun o => k o (h.size l)) h := by
  rw [bind_ok (show newMat h = .ok (_, _) from rfl), bind_ok (show newMat h = .ok (_, _) from rfl), bind_ok (getSize_run _ _)]
  simp [setSize_size, live_ne_fresh ll (show (Loc.m h.next).id = h.next from rfl)]

theorem newVec_size {h : Heap R} {l : Loc} (ll : h.live l) (k : Loc → Size → M R β) :
    (newVec >>= fun o => getSize l >>= fun s => k o s) h = (newVec >>= fun o => k o (h.size l)) h := by
  rw [bind_ok (show newVec h = .ok (_, _) from rfl), bind_ok (show newVec h = .ok (_, _) from rfl), bind_ok (getSize_run _ _)]
  simp [setSize_size, live_ne_fresh ll (show (Loc.v h.next).id = h.next from rfl)]

/-- `fill(v)` on a matrix-shaped object. -/
theorem Runs.fill {h : Heap R} (w : h.WF) {l : Loc} {c r : Nat} (hs : h.size l = ⟨c, r, 1⟩) {v : R} {k : M R β}
    {Q : β → Heap R → Prop} (hk : Runs k (Gr h l c r fun _ _ => v) Q) : Runs (fillAll l v >>= fun _ => k) h Q := by
  refine Runs.step (fillAll_run l v h (w.len l)) ?_
  rw [hs, count_mat, replicate_eq_tab]; exact hk

theorem Runs.fillV {h : Heap R} (w : h.WF) {l : Loc} {n : Nat} (hs : h.size l = ⟨n, 1, 1⟩) {v : R} {k : M R β}
    {Q : β → Heap R → Prop} (hk : Runs k (SortArray.St h l n fun _ => v) Q) : Runs (fillAll l v >>= fun _ => k) h Q := by
  refine Runs.step (fillAll_run l v h (w.len l)) ?_
  rw [hs, count_vec, replicate_eq_vtab]; exact hk

/-- A heap that differs from `h` in the cells of one matrix. -/
theorem Gr_updated (h : Heap R) (l : Loc) {c r : Nat} (F : Nat → Nat → R) (hs : h.size l = ⟨c, r, 1⟩) :
    Updated h (Gr h l c r F) l ⟨c, r, 1⟩ (tab (c * r) (flat c F)) := by
  rw [← hs]; exact updated_setBuf h l _

theorem St_updated (h : Heap R) (l : Loc) {n : Nat} (f : Nat → R) (hs : h.size l = ⟨n, 1, 1⟩) :
    Updated h (SortArray.St h l n f) l ⟨n, 1, 1⟩ (tab n f) := by
  rw [← hs]; exact updated_setBuf h l _

theorem Gr_wf {h : Heap R} (w : h.WF) {o : Nat} {c r : Nat} (F : Nat → Nat → R) (hs : h.size (.m o) = ⟨c, r, 1⟩) :
    (Gr h (.m o) c r F).WF := (Gr_updated h _ F hs).wf w (by simp [Size.count]) nofun (fun _ _ => rfl)

theorem St_wf {h : Heap R} (w : h.WF) {o : Nat} {n : Nat} (f : Nat → R) (hs : h.size (.v o) = ⟨n, 1, 1⟩) :
    (SortArray.St h (.v o) n f).WF := (St_updated h _ f hs).wf w (by simp [Size.count]) (fun _ _ => ⟨rfl, rfl⟩) nofun

theorem Cells.keep {h h' : Heap R} {S : Loc → Prop} {l : Loc} {c r : Nat} {F : Nat → Nat → R} (a : Cells h l c r F)
    (k : Keeps h h' S) (hl : h.live l) (hs : ¬ S l) : Cells h' l c r F := by
  obtain ⟨h1, h2⟩ := k.2 _ hl hs
  unfold Cells; rw [h1, h2]; exact a
theorem VCells.keep {h h' : Heap R} {S : Loc → Prop} {l : Loc} {n : Nat} {f : Nat → R} (a : VCells h l n f)
    (k : Keeps h h' S) (hl : h.live l) (hs : ¬ S l) : VCells h' l n f := by
  obtain ⟨h1, h2⟩ := k.2 _ hl hs
  unfold VCells; rw [h1, h2]; exact a
/-- Same, when the object is untouched although perhaps not created yet. -/
theorem Cells.ofEq {h h' : Heap R} {l : Loc} {c r : Nat} {F : Nat → Nat → R} (a : Cells h l c r F)
    (e1 : h'.buf l = h.buf l) (e2 : h'.size l = h.size l) : Cells h' l c r F := by
  unfold Cells; rw [e1, e2]; exact a

/-- The new matrix `h.next`, filled in by `k`. -/
theorem returnsMat_Gr {h h1 : Heap R} {o : Nat} (w1 : h1.WF) (k : Keeps h h1 (fun _ => False)) (hf : ¬ h.live (.m o))
    (hl : h1.live (.m o)) (hs : h1.size (.m o) = ⟨n, m, 1⟩) {F : Nat → Nat → R} {A : Matrix (Fin m) (Fin n) R}
    (ea : ∀ i j, A i j = F i j) :
    ∃ o', some (Loc.m o) = some (Loc.m o') ∧ ¬ h.live (.m o') ∧ (Gr h1 (.m o) n m F).live (.m o') ∧ (Gr h1 (.m o) n m F).WF ∧
      Keeps h (Gr h1 (.m o) n m F) (fun _ => False) ∧ IsMat (Gr h1 (.m o) n m F) o' A :=
  ⟨o, rfl, hf, hl, Gr_wf w1 F hs, k.trans_new (Gr_updated h1 _ F hs).keeps (fun _ e hl' => hf (e ▸ hl')),
    (Gr_cells h1 o n m F hs).isMat ea⟩

theorem returnsVec_St {h h1 : Heap R} {o : Nat} (w1 : h1.WF) (k : Keeps h h1 (fun _ => False)) (hf : ¬ h.live (.v o))
    (hl : h1.live (.v o)) (hs : h1.size (.v o) = ⟨n, 1, 1⟩) {f : Nat → R} {v : Fin n → R}
    (ea : ∀ i, v i = f i) :
    ∃ o', some (Loc.v o) = some (Loc.v o') ∧ ¬ h.live (.v o') ∧ (SortArray.St h1 (.v o) n f).live (.v o') ∧
      (SortArray.St h1 (.v o) n f).WF ∧ Keeps h (SortArray.St h1 (.v o) n f) (fun _ => False) ∧
      IsVec (SortArray.St h1 (.v o) n f) o' v :=
  ⟨o, rfl, hf, hl, St_wf w1 f hs, k.trans_new (St_updated h1 _ f hs).keeps (fun _ e hl' => hf (e ▸ hl')),
    VCells.isVec (h := SortArray.St h1 (.v o) n f) ⟨hs, by simp [SortArray.St]⟩ ea⟩

theorem setsMat_Gr {h h1 : Heap R} {o : Nat} (w1 : h1.WF) (k : Keeps h h1 (· = .m o))
    (hs : h1.size (.m o) = ⟨n, m, 1⟩) {F : Nat → Nat → R} {A : Matrix (Fin m) (Fin n) R}
    (ea : ∀ i j, A i j = F i j) :
    (Gr h1 (.m o) n m F).WF ∧ Keeps h (Gr h1 (.m o) n m F) (· = .m o) ∧ IsMat (Gr h1 (.m o) n m F) o A :=
  ⟨Gr_wf w1 F hs, k.trans (Gr_updated h1 _ F hs).keeps, (Gr_cells h1 o n m F hs).isMat ea⟩

theorem setsVec_St {h h1 : Heap R} {o : Nat} (w1 : h1.WF) (k : Keeps h h1 (· = .v o))
    (hs : h1.size (.v o) = ⟨n, 1, 1⟩) {f : Nat → R} {v : Fin n → R} (ea : ∀ i, v i = f i) :
    (SortArray.St h1 (.v o) n f).WF ∧ Keeps h (SortArray.St h1 (.v o) n f) (· = .v o) ∧
      IsVec (SortArray.St h1 (.v o) n f) o v :=
  ⟨St_wf w1 f hs, k.trans (St_updated h1 _ f hs).keeps, VCells.isVec (h := SortArray.St h1 (.v o) n f) ⟨hs, by simp [SortArray.St]⟩ ea⟩

/-! ## Sums -/

theorem foldl_add_eq_sum [AddCommMonoid R] (n : Nat) (f : Nat → R) (a : R) :
    (List.range n).foldl (fun acc k => acc + f k) a = a + ∑ k : Fin n, f k := by
  induction n with
  | zero => simp
  | succ n ih => rw [List.range_succ, List.foldl_append, ih, Fin.sum_univ_castSucc]; simp [add_assoc]

theorem foldl_mul_eq [NonUnitalNonAssocSemiring R] {A : Matrix (Fin m) (Fin n) R} {B : Matrix (Fin n) (Fin p) R}
    {F G : Nat → Nat → R} (hA : ∀ i j, A i j = F i j) (hB : ∀ i j, B i j = G i j) (i : Fin m) (j : Fin p) :
    (A * B) i j = (List.range n).foldl (fun acc k => acc + F i k * G k j) 0 := by
  rw [foldl_add_eq_sum, zero_add, Matrix.mul_apply]
  exact Finset.sum_congr rfl fun k _ => by rw [hA, hB]

theorem foldl_mulVec_eq [NonUnitalNonAssocSemiring R] {A : Matrix (Fin m) (Fin n) R} {v : Fin n → R}
    {F : Nat → Nat → R} {g : Nat → R} (hA : ∀ i j, A i j = F i j) (hv : ∀ j, v j = g j) (i : Fin m) :
    (A.mulVec v) i = (List.range n).foldl (fun acc k => acc + F i k * g k) 0 := by
  rw [foldl_add_eq_sum, zero_add]
  show (∑ k, A i k * v k) = _
  exact Finset.sum_congr rfl fun k _ => by rw [hA, hv]

namespace Mat

/-- `multn` -/
theorem multn_spec [NonUnitalNonAssocSemiring R] {h : Heap R} (w : h.WF) {a b : Nat} {A : Matrix (Fin m) (Fin n) R}
    {B : Matrix (Fin n) (Fin p) R} (hA : IsMat h a A) (hB : IsMat h b B) (la : h.live (.m a)) (lb : h.live (.m b)) :
    ReturnsMat (multn a (some b)) h (A * B) := by
  obtain ⟨F, eF, cA⟩ := hA.cells w
  obtain ⟨G, eG, cB⟩ := hB.cells w
  unfold multn
  refine Runs.step (size_run b h) (Runs.step (size_run a h) ?_)
  rw [cA.1, cB.1]
  simp only [if_true]
  refine Runs.newMat w rfl fun h1 w1 k1 f1 l1 s1 => Runs.fill w1 s1 ?_
  refine Runs.step (getSize_run _ _) ?_
  rw [Gr_size, s1]
  refine Runs.step (multLoop_run (cA.keep k1 la nofun) (cB.keep k1 lb nofun) (live_ne_fresh la rfl) (live_ne_fresh lb rfl) _)
    (returnsMat_Gr w1 k1 f1 l1 s1 fun i j => foldl_mul_eq eF eG i j)

/-- `multb` into a matrix that is neither operand. -/
theorem multb_spec [NonUnitalNonAssocSemiring R] {h : Heap R} (w : h.WF) {t a b : Nat} {A : Matrix (Fin m) (Fin n) R}
    {B : Matrix (Fin n) (Fin p) R} (hA : IsMat h a A) (hB : IsMat h b B) (la : h.live (.m a)) (lb : h.live (.m b))
    (ta : t ≠ a) (tb : t ≠ b) : SetsMat (multb t (some a) (some b)) h t (A * B) := by
  obtain ⟨F, eF, cA⟩ := hA.cells w
  obtain ⟨G, eG, cB⟩ := hB.cells w
  have na : Loc.m a ≠ .m t := fun e => ta (Loc.m.inj e).symm
  have nb : Loc.m b ≠ .m t := fun e => tb (Loc.m.inj e).symm
  unfold multb
  refine Runs.step (size_run a h) (Runs.step (size_run b h) ?_)
  rw [cA.1, cB.1]
  simp only [if_true]
  refine Runs.ensureM w rfl fun h1 w1 k1 n1 s1 _ => Runs.fill w1 s1 ?_
  have cA1 := cA.keep k1 la na
  have cB1 := cB.keep k1 lb nb
  refine Runs.step (size_run a _) (Runs.step (size_run b _) (Runs.step (size_run t _) ?_))
  rw [Gr_size, s1, cA1.1, cB1.1]
  exact Runs.of_eq (multLoop_run cA1 cB1 na nb _) (setsMat_Gr w1 k1 s1 fun i j => foldl_mul_eq eF eG i j)

theorem unN_id_spec {h : Heap R} (w : h.WF) {a : Nat} {A : Matrix (Fin m) (Fin n) R} (hA : IsMat h a A)
    (la : h.live (.m a)) : ReturnsMat (duplicate_fast a) h A := by
  obtain ⟨F, eF, cA⟩ := hA.cells w
  obtain ⟨h', e, cr⟩ := unN_run id (.m a) h (w.len _) la
  rw [cA.1, cA.2, List.map_id] at cr
  exact created_returnsMat w e cr eF

/-- `mult` by a matrix other than the receiver. -/
theorem mult_spec [NonUnitalNonAssocSemiring R] {h : Heap R} (w : h.WF) {a b : Nat} {A : Matrix (Fin m) (Fin n) R}
    {B : Matrix (Fin n) (Fin p) R} (hA : IsMat h a A) (hB : IsMat h b B) (la : h.live (.m a)) (lb : h.live (.m b))
    (hab : a ≠ b) : SetsMat (mult a (some b)) h a (A * B) := by
  unfold mult
  refine Runs.step (size_run b h) (Runs.step (size_run a h) ?_)
  rw [hA.1, hB.1]
  simp only [if_true]
  refine (unN_id_spec w hA la).bind fun o h1 w1 k1 f1 l1 hA1 => ?_
  obtain ⟨F, eF, cA⟩ := hA1.cells w1
  obtain ⟨G, eG, cB⟩ := (hB.keep k1 lb nofun).cells w1
  have na : Loc.m o ≠ .m a := fun e => f1 (e ▸ la)
  have nb : Loc.m b ≠ .m a := fun e => hab (Loc.m.inj e).symm
  refine Runs.step (derefM_run o h1) (Runs.step (size_run o h1) ?_)
  rw [cA.1]
  refine Runs.ensureM w1 rfl fun h2 w2 k2 n2 s2 _ => Runs.fill w2 s2 ?_
  have cA2 := cA.keep k2 l1 na
  have cB2 := cB.keep k2 (k1.live lb) nb
  refine Runs.step (size_run a _) (Runs.step (size_run b _) ?_)
  rw [Gr_size, s2, cB2.1]
  exact Runs.of_eq (multLoop_run cA2 cB2 na nb _)
    (setsMat_Gr w2 ((k1.mono fun _ _ => False.elim).trans k2) s2 fun i j => foldl_mul_eq eF eG i j)

/-! ### Transpose -/

theorem transposen_spec {h : Heap R} (w : h.WF) {a : Nat} {A : Matrix (Fin m) (Fin n) R} (hA : IsMat h a A)
    (la : h.live (.m a)) : ReturnsMat (transposen a) h A.transpose := by
  obtain ⟨F, eF, cA⟩ := hA.cells w
  unfold transposen
  refine Runs.congr (newMat_size la _) ?_
  rw [cA.1]
  refine Runs.newMat w rfl fun h1 w1 k1 f1 l1 s1 => ?_
  refine Runs.step (getSize_run _ _) ?_
  rw [s1]
  have hl : (h1.buf (.m h.next)).length = m * n := by rw [w1.len, s1]; simp [Size.count]
  have hne : Loc.m a ≠ .m h.next := live_ne_fresh la rfl
  have e1 : transLoop (.m a) (.m h.next) m n n m h1 = .ok ((), Gr h1 (.m h.next) m n fun i j => F j i) := by
    conv => lhs; rw [self_Gr hl]
    exact transLoop_run (cA.keep k1 la nofun) hne _
  exact Runs.step e1 (returnsMat_Gr w1 k1 f1 l1 s1 fun i j => eF j i)

theorem transposeb_spec {h : Heap R} (w : h.WF) {t a : Nat} {A : Matrix (Fin m) (Fin n) R} (hA : IsMat h a A)
    (la : h.live (.m a)) (ta : t ≠ a) : SetsMat (transposeb t (some a)) h t A.transpose := by
  obtain ⟨F, eF, cA⟩ := hA.cells w
  have na : Loc.m a ≠ .m t := fun e => ta (Loc.m.inj e).symm
  unfold transposeb
  refine Runs.step (size_run a h) ?_
  rw [cA.1]
  refine Runs.ensureM w rfl fun h1 w1 k1 n1 s1 _ => ?_
  have cA1 := cA.keep k1 la na
  refine Runs.step (size_run a h1) (Runs.step (size_run t h1) ?_)
  rw [cA1.1, s1]
  have hl : (h1.buf (.m t)).length = m * n := by rw [w1.len, s1]; simp [Size.count]
  have e1 : transLoop (.m a) (.m t) m n n m h1 = .ok ((), Gr h1 (.m t) m n fun i j => F j i) := by
    conv => lhs; rw [self_Gr hl]
    exact transLoop_run cA1 na _
  exact Runs.of_eq e1 (setsMat_Gr w1 k1 s1 fun i j => eF j i)

theorem transpose_spec {h : Heap R} (w : h.WF) {a : Nat} {A : Matrix (Fin m) (Fin n) R} (hA : IsMat h a A)
    (la : h.live (.m a)) : SetsMat (transpose a) h a A.transpose := by
  unfold transpose
  refine (unN_id_spec w hA la).bind fun o h1 w1 k1 f1 l1 hA1 => ?_
  obtain ⟨F, eF, cA⟩ := hA1.cells w1
  have na : Loc.m o ≠ .m a := fun e => f1 (e ▸ la)
  refine Runs.step (derefM_run o h1) (Runs.step (size_run o h1) ?_)
  rw [cA.1]
  refine Runs.resizeM w1 rfl fun h2 w2 k2 n2 s2 _ => ?_
  have cA2 := cA.keep k2 l1 na
  refine Runs.step (size_run a h2) ?_
  rw [s2]
  have hl : (h2.buf (.m a)).length = m * n := by rw [w2.len, s2]; simp [Size.count]
  have e1 : transLoop (.m o) (.m a) m n n m h2 = .ok ((), Gr h2 (.m a) m n fun i j => F j i) := by
    conv => lhs; rw [self_Gr hl]
    exact transLoop_run cA2 na _
  exact Runs.of_eq e1 (setsMat_Gr w2 ((k1.mono fun _ _ => False.elim).trans k2) s2 fun i j => eF j i)

/-! ### Vectors -/

theorem mult_vec_spec [NonUnitalNonAssocSemiring R] {h : Heap R} (w : h.WF) {a b : Nat} {A : Matrix (Fin m) (Fin n) R}
    {v : Fin n → R} (hA : IsMat h a A) (hB : IsVec h b v) (la : h.live (.m a)) (lb : h.live (.v b)) :
    ReturnsVec (mult_vec a (some b)) h (A.mulVec v) := by
  obtain ⟨F, eF, cA⟩ := hA.cells w
  obtain ⟨g, eg, cB⟩ := hB.cells w
  unfold mult_vec Vec.size
  refine Runs.step (bind_ok (getSize_run (.v b) h)) (Runs.step (size_run a h) ?_)
  rw [cA.1, cB.1]
  simp only [lt_self_iff_false, if_false]
  refine Runs.newVec w ⟨rfl, rfl⟩ fun h1 w1 k1 f1 l1 s1 => Runs.fillV w1 s1 ?_
  refine Runs.step (multVecLoop_run (c := .v _) (cA.keep k1 la nofun) (cB.keep k1 lb nofun) (Nat.le_refl _) nofun
    (live_ne_fresh lb rfl) _) (returnsVec_St w1 k1 f1 l1 s1 fun i => foldl_mulVec_eq eF eg i)

theorem mult_veco_spec [NonUnitalNonAssocSemiring R] {h : Heap R} (w : h.WF) {a b t : Nat} {A : Matrix (Fin m) (Fin n) R}
    {v : Fin n → R} (hA : IsMat h a A) (hB : IsVec h b v) (la : h.live (.m a)) (lb : h.live (.v b)) (tb : t ≠ b) :
    SetsVec (mult_veco a (some b) (some t)) h t (A.mulVec v) := by
  obtain ⟨F, eF, cA⟩ := hA.cells w
  obtain ⟨g, eg, cB⟩ := hB.cells w
  have nb : Loc.v b ≠ .v t := fun e => tb (Loc.v.inj e).symm
  unfold mult_veco Vec.size
  refine Runs.step (bind_ok (getSize_run (.v b) h)) (Runs.step (size_run a h) ?_)
  rw [cA.1, cB.1]
  simp only [lt_self_iff_false, if_false]
  refine Runs.ensureV w ⟨rfl, rfl⟩ fun h1 w1 k1 n1 s1 _ => Runs.fillV w1 s1 ?_
  exact Runs.of_eq (multVecLoop_run (c := .v _) (cA.keep k1 la nofun) (cB.keep k1 lb nb) (Nat.le_refl _) nofun nb _)
    (setsVec_St w1 k1 s1 fun i => foldl_mulVec_eq eF eg i)

theorem add_vec_spec [Add R] {h : Heap R} (w : h.WF) {a b : Nat} {A : Matrix (Fin m) (Fin n) R}
    {v : Fin n → R} (hA : IsMat h a A) (hB : IsVec h b v) :
    SetsMat (add_vec a (some b)) h a (fun i j => A i j + v j) := by
  obtain ⟨F, eF, cA⟩ := hA.cells w
  obtain ⟨g, eg, cB⟩ := hB.cells w
  unfold add_vec Vec.size
  refine Runs.step (bind_ok (getSize_run (.v b) h)) (Runs.step (size_run a h) ?_)
  rw [cA.1, cB.1]
  simp only [if_true]
  exact Runs.of_eq (addVecLoop_run cA cB nofun (by rw [cA.2]; simp))
    (setsMat_Gr w (Keeps.refl _ _) cA.1 fun i j => by rw [eF, eg])

theorem add_vecn_spec [Add R] {h : Heap R} (w : h.WF) {a b : Nat} {A : Matrix (Fin m) (Fin n) R}
    {v : Fin n → R} (hA : IsMat h a A) (hB : IsVec h b v) (la : h.live (.m a)) (lb : h.live (.v b)) :
    ReturnsMat (add_vecn a (some b)) h (fun i j => A i j + v j) := by
  obtain ⟨F, eF, cA⟩ := hA.cells w
  obtain ⟨g, eg, cB⟩ := hB.cells w
  unfold add_vecn Vec.size
  refine Runs.step (bind_ok (getSize_run (.v b) h)) (Runs.step (size_run a h) ?_)
  rw [cA.1, cB.1]
  simp only [if_true]
  refine Runs.newMat w rfl fun h1 w1 k1 f1 l1 s1 => ?_
  exact Runs.step (addVecLoop_run (cA.keep k1 la nofun) (cB.keep k1 lb nofun) nofun
    (by rw [w1.len, s1]; simp [Size.count])) (returnsMat_Gr w1 k1 f1 l1 s1 fun i j => by rw [eF, eg])

theorem add_vecb_spec [Add R] {h : Heap R} (w : h.WF) {t a b : Nat} {A : Matrix (Fin m) (Fin n) R}
    {v : Fin n → R} (hA : IsMat h a A) (hB : IsVec h b v) (la : h.live (.m a)) (lb : h.live (.v b)) :
    SetsMat (add_vecb t (some a) (some b)) h t (fun i j => A i j + v j) := by
  obtain ⟨F, eF, cA⟩ := hA.cells w
  obtain ⟨g, eg, cB⟩ := hB.cells w
  unfold add_vecb Vec.size
  refine Runs.step (size_run a h) (Runs.step (bind_ok (getSize_run (.v b) h)) ?_)
  rw [cA.1, cB.1]
  simp only [if_true]
  refine Runs.ensureM w rfl fun h1 w1 k1 n1 s1 same => ?_
  have cA1 : Cells h1 (.m a) n m F := by
    by_cases e : a = t
    · subst e; exact cA.ofEq (same cA.1) (by rw [s1, cA.1])
    · exact cA.keep k1 la fun e' => e (Loc.m.inj e')
  exact Runs.of_eq (addVecLoop_run cA1 (cB.keep k1 lb nofun) nofun
    (by rw [w1.len, s1]; simp [Size.count])) (setsMat_Gr w1 k1 s1 fun i j => by rw [eF, eg])

theorem outer_product_spec [Mul R] {h : Heap R} (w : h.WF) {t a b : Nat} {u : Fin m → R}
    {v : Fin n → R} (hA : IsVec h a u) (hB : IsVec h b v) (la : h.live (.v a)) (lb : h.live (.v b)) :
    SetsMat (outer_product t (some a) (some b)) h t (fun i j => u i * v j) := by
  obtain ⟨f, ef, cA⟩ := hA.cells w
  obtain ⟨g, eg, cB⟩ := hB.cells w
  unfold outer_product Vec.size
  refine Runs.step (bind_ok (getSize_run (.v b) h)) (Runs.step (bind_ok (getSize_run (.v a) h)) ?_)
  rw [cA.1, cB.1]
  refine Runs.ensureM w rfl fun h1 w1 k1 n1 s1 _ => ?_
  have hl : (h1.buf (.m t)).length = n * m := by rw [w1.len, s1]; simp [Size.count]
  have e1 : outerLoop t (.v a) (.v b) m n h1 = .ok ((), Gr h1 (.m t) n m fun i j => f i * g j) := by
    conv => lhs; rw [self_Gr hl]
    exact outerLoop_run (cA.keep k1 la nofun) (cB.keep k1 lb nofun) nofun nofun s1 _
  exact Runs.of_eq e1 (setsMat_Gr w1 k1 s1 fun i j => by rw [ef, eg])

theorem outer_productn_spec [Mul R] {h : Heap R} (w : h.WF) {a b : Nat} {u : Fin m → R}
    {v : Fin n → R} (hA : IsVec h a u) (hB : IsVec h b v) (la : h.live (.v a)) (lb : h.live (.v b)) :
    ReturnsMat (outer_productn (some a) (some b)) h (fun i j => u i * v j) := by
  obtain ⟨f, ef, cA⟩ := hA.cells w
  obtain ⟨g, eg, cB⟩ := hB.cells w
  have e : outer_productn (some a) (some b) h = (newMat >>= fun C => resizeTo C ⟨n, m, 1⟩ >>= fun _ => do
      outerLoop C.id (.v a) (.v b) m n
      pure (some C)) h := by
    unfold outer_productn Vec.size
    simp only [bind_assoc, pure_bind]
    rw [newMat_size lb]
    have := newMat_size (h := h) (l := .v a) la (fun C s => do
      resizeTo C ⟨(h.size (.v b)).x, s.x, 1⟩
      outerLoop C.id (.v a) (.v b) s.x (h.size (.v b)).x
      pure (some C))
    rw [this, cA.1, cB.1]
  refine Runs.congr e (Runs.newMat w rfl fun h1 w1 k1 f1 l1 s1 => ?_)
  have hl : (h1.buf (.m h.next)).length = n * m := by rw [w1.len, s1]; simp [Size.count]
  have e1 : outerLoop h.next (.v a) (.v b) m n h1 = .ok ((), Gr h1 (.m h.next) n m fun i j => f i * g j) := by
    conv => lhs; rw [self_Gr hl]
    exact outerLoop_run (cA.keep k1 la nofun) (cB.keep k1 lb nofun) nofun nofun s1 _
  exact Runs.step e1 (returnsMat_Gr w1 k1 f1 l1 s1 fun i j => by rw [ef, eg])

theorem flatten_spec {h : Heap R} (w : h.WF) {a : Nat} {A : Matrix (Fin m) (Fin n) R} (hA : IsMat h a A)
    (la : h.live (.m a)) :
    Runs (flatten a) h fun r h' => ∃ o, r = some (.v o) ∧ ¬ h.live (.v o) ∧ h'.live (.v o) ∧ h'.WF ∧
      Keeps h h' (fun _ => False) ∧ h'.size (.v o) = ⟨n * m, 1, 1⟩ ∧
      ∀ (i : Fin m) (j : Fin n), (h'.buf (.v o))[i.val * n + j.val]? = some (A i j) := by
  unfold flatten
  refine Runs.step (size_run a h) ?_
  rw [hA.1, count_mat]
  refine Runs.newVec w ⟨rfl, rfl⟩ fun h1 w1 k1 f1 l1 s1 => ?_
  obtain ⟨e1, e2⟩ := k1.2 _ la nofun
  refine Runs.step (unLoop_run id (.m a) (.v h.next) (n * m) h1 (by rw [e1, w.len, hA.1, count_mat])
    (by rw [w1.len, s1, count_vec])) ?_
  have u := updated_setBuf h1 (.v h.next) ((h1.buf (.m a)).map id)
  refine ⟨h.next, rfl, f1, l1, u.wf w1 ?_ (fun _ _ => by rw [s1]; exact ⟨rfl, rfl⟩) nofun,
    k1.trans_new u.keeps (fun _ e hl' => f1 (e ▸ hl')), s1, ?_⟩
  · rw [s1, count_vec, List.length_map, e1, w.len, hA.1, count_mat]
  · intro i j
    rw [setBuf_buf_same, List.map_id, e1, hA.2]

theorem flatteno_spec {h : Heap R} (w : h.WF) {a t : Nat} {A : Matrix (Fin m) (Fin n) R} (hA : IsMat h a A)
    (la : h.live (.m a)) :
    Runs (flatteno a (some t)) h fun _ h' => h'.WF ∧
      Keeps h h' (· = .v t) ∧ h'.size (.v t) = ⟨n * m, 1, 1⟩ ∧
      ∀ (i : Fin m) (j : Fin n), (h'.buf (.v t))[i.val * n + j.val]? = some (A i j) := by
  unfold flatteno
  refine Runs.step (size_run a h) ?_
  rw [hA.1, count_mat]
  refine Runs.ensureV w ⟨rfl, rfl⟩ fun h1 w1 k1 n1 s1 _ => ?_
  obtain ⟨e1, e2⟩ := k1.2 _ la nofun
  refine Runs.of_eq (unLoop_run id (.m a) (.v t) (n * m) h1 (by rw [e1, w.len, hA.1, count_mat])
    (by rw [w1.len, s1, count_vec])) ?_
  have u := updated_setBuf h1 (.v t) ((h1.buf (.m a)).map id)
  refine ⟨u.wf w1 ?_ (fun _ _ => by rw [s1]; exact ⟨rfl, rfl⟩) nofun, k1.trans u.keeps, s1, ?_⟩
  · rw [s1, count_vec, List.length_map, e1, w.len, hA.1, count_mat]
  · intro i j
    rw [setBuf_buf_same, List.map_id, e1, hA.2]

theorem Loc_id_m (i : Nat) : (Loc.m i).id = i := rfl

end Mat
end Verif
