import Verif.Lemmas.ElementwiseSpec
import Verif.Lemmas.MatrixOps
import Verif.Model.LinAlg
import Verif.Spec.Lift

/-! # Composition of element-wise calls -/

namespace Verif
open Spec
variable {R α β σ : Type}

/-! ## Row-by-row loops are flat loops -/

theorem loop_append (lo a b : Nat) (s : σ) (body : Nat → σ → M R σ) :
    loop lo (a + b) s body = (loop lo a s body >>= fun s' => loop (lo + a) b s' body) := by
  induction a generalizing lo s with
  | zero => simp [loop_zero]
  | succ a ih =>
    rw [show a + 1 + b = (a + b) + 1 from by omega, loop_succ, loop_succ, bind_assoc]
    congr 1
    funext s'
    rw [ih (lo + 1) s', show lo + 1 + a = lo + (a + 1) from by omega]

theorem loop_shift (lo k c : Nat) (s : σ) (body : Nat → σ → M R σ) :
    loop (lo + k) c s body = loop k c s (fun i => body (lo + i)) := by
  induction c generalizing k s with
  | zero => rfl
  | succ c ih => rw [loop_succ, loop_succ]; congr 1; funext s'; exact ih (k + 1) s'

/-- A loop over rows and columns visits the cells in order. -/
theorem forN_grid (r c : Nat) (body : Nat → M R Unit) :
    (forN r fun i => forN c fun j => body (i * c + j)) = forN (r * c) body := by
  induction r with
  | zero => rw [Nat.zero_mul]; rfl
  | succ r ih =>
    have e1 : (forN (r + 1) fun i => forN c fun j => body (i * c + j)) =
        (forN r (fun i => forN c fun j => body (i * c + j)) >>= fun _ => forN c fun j => body (r * c + j)) := by
      unfold forN
      rw [loop_append]
      congr 1
      funext _
      rw [loop_succ, Nat.zero_add]; simp [loop_zero]
    have e2 : forN ((r + 1) * c) body = (forN (r * c) body >>= fun _ => forN c fun j => body (r * c + j)) := by
      unfold forN
      rw [Nat.succ_mul, loop_append]
      congr 1
      funext _
      rw [Nat.zero_add]
      exact loop_shift (r * c) 0 c () fun i _ => body i
    rw [e1, e2, ih]

/-! ## The functions of `MLPPLinAlg` -/

section
variable {h h' : Heap R} {mk : Nat → Loc} (K : IsKind (R := R) mk)
include K

theorem created_returnsNew {c : M R Ref} (w : h.WF) {s : Size} {d : List R} (hd : d.length = s.count) {z : Nat}
    (hz : s = h.size (mk z)) (e : c h = .ok (some (mk h.next), h')) (cr : Created h h' (mk h.next) s d) :
    ReturnsNew mk c h s d := by
  refine Runs.of_eq e ⟨h.next, rfl, ?_, ?_, cr.wf w hd ?_ ?_, cr.keeps _, cr.size, cr.buf⟩
  · unfold Heap.live; rw [K.id]; omega
  · unfold Heap.live; rw [K.id, cr.next]; omega
  · subst hz; exact fun k e => (K.sizes h w h.next z).1 k e
  · subst hz; exact fun k e => (K.sizes h w h.next z).2 k e

theorem unN_lifts (f : R → R) : ∀ (h : Heap R), h.WF → ∀ z, h.live (mk z) →
    ReturnsNew mk (unN f (mk z)) h (h.size (mk z)) ((h.buf (mk z)).map f) := by
  intro h w z l
  obtain ⟨h', e, c⟩ := unN_run f (mk z) h (w.len _) l
  rw [K.like] at e c
  exact created_returnsNew K w (by simp [w.len]) rfl e c

theorem binN_lifts (f : R → R → R) : ∀ (h : Heap R), h.WF → ∀ a b, h.live (mk a) → h.live (mk b) →
    h.size (mk a) = h.size (mk b) →
    ReturnsNew mk (binN f (mk a) (some (mk b))) h (h.size (mk a)) (List.zipWith f (h.buf (mk a)) (h.buf (mk b))) := by
  intro h w a b l1 l2 hs
  obtain ⟨h', e, c⟩ := binN_run f (mk a) (mk b) h (w.len _) (w.len _) hs l1 l2
  rw [K.like] at e c
  exact created_returnsNew K w (by simp [w.len, ← hs]) rfl e c
end

namespace LinAlg

theorem unV_lifts (f : R → R) : Lifts Loc.v f fun a => unR f a.asV := fun h w z l => unN_lifts kindV f h w z l
theorem unM_lifts (f : R → R) : Lifts Loc.m f fun a => unR f a.asM := fun h w z l => unN_lifts kindM f h w z l
theorem binV_lifts (f : R → R → R) : Lifts2 Loc.v f fun a b => binR f a.asV b.asV :=
  fun h w a b l1 l2 hs => binN_lifts kindV f h w a b l1 l2 hs
theorem binM_lifts (f : R → R → R) : Lifts2 Loc.m f fun a b => binR f a.asM b.asM :=
  fun h w a b l1 l2 hs => binN_lifts kindM f h w a b l1 l2 hs

theorem gridLoop_eq (f : R → R → R) (a b out : Loc) (s : Size) (hz : s.z = 1) :
    gridLoop f a b out s = binLoop f a b out s.count := by
  unfold gridLoop binLoop
  rw [forN_grid s.y s.x fun p => do
    let x ← load a p
    let y ← load b p
    store out p (f x y)]
  rw [Size.count, hz, Nat.mul_one, Nat.mul_comm]

theorem gridM_lifts (f : R → R → R) : Lifts2 Loc.m f fun a b => gridR f a.asM b.asM := by
  intro h w a b l1 l2 hs
  have := binN_lifts kindM f h w a b l1 l2 hs
  unfold ReturnsNew at this ⊢
  refine Runs.congr ?_ this
  show gridR f (some (.m a)) (some (.m b)) h = binN f (.m a) (some (.m b)) h
  unfold gridR binN
  dsimp only
  rw [bind_ok (getSize_run _ _), bind_ok (getSize_run _ _), bind_ok (getSize_run _ _), bind_ok (getSize_run _ _),
    if_pos hs, if_pos hs]
  simp only [gridLoop_eq f (.m a) (.m b) _ (h.size (.m a)) (w.mat a)]
  rfl

theorem dupM_lifts (f : R → R) : Lifts Loc.m f fun a => dupR f a.asM := by
  intro h w z l
  obtain ⟨h1, e1, c1⟩ := duplicateFast_run (.m z) h (w.len _) l
  have hz : (h.size (.m z)).z = 1 := w.mat z
  have e : dupR f (Ref.asM (some (.m z))) h = .ok (some (.m h.next), h1.setBuf (.m h.next) ((h.buf (.m z)).map f)) := by
    show (do
      let r ← duplicateFast (.m z)
      let an ← deref r
      let s ← getSize an
      forN s.y fun i => forN s.x fun j => do
        let x ← load an (i * s.x + j)
        store an (i * s.x + j) (f x)
      pure r : M R Ref) h = _
    rw [bind_ok e1, bind_ok (show deref (some ((Loc.m z).like h.next)) h1 = .ok (.m h.next, h1) from rfl),
      bind_ok (getSize_run _ _)]
    rw [forN_grid _ _ fun p => do
      let x ← load (.m h.next) p
      store (.m h.next) p (f x)]
    have hs : h1.size (.m h.next) = h.size (.m z) := c1.size
    have hb : h1.buf (.m h.next) = h.buf (.m z) := c1.buf
    have hc : (h1.size (.m h.next)).y * (h1.size (.m h.next)).x = (h.size (.m z)).count := by
      rw [hs, Size.count, hz, Nat.mul_one, Nat.mul_comm]
    rw [hc]
    have := unLoop_run f (.m h.next) (.m h.next) (h.size (.m z)).count h1 (by rw [hb, w.len]) (by rw [hb, w.len])
    rw [hb] at this
    exact (bind_ok (a := ()) this).trans rfl
  refine created_returnsNew kindM w (by simp [w.len]) rfl e ⟨rfl, by simp, by simp; exact c1.size, ?_, ?_, ?_, ?_⟩
  · intro l hl; rw [setBuf_buf_ne _ _ hl]; exact c1.bufFrame l hl
  · intro l hl; rw [setBuf_size]; exact c1.sizeFrame l hl
  · exact c1.next
  · exact c1.junk

theorem subV_lifts [Sub R] : Lifts2 (R := R) Loc.v (fun x y => x - y) subtractionnv := by
  intro h w a b l1 l2 hs
  by_cases h0 : (h.size (.v a)).count = 0
  · have b0 : h.buf (.v a) = [] := List.eq_nil_of_length_eq_zero (by rw [w.len, h0])
    have s0 : h.size (.v a) = ⟨0, 1, 1⟩ := by
      have := w.vec a
      rcases e : h.size (.v a) with ⟨x, y, z⟩
      rw [e] at this h0
      obtain ⟨rfl, rfl⟩ := this
      simpa [Size.count] using h0
    have e : subtractionnv (some (.v a)) (some (.v b)) h = .ok (some (.v h.next),
        { (h.setBuf (.v h.next) []).setSize (.v h.next) ⟨0, 1, 1⟩ with next := h.next + 1 }) := by
      show (do
        let s ← getSize (.v a)
        let sb ← getSize (.v b)
        if s = sb then do
          let out ← newVec
          if s.count = 0 then pure (some out) else do
            resizeTo out s
            binLoop (· - ·) (.v a) (.v b) out s.count
            pure (some out)
        else pure none : M R Ref) h = _
      rw [bind_ok (getSize_run _ _), bind_ok (getSize_run _ _), if_pos hs, bind_ok (show newVec h = _ from rfl), if_pos h0]
      rfl
    rw [b0, s0]
    refine created_returnsNew kindV w rfl (z := a) s0.symm e
      ⟨rfl, by simp, by simp, fun l hl => by simp [setBuf_buf, hl], fun l hl => by simp [setSize_size, hl], rfl, rfl⟩
  · have := binN_lifts kindV (fun x y : R => x - y) h w a b l1 l2 hs
    unfold ReturnsNew at this ⊢
    refine Runs.congr ?_ this
    show (do
        let s ← getSize (.v a)
        let sb ← getSize (.v b)
        if s = sb then do
          let out ← newVec
          if s.count = 0 then pure (some out) else do
            resizeTo out s
            binLoop (· - ·) (.v a) (.v b) out s.count
            pure (some out)
        else pure none : M R Ref) h = _
    unfold binN
    dsimp only
    rw [bind_ok (getSize_run _ _), bind_ok (getSize_run _ _), bind_ok (getSize_run _ _), bind_ok (getSize_run _ _),
      if_pos hs, if_pos hs]
    simp only [if_neg h0]
    rfl

end LinAlg

/-! ## Expressions -/

/-- Evaluated in any heap that keeps the objects of `h0`, `e` returns an object of shape `s` holding `g` of the cells `d`
(a new object, if `fr`), and changes no existing object. -/
def Ev {δ : Type} (mk : Nat → Loc) (fr : Prop) (h0 : Heap R) (s : Size) (d : List δ) (e : M R Ref) (g : δ → R) : Prop :=
  ∀ h, h.WF → Keeps h0 h (fun _ => False) → Runs e h fun r h' => ∃ o, r = some (mk o) ∧ (fr → ¬ h.live (mk o)) ∧
    h'.live (mk o) ∧ h'.WF ∧ Keeps h h' (fun _ => False) ∧ Holds h' (mk o) s (d.map g)

section
variable {δ : Type} {mk : Nat → Loc} {fr fr1 fr2 : Prop} {h0 : Heap R} {s : Size} {d : List δ} {e e1 e2 : M R Ref} {g g1 g2 g' : δ → R}

theorem Ev.congr (a : Ev mk fr h0 s d e g) (q : ∀ x, g x = g' x) : Ev mk fr h0 s d e g' := by
  rw [← funext q]; exact a

theorem Ev.var {o : Nat} (l : h0.live (mk o)) (q : Holds h0 (mk o) s (d.map g)) :
    Ev mk False h0 s d (pure (some (mk o))) g := by
  intro h w k
  have := k.2 _ l (by simp)
  refine ⟨o, rfl, False.elim, k.live l, w, Keeps.refl _ _, ?_, ?_⟩
  · rw [this.2]; exact q.1
  · rw [this.1]; exact q.2

theorem Ev.self {o : Nat} (l : h0.live (mk o)) :
    Ev mk False h0 (h0.size (mk o)) (h0.buf (mk o)) (pure (some (mk o))) (fun x => x) :=
  Ev.var l ⟨rfl, by simp⟩

theorem Ev.app1 {f : R → R} {op : Ref → M R Ref} (ho : Lifts mk f op) (a : Ev mk fr h0 s d e g) :
    Ev mk True h0 s d (Verif.app1 op e) fun x => f (g x) := by
  intro h w k
  unfold Verif.app1
  refine Runs.bind ((a h w k).mono ?_)
  rintro r h1 ⟨o, rfl, _, l1, w1, k1, q1⟩
  refine (ho h1 w1 o l1).mono ?_
  rintro r h2 ⟨o2, rfl, n2, l2, w2, k2, q2⟩
  refine ⟨o2, rfl, fun _ hl => n2 (k1.live hl), l2, w2, k1.trans k2, ?_, ?_⟩
  · rw [q2.1, q1.1]
  · rw [q2.2, q1.2, List.map_map]; rfl

theorem Ev.app2 {f : R → R → R} {op : Ref → Ref → M R Ref} (ho : Lifts2 mk f op) (a : Ev mk fr1 h0 s d e1 g1)
    (b : Ev mk fr2 h0 s d e2 g2) : Ev mk True h0 s d (Verif.app2 op e1 e2) fun x => f (g1 x) (g2 x) := by
  intro h w k
  unfold Verif.app2
  refine Runs.bind ((a h w k).mono ?_)
  rintro r h1 ⟨o1, rfl, _, l1, w1, k1, q1⟩
  refine Runs.bind ((b h1 w1 (k.trans k1)).mono ?_)
  rintro r h2 ⟨o2, rfl, _, l2, w2, k2, q2⟩
  have p := k2.2 _ l1 (by simp)
  refine (ho h2 w2 o1 o2 (k2.live l1) l2 (by rw [p.2, q1.1, q2.1])).mono ?_
  rintro r h3 ⟨o3, rfl, n3, l3, w3, k3, q3⟩
  refine ⟨o3, rfl, fun _ hl => n3 ((k1.trans k2).live hl), l3, w3, (k1.trans k2).trans k3, ?_, ?_⟩
  · rw [q3.1, p.2, q1.1]
  · rw [q3.2, p.1, q1.2, q2.2, List.zipWith_map]; simp [List.zipWith_self]

/-- A call of a function that was shown to be element-wise. -/
theorem Ev.call {f : R → R} {op : Ref → M R Ref} (ho : Lifts mk f op) {o : Nat} (l : h0.live (mk o)) :
    Ev mk True h0 (h0.size (mk o)) (h0.buf (mk o)) (op (some (mk o))) f := by
  intro h w k
  have p := k.2 _ l (by simp)
  refine (ho h w o (k.live l)).mono ?_
  rintro r h2 ⟨o2, rfl, n2, l2, w2, k2, q2⟩
  exact ⟨o2, rfl, fun _ => n2, l2, w2, k2, by rw [q2.1, p.2], by rw [q2.2, p.1]⟩

/-- Naming an intermediate result. -/
theorem Ev.let {k : Ref → M R Ref} (a : Ev mk fr1 h0 s d e g)
    (b : ∀ h1 o, h1.WF → Keeps h0 h1 (fun _ => False) → h1.live (mk o) → Holds h1 (mk o) s (d.map g) →
      Ev mk fr h1 s d (k (some (mk o))) g') : Ev mk fr h0 s d (e >>= k) g' := by
  intro h w k0
  refine Runs.bind ((a h w k0).mono ?_)
  rintro r h1 ⟨o1, rfl, _, l1, w1, k1, q1⟩
  refine (b h1 o1 w1 (k0.trans k1) l1 q1 h1 w1 (Keeps.refl _ _)).mono ?_
  rintro r h2 ⟨o2, rfl, n2, l2, w2, k2, q2⟩
  exact ⟨o2, rfl, fun p hl => n2 p (k1.live hl), l2, w2, k1.trans k2, q2⟩

/-- Reading the extents of an object. -/
theorem Ev.step {c : M R α} {a : α} {k : α → M R Ref} (hc : ∀ h, h.WF → Keeps h0 h (fun _ => False) → c h = .ok (a, h))
    (b : Ev mk fr h0 s d (k a) g) : Ev mk fr h0 s d (c >>= k) g := by
  intro h w k0
  exact Runs.step (hc h w k0) (b h w k0)

theorem Ev.fullV {n : Nat} (hs : s = ⟨n, 1, 1⟩) (hd : d.length = n) (k : R) :
    Ev Loc.v True h0 s d (LinAlg.fullV n k) fun _ => k := by
  intro h w k0
  subst hs
  unfold LinAlg.fullV
  refine Runs.newVec w (s := ⟨n, 1, 1⟩) ⟨rfl, rfl⟩ fun h1 w1 k1 hn l1 hs1 => ?_
  refine Runs.fillV w1 hs1 ?_
  refine ⟨h.next, rfl, fun _ => hn, l1, St_wf w1 _ hs1, k1.trans_new (St_updated h1 _ _ hs1).keeps ?_, hs1, ?_⟩
  · rintro l rfl hl; exact hn hl
  · simp [SortArray.St]
    rw [← replicate_eq_vtab, ← hd]

theorem Ev.fullM {c r : Nat} (hs : s = ⟨c, r, 1⟩) (hd : d.length = c * r) (k : R) :
    Ev Loc.m True h0 s d (LinAlg.fullM ⟨c, r, 1⟩ k) fun _ => k := by
  intro h w k0
  subst hs
  unfold LinAlg.fullM
  refine Runs.newMat w (s := ⟨c, r, 1⟩) rfl fun h1 w1 k1 hn l1 hs1 => ?_
  refine Runs.fill w1 hs1 ?_
  refine ⟨h.next, rfl, fun _ => hn, l1, Gr_wf w1 _ hs1, k1.trans_new (Gr_updated h1 _ _ hs1).keeps ?_, hs1, ?_⟩
  · rintro l rfl hl; exact hn hl
  · have : (Gr h1 (.m h.next) c r fun _ _ => k).buf (.m h.next) = SortArray.tab (c * r) (flat c fun _ _ => k) := by
      simp [Gr]
    rw [this, ← replicate_eq_tab, ← hd, List.map_const']

/-- The result of evaluating the body of a function. -/
theorem Ev.lifts {f : R → R} {op : Ref → M R Ref} (a : ∀ h : Heap R, h.WF → ∀ z, h.live (mk z) →
    Ev mk True h (h.size (mk z)) (h.buf (mk z)) (op (some (mk z))) f) : Lifts mk f op := by
  intro h w z l
  refine (a h w z l h w (Keeps.refl _ _)).mono ?_
  rintro r h' ⟨o, hr, hn, q⟩
  exact ⟨o, hr, hn trivial, q⟩

/-- The result of evaluating the body of a function of two operands. -/
theorem Ev.lifts2 {f : R → R → R} {op : Ref → Ref → M R Ref} (a : ∀ h : Heap R, h.WF → ∀ y z, h.live (mk y) → h.live (mk z) →
    h.size (mk y) = h.size (mk z) →
    Ev mk True h (h.size (mk y)) ((h.buf (mk y)).zip (h.buf (mk z))) (op (some (mk y)) (some (mk z))) fun p => f p.1 p.2) :
    Lifts2 mk f op := by
  intro h w y z l1 l2 hs
  refine (a h w y z l1 l2 hs h w (Keeps.refl _ _)).mono ?_
  rintro r h' ⟨o, hr, hn, q1, q2, q3, q4, q5⟩
  refine ⟨o, hr, hn trivial, q1, q2, q3, q4, ?_⟩
  rw [q5, List.map_zip_eq_zipWith]; rfl

/-- The first of two operands. -/
theorem Ev.fst {y z : Nat} (w : h0.WF) (l : h0.live (mk y)) (hs : h0.size (mk y) = h0.size (mk z)) :
    Ev mk False h0 (h0.size (mk y)) ((h0.buf (mk y)).zip (h0.buf (mk z))) (pure (some (mk y))) (fun p => p.1) :=
  Ev.var l ⟨rfl, by rw [List.map_fst_zip]; rw [w.len, w.len, hs]⟩

/-- The second of two operands. -/
theorem Ev.snd {y z : Nat} (w : h0.WF) (l : h0.live (mk z)) (hs : h0.size (mk y) = h0.size (mk z)) :
    Ev mk False h0 (h0.size (mk y)) ((h0.buf (mk y)).zip (h0.buf (mk z))) (pure (some (mk z))) (fun p => p.2) :=
  Ev.var l ⟨hs.symm, by rw [List.map_snd_zip]; rw [w.len, w.len, hs]⟩
end

end Verif
