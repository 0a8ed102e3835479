import Verif.Model.HandleM
import Verif.Lemmas.Handle
import Verif.Lemmas.Glm
import Verif.Lemmas.Softmax
import Verif.Lemmas.Kronecker
import Verif.Lemmas.GlmSgd

/-! # More method calls through handles, and what belongs to an object -/

namespace Verif
open Spec Finset

/-! ## What belongs to an object

`L` lists the handles of the objects a method may write to; `L'` the same list afterwards. -/

/-- Only objects in `L` have changed, and what is in `L'` was in `L` or is new. -/
structure Moved (L L' : List Ref) (h h' : Heap ℝ) : Prop where
  keeps : Keeps h h' (fun l => some l ∈ L)
  fresh : ∀ r ∈ L', r ∈ L ∨ NotIn h r

theorem Moved.refl (L : List Ref) (h : Heap ℝ) : Moved L L h h := ⟨Keeps.refl _ _, fun _ => .inl⟩

theorem Moved.trans {L L' L'' : List Ref} {h h' h'' : Heap ℝ} (a : Moved L L' h h') (b : Moved L' L'' h' h'') : Moved L L'' h h'' where
  keeps := a.keeps.trans_new b.keeps fun l e hl => by
    rcases a.fresh _ e with f | f
    · exact f
    · exact absurd hl (f l rfl)
  fresh := fun r hr => by
    rcases b.fresh r hr with f | f
    · exact a.fresh r f
    · exact .inr (f.mono a.keeps)

theorem Moved.new {L L' : List Ref} {h h' h'' : Heap ℝ} (a : Moved L L' h h') (k : Keeps h' h'' (fun _ => False)) : Moved L L' h h'' :=
  a.trans ⟨k.mono fun _ _ => nofun, fun _ => .inl⟩

/-- One object of the list is written to. -/
theorem Moved.set {L L' : List Ref} {h h' h'' : Heap ℝ} (a : Moved L L' h h') {q : Ref} (hq : q ∈ L') (k : Keeps h' h'' (some · = q)) :
    Moved L L' h h'' :=
  a.trans ⟨k.mono fun _ _ e => e ▸ hq, fun _ => .inl⟩

/-- A new object of the loop is written to. -/
theorem Moved.tmp {L L' : List Ref} {h h' h'' : Heap ℝ} (a : Moved L L' h h') {q : Ref} (hq : NotIn h q) (k : Keeps h' h'' (some · = q)) :
    Moved L L' h h'' :=
  ⟨a.keeps.trans_new k fun l e hl => absurd hl (hq l e.symm), a.fresh⟩

/-- The list changes: what comes in was there or is new. -/
theorem Moved.own {L L' L'' : List Ref} {h h' : Heap ℝ} (a : Moved L L' h h') (f : ∀ r ∈ L'', r ∈ L' ∨ NotIn h r) : Moved L L'' h h' :=
  ⟨a.keeps, fun r hr => (f r hr).elim (a.fresh r) .inr⟩

theorem Moved.vec {L L' : List Ref} {h h' : Heap ℝ} (a : Moved L L' h h') {n : Nat} {r : Ref} {v : Fin n → ℝ} (hr : HasV h r v) (ne : r ∉ L) :
    HasV h' r v := hr.keep a.keeps fun _ e => e ▸ ne

theorem Moved.mat {L L' : List Ref} {h h' : Heap ℝ} (a : Moved L L' h h') {m n : Nat} {r : Ref} {A : Matrix (Fin m) (Fin n) ℝ} (hr : HasM h r A)
    (ne : r ∉ L) : HasM h' r A := hr.keep a.keeps fun _ e => e ▸ ne

theorem Moved.notv {L L' : List Ref} {h h' : Heap ℝ} (a : Moved L L' h h') {n : Nat} {r : Ref} {v : Fin n → ℝ} (hr : HasV h r v) (ne : r ∉ L) :
    r ∉ L' := fun q => (a.fresh r q).elim ne fun f => by
  obtain ⟨o, rfl, l, -⟩ := hr
  exact f _ rfl l

theorem Moved.notm {L L' : List Ref} {h h' : Heap ℝ} (a : Moved L L' h h') {m n : Nat} {r : Ref} {A : Matrix (Fin m) (Fin n) ℝ} (hr : HasM h r A)
    (ne : r ∉ L) : r ∉ L' := fun q => (a.fresh r q).elim ne fun f => by
  obtain ⟨o, rfl, l, -⟩ := hr
  exact f _ rfl l

theorem Spec.HasV.offm {h h' : Heap ℝ} {m n p : Nat} {r q : Ref} {v : Fin p → ℝ} (a : HasV h r v) (k : Keeps h h' (some · = q))
    {A : Matrix (Fin m) (Fin n) ℝ} {h1 : Heap ℝ} (hq : HasM h1 q A) : HasV h' r v := by
  refine a.keep k fun l e e' => ?_
  obtain ⟨x, rfl, -, -⟩ := a
  obtain ⟨y, rfl, -, -⟩ := hq
  cases e; cases e'

theorem Spec.HasM.offm {h h' : Heap ℝ} {m n : Nat} {r q : Ref} {A : Matrix (Fin m) (Fin n) ℝ} (a : HasM h r A) (k : Keeps h h' (some · = q))
    (ne : r ≠ q) : HasM h' r A := a.keep k fun _ e e' => ne (e.trans e')

theorem Spec.HasV.ne_mat {h h1 : Heap ℝ} {m n p : Nat} {r q : Ref} {v : Fin p → ℝ} (a : HasV h r v) {A : Matrix (Fin m) (Fin n) ℝ}
    (b : HasM h1 q A) : r ≠ q := by
  obtain ⟨x, rfl, -, -⟩ := a
  obtain ⟨y, rfl, -, -⟩ := b
  simp

theorem Spec.NotIn.ne_mat {h : Heap ℝ} {m n : Nat} {r q : Ref} (a : NotIn h r) {A : Matrix (Fin m) (Fin n) ℝ} (b : HasM h q A) : r ≠ q := by
  obtain ⟨o, rfl, l, -⟩ := b
  intro e
  exact a _ e l

theorem Spec.HasV.has_new {h h' : Heap ℝ} {S : Loc → Prop} {n : Nat} {r q : Ref} {v : Fin n → ℝ} (a : HasV h r v) (k : Keeps h h' S) (f : NotIn h' q) :
    q ≠ r := (f.mono k).ne a

/-! ## Steps with a new matrix -/

theorem stepNewM {β : Type} {h : Heap ℝ} (w : h.WF) {m n : Nat} {c : Loc → M ℝ β} {Q : β → Heap ℝ → Prop}
    (next : ∀ (o : Nat) (h1 : Heap ℝ) (A : Matrix (Fin m) (Fin n) ℝ), h1.WF → Keeps h h1 (fun _ => False) → NotIn h (some (.m o)) →
      HasM h1 (some (.m o)) A → Runs (c (.m o)) h1 Q) : Runs (newMat >>= fun o => resizeTo o ⟨n, m, 1⟩ >>= fun _ => c o) h Q := by
  refine Runs.newMat w rfl fun h1 w1 k1 f1 l1 s1 => ?_
  obtain ⟨f, hf⟩ := exists_Cells w1 s1
  exact next h.next h1 (fun i j => f i j) w1 k1 (fun l e => by cases e; exact f1) ⟨_, rfl, l1, hf.isMat fun _ _ => rfl⟩

namespace Hd
variable {h : Heap ℝ} {a b : Ref} {m n p : Nat}

theorem subnm_spec (w : h.WF) {A B : Matrix (Fin m) (Fin n) ℝ} (ha : HasM h a A) (hb : HasM h b B) :
    ReturnsMat (subnm a b) h fun i j => A i j - B i j := by
  obtain ⟨x, rfl, l, i⟩ := ha; obtain ⟨y, rfl, l', i'⟩ := hb
  exact Mat.bin_spec (· - ·) w i i' l l'
theorem hadamard_productnm_spec (w : h.WF) {A B : Matrix (Fin m) (Fin n) ℝ} (ha : HasM h a A) (hb : HasM h b B) :
    ReturnsMat (hadamard_productnm a b) h fun i j => A i j * B i j := by
  obtain ⟨x, rfl, l, i⟩ := ha; obtain ⟨y, rfl, l', i'⟩ := hb
  exact Mat.bin_spec (· * ·) w i i' l l'
theorem add_vecn_spec (w : h.WF) {A : Matrix (Fin m) (Fin n) ℝ} {v : Fin n → ℝ} (ha : HasM h a A) (hb : HasV h b v) :
    ReturnsMat (add_vecn a b) h fun i j => A i j + v j := by
  obtain ⟨x, rfl, l, i⟩ := ha; obtain ⟨y, rfl, l', i'⟩ := hb
  exact Mat.add_vecn_spec w i i' l l'

theorem _root_.Verif.Spec.SetsMat.hasM {c : M ℝ Unit} {x : Nat} {A : Matrix (Fin m) (Fin n) ℝ} (s : SetsMat c h x A) (l : h.live (.m x)) :
    Runs c h fun _ h' => h'.WF ∧ Keeps h h' (some · = some (Loc.m x)) ∧ HasM h' (some (.m x)) A :=
  s.mono fun _ h' q => by
    have k : Keeps h h' (some · = some (Loc.m x)) := q.2.1.mono fun _ _ e => congrArg some e
    exact ⟨q.1, k, x, rfl, k.live l, q.2.2⟩

theorem _root_.Verif.Spec.SetsVec.hasV {c : M ℝ Unit} {x : Nat} {v : Fin n → ℝ} (s : SetsVec c h x v) (l : h.live (.v x)) :
    Runs c h fun _ h' => h'.WF ∧ Keeps h h' (some · = some (Loc.v x)) ∧ HasV h' (some (.v x)) v :=
  s.mono fun _ h' q => by
    have k : Keeps h h' (some · = some (Loc.v x)) := q.2.1.mono fun _ _ e => congrArg some e
    exact ⟨q.1, k, x, rfl, k.live l, q.2.2⟩

theorem _root_.Verif.Mat.binIn_spec (f : ℝ → ℝ → ℝ) (w : h.WF) {a b : Nat} {A B : Matrix (Fin m) (Fin n) ℝ} (hu : IsMat h a A) (hv : IsMat h b B) :
    SetsMat (binIn f (.m a) (some (.m b))) h a fun i j => f (A i j) (B i j) := by
  obtain ⟨F, eF, cu⟩ := hu.cells w
  obtain ⟨G, eG, cv⟩ := hv.cells w
  have ez : List.zipWith f (SortArray.tab (n * m) (flat n F)) (SortArray.tab (n * m) (flat n G)) =
    SortArray.tab (n * m) (flat n fun i j => f (F i j) (G i j)) := by apply List.ext_getElem <;> simp [SortArray.tab, flat]
  have e := binIn_run f (.m a) (.m b) h (w.len _) (w.len _) (by rw [cu.1, cv.1])
  have up := updated_setBuf h (.m a) (List.zipWith f (h.buf (.m a)) (h.buf (.m b)))
  rw [cu.1, cu.2, cv.2, ez] at up
  rw [cu.2, cv.2, ez] at e
  exact updated_setsMat w e up (fun i j => by rw [eF, eG])

theorem subm_run (w : h.WF) {A B : Matrix (Fin m) (Fin n) ℝ} (ha : HasM h a A) (hb : HasM h b B) :
    Runs (subm a b) h fun _ h' => h'.WF ∧ Keeps h h' (some · = a) ∧ HasM h' a fun i j => A i j - B i j := by
  obtain ⟨x, rfl, l, i⟩ := ha; obtain ⟨y, rfl, l', i'⟩ := hb
  exact (Mat.binIn_spec (· - ·) w i i').hasM l

theorem add_vec_run (w : h.WF) {A : Matrix (Fin m) (Fin n) ℝ} {v : Fin n → ℝ} (ha : HasM h a A) (hb : HasV h b v) :
    Runs (add_vec a b) h fun _ h' => h'.WF ∧ Keeps h h' (some · = a) ∧ HasM h' a fun i j => A i j + v j := by
  obtain ⟨x, rfl, l, i⟩ := ha; obtain ⟨y, rfl, l', i'⟩ := hb
  exact (Mat.add_vec_spec w i i').hasM l

theorem multb_run (w : h.WF) {q r : Nat} {T : Matrix (Fin q) (Fin r) ℝ} {c : Ref} {A : Matrix (Fin m) (Fin n) ℝ} {B : Matrix (Fin n) (Fin p) ℝ}
    (ht : HasM h c T) (ha : HasM h a A) (hb : HasM h b B) (ta : c ≠ a) (tb : c ≠ b) :
    Runs (multb c a b) h fun _ h' => h'.WF ∧ Keeps h h' (some · = c) ∧ HasM h' c (A * B) := by
  obtain ⟨x, rfl, l, i⟩ := ha; obtain ⟨y, rfl, l', i'⟩ := hb; obtain ⟨z, rfl, l'', i''⟩ := ht
  exact (Mat.multb_spec w i i' l l' (fun e => ta (by rw [e])) (fun e => tb (by rw [e]))).hasM l''

theorem set_from_mlpp_matrix_run (w : h.WF) {q r : Nat} {T : Matrix (Fin q) (Fin r) ℝ} {A : Matrix (Fin m) (Fin n) ℝ} (ha : HasM h a T)
    (hb : HasM h b A) :
    Runs (set_from_mlpp_matrix a b) h fun _ h' => h'.WF ∧ Keeps h h' (some · = a) ∧ HasM h' a A := by
  obtain ⟨x, rfl, l, i⟩ := ha; obtain ⟨y, rfl, l', i'⟩ := hb
  exact (Mat.set_from_spec w i').hasM l

theorem _root_.Verif.Vec.set_from_spec (w : h.WF) {t a : Nat} {v : Fin n → ℝ} (hv : IsVec h a v) :
    SetsVec (Vec.set_from_mlpp_vector t (some a)) h t v := by
  obtain ⟨F, eF, cA⟩ := hv.cells w
  obtain ⟨h', e, u⟩ := setFrom_run (.v t) (.v a) h (w.len _) (w.len _)
  rw [cA.1, cA.2] at u
  exact updated_setsVec w e u eF

theorem set_from_mlpp_vector_run (w : h.WF) {q : Nat} {t : Fin q → ℝ} {v : Fin n → ℝ} (ha : HasV h a t) (hb : HasV h b v) :
    Runs (set_from_mlpp_vector a b) h fun _ h' => h'.WF ∧ Keeps h h' (some · = a) ∧ HasV h' a v := by
  obtain ⟨x, rfl, l, i⟩ := ha; obtain ⟨y, rfl, l', i'⟩ := hb
  exact (Vec.set_from_spec w i').hasV l

theorem subtract_matrix_rows_run (w : h.WF) {v : Fin n → ℝ} {B : Matrix (Fin m) (Fin n) ℝ} (ha : HasV h a v) (hb : HasM h b B) :
    Runs (subtract_matrix_rows a b) h fun _ h' => h'.WF ∧ Keeps h h' (some · = a) ∧ HasV h' a fun j => v j - ∑ i, B i j := by
  obtain ⟨x, rfl, l, i⟩ := ha; obtain ⟨y, rfl, l', i'⟩ := hb
  exact (Vec.subtract_matrix_rows_spec w i i').hasV l

theorem row_set_run (w : h.WF) {A : Matrix (Fin m) (Fin n) ℝ} {v : Fin n → ℝ} (ha : HasM h a A) (hb : HasV h b v) (i : Fin m) :
    Runs (row_set_mlpp_vector a (i : Nat) b) h fun _ h' => h'.WF ∧ Keeps h h' (some · = a) ∧
      HasM h' a fun r c => if r = i then v c else A r c := by
  obtain ⟨x, rfl, l, q⟩ := ha; obtain ⟨y, rfl, l', q'⟩ := hb
  obtain ⟨F, ef, c⟩ := q.cells w
  obtain ⟨g, eg, c'⟩ := q'.cells w
  have e : row_set_mlpp_vector (some (.m x)) (i : Nat) (some (.v y)) h = _ := Mat.row_set_cells c c' i.isLt
  refine (Spec.SetsMat.hasM (x := x) ?_ l)
  refine Runs.of_eq e ?_
  exact setsMat_Gr w (Keeps.refl _ _) c.1 fun r c => by simp only [ef, eg, Fin.ext_iff]

theorem _root_.Verif.Vec.outer_product_spec (w : h.WF) {a b : Nat} {u : Fin m → ℝ} {v : Fin n → ℝ} (hA : IsVec h a u) (hB : IsVec h b v)
    (la : h.live (.v a)) (lb : h.live (.v b)) : ReturnsMat (Vec.outer_product a (some b)) h fun i j => u i * v j := by
  obtain ⟨f, ef, cA⟩ := hA.cells w
  obtain ⟨g, eg, cB⟩ := hB.cells w
  have e : Vec.outer_product a (some b) h = (newMat >>= fun C => resizeTo C ⟨n, m, 1⟩ >>= fun _ => do
      (forN m fun i => do
        let curr_a ← load (.v a) i
        forN n fun j => do
          let y ← load (.v b) j
          store C (i * n + j) (curr_a * y))
      pure (some C)) h := by
    unfold Vec.outer_product
    have e1 := newMat_size (h := h) (l := .v b) lb (fun C s => do
      let sa ← getSize (.v a)
      resizeTo C ⟨s.x, sa.x, 1⟩
      (forN sa.x fun i => do
        let curr_a ← load (.v a) i
        forN s.x fun j => do
          let y ← load (.v b) j
          store C (i * s.x + j) (curr_a * y))
      pure (some C))
    refine Eq.trans ?_ (e1.trans ?_)
    · rfl
    · have := newMat_size (h := h) (l := .v a) la (fun C s => do
        resizeTo C ⟨(h.size (.v b)).x, s.x, 1⟩
        (forN s.x fun i => do
          let curr_a ← load (.v a) i
          forN (h.size (.v b)).x fun j => do
            let y ← load (.v b) j
            store C (i * (h.size (.v b)).x + j) (curr_a * y))
        pure (some C))
      rw [this, cA.1, cB.1]
  refine Runs.congr e (Runs.newMat w rfl fun h1 w1 k1 f1 l1 s1 => ?_)
  have cA1 := cA.keep k1 la nofun
  have cB1 := cB.keep k1 lb nofun
  refine Runs.bind ((Runs.forN m (fun i h' => h'.WF ∧ Keeps h1 h' (· = .m h.next) ∧ ∃ G : Nat → Nat → ℝ, Cells h' (.m h.next) n m G ∧
    ∀ r c, r < i → c < n → G r c = f r * g c) _ h1 ?_ ?_).mono fun _ h2 ⟨w2, k2, G, cG, eG⟩ => ?_)
  · obtain ⟨G, cG⟩ := exists_Cells w1 s1
    exact ⟨w1, Keeps.refl _ _, G, cG, nofun⟩
  · rintro i h2 hi ⟨w2, k2, G, cG, eG⟩
    have cA2 := cA1.keep k2 (k1.live la) nofun
    refine Runs.step (load_ok (cA2.get hi)) ?_
    refine (Runs.forN n (fun j h' => h'.WF ∧ Keeps h1 h' (· = .m h.next) ∧ ∃ G : Nat → Nat → ℝ, Cells h' (.m h.next) n m G ∧
      (∀ r c, r < i → c < n → G r c = f r * g c) ∧ ∀ c, c < j → G i c = f i * g c) _ h2 ⟨w2, k2, G, cG, eG, nofun⟩ ?_).mono ?_
    · rintro j h3 hj ⟨w3, k3, G, cG, eG, eR⟩
      have cB3 := cB1.keep k3 (k1.live lb) nofun
      refine Runs.step (load_ok (cB3.get hj)) ?_
      have hst : h3 = Gr h3 (.m h.next) n m G := by unfold Gr; rw [← cG.2, setBuf_self]
      have es : store (.m h.next) (i * n + j) (f i * g j) h3 = .ok ((), Gr h3 (.m h.next) n m (upd2 G i j (f i * g j))) := by
        conv => lhs; rw [hst]
        rw [store_Gr _ hi hj]
      refine Runs.of_eq es ⟨?_, ?_, upd2 G i j (f i * g j), ⟨?_, ?_⟩, ?_, ?_⟩
      all_goals have up := updated_setBuf h3 (.m h.next) (SortArray.tab (n * m) (flat n (upd2 G i j (f i * g j))))
      · exact up.wf w3 (by rw [cG.1]; simp [SortArray.tab, Size.count]) nofun (fun _ _ => w3.mat _)
      · exact k3.trans up.keeps
      · exact cG.1
      · exact setBuf_buf_same _ _ _
      · intro r c hr hc
        simp only [upd2]
        rw [if_neg (by omega)]
        exact eG r c hr hc
      · intro c hc
        simp only [upd2]
        by_cases e : c = j
        · subst e; simp
        · rw [if_neg (by omega)]; exact eR c (by omega)
    · rintro _ h3 ⟨w3, k3, G, cG, eG, eR⟩
      refine ⟨w3, k3, G, cG, fun r c hr hc => ?_⟩
      by_cases e : r = i
      · subst e; exact eR c hc
      · exact eG r c (by omega) hc
  · refine Runs.of_eq rfl ⟨h.next, rfl, f1, k2.live l1, w2, ?_, cG.isMat fun i j => ?_⟩
    · exact k1.trans_new k2 (by rintro l rfl hl; exact f1 hl)
    · rw [eG i j i.2 j.2, ef, eg]

theorem outer_product_spec (w : h.WF) {u : Fin m → ℝ} {v : Fin n → ℝ} (ha : HasV h a u) (hb : HasV h b v) :
    ReturnsMat (outer_product a b) h fun i j => u i * v j := by
  obtain ⟨x, rfl, l, i⟩ := ha; obtain ⟨y, rfl, l', i'⟩ := hb
  exact Vec.outer_product_spec w i i' l l'

theorem softmax_normv_spec (w : h.WF) {v : Fin n → ℝ} (ha : HasV h a v) : ReturnsVec (Activation.softmax_normv a) h (softmax v) := by
  obtain ⟨x, rfl, l, i⟩ := ha
  exact Activation.softmax_normv_spec w i l
theorem softmax_normm_spec (w : h.WF) {A : Matrix (Fin m) (Fin n) ℝ} (ha : HasM h a A) :
    ReturnsMat (Activation.softmax_normm a) h fun i => softmax (A i) := by
  obtain ⟨x, rfl, l, i⟩ := ha
  exact Activation.softmax_normm_spec w i l

theorem lifts_mat {f : ℝ → ℝ} {op : Ref → M ℝ Ref} (l : Lifts Loc.m f op) (w : h.WF) {A : Matrix (Fin m) (Fin n) ℝ} (ha : HasM h a A) :
    ReturnsMat (op a) h fun i j => f (A i j) := by
  obtain ⟨x, rfl, la, i⟩ := ha
  exact l.mat w i la
theorem lifts_vec {f : ℝ → ℝ} {op : Ref → M ℝ Ref} (l : Lifts Loc.v f op) (w : h.WF) {v : Fin n → ℝ} (ha : HasV h a v) :
    ReturnsVec (op a) h fun i => f (v i) := by
  obtain ⟨x, rfl, la, i⟩ := ha
  exact l.vec w i la

theorem reg_weightsm_spec (w : h.WF) {A : Matrix (Fin m) (Fin n) ℝ} (ha : HasM h a A) (l al : ℝ) (r : Reg.Kind) :
    ReturnsMat (Reg.reg_weightsm a l al r) h fun i j => decay r l al (A i j) := by
  obtain ⟨x, rfl, lx, hx⟩ := ha
  have key : ∀ r, ReturnsMat (app1 (LinAlg.subtractionnm (some (.m x))) (Reg.reg_deriv_termm (some (.m x)) l al r)) h
      fun i j => A i j - Reg.derivTerm l al r (A i j) := by
    intro r
    unfold app1 ReturnsMat
    refine (Reg.reg_deriv_termm_spec w hx lx l al r).bind fun o h1 w1 k1 f1 l1 q1 => ?_
    have k := k1
    advance k1
    exact (Activation.subtractionnm_lifts.mat w1 hx q1 lx l1).from k
  cases r with
  | none => have := key .none; simp only [Reg.derivTerm, sub_zero] at this; exact this
  | ridge => exact key .ridge
  | lasso => have := key .lasso; simp only [Reg.derivTerm, Glm.sign_normr_eq] at this; exact this
  | elastic_net => have := key .elastic_net; simp only [Reg.derivTerm, Glm.sign_normr_eq] at this; exact this
  | weight_clipping => exact Reg.reg_deriv_termm_spec w hx lx l al .weight_clipping

theorem reg_termm_ok {A : Matrix (Fin m) (Fin n) ℝ} (w : h.WF) (ha : HasM h a A) (l al : ℝ) (r : Reg.Kind) :
    ∃ x, Reg.reg_termm a l al r h = .ok (x, h) := by
  obtain ⟨x, rfl, lx, hx⟩ := ha
  exact ⟨_, Reg.reg_termm_run w hx _ _ _⟩
theorem reg_termv_ok {v : Fin n → ℝ} (w : h.WF) (ha : HasV h a v) (l al : ℝ) (r : Reg.Kind) :
    ∃ x, Reg.reg_termv a l al r h = .ok (x, h) := by
  obtain ⟨x, rfl, lx, hx⟩ := ha
  exact ⟨_, Reg.reg_termv_run w hx _ _ _⟩

end Hd
end Verif
