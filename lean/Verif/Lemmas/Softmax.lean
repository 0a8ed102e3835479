import Verif.Lemmas.Fill
import Verif.Lemmas.Activation
import Verif.Model.Softmax
import Verif.Spec.Softmax

/-! # Softmax -/

namespace Verif.Activation
open Spec SortArray LinAlg
variable {n m : Nat}

theorem vsize_run {h : Heap ℝ} {z : Nat} {v : Fin n → ℝ} (hv : IsVec h z v) : vsize (some (.v z)) h = .ok (n, h) := by
  unfold vsize
  rw [bind_ok (show deref (Ref.asV (some (.v z))) h = .ok (.v z, h) from rfl), bind_ok (getSize_run _ _), hv.1]
  rfl

theorem softmax_normv_spec {h : Heap ℝ} (w : h.WF) {z : Nat} {v : Fin n → ℝ} (hv : IsVec h z v) (lz : h.live (.v z)) :
    ReturnsVec (softmax_normv (some (.v z))) h (softmax v) := by
  unfold softmax_normv
  refine Runs.step (vsize_run hv) ?_
  refine Runs.newVec w ⟨rfl, rfl⟩ ?_
  intro h1 w1 k1 f1 l1 s1
  have hv1 := hv.keep k1 lz id
  refine (expnv_lifts.vec w1 hv1 (k1.live lz)).bind ?_
  intro e h2 w2 k2 fe le he
  refine Runs.step (show deref (some (.v e)) h2 = .ok (.v e, h2) from rfl) ?_
  obtain ⟨g, eg, cg⟩ := he.cells w2
  refine Runs.step (foldN_cells cg 0 (fun c x => c + x)) ?_
  have s2 : h2.size (.v h.next) = ⟨n, 1, 1⟩ := by rw [(k2.2 _ l1 id).2, s1]
  have hne : Loc.v e ≠ .v h.next := fun q => fe (q ▸ l1)
  refine Runs.step (fillLoop (l := .v h.next) (by rw [w2.len, s2, count_vec]) _ (fun i => g i / (List.range n).foldl (fun c i => c + g i) 0) ?_) ?_
  · intro i f hi
    rw [bind_ok (load_St_ne hne (cg.get hi))]
  · refine returnsVec_St w2 (k1.trans k2) f1 (k2.live l1) s2 fun i => ?_
    rw [foldl_add_eq_sum, zero_add]
    unfold softmax
    rw [eg]
    congr 1
    exact Finset.sum_congr rfl fun j _ => eg j

theorem softmax_derivv_eq : softmax_derivv = softmax_normv := rfl
theorem softmax_deriv_derivv_eq : softmax_deriv_derivv = softmax_deriv_normv := rfl

/-! ## Row by row -/

theorem rowLoop_run {h : Heap ℝ} (w : h.WF) {f : Ref → M ℝ Ref} {z a t : Nat} {A B : Matrix (Fin m) (Fin n) ℝ} (hA : IsMat h z A)
    (lz : h.live (.m z)) (la : h.live (.m a)) (lt : h.live (.v t)) (sa : h.size (.m a) = ⟨n, m, 1⟩) (hza : z ≠ a)
    (hf : ∀ i (h' : Heap ℝ), h'.WF → h'.live (.v t) → IsVec h' t (A i) → ReturnsVec (f (some (.v t))) h' (B i)) :
    Runs (rowLoop f z a t m) h fun _ h' => h'.WF ∧ Keeps h h' (fun l => l = .m a ∨ l = .v t) ∧ IsMat h' a B := by
  obtain ⟨F, eF, cF⟩ := hA.cells w
  have nza : Loc.m z ≠ .m a := fun e => hza (Loc.m.inj e)
  obtain ⟨K, cK⟩ := exists_Cells w sa
  let G : Nat → Nat → ℝ := fun i j => if hi : i < m then if hj : j < n then B ⟨i, hi⟩ ⟨j, hj⟩ else 0 else 0
  unfold rowLoop
  refine (Runs.forN m (fun k h' => h'.WF ∧ Keeps h h' (fun l => l = .m a ∨ l = .v t) ∧
    Cells h' (.m a) n m (fun i j => if i < k then G i j else K i j)) _ h ⟨w, Keeps.refl _ _, by simpa using cK⟩ ?_).mono ?_
  · intro i h1 hi ⟨w1, k1, c1⟩
    have cz : Cells h1 (.m z) n m F := cF.keep k1 lz (by simp [nza])
    obtain ⟨h2, e2, u2⟩ := Mat.rowGet_run w1 (v := t) cz hi
    refine Runs.step e2 ?_
    have w2 := u2.wf w1
    have l2 : h2.live (.v t) := u2.keeps.live (k1.live lt)
    refine (hf ⟨i, hi⟩ h2 w2 l2 (u2.cells.isVec fun j => eF ⟨i, hi⟩ j)).bind ?_
    intro q h3 w3 k3 fq lq hq
    obtain ⟨g, eg, cg⟩ := hq.cells w3
    have c3 := ((c1.upd u2 (by nofun)).keep k3 (u2.keeps.live (k1.live la)) id)
    obtain ⟨h4, e4, u4⟩ := Mat.rowSet_run c3 cg hi
    refine Runs.of_eq (a := ()) e4 ⟨u4.wf w3, ?_, u4.cells.congr ?_⟩
    · refine k1.trans_new (S := fun l => l = .m a ∨ l = .v t) (T := fun l => l = .m a ∨ l = .v t) ?_ (fun l q _ => q)
      refine ((u2.keeps.mono fun l _ q => Or.inr q).trans_new k3 (fun _ q _ => q.elim)).trans (u4.keeps.mono fun l _ q => Or.inl q)
    · intro x y hx hy
      by_cases hxi : x = i
      · subst hxi
        rw [if_pos rfl, if_pos (Nat.lt_succ_self _)]
        simp only [G, dif_pos hi, dif_pos hy]
        exact (eg ⟨y, hy⟩).symm
      · rw [if_neg hxi]
        by_cases hx2 : x < i
        · rw [if_pos hx2, if_pos (by omega)]
        · rw [if_neg hx2, if_neg (by omega)]
  · intro _ h' ⟨w', k', c'⟩
    refine ⟨w', k', c'.isMat fun i j => ?_⟩
    simp [G, i.2, j.2]

theorem msize_run {h : Heap ℝ} {z : Nat} {A : Matrix (Fin m) (Fin n) ℝ} (hA : IsMat h z A) :
    msize (some (.m z)) h = .ok (⟨n, m, 1⟩, h) := by
  unfold msize
  rw [bind_ok (show deref (Ref.asM (some (.m z))) h = .ok (.m z, h) from rfl), getSize_run, hA.1]

theorem softmax_normm_spec {h : Heap ℝ} (w : h.WF) {z : Nat} {A : Matrix (Fin m) (Fin n) ℝ} (hA : IsMat h z A)
    (lz : h.live (.m z)) : ReturnsMat (softmax_normm (some (.m z))) h (Matrix.of fun i => softmax (A i)) := by
  unfold softmax_normm
  refine Runs.step (msize_run hA) ?_
  refine Runs.newMat w rfl ?_
  intro h1 w1 k1 f1 l1 s1
  refine Runs.newVec w1 ⟨rfl, rfl⟩ ?_
  intro h2 w2 k2 f2 l2 s2
  refine Runs.step (derefM_run z h2) ?_
  have k12 := k1.trans k2
  have hA2 := hA.keep k12 lz id
  have hza : z ≠ h.next := fun e => f1 (e ▸ lz)
  refine Runs.bind ((rowLoop_run w2 (A := A) (B := Matrix.of fun i => softmax (A i)) hA2 (k12.live lz) (k2.live l1) l2
    (by rw [(k2.2 _ l1 id).2, s1]) hza (fun i h' w' l' hv => softmax_normv_spec w' hv l')).mono ?_)
  intro _ h3 ⟨w3, k3, m3⟩
  refine ⟨h.next, rfl, f1, k3.live (k2.live l1), w3, ?_, m3⟩
  refine k12.trans_new k3 ?_
  rintro l (rfl | rfl) hl
  · exact f1 hl
  · exact f2 (k1.live hl)

theorem rowsOfCopy_spec {f : Ref → M ℝ Ref} {h : Heap ℝ} (w : h.WF) {z : Nat} {A B : Matrix (Fin m) (Fin n) ℝ} (hA : IsMat h z A)
    (lz : h.live (.m z)) (hf : ∀ i t (h' : Heap ℝ), h'.WF → h'.live (.v t) → IsVec h' t (A i) → ReturnsVec (f (some (.v t))) h' (B i)) :
    ReturnsMat (rowsOfCopy f (some (.m z))) h B := by
  unfold rowsOfCopy
  refine Runs.step (derefM_run z h) ?_
  refine (Mat.unN_id_spec w hA lz).bind ?_
  intro o h1 w1 k1 f1 l1 m1
  refine Runs.step (derefM_run o h1) (Runs.step (Mat.size_run z h1) ?_)
  have hA1 := hA.keep k1 lz id
  rw [hA1.1]
  refine Runs.newVec w1 ⟨rfl, rfl⟩ ?_
  intro h2 w2 k2 f2 l2 s2
  have hza : z ≠ o := fun e => f1 (e ▸ lz)
  refine Runs.bind ((rowLoop_run w2 (A := A) (B := B) (hA1.keep k2 (k1.live lz) id) (k2.live (k1.live lz)) (k2.live l1) l2
    (by rw [(k2.2 _ l1 id).2, m1.1]) hza (fun i h' w' l' hv => hf i _ h' w' l' hv)).mono ?_)
  intro _ h3 ⟨w3, k3, m3⟩
  refine ⟨o, rfl, f1, k3.live (k2.live l1), w3, ?_, m3⟩
  refine (k1.trans k2).trans_new k3 ?_
  rintro l (rfl | rfl) hl
  · exact f1 hl
  · exact f2 (k1.live hl)

/-! ## The shifted variants -/

theorem softmax_shift (v : Fin n → ℝ) (c : ℝ) : softmax (fun i => v i + c) = softmax v := by
  funext i
  unfold softmax
  simp only [Real.exp_add]
  rw [← Finset.sum_mul, mul_div_mul_right _ _ (Real.exp_ne_zero c)]

/-- Within the range of `int`. -/
def InInt (x : ℝ) : Prop := -2147483649 < x ∧ x < 2147483648

/-- Truncation towards zero. -/
noncomputable def trunc (x : ℝ) : ℤ := if 0 ≤ x then ⌊x⌋ else ⌈x⌉

theorem toInt_run {x : ℝ} (q : InInt x) (h : Heap ℝ) : toInt x h = .ok (trunc x, h) := by
  unfold toInt; rw [if_pos (show _ ∧ _ from q)]; rfl

theorem toInt_ub {x : ℝ} (q : ¬ InInt x) (h : Heap ℝ) : toInt x h = .ub := by
  unfold toInt; rw [if_neg (show ¬ (_ ∧ _) from q)]; rfl

theorem trunc_abs (x : ℝ) : |(trunc x : ℝ)| ≤ |x| := by
  unfold trunc
  split
  · rename_i h
    rw [abs_of_nonneg h, abs_of_nonneg (by exact_mod_cast Int.floor_nonneg.mpr h)]
    exact Int.floor_le x
  · rename_i h
    have h' : x ≤ 0 := (not_le.mp h).le
    have h2 : (⌈x⌉ : ℝ) ≤ 0 := by exact_mod_cast Int.ceil_le.mpr (by simpa using h')
    rw [abs_of_nonpos h', abs_of_nonpos h2]
    linarith [Int.le_ceil x]

/-- One step of `truncMax`. -/
noncomputable def truncStep (z : Nat) (i : Nat) (c : Option ℝ) : M ℝ (Option ℝ) := do
  let x ← load (.v z) i
  let zpi ← toInt x
  match c with
  | none => pure (some (zpi : ℝ))
  | some c => if c < (zpi : ℝ) then pure (some (zpi : ℝ)) else pure (some c)

theorem truncMax_eq (z n : Nat) : truncMax z n = foldN n none (truncStep z) := rfl

theorem truncStep_run {h : Heap ℝ} {z i : Nat} {f : Nat → ℝ} (a : VCells h (.v z) n f) (hi : i < n) (q : InInt (f i)) (c : Option ℝ) :
    truncStep z i c h = .ok (some (trunc (f i) : ℝ), h) ∨ (∃ x, c = some x ∧ truncStep z i c h = .ok (c, h)) := by
  unfold truncStep
  rw [bind_ok (load_ok (a.get hi)), bind_ok (toInt_run q _)]
  cases c with
  | none => exact .inl rfl
  | some c =>
    dsimp only
    by_cases hc : c < (trunc (f i) : ℝ)
    · rw [if_pos hc]; exact .inl rfl
    · rw [if_neg hc]; exact .inr ⟨c, rfl, rfl⟩

theorem truncMax_run {h : Heap ℝ} {z : Nat} {f : Nat → ℝ} (a : VCells h (.v z) n f) (q : ∀ i, i < n → InInt (f i)) :
    ∃ c, truncMax z n h = .ok (c, h) ∧ ∀ x, c = some x → ∃ i, i < n ∧ x = trunc (f i) := by
  have := Runs.foldN n (fun k (c : Option ℝ) h' => h' = h ∧ ∀ x, c = some x → ∃ i, i < n ∧ x = trunc (f i)) (truncStep z)
    none h ⟨rfl, nofun⟩ (by
      rintro i c h' hi ⟨rfl, hc⟩
      rcases truncStep_run a hi (q i hi) c with e | ⟨x, rfl, e⟩
      · exact Runs.of_eq e ⟨rfl, fun x ex => ⟨i, hi, (Option.some.inj ex).symm⟩⟩
      · exact Runs.of_eq e ⟨rfl, hc⟩)
  rw [truncMax_eq]
  obtain ⟨c, h', e, rfl, hc⟩ := runs_iff.mp this
  exact ⟨c, e, hc⟩

theorem loop_trunc_ub {h : Heap ℝ} {z : Nat} {f : Nat → ℝ} (a : VCells h (.v z) n f) :
    ∀ (cnt lo : Nat) (c : Option ℝ), lo + cnt = n → (∃ i, lo ≤ i ∧ i < n ∧ ¬ InInt (f i)) →
      loop lo cnt c (truncStep z) h = .ub := by
  intro cnt
  induction cnt with
  | zero => intro lo c e ⟨i, h1, h2, _⟩; omega
  | succ cnt ih =>
    intro lo c e hx
    rw [loop_succ]
    have hlo : lo < n := by omega
    by_cases q : InInt (f lo)
    · have hx' : ∃ i, lo + 1 ≤ i ∧ i < n ∧ ¬ InInt (f i) := by
        obtain ⟨i, h1, h2, h3⟩ := hx
        refine ⟨i, ?_, h2, h3⟩
        rcases Nat.lt_or_eq_of_le h1 with h | h
        · exact h
        · subst h; exact absurd q h3
      rcases truncStep_run a hlo q c with e' | ⟨_, _, e'⟩
      · rw [bind_ok e']; exact ih _ _ (by omega) hx'
      · rw [bind_ok e']; exact ih _ _ (by omega) hx'
    · refine bind_ub ?_
      unfold truncStep
      rw [bind_ok (load_ok (a.get hlo))]
      exact bind_ub (toInt_ub q h)

theorem adj_softmax_normv_ub {h : Heap ℝ} (w : h.WF) {z : Nat} {v : Fin n → ℝ} (hv : IsVec h z v) (q : ∃ i, ¬ InInt (v i)) :
    adj_softmax_normv (some (.v z)) h = .ub := by
  obtain ⟨f, ef, cf⟩ := hv.cells w
  unfold adj_softmax_normv
  rw [bind_ok (vsize_run hv), bind_ok (derefV_run z h)]
  obtain ⟨i, hi⟩ := q
  rw [ef] at hi
  exact bind_ub (loop_trunc_ub cf n 0 none (by omega) ⟨i, Nat.zero_le _, i.2, hi⟩)

theorem adj_softmax_normv_spec {h : Heap ℝ} (w : h.WF) {z : Nat} {v : Fin n → ℝ} (hv : IsVec h z v) (lz : h.live (.v z))
    (q : ∀ i, InInt (v i)) : ReturnsVec (adj_softmax_normv (some (.v z))) h (softmax v) := by
  unfold adj_softmax_normv
  refine Runs.step (vsize_run hv) (Runs.step (derefV_run z h) ?_)
  obtain ⟨f, ef, cf⟩ := hv.cells w
  obtain ⟨c, ec, _⟩ := truncMax_run cf (fun i hi => by rw [← ef ⟨i, hi⟩]; exact q _)
  refine Runs.step ec ?_
  refine ((scalar_addnv_lifts (-(c.getD 0))).vec w hv lz).bind ?_
  intro o h1 w1 k1 f1 l1 v1
  have := softmax_normv_spec w1 v1 l1
  rw [softmax_shift] at this
  exact k1.returnsVec this fun o h' a b c d e => ⟨o, rfl, a, b, c, d, e⟩

theorem adj_softmax_normm_spec {h : Heap ℝ} (w : h.WF) {z : Nat} {A : Matrix (Fin m) (Fin n) ℝ} (hA : IsMat h z A)
    (lz : h.live (.m z)) (q : ∀ i j, InInt (A i j)) :
    ReturnsMat (adj_softmax_normm (some (.m z))) h (Matrix.of fun i => softmax (A i)) :=
  rowsOfCopy_spec w hA lz fun i _ _ w' l' hv => adj_softmax_normv_spec w' hv l' (q i)

theorem adj_softmax_derivv_spec {h : Heap ℝ} (w : h.WF) {z : Nat} {v : Fin n → ℝ} (hv : IsVec h z v) (lz : h.live (.v z))
    (q : ∀ i, |v i| < 1073741824) : ReturnsVec (adj_softmax_derivv (some (.v z))) h (softmax v) := by
  unfold adj_softmax_derivv
  refine Runs.step (vsize_run hv) (Runs.step (derefV_run z h) ?_)
  obtain ⟨f, ef, cf⟩ := hv.cells w
  have q' : ∀ i, i < n → |f i| < 1073741824 := fun i hi => by rw [← ef ⟨i, hi⟩]; exact q _
  obtain ⟨c, ec, hc⟩ := truncMax_run cf (fun i hi => by
    have := abs_lt.mp (q' i hi); constructor <;> linarith)
  refine Runs.step ec ?_
  refine ((scalar_addnv_lifts (-(c.getD 0))).vec w hv lz).bind ?_
  intro o h1 w1 k1 f1 l1 v1
  have cb : |c.getD 0| < 1073741824 := by
    cases c with
    | none => simp
    | some c =>
      obtain ⟨i, hi, rfl⟩ := hc c rfl
      exact lt_of_le_of_lt (trunc_abs _) (q' i hi)
  have := adj_softmax_normv_spec w1 v1 l1 (fun i => by
    have h1 := abs_lt.mp cb; have h2 := abs_lt.mp (q i)
    constructor <;> linarith)
  rw [softmax_shift] at this
  exact k1.returnsVec this fun o h' a b c d e => ⟨o, rfl, a, b, c, d, e⟩

theorem adj_softmax_derivm_spec {h : Heap ℝ} (w : h.WF) {z : Nat} {A : Matrix (Fin m) (Fin n) ℝ} (hA : IsMat h z A)
    (lz : h.live (.m z)) (q : ∀ i j, |A i j| < 1073741824) :
    ReturnsMat (adj_softmax_derivm (some (.m z))) h (Matrix.of fun i => softmax (A i)) :=
  rowsOfCopy_spec w hA lz fun i _ _ w' l' hv => adj_softmax_derivv_spec w' hv l' (q i)

/-! ## Endless recursion -/

theorem ub_of_runs {α β : Type} {c : M ℝ α} {k : α → M ℝ β} {h : Heap ℝ} (r : Runs c h fun a h' => k a h' = .ub) : (c >>= k) h = .ub := by
  obtain ⟨a, h', e, q⟩ := runs_iff.mp r
  rw [bind_ok e]; exact q

theorem softmax_derivm_ub : ∀ (fuel : Nat) {m n : Nat} {h : Heap ℝ}, h.WF → ∀ {z : Nat} {A : Matrix (Fin (m + 1)) (Fin n) ℝ}, IsMat h z A →
    h.live (.m z) → softmax_derivm fuel (some (.m z)) h = .ub := by
  intro fuel
  induction fuel with
  | zero => intros; rfl
  | succ fuel ih =>
    intro m n h w z A hA lz
    have e : softmax_derivm (fuel + 1) (some (.m z)) h = ((newMat >>= fun a => resizeTo a ⟨n, m + 1, 1⟩ >>= fun _ =>
        (newVec >>= fun t => resizeTo t ⟨n, 1, 1⟩ >>= fun _ => (pure (a, t) : M ℝ (Loc × Loc)))) >>= fun p => (do
          let zi ← derefM (some (.m z))
          forN (m + 1) fun i => do
            Mat.row_get_into_mlpp_vector zi (i : Int) (some p.2.id)
            let _ ← softmax_derivm fuel (some (.m z))
            Mat.row_set_mlpp_vector p.1.id (i : Int) none
          pure (some p.1))) h := by
      rw [softmax_derivm, bind_ok (msize_run hA)]
      simp only [bind_assoc, pure_bind]
    rw [e]
    refine ub_of_runs (Runs.newMat w rfl ?_)
    intro h1 w1 k1 f1 l1 s1
    refine Runs.newVec w1 ⟨rfl, rfl⟩ ?_
    intro h2 w2 k2 f2 l2 s2
    show (_ >>= _ : M ℝ Ref) h2 = .ub
    rw [bind_ok (derefM_run z h2)]
    refine bind_ub ?_
    have k12 := k1.trans k2
    have hA2 := hA.keep k12 lz id
    obtain ⟨F, eF, cF⟩ := hA2.cells w2
    obtain ⟨h3, e3, u3⟩ := Mat.rowGet_run w2 (v := h1.next) cF (i := 0) (by omega)
    rw [forN, loop_succ]
    refine bind_ub ((bind_ok e3).trans (bind_ub ?_))
    exact ih (u3.wf w2) (hA2.keep u3.keeps (k12.live lz) nofun) (u3.keeps.live (k12.live lz))

/-! ## The Jacobian -/

theorem softmax_deriv_normv_spec {h : Heap ℝ} (w : h.WF) {z : Nat} {v : Fin n → ℝ} (hv : IsVec h z v) (lz : h.live (.v z)) :
    ReturnsMat (softmax_deriv_normv (some (.v z))) h
      (Matrix.of fun i j : Fin n => softmax v i * ((if i = j then 1 else 0) - softmax v j)) := by
  unfold softmax_deriv_normv
  refine (softmax_normv_spec w hv lz).bind ?_
  intro a h1 w1 k1 f1 l1 v1
  refine Runs.step (vsize_run (hv.keep k1 lz id)) (Runs.step (derefV_run a h1) ?_)
  have sz : Vec.size a h1 = .ok (n, h1) := by
    unfold Vec.size
    rw [bind_ok (getSize_run _ _), v1.1]; rfl
  refine Runs.step sz ?_
  refine Runs.newMat w1 rfl ?_
  intro h2 w2 k2 f2 l2 s2
  obtain ⟨g, eg, cg⟩ := (v1.keep k2 l1 id).cells w2
  refine Runs.step (fillLoop2 (l := .m h1.next) (c := n) (r := n) (by rw [w2.len, s2, count_mat]) _
    (fun i j => if i = j then g i * (1 - g i) else - g i * g j) ?_) ?_
  · intro i j F hi hj
    by_cases hij : i = j
    · rw [if_pos hij, bind_ok (load_Gr_ne (by nofun) (cg.get hi)), if_pos hij]
      exact Mat.element_set_run F s2 hi hj _
    · rw [if_neg hij, bind_ok (load_Gr_ne (by nofun) (cg.get hi)), bind_ok (load_Gr_ne (by nofun) (cg.get hj)),
        if_neg hij]
      exact Mat.element_set_run F s2 hi hj _
  · refine returnsMat_Gr w2 (k1.trans k2) (fun q => f2 (k1.live q)) l2 s2 fun i j => ?_
    rw [Matrix.of_apply, eg, eg]
    by_cases hij : i = j
    · subst hij; simp
    · rw [if_neg hij, if_neg (fun q => hij (Fin.ext q))]; ring

end Verif.Activation
