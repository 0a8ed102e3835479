import Verif.Lemmas.Reg
import Verif.Lemmas.Fill
import Verif.Lemmas.New
import Verif.Lemmas.Softmax

/-! # Derivatives computed by a loop over the elements -/

namespace Verif
open Spec SortArray Finset
variable {m n : Nat}

namespace Cost

/-- What `mae_deriv*` stores: the sign of the truncated value. -/
noncomputable def truncSign (x : ℝ) : ℝ := if x ≤ -1 then -1 else if x < 1 then 0 else 1

/-- The range of `int`. -/
def InInt (x : ℝ) : Prop := -2147483649 < x ∧ x < 2147483648

theorem mae_step {x : ℝ} (hx : InInt x) (d : Loc) (i : Nat) (h : Heap ℝ) :
    (do
      let k ← Activation.toInt x
      if k < 0 then store d i (-1) else if k = 0 then store d i 0 else store d i 1 : M ℝ Unit) h = store d i (truncSign x) h := by
  have e : Activation.toInt x h = .ok ((if 0 ≤ x then ⌊x⌋ else ⌈x⌉), h) := by
    unfold Activation.toInt; rw [if_pos (show -2147483649 < x ∧ x < 2147483648 from hx)]; rfl
  rw [bind_ok e]
  unfold truncSign
  by_cases h0 : 0 ≤ x
  · rw [if_pos h0, if_neg (by have := Int.floor_nonneg.2 h0; omega), if_neg (by linarith : ¬ x ≤ -1)]
    by_cases h1 : x < 1
    · rw [if_pos (Int.floor_eq_zero_iff.2 ⟨h0, h1⟩), if_pos h1]
    · rw [if_neg (fun c => h1 (Int.floor_eq_zero_iff.1 c).2), if_neg h1]
  · rw [if_neg h0]
    by_cases h1 : x ≤ -1
    · rw [if_pos h1, if_pos]
      have : ⌈x⌉ ≤ -1 := Int.ceil_le.2 (by push_cast; exact h1)
      omega
    · have : ⌈x⌉ = 0 := Int.ceil_eq_zero_iff.2 ⟨lt_of_not_ge h1, (lt_of_not_ge h0).le⟩
      rw [this, if_neg h1, if_pos (by linarith : x < 1)]; rfl

theorem maeLoop_eq {h : Heap ℝ} {a d : Loc} {n : Nat} (hne : a ≠ d) (ha : (h.buf a).length = n) (hd : (h.buf d).length = n)
    (hr : ∀ x ∈ h.buf a, InInt x) : maeLoop a d n h = unLoop truncSign a d n h := by
  have : ∀ i f, i < n → ∃ v, (h.buf a)[i]? = some v ∧ InInt v ∧ load a i (St h d n f) = .ok (v, St h d n f) := by
    intro i f hi
    have e := List.getElem?_eq_getElem (show i < (h.buf a).length by omega)
    exact ⟨_, e, hr _ (List.getElem_mem _), load_St_ne hne e⟩
  unfold maeLoop unLoop
  rw [fillLoop hd _ (fun i => truncSign ((h.buf a)[i]?.getD 0)), fillLoop hd _ (fun i => truncSign ((h.buf a)[i]?.getD 0))]
  · intro i f hi
    obtain ⟨v, e, _, l⟩ := this i f hi
    rw [bind_ok l, e]; rfl
  · intro i f hi
    obtain ⟨v, e, r, l⟩ := this i f hi
    rw [bind_ok l, e]; exact mae_step r d i _

theorem mae_new {h : Heap ℝ} (w : h.WF) {mk : Nat → Loc} (K : IsKind (R := ℝ) mk) {a : Nat} (la : h.live (mk a))
    (hr : ∀ x ∈ h.buf (mk a), InInt x) : ReturnsNew mk (do
      let out ← newLike (mk a)
      resizeTo out (h.size (mk a))
      maeLoop (mk a) out (h.size (mk a)).count
      pure (some out) : M ℝ Ref) h (h.size (mk a)) ((h.buf (mk a)).map truncSign) := by
  obtain ⟨h', e, c⟩ := newFill_run (mk a) (h.size (mk a)) (fun out => maeLoop (mk a) out (h.size (mk a)).count) h
    ((h.buf (mk a)).map truncSign) (by
      intro h1 hb hs hlen hsz
      have l1 : (h1.buf (mk a)).length = (h.size (mk a)).count := by rw [hb _ la, w.len]
      rw [maeLoop_eq (live_ne_fresh la (like_id _ _)) l1 hlen (by rw [hb _ la]; exact hr), unLoop_run truncSign _ _ _ h1 l1 hlen,
        hb _ la])
  rw [K.like] at e c
  exact created_returnsNew K w (by simp [w.len]) rfl e c

theorem mae_derivv_spec {h : Heap ℝ} (w : h.WF) {a : Nat} {p : Fin n → ℝ} (ha : IsVec h a p) (la : h.live (.v a))
    (hr : ∀ i, InInt (p i)) (y : Ref) : ReturnsVec (mae_derivv (some (.v a)) y) h fun i => truncSign (p i) := by
  obtain ⟨g, eg, cg⟩ := ha.cells w
  have hr' : ∀ x ∈ h.buf (.v a), InInt x := by
    intro x hx
    rw [cg.2] at hx
    simp only [tab, List.mem_map, List.mem_range] at hx
    obtain ⟨i, hi, rfl⟩ := hx
    have := hr ⟨i, hi⟩; rwa [eg] at this
  refine Runs.mono (mae_new w kindV la hr') ?_
  rintro _ h' ⟨o, rfl, h1, h2, h3, h4, h5⟩
  refine ⟨o, rfl, h1, h2, h3, h4, ?_⟩
  rw [cg.1, cg.2, tab, List.map_map] at h5
  exact holds_isVec h5 fun i => by rw [eg]; rfl

theorem mae_derivm_spec {h : Heap ℝ} (w : h.WF) {a : Nat} {A : Matrix (Fin m) (Fin n) ℝ} (ha : IsMat h a A) (la : h.live (.m a))
    (hr : ∀ i j, InInt (A i j)) (y : Ref) : ReturnsMat (mae_derivm (some (.m a)) y) h (A.map truncSign) := by
  obtain ⟨g, eg, cg⟩ := ha.cells w
  have hr' : ∀ x ∈ h.buf (.m a), InInt x := by
    intro x hx
    rw [cg.2] at hx
    simp only [tab, List.mem_map, List.mem_range] at hx
    obtain ⟨i, hi, rfl⟩ := hx
    have hn : 0 < n := by rcases Nat.eq_zero_or_pos n with rfl | h <;> omega
    have h1 : i / n < m := Nat.div_lt_of_lt_mul hi
    have h2 : i % n < n := Nat.mod_lt _ hn
    have := hr ⟨i / n, h1⟩ ⟨i % n, h2⟩
    rwa [eg] at this
  refine Runs.mono (mae_new w kindM la hr') ?_
  rintro _ h' ⟨o, rfl, h1, h2, h3, h4, h5⟩
  refine ⟨o, rfl, h1, h2, h3, h4, ?_⟩
  rw [cg.1, cg.2, tab, List.map_map] at h5
  exact holds_isMat (F := fun i j => truncSign (g i j)) h5 fun i j => by rw [Matrix.map_apply, eg]

end Cost

namespace Reg

theorem reg_deriv_termv_spec {h : Heap ℝ} (w : h.WF) {a : Nat} {v : Fin n → ℝ} (ha : IsVec h a v) (la : h.live (.v a))
    (l al : ℝ) (r : Kind) : ReturnsVec (reg_deriv_termv (some (.v a)) l al r) h fun i => derivTerm l al r (v i) := by
  obtain ⟨f, ef, cf⟩ := ha.cells w
  unfold ReturnsVec reg_deriv_termv
  refine Runs.congr (newVec_size la fun d s => do
    resizeTo d ⟨s.x, 1, 1⟩
    forN s.x fun i => do
      let x ← reg_deriv_termvr (some (.v a)) l al r (i : Int)
      store d i x
    pure (some d)) ?_
  rw [cf.1]
  refine Runs.newVec w (s := ⟨n, 1, 1⟩) ⟨rfl, rfl⟩ fun h1 w1 k1 hn l1 hs1 => ?_
  have c1 := cf.keep k1 la nofun
  have hne : Loc.v a ≠ .v h.next := fun e => hn (e ▸ la)
  have lenb : (h1.buf (.v h.next)).length = n := by rw [w1.len, hs1, count_vec]
  refine Runs.step (fillLoop lenb _ (fun i => derivTerm l al r (f i)) ?_) ?_
  · intro i g hi
    have cs : VCells (St h1 (.v h.next) n g) (.v a) n f := ⟨by rw [← c1.1]; rfl, by rw [← c1.2]; exact setBuf_buf_ne _ _ hne⟩
    refine bind_ok (?_ : reg_deriv_termvr (some (.v a)) l al r (i : Int) _ = .ok (derivTerm l al r (f i), _))
    unfold reg_deriv_termvr
    rw [bind_ok (show derefV (some (.v a)) _ = .ok (a, _) from rfl), bind_ok (Vec.get_cells (St_wf w1 _ hs1) cs hi)]
    rfl
  · exact returnsVec_St w1 k1 hn l1 hs1 fun i => by rw [ef]

theorem reg_deriv_termm_spec {h : Heap ℝ} (w : h.WF) {a : Nat} {A : Matrix (Fin m) (Fin n) ℝ} (ha : IsMat h a A) (la : h.live (.m a))
    (l al : ℝ) (r : Kind) : ReturnsMat (reg_deriv_termm (some (.m a)) l al r) h (A.map (derivTerm l al r)) := by
  obtain ⟨F, ef, cf⟩ := ha.cells w
  unfold ReturnsMat reg_deriv_termm
  refine Runs.congr (newMat_size la fun d s => do
    resizeTo d s
    forN s.y fun i => forN s.x fun j => do
      let ds ← getSize d
      let x ← reg_deriv_termmr (some (.m a)) l al r (i : Int) (j : Int)
      store d (i * ds.x + j) x
    pure (some d)) ?_
  rw [cf.1]
  refine Runs.newMat w (s := ⟨n, m, 1⟩) rfl fun h1 w1 k1 hn l1 hs1 => ?_
  have c1 := cf.keep k1 la nofun
  have hne : Loc.m a ≠ .m h.next := fun e => hn (e ▸ la)
  have lenb : (h1.buf (.m h.next)).length = n * m := by rw [w1.len, hs1, count_mat]
  refine Runs.step (fillLoop2 lenb _ (fun i j => derivTerm l al r (F i j)) ?_) ?_
  · intro i j G hi hj
    have cs := c1.Gr (c' := n) (r' := m) (G := G) hne
    rw [bind_ok (getSize_run _ _), show (Gr h1 (.m h.next) n m G).size (.m h.next) = ⟨n, m, 1⟩ from hs1]
    have : reg_deriv_termmr (some (.m a)) l al r (i : Int) (j : Int) (Gr h1 (.m h.next) n m G) =
        .ok (derivTerm l al r (F i j), Gr h1 (.m h.next) n m G) := by
      unfold reg_deriv_termmr
      rw [bind_ok (show derefM (some (.m a)) _ = .ok (a, _) from rfl), bind_ok (Mat.element_get_run cs hi hj)]
      rfl
    rw [bind_ok this, store_Gr _ hi hj]
  · exact returnsMat_Gr w1 k1 hn l1 hs1 fun i j => by rw [Matrix.map_apply, ef]

end Reg
end Verif
