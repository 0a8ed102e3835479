import Verif.Lemmas.Layers

/-! # adj_softmax of matrices whose entries do not fit into `int` -/

namespace Verif
open Spec Finset
variable {m n : Nat}

theorem loop_inv_ub {σ : Type} (I : Nat → σ → Heap ℝ → Prop) (body : Nat → σ → M ℝ σ) (k : Nat)
    (step : ∀ i s h, i < k → I i s h → Runs (body i s) h (I (i + 1))) (hu : ∀ s h, I k s h → body k s h = .ub) :
    ∀ (j lo c : Nat) (s : σ) (h : Heap ℝ), lo + j = k → j < c → I lo s h → loop lo c s body h = .ub := by
  intro j
  induction j with
  | zero =>
    intro lo c s h e hc hI
    obtain ⟨c, rfl⟩ := Nat.exists_eq_succ_of_ne_zero (by omega : c ≠ 0)
    have : lo = k := by omega
    subst this
    rw [loop_succ]
    exact bind_ub (hu s h hI)
  | succ j ih =>
    intro lo c s h e hc hI
    obtain ⟨c, rfl⟩ := Nat.exists_eq_succ_of_ne_zero (by omega : c ≠ 0)
    rw [loop_succ]
    obtain ⟨s', h', es, hs⟩ := runs_iff.1 (step lo s h (by omega) hI)
    rw [bind_ok es]
    exact ih (lo + 1) c s' h' (by omega) (by omega) hs

namespace Activation

theorem rowLoop_ub {h : Heap ℝ} (w : h.WF) {f : Ref → M ℝ Ref} {z a t : Nat} {A B : Matrix (Fin m) (Fin n) ℝ} (hA : IsMat h z A)
    (lz : h.live (.m z)) (la : h.live (.m a)) (lt : h.live (.v t)) (sa : h.size (.m a) = ⟨n, m, 1⟩) (hza : z ≠ a) (r : Fin m)
    (hf : ∀ i < r, ∀ (h' : Heap ℝ), h'.WF → h'.live (.v t) → IsVec h' t (A i) → ReturnsVec (f (some (.v t))) h' (B i))
    (hu : ∀ (h' : Heap ℝ), h'.WF → IsVec h' t (A r) → f (some (.v t)) h' = .ub) :
    rowLoop f z a t m h = .ub := by
  obtain ⟨F, eF, cF⟩ := hA.cells w
  have nza : Loc.m z ≠ .m a := fun e => hza (Loc.m.inj e)
  obtain ⟨K, cK⟩ := exists_Cells w sa
  unfold rowLoop
  unfold forN
  refine loop_inv_ub (fun _ _ h' => h'.WF ∧ Keeps h h' (fun l => l = .m a ∨ l = .v t) ∧ ∃ K, Cells h' (.m a) n m K) _ r ?_ ?_ r 0 m () h (by omega) r.2
    ⟨w, Keeps.refl _ _, K, cK⟩
  · intro i _ h1 hi ⟨w1, k1, K1, c1⟩
    have him : i < m := hi.trans r.2
    have cz : Cells h1 (.m z) n m F := cF.keep k1 lz (by simp [nza])
    obtain ⟨h2, e2, u2⟩ := Mat.rowGet_run w1 (v := t) cz him
    refine Runs.step e2 ?_
    have w2 := u2.wf w1
    have l2 : h2.live (.v t) := u2.keeps.live (k1.live lt)
    refine (hf ⟨i, him⟩ hi h2 w2 l2 (u2.cells.isVec fun j => eF ⟨i, him⟩ j)).bind ?_
    intro q h3 w3 k3 fq lq hq
    obtain ⟨g, eg, cg⟩ := hq.cells w3
    have c3 := ((c1.upd u2 (by nofun)).keep k3 (u2.keeps.live (k1.live la)) id)
    obtain ⟨h4, e4, u4⟩ := Mat.rowSet_run c3 cg him
    refine Runs.of_eq (a := ()) e4 ⟨u4.wf w3, ?_, _, u4.cells⟩
    refine k1.trans_new (S := fun l => l = .m a ∨ l = .v t) (T := fun l => l = .m a ∨ l = .v t) ?_ (fun l q _ => q)
    refine ((u2.keeps.mono fun l _ q => Or.inr q).trans_new k3 (fun _ q _ => q.elim)).trans (u4.keeps.mono fun l _ q => Or.inl q)
  · intro _ h1 ⟨w1, k1, K1, c1⟩
    have cz : Cells h1 (.m z) n m F := cF.keep k1 lz (by simp [nza])
    obtain ⟨h2, e2, u2⟩ := Mat.rowGet_run w1 (v := t) cz r.2
    refine (bind_ok e2).trans ?_
    exact bind_ub (hu h2 (u2.wf w1) (u2.cells.isVec fun j => eF r j))

theorem adj_softmax_normm_ub {h : Heap ℝ} (w : h.WF) {z : Nat} {A : Matrix (Fin m) (Fin n) ℝ} (hA : IsMat h z A) (lz : h.live (.m z))
    (q : ∃ i j, ¬ InInt (A i j)) : adj_softmax_normm (some (.m z)) h = .ub := by
  classical
  obtain ⟨r, ⟨j, hj⟩, hmin⟩ : ∃ r : Fin m, (∃ j, ¬ InInt (A r j)) ∧ ∀ i < r, ∀ j, InInt (A i j) := by
    have ex : ∃ k, ∃ hk : k < m, ∃ j, ¬ InInt (A ⟨k, hk⟩ j) := ⟨q.choose, q.choose.2, q.choose_spec⟩
    obtain ⟨hk, j, hj⟩ := Nat.find_spec ex
    refine ⟨⟨Nat.find ex, hk⟩, ⟨j, hj⟩, fun i hi j => ?_⟩
    by_contra hc
    exact Nat.find_min ex (Fin.lt_def.1 hi) ⟨i.2, j, hc⟩
  unfold adj_softmax_normm rowsOfCopy
  rw [bind_ok (derefM_run z h)]
  have := (Mat.unN_id_spec w hA lz)
  refine ub_of_runs (Runs.mono this ?_)
  rintro _ h1 ⟨o, rfl, f1, l1, w1, k1, m1⟩
  rw [bind_ok (derefM_run o h1), bind_ok (Mat.size_run z h1)]
  have hA1 := hA.keep k1 lz id
  rw [hA1.1]
  have hza : z ≠ o := fun e => f1 (e ▸ lz)
  have e : (newVec >>= fun t => resizeTo t ⟨n, 1, 1⟩ >>= fun _ => rowLoop adj_softmax_normv z o t.id m >>= fun _ => (pure (some (.m o)) : M ℝ Ref)) h1 =
      ((newVec >>= fun t => resizeTo t ⟨n, 1, 1⟩ >>= fun _ => (pure t : M ℝ Loc)) >>= fun t => rowLoop adj_softmax_normv z o t.id m >>= fun _ => (pure (some (.m o)) : M ℝ Ref)) h1 := by
    simp only [bind_assoc, pure_bind]
  refine e.trans ?_
  refine ub_of_runs (Runs.newVec w1 ⟨rfl, rfl⟩ ?_)
  intro h2 w2 k2 f2 l2 s2
  refine Runs.of_eq rfl ?_
  refine bind_ub (rowLoop_ub w2 (B := fun i => softmax (A i)) (hA1.keep k2 (k1.live lz) id) (k2.live (k1.live lz)) (k2.live l1) l2 (by rw [(k2.2 _ l1 id).2, m1.1]) hza r ?_ ?_)
  · intro i hi h' w' l' v'
    exact adj_softmax_normv_spec w' v' l' (hmin i hi)
  · intro h' w' v'
    exact adj_softmax_normv_ub w' v' ⟨j, hj⟩

end Activation
end Verif
