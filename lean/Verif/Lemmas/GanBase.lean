import Verif.Spec.Gan
import Verif.Lemmas.AnnBack
import Verif.Lemmas.Rows
import Verif.Props.WeightInit
import Verif.Lemmas.KMeans
import Verif.Lemmas.Thread
import Mathlib.Data.List.OfFn

/-! # The matrices and vectors that the adversarial networks make -/

namespace Verif
open Spec Finset
variable {n m k : Nat}

theorem noise_run (z : Noise) (n k : Nat) {h : Heap ℝ} (w : h.WF) : ReturnsMat (create_gaussian_noise z n k) h (noise z n k) := by
  unfold create_gaussian_noise ReturnsMat
  refine Runs.newMat w (s := ⟨k, n, 1⟩) rfl fun h1 w1 K1 f1 l1 s1 => ?_
  refine Runs.step (getSize_run _ _) ?_
  rw [s1, count_mat]
  have hl : (h1.buf (.m h.next)).length = k * n := by rw [w1.len, s1, count_mat]
  refine Runs.bind ((Runs.forN (k * n) (fun t h' => h'.WF ∧ Keeps h1 h' (· = .m h.next) ∧ h'.size (.m h.next) = ⟨k, n, 1⟩ ∧
    (h'.buf (.m h.next)).length = k * n ∧ ∀ i, i < t → (h'.buf (.m h.next))[i]? = some (z i)) _ h1
    ⟨w1, Keeps.refl _ _, s1, hl, by intro i hi; omega⟩ ?_).mono ?_)
  · rintro i h2 hi ⟨w2, k2, s2, l2, c2⟩
    have hlt : i < (h2.buf (.m h.next)).length := by rw [l2]; exact hi
    have u := updated_setBuf h2 (.m h.next) ((h2.buf (.m h.next)).set i (z i))
    refine Runs.of_eq (store_ok _ hlt) ⟨u.wf w2 (by rw [List.length_set, w2.len]) nofun (fun _ _ => w2.mat _), k2.trans u.keeps, s2, ?_, ?_⟩
    · rw [setBuf_buf_same, List.length_set, l2]
    · intro t ht
      rw [setBuf_buf_same, List.getElem?_set]
      by_cases e : i = t
      · subst e; simp [hlt]
      · rw [if_neg e]; exact c2 t (by omega)
  · rintro _ h2 ⟨w2, k2, s2, l2, c2⟩
    refine Runs.of_eq rfl ⟨_, rfl, f1, k2.live l1, w2, K1.trans_new k2 fun l e hl => f1 (e ▸ hl), s2, fun i j => c2 _ ?_⟩
    calc i.val * k + j.val < i.val * k + k := by have := j.2; omega
      _ = k * (i.val + 1) := by ring
      _ ≤ k * n := Nat.mul_le_mul_left _ i.2

theorem const_run {h : Heap ℝ} (w : h.WF) (n : Nat) (x : ℝ) : ReturnsVec (do
    let vec ← newVec
    Vec.resize vec.id n
    Vec.fill vec.id x
    pure (some vec)) h (fun _ : Fin n => x) := by
  refine ReturnsVec.of_has (stepV0 w fun o h1 v w1 k1 f1 u1 => ?_)
  have er : (Vec.resize (Loc.v o).id (n : Int) : M ℝ Unit) = Hd.resizev (some (.v o)) n := by
    unfold Vec.resize Hd.resizev
    rw [if_neg (by omega), Int.toNat_natCast]
    rfl
  rw [er]
  refine Runs.bind ((Hd.resizev_run w1 u1 n).mono fun _ h2 ⟨w2, k2, v2, u2⟩ => ?_)
  refine Runs.bind ((show Runs (Vec.fill (Loc.v o).id x) h2 _ from Hd.fillv_run w2 u2 x).mono fun _ h3 ⟨w3, k3, u3⟩ => ?_)
  exact Runs.of_eq rfl ⟨w3, (k1.wr_new k2 f1).wr_new k3 f1, f1, u3⟩

theorem one_run {h : Heap ℝ} (w : h.WF) (n : Nat) : ReturnsVec (Vec.vecn_one (R := ℝ) n) h (fun _ : Fin n => 1) := const_run w n 1
theorem zero_run {h : Heap ℝ} (w : h.WF) (n : Nat) : ReturnsVec (Vec.vecn_zero (R := ℝ) n) h (fun _ : Fin n => 0) := const_run w n 0

theorem append_vec_run {h : Heap ℝ} (w : h.WF) {a b : Ref} {u : Fin n → ℝ} {v : Fin m → ℝ} (ha : HasV h a u) (hb : HasV h b v) :
    Runs (Hd.append_mlpp_vector a b) h fun _ h' => h'.WF ∧ Keeps h h' (some · = a) ∧ HasV h' a (Fin.append u v) := by
  obtain ⟨i, rfl, li, hi⟩ := ha; obtain ⟨j, rfl, lj, hj⟩ := hb
  obtain ⟨h', e, up⟩ := Vec.append_run w i j
  have w' := up.wf w
  refine Runs.of_eq (show Hd.append_mlpp_vector (some (.v i)) (some (.v j)) h = .ok ((), h') from e) ⟨w', ?_, i, rfl, ?_, ?_⟩
  · exact (Updated.keeps up).mono fun _ _ e => congrArg some e
  · exact (Updated.keeps up).live li
  · refine isVec_of_vec w' ?_
    rw [up.vec_same, hi.vec_eq w, hj.vec_eq w, List.ofFn_fin_append]

theorem flat_rows (A : Matrix (Fin n) (Fin k) ℝ) (hk : 0 < k) :
    (List.ofFn fun i => List.ofFn (A i)).flatten = List.ofFn fun t : Fin (n * k) => A t.divNat t.modNat := by
  rw [List.ofFn_mul]
  refine congrArg _ (congrArg _ (funext fun i => congrArg _ (funext fun j => ?_)))
  have e1 : (i.val * k + j.val) / k = i.val := by rw [mul_comm, Nat.mul_add_div hk, Nat.div_eq_of_lt j.2, add_zero]
  have e2 : (i.val * k + j.val) % k = j.val := by rw [mul_comm, Nat.mul_add_mod, Nat.mod_eq_of_lt j.2]
  exact congrArg₂ A (Fin.ext e1.symm) (Fin.ext e2.symm)

theorem flat_get (A : Matrix (Fin n) (Fin k) ℝ) (hk : 0 < k) (i : Fin n) (j : Fin k) :
    (List.ofFn fun i => List.ofFn (A i)).flatten[i.val * k + j.val]? = some (A i j) := by
  rw [flat_rows A hk]
  have lt : i.val * k + j.val < n * k := by
    have := Nat.mul_le_mul_right k i.2
    have := j.2
    rw [Nat.succ_mul] at *
    omega
  have e1 : (i.val * k + j.val) / k = i.val := by rw [mul_comm, Nat.mul_add_div hk, Nat.div_eq_of_lt j.2, add_zero]
  have e2 : (i.val * k + j.val) % k = j.val := by rw [mul_comm, Nat.mul_add_mod, Nat.mod_eq_of_lt j.2]
  rw [List.getElem?_ofFn, dif_pos lt]
  exact congrArg some (congrArg₂ A (Fin.ext e1) (Fin.ext e2))

theorem mat_table {h : Heap ℝ} (w : h.WF) {o : Nat} {A : Matrix (Fin n) (Fin k) ℝ} (a : IsMat h o A) (hk : 0 < k) :
    MRep h o ⟨k, List.ofFn fun i => List.ofFn (A i)⟩ := by
  refine ⟨by rw [a.1, List.length_ofFn], ?_, ⟨?_, fun e => absurd e hk.ne'⟩⟩
  · have hl : (h.buf (.m o)).length = n * k := by rw [w.len, a.1, count_mat, mul_comm]
    refine List.ext_getElem? fun t => ?_
    by_cases ht : t < n * k
    · have h1 : t / k < n := Nat.div_lt_of_lt_mul (by rw [mul_comm]; exact ht)
      have h2 : t % k < k := Nat.mod_lt _ hk
      have e : t = t / k * k + t % k := (Nat.div_add_mod' t k).symm
      rw [e]
      exact (a.2 ⟨_, h1⟩ ⟨_, h2⟩).trans (flat_get A hk ⟨_, h1⟩ ⟨_, h2⟩).symm
    · rw [flat_rows A hk, List.getElem?_ofFn, dif_neg ht, List.getElem?_eq_none (by omega)]
  · intro r hr
    obtain ⟨i, rfl⟩ := (List.mem_ofFn' _ _).1 hr
    simp

theorem rows_add_mat {h : Heap ℝ} (w : h.WF) {a b : Ref} {A : Matrix (Fin n) (Fin k) ℝ} {B : Matrix (Fin m) (Fin k) ℝ} (ha : HasM h a A) (hb : HasM h b B)
    (hk : 0 < k) : Runs (Hd.rows_add_mlpp_matrix a b) h fun _ h' => h'.WF ∧ Keeps h h' (some · = a) ∧ HasM h' a (stack A B) := by
  obtain ⟨i, rfl, li, hi⟩ := ha; obtain ⟨j, rfl, lj, hj⟩ := hb
  obtain ⟨h', e, up⟩ := Mat.rows_add_run (mat_table w hi hk) (mat_table w hj hk)
  have es : (List.ofFn fun i => List.ofFn (stack A B i)) = (List.ofFn fun i => List.ofFn (A i)) ++ List.ofFn fun i => List.ofFn (B i) := by
    rw [← List.ofFn_fin_append]
    refine congrArg _ (funext fun t => ?_)
    refine Fin.addCases (fun t => ?_) (fun t => ?_) t
    · show List.ofFn (Fin.append A B (Fin.castAdd m t)) = Fin.append _ _ (Fin.castAdd m t)
      rw [Fin.append_left (fun i => List.ofFn (A i))]
      exact congrArg List.ofFn (Fin.append_left (α := Fin k → ℝ) A B t)
    · show List.ofFn (Fin.append A B (Fin.natAdd n t)) = Fin.append _ _ (Fin.natAdd n t)
      rw [Fin.append_right (fun i => List.ofFn (A i))]
      exact congrArg List.ofFn (Fin.append_right (α := Fin k → ℝ) A B t)
  have er : Table.add ⟨k, List.ofFn fun i => List.ofFn (A i)⟩ k (List.ofFn fun i => List.ofFn (B i)) = ⟨k, List.ofFn fun i => List.ofFn (stack A B i)⟩ := by
    rw [es]
    unfold Table.add
    by_cases hm : (List.ofFn fun i => List.ofFn (B i)) = []
    · rw [if_pos (Or.inr hm), hm, List.append_nil]
    · rw [if_neg (by simp only [not_or]; exact ⟨hk.ne', hm⟩), if_neg hk.ne', if_pos rfl]
  rw [er] at up
  have K := up.upd.keeps
  have w' : h'.WF := up.upd.wf w (by rw [flat_rows _ hk]; simp [Size.count, mul_comm]) nofun (fun _ _ => rfl)
  refine Runs.of_eq (show Hd.rows_add_mlpp_matrix (some (.m i)) (some (.m j)) h = .ok ((), h') from e) ⟨w', K.mono fun _ _ e => congrArg some e, i, rfl, K.live li, ?_, ?_⟩
  · rw [up.upd.size, List.length_ofFn]
  · intro x y
    rw [up.upd.buf]
    exact flat_get _ hk x y

theorem forall_keep {h h' : Heap ℝ} {S : Loc → Prop} (K : Keeps h h' S) : ∀ {rs : List Ref} {As : List Ann.Some}, List.Forall₂ (Ann.HasS h) rs As →
    (∀ q ∈ rs, ∀ l, q = some l → ¬ S l) → List.Forall₂ (Ann.HasS h') rs As
  | _, _, .nil, _ => .nil
  | _, _, .cons a as, hS => .cons (HasM.keep a K (hS _ (by simp))) (forall_keep K as fun q hq => hS q (by simp [hq]))

theorem scaleAll_run (c : ℝ) : ∀ {rs : List Ref} {As : List Ann.Some} {h : Heap ℝ}, h.WF → List.Forall₂ (Ann.HasS h) rs As → rs.Nodup →
    Runs (Adversarial.scaleAll c rs) h fun _ h' => h'.WF ∧ Keeps h h' (fun l => some l ∈ rs) ∧ List.Forall₂ (Ann.HasS h') rs (As.map (Ann.scaled c))
  | _, _, h, w, .nil, _ => Runs.of_eq rfl ⟨w, Keeps.refl _ _, .nil⟩
  | _, _, h, w, .cons (a := r) (b := A) (l₁ := rs) (l₂ := As) a as, nd => by
    rw [List.nodup_cons] at nd
    unfold Adversarial.scaleAll
    have s1 : Runs (Hd.scalar_multiplym r c) h fun _ h' => h'.WF ∧ Keeps h h' (some · = r) ∧ HasM h' r (A.2.2.map (· * c)) := by
      obtain ⟨x, rfl, l, i⟩ := (show HasM h r A.2.2 from a)
      exact SetsMat.hasM (Mat.unIn_spec w i (· * c)) l
    refine Runs.bind (s1.mono fun _ h1 ⟨w1, k1, u1⟩ => ?_)
    have as1 : List.Forall₂ (Ann.HasS h1) rs As := forall_keep k1 as fun q hq l e e' => nd.1 (by rw [← e', ← e]; exact hq)
    refine (scaleAll_run c w1 as1 nd.2).mono fun _ h2 ⟨w2, k2, F2⟩ => ⟨w2, ?_, .cons ?_ F2⟩
    · refine (k1.mono fun l _ e => ?_).trans (k2.mono fun l _ e => List.mem_cons_of_mem _ e)
      simp [e]
    · exact HasM.keep u1 k2 fun l e hl => nd.1 (e ▸ hl)

end Verif
