import Verif.Model.Lsa
import Verif.Lemmas.Svd
import Verif.Lemmas.KMeans
import Verif.Lemmas.GlmSgd
import Verif.Lemmas.AnnOptRules

/-! # Running the latent semantic analysis -/

namespace Verif.Data
open Spec Text
variable {m n d : Nat} {h : Heap ℝ}

theorem truncate_run (w : h.WF) (hm : d ≤ m) (hn : d ≤ n) {a b s t r : Ref} {S : Matrix (Fin m) (Fin n) ℝ} {V : Matrix (Fin n) (Fin n) ℝ} {T : Matrix (Fin d) (Fin n) ℝ}
    {x : Fin n → ℝ} (ha : HasM h a S) (hb : HasM h b V) (hs : HasM h s (fun (_ _ : Fin d) => (0 : ℝ))) (ht : HasM h t T) (hr : HasV h r x)
    (nas : a ≠ s) (nat : a ≠ t) (nbs : b ≠ s) (nbt : b ≠ t) (nst : s ≠ t) :
    Runs (truncate a b s t r d) h fun _ h' => h'.WF ∧ Keeps h h' (some · ∈ [s, t, r]) ∧
      HasM h' s (Matrix.diagonal fun i : Fin d => S (Fin.castLE hm i) (Fin.castLE hn i)) ∧ HasM h' t (fun i j => V (Fin.castLE hn i) j) := by
  unfold truncate
  refine (Runs.forN d (fun k h' => h'.WF ∧ Keeps h h' (some · ∈ [s, t, r]) ∧ HasM h' a S ∧ HasM h' b V ∧
    HasM h' s (fun i j : Fin d => if i = j ∧ i.val < k then S (Fin.castLE hm i) (Fin.castLE hn i) else 0) ∧
    HasM h' t (fun i j => if i.val < k then V (Fin.castLE hn i) j else T i j) ∧ ∃ x : Fin n → ℝ, HasV h' r x) _ h
    ⟨w, Keeps.refl h _, ha, hb, by simpa using hs, by simpa using ht, x, hr⟩ ?_).mono ?_
  · clear w ha hb hs ht hr x
    intro k h1 hk ⟨w1, K1, ha, hb, hs, ht, x, hr⟩
    refine Runs.step (Hd.element_getm_run w1 ha ⟨k, by omega⟩ ⟨k, by omega⟩) ?_
    refine Runs.bind ((Hd.element_setm_run w1 hs ⟨k, hk⟩ ⟨k, hk⟩ _).mono fun _ h2 ⟨w2, k2, hs2⟩ => ?_)
    have K2 := K1.into k2 (by simp)
    have ha2 := ha.offm k2 nas
    have hb2 := hb.offm k2 nbs
    have ht2 := ht.offm k2 nst.symm
    have hr2 : HasV h2 r x := hr.offm k2 hs
    clear ha hb hs ht hr
    refine Runs.bind ((Hd.row_get_into_run w2 hb2 hr2 ⟨k, by omega⟩).mono fun _ h3 ⟨w3, k3, hr3⟩ => ?_)
    have K3 := K2.into k3 (by simp)
    have ha3 := ha2.off k3 hr2
    have hb3 := hb2.off k3 hr2
    have hs3 := hs2.off k3 hr2
    have ht3 := ht2.off k3 hr2
    refine (Hd.row_set_run w3 ht3 hr3 ⟨k, hk⟩).mono fun _ h4 ⟨w4, k4, ht4⟩ => ?_
    have K4 := K3.into k4 (by simp)
    refine ⟨w4, K4, ha3.offm k4 nat, hb3.offm k4 nbt, cast (congrArg _ ?_) (hs3.offm k4 nst), cast (congrArg _ ?_) ht4, _, hr3.offm k4 ht3⟩
    · funext i j
      by_cases e : i = ⟨k, hk⟩ ∧ j = ⟨k, hk⟩
      · obtain ⟨rfl, rfl⟩ := e
        simp
      · rw [if_neg e]
        have : (i = j ∧ i.val < k + 1) ↔ (i = j ∧ i.val < k) := by
          constructor
          · rintro ⟨rfl, q⟩
            refine ⟨rfl, ?_⟩
            by_contra q'
            exact e ⟨Fin.ext (by show i.val = k; omega), Fin.ext (by show i.val = k; omega)⟩
          · rintro ⟨rfl, q⟩
            exact ⟨rfl, by omega⟩
        simp only [this]
    · funext i j
      by_cases e : i = ⟨k, hk⟩
      · subst e
        simp
      · rw [if_neg e]
        have : i.val < k + 1 ↔ i.val < k := by
          have : i.val ≠ k := fun q => e (Fin.ext q)
          omega
        simp only [this]
  · intro _ h' ⟨w', K, _, _, hs', ht', _⟩
    refine ⟨w', K, cast (congrArg _ ?_) hs', cast (congrArg _ ?_) ht'⟩
    · funext i j
      simp [Matrix.diagonal_apply]
    · funext i j
      simp

/-- The call, given what the bag of words and the decomposition are. -/
theorem lsa_run (w : h.WF) (fuel : Nat) (low : Char → Char) (stop_words sentences : List Str) (hm : d ≤ m) (hn : d ≤ n) {A : Matrix (Fin m) (Fin n) ℝ}
    (bag : ReturnsMat (bag_of_words low stop_words sentences .binary) h A) {P : Prop}
    {Q : Matrix (Fin m) (Fin m) ℝ → Matrix (Fin m) (Fin n) ℝ → Matrix (Fin n) (Fin n) ℝ → Prop}
    (svd : ∀ (h' : Heap ℝ) (a : Nat), h'.WF → IsMat h' a A → h'.live (.m a) →
      Runs (Eigen.linAlgSvd fuel (some (.m a))) h' fun r h'' => h''.WF ∧ Keeps h' h'' (fun _ => False) ∧ ((P ∧ r = none) ∨
        ∃ (e : Eigen.SvdResult) (U : Matrix (Fin m) (Fin m) ℝ) (S : Matrix (Fin m) (Fin n) ℝ) (V : Matrix (Fin n) (Fin n) ℝ), r = some e ∧
          NotIn h' e.U ∧ NotIn h' e.S ∧ NotIn h' e.Vt ∧ HasM h'' e.U U ∧ HasM h'' e.S S ∧ HasM h'' e.Vt V ∧ Q U S V)) :
    Runs (lsa fuel low stop_words sentences d) h fun r h' => h'.WF ∧ Keeps h h' (fun _ => False) ∧ ((P ∧ r = none) ∨
      ∃ (e : Ref) (U : Matrix (Fin m) (Fin m) ℝ) (S : Matrix (Fin m) (Fin n) ℝ) (V : Matrix (Fin n) (Fin n) ℝ), r = some e ∧ NotIn h e ∧
        HasM h' e (fun (i : Fin d) (j : Fin n) => S (Fin.castLE hm i) (Fin.castLE hn i) * V (Fin.castLE hn i) j) ∧ Q U S V) := by
  unfold lsa
  refine Runs.bind (bag.mono fun r h1 ⟨a, e, f1, l1, w1, k1, hA⟩ => ?_)
  subst e
  refine Runs.bind ((svd h1 a w1 hA l1).mono fun r h2 ⟨w2, k2, z⟩ => ?_)
  have M1 : ∀ r, NotIn h1 r → NotIn h r := fun r f => f.mono k1
  have K2 := k1.trans k2
  rcases z with ⟨p, rfl⟩ | ⟨e, U, S, V, rfl, fU, fS, fV, hU, hS, hV, q⟩
  · exact Runs.of_eq rfl ⟨w2, K2, .inl ⟨p, rfl⟩⟩
  clear hU hA svd bag
  dsimp only
  have hz : ReturnsMat (LinAlg.zeromatnm (R := ℝ) d d) h2 (fun (_ : Fin d) (_ : Fin d) => (0 : ℝ)) := Mat.const_spec w2 d d (0 : ℝ)
  refine stepM hz fun s h3 w3 k3 f3 hs => ?_
  have K3 := K2.trans k3
  have g3 := f3.mono K2
  have n1 := f3.neM hS
  have n2 := f3.neM hV
  clear hz
  nw f3 k3
  refine Runs.step (Hd.sizem_run hV) ?_
  dsimp only
  refine stepNewM w3 fun t h4 T w4 k4 f4 ht => ?_
  have K4 := K3.trans k4
  have g4 : NotIn h (some (.m t)) := f4.mono K3
  have n3 := f4.neM hS
  have n4 := f4.neM hV
  have n5 := f4.neM hs
  nw f4 k4
  refine stepNewV w4 fun r h5 x w5 k5 f5 hr => ?_
  have K5 := K4.trans k5
  have g5 : NotIn h (some (.v r)) := f5.mono K4
  nw f5 k5
  refine Runs.bind ((truncate_run w5 hm hn hS hV hs ht hr n1 n3 n2 n4 n5).mono fun _ h6 ⟨w6, k6, hs6, ht6⟩ => ?_)
  have K6 : Keeps h h6 (fun _ => False) := K5.trans_new k6 fun l e hl => by
    simp only [List.mem_cons, List.not_mem_nil, or_false] at e
    rcases e with e | e | e
    · exact g3 l e.symm hl
    · exact g4 l e.symm hl
    · exact g5 l e.symm hl
  refine stepM (Hd.multn_spec w6 hs6 ht6) fun z h7 w7 k7 f7 hz => ?_
  refine Runs.of_eq rfl ⟨w7, K6.trans k7, .inr ⟨z, U, S, V, rfl, f7.mono K6, cast (congrArg _ ?_) hz, q⟩⟩
  funext i j
  exact Matrix.diagonal_mul _ _ _ _

end Verif.Data
