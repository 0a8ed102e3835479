import Verif.Lemmas.AnnOptStep

/-! # The rules of the adaptive training methods of networks -/

namespace Verif
open Spec Finset

theorem Spec.Keeps.more {h h1 h2 : Heap ℝ} {S : Loc → Prop} (K : Keeps h h1 S) (k : Keeps h1 h2 (fun _ => False)) : Keeps h h2 S :=
  K.trans (k.mono fun _ _ => False.elim)

theorem Spec.Keeps.into {h h1 h2 : Heap ℝ} {L : List Ref} {q : Ref} (K : Keeps h h1 (some · ∈ L)) (k : Keeps h1 h2 (some · = q)) (hq : q ∈ L) :
    Keeps h h2 (some · ∈ L) :=
  K.trans (k.mono fun _ _ e => e ▸ hq)

namespace Vec
open SortArray in
theorem binB_spec {h : Heap ℝ} {n m : Nat} (f : ℝ → ℝ → ℝ) (w : h.WF) {c a b : Nat} {t : Fin m → ℝ} {u v : Fin n → ℝ} (_ht : IsVec h c t) (hu : IsVec h a u)
    (hv : IsVec h b v) : SetsVec (binB f (.v c) (some (.v a)) (some (.v b))) h c (fun i => f (u i) (v i)) := by
  obtain ⟨F, eF, cu⟩ := hu.cells w
  obtain ⟨G, eG, cv⟩ := hv.cells w
  have ez : List.zipWith f (tab n F) (tab n G) = tab n (fun i => f (F i) (G i)) := by apply List.ext_getElem <;> simp [tab]
  obtain ⟨h', e, up⟩ := binB_run f (.v c) (.v a) (.v b) h (w.len _) (w.len _) (w.len _) (by rw [cu.1, cv.1])
  rw [cu.1, cu.2, cv.2, ez] at up
  exact updated_setsVec w e up (fun i => by rw [eF, eG])
end Vec

namespace Hd
variable {h : Heap ℝ} {n m : Nat} {a b c : Ref} {t : Fin m → ℝ} {u v : Fin n → ℝ}

theorem addb_run (w : h.WF) (hc : HasV h c t) (ha : HasV h a u) (hb : HasV h b v) :
    Runs (addb c a b) h fun _ h' => h'.WF ∧ Keeps h h' (some · = c) ∧ HasV h' c (fun i => u i + v i) := by
  obtain ⟨z, rfl, l0, i0⟩ := hc; obtain ⟨x, rfl, l, i⟩ := ha; obtain ⟨y, rfl, l', i'⟩ := hb
  refine (Vec.binB_spec (· + ·) w i0 i i').mono fun _ h' q => ?_
  have k : Keeps h h' (some · = some (Loc.v z)) := q.2.1.mono fun _ _ e => congrArg some e
  exact ⟨q.1, k, z, rfl, k.live l0, q.2.2⟩

theorem maxb_run (w : h.WF) (hc : HasV h c t) (ha : HasV h a u) (hb : HasV h b v) :
    Runs (maxb c a b) h fun _ h' => h'.WF ∧ Keeps h h' (some · = c) ∧ HasV h' c (fun i => Max.max (u i) (v i)) := by
  obtain ⟨z, rfl, l0, i0⟩ := hc; obtain ⟨x, rfl, l, i⟩ := ha; obtain ⟨y, rfl, l', i'⟩ := hb
  refine (Vec.binB_spec maxC w i0 i i').mono fun _ h' q => ?_
  have k : Keeps h h' (some · = some (Loc.v z)) := q.2.1.mono fun _ _ e => congrArg some e
  refine ⟨q.1, k, z, rfl, k.live l0, ?_⟩
  have := q.2.2
  simp only [maxC_eq] at this
  exact this

theorem max_run (w : h.WF) (ha : HasV h a u) (hb : HasV h b v) :
    Runs (max a b) h fun _ h' => h'.WF ∧ Keeps h h' (some · = a) ∧ HasV h' a (fun i => Max.max (u i) (v i)) := by
  obtain ⟨x, rfl, l, i⟩ := ha; obtain ⟨y, rfl, l', i'⟩ := hb
  refine (Vec.binIn_spec maxC w i i').mono fun _ h' q => ?_
  have k : Keeps h h' (some · = some (Loc.v x)) := q.2.1.mono fun _ _ e => congrArg some e
  refine ⟨q.1, k, x, rfl, k.live l, ?_⟩
  have := q.2.2
  simp only [maxC_eq] at this
  exact this

theorem square_spec (w : h.WF) (ha : HasV h a u) : ReturnsVec (exponentiaten a 2) h (fun i => u i ^ 2) := by
  have := exponentiaten_spec w ha 2
  simp only [Real.rpow_two] at this
  exact this

theorem scalel_spec (w : h.WF) (ha : HasV h a u) (k : ℝ) : ReturnsVec (scalar_multiplyn a k) h (fun i => k * u i) := by
  have := scalar_multiplyn_spec w ha k
  simp only [mul_comm _ k] at this
  exact this
end Hd

namespace Ann
variable {n k : Nat} {τ σ : Type}

section outputs
variable {h : Heap ℝ} {a b : Ref} {u v : Fin n → ℝ}

theorem ratio_V {c e : ℝ} (w : h.WF) (ha : HasV h a u) (hb : HasV h b v) :
    ReturnsVec (ratioOutput c e a b) h (fun j => c * (u j / (Real.sqrt (v j) + e))) := by
  refine ReturnsVec.of_has ?_
  unfold ratioOutput
  refine stepV (Hd.sqrtn_spec w hb) fun r h1 w1 k1 f1 u1 => ?_
  have K := k1
  adv k1
  refine stepV (Hd.scalar_addn_spec w1 u1 e) fun r2 h2 w2 k2 f2 u2 => ?_
  have K := K.trans k2
  adv k2
  refine stepV (Hd.division_element_wisen_spec w2 ha u2) fun r3 h3 w3 k3 f3 u3 => ?_
  have K := K.trans k3
  adv k3
  exact (Hd.scalel_spec w3 u3 c).has.mono fun r4 h4 ⟨w4, k4, f4, u4⟩ => ⟨w4, K.trans k4, f4.mono K, u4⟩

theorem first_V {b1 : ℝ} (w : h.WF) (ha : HasV h a u) (hb : HasV h b v) :
    Runs (firstOutput b1 a b) h fun _ h' => h'.WF ∧ Keeps h h' (some · = a) ∧ HasV h' a (fun j => b1 * u j + (1 - b1) * v j) := by
  unfold firstOutput
  refine stepV (Hd.scalel_spec w ha b1) fun r h1 w1 k1 f1 u1 => ?_
  have K := k1
  adv k1
  refine stepV (Hd.scalel_spec w1 hb (1 - b1)) fun r2 h2 w2 k2 f2 u2 => ?_
  have K := K.trans k2
  adv k2
  refine (Hd.addb_run w2 ha u1 u2).mono fun _ h3 ⟨w3, k3, u3⟩ => ⟨w3, (K.mono fun _ _ => False.elim).trans k3, u3⟩

theorem second_V {b2 : ℝ} (w : h.WF) (ha : HasV h a u) (hb : HasV h b v) :
    Runs (secondOutput b2 a b) h fun _ h' => h'.WF ∧ Keeps h h' (some · = a) ∧ HasV h' a (fun j => b2 * u j + (1 - b2) * v j ^ 2) := by
  unfold secondOutput
  refine stepV (Hd.scalel_spec w ha b2) fun r h1 w1 k1 f1 u1 => ?_
  have K := k1
  adv k1
  refine stepV (Hd.square_spec w1 hb) fun r2 h2 w2 k2 f2 u2 => ?_
  have K := K.trans k2
  adv k2
  refine stepV (Hd.scalel_spec w2 u2 (1 - b2)) fun r3 h3 w3 k3 f3 u3 => ?_
  have K := K.trans k3
  adv k3
  refine (Hd.addb_run w3 ha u1 u3).mono fun _ h4 ⟨w4, k4, u4⟩ => ⟨w4, (K.mono fun _ _ => False.elim).trans k4, u4⟩

end outputs

/-- The absolute values are computed and dropped. -/
theorem abs_L {h : Heap ℝ} {f : τ → ℝ} {rs : List Ref} {L : List (HidS τ)} (w : h.WF) (a : HasL h f rs L) :
    Runs (LinAlg.absnvt rs) h fun qs h' => rs = qs ∧ h'.WF ∧ Keeps h h' (fun _ => False) := by
  unfold LinAlg.absnvt
  exact Runs.bind ((mapL_run Activation.absnm_lifts w a).mono fun _ h' ⟨w', k', _, _⟩ => Runs.of_eq rfl ⟨rfl, w', k'⟩)

/-! ## What is remembered -/

theorem holds_one {h : Heap ℝ} {us : List Lay} {m : Moment} {S : Wts ℝ k us} : Holds h us [m] [id] S ↔ HasH h id us m.hidden S.1 ∧ HasV h m.output S.2 := by
  unfold Holds; simp

/-- What the calculations with the matrices give, in the form of the rules. -/
theorem hasH_of {f : τ × ℝ → ℝ} {α : Type} {r : τ → ℝ → α} {p : α → ℝ} {h : Heap ℝ} {us : List Lay} {A : Hid τ k us} {B : Hid ℝ k us} {rs : List Ref}
    (a : HasL h f rs (hidList us (zipH Prod.mk us A B)).reverse) (e : ∀ s g, f (s, g) = p (r s g)) :
    HasH h p us rs (zipH r us A B) := by
  rw [hasH_zip]
  unfold HasH
  rw [← funext fun x : τ × ℝ => e x.1 x.2]
  exact a

theorem momentum_ok (γ : ℝ) (e : Nat) (c : ℝ) : RuleOk (fun v : Moment => [v]) [id] (momentumRule γ e c) (heavyBall γ c) (heavyBall γ c) := by
  intro k us h v S gs g G w H nd hG hg ng
  obtain ⟨H1, o1⟩ := holds_one.1 H
  clear H
  have a1 := (hasH_fst us G.1).1 H1
  have a2 := (hasH_snd us S.1).1 hG
  unfold HasH at a1 a2
  clear H1 hG
  unfold momentumRule
  refine stepL (scale_L w γ a1) fun q1 h1 w1 k1 n1 u1 => ?_
  have K := k1
  advL k1; adv k1
  refine stepL (scale_L w1 c a2) fun q2 h2 w2 k2 n2 u2 => ?_
  have K := K.trans k2
  advL k2; adv k2
  refine stepL (add_L w2 u1 u2) fun q3 h3 w3 k3 n3 u3 => ?_
  have n3' := fun q hq => (n3 q hq).mono K
  have K := K.trans k3
  advL k3; adv k3
  refine stepV (Hd.scalel_spec w3 o1 γ) fun q4 h4 w4 k4 n4 u4 => ?_
  have K := K.trans k4
  advL k4; adv k4
  refine stepV (Hd.scalel_spec w4 hg c) fun q5 h5 w5 k5 n5 u5 => ?_
  have K := K.trans k5
  advL k5; adv k5
  refine stepV (Hd.addn_spec w5 u4 u5) fun q6 h6 w6 k6 n6 u6 => ?_
  have n6' := n6.mono K
  have K := K.trans k6
  advL k6; adv k6
  refine Runs.of_eq rfl ⟨w6, K.mono fun _ _ => False.elim, holds_one.2 ⟨hasH_of u3 fun _ _ => rfl, u6⟩, hasH_of u3 fun _ _ => rfl, u6, by simp [outs], ?_, ?_⟩
  · intro q hq
    simp only [outs, List.map_cons, List.map_nil, List.mem_singleton] at hq
    subst hq; exact Or.inr n6'
  · intro m hm q hq
    simp only [List.mem_singleton] at hm
    subst hm; exact n3' q hq

theorem adagrad_ok (ε : ℝ) (e : Nat) (c : ℝ) : RuleOk (fun v : Moment => [v]) [id] (adagradRule ε e c) (sumSquares ε c) (sumSquares ε c) := by
  intro k us h v S gs g G w H nd hG hg ng
  obtain ⟨H1, o1⟩ := holds_one.1 H
  clear H
  have a1 := (hasH_fst us G.1).1 H1
  have a2 := (hasH_snd us S.1).1 hG
  unfold HasH at a1 a2
  clear H1 hG
  have ng1 : g ≠ v.output := by simpa [outs] using ng
  have K : Keeps h h (some · ∈ outs [v]) := Keeps.refl _ _
  unfold adagradRule
  refine stepL (square_L w a2) fun q1 h1 w1 k1 n1 u1 => ?_
  have K := K.more k1
  advL k1
  adv k1
  refine stepL (add_L w1 a1 u1) fun q2 h2 w2 k2 n2 u2 => ?_
  have n2' := fun q hq => (n2 q hq).mono K
  have K := K.more k2
  advL k2
  adv k2
  refine stepV (Hd.square_spec w2 hg) fun q3 h3 w3 k3 n3 u3 => ?_
  have K := K.more k3
  advL k3
  nw n3 k3
  refine Runs.bind ((Hd.add_run w3 o1 u3).mono fun _ h4 ⟨w4, k4, o1'⟩ => ?_)
  have K := K.into k4 (by simp [outs])
  wrL o1 k4
  wr k4
  rename' o1' => o1
  refine stepL (ratio_L (c := c) (e := ε) w4 a2 u2) fun q5 h5 w5 k5 n5 u5 => ?_
  have K := K.more k5
  advL k5
  adv k5
  refine stepV (ratio_V (c := c) (e := ε) w5 hg o1) fun q6 h6 w6 k6 n6 u6 => ?_
  have K := K.more k6
  advL k6
  nw n6 k6
  refine Runs.of_eq rfl ⟨w6, K, holds_one.2 ⟨hasH_of u2 fun _ _ => rfl, o1⟩, hasH_of u5 fun _ _ => rfl, u6, by simp [outs], ?_, ?_⟩
  · intro q hq
    exact Or.inl hq
  · intro m hm q hq
    simp only [List.mem_singleton] at hm
    subst hm; exact n2' q hq

theorem adadelta_ok (b1 ε : ℝ) (e : Nat) (c : ℝ) : RuleOk (fun v : Moment => [v]) [id] (adadeltaRule b1 ε e c) (meanSquares b1 ε c) (sumSquares ε c) := by
  intro k us h v S gs g G w H nd hG hg ng
  obtain ⟨H1, o1⟩ := holds_one.1 H
  clear H
  have a1 := (hasH_fst us G.1).1 H1
  have a2 := (hasH_snd us S.1).1 hG
  unfold HasH at a1 a2
  clear H1 hG
  have ng1 : g ≠ v.output := by simpa [outs] using ng
  have K : Keeps h h (some · ∈ outs [v]) := Keeps.refl _ _
  unfold adadeltaRule
  refine stepL (scale_L w (1 - b1) a1) fun q1 h1 w1 k1 n1 u1 => ?_
  have K := K.more k1
  advL k1
  adv k1
  refine stepL (square_L w1 a2) fun q2 h2 w2 k2 n2 u2 => ?_
  have K := K.more k2
  advL k2
  adv k2
  refine stepL (scale_L w2 b1 u2) fun q3 h3 w3 k3 n3 u3 => ?_
  have K := K.more k3
  advL k3
  adv k3
  refine stepL (add_L w3 u1 u3) fun q4 h4 w4 k4 n4 u4 => ?_
  have n4' := fun q hq => (n4 q hq).mono K
  have K := K.more k4
  advL k4
  adv k4
  refine stepV (Hd.square_spec w4 hg) fun q5 h5 w5 k5 n5 u5 => ?_
  have K := K.more k5
  advL k5
  nw n5 k5
  refine Runs.bind ((Hd.add_run w5 o1 u5).mono fun _ h6 ⟨w6, k6, o1'⟩ => ?_)
  have K := K.into k6 (by simp [outs])
  wrL o1 k6
  wr k6
  rename' o1' => o1
  refine stepL (ratio_L (c := c) (e := ε) w6 a2 u4) fun q7 h7 w7 k7 n7 u7 => ?_
  have K := K.more k7
  advL k7
  adv k7
  refine stepV (ratio_V (c := c) (e := ε) w7 hg o1) fun q8 h8 w8 k8 n8 u8 => ?_
  have K := K.more k8
  advL k8
  nw n8 k8
  refine Runs.of_eq rfl ⟨w8, K, holds_one.2 ⟨hasH_of u4 fun _ _ => rfl, o1⟩, hasH_of u7 fun _ _ => rfl, u8, by simp [outs], ?_, ?_⟩
  · intro q hq
    exact Or.inl hq
  · intro m hm q hq
    simp only [List.mem_singleton] at hm
    subst hm; exact n4' q hq

theorem holds_two {h : Heap ℝ} {us : List Lay} {m v : Moment} {S : Wts (ℝ × ℝ) k us} : Holds h us [m, v] [Prod.fst, Prod.snd] S ↔
    (HasH h Prod.fst us m.hidden S.1 ∧ HasV h m.output fun j => (S.2 j).1) ∧ HasH h Prod.snd us v.hidden S.1 ∧ HasV h v.output fun j => (S.2 j).2 := by
  unfold Holds; simp

theorem pow_nat (b : ℝ) (e : Nat) : MathFns.pow b (e : ℝ) = b ^ e := Real.rpow_natCast b e

theorem adamax_ok (b1 b2 ε : ℝ) (e : Nat) (c : ℝ) : RuleOk (fun p : Moment × Moment => [p.1, p.2]) [Prod.fst, Prod.snd] (adamaxRule b1 b2 ε e c)
    (maxNorm id b1 b2 ε c e) (maxNorm abs b1 b2 ε c e) := by
  intro k us h p S gs g G w H nd hG hg ng
  obtain ⟨⟨H1, o1⟩, H2, o2⟩ := holds_two.1 H
  clear H
  have a1 := (hasH_fst us G.1).1 H1
  have a2 := (hasH_fst us G.1).1 H2
  have a3 := (hasH_snd us S.1).1 hG
  unfold HasH at a1 a2 a3
  clear H1 H2 hG
  simp only [outs, List.map_cons, List.map_nil, List.mem_cons, List.not_mem_nil, or_false, not_or, List.nodup_cons] at ng nd
  have ng1 := ng.1
  have ng2 := ng.2
  have ne12 := nd.1
  have K : Keeps h h (some · ∈ outs [p.1, p.2]) := Keeps.refl _ _
  unfold adamaxRule
  refine stepL (first_L (b1 := b1) w a1 a3) fun q1 h1 w1 k1 n1 u1 => ?_
  have n1' := fun q hq => (n1 q hq).mono K
  have K := K.more k1
  advL k1
  adv k1
  refine stepL (scale_L w1 b2 a2) fun q2 h2 w2 k2 n2 u2 => ?_
  have K := K.more k2
  advL k2
  adv k2
  refine Runs.bind ((abs_L w2 a3).mono fun _ h0 ⟨e0, w0, k0⟩ => ?_)
  subst e0
  clear w2
  have w2 := w0
  have K := K.more k0
  advL k0
  adv k0
  refine stepL (max_L w2 u2 a3) fun q3 h3 w3 k3 n3 u3 => ?_
  have n3' := fun q hq => (n3 q hq).mono K
  have K := K.more k3
  advL k3
  adv k3
  refine Runs.bind ((first_V (b1 := b1) w3 o1 hg).mono fun _ h4 ⟨w4, k4, o1'⟩ => ?_)
  have K := K.into k4 (by simp [outs])
  wrL o1 k4
  wr k4
  rename' o1' => o1
  refine stepV (Hd.scalel_spec w4 o2 b2) fun q5 h5 w5 k5 n5 u5 => ?_
  have K := K.more k5
  advL k5
  nw n5 k5
  refine stepV (Hd.absn_spec w5 hg) fun q6 h6 w6 k6 n6 u6 => ?_
  have K := K.more k6
  advL k6
  nw n6 k6
  refine Runs.bind ((Hd.maxb_run w6 o2 u5 u6).mono fun _ h7 ⟨w7, k7, o2'⟩ => ?_)
  have K := K.into k7 (by simp [outs])
  wrL o2 k7
  wr k7
  rename' o2' => o2
  refine stepL (scale_L w7 (1 / (1 - MathFns.pow b1 (e : ℝ))) u1) fun q8 h8 w8 k8 n8 u8 => ?_
  have K := K.more k8
  advL k8
  adv k8
  refine stepV (Hd.scalel_spec w8 o1 (1 / (1 - MathFns.pow b1 (e : ℝ)))) fun q9 h9 w9 k9 n9 u9 => ?_
  have K := K.more k9
  advL k9
  nw n9 k9
  refine stepL (shift_L w9 ε u3) fun q10 h10 w10 k10 n10 u10 => ?_
  have K := K.more k10
  advL k10
  adv k10
  refine stepL (div_L w10 u8 u10) fun q11 h11 w11 k11 n11 u11 => ?_
  have K := K.more k11
  advL k11
  adv k11
  refine stepL (scale_L w11 c u11) fun q12 h12 w12 k12 n12 u12 => ?_
  have K := K.more k12
  advL k12
  adv k12
  refine stepV (Hd.scalar_addn_spec w12 o2 ε) fun q13 h13 w13 k13 n13 u13 => ?_
  have K := K.more k13
  advL k13
  nw n13 k13
  refine stepV (Hd.division_element_wisen_spec w13 u9 u13) fun q14 h14 w14 k14 n14 u14 => ?_
  have K := K.more k14
  advL k14
  nw n14 k14
  refine stepV (Hd.scalel_spec w14 u14 c) fun q15 h15 w15 k15 n15 u15 => ?_
  have K := K.more k15
  advL k15
  nw n15 k15
  refine Runs.of_eq rfl ⟨w15, K, holds_two.2 ⟨⟨hasH_of u1 fun _ _ => rfl, o1⟩, hasH_of u3 fun _ _ => rfl, o2⟩, hasH_of u12 fun _ _ => by simp only [maxNorm, pow_nat, one_div_mul_eq_div]; rfl, by simp only [pow_nat, one_div_mul_eq_div] at u15; exact u15, by simpa [outs] using ne12, ?_, ?_⟩
  · intro q hq
    exact Or.inl hq
  · intro m hm q hq
    simp only [List.mem_cons, List.not_mem_nil, or_false] at hm
    rcases hm with rfl | rfl
    · exact n1' q hq
    · exact n3' q hq

theorem nadam_ok (b1 b2 ε : ℝ) (e : Nat) (c : ℝ) : RuleOk (fun p : Moment × Moment => [p.1, p.2]) [Prod.fst, Prod.snd] (nadamRule b1 b2 ε e c)
    (nesterov b1 b2 ε c e) (nesterov b1 b2 ε c e) := by
  intro k us h p S gs g G w H nd hG hg ng
  obtain ⟨⟨H1, o1⟩, H2, o2⟩ := holds_two.1 H
  clear H
  have a1 := (hasH_fst us G.1).1 H1
  have a2 := (hasH_fst us G.1).1 H2
  have a3 := (hasH_snd us S.1).1 hG
  unfold HasH at a1 a2 a3
  clear H1 H2 hG
  simp only [outs, List.map_cons, List.map_nil, List.mem_cons, List.not_mem_nil, or_false, not_or, List.nodup_cons] at ng nd
  have ng1 := ng.1
  have ng2 := ng.2
  have ne12 := nd.1
  have K : Keeps h h (some · ∈ outs [p.1, p.2]) := Keeps.refl _ _
  unfold nadamRule
  refine stepL (first_L (b1 := b1) w a1 a3) fun q1 h1 w1 k1 n1 u1 => ?_
  have n1' := fun q hq => (n1 q hq).mono K
  have K := K.more k1
  advL k1
  adv k1
  refine stepL (second_L (b2 := b2) w1 a2 a3) fun q2 h2 w2 k2 n2 u2 => ?_
  have n2' := fun q hq => (n2 q hq).mono K
  have K := K.more k2
  advL k2
  adv k2
  refine Runs.bind ((first_V (b1 := b1) w2 o1 hg).mono fun _ h3 ⟨w3, k3, o1'⟩ => ?_)
  have K := K.into k3 (by simp [outs])
  wrL o1 k3
  wr k3
  rename' o1' => o1
  refine Runs.bind ((second_V (b2 := b2) w3 o2 hg).mono fun _ h4 ⟨w4, k4, o2'⟩ => ?_)
  have K := K.into k4 (by simp [outs])
  wrL o2 k4
  wr k4
  rename' o2' => o2
  refine stepL (scale_L w4 (1 / (1 - MathFns.pow b1 (e : ℝ))) u1) fun q5 h5 w5 k5 n5 u5 => ?_
  have K := K.more k5
  advL k5
  adv k5
  refine stepL (scale_L w5 (1 / (1 - MathFns.pow b2 (e : ℝ))) u2) fun q6 h6 w6 k6 n6 u6 => ?_
  have K := K.more k6
  advL k6
  adv k6
  refine stepL (scale_L w6 b1 u5) fun q7 h7 w7 k7 n7 u7 => ?_
  have K := K.more k7
  advL k7
  adv k7
  refine stepL (scale_L w7 ((1 - b1) / (1 - MathFns.pow b1 (e : ℝ))) a3) fun q8 h8 w8 k8 n8 u8 => ?_
  have K := K.more k8
  advL k8
  adv k8
  refine stepL (add_L w8 u7 u8) fun q9 h9 w9 k9 n9 u9 => ?_
  have K := K.more k9
  advL k9
  adv k9
  refine stepV (Hd.scalel_spec w9 o1 (1 / (1 - MathFns.pow b1 (e : ℝ)))) fun q10 h10 w10 k10 n10 u10 => ?_
  have K := K.more k10
  advL k10
  nw n10 k10
  refine stepV (Hd.scalel_spec w10 o2 (1 / (1 - MathFns.pow b2 (e : ℝ)))) fun q11 h11 w11 k11 n11 u11 => ?_
  have K := K.more k11
  advL k11
  nw n11 k11
  refine stepV (Hd.scalel_spec w11 u10 b1) fun q12 h12 w12 k12 n12 u12 => ?_
  have K := K.more k12
  advL k12
  nw n12 k12
  refine stepV (Hd.scalel_spec w12 hg ((1 - b1) / (1 - MathFns.pow b1 (e : ℝ)))) fun q13 h13 w13 k13 n13 u13 => ?_
  have K := K.more k13
  advL k13
  nw n13 k13
  refine stepV (Hd.addn_spec w13 u12 u13) fun q14 h14 w14 k14 n14 u14 => ?_
  have K := K.more k14
  advL k14
  nw n14 k14
  refine stepL (ratio_L (c := c) (e := ε) w14 u9 u6) fun q15 h15 w15 k15 n15 u15 => ?_
  have K := K.more k15
  advL k15
  adv k15
  refine stepV (ratio_V (c := c) (e := ε) w15 u14 u11) fun q16 h16 w16 k16 n16 u16 => ?_
  have K := K.more k16
  advL k16
  nw n16 k16
  refine Runs.of_eq rfl ⟨w16, K, holds_two.2 ⟨⟨hasH_of u1 fun _ _ => rfl, o1⟩, hasH_of u2 fun _ _ => rfl, o2⟩, hasH_of u15 fun _ _ => by simp only [nesterov, pow_nat, one_div_mul_eq_div]; rfl, by simp only [pow_nat, one_div_mul_eq_div] at u16; exact u16, by simpa [outs] using ne12, ?_, ?_⟩
  · intro q hq
    exact Or.inl hq
  · intro m hm q hq
    simp only [List.mem_cons, List.not_mem_nil, or_false] at hm
    rcases hm with rfl | rfl
    · exact n1' q hq
    · exact n2' q hq

/-- The three things that `amsgrad` remembers. -/
def three : List (ℝ × ℝ × ℝ → ℝ) := [fun t => t.1, fun t => t.2.1, fun t => t.2.2]

theorem holds_three {h : Heap ℝ} {us : List Lay} {m v x : Moment} {S : Wts (ℝ × ℝ × ℝ) k us} : Holds h us [m, v, x] three S ↔
    (HasH h (fun t => t.1) us m.hidden S.1 ∧ HasV h m.output fun j => (S.2 j).1) ∧ (HasH h (fun t => t.2.1) us v.hidden S.1 ∧ HasV h v.output fun j => (S.2 j).2.1) ∧
      HasH h (fun t => t.2.2) us x.hidden S.1 ∧ HasV h x.output fun j => (S.2 j).2.2 := by
  unfold Holds three; simp

theorem amsgrad_ok (b1 b2 ε : ℝ) (e : Nat) (c : ℝ) : RuleOk (fun p : Moment × Moment × Moment => [p.1, p.2.1, p.2.2]) three (amsgradRule b1 b2 ε e c)
    (largest b1 b2 ε c) (largest b1 b2 ε c) := by
  intro k us h p S gs g G w H nd hG hg ng
  obtain ⟨⟨H1, o1⟩, ⟨H2, o2⟩, H3, o3⟩ := holds_three.1 H
  clear H
  have a1 := (hasH_fst us G.1).1 H1
  have a2 := (hasH_fst us G.1).1 H2
  have a3 := (hasH_fst us G.1).1 H3
  have a4 := (hasH_snd us S.1).1 hG
  unfold HasH at a1 a2 a3 a4
  clear H1 H2 H3 hG
  have nd0 := nd
  simp only [outs, List.map_cons, List.map_nil, List.mem_cons, List.not_mem_nil, or_false, not_or, List.nodup_cons] at ng nd
  have ng1 := ng.1
  have ng2 := ng.2.1
  have ng3 := ng.2.2
  have ne12 := nd.1.1
  have ne13 := nd.1.2
  have ne23 := nd.2.1
  have K : Keeps h h (some · ∈ outs [p.1, p.2.1, p.2.2]) := Keeps.refl _ _
  unfold amsgradRule
  refine stepL (first_L (b1 := b1) w a1 a4) fun q1 h1 w1 k1 n1 u1 => ?_
  have n1' := fun q hq => (n1 q hq).mono K
  have K := K.more k1
  advL k1
  adv k1
  refine stepL (second_L (b2 := b2) w1 a2 a4) fun q2 h2 w2 k2 n2 u2 => ?_
  have n2' := fun q hq => (n2 q hq).mono K
  have K := K.more k2
  advL k2
  adv k2
  refine Runs.bind ((first_V (b1 := b1) w2 o1 hg).mono fun _ h3 ⟨w3, k3, o1'⟩ => ?_)
  have K := K.into k3 (by simp [outs])
  wrL o1 k3
  wr k3
  rename' o1' => o1
  refine Runs.bind ((second_V (b2 := b2) w3 o2 hg).mono fun _ h4 ⟨w4, k4, o2'⟩ => ?_)
  have K := K.into k4 (by simp [outs])
  wrL o2 k4
  wr k4
  rename' o2' => o2
  refine stepL (max_L w4 a3 u2) fun q5 h5 w5 k5 n5 u5 => ?_
  have n5' := fun q hq => (n5 q hq).mono K
  have K := K.more k5
  advL k5
  adv k5
  refine Runs.bind ((Hd.max_run w5 o3 o2).mono fun _ h6 ⟨w6, k6, o3'⟩ => ?_)
  have K := K.into k6 (by simp [outs])
  wrL o3 k6
  wr k6
  rename' o3' => o3
  refine stepL (ratio_L (c := c) (e := ε) w6 u1 u5) fun q7 h7 w7 k7 n7 u7 => ?_
  have K := K.more k7
  advL k7
  adv k7
  refine stepV (ratio_V (c := c) (e := ε) w7 o1 o3) fun q8 h8 w8 k8 n8 u8 => ?_
  have K := K.more k8
  advL k8
  nw n8 k8
  refine Runs.of_eq rfl ⟨w8, K, holds_three.2 ⟨⟨hasH_of u1 fun _ _ => rfl, o1⟩, ⟨hasH_of u2 fun _ _ => rfl, o2⟩, hasH_of u5 fun _ _ => rfl, o3⟩,
    hasH_of u7 fun _ _ => rfl, u8, nd0, ?_, ?_⟩
  · intro q hq
    exact Or.inl hq
  · intro m hm q hq
    simp only [List.mem_cons, List.not_mem_nil, or_false] at hm
    rcases hm with rfl | rfl | rfl
    · exact n1' q hq
    · exact n2' q hq
    · exact n5' q hq

end Ann
end Verif
