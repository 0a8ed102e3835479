import Verif.Lemmas.BernoulliNb
import Verif.Props.Performance
import Verif.Lemmas.Example
import Mathlib.LinearAlgebra.Matrix.Notation

/-! # C130: `MLPPBernoulliNB` -/

namespace Verif
open Spec Classical
noncomputable section
variable {h : Heap ℝ} {n d p : Nat} {s : BernoulliNb} {X : Matrix (Fin n) (Fin d) ℝ} {y : Fin n → ℝ}

theorem NaiveBayes.setTest_run {k : Nat} {test : Ref → M ℝ ℝ} {F : (Fin p → ℝ) → ℝ} (w : h.WF) {x : Ref} {A : Matrix (Fin k) (Fin p) ℝ} (hA : HasM h x A)
    (ht : ∀ h' r (u : Fin p → ℝ), h'.WF → Keeps h h' (fun _ => False) → HasV h' r u → test r h' = .ok (F u, h')) :
    ReturnsVec (NaiveBayes.setTest test x) h fun i => F (A i) := by
  refine ReturnsVec.of_has ?_
  unfold NaiveBayes.setTest
  refine Runs.step (Hd.sizem_run hA) ?_
  refine stepV0 w fun o1 h1 v1 w1 k1 f1 hv1 => ?_
  refine Runs.bind ((show Runs (resizeTo (.v o1) ⟨k, 1, 1⟩) h1 _ from Hd.resizev_run w1 hv1 k).mono fun _ h2 ⟨w2, k2, v2, hv2⟩ => ?_)
  have K2 : Keeps h h2 (fun _ => False) := k1.wrt k2 f1
  refine stepV0 w2 fun o3 h3 v3 w3 k3 f3 hv3 => ?_
  have n13 : (some (.v o3) : Ref) ≠ some (.v o1) := f3.ne hv2
  have fr : NotIn h (some (.v o3)) := f3.mono K2
  refine Runs.bind ((show Runs (resizeTo (.v o3) ⟨p, 1, 1⟩) h3 _ from Hd.resizev_run w3 hv3 p).mono fun _ h4 ⟨w4, k4, v4, hv4⟩ => ?_)
  have K4 : Keeps h h4 (fun _ => False) := (K2.trans k3).wrt k4 fr
  refine Runs.bind ((Runs.forN k (fun j h' => h'.WF ∧ Keeps h h' (fun _ => False) ∧ (∃ u : Fin p → ℝ, HasV h' (some (.v o3)) u) ∧
      HasV h' (some (.v o1)) fun i : Fin k => if i.val < j then F (A i) else v2 i) _ h4
    ⟨w4, K4, ⟨_, hv4⟩, by simpa using (adv_hasv k3 hv2).off k4 n13.symm⟩ ?_).mono fun _ h5 ⟨w5, K5, _, hv5⟩ => ?_)
  · intro j h5 hj ⟨w5, K5, ⟨u5, hu5⟩, hv5⟩
    refine Runs.bind ((Hd.row_get_into_run w5 (adv_hasm K5 hA) hu5 ⟨j, hj⟩).mono fun _ h6 ⟨w6, k6, hu6⟩ => ?_)
    have K6 := K5.wrt k6 fr
    refine Runs.step (ht h6 _ _ w6 K6 hu6) ?_
    refine (Hd.element_set_run w6 (hv5.off k6 n13.symm) ⟨j, hj⟩ _).mono fun _ h7 ⟨w7, k7, hv7⟩ => ?_
    refine ⟨w7, K6.wrt k7 f1, ⟨_, hu6.off k7 n13⟩, ?_⟩
    refine cast (congrArg _ (funext fun c => ?_)) hv7
    by_cases ec : c = ⟨j, hj⟩
    · subst ec; simp
    · have : c.val ≠ j := fun e => ec (Fin.ext e)
      rw [Function.update_of_ne ec]
      have : (c.val < j ↔ c.val < j + 1) := by omega
      simp only [this]
  · exact Runs.of_eq rfl ⟨w5, K5, f1, by simpa using hv5⟩

theorem Spec.BernoulliFit.keep {h' : Heap ℝ} (F : BernoulliFit s h X y) (w : h'.WF) (k : Keeps h h' (fun _ => False)) : BernoulliFit s h' X y := by
  obtain ⟨V, hV, q⟩ := F.vocab
  exact ⟨w, adv_hasm k F.input_set, adv_hasv k F.output_set, ⟨V, adv_hasv k hV, q⟩, F.theta, F.prior_0, F.prior_1, adv_hasv k F.y_hat⟩

/-- C130 (training, as far as it holds): for classes 0 and 1, natural numbers as values, and for every value in each class one that is at least as large,
the constructor makes a classifier for the data and changes nothing that existed. It knows the frequencies of the values without their fractional parts
(`BernoulliFit`, `share`). `fuel` is the capacity of the maps. Missing: other values; data without such larger values; the frequencies themselves. -/
theorem C130_create_partial {a b : Ref} {fuel : Nat} (w : h.WF) (hX : HasM h a X) (hy : HasV h b y) (hn : 0 < n) (hs : n * d < 2147483648)
    (lab : ∀ i, y i = 0 ∨ y i = 1) (nat : ∀ i j, ∃ k : Nat, k < fuel ∧ X i j = k) (cover : ∀ i j, ∀ c : Nat, c < 2 → ∃ i' j', y i' = c ∧ X i j ≤ X i' j') :
    Runs (BernoulliNb.create fuel a b) h fun s h' => BernoulliFit s h' X y ∧ s.input_set = a ∧ s.output_set = b ∧ Keeps h h' (fun _ => False) := by
  rcases BernoulliNb.create_guarded w hX hy nat hs lab hn with ⟨-, r⟩ | ⟨q, -⟩
  · exact r
  · refine absurd (fun v qv => ?_) q
    obtain ⟨i, j, rfl⟩ := BernoulliNb.mem_vocabulary.mp qv
    obtain ⟨k, -, e⟩ := nat i j
    have : ∀ c : Nat, c < 2 → BernoulliNb.Upto X y c (X i j) := fun c hc => by
      obtain ⟨i', j', e1, e2⟩ := cover i j c hc
      exact ⟨k, e, _, BernoulliNb.mem_valuesIn.mpr ⟨i', j', e1, rfl⟩, e2⟩
    exact ⟨this 0 (by decide), this 1 (by decide)⟩

/-- C130 (training: false): if a value is larger than all values of one of the classes, or there are no samples of that class, the constructor stops the
program. -/
theorem C130_crash_fails {a b : Ref} {fuel : Nat} (w : h.WF) (hX : HasM h a X) (hy : HasV h b y) (hs : n * d < 2147483648)
    (lab : ∀ i, y i = 0 ∨ y i = 1) (nat : ∀ i j, ∃ k : Nat, k < fuel ∧ X i j = k) (i : Fin n) (j : Fin d) {c : Nat} (hc : c < 2)
    (large : ∀ i' j', y i' = c → X i' j' < X i j) : BernoulliNb.create fuel a b h = .crash := by
  rcases BernoulliNb.create_guarded w hX hy nat hs lab (i.pos) with ⟨q, -⟩ | ⟨-, r⟩
  · exfalso
    have q := q _ (BernoulliNb.mem_vocabulary.mpr ⟨i, j, rfl⟩)
    have : BernoulliNb.Upto X y c (X i j) := by
      match c, hc with
      | 0, _ => exact q.1
      | 1, _ => exact q.2
    obtain ⟨k, e, u, qu, hu⟩ := this
    obtain ⟨i', j', e1, rfl⟩ := BernoulliNb.mem_valuesIn.mp qu
    exact absurd hu (not_le.mpr (large i' j' e1))
  · exact r

/-- C130 (training: false): with a value that is not a natural number the constructor never ends: whatever the capacity `fuel` of the maps, it is exceeded,
or an earlier conversion is undefined. -/
theorem C130_values_fails {a b : Ref} (fuel : Nat) (w : h.WF) (hX : HasM h a X) (hy : HasV h b y) (lab : ∀ i, y i = 0 ∨ y i = 1) (i : Fin n) (j : Fin d)
    (odd : ∀ k : Nat, X i j ≠ k) : BernoulliNb.create fuel a b h = .ub := by
  unfold BernoulliNb.create
  refine ub_bind (newV_runs w) fun l1 h1 ⟨o1, v1, e1, w1, k1, f1, a1⟩ => ?_
  subst e1
  refine ub_bind (newV_runs w1) fun l2 h2 ⟨o2, v2, e2, w2, k2, f2, a2⟩ => ?_
  subst e2
  have K2 := k1.trans k2
  refine ub_step (Hd.size_run (adv_hasv K2 hy)) ?_
  refine ub_bind (show Runs (resizeTo (.v o2) ⟨n, 1, 1⟩) h2 _ from Hd.resizev_run w2 a2 n) fun u3 h3 ⟨w3, k3, v3, a3⟩ => ?_
  have K3 := K2.wrt k3 (f2.mono k1)
  have b1 := (adv_hasv k2 a1).off k3 fun e => f2.ne a1 e.symm
  have hX3 := adv_hasm K3 hX
  have hy3 := adv_hasv K3 hy
  have b1' : HasV h3 (some (.v o1)) (List.get []) := cast (congrArg _ (funext fun i => i.elim0)) b1
  unfold BernoulliNb.evaluate
  refine ub_step (Hd.size_run hy3) (fold_first_ub i.pos _ _ ?_)
  refine ub_step (BernoulliNb.ones_run w3 hy3) (ub_step (Hd.size_run a3) (bind_ub ?_))
  unfold BernoulliNb.compute_theta
  dsimp only
  refine ub_step (NaiveBayes.zeroTheta_run w3 b1' NaiveBayes.IntMap.empty NaiveBayes.IntMap.empty) ?_
  refine ub_step (NaiveBayes.countTheta_run w3 hX3 hy3 lab _ _) (ub_step (Hd.size_run a3) (bind_ub ?_))
  have key : ∀ c : Nat, y i = c → X i j ∈ (NaiveBayes.counted (NaiveBayes.zeroed NaiveBayes.IntMap.empty []) (valuesIn X y c)).keys := fun c e =>
    ((NaiveBayes.sane_empty.zeroed []).1.counted _).2.1 _ |>.mpr (Or.inr (BernoulliNb.mem_valuesIn.mpr ⟨i, j, e, rfl⟩))
  have key0 := key 0
  have key1 := key 1
  generalize NaiveBayes.counted (NaiveBayes.zeroed NaiveBayes.IntMap.empty []) (valuesIn X y 0) = m0 at key0 ⊢
  generalize NaiveBayes.counted (NaiveBayes.zeroed NaiveBayes.IntMap.empty []) (valuesIn X y 1) = m1 at key1 ⊢
  unfold foldN
  rw [show [m0, m1].length = 1 + 1 from rfl, loop_succ]
  rw [if_pos rfl]
  rcases lab i with e | e
  · exact bind_ub (bind_ub (BernoulliNb.scale_ub _ odd fuel 0 m0 (key0 (by rw [e]; norm_num)) fun k hk => absurd hk (Nat.not_lt_zero k)))
  · rcases BernoulliNb.scale_cases (h := h3) ((1 - ((members y 1).length : ℝ) / n) * n) fuel 0 m0 with r | ⟨m', r⟩
    · exact bind_ub (bind_ub r)
    · refine ub_step (show _ = Out.ok ([m', m1], h3) from by
        rw [show ([m0, m1] : List NaiveBayes.IntMap).getD 0 NaiveBayes.IntMap.empty = m0 from rfl]
        exact bind_ok r) ?_
      rw [show (1 : Nat) = 0 + 1 from rfl, loop_succ]
      exact bind_ub (bind_ub (BernoulliNb.scale_ub _ odd fuel 0 m1 (key1 (by rw [e]; norm_num)) fun k hk => absurd hk (Nat.not_lt_zero k)))

theorem BernoulliNb.model_test_run (F : BernoulliFit s h X y) {x : Ref} {v : Fin p → ℝ} (hx : HasV h x v) :
    s.model_test x h = .ok (chosen (bernoulliScore (share X y) X y v 0) (bernoulliScore (share X y) X y v 1), h) := by
  obtain ⟨V, hV, nd, mV⟩ := F.vocab
  obtain ⟨t0, t1, et, T⟩ := F.theta
  have key : Runs (s.model_test x) h fun r h' => h' = h ∧ r = chosen (bernoulliScore (share X y) X y v 0) (bernoulliScore (share X y) X y v 1) := by
    unfold BernoulliNb.model_test
    refine Runs.step (Hd.size_run hx) ?_
    have hl : ∀ j (hj : j < (List.ofFn v).length), Hd.element_get x (j : Nat) h = .ok ((List.ofFn v)[j], h) := by
      intro j hj
      rw [List.getElem_ofFn]
      exact Hd.element_get_run F.wf hx ⟨j, by simpa using hj⟩
    have g1 := BernoulliNb.foundLoop_guarded F.wf hV nd et hl (fun (a : ℝ) t => a * t) 1
    rw [List.length_ofFn] at g1
    have inV : ∀ u ∈ BernoulliNb.foundIn V (List.ofFn v), u ∈ V := fun u q => by simpa using (List.mem_filter.mp q).2
    rcases g1 with ⟨-, g1⟩ | ⟨q, -⟩
    · refine Runs.bind (g1.mono ?_)
      rintro r h1 ⟨rfl, er⟩
      rcases BernoulliNb.missingLoop_guarded F.wf hV et (fun (a : ℝ) t => a * (1 - t)) r with ⟨-, g2⟩ | ⟨q, -⟩
      · refine Runs.bind (g2.mono ?_)
        rintro q h2 ⟨rfl, eq⟩
        refine Runs.of_eq rfl ⟨rfl, ?_⟩
        have sc : ∀ (c : Nat) (t : NaiveBayes.IntMap), (∀ u ∈ vocabulary X, (t.val u : ℝ) = share X y c u) →
            ((V.filter fun v => v ∉ r.2.2).map t.val).foldl (fun (a : ℝ) (t : Int) => a * (1 - t)) (((BernoulliNb.foundIn V (List.ofFn v)).map t.val).foldl (fun (a : ℝ) (t : Int) => a * t) 1)
              * prior y c = bernoulliScore (share X y) X y v c := by
          intro c t ht
          rw [BernoulliNb.foldl_mul (fun t => 1 - (t : ℝ)), BernoulliNb.foldl_mul (fun t => (t : ℝ)), er, one_mul, List.map_map, List.map_map]
          unfold bernoulliScore
          rw [← BernoulliNb.prod_found (V := V) v (fun u => share X y c u) _ mV, ← BernoulliNb.prod_missing v (fun u => 1 - share X y c u) _ nd mV]
          congr 3
          · refine List.map_congr_left fun u q => ?_
            exact ht u ((mV u).mp (inV u q))
          · refine List.map_congr_left fun u q => ?_
            show 1 - (t.val u : ℝ) = _
            rw [ht u ((mV u).mp (List.mem_of_mem_filter q))]
        have s0 := sc 0 t0 fun u q => (T u q).2.1
        have s1 := sc 1 t1 fun u q => (T u q).2.2
        rw [F.prior_0, F.prior_1, eq, show r.1 = _ from congrArg Prod.fst er, show r.2.1 = _ from congrArg (fun z => z.2.1) er]
        dsimp only
        rw [s0, s1]
        rfl
      · exact absurd (fun u q _ => (T u ((mV u).mp q)).1) q
    · exact absurd (fun u q => (T u ((mV u).mp (inV u q))).1) q
  obtain ⟨r, h', e, rfl, rfl⟩ := runs_iff.mp key
  exact e

/-- C130 (predictions, as far as it holds): the class is the one with the larger score, class 1 if they are equal, with the truncated frequencies `share`
for the probabilities. Missing: the frequencies themselves. -/
theorem C130_test_partial (F : BernoulliFit s h X y) {x : Ref} {v : Fin p → ℝ} (hx : HasV h x v) :
    s.model_test x h = .ok (chosen (bernoulliScore (share X y) X y v 0) (bernoulliScore (share X y) X y v 1), h) := BernoulliNb.model_test_run F hx

/-- C130 (many inputs): every row gets the class that `model_test` answers. -/
theorem C130_set_partial (F : BernoulliFit s h X y) {x : Ref} {k : Nat} {A : Matrix (Fin k) (Fin p) ℝ} (hA : HasM h x A) :
    ReturnsVec (s.model_set_test x) h fun i => chosen (bernoulliScore (share X y) X y (A i) 0) (bernoulliScore (share X y) X y (A i) 1) :=
  NaiveBayes.setTest_run (F := fun v => chosen (bernoulliScore (share X y) X y v 0) (bernoulliScore (share X y) X y v 1)) F.wf hA
    fun _ _ _ w' k hx => BernoulliNb.model_test_run (F.keep w' k) hx

/-- C130 (score): the fraction of the samples whose class is the one that the training assigned. -/
theorem C130_score (F : BernoulliFit s h X y) (hn : 0 < n) (lab : ∀ i, y i = 0 ∨ y i = 1) : s.score h = .ok (fraction fun i => assigned X y (X i) = y i, h) := by
  unfold BernoulliNb.score
  obtain ⟨a, ea, la, ia⟩ := F.y_hat
  obtain ⟨b, eb, lb, ib⟩ := F.output_set
  rw [ea, eb]
  have e : ∀ i, y i = ((if y i = 0 then 0 else 1 : Int) : ℝ) := fun i => by
    rcases lab i with e | e <;> simp [e]
  have ib' : IsVec h b fun i => ((if y i = 0 then 0 else 1 : Int) : ℝ) := cast (congrArg _ (funext e)) ib
  have := Utilities.C62_vec h F.wf a b _ (fun i => if y i = 0 then 0 else 1) hn ia ib' (fun i => by split <;> norm_num)
  refine this.trans ?_
  congr 2
  refine congrArg _ (funext fun i => propext ?_)
  have ha : assigned X y (X i) = 0 ∨ assigned X y (X i) = 1 := by
    unfold assigned chosen
    split
    · split
      · exact Or.inl rfl
      · exact Or.inr rfl
    · exact Or.inr rfl
  unfold Nearest
  rcases lab i with e | e <;> rcases ha with e' | e' <;> rw [e, e'] <;> norm_num

/-- C130 (predictions: false): if no value occurs, in either class, as often as the class has samples, then every input with a known value is assigned to
class 1. -/
theorem C130_rare_fails (F : BernoulliFit s h X y) (rare : ∀ v, frequency X y 0 v < 1 ∧ frequency X y 1 v < 1) {x : Ref} {v : Fin p → ℝ} (hx : HasV h x v)
    (j : Fin p) (known : v j ∈ vocabulary X) : s.model_test x h = .ok (1, h) := by
  rw [BernoulliNb.model_test_run F hx]
  have z : ∀ c, c < 2 → share X y c (v j) = 0 := by
    intro c hc
    have h1 : frequency X y c (v j) < 1 := by
      match c, hc with
      | 0, _ => exact (rare _).1
      | 1, _ => exact (rare _).2
    have h0 : 0 ≤ frequency X y c (v j) := by unfold frequency; positivity
    unfold share
    rw [Int.floor_eq_zero_iff.mpr ⟨h0, h1⟩]
    exact Int.cast_zero
  have b : ∀ c, c < 2 → bernoulliScore (share X y) X y v c = 0 := by
    intro c hc
    unfold bernoulliScore
    rw [Finset.prod_eq_zero (Finset.mem_univ j) (by rw [if_pos known]; exact z c hc), zero_mul, zero_mul]
  rw [b 0 (by decide), b 1 (by decide)]
  unfold chosen
  rw [if_neg (lt_irrefl _)]

/-- C130 (missing objects: false): null data in the constructor are dereferenced, and so is, by every prediction, what an object made without data has not
got. -/
theorem C130_null_fails (fuel c : Nat) (v : Ref) {u : Fin (p + 1) → ℝ} (hv : HasV h v u) :
    BernoulliNb.create fuel v none h = .ub ∧ (BernoulliNb.create_empty c).model_test v h = .ub := by
  refine ⟨rfl, ?_⟩
  unfold BernoulliNb.model_test
  refine ub_step (Hd.size_run hv) (bind_ub ?_)
  unfold BernoulliNb.foundLoop
  exact fold_first_ub (Nat.succ_pos p) _ _ rfl

/-! ## An example -/

/-- Six samples of one feature, in two classes. -/
def bnX : Matrix (Fin 6) (Fin 1) ℝ := !![0; 0; 1; 1; 1; 0]
def bnY : Fin 6 → ℝ := ![0, 0, 0, 1, 1, 1]

theorem bn_values : valuesIn bnX bnY 0 = [0, 0, 1] ∧ valuesIn bnX bnY 1 = [1, 1, 0] := by
  constructor <;> simp [valuesIn, bnX, bnY, List.ofFn_succ, Fin.succ]

theorem bn_members : (members bnY 0).length = 3 ∧ (members bnY 1).length = 3 := by
  constructor <;> simp [members, bnY, List.finRange_succ]

/-- C130 (counterexample): trained with 0, 0, 1 (class 0) and 1, 1, 0 (class 1), a Bernoulli classifier assigns 0 to class 0; by `C130_rare_fails`, whose
hypotheses hold here, the object assigns it to class 1. -/
theorem C130_wrong_fails : chosen (bernoulliScore (frequency bnX bnY) bnX bnY ![0] 0) (bernoulliScore (frequency bnX bnY) bnX bnY ![0] 1) = 0 ∧
    (∀ v, frequency bnX bnY 0 v < 1 ∧ frequency bnX bnY 1 v < 1) ∧ ![(0 : ℝ)] 0 ∈ vocabulary bnX := by
  have f : ∀ v, frequency bnX bnY 0 v = (if v = 0 then 2 / 3 else if v = 1 then 1 / 3 else 0) ∧
      frequency bnX bnY 1 v = (if v = 0 then 1 / 3 else if v = 1 then 2 / 3 else 0) := by
    intro v
    unfold frequency
    rw [bn_values.1, bn_values.2, bn_members.1, bn_members.2]
    by_cases e0 : v = 0
    · subst e0; simp [List.count_cons]
    · by_cases e1 : v = 1
      · subst e1; simp [List.count_cons]
      · have a0 : ((0 : ℝ) == v) = false := by simpa using fun e => e0 e.symm
        have a1 : ((1 : ℝ) == v) = false := by simpa using fun e => e1 e.symm
        simp [List.count_cons, e0, e1, a0, a1]
  have voc : vocabulary bnX = {0, 1} := by
    ext v
    rw [BernoulliNb.mem_vocabulary]
    constructor
    · rintro ⟨i, j, rfl⟩
      fin_cases i <;> fin_cases j <;> simp [bnX]
    · intro q
      simp only [Finset.mem_insert, Finset.mem_singleton] at q
      rcases q with rfl | rfl
      · exact ⟨0, 0, rfl⟩
      · exact ⟨2, 0, rfl⟩
  have p0 : prior bnY 0 = 1 / 2 := by unfold prior; rw [bn_members.1]; norm_num
  have p1 : prior bnY 1 = 1 / 2 := by unfold prior; rw [bn_members.2]; norm_num
  have miss : (({0, 1} : Finset ℝ).filter fun v => ∀ j : Fin 1, ![(0 : ℝ)] j ≠ v) = {1} := by
    ext v
    simp only [Finset.mem_filter, Finset.mem_insert, Finset.mem_singleton]
    constructor
    · rintro ⟨rfl | rfl, q⟩
      · exact absurd rfl (q 0)
      · rfl
    · rintro rfl
      exact ⟨Or.inr rfl, fun j => by fin_cases j; simp⟩
  refine ⟨?_, fun v => ?_, by rw [voc]; simp⟩
  · unfold chosen bernoulliScore
    rw [voc, miss, p0, p1, Finset.prod_singleton, Finset.prod_singleton, Fin.prod_univ_one, Fin.prod_univ_one]
    simp only [Matrix.cons_val_zero, Finset.mem_insert, true_or, if_true, (f _).1, (f _).2, one_ne_zero, if_false]
    norm_num
  · rw [(f v).1, (f v).2]
    constructor <;> split_ifs <;> norm_num

/-- These data as objects. -/
def bnHeap : Heap ℝ := Heap.ofLists 0 [[0, 0, 0, 1, 1, 1], [0]] [(1, 6, [0, 0, 1, 1, 1, 0])]

theorem bn_has : bnHeap.WF ∧ HasM bnHeap (some (.m 0)) bnX ∧ HasV bnHeap (some (.v 0)) bnY ∧ HasV bnHeap (some (.v 1)) ![0] := by
  refine ⟨Heap.ofLists_wf _ _ _ (by simp), ⟨0, rfl, by simp [bnHeap, Heap.ofLists, Heap.live, Loc.id], by simp [bnHeap, Heap.ofLists], fun i j => by
    fin_cases i <;> fin_cases j <;> simp [bnHeap, Heap.ofLists, bnX]⟩, ⟨0, rfl, by simp [bnHeap, Heap.ofLists, Heap.live, Loc.id], by simp [bnHeap, Heap.ofLists], fun i => by
    fin_cases i <;> simp [bnHeap, Heap.ofLists, bnY]⟩, ⟨1, rfl, by simp [bnHeap, Heap.ofLists, Heap.live, Loc.id], by simp [bnHeap, Heap.ofLists], fun i => by
    fin_cases i; simp [bnHeap, Heap.ofLists]⟩⟩

/-- The constructor runs on them, and the object assigns 0 to class 1. -/
example : ∃ s h', BernoulliNb.create 2 (some (.m 0)) (some (.v 0)) bnHeap = .ok (s, h') ∧ BernoulliFit s h' bnX bnY ∧ s.model_test (some (.v 1)) h' = .ok (1, h') := by
  obtain ⟨w, hX, hy, hx⟩ := bn_has
  have zo : ∀ i j, bnX i j = 0 ∨ bnX i j = 1 := fun i j => by fin_cases i <;> fin_cases j <;> simp [bnX]
  obtain ⟨s, h', e, F, -, -, k⟩ := runs_iff.mp (C130_create_partial (fuel := 2) w hX hy (by decide) (by decide) (fun i => by fin_cases i <;> simp [bnY])
    (fun i j => (zo i j).elim (fun e => ⟨0, by decide, by simpa using e⟩) fun e => ⟨1, by decide, by simpa using e⟩)
    (fun i j c hc => by
      have : bnX i j ≤ 1 := by rcases zo i j with e | e <;> rw [e]; norm_num
      match c, hc with
      | 0, _ => exact ⟨2, 0, by simp [bnY], this⟩
      | 1, _ => exact ⟨3, 0, by simp [bnY], this⟩))
  exact ⟨s, h', e, F, C130_rare_fails F C130_wrong_fails.2.1 (adv_hasv k hx) 0 C130_wrong_fails.2.2⟩

/-- With the classes of the first and the last three samples reversed in part, one value is missing from a class: the program stops. -/
example : BernoulliNb.create 2 (some (.m 0)) (some (.v 0)) (Heap.ofLists 0 [[0, 1]] [(1, 2, [0, 1])]) = .crash := by
  refine C130_crash_fails (X := !![0; 1]) (y := ![0, 1]) (c := 0) (Heap.ofLists_wf _ _ _ (by simp))
    ⟨0, rfl, by simp [Heap.ofLists, Heap.live, Loc.id], by simp [Heap.ofLists], fun i j => by fin_cases i <;> fin_cases j <;> simp [Heap.ofLists]⟩
    ⟨0, rfl, by simp [Heap.ofLists, Heap.live, Loc.id], by simp [Heap.ofLists], fun i => by fin_cases i <;> simp [Heap.ofLists]⟩ (by decide)
    (fun i => by fin_cases i <;> simp) (fun i j => ?_) 1 0 (by decide) (fun i' j' e => ?_)
  · fin_cases i <;> fin_cases j
    · exact ⟨0, by decide, by simp⟩
    · exact ⟨1, by decide, by simp⟩
  · fin_cases i' <;> fin_cases j' <;> simp at e ⊢

/-- With the value 1/2 the constructor does not end. -/
example (fuel : Nat) : BernoulliNb.create fuel (some (.m 0)) (some (.v 0)) (Heap.ofLists 0 [[0]] [(1, 1, [1 / 2])]) = .ub := by
  refine C130_values_fails (X := !![1 / 2]) (y := ![0]) fuel (Heap.ofLists_wf _ _ _ (by simp))
    ⟨0, rfl, by simp [Heap.ofLists, Heap.live, Loc.id], by simp [Heap.ofLists], fun i j => by fin_cases i; fin_cases j; simp [Heap.ofLists]⟩
    ⟨0, rfl, by simp [Heap.ofLists, Heap.live, Loc.id], by simp [Heap.ofLists], fun i => by fin_cases i; simp [Heap.ofLists]⟩
    (fun i => by fin_cases i; simp) 0 0 (fun k e => ?_)
  have e' : (1 : ℝ) = 2 * k := by
    have : (1 / 2 : ℝ) = k := by simpa using e
    linarith
  have : (1 : Nat) = 2 * k := by exact_mod_cast e'
  omega

end
end Verif
