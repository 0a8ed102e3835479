import Verif.Spec.NaiveBayes
import Verif.Lemmas.KMeans
import Verif.Lemmas.Stat
import Verif.Lemmas.SoftmaxReg
import Verif.Props.VectorContainer

/-! # Lemmas about `MLPPGaussianNB` -/

namespace Verif
open Spec

namespace Hd
variable {h : Heap ℝ} {n : Nat} {a : Ref} {u : Fin n → ℝ}

/-- The element of a vector, 0 where there is none. -/
noncomputable def at0 (u : Fin n → ℝ) (i : Int) : ℝ := if q : 0 ≤ i ∧ i < n then u ⟨i.toNat, by omega⟩ else 0

theorem element_get_int (w : h.WF) (ha : HasV h a u) (i : Int) : element_get a i h = .ok (at0 u i, h) := by
  unfold at0
  split
  · next q =>
    have := element_get_run w ha ⟨i.toNat, by omega⟩
    simp only [Int.toNat_of_nonneg q.1] at this
    exact this
  · next q =>
    obtain ⟨x, rfl, l, c⟩ := ha
    show Vec.element_get x i h = _
    unfold Vec.element_get Vec.size
    rw [bind_assoc, bind_ok (getSize_run _ h), pure_bind, c.1, if_neg]
    · rfl
    · simpa [idxOk] using q

theorem element_set_int (w : h.WF) (ha : HasV h a u) (i : Int) (x : ℝ) :
    Runs (element_set a i x) h fun _ h' => h'.WF ∧ Keeps h h' (some · = a) ∧ HasV h' a fun j => if (j : Int) = i then x else u j := by
  by_cases q : 0 ≤ i ∧ i < n
  · have := element_set_run w ha ⟨i.toNat, by omega⟩ x
    simp only [Int.toNat_of_nonneg q.1] at this
    refine this.mono fun _ h' ⟨w', k, c⟩ => ⟨w', k, cast (congrArg _ ?_) c⟩
    funext j
    by_cases e : (j : Int) = i
    · have : j = ⟨i.toNat, by omega⟩ := Fin.ext (by simp; omega)
      rw [if_pos e, ← this, Function.update_self]
    · rw [if_neg e, Function.update_of_ne (fun e' => e (by rw [e']; simp; omega))]
  · have hv := ha
    obtain ⟨y, rfl, l, c⟩ := ha
    have e : element_set (some (.v y)) i x h = .ok ((), h) := by
      show Vec.element_set y i x h = _
      unfold Vec.element_set Vec.size
      rw [bind_assoc, bind_ok (getSize_run _ h), pure_bind, c.1, if_neg]
      · rfl
      · simpa [idxOk] using q
    refine Runs.of_eq e ⟨w, Keeps.refl h _, cast (congrArg _ ?_) hv⟩
    funext j
    rw [if_neg (by omega)]

/-- Setting the contents of a vector. -/
theorem set_data_run (w : h.WF) {x : Nat} (ha : HasV h (some (.v x)) u) (l : List ℝ) :
    Runs (Vec.set_data x l) h fun _ h' => h'.WF ∧ Keeps h h' (some · = some (.v x)) ∧ h'.buf (.v x) = l ∧ HasV h' (some (.v x)) l.get := by
  obtain ⟨y, e, lv, c⟩ := ha
  cases e
  obtain ⟨h', e, up⟩ := Vec.set_data_run w x l
  have k := Updated.keeps up
  have ev : h'.vec x = l := up.vec_same
  have w' := VUpd.wf up w
  refine Runs.of_eq e ⟨w', k.mono fun _ _ q => congrArg some q, ev, x, rfl, k.live lv, ?_⟩
  refine isVec_of_vec w' ?_
  rw [ev]
  simp

end Hd

namespace NaiveBayes

theorem best_const (c : ℝ) (i m : Nat) : best (.fin c) 0 i (List.replicate m (.fin c)) = 0 := by
  induction m generalizing i with
  | zero => rfl
  | succ m ih =>
    rw [List.replicate_succ]
    unfold best
    rw [if_neg (by simp [Ext.gt])]
    exact ih _

theorem best_same (c : ℝ) (m : Nat) : best .ninf 0 0 (List.replicate m (.fin c)) = 0 := by
  cases m with
  | zero => rfl
  | succ m =>
    rw [List.replicate_succ]
    unfold best
    rw [if_pos (show (Ext.fin c).gt .ninf from trivial)]
    exact best_const c _ _

end NaiveBayes

namespace GaussianNb
variable {h : Heap ℝ} {n d m : Nat} {s : GaussianNb} {X : Matrix (Fin n) (Fin d) ℝ} {y : Fin n → ℝ}

theorem log_weight (σ x μ : ℝ) : Ext.log (weight 0 σ x μ) = .ninf := by
  unfold Ext.log weight
  simp

theorem at0_zero (i : Int) : Hd.at0 (fun _ : Fin n => (0 : ℝ)) i = 0 := by unfold Hd.at0; split <;> rfl

theorem _root_.Verif.take_ofFn {α : Type} {p : Nat} (f : Fin p → α) (k : Nat) (hk : k < p) :
    (List.ofFn f).take (k + 1) = (List.ofFn f).take k ++ [f ⟨k, hk⟩] := by
  rw [List.take_succ_eq_append_getElem (by simpa using hk), List.getElem_ofFn]

theorem values_run (w : h.WF) (hX : HasM h s.input_set X) (hy : HasV h s.output_set y) (c : Nat) : values s c h = .ok (valuesIn X y c, h) := by
  classical
  have key : Runs (values s c) h fun r h' => h' = h ∧ r = valuesIn X y c := by
    unfold values
    refine Runs.step (Hd.sizem_run hX) ?_
    refine (Runs.foldN n (fun j set h' => h' = h ∧ set = ((List.ofFn fun i => if y i = c then List.ofFn (X i) else []).take j).flatten) _ _ h
      ⟨rfl, rfl⟩ ?_).mono fun r h' ⟨e, q⟩ => ⟨e, q.trans ?_⟩
    · rintro j set h1 hj ⟨rfl, eset⟩
      dsimp only
      refine (Runs.foldN d (fun k t h' => h' = h1 ∧ t = set ++ if y ⟨j, hj⟩ = c then (List.ofFn (X ⟨j, hj⟩)).take k else []) _ _ h1
        ⟨rfl, by simp⟩ ?_).mono fun r h' ⟨e, q⟩ => ⟨e, ?_⟩
      · rintro k t h2 hk ⟨rfl, et⟩
        refine Runs.step (Hd.element_get_run w hy ⟨j, hj⟩) ?_
        by_cases e : y ⟨j, hj⟩ = c
        · rw [if_pos e]
          refine Runs.step (Hd.element_getm_run w hX ⟨j, hj⟩ ⟨k, hk⟩) ?_
          refine Runs.of_eq rfl ⟨rfl, ?_⟩
          rw [et, if_pos e, if_pos e, take_ofFn _ k hk, List.append_assoc]
        · rw [if_neg e]
          refine Runs.of_eq rfl ⟨rfl, ?_⟩
          rw [et, if_neg e, if_neg e]
      · rw [q, eset, take_ofFn _ j hj, List.flatten_append]
        congr 1
        by_cases e : y ⟨j, hj⟩ = c
        · rw [if_pos e, if_pos e, List.take_of_length_le (by simp)]; simp
        · rw [if_neg e, if_neg e]; simp
    · rw [List.take_of_length_le (by simp)]
      rfl
  obtain ⟨r, h', e, rfl, rfl⟩ := runs_iff.mp key
  exact e

/-- The objects of a classifier, whatever they contain. -/
structure Frame (h0 : Heap ℝ) (s : GaussianNb) (h : Heap ℝ) (X : Matrix (Fin n) (Fin d) ℝ) (y : Fin n → ℝ) : Prop where
  wf : h.WF
  keeps : Keeps h0 h (fun _ => False)
  X : HasM h s.input_set X
  y : HasV h s.output_set y
  fmu : NotIn h0 s.mu
  fsigma : NotIn h0 s.sigma
  fpriors : NotIn h0 s.priors
  fy : NotIn h0 s.y_hat
  oX : ∃ (p q : Nat) (A : Matrix (Fin p) (Fin q) ℝ), HasM h0 s.input_set A
  oy : ∃ (p : Nat) (v : Fin p → ℝ), HasV h0 s.output_set v

theorem Frame.wr {h0 h' : Heap ℝ} (F : Frame h0 s h X y) (w' : h'.WF) {q : Ref} (fq : NotIn h0 q) (k : Keeps h h' (some · = q)) : Frame h0 s h' X y := by
  obtain ⟨_, _, _, hX⟩ := F.oX
  obtain ⟨_, _, hy⟩ := F.oy
  exact ⟨w', F.keeps.wrt k fq, F.X.keep k fun l e e' => fq l e'.symm (by obtain ⟨o, eo, lo, -⟩ := hX; rw [eo] at e; cases e; exact lo),
    F.y.keep k fun l e e' => fq l e'.symm (by obtain ⟨o, eo, lo, -⟩ := hy; rw [eo] at e; cases e; exact lo), F.fmu, F.fsigma, F.fpriors, F.fy, F.oX, F.oy⟩

/-- Which of the objects of a classifier are different. -/
structure Apart (s : GaussianNb) : Prop where
  ms : s.mu ≠ s.sigma
  mp : s.mu ≠ s.priors
  my : s.mu ≠ s.y_hat
  sp : s.sigma ≠ s.priors
  sy : s.sigma ≠ s.y_hat
  py : s.priors ≠ s.y_hat

theorem moments_run {h0 : Heap ℝ} (A : Apart s) (F : Frame h0 s h X y) (em : s.class_num = m) {p q r t : Nat} {a : Fin p → ℝ} {b : Fin q → ℝ} {e : Fin r → ℝ} {f : Fin t → ℝ}
    (hm : HasV h s.mu a) (hs : HasV h s.sigma b) (hp : HasV h s.priors e) (hh : HasV h s.y_hat f) :
    Runs (moments s) h fun _ h' => Frame h0 s h' X y ∧ (HasV h' s.mu fun c : Fin m => mean (valuesIn X y c)) ∧
      (HasV h' s.sigma fun c : Fin m => Real.sqrt (sampleVar (valuesIn X y c))) ∧ HasV h' s.priors e ∧ HasV h' s.y_hat f := by
  unfold moments
  rw [em]
  refine Runs.bind ((Hd.resizev_run F.wf hm m).mono fun _ h1 ⟨w1, k1, a1, hm1⟩ => ?_)
  have F1 := F.wr w1 F.fmu k1
  have hs1 := hs.off k1 A.ms.symm
  have hp1 := hp.off k1 A.mp.symm
  have hh1 := hh.off k1 A.my.symm
  refine Runs.bind ((Hd.resizev_run w1 hs1 m).mono fun _ h2 ⟨w2, k2, b2, hs2⟩ => ?_)
  have F2 := F1.wr w2 F.fsigma k2
  have hm2 := hm1.off k2 A.ms
  have hp2 := hp1.off k2 A.sp.symm
  have hh2 := hh1.off k2 A.sy.symm
  refine stepV0 w2 fun o h3 v3 w3 k3 f3 hv3 => ?_
  have fo : NotIn h0 (some (.v o)) := f3.mono F2.keeps
  have F3 : Frame h0 s h3 X y := ⟨w3, F2.keeps.trans k3, adv_hasm k3 F2.X, adv_hasv k3 F2.y, F.fmu, F.fsigma, F.fpriors, F.fy, F.oX, F.oy⟩
  have nm : s.mu ≠ some (.v o) := fun e => f3.ne hm2 e.symm
  have ns : s.sigma ≠ some (.v o) := fun e => f3.ne hs2 e.symm
  have np : s.priors ≠ some (.v o) := fun e => f3.ne hp2 e.symm
  have nh : s.y_hat ≠ some (.v o) := fun e => f3.ne hh2 e.symm
  refine (Runs.forN m (fun j h' => Frame h0 s h' X y ∧ (∃ (l : Nat) (v : Fin l → ℝ), HasV h' (some (.v o)) v) ∧
      (HasV h' s.mu fun c : Fin m => if m ≤ c.val + j then mean (valuesIn X y c) else a1 c) ∧
      (HasV h' s.sigma fun c : Fin m => if m ≤ c.val + j then Real.sqrt (sampleVar (valuesIn X y c)) else b2 c) ∧ HasV h' s.priors e ∧ HasV h' s.y_hat f) _ h3
    ⟨F3, ⟨_, _, hv3⟩, ?_, ?_, adv_hasv k3 hp2, adv_hasv k3 hh2⟩ ?_).mono fun _ h' ⟨F', _, hm', hs', hp', hh'⟩ => ⟨F', ?_, ?_, hp', hh'⟩
  · refine cast (congrArg _ (funext fun c => ?_)) (adv_hasv k3 hm2)
    rw [if_neg (by omega)]
  · refine cast (congrArg _ (funext fun c => ?_)) (adv_hasv k3 hs2)
    rw [if_neg (by omega)]
  · intro j h4 hj ⟨F4, ⟨l4, v4, hv4⟩, hm4, hs4, hp4, hh4⟩
    dsimp only
    refine Runs.step (values_run F4.wf F4.X F4.y (m - 1 - j)) ?_
    refine Runs.bind ((Hd.set_data_run F4.wf hv4 (valuesIn X y (m - 1 - j))).mono fun _ h5 ⟨w5, k5, b5, hv5⟩ => ?_)
    have F5 := F4.wr w5 fo k5
    have hm5 := hm4.off k5 nm
    have hs5 := hs4.off k5 ns
    have hp5 := hp4.off k5 np
    have hh5 := hh4.off k5 nh
    refine Runs.step (Stat.meanv_run w5 o) ?_
    rw [b5]
    refine Runs.bind ((Hd.element_set_run w5 hm5 ⟨m - 1 - j, by omega⟩ (mean (valuesIn X y (m - 1 - j)))).mono fun _ h6 ⟨w6, k6, hm6⟩ => ?_)
    have F6 := F5.wr w6 F.fmu k6
    have hv6 := hv5.off k6 nm.symm
    have hs6 := hs5.off k6 A.ms.symm
    have hp6 := hp5.off k6 A.mp.symm
    have hh6 := hh5.off k6 A.my.symm
    refine Runs.step (Stat.standard_deviationv_run w6 o) ?_
    have b6 : h6.buf (.v o) = valuesIn X y (m - 1 - j) := by
      rw [← b5]
      obtain ⟨_, e, l5, -⟩ := hv5
      cases e
      exact (k6.2 _ l5 nm.symm).1
    rw [b6]
    refine (Hd.element_set_run w6 hs6 ⟨m - 1 - j, by omega⟩ _).mono fun _ h7 ⟨w7, k7, hs7⟩ => ?_
    refine ⟨F6.wr w7 F.fsigma k7, ⟨_, _, hv6.off k7 ns.symm⟩, ?_, ?_, hp6.off k7 A.sp.symm, hh6.off k7 A.sy.symm⟩
    · refine cast (congrArg _ (funext fun c => ?_)) (hm6.off k7 A.ms)
      by_cases ec : c = ⟨m - 1 - j, by omega⟩
      · subst ec
        rw [Function.update_self, if_pos (by simp; omega)]
      · rw [Function.update_of_ne ec]
        have : c.val ≠ m - 1 - j := fun e => ec (Fin.ext e)
        have : (m ≤ c.val + j ↔ m ≤ c.val + (j + 1)) := by omega
        simp only [this]
    · refine cast (congrArg _ (funext fun c => ?_)) hs7
      by_cases ec : c = ⟨m - 1 - j, by omega⟩
      · subst ec
        rw [Function.update_self, if_pos (by simp; omega)]
      · rw [Function.update_of_ne ec]
        have : c.val ≠ m - 1 - j := fun e => ec (Fin.ext e)
        have : (m ≤ c.val + j ↔ m ≤ c.val + (j + 1)) := by omega
        simp only [this]
  · simpa using hm'
  · simpa using hs'

theorem countPriors_run {h0 : Heap ℝ} (A : Apart s) (F : Frame h0 s h X y) (em : s.class_num = m) {p q r t : Nat} {a : Fin p → ℝ} {b : Fin q → ℝ} {e : Fin r → ℝ} {f : Fin t → ℝ}
    (hm : HasV h s.mu a) (hs : HasV h s.sigma b) (hp : HasV h s.priors e) (hh : HasV h s.y_hat f) (hy : ∀ i, |y i| < 2147483648) :
    Runs (countPriors s) h fun _ h' => Frame h0 s h' X y ∧ HasV h' s.mu a ∧ HasV h' s.sigma b ∧ (HasV h' s.priors fun _ : Fin m => 0) ∧ HasV h' s.y_hat f := by
  unfold countPriors
  rw [em]
  refine Runs.bind ((Hd.resizev_run F.wf hp m).mono fun _ h1 ⟨w1, k1, a1, hp1⟩ => ?_)
  have F1 := F.wr w1 F.fpriors k1
  have hm1 := hm.off k1 A.mp
  have hs1 := hs.off k1 A.sp
  have hh1 := hh.off k1 A.py.symm
  refine Runs.bind ((Hd.fillv_run w1 hp1 0).mono fun _ h2 ⟨w2, k2, hp2⟩ => ?_)
  have F2 := F1.wr w2 F.fpriors k2
  have hm2 := hm1.off k2 A.mp
  have hs2 := hs1.off k2 A.sp
  have hh2 := hh1.off k2 A.py.symm
  refine Runs.step (Hd.size_run F2.y) ?_
  refine Runs.bind ((Runs.forN n (fun _ h' => Frame h0 s h' X y ∧ HasV h' s.mu a ∧ HasV h' s.sigma b ∧ (HasV h' s.priors fun _ : Fin m => 0) ∧ HasV h' s.y_hat f) _ h2
    ⟨F2, hm2, hs2, hp2, hh2⟩ ?_).mono fun _ h3 ⟨F3, hm3, hs3, hp3, hh3⟩ => ?_)
  · intro i h3 hi ⟨F3, hm3, hs3, hp3, hh3⟩
    refine Runs.step (Hd.element_get_run F3.wf F3.y ⟨i, hi⟩) ?_
    have ht : ∃ k : Int, Activation.toInt (y ⟨i, hi⟩) h3 = .ok (k, h3) := by
      unfold Activation.toInt
      have := abs_lt.mp (hy ⟨i, hi⟩)
      rw [if_pos ⟨by linarith [this.1], this.2⟩]
      exact ⟨_, rfl⟩
    obtain ⟨k, ek⟩ := ht
    refine Runs.step ek ?_
    refine Runs.step (Hd.element_get_int F3.wf hp3 k) ?_
    rw [at0_zero]
    refine (Hd.element_set_int F3.wf hp3 k 0).mono fun _ h4 ⟨w4, k4, hp4⟩ => ?_
    refine ⟨F3.wr w4 F.fpriors k4, hm3.off k4 A.mp, hs3.off k4 A.sp, ?_, hh3.off k4 A.py.symm⟩
    simpa using hp4
  · have hpp := hp3
    obtain ⟨o, eo, lo, io⟩ := hp3
    rw [eo]
    refine Runs.step (a := o) (h' := h3) rfl ?_
    have e4 := (Vec.unIn_spec (· * (1 / (n : ℝ))) F3.wf io).hasV lo
    refine Runs.mono e4 fun _ h4 ⟨w4, k4, hp4⟩ => ?_
    have k4' : Keeps h3 h4 (some · = s.priors) := by rw [eo]; exact k4
    refine ⟨F3.wr w4 F.fpriors k4', hm3.off k4' A.mp, hs3.off k4' A.sp, ?_, hh3.off k4' A.py.symm⟩
    simpa using hp4

theorem predictions_run {h0 : Heap ℝ} (A : Apart s) (F : Frame h0 s h X y) (em : s.class_num = m) {a b : Fin m → ℝ} {f : Fin n → ℝ}
    (hm : HasV h s.mu a) (hs : HasV h s.sigma b) (hp : HasV h s.priors fun _ : Fin m => 0) (hh : HasV h s.y_hat f) :
    Runs (predictions s) h fun _ h' => Frame h0 s h' X y ∧ HasV h' s.mu a ∧ HasV h' s.sigma b ∧ (HasV h' s.priors fun _ : Fin m => 0) ∧
      HasV h' s.y_hat fun _ : Fin n => 0 := by
  unfold predictions
  rw [em]
  refine Runs.step (Hd.size_run F.y) ?_
  refine (Runs.forN n (fun j h' => Frame h0 s h' X y ∧ HasV h' s.mu a ∧ HasV h' s.sigma b ∧ (HasV h' s.priors fun _ : Fin m => 0) ∧
      HasV h' s.y_hat fun i : Fin n => if i.val < j then 0 else f i) _ h
    ⟨F, hm, hs, hp, by simpa using hh⟩ ?_).mono fun _ h3 ⟨F3, hm3, hs3, hp3, hh3⟩ => ⟨F3, hm3, hs3, hp3, by simpa using hh3⟩
  intro i h1 hi ⟨F1, hm1, hs1, hp1, hh1⟩
  clear F hm hs hp hh
  refine Runs.step (Hd.sizem_run F1.X) ?_
  dsimp only
  obtain ⟨Z, eZ⟩ : ∃ Z : Ext, Z = if d = 0 then .fin 1 else .ninf := ⟨_, rfl⟩
  obtain ⟨c, hc⟩ : ∃ c, Z.exp = .fin c := by rw [eZ]; split <;> exact ⟨_, rfl⟩
  refine Runs.bind ((Runs.foldN m (fun t r h' => h' = h1 ∧ r = (if t = 0 then Ext.fin 1 else Z, List.replicate t (Ext.fin c))) _ _ h1 ⟨rfl, rfl⟩ ?_).mono
    fun r h2 ⟨e2, er⟩ => ?_)
  · rintro t r h2 ht ⟨rfl, er⟩
    refine Runs.bind ((Runs.foldN d (fun k z h' => h' = h2 ∧ z = if k = 0 then r.1 else .ninf) _ _ h2 ⟨rfl, rfl⟩ ?_).mono fun z h' ⟨e', ez⟩ => ?_)
    · rintro k z h3 hk ⟨rfl, ez⟩
      refine Runs.step (Hd.element_get_int F1.wf hs1 _) (Runs.step (Hd.element_get_int F1.wf hm1 _) ?_)
      refine Runs.step (Hd.element_getm_run F1.wf F1.X ⟨i, hi⟩ ⟨k, hk⟩) (Runs.step (Hd.element_get_int F1.wf hp1 _) ?_)
      rw [at0_zero, log_weight]
      refine Runs.of_eq rfl ⟨rfl, ?_⟩
      rw [ez, er]
      dsimp only
      rw [if_neg (Nat.succ_ne_zero k)]
      split <;> (try split) <;> (try rw [eZ]; split) <;> rfl
    · subst e'
      have : z = Z := by
        rw [ez, er]
        dsimp only
        split <;> rename_i hd
        · split
          · rw [eZ, if_pos hd]
          · rfl
        · rw [eZ, if_neg hd]
      refine Runs.of_eq rfl ⟨rfl, ?_⟩
      rw [if_neg (Nat.succ_ne_zero t), this, hc, er, List.replicate_succ]
  · subst e2
    rw [er]
    dsimp only
    rw [NaiveBayes.best_same]
    refine (Hd.element_set_run F1.wf hh1 ⟨i, hi⟩ _).mono fun _ h4 ⟨w4, k4, hh4⟩ => ?_
    refine ⟨F1.wr w4 F1.fy k4, hm1.off k4 A.my, hs1.off k4 A.sy, hp1.off k4 A.py, ?_⟩
    refine cast (congrArg _ (funext fun c => ?_)) hh4
    by_cases ec : c = ⟨i, hi⟩
    · subst ec; simp
    · have : c.val ≠ i := fun e => ec (Fin.ext e)
      rw [Function.update_of_ne ec]
      have : (c.val < i ↔ c.val < i + 1) := by omega
      simp only [this]

end GaussianNb
end Verif
