import Verif.Model.Convolutions
import Verif.Spec.Convolutions
import Verif.Lemmas.Handle
import Verif.Lemmas.Build
import Verif.Lemmas.NumAnalysis
import Verif.Props.MatrixProduct

/-! # Windows of images -/

namespace Verif
open Spec SortArray Convolutions
variable {m n F : Nat}

theorem ext_in {A : Matrix (Fin m) (Fin n) ℝ} (i : Fin m) (j : Fin n) : ext A (i.val : Int) (j.val : Int) = A i j := by
  unfold ext
  rw [dif_pos ⟨⟨by omega, by exact_mod_cast i.2⟩, ⟨by omega, by exact_mod_cast j.2⟩⟩]
  simp

theorem ext_out {A : Matrix (Fin m) (Fin n) ℝ} {i j : Int} (h : ¬ ((0 ≤ i ∧ i < m) ∧ (0 ≤ j ∧ j < n))) : ext A i j = 0 := dif_neg h

/-- Reading any cell, inside or outside. -/
theorem Mat.element_get_ext {h : Heap ℝ} {o : Nat} {A : Matrix (Fin m) (Fin n) ℝ} (a : IsMat h o A) (i j : Int) :
    Mat.element_get o i j h = .ok (ext A i j, h) := by
  unfold Mat.element_get
  rw [bind_ok (show Mat.size o h = .ok (⟨n, m, 1⟩, h) by unfold Mat.size; rw [getSize_run, a.1])]
  dsimp only
  by_cases hj : 0 ≤ j ∧ j < n
  · rw [if_pos (idxOk_iff.mpr hj)]
    by_cases hi : 0 ≤ i ∧ i < m
    · rw [if_pos (idxOk_iff.mpr hi)]
      obtain ⟨i', rfl⟩ := Int.eq_ofNat_of_zero_le hi.1
      obtain ⟨j', rfl⟩ := Int.eq_ofNat_of_zero_le hj.1
      have e := a.2 ⟨i', by omega⟩ ⟨j', by omega⟩
      rw [show ((i' : Int) * (n : Nat) + (j' : Int)).toNat = i' * n + j' by
        rw [← Nat.cast_mul, ← Nat.cast_add]; exact Int.toNat_natCast _]
      rw [load_ok e, ← ext_in (A := A) ⟨i', by omega⟩ ⟨j', by omega⟩]
    · rw [if_neg (fun c => hi (idxOk_iff.mp c)), ext_out (fun c => hi c.1)]; rfl
  · rw [if_neg (fun c => hj (idxOk_iff.mp c)), ext_out (fun c => hj c.2)]; rfl

/-- Where the code starts the window number `i`. -/
def start (S : Int) (i : Nat) : Int := if i = 0 then 0 else i + (S - 1)

theorem windowCell_run {h : Heap ℝ} {o : Nat} {A : Matrix (Fin m) (Fin n) ℝ} (a : IsMat h o A) (S : Int) (i j k p : Nat) :
    windowCell o S i j k p h = .ok (ext A (start S i + k) (start S j + p), h) := by
  unfold windowCell start
  split_ifs <;> first | omega | (rw [Mat.element_get_ext a]) <;> (congr 3 <;> omega)

theorem sum_divMod (f : Fin F → Fin n → ℝ) : ∑ t : Fin (F * n), f t.divNat t.modNat = ∑ k, ∑ p, f k p := by
  rw [← Fintype.sum_prod_type']
  exact Fintype.sum_equiv finProdFinEquiv.symm _ _ fun t => rfl

theorem gather_run {h : Heap ℝ} (w : h.WF) {a o : Nat} {A : Matrix (Fin m) (Fin n) ℝ} (hA : IsMat h a A) (la : h.live (.m a))
    (ho : h.size (.v o) = ⟨F * F, 1, 1⟩) (S : Int) (i j : Nat) :
    Runs (gather a o S F i j) h fun _ h' => h'.WF ∧ Keeps h h' (· = .v o) ∧ h'.next = h.next ∧
      IsVec h' o (fun t : Fin (F * F) => window F A (start S i) (start S j) t.divNat t.modNat) := by
  obtain ⟨f, hf⟩ := exists_VCells w ho
  let W : Nat → ℝ := fun t => ext A (start S i + (t / F : Nat)) (start S j + (t % F : Nat))
  let I : Nat → Int → Heap ℝ → Prop := fun c s h' => s = (c : Int) ∧ h'.WF ∧ Keeps h h' (· = .v o) ∧ h'.next = h.next ∧
    VCells h' (.v o) (F * F) (fun t => if t < c then W t else f t)
  unfold gather
  refine Runs.andThen (P := fun _ h' => h'.WF ∧ Keeps h h' (· = .v o) ∧ h'.next = h.next ∧ VCells h' (.v o) (F * F) W) ?_ ?_
  · refine (Runs.foldN F (fun k s h' => I (k * F) s h') _ 0 h ⟨by simp, w, Keeps.refl _ _, rfl, by simpa using hf⟩ ?_).mono ?_
    · intro k s h1 hk q1
      refine (Runs.foldN F (fun p s h' => I (k * F + p) s h') _ _ h1 (by simpa using q1) ?_).mono ?_
      · rintro p s h2 hp ⟨rfl, w2, k2, n2, c2⟩
        refine Runs.step (windowCell_run (hA.keep k2 la nofun) S i j k p) ?_
        have hlt : k * F + p < F * F := by nlinarith
        refine (Vec.set_cells w2 c2 hlt _).andThen fun _ h3 ⟨w3, k3, n3, c3⟩ => Runs.of_eq rfl ⟨by push_cast; ring, w3, k2.trans k3, n3.trans n2, c3.congr fun t _ => ?_⟩
        simp only [upd]
        by_cases e : t = k * F + p
        · subst e
          have h1 : (k * F + p) / F = k := by rw [mul_comm, Nat.mul_add_div (by omega), Nat.div_eq_of_lt hp, add_zero]
          have h2 : (k * F + p) % F = p := by rw [mul_comm, Nat.mul_add_mod, Nat.mod_eq_of_lt hp]
          simp only [W, h1, h2]; simp
        · rw [if_neg e]
          by_cases e2 : t < k * F + p
          · rw [if_pos e2, if_pos (by omega)]
          · rw [if_neg e2, if_neg (by omega)]
      · intro s h2 q2
        have : k * F + F = (k + 1) * F := by ring
        rwa [this] at q2
    · rintro s h2 ⟨_, w2, k2, n2, c2⟩
      exact ⟨w2, k2, n2, c2.congr fun t ht => if_pos ht⟩
  · rintro _ h2 ⟨w2, k2, n2, c2⟩
    exact Runs.of_eq rfl ⟨w2, k2, n2, c2.isVec fun t => rfl⟩

theorem fillMat_scratch {h1 : Heap ℝ} (w1 : h1.WF) {o q N : Nat} {g : Fin m → Fin n → ℝ} (lo : h1.live (.m o))
    (so : h1.size (.m o) = ⟨n, m, 1⟩) (lq : h1.live (.v q)) (sq : h1.size (.v q) = ⟨N, 1, 1⟩) (get : Nat → Nat → M ℝ ℝ)
    (hg : ∀ (i : Fin m) (j : Fin n) (h' : Heap ℝ), h'.WF → Keeps h1 h' (fun l => l = .m o ∨ l = .v q) → h'.size (.v q) = ⟨N, 1, 1⟩ →
      Runs (get i j) h' fun x h'' => x = g i j ∧ h''.WF ∧ Keeps h' h'' (· = .v q) ∧ h''.size (.v q) = ⟨N, 1, 1⟩) :
    Runs (forN m fun i => forN n fun j => do let d ← get i j; Mat.element_set o (i : Int) (j : Int) d) h1 fun _ h' =>
      h'.WF ∧ Keeps h1 h' (fun l => l = .m o ∨ l = .v q) ∧ IsMat h' o (Matrix.of g) := by
  obtain ⟨f, c1⟩ := exists_Cells w1 so
  refine (Runs.cells2 (l := .m o) (c := n) (r := m) m n
    (fun h' => h'.WF ∧ Keeps h1 h' (fun l => l = .m o ∨ l = .v q) ∧ h'.size (.v q) = ⟨N, 1, 1⟩)
    (fun i j => if hi : i < m ∧ j < n then g ⟨i, hi.1⟩ ⟨j, hi.2⟩ else f i j) _ ⟨w1, Keeps.refl _ _, sq⟩ c1 ?_).mono ?_
  · intro i j h2 f' hi hj ⟨w2, k2, s2⟩ c2
    refine (hg ⟨i, hi⟩ ⟨j, hj⟩ h2 w2 k2 s2).andThen ?_
    rintro _ h3 ⟨rfl, w3, k3, s3⟩
    refine (Mat.set_cells w3 (c2.keep k3 (k2.live lo) nofun) hi hj _).mono fun _ h4 ⟨w4, k4, n4, c4⟩ => ?_
    refine ⟨⟨w4, (k2.trans (k3.mono fun l _ e => .inr e)).trans (k4.mono fun l _ e => .inl e), ?_⟩, ?_⟩
    · exact ((k4.2 (.v q) (k3.live (k2.live lq)) nofun).2).trans s3
    rw [dif_pos ⟨hi, hj⟩]; exact c4
  · rintro _ h2 ⟨⟨w2, k2, s2⟩, c2⟩
    exact ⟨w2, k2, c2.isMat fun i j => by simp⟩

theorem resizeMat_nat (l : Loc) (c r : Nat) : resizeMat l (c : Int) (r : Int) = resizeTo l ⟨c, r, 1⟩ := by
  unfold resizeMat; rw [if_neg (by omega)]; simp

theorem resizeVec_nat (l : Loc) (k : Nat) : resizeVec l (k : Int) = resizeTo l ⟨k, 1, 1⟩ := by
  unfold resizeVec; rw [if_neg (by omega)]; simp

theorem resizeTen_nat (l : Loc) (c r d : Nat) : resizeTen l (c : Int) (r : Int) (d : Int) = resizeTo l ⟨c, r, d⟩ := by
  unfold resizeTen; rw [if_neg (by omega)]; simp

theorem size_mat {h : Heap ℝ} {o : Nat} {A : Matrix (Fin m) (Fin n) ℝ} (a : IsMat h o A) : Mat.size o h = .ok (⟨n, m, 1⟩, h) := by
  unfold Mat.size; rw [getSize_run, a.1]

/-- The padded image agrees with the zero-extended image, as far as its rows and columns go. -/
theorem padded_run {h : Heap ℝ} (w : h.WF) {a : Nat} {A : Matrix (Fin m) (Fin n) ℝ} (hA : IsMat h a A) (la : h.live (.m a)) (P : Nat) :
    Runs (padded a ⟨n, m, 1⟩ (P : Int)) h fun q h' => h'.WF ∧ Keeps h h' (fun _ => False) ∧ h'.live (.m q) ∧
      ∃ (r c : Nat) (B : Matrix (Fin r) (Fin c) ℝ), IsMat h' q B ∧
        ∀ i j : Int, 0 ≤ i → i < m + 2 * P → 0 ≤ j → j < m + 2 * P → ext B i j = ext A (i - P) (j - P) := by
  unfold padded
  by_cases hP : P = 0
  · subst hP
    rw [if_neg (by simp)]
    exact Runs.of_eq rfl ⟨w, Keeps.refl _ _, la, m, n, A, hA, fun i j _ _ _ _ => by simp⟩
  · rw [if_pos (by exact_mod_cast hP)]
    refine Runs.newM w fun h1 w1 k1 f1 l1 s1 => ?_
    generalize h.next = q at *
    have e : ((m : Int) + 2 * (P : Int)) = ((m + 2 * P : Nat) : Int) := by push_cast; ring
    dsimp only
    rw [e, resizeMat_nat]
    refine Runs.resizeM w1 rfl fun h2 w2 k2 n2 s2 _ => ?_
    have kk : Keeps h h2 (fun _ => False) := k1.newer k2 (by rintro l rfl; exact f1)
    rw [Int.toNat_natCast]
    refine (fillMat_run (g := fun (i j : Fin (m + 2 * P)) => ext A ((i.val : Int) - P) ((j.val : Int) - P)) f1 w2 kk (k2.live l1) s2
      (fun i j => paddedCell a ⟨n, m, 1⟩ (P : Int) i j) ?_).andThen fun _ h3 ⟨w3, k3, _, l3, a3⟩ => ?_
    · intro i j h' w' k'
      refine Runs.of_eq ?_ ⟨rfl, w', Keeps.refl _ _⟩
      unfold paddedCell
      dsimp only
      split_ifs with c
      · rw [ext_out (by omega)]; rfl
      · rw [Mat.element_get_ext (hA.keep k' la nofun)]
    · refine Runs.of_eq rfl ⟨w3, k3, l3, _, _, _, a3, fun i j hi hi' hj hj' => ?_⟩
      obtain ⟨i, rfl⟩ := Int.eq_ofNat_of_zero_le hi
      obtain ⟨j, rfl⟩ := Int.eq_ofNat_of_zero_le hj
      exact ext_in (A := Matrix.of fun (i j : Fin (m + 2 * P)) => ext A ((i.val : Int) - P) ((j.val : Int) - P)) ⟨i, by omega⟩ ⟨j, by omega⟩

/-- The number of windows. -/
theorem mapSize_nat {N F P S : Nat} (hF : F ≤ N + 2 * P) : mapSize N F P S = (((N + 2 * P - F) / S + 1 : Nat) : Int) := by
  unfold mapSize
  have : (N : Int) - F + 2 * P = ((N + 2 * P - F : Nat) : Int) := by omega
  rw [this, ← Int.ofNat_tdiv]; push_cast; rfl

theorem start_le {S : Nat} (hS : 1 ≤ S) (i : Nat) : 0 ≤ start S i ∧ start S i ≤ i * S := by
  unfold start
  split_ifs with h
  · subst h; simp
  · obtain ⟨i, rfl⟩ : ∃ k, i = k + 1 := ⟨i - 1, by omega⟩
    obtain ⟨S, rfl⟩ : ∃ k, S = k + 1 := ⟨S - 1, by omega⟩
    constructor
    · omega
    · push_cast; nlinarith

/-- What `convolve_2d` computes, for any stride. -/
theorem convolve_2d_run {h : Heap ℝ} (w : h.WF) {a b : Nat} {A : Matrix (Fin m) (Fin n) ℝ} (hA : IsMat h a A) (la : h.live (.m a))
    {K : Matrix (Fin F) (Fin F) ℝ} (hK : IsMat h b K) (lb : h.live (.m b)) {S P L : Nat} (hS : 1 ≤ S) (hF : F ≤ m + 2 * P)
    (hL : L = (m + 2 * P - F) / S + 1) :
    ReturnsMat (convolve_2d (some (.m a)) (some (.m b)) S P) h
      (fun i j : Fin L => overlap A K (start S i - P) (start S j - P)) := by
  unfold convolve_2d
  refine Runs.step (derefM_run a h) (Runs.step (size_mat hA) (Runs.step (derefM_run b h) (Runs.step (size_mat hK) ?_)))
  rw [if_neg (by omega)]
  dsimp only
  rw [mapSize_nat hF, ← hL]
  refine (padded_run w hA la P).andThen ?_
  rintro q h1 ⟨w1, k1, l1, r, c, B, hB, eB⟩
  have hK1 := hK.keep k1 lb nofun
  have lb1 := k1.live lb
  refine Runs.newM w1 fun h2 w2 k2 f2 l2 s2 => ?_
  generalize h1.next = o at *
  rw [resizeMat_nat]
  refine Runs.resizeM w2 rfl fun h3 w3 k3 n3 s3 _ => ?_
  have k13 : Keeps h1 h3 (fun _ => False) := k2.newer k3 (by rintro l rfl; exact f2)
  have l3 := k3.live l2
  refine (Mat.flatten_spec w3 (hK1.keep k13 lb1 nofun) (k13.live lb1)).andThen ?_
  rintro _ h4 ⟨ff, rfl, f4, l4, w4, k4, s4, e4⟩
  refine Runs.step (derefV_run ff h4) ?_
  refine Runs.newV w4 fun h5 w5 k5 f5 l5 s5 => ?_
  generalize h4.next = v at *
  rw [show ((F : Int) * (F : Int)) = ((F * F : Nat) : Int) by push_cast; ring, resizeVec_nat, Int.toNat_natCast]
  refine Runs.resizeV w5 ⟨rfl, rfl⟩ fun h6 w6 k6 n6 s6 _ => ?_
  have k46 : Keeps h4 h6 (fun _ => False) := k5.newer k6 (by rintro l rfl; exact f5)
  have k36 : Keeps h3 h6 (fun _ => False) := k4.trans k46
  have k16 : Keeps h1 h6 (fun _ => False) := k13.trans k36
  have hff : IsVec h6 ff (fun t : Fin (F * F) => K t.divNat t.modNat) := by
    refine IsVec.keep ⟨s4, fun t => ?_⟩ k46 l4 nofun
    rw [← e4 t.divNat t.modNat]
    congr 1
    simp only [Fin.divNat, Fin.modNat]
    exact (Nat.div_add_mod' t.val F).symm
  have lff := k46.live l4
  have nv : v ≠ ff := by rintro rfl; exact f5 l4
  have hB6 := hB.keep k16 l1 nofun
  refine (fillMat_scratch (g := fun i j : Fin L => overlap A K (start S i - P) (start S j - P)) w6 (k36.live l3)
    (by rw [(k36.2 _ l3 nofun).2]; exact s3) (k6.live l5) s6
    (fun i j => do gather q v S F i j; Vec.dot v (some ff)) ?_).congr (by simp only [bind_assoc]; rfl) |>.andThen ?_
  · intro i j h' w' k' s'
    refine (gather_run w' (hB6.keep k' (k16.live l1) (by rintro (e | e) <;> simp at e; exact absurd (e ▸ l1) f2)) (k'.live (k16.live l1)) s' S i j).andThen ?_
    rintro _ h'' ⟨w'', k'', n'', hv⟩
    have hff' : IsVec h'' ff (fun t : Fin (F * F) => K t.divNat t.modNat) :=
      (hff.keep k' lff (by simp [nv.symm])).keep k'' (k'.live lff) (by simp [nv.symm])
    refine Runs.of_eq (Hd.dot_run w'' ⟨v, rfl, k''.live (k'.live (k6.live l5)), hv⟩ ⟨ff, rfl, k''.live (k'.live lff), hff'⟩) ⟨?_, w'', k'', hv.1⟩
    rw [sum_divMod (fun k p => window F B (start S i) (start S j) k p * K k p)]
    unfold overlap window
    have bd : ∀ (i : Fin L) (k : Fin F), 0 ≤ start S i + k.val ∧ start S i + k.val < m + 2 * P := by
      intro i k
      have h1 := start_le hS i
      have h2 : i.val * S ≤ m + 2 * P - F := by
        have : i.val ≤ (m + 2 * P - F) / S := by have := i.2; omega
        exact (Nat.mul_le_mul_right S this).trans (Nat.div_mul_le_self _ _)
      have h3 : ((i.val : Int) * (S : Int)) = ((i.val * S : Nat) : Int) := by push_cast; ring
      rw [h3] at h1
      have := k.2
      omega
    refine Finset.sum_congr rfl fun k _ => Finset.sum_congr rfl fun p _ => ?_
    rw [eB _ _ (bd i k).1 (bd i k).2 (bd j p).1 (bd j p).2]
    congr 2 <;> ring
  · rintro _ h7 ⟨w7, k7, a7⟩
    refine Runs.of_eq rfl ⟨o, rfl, fun c => f2 (k1.live c), k7.live (k36.live l3), w7, ?_, a7⟩
    refine (k1.trans k16).newer k7 ?_
    rintro l (rfl | rfl)
    · exact fun c => f2 (k1.live c)
    · exact fun c => f5 (k4.live (k13.live (k1.live c)))

end Verif
