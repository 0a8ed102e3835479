import Verif.Lemmas.Pool
import Verif.Props.TensorMore

/-! # Convolution of volumes -/

namespace Verif
open Spec SortArray Convolutions
variable {d r c F D : Nat}

theorem ext3_in {T : Fin d → Fin r → Fin c → ℝ} (z : Fin d) (y : Fin r) (x : Fin c) : ext3 T z.val y.val x.val = T z y x := by
  unfold ext3
  rw [dif_pos ⟨⟨by omega, by exact_mod_cast z.2⟩, ⟨by omega, by exact_mod_cast y.2⟩, ⟨by omega, by exact_mod_cast x.2⟩⟩]
  simp

theorem ext3_out {T : Fin d → Fin r → Fin c → ℝ} {z y x : Int} (h : ¬ ((0 ≤ z ∧ z < d) ∧ (0 ≤ y ∧ y < r) ∧ (0 ≤ x ∧ x < c))) : ext3 T z y x = 0 :=
  dif_neg h

theorem Ten.element_get_ext {h : Heap ℝ} {o : Nat} {T : Fin d → Fin r → Fin c → ℝ} (a : IsTen h o T) (z y x : Int) :
    Ten.element_get o z y x h = .ok (ext3 T z y x, h) := by
  unfold Ten.element_get
  rw [bind_ok (Ten.size_run o h), a.1]
  dsimp only
  by_cases hx : 0 ≤ x ∧ x < c
  · rw [if_pos (idxOk_iff.mpr hx)]
    by_cases hy : 0 ≤ y ∧ y < r
    · rw [if_pos (idxOk_iff.mpr hy)]
      by_cases hz : 0 ≤ z ∧ z < d
      · rw [if_pos (idxOk_iff.mpr hz)]
        obtain ⟨z', rfl⟩ := Int.eq_ofNat_of_zero_le hz.1
        obtain ⟨y', rfl⟩ := Int.eq_ofNat_of_zero_le hy.1
        obtain ⟨x', rfl⟩ := Int.eq_ofNat_of_zero_le hx.1
        have e := a.2 ⟨z', by omega⟩ ⟨y', by omega⟩ ⟨x', by omega⟩
        rw [show ((y' : Int) * (c : Nat) + (x' : Int) + (c : Nat) * (r : Nat) * (z' : Int)).toNat = y' * c + x' + c * r * z' by
          rw [← Nat.cast_mul, ← Nat.cast_add, ← Nat.cast_mul, ← Nat.cast_mul, ← Nat.cast_add]; exact Int.toNat_natCast _]
        rw [load_ok e, ← ext3_in (T := T) ⟨z', by omega⟩ ⟨y', by omega⟩ ⟨x', by omega⟩]
      · rw [if_neg (fun c => hz (idxOk_iff.mp c)), ext3_out (fun c => hz c.1)]; rfl
    · rw [if_neg (fun c => hy (idxOk_iff.mp c)), ext3_out (fun c => hy c.2.1)]; rfl
  · rw [if_neg (fun c => hx (idxOk_iff.mp c)), ext3_out (fun c => hx c.2.2)]; rfl

theorem windowCell3_run {h : Heap ℝ} {o : Nat} {T : Fin d → Fin r → Fin c → ℝ} (a : IsTen h o T) (S : Int) (i j t k p : Nat) :
    windowCell3 o S i j t k p h = .ok (ext3 T (start S i + k) (start S j + p) t, h) := by
  unfold windowCell3 start
  split_ifs <;> first | omega | (rw [Ten.element_get_ext a]) <;> (congr 3 <;> omega)

/-- What `gather3` puts at index `s`. -/
noncomputable def cell3 (T : Fin d → Fin r → Fin c → ℝ) (S : Int) (F i j s : Nat) : ℝ :=
  ext3 T (start S i + (s / F % F : Nat)) (start S j + (s % F : Nat)) ((s / F / F : Nat) : Int)

theorem gather3_run {h : Heap ℝ} (w : h.WF) {a o : Nat} {T : Fin d → Fin r → Fin c → ℝ} (hA : IsTen h a T) (la : h.live (.t a))
    (ho : h.size (.v o) = ⟨D * F * F, 1, 1⟩) (S : Int) (i j : Nat) :
    Runs (gather3 a o S F D i j) h fun _ h' => h'.WF ∧ Keeps h h' (· = .v o) ∧ h'.next = h.next ∧
      VCells h' (.v o) (D * F * F) (cell3 T S F i j) := by
  obtain ⟨f, hf⟩ := exists_VCells w ho
  let W := cell3 T S F i j
  let I : Nat → Int → Heap ℝ → Prop := fun c s h' => s = (c : Int) ∧ h'.WF ∧ Keeps h h' (· = .v o) ∧ h'.next = h.next ∧
    VCells h' (.v o) (D * F * F) (fun t => if t < c then W t else f t)
  unfold gather3
  refine Runs.andThen (P := fun _ h' => h'.WF ∧ Keeps h h' (· = .v o) ∧ h'.next = h.next ∧ VCells h' (.v o) (D * F * F) W) ?_ ?_
  · refine (Runs.foldN D (fun t s h' => I (t * F * F) s h') _ 0 h ⟨by simp, w, Keeps.refl _ _, rfl, by simpa using hf⟩ ?_).mono ?_
    · intro t s h0 ht q0
      refine (Runs.foldN F (fun k s h' => I ((t * F + k) * F) s h') _ _ h0 (by simpa using q0) ?_).mono ?_
      · intro k s h1 hk q1
        refine (Runs.foldN F (fun p s h' => I ((t * F + k) * F + p) s h') _ _ h1 (by simpa using q1) ?_).mono ?_
        · rintro p s h2 hp ⟨rfl, w2, k2, n2, c2⟩
          refine Runs.step (windowCell3_run (hA.keep k2 la nofun) S i j t k p) ?_
          have hlt : (t * F + k) * F + p < D * F * F := by
            have h1 : t * F + k + 1 ≤ D * F := by nlinarith
            nlinarith
          refine (Vec.set_cells w2 c2 hlt _).andThen fun _ h3 ⟨w3, k3, n3, c3⟩ => Runs.of_eq rfl ⟨by push_cast; ring, w3, k2.trans k3, n3.trans n2, c3.congr fun s _ => ?_⟩
          simp only [upd]
          by_cases e : s = (t * F + k) * F + p
          · subst e
            have hF : 0 < F := by omega
            have h1 : ((t * F + k) * F + p) / F = t * F + k := by rw [mul_comm, Nat.mul_add_div hF, Nat.div_eq_of_lt hp, add_zero]
            have h2 : ((t * F + k) * F + p) % F = p := by rw [mul_comm, Nat.mul_add_mod, Nat.mod_eq_of_lt hp]
            have h3 : (t * F + k) / F = t := by rw [mul_comm, Nat.mul_add_div hF, Nat.div_eq_of_lt hk, add_zero]
            have h4 : (t * F + k) % F = k := by rw [mul_comm, Nat.mul_add_mod, Nat.mod_eq_of_lt hk]
            simp only [W, cell3, h1, h2, h3, h4]; simp
          · rw [if_neg e]
            by_cases e2 : s < (t * F + k) * F + p
            · rw [if_pos e2, if_pos (by omega)]
            · rw [if_neg e2, if_neg (by omega)]
        · intro s h2 q2
          have : (t * F + k) * F + F = (t * F + (k + 1)) * F := by ring
          rwa [this] at q2
      · intro s h2 q2
        have : (t * F + F) * F = (t + 1) * F * F := by ring
        rwa [this] at q2
    · rintro s h2 ⟨_, w2, k2, n2, c2⟩
      exact ⟨w2, k2, n2, c2.congr fun t ht => if_pos ht⟩
  · rintro _ h2 ⟨w2, k2, n2, c2⟩
    exact Runs.of_eq rfl ⟨w2, k2, n2, c2⟩

theorem fillTen_scratch {h1 : Heap ℝ} (w1 : h1.WF) {o q N : Nat} {g : Fin d → Fin r → Fin c → ℝ} (lo : h1.live (.t o))
    (so : h1.size (.t o) = ⟨c, r, d⟩) (lq : h1.live (.v q)) (sq : h1.size (.v q) = ⟨N, 1, 1⟩) (get : Nat → Nat → Nat → M ℝ ℝ)
    (hg : ∀ (i : Fin d) (j : Fin r) (k : Fin c) (h' : Heap ℝ), h'.WF → Keeps h1 h' (fun l => l = .t o ∨ l = .v q) → h'.size (.v q) = ⟨N, 1, 1⟩ →
      Runs (get i j k) h' fun x h'' => x = g i j k ∧ h''.WF ∧ Keeps h' h'' (· = .v q) ∧ h''.size (.v q) = ⟨N, 1, 1⟩) :
    Runs (forN d fun i => forN r fun j => forN c fun k => do
        let d ← get i j k; Ten.element_set o (i : Int) (j : Int) (k : Int) d) h1 fun _ h' =>
      h'.WF ∧ Keeps h1 h' (fun l => l = .t o ∨ l = .v q) ∧ IsTen h' o g := by
  obtain ⟨T0, hT0⟩ : ∃ T : Fin d → Fin r → Fin c → ℝ, IsTen h1 o T := IsTen.existsOf w1 so
  let P : (Fin d → Fin r → Fin c → Prop) → Heap ℝ → Prop := fun S h' => h'.WF ∧ Keeps h1 h' (fun l => l = .t o ∨ l = .v q) ∧
    h'.size (.v q) = ⟨N, 1, 1⟩ ∧ ∃ T : Fin d → Fin r → Fin c → ℝ, IsTen h' o T ∧ ∀ i j k, S i j k → T i j k = g i j k
  refine (Runs.forN d (fun a => P fun i _ _ => i.val < a) _ h1 ⟨w1, Keeps.refl _ _, sq, T0, hT0, by simp⟩ ?_).mono ?_
  · intro a h2 ha p2
    refine (Runs.forN r (fun b => P fun i j _ => i.val < a ∨ i.val = a ∧ j.val < b) _ h2 ?_ ?_).mono ?_
    · obtain ⟨w, k, l, T, hT, e⟩ := p2
      exact ⟨w, k, l, T, hT, fun i j k q => e i j k (by omega)⟩
    · intro b h3 hb p3
      refine (Runs.forN c (fun x => P fun i j k => i.val < a ∨ i.val = a ∧ j.val < b ∨ i.val = a ∧ j.val = b ∧ k.val < x) _ h3 ?_ ?_).mono ?_
      · obtain ⟨w, k, l, T, hT, e⟩ := p3
        exact ⟨w, k, l, T, hT, fun i j k q => e i j k (by omega)⟩
      · intro x h4 hx ⟨w4, k4, s4, T, hT, e⟩
        refine (hg ⟨a, ha⟩ ⟨b, hb⟩ ⟨x, hx⟩ h4 w4 k4 s4).andThen ?_
        rintro _ h5 ⟨rfl, w5, k5, s5⟩
        have hT5 : IsTen h5 o T := hT.keep k5 (k4.live lo) nofun
        refine (Ten.set_any w5 hT5 a b x _).mono fun _ h6 ⟨w6, k6, hT6⟩ => ?_
        refine ⟨w6, (k4.trans (k5.mono fun l _ e => .inr e)).trans (k6.mono fun l _ e => .inl e), ?_, _, hT6, fun i j k q => ?_⟩
        · exact (k6.2 (.v q) (k5.live (k4.live lq)) nofun).2.trans s5
        by_cases q' : i.val = a ∧ j.val = b ∧ k.val = x
        · rw [if_pos q']
          obtain ⟨rfl, rfl, rfl⟩ := q'
          rfl
        · rw [if_neg q']
          exact e i j k (by omega)
      · rintro _ h4 ⟨w, k, l, T, hT, e⟩
        exact ⟨w, k, l, T, hT, fun i j k q => e i j k (by have := k.isLt; omega)⟩
    · rintro _ h3 ⟨w, k, l, T, hT, e⟩
      exact ⟨w, k, l, T, hT, fun i j k q => e i j k (by have := j.isLt; omega)⟩
  · rintro _ h2 ⟨w, k, l, T, hT, e⟩
    have : T = g := by funext i j k; exact e i j k i.isLt
    exact ⟨w, k, this ▸ hT⟩

/-- The value of the product with a filter of another number of entries, or of the same number. -/
theorem dot_cases {h : Heap ℝ} (w : h.WF) {a b N N' : Nat} {f g : Nat → ℝ} (ca : VCells h (.v a) N f) (cb : VCells h (.v b) N' g) :
    Vec.dot a (some b) h = .ok (if N = N' then ∑ i ∈ Finset.range N, f i * g i else 0, h) := by
  by_cases e : N = N'
  · subst e
    rw [if_pos rfl]
    exact Vec.dot_sum w ca cb
  · unfold Vec.dot
    dsimp only
    rw [if_neg e, bind_ok (VCells.size_run ca), bind_ok (VCells.size_run cb), if_neg e]; rfl

theorem sum_range2 (m n : Nat) (f : Nat → ℝ) : ∑ s ∈ Finset.range (m * n), f s = ∑ i : Fin m, ∑ j : Fin n, f (i.val * n + j.val) := by
  rw [← sum_divMod (fun (i : Fin m) (j : Fin n) => f (i.val * n + j.val)), Finset.sum_range]
  refine Finset.sum_congr rfl fun t _ => ?_
  congr 1
  simp only [Fin.divNat, Fin.modNat]
  exact (Nat.div_add_mod' t.val n).symm

theorem sum_range3 (D F : Nat) (f : Nat → ℝ) :
    ∑ s ∈ Finset.range (D * F * F), f s = ∑ t : Fin D, ∑ k : Fin F, ∑ p : Fin F, f ((t.val * F + k.val) * F + p.val) := by
  rw [sum_range2, ← Finset.sum_range (fun q => ∑ p : Fin F, f (q * F + p.val)), sum_range2]

/-- `convolve_3d` in terms of what the padding returns. -/
theorem convolve_3d_of {h : Heap ℝ} {a b C : Nat} {T : Fin D → Fin r → Fin c → ℝ} (hA : IsTen h a T)
    (hD : 1 ≤ D) {K : Fin (C * D) → Fin F → Fin F → ℝ} (hK : IsTen h b K) (lb : h.live (.t b)) {S P L : Nat} (hS : 1 ≤ S) (hF0 : 1 ≤ F) (hF : F ≤ r + 2 * P)
    (hL : L = (r + 2 * P - F) / S + 1) {d' r' c' : Nat} {T' : Fin d' → Fin r' → Fin c' → ℝ}
    (hP : Runs (padded3 a ⟨c, r, D⟩ (P : Int)) h fun q h' => h'.WF ∧ Keeps h h' (fun _ => False) ∧ h'.live (.t q) ∧ IsTen h' q T') :
    ReturnsTen (convolve_3d (some (.t a)) (some (.t b)) S P) h (fun (_ : Fin C) (i j : Fin L) =>
      if hC : C = 1 then ∑ t : Fin D, ∑ k : Fin F, ∑ p : Fin F,
        ext3 T' (start S i + k.val) (start S j + p.val) t.val * K ⟨t.val, by subst hC; omega⟩ k p else 0) := by
  unfold convolve_3d
  refine Runs.step (show derefT (some (.t a)) h = .ok (a, h) from rfl) (Runs.step (Ten.size_run a h) ?_)
  refine Runs.step (show derefT (some (.t b)) h = .ok (b, h) from rfl) (Runs.step (Ten.size_run b h) ?_)
  rw [hA.1, hK.1]
  dsimp only
  rw [if_neg (by omega), Nat.mul_div_cancel _ hD]
  rw [mapSize_nat (N := r) (F := F) (P := P) (S := S) (by omega), ← hL]
  refine Runs.bind (hP.mono fun a' h0 ⟨w, k00, la, hA⟩ => ?_)
  replace hK := hK.keep k00 lb nofun
  replace lb := k00.live lb
  refine Runs.newT w fun h1 w1 k1 f1 l1 s1 => ?_
  generalize h0.next = o at *
  rw [resizeTen_nat]
  refine Runs.resizeT w1 fun h2 w2 k2 n2 s2 _ => ?_
  have k02 : Keeps h0 h2 (fun _ => False) := k1.newer k2 (by rintro l rfl; exact f1)
  have l2 := k2.live l1
  refine (C46_flatten h2 w2 b K (hK.keep k02 lb nofun) (k02.live lb)).andThen ?_
  rintro _ h3 ⟨ff, rfl, f3, l3, w3, k3, s3, e3⟩
  refine Runs.step (derefV_run ff h3) ?_
  have k03 := k02.trans k3
  obtain ⟨G, hG⟩ := exists_VCells w3 (show h3.size (.v ff) = ⟨C * D * F * F, 1, 1⟩ by
    have h1 := w3.len (.v ff)
    obtain ⟨h2, h3'⟩ := w3.vec ff
    rw [s3] at h1
    cases hs : h3.size (.v ff)
    rw [hs] at h1 h2 h3'
    simp only [Size.count] at h1 h2 h3'
    subst h2 h3'
    simpa using h1.symm)
  have eG : ∀ z y x, G ((z.val * F + y.val) * F + x.val) = K z y x := by
    intro z y x
    have h1 := e3 z y x
    have hlt : (z.val * F + y.val) * F + x.val < C * D * F * F := by
      have h1 : z.val * F + y.val + 1 ≤ C * D * F := by have := z.2; have := y.2; nlinarith
      have := x.2
      nlinarith
    rw [hG.2] at h1
    simp only [tab] at h1
    rw [List.getElem?_map, List.getElem?_range hlt] at h1
    simpa using h1
  refine Runs.newV w3 fun h4 w4 k4 f4 l4 s4 => ?_
  generalize h3.next = v at *
  rw [show ((D : Int) * (F : Int) * (F : Int)) = ((D * F * F : Nat) : Int) by push_cast; ring, resizeVec_nat, Int.toNat_natCast]
  refine Runs.resizeV w4 ⟨rfl, rfl⟩ fun h5 w5 k5 n5 s5 _ => ?_
  have k35 : Keeps h3 h5 (fun _ => False) := k4.newer k5 (by rintro l rfl; exact f4)
  have k25 := k3.trans k35
  have k05 := k03.trans k35
  have nv : v ≠ ff := by rintro rfl; exact f4 l3
  have hA5 := hA.keep k05 la nofun
  have hG5 := hG.keep k35 l3 nofun
  have ao : ¬ a' = o := by rintro rfl; exact f1 la
  refine (fillTen_scratch (g := fun (_ : Fin C) (i j : Fin L) =>
      if hC : C = 1 then ∑ t : Fin D, ∑ k : Fin F, ∑ p : Fin F,
        ext3 T' (start S i + k.val) (start S j + p.val) t.val * K ⟨t.val, by subst hC; omega⟩ k p else 0) w5 (k25.live l2)
    (by rw [(k25.2 _ l2 nofun).2]; exact s2) (k5.live l4) s5
    (fun _ i j => do gather3 a' v S F D i j; Vec.dot v (some ff)) ?_).congr (by simp only [bind_assoc]; rfl) |>.andThen ?_
  · intro _ i j h' w' k' s'
    refine (gather3_run w' (hA5.keep k' (k05.live la) (by simp [ao])) (k'.live (k05.live la)) s' S i j).andThen ?_
    rintro _ h'' ⟨w'', k'', n'', hv⟩
    have hff' := (hG5.keep k' (k35.live l3) (by simp [nv.symm])).keep k'' (k'.live (k35.live l3)) (by simp [nv.symm])
    refine Runs.of_eq (dot_cases w'' hv hff') ⟨?_, w'', k'', hv.1⟩
    by_cases hC : C = 1
    · subst hC
      rw [dif_pos rfl, if_pos (by ring), sum_range3]
      refine Finset.sum_congr rfl fun t _ => Finset.sum_congr rfl fun k _ => Finset.sum_congr rfl fun p _ => ?_
      rw [← eG ⟨t.val, by omega⟩ k p]
      congr 1
      have hF : 0 < F := hF0
      have h1 : ((t.val * F + k.val) * F + p.val) / F = t * F + k := by rw [mul_comm, Nat.mul_add_div hF, Nat.div_eq_of_lt p.2, add_zero]
      have h2 : ((t.val * F + k.val) * F + p.val) % F = p := by rw [mul_comm, Nat.mul_add_mod, Nat.mod_eq_of_lt p.2]
      have h3 : (t.val * F + k.val) / F = t := by rw [mul_comm, Nat.mul_add_div hF, Nat.div_eq_of_lt k.2, add_zero]
      have h4 : (t.val * F + k.val) % F = k := by rw [mul_comm, Nat.mul_add_mod, Nat.mod_eq_of_lt k.2]
      simp only [cell3, h1, h2, h3, h4]
    · rw [dif_neg hC, if_neg]
      intro e
      have h1 : D * (F * F) = C * D * (F * F) := by simpa [Nat.mul_assoc] using e
      have h2 : D = C * D := Nat.eq_of_mul_eq_mul_right (by positivity) h1
      exact hC (Nat.eq_of_mul_eq_mul_right hD (by omega))
  · rintro _ h7 ⟨w7, k7, a7⟩
    refine Runs.of_eq rfl ⟨o, rfl, fun e => f1 (k00.live e), k7.live (k25.live l2), w7, ?_, a7⟩
    refine k00.trans (k05.newer k7 ?_)
    rintro l (rfl | rfl)
    · exact f1
    · exact fun c => f4 (k3.live (k02.live c))

theorem convolve_3d_run {h : Heap ℝ} (w : h.WF) {a b C : Nat} {T : Fin D → Fin r → Fin c → ℝ} (hA : IsTen h a T) (la : h.live (.t a))
    (hD : 1 ≤ D) {K : Fin (C * D) → Fin F → Fin F → ℝ} (hK : IsTen h b K) (lb : h.live (.t b)) {S L : Nat} (hS : 1 ≤ S) (hF0 : 1 ≤ F) (hF : F ≤ r)
    (hL : L = (r - F) / S + 1) :
    ReturnsTen (convolve_3d (some (.t a)) (some (.t b)) S 0) h (fun (_ : Fin C) (i j : Fin L) =>
      if hC : C = 1 then ∑ t : Fin D, ∑ k : Fin F, ∑ p : Fin F,
        ext3 T (start S i + k.val) (start S j + p.val) t.val * K ⟨t.val, by subst hC; omega⟩ k p else 0) :=
  convolve_3d_of hA hD hK lb (P := 0) hS hF0 (by omega) (by simpa using hL) (Runs.of_eq rfl ⟨w, Keeps.refl _ _, la, hA⟩)

theorem padded3_run {h : Heap ℝ} (w : h.WF) {a : Nat} {T : Fin D → Fin r → Fin c → ℝ} (hA : IsTen h a T) (la : h.live (.t a)) {P : Nat} (hP : 1 ≤ P) :
    Runs (padded3 a ⟨c, r, D⟩ (P : Int)) h fun q h' => h'.WF ∧ Keeps h h' (fun _ => False) ∧ h'.live (.t q) ∧
      IsTen h' q (fun (z : Fin D) (y x : Fin (r + 2 * P)) => padCell T P z.val y.val x.val) := by
  unfold padded3
  rw [if_pos (by omega)]
  dsimp only
  refine Runs.newT w fun h1 w1 k1 f1 l1 s1 => ?_
  generalize h.next = o at *
  refine Runs.newM w1 fun h2 w2 k2 f2 l2 s2 => ?_
  generalize h1.next = s at *
  have k02 := k1.trans k2
  rw [show (r : Int) + 2 * (P : Int) = ((r + 2 * P : Nat) : Int) by push_cast; ring, resizeMat_nat, resizeTen_nat, Int.toNat_natCast]
  refine Runs.resizeM w2 rfl fun h3 w3 k3 n3 s3 _ => ?_
  have k03 : Keeps h h3 (fun _ => False) := k02.newer k3 (by rintro l rfl e; exact f2 (k1.live e))
  have lo3 := k3.live (k2.live l1)
  have ls3 := k3.live l2
  refine Runs.resizeT w3 fun h4 w4 k4 n4 s4 _ => ?_
  have k04 : Keeps h h4 (fun _ => False) := k03.newer k4 (by rintro l rfl e; exact f1 e)
  have lo4 := k4.live lo3
  have ls4 := k4.live ls3
  have fs : ¬ h.live (.m s) := fun e => f2 (k1.live e)
  obtain ⟨T0, hT0⟩ := IsTen.existsOf w4 s4
  refine Runs.bind ((Runs.forN D (fun n h' => h'.WF ∧ Keeps h h' (fun _ => False) ∧ h'.live (.t o) ∧ h'.live (.m s) ∧
    h'.size (.m s) = ⟨r + 2 * P, r + 2 * P, 1⟩ ∧
    ∃ U : Fin D → Fin (r + 2 * P) → Fin (r + 2 * P) → ℝ, IsTen h' o U ∧ ∀ z : Fin D, z.val < n → U z = fun y x => padCell T P z.val y.val x.val) _ h4
    ⟨w4, k04, lo4, ls4, (k4.2 _ ls3 nofun).2.trans s3, T0, hT0, by simp⟩ ?_).mono ?_)
  · rintro n h5 hn ⟨w5, k5, lo5, ls5, s5, U, hU, eU⟩
    refine (fillMat_run (g := fun (i j : Fin (r + 2 * P)) => padCell T P (n : Int) i.val j.val) fs w5 k5 ls5 s5
      (fun i j => paddedCell3 a ⟨c, r, D⟩ (P : Int) i j n) ?_).andThen fun _ h6 ⟨w6, k06, k6, l6, a6⟩ => ?_
    · intro i j h' w' k'
      refine Runs.of_eq ?_ ⟨rfl, w', Keeps.refl _ _⟩
      unfold paddedCell3 padCell
      dsimp only
      by_cases q : (i.val : Int) - P < 0 ∨ (j.val : Int) - P < 0 ∨ (i.val : Int) - P > (r : Int) - 1 ∨ (j.val : Int) - P > (c : Int) - 1
      · rw [if_pos q, if_neg (by omega)]; rfl
      · rw [if_neg q, if_pos (by omega)]
        exact Ten.element_get_ext (hA.keep k' la nofun) _ _ _
    · have hU6 := hU.keep k6 lo5 nofun
      refine (Ten.z_slice_set_spec w6 hU6 ⟨n, hn⟩ a6).mono fun _ h7 ⟨w7, k7, n7, a7⟩ => ?_
      refine ⟨w7, k06.newer k7 (by rintro l rfl; exact f1), k7.live (k6.live lo5), k7.live l6, (k7.2 _ l6 nofun).2.trans a6.1, _, a7, fun z hz => ?_⟩
      by_cases e : z = ⟨n, hn⟩
      · rw [if_pos e]; subst e; rfl
      · rw [if_neg e]
        refine eU z ?_
        have : z.val ≠ n := fun q => e (Fin.ext q)
        omega
  · rintro _ h5 ⟨w5, k5, lo5, ls5, s5, U, hU, eU⟩
    refine Runs.of_eq rfl ⟨w5, k5, lo5, ?_⟩
    rwa [show U = _ from funext fun z => eU z z.2] at hU

end Verif
