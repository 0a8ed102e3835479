import Verif.Lemmas.Convolutions
import Verif.Lemmas.TenSlices
import Verif.Props.LinAlgMore
import Verif.Props.NumHessian

/-! # Pooling -/

namespace Verif
open Spec SortArray Convolutions
variable {m n F : Nat}

theorem pooled_equiv {ι κ : Type} [Fintype ι] [Fintype κ] (type : PoolType) (e : ι ≃ κ) (f : κ → ℝ) : pooled type (fun i => f (e i)) = pooled type f := by
  unfold pooled
  cases type
  · simp only [Fintype.card_congr e]; rw [Fintype.sum_equiv e (fun i => f (e i)) f fun _ => rfl]
  · exact e.surjective.iInf_comp f
  · exact e.surjective.iSup_comp f

/-- The values fit between the two infinities (needed for `min` and `max` only). -/
def Fits [HasInf ℝ] {ι : Type} (type : PoolType) (f : ι → ℝ) : Prop := type ≠ .average → ∀ i, |f i| < HasInf.inf

theorem poolOf_run [HasInf ℝ] {h : Heap ℝ} (w : h.WF) {o N : Nat} {g : Fin N → ℝ} (hv : IsVec h o g) (hN : 0 < N) (type : PoolType)
    (hf : Fits type g) : poolOf type (some (.v o)) h = .ok (pooled type g, h) := by
  have eb : h.buf (.v o) = List.ofFn g := hv.vec_eq w
  have : Nonempty (Fin N) := ⟨⟨0, hN⟩⟩
  have mem : ∀ x ∈ h.buf (.v o), ∃ i, x = g i := by
    intro x hx; rw [eb, List.mem_ofFn] at hx; obtain ⟨i, rfl⟩ := hx; exact ⟨i, rfl⟩
  have memi : ∀ i, g i ∈ h.buf (.v o) := fun i => by rw [eb, List.mem_ofFn]; exact ⟨i, rfl⟩
  cases type
  · show Stat.meanv (some o) h = _
    rw [Stat.meanv_run w, eb]
    simp [mean, pooled, List.sum_ofFn]
  · have hb := hf nofun
    obtain ⟨_, x, hx, e, le⟩ := C55_extrema h w o (by intro c; have := memi ⟨0, hN⟩; rw [c] at this; exact absurd this (by simp))
      (fun x hx => by obtain ⟨i, rfl⟩ := mem x hx; exact (abs_lt.mp (hb i)).1)
      (fun x hx => by obtain ⟨i, rfl⟩ := mem x hx; exact (abs_lt.mp (hb i)).2)
    show LinAlg.minvr (some (.v o)) h = _
    rw [e]
    obtain ⟨i, rfl⟩ := mem x hx
    congr 2
    exact (le_antisymm (ciInf_le (Set.finite_range g).bddBelow i) (le_ciInf fun j => le _ (memi j))).symm
  · have hb := hf nofun
    obtain ⟨⟨x, hx, e, le⟩, _⟩ := C55_extrema h w o (by intro c; have := memi ⟨0, hN⟩; rw [c] at this; exact absurd this (by simp))
      (fun x hx => by obtain ⟨i, rfl⟩ := mem x hx; exact (abs_lt.mp (hb i)).1)
      (fun x hx => by obtain ⟨i, rfl⟩ := mem x hx; exact (abs_lt.mp (hb i)).2)
    show LinAlg.maxvr (some (.v o)) h = _
    rw [e]
    obtain ⟨i, rfl⟩ := mem x hx
    congr 2
    exact le_antisymm (le_ciSup (Set.finite_range g).bddAbove i) (ciSup_le fun j => le _ (memi j))

theorem ext_fits [HasInf ℝ] {A : Matrix (Fin m) (Fin n) ℝ} (h0 : (0 : ℝ) < HasInf.inf) (hA : ∀ i j, |A i j| < HasInf.inf) (i j : Int) :
    |ext A i j| < HasInf.inf := by
  unfold ext
  split_ifs
  · exact hA _ _
  · simpa using h0

/-- What `pool_2d` computes, for any stride. -/
theorem pool_2d_run [HasInf ℝ] {h : Heap ℝ} (w : h.WF) {a : Nat} {A : Matrix (Fin m) (Fin n) ℝ} (hA : IsMat h a A) (la : h.live (.m a))
    {S L : Nat} (hS : 1 ≤ S) (hF0 : 1 ≤ F) (hF : F ≤ m) (hL : L = (m - F) / S + 1) (type : PoolType)
    (hinf : type ≠ .average → (0 : ℝ) < HasInf.inf ∧ ∀ i j, |A i j| < HasInf.inf) :
    ReturnsMat (pool_2d (some (.m a)) F S type) h
      (fun i j : Fin L => pooled type fun q : Fin F × Fin F => ext A (start S i + q.1.val) (start S j + q.2.val)) := by
  unfold pool_2d
  refine Runs.step (derefM_run a h) (Runs.step (size_mat hA) ?_)
  rw [if_neg (by omega)]
  dsimp only
  have := mapSize_nat (N := m) (F := F) (P := 0) (S := S) (by omega)
  rw [Nat.cast_zero] at this
  rw [this, show m + 2 * 0 - F = m - F by omega, ← hL]
  refine Runs.newM w fun h2 w2 k2 f2 l2 s2 => ?_
  generalize h.next = o at *
  rw [resizeMat_nat]
  refine Runs.resizeM w2 rfl fun h3 w3 k3 n3 s3 _ => ?_
  have k13 : Keeps h h3 (fun _ => False) := k2.newer k3 (by rintro l rfl; exact f2)
  have l3 := k3.live l2
  refine Runs.newV w3 fun h5 w5 k5 f5 l5 s5 => ?_
  generalize h3.next = v at *
  rw [show ((F : Int) * (F : Int)) = ((F * F : Nat) : Int) by push_cast; ring, resizeVec_nat, Int.toNat_natCast]
  refine Runs.resizeV w5 ⟨rfl, rfl⟩ fun h6 w6 k6 n6 s6 _ => ?_
  have k36 : Keeps h3 h6 (fun _ => False) := k5.newer k6 (by rintro l rfl; exact f5)
  have k16 : Keeps h h6 (fun _ => False) := k13.trans k36
  have hA6 := hA.keep k16 la nofun
  refine (fillMat_scratch (g := fun i j : Fin L => pooled type fun q : Fin F × Fin F => ext A (start S i + q.1.val) (start S j + q.2.val)) w6
    (k36.live l3) (by rw [(k36.2 _ l3 nofun).2]; exact s3) (k6.live l5) s6
    (fun i j => do gather a v S F i j; poolOf type (some (.v v))) ?_).congr (by simp only [bind_assoc, Int.toNat_natCast]; rfl) |>.andThen ?_
  · intro i j h' w' k' s'
    refine (gather_run w' (hA6.keep k' (k16.live la) (by rintro (e | e) <;> simp at e; exact absurd (e ▸ la) f2)) (k'.live (k16.live la)) s' S i j).andThen ?_
    rintro _ h'' ⟨w'', k'', n'', hv⟩
    refine Runs.of_eq (poolOf_run w'' hv (by positivity) type fun ht t => ext_fits (hinf ht).1 (hinf ht).2 _ _) ⟨?_, w'', k'', hv.1⟩
    exact pooled_equiv type (finProdFinEquiv (m := F) (n := F)).symm (fun q => ext A (start S i + q.1.val) (start S j + q.2.val))
  · rintro _ h7 ⟨w7, k7, a7⟩
    refine Runs.of_eq rfl ⟨o, rfl, f2, k7.live (k36.live l3), w7, ?_, a7⟩
    refine k16.newer k7 ?_
    rintro l (rfl | rfl)
    · exact f2
    · exact fun c => f5 (k13.live c)

theorem global_pool_2d_run [HasInf ℝ] {h : Heap ℝ} (w : h.WF) {a : Nat} {A : Matrix (Fin m) (Fin n) ℝ} (hA : IsMat h a A) (la : h.live (.m a))
    (hm : 1 ≤ m) (hn : 1 ≤ n) (type : PoolType) (hinf : type ≠ .average → ∀ i j, |A i j| < HasInf.inf) :
    ReturnsVal (global_pool_2d (some (.m a)) type) h (pooled type fun q : Fin m × Fin n => A q.1 q.2) := by
  unfold global_pool_2d
  refine Runs.step (derefM_run a h) ?_
  refine (Mat.flatten_spec w hA la).andThen ?_
  rintro _ h4 ⟨ff, rfl, f4, l4, w4, k4, s4, e4⟩
  have hff : IsVec h4 ff (fun t : Fin (m * n) => A t.divNat t.modNat) := by
    refine ⟨by rw [s4, Nat.mul_comm], fun t => ?_⟩
    rw [← e4 t.divNat t.modNat]
    congr 1
    simp only [Fin.divNat, Fin.modNat]
    exact (Nat.div_add_mod' t.val n).symm
  refine Runs.of_eq (poolOf_run w4 hff (by positivity) type fun ht t => hinf ht _ _) ⟨?_, w4, k4⟩
  exact pooled_equiv type (finProdFinEquiv (m := m) (n := n)).symm (fun q => A q.1 q.2)

theorem IsTen.existsOf {R : Type} {h : Heap R} (w : h.WF) {o d r c : Nat} (hs : h.size (.t o) = ⟨c, r, d⟩) :
    ∃ T : Fin d → Fin r → Fin c → R, IsTen h o T := by
  obtain ⟨T, hT⟩ := IsTen.exists w o
  have ez : (h.size (.t o)).z = d := by rw [hs]
  have ey : (h.size (.t o)).y = r := by rw [hs]
  have ex : (h.size (.t o)).x = c := by rw [hs]
  refine ⟨fun z y x => T (z.cast ez.symm) (y.cast ey.symm) (x.cast ex.symm), hs, fun z y x => ?_⟩
  have := hT.2 (z.cast ez.symm) (y.cast ey.symm) (x.cast ex.symm)
  rw [← this]
  simp [hs]

theorem Runs.resizeT {R β : Type} {h : Heap R} (w : h.WF) {o : Nat} {s : Size} {k : M R β} {Q : β → Heap R → Prop}
    (hk : ∀ h1 : Heap R, h1.WF → Keeps h h1 (· = .t o) → h1.next = h.next → h1.size (.t o) = s →
      (h.size (.t o) = s → h1.buf (.t o) = h.buf (.t o)) → Runs k h1 Q) :
    Runs (resizeTo (.t o) s >>= fun _ => k) h Q :=
  Runs.resize (l := .t o) w (fun _ e => nomatch e) (fun _ e => nomatch e) hk

/-- What `pool_3d` computes, for any stride. -/
theorem pool_3d_run [HasInf ℝ] {d : Nat} {h : Heap ℝ} (w : h.WF) {a : Nat} {A : Fin d → Fin m → Fin n → ℝ} (hA : IsTen h a A) (la : h.live (.t a))
    {S L : Nat} (hS : 1 ≤ S) (hF0 : 1 ≤ F) (hF : F ≤ m) (hL : L = (m - F) / S + 1) (type : PoolType)
    (hinf : type ≠ .average → (0 : ℝ) < HasInf.inf ∧ ∀ z i j, |A z i j| < HasInf.inf) :
    ReturnsTen (pool_3d (some (.t a)) F S type) h
      (fun z (i j : Fin L) => pooled type fun q : Fin F × Fin F => ext (Matrix.of (A z)) (start S i + q.1.val) (start S j + q.2.val)) := by
  unfold pool_3d
  refine Runs.step (show derefT (some (.t a)) h = .ok (a, h) from rfl) (Runs.step (Ten.size_run a h) ?_)
  rw [hA.1]
  refine Runs.newM w fun h1 w1 k1 f1 l1 s1 => ?_
  generalize h.next = zs at *
  dsimp only
  rw [resizeMat_nat]
  refine Runs.resizeM w1 rfl fun h2 w2 k2 n2 s2 _ => ?_
  have k02 : Keeps h h2 (fun _ => False) := k1.newer k2 (by rintro l rfl; exact f1)
  have l2 := k2.live l1
  rw [if_neg (by omega)]
  have := mapSize_nat (N := m) (F := F) (P := 0) (S := S) (by omega)
  rw [Nat.cast_zero] at this
  rw [this, show m + 2 * 0 - F = m - F by omega, ← hL]
  refine Runs.newT w2 fun h3 w3 k3 f3 l3 s3 => ?_
  generalize h2.next = o at *
  rw [resizeTen_nat]
  refine Runs.resizeT w3 fun h4 w4 k4 n4 s4 _ => ?_
  have k24 : Keeps h2 h4 (fun _ => False) := k3.newer k4 (by rintro l rfl; exact f3)
  have k04 := k02.trans k24
  obtain ⟨G, hG⟩ := IsTen.existsOf w4 s4
  have fo : ¬ h.live (.t o) := fun c => f3 (k02.live c)
  let R : Fin d → Fin L → Fin L → ℝ := fun z (i j : Fin L) =>
    pooled type fun q : Fin F × Fin F => ext (Matrix.of (A z)) (start S i + q.1.val) (start S j + q.2.val)
  let I : Nat → Heap ℝ → Prop := fun t h' => h'.WF ∧ Keeps h h' (fun _ => False) ∧ h'.live (.m zs) ∧ h'.live (.t o) ∧
    IsTen h' o (fun z => if z.val < t then R z else G z)
  refine (Runs.forN d I _ h4 ⟨w4, k04, k24.live l2, k4.live l3, by simpa using hG⟩ ?_).andThen ?_
  · rintro t h5 ht ⟨w5, k5, lz5, lo5, hT5⟩
    refine (Ten.z_slice_get_into_spec w5 (hA.keep k5 la nofun) ⟨t, ht⟩).andThen ?_
    rintro _ h6 ⟨w6, k6, n6, hm6⟩
    have k06 : Keeps h h6 (fun _ => False) := k5.newer k6 (by rintro l rfl; exact f1)
    have lz6 := k6.live lz5
    refine (pool_2d_run w6 (A := Matrix.of (A ⟨t, ht⟩)) hm6 lz6 hS hF0 hF hL type fun e => ⟨(hinf e).1, (hinf e).2 _⟩).andThen ?_
    rintro _ h7 ⟨q, rfl, fq, lq, w7, k7, hm7⟩
    have hT7 := (hT5.keep k6 lo5 nofun).keep k7 (k6.live lo5) nofun
    refine (Ten.z_slice_set_spec w7 hT7 ⟨t, ht⟩ (B := R ⟨t, ht⟩) hm7).mono ?_
    rintro _ h8 ⟨w8, k8, n8, hT8⟩
    refine ⟨w8, (k06.trans k7).newer k8 (by rintro l rfl; exact fo), k8.live (k7.live lz6), k8.live (k7.live (k6.live lo5)), ?_⟩
    convert hT8 using 1
    funext z
    by_cases e : z = ⟨t, ht⟩
    · subst e; simp
    · have : z.val ≠ t := fun c => e (Fin.ext c)
      rw [if_neg e]
      by_cases e2 : z.val < t
      · rw [if_pos e2, if_pos (by omega)]
      · rw [if_neg e2, if_neg (by omega)]
  · rintro _ h5 ⟨w5, k5, lz5, lo5, hT5⟩
    refine Runs.of_eq rfl ⟨o, rfl, fo, lo5, w5, k5, ?_⟩
    convert hT5 using 1
    funext z
    rw [if_pos z.2]

/-- What `global_pool_3d` computes. -/
theorem global_pool_3d_run [HasInf ℝ] {d : Nat} {h : Heap ℝ} (w : h.WF) {a : Nat} {A : Fin d → Fin m → Fin n → ℝ} (hA : IsTen h a A)
    (la : h.live (.t a)) (hm : 1 ≤ m) (hn : 1 ≤ n) (type : PoolType) (hinf : type ≠ .average → ∀ z i j, |A z i j| < HasInf.inf) :
    ReturnsVec (global_pool_3d (some (.t a)) type) h (fun z => pooled type fun q : Fin m × Fin n => A z q.1 q.2) := by
  unfold global_pool_3d
  refine Runs.step (show derefT (some (.t a)) h = .ok (a, h) from rfl) (Runs.step (Ten.size_run a h) ?_)
  rw [hA.1]
  refine Runs.newV w fun h1 w1 k1 f1 l1 s1 => ?_
  generalize h.next = v at *
  dsimp only
  rw [resizeVec_nat]
  refine Runs.resizeV w1 ⟨rfl, rfl⟩ fun h2 w2 k2 n2 s2 _ => ?_
  have k02 : Keeps h h2 (fun _ => False) := k1.newer k2 (by rintro l rfl; exact f1)
  have l2 := k2.live l1
  refine Runs.newM w2 fun h3 w3 k3 f3 l3 s3 => ?_
  generalize h2.next = o at *
  rw [resizeMat_nat]
  refine Runs.resizeM w3 rfl fun h4 w4 k4 n4 s4 _ => ?_
  have k24 : Keeps h2 h4 (fun _ => False) := k3.newer k4 (by rintro l rfl; exact f3)
  have k04 := k02.trans k24
  have fo : ¬ h.live (.m o) := fun c => f3 (k02.live c)
  obtain ⟨f, hf⟩ := exists_VCells w4 (show h4.size (.v v) = ⟨d, 1, 1⟩ by rw [(k24.2 _ l2 nofun).2]; exact s2)
  refine (Runs.cells1 (l := .v v) (n := d) d (fun h' => h'.WF ∧ Keeps h h' (fun _ => False) ∧ h'.live (.v v) ∧ h'.live (.m o))
    (fun z => if hz : z < d then pooled type fun q : Fin m × Fin n => A ⟨z, hz⟩ q.1 q.2 else 0) _ ⟨w4, k04, k24.live l2, k4.live l3⟩ hf ?_).andThen ?_
  · rintro t h5 f' ht ⟨w5, k5, lv5, lo5⟩ c5
    refine (Ten.z_slice_get_into_spec w5 (hA.keep k5 la nofun) ⟨t, ht⟩).andThen ?_
    rintro _ h6 ⟨w6, k6, n6, hm6⟩
    have k06 : Keeps h h6 (fun _ => False) := k5.newer k6 (by rintro l rfl; exact fo)
    refine (global_pool_2d_run w6 (A := Matrix.of (A ⟨t, ht⟩)) hm6 (k6.live lo5) hm hn type fun e => hinf e _).andThen ?_
    rintro _ h7 ⟨rfl, w7, k7⟩
    refine (Vec.set_cells w7 ((c5.keep k6 lv5 nofun).keep k7 (k6.live lv5) nofun) ht _).mono fun _ h8 ⟨w8, k8, n8, c8⟩ => ?_
    refine ⟨⟨w8, (k06.trans k7).newer k8 (by rintro l rfl; exact f1), k8.live (k7.live (k6.live lv5)), k8.live (k7.live (k6.live lo5))⟩, ?_⟩
    rw [dif_pos ht]; exact c8
  · rintro _ h5 ⟨⟨w5, k5, lv5, lo5⟩, c5⟩
    exact Runs.of_eq rfl ⟨v, rfl, f1, lv5, w5, k5, c5.isVec fun z => by simp⟩

end Verif
