import Verif.Lemmas.StdVector
import Verif.Lemmas.RowCells
import Verif.Lemmas.Example

/-! # C64: random initialisation of weights and biases -/

namespace Verif.Spec
open Utilities

/-- The half-width of the interval of a uniform initialisation for `fan_in` inputs and `fan_out` outputs. -/
noncomputable def halfWidth (type : Kind) (fan_in fan_out : ℝ) : ℝ :=
  match type with
  | .xavier_uniform => Real.sqrt (6 / (fan_in + fan_out))
  | .he_uniform => Real.sqrt (6 / fan_in)
  | .le_cun_uniform => Real.sqrt (3 / fan_in)
  | .uniform => 1 / Real.sqrt fan_in
  | _ => 0

/-- The standard deviation of a normal initialisation. -/
noncomputable def deviation (type : Kind) (fan_in fan_out : ℝ) : ℝ :=
  match type with
  | .xavier_normal => Real.sqrt (2 / (fan_in + fan_out))
  | .he_normal => Real.sqrt (2 / fan_in)
  | .le_cun_normal => Real.sqrt (1 / fan_in)
  | _ => 0

/-- `x` is what an initialisation of this type makes of the draws `u` (uniform on `[0, 1)`) and `z` (standard normal). -/
noncomputable def drawn (type : Kind) (fan_in fan_out u z : ℝ) : ℝ :=
  match type with
  | .default => u
  | .xavier_normal | .he_normal | .le_cun_normal => deviation type fan_in fan_out * z
  | _ => (2 * u - 1) * halfWidth type fan_in fan_out

end Verif.Spec

namespace Verif.Utilities
open Spec SortArray
variable {m n : Nat}

theorem uniform_run (g : Source) {b : ℝ} (hb : 0 ≤ b) (i : Nat) (h : Heap ℝ) :
    Utilities.uniform g (-b) b i h = .ok ((2 * g.u i - 1) * b, h) := by
  unfold Utilities.uniform
  rw [if_pos (by linarith)]
  show Out.ok (_, h) = _
  congr 2; ring

theorem uniform01_run (g : Source) (i : Nat) (h : Heap ℝ) : Utilities.uniform g 0 1 i h = .ok (g.u i, h) := by
  unfold Utilities.uniform
  rw [if_pos (by norm_num)]
  show Out.ok (_, h) = _
  congr 2; ring

theorem normal_run (g : Source) {sd : ℝ} (hb : 0 < sd) (i : Nat) (h : Heap ℝ) : normal g sd i h = .ok (sd * g.z i, h) := by
  unfold normal; rw [if_pos hb]; rfl

theorem sampleV_run (g : Source) (hn : 0 < n) (type : Kind) (i : Nat) (h : Heap ℝ) :
    sampleV g n type i h = .ok (drawn type n 1 (g.u i) (g.z i), h) := by
  have hn' : (0 : ℝ) < n := by exact_mod_cast hn
  cases type <;> unfold sampleV <;> dsimp only [drawn, halfWidth, deviation]
  · exact uniform01_run g i h
  · exact normal_run g (by positivity) i h
  · exact uniform_run g (by positivity) i h
  · exact normal_run g (by positivity) i h
  · exact uniform_run g (by positivity) i h
  · exact normal_run g (by positivity) i h
  · exact uniform_run g (by positivity) i h
  · have e : -1 / Real.sqrt n = -(1 / Real.sqrt n) := by ring
    rw [e]
    exact uniform_run g (by positivity) i h

/-- C64: `weight_initializationv` replaces every element by a draw of the requested distribution, for one output. -/
theorem C64_vector (g : Source) (h : Heap ℝ) (w : h.WF) (o : Nat) (v : Fin n → ℝ) (ho : IsVec h o v) (type : Kind) :
    SetsVec (weight_initializationv g (some o) type) h o fun i : Fin n => drawn type n 1 (g.u i) (g.z i) := by
  obtain ⟨f, ef, ca⟩ := ho.cells w
  unfold SetsVec weight_initializationv
  dsimp only
  have sz : Vec.size o h = .ok (n, h) := by unfold Vec.size; rw [bind_ok (getSize_run _ _), ca.1]; rfl
  refine Runs.step sz ?_
  refine (Runs.forN n (fun k h' => h'.WF ∧ Keeps h h' (· = .v o) ∧ VCells h' (.v o) n fun i =>
    if i < k then drawn type n 1 (g.u i) (g.z i) else f i) _ h
    ⟨w, Keeps.refl _ _, ca.congr fun _ _ => by simp⟩ ?_).mono ?_
  · rintro i h1 hi ⟨w1, k1, c1⟩
    refine Runs.step (sampleV_run g (by omega) type i h1) ?_
    have hlt : i < (h1.buf (.v o)).length := by rw [c1.2, tab_length]; exact hi
    have u := updated_setBuf h1 (.v o) ((h1.buf (.v o)).set i (drawn type n 1 (g.u i) (g.z i)))
    refine Runs.of_eq (store_ok _ hlt) ⟨u.wf w1 (by rw [List.length_set, w1.len]) (fun _ _ => w1.vec o) nofun, k1.trans u.keeps, c1.1, ?_⟩
    rw [setBuf_buf_same, c1.2, tab_set]
    refine List.map_congr_left fun x hx => ?_
    unfold upd; grind
  · rintro _ h1 ⟨w1, k1, c1⟩
    exact ⟨w1, k1, c1.isVec fun i => by simp⟩

/-- C64: what a uniform initialisation draws lies in the interval, whatever the draw. -/
theorem C64_bounds (g : Source) (i : Nat) (type : Kind) (a b : ℝ) :
    (type = .default → 0 ≤ drawn type a b (g.u i) (g.z i) ∧ drawn type a b (g.u i) (g.z i) < 1) ∧
      (type = .xavier_uniform ∨ type = .he_uniform ∨ type = .le_cun_uniform ∨ type = .uniform →
        |drawn type a b (g.u i) (g.z i)| ≤ halfWidth type a b) := by
  have hu := g.u_mem i
  refine ⟨by rintro rfl; exact hu, ?_⟩
  have key : ∀ c : ℝ, 0 ≤ c → |(2 * g.u i - 1) * c| ≤ c := by
    intro c hc
    rw [abs_mul, abs_of_nonneg hc]
    have : |2 * g.u i - 1| ≤ 1 := abs_le.mpr ⟨by linarith, by linarith⟩
    nlinarith
  rintro (rfl | rfl | rfl | rfl) <;> exact key _ (by unfold halfWidth; positivity)

/-- `sampleM` agrees with `drawn` for the default and the plain uniform type. -/
theorem sampleM_run (g : Source) (s : Nat) (type : Kind) (ht : type = .default ∨ type = .uniform) (i : Nat) (b : ℝ) (h : Heap ℝ) :
    sampleM g n s type i h = .ok (drawn type n b (g.u i) (g.z i), h) := by
  rcases ht with rfl | rfl <;> unfold sampleM <;> dsimp only [drawn, halfWidth]
  · exact uniform01_run g i h
  · have e : -1 / Real.sqrt n = -(1 / Real.sqrt n) := by ring
    rw [e]
    exact uniform_run g (by positivity) i h

/-- The loop of `weight_initializationm`. -/
theorem weightM_run (g : Source) (h : Heap ℝ) (w : h.WF) (o : Nat) (A : Matrix (Fin m) (Fin n) ℝ) (ho : IsMat h o A) (type : Kind)
    (x : Nat → ℝ) (hx : ∀ i h, sampleM g n (n + m) type i h = .ok (x i, h)) :
    SetsMat (weight_initializationm g (some o) type) h o fun (i : Fin m) (j : Fin n) => x (i.val * n + j.val) := by
  obtain ⟨F, ef, ca⟩ := ho.cells w
  unfold SetsMat weight_initializationm
  dsimp only
  refine Runs.step (Mat.size_run o h) ?_
  rw [ca.1, count_mat]
  dsimp only
  have hl : (h.buf (.m o)).length = n * m := by rw [ca.2, tab_length]
  refine (Runs.forN (n * m) (fun k h' => h'.WF ∧ Keeps h h' (· = .m o) ∧ h'.size (.m o) = ⟨n, m, 1⟩ ∧
    (h'.buf (.m o)).length = n * m ∧ ∀ i, i < k → (h'.buf (.m o))[i]? = some (x i)) _ h
    ⟨w, Keeps.refl _ _, ca.1, hl, by intro i hi; omega⟩ ?_).mono ?_
  · rintro i h1 hi ⟨w1, k1, s1, l1, c1⟩
    refine Runs.step (hx i h1) ?_
    have hlt : i < (h1.buf (.m o)).length := by rw [l1]; exact hi
    have u := updated_setBuf h1 (.m o) ((h1.buf (.m o)).set i (x i))
    refine Runs.of_eq (store_ok _ hlt) ⟨u.wf w1 (by rw [List.length_set, w1.len]) nofun (fun _ _ => w1.mat o), k1.trans u.keeps, s1, ?_, ?_⟩
    · rw [setBuf_buf_same, List.length_set, l1]
    · intro t ht
      rw [setBuf_buf_same, List.getElem?_set]
      by_cases e : i = t
      · subst e; simp [hlt]
      · rw [if_neg e]; exact c1 t (by omega)
  · rintro _ h1 ⟨w1, k1, s1, l1, c1⟩
    refine ⟨w1, k1, s1, fun i j => c1 _ ?_⟩
    calc i.val * n + j.val < i.val * n + n := by have := j.2; omega
      _ = n * (i.val + 1) := by ring
      _ ≤ n * m := Nat.mul_le_mul_left _ i.2

/-- C64: for the default and the plain uniform type, `weight_initializationm` replaces every cell by a draw of the requested distribution.
(The other types: see `C64_matrix_zero_fails` and `C64_matrix_normal_fails`.) -/
theorem C64_matrix_partial (g : Source) (h : Heap ℝ) (w : h.WF) (o : Nat) (A : Matrix (Fin m) (Fin n) ℝ) (ho : IsMat h o A) (type : Kind)
    (ht : type = .default ∨ type = .uniform) :
    SetsMat (weight_initializationm g (some o) type) h o fun (i : Fin m) (j : Fin n) =>
      drawn type n m (g.u (i.val * n + j.val)) (g.z (i.val * n + j.val)) :=
  weightM_run g h w o A ho type (fun k => drawn type n m (g.u k) (g.z k)) fun i h => sampleM_run g _ type ht i m h

theorem intDiv_zero {a b : Nat} (hb : a < b) (h : Heap ℝ) : intDiv a b h = .ok (0, h) := by
  unfold intDiv; rw [if_neg (by omega), Nat.div_eq_of_lt hb]; rfl

theorem uniform00_run (g : Source) (i : Nat) (h : Heap ℝ) : Utilities.uniform g (-Real.sqrt ((0 : Nat) : ℝ)) (Real.sqrt ((0 : Nat) : ℝ)) i h = .ok (0, h) := by
  rw [Nat.cast_zero, Real.sqrt_zero, uniform_run g (le_refl _), mul_zero]

/-- The sizes for which the quotient of `int`s is zero. -/
def Vanishes (type : Kind) (n s : Nat) : Prop :=
  match type with
  | .xavier_uniform => 6 < s
  | .he_uniform => 6 < n
  | .le_cun_uniform => 3 < n
  | .xavier_normal => 2 < s
  | .he_normal => 2 < n
  | .le_cun_normal => 1 < n
  | _ => False

theorem sampleM_zero (g : Source) {s : Nat} {type : Kind} (hv : Vanishes type n s)
    (ht : type = .xavier_uniform ∨ type = .he_uniform ∨ type = .le_cun_uniform) (i : Nat) (h : Heap ℝ) :
    sampleM g n s type i h = .ok (0, h) := by
  rcases ht with rfl | rfl | rfl <;> unfold sampleM <;> dsimp only <;> rw [bind_ok (intDiv_zero hv h)] <;> exact uniform00_run g i h

theorem sampleM_ub (g : Source) {s : Nat} {type : Kind} (hv : Vanishes type n s)
    (ht : type = .xavier_normal ∨ type = .he_normal ∨ type = .le_cun_normal) (i : Nat) (h : Heap ℝ) :
    sampleM g n s type i h = .ub := by
  rcases ht with rfl | rfl | rfl <;> unfold sampleM <;> dsimp only <;> rw [bind_ok (intDiv_zero hv h)] <;>
    (unfold normal; rw [if_neg (by simp)]; rfl)

/-- C64: because `6 / (n + m)` and the like are divisions of `int`s, the Xavier, He and LeCun uniform initialisations set every
weight of all but the smallest matrices to zero. -/
theorem C64_matrix_zero_fails (g : Source) (h : Heap ℝ) (w : h.WF) (o : Nat) (A : Matrix (Fin m) (Fin n) ℝ) (ho : IsMat h o A) (type : Kind)
    (hv : Vanishes type n (n + m)) (ht : type = .xavier_uniform ∨ type = .he_uniform ∨ type = .le_cun_uniform) :
    SetsMat (weight_initializationm g (some o) type) h o (0 : Matrix (Fin m) (Fin n) ℝ) :=
  weightM_run g h w o A ho type (fun _ => 0) fun i h => sampleM_zero g hv ht i h

/-- C64: the normal initialisations of all but the smallest matrices construct a normal distribution with deviation zero, which the
standard library does not define. -/
theorem C64_matrix_normal_fails (g : Source) (h : Heap ℝ) (w : h.WF) (o : Nat) (A : Matrix (Fin m) (Fin n) ℝ) (ho : IsMat h o A) (type : Kind)
    (hv : Vanishes type n (n + m)) (ht : type = .xavier_normal ∨ type = .he_normal ∨ type = .le_cun_normal) (hm : 0 < m) (hn : 0 < n) :
    weight_initializationm g (some o) type h = .ub := by
  obtain ⟨F, ef, ca⟩ := ho.cells w
  unfold weight_initializationm
  dsimp only
  rw [bind_ok (Mat.size_run o h), ca.1, count_mat]
  exact foldN_ub (n * m) 0 (Nat.mul_pos hn hm) (fun _ => ()) _ () h rfl (by intro i hi; omega) (bind_ub (sampleM_ub g hv ht 0 h))

/-- C64: `weightInitialization(n, type)` on `std::vector`s is right for the default and the plain uniform type. -/
theorem C64_list_partial (g : Source) (h : Heap ℝ) (type : Kind) (ht : type = .default ∨ type = .uniform) :
    weightInitialization g n type h = .ok (List.ofFn fun i : Fin n => drawn type n 1 (g.u i) (g.z i), h) := by
  unfold weightInitialization
  rw [foldN_read n (fun k => (List.range k).map fun i => drawn type n 1 (g.u i) (g.z i)) _ _ h (by simp) (by
    intro i hi
    rw [bind_ok (sampleM_run g _ type ht i 1 h), List.range_succ, List.map_append]; rfl)]
  congr 2
  exact (List.ofFn_eq_map ..).symm ▸ (by rw [← List.map_coe_finRange_eq_range, List.map_map]; rfl)

/-- C64: `weightInitialization(n, type)` returns zeros for the Xavier, He and LeCun uniform types, except for very small `n`. -/
theorem C64_list_zero_fails (g : Source) (h : Heap ℝ) (type : Kind) (hv : Vanishes type n (n + 1))
    (ht : type = .xavier_uniform ∨ type = .he_uniform ∨ type = .le_cun_uniform) :
    weightInitialization g n type h = .ok (List.replicate n 0, h) := by
  unfold weightInitialization
  rw [foldN_read n (fun k => List.replicate k 0) _ _ h (by simp) (by
    intro i hi
    rw [bind_ok (sampleM_zero g hv ht i h), List.replicate_succ']; rfl)]

/-- C64: a bias is a number from 0 (included) to 1 (excluded); a list of biases is made of such numbers. -/
theorem C64_bias (g : Source) (h : Heap ℝ) : bias_initializationr g h = .ok (g.u 0, h) ∧
    biasInitialization g n h = .ok ((List.range n).map g.u, h) := by
  refine ⟨uniform01_run g 0 h, ?_⟩
  unfold biasInitialization
  rw [foldN_read n (fun k => (List.range k).map g.u) _ _ h (by simp) (by
    intro i hi
    rw [bind_ok (uniform01_run g i h), List.range_succ, List.map_append]; rfl)]

/-- C64: `bias_initializationv(z)` draws the numbers and forgets them: `z` is left as it was. -/
theorem C64_bias_vector_fails (g : Source) (h : Heap ℝ) (o : Nat) : bias_initializationv g (some o) h = .ok ((), h) := by
  unfold bias_initializationv
  dsimp only
  rw [bind_ok (show Vec.size o h = .ok ((h.size (.v o)).x, h) from rfl), bind_ok (C64_bias (n := (h.size (.v o)).x) g h).2]; rfl

/-- C64: nothing happens to a missing vector or matrix. -/
theorem C64_null (g : Source) (h : Heap ℝ) (type : Kind) : weight_initializationv g none type h = .ok ((), h) ∧
    weight_initializationm g none type h = .ok ((), h) ∧ bias_initializationv g none h = .ok ((), h) := ⟨rfl, rfl, rfl⟩

/-- A source and a vector of two elements for `C64_vector`; a 4 by 4 matrix for the failing cases. -/
example : ∃ (_ : Source) (h : Heap ℝ), h.WF ∧ IsVec h 0 ![1, 2] ∧ IsMat h 0 (0 : Matrix (Fin 4) (Fin 4) ℝ) ∧
    Vanishes .xavier_uniform 4 (4 + 4) ∧ drawn .xavier_uniform 2 1 (3 / 4) 0 ≠ 0 := by
  refine ⟨⟨fun _ => 0, fun _ => 0, by norm_num⟩, Heap.ofLists 0 [[1, 2]] [(4, 4, List.replicate 16 0)], Heap.ofLists_wf _ _ _ (by simp),
    ⟨rfl, fun i => by fin_cases i <;> rfl⟩, ⟨rfl, by intro i j; fin_cases i <;> fin_cases j <;> rfl⟩, by norm_num [Vanishes], ?_⟩
  norm_num [drawn, halfWidth]

end Verif.Utilities
