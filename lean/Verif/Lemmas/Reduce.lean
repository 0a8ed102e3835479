import Verif.Lemmas.Vector

/-! # Reductions read the elements from left to right -/

namespace Verif
variable {R σ : Type}

theorem foldN_load (l : Loc) (n : Nat) (s : σ) (g : σ → R → σ) (h : Heap R) (hn : (h.buf l).length = n) :
    foldN n s (fun i c => do let x ← load l i; pure (g c x)) h = .ok ((h.buf l).foldl g s, h) := by
  have := foldN_read n (fun k => ((h.buf l).take k).foldl g s)
    (fun i c => do let x ← load l i; pure (g c x)) s h (by simp) (by
      intro i hi
      have hi' : i < (h.buf l).length := by omega
      rw [bind_ok (load_ok' hi')]
      rw [List.take_add_one, List.getElem?_eq_getElem hi', List.foldl_append]
      rfl)
  rw [this]
  have e : (h.buf l).take n = h.buf l := List.take_of_length_le (by omega)
  simp only [e]

theorem foldN_load2 (a b : Loc) (n : Nat) (s : σ) (g : σ → R → R → σ) (h : Heap R) (ha : (h.buf a).length = n)
    (hb : (h.buf b).length = n) :
    foldN n s (fun i c => do let x ← load a i; let y ← load b i; pure (g c x y)) h =
      .ok (((h.buf a).zip (h.buf b)).foldl (fun c p => g c p.1 p.2) s, h) := by
  have := foldN_read n (fun k => (((h.buf a).zip (h.buf b)).take k).foldl (fun c p => g c p.1 p.2) s)
    (fun i c => do let x ← load a i; let y ← load b i; pure (g c x y)) s h (by simp) (by
      intro i hi
      have hi' : i < (h.buf a).length := by omega
      have hi2 : i < (h.buf b).length := by omega
      rw [bind_ok (load_ok' hi'), bind_ok (load_ok' hi2)]
      rw [List.take_add_one, List.getElem?_eq_getElem (by simp; omega), List.foldl_append]
      simp)
  rw [this]
  have e : ((h.buf a).zip (h.buf b)).take n = (h.buf a).zip (h.buf b) := List.take_of_length_le (by simp; omega)
  simp only [e]

/-- Indexed variant. -/
theorem foldN_loadIdx (l : Loc) (n : Nat) (s : σ) (g : Nat → σ → R → σ) (h : Heap R) (hn : (h.buf l).length = n) :
    foldN n s (fun i c => do let x ← load l i; pure (g i c x)) h =
      .ok ((h.buf l).zipIdx.foldl (fun c p => g p.2 c p.1) s, h) := by
  have := foldN_read n (fun k => ((h.buf l).zipIdx.take k).foldl (fun c p => g p.2 c p.1) s)
    (fun i c => do let x ← load l i; pure (g i c x)) s h (by simp) (by
      intro i hi
      have hi' : i < (h.buf l).length := by omega
      rw [bind_ok (load_ok' hi')]
      rw [List.take_add_one, List.getElem?_eq_getElem (by simpa using hi'), List.foldl_append]
      simp)
  rw [this]
  have e : (h.buf l).zipIdx.take n = (h.buf l).zipIdx := List.take_of_length_le (by simp; omega)
  simp only [e]

namespace Vec
variable {h : Heap R}

theorem dot_run [Zero R] [Add R] [Mul R] (w : h.WF) (this b : Nat)
    (hs : (h.buf (.v this)).length = (h.buf (.v b)).length) :
    dot this (some b) h = .ok (((h.buf (.v this)).zip (h.buf (.v b))).foldl (fun c p => c + p.1 * p.2) 0, h) := by
  simp only [dot]
  rw [bind_ok (size_run w this), bind_ok (size_run w b), if_pos (show (h.vec this).length = (h.vec b).length from hs)]
  exact foldN_load2 _ _ _ _ (fun c x y => c + x * y) h rfl hs.symm

theorem euclidean_distance_squared_run [Zero R] [Add R] [Sub R] [Mul R] (w : h.WF) (this b : Nat)
    (hs : (h.buf (.v this)).length = (h.buf (.v b)).length) :
    euclidean_distance_squared this (some b) h =
      .ok (((h.buf (.v this)).zip (h.buf (.v b))).foldl (fun c p => c + (p.1 - p.2) * (p.1 - p.2)) 0, h) := by
  simp only [euclidean_distance_squared]
  rw [bind_ok (size_run w this), bind_ok (size_run w b), if_pos (show (h.vec this).length = (h.vec b).length from hs)]
  exact foldN_load2 _ _ _ _ (fun c x y => c + (x - y) * (x - y)) h rfl hs.symm

theorem euclidean_distance_run [Zero R] [Add R] [Sub R] [Mul R] [MathFns R] (w : h.WF) (this b : Nat)
    (hs : (h.buf (.v this)).length = (h.buf (.v b)).length) :
    euclidean_distance this (some b) h =
      .ok (MathFns.sqrt (((h.buf (.v this)).zip (h.buf (.v b))).foldl (fun c p => c + (p.1 - p.2) * (p.1 - p.2)) 0), h) := by
  simp only [euclidean_distance]
  rw [bind_ok (size_run w this), bind_ok (size_run w b), if_pos (show (h.vec this).length = (h.vec b).length from hs)]
  exact bind_ok (foldN_load2 _ _ _ _ (fun c x y => c + (x - y) * (x - y)) h rfl hs.symm)

theorem norm_sq_run [Zero R] [Add R] [Mul R] (w : h.WF) (this : Nat) :
    norm_sq this h = .ok ((h.buf (.v this)).foldl (fun c x => c + x * x) 0, h) := by
  unfold norm_sq
  rw [bind_ok (size_run w this)]
  exact foldN_load _ _ _ (fun c x => c + x * x) h rfl

theorem norm_2_run [Zero R] [Add R] [Mul R] [MathFns R] (w : h.WF) (this : Nat) :
    norm_2 this h = .ok (MathFns.sqrt ((h.buf (.v this)).foldl (fun c x => c + x * x) 0), h) := by
  unfold norm_2
  rw [bind_ok (size_run w this)]
  exact bind_ok (foldN_load _ _ _ (fun c x => c + x * x) h rfl)

theorem sum_elements_run [Zero R] [Add R] (w : h.WF) (this : Nat) :
    sum_elements this h = .ok ((h.buf (.v this)).foldl (fun c x => c + x) 0, h) := by
  unfold sum_elements
  rw [bind_ok (size_run w this)]
  exact foldN_load _ _ _ (fun c x => c + x) h rfl

theorem max_element_run [LT R] [DecidableLT R] [Neg R] [HasInf R] (w : h.WF) (this : Nat) :
    max_element this h = .ok ((h.buf (.v this)).foldl (fun m x => if m < x then x else m) (-(HasInf.inf : R)), h) := by
  unfold max_element
  rw [bind_ok (size_run w this)]
  exact foldN_load _ _ _ (fun m x => if m < x then x else m) h rfl

theorem min_element_run [LT R] [DecidableLT R] [HasInf R] (w : h.WF) (this : Nat) :
    min_element this h = .ok ((h.buf (.v this)).foldl (fun m x => if x < m then x else m) (HasInf.inf : R), h) := by
  unfold min_element
  rw [bind_ok (size_run w this)]
  exact foldN_load _ _ _ (fun m x => if x < m then x else m) h rfl

theorem max_element_index_run [LT R] [DecidableLT R] [Neg R] [HasInf R] (w : h.WF) (this : Nat) :
    max_element_index this h = .ok (((h.buf (.v this)).zipIdx.foldl
      (fun p x => if p.1 < x.1 then (x.1, (x.2 : Int)) else p) (-(HasInf.inf : R), (-1 : Int))).2, h) := by
  unfold max_element_index
  rw [bind_ok (size_run w this)]
  exact bind_ok (foldN_loadIdx _ _ _ (fun i (p : R × Int) x => if p.1 < x then (x, (i : Int)) else p) h rfl)

theorem min_element_index_run [LT R] [DecidableLT R] [HasInf R] (w : h.WF) (this : Nat) :
    min_element_index this h = .ok (((h.buf (.v this)).zipIdx.foldl
      (fun p x => if x.1 < p.1 then (x.1, (x.2 : Int)) else p) ((HasInf.inf : R), (-1 : Int))).2, h) := by
  unfold min_element_index
  rw [bind_ok (size_run w this)]
  exact bind_ok (foldN_loadIdx _ _ _ (fun i (p : R × Int) x => if x < p.1 then (x, (i : Int)) else p) h rfl)

end Vec
end Verif
