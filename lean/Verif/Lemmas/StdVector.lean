import Verif.Model.Utilities
import Verif.Lemmas.Base

/-! # Loops over `std::vector`s -/

namespace Verif
variable {R α β σ : Type}

theorem atS_ok {v : List α} {i : Nat} {a : α} (e : v[i]? = some a) (h : Heap R) : atS v i h = .ok (a, h) := by
  unfold atS; rw [e]; rfl

theorem atS_lt {v : List α} {i : Nat} (e : i < v.length) (h : Heap R) : atS v i h = .ok (v[i], h) :=
  atS_ok (List.getElem?_eq_getElem e) h

theorem atS_ub {v : List α} {i : Nat} (e : v.length ≤ i) (h : Heap R) : atS v i h = .ub := by
  unfold atS; rw [List.getElem?_eq_none e]; rfl

/-- A loop over one list. -/
theorem foldN_at (xs : List α) (s : σ) (g : σ → α → σ) (body : Nat → σ → M R σ) (h : Heap R)
    (hb : ∀ i c x, xs[i]? = some x → body i c h = .ok (g c x, h)) :
    foldN xs.length s body h = .ok (xs.foldl g s, h) := by
  have := foldN_read xs.length (fun k => (xs.take k).foldl g s) body s h (by simp) (by
    intro i hi
    rw [hb i _ _ (List.getElem?_eq_getElem hi), List.take_add_one, List.getElem?_eq_getElem hi]
    simp only [Option.toList, List.foldl_append, List.foldl_cons, List.foldl_nil])
  rw [this, List.take_length]

/-- A loop over two lists of equal length. -/
theorem foldN_at2 (xs : List α) (ys : List β) (hl : xs.length = ys.length) (s : σ) (g : σ → α → β → σ) (body : Nat → σ → M R σ)
    (h : Heap R) (hb : ∀ i c x y, xs[i]? = some x → ys[i]? = some y → body i c h = .ok (g c x y, h)) :
    foldN xs.length s body h = .ok ((xs.zip ys).foldl (fun c p => g c p.1 p.2) s, h) := by
  have := foldN_at (xs.zip ys) s (fun c p => g c p.1 p.2) body h (by
    intro i c p e
    rw [List.getElem?_zip_eq_some] at e
    exact hb i c _ _ e.1 e.2)
  rwa [List.length_zip, ← hl, Nat.min_self] at this

/-- A loop whose `k`-th round is undefined. -/
theorem foldN_ub (n k : Nat) (hk : k < n) (F : Nat → σ) (body : Nat → σ → M R σ) (s : σ) (h : Heap R) (hs : s = F 0)
    (step : ∀ i, i < k → body i (F i) h = .ok (F (i + 1), h)) (hu : body k (F k) h = .ub) :
    foldN n s body h = .ub := by
  unfold foldN
  have : ∀ (j lo c : Nat) (s : σ), lo + j = k → j < c → s = F lo → loop lo c s body h = .ub := by
    intro j
    induction j with
    | zero =>
      intro lo c s e hc hs
      obtain ⟨c, rfl⟩ : ∃ c', c = c' + 1 := ⟨c - 1, by omega⟩
      rw [loop_succ, hs, bind_ub (by rw [show lo = k by omega]; exact hu)]
    | succ j ih =>
      intro lo c s e hc hs
      obtain ⟨c, rfl⟩ : ∃ c', c = c' + 1 := ⟨c - 1, by omega⟩
      rw [loop_succ, hs, bind_ok (step lo (by omega))]
      exact ih (lo + 1) c _ (by omega) (by omega) rfl
  exact this k 0 n s (by omega) hk hs

theorem foldl_countP (xs : List α) (p : α → Bool) (s : ℝ) :
    xs.foldl (fun c x => if p x then c + 1 else c) s = s + xs.countP p := by
  induction xs generalizing s with
  | nil => simp
  | cons x xs ih =>
    rw [List.foldl_cons, ih, List.countP_cons]
    by_cases e : p x <;> simp [e]
    ring

end Verif
