import Verif.Lemmas.Sort
import Verif.Lemmas.Elementwise

/-! # Loops over the cells of a matrix -/

namespace Verif
open SortArray (tab upd tab_get tab_length tab_set tab_of_list)
variable {R σ : Type}

/-- The cells `F`, stored row by row with `c` columns. -/
def flat (c : Nat) (F : Nat → Nat → R) : Nat → R := fun p => F (p / c) (p % c)
/-- `F` with one cell replaced. -/
def upd2 (F : Nat → Nat → R) (i j : Nat) (v : R) : Nat → Nat → R := fun a b => if a = i ∧ b = j then v else F a b
/-- The heap in which `l` holds the cells `F` (`c` columns, `r` rows). -/
def Gr (h : Heap R) (l : Loc) (c r : Nat) (F : Nat → Nat → R) : Heap R := h.setBuf l (tab (c * r) (flat c F))

theorem idx_lt {i j r c : Nat} (hi : i < r) (hj : j < c) : i * c + j < c * r := by
  have : i * c + c ≤ r * c := by rw [← Nat.succ_mul]; exact Nat.mul_le_mul_right _ hi
  rw [Nat.mul_comm c r]; omega

theorem flat_idx {c : Nat} (F : Nat → Nat → R) {i j : Nat} (hj : j < c) : flat c F (i * c + j) = F i j := by
  unfold flat
  have hc : 0 < c := by omega
  rw [Nat.mul_comm i c, Nat.mul_add_div hc, Nat.div_eq_of_lt hj, Nat.mul_add_mod, Nat.mod_eq_of_lt hj, Nat.add_zero]

theorem flat_upd {c : Nat} (F : Nat → Nat → R) {i j : Nat} (hj : j < c) (v : R) :
    upd (flat c F) (i * c + j) v = flat c (upd2 F i j v) := by
  funext p
  have hc : 0 < c := by omega
  simp only [upd, flat, upd2]
  have e : p = i * c + j ↔ p / c = i ∧ p % c = j := by
    constructor
    · rintro rfl
      rw [Nat.mul_comm i c, Nat.mul_add_div hc, Nat.div_eq_of_lt hj, Nat.mul_add_mod, Nat.mod_eq_of_lt hj]
      exact ⟨rfl, rfl⟩
    · rintro ⟨rfl, rfl⟩
      rw [Nat.mul_comm]; exact (Nat.div_add_mod p c).symm
  by_cases h : p = i * c + j
  · rw [if_pos h, if_pos (e.mp h)]
  · rw [if_neg h, if_neg (fun h' => h (e.mpr h'))]

theorem flat_congr {c r : Nat} {F G : Nat → Nat → R} (e : ∀ i j, i < r → j < c → F i j = G i j) :
    tab (c * r) (flat c F) = tab (c * r) (flat c G) := by
  unfold tab
  apply List.map_congr_left
  intro p hp
  have hp : p < c * r := by simpa using hp
  have hc : 0 < c := by
    rcases Nat.eq_zero_or_pos c with h | h
    · subst h; simp at hp
    · exact h
  exact e _ _ (Nat.div_lt_of_lt_mul hp) (Nat.mod_lt _ hc)

theorem tab_flat_get {c r : Nat} (F : Nat → Nat → R) {i j : Nat} (hi : i < r) (hj : j < c) :
    (tab (c * r) (flat c F))[i * c + j]? = some (F i j) := by
  rw [tab_get _ _ _ (idx_lt hi hj), flat_idx F hj]

theorem tab_flat_set {c r : Nat} (F : Nat → Nat → R) {i j : Nat} (hj : j < c) (v : R) :
    (tab (c * r) (flat c F)).set (i * c + j) v = tab (c * r) (flat c (upd2 F i j v)) := by
  rw [tab_set, flat_upd F hj]

theorem load_ne {l l' : Loc} (hne : l' ≠ l) {p : Nat} {v : R} {h : Heap R} {d : List R}
    (e : (h.buf l')[p]? = some v) : load l' p (h.setBuf l d) = .ok (v, h.setBuf l d) :=
  load_ok (by rw [setBuf_buf_ne _ _ hne, e])

section
variable {h : Heap R} {l : Loc} {c r : Nat}

theorem load_Gr {F : Nat → Nat → R} {i j : Nat} (hi : i < r) (hj : j < c) :
    load l (i * c + j) (Gr h l c r F) = .ok (F i j, Gr h l c r F) :=
  load_ok (by simp [Gr, tab_flat_get F hi hj])

theorem store_Gr {F : Nat → Nat → R} {i j : Nat} (v : R) (hi : i < r) (hj : j < c) :
    store l (i * c + j) v (Gr h l c r F) = .ok ((), Gr h l c r (upd2 F i j v)) := by
  rw [store_ok v (by simpa [Gr] using idx_lt hi hj)]
  simp [Gr, tab_flat_set F hj]

theorem load_Gr_ne {F : Nat → Nat → R} {l' : Loc} (hne : l' ≠ l) {p : Nat} {v : R} (e : (h.buf l')[p]? = some v) :
    load l' p (Gr h l c r F) = .ok (v, Gr h l c r F) := load_ne hne e

theorem Gr_congr {F G : Nat → Nat → R} (e : ∀ i j, i < r → j < c → F i j = G i j) : Gr h l c r F = Gr h l c r G := by
  unfold Gr; rw [flat_congr e]

@[simp] theorem Gr_size (F : Nat → Nat → R) : (Gr h l c r F).size = h.size := rfl
@[simp] theorem Gr_next (F : Nat → Nat → R) : (Gr h l c r F).next = h.next := rfl
theorem Gr_buf_ne (F : Nat → Nat → R) {l' : Loc} (hne : l' ≠ l) : (Gr h l c r F).buf l' = h.buf l' :=
  setBuf_buf_ne _ _ hne
@[simp] theorem Gr_buf (F : Nat → Nat → R) : (Gr h l c r F).buf l = tab (c * r) (flat c F) := by simp [Gr]
@[simp] theorem Gr_Gr (F G : Nat → Nat → R) : Gr (Gr h l c r F) l c r G = Gr h l c r G := by simp [Gr]

/-- Every list of the right length is the contents of some cells. -/
theorem exists_cells (d : List R) (x : R) {c r : Nat} (hd : d.length = c * r) :
    d = tab (c * r) (flat c fun i j => (d[i * c + j]?).getD x) := by
  apply List.ext_getElem?
  intro p
  by_cases hp : p < c * r
  · have hc : 0 < c := by
      rcases Nat.eq_zero_or_pos c with h | h
      · subst h; simp at hp
      · exact h
    rw [tab_get _ _ _ hp]
    simp only [flat]
    rw [Nat.mul_comm (p / c) c, Nat.div_add_mod]
    rw [List.getElem?_eq_getElem (by omega)]; rfl
  · rw [List.getElem?_eq_none (by omega), List.getElem?_eq_none (by simp; omega)]

theorem self_Gr (hd : (h.buf l).length = c * r) :
    h = Gr h l c r (fun i j => ((h.buf l)[i * c + j]?).getD (h.junk 0 0)) := by
  unfold Gr
  rw [← exists_cells (h.buf l) (h.junk 0 0) hd, setBuf_self]
end

/-! ## Loops on an abstract state -/

/-- A loop whose body acts on the state `S K` as `step k` on `K`. -/
theorem forN_step {κ : Type} (S : κ → Heap R) (n : Nat) (body : Nat → M R Unit) (step : Nat → κ → κ) (K : κ)
    (hb : ∀ k K, k < n → body k (S K) = .ok ((), S (step k K))) :
    forN n body (S K) = .ok ((), S ((List.range n).foldl (fun K k => step k K) K)) := by
  refine forN_eq n (fun k => S ((List.range k).foldl (fun K k => step k K) K)) body (S K) rfl ?_
  intro i hi
  rw [hb i _ hi, List.range_succ, List.foldl_append]; rfl

theorem foldN_step {κ : Type} (S : κ → Heap R) (n : Nat) (body : Nat → σ → M R σ) (step : Nat → κ × σ → κ × σ) (K : κ)
    (s : σ) (hb : ∀ k K s, k < n → body k s (S K) = .ok ((step k (K, s)).2, S (step k (K, s)).1)) :
    foldN n s body (S K) = .ok (((List.range n).foldl (fun K k => step k K) (K, s)).2,
      S ((List.range n).foldl (fun K k => step k K) (K, s)).1) := by
  refine foldN_eq n (fun k => ((List.range k).foldl (fun K k => step k K) (K, s)).2)
    (fun k => S ((List.range k).foldl (fun K k => step k K) (K, s)).1) body s (S K) rfl rfl ?_
  intro i hi
  rw [hb i _ _ hi, List.range_succ, List.foldl_append]; rfl

/-- A loop over the columns of row `i` that changes only cell `(i, j)` in step `j`. -/
theorem forN_cols (S : (Nat → Nat → R) → Heap R) (n i : Nat) (body : Nat → M R Unit) (g : Nat → R → R)
    (K : Nat → Nat → R) (hb : ∀ j K, j < n → body j (S K) = .ok ((), S (upd2 K i j (g j (K i j))))) :
    forN n body (S K) = .ok ((), S (fun a b => if a = i ∧ b < n then g b (K a b) else K a b)) := by
  refine forN_eq n (fun k => S (fun a b => if a = i ∧ b < k then g b (K a b) else K a b)) body (S K) (by simp) ?_
  intro j hj
  rw [hb j _ hj]
  congr 3
  funext a b
  simp only [upd2]
  grind

/-- A double loop that changes only cell `(i, j)` in step `(i, j)`. -/
theorem forN_cells (S : (Nat → Nat → R) → Heap R) (m n : Nat) (body : Nat → Nat → M R Unit) (g : Nat → Nat → R → R)
    (K : Nat → Nat → R)
    (hb : ∀ i j K, i < m → j < n → body i j (S K) = .ok ((), S (upd2 K i j (g i j (K i j))))) :
    forN m (fun i => forN n (body i)) (S K) =
      .ok ((), S (fun a b => if a < m ∧ b < n then g a b (K a b) else K a b)) := by
  refine forN_eq m (fun k => S (fun a b => if a < k ∧ b < n then g a b (K a b) else K a b)) _ (S K) (by simp) ?_
  intro i hi
  rw [forN_cols S n i (body i) (g i) _ (fun j K hj => hb i j K hi hj)]
  congr 3
  funext a b
  grind

/-- Same, for a double loop that changes cell `(j, i)` in step `(i, j)`. -/
theorem forN_cellsT (S : (Nat → Nat → R) → Heap R) (m n : Nat) (body : Nat → Nat → M R Unit) (g : Nat → Nat → R → R)
    (K : Nat → Nat → R)
    (hb : ∀ i j K, i < m → j < n → body i j (S K) = .ok ((), S (upd2 K j i (g i j (K j i))))) :
    forN m (fun i => forN n (body i)) (S K) =
      .ok ((), S (fun a b => if a < n ∧ b < m then g b a (K a b) else K a b)) := by
  have := forN_cells (fun K => S (fun a b => K b a)) m n body g (fun a b => K b a) (by
    intro i j K hi hj
    rw [hb i j _ hi hj]
    congr 3
    funext a b
    simp only [upd2]
    grind)
  rw [this]
  congr 3
  funext a b
  grind

end Verif
