import Verif.Model.Sort
import Verif.Lemmas.Base
import Mathlib.Logic.Equiv.Basic

/-! # Correctness of `SortArray` -/

namespace Verif
namespace SortArray
variable {R : Type}

/-! ## Arrays as functions -/

/-- The list of the first `n` values of `f`. -/
def tab (n : Nat) (f : Nat → R) : List R := (List.range n).map f
/-- `f` with one value replaced. -/
def upd (f : Nat → R) (i : Nat) (v : R) : Nat → R := fun j => if j = i then v else f j
/-- The heap in which the array under consideration holds the first `n` values of `f`. -/
def St (h : Heap R) (l : Loc) (n : Nat) (f : Nat → R) : Heap R := h.setBuf l (tab n f)

@[simp] theorem upd_same (f : Nat → R) (i : Nat) (v : R) : upd f i v i = v := by simp [upd]
theorem upd_ne (f : Nat → R) {i j : Nat} (v : R) (h : j ≠ i) : upd f i v j = f j := by simp [upd, h]

theorem tab_get (n : Nat) (f : Nat → R) (i : Nat) (hi : i < n) : (tab n f)[i]? = some (f i) := by
  simp [tab, hi]
@[simp] theorem tab_length (n : Nat) (f : Nat → R) : (tab n f).length = n := by simp [tab]
theorem tab_set (n : Nat) (f : Nat → R) (i : Nat) (v : R) : (tab n f).set i v = tab n (upd f i v) := by
  apply List.ext_getElem?
  intro j
  rw [List.getElem?_set]
  by_cases hj : j < n
  · rw [tab_get _ _ _ hj, tab_get _ _ _ hj]
    by_cases hij : i = j
    · subst hij; simp [hj]
    · simp [hij, upd, Ne.symm hij]
  · rw [List.getElem?_eq_none (by simp; omega), List.getElem?_eq_none (by simp; omega)]
    by_cases hij : i = j
    · subst hij; simp [hj]
    · simp [hij]

theorem tab_of_list (d : List R) (x : R) : d = tab d.length fun i => d[i]?.getD x := by
  apply List.ext_getElem?
  intro j
  by_cases hj : j < d.length
  · rw [tab_get _ _ _ hj]; simp [hj]
  · rw [List.getElem?_eq_none (by omega), List.getElem?_eq_none (by simp; omega)]

section
variable {h : Heap R} {l : Loc} {n : Nat}

theorem load_St {f : Nat → R} {i : Nat} (hi : i < n) : load l i (St h l n f) = .ok (f i, St h l n f) :=
  load_ok (by simp [St, tab_get _ _ _ hi])
theorem store_St {f : Nat → R} {i : Nat} (v : R) (hi : i < n) :
    store l i v (St h l n f) = .ok ((), St h l n (upd f i v)) := by
  rw [store_ok v (by simpa [St] using hi)]
  simp [St, tab_set]
end

/-! ## Rearrangements -/

/-- `g` is a rearrangement of `f` that moves values only inside `[a, b)`. -/
def PermIn (a b : Nat) (f g : Nat → R) : Prop :=
  ∃ σ : Equiv.Perm Nat, (∀ i, ¬ (a ≤ i ∧ i < b) → σ i = i) ∧ ∀ i, g i = f (σ i)

theorem PermIn.refl (a b : Nat) (f : Nat → R) : PermIn a b f f := ⟨Equiv.refl _, fun _ _ => rfl, fun _ => rfl⟩

theorem PermIn.trans {a b : Nat} {f g k : Nat → R} (h1 : PermIn a b f g) (h2 : PermIn a b g k) : PermIn a b f k := by
  obtain ⟨σ, s1, s2⟩ := h1
  obtain ⟨τ, t1, t2⟩ := h2
  refine ⟨τ.trans σ, fun i hi => ?_, fun i => ?_⟩
  · show σ (τ i) = i
    rw [t1 i hi, s1 i hi]
  · rw [t2, s2]; rfl

theorem PermIn.mono {a b a' b' : Nat} {f g : Nat → R} (h : PermIn a b f g) (ha : a' ≤ a) (hb : b ≤ b') :
    PermIn a' b' f g := by
  obtain ⟨σ, s1, s2⟩ := h
  exact ⟨σ, fun i hi => s1 i (by omega), s2⟩

theorem PermIn.outside {a b : Nat} {f g : Nat → R} (h : PermIn a b f g) {i : Nat} (hi : ¬ (a ≤ i ∧ i < b)) :
    g i = f i := by
  obtain ⟨σ, s1, s2⟩ := h
  rw [s2, s1 i hi]

theorem PermIn.from {a b : Nat} {f g : Nat → R} (h : PermIn a b f g) {i : Nat} (hi : a ≤ i ∧ i < b) :
    ∃ j, (a ≤ j ∧ j < b) ∧ g i = f j := by
  obtain ⟨σ, s1, s2⟩ := h
  refine ⟨σ i, ?_, s2 i⟩
  refine Classical.byContradiction fun hn => ?_
  have h1 : σ (σ i) = σ i := s1 _ hn
  have h2 : σ i = i := σ.injective h1
  rw [h2] at hn
  exact hn hi

theorem PermIn.to {a b : Nat} {f g : Nat → R} (h : PermIn a b f g) {i : Nat} (hi : a ≤ i ∧ i < b) :
    ∃ j, (a ≤ j ∧ j < b) ∧ g j = f i := by
  obtain ⟨σ, s1, s2⟩ := h
  refine ⟨σ.symm i, ?_, by rw [s2]; simp⟩
  refine Classical.byContradiction fun hn => ?_
  have h1 : σ (σ.symm i) = σ.symm i := s1 _ hn
  simp at h1
  rw [← h1] at hn
  exact hn hi

theorem PermIn.all {a b : Nat} {f g : Nat → R} (h : PermIn a b f g) (P : R → Prop)
    (hp : ∀ i, a ≤ i → i < b → P (f i)) : ∀ i, a ≤ i → i < b → P (g i) := by
  intro i h1 h2
  obtain ⟨j, hj, e⟩ := h.from ⟨h1, h2⟩
  rw [e]; exact hp j hj.1 hj.2

/-- `f` with the values at `p` and `q` exchanged. -/
def swp (f : Nat → R) (p q : Nat) : Nat → R := upd (upd f p (f q)) q (f p)

theorem swp_apply (f : Nat → R) (p q i : Nat) : swp f p q i = f (Equiv.swap p q i) := by
  unfold swp upd
  by_cases h1 : i = q
  · subst h1; simp
  · by_cases h2 : i = p
    · subst h2; simp [h1]
    · rw [if_neg h1, if_neg h2, Equiv.swap_apply_of_ne_of_ne h2 h1]

theorem permIn_swp {a b : Nat} (f : Nat → R) {p q : Nat} (hp : a ≤ p ∧ p < b) (hq : a ≤ q ∧ q < b) :
    PermIn a b f (swp f p q) := by
  refine ⟨Equiv.swap p q, fun i hi => ?_, fun i => swp_apply f p q i⟩
  exact Equiv.swap_apply_of_ne_of_ne (by rintro rfl; exact hi hp) (by rintro rfl; exact hi hq)

theorem PermIn.perm {n : Nat} {f g : Nat → R} (h : PermIn 0 n f g) : (tab n g).Perm (tab n f) := by
  obtain ⟨σ, s1, s2⟩ := h
  have e : tab n g = ((List.range n).map σ).map f := by
    unfold tab
    rw [List.map_map]
    exact List.map_congr_left fun i _ => s2 i
  rw [e]
  refine List.Perm.map f ?_
  have inv : ∀ i, i < n → σ i < n := fun i hi => by
    refine Classical.byContradiction fun hn => ?_
    have : σ (σ i) = σ i := s1 _ (by omega)
    have : σ i = i := σ.injective this
    omega
  have nd : ((List.range n).map σ).Nodup :=
    List.Pairwise.map σ (fun a b hab => fun e => hab (σ.injective e)) List.nodup_range
  have inv' : ∀ i, i < n → σ.symm i < n := fun i hi => by
    refine Classical.byContradiction fun hn => ?_
    have : σ (σ.symm i) = σ.symm i := s1 _ (by omega)
    simp at this
    omega
  rw [List.perm_ext_iff_of_nodup nd List.nodup_range]
  intro k
  simp only [List.mem_map, List.mem_range]
  constructor
  · rintro ⟨i, hi, rfl⟩; exact inv i hi
  · intro hk; exact ⟨σ.symm k, inv' k hk, by simp⟩

/-! ## Order -/

section
variable [LT R]

/-- `a` may stand before `b`. -/
def le (a b : R) : Prop := ¬ b < a

/-- `<` is a strict weak order (true of floating point numbers without NaN). -/
structure SWO (R : Type) [LT R] : Prop where
  asymm : ∀ a b : R, a < b → ¬ b < a
  trans : ∀ a b c : R, ¬ b < a → ¬ c < b → ¬ c < a

theorem SWO.refl (o : SWO R) (a : R) : le a a := fun h => o.asymm _ _ h h
theorem SWO.le_trans (o : SWO R) {a b c : R} (h1 : le a b) (h2 : le b c) : le a c := o.trans _ _ _ h1 h2
theorem SWO.le_of_lt (o : SWO R) {a b : R} (h : a < b) : le a b := o.asymm _ _ h
theorem SWO.lt_of_lt_of_le (o : SWO R) {a b c : R} (h1 : a < b) (h2 : le b c) : a < c :=
  Classical.byContradiction fun h => o.trans b c a h2 h h1

/-- `f` is sorted on `[a, b)`. -/
def SortedOn (a b : Nat) (f : Nat → R) : Prop := ∀ i j, a ≤ i → i < j → j < b → le (f i) (f j)
end


/-! ## Insertion -/

/-- `r` with the values of `[p, last)` moved one place up and `v` put at `p`. -/
def rot (r : Nat → R) (p last : Nat) (v : R) : Nat → R := fun i =>
  if i < p then r i else if i = p then v else if i ≤ last then r (i - 1) else r i

theorem rot_last (r : Nat → R) (last : Nat) (v : R) : rot r last last v = upd r last v := by
  funext i
  grind [rot, upd]

theorem rot_upd (r : Nat → R) (p next : Nat) (v : R) (hp : p ≤ next) :
    rot (upd r (next + 1) (r next)) p next v = rot r p (next + 1) v := by
  funext i
  grind [rot, upd]

theorem permIn_rot (r : Nat → R) (first last : Nat) (v : R) : ∀ k p, p + k = last → first ≤ p →
    PermIn first (last + 1) (upd r last v) (rot r p last v) := by
  intro k
  induction k with
  | zero =>
    intro p hp _
    have : p = last := by omega
    subst this
    rw [rot_last]
    exact PermIn.refl _ _ _
  | succ k ih =>
    intro p hp hf
    have := ih (p + 1) (by omega) (by omega)
    refine this.trans ?_
    have e : rot r p last v = swp (rot r (p + 1) last v) p (p + 1) := by
      clear ih this
      funext i
      unfold swp upd
      grind [rot]
    rw [e]
    exact permIn_swp _ (by omega) (by omega)

section
variable [LT R]

theorem sorted_rot (o : SWO R) {r : Nat → R} {first p last : Nat} {v : R} (hs : SortedOn first last r)
    (hf : first ≤ p) (hp : p ≤ last) (hlo : ∀ i, first ≤ i → i < p → le (r i) v) (hhi : ∀ i, p ≤ i → i < last → v < r i) :
    SortedOn first (last + 1) (rot r p last v) := by
  intro i j h1 h2 h3
  have a1 := hs i j
  have a2 := hs i (j - 1)
  have a3 := hs (i - 1) (j - 1)
  have a4 := hlo i
  have a5 : i = p → le v (r (j - 1)) := fun hi => o.le_of_lt (hhi (j - 1) (by omega) (by omega))
  clear hs hlo hhi o
  grind [rot]

variable [DecidableLT R] {h : Heap R} {l : Loc} {n : Nat}

theorem unguarded_linear_insert_run (v : R) : ∀ (last : Nat) (r : Nat → R) (s : Nat), s < last → last < n → le (r s) v →
    ∃ p, s < p ∧ p ≤ last ∧ unguarded_linear_insert l v last (St h l n r) = .ok ((), St h l n (rot r p last v)) ∧
      (∀ i, p ≤ i → i < last → v < r i) ∧ le (r (p - 1)) v := by
  intro last
  induction last with
  | zero => intro r s hs; omega
  | succ next ih =>
    intro r s hs hn hle
    unfold unguarded_linear_insert
    rw [bind_ok (load_St (by omega))]
    by_cases hv : v < r next
    · rw [if_pos hv, bind_ok (store_St _ hn)]
      have hsn : s ≠ next := by rintro rfl; exact hle hv
      obtain ⟨p, p1, p2, p3, p4, p5⟩ := ih (upd r (next + 1) (r next)) s (by omega) (by omega)
        (by rw [upd_ne _ _ (by omega)]; exact hle)
      refine ⟨p, p1, by omega, ?_, ?_, ?_⟩
      · rw [p3, rot_upd _ _ _ _ p2]
      · intro i h1 h2
        by_cases hi : i = next
        · rw [hi]; exact hv
        · have := p4 i h1 (by omega)
          rwa [upd_ne _ _ (by omega)] at this
      · rwa [upd_ne _ _ (by omega)] at p5
    · rw [if_neg hv, store_St _ hn]
      refine ⟨next + 1, by omega, by omega, by rw [rot_last], by intro i h1 h2; omega, by simpa using show le (r next) v from hv⟩

/-- Inserting the value at `last` into the sorted part `[first, last)`, given a value not greater than it there. -/
theorem insert_sorted (o : SWO R) {r : Nat → R} {first last s : Nat} (hs : SortedOn first last r) (h1 : first ≤ s)
    (h2 : s < last) (hn : last < n) (hle : le (r s) (r last)) :
    ∃ g, unguarded_linear_insert l (r last) last (St h l n r) = .ok ((), St h l n g) ∧ PermIn first (last + 1) r g ∧
      SortedOn first (last + 1) g ∧ ∀ i, i ≤ s → g i = r i := by
  obtain ⟨p, p1, p2, p3, p4, p5⟩ := unguarded_linear_insert_run (h := h) (l := l) (n := n) (r last) last r s h2 hn hle
  refine ⟨_, p3, ?_, ?_, ?_⟩
  · have := permIn_rot r first last (r last) (last - p) p (by omega) (by omega)
    have e : upd r last (r last) = r := by
      funext i; unfold upd; split
      · next h => rw [h]
      · rfl
    rwa [e] at this
  · refine sorted_rot o hs (by omega) p2 ?_ p4
    intro i h1 h2
    by_cases hi : i = p - 1
    · rw [hi]; exact p5
    · exact o.le_trans (hs i (p - 1) h1 (by omega) (by omega)) p5
  · intro i hi
    unfold rot
    rw [if_pos (by omega)]

theorem linear_insert_run (o : SWO R) {r : Nat → R} {first last : Nat} (hs : SortedOn first last r) (h2 : first < last)
    (hn : last < n) :
    ∃ g, linear_insert l first last (St h l n r) = .ok ((), St h l n g) ∧ PermIn first (last + 1) r g ∧
      SortedOn first (last + 1) g := by
  unfold linear_insert
  rw [bind_ok (load_St hn), bind_ok (load_St (by omega))]
  by_cases hv : r last < r first
  · rw [if_pos hv]
    have lp := forN_eq (last - first)
      (fun k => St h l n fun i => if last - k < i ∧ i ≤ last then r (i - 1) else r i)
      (fun k => do
        let x ← load l (last - k - 1)
        store l (last - k) x) (St h l n r) (by
          congr 1; funext i; rw [if_neg (by omega)]) (by
          intro k hk
          rw [bind_ok (load_St (by omega)), store_St _ (by omega)]
          congr 2
          unfold St
          congr 2
          funext i
          grind [upd])
    rw [bind_ok lp, store_St _ (by omega)]
    have e : upd (fun i => if last - (last - first) < i ∧ i ≤ last then r (i - 1) else r i) first (r last) =
        rot r first last (r last) := by
      funext i
      grind [upd, rot]
    rw [e]
    refine ⟨_, rfl, ?_, ?_⟩
    · have := permIn_rot r first last (r last) (last - first) first (by omega) (by omega)
      have e : upd r last (r last) = r := by
        funext i; unfold upd; split
        · next h => rw [h]
        · rfl
      rwa [e] at this
    · refine sorted_rot o hs (Nat.le_refl _) (by omega) (by intro i _ _; omega) ?_
      intro i c1 c2
      by_cases hi : i = first
      · rw [hi]; exact hv
      · exact o.lt_of_lt_of_le hv (hs first i (Nat.le_refl _) (by omega) c2)
  · rw [if_neg hv]
    obtain ⟨g, g1, g2, g3, _⟩ := insert_sorted (h := h) (l := l) o hs (Nat.le_refl first) h2 hn hv
    exact ⟨g, g1, g2, g3⟩

theorem insertion_sort_run (o : SWO R) {f : Nat → R} {first last : Nat} (h2 : first ≤ last) (hn : last ≤ n) :
    ∃ g, insertion_sort l first last (St h l n f) = .ok ((), St h l n g) ∧ PermIn first last f g ∧
      SortedOn first last g := by
  unfold insertion_sort
  by_cases e : first = last
  · rw [if_pos e]
    exact ⟨f, rfl, PermIn.refl _ _ _, by intro i j; omega⟩
  · rw [if_neg e]
    have := Runs.loop (fun i _ h' => ∃ g, h' = St h l n g ∧ PermIn first i f g ∧ SortedOn first i g)
      (fun i (_ : Unit) => linear_insert l first i) (last - (first + 1)) (first + 1) () (St h l n f)
      ⟨f, rfl, PermIn.refl _ _ _, by intro i j; omega⟩ (by
        rintro i _ _ c1 c2 ⟨g, rfl, g1, g2⟩
        obtain ⟨g', e1, e2, e3⟩ := linear_insert_run (h := h) (l := l) (n := n) o g2 (by omega) (by omega)
        exact Runs.of_eq e1 ⟨g', rfl, (g1.mono (Nat.le_refl _) (by omega)).trans e2, e3⟩)
    rw [runs_iff] at this
    obtain ⟨_, _, e1, g, rfl, g1, g2⟩ := this
    have el : first + 1 + (last - (first + 1)) = last := by omega
    rw [el] at g1 g2
    exact ⟨g, e1, g1, g2⟩

theorem final_insertion_sort_run (o : SWO R) {f : Nat → R} {k : Nat} (hk : k < 16) (hkn : k < n)
    (hmin : ∀ j, j < n → le (f k) (f j)) :
    ∃ g, final_insertion_sort l 0 n (St h l n f) = .ok ((), St h l n g) ∧ PermIn 0 n f g ∧ SortedOn 0 n g := by
  unfold final_insertion_sort
  by_cases hn : n - 0 > 16
  · rw [if_pos hn]
    obtain ⟨g, e, g1, g2⟩ := insertion_sort_run (h := h) (l := l) (f := f) o (Nat.zero_le (0 + 16)) (n := n) (by omega)
    rw [bind_ok e]
    have m0 : ∀ j, j < n → le (g 0) (g j) := by
      obtain ⟨q, hq, eq⟩ := g1.to (i := k) (by omega)
      have a1 : le (g 0) (f k) := by
        rw [← eq]
        by_cases hq0 : q = 0
        · rw [hq0]; exact o.refl _
        · exact g2 0 q (Nat.le_refl _) (by omega) (by omega)
      intro j hj
      refine o.le_trans a1 ?_
      exact (g1.mono (Nat.le_refl 0) (show 0 + 16 ≤ n by omega)).all (fun x => le (f k) x) (fun i _ hi => hmin i hi) j
        (Nat.zero_le _) hj
    unfold unguarded_insertion_sort
    have := Runs.loop (fun i _ h' => ∃ g', h' = St h l n g' ∧ PermIn 0 n f g' ∧ SortedOn 0 i g' ∧
        ∀ j, j < n → le (g' 0) (g' j))
      (fun i (_ : Unit) => do
        let v ← load l i
        unguarded_linear_insert l v i) (n - (0 + 16)) (0 + 16) () (St h l n g)
      ⟨g, rfl, g1.mono (Nat.le_refl 0) (by omega), g2, m0⟩ (by
        rintro i _ _ c1 c2 ⟨g', rfl, b1, b2, b3⟩
        obtain ⟨g'', e1, e2, e3, e4⟩ := insert_sorted (h := h) (l := l) (n := n) (first := 0) (last := i) (s := 0) o b2
          (Nat.le_refl 0) (by omega) (by omega) (b3 i (by omega))
        have e2' : PermIn 0 n g' g'' := e2.mono (Nat.le_refl 0) (by omega)
        refine Runs.of_eq (by rw [bind_ok (load_St (by omega))]; exact e1) ⟨g'', rfl, b1.trans e2', e3, ?_⟩
        rw [e4 0 (Nat.le_refl 0)]
        intro j hj
        exact e2'.all (fun x => le (g' 0) x) (fun i _ hi => b3 i hi) j (Nat.zero_le _) hj)
    rw [runs_iff] at this
    obtain ⟨_, _, e1, g', rfl, b1, b2, _⟩ := this
    have el : 0 + 16 + (n - (0 + 16)) = n := by omega
    rw [el] at b2
    exact ⟨g', e1, b1, b2⟩
  · rw [if_neg hn]
    exact insertion_sort_run o (Nat.zero_le _) (Nat.le_refl _)

end

end SortArray
end Verif
