import Verif.Lemmas.Reduce
import Verif.Lemmas.Example
import Verif.Spec.Elementwise
import Verif.Real
import Mathlib.Tactic.Ring

/-!
# C13, C14, C16: extrema, cross product, approximate equality
-/

namespace Verif
open Spec
variable {R : Type}

/-! ## C13 -/

theorem maxIdx_fold [LinearOrder R] (b : R) (l : List R) (hb : ∀ x ∈ l, b < x) :
    (l = [] ∧ l.foldl (fun m x => if m < x then x else m) b = b ∧
      l.zipIdx.foldl (fun p x => if p.1 < x.1 then (x.1, (x.2 : Int)) else p) (b, (-1 : Int)) = (b, -1)) ∨
    ∃ (k : Nat) (m : R), l.foldl (fun m x => if m < x then x else m) b = m ∧
      l.zipIdx.foldl (fun p x => if p.1 < x.1 then (x.1, (x.2 : Int)) else p) (b, (-1 : Int)) = (m, (k : Int)) ∧
      l[k]? = some m ∧ (∀ x ∈ l, x ≤ m) ∧ ∀ j x, j < k → l[j]? = some x → x < m := by
  induction l using List.reverseRecOn with
  | nil => exact .inl ⟨rfl, rfl, rfl⟩
  | append_singleton l a ih =>
    right
    have ha : b < a := hb a (by simp)
    rw [List.foldl_append, List.zipIdx_append, List.foldl_append]
    rcases ih fun x hx => hb x (by simp [hx]) with ⟨rfl, e1, e2⟩ | ⟨k, m, e1, e2, e3, e4, e5⟩
    · refine ⟨0, a, ?_, ?_, rfl, by simp, by intro j x hj; omega⟩
      · simp [ha]
      · simp [ha]
    · rw [e1, e2]
      have hk : k < l.length := by
        rw [List.getElem?_eq_some_iff] at e3; exact e3.1
      simp only [List.foldl_cons, List.foldl_nil, List.zipIdx_singleton]
      by_cases hm : m < a
      · refine ⟨l.length, a, by rw [if_pos hm], by rw [if_pos hm]; simp, by simp, ?_, ?_⟩
        · intro x hx
          rcases List.mem_append.mp hx with hx | hx
          · exact (e4 x hx).trans hm.le
          · simp at hx; exact hx.le
        · intro j x hj hx
          rw [List.getElem?_append_left hj] at hx
          exact (e4 x (List.mem_of_getElem? hx)).trans_lt hm
      · refine ⟨k, m, by rw [if_neg hm], by rw [if_neg hm], by rw [List.getElem?_append_left hk]; exact e3, ?_, ?_⟩
        · intro x hx
          rcases List.mem_append.mp hx with hx | hx
          · exact e4 x hx
          · simp at hx; rw [hx]; exact not_lt.mp hm
        · intro j x hj hx
          rw [List.getElem?_append_left (by omega)] at hx
          exact e5 j x hj hx

theorem minIdx_fold [LinearOrder R] (b : R) (l : List R) (hb : ∀ x ∈ l, x < b) :
    (l = [] ∧ l.foldl (fun m x => if x < m then x else m) b = b ∧
      l.zipIdx.foldl (fun p x => if x.1 < p.1 then (x.1, (x.2 : Int)) else p) (b, (-1 : Int)) = (b, -1)) ∨
    ∃ (k : Nat) (m : R), l.foldl (fun m x => if x < m then x else m) b = m ∧
      l.zipIdx.foldl (fun p x => if x.1 < p.1 then (x.1, (x.2 : Int)) else p) (b, (-1 : Int)) = (m, (k : Int)) ∧
      l[k]? = some m ∧ (∀ x ∈ l, m ≤ x) ∧ ∀ j x, j < k → l[j]? = some x → m < x :=
  maxIdx_fold (R := Rᵒᵈ) b l hb

/-- `m` is the largest element of `l` and `k` the first position that holds it. -/
def IsMaxAt [LE R] [LT R] (l : List R) (m : R) (k : Int) : Prop :=
  ∃ n : Nat, k = n ∧ l[n]? = some m ∧ (∀ x ∈ l, x ≤ m) ∧ ∀ j x, j < n → l[j]? = some x → x < m
/-- `m` is the smallest element of `l` and `k` the first position that holds it. -/
def IsMinAt [LE R] [LT R] (l : List R) (m : R) (k : Int) : Prop :=
  ∃ n : Nat, k = n ∧ l[n]? = some m ∧ (∀ x ∈ l, m ≤ x) ∧ ∀ j x, j < n → l[j]? = some x → m < x

/-- **C13.** On a non-empty vector whose elements are all strictly between `-Math_INF` and `Math_INF`, `max_element` and
`max_element_index` (`min_element`, `min_element_index`) give the extreme element and the first index holding it. -/
theorem C13_extrema [LinearOrder R] [Neg R] [HasInf R] (h : Heap R) (w : h.WF) (this : Nat)
    (hne : h.buf (.v this) ≠ []) (hlo : ∀ x ∈ h.buf (.v this), -(HasInf.inf : R) < x)
    (hhi : ∀ x ∈ h.buf (.v this), x < (HasInf.inf : R)) :
    Runs (do
      let m ← Vec.max_element this
      let i ← Vec.max_element_index this
      let n ← Vec.min_element this
      let j ← Vec.min_element_index this
      pure ((m, i), (n, j))) h fun r h' => h' = h ∧
        IsMaxAt (h.buf (.v this)) r.1.1 r.1.2 ∧ IsMinAt (h.buf (.v this)) r.2.1 r.2.2 := by
  refine Runs.of_eq (a := ((_, _), (_, _))) (by rw [bind_ok (Vec.max_element_run w this),
    bind_ok (Vec.max_element_index_run w this), bind_ok (Vec.min_element_run w this),
    bind_ok (Vec.min_element_index_run w this)]; rfl) ⟨rfl, ?_, ?_⟩
  · rcases maxIdx_fold _ _ hlo with ⟨h0, _⟩ | ⟨k, m, e1, e2, e3⟩
    · exact absurd h0 hne
    · exact ⟨k, by rw [e2], by rw [e1]; exact e3⟩
  · rcases minIdx_fold _ _ hhi with ⟨h0, _⟩ | ⟨k, m, e1, e2, e3⟩
    · exact absurd h0 hne
    · exact ⟨k, by rw [e2], by rw [e1]; exact e3⟩

/-- **C13**, the empty vector: both indices are -1. -/
theorem C13_empty [LT R] [DecidableLT R] [Neg R] [HasInf R] (h : Heap R) (w : h.WF) (this : Nat)
    (he : h.buf (.v this) = []) :
    Vec.max_element_index this h = .ok (-1, h) ∧ Vec.min_element_index this h = .ok (-1, h) := by
  rw [Vec.max_element_index_run w this, Vec.min_element_index_run w this, he]
  exact ⟨rfl, rfl⟩

/-- **C13**, why finiteness is needed: if every element is `-Math_INF` (e.g. after `fill(-INF)`),
`max_element_index` is -1 although the vector is not empty. -/
theorem C13_all_neg_inf_fails [LinearOrder R] [Neg R] [HasInf R] (h : Heap R) (w : h.WF) (this n : Nat)
    (hb : h.buf (.v this) = List.replicate n (-(HasInf.inf : R))) :
    Vec.max_element_index this h = .ok (-1, h) := by
  rw [Vec.max_element_index_run w this, hb]
  clear hb
  have : ∀ k s, ((List.replicate n (-(HasInf.inf : R))).zipIdx s).foldl
      (fun p x => if p.1 < x.1 then (x.1, (x.2 : Int)) else p) (-(HasInf.inf : R), k) = (-(HasInf.inf : R), k) := by
    induction n with
    | zero => intro k s; rfl
    | succ n ih => intro k s; rw [List.replicate_succ, List.zipIdx_cons, List.foldl_cons]; simp only [lt_self_iff_false, if_false]; exact ih _ _
  rw [this (-1) 0]

/-- A case with a repeated maximum. -/
example : IsMaxAt [3, 7, 7, (1 : Int)] 7 1 ∧ IsMinAt [3, 7, 7, (1 : Int)] 1 3 := by
  refine ⟨⟨1, rfl, rfl, by decide, ?_⟩, ⟨3, rfl, rfl, by decide, ?_⟩⟩
  · intro j x hj hx
    have : j = 0 := by omega
    subst this; simp at hx; omega
  · intro j x hj hx
    have : j = 0 ∨ j = 1 ∨ j = 2 := by omega
    rcases this with rfl | rfl | rfl <;> simp at hx <;> omega

/-! ## C14 -/

theorem Vec.element_get_val [Zero R] {h : Heap R} (w : h.WF) (i k : Nat) (p : Int) (v : R) (hp : p = k)
    (hk : (h.buf (.v i))[k]? = some v) : Vec.element_get i p h = .ok (v, h) := by
  subst hp
  obtain ⟨hl, e⟩ := List.getElem?_eq_some_iff.mp hk
  rw [Vec.element_get_ok w i k hl]
  simp only [Heap.vec, e]

theorem Vec.element_set_raw (h : Heap R) (i k n : Nat) (p : Int) (v : R) (hp : p = k)
    (hs : h.size (.v i) = ⟨n, 1, 1⟩) (hl : (h.buf (.v i)).length = n) (hk : k < n) :
    Vec.element_set i p v h = .ok ((), h.setBuf (.v i) ((h.buf (.v i)).set k v)) := by
  subst hp
  unfold Vec.element_set Vec.size
  rw [bind_ok (bind_ok (getSize_run _ _)), hs]
  have : idxOk (k : Int) n = true := by simp [idxOk]; omega
  rw [if_pos this, Int.toNat_natCast, store_ok _ (by omega)]

theorem Vec.cross_run [Zero R] [Sub R] [Mul R] [Neg R] (h : Heap R) (w : h.WF) (a b : Nat)
    (a0 a1 a2 b0 b1 b2 : R) (ea : h.buf (.v a) = [a0, a1, a2]) (eb : h.buf (.v b) = [b0, b1, b2]) :
    ∃ h', Vec.cross a (some b) h = .ok (some (.v h.next), h') ∧
      Created h h' (.v h.next) ⟨3, 1, 1⟩
        [a1 * b2 - a2 * b1, -(a0 * b2 - a2 * b0), a0 * b1 - a1 * b0] := by
  have key := newFill_run (.v 0) ⟨3, 1, 1⟩ (fun o => do
    Vec.element_set o.id 0 (a1 * b2 - a2 * b1)
    Vec.element_set o.id 1 (-(a0 * b2 - a2 * b0))
    Vec.element_set o.id 2 (a0 * b1 - a1 * b0)) h
    [a1 * b2 - a2 * b1, -(a0 * b2 - a2 * b0), a0 * b1 - a1 * b0] (by
      intro h1 _ _ hl hs
      dsimp only [Loc.like, Loc.id] at hl hs ⊢
      have hl3 : (h1.buf (.v h.next)).length = 3 := hl
      rw [bind_ok (Vec.element_set_raw h1 h.next 0 3 0 _ rfl hs hl (by omega)),
        bind_ok (Vec.element_set_raw _ h.next 1 3 1 _ rfl (by simpa using hs) (by simpa using hl3) (by omega)),
        Vec.element_set_raw _ h.next 2 3 2 _ rfl (by simpa using hs) (by simpa using hl3) (by omega)]
      simp only [setBuf_buf_same, setBuf_setBuf]
      match h1.buf (.v h.next), hl3 with
      | [x, y, z], _ => rfl)
  obtain ⟨h', e, c⟩ := key
  refine ⟨h', ?_, c⟩
  refine Eq.trans ?_ e
  show (do
    let a1 ← Vec.element_get a 1
    let b2 ← Vec.element_get b 2
    let a2 ← Vec.element_get a 2
    let b1 ← Vec.element_get b 1
    let a0 ← Vec.element_get a 0
    let b0 ← Vec.element_get b 0
    let ret ← newVec
    Vec.resize ret.id 3
    Vec.element_set ret.id 0 (a1 * b2 - a2 * b1)
    Vec.element_set ret.id 1 (-(a0 * b2 - a2 * b0))
    Vec.element_set ret.id 2 (a0 * b1 - a1 * b0)
    pure (some ret) : M R Ref) h = _
  rw [bind_ok (Vec.element_get_val w a 1 1 a1 rfl (by rw [ea]; rfl)), bind_ok (Vec.element_get_val w b 2 2 b2 rfl (by rw [eb]; rfl)),
    bind_ok (Vec.element_get_val w a 2 2 a2 rfl (by rw [ea]; rfl)), bind_ok (Vec.element_get_val w b 1 1 b1 rfl (by rw [eb]; rfl)),
    bind_ok (Vec.element_get_val w a 0 0 a0 rfl (by rw [ea]; rfl)), bind_ok (Vec.element_get_val w b 0 0 b0 rfl (by rw [eb]; rfl))]
  simp only [bind_assoc]
  rfl

/-- **C14.** The cross product of two vectors of three elements is a new vector orthogonal to both, given by the usual
formula, changes sign when the operands are exchanged, and satisfies Lagrange's identity. -/
theorem C14_cross [CommRing R] (h : Heap R) (w : h.WF) (a b : Nat) (la : h.live (.v a)) (lb : h.live (.v b))
    (a0 a1 a2 b0 b1 b2 : R) (ea : h.buf (.v a) = [a0, a1, a2]) (eb : h.buf (.v b) = [b0, b1, b2]) :
    Runs (do
      let c ← Vec.cross a (some b)
      let d ← Vec.cross b (some a)
      pure (c, d)) h fun r h' => ∃ o o' c0 c1 c2, r = (some (.v o), some (.v o')) ∧ o ≠ o' ∧
        ¬ h.live (.v o) ∧ ¬ h.live (.v o') ∧ (∀ l, h.live l → h'.buf l = h.buf l ∧ h'.size l = h.size l) ∧
        h'.buf (.v o) = [c0, c1, c2] ∧ h'.buf (.v o') = [-c0, -c1, -c2] ∧
        c0 = a1 * b2 - a2 * b1 ∧ c1 = a2 * b0 - a0 * b2 ∧ c2 = a0 * b1 - a1 * b0 ∧
        a0 * c0 + a1 * c1 + a2 * c2 = 0 ∧ b0 * c0 + b1 * c1 + b2 * c2 = 0 ∧
        c0 ^ 2 + c1 ^ 2 + c2 ^ 2 = (a0 ^ 2 + a1 ^ 2 + a2 ^ 2) * (b0 ^ 2 + b1 ^ 2 + b2 ^ 2) -
          (a0 * b0 + a1 * b1 + a2 * b2) ^ 2 := by
  obtain ⟨h1, e1, c1⟩ := Vec.cross_run h w a b a0 a1 a2 b0 b1 b2 ea eb
  have w1 := c1.wf w rfl (fun _ _ => ⟨rfl, rfl⟩) nofun
  have fr : ∀ l, h.live l → l ≠ .v h.next := fun l hl => live_ne_fresh hl rfl
  obtain ⟨h2, e2, c2⟩ := Vec.cross_run h1 w1 b a b0 b1 b2 a0 a1 a2 (by rw [c1.bufFrame _ (fr _ lb), eb])
    (by rw [c1.bufFrame _ (fr _ la), ea])
  have nn : h1.next = h.next + 1 := c1.next
  refine Runs.of_eq (a := (_, _)) (by rw [bind_ok e1, bind_ok e2]; rfl)
    ⟨h.next, h1.next, _, _, _, rfl, by omega, ?_, ?_, ?_, ?_, ?_, rfl, rfl, rfl, by ring, by ring, by ring⟩
  · simp [Heap.live, Loc.id]
  · simp [Heap.live, Loc.id]; omega
  · intro l hl
    have n2 : l ≠ .v h1.next := by
      intro e; subst e; simp [Heap.live, Loc.id] at hl; omega
    exact ⟨by rw [c2.bufFrame l n2, c1.bufFrame l (fr l hl)], by rw [c2.sizeFrame l n2, c1.sizeFrame l (fr l hl)]⟩
  · rw [c2.bufFrame _ (by simp; omega), c1.buf]
    simp only [List.cons.injEq, and_true, true_and]; ring
  · rw [c2.buf]
    simp only [List.cons.injEq, and_true]
    refine ⟨?_, ?_, ?_⟩ <;> ring

example : (Vec.cross 0 (some 1) (Heap.ofLists (0 : Int) [[1, 2, 3], [4, 5, 6]] [])).bufOf (.v 2) =
    some [-3, 6, -3] := by decide +kernel

/-! ## C16 -/

theorem Vec.eqLoop_run [BEq R] [LT R] [DecidableLT R] [Sub R] [Neg R] [Zero R] (a b : Loc) (tol : R) (h : Heap R)
    (hab : (h.buf a).length = (h.buf b).length) : ∀ (c i : Nat), i + c = (h.buf a).length →
    ∃ r, Vec.eqLoop a b tol c i h = .ok (r, h) ∧
      (r = true ↔ ∀ k x y, i ≤ k → (h.buf a)[k]? = some x → (h.buf b)[k]? = some y → isEqualApproxS x y tol = true) := by
  intro c
  induction c with
  | zero =>
    intro i hi
    refine ⟨true, rfl, by simp only [true_iff]; intro k x y hk hx; exfalso
                          have := (List.getElem?_eq_some_iff.mp hx).1; omega⟩
  | succ c ih =>
    intro i hi
    have ha : i < (h.buf a).length := by omega
    have hb : i < (h.buf b).length := by omega
    simp only [Vec.eqLoop]
    rw [bind_ok (load_ok' ha), bind_ok (load_ok' hb)]
    by_cases e : isEqualApproxS (h.buf a)[i] (h.buf b)[i] tol = true
    · rw [if_pos e]
      obtain ⟨r, e1, e2⟩ := ih (i + 1) (by omega)
      refine ⟨r, e1, e2.trans ⟨fun H k x y hk hx hy => ?_, fun H k x y hk => H k x y (by omega)⟩⟩
      by_cases hki : k = i
      · subst hki
        rw [List.getElem?_eq_getElem ha] at hx
        rw [List.getElem?_eq_getElem hb] at hy
        simp only [Option.some.injEq] at hx hy
        rw [← hx, ← hy]; exact e
      · exact H k x y (by omega) hx hy
    · rw [if_neg e]
      refine ⟨false, rfl, ?_⟩
      simp only [Bool.false_eq_true, false_iff]
      intro H
      exact e (H i _ _ (Nat.le_refl _) (List.getElem?_eq_getElem ha) (List.getElem?_eq_getElem hb))

/-- Element-wise closeness of two lists of the same length. -/
def CloseLists (a b : List ℝ) (tol : ℝ) : Prop :=
  ∀ (k : Nat) (x y : ℝ), a[k]? = some x → b[k]? = some y → x = y ∨ |x - y| < tol

/-- **C16.** `is_equal_approx` changes nothing; it is true exactly if the other operand is the same object, or has the
same extents and every element is equal or differs by less than the tolerance. (Vectors, matrices and tensors.) -/
theorem C16_is_equal_approx (h : Heap ℝ) (w : h.WF) (x y : Loc) (tol : ℝ) :
    ∃ r, Vec.is_equal_approx x (some y) tol h = .ok (r, h) ∧
      (r = true ↔ x = y ∨ (h.size x = h.size y ∧ CloseLists (h.buf x) (h.buf y) tol)) := by
  simp only [Vec.is_equal_approx]
  by_cases e : x = y
  · subst e
    rw [if_pos rfl]
    exact ⟨true, rfl, by simp⟩
  rw [if_neg e, bind_ok (getSize_run _ _), bind_ok (getSize_run _ _)]
  by_cases s : h.size x = h.size y
  · rw [if_pos s]
    have hl : (h.buf x).length = (h.buf y).length := by rw [w.len, w.len, s]
    obtain ⟨r, e1, e2⟩ := Vec.eqLoop_run x y tol h hl (h.size x).count 0 (by rw [w.len]; omega)
    refine ⟨r, e1, e2.trans ?_⟩
    simp only [e, s, true_and, false_or, CloseLists, isEqualApproxS_iff, Nat.zero_le, true_implies]
  · rw [if_neg s]
    exact ⟨false, rfl, by simp [e, s]⟩

/-- **C16**: reflexive for every tolerance, symmetric, false on null. -/
theorem C16_reflexive_symmetric (h : Heap ℝ) (w : h.WF) (x y : Loc) (tol : ℝ) :
    Vec.is_equal_approx x (some x) tol h = .ok (true, h) ∧
    Vec.is_equal_approx x (some y) tol h = Vec.is_equal_approx y (some x) tol h ∧
    Vec.is_equal_approx x none tol h = .ok (false, h) := by
  refine ⟨?_, ?_, rfl⟩
  · obtain ⟨r, e, hr⟩ := C16_is_equal_approx h w x x tol
    rw [e, hr.mpr (.inl rfl)]
  · obtain ⟨r, e, hr⟩ := C16_is_equal_approx h w x y tol
    obtain ⟨r', e', hr'⟩ := C16_is_equal_approx h w y x tol
    rw [e, e']
    have : r = r' := by
      rw [Bool.eq_iff_iff, hr, hr']
      have cl : ∀ a b : List ℝ, CloseLists a b tol → CloseLists b a tol := fun a b c k u v hu hv => by
        rcases c k v u hv hu with e | e
        · exact .inl e.symm
        · exact .inr (by rwa [abs_sub_comm])
      constructor
      · rintro (e | ⟨e, c⟩)
        · exact .inl e.symm
        · exact .inr ⟨e.symm, cl _ _ c⟩
      · rintro (e | ⟨e, c⟩)
        · exact .inl e.symm
        · exact .inr ⟨e.symm, cl _ _ c⟩
    rw [this]

example : (Heap.ofLists (0 : ℝ) [[1, 2], [1, 2.5]] []).WF ∧ CloseLists [1, 2] [1, 2.5] 1 ∧ ¬ CloseLists [1, 2] [1, 2.5] 0.5 := by
  refine ⟨Heap.ofLists_wf _ _ _ (by simp), ?_, ?_⟩
  · intro k x y hx hy
    match k with
    | 0 => simp at hx hy; left; rw [← hx, ← hy]
    | 1 => simp at hx hy; right; rw [← hx, ← hy, abs_lt]; constructor <;> norm_num
    | k + 2 => simp at hx
  · intro c
    rcases c 1 2 2.5 rfl rfl with e | e
    · norm_num at e
    · rw [abs_lt] at e; norm_num at e

end Verif
