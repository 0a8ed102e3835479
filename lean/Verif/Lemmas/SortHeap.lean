import Verif.Lemmas.Sort

/-! # Heapsort part of `SortArray` -/

namespace Verif
namespace SortArray
variable {R : Type} [LT R]

/-- `i` is `t` or below it in the binary tree. -/
inductive Desc (t : Nat) : Nat → Prop
  | refl : Desc t t
  | left {i : Nat} : Desc t i → Desc t (2 * i + 1)
  | right {i : Nat} : Desc t i → Desc t (2 * i + 2)

theorem Desc.le {t i : Nat} (d : Desc t i) : t ≤ i := by
  induction d <;> omega

theorem Desc.parent {t i : Nat} (d : Desc t i) (h : t < i) : Desc t ((i - 1) / 2) := by
  cases d with
  | refl => omega
  | left d => rename_i j; rw [show (2 * j + 1 - 1) / 2 = j by omega]; exact d
  | right d => rename_i j; rw [show (2 * j + 2 - 1) / 2 = j by omega]; exact d

/-- The heap relation holds below every node from `t` on, among the first `len` cells from `first`. -/
def HeapFrom (first t len : Nat) (f : Nat → R) : Prop :=
  ∀ i, 0 < i → i < len → t ≤ (i - 1) / 2 → le (f (first + i)) (f (first + (i - 1) / 2))

variable [DecidableLT R] {h : Heap R} {l : Loc} {n : Nat}

theorem push_heap_run (o : SWO R) {first top len : Nat} (hn : first + len ≤ n) (v : R) :
    ∀ (fuel hole : Nat) (r V : Nat → R), V = upd r (first + hole) v → hole < fuel → hole < len → Desc top hole →
    (∀ i, 0 < i → i < len → top ≤ (i - 1) / 2 → i ≠ hole → le (V (first + i)) (V (first + (i - 1) / 2))) →
    (top < hole → ∀ c, 0 < c → c < len → (c - 1) / 2 = hole → le (V (first + c)) (V (first + (hole - 1) / 2))) →
    ∃ g, push_heap l first top v fuel hole (St h l n r) = .ok ((), St h l n g) ∧ PermIn first (first + len) V g ∧
      HeapFrom first top len g := by
  intro fuel
  induction fuel with
  | zero => intro hole r V _ hf; omega
  | succ fuel ih =>
    intro hole r V hV hf hl hd P1 P2
    have done : (hole = top ∨ le v (V (first + (hole - 1) / 2))) → HeapFrom first top len V := by
      intro hc i h1 h2 h3
      by_cases e : i = hole
      · subst e
        rcases hc with hc | hc
        · omega
        · have : V (first + i) = v := by rw [hV]; simp
          rw [this]; exact hc
      · exact P1 i h1 h2 h3 e
    unfold push_heap
    by_cases ht : hole > top
    · rw [if_pos ht]
      have hpar : (hole - 1) / 2 < hole := by omega
      have hdp := hd.parent ht
      have hr : r (first + (hole - 1) / 2) = V (first + (hole - 1) / 2) := by rw [hV, upd_ne _ _ (by omega)]
      rw [bind_ok (load_St (by omega))]
      by_cases hx : r (first + (hole - 1) / 2) < v
      · rw [if_pos hx, bind_ok (store_St _ (by omega))]
        generalize hp : (hole - 1) / 2 = par at *
        have hVv : V (first + hole) = v := by rw [hV]; simp
        have e : swp V (first + hole) (first + par) = upd (upd r (first + hole) (r (first + par))) (first + par) v := by
          unfold swp
          rw [hVv, ← hr]
          funext i
          rw [hV]
          unfold upd
          grind
        have W : ∀ i, swp V (first + hole) (first + par) (first + i) =
            if i = par then v else if i = hole then V (first + par) else V (first + i) := by
          intro i
          unfold swp upd
          grind
        obtain ⟨g, g1, g2, g3⟩ := ih par (upd r (first + hole) (r (first + par))) _ e (by omega) (by omega) hdp (by
            intro i h1 h2 h3 h4
            rw [W, W, if_neg h4]
            by_cases c1 : i = hole
            · rw [if_pos c1, c1, hp, if_pos rfl, ← hr]
              exact o.le_of_lt hx
            · rw [if_neg c1]
              by_cases c2 : (i - 1) / 2 = hole
              · rw [if_neg (by omega), if_pos c2]
                exact P2 ht i h1 h2 c2
              · by_cases c3 : (i - 1) / 2 = par
                · rw [if_pos c3]
                  have := P1 i h1 h2 h3 c1
                  rw [c3, ← hr] at this
                  exact o.le_trans this (o.le_of_lt hx)
                · rw [if_neg c3, if_neg c2]
                  exact P1 i h1 h2 h3 c1) (by
            intro ht' c h1 h2 h3
            have hpp := P1 par (by omega) (by omega) (hdp.parent ht').le (by omega)
            rw [W, W, if_neg (show ¬ c = par by omega), if_neg (show ¬ (par - 1) / 2 = par by omega),
              if_neg (show ¬ (par - 1) / 2 = hole by omega)]
            by_cases c1 : c = hole
            · rw [if_pos c1]; exact hpp
            · rw [if_neg c1]
              have := P1 c h1 h2 (by omega) c1
              rw [h3] at this
              exact o.le_trans this hpp)
        refine ⟨g, g1, (permIn_swp V (by omega) (by omega)).trans g2, g3⟩
      · rw [if_neg hx, store_St _ (by omega)]
        exact ⟨V, by rw [hV], PermIn.refl _ _ _, done (.inr (by rw [← hr]; exact hx))⟩
    · rw [if_neg ht, store_St _ (by omega)]
      have := hd.le
      exact ⟨V, by rw [hV], PermIn.refl _ _ _, done (.inl (by omega))⟩

theorem adjustLoop_run (o : SWO R) {first top len : Nat} (hn : first + len ≤ n) (v : R) :
    ∀ (fuel hole : Nat) (r V : Nat → R), V = upd r (first + hole) v → len ≤ hole + fuel → hole < len → Desc top hole →
    (∀ i, 0 < i → i < len → top ≤ (i - 1) / 2 → i ≠ hole → (i - 1) / 2 ≠ hole →
      le (V (first + i)) (V (first + (i - 1) / 2))) →
    (hole ≠ top → ∀ c, 0 < c → c < len → (c - 1) / 2 = hole → le (V (first + c)) (V (first + (hole - 1) / 2))) →
    ∃ g, adjustLoop l first top len v fuel hole (St h l n r) = .ok ((), St h l n g) ∧ PermIn first (first + len) V g ∧
      HeapFrom first top len g := by
  intro fuel
  induction fuel with
  | zero => intro hole r V _ hf; omega
  | succ fuel ih =>
    intro hole r V hV hf hl hd H1 H2
    have htop := hd.le
    have hVv : V (first + hole) = v := by rw [hV]; simp
    have hr : ∀ i, i ≠ hole → r (first + i) = V (first + i) := fun i hi => by rw [hV, upd_ne _ _ (by omega)]
    -- one step down to child `c`
    have W : ∀ c i, c ≠ hole → swp V (first + hole) (first + c) (first + i) =
        if i = c then v else if i = hole then V (first + c) else V (first + i) := by
      intro c i hc
      unfold swp upd
      grind
    have E : ∀ c, c ≠ hole → swp V (first + hole) (first + c) = upd (upd r (first + hole) (r (first + c))) (first + c) v := by
      intro c hc
      unfold swp
      rw [hVv, hr c hc]
      funext i
      rw [hV]
      unfold upd
      grind
    unfold adjustLoop
    dsimp only
    by_cases h1 : 2 * hole + 2 < len
    · rw [if_pos h1, bind_ok (load_St (by omega)), bind_ok (load_St (by omega))]
      have key : ∀ c d, (c = 2 * hole + 1 ∧ d = 2 * hole + 2 ∨ c = 2 * hole + 2 ∧ d = 2 * hole + 1) →
          le (V (first + d)) (V (first + c)) →
          ∃ g, (do
            let z ← load l (first + c)
            store l (first + hole) z
            adjustLoop l first top len v fuel c : M R Unit) (St h l n r) = .ok ((), St h l n g) ∧
            PermIn first (first + len) V g ∧ HeapFrom first top len g := by
        intro c d hcd hle
        rw [bind_ok (load_St (by omega)), bind_ok (store_St _ (by omega))]
        have hdc : Desc top c := by
          rcases hcd with ⟨rfl, _⟩ | ⟨rfl, _⟩
          · exact hd.left
          · exact hd.right
        obtain ⟨g, g1, g2, g3⟩ := ih c (upd r (first + hole) (r (first + c))) _ (E c (by omega)) (by omega) (by omega) hdc (by
          intro i i1 i2 i3 i4 i5
          rw [W c _ (by omega), W c _ (by omega), if_neg i4, if_neg i5]
          by_cases c1 : i = hole
          · subst c1
            rw [if_pos rfl, if_neg (by omega)]
            exact H2 (by omega) c (by omega) (by omega) (by omega)
          · rw [if_neg c1]
            by_cases c2 : (i - 1) / 2 = hole
            · rw [if_pos c2]
              have : i = d := by omega
              rw [this]; exact hle
            · rw [if_neg c2]; exact H1 i i1 i2 i3 c1 c2) (by
          intro _ cc c1 c2 c3
          have e : (c - 1) / 2 = hole := by omega
          rw [W c _ (by omega), W c _ (by omega), e, if_neg (by omega), if_neg (by omega), if_neg (by omega), if_pos rfl]
          have := H1 cc c1 c2 (by omega) (by omega) (by omega)
          rwa [c3] at this)
        exact ⟨g, g1, (permIn_swp V (by omega) (by omega)).trans g2, g3⟩
      by_cases hx : r (first + (2 * hole + 2)) < r (first + (2 * hole + 2 - 1))
      · rw [if_pos hx]
        refine key (2 * hole + 2 - 1) (2 * hole + 2) (by omega) ?_
        rw [← hr _ (by omega), ← hr _ (by omega)]
        exact o.le_of_lt hx
      · rw [if_neg hx]
        refine key (2 * hole + 2) (2 * hole + 2 - 1) (by omega) ?_
        rw [← hr _ (by omega), ← hr _ (by omega)]
        exact hx
    · rw [if_neg h1]
      by_cases h2 : 2 * hole + 2 = len
      · rw [if_pos h2, bind_ok (load_St (by omega)), bind_ok (store_St _ (by omega))]
        have hdc : Desc top (2 * hole + 2 - 1) := hd.left
        generalize hc : 2 * hole + 2 - 1 = c at *
        obtain ⟨g, g1, g2, g3⟩ := push_heap_run (h := h) (l := l) o hn v (len + 1) c
          (upd r (first + hole) (r (first + c))) _ (E c (by omega)) (by omega) (by omega) hdc (by
            intro i i1 i2 i3 i4
            rw [W c _ (by omega), W c _ (by omega), if_neg i4, if_neg (show ¬ (i - 1) / 2 = c by omega)]
            by_cases c1 : i = hole
            · subst c1
              rw [if_pos rfl, if_neg (by omega)]
              exact H2 (by omega) c (by omega) (by omega) (by omega)
            · rw [if_neg c1, if_neg (by omega)]
              exact H1 i i1 i2 i3 c1 (by omega)) (by
            intro _ cc c1 c2 c3
            omega)
        exact ⟨g, g1, (permIn_swp V (by omega) (by omega)).trans g2, g3⟩
      · rw [if_neg h2]
        exact push_heap_run o hn v (len + 1) hole r V hV (by omega) hl hd
          (fun i i1 i2 i3 i4 => H1 i i1 i2 i3 i4 (by omega)) (fun _ c c1 c2 c3 => by omega)

theorem adjust_heap_run (o : SWO R) {first top len : Nat} (hn : first + len ≤ n) (ht : top < len) (v : R) (r V : Nat → R)
    (hV : V = upd r (first + top) v) (hh : HeapFrom first (top + 1) len V) :
    ∃ g, adjust_heap l first top len v (St h l n r) = .ok ((), St h l n g) ∧ PermIn first (first + len) V g ∧
      HeapFrom first top len g :=
  adjustLoop_run o hn v (len + 1) top r V hV (by omega) ht .refl
    (fun i i1 i2 i3 _ i5 => hh i i1 i2 (by omega)) (fun hne => absurd rfl hne)

omit [LT R] [DecidableLT R] in
theorem upd_self (r : Nat → R) (i : Nat) : r = upd r i (r i) := by
  funext j; unfold upd; split
  · next h => rw [h]
  · rfl

theorem makeLoop_run (o : SWO R) {first len : Nat} (hn : first + len ≤ n) :
    ∀ (parent : Nat) (r : Nat → R), parent < len → HeapFrom first (parent + 1) len r →
    ∃ g, makeLoop l first len parent (St h l n r) = .ok ((), St h l n g) ∧ PermIn first (first + len) r g ∧
      HeapFrom first 0 len g := by
  intro parent
  induction parent with
  | zero =>
    intro r hp hh
    unfold makeLoop
    rw [bind_ok (load_St (by omega))]
    exact adjust_heap_run o hn hp _ r r (upd_self _ _) hh
  | succ parent ih =>
    intro r hp hh
    unfold makeLoop
    rw [bind_ok (load_St (by omega))]
    obtain ⟨g, g1, g2, g3⟩ := adjust_heap_run (h := h) (l := l) o hn hp _ r r (upd_self _ _) hh
    rw [bind_ok g1]
    obtain ⟨g', a1, a2, a3⟩ := ih g (by omega) g3
    exact ⟨g', a1, g2.trans a2, a3⟩

theorem make_heap_run (o : SWO R) {first last : Nat} (hfl : first ≤ last) (hn : last ≤ n) (r : Nat → R) :
    ∃ g, make_heap l first last (St h l n r) = .ok ((), St h l n g) ∧ PermIn first last r g ∧
      HeapFrom first 0 (last - first) g := by
  unfold make_heap
  by_cases e : last - first < 2
  · rw [if_pos e]
    exact ⟨r, rfl, PermIn.refl _ _ _, by intro i h1 h2; omega⟩
  · rw [if_neg e]
    obtain ⟨g, g1, g2, g3⟩ := makeLoop_run (h := h) (l := l) (n := n) o (first := first) (len := last - first) (by omega)
      ((last - first - 2) / 2) r (by omega) (by intro i h1 h2 h3; omega)
    exact ⟨g, g1, g2.mono (Nat.le_refl _) (by omega), g3⟩

/-- In a heap the first cell is a maximum. -/
theorem heap_max (o : SWO R) {first len : Nat} {f : Nat → R} (hh : HeapFrom first 0 len f) :
    ∀ i, i < len → le (f (first + i)) (f first) := by
  intro i
  induction i using Nat.strongRecOn with
  | ind i ih =>
    intro hi
    by_cases h0 : i = 0
    · subst h0; exact o.refl _
    · exact o.le_trans (hh i (by omega) hi (Nat.zero_le _)) (ih _ (by omega) (by omega))

theorem pop_heap_run (o : SWO R) {first len : Nat} (hn : first + (len + 2) ≤ n) (r : Nat → R)
    (hh : HeapFrom first 0 (len + 2) r) :
    ∃ g, pop_heap l first (first + (len + 2)) (St h l n r) = .ok ((), St h l n g) ∧
      PermIn first (first + (len + 2)) r g ∧ HeapFrom first 0 (len + 1) g ∧ g (first + (len + 1)) = r first := by
  unfold pop_heap
  have e1 : first + (len + 2) - 1 = first + (len + 1) := by omega
  rw [e1, bind_ok (load_St (by omega))]
  unfold pop_heap4
  rw [bind_ok (load_St (by omega)), bind_ok (store_St _ (by omega))]
  have e2 : first + (len + 1) - first = len + 1 := by omega
  rw [e2]
  have hV : swp r (first + (len + 1)) first = upd (upd r (first + (len + 1)) (r first)) (first + 0) (r (first + (len + 1))) := rfl
  have W : ∀ i, swp r (first + (len + 1)) first (first + i) =
      if i = 0 then r (first + (len + 1)) else if i = len + 1 then r first else r (first + i) := by
    intro i
    unfold swp upd
    grind
  obtain ⟨g, g1, g2, g3⟩ := adjust_heap_run (h := h) (l := l) (n := n) o (first := first) (top := 0) (len := len + 1)
    (by omega) (by omega) (r (first + (len + 1))) (upd r (first + (len + 1)) (r first)) _ hV (by
      intro i i1 i2 i3
      rw [W, W, if_neg (by omega), if_neg (by omega), if_neg (by omega), if_neg (by omega)]
      exact hh i i1 (by omega) (Nat.zero_le _))
  refine ⟨g, g1, ?_, g3, ?_⟩
  · exact (permIn_swp r (by omega) (by omega)).trans (g2.mono (Nat.le_refl _) (by omega))
  · rw [g2.outside (by omega), W, if_neg (by omega), if_pos rfl]

theorem sort_heap_run (o : SWO R) {first : Nat} : ∀ (len : Nat) (r : Nat → R) (last : Nat), first + len ≤ last → last ≤ n →
    HeapFrom first 0 len r → SortedOn (first + len) last r →
    (∀ i j, i < len → first + len ≤ j → j < last → le (r (first + i)) (r j)) →
    ∃ g, sort_heap l first len (St h l n r) = .ok ((), St h l n g) ∧ PermIn first last r g ∧ SortedOn first last g := by
  intro len
  induction len with
  | zero =>
    intro r last h1 h2 _ hs _
    unfold sort_heap
    exact ⟨r, rfl, PermIn.refl _ _ _, hs⟩
  | succ len ih =>
    intro r last h1 h2 hh hs hb
    match len, ih with
    | 0, _ =>
      unfold sort_heap
      refine ⟨r, rfl, PermIn.refl _ _ _, ?_⟩
      intro i j i1 i2 i3
      by_cases e : i = first
      · subst e
        exact hb 0 j (by omega) (by omega) i3
      · exact hs i j (by omega) i2 i3
    | len + 1, ih =>
      unfold sort_heap
      obtain ⟨g, g1, g2, g3, g4⟩ := pop_heap_run (h := h) (l := l) (n := n) o (first := first) (len := len) (by omega) r hh
      rw [bind_ok g1]
      have mx : ∀ i, i < len + 2 → le (g (first + i)) (r first) := by
        intro i hi
        refine g2.all (fun x => le x (r first)) (fun j j1 j2 => ?_) (first + i) (by omega) (by omega)
        have := heap_max o hh (j - first) (by omega)
        rwa [show first + (j - first) = j by omega] at this
      obtain ⟨g', a1, a2, a3⟩ := ih g last (by omega) h2 g3 (by
          intro i j i1 i2 i3
          by_cases e : i = first + (len + 1)
          · rw [e, g4, g2.outside (by omega)]
            exact hb 0 j (by omega) (by omega) i3
          · rw [g2.outside (i := i) (by omega), g2.outside (i := j) (by omega)]
            exact hs i j (by omega) i2 i3) (by
          intro i j i1 i2 i3
          by_cases e : j = first + (len + 1)
          · rw [e, g4]; exact mx i (by omega)
          · refine o.le_trans (mx i (by omega)) ?_
            rw [g2.outside (i := j) (by omega)]
            exact hb 0 j (by omega) (by omega) i3)
      exact ⟨g', a1, (g2.mono (Nat.le_refl _) (by omega)).trans a2, a3⟩

theorem partial_sort_run (o : SWO R) {first last : Nat} (hfl : first ≤ last) (hn : last ≤ n) (r : Nat → R) :
    ∃ g, partial_sort l first last last (St h l n r) = .ok ((), St h l n g) ∧ PermIn first last r g ∧
      SortedOn first last g := by
  unfold partial_sort
  obtain ⟨g, g1, g2, g3⟩ := make_heap_run (h := h) (l := l) o hfl hn r
  rw [bind_ok g1, Nat.sub_self, loop_zero, bind_ok (pure_run _ _)]
  obtain ⟨g', a1, a2, a3⟩ := sort_heap_run (h := h) (l := l) o (first := first) (last - first) g last (by omega) hn g3
    (by intro i j; omega) (by intro i j; omega)
  exact ⟨g', a1, g2.trans a2, a3⟩

/-! ## Partition and introsort -/

omit [LT R] in
theorem median_mem [LT R] [DecidableLT R] (a b c : R) : median_of_3 a b c = a ∨ median_of_3 a b c = b ∨ median_of_3 a b c = c := by
  unfold median_of_3
  split <;> split <;> (try split) <;> simp

theorem scanUp_run (pv : R) (f : Nat → R) : ∀ (fuel i s : Nat), i ≤ s → s < n → s < i + fuel → ¬ f s < pv →
    ∃ j, scanUp l pv fuel i (St h l n f) = .ok (j, St h l n f) ∧ i ≤ j ∧ j ≤ s ∧ ¬ f j < pv ∧
      ∀ k, i ≤ k → k < j → f k < pv := by
  intro fuel
  induction fuel with
  | zero => intro i s; omega
  | succ fuel ih =>
    intro i s h1 h2 h3 h4
    unfold scanUp
    rw [bind_ok (load_St (by omega))]
    by_cases hx : f i < pv
    · rw [if_pos hx]
      have : i ≠ s := by rintro rfl; exact h4 hx
      obtain ⟨j, e, j1, j2, j3, j4⟩ := ih (i + 1) s (by omega) h2 (by omega) h4
      refine ⟨j, e, by omega, j2, j3, fun k k1 k2 => ?_⟩
      by_cases hk : k = i
      · rw [hk]; exact hx
      · exact j4 k (by omega) k2
    · rw [if_neg hx]
      exact ⟨i, rfl, Nat.le_refl _, h1, hx, fun k k1 k2 => by omega⟩

theorem scanDown_run (pv : R) (f : Nat → R) : ∀ (i s : Nat), s < i → i ≤ n → ¬ pv < f s →
    ∃ j, scanDown l pv i (St h l n f) = .ok (j, St h l n f) ∧ s ≤ j ∧ j < i ∧ ¬ pv < f j ∧
      ∀ k, j < k → k < i → pv < f k := by
  intro i
  induction i with
  | zero => intro s; omega
  | succ i ih =>
    intro s h1 h2 h3
    unfold scanDown
    rw [bind_ok (load_St (by omega))]
    by_cases hx : pv < f i
    · rw [if_pos hx]
      have : s ≠ i := by rintro rfl; exact h3 hx
      obtain ⟨j, e, j1, j2, j3, j4⟩ := ih s (by omega) (by omega) h3
      refine ⟨j, e, j1, by omega, j3, fun k k1 k2 => ?_⟩
      by_cases hk : k = i
      · rw [hk]; exact hx
      · exact j4 k k1 (by omega)
    · rw [if_neg hx]
      exact ⟨i, rfl, by omega, by omega, hx, fun k k1 k2 => by omega⟩

theorem partitioner_run (o : SWO R) (pv : R) {F L : Nat} (hL : L ≤ n) : ∀ (fuel a b : Nat) (f : Nat → R),
    F ≤ a → a ≤ b → b ≤ L → b - a < fuel →
    (∀ j, F ≤ j → j < a → le (f j) pv) → (∀ j, b ≤ j → j < L → le pv (f j)) →
    ((∃ m, a ≤ m ∧ m < b ∧ f m = pv) ∨ (F < a ∧ b < L)) →
    ∃ c g, partitioner l pv (L + 1) fuel a b (St h l n f) = .ok (c, St h l n g) ∧ PermIn F L f g ∧ F ≤ c ∧ c ≤ L ∧
      (∀ j, F ≤ j → j < c → le (g j) pv) ∧ ∀ j, c ≤ j → j < L → le pv (g j) := by
  intro fuel
  induction fuel with
  | zero => intro a b f; omega
  | succ fuel ih =>
    intro a b f h1 h2 h3 hf hlo hhi hs
    unfold partitioner
    obtain ⟨i, ei, i1, i2, i3, i4⟩ : ∃ j, scanUp l pv (L + 1) a (St h l n f) = .ok (j, St h l n f) ∧ a ≤ j ∧
        (j ≤ b ∧ j < L) ∧ ¬ f j < pv ∧ ∀ k, a ≤ k → k < j → f k < pv := by
      rcases hs with ⟨m, m1, m2, m3⟩ | ⟨m1, m2⟩
      · obtain ⟨j, e, j1, j2, j3⟩ := scanUp_run (h := h) (l := l) (n := n) pv f (L + 1) a m m1 (by omega) (by omega)
          (by rw [m3]; exact o.refl _)
        exact ⟨j, e, j1, by omega, j3⟩
      · obtain ⟨j, e, j1, j2, j3⟩ := scanUp_run (h := h) (l := l) (n := n) pv f (L + 1) a b h2 (by omega) (by omega)
          (hhi b (Nat.le_refl _) m2)
        exact ⟨j, e, j1, by omega, j3⟩
    obtain ⟨k, ek, k1, k2, k3, k4⟩ : ∃ j, scanDown l pv b (St h l n f) = .ok (j, St h l n f) ∧ F ≤ j ∧
        j < b ∧ ¬ pv < f j ∧ ∀ k, j < k → k < b → pv < f k := by
      rcases hs with ⟨m, m1, m2, m3⟩ | ⟨m1, m2⟩
      · obtain ⟨j, e, j1, j2, j3⟩ := scanDown_run (h := h) (l := l) (n := n) pv f b m m2 (by omega)
          (by rw [m3]; exact o.refl _)
        exact ⟨j, e, by omega, j2, j3⟩
      · obtain ⟨j, e, j1, j2, j3⟩ := scanDown_run (h := h) (l := l) (n := n) pv f b (a - 1) (by omega) (by omega)
          (hlo (a - 1) (by omega) (by omega))
        exact ⟨j, e, by omega, j2, j3⟩
    rw [bind_ok ei, bind_ok ek]
    by_cases hc : i < k
    · rw [if_pos hc, bind_ok (load_St (by omega)), bind_ok (load_St (by omega)), bind_ok (store_St _ (by omega)),
        bind_ok (store_St _ (by omega))]
      have W : ∀ j, swp f i k j = if j = k then f i else if j = i then f k else f j := by
        intro j; unfold swp upd; rfl
      obtain ⟨c, g, e, g1, g2⟩ := ih (i + 1) k (swp f i k) (by omega) (by omega) (by omega) (by omega) (by
          intro j j1 j2
          rw [W, if_neg (by omega)]
          by_cases e : j = i
          · rw [if_pos e]; exact k3
          · rw [if_neg e]
            by_cases e2 : j < a
            · exact hlo j j1 e2
            · exact o.le_of_lt (i4 j (by omega) (by omega))) (by
          intro j j1 j2
          rw [W]
          by_cases e : j = k
          · rw [if_pos e]; exact i3
          · rw [if_neg e, if_neg (by omega)]
            by_cases e2 : b ≤ j
            · exact hhi j e2 j2
            · exact o.le_of_lt (k4 j (by omega) (by omega))) (.inr ⟨by omega, by omega⟩)
      exact ⟨c, g, e, (permIn_swp f (by omega) (by omega)).trans g1, g2⟩
    · rw [if_neg hc]
      refine ⟨i, f, rfl, PermIn.refl _ _ _, by omega, by omega, ?_, ?_⟩
      · intro j j1 j2
        by_cases e2 : j < a
        · exact hlo j j1 e2
        · exact o.le_of_lt (i4 j (by omega) (by omega))
      · intro j j1 j2
        by_cases e2 : b ≤ j
        · exact hhi j e2 j2
        · by_cases e3 : j = i
          · rw [e3]; exact i3
          · exact o.le_of_lt (k4 j (by omega) (by omega))

/-- What `introsort` leaves for the final insertion sort: some minimum is among the first 16 cells. -/
def MinEarly (first last : Nat) (f : Nat → R) : Prop :=
  first < last → ∃ k, first ≤ k ∧ k < last ∧ k < first + 16 ∧ ∀ j, first ≤ j → j < last → le (f k) (f j)

omit [DecidableLT R] in
theorem exists_min (o : SWO R) (f : Nat → R) (first : Nat) : ∀ m, 
    ∃ k, first ≤ k ∧ k < first + (m + 1) ∧ ∀ j, first ≤ j → j < first + (m + 1) → le (f k) (f j) := by
  intro m
  induction m with
  | zero => exact ⟨first, by omega, by omega, fun j h1 h2 => by rw [show j = first by omega]; exact o.refl _⟩
  | succ m ih =>
    obtain ⟨k, k1, k2, k3⟩ := ih
    by_cases hx : f (first + (m + 1)) < f k
    · refine ⟨first + (m + 1), by omega, by omega, fun j h1 h2 => ?_⟩
      by_cases e : j = first + (m + 1)
      · rw [e]; exact o.refl _
      · exact o.le_trans (o.le_of_lt hx) (k3 j h1 (by omega))
    · refine ⟨k, k1, by omega, fun j h1 h2 => ?_⟩
      by_cases e : j = first + (m + 1)
      · rw [e]; exact hx
      · exact k3 j h1 (by omega)

omit [DecidableLT R] in
theorem minEarly_small (o : SWO R) (f : Nat → R) {first last : Nat} (hs : last - first ≤ 16) : MinEarly first last f := by
  intro hlt
  obtain ⟨k, k1, k2, k3⟩ := exists_min o f first (last - first - 1)
  exact ⟨k, k1, by omega, by omega, fun j h1 h2 => k3 j h1 (by omega)⟩

theorem introsort_run (o : SWO R) : ∀ (depth first last : Nat) (f : Nat → R), first ≤ last → last ≤ n →
    ∃ g, introsort l depth first last (St h l n f) = .ok ((), St h l n g) ∧ PermIn first last f g ∧
      MinEarly first last g := by
  intro depth
  induction depth with
  | zero =>
    intro first last f h1 h2
    unfold introsort
    by_cases e : last - first > 16
    · rw [if_pos e]
      obtain ⟨g, g1, g2, g3⟩ := partial_sort_run (h := h) (l := l) o h1 h2 f
      refine ⟨g, g1, g2, fun hlt => ⟨first, Nat.le_refl _, hlt, by omega, fun j j1 j2 => ?_⟩⟩
      by_cases ej : j = first
      · rw [ej]; exact o.refl _
      · exact g3 first j (Nat.le_refl _) (by omega) j2
    · rw [if_neg e]
      exact ⟨f, rfl, PermIn.refl _ _ _, minEarly_small o f (by omega)⟩
  | succ depth ih =>
    intro first last f h1 h2
    unfold introsort
    by_cases e : last - first > 16
    · rw [if_pos e, bind_ok (load_St (by omega)), bind_ok (load_St (by omega)), bind_ok (load_St (by omega))]
      have hm : ∃ m, first ≤ m ∧ m < last ∧
          f m = median_of_3 (f first) (f (first + (last - first) / 2)) (f (last - 1)) := by
        rcases median_mem (f first) (f (first + (last - first) / 2)) (f (last - 1)) with hm | hm | hm
        · exact ⟨first, by omega, by omega, hm.symm⟩
        · exact ⟨first + (last - first) / 2, by omega, by omega, hm.symm⟩
        · exact ⟨last - 1, by omega, by omega, hm.symm⟩
      obtain ⟨c, g, e1, g1, g2, g3, g4, g5⟩ := partitioner_run (h := h) (l := l) o
        (median_of_3 (f first) (f (first + (last - first) / 2)) (f (last - 1))) (F := first) h2 (last + 1) first last f
        (Nat.le_refl _) h1 (Nat.le_refl _) (by omega) (by intro j; omega) (by intro j; omega) (.inl hm)
      generalize median_of_3 (f first) (f (first + (last - first) / 2)) (f (last - 1)) = pv at *
      obtain ⟨g', b1, b2, b3⟩ := ih c last g g3 h2
      obtain ⟨g'', c1, c2, c3⟩ := ih first c g' g2 (by omega)
      rw [bind_ok e1, bind_ok b1, c1]
      refine ⟨g'', rfl, (g1.trans (b2.mono g2 (Nat.le_refl _))).trans (c2.mono (Nat.le_refl _) g3), ?_⟩
      have hi : ∀ j, c ≤ j → j < last → le pv (g'' j) := by
        intro j j1 j2
        rw [c2.outside (by omega)]
        exact b2.all (fun x => le pv x) g5 j j1 j2
      have lo : ∀ j, first ≤ j → j < c → le (g'' j) pv := by
        refine c2.all (fun x => le x pv) ?_
        intro j j1 j2
        rw [b2.outside (by omega)]
        exact g4 j j1 j2
      intro hlt
      by_cases hc : first < c
      · obtain ⟨k, k1, k2, k3, k4⟩ := c3 hc
        refine ⟨k, k1, by omega, k3, fun j j1 j2 => ?_⟩
        by_cases ej : j < c
        · exact k4 j j1 ej
        · exact o.le_trans (lo k k1 k2) (hi j (by omega) j2)
      · have ec : c = first := by omega
        subst ec
        obtain ⟨k, k1, k2, k3, k4⟩ := b3 hlt
        refine ⟨k, k1, k2, k3, fun j j1 j2 => ?_⟩
        rw [c2.outside (by omega), c2.outside (by omega)]
        exact k4 j j1 j2
    · rw [if_neg e]
      exact ⟨f, rfl, PermIn.refl _ _ _, minEarly_small o f (by omega)⟩

theorem sort_range_run (o : SWO R) (f : Nat → R) :
    ∃ g, sort_range l 0 n (St h l n f) = .ok ((), St h l n g) ∧ PermIn 0 n f g ∧ SortedOn 0 n g := by
  unfold sort_range
  by_cases e : 0 ≠ n
  · rw [if_pos e]
    obtain ⟨g, g1, g2, g3⟩ := introsort_run (h := h) (l := l) (n := n) o (bitlog (n - 0) * 2) 0 n f (Nat.zero_le _) (Nat.le_refl _)
    rw [bind_ok g1]
    obtain ⟨k, k1, k2, k3, k4⟩ := g3 (by omega)
    obtain ⟨g', a1, a2, a3⟩ := final_insertion_sort_run (h := h) (l := l) (n := n) (f := g) o (k := k) (by omega) k2
      (fun j hj => k4 j (Nat.zero_le _) hj)
    exact ⟨g', a1, g2.trans a2, a3⟩
  · rw [if_neg e]
    have : n = 0 := by omega
    subst this
    exact ⟨f, rfl, PermIn.refl _ _ _, by intro i j; omega⟩

end SortArray
end Verif
