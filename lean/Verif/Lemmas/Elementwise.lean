import Verif.Lemmas.Base
import Verif.Model.Elementwise

/-! # What the shared method shapes compute, as equations on the heap -/

namespace Verif
variable {R : Type}

theorem resizeTo_run (l : Loc) (s : Size) (h : Heap R) :
    ∃ d c, resizeTo l s h = .ok ((), { (h.setSize l s).setBuf l d with clock := c }) ∧
      d.length = s.count ∧ (∀ i, i < (h.buf l).length → i < s.count → d[i]? = (h.buf l)[i]?) := by
  unfold resizeTo
  rw [bind_ok (putSize_run l s h)]
  by_cases e : s.count = 0
  · refine ⟨[], h.clock, ?_, by simp [e], by intro i _ h2; omega⟩
    simp [e]; rfl
  · refine ⟨growTo (h.buf l) s.count (h.junk h.clock), h.clock + 1, ?_, by simp, ?_⟩
    · simp [e, memrealloc_run]
    · intro i h1 h2; exact growTo_getElem? _ _ _ _ h1 h2

/-- A resize to the size the object already has keeps the contents. -/
theorem resizeTo_same (l : Loc) (h : Heap R) (hl : (h.buf l).length = (h.size l).count) :
    ∃ c, resizeTo l (h.size l) h = .ok ((), { h with clock := c }) := by
  obtain ⟨d, c, e, hd, hk⟩ := resizeTo_run l (h.size l) h
  refine ⟨c, ?_⟩
  have : d = h.buf l := by
    apply List.ext_getElem?
    intro i
    by_cases hi : i < d.length
    · exact hk i (by omega) (by omega)
    · rw [List.getElem?_eq_none (by omega), List.getElem?_eq_none (by omega)]
  subst this
  rw [e]; simp

theorem ensureSize_same (l : Loc) (s : Size) (h : Heap R) (e : h.size l = s) :
    ensureSize l s h = .ok ((), h) := by
  unfold ensureSize
  rw [bind_ok (getSize_run l h)]; simp [e]

theorem ensureSize_run (l : Loc) (s : Size) (h : Heap R) (hl : (h.buf l).length = (h.size l).count) :
    ∃ d c, ensureSize l s h = .ok ((), { (h.setSize l s).setBuf l d with clock := c }) ∧
      d.length = s.count ∧ (h.size l = s → d = h.buf l) := by
  by_cases e : h.size l = s
  · refine ⟨h.buf l, h.clock, ?_, by rw [hl, e], fun _ => rfl⟩
    rw [ensureSize_same l s h e]; subst e; simp
  · obtain ⟨d, c, e', hd, _⟩ := resizeTo_run l s h
    refine ⟨d, c, ?_, hd, fun h => absurd h e⟩
    unfold ensureSize
    rw [bind_ok (getSize_run l h)]; simp [e, e']

theorem getElem?_take_append_drop_lt {xs ys : List R} {i k : Nat} (hl : xs.length = ys.length)
    (hk : k < xs.length) (hik : k = i) :
    (xs.take i ++ ys.drop i)[k]? = ys[k]? := by
  subst hik
  have h1 : (xs.take k).length = k := by simp; omega
  rw [List.getElem?_append_right (by omega), h1]; simp

theorem set_take_append_drop {xs ys : List R} {i : Nat} (hl : xs.length = ys.length) (hi : i < xs.length) :
    (xs.take i ++ ys.drop i).set i xs[i] = xs.take (i + 1) ++ ys.drop (i + 1) := by
  have h1 : (xs.take i).length = i := by simp; omega
  rw [List.set_append, if_neg (by omega), h1, List.drop_eq_getElem_cons (by omega : i < ys.length)]
  rw [Nat.sub_self, List.set_cons_zero]
  rw [← List.take_append_getElem hi, List.append_assoc]
  rfl

/-- The unary loop maps `f` over the input into the output, whether or not they are the same object. -/
theorem unLoop_run (f : R → R) (a out : Loc) (n : Nat) (h : Heap R)
    (ha : (h.buf a).length = n) (ho : (h.buf out).length = n) :
    unLoop f a out n h = .ok ((), h.setBuf out ((h.buf a).map f)) := by
  have key := forN_eq n (fun i => h.setBuf out (((h.buf a).map f).take i ++ (h.buf out).drop i))
    (fun i => do let x ← load a i; store out i (f x)) h (by simp) ?_
  · unfold unLoop
    rw [key]
    rw [List.take_of_length_le (by simp; omega), List.drop_of_length_le (by omega)]; simp
  · intro i hi
    have hlm : ((h.buf a).map f).length = (h.buf out).length := by simp [ha, ho]
    have hload : ((h.setBuf out (((h.buf a).map f).take i ++ (h.buf out).drop i)).buf a)[i]? = (h.buf a)[i]? := by
      rw [setBuf_buf]
      by_cases e : a = out
      · subst e
        rw [if_pos rfl]
        exact getElem?_take_append_drop_lt hlm (by simp; omega) rfl
      · rw [if_neg e]
    rw [bind_ok (load_ok (v := (h.buf a)[i]'(by omega)) (by rw [hload]; simp [ha, hi]))]
    rw [store_ok _ (by simp; omega)]
    have h2 := set_take_append_drop hlm (i := i) (by simp; omega)
    simp only [List.getElem_map] at h2
    simp [h2]

/-- The binary loop zips `f` over the inputs into the output, for every aliasing of the three objects. -/
theorem binLoop_run (f : R → R → R) (a b out : Loc) (n : Nat) (h : Heap R)
    (ha : (h.buf a).length = n) (hb : (h.buf b).length = n) (ho : (h.buf out).length = n) :
    binLoop f a b out n h = .ok ((), h.setBuf out (List.zipWith f (h.buf a) (h.buf b))) := by
  have key := forN_eq n (fun i => h.setBuf out ((List.zipWith f (h.buf a) (h.buf b)).take i ++ (h.buf out).drop i))
    (fun i => do let x ← load a i; let y ← load b i; store out i (f x y)) h (by simp) ?_
  · unfold binLoop
    rw [key]
    have : (List.zipWith f (h.buf a) (h.buf b)).length = n := by simp [ha, hb]
    rw [List.take_of_length_le (by omega), List.drop_of_length_le (by omega)]; simp
  · intro i hi
    have hlm : (List.zipWith f (h.buf a) (h.buf b)).length = (h.buf out).length := by simp [ha, hb, ho]
    have hload : ∀ l, (h.buf l).length = n →
        ((h.setBuf out ((List.zipWith f (h.buf a) (h.buf b)).take i ++ (h.buf out).drop i)).buf l)[i]?
          = (h.buf l)[i]? := by
      intro l hl
      rw [setBuf_buf]
      by_cases e : l = out
      · subst e
        rw [if_pos rfl]
        exact getElem?_take_append_drop_lt hlm (by rw [hlm]; omega) rfl
      · rw [if_neg e]
    rw [bind_ok (load_ok (v := (h.buf a)[i]'(by omega)) (by rw [hload a ha]; simp [ha, hi]))]
    rw [bind_ok (load_ok (v := (h.buf b)[i]'(by omega)) (by rw [hload b hb]; simp [hb, hi]))]
    rw [store_ok _ (by simp [ho]; omega)]
    have h2 := set_take_append_drop hlm (i := i) (by rw [hlm]; omega)
    simp only [List.getElem_zipWith] at h2
    simp [h2]

/-! ## Whole methods -/

theorem unIn_run (f : R → R) (this : Loc) (h : Heap R) (hl : (h.buf this).length = (h.size this).count) :
    unIn f this h = .ok ((), h.setBuf this ((h.buf this).map f)) := by
  unfold unIn
  rw [bind_ok (getSize_run this h), unLoop_run f this this _ h hl hl]

theorem binIn_run (f : R → R → R) (this b : Loc) (h : Heap R) (hl : (h.buf this).length = (h.size this).count)
    (hb : (h.buf b).length = (h.size b).count) (hs : h.size this = h.size b) :
    binIn f this (some b) h = .ok ((), h.setBuf this (List.zipWith f (h.buf this) (h.buf b))) := by
  simp only [binIn]
  rw [bind_ok (getSize_run this h), bind_ok (getSize_run b h), if_pos hs]
  exact binLoop_run f this b this _ h hl (by rw [hb, hs]) hl

theorem binIn_mismatch (f : R → R → R) (this b : Loc) (h : Heap R) (hs : h.size this ≠ h.size b) :
    binIn f this (some b) h = .ok ((), h) := by
  simp only [binIn]
  rw [bind_ok (getSize_run this h), bind_ok (getSize_run b h), if_neg hs]; rfl

/-- `newLike`: the new object is distinct from every existing one, empty, and nothing else changes. -/
theorem newLike_run (l : Loc) (h : Heap R) :
    ∃ o s, newLike l h = .ok (o, { (h.setBuf o []).setSize o s with next := h.next + 1 }) ∧
      o.id = h.next ∧ s.count = 0 := by
  cases l
  · exact ⟨.v h.next, ⟨0, 1, 1⟩, rfl, rfl, rfl⟩
  · exact ⟨.m h.next, ⟨0, 0, 1⟩, rfl, rfl, rfl⟩
  · exact ⟨.t h.next, ⟨0, 0, 0⟩, rfl, rfl, rfl⟩

/-- Result of a method that creates one object `o` (fresh) with the given extents and contents and changes
nothing else. -/
structure Created (h h' : Heap R) (o : Loc) (s : Size) (d : List R) : Prop where
  fresh : o.id = h.next
  buf : h'.buf o = d
  size : h'.size o = s
  bufFrame : ∀ l, l ≠ o → h'.buf l = h.buf l
  sizeFrame : ∀ l, l ≠ o → h'.size l = h.size l
  next : h'.next = h.next + 1
  junk : h'.junk = h.junk

/-- Result of a method that gives one object new extents and contents and changes nothing else. -/
structure Updated (h h' : Heap R) (o : Loc) (s : Size) (d : List R) : Prop where
  buf : h'.buf o = d
  size : h'.size o = s
  bufFrame : ∀ l, l ≠ o → h'.buf l = h.buf l
  sizeFrame : ∀ l, l ≠ o → h'.size l = h.size l
  next : h'.next = h.next
  junk : h'.junk = h.junk

theorem live_ne_fresh {h : Heap R} {l o : Loc} (hl : h.live l) (ho : o.id = h.next) : l ≠ o := by
  intro e; subst e; unfold Heap.live at hl; omega

/-- `Loc` of the same class as the argument. -/
def Loc.like : Loc → Nat → Loc
  | .v _, i => .v i
  | .m _, i => .m i
  | .t _, i => .t i

/-- Fresh object followed by `resize(s)`. -/
theorem newResize_run (this : Loc) (s : Size) (h : Heap R) :
    ∃ d c, (do let out ← newLike this; resizeTo out s; pure out : M R Loc) h =
        .ok (this.like h.next, { (h.setSize (this.like h.next) s).setBuf (this.like h.next) d with
              clock := c, next := h.next + 1 }) ∧ d.length = s.count := by
  have hn : ∃ s0, newLike this h = .ok (this.like h.next,
      { (h.setBuf (this.like h.next) []).setSize (this.like h.next) s0 with next := h.next + 1 }) := by
    cases this
    · exact ⟨⟨0, 1, 1⟩, rfl⟩
    · exact ⟨⟨0, 0, 1⟩, rfl⟩
    · exact ⟨⟨0, 0, 0⟩, rfl⟩
  obtain ⟨s0, hn⟩ := hn
  rw [bind_ok hn]
  obtain ⟨d, c, e, hd, _⟩ := resizeTo_run (this.like h.next) s
    ({ (h.setBuf (this.like h.next) []).setSize (this.like h.next) s0 with next := h.next + 1 } : Heap R)
  refine ⟨d, c, ?_, hd⟩
  rw [bind_ok e]
  simp only [pure_run, Out.ok.injEq, Prod.mk.injEq, true_and]
  simp only [Heap.setBuf, Heap.setSize]
  congr 1
  · funext l; by_cases e : l = this.like h.next <;> simp [e]
  · funext l; by_cases e : l = this.like h.next <;> simp [e]

theorem like_id (this : Loc) (n : Nat) : (this.like n).id = n := by cases this <;> rfl

/-- General 'n' method: create, resize, run a loop that fills the new object. -/
theorem newFill_run (this : Loc) (s : Size) (k : Loc → M R Unit) (h : Heap R) (d : List R)
    (hk : ∀ h1 : Heap R, (∀ l, h.live l → h1.buf l = h.buf l) → (∀ l, h.live l → h1.size l = h.size l) →
      (h1.buf (this.like h.next)).length = s.count → h1.size (this.like h.next) = s →
      k (this.like h.next) h1 = .ok ((), h1.setBuf (this.like h.next) d)) :
    ∃ h', (do let out ← newLike this; resizeTo out s; k out; pure (some out) : M R Ref) h =
        .ok (some (this.like h.next), h') ∧ Created h h' (this.like h.next) s d := by
  obtain ⟨d0, c, e, hd0⟩ := newResize_run this s h
  have e2 : (do let out ← newLike this; resizeTo out s; k out; pure (some out) : M R Ref) =
      (do let out ← (do let out ← newLike this; resizeTo out s; pure out : M R Loc); k out; pure (some out)) := by
    simp
  rw [e2, bind_ok e]
  have hne : ∀ l, h.live l → l ≠ this.like h.next := fun l hl => live_ne_fresh hl (like_id _ _)
  rw [bind_ok (hk _ ?_ ?_ ?_ ?_)]
  · refine ⟨_, rfl, ?_, ?_, ?_, ?_, ?_, ?_, ?_⟩
    · exact like_id _ _
    · simp
    · simp
    · intro l hl; simp [setBuf_buf, hl]
    · intro l hl; simp [setSize_size, hl]
    · simp
    · simp
  · intro l hl; simp [setBuf_buf, hne l hl]
  · intro l hl; simp [setSize_size, hne l hl]
  · simp [hd0]
  · simp

theorem unN_run (f : R → R) (this : Loc) (h : Heap R) (hl : (h.buf this).length = (h.size this).count)
    (hlive : h.live this) :
    ∃ h', unN f this h = .ok (some (this.like h.next), h') ∧
      Created h h' (this.like h.next) (h.size this) ((h.buf this).map f) := by
  have := newFill_run this (h.size this) (fun out => unLoop f this out (h.size this).count) h
    ((h.buf this).map f) ?_
  · obtain ⟨h', e, hc⟩ := this
    refine ⟨h', ?_, hc⟩
    rw [← e]
    unfold unN
    have hn : ∃ s0, newLike this h = .ok (this.like h.next,
        { (h.setBuf (this.like h.next) []).setSize (this.like h.next) s0 with next := h.next + 1 }) := by
      cases this
      · exact ⟨⟨0, 1, 1⟩, rfl⟩
      · exact ⟨⟨0, 0, 1⟩, rfl⟩
      · exact ⟨⟨0, 0, 0⟩, rfl⟩
    obtain ⟨s0, hn⟩ := hn
    rw [bind_ok hn, bind_ok hn, bind_ok (getSize_run _ _)]
    have hne : this ≠ this.like h.next := live_ne_fresh hlive (like_id _ _)
    simp [setSize_size, hne]
  · intro h1 hb hs hlen hsz
    rw [unLoop_run f this _ _ h1 (by rw [hb _ hlive, hl]) hlen, hb _ hlive]

theorem binN_run (f : R → R → R) (this b : Loc) (h : Heap R) (hl : (h.buf this).length = (h.size this).count)
    (hb : (h.buf b).length = (h.size b).count) (hs : h.size this = h.size b)
    (hlive : h.live this) (hliveb : h.live b) :
    ∃ h', binN f this (some b) h = .ok (some (this.like h.next), h') ∧
      Created h h' (this.like h.next) (h.size this) (List.zipWith f (h.buf this) (h.buf b)) := by
  have := newFill_run this (h.size this) (fun out => binLoop f this b out (h.size this).count) h
    (List.zipWith f (h.buf this) (h.buf b)) ?_
  · obtain ⟨h', e, hc⟩ := this
    refine ⟨h', ?_, hc⟩
    rw [← e]
    simp only [binN]
    rw [bind_ok (getSize_run this h), bind_ok (getSize_run b h), if_pos hs]
  · intro h1 hb1 hs1 hlen hsz
    rw [binLoop_run f this b _ _ h1 (by rw [hb1 _ hlive, hl]) (by rw [hb1 _ hliveb, hb, hs]) hlen, hb1 _ hlive,
      hb1 _ hliveb]

theorem binN_mismatch (f : R → R → R) (this b : Loc) (h : Heap R) (hs : h.size this ≠ h.size b) :
    binN f this (some b) h = .ok (none, h) := by
  simp only [binN]
  rw [bind_ok (getSize_run this h), bind_ok (getSize_run b h), if_neg hs]; rfl

/-- 'b' methods: resize (in either way) and then a loop filling `this` from the operands. -/
theorem resize_then {this : Loc} {s : Size} {h : Heap R} {rs k : M R Unit} {d : List R} {ops : List Loc}
    (hrs : ∃ d0 c, rs h = .ok ((), { (h.setSize this s).setBuf this d0 with clock := c }) ∧ d0.length = s.count ∧
      (h.size this = s → d0 = h.buf this))
    (hops : ∀ l ∈ ops, h.size l = s)
    (hk : ∀ h1 : Heap R, (∀ l ∈ ops, h1.buf l = h.buf l) → (h1.buf this).length = s.count →
      k h1 = .ok ((), h1.setBuf this d)) :
    ∃ h', (rs >>= fun _ => k) h = .ok ((), h') ∧ Updated h h' this s d := by
  obtain ⟨d0, c, e, hd0, hsame⟩ := hrs
  rw [bind_ok e, hk _ ?_ ?_]
  · refine ⟨_, rfl, ?_, ?_, ?_, ?_, ?_, ?_⟩
    · simp
    · simp
    · intro l hl; simp [setBuf_buf, hl]
    · intro l hl; simp [setSize_size, hl]
    · simp
    · simp
  · intro l hl
    by_cases e : l = this
    · subst e; simp [hsame (hops _ hl)]
    · simp [setBuf_buf, e]
  · simp [hd0]

theorem resizeTo_run' (l : Loc) (s : Size) (h : Heap R) (hl : (h.buf l).length = (h.size l).count) :
    ∃ d c, resizeTo l s h = .ok ((), { (h.setSize l s).setBuf l d with clock := c }) ∧
      d.length = s.count ∧ (h.size l = s → d = h.buf l) := by
  obtain ⟨d, c, e, hd, hk⟩ := resizeTo_run l s h
  refine ⟨d, c, e, hd, ?_⟩
  intro hs; subst hs
  apply List.ext_getElem?
  intro i
  by_cases hi : i < d.length
  · exact hk i (by omega) (by omega)
  · rw [List.getElem?_eq_none (by omega), List.getElem?_eq_none (by omega)]

theorem unB_run (f : R → R) (this a : Loc) (h : Heap R) (hl : (h.buf this).length = (h.size this).count)
    (ha : (h.buf a).length = (h.size a).count) :
    ∃ h', unB f this (some a) h = .ok ((), h') ∧ Updated h h' this (h.size a) ((h.buf a).map f) := by
  simp only [unB]
  rw [bind_ok (getSize_run a h)]
  refine resize_then (ops := [a]) (resizeTo_run' this _ h hl) (by simp) ?_
  intro h1 hb hlen
  have hb' := hb a (by simp)
  rw [unLoop_run f a this _ h1 (by rw [hb', ha]) hlen, hb']

theorem unBC_run (f : R → R) (this a : Loc) (h : Heap R) (hl : (h.buf this).length = (h.size this).count)
    (ha : (h.buf a).length = (h.size a).count) :
    ∃ h', unBC f this (some a) h = .ok ((), h') ∧ Updated h h' this (h.size a) ((h.buf a).map f) := by
  simp only [unBC]
  rw [bind_ok (getSize_run a h)]
  refine resize_then (ops := [a]) (ensureSize_run this _ h hl) (by simp) ?_
  intro h1 hb hlen
  have hb' := hb a (by simp)
  rw [unLoop_run f a this _ h1 (by rw [hb', ha]) hlen, hb']

theorem unBX_run (f : R → R) (this a : Loc) (h : Heap R) (hl : (h.buf this).length = (h.size this).count)
    (ha : (h.buf a).length = (h.size a).count) :
    ∃ h', unBX f this (some a) h = .ok ((), h') ∧ Updated h h' this (h.size a) ((h.buf a).map f) :=
  unBC_run f this a h hl ha

theorem binB_run (f : R → R → R) (this a b : Loc) (h : Heap R) (hl : (h.buf this).length = (h.size this).count)
    (ha : (h.buf a).length = (h.size a).count) (hb : (h.buf b).length = (h.size b).count)
    (hs : h.size a = h.size b) :
    ∃ h', binB f this (some a) (some b) h = .ok ((), h') ∧
      Updated h h' this (h.size a) (List.zipWith f (h.buf a) (h.buf b)) := by
  simp only [binB]
  rw [bind_ok (getSize_run a h), bind_ok (getSize_run b h), if_pos hs]
  refine resize_then (ops := [a, b]) (ensureSize_run this _ h hl) (by simp [hs]) ?_
  intro h1 hb1 hlen
  have ha' := hb1 a (by simp)
  have hb' := hb1 b (by simp)
  rw [binLoop_run f a b this _ h1 (by rw [ha', ha]) (by rw [hb', hb, hs]) hlen, ha', hb']

theorem binBR_run (f : R → R → R) (this a b : Loc) (h : Heap R) (hl : (h.buf this).length = (h.size this).count)
    (ha : (h.buf a).length = (h.size a).count) (hb : (h.buf b).length = (h.size b).count)
    (hs : h.size a = h.size b) :
    ∃ h', binBR f this (some a) (some b) h = .ok ((), h') ∧
      Updated h h' this (h.size a) (List.zipWith f (h.buf a) (h.buf b)) := by
  simp only [binBR]
  rw [bind_ok (getSize_run a h), bind_ok (getSize_run b h), if_pos hs]
  refine resize_then (ops := [a, b]) (resizeTo_run' this _ h hl) (by simp [hs]) ?_
  intro h1 hb1 hlen
  have ha' := hb1 a (by simp)
  have hb' := hb1 b (by simp)
  rw [binLoop_run f a b this _ h1 (by rw [ha', ha]) (by rw [hb', hb, hs]) hlen, ha', hb']

theorem binB_mismatch (f : R → R → R) (this a b : Loc) (h : Heap R) (hs : h.size a ≠ h.size b) :
    binB f this (some a) (some b) h = .ok ((), h) := by
  simp only [binB]
  rw [bind_ok (getSize_run a h), bind_ok (getSize_run b h), if_neg hs]; rfl

theorem binBR_mismatch (f : R → R → R) (this a b : Loc) (h : Heap R) (hs : h.size a ≠ h.size b) :
    binBR f this (some a) (some b) h = .ok ((), h) := by
  simp only [binBR]
  rw [bind_ok (getSize_run a h), bind_ok (getSize_run b h), if_neg hs]; rfl

theorem setFrom_run (this a : Loc) (h : Heap R) (hl : (h.buf this).length = (h.size this).count)
    (ha : (h.buf a).length = (h.size a).count) :
    ∃ h', setFrom this (some a) h = .ok ((), h') ∧ Updated h h' this (h.size a) (h.buf a) := by
  have := unBC_run id this a h hl ha
  simpa [setFrom, unBC] using this

theorem duplicateFast_run (this : Loc) (h : Heap R) (hl : (h.buf this).length = (h.size this).count)
    (hlive : h.live this) :
    ∃ h', duplicateFast this h = .ok (some (this.like h.next), h') ∧
      Created h h' (this.like h.next) (h.size this) (h.buf this) := by
  have hn : ∃ s0, newLike this h = .ok (this.like h.next,
        { (h.setBuf (this.like h.next) []).setSize (this.like h.next) s0 with next := h.next + 1 }) ∧
        s0.count = 0 := by
      cases this
      · exact ⟨⟨0, 1, 1⟩, rfl, rfl⟩
      · exact ⟨⟨0, 0, 1⟩, rfl, rfl⟩
      · exact ⟨⟨0, 0, 0⟩, rfl, rfl⟩
  obtain ⟨s0, hn, hc0⟩ := hn
  have hne : this ≠ this.like h.next := live_ne_fresh hlive (like_id _ _)
  unfold duplicateFast
  rw [bind_ok hn]
  obtain ⟨h', e, u⟩ := setFrom_run (this.like h.next) this
    ({ (h.setBuf (this.like h.next) []).setSize (this.like h.next) s0 with next := h.next + 1 } : Heap R)
    (by simp [hc0]) (by simp [setBuf_buf, setSize_size, hne, hl])
  rw [bind_ok e]
  refine ⟨h', rfl, like_id _ _, ?_, ?_, ?_, ?_, ?_, ?_⟩
  · rw [u.buf]; simp [setBuf_buf, hne]
  · rw [u.size]; simp [setSize_size, hne]
  · intro l hl; rw [u.bufFrame l hl]; simp [setBuf_buf, hl]
  · intro l hl; rw [u.sizeFrame l hl]; simp [setSize_size, hl]
  · rw [u.next]
  · rw [u.junk]; simp

theorem fillAll_run (this : Loc) (v : R) (h : Heap R) (hl : (h.buf this).length = (h.size this).count) :
    fillAll this v h = .ok ((), h.setBuf this (List.replicate (h.size this).count v)) := by
  unfold fillAll
  rw [bind_ok (getSize_run this h)]
  rw [forN_eq _ (fun i => h.setBuf this ((List.replicate (h.size this).count v).take i ++ (h.buf this).drop i)) _ h
    (by simp)]
  · rw [List.take_of_length_le (by simp), List.drop_of_length_le (by omega)]; simp
  · intro i hi
    have hlm : (List.replicate (h.size this).count v).length = (h.buf this).length := by simp [hl]
    rw [store_ok _ (by simp [hl]; omega)]
    have h2 := set_take_append_drop hlm (i := i) (by simpa using hi)
    simp only [List.getElem_replicate] at h2
    simp only [setBuf_buf_same, setBuf_setBuf, h2]

theorem storeList_run (this : Loc) (xs : List R) (h : Heap R) (hl : (h.buf this).length = xs.length) :
    storeList this xs h = .ok ((), h.setBuf this xs) := by
  unfold storeList
  rw [forN_eq _ (fun i => h.setBuf this (xs.take i ++ (h.buf this).drop i)) _ h (by simp)]
  · rw [List.take_of_length_le (by simp), List.drop_of_length_le (by omega)]; simp
  · intro i hi
    simp only [List.getElem?_eq_getElem hi]
    rw [store_ok _ (by simp [hl]; omega)]
    have h2 := set_take_append_drop hl.symm hi
    simp only [setBuf_buf_same, setBuf_setBuf, h2]

theorem readAll_run (this : Loc) (n : Nat) (h : Heap R) (hl : (h.buf this).length = n) :
    readAll this n h = .ok (h.buf this, h) := by
  unfold readAll
  rw [foldN_read n (fun i => (h.buf this).take i) _ [] h (by simp)]
  · rw [List.take_of_length_le (by omega)]
  · intro i hi
    rw [bind_ok (load_ok' (by omega))]
    rw [← List.take_append_getElem (by omega : i < (h.buf this).length)]; rfl

/-- Well-formedness of a heap in which one object got extents and contents that agree. -/
theorem Updated.wf {h h' : Heap R} {o : Loc} {s : Size} {d : List R} (u : Updated h h' o s d) (w : h.WF)
    (hd : d.length = s.count) (hv : ∀ i, o = .v i → s.y = 1 ∧ s.z = 1) (hm : ∀ i, o = .m i → s.z = 1) : h'.WF where
  len := by
    intro l
    by_cases e : l = o
    · subst e; rw [u.buf, u.size, hd]
    · rw [u.bufFrame l e, u.sizeFrame l e, w.len]
  vec := by
    intro i
    by_cases e : Loc.v i = o
    · have := hv i e.symm; rw [e, u.size]; exact this
    · rw [u.sizeFrame _ e]; exact w.vec i
  mat := by
    intro i
    by_cases e : Loc.m i = o
    · have := hm i e.symm; rw [e, u.size]; exact this
    · rw [u.sizeFrame _ e]; exact w.mat i

theorem Created.wf {h h' : Heap R} {o : Loc} {s : Size} {d : List R} (u : Created h h' o s d) (w : h.WF)
    (hd : d.length = s.count) (hv : ∀ i, o = .v i → s.y = 1 ∧ s.z = 1) (hm : ∀ i, o = .m i → s.z = 1) : h'.WF where
  len := by
    intro l
    by_cases e : l = o
    · subst e; rw [u.buf, u.size, hd]
    · rw [u.bufFrame l e, u.sizeFrame l e, w.len]
  vec := by
    intro i
    by_cases e : Loc.v i = o
    · have := hv i e.symm; rw [e, u.size]; exact this
    · rw [u.sizeFrame _ e]; exact w.vec i
  mat := by
    intro i
    by_cases e : Loc.m i = o
    · have := hm i e.symm; rw [e, u.size]; exact this
    · rw [u.sizeFrame _ e]; exact w.mat i

theorem updated_setBuf (h : Heap R) (o : Loc) (d : List R) : Updated h (h.setBuf o d) o (h.size o) d where
  buf := by simp
  size := by simp
  bufFrame := by intro l hl; simp [setBuf_buf, hl]
  sizeFrame := by intro l hl; simp
  next := by simp
  junk := by simp

theorem init_wf (junk : Nat → Nat → R) : (Heap.init junk).WF where
  len := by intro l; cases l <;> rfl
  vec := by intro i; exact ⟨rfl, rfl⟩
  mat := by intro i; rfl

end Verif
