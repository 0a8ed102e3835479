import Verif.Base

/-! # Lemmas about the execution model -/

namespace Verif
variable {R : Type} {α β σ : Type}

@[simp] theorem pure_run (a : α) (h : Heap R) : (pure a : M R α) h = .ok (a, h) := rfl

theorem bind_run (m : M R α) (k : α → M R β) (h : Heap R) :
    (m >>= k) h = match m h with
      | .ok (a, h') => k a h'
      | .crash => .crash
      | .ub => .ub := rfl

theorem bind_ok {m : M R α} {k : α → M R β} {h h' : Heap R} {a : α} (e : m h = .ok (a, h')) :
    (m >>= k) h = k a h' := by rw [bind_run, e]

theorem bind_ub {m : M R α} {k : α → M R β} {h : Heap R} (e : m h = .ub) :
    (m >>= k) h = .ub := by rw [bind_run, e]

theorem bind_crash {m : M R α} {k : α → M R β} {h : Heap R} (e : m h = .crash) :
    (m >>= k) h = .crash := by rw [bind_run, e]

theorem M.ext {m₁ m₂ : M R α} (e : ∀ h, m₁ h = m₂ h) : m₁ = m₂ := funext e

instance : LawfulMonad (M R) := LawfulMonad.mk'
  (id_map := by
    intro α x; apply M.ext; intro h
    show (match x h with | .ok (a, h') => (pure (id a) : M R α) h' | .crash => .crash | .ub => .ub) = x h
    cases x h <;> rfl)
  (pure_bind := by intro α β x f; rfl)
  (bind_assoc := by
    intro α β γ x f g; apply M.ext; intro h
    simp only [bind_run]
    cases x h <;> rfl)

@[simp] theorem crash_run (h : Heap R) : (crash : M R α) h = .crash := rfl
@[simp] theorem ub_run (h : Heap R) : (ub : M R α) h = .ub := rfl

@[simp] theorem setBuf_buf_same (h : Heap R) (l : Loc) (d : List R) : (h.setBuf l d).buf l = d := by
  simp [Heap.setBuf]
theorem setBuf_buf_ne (h : Heap R) {l l' : Loc} (d : List R) (e : l' ≠ l) :
    (h.setBuf l d).buf l' = h.buf l' := by
  simp [Heap.setBuf, e]
theorem setBuf_buf (h : Heap R) (l l' : Loc) (d : List R) :
    (h.setBuf l d).buf l' = if l' = l then d else h.buf l' := rfl
@[simp] theorem setBuf_size (h : Heap R) (l : Loc) (d : List R) : (h.setBuf l d).size = h.size := rfl
@[simp] theorem setBuf_next (h : Heap R) (l : Loc) (d : List R) : (h.setBuf l d).next = h.next := rfl
@[simp] theorem setBuf_junk (h : Heap R) (l : Loc) (d : List R) : (h.setBuf l d).junk = h.junk := rfl
@[simp] theorem setBuf_clock (h : Heap R) (l : Loc) (d : List R) : (h.setBuf l d).clock = h.clock := rfl
@[simp] theorem setSize_buf (h : Heap R) (l : Loc) (s : Size) : (h.setSize l s).buf = h.buf := rfl
@[simp] theorem setSize_size_same (h : Heap R) (l : Loc) (s : Size) : (h.setSize l s).size l = s := by
  simp [Heap.setSize]
theorem setSize_size_ne (h : Heap R) {l l' : Loc} (s : Size) (e : l' ≠ l) :
    (h.setSize l s).size l' = h.size l' := by
  simp [Heap.setSize, e]
theorem setSize_size (h : Heap R) (l l' : Loc) (s : Size) :
    (h.setSize l s).size l' = if l' = l then s else h.size l' := rfl
@[simp] theorem setSize_next (h : Heap R) (l : Loc) (s : Size) : (h.setSize l s).next = h.next := rfl
@[simp] theorem setSize_junk (h : Heap R) (l : Loc) (s : Size) : (h.setSize l s).junk = h.junk := rfl
@[simp] theorem setSize_clock (h : Heap R) (l : Loc) (s : Size) : (h.setSize l s).clock = h.clock := rfl

@[simp] theorem setBuf_self (h : Heap R) (l : Loc) : h.setBuf l (h.buf l) = h := by
  cases h; simp only [Heap.setBuf]; congr 1; funext l'; by_cases e : l' = l <;> simp [e]
@[simp] theorem setSize_self (h : Heap R) (l : Loc) : h.setSize l (h.size l) = h := by
  cases h; simp only [Heap.setSize]; congr 1; funext l'; by_cases e : l' = l <;> simp [e]
@[simp] theorem setBuf_setBuf (h : Heap R) (l : Loc) (d d' : List R) :
    (h.setBuf l d).setBuf l d' = h.setBuf l d' := by
  simp only [Heap.setBuf]; congr 1; funext l'; by_cases e : l' = l <;> simp [e]
@[simp] theorem setSize_setSize (h : Heap R) (l : Loc) (d d' : Size) :
    (h.setSize l d).setSize l d' = h.setSize l d' := by
  simp only [Heap.setSize]; congr 1; funext l'; by_cases e : l' = l <;> simp [e]

@[simp] theorem getSize_run (l : Loc) (h : Heap R) : getSize l h = .ok (h.size l, h) := rfl
@[simp] theorem putSize_run (l : Loc) (s : Size) (h : Heap R) :
    putSize l s h = .ok ((), h.setSize l s) := rfl
@[simp] theorem isNull_run (l : Loc) (h : Heap R) : isNull l h = .ok ((h.buf l).isEmpty, h) := rfl

theorem load_ok {l : Loc} {i : Nat} {h : Heap R} {v : R} (e : (h.buf l)[i]? = some v) :
    load l i h = .ok (v, h) := by simp [load, e]
theorem load_ok' {l : Loc} {i : Nat} {h : Heap R} (e : i < (h.buf l).length) :
    load l i h = .ok ((h.buf l)[i], h) := load_ok (List.getElem?_eq_getElem e)
theorem load_ub {l : Loc} {i : Nat} {h : Heap R} (e : (h.buf l).length ≤ i) :
    load l i h = .ub := by simp [load, List.getElem?_eq_none e]

theorem store_ok {l : Loc} {i : Nat} {h : Heap R} (v : R) (e : i < (h.buf l).length) :
    store l i v h = .ok ((), h.setBuf l ((h.buf l).set i v)) := by simp [store, e]
theorem store_ub {l : Loc} {i : Nat} {h : Heap R} (v : R) (e : (h.buf l).length ≤ i) :
    store l i v h = .ub := by simp [store, Nat.not_lt.mpr e]

theorem memrealloc_run (l : Loc) (n : Nat) (h : Heap R) :
    memrealloc l n h =
      .ok ((), { h.setBuf l (growTo (h.buf l) n (h.junk h.clock)) with clock := h.clock + 1 }) := rfl
@[simp] theorem memfree_run (l : Loc) (h : Heap R) : memfree l h = .ok ((), h.setBuf l []) := rfl

@[simp] theorem length_growTo (d : List R) (n : Nat) (j : Nat → R) : (growTo d n j).length = n := by
  simp [growTo]; omega

theorem growTo_getElem? (d : List R) (n : Nat) (j : Nat → R) (i : Nat) (h1 : i < d.length) (h2 : i < n) :
    (growTo d n j)[i]? = d[i]? := by
  have : i < min n d.length := by omega
  simp [growTo, List.getElem?_append, this]

theorem growTo_le (d : List R) {n : Nat} (j : Nat → R) (h : n ≤ d.length) : growTo d n j = d.take n := by
  simp [growTo, Nat.sub_eq_zero_of_le h]

@[simp] theorem growTo_self (d : List R) (j : Nat → R) : growTo d d.length j = d := by
  rw [growTo_le _ _ (Nat.le_refl _), List.take_length]

@[simp] theorem growTo_zero (d : List R) (j : Nat → R) : growTo d 0 j = [] := by simp [growTo]

/-! ## Loops -/

theorem loop_zero (lo : Nat) (s : σ) (body : Nat → σ → M R σ) : loop lo 0 s body = pure s := rfl
theorem loop_succ (lo c : Nat) (s : σ) (body : Nat → σ → M R σ) :
    loop lo (c + 1) s body = body lo s >>= fun s' => loop (lo + 1) c s' body := rfl

/-- A loop whose state after each step is known explicitly. -/
theorem loop_eq (F : Nat → σ) (G : Nat → Heap R) (body : Nat → σ → M R σ) :
    ∀ (cnt lo : Nat) (s : σ) (h : Heap R), s = F lo → h = G lo →
      (∀ i, lo ≤ i → i < lo + cnt → body i (F i) (G i) = .ok (F (i + 1), G (i + 1))) →
      loop lo cnt s body h = .ok (F (lo + cnt), G (lo + cnt)) := by
  intro cnt
  induction cnt with
  | zero => intro lo s h hs hh _; subst hs; subst hh; rfl
  | succ c ih =>
    intro lo s h hs hh step
    subst hs; subst hh
    rw [loop_succ, bind_ok (step lo (Nat.le_refl _) (by omega))]
    have := ih (lo + 1) (F (lo + 1)) (G (lo + 1)) rfl rfl (fun i h1 h2 => step i (by omega) (by omega))
    rw [this, Nat.add_right_comm]; rfl

theorem forN_eq (n : Nat) (G : Nat → Heap R) (body : Nat → M R Unit) (h : Heap R) (h0 : h = G 0)
    (step : ∀ i, i < n → body i (G i) = .ok ((), G (i + 1))) :
    forN n body h = .ok ((), G n) := by
  have := loop_eq (fun _ => ()) G (fun i _ => body i) n 0 () h rfl h0
    (fun i _ h2 => step i (by omega))
  simpa [forN] using this

theorem foldN_eq (n : Nat) (F : Nat → σ) (G : Nat → Heap R) (body : Nat → σ → M R σ) (s : σ) (h : Heap R)
    (hs : s = F 0) (h0 : h = G 0)
    (step : ∀ i, i < n → body i (F i) (G i) = .ok (F (i + 1), G (i + 1))) :
    foldN n s body h = .ok (F n, G n) := by
  have := loop_eq F G body n 0 s h hs h0 (fun i _ h2 => step i (by omega))
  simpa [foldN] using this

/-- A loop that only reads the heap. -/
theorem foldN_read (n : Nat) (F : Nat → σ) (body : Nat → σ → M R σ) (s : σ) (h : Heap R) (hs : s = F 0)
    (step : ∀ i, i < n → body i (F i) h = .ok (F (i + 1), h)) :
    foldN n s body h = .ok (F n, h) :=
  foldN_eq n F (fun _ => h) body s h hs rfl step

/-! ## `Runs` -/

theorem Runs.of_eq {m : M R α} {h h' : Heap R} {a : α} {Q : α → Heap R → Prop}
    (e : m h = .ok (a, h')) (q : Q a h') : Runs m h Q := by simp [Runs, e, q]

theorem runs_iff {m : M R α} {h : Heap R} {Q : α → Heap R → Prop} :
    Runs m h Q ↔ ∃ a h', m h = .ok (a, h') ∧ Q a h' := by
  unfold Runs
  cases e : m h with
  | ok p =>
    obtain ⟨a, h'⟩ := p
    constructor
    · intro q; exact ⟨a, h', rfl, q⟩
    · rintro ⟨_, _, e, q⟩; cases e; exact q
  | crash => simp
  | ub => simp

theorem Runs.mono {m : M R α} {h : Heap R} {Q Q' : α → Heap R → Prop} (r : Runs m h Q)
    (i : ∀ a h', Q a h' → Q' a h') : Runs m h Q' := by
  rw [runs_iff] at *
  obtain ⟨a, h', e, q⟩ := r
  exact ⟨a, h', e, i _ _ q⟩

theorem Runs.bind {m : M R α} {k : α → M R β} {h : Heap R} {Q : β → Heap R → Prop}
    (r : Runs m h (fun a h' => Runs (k a) h' Q)) : Runs (m >>= k) h Q := by
  rw [runs_iff] at r
  obtain ⟨a, h', e, q⟩ := r
  unfold Runs at *
  rw [bind_ok e]; exact q

theorem runs_bind_iff {m : M R α} {k : α → M R β} {h : Heap R} {Q : β → Heap R → Prop} :
    Runs (m >>= k) h Q ↔ Runs m h (fun a h' => Runs (k a) h' Q) := by
  constructor
  · intro r
    unfold Runs at *
    rw [bind_run] at r
    cases e : m h with
    | ok p => cases p; rw [e] at r; exact r
    | crash => rw [e] at r; exact r
    | ub => rw [e] at r; exact r
  · exact Runs.bind

@[simp] theorem runs_pure {a : α} {h : Heap R} {Q : α → Heap R → Prop} :
    Runs (pure a) h Q ↔ Q a h := Iff.rfl

theorem Runs.loop (I : Nat → σ → Heap R → Prop) (body : Nat → σ → M R σ) :
    ∀ (cnt lo : Nat) (s : σ) (h : Heap R), I lo s h →
      (∀ i s h, lo ≤ i → i < lo + cnt → I i s h → Runs (body i s) h (fun s' h' => I (i + 1) s' h')) →
      Runs (loop lo cnt s body) h (fun s' h' => I (lo + cnt) s' h') := by
  intro cnt
  induction cnt with
  | zero => intro lo s h hI _; exact hI
  | succ c ih =>
    intro lo s h hI step
    apply Runs.bind
    refine (step lo s h (Nat.le_refl _) (by omega) hI).mono ?_
    intro s' h' hI'
    have := ih (lo + 1) s' h' hI' (fun i s h h1 h2 => step i s h (by omega) (by omega))
    rw [show lo + (c + 1) = lo + 1 + c by omega]
    exact this

theorem Runs.forN (n : Nat) (I : Nat → Heap R → Prop) (body : Nat → M R Unit) (h : Heap R) (h0 : I 0 h)
    (step : ∀ i h, i < n → I i h → Runs (body i) h (fun _ h' => I (i + 1) h')) :
    Runs (forN n body) h (fun _ h' => I n h') := by
  have := Runs.loop (fun i _ h => I i h) (fun i (_ : Unit) => body i) n 0 () h h0
    (fun i _ h _ h2 hI => step i h (by omega) hI)
  simpa [Verif.forN] using this

theorem Runs.foldN (n : Nat) (I : Nat → σ → Heap R → Prop) (body : Nat → σ → M R σ) (s : σ) (h : Heap R)
    (h0 : I 0 s h)
    (step : ∀ i s h, i < n → I i s h → Runs (body i s) h (fun s' h' => I (i + 1) s' h')) :
    Runs (foldN n s body) h (fun s' h' => I n s' h') := by
  have := Runs.loop I body n 0 s h h0 (fun i s h _ h2 hI => step i s h (by omega) hI)
  simpa [Verif.foldN] using this

end Verif
