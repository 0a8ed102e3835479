import Verif.Lemmas.RowOps

/-! # `flatten_vectors` and `kronecker_product` -/

namespace Verif
open Spec
open SortArray (tab upd tab_get tab_length tab_set tab_of_list)
variable {R : Type} {m n p q : Nat}

theorem overwrite_append (b : List R) (a : Nat) (xs ys : List R) (h : a + xs.length ≤ b.length) :
    overwrite (overwrite b a xs) (a + xs.length) ys = overwrite b a (xs ++ ys) := by
  have h1 : (b.take a ++ xs).length = a + xs.length := by simp; omega
  unfold overwrite
  rw [← List.append_assoc (b.take a), List.take_left' h1, List.drop_append, h1,
    List.drop_eq_nil_of_le (by omega), List.nil_append, List.drop_drop, List.length_append, List.append_assoc,
    List.append_assoc]
  congr 4; omega

namespace Vec

theorem sumSizes_run {h : Heap R} (A : List Nat) (w : ∀ a ∈ A, h.size (.v a) = ⟨(h.vec a).length, 1, 1⟩) :
    sumSizes (A.map some) h = .ok ((A.map h.vec).flatten.length, h) := by
  induction A with
  | nil => rfl
  | cons a A ih =>
    simp only [List.map_cons, sumSizes, Option.map_some]
    rw [bind_ok (show deref (some (Loc.v a)) h = .ok (.v a, h) from rfl), bind_ok (getSize_run _ _), bind_ok (ih fun b hb => w b (by simp [hb])), w a (by simp),
      List.flatten_cons, List.length_append]
    rfl

theorem flattenLoop_run (out : Loc) (A : List Nat) : ∀ (k : Nat) (h : Heap R),
    (∀ a ∈ A, h.size (.v a) = ⟨(h.vec a).length, 1, 1⟩) → (∀ a ∈ A, Loc.v a ≠ out) →
    k + (A.map h.vec).flatten.length ≤ (h.buf out).length →
    flattenLoop out k (A.map some) h = .ok ((), h.setBuf out (overwrite (h.buf out) k (A.map h.vec).flatten)) := by
  induction A with
  | nil => intro k h _ _ _; simp [flattenLoop]
  | cons a A ih =>
    intro k h w hne hlen
    have hna := hne a (by simp)
    simp only [List.map_cons, List.flatten_cons, List.length_append] at hlen
    simp only [List.map_cons, flattenLoop, Option.map_some]
    rw [bind_ok (show deref (some (Loc.v a)) h = .ok (.v a, h) from rfl), bind_ok (getSize_run _ _), w a (by simp)]
    dsimp only
    rw [bind_ok (storeForN_run out (h.vec a).length k _ (h.vec a) h rfl (by omega) ?_)]
    · have hv : ∀ b ∈ A, (h.setBuf out (overwrite (h.buf out) k (h.vec a))).vec b = h.vec b := fun b hb =>
        setBuf_buf_ne _ _ (hne b (by simp [hb]))
      have hm : A.map (h.setBuf out (overwrite (h.buf out) k (h.vec a))).vec = A.map h.vec := List.map_congr_left hv
      rw [ih _ _ (fun b hb => by rw [setBuf_size, hv b hb]; exact w b (by simp [hb])) (fun b hb => hne b (by simp [hb])) (by
        rw [hm, setBuf_buf_same, length_overwrite _ _ _ (by omega)]; omega), hm, setBuf_buf_same, setBuf_setBuf,
        overwrite_append _ _ _ _ (by omega), List.flatten_cons]
    · intro t ht
      have : ((h.setBuf out (overwrite (h.buf out) k ((h.vec a).take t))).buf (.v a))[t]? = some (h.vec a)[t] := by
        rw [setBuf_buf_ne _ _ hna]; exact List.getElem?_eq_getElem ht
      rw [bind_ok (load_ok this)]

theorem flatten_vectorsn_run {h : Heap R} (w : h.WF) (A : List Nat) (hA : ∀ a ∈ A, h.live (.v a)) :
    ∃ h', flatten_vectorsn (A.map some) h = .ok (some (.v h.next), h') ∧
      Created h h' (.v h.next) ⟨(A.map h.vec).flatten.length, 1, 1⟩ (A.map h.vec).flatten := by
  have hne : ∀ a ∈ A, Loc.v a ≠ .v h.next := fun a ha => live_ne_fresh (hA a ha) rfl
  obtain ⟨h', e, c⟩ := newFill_run (.v 0) ⟨(A.map h.vec).flatten.length, 1, 1⟩ (fun out => flattenLoop out 0 (A.map some)) h
    (A.map h.vec).flatten (by
      intro h1 hb hs hlen hsz
      simp only [Loc.like] at hlen hsz ⊢
      rw [count_vec] at hlen
      have hv : ∀ a ∈ A, h1.vec a = h.vec a := fun a ha => hb _ (hA a ha)
      have hm : A.map h1.vec = A.map h.vec := List.map_congr_left hv
      rw [flattenLoop_run (.v h.next) A 0 h1 (fun a ha => by rw [hs _ (hA a ha), hv a ha, w.vsize]) hne (by
        rw [hm]; omega), hm]
      have : overwrite (h1.buf (.v h.next)) 0 (A.map h.vec).flatten = (A.map h.vec).flatten := by
        unfold overwrite; rw [List.drop_of_length_le (by omega)]; simp
      rw [this])
  refine ⟨h', ?_, c⟩
  unfold flatten_vectorsn
  have hn : newVec h = .ok (.v h.next, { (h.setBuf (.v h.next) []).setSize (.v h.next) ⟨0, 1, 1⟩ with next := h.next + 1 }) := rfl
  simp only [newLike] at e
  rw [bind_ok hn] at e ⊢
  have hv : ∀ a ∈ A, ({ (h.setBuf (.v h.next) []).setSize (.v h.next) ⟨0, 1, 1⟩ with next := h.next + 1 } : Heap R).vec a = h.vec a :=
    fun a ha => setBuf_buf_ne _ _ (hne a ha)
  rw [bind_ok (sumSizes_run A fun a ha => by
    rw [hv a ha]
    show (Heap.setSize _ _ _).size _ = _
    rw [setSize_size_ne _ _ (hne a ha)]; exact w.vsize a)]
  rw [List.map_congr_left hv]
  exact e

end Vec

theorem tab_congr {n : Nat} {f g : Nat → R} (e : ∀ i, i < n → f i = g i) : tab n f = tab n g :=
  List.map_congr_left fun i hi => e i (List.mem_range.mp hi)

theorem tab_drop_flatten (q : Nat) (G : Nat → Nat → R) (n : Nat) :
    ((List.range n).map fun k => tab q (G k)).flatten = tab (q * n) (flat q G) := by
  apply List.ext_getElem?
  intro i
  have hr : ∀ r ∈ (List.range n).map (fun k => tab q (G k)), r.length = q := by
    intro r hr; obtain ⟨k, _, rfl⟩ := List.mem_map.mp hr; simp
  by_cases hi : i < q * n
  · have hq : 0 < q := by
      rcases Nat.eq_zero_or_pos q with h | h
      · subst h; simp at hi
      · exact h
    have hd : i = i / q * q + i % q := by rw [Nat.mul_comm]; exact (Nat.div_add_mod _ _).symm
    have h1 : i / q < n := Nat.div_lt_of_lt_mul hi
    have h2 : i % q < q := Nat.mod_lt _ hq
    rw [hd, flatten_get hr (r := tab q (G (i / q))) (by simp [h1]) h2, tab_get _ _ _ h2, tab_flat_get G h1 h2]
  · rw [List.getElem?_eq_none (by rw [flatten_length hr]; simp; omega), List.getElem?_eq_none (by simp; omega)]

namespace Mat

/-- Everything the loops of `kronecker_product*` read. -/
structure KronOk (h0 h : Heap R) (a b out tmp : Nat) (n m q p : Nat) (F G : Nat → Nat → R) : Prop where
  wf : h.WF
  ca : Cells h (.m a) n m F
  cb : Cells h (.m b) q p G
  la : h.live (.m a)
  lb : h.live (.m b)
  lo : h.live (.m out)
  lt : h.live (.v tmp)
  keep : Keeps h0 h (fun l => l = .m out ∨ l = .v tmp)

/-- `row_get_into` for any shape (also width 0). -/
theorem row_get_into_cells {h : Heap R} (w : h.WF) {b v : Nat} {G : Nat → Nat → R} (cb : Cells h (.m b) q p G) {j : Nat}
    (hj : j < p) :
    ∃ h', row_get_into_mlpp_vector b (j : Int) (some v) h = .ok ((), h') ∧ VUpd h h' v (tab q (G j)) := by
  unfold row_get_into_mlpp_vector
  dsimp only
  rw [bind_ok (Mat.size_run b h), cb.1]
  dsimp only
  rw [if_pos (idxOk_nat hj), Int.toNat_natCast]
  obtain ⟨d, c, e, hd, _⟩ := ensureSize_run (.v v) ⟨q, 1, 1⟩ h (w.len _)
  rw [count_vec] at hd
  rw [bind_ok e]
  unfold rowCopy
  generalize hH : ({ (h.setSize (.v v) ⟨q, 1, 1⟩).setBuf (.v v) d with clock := c } : Heap R) = H
  have hb1 : H.buf (.v v) = d := by subst hH; simp
  have hb2 : H.buf (.m b) = h.buf (.m b) := by subst hH; simp [setBuf_buf]
  rw [storeForN_run (.v v) q 0 _ (tab q (G j)) H (by simp) (by rw [hb1]; omega)]
  · have : overwrite d 0 (tab q (G j)) = tab q (G j) := by
      unfold overwrite; rw [List.drop_of_length_le (by simp; omega)]; simp
    rw [hb1, this]
    refine ⟨_, rfl, ?_⟩
    subst hH
    unfold VUpd
    rw [tab_length]
    refine ⟨by simp, by simp, ?_, ?_, rfl, rfl⟩
    · intro l hl; simp [setBuf_buf, hl]
    · intro l hl; simp [setSize_size, hl]
  · intro t ht
    rw [bind_ok (load_ok (v := G j t) (by
      rw [setBuf_buf_ne (l := .v v) (l' := .m b) _ _ nofun, hb2]; exact cb.get hj ht)), Nat.zero_add]
    congr 1
    simp [tab]

theorem kronRow_run [Mul R] {h : Heap R} (w : h.WF) {a tmp : Nat} {F : Nat → Nat → R} {g : Nat → R}
    (ca : Cells h (.m a) n m F) (la : h.live (.m a)) (lt : h.live (.v tmp)) (ct : VCells h (.v tmp) q g) {i : Nat} (hi : i < m) :
    Runs (kronRow (.m a) n i tmp n) h fun acc h' => ∃ A : List Nat, acc = A.map some ∧ h'.WF ∧ Keeps h h' (fun _ => False) ∧
      (∀ x ∈ A, h'.live (.v x)) ∧ A.map h'.vec = (List.range n).map fun k => tab q fun l => g l * F i k := by
  unfold kronRow
  refine Runs.foldN n (fun k acc h' => ∃ A : List Nat, acc = A.map some ∧ h'.WF ∧ Keeps h h' (fun _ => False) ∧
      (∀ x ∈ A, h'.live (.v x)) ∧ A.map h'.vec = (List.range k).map fun k => tab q fun l => g l * F i k) _ _ h
    ⟨[], rfl, w, Keeps.refl _ _, by simp, rfl⟩ ?_
  rintro k _ h1 hk ⟨A, rfl, w1, k1, l1, e1⟩
  have ca1 := ca.keep k1 la nofun
  have ct1 := ct.keep k1 lt nofun
  refine Runs.step (load_ok (ca1.get hi hk)) ?_
  obtain ⟨h2, e2, c2⟩ := unN_run (· * F i k) (.v tmp) h1 (w1.len _) (k1.live lt)
  refine Runs.step (show Vec.scalar_multiplyn tmp (F i k) h1 = _ from e2) (Runs.step rfl ?_)
  have k2 := c2.keeps (fun _ => False)
  refine ⟨A ++ [h1.next], by simp, c2.wf w1 (by simp [w1.len]) (fun _ _ => w1.vec _) nofun, k1.trans k2, ?_, ?_⟩
  · intro x hx
    rcases List.mem_append.mp hx with h | h
    · exact k2.live (l1 x h)
    · simp only [List.mem_singleton] at h
      subst h
      unfold Heap.live; rw [c2.next]; exact Nat.lt_succ_self _
  · rw [List.map_append, List.range_succ, List.map_append, ← e1]
    congr 1
    · exact List.map_congr_left fun x hx => (k2.2 _ (l1 x hx) nofun).1
    · have := c2.buf
      rw [ct1.2] at this
      simp only [Loc.like] at this
      simp only [List.map_cons, List.map_nil]
      show [h2.buf (.v h1.next)] = _
      rw [this]; simp [tab]

theorem row_set_cells {h : Heap R} {o v c r : Nat} {F : Nat → Nat → R} {g : Nat → R}
    (co : Cells h (.m o) c r F) (cv : VCells h (.v v) c g) {k : Nat} (hk : k < r) :
    row_set_mlpp_vector o (k : Int) (some v) h = .ok ((), Gr h (.m o) c r fun i j => if i = k then g j else F i j) := by
  unfold row_set_mlpp_vector Vec.size
  dsimp only
  rw [bind_ok (bind_ok (getSize_run (.v v) h)), bind_ok (Mat.size_run o h), co.1, cv.1]
  dsimp only
  rw [if_pos rfl, if_pos (idxOk_nat hk), Int.toNat_natCast]
  have h0 : h = Gr h (.m o) c r F := by unfold Gr; rw [← co.2, setBuf_self]
  rw [forN_eq c (fun t => Gr h (.m o) c r fun i j => if i = k ∧ j < t then g j else F i j) _ h (by simpa using h0)]
  · congr 2
    exact Gr_congr fun i j _ hj => by simp [hj]
  · intro t ht
    rw [bind_ok (load_Gr_ne (l := .m o) (l' := .v v) nofun (cv.get ht)), store_Gr _ hk ht]
    congr 3; funext i j; simp only [upd2]; grind

theorem kronLoop_run [Mul R] {h : Heap R} {a b out tmp : Nat} {F G H : Nat → Nat → R}
    (k0 : KronOk h h a b out tmp n m q p F G) (co : Cells h (.m out) (q * n) (p * m) H) (ao : a ≠ out) (bo : b ≠ out) :
    Runs (kronLoop (.m a) b out tmp m n n p) h fun _ h' => KronOk h h' a b out tmp n m q p F G ∧
      Cells h' (.m out) (q * n) (p * m) fun r c => G (r % p) (c % q) * F (r / p) (c / q) := by
  let S : Nat → Nat → R := fun r c => G (r % p) (c % q) * F (r / p) (c / q)
  let I : Nat → Heap R → Prop := fun t h' => KronOk h h' a b out tmp n m q p F G ∧
    Cells h' (.m out) (q * n) (p * m) fun r c => if r < t then S r c else H r c
  have step : ∀ i j h1, i < m → j < p → I (i * p + j) h1 → Runs (do
      row_get_into_mlpp_vector b j (some tmp)
      let row ← kronRow (.m a) n i tmp n
      let fl ← Vec.flatten_vectorsn row
      let f ← derefV fl
      row_set_mlpp_vector out ((i * p + j : Nat) : Int) (some f)) h1 fun _ h2 => I (i * p + j + 1) h2 := by
    intro i j h1 hi hj ⟨k1, c1⟩
    have hrow : i * p + j < p * m := idx_lt hi hj
    obtain ⟨h2, e2, u2⟩ := row_get_into_cells k1.wf (v := tmp) k1.cb hj
    have kp2 := u2.keeps
    refine Runs.step e2 ?_
    refine Runs.bind (Runs.mono (kronRow_run (q := q) (g := G j) (u2.wf k1.wf) (k1.ca.keep kp2 k1.la nofun) (kp2.live k1.la)
      (kp2.live k1.lt) ⟨by rw [u2.size, tab_length], u2.buf⟩ hi) ?_)
    rintro _ h3 ⟨A, rfl, w3, kp3, l3, e3⟩
    obtain ⟨h4, e4, c4⟩ := Vec.flatten_vectorsn_run w3 A l3
    rw [e3, tab_drop_flatten, tab_length] at c4
    have kp4 := c4.keeps (fun _ => False)
    refine Runs.step e4 (Runs.step rfl ?_)
    have kp : Keeps h1 h4 (fun l => l = .m out ∨ l = .v tmp) :=
      ((kp2.mono fun _ _ h => Or.inr h).trans (kp3.mono fun _ _ h => h.elim)).trans (kp4.mono fun _ _ h => h.elim)
    have kp' : Keeps h1 h4 (· = .v tmp) :=
      (kp2.trans (kp3.mono fun _ _ h => h.elim)).trans (kp4.mono fun _ _ h => h.elim)
    have co4 := c1.keep kp' k1.lo nofun
    have w4 : h4.WF := c4.wf w3 (by simp [Size.count]) (fun _ _ => ⟨rfl, rfl⟩) nofun
    refine Runs.of_eq (row_set_cells co4 ⟨c4.size, c4.buf⟩ hrow) ⟨?_, ?_⟩
    · have kg : Keeps h4 (Gr h4 (.m out) (q * n) (p * m) fun i' j' => if i' = i * p + j then
          flat q (fun k l => G j l * F i k) j' else if i' < i * p + j then S i' j' else H i' j')
          (fun l => l = .m out ∨ l = .v tmp) := (Gr_updated h4 _ _ co4.1).keeps.mono fun _ _ h => Or.inl h
      have na : ¬ (Loc.m a = .m out ∨ Loc.m a = .v tmp) := by simp [ao]
      have nb : ¬ (Loc.m b = .m out ∨ Loc.m b = .v tmp) := by simp [bo]
      exact ⟨Gr_wf w4 _ co4.1, k1.ca.keep (kp.trans kg) k1.la na, k1.cb.keep (kp.trans kg) k1.lb nb,
        (kp.trans kg).live k1.la, (kp.trans kg).live k1.lb, (kp.trans kg).live k1.lo, (kp.trans kg).live k1.lt,
        k1.keep.trans (kp.trans kg)⟩
    · refine ⟨co4.1, ?_⟩
      rw [Gr_buf]
      refine flat_congr fun r c hr hc => ?_
      have hp : 0 < p := by omega
      have hS : ∀ c, flat q (fun k l => G j l * F i k) c = S (i * p + j) c := by
        intro c
        simp only [flat, S]
        rw [Nat.mul_comm i p, Nat.mul_add_div hp, Nat.div_eq_of_lt hj, Nat.mul_add_mod, Nat.mod_eq_of_lt hj, Nat.add_zero]
      rw [hS]
      grind
  unfold kronLoop
  have main := Runs.forN m (fun i h' => I (i * p) h') (fun i => forN p fun j => do
      row_get_into_mlpp_vector b j (some tmp)
      let row ← kronRow (.m a) n i tmp n
      let fl ← Vec.flatten_vectorsn row
      let f ← derefV fl
      row_set_mlpp_vector out ((i * p + j : Nat) : Int) (some f)) h ⟨k0, by simpa using co⟩ (by
    intro i h1 hi hI
    have := Runs.forN p (fun j h' => I (i * p + j) h') _ h1 hI (fun j h2 hj hI2 => step i j h2 hi hj hI2)
    refine this.mono fun _ h2 hq => ?_
    rw [Nat.succ_mul]; exact hq)
  refine main.mono fun _ h' hq => ⟨hq.1, hq.2.1, ?_⟩
  rw [hq.2.2]
  exact flat_congr fun r c hr _ => if_pos (by rw [Nat.mul_comm]; exact hr)

end Mat
end Verif
