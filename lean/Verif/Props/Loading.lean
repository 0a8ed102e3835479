import Verif.Props.OneHot
import Verif.Props.Csv
import Verif.Props.Text
import Verif.Lemmas.RowApi
import Verif.Lemmas.LinAlgMatrix
import Verif.Lemmas.Advance
import Verif.Lemmas.StdVector

/-! # C76: loading data files; C69 for vectors -/

namespace Verif.Data
open Spec Text Mat
variable {k r : Nat}

/-- Field `j` of line `a`. -/
def cell (rows : List (List Str)) (a j : Nat) : Str := (rows.getD a []).getD j []

/-! ## Reading the fields -/

theorem field_ok {α : Type} {v : List α} {i : Nat} (hi : i < v.length) (h : Heap ℝ) : field v i h = .ok (v[i], h) := by
  unfold field; rw [List.getElem?_eq_getElem hi]; rfl

theorem fieldsTo_run (num : Str → ℝ) {ll : List Str} (hk : k ≤ ll.length) (h : Heap ℝ) :
    fieldsTo num ll k h = .ok ((ll.take k).map num, h) := by
  unfold fieldsTo
  have := foldN_read (R := ℝ) k (fun i => (ll.take i).map num) (fun i (row : List ℝ) => do
    let s ← field ll i
    pure (row ++ [num s])) [] h (by simp) ?_
  · exact this
  · intro i hi
    rw [bind_ok (field_ok (by omega) h)]
    show Out.ok (_, h) = _
    rw [List.take_add_one, List.getElem?_eq_getElem (by omega : i < ll.length), List.map_append]
    rfl

/-- A loop whose `k`-th round stops the program. -/
theorem foldN_crash {R σ : Type} (n k : Nat) (hk : k < n) (F : Nat → σ) (body : Nat → σ → M R σ) (s : σ) (h : Heap R) (hs : s = F 0)
    (step : ∀ i, i < k → body i (F i) h = .ok (F (i + 1), h)) (hu : body k (F k) h = .crash) :
    foldN n s body h = .crash := by
  unfold foldN
  have : ∀ (j lo c : Nat) (s : σ), lo + j = k → j < c → s = F lo → loop lo c s body h = .crash := by
    intro j
    induction j with
    | zero =>
      intro lo c s e hc hs
      obtain ⟨c, rfl⟩ : ∃ c', c = c' + 1 := ⟨c - 1, by omega⟩
      rw [loop_succ, hs, bind_crash (by rw [show lo = k by omega]; exact hu)]
    | succ j ih =>
      intro lo c s e hc hs
      obtain ⟨c, rfl⟩ : ∃ c', c = c' + 1 := ⟨c - 1, by omega⟩
      rw [loop_succ, hs, bind_ok (step lo (by omega))]
      exact ih (lo + 1) c _ (by omega) (by omega) rfl
  exact this k 0 n s (by omega) hk hs

/-- A line that is too short stops the program. -/
theorem fieldsTo_crash (num : Str → ℝ) {ll : List Str} (hk : ll.length < k) (h : Heap ℝ) : fieldsTo num ll k h = .crash := by
  unfold fieldsTo
  refine foldN_crash k ll.length hk (fun i => (ll.take i).map num) _ [] h (by simp) ?_ ?_
  · intro i hi
    rw [bind_ok (field_ok hi h)]
    show Out.ok (_, h) = _
    rw [List.take_add_one, List.getElem?_eq_getElem hi, List.map_append]
    rfl
  · refine bind_crash ?_
    unfold field
    rw [List.getElem?_eq_none (Nat.le_refl _)]; rfl

/-- The round of `set_data_supervised` for one line. -/
noncomputable def supStep (num : Str → ℝ) (k : Nat) (st : List (List ℝ) × List ℝ) (ll : List Str) : M ℝ (List (List ℝ) × List ℝ) := do
  let row ← fieldsTo num ll k
  let s ← field ll k
  pure (st.1 ++ [row], st.2 ++ [num s])

theorem supStep_run (num : Str → ℝ) {ll : List Str} (hl : k < ll.length) (st : List (List ℝ) × List ℝ) (h : Heap ℝ) :
    supStep num k st ll h = .ok ((st.1 ++ [(ll.take k).map num], st.2 ++ [num (ll.getD k [])]), h) := by
  unfold supStep
  rw [bind_ok (fieldsTo_run num (by omega) h), bind_ok (field_ok hl h)]
  simp [hl]

theorem supStep_crash (num : Str → ℝ) {ll : List Str} (hl : ll.length ≤ k) (st : List (List ℝ) × List ℝ) (h : Heap ℝ) :
    supStep num k st ll h = .crash := by
  unfold supStep
  rcases Nat.lt_or_ge ll.length k with q | q
  · exact bind_crash (fieldsTo_crash num q h)
  · rw [bind_ok (fieldsTo_run num q h)]
    refine bind_crash ?_
    unfold field
    rw [List.getElem?_eq_none (by omega)]; rfl

theorem sup_fold (num : Str → ℝ) (rows : List (List Str)) (hr : ∀ x ∈ rows, k < x.length) (st : List (List ℝ) × List ℝ) (h : Heap ℝ) :
    (rows.foldlM (supStep num k) st : M ℝ _) h =
    .ok ((st.1 ++ rows.map (fun ll => (ll.take k).map num), st.2 ++ rows.map fun ll => num (ll.getD k [])), h) := by
  induction rows generalizing st with
  | nil => simp
  | cons ll rows ih =>
    rw [List.foldlM_cons, bind_ok (supStep_run num (hr ll (by simp)) st h), ih fun x hx => hr x (by simp [hx])]
    simp

theorem sup_crash (num : Str → ℝ) (rows : List (List Str)) (hr : ∀ x ∈ rows, k < x.length) (bad : List Str) (hb : bad.length ≤ k) (rest : List (List Str))
    (st : List (List ℝ) × List ℝ) (h : Heap ℝ) : ((rows ++ bad :: rest).foldlM (supStep num k) st : M ℝ _) h = .crash := by
  rw [List.foldlM_append, bind_ok (sup_fold num rows hr st h), List.foldlM_cons]
  exact bind_crash (supStep_crash num hb _ h)

/-- A matrix made from rows of equal length. -/
theorem isMat_of_rows {h h' : Heap ℝ} {i c n : Nat} {rs : List (List ℝ)} (u : MUpd h h' i ⟨c, rs⟩) (hn : rs.length = n)
    {A : Matrix (Fin n) (Fin c) ℝ} (e : ∀ a j, (rs.getD a.val [])[j.val]? = some (A a j)) : IsMat h' i A := by
  subst hn
  refine ⟨u.upd.size, fun a j => ?_⟩
  rw [u.upd.buf, ← e a j]
  have := flatten_get u.good.len (List.getElem?_eq_getElem a.2) (show j.val < c from j.2)
  rw [this]; simp

/-- What `set_data_supervised` does with the lines of a file. -/
theorem supervised_run {h : Heap ℝ} (w : h.WF) (num : Str → ℝ) (hk : 0 < k) {text : Str} {rows : List (List Str)} (ht : Csv.lines text = rows)
    (hne : rows ≠ []) (hr : ∀ x ∈ rows, k < x.length) {i o : Nat} :
    Runs (set_data_supervised num k text (some i) (some o)) h fun _ h' => h'.WF ∧ Keeps h h' (fun l => l = .m i ∨ l = .v o) ∧
      IsMat h' i (fun (a : Fin rows.length) (j : Fin k) => num (cell rows a j)) ∧
      IsVec h' o (fun a : Fin rows.length => num (cell rows a k)) := by
  unfold set_data_supervised
  dsimp only
  rw [ht]
  refine Runs.step (sup_fold num rows hr ([], []) h) ?_
  dsimp only
  obtain ⟨h1, e1, u1⟩ := Vec.set_from_vector_run w o ([] ++ rows.map fun ll => num (ll.getD k []))
  refine Runs.step e1 ?_
  rw [List.nil_append] at u1 ⊢
  obtain ⟨r0, rs, hrs⟩ := List.exists_cons_of_ne_nil hne
  have hlen : ∀ x ∈ rows.map (fun ll => (ll.take k).map num), x.length = k := by
    intro x hx
    obtain ⟨ll, hll, rfl⟩ := List.mem_map.mp hx
    have := hr ll hll
    simp; omega
  obtain ⟨h2, e2, u2⟩ := set_from_vectors_cons (h := h1) (o := i) _ _ hk (by rw [hrs] at hlen; exact hlen)
  have e2' : set_from_vectors i (rows.map fun ll => (ll.take k).map num) h1 = .ok ((), h2) := by rw [hrs]; exact e2
  have u2' : MUpd h1 h2 i ⟨k, rows.map fun ll => (ll.take k).map num⟩ := by rw [hrs]; exact u2
  have w1 := VUpd.wf u1 w
  refine Runs.of_eq e2' ⟨Updated.wf u2'.upd w1 ?_ nofun (fun _ _ => rfl), ?_, ?_, ?_⟩
  · rw [count_mat]; exact flatten_length hlen
  · exact ((Updated.keeps u1).mono (by rintro l _ rfl; exact .inr rfl)).trans ((Updated.keeps u2'.upd).mono (by rintro l _ rfl; exact .inl rfl))
  · refine isMat_of_rows u2' (by simp) fun a j => ?_
    have := hr _ (List.getElem_mem a.2)
    have hj' : j.val < rows[a.val].length := by omega
    unfold cell
    simp [hj']
  · refine ⟨?_, fun a => ?_⟩
    · rw [u2'.upd.sizeFrame (.v o) nofun, u1.size]; simp
    · rw [u2'.upd.bufFrame (.v o) nofun, u1.buf]
      unfold cell; simp

/-- C76: `set_data_supervised` reads a file of lines of more than `k ≥ 1` fields, the lines separated by line breaks: the matrix gets the numbers
in the first `k` fields of each line, the vector the number in the next one. Nothing else changes. -/
theorem C76_supervised_partial {h : Heap ℝ} (w : h.WF) (num : Str → ℝ) (hk : 0 < k) (rows : List (List Str)) (hne : rows ≠ [])
    (hp : ∀ x ∈ rows, Csv.Plain x) (hr : ∀ x ∈ rows, k < x.length) {i o : Nat} :
    Runs (set_data_supervised num k (['\n'].intercalate (rows.map (Csv.csvText ','))) (some i) (some o)) h fun _ h' =>
      h'.WF ∧ Keeps h h' (fun l => l = .m i ∨ l = .v o) ∧
      IsMat h' i (fun (a : Fin rows.length) (j : Fin k) => num (cell rows a j)) ∧
      IsVec h' o (fun a : Fin rows.length => num (cell rows a k)) :=
  supervised_run w num hk (Csv.C75_file rows hne hp) hne hr

/-- C76 fails for a file whose last line ends with a line break, which is what `store_csv_line` writes: the program is stopped. -/
theorem C76_newline_fails (h : Heap ℝ) (num : Str → ℝ) (hk : 0 < k) (rows : List (List Str)) (hp : ∀ x ∈ rows, Csv.Plain x)
    (hr : ∀ x ∈ rows, k < x.length) (i o : Nat) :
    set_data_supervised num k (rows.flatMap (Csv.store_csv_line ',')) (some i) (some o) h = .crash := by
  unfold set_data_supervised
  dsimp only
  rw [Csv.C75_stored rows hp]
  exact bind_crash (sup_crash num rows hr [[]] hk [] _ h)

/-- C76: a missing matrix or vector: nothing happens. -/
theorem C76_null (h : Heap ℝ) (num : Str → ℝ) (text : Str) (x y : Option Nat) (hxy : x = none ∨ y = none) :
    set_data_supervised num k text x y h = .ok ((), h) ∧ set_data_simple num text x y h = .ok ((), h) ∧
    set_data_unsupervised num k text none h = .ok ((), h) := by
  rcases hxy with rfl | rfl
  · exact ⟨rfl, rfl, rfl⟩
  · cases x <;> exact ⟨rfl, rfl, rfl⟩

/-! ## Unsupervised -/

/-- The round of `set_data_unsupervised` for one line. -/
noncomputable def unsStep (num : Str → ℝ) (k : Nat) (cols : List (List ℝ)) (ll : List Str) : M ℝ (List (List ℝ)) := do
  let row ← fieldsTo num ll k
  pure (List.zipWith (fun c x => c ++ [x]) cols row)

theorem uns_fold (num : Str → ℝ) (rows done : List (List Str)) (hr : ∀ x ∈ rows, k ≤ x.length) (h : Heap ℝ) :
    (rows.foldlM (unsStep num k) ((List.range k).map fun j => done.map fun ll => num (ll.getD j [])) : M ℝ _) h =
    .ok ((List.range k).map (fun j => (done ++ rows).map fun ll => num (ll.getD j [])), h) := by
  induction rows generalizing done with
  | nil => simp
  | cons ll rows ih =>
    have hl := hr ll (by simp)
    have e : unsStep num k ((List.range k).map fun j => done.map fun ll => num (ll.getD j [])) ll h =
        .ok ((List.range k).map (fun j => (done ++ [ll]).map fun ll => num (ll.getD j [])), h) := by
      unfold unsStep
      rw [bind_ok (fieldsTo_run num hl h)]
      show Out.ok (_, h) = _
      congr 2
      apply List.ext_getElem?
      intro j
      rw [List.getElem?_zipWith]
      by_cases hj : j < k
      · have : j < ll.length := by omega
        simp [hj, this]
      · simp [hj]
    rw [List.foldlM_cons, bind_ok e, ih (done ++ [ll]) fun x hx => hr x (by simp [hx])]
    simp

/-- C76 fails for `set_data_unsupervised`: the matrix the caller passed gets the transpose of the data, one row for each field and one column for
each line; the transposed copy, which is the intended result, is dropped. -/
theorem C76_unsupervised_fails {h : Heap ℝ} (w : h.WF) (num : Str → ℝ) (hk : 0 < k) (rows : List (List Str)) (hne : rows ≠ [])
    (hp : ∀ x ∈ rows, Csv.Plain x) (hr : ∀ x ∈ rows, k ≤ x.length) {i : Nat} (li : h.live (.m i)) :
    Runs (set_data_unsupervised num k (['\n'].intercalate (rows.map (Csv.csvText ','))) (some i)) h fun _ h' =>
      h'.WF ∧ Keeps h h' (· = .m i) ∧ IsMat h' i (fun (j : Fin k) (a : Fin rows.length) => num (cell rows a j)) := by
  unfold set_data_unsupervised
  dsimp only
  rw [Csv.C75_file rows hne hp]
  have e0 : (List.replicate k ([] : List ℝ)) = (List.range k).map fun j => ([] : List (List Str)).map fun ll => num (ll.getD j []) := by
    apply List.ext_getElem?; intro j; by_cases hj : j < k <;> simp [hj]
  rw [e0]
  refine Runs.step (uns_fold num rows [] hr h) ?_
  rw [List.nil_append]
  have hlen : ∀ x ∈ (List.range k).map (fun j => rows.map fun ll => num (ll.getD j [])), x.length = rows.length := by
    intro x hx
    obtain ⟨j, _, rfl⟩ := List.mem_map.mp hx
    simp
  obtain ⟨k', rfl⟩ : ∃ k', k = k' + 1 := ⟨k - 1, by omega⟩
  have hpos : 0 < rows.length := List.length_pos_iff.mpr hne
  obtain ⟨c0, cs, hcs⟩ : ∃ c0 cs, (List.range (k' + 1)).map (fun j => rows.map fun ll => num (ll.getD j [])) = c0 :: cs :=
    List.exists_cons_of_ne_nil (by simp)
  obtain ⟨h2, e2, u2⟩ := set_from_vectors_cons (h := h) (o := i) c0 cs hpos (by rw [← hcs]; exact hlen)
  rw [← hcs] at e2 u2
  have w2 : h2.WF := Updated.wf u2.upd w (by rw [count_mat]; exact flatten_length hlen) nofun (fun _ _ => rfl)
  have k2 := Updated.keeps u2.upd
  have l2 := k2.live li
  have hm : IsMat h2 i (fun (j : Fin (k' + 1)) (a : Fin rows.length) => num (cell rows a j)) := by
    refine isMat_of_rows u2 (by simp) fun j a => ?_
    unfold cell
    simp [j.2]
  refine Runs.step e2 ?_
  refine Runs.bind ((LinAlg.transposenm_spec w2 hm l2).mono ?_)
  rintro _ h3 ⟨o, _, _, _, w3, k3, _⟩
  refine Runs.of_eq (a := ()) (h' := h3) rfl ⟨w3, k2.trans (k3.mono fun _ _ q => q.elim), ?_⟩
  obtain ⟨F, eF, cF⟩ := hm.cells w2
  exact (cF.keep k3 l2 id).isMat eF

/-! ## Simple -/

/-- The fields of a line of pairs. -/
def pairLine (ps : List (Str × Str)) : List Str := ps.flatMap fun p => [p.1, p.2]

theorem pairsGo_run (num : Str → ℝ) (ps : List (Str × Str)) (h : Heap ℝ) :
    pairsGo num (pairLine ps) h = .ok ((ps.map fun p => num p.1, ps.map fun p => num p.2), h) := by
  induction ps with
  | nil => rfl
  | cons p ps ih =>
    show (do let r ← pairsGo num (pairLine ps); pure (num p.1 :: r.1, num p.2 :: r.2) : M ℝ _) h = _
    rw [bind_ok ih]; rfl

/-- The round of `set_data_simple` for one line. -/
noncomputable def simStep (num : Str → ℝ) (st : List ℝ × List ℝ) (ll : List Str) : M ℝ (List ℝ × List ℝ) := do
  let p ← pairsGo num ll
  pure (st.1 ++ p.1, st.2 ++ p.2)

theorem sim_fold (num : Str → ℝ) (rows : List (List (Str × Str))) (st : List ℝ × List ℝ) (h : Heap ℝ) :
    ((rows.map pairLine).foldlM (simStep num) st : M ℝ _) h =
    .ok ((st.1 ++ rows.flatten.map (fun p => num p.1), st.2 ++ rows.flatten.map fun p => num p.2), h) := by
  induction rows generalizing st with
  | nil => simp
  | cons ps rows ih =>
    have e : simStep num st (pairLine ps) h = .ok ((st.1 ++ ps.map (fun p => num p.1), st.2 ++ ps.map fun p => num p.2), h) := by
      unfold simStep
      rw [bind_ok (pairsGo_run num ps h)]; rfl
    rw [List.map_cons, List.foldlM_cons, bind_ok e, ih]
    simp

/-- C76: `set_data_simple` reads a file of lines of pairs of fields: the input vector gets the numbers in the first fields of the pairs, the output
vector those in the second fields. -/
theorem C76_simple_partial {h : Heap ℝ} (w : h.WF) (num : Str → ℝ) (rows : List (List (Str × Str))) (hne : rows ≠ [])
    (hp : ∀ x ∈ rows, Csv.Plain (pairLine x)) {i o : Nat} (hio : i ≠ o) :
    Runs (set_data_simple num (['\n'].intercalate ((rows.map pairLine).map (Csv.csvText ','))) (some i) (some o)) h fun _ h' =>
      h'.WF ∧ Keeps h h' (fun l => l = .v i ∨ l = .v o) ∧
      h'.vec i = rows.flatten.map (fun p => num p.1) ∧ h'.vec o = rows.flatten.map fun p => num p.2 := by
  unfold set_data_simple
  dsimp only
  rw [Csv.C75_file (rows.map pairLine) (by simpa using hne) (by
    intro x hx; obtain ⟨y, hy, rfl⟩ := List.mem_map.mp hx; exact hp y hy)]
  refine Runs.step (sim_fold num rows ([], []) h) ?_
  dsimp only
  rw [List.nil_append, List.nil_append]
  obtain ⟨h1, e1, u1⟩ := Vec.set_from_vector_run w i (rows.flatten.map fun p => num p.1)
  obtain ⟨h2, e2, u2⟩ := Vec.set_from_vector_run (VUpd.wf u1 w) o (rows.flatten.map fun p => num p.2)
  refine Runs.step e1 (Runs.of_eq e2 ⟨VUpd.wf u2 (VUpd.wf u1 w), ?_, ?_, u2.vec_same⟩)
  · exact ((Updated.keeps u1).mono (by rintro l _ rfl; exact .inl rfl)).trans ((Updated.keeps u2).mono (by rintro l _ rfl; exact .inr rfl))
  · rw [u2.vec_ne hio, u1.vec_same]

/-! ## The loaders -/

/-- C76: `load_breast_cancer`, `load_breast_cancer_svc`, `load_california_housing`: a new matrix and a new vector with the numbers in the file. -/
theorem C76_load_partial {h : Heap ℝ} (w : h.WF) (num : Str → ℝ) (hk : 0 < k) (rows : List (List Str)) (hne : rows ≠ [])
    (hp : ∀ x ∈ rows, Csv.Plain x) (hr : ∀ x ∈ rows, k < x.length) :
    Runs (load_simple num k (['\n'].intercalate (rows.map (Csv.csvText ',')))) h fun r h' => ∃ i o : Nat, r = (some (.m i), some (.v o)) ∧
      h'.WF ∧ Keeps h h' (fun _ => False) ∧ (¬ h.live (.m i) ∧ h'.live (.m i)) ∧ (¬ h.live (.v o) ∧ h'.live (.v o)) ∧
      IsMat h' i (fun (a : Fin rows.length) (j : Fin k) => num (cell rows a j)) ∧
      IsVec h' o (fun a : Fin rows.length => num (cell rows a k)) := by
  unfold load_simple
  refine Runs.newM w ?_
  intro h1 w1 k1 n1 l1 _
  refine Runs.newV w1 ?_
  intro h2 w2 k2 n2 l2 _
  have k12 := k1.trans k2
  have n2' : ¬ h.live (.v h1.next) := fun q => n2 (k1.live q)
  generalize h.next = i at *
  generalize h1.next = o at *
  refine Runs.bind ((supervised_run (i := i) (o := o) w2 num hk (Csv.C75_file rows hne hp) hne hr).mono ?_)
  rintro _ h3 ⟨w3, k3, hm, hv⟩
  exact Runs.of_eq (a := (some (.m i), some (.v o))) (h' := h3) rfl ⟨i, o, rfl, w3,
    k12.newer k3 (by rintro l (rfl | rfl); exacts [n1, n2']), ⟨n1, k3.live (k2.live l1)⟩, ⟨n2', k3.live l2⟩, hm, hv⟩

/-- C76: `load_iris`, `load_wine`, `load_mnist_train`, `load_mnist_test`: a new matrix with the numbers in the first `k` fields of the lines, and
a new matrix with a row for each line: 1 in the column of the class number in the next field, 0 elsewhere. -/
theorem C76_classes_partial {h : Heap ℝ} (w : h.WF) (num : Str → ℝ) (hk : 0 < k) (rows : List (List Str)) (hne : rows ≠ [])
    (hp : ∀ x ∈ rows, Csv.Plain x) (hr : ∀ x ∈ rows, k < x.length) (n_class : Nat) (c : Fin rows.length → ℤ)
    (hc : ∀ a : Fin rows.length, num (cell rows a k) = (c a : ℝ)) (hrange : ∀ a, -2147483648 ≤ c a ∧ c a < 2147483648) :
    Runs (load_complex num k n_class (['\n'].intercalate (rows.map (Csv.csvText ',')))) h fun r h' => ∃ i o : Nat,
      r = (some (.m i), some (.m o)) ∧ i ≠ o ∧
      h'.WF ∧ Keeps h h' (fun _ => False) ∧ (¬ h.live (.m i) ∧ h'.live (.m i)) ∧ (¬ h.live (.m o) ∧ h'.live (.m o)) ∧
      IsMat h' i (fun (a : Fin rows.length) (j : Fin k) => num (cell rows a j)) ∧
      IsMat h' o (fun (a : Fin rows.length) (j : Fin n_class) => if c a = (j.val : Int) then 1 else 0) := by
  unfold load_complex
  refine Runs.newV w ?_
  intro h1 w1 k1 n1 l1 _
  refine Runs.newM w1 ?_
  intro h2 w2 k2 n2 l2 _
  have n2' : ¬ h.live (.m h1.next) := fun q => n2 (k1.live q)
  refine Runs.newM w2 ?_
  intro h3 w3 k3 _ _ _
  have k13 := (k1.trans k2).trans k3
  have l1' := k3.live (k2.live l1)
  have l2' := k3.live l2
  generalize h.next = v at *
  generalize h1.next = i at *
  refine Runs.bind ((supervised_run (i := i) (o := v) w3 num hk (Csv.C75_file rows hne hp) hne hr).mono ?_)
  rintro _ h4 ⟨w4, k4, hm, hv⟩
  have kn := k13.newer k4 (by rintro l (rfl | rfl); exacts [n2', n1])
  rw [funext hc] at hv
  refine (C73_one_hot w4 (k4.live l1') c hv hrange n_class).bind fun o h5 w5 k5 f5 l5 ho => ?_
  obtain ⟨F, eF, cF⟩ := hm.cells w4
  have li4 := k4.live l2'
  exact Runs.of_eq (a := (some (.m i), some (.m o))) (h' := h5) rfl ⟨i, o, rfl, fun e => f5 (e ▸ li4), w5, kn.trans k5,
    ⟨n2', k5.live li4⟩, ⟨fun q => f5 (kn.live q), l5⟩, (cF.keep k5 li4 id).isMat eF, ho⟩

example : ∃ rows : List (List Str), rows ≠ [] ∧ (∀ x ∈ rows, Csv.Plain x) ∧ ∀ x ∈ rows, 2 < x.length :=
  ⟨[["1".toList, "2".toList, "0".toList], ["3".toList, "4".toList, "1".toList]], by simp, by simp [Csv.Plain], by simp⟩

/-! ## Sets -/

/-- C69: `vec_to_setnv` returns a new vector with the first occurrence of every element. -/
theorem C69_vector {h : Heap ℝ} (w : h.WF) {x : Nat} (_lx : h.live (.v x)) :
    Runs (vec_to_setnv (some (.v x))) h fun r h' => ∃ o, r = some (.v o) ∧ ¬ h.live (.v o) ∧ h'.live (.v o) ∧ h'.WF ∧
      Keeps h h' (fun _ => False) ∧ h'.vec o = firsts (h.vec x) := by
  unfold vec_to_setnv
  refine Runs.step (show derefV (some (.v x)) h = .ok (x, h) from rfl) ?_
  have ev : h.vec x = h.buf (.v x) := rfl
  have sz : Vec.size x h = .ok ((h.vec x).length, h) := by
    unfold Vec.size
    rw [bind_ok (getSize_run _ _), w.vsize]; rfl
  refine Runs.step sz ?_
  have hf := foldN_at (h.vec x) ([] : List ℝ)
    (fun set v => if set.foldl (fun new_element y => if y = v then false else new_element) true then set ++ [v] else set)
    (fun i set => do
      let v ← Vec.element_get x (i : Int)
      pure (if set.foldl (fun new_element y => if y = v then false else new_element) true then set ++ [v] else set)) h (by
    intro i c v e
    have e1 : Vec.element_get x (i : Int) h = .ok (v, h) := by
      unfold Vec.element_get
      have hi : i < (h.vec x).length := (List.getElem?_eq_some_iff.mp e).1
      rw [bind_ok sz]
      rw [if_pos (idxOk_nat hi)]
      exact load_ok (by rw [← ev]; simpa using e)
    rw [bind_ok e1]; rfl)
  refine Runs.step hf ?_
  rw [show (h.vec x).foldl _ [] = firsts (h.vec x) from vec_to_set_eq (h.vec x)]
  refine Runs.newV w ?_
  intro h1 w1 k1 n1 l1 _
  generalize h.next = o at *
  obtain ⟨h2, e2, u2⟩ := Vec.set_from_vector_run w1 o (firsts (h.vec x))
  refine Runs.step e2 ?_
  have k2 := Updated.keeps u2
  exact Runs.of_eq (a := some (.v o)) (h' := h2) rfl ⟨o, rfl, n1, k2.live l1, VUpd.wf u2 w1, k1.newer k2 (by rintro l rfl; exact n1), u2.vec_same⟩

end Verif.Data
