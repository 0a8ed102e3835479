import Verif.Lemmas.WordToVec
import Verif.Lemmas.KMeans
import Verif.Lemmas.AnnOptRules
import Verif.Lemmas.NewJunk
import Verif.Props.SoftmaxNet

/-! # C145: `word_to_vec` -/

namespace Verif.Data
open Spec Text
variable {h : Heap ℝ}

/-- The words of a sentence that `word_to_vec` looks at: all but the stop words, in lower case. -/
def keptWords (low : Char → Char) (stop_words : List Str) (sentence : Str) : List Str := (segment (sentence.map low)).filter (· ∉ stop_words)

/-- **C145** (pairs): every word of a sentence is paired with every other word of the sentence that is at most `w` places away, once; the two lists have one
length. -/
theorem C145_pairs (w : Nat) (segs : List (List Str)) :
    (wordPairs w segs).1.length = (wordPairs w segs).2.length ∧
    ((wordPairs w segs).1.zip (wordPairs w segs).2).Perm (segs.flatMap fun s =>
      (((List.range s.length) ×ˢ (List.range s.length)).filter fun p => p.1 ≠ p.2 ∧ p.1 ≤ p.2 + w ∧ p.2 ≤ p.1 + w).map
        fun p => (s.getD p.1 [], s.getD p.2 [])) := by
  have zipf : ∀ {α : Type} (l : List α) (f g : α → List Str), (∀ a ∈ l, (f a).length = (g a).length) →
      (l.flatMap f).length = (l.flatMap g).length ∧ (l.flatMap f).zip (l.flatMap g) = l.flatMap fun a => (f a).zip (g a) := by
    intro α l f g hl
    induction l with
    | nil => simp
    | cons a l ih =>
      obtain ⟨i1, i2⟩ := ih fun b hb => hl b (by simp [hb])
      have ha := hl a (by simp)
      simp only [List.flatMap_cons, List.length_append]
      exact ⟨by rw [ha, i1], by rw [List.zip_append ha, i2]⟩
  have z1 : ∀ (s : List Str) (j : Nat), ((places w s.length j).map fun _ => s.getD j []).zip ((places w s.length j).map fun l => s.getD l []) =
      ((places w s.length j).map fun l => (j, l)).map fun p => (s.getD p.1 [], s.getD p.2 []) := by
    intro s j
    rw [List.zip_map', List.map_map]
    rfl
  have z2 := fun s : List Str => zipf (List.range s.length) (fun j => (places w s.length j).map fun _ => s.getD j [])
    (fun j => (places w s.length j).map fun l => s.getD l []) (fun _ _ => by simp)
  have z3 := zipf segs (fun s => (List.range s.length).flatMap fun j => (places w s.length j).map fun _ => s.getD j [])
    (fun s => (List.range s.length).flatMap fun j => (places w s.length j).map fun l => s.getD l []) (fun s _ => (z2 s).1)
  rw [wordPairs_eq]
  refine ⟨z3.1, ?_⟩
  rw [z3.2]
  refine List.Perm.flatMap_left _ fun s _ => ?_
  rw [(z2 s).2]
  have : ((List.range s.length).flatMap fun j => ((places w s.length j).map fun _ => s.getD j []).zip ((places w s.length j).map fun l => s.getD l [])) =
      ((List.range s.length).flatMap fun j => (places w s.length j).map fun l => (j, l)).map fun p => (s.getD p.1 [], s.getD p.2 []) := by
    rw [List.map_flatMap]
    congr 1
    funext j
    exact z1 s j
  rw [this]
  exact (near_perm w s.length).map _

theorem mem_inputs {w : Nat} {segs : List (List Str)} {x : Str} : x ∈ (wordPairs w segs).1 ↔ ∃ s ∈ segs, ∃ j < s.length, places w s.length j ≠ [] ∧ x = s.getD j [] := by
  rw [wordPairs_eq]
  simp only [List.mem_flatMap, List.mem_range, List.mem_map]
  constructor
  · rintro ⟨s, hs, j, hj, l, hl, rfl⟩
    exact ⟨s, hs, j, hj, List.ne_nil_of_mem hl, rfl⟩
  · rintro ⟨s, hs, j, hj, hp, rfl⟩
    obtain ⟨l, hl⟩ := List.exists_mem_of_ne_nil _ hp
    exact ⟨s, hs, j, hj, l, hl, rfl⟩

theorem mem_outputs {w : Nat} {segs : List (List Str)} {x : Str} (hx : x ∈ (wordPairs w segs).2) : x ∈ (wordPairs w segs).1 := by
  rw [wordPairs_eq] at hx
  simp only [List.mem_flatMap, List.mem_range, List.mem_map] at hx
  obtain ⟨s, hs, j, hj, l, hl, rfl⟩ := hx
  obtain ⟨h1, h2, h3, h4⟩ := (places_mem w s.length j l hj).1 hl
  refine mem_inputs.2 ⟨s, hs, l, h1, List.ne_nil_of_mem ((places_mem w s.length l j h1).2 ⟨hj, h2.symm, h4, h3⟩), rfl⟩

/-- The words that get an embedding: the columns of the bag of words made of the pairs. -/
def embedded (low : Char → Char) (stop_words sentences : List Str) (w : Nat) : List Str :=
  vocabulary low stop_words ((wordPairs w (sentences.map (remove_stop_words low stop_words))).1 ++
    (wordPairs w (sentences.map (remove_stop_words low stop_words))).2)

theorem embedded_eq (low : Char → Char) (hl : ∀ c, low (low c) = low c) (stop_words sentences : List Str) (w : Nat) :
    embedded low stop_words sentences w = firsts ((wordPairs w (sentences.map (remove_stop_words low stop_words))).1.filter (· ≠ [])) := by
  have tok : ∀ x ∈ (wordPairs w (sentences.map (remove_stop_words low stop_words))).1, countedWords low stop_words x = if x = [] then [] else [x] := by
    intro x hx
    obtain ⟨s, hs, j, hj, -, rfl⟩ := mem_inputs.1 hx
    obtain ⟨t, -, rfl⟩ := List.mem_map.1 hs
    refine countedWords_token low hl stop_words t _ ?_
    simp [hj]
  have fm : ∀ l : List Str, (∀ x ∈ l, countedWords low stop_words x = if x = [] then [] else [x]) → l.flatMap (countedWords low stop_words) = l.filter (· ≠ []) := by
    intro l hl
    induction l with
    | nil => rfl
    | cons x l ih =>
      rw [List.flatMap_cons, hl x (by simp), ih fun y hy => hl y (by simp [hy]), List.filter_cons]
      by_cases e : x = [] <;> simp [e]
  unfold embedded vocabulary
  rw [List.flatMap_append, fm _ tok, fm _ fun x hx => tok x (mem_outputs hx), firsts_eq]
  intro x hx
  rw [List.mem_filter] at hx ⊢
  exact ⟨mem_outputs hx.1, hx.2⟩

/-- **C145** (rows, as far as it holds): if every sentence has at least two words that are no stop words and the window is at least one, then the words with an
embedding are the words of the returned list, in the same order: row `i` of the embeddings belongs to word `i`. `low` is the conversion to lower case. -/
theorem C145_rows_partial (low : Char → Char) (hlow : low ' ' = ' ') (hl : ∀ c, low (low c) = low c) (stop_words sentences : List Str) (w : Nat) (hw : 1 ≤ w)
    (two : ∀ s ∈ sentences, 2 ≤ (keptWords low stop_words s).length) :
    wordList low stop_words sentences = some (embedded low stop_words sentences w) := by
  rw [C70_words low hlow, embedded_eq low hl]
  refine congrArg some ?_
  have kept : ∀ s, remove_stop_words low stop_words s = keptWords low stop_words s := C68_text low stop_words
  have e1 : vocabulary low stop_words sentences = firsts ((sentences.flatMap (keptWords low stop_words)).filter (· ≠ [])) := by
    unfold vocabulary
    rw [List.filter_flatMap]
    congr 2
    funext s
    unfold countedWords keptWords
    rw [List.filter_filter]
    refine List.filter_congr fun x _ => ?_
    by_cases h1 : x = [] <;> by_cases h2 : x ∈ stop_words <;> simp [h1, h2]
  rw [e1, ← firsts_filter, ← firsts_filter]
  refine congrArg _ ?_
  rw [wordPairs_eq]
  show firsts (sentences.flatMap (keptWords low stop_words)) = firsts ((sentences.map (remove_stop_words low stop_words)).flatMap fun s =>
    (List.range s.length).flatMap fun j => (places w s.length j).map fun _ => s.getD j [])
  have : ∀ (pre : List Str) (ss : List Str), (∀ s ∈ ss, 2 ≤ (keptWords low stop_words s).length) →
      firsts (pre ++ ss.flatMap (keptWords low stop_words)) = firsts (pre ++ (ss.map (remove_stop_words low stop_words)).flatMap fun s =>
        (List.range s.length).flatMap fun j => (places w s.length j).map fun _ => s.getD j []) := by
    intro pre ss
    induction ss generalizing pre with
    | nil => intro; rfl
    | cons s ss ih =>
      intro hs
      rw [List.flatMap_cons, List.map_cons, List.flatMap_cons, ← List.append_assoc, ← List.append_assoc, ih _ fun t ht => hs t (by simp [ht])]
      refine firsts_congr_left _ _ _ ?_
      rw [kept]
      have h2 := hs s (by simp)
      generalize keptWords low stop_words s = k at h2 ⊢
      rw [firsts_repeat (List.range k.length) _ (fun j => k.getD j []) (fun j hj => ?_) pre]
      · congr 2
        refine List.ext_getElem (by simp) fun i h1 h2 => ?_
        simp at h1 ⊢
        simp [h1]
      · have hj := List.mem_range.1 hj
        refine ⟨?_, fun x hx => by obtain ⟨_, _, rfl⟩ := List.mem_map.1 hx; rfl⟩
        intro e
        rw [List.map_eq_nil_iff] at e
        have : (if j = 0 then 1 else j - 1) ∈ places w k.length j := (places_mem w _ j _ hj).2 (by split <;> omega)
        rw [e] at this
        simp at this
  simpa using this [] sentences two

/-- **C145** (rows: false): a word all of whose sentences have no other word has no embedding, although it is in the returned list; so the rows of the
embeddings are fewer than the words (and, from that word on, belong to other words). -/
theorem C145_rows_fails (low : Char → Char) (hlow : low ' ' = ' ') (hl : ∀ c, low (low c) = low c) (stop_words sentences : List Str) (w : Nat) {x : Str}
    (hx : x ∈ vocabulary low stop_words sentences) (alone : ∀ s ∈ sentences, x ∈ keptWords low stop_words s → keptWords low stop_words s = [x]) :
    ∃ words, wordList low stop_words sentences = some words ∧ x ∈ words ∧ x ∉ embedded low stop_words sentences w ∧
      (embedded low stop_words sentences w).length < words.length := by
  refine ⟨_, C70_words low hlow _ _, hx, ?_⟩
  have kept : ∀ s, remove_stop_words low stop_words s = keptWords low stop_words s := C68_text low stop_words
  have hn : x ∉ embedded low stop_words sentences w := by
    rw [embedded_eq low hl, mem_firsts, List.mem_filter]
    rintro ⟨hm, -⟩
    obtain ⟨s, hs, j, hj, hp, rfl⟩ := mem_inputs.1 hm
    obtain ⟨t, ht, rfl⟩ := List.mem_map.1 hs
    rw [kept] at hj hp alone
    have hmem : (keptWords low stop_words t).getD j [] ∈ keptWords low stop_words t := by simp [hj]
    have h1 := congrArg List.length (alone t ht hmem)
    rw [List.length_singleton] at h1
    obtain ⟨l, hl⟩ := List.exists_mem_of_ne_nil _ hp
    have := (places_mem w _ j l hj).1 hl
    omega
  refine ⟨hn, ?_⟩
  have sub : ∀ y ∈ embedded low stop_words sentences w, y ∈ (vocabulary low stop_words sentences).erase x := by
    intro y hy
    have hyx : y ≠ x := fun e => hn (e ▸ hy)
    rw [List.mem_erase_of_ne hyx]
    rw [embedded_eq low hl, mem_firsts, List.mem_filter] at hy
    obtain ⟨hm, he⟩ := hy
    obtain ⟨s, hs, j, hj, -, rfl⟩ := mem_inputs.1 hm
    obtain ⟨t, ht, rfl⟩ := List.mem_map.1 hs
    unfold vocabulary
    rw [mem_firsts, List.mem_flatMap]
    refine ⟨t, ht, ?_⟩
    have hmem : (remove_stop_words low stop_words t).getD j [] ∈ remove_stop_words low stop_words t := by simp [hj]
    rw [C68_text] at hmem
    obtain ⟨a, b⟩ := List.mem_filter.1 hmem
    unfold countedWords
    rw [List.mem_filter]
    rw [C68_text] at he
    exact ⟨by rw [C68_text]; exact a, by rw [C68_text]; simpa using ⟨by simpa using he, by simpa using b⟩⟩
  have nd : (embedded low stop_words sentences w).Nodup := firsts_nodup _
  have := (List.subperm_of_subset nd sub).length_le
  rw [List.length_erase_of_mem hx] at this
  have hp := List.length_pos_of_mem hx
  omega

/-! ## The sets that the network is trained with -/

theorem copyWordRows_run (w : h.WF) {m n c o : Nat} {a b r : Ref} {A : Matrix (Fin m) (Fin c) ℝ} {B : Matrix (Fin n) (Fin c) ℝ} {v : Fin c → ℝ} (ha : HasM h a A)
    (hb : HasM h b B) (hr : HasV h r v) (nab : a ≠ b) (hm : o + n ≤ m) :
    Runs (copyWordRows a b r o n) h fun _ h' => h'.WF ∧ Keeps h h' (some · ∈ [b, r]) ∧ HasM h' a A ∧ HasM h' b (fun (i : Fin n) (j : Fin c) => A ⟨i + o, by omega⟩ j) ∧
      ∃ v : Fin c → ℝ, HasV h' r v := by
  unfold copyWordRows
  refine (Runs.forN n (fun k h' => h'.WF ∧ Keeps h h' (some · ∈ [b, r]) ∧ HasM h' a A ∧
    HasM h' b (fun (i : Fin n) (j : Fin c) => if i.val < k then A ⟨i + o, by omega⟩ j else B i j) ∧ ∃ v : Fin c → ℝ, HasV h' r v) _ h
    ⟨w, Keeps.refl h _, ha, by simpa using hb, v, hr⟩ ?_).mono ?_
  · clear w ha hb hr v
    intro k h1 hk ⟨w1, K1, ha, hb, v, hr⟩
    refine Runs.bind ((Hd.row_get_into_run w1 ha hr ⟨k + o, by omega⟩).mono fun _ h2 ⟨w2, k2, hr2⟩ => ?_)
    have K2 := K1.into k2 (by simp)
    have ha2 := ha.off k2 hr
    have hb2 := hb.off k2 hr
    refine (Hd.row_set_run w2 hb2 hr2 ⟨k, hk⟩).mono fun _ h3 ⟨w3, k3, hb3⟩ => ?_
    have K3 := K2.into k3 (by simp)
    refine ⟨w3, K3, ha2.offm k3 nab, cast (congrArg _ ?_) hb3, _, hr2.offm k3 hb2⟩
    funext i j
    by_cases e : i = ⟨k, hk⟩
    · subst e; simp
    · have : i.val ≠ k := fun q => e (Fin.ext q)
      rw [if_neg e]
      by_cases q : i.val < k
      · rw [if_pos q, if_pos (by omega)]
      · rw [if_neg q, if_neg (by omega)]
  · intro _ h' ⟨w', K', a', b', c'⟩
    refine ⟨w', K', a', cast (congrArg _ ?_) b', c'⟩
    funext i j
    rw [if_pos i.2]

theorem train_sets_run (w : h.WF) {m n c : Nat} {bow : Ref} {A : Matrix (Fin m) (Fin c) ℝ} (hb : HasM h bow A) (hm : m = n + n) (words : List Str) :
    Runs (do
        let bow_size ← Hd.sizem bow
        let input_set ← newMat
        let output_set ← newMat
        resizeTo input_set ⟨bow_size.x, n, 1⟩
        let row_tmp ← newVec
        resizeTo row_tmp ⟨bow_size.x, 1, 1⟩
        copyWordRows bow (some input_set) (some row_tmp) 0 n
        outputSet bow (some input_set) (some output_set) (some row_tmp) bow_size.x bow_size.y n
        pure (⟨words, some input_set, some output_set⟩ : Prepared)) h fun p h' =>
      h'.WF ∧ Keeps h h' (fun _ => False) ∧ p.word_list = words ∧ NotIn h p.input_set ∧ NotIn h p.output_set ∧ p.input_set ≠ p.output_set ∧
        HasM h' p.input_set (fun (i : Fin n) (j : Fin c) => A ⟨i + n, by omega⟩ j) ∧ ∃ Z : Matrix (Fin n) (Fin c) ℝ, HasM h' p.output_set Z := by
  refine Runs.step (Hd.sizem_run hb) ?_
  dsimp only
  refine stepM0 w fun x h1 X w1 k1 f1 hX => ?_
  have hb1 := hb.keep k1 (fun _ _ e => e)
  have n1 : bow ≠ some (.m x) := (f1.ne_mat hb).symm
  refine stepM0 w1 fun y h2 Y w2 k2 f2 hY => ?_
  have hb2 := hb1.keep k2 (fun _ _ e => e)
  have hX2 := hX.keep k2 (fun _ _ e => e)
  have n2 : bow ≠ some (.m y) := (f2.ne_mat hb1).symm
  have n3 : some (Loc.m x) ≠ some (.m y) := (f2.ne_mat hX).symm
  have K2 : Keeps h h2 (fun _ => False) := k1.trans k2
  have F2 : NotIn h (some (.m y)) := fun l e q => f2 l e (k1.live q)
  refine Runs.bind (m := Hd.resizem (some (.m x)) ⟨c, n, 1⟩) ((Hd.resizem_run w2 hX2 n c).mono fun _ h3 ⟨w3, k3, X3, hX3⟩ => ?_)
  have hb3 := hb2.offm k3 n1
  have hY3 := hY.offm k3 n3.symm
  have K3 := K2.wr_new k3 f1
  refine stepNewV w3 fun r h4 v w4 k4 f4 hv => ?_
  have hb4 := hb3.keep k4 (fun _ _ e => e)
  have hX4 := hX3.keep k4 (fun _ _ e => e)
  have hY4 := hY3.keep k4 (fun _ _ e => e)
  have K4 := K3.trans k4
  have F4 : NotIn h (some (.v r)) := fun l e q => f4 l e (K3.live q)
  refine Runs.bind ((copyWordRows_run w4 hb4 hX4 hv n1 (by omega)).mono fun _ h5 ⟨w5, k5, hb5, hX5, v5, hv5⟩ => ?_)
  have hY5 : HasM h5 (some (.m y)) Y := hY4.keep k5 fun l e q => by
    cases e
    simp at q
    exact n3 (by rw [q])
  have K5 : Keeps h h5 (fun _ => False) := K4.trans_new k5 fun l q hl => by
    simp at q
    rcases q with rfl | rfl
    · exact f1 _ rfl hl
    · exact F4 _ rfl hl
  refine Runs.bind ?_
  unfold outputSet
  have e : m - n = n := by omega
  rw [e]
  refine Runs.bind ((Hd.resizem_run w5 hY5 n c).mono fun _ h6 ⟨w6, k6, Y6, hY6⟩ => ?_)
  have hb6 := hb5.offm k6 n2
  have hX6 := hX5.offm k6 n3
  have hv6 := hv5.offm k6 hY5
  have K6 := K5.wr_new k6 F2
  refine Runs.step (Hd.sizem_run hY6) ?_
  dsimp only
  refine (copyWordRows_run w6 hb6 hX6 hv6 n1 (by omega)).mono fun _ h7 ⟨w7, k7, hb7, hX7, v7, hv7⟩ => ?_
  have hY7 : HasM h7 (some (.m y)) Y6 := hY6.keep k7 fun l e q => by
    cases e
    simp at q
    exact n3 (by rw [q])
  have K7 : Keeps h h7 (fun _ => False) := K6.trans_new k7 fun l q hl => by
    simp at q
    rcases q with rfl | rfl
    · exact f1 _ rfl hl
    · exact F4 _ rfl hl
  refine Runs.of_eq rfl ⟨w7, K7, rfl, f1, F2, n3, hX7, ?_⟩
  exact ⟨Y6, hY7⟩

/-- **C145** (training: false): what the network is trained with. `word_to_vec` should train on the first words of the pairs as inputs and the second words as
targets. The matrix of the inputs holds, in row `i`, the one-hot encoding of the *second* word of pair `i`; the matrix of the targets is a new one of the same size
that is never written to (what is in it: `C145_targets_fails`). This is so for every list of sentences and every window. -/
theorem C145_training_fails (w : h.WF) (low : Char → Char) (hlow : low ' ' = ' ') (hl : ∀ c, low (low c) = low c) (stop_words sentences : List Str) (window : Int)
    (outs : List Str) (ho : outs = (wordPairs window.toNat (sentences.map (remove_stop_words low stop_words))).2)
    (cols : List Str) (hc : cols = embedded low stop_words sentences window.toNat) :
    Runs (prepare low stop_words sentences window) h fun p h' =>
      h'.WF ∧ Keeps h h' (fun _ => False) ∧ p.word_list = vocabulary low stop_words sentences ∧ NotIn h p.input_set ∧ NotIn h p.output_set ∧
        p.input_set ≠ p.output_set ∧ HasM h' p.input_set (fun (i : Fin outs.length) (k : Fin cols.length) => if cols[k] = outs[i] then 1 else 0) ∧
        ∃ Z : Matrix (Fin outs.length) (Fin cols.length) ℝ, HasM h' p.output_set Z := by
  unfold prepare
  rw [C70_words low hlow]
  dsimp only
  have tok : ∀ x ∈ outs, countedWords low stop_words x = if x = [] then [] else [x] := by
    intro x hx
    rw [ho] at hx
    obtain ⟨s, hs, j, hj, -, rfl⟩ := mem_inputs.1 (mem_outputs hx)
    obtain ⟨t, -, rfl⟩ := List.mem_map.1 hs
    refine countedWords_token low hl stop_words t _ ?_
    simp [hj]
  have len := (C145_pairs window.toNat (sentences.map (remove_stop_words low stop_words))).1
  have bag := C70_bag w low hlow stop_words ((wordPairs window.toNat (sentences.map (remove_stop_words low stop_words))).1 ++ outs) (R := ℝ) .binary
  have hc' : cols = vocabulary low stop_words ((wordPairs window.toNat (sentences.map (remove_stop_words low stop_words))).1 ++ outs) := by
    rw [hc, ho]; rfl
  rw [← ho] at len ⊢
  generalize (wordPairs window.toNat (sentences.map (remove_stop_words low stop_words))).1 = ins at len bag hc' ⊢
  clear ho hc
  subst hc'
  refine stepM bag fun bow h1 w1 k1 f1 hb => ?_
  rw [len]
  refine (train_sets_run w1 hb (by simp [len]) (vocabulary low stop_words sentences)).mono fun p h' ⟨w', k', e, fi, fo, ne, hi, Z, hZ⟩ => ?_
  refine ⟨w', k1.trans k', e, fun l q r => fi l q (k1.live r), fun l q r => fo l q (k1.live r), ne, cast (congrArg _ ?_) hi, Z, hZ⟩
  funext i k
  have hne : (vocabulary low stop_words (ins ++ outs))[k] ≠ [] := by
    have hm : (vocabulary low stop_words (ins ++ outs))[k] ∈ vocabulary low stop_words (ins ++ outs) := List.getElem_mem _
    unfold vocabulary at hm
    rw [mem_firsts, List.mem_flatMap] at hm
    obtain ⟨t, _, hm⟩ := hm
    unfold countedWords at hm
    have := (List.mem_filter.mp hm).2
    simp only [decide_eq_true_eq] at this
    exact this.1
  have hg : (ins ++ outs)[i.val + outs.length]'(by simp [len]) = outs[i] := by
    rw [List.getElem_append_right (by omega)]
    congr 1
    omega
  simp only [if_true]
  refine if_congr ?_ rfl rfl
  show _ ∈ countedWords low stop_words ((ins ++ outs)[i.val + outs.length]'(by simp [len])) ↔ _
  rw [hg, tok outs[i] (List.getElem_mem _)]
  by_cases q : outs[i] = []
  · rw [if_pos q, q]
    simpa using hne
  · rw [if_neg q, List.mem_singleton]

/-- **C145** (targets: false): the step that should fill the matrix of the targets, called as `word_to_vec` does with a matrix that has just been created: the
cells are what the allocated memory happened to contain. -/
theorem C145_targets_fails (w : h.WF) {m n c o x r : Nat} {bow : Ref} {A : Matrix (Fin m) (Fin c) ℝ} {B : Matrix (Fin n) (Fin c) ℝ} {v : Fin c → ℝ}
    (hb : HasM h bow A) (hx : HasM h (some (.m x)) B) (hr : HasV h (some (.v r)) v) (hm : m = n + n) (lo : h.live (.m o)) (ho : h.size (.m o) = ⟨0, 0, 1⟩)
    (nx : o ≠ x) (nb : bow ≠ some (.m o)) (nxb : bow ≠ some (.m x)) :
    Runs (outputSet bow (some (.m x)) (some (.m o)) (some (.v r)) c m n) h fun _ h' =>
      HasM h' (some (.m o)) fun (i : Fin n) (j : Fin c) => h.junk h.clock (i * c + j) := by
  unfold outputSet Hd.resizem
  subst hm
  have e : n + n - n = n := by omega
  rw [e]
  have emp : h.buf (.m o) = [] := by
    have := w.len (.m o)
    rw [ho] at this
    exact List.length_eq_zero_iff.1 this
  obtain ⟨h1, w1, k1, r1, c1⟩ : ∃ h1 : Heap ℝ, h1.WF ∧ Keeps h h1 (some · = some (Loc.m o)) ∧ resizeTo (.m o) ⟨c, n, 1⟩ h = .ok ((), h1) ∧
      HasM h1 (some (.m o)) fun (i : Fin n) (j : Fin c) => h.junk h.clock (i * c + j) := by
    have hflat : (List.range (c * n)).map (h.junk h.clock) = SortArray.tab (c * n) (flat c fun i j => h.junk h.clock (i * c + j)) := by
      unfold SortArray.tab flat
      refine List.map_congr_left fun i _ => ?_
      beta_reduce
      rw [Nat.mul_comm (i / c) c, Nat.div_add_mod]
    have key : ∃ cl : Nat, resizeTo (.m o) ⟨c, n, 1⟩ h =
        .ok ((), { (h.setSize (.m o) ⟨c, n, 1⟩).setBuf (.m o) ((List.range (c * n)).map (h.junk h.clock)) with clock := cl }) := by
      unfold resizeTo
      rw [bind_ok (putSize_run _ _ _)]
      by_cases e : c * n = 0
      · refine ⟨h.clock, ?_⟩
        rw [if_pos (by rw [count_mat]; exact e), memfree_run, e]
        rfl
      · refine ⟨h.clock + 1, ?_⟩
        rw [if_neg (by rw [count_mat]; exact e), memrealloc_run]
        simp [growTo, emp, count_mat]
    obtain ⟨cl, e⟩ := key
    have u : Updated h { (h.setSize (.m o) ⟨c, n, 1⟩).setBuf (.m o) ((List.range (c * n)).map (h.junk h.clock)) with clock := cl } (.m o) ⟨c, n, 1⟩
        ((List.range (c * n)).map (h.junk h.clock)) :=
      ⟨by simp, by simp, fun l hl => by simp [setBuf_buf, hl], fun l hl => by simp [setSize_size, hl], rfl, rfl⟩
    have k : Keeps h _ (some · = some (Loc.m o)) := (u.keeps).mono fun _ _ e => congrArg some e
    exact ⟨_, u.wf w (by rw [count_mat]; simp) nofun (fun _ _ => rfl), k, e, o, rfl, k.live lo,
      (show Cells _ (.m o) c n (fun i j => h.junk h.clock (i * c + j)) from ⟨u.size, by rw [u.buf, hflat]⟩).isMat fun _ _ => rfl⟩
  refine Runs.bind (Runs.of_eq (show (derefM (some (.m o)) >>= fun a => resizeTo (.m a) ⟨c, n, 1⟩) h = .ok ((), h1) from r1) ?_)
  refine Runs.step (Hd.sizem_run c1) ?_
  refine (copyWordRows_run w1 (hb.offm k1 nb) (hx.offm k1 (by simpa using Ne.symm nx)) (hr.keep k1 (by rintro l e q; cases e; cases q)) nxb
    (by omega)).mono fun _ h2 ⟨w2, k2, _⟩ => ?_
  exact c1.keep k2 (by rintro l e q; cases e; simp at q; exact nx q)

/-! ## Examples -/

/-- Two sentences of two words each meet the hypotheses of `C145_rows_partial` (no stop words, no capital letters). -/
example : ∀ s ∈ ["ab cd".toList, "cd ef".toList], 2 ≤ (keptWords id [] s).length := by decide +kernel

/-- The pairs of a sentence of three words, with a window of 1. -/
example : wordPairs 1 [["a".toList, "b".toList, "c".toList]] =
    (["a".toList, "b".toList, "b".toList, "c".toList], ["b".toList, "a".toList, "c".toList, "b".toList]) := by decide +kernel

/-- The word "a" of the sentences "a" and "b c" meets the hypotheses of `C145_rows_fails`. -/
example : "a".toList ∈ vocabulary id [] ["a".toList, "b c".toList] ∧
    ∀ s ∈ ["a".toList, "b c".toList], "a".toList ∈ keptWords id [] s → keptWords id [] s = ["a".toList] := by decide +kernel

end Verif.Data
