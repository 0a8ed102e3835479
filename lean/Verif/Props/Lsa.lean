import Verif.Lemmas.Lsa
import Verif.Props.Svd
import Verif.Props.BagOfWords

/-! # C143: latent semantic analysis -/

namespace Verif
open Spec Text
variable {h : Heap ℝ}

/-- Which of the words (columns) occur in which of the sentences (rows). -/
def occurrences (low : Char → Char) (stop_words sentences : List Str) :
    Matrix (Fin sentences.length) (Fin (vocabulary low stop_words sentences).length) ℝ := fun i k =>
  if (vocabulary low stop_words sentences)[k] ∈ countedWords low stop_words sentences[i] then 1 else 0

/-- The call comes to an end (unless `P`) and returns a handle to a new matrix with one column per word, such that `Q` of that matrix; no
existing object is changed. -/
def Embeds (P : Prop) (d n : Nat) (c : M ℝ (Option Ref)) (h : Heap ℝ) (Q : Matrix (Fin d) (Fin n) ℝ → Prop) : Prop :=
  Runs c h fun r h' => h'.WF ∧ Keeps h h' (fun _ => False) ∧ ((P ∧ r = none) ∨
    ∃ (e : Ref) (E : Matrix (Fin d) (Fin n) ℝ), r = some e ∧ NotIn h e ∧ HasM h' e E ∧ Q E)

theorem bag_occurrences (w : h.WF) (low : Char → Char) (hlow : low ' ' = ' ') (stop_words sentences : List Str) :
    ReturnsMat (bag_of_words low stop_words sentences .binary) h (occurrences low stop_words sentences) := by
  have := C70_bag w low hlow stop_words sentences .binary
  simp only [if_true] at this
  exact this

/-- **C143** (part): for at least two sentences and two words and a dimension that is at most the number of either, if the call comes to an end,
it returns a new matrix with one row per dimension and one column per word, whose entry for dimension `i` and word `j` is the `i`-th of
the singular values (not negative, in descending order) times a number of size at most 1, the `i`-th entry of the `j`-th column of a
matrix with columns of length 1. Missing: that inner products of words are those of the occurrences, see `C143_same_fails`, and that the
call comes to an end. -/
theorem C143_embedding_partial (w : h.WF) (fuel : Nat) (low : Char → Char) (hlow : low ' ' = ' ') (stop_words sentences : List Str) (d : Nat)
    (hm2 : 2 ≤ sentences.length) (hn2 : 2 ≤ (vocabulary low stop_words sentences).length) (hm : d ≤ sentences.length)
    (hn : d ≤ (vocabulary low stop_words sentences).length) :
    Embeds True d (vocabulary low stop_words sentences).length (Data.lsa fuel low stop_words sentences d) h fun E =>
      ∃ (σ : Fin d → ℝ) (V : Matrix (Fin (vocabulary low stop_words sentences).length) (Fin (vocabulary low stop_words sentences).length) ℝ),
        (∀ i, 0 ≤ σ i) ∧ (∀ i j, i ≤ j → σ j ≤ σ i) ∧ UnitColumns V ∧ ∀ i j, E i j = σ i * V (Fin.castLE hn i) j := by
  refine (Data.lsa_run (P := True) (Q := fun U S V => SingularValues S ∧ UnitColumns V) w fuel low stop_words sentences hm hn (bag_occurrences w low hlow stop_words sentences)
    (fun h' a w' ha la => ?_)).mono fun r h' ⟨w', k', z⟩ => ⟨w', k', ?_⟩
  · refine (C125_svd_partial hm2 hn2 w' fuel a _ ha la _ (by simp [svdCalls])).mono fun r h'' ⟨w'', k'', z⟩ => ⟨w'', k'', ?_⟩
    rcases z with z | ⟨e, U, S, V, z, f1, f2, f3, hU, hS, hV, q⟩
    · exact .inl ⟨trivial, z⟩
    · exact .inr ⟨e, U, S, V, z, f1, f2, f3, hU, hS, hV, q.1, q.2.2.1⟩
  · rcases z with z | ⟨e, U, S, V, z, f, hE, q, u⟩
    · exact .inl z
    · refine .inr ⟨e, _, z, f, hE, fun i => S (Fin.castLE hm i) (Fin.castLE hn i), V, fun i => q.1 _ _, fun i j ij => ?_, u, fun i j => rfl⟩
      exact q.2.2 i j _ _ _ _ ij

/-- **C143** (part): for two sentences with two words the call comes to an end, and in dimension 2 the embeddings, divided by the two singular
values, are the rows (the columns would be right) of a matrix `V` of eigenvectors of the matrix of co-occurrences. -/
theorem C143_two_partial (w : h.WF) (fuel : Nat) (hf : 2 ≤ fuel) (low : Char → Char) (hlow : low ' ' = ' ') (stop_words : List Str) (s t : Str)
    (hn : (vocabulary low stop_words [s, t]).length = 2) :
    Embeds False 2 2 (Data.lsa fuel low stop_words [s, t] 2) h fun E =>
      ∃ (A : Matrix (Fin 2) (Fin 2) ℝ) (σ : Fin 2 → ℝ) (V : Matrix (Fin 2) (Fin 2) ℝ),
        (∀ i k, A i k = occurrences low stop_words [s, t] i (k.cast hn.symm)) ∧ 0 ≤ σ 1 ∧ σ 1 ≤ σ 0 ∧ UnitColumns V ∧
        A.transpose * A * V = V * Matrix.diagonal (fun i => σ i ^ 2) ∧ (σ 0 ≠ σ 1 → V.transpose * V = 1) ∧ E = Matrix.diagonal σ * V := by
  have bag := bag_occurrences w low hlow stop_words [s, t]
  obtain ⟨A, eA, bag⟩ : ∃ A : Matrix (Fin 2) (Fin 2) ℝ, (∀ i k, A i k = occurrences low stop_words [s, t] i (k.cast hn.symm)) ∧
      ReturnsMat (bag_of_words low stop_words [s, t] .binary) h A := by
    generalize occurrences low stop_words [s, t] = O at bag ⊢
    clear w
    generalize (vocabulary low stop_words [s, t]).length = p at hn O bag
    subst hn
    exact ⟨O, fun _ _ => rfl, bag⟩
  refine (Data.lsa_run (P := False) (Q := fun U S V => SingularValues S ∧ UnitColumns V ∧ A.transpose * A * V = V * (S * S) ∧
    (S 0 0 ≠ S 1 1 → V.transpose * V = 1)) w fuel low stop_words [s, t] le_rfl le_rfl bag
    (fun h' a w' ha la => ?_)).mono fun r h' ⟨w', k', z⟩ => ⟨w', k', ?_⟩
  · refine (C125_two_by_two_partial w' fuel a hf _ ha la _ (by simp [svdCalls])).mono fun r h'' ⟨w'', k'', z⟩ => ⟨w'', k'', ?_⟩
    obtain ⟨e, U, S, V, z, f1, f2, f3, hU, hS, hV, q1, q2, q3, q4, q5, q6⟩ := z
    exact .inr ⟨e, U, S, V, z, f1, f2, f3, hU, hS, hV, q1, q3, q5, fun q => (q6 q).2⟩
  · rcases z with ⟨z, _⟩ | ⟨e, U, S, V, z, f, hE, q, u, ev, o⟩
    · exact z.elim
    · have dS : S = Matrix.diagonal fun i => S i i := by
        ext i j
        by_cases e : i = j
        · rw [e, Matrix.diagonal_apply_eq]
        · rw [Matrix.diagonal_apply_ne _ e, q.2.1 i j fun z => e (Fin.ext z)]
      refine .inr ⟨e, _, z, f, hE, A, fun i => S i i, V, eA, q.1 _ _, q.2.2 0 1 (by decide) (by decide) (by decide) (by decide) (by decide), u, ?_, o, ?_⟩
      · rw [ev]
        congr 1
        conv_lhs => rw [dS]
        rw [Matrix.diagonal_mul_diagonal]
        congr 1
        funext i
        rw [sq]
      · ext i j
        rw [Matrix.diagonal_mul]
        rfl

/-- **C143** is false: for `n` sentences with one word each, all different, every word has the same embedding in every dimension; so even with
the full dimension the inner products of words are not the numbers of sentences in which both occur. -/
theorem C143_same_fails (w : h.WF) (fuel : Nat) (hf : 1 ≤ fuel) (low : Char → Char) (hlow : low ' ' = ' ') (stop_words sentences : List Str) {n : Nat}
    (h2 : 2 ≤ n) (hm : sentences.length = n) (hn : (vocabulary low stop_words sentences).length = n)
    (own : ∀ (i : Nat) (hi : i < sentences.length) (k : Nat) (hk : k < (vocabulary low stop_words sentences).length),
      (vocabulary low stop_words sentences)[k] ∈ countedWords low stop_words sentences[i] ↔ i = k) (d : Nat) (hd : d ≤ n) :
    Embeds False d n (Data.lsa fuel low stop_words sentences d) h fun E =>
      (∀ i j k, E i j = E i k) ∧ ∀ A : Matrix (Fin n) (Fin n) ℝ,
        (∀ i k, A i k = occurrences low stop_words sentences (i.cast hm.symm) (k.cast hn.symm)) → E.transpose * E ≠ A.transpose * A := by
  have bag := bag_occurrences w low hlow stop_words sentences
  obtain ⟨A, eA, bag⟩ : ∃ A : Matrix (Fin n) (Fin n) ℝ, (∀ i k, A i k = occurrences low stop_words sentences (i.cast hm.symm) (k.cast hn.symm)) ∧
      ReturnsMat (bag_of_words low stop_words sentences .binary) h A := by
    generalize occurrences low stop_words sentences = O at bag ⊢
    revert O
    clear own
    subst hm
    generalize (vocabulary low stop_words sentences).length = p at hn
    subst hn
    exact fun O b => ⟨O, fun _ _ => rfl, b⟩
  have e1 : ∀ A : Matrix (Fin n) (Fin n) ℝ, (∀ i k, A i k = occurrences low stop_words sentences (i.cast hm.symm) (k.cast hn.symm)) → A = 1 := by
    intro A eA
    ext i k
    rw [eA, occurrences, Matrix.one_apply]
    have := own i (by omega) k (by omega)
    simp only [Fin.ext_iff]
    exact if_congr this rfl rfl
  have eA1 := e1 A eA
  subst eA1
  obtain ⟨fuel, rfl⟩ : ∃ j, fuel = j + 1 := ⟨fuel - 1, by omega⟩
  have dg : Eigen.IsDiagonal (1 : Matrix (Fin n) (Fin n) ℝ) := fun i j e => Matrix.one_apply_ne e
  have ej := Eigen.jac_diag dg h2 fuel 1
  have t1 : (1 : Matrix (Fin n) (Fin n) ℝ) * (1 : Matrix (Fin n) (Fin n) ℝ).transpose = 1 := by simp
  have t2 : (1 : Matrix (Fin n) (Fin n) ℝ).transpose * (1 : Matrix (Fin n) (Fin n) ℝ) = 1 := by simp
  refine (Data.lsa_run (P := False) (Q := fun U S V => ∀ i j k, V i j = V i k) w (fuel + 1) low stop_words sentences hd hd bag
    (fun h' a w' ha la => ?_)).mono fun r h' ⟨w', k', z⟩ => ⟨w', k', ?_⟩
  · refine (svd_of (Q := fun U S V => ∀ i j k, V i j = V i k) h2 h2 w' (fuel + 1) a 1 ha la _ (by simp [svdCalls])
      ((congrArg (fun X => Eigen.jac (fuel + 1) X 1) t1).trans ej) ((congrArg (fun X => Eigen.jac (fuel + 1) X 1) t2).trans ej)
      fun D1 U D2 V a1 a2 => ?_).mono fun r h'' ⟨w'', k'', z⟩ => ⟨w'', k'', .inr z⟩
    obtain ⟨σ, v, -, -, eV, -, l⟩ := a2
    intro i j k
    rw [eV, eV]
    have : v j = v k := by
      refine Fin.ext ?_
      rw [l j, l k]
      simp
    rw [this]
  · rcases z with ⟨z, _⟩ | ⟨e, U, S, V, z, f, hE, q⟩
    · exact z.elim
    · obtain ⟨E, hM⟩ : ∃ E : Matrix (Fin d) (Fin n) ℝ, (fun (i : Fin d) (j : Fin n) => S (Fin.castLE hd i) (Fin.castLE hd i) * V (Fin.castLE hd i) j) = E := ⟨_, rfl⟩
      rw [hM] at hE
      have qE : ∀ i j k, E i j = E i k := by
        intro i j k
        rw [← hM]
        exact congrArg _ (q _ j k)
      clear hM
      refine .inr ⟨e, E, z, f, hE, qE, fun A eA' e => ?_⟩
      rw [e1 A eA', t2] at e
      have c1 := congrFun (congrFun e ⟨0, by omega⟩) ⟨0, by omega⟩
      have c2 := congrFun (congrFun e ⟨0, by omega⟩) ⟨1, by omega⟩
      rw [Matrix.mul_apply, Matrix.one_apply_eq] at c1
      rw [Matrix.mul_apply, Matrix.one_apply_ne (by simp)] at c2
      have : (1 : ℝ) = 0 := by
        rw [← c2, ← c1]
        refine Finset.sum_congr rfl fun i _ => ?_
        rw [qE _ ⟨0, by omega⟩ ⟨1, by omega⟩]
      exact one_ne_zero this

/-- Two sentences of one word each meet the hypotheses of the three theorems. -/
example : (vocabulary id ["the".toList] ["the cat".toList, "dog".toList]).length = 2 ∧
    ∀ (i : Nat) (hi : i < ["the cat".toList, "dog".toList].length) (k : Nat)
      (hk : k < (vocabulary id ["the".toList] ["the cat".toList, "dog".toList]).length),
      (vocabulary id ["the".toList] ["the cat".toList, "dog".toList])[k] ∈ countedWords id ["the".toList] ["the cat".toList, "dog".toList][i] ↔ i = k := by
  have e : vocabulary id ["the".toList] ["the cat".toList, "dog".toList] = ["cat".toList, "dog".toList] := by
    unfold vocabulary countedWords
    simp only [segment_scan]
    decide +kernel
  rw [e]
  refine ⟨rfl, ?_⟩
  have e1 : countedWords id ["the".toList] "the cat".toList = ["cat".toList] := by
    unfold countedWords
    simp only [segment_scan]
    decide +kernel
  have e2 : countedWords id ["the".toList] "dog".toList = ["dog".toList] := by
    unfold countedWords
    simp only [segment_scan]
    decide +kernel
  intro i hi k hk
  have hi' : i = 0 ∨ i = 1 := by simp at hi; omega
  have hk' : k = 0 ∨ k = 1 := by simp at hk; omega
  rcases hi' with rfl | rfl <;> rcases hk' with rfl | rfl <;> simp only [List.getElem_cons_zero, List.getElem_cons_succ, e1, e2] <;> decide +kernel

end Verif
