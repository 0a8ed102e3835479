import Verif.Lemmas.VectorApi
import Verif.Lemmas.ElementwiseSpec

/-!
# C08-C11: element-wise vector methods, rejection of bad operands, copies

For an arbitrary element type with arbitrary operations (IEEE floats included). The specifications are
`Spec.ElemBinary`, `Spec.ElemUnary`, `Spec.RejectsBinary` (Verif/Spec/Elementwise.lean).
-/

namespace Verif
open Spec
variable {R : Type}

/-- Two vectors `[1,2,3]`, `[10,20,30]` used in the worked examples. -/
def exHeap : Heap Int :=
  { (((Heap.init fun _ _ => 77).setBuf (.v 0) [1, 2, 3]).setSize (.v 0) ⟨3, 1, 1⟩ |>.setBuf (.v 1) [10, 20, 30] |>.setSize
    (.v 1) ⟨3, 1, 1⟩) with next := 2 }

/-- `exHeap` meets the hypotheses of the theorems below. -/
theorem exHeap_wf : exHeap.WF := by
  refine ⟨?_, ?_, ?_⟩
  · intro l
    simp only [exHeap, Heap.setBuf, Heap.setSize, Heap.init]
    rcases l with k | k | k
    · by_cases h0 : k = 0
      · subst h0; rfl
      · by_cases h1 : k = 1
        · subst h1; rfl
        · simp [h0, h1, Size.count]
    · simp [Size.count]
    · simp [Size.count]
  · intro i
    simp only [exHeap, Heap.setBuf, Heap.setSize, Heap.init]
    by_cases h0 : i = 0
    · subst h0; exact ⟨rfl, rfl⟩
    · by_cases h1 : i = 1
      · subst h1; exact ⟨rfl, rfl⟩
      · simp [h0, h1]
  · intro i
    simp [exHeap, Heap.setBuf, Heap.setSize, Heap.init]

example : exHeap.size (.v 0) = exHeap.size (.v 1) ∧ exHeap.live (.v 0) ∧ exHeap.live (.v 1) := by
  refine ⟨rfl, ?_, ?_⟩ <;> unfold Heap.live <;> decide

/-! ## C08 -/

/-- **C08** for `hadamard_product`, `hadamard_productn`, `hadamard_productb`. -/
theorem C08_hadamard [Mul R] : ElemBinary Loc.v (R := R) (fun x y => x * y)
    Vec.hadamard_product Vec.hadamard_productn Vec.hadamard_productb := elemBinary_mk kindV _

/-- **C08** for `add`, `addn`, `addb`. -/
theorem C08_add [Add R] : ElemBinary Loc.v (R := R) (fun x y => x + y) Vec.add Vec.addn Vec.addb :=
  elemBinary_mk kindV _

/-- **C08** for `sub`, `subn`, `subb`. -/
theorem C08_sub [Sub R] : ElemBinary Loc.v (R := R) (fun x y => x - y) Vec.sub Vec.subn Vec.subb :=
  elemBinary_mk kindV _

/-- **C08** for `max`, `maxn`, `maxb`. -/
theorem C08_max [LT R] [DecidableLT R] : ElemBinary Loc.v (R := R) (fun x y => if y < x then x else y)
    Vec.max Vec.maxn Vec.maxb := elemBinary_mk kindV _

/-- **C08** for `min`, `minn`, `minb`. -/
theorem C08_min [LT R] [DecidableLT R] : ElemBinary Loc.v (R := R) (fun x y => if x < y then x else y)
    Vec.min Vec.minn Vec.minb := elemBinary_mk kindV _

/-- **C08** for `scalar_multiply`, `scalar_multiplyn`, `scalar_multiplyb`. -/
theorem C08_scalar_multiply [Mul R] (k : R) : ElemUnary Loc.v (fun x => x * k)
    (fun this => Vec.scalar_multiply this k) (fun this => Vec.scalar_multiplyn this k)
    (fun this a => Vec.scalar_multiplyb this k a) := elemUnaryX_mk kindV _

/-- **C08** for `scalar_add`, `scalar_addn`, `scalar_addb`. -/
theorem C08_scalar_add [Add R] (k : R) : ElemUnary Loc.v (fun x => x + k)
    (fun this => Vec.scalar_add this k) (fun this => Vec.scalar_addn this k)
    (fun this a => Vec.scalar_addb this k a) := elemUnaryC_mk kindV _

/-- **C08** for `division_element_wisen`, `division_element_wiseb`. The full claim also covers the in-place
`division_element_wise`, for which it is false: `C08_division_inplace_fails`. -/
theorem C08_division_partial [Div R] :
    (∀ (h : Heap R), h.WF → ∀ this b, h.live (.v this) → h.live (.v b) → h.size (.v this) = h.size (.v b) →
      Runs (Vec.division_element_wisen this (some b)) h fun r h' => ∃ o, r = some (.v o) ∧ ¬ h.live (.v o) ∧ h'.WF ∧
        OthersSame h h' (.v o) ∧
        Holds h' (.v o) (h.size (.v this)) (List.zipWith (fun x y => x / y) (h.buf (.v this)) (h.buf (.v b)))) ∧
    (∀ (h : Heap R), h.WF → ∀ this a b, h.size (.v a) = h.size (.v b) →
      Runs (Vec.division_element_wiseb this (some a) (some b)) h fun _ h' => h'.WF ∧ OthersSame h h' (.v this) ∧
        Holds h' (.v this) (h.size (.v a)) (List.zipWith (fun x y => x / y) (h.buf (.v a)) (h.buf (.v b)))) :=
  ⟨(elemBinaryR_mk kindV _).new, (elemBinaryR_mk kindV _).into⟩

/-- **C08**, finding: in-place `division_element_wise` on non-empty vectors of equal size writes through the null data
pointer of a fresh vector. -/
theorem C08_division_inplace_fails [Div R] (h : Heap R) (w : h.WF) (this b : Nat) (hne : h.buf (.v this) ≠ [])
    (lt : h.live (.v this)) (lb : h.live (.v b)) (hs : h.size (.v this) = h.size (.v b)) :
    Vec.division_element_wise this (some b) h = .ub := by
  have n1 : (Loc.v this) ≠ .v h.next := live_ne_fresh lt rfl
  have n2 : (Loc.v b) ≠ .v h.next := live_ne_fresh lb rfl
  have lenT := w.len (.v this)
  have lenB := w.len (.v b)
  have hpos : 0 < (h.buf (.v this)).length := List.length_pos_iff.mpr hne
  show (do
    let out ← newVec
    let s ← getSize (.v this)
    let sb ← getSize (.v b)
    if s = sb then binLoop (· / ·) (.v this) (.v b) out s.count else pure () : M R Unit) h = _
  rw [bind_ok (show newVec h = _ from rfl), bind_ok (getSize_run _ _), bind_ok (getSize_run _ _)]
  simp only [setSize_size_ne _ _ n1, setSize_size_ne _ _ n2, setBuf_size]
  rw [if_pos hs]
  obtain ⟨n, hn⟩ : ∃ n, (h.size (.v this)).count = n + 1 := ⟨(h.size (.v this)).count - 1, by omega⟩
  rw [hn]
  unfold binLoop forN
  rw [loop_succ]
  refine bind_ub ?_
  have g1 : 0 < (h.buf (.v b)).length := by rw [lenB, ← hs, hn]; omega
  dsimp only
  rw [bind_ok (load_ok' (by simpa [setBuf_buf_ne _ _ n1] using hpos))]
  rw [bind_ok (load_ok' (by simpa [setBuf_buf_ne _ _ n2] using g1))]
  exact store_ub _ (by simp)

example : (Vec.addb 1 (some 0) (some 1) exHeap).bufOf (.v 1) = some [11, 22, 33] := by decide +kernel
example : (Vec.subn 1 (some 0) exHeap).bufOf (.v 2) = some [9, 18, 27] := by decide +kernel
example : exHeap.buf (.v 0) ≠ [] := by decide

/-! ## C09 (vectors) -/

/-- **C09 (vectors)**: null operands and size mismatches change nothing, and the 'n' variants return null. -/
theorem C09_vector_rejects [Mul R] [Add R] [Sub R] [LT R] [DecidableLT R] :
    RejectsBinary Loc.v (R := R) Vec.hadamard_product Vec.hadamard_productn Vec.hadamard_productb ∧
    RejectsBinary Loc.v (R := R) Vec.add Vec.addn Vec.addb ∧
    RejectsBinary Loc.v (R := R) Vec.sub Vec.subn Vec.subb ∧
    RejectsBinary Loc.v (R := R) Vec.max Vec.maxn Vec.maxb ∧
    RejectsBinary Loc.v (R := R) Vec.min Vec.minn Vec.minb :=
  ⟨rejectsBinary_mk _, rejectsBinary_mk _, rejectsBinary_mk _, rejectsBinary_mk _, rejectsBinary_mk _⟩

/-- **C09 (vectors)** for `division_element_wisen`, `division_element_wiseb`. -/
theorem C09_vector_division_rejects [Div R] (h : Heap R) (this a b : Nat) :
    Vec.division_element_wisen this none h = .ok (none, h) ∧
    Vec.division_element_wiseb this none (some b) h = .ok ((), h) ∧
    Vec.division_element_wiseb this (some a) none h = .ok ((), h) ∧
    (h.size (.v this) ≠ h.size (.v b) → Vec.division_element_wisen this (some b) h = .ok (none, h)) ∧
    (h.size (.v a) ≠ h.size (.v b) → Vec.division_element_wiseb this (some a) (some b) h = .ok ((), h)) :=
  ⟨rfl, rfl, rfl, binN_mismatch _ _ _ h, binBR_mismatch _ _ _ _ h⟩

/-- **C09 (vectors)** for the reductions: `dot`, `euclidean_distance`, `euclidean_distance_squared` answer 0. -/
theorem C09_vector_reductions_reject [Zero R] [Add R] [Sub R] [Mul R] [MathFns R] (h : Heap R) (this b : Nat) :
    Vec.dot this none h = .ok (0, h) ∧ Vec.euclidean_distance this none h = .ok (0, h) ∧
    Vec.euclidean_distance_squared this none h = .ok (0, h) ∧
    ((h.size (.v this)).x ≠ (h.size (.v b)).x → Vec.dot this (some b) h = .ok (0, h) ∧
      Vec.euclidean_distance this (some b) h = .ok (0, h) ∧
      Vec.euclidean_distance_squared this (some b) h = .ok (0, h)) := by
  refine ⟨rfl, rfl, rfl, fun hs => ⟨?_, ?_, ?_⟩⟩
  · show (if (h.size (.v this)).x = (h.size (.v b)).x then _ else _ : M R R) h = _
    rw [if_neg hs]; rfl
  · show (if (h.size (.v this)).x = (h.size (.v b)).x then _ else _ : M R R) h = _
    rw [if_neg hs]; rfl
  · show (if (h.size (.v this)).x = (h.size (.v b)).x then _ else _ : M R R) h = _
    rw [if_neg hs]; rfl

/-- **C09**, findings: these methods dereference a null operand instead of rejecting it. -/
theorem C09_null_operand_fails [Zero R] [Sub R] [Mul R] [Neg R] (h : Heap R) (this : Nat) (k : R) :
    Vec.scalar_multiplyb this k none h = .ub ∧ Vec.cross this none h = .ub ∧
    Vec.outer_product this none h = .ub ∧ Vec.subtract_matrix_rows this none h = .ub :=
  ⟨rfl, rfl, rfl, rfl⟩

example : exHeap.size (.v 0) ≠ exHeap.size (.v 2) := by decide

/-! ## C10 -/

/-- **C10**: `log`, `log10`, `exp`, `erf`, `sqrt`, `sin` map the named function over all elements, in all three
variants. -/
theorem C10_functions [MathFns R] :
    ElemUnary Loc.v (R := R) MathFns.log Vec.log Vec.logn Vec.logb ∧
    ElemUnary Loc.v (R := R) MathFns.log10 Vec.log10 Vec.log10n Vec.log10b ∧
    ElemUnary Loc.v (R := R) MathFns.exp Vec.exp Vec.expn Vec.expb ∧
    ElemUnary Loc.v (R := R) MathFns.erf Vec.erf Vec.erfn Vec.erfb ∧
    ElemUnary Loc.v (R := R) MathFns.sqrt Vec.sqrt Vec.sqrtn Vec.sqrtb ∧
    ElemUnary Loc.v (R := R) MathFns.sin Vec.sin Vec.sinn Vec.sinb :=
  ⟨elemUnary_mk kindV _, elemUnary_mk kindV _, elemUnary_mk kindV _, elemUnary_mk kindV _, elemUnary_mk kindV _,
    elemUnary_mk kindV _⟩

/-- **C10** for `exponentiate`, `exponentiaten`, `exponentiateb`. -/
theorem C10_exponentiate [MathFns R] (p : R) : ElemUnary Loc.v (fun x => MathFns.pow x p)
    (fun this => Vec.exponentiate this p) (fun this => Vec.exponentiaten this p)
    (fun this a => Vec.exponentiateb this a p) := elemUnary_mk kindV _

/-- **C10** for `cbrt`, `cbrtn`, `cbrtb`: the power 1/3. -/
theorem C10_cbrt [MathFns R] [Div R] [NatCast R] :
    ElemUnary Loc.v (R := R) (fun x => MathFns.pow x (((1 : Nat) : R) / ((3 : Nat) : R))) Vec.cbrt Vec.cbrtn Vec.cbrtb :=
  elemUnary_mk kindV _

/-- **C10** for `abs`, `absn`, `absb`. -/
theorem C10_abs [LT R] [DecidableLT R] [Neg R] [Zero R] :
    ElemUnary Loc.v (R := R) (fun x => if x < 0 then -x else x) Vec.abs Vec.absn Vec.absb := elemUnary_mk kindV _

/-- **C10** for `cosn`, `cosb`. The full claim also covers the in-place `cos`, for which it is false:
`C10_cos_inplace_fails`. -/
theorem C10_cos_partial [MathFns R] :
    (∀ (h : Heap R), h.WF → ∀ this, h.live (.v this) →
      Runs (Vec.cosn this) h fun r h' => ∃ o, r = some (.v o) ∧ ¬ h.live (.v o) ∧ h'.WF ∧ OthersSame h h' (.v o) ∧
        Holds h' (.v o) (h.size (.v this)) ((h.buf (.v this)).map MathFns.cos)) ∧
    (∀ (h : Heap R), h.WF → ∀ this a,
      Runs (Vec.cosb this (some a)) h fun _ h' => h'.WF ∧ OthersSame h h' (.v this) ∧
        Holds h' (.v this) (h.size (.v a)) ((h.buf (.v a)).map MathFns.cos)) :=
  ⟨(elemUnary_mk kindV _).new, (elemUnary_mk kindV _).into⟩

/-- **C10**, finding: in-place `cos()` computes the square root of every element. -/
theorem C10_cos_inplace_fails [MathFns R] (h : Heap R) (w : h.WF) (this : Nat) :
    Runs (Vec.cos this) h fun _ h' => h'.buf (.v this) = (h.buf (.v this)).map MathFns.sqrt :=
  Runs.mono ((elemUnary_mk kindV MathFns.sqrt).inPlace h w this) fun _ _ p => p.2.2.2

example : (Vec.absb 1 (some 0) (exHeap.setBuf (.v 0) [-4, 0, 3])).bufOf (.v 1) = some [4, 0, 3] := by decide +kernel

/-! ## C11 (vectors) -/

theorem VRel.frame [BEq R] [LT R] [Zero R] {s s' : VState R} {op : VOp R} {a : Ans R} (r : VRel s op a s') {k : Nat}
    (hk : op.target ≠ k) : s' k = s k := by
  have put : ∀ i l, i ≠ k → (s.put i l) k = s k := fun i l h => by
    simp [VState.put, Ne.symm h]
  cases op with
  | size i => rw [r.2]
  | element_get i p => rw [r.1]
  | element_set i p x =>
    by_cases hp : Valid p (s i).length
    · rw [r.2.1 hp]; exact put _ _ hk
    · rw [r.2.2 hp]
  | find i x st => rw [r.1]
  | get_data i => rw [r.2]
  | set_data i xs => rw [r.2]; exact put _ _ hk
  | push_back i x => rw [r.2]; exact put _ _ hk
  | append i j => cases j with
    | none => rw [r.2]
    | some j => rw [r.2]; exact put _ _ hk
  | set_from i j => cases j with
    | none => rw [r.2]
    | some j => rw [r.2]; exact put _ _ hk
  | insert i p x =>
    by_cases hp : Valid p ((s i).length + 1)
    · rw [r.2.1 hp]; exact put _ _ hk
    · rw [r.2.2 hp]
  | ordered_insert i x => obtain ⟨_, l, e, _⟩ := r; rw [e]; exact put _ _ hk
  | remove i p =>
    by_cases hp : Valid p (s i).length
    · rw [r.2.1 hp]; exact put _ _ hk
    · rw [r.2.2 hp]
  | remove_unordered i p =>
    by_cases hp : Valid p (s i).length
    · obtain ⟨l, e, _⟩ := r.2.1 hp; rw [e]; exact put _ _ hk
    · rw [r.2.2 hp]
  | erase i x =>
    rcases r.2 with ⟨_, e⟩ | ⟨u, y, v, _, _, _, e⟩
    · rw [e]
    · rw [e]; exact put _ _ hk
  | erase_multiple_unordered i x => obtain ⟨_, l, e, _⟩ := r; rw [e]; exact put _ _ hk
  | invert i => rw [r.2]; exact put _ _ hk
  | fill i x => rw [r.2]; exact put _ _ hk
  | clear i => rw [r.2]; exact put _ _ hk
  | reset i => rw [r.2]; exact put _ _ hk
  | resize i n => obtain ⟨_, l, e, _⟩ := r; rw [e]; exact put _ _ hk

theorem VRun.frame [BEq R] [LT R] [Zero R] {s s' : VState R} {ops : List (VOp R)} {as : List (Ans R)}
    (r : VRun s ops as s') {k : Nat} (hk : ∀ op ∈ ops, op.target ≠ k) : s' k = s k := by
  induction r with
  | nil => rfl
  | cons r1 _ ih =>
    rw [ih fun op ho => hk op (List.mem_cons_of_mem _ ho), VRel.frame r1 (hk _ List.mem_cons_self)]

/-- **C11 (vectors).** `duplicate_fast()` returns a new vector with the same elements, and after any further history
of calls that is not made on one of the two, that one still has the elements it had. -/
theorem C11_vector_duplicate_independent [BEq R] [LT R] [DecidableLT R] [Zero R] (h : Heap R) (w : h.WF) (this : Nat)
    (hl : h.live (.v this)) :
    Runs (Vec.duplicate_fast this) h fun r h' => ∃ o, r = some (.v o) ∧ o ≠ this ∧ ¬ h.live (.v o) ∧
      OthersSame h h' (.v o) ∧ Holds h' (.v o) (h.size (.v this)) (h.buf (.v this)) ∧
      ∀ ops : List (VOp R), Runs (Vec.execAll ops) h' fun _ h'' =>
        ((∀ op ∈ ops, op.target ≠ o) → h''.buf (.v o) = h.buf (.v this)) ∧
        ((∀ op ∈ ops, op.target ≠ this) → h''.buf (.v this) = h.buf (.v this)) := by
  obtain ⟨h', e, c⟩ := duplicateFast_run (.v this) h (w.len _) hl
  have w' : h'.WF := c.wf w (by simp [w.len]) (fun _ _ => w.vec this) (nofun)
  have hne : h.next ≠ this := by unfold Heap.live Loc.id at hl; intro h; simp [h] at hl
  refine Runs.of_eq e ⟨h.next, rfl, hne, by simp [Heap.live, Loc.id], c.spec.1, c.spec.2, fun ops => ?_⟩
  obtain ⟨as, h'', e', _, r⟩ := execAll_sound ops w'
  refine Runs.of_eq e' ⟨fun hk => ?_, fun hk => ?_⟩
  · exact (VRun.frame r hk).trans c.buf
  · exact (VRun.frame r hk).trans (c.bufFrame _ (by simpa [Loc.like] using Ne.symm hne))

example : (Vec.duplicate_fast 0 exHeap).bufOf (.v 2) = some [1, 2, 3] := by decide +kernel

end Verif
