import Verif.Spec.Image
import Verif.Props.TensorOps
import Verif.Lemmas.StdVector

/-! # Lemmas about images -/

namespace Verif
open Spec
variable {h : Heap ℝ}

theorem pixel_lt {w h x y : Nat} (hx : x < w) (hy : y < h) : y * w + x < w * h := by
  have : (y + 1) * w ≤ h * w := Nat.mul_le_mul_right _ hy
  rw [Nat.add_mul, Nat.one_mul] at this
  rw [Nat.mul_comm w h]; omega

theorem Img.get_pixel_run {i : Img} (g : Good i) {x y : Nat} (hx : x < i.width) (hy : y < i.height) (dbg : Bool) :
    Img.get_pixel dbg i x y h = .ok (colorAt i x y, h) := by
  unfold Img.get_pixel colorAt
  rw [if_neg (fun a => a.2 ⟨hx, hy⟩)]
  have lt : y * i.width + x < i.px.length := by rw [show i.px.length = _ from g]; exact pixel_lt hx hy
  rw [List.getElem?_eq_getElem lt]
  rfl

theorem toU8_run {x : ℝ} (h0 : -1 < x * 255) (h1 : x * 255 < 256) : toU8 (x * 255) h = .ok (⌊x * 255⌋₊, h) := by
  unfold toU8
  rw [if_pos ⟨h0, h1⟩]
  rfl

theorem unit_byte {x : ℝ} (h : 0 ≤ x ∧ x ≤ 1) : -1 < x * 255 ∧ x * 255 < 256 := ⟨by nlinarith [h.1], by nlinarith [h.2]⟩

theorem toU8_ub {x : ℝ} (hx : x * 255 ≤ -1 ∨ 256 ≤ x * 255) : toU8 (x * 255) h = .ub := by
  unfold toU8
  rw [if_neg (fun a => by rcases hx with q | q <;> linarith)]
  rfl

theorem bytesOf_run {n : Nat} {get : Nat → M ℝ ℝ} {v : Nat → ℝ} (hg : ∀ k < n, get k h = .ok (v k, h)) (h0 : ∀ k < n, -1 < v k * 255 ∧ v k * 255 < 256) :
    bytesOf n get h = .ok ((List.range n).map fun k => ⌊v k * 255⌋₊, h) := by
  have : Runs (bytesOf n get) h fun r h' => h' = h ∧ r = (List.range n).map fun k => ⌊v k * 255⌋₊ := by
    unfold bytesOf
    refine Runs.foldN n (fun j r h' => h' = h ∧ r = (List.range j).map fun k => ⌊v k * 255⌋₊) _ _ h ⟨rfl, rfl⟩ ?_
    rintro j _ h' hj ⟨rfl, rfl⟩
    refine Runs.step (hg j hj) (Runs.step (toU8_run (h0 j hj).1 (h0 j hj).2) (Runs.of_eq rfl ⟨rfl, ?_⟩))
    rw [List.range_succ, List.map_append]
    rfl
  obtain ⟨r, h', e, rfl, rfl⟩ := runs_iff.1 this
  exact e

theorem bytesOf_ub {N : Nat} {get : Nat → M ℝ ℝ} {v : Nat → ℝ} (hg : ∀ k < N, get k h = .ok (v k, h)) {k : Nat} (hk : k < N)
    (bad : v k * 255 ≤ -1 ∨ 256 ≤ v k * 255) : bytesOf N get h = .ub := by
  classical
  have ex : ∃ k, k < N ∧ (v k * 255 ≤ -1 ∨ 256 ≤ v k * 255) := ⟨k, hk, bad⟩
  obtain ⟨q1, q2⟩ := Nat.find_spec ex
  unfold bytesOf
  refine foldN_ub N (Nat.find ex) q1 (fun j => (List.range j).map fun k => ⌊v k * 255⌋₊) _ _ h rfl (fun i hi => ?_) ?_
  · have nb := Nat.find_min ex hi
    have ok : -1 < v i * 255 ∧ v i * 255 < 256 := by
      constructor
      · by_contra c
        exact nb ⟨by omega, .inl (by linarith)⟩
      · by_contra c
        exact nb ⟨by omega, .inr (by linarith)⟩
    refine (bind_ok (hg i (by omega))).trans ((bind_ok (toU8_run ok.1 ok.2)).trans ?_)
    rw [List.range_succ, List.map_append]
    rfl
  · exact (bind_ok (hg _ q1)).trans (bind_ub (toU8_ub q2))

theorem create_l8_gray {w r : Nat} {v : Nat → Nat → ℝ} (i : Img) (hw : 0 < w) (hr : 0 < r) (lw : w ≤ 16384) (lr : r ≤ 16384) :
    Gray (i.create_l8 w r ((List.range (w * r)).map fun k => ⌊v (k / w) (k % w) * 255⌋₊)) (fun (y : Fin r) (x : Fin w) => v y x) := by
  unfold Img.create_l8
  rw [if_pos (by simp [Img.sizeOk, hw, hr, lw, lr]), if_pos (by simp)]
  refine ⟨rfl, rfl, rfl, by simp, fun y x => ?_⟩
  have e1 : (y.val * w + x.val) / w = y.val := by
    rw [Nat.mul_comm, Nat.mul_add_div hw, Nat.div_eq_of_lt x.isLt, Nat.add_zero]
  have e2 : (y.val * w + x.val) % w = x.val := by
    rw [Nat.mul_comm, Nat.mul_add_mod, Nat.mod_eq_of_lt x.isLt]
  simp [pixel_lt x.isLt y.isLt, e1, e2]

/-- The loop that paints an image. -/
theorem paint_run {w r : Nat} {f : Img.Fmt} {i : Img} {color : Nat → Nat → M ℝ Color} {c : Nat → Nat → Color} (dbg : Bool)
    (hc : ∀ x < w, ∀ y < r, color x y h = .ok (c x y, h)) (e1 : i.width = w) (e2 : i.height = r) (e3 : i.format = f) (e4 : i.px.length = w * r) :
    ∃ i', paint dbg w r i color h = .ok (i', h) ∧ Painted i' f (fun (y : Fin r) (x : Fin w) => c x y) := by
  let P : Nat → Nat → Img → Heap ℝ → Prop := fun b a i h' => h' = h ∧ i.width = w ∧ i.height = r ∧ i.format = f ∧ i.px.length = w * r ∧
    ∀ y x, x < w → y < r → (y < b ∨ (y = b ∧ x < a)) → i.px[y * w + x]? = some (Img.encode f (c x y))
  have : Runs (paint dbg w r i color) h (P r 0) := by
    unfold paint
    refine Runs.foldN r (fun b i h' => P b 0 i h') _ _ h ⟨rfl, e1, e2, e3, e4, fun y x _ _ q => by omega⟩ ?_
    intro b i h1 hb p
    refine (Runs.foldN w (fun a i h' => P b a i h') _ _ h1 p ?_).mono ?_
    · intro a i h2 ha ⟨q0, q1, q2, q3, q4, q5⟩
      subst q0
      refine Runs.step (hc a ha b hb) ?_
      have lt := pixel_lt ha hb
      unfold Img.set_pixel
      rw [if_neg (fun z => z.2 ⟨q1 ▸ ha, q2 ▸ hb⟩), if_pos (by rw [q4, q1]; exact lt)]
      refine Runs.of_eq rfl ⟨rfl, q1, q2, q3, by simp [q4], fun y x hx hy q => ?_⟩
      show (i.px.set (b * i.width + a) (Img.encode i.format (c a b)))[y * w + x]? = _
      rw [q1, q3, List.getElem?_set]
      by_cases e : b * w + a = y * w + x
      · have hw : 0 < w := by omega
        have d1 : b = y := by
          have := congrArg (· / w) e
          simpa [Nat.mul_comm _ w, Nat.mul_add_div hw, Nat.div_eq_of_lt ha, Nat.div_eq_of_lt hx] using this
        subst d1
        have d2 : a = x := by omega
        subst d2
        rw [if_pos rfl, if_pos (by rw [q4]; exact lt)]
      · rw [if_neg e]
        refine q5 y x hx hy ?_
        rcases q with q | ⟨q, q'⟩
        · exact .inl q
        · subst q
          refine .inr ⟨rfl, ?_⟩
          have : x ≠ a := fun z => e (by rw [z])
          omega
    · intro i h2 ⟨q0, q1, q2, q3, q4, q5⟩
      exact ⟨q0, q1, q2, q3, q4, fun y x hx hy q => q5 y x hx hy (by omega)⟩
  obtain ⟨i', h', e, rfl, q1, q2, q3, q4, q5⟩ := runs_iff.1 this
  exact ⟨i', e, q1, q2, q3, q4, fun y x => q5 y x x.isLt y.isLt (.inl y.isLt)⟩

/-- The size of an image after `resize`. -/
theorem Img.resize_spec {i : Img} (g : Good i) (ne : i.px.length ≠ 0) {w r : Nat} (hw : 0 < w) (hr : 0 < r) (lw : w ≤ 16384) (lr : r ≤ 16384) :
    (i.resize w r).width = w ∧ (i.resize w r).height = r ∧ (i.resize w r).format = i.format ∧ (i.resize w r).px.length = w * r := by
  unfold Img.resize
  rw [if_neg ne, if_pos (by simp [Img.sizeOk, hw, hr, lw, lr])]
  split
  · rename_i e
    exact ⟨e.1.symm, e.2.symm, rfl, by rw [show i.px.length = _ from g, e.1, e.2]⟩
  · exact ⟨rfl, rfl, rfl, by simp⟩

namespace Ten
variable {d r c : Nat}

/-- The component that ends in slice `z`. -/
def chan : List (Nat × Fin 4) → Nat → Option (Fin 4)
  | [], _ => none
  | (i, k) :: L, z => (chan L z).orElse fun _ => if i = z then some k else none

theorem putColor_run {o : Nat} {T : Fin d → Fin r → Fin c → ℝ} (w : h.WF) (hT : IsTen h o T) (y x : Nat) (co : Color) (L : List (Nat × Fin 4)) :
    SetsTen (putColor o y x co (L.map fun p => ((p.1 : Int), p.2))) h o
      (fun z' y' x' => if y'.val = y ∧ x'.val = x then ((chan L z').map co).getD (T z' y' x') else T z' y' x') := by
  induction L generalizing h T with
  | nil =>
    refine Runs.of_eq rfl ⟨w, Keeps.refl _ _, ?_⟩
    refine cast (congrArg _ ?_) hT
    funext z' y' x'
    simp [chan]
  | cons p L ih =>
    obtain ⟨i, k⟩ := p
    show Runs (element_set o (i : Int) (y : Int) (x : Int) (co k) >>= fun _ => putColor o y x co (L.map fun p => ((p.1 : Int), p.2))) h _
    refine Runs.bind ((Ten.set_any w hT i y x (co k)).mono fun _ h1 ⟨w1, k1, hT1⟩ => ?_)
    refine (ih w1 hT1).mono fun _ h2 ⟨w2, k2, hT2⟩ => ⟨w2, k1.trans k2, ?_⟩
    refine cast (congrArg _ ?_) hT2
    funext z' y' x'
    by_cases q : y'.val = y ∧ x'.val = x
    · rw [if_pos q, if_pos q]
      show _ = (((chan L z').orElse fun _ => if i = z'.val then some k else none).map co).getD _
      cases e : chan L z' with
      | some k' => simp
      | none =>
        by_cases ez : i = z'.val
        · simp [ez, q.1, q.2]
        · rw [if_neg (fun a => ez a.1.symm), if_neg ez]; simp
    · rw [if_neg q, if_neg q, if_neg (fun a => q a.2)]

/-- The loop over the pixels of an image that writes to slices. -/
theorem putImage_run {o : Nat} {T : Fin d → Fin r → Fin c → ℝ} (w : h.WF) (hT : IsTen h o T) {i : Img} (g : Good i) (dbg : Bool) (L : List (Nat × Fin 4)) :
    SetsTen (putImage dbg o i (L.map fun p => ((p.1 : Int), p.2)) i.width i.height) h o
      (fun z y x => if x.val < i.width ∧ y.val < i.height then ((chan L z).map (colorAt i x y)).getD (T z y x) else T z y x) := by
  let V : Fin d → Fin r → Fin c → ℝ := fun z y x => ((chan L z).map (colorAt i x y)).getD (T z y x)
  let st : Nat → Nat → Fin d → Fin r → Fin c → ℝ := fun b a z y x => if (y.val < b ∧ x.val < i.width) ∨ (y.val = b ∧ x.val < a) then V z y x else T z y x
  unfold SetsTen putImage
  refine (Runs.forN i.height (fun b h' => h'.WF ∧ Keeps h h' (· = .t o) ∧ IsTen h' o (st b 0)) _ h ⟨w, Keeps.refl _ _, ?_⟩ ?_).mono ?_
  · refine cast (congrArg _ ?_) hT
    funext z y x
    simp [st]
  · intro b h1 hb ⟨w1, k1, T1⟩
    refine (Runs.forN i.width (fun a h' => h'.WF ∧ Keeps h h' (· = .t o) ∧ IsTen h' o (st b a)) _ h1 ⟨w1, k1, T1⟩ ?_).mono ?_
    · intro a h2 ha ⟨w2, k2, T2⟩
      refine Runs.step (Img.get_pixel_run g ha hb dbg) ?_
      refine (putColor_run w2 T2 b a _ L).mono fun _ h3 ⟨w3, k3, T3⟩ => ⟨w3, k2.trans k3, ?_⟩
      refine cast (congrArg _ ?_) T3
      funext z y x
      by_cases q : y.val = b ∧ x.val = a
      · rw [if_pos q]
        have e1 : st b a z y x = T z y x := if_neg (by omega)
        have e2 : st b (a + 1) z y x = V z y x := if_pos (.inr ⟨q.1, by omega⟩)
        rw [e1, e2]
        simp only [V, q.1, q.2]
      · rw [if_neg q]
        simp only [st]
        congr 1
        apply propext
        omega
    · intro _ h2 ⟨w2, k2, T2⟩
      refine ⟨w2, k2, ?_⟩
      refine cast (congrArg _ ?_) T2
      funext z y x
      simp only [st]
      congr 1
      apply propext
      omega
  · intro _ h' ⟨w', k', T'⟩
    refine ⟨w', k', ?_⟩
    refine cast (congrArg _ ?_) T'
    funext z y x
    simp only [st, V]
    congr 1
    apply propext
    omega

end Ten
end Verif
