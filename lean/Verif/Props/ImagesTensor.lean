import Verif.Props.Images
import Verif.Lemmas.Pool

/-! # C140: z slices of tensors and images -/

namespace Verif
open Spec
variable {h : Heap ℝ} {d r c : Nat} {o : Nat}

namespace Ten

theorem channels_eq (flags : Nat) : channels flags = named flags := rfl

theorem firstChannel_iff {flags : Nat} {k : Fin 4} (f : FirstNamed flags k) : firstChannel flags = some k := by
  obtain ⟨f1, f2⟩ := f
  have e : List.finRange 4 = [0, 1, 2, 3] := rfl
  unfold firstChannel channels
  rw [e]
  match k, f1, f2 with
  | 0, f1, _ => simp only [List.filter, f1]; rfl
  | 1, f1, f2 => simp only [List.filter, f1, f2 0 (by decide)]; rfl
  | 2, f1, f2 => simp only [List.filter, f1, f2 0 (by decide), f2 1 (by decide)]; rfl
  | 3, f1, f2 => simp only [List.filter, f1, f2 0 (by decide), f2 1 (by decide), f2 2 (by decide)]; rfl

theorem indicesOk_args (L : List (Option (Fin d))) : indicesOk d (L.map sliceArg) = true := by
  unfold indicesOk
  rw [List.all_map, List.all_eq_true]
  rintro (_ | z) _
  · simp [sliceArg]
  · simp [sliceArg, idxOk_nat z.isLt]

theorem indicesOk_args4 (s : Fin 4 → Option (Fin d)) : indicesOk d [sliceArg (s 0), sliceArg (s 1), sliceArg (s 2), sliceArg (s 3)] = true :=
  indicesOk_args [s 0, s 1, s 2, s 3]

theorem channels_length {flags : Nat} (nf : named flags ≠ []) : ¬ (channels flags).length = 0 := fun q => nf (List.eq_nil_of_length_eq_zero q)

theorem getColor_run {T : Fin d → Fin r → Fin c → ℝ} (hT : IsTen h o T) (y : Fin r) (x : Fin c) (L : List (Fin 4 × Option (Fin d))) (co : Color) :
    getColor o y x ((L.map fun p => (p.1, sliceArg p.2)).filter fun p => p.2 != -1) co h =
      .ok (L.foldl (fun co p => match p.2 with | none => co | some z => Function.update co p.1 (T z y x)) co, h) := by
  induction L generalizing co with
  | nil => rfl
  | cons p L ih =>
    obtain ⟨k, z | z⟩ := p
    · exact ih co
    · have : ((z.val : Int) != -1) = true := by simp
      rw [List.map_cons, List.filter_cons_of_pos (by simpa [sliceArg] using this)]
      show (element_get o (z.val : Int) (y.val : Int) (x.val : Int) >>= fun v => _) h = _
      rw [bind_ok (Ten.get_run hT z y x)]
      exact ih _

theorem slices_color {T : Fin d → Fin r → Fin c → ℝ} (hT : IsTen h o T) (y : Fin r) (x : Fin c) (s : Fin 4 → Option (Fin d)) :
    getColor o y x (sources (sliceArg (s 0)) (sliceArg (s 1)) (sliceArg (s 2)) (sliceArg (s 3))) Color.default h =
      .ok (colorOf fun k => (s k).map fun z => T z y x, h) := by
  have := getColor_run hT y x [(0, s 0), (1, s 1), (2, s 2), (3, s 3)] Color.default
  refine this.trans (congrArg (fun q => Out.ok (q, h)) ?_)
  funext k
  unfold colorOf
  simp only [List.foldl_cons, List.foldl_nil]
  match k with
  | 0 => cases s 0 <;> cases s 1 <;> cases s 2 <;> cases s 3 <;> simp [Color.default, Function.update]
  | 1 => cases s 0 <;> cases s 1 <;> cases s 2 <;> cases s 3 <;> simp [Color.default, Function.update]
  | 2 => cases s 0 <;> cases s 1 <;> cases s 2 <;> cases s 3 <;> simp [Color.default, Function.update]
  | 3 => cases s 0 <;> cases s 1 <;> cases s 2 <;> cases s 3 <;> simp [Color.default, Function.update]

theorem targets_eq (s : Fin 4 → Option (Fin d)) :
    ∃ L : List (Nat × Fin 4), targets (sliceArg (s 0)) (sliceArg (s 1)) (sliceArg (s 2)) (sliceArg (s 3)) = L.map (fun p => ((p.1 : Int), p.2)) ∧
      ∀ z : Fin d, chan L z = if s 3 = some z then some 3 else if s 2 = some z then some 2 else if s 1 = some z then some 1
        else if s 0 = some z then some 0 else none := by
  let f : Fin 4 → List (Nat × Fin 4) := fun k => match s k with | none => [] | some z => [(z.val, k)]
  refine ⟨f 0 ++ (f 1 ++ (f 2 ++ f 3)), ?_, fun z => ?_⟩
  · unfold targets
    simp only [f]
    have e : ∀ z : Fin d, ((z.val : Int) != -1) = true := fun z => by simp
    cases s 0 <;> cases s 1 <;> cases s 2 <;> cases s 3 <;> simp [sliceArg, e, List.filter]
  · simp only [f]
    cases s 0 <;> cases s 1 <;> cases s 2 <;> cases s 3 <;>
      simp only [List.nil_append, List.cons_append, chan, Option.some.injEq, reduceCtorEq, if_false, Fin.ext_iff, Option.orElse_none] <;>
      (repeat' split) <;> first | rfl | simp_all

theorem chan_zipIdx (L : List (Fin 4)) (b z : Nat) : chan ((L.zipIdx b).map fun p => (p.2, p.1)) z = if b ≤ z then L[z - b]? else none := by
  induction L generalizing b with
  | nil => simp [chan]
  | cons k L ih =>
    rw [List.zipIdx_cons, List.map_cons]
    show ((chan ((L.zipIdx (b + 1)).map fun p => (p.2, p.1)) z).orElse fun _ => if b = z then some k else none) = _
    rw [ih]
    by_cases q : b + 1 ≤ z
    · rw [if_pos q, if_pos (by omega : b ≤ z), if_neg (by omega : ¬ b = z), show z - b = (z - (b + 1)) + 1 by omega, List.getElem?_cons_succ]
      cases L[z - (b + 1)]? <;> rfl
    · rw [if_neg q]
      by_cases e : b = z
      · subst e; simp
      · rw [if_neg (by omega : ¬ b ≤ z), if_neg e]; rfl

end Ten

theorem byte_bounds {v : ℝ} (hv : 0 ≤ v ∧ v ≤ 1) : v - 1 / 255 < (Img.byte v : ℝ) / 255 ∧ (Img.byte v : ℝ) / 255 ≤ v := by
  unfold Img.byte
  rw [if_neg (by nlinarith [hv.1]), if_neg (by nlinarith [hv.2])]
  have q1 := Nat.floor_le (a := v * 255) (by have := hv.1; positivity)
  have q2 := Nat.lt_floor_add_one (v * 255)
  constructor
  · rw [lt_div_iff₀ (by norm_num)]; linarith
  · rw [div_le_iff₀ (by norm_num)]; linarith

theorem byte_low {v : ℝ} (hv : v ≤ 0) : (Img.byte v : ℝ) / 255 = 0 := by
  unfold Img.byte
  split
  · simp
  · rw [if_neg (by nlinarith), Nat.floor_of_nonpos (by linarith)]; simp

theorem byte_high {v : ℝ} (hv : 1 ≤ v) : (Img.byte v : ℝ) / 255 = 1 := by
  unfold Img.byte
  rw [if_neg (by nlinarith)]
  split
  · norm_num
  · rw [show v = 1 by linarith]; norm_num

theorem painted_at {f : Img.Fmt} {co : Fin r → Fin c → Color} {i : Img} (p : Painted i f co) (y : Fin r) (x : Fin c) :
    colorAt i x y = Img.decode f (Img.encode f (co y x)) := by
  unfold colorAt
  rw [p.1, p.2.2.2.2 y x, p.2.2.1]
  rfl

theorem painted_channel {f : Img.Fmt} {co : Fin r → Fin c → Color} {i : Img} (p : Painted i f co) (y : Fin r) (x : Fin c) (k : Fin 4) (hk : HasChannel f k) :
    colorAt i x y k = (Img.byte (co y x k) : ℝ) / 255 := by
  have e : colorAt i x y k = Img.decode f (Img.encode f (co y x)) k := by
    unfold colorAt
    rw [p.1, p.2.2.2.2 y x, p.2.2.1]
    rfl
  have e' : Img.decode f (Img.encode f (co y x)) k = (Img.byte (co y x k) : ℝ) / 255 := by
    match f, k, hk with
    | .la8, 3, _ => rfl
    | .r8, 0, _ => rfl
    | .rg8, 0, _ => rfl
    | .rg8, 1, _ => rfl
    | .rgb8, 0, _ => rfl
    | .rgb8, 1, _ => rfl
    | .rgb8, 2, _ => rfl
    | .rgba8, 0, _ => rfl
    | .rgba8, 1, _ => rfl
    | .rgba8, 2, _ => rfl
    | .rgba8, 3, _ => rfl
    | .r8, 1, q => exact absurd (show (1 : Fin 4) = 0 from q) (by decide)
    | .r8, 2, q => exact absurd (show (2 : Fin 4) = 0 from q) (by decide)
    | .r8, 3, q => exact absurd (show (3 : Fin 4) = 0 from q) (by decide)
    | .rg8, 2, q => exact absurd (show (2 : Fin 4) = 0 ∨ (2 : Fin 4) = 1 from q) (by decide)
    | .rg8, 3, q => exact absurd (show (3 : Fin 4) = 0 ∨ (3 : Fin 4) = 1 from q) (by decide)
    | .rgb8, 3, q => exact absurd rfl (show (3 : Fin 4) ≠ 3 from q)
    | .la8, 0, q => exact absurd (show (0 : Fin 4) = 3 from q) (by decide)
    | .la8, 1, q => exact absurd (show (1 : Fin 4) = 3 from q) (by decide)
    | .la8, 2, q => exact absurd (show (2 : Fin 4) = 3 from q) (by decide)
  rw [e, e']

/-- C140: a painted image, read back: every channel its format has differs from the colour that was set by less than 1/255, for components between 0 and 1. -/
theorem C140_pixels {f : Img.Fmt} {co : Fin r → Fin c → Color} {i : Img} (p : Painted i f co) (y : Fin r) (x : Fin c) (k : Fin 4) (hk : HasChannel f k)
    (h01 : 0 ≤ co y x k ∧ co y x k ≤ 1) : co y x k - 1 / 255 < colorAt i x y k ∧ colorAt i x y k ≤ co y x k := by
  rw [painted_channel p y x k hk]
  exact byte_bounds h01

/-- C140: a component that is not positive is read back as 0, one that is at least 1 as 1. -/
theorem C140_clamped {f : Img.Fmt} {co : Fin r → Fin c → Color} {i : Img} (p : Painted i f co) (y : Fin r) (x : Fin c) (k : Fin 4) (hk : HasChannel f k) :
    (co y x k ≤ 0 → colorAt i x y k = 0) ∧ (1 ≤ co y x k → colorAt i x y k = 1) := by
  rw [painted_channel p y x k hk]
  exact ⟨byte_low, byte_high⟩

/-- C140: in a grey image red, green and blue are all read back as the largest of the three, cut to the range from 0 to 1, up to 1/255. -/
theorem C140_grey {f : Img.Fmt} (hf : f = .l8 ∨ f = .la8) {co : Fin r → Fin c → Color} {i : Img} (p : Painted i f co) (y : Fin r) (x : Fin c) (k : Fin 4)
    (hk : k ≠ 3) (v : ℝ) (hv : IsGreatest {co y x 0, co y x 1, co y x 2} v) :
    (0 ≤ v ∧ v ≤ 1 → v - 1 / 255 < colorAt i x y k ∧ colorAt i x y k ≤ v) ∧ (v ≤ 0 → colorAt i x y k = 0) ∧ (1 ≤ v → colorAt i x y k = 1) := by
  have ev : max (max (co y x 0) (co y x 1)) (co y x 2) = v := by
    refine le_antisymm (max_le (max_le (hv.2 (by simp)) (hv.2 (by simp))) (hv.2 (by simp))) ?_
    rcases hv.1 with e | e | e
    · rw [e]; exact (le_max_left _ _).trans (le_max_left _ _)
    · rw [e]; exact (le_max_right _ _).trans (le_max_left _ _)
    · rw [Set.mem_singleton_iff.1 e]; exact le_max_right _ _
  have e : colorAt i x y k = (Img.byte v : ℝ) / 255 := by
    rw [painted_at p y x, ← ev]
    rcases hf with rfl | rfl
    · match k, hk with
      | 0, _ => rfl
      | 1, _ => rfl
      | 2, _ => rfl
      | 3, q => exact absurd rfl q
    · match k, hk with
      | 0, _ => rfl
      | 1, _ => rfl
      | 2, _ => rfl
      | 3, q => exact absurd rfl q
  rw [e]
  exact ⟨byte_bounds, byte_low, byte_high⟩

/-- C140: a channel the format does not have is read back as 0, or as 1 for alpha. -/
theorem C140_missing {f : Img.Fmt} {co : Fin r → Fin c → Color} {i : Img} (p : Painted i f co) (y : Fin r) (x : Fin c) (k : Fin 4) (hk : ¬ HasChannel f k)
    (hg : (f = .l8 ∨ f = .la8) → k = 3) : colorAt i x y k = if k = 3 then 1 else 0 := by
  rw [painted_at p y x]
  match f, k, hk, hg with
  | .l8, 3, _, _ => rfl
  | .l8, 0, _, q => exact absurd (q (Or.inl rfl)) (by decide)
  | .l8, 1, _, q => exact absurd (q (Or.inl rfl)) (by decide)
  | .l8, 2, _, q => exact absurd (q (Or.inl rfl)) (by decide)
  | .la8, 3, q, _ => exact absurd rfl q
  | .la8, 0, _, q => exact absurd (q (Or.inr rfl)) (by decide)
  | .la8, 1, _, q => exact absurd (q (Or.inr rfl)) (by decide)
  | .la8, 2, _, q => exact absurd (q (Or.inr rfl)) (by decide)
  | .r8, 0, q, _ => exact absurd rfl q
  | .r8, 1, _, _ => rfl
  | .r8, 2, _, _ => rfl
  | .r8, 3, _, _ => rfl
  | .rg8, 0, q, _ => exact absurd (Or.inl rfl) q
  | .rg8, 1, q, _ => exact absurd (Or.inr rfl) q
  | .rg8, 2, _, _ => rfl
  | .rg8, 3, _, _ => rfl
  | .rgb8, 0, q, _ => exact absurd (show (0 : Fin 4) ≠ 3 by decide) q
  | .rgb8, 1, q, _ => exact absurd (show (1 : Fin 4) ≠ 3 by decide) q
  | .rgb8, 2, q, _ => exact absurd (show (2 : Fin 4) ≠ 3 by decide) q
  | .rgb8, 3, _, _ => rfl
  | .rgba8, _, q, _ => exact absurd trivial q

theorem count_ne {s : Size} (e : s = ⟨c, r, d⟩) (hc : 0 < c) (hr : 0 < r) (hd : 0 < d) : s.count ≠ 0 := by
  subst e
  show c * r * d ≠ 0
  exact Nat.mul_ne_zero (Nat.mul_ne_zero (by omega) (by omega)) (by omega)

/-- C140, for slices of 1 to 16384 rows and columns whose cells fit a byte: `z_slice_get_image` makes a grey image of the slice. Full property: for every
slice. -/
theorem C140_slice_image_partial {T : Fin d → Fin r → Fin c → ℝ} (hT : IsTen h o T) (hr : 0 < r) (hc : 0 < c) (lr : r ≤ 16384) (lc : c ≤ 16384) (z : Fin d)
    (hb : ∀ y x, -1 < T z y x * 255 ∧ T z y x * 255 < 256) :
    ∃ i, Ten.z_slice_get_image o (z.val : Int) h = .ok (some i, h) ∧ Gray i (T z) := by
  have g := create_l8_gray (v := entry (Matrix.of (T z))) Img.empty hc hr lc lr
  have eA : (fun (y : Fin r) (x : Fin c) => entry (Matrix.of (T z)) y x) = T z := by
    funext y x
    simp [entry]
  rw [eA] at g
  refine ⟨_, ?_, g⟩
  have hz := z.isLt
  unfold Ten.z_slice_get_image
  rw [bind_ok (Ten.size_run o h), hT.1]
  dsimp only
  rw [if_pos (idxOk_nat z.isLt), if_neg (count_ne rfl hc hr (by omega)), Int.toNat_natCast]
  rw [bind_ok (bytesOf_run (v := fun k => entry (Matrix.of (T z)) (k / c) (k % c)) (fun k hk => ?_) fun k _ => entry_byte (fun y x => hb y x) _ _)]
  · rfl
  · have q1 : k / c < r := Nat.div_lt_of_lt_mul hk
    have q2 : k % c < c := Nat.mod_lt _ hc
    refine load_ok ?_
    have := hT.2 z ⟨k / c, q1⟩ ⟨k % c, q2⟩
    simp only [] at this
    rw [Nat.mul_comm (k / c), Nat.div_add_mod, Nat.add_comm] at this
    rw [this]
    simp [entry, q1, q2]

/-- C140, for slices of 1 to 16384 rows and columns: `z_slices_get_image` makes an image with red, green, blue and alpha, each component read from the slice
named for it; components without a slice are those of black, not transparent. -/
theorem C140_slices_image_partial {T : Fin d → Fin r → Fin c → ℝ} (hT : IsTen h o T) (hd : 0 < d) (hr : 0 < r) (hc : 0 < c) (lr : r ≤ 16384)
    (lc : c ≤ 16384) (s : Fin 4 → Option (Fin d)) (dbg : Bool) :
    ∃ i, Ten.z_slices_get_image dbg o (sliceArg (s 0)) (sliceArg (s 1)) (sliceArg (s 2)) (sliceArg (s 3)) h = .ok (some i, h) ∧
      Painted i .rgba8 fun (y : Fin r) (x : Fin c) => colorOf fun k => (s k).map fun z => T z y x := by
  obtain ⟨i, e, p⟩ := paint_run (w := c) (r := r) (f := .rgba8) (i := Img.empty.create c r .rgba8) (h := h)
    (color := fun x y => Ten.getColor o y x (Ten.sources (sliceArg (s 0)) (sliceArg (s 1)) (sliceArg (s 2)) (sliceArg (s 3))) Color.default)
    (c := fun x y => if q : y < r ∧ x < c then colorOf fun k => (s k).map fun z => T z ⟨y, q.1⟩ ⟨x, q.2⟩ else Color.default) dbg
    (fun x hx y hy => by
      have := Ten.slices_color hT ⟨y, hy⟩ ⟨x, hx⟩ s
      rw [dif_pos ⟨hy, hx⟩]
      exact this)
    (by simp [Img.create, Img.sizeOk, hr, hc, lr, lc]) (by simp [Img.create, Img.sizeOk, hr, hc, lr, lc])
    (by simp [Img.create, Img.sizeOk, hr, hc, lr, lc]) (by simp [Img.create, Img.sizeOk, hr, hc, lr, lc])
  refine ⟨i, ?_, ?_⟩
  · unfold Ten.z_slices_get_image
    rw [bind_ok (Ten.size_run o h), hT.1]
    dsimp only
    rw [if_pos (Ten.indicesOk_args4 s), if_neg (count_ne rfl hc hr hd), bind_ok e]
    rfl
  · refine cast (congrArg _ ?_) p
    funext y x
    simp

/-- C140, for slices of 1 to 16384 rows and columns: `z_slices_get_into_image` does the same with a target that has data; its format stays. -/
theorem C140_slices_into_partial {T : Fin d → Fin r → Fin c → ℝ} (hT : IsTen h o T) (hd : 0 < d) (hr : 0 < r) (hc : 0 < c) (lr : r ≤ 16384)
    (lc : c ≤ 16384) (s : Fin 4 → Option (Fin d)) (dbg : Bool) {i : Img} (g : Good i) (ne : i.px.length ≠ 0) :
    ∃ i', Ten.z_slices_get_into_image dbg o (some i) (sliceArg (s 0)) (sliceArg (s 1)) (sliceArg (s 2)) (sliceArg (s 3)) h = .ok (some i', h) ∧
      Painted i' i.format fun (y : Fin r) (x : Fin c) => colorOf fun k => (s k).map fun z => T z y x := by
  obtain ⟨q1, q2, q3, q4⟩ := Img.resize_spec g ne hc hr lc lr
  obtain ⟨i', e, p⟩ := paint_run (h := h)
    (color := fun x y => Ten.getColor o y x (Ten.sources (sliceArg (s 0)) (sliceArg (s 1)) (sliceArg (s 2)) (sliceArg (s 3))) Color.default)
    (c := fun x y => if q : y < r ∧ x < c then colorOf fun k => (s k).map fun z => T z ⟨y, q.1⟩ ⟨x, q.2⟩ else Color.default) dbg
    (fun x hx y hy => by
      have := Ten.slices_color hT ⟨y, hy⟩ ⟨x, hx⟩ s
      rw [dif_pos ⟨hy, hx⟩]
      exact this) q1 q2 q3 q4
  refine ⟨i', ?_, ?_⟩
  · unfold Ten.z_slices_get_into_image
    dsimp only
    rw [bind_ok (Ten.size_run o h), hT.1]
    dsimp only
    rw [if_pos (Ten.indicesOk_args4 s), if_neg (count_ne rfl hc hr hd), bind_ok e]
    rfl
  · refine cast (congrArg _ ?_) p
    funext y x
    simp

/-- C140, for slices of 1 to 16384 rows and columns: `z_slice_get_into_image` writes the slice to the channels named, for a target that has data; its format
stays. -/
theorem C140_slice_into_partial {T : Fin d → Fin r → Fin c → ℝ} (hT : IsTen h o T) (hr : 0 < r) (hc : 0 < c) (lr : r ≤ 16384) (lc : c ≤ 16384) (z : Fin d)
    (flags : Nat) (nf : named flags ≠ []) (dbg : Bool) {i : Img} (g : Good i) (ne : i.px.length ≠ 0) :
    ∃ i', Ten.z_slice_get_into_image dbg o (some i) (z.val : Int) flags h = .ok (some i', h) ∧
      Painted i' i.format fun (y : Fin r) (x : Fin c) => colorOf fun k => if flags.testBit k then some (T z y x) else none := by
  obtain ⟨q1, q2, q3, q4⟩ := Img.resize_spec g ne hc hr lc lr
  have hz := z.isLt
  obtain ⟨i', e, p⟩ := paint_run (h := h)
    (color := fun x y => do
          let e ← Ten.element_get o (z.val : Int) (y : Int) (x : Int)
          pure (Ten.spread (Ten.channels flags) e))
    (c := fun x y => Ten.spread (Ten.channels flags) (cellOrZero T z y x)) dbg
    (fun x _ y _ => bind_ok (Ten.get_any hT z y x)) q1 q2 q3 q4
  refine ⟨i', ?_, ?_⟩
  · unfold Ten.z_slice_get_into_image
    rw [bind_ok (Ten.size_run o h), hT.1]
    dsimp only
    rw [if_pos (idxOk_nat z.isLt), if_neg (Ten.channels_length nf), if_neg (count_ne rfl hc hr (by omega)), bind_ok e]
    rfl
  · refine cast (congrArg _ ?_) p
    funext y x k
    simp only [Ten.spread, Ten.channels, List.mem_filter, List.mem_finRange, true_and, colorOf, cellOrZero, z.isLt, y.isLt, x.isLt, dif_pos, and_self]
    split
    · rfl
    · fin_cases k <;> rfl

/-- C140: `z_slice_set_image` copies the first channel named to the slice, and changes nothing else. -/
theorem C140_slice_set (w : h.WF) {T : Fin d → Fin r → Fin c → ℝ} (hT : IsTen h o T) (z : Fin d) {flags : Nat} {k : Fin 4} (hk : FirstNamed flags k)
    (dbg : Bool) {i : Img} (g : Good i) (ew : i.width = c) (eh : i.height = r) :
    SetsTen (Ten.z_slice_set_image dbg o (some i) (z.val : Int) flags) h o (fun z' y x => if z' = z then colorAt i x y k else T z' y x) := by
  unfold SetsTen Ten.z_slice_set_image
  dsimp only
  refine Runs.step (Ten.size_run o h) ?_
  rw [hT.1]
  dsimp only
  rw [if_pos (idxOk_nat z.isLt), Ten.firstChannel_iff hk]
  dsimp only
  rw [if_pos ⟨ew, eh⟩]
  subst ew eh
  refine (Ten.putImage_run w hT g dbg [(z.val, k)]).mono fun _ h1 ⟨w1, k1, t1⟩ => ⟨w1, k1, ?_⟩
  refine cast (congrArg _ ?_) t1
  funext z' y x
  rw [if_pos ⟨x.isLt, y.isLt⟩]
  by_cases e : z' = z
  · subst e; simp [Ten.chan]
  · have : ¬ z.val = z'.val := fun q => e (Fin.ext q.symm)
    simp [Ten.chan, e, this]

/-- C140: `z_slices_set_image` copies components of the image to the slices named for them, and changes nothing else; of several components named for the
same slice the last one counts. -/
theorem C140_slices_set (w : h.WF) {T : Fin d → Fin r → Fin c → ℝ} (hT : IsTen h o T) (s : Fin 4 → Option (Fin d)) (dbg : Bool) {i : Img} (g : Good i)
    (ew : i.width = c) (eh : i.height = r) :
    SetsTen (Ten.z_slices_set_image dbg o (some i) (sliceArg (s 0)) (sliceArg (s 1)) (sliceArg (s 2)) (sliceArg (s 3))) h o
      (fun z y x => if s 3 = some z then colorAt i x y 3 else if s 2 = some z then colorAt i x y 2 else if s 1 = some z then colorAt i x y 1
        else if s 0 = some z then colorAt i x y 0 else T z y x) := by
  obtain ⟨L, eL, cL⟩ := Ten.targets_eq s
  unfold SetsTen Ten.z_slices_set_image
  dsimp only
  refine Runs.step (Ten.size_run o h) ?_
  rw [hT.1]
  dsimp only
  rw [if_pos (Ten.indicesOk_args4 s), if_pos ⟨ew, eh⟩, eL]
  subst ew eh
  refine (Ten.putImage_run w hT g dbg L).mono fun _ h1 ⟨w1, k1, t1⟩ => ⟨w1, k1, ?_⟩
  refine cast (congrArg _ ?_) t1
  funext z y x
  rw [if_pos ⟨x.isLt, y.isLt⟩, cL]
  (repeat' split) <;> simp_all

/-- C140: `set_from_image` gives the tensor the size of the image and one slice for every channel named, in the order red, green, blue, alpha. -/
theorem C140_set_from_image (w : h.WF) (o flags : Nat) (nf : named flags ≠ []) (dbg : Bool) {i : Img} (g : Good i) :
    SetsTen (Ten.set_from_image dbg o (some i) flags) h o
      (fun (z : Fin (named flags).length) (y : Fin i.height) (x : Fin i.width) => colorAt i x y (named flags)[z]) := by
  unfold SetsTen Ten.set_from_image
  dsimp only
  rw [if_neg (Ten.channels_length nf)]
  refine Runs.resizeT w fun h1 w1 k1 _ s1 _ => ?_
  obtain ⟨T, hT⟩ := IsTen.existsOf w1 s1
  have := Ten.putImage_run w1 hT g dbg ((Ten.channels flags).zipIdx.map fun p => (p.2, p.1))
  rw [List.map_map] at this
  refine this.mono fun _ h2 ⟨w2, k2, t2⟩ => ⟨w2, k1.trans k2, ?_⟩
  refine cast (congrArg _ ?_) t2
  funext z y x
  rw [if_pos ⟨x.isLt, y.isLt⟩, Ten.chan_zipIdx, if_pos (by omega)]
  have : (Ten.channels flags)[z.val - 0]? = some ((named flags)[z]) := by
    rw [Nat.sub_zero]
    exact List.getElem?_eq_getElem z.isLt
  rw [this]
  rfl

/-- C140: missing images, slices out of range, no channel, or an image of a different size: the tensor and the target stay as they are. -/
theorem C140_rejects (h : Heap ℝ) (o : Nat) (i : Img) (dbg : Bool) (z r' g' b' a' : Int) (flags : Nat) :
    Ten.z_slice_set_image dbg o none z flags h = .ok ((), h) ∧ Ten.z_slices_set_image dbg o none r' g' b' a' h = .ok ((), h) ∧
    Ten.set_from_image dbg o none flags h = .ok ((), h) ∧ Ten.z_slices_get_into_image dbg o none r' g' b' a' h = .ok (none, h) ∧
    (named flags = [] → Ten.set_from_image dbg o (some i) flags h = .ok ((), h) ∧ Ten.z_slice_set_image dbg o (some i) z flags h = .ok ((), h) ∧
      Ten.z_slice_get_into_image dbg o (some i) z flags h = .ok (some i, h)) ∧
    (z < 0 ∨ (h.size (.t o)).z ≤ z → Ten.z_slice_get_image o z h = .ok (none, h) ∧ Ten.z_slice_get_into_image dbg o (some i) z flags h = .ok (some i, h) ∧
      Ten.z_slice_set_image dbg o (some i) z flags h = .ok ((), h)) ∧
    (i.width ≠ (h.size (.t o)).x ∨ i.height ≠ (h.size (.t o)).y →
      Ten.z_slice_set_image dbg o (some i) z flags h = .ok ((), h) ∧ Ten.z_slices_set_image dbg o (some i) r' g' b' a' h = .ok ((), h)) := by
  refine ⟨rfl, rfl, rfl, rfl, fun e => ⟨?_, ?_, ?_⟩, fun e => ?_, fun e => ⟨?_, ?_⟩⟩
  · unfold Ten.set_from_image
    dsimp only
    rw [if_pos (by rw [Ten.channels_eq, e]; rfl)]
    rfl
  · unfold Ten.z_slice_set_image
    dsimp only
    rw [bind_ok (Ten.size_run o h)]
    have : Ten.firstChannel flags = none := by unfold Ten.firstChannel; rw [Ten.channels_eq, e]; rfl
    rw [this]
    split <;> rfl
  · unfold Ten.z_slice_get_into_image
    rw [bind_ok (Ten.size_run o h)]
    split
    · dsimp only
      rw [if_pos (by rw [Ten.channels_eq, e]; rfl)]
      rfl
    · rfl
  · have q : ¬ idxOk z (h.size (.t o)).z = true := by simp [idxOk]; omega
    refine ⟨?_, ?_, ?_⟩
    · unfold Ten.z_slice_get_image
      rw [bind_ok (Ten.size_run o h), if_neg q]; rfl
    · unfold Ten.z_slice_get_into_image
      rw [bind_ok (Ten.size_run o h), if_neg q]; rfl
    · unfold Ten.z_slice_set_image
      dsimp only
      rw [bind_ok (Ten.size_run o h), if_neg q]; rfl
  · unfold Ten.z_slice_set_image
    dsimp only
    rw [bind_ok (Ten.size_run o h)]
    split
    · cases Ten.firstChannel flags with
      | none => rfl
      | some k => dsimp only; rw [if_neg (by omega)]; rfl
    · rfl
  · unfold Ten.z_slices_set_image
    dsimp only
    rw [bind_ok (Ten.size_run o h)]
    split
    · rw [if_neg (by omega)]; rfl
    · rfl

/-- C140 fails for a new image as target: it stays empty in debug builds, and pixels outside its (missing) data are written in others. -/
theorem C140_new_target_fails {T : Fin d → Fin r → Fin c → ℝ} (hT : IsTen h o T) (hr : 0 < r) (hc : 0 < c) (z : Fin d) (flags : Nat)
    (nf : named flags ≠ []) :
    Ten.z_slice_get_into_image false o (some ⟨0, 0, .l8, []⟩) (z.val : Int) flags h = .ub ∧
    Ten.z_slice_get_into_image true o (some ⟨0, 0, .l8, []⟩) (z.val : Int) flags h = .ok (some ⟨0, 0, .l8, []⟩, h) := by
  have hz := z.isLt
  have e0 : ∀ a b, (⟨0, 0, .l8, []⟩ : Img).resize a b = ⟨0, 0, .l8, []⟩ := fun a b => rfl
  constructor
  · unfold Ten.z_slice_get_into_image
    rw [bind_ok (Ten.size_run o h), hT.1]
    dsimp only
    rw [if_pos (idxOk_nat z.isLt), if_neg (Ten.channels_length nf), if_neg (count_ne rfl hc hr (by omega)), e0]
    refine bind_ub ?_
    unfold paint
    refine foldN_ub r 0 hr (fun _ => ⟨0, 0, .l8, []⟩) _ _ h rfl (fun i hi => by omega) ?_
    refine foldN_ub c 0 hc (fun _ => ⟨0, 0, .l8, []⟩) _ _ h rfl (fun i hi => by omega) ?_
    refine (bind_ok (bind_ok (Ten.get_any hT z 0 0))).trans ?_
    unfold Img.set_pixel
    rw [if_neg (by simp), if_neg (by simp)]
    rfl
  · unfold Ten.z_slice_get_into_image
    rw [bind_ok (Ten.size_run o h), hT.1]
    dsimp only
    rw [if_pos (idxOk_nat z.isLt), if_neg (Ten.channels_length nf), if_neg (count_ne rfl hc hr (by omega)), e0]
    have : paint true c r ⟨0, 0, .l8, []⟩ (fun x y => do
          let e ← Ten.element_get o (z.val : Int) (y : Int) (x : Int)
          pure (Ten.spread (Ten.channels flags) e)) h = .ok (⟨0, 0, .l8, []⟩, h) := by
      have : Runs (paint true c r ⟨0, 0, .l8, []⟩ (fun x y => do
          let e ← Ten.element_get o (z.val : Int) (y : Int) (x : Int)
          pure (Ten.spread (Ten.channels flags) e))) h fun i h' => i = ⟨0, 0, .l8, []⟩ ∧ h' = h := by
        unfold paint
        refine Runs.foldN r (fun _ (i : Img) h' => i = ⟨0, 0, .l8, []⟩ ∧ h' = h) _ _ h ⟨rfl, rfl⟩ ?_
        rintro y _ _ _ ⟨rfl, rfl⟩
        refine Runs.foldN c (fun _ (i : Img) h' => i = ⟨0, 0, .l8, []⟩ ∧ h' = _) _ _ _ ⟨rfl, rfl⟩ ?_
        rintro x _ _ _ ⟨rfl, rfl⟩
        refine Runs.step (bind_ok (Ten.get_any hT z y x)) ?_
        unfold Img.set_pixel
        rw [if_pos (by simp)]
        exact Runs.of_eq rfl ⟨rfl, rfl⟩
      obtain ⟨i', h', e, rfl, rfl⟩ := runs_iff.1 this
      exact e
    rw [bind_ok this]
    rfl

/-- C140 fails for `z_slices_add_image`: it is the number of rows that grows, the number of slices stays. -/
theorem C140_add_image_fails (w : h.WF) {T : Fin d → Fin r → Fin c → ℝ} (hT : IsTen h o T) (hr : 0 < r) (flags : Nat) (nf : named flags ≠ [])
    (dbg : Bool) {i : Img} (g : Good i) (ew : i.width = c) (eh : i.height = r) :
    Runs (Ten.z_slices_add_image dbg o (some i) flags) h fun _ h' => h'.size (.t o) = ⟨c, r + (named flags).length, d⟩ := by
  unfold Ten.z_slices_add_image
  dsimp only
  rw [if_neg (Ten.channels_length nf)]
  refine Runs.step (Ten.size_run o h) ?_
  rw [if_neg (by rw [hT.1]; intro q; injection q; omega)]
  refine Runs.step (Ten.size_run o h) ?_
  rw [hT.1]
  dsimp only
  rw [if_pos ⟨ew, eh⟩]
  refine Runs.resizeT w fun h1 w1 k1 _ s1 _ => ?_
  obtain ⟨T', hT'⟩ := IsTen.existsOf w1 s1
  subst ew eh
  have := Ten.putImage_run w1 hT' g dbg ((Ten.channels flags).zipIdx.map fun p => (i.height + p.2, p.1))
  rw [List.map_map] at this
  exact this.mono fun _ h2 ⟨w2, k2, t2⟩ => t2.1

/-! A case that meets the hypotheses: two slices of one row and two columns. -/

noncomputable def exPicTen : Heap ℝ := Heap.ofTens 0 [(⟨2, 1, 2⟩, [1 / 2, 0, 1, 1 / 4])]
noncomputable def exPicCells : Fin 2 → Fin 1 → Fin 2 → ℝ := fun z _ x => [1 / 2, 0, 1, 1 / 4].getD (z.val * 2 + x.val) 0

theorem exPicTen_wf : exPicTen.WF := Heap.ofTens_wf _ _ (by simp [Size.count])
theorem exPicTen_ten : IsTen exPicTen 0 exPicCells :=
  ⟨by simp [exPicTen, Heap.ofTens], fun z y x => by fin_cases z <;> fin_cases y <;> fin_cases x <;> simp [exPicTen, exPicCells, Heap.ofTens]⟩

theorem exPicCells_unit : ∀ z y x, 0 ≤ exPicCells z y x ∧ exPicCells z y x ≤ 1 := by
  intro z y x
  fin_cases z <;> fin_cases x <;> simp [exPicCells] <;> norm_num

example : ∃ i, Ten.z_slice_get_image 0 ((1 : Fin 2).val : Int) exPicTen = .ok (some i, exPicTen) ∧ Gray i (exPicCells 1) :=
  C140_slice_image_partial exPicTen_ten (by norm_num) (by norm_num) (by norm_num) (by norm_num) 1 fun y x => unit_byte (exPicCells_unit 1 y x)

example : ∃ i, Ten.z_slices_get_image true 0 1 (-1) 0 (-1) exPicTen = .ok (some i, exPicTen) ∧
    Painted i .rgba8 fun (y : Fin 1) (x : Fin 2) => ![exPicCells 1 y x, 0, exPicCells 0 y x, 1] := by
  obtain ⟨i, e, p⟩ := C140_slices_image_partial exPicTen_ten (by norm_num) (by norm_num) (by norm_num) (by norm_num) (by norm_num) ![some 1, none, some 0, none]
    true
  refine ⟨i, e, cast (congrArg _ ?_) p⟩
  funext y x k
  fin_cases k <;> simp [colorOf]

example : ∃ i, Ten.z_slice_get_into_image true 0 (some exPic) ((0 : Fin 2).val : Int) 3 exPicTen = .ok (some i, exPicTen) ∧
    Painted i .l8 fun (y : Fin 1) (x : Fin 2) => colorOf fun k => if Nat.testBit 3 k then some (exPicCells 0 y x) else none :=
  C140_slice_into_partial exPicTen_ten (by norm_num) (by norm_num) (by norm_num) (by norm_num) 0 3 (by decide) true exPic_good (by simp [exPic])

example : SetsTen (Ten.z_slice_set_image true 0 (some exPic) ((1 : Fin 2).val : Int) 6) exPicTen 0
    (fun z y x => if z = 1 then colorAt exPic x y 1 else exPicCells z y x) :=
  C140_slice_set exPicTen_wf exPicTen_ten 1 ⟨by decide, by decide⟩ true exPic_good rfl rfl

example : SetsTen (Ten.set_from_image true 0 (some exPic) 10) exPicTen 0
    (fun (z : Fin (named 10).length) (y : Fin 1) (x : Fin 2) => colorAt exPic x y (named 10)[z]) :=
  C140_set_from_image exPicTen_wf 0 10 (by decide) true exPic_good

example : named 10 = [1, 3] := by decide

/-- Adding an image of one row and two columns, for its red channel, makes slices of two rows; there are still two slices. -/
example : Runs (Ten.z_slices_add_image true 0 (some exPic) 1) exPicTen fun _ h' => h'.size (.t 0) = ⟨2, 2, 2⟩ :=
  C140_add_image_fails exPicTen_wf exPicTen_ten (by norm_num) 1 (by decide) true exPic_good rfl rfl

end Verif
