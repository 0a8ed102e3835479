import Verif.Base

/-!
# `SortArray` (platform/sfw.h:3210-3490) and `MLPPVector::sort` (core/mlpp_vector.h:130-146)

`p_array` is the data array of the object `l`. Indices are natural numbers: a decrement below 0 is followed in the source
by an access with a negative index, reported here as `ub`. `while` loops take a `fuel` argument; running out of fuel is
reported as `ub`, so a theorem of normal return includes termination. `Validate` is false (release build).
Values passed as `const T &` into the array (`median_of_3`) are copied by the callee before the array is written
(`partitioner(T p_pivot)`), so they are values here.
-/

namespace Verif
namespace SortArray
variable {R : Type} [LT R] [DecidableLT R]

/-- `median_of_3(a, b, c)`, sfw.h:3236-3252. -/
def median_of_3 (a b c : R) : R :=
  if a < b then
    if b < c then b else if a < c then c else a
  else if a < c then a
  else if b < c then c
  else b

/-- `bitlog(n)`, sfw.h:3254-3260. (For `n = 0` the source does not terminate; it is only called with `n ≥ 1`.) -/
def bitlog (n : Nat) : Nat := if n ≤ 1 then 0 else bitlog (n / 2) + 1
decreasing_by omega

/-- `push_heap`, sfw.h:3264-3272. -/
def push_heap (l : Loc) (first : Nat) (top : Nat) (value : R) : (fuel hole : Nat) → M R Unit
  | 0, _ => ub
  | fuel + 1, hole =>
    if hole > top then do
      let parent := (hole - 1) / 2
      let x ← load l (first + parent)
      if x < value then do
        store l (first + hole) x
        push_heap l first top value fuel parent
      else store l (first + hole) value
    else store l (first + hole) value

/-- The loop of `adjust_heap` and what follows it, sfw.h:3282-3301; `second_child = 2 * hole + 2` at every
iteration. -/
def adjustLoop (l : Loc) (first top len : Nat) (value : R) : (fuel hole : Nat) → M R Unit
  | 0, _ => ub
  | fuel + 1, hole =>
    let second_child := 2 * hole + 2
    if second_child < len then do
      let x ← load l (first + second_child)
      let y ← load l (first + (second_child - 1))
      let second_child := if x < y then second_child - 1 else second_child
      let z ← load l (first + second_child)
      store l (first + hole) z
      adjustLoop l first top len value fuel second_child
    else if second_child = len then do
      let z ← load l (first + (second_child - 1))
      store l (first + hole) z
      push_heap l first top value (len + 1) (second_child - 1)
    else push_heap l first top value (len + 1) hole

/-- `adjust_heap(p_first, p_hole_idx, p_len, p_value)`, sfw.h:3282-3301. -/
def adjust_heap (l : Loc) (first hole len : Nat) (value : R) : M R Unit :=
  adjustLoop l first hole len value (len + 1) hole

/-- `pop_heap(p_first, p_last, p_result, p_value)`, sfw.h:3274-3277. -/
def pop_heap4 (l : Loc) (first last result : Nat) (value : R) : M R Unit := do
  let x ← load l first
  store l result x
  adjust_heap l first 0 (last - first) value

/-- `pop_heap(p_first, p_last)`, sfw.h:3278-3280. -/
def pop_heap (l : Loc) (first last : Nat) : M R Unit := do
  let v ← load l (last - 1)
  pop_heap4 l first (last - 1) (last - 1) v

/-- `sort_heap(p_first, p_first + len)`, sfw.h:3303-3307. -/
def sort_heap (l : Loc) (first : Nat) : (len : Nat) → M R Unit
  | 0 => pure ()
  | 1 => pure ()
  | len + 2 => do
    pop_heap l first (first + (len + 2))
    sort_heap l first (len + 1)

/-- The `while (true)` loop of `make_heap`. -/
def makeLoop (l : Loc) (first len : Nat) : (parent : Nat) → M R Unit
  | 0 => do
    let v ← load l (first + 0)
    adjust_heap l first 0 len v
  | parent + 1 => do
    let v ← load l (first + (parent + 1))
    adjust_heap l first (parent + 1) len v
    makeLoop l first len parent

/-- `make_heap(p_first, p_last)`, sfw.h:3309-3323. -/
def make_heap (l : Loc) (first last : Nat) : M R Unit :=
  if last - first < 2 then pure () else makeLoop l first (last - first) ((last - first - 2) / 2)

/-- `partial_sort(p_first, p_last, p_middle)`, sfw.h:3325-3333. -/
def partial_sort (l : Loc) (first last middle : Nat) : M R Unit := do
  make_heap l first middle
  loop middle (last - middle) () fun i _ => do
    let x ← load l i
    let y ← load l first
    if x < y then pop_heap4 l first middle i x else pure ()
  sort_heap l first (middle - first)

/-- `while (compare(p_array[p_first], p_pivot)) p_first++;`, sfw.h:3350-3355. -/
def scanUp (l : Loc) (pivot : R) : (fuel i : Nat) → M R Nat
  | 0, _ => ub
  | fuel + 1, i => do
    let x ← load l i
    if x < pivot then scanUp l pivot fuel (i + 1) else pure i

/-- `p_last--; while (compare(p_pivot, p_array[p_last])) p_last--;`, sfw.h:3356-3362: the argument is `p_last` before the
first decrement. -/
def scanDown (l : Loc) (pivot : R) : (i : Nat) → M R Nat
  | 0 => ub
  | i + 1 => do
    let x ← load l i
    if pivot < x then scanDown l pivot i else pure i

/-- `partitioner`, sfw.h:3344-3370. -/
def partitioner (l : Loc) (pivot : R) (scanFuel : Nat) : (fuel first last : Nat) → M R Nat
  | 0, _, _ => ub
  | fuel + 1, first, last => do
    let first ← scanUp l pivot scanFuel first
    let last ← scanDown l pivot last
    if first < last then do
      let x ← load l first
      let y ← load l last
      store l first y
      store l last x
      partitioner l pivot scanFuel fuel (first + 1) last
    else pure first

/-- `introsort`, sfw.h:3372-3393. The loop iteration with `p_last = cut` is the second recursive call. -/
def introsort (l : Loc) : (max_depth first last : Nat) → M R Unit
  | 0, first, last => if last - first > 16 then partial_sort l first last last else pure ()
  | depth + 1, first, last =>
    if last - first > 16 then do
      let a ← load l first
      let b ← load l (first + (last - first) / 2)
      let c ← load l (last - 1)
      let cut ← partitioner l (median_of_3 a b c) (last + 1) (last + 1) first last
      introsort l depth cut last
      introsort l depth first cut
    else pure ()

/-- `unguarded_linear_insert(p_last, p_value)`, sfw.h:3424-3435. -/
def unguarded_linear_insert (l : Loc) (value : R) : (last : Nat) → M R Unit
  | 0 => ub
  | next + 1 => do
    let x ← load l next
    if value < x then do
      store l (next + 1) x
      unguarded_linear_insert l value next
    else store l (next + 1) value

/-- `linear_insert(p_first, p_last)`, sfw.h:3437-3448. The loop counts `i` down from `p_last` to `p_first + 1`; the model
counts `k` up and uses `i = p_last - k`. -/
def linear_insert (l : Loc) (first last : Nat) : M R Unit := do
  let val ← load l last
  let y ← load l first
  if val < y then do
    forN (last - first) fun k => do
      let x ← load l (last - k - 1)
      store l (last - k) x
    store l first val
  else unguarded_linear_insert l val last

/-- `insertion_sort(p_first, p_last)`, sfw.h:3450-3457. -/
def insertion_sort (l : Loc) (first last : Nat) : M R Unit :=
  if first = last then pure ()
  else loop (first + 1) (last - (first + 1)) () fun i _ => linear_insert l first i

/-- `unguarded_insertion_sort(p_first, p_last)`, sfw.h:3459-3463. -/
def unguarded_insertion_sort (l : Loc) (first last : Nat) : M R Unit :=
  loop first (last - first) () fun i _ => do
    let v ← load l i
    unguarded_linear_insert l v i

/-- `final_insertion_sort(p_first, p_last)`, sfw.h:3465-3472. -/
def final_insertion_sort (l : Loc) (first last : Nat) : M R Unit :=
  if last - first > 16 then do
    insertion_sort l first (first + 16)
    unguarded_insertion_sort l (first + 16) last
  else insertion_sort l first last

/-- `sort_range(p_first, p_last)`, sfw.h:3474-3479. -/
def sort_range (l : Loc) (first last : Nat) : M R Unit :=
  if first ≠ last then do
    introsort l (bitlog (last - first) * 2) first last
    final_insertion_sort l first last
  else pure ()

end SortArray

/-- `MLPPVector::sort()`, core/mlpp_vector.h:130-146. -/
def Vec.sort {R : Type} [LT R] [DecidableLT R] (this : Nat) : M R Unit := do
  let s ← getSize (.v this)
  if s.x = 0 then pure () else SortArray.sort_range (.v this) 0 s.x

end Verif
