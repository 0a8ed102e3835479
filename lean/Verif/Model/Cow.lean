import Verif.Spec.Cow
import Mathlib.Logic.Function.Basic

/-! # `Vector` and `CowData` (platform/sfw.h:2859-3198, 4939-5089): copy on write with reference counts

The variables of type `Vector<T>` are `x : X`; `none : Option X` is the one temporary that `append_array` and `slice` use. Memory is a partial function from
addresses to blocks; reading or writing a block that was freed, or outside of its bytes, is undefined behaviour. `realloc` always moves the block. Atomic operations on the
reference count are sequential. `int` is unbounded. -/

namespace Verif.Cow
open Spec.Values

/-- `next_power_of_2(x)`, sfw.h:620-633, for `unsigned int`. -/
def next_power_of_2 (x : Nat) : Nat :=
  let x := x % 2 ^ 32
  if x = 0 then 0 else
    let x := x - 1
    let x := x ||| (x >>> 1)
    let x := x ||| (x >>> 2)
    let x := x ||| (x >>> 4)
    let x := x ||| (x >>> 8)
    let x := x ||| (x >>> 16)
    (x + 1) % 2 ^ 32

/-- A block of memory made by `CowData`: the reference count, the number of elements, the bytes allocated for elements and the elements. -/
structure Block (T : Type) where
  refc : Nat
  size : Nat
  bytes : Nat
  data : Nat → T

/-- The memory and the pointers `_ptr` of the variables. `junk` is what newly allocated memory contains. -/
structure St (X T : Type) where
  blocks : Nat → Option (Block T)
  next : Nat
  junk : Nat → Nat → T
  ptr : Option X → Option Nat

/-- `for (int i = 0; i < n; i++)`. -/
def loop {S : Type} (f : Nat → S → Except Fail S) : Nat → S → Except Fail S
  | 0, σ => .ok σ
  | n + 1, σ => do
    let σ ← loop f n σ
    f n σ

variable {X T : Type} [DecidableEq X] [DecidableEq T] (s : Nat) (ctor : Option T) (lt : T → T → Bool)

/-- `_get_alloc_size(n)`, sfw.h:2890-2893, for elements of `s` bytes. -/
def allocSize (n : Nat) : Nat := next_power_of_2 (n * s)

/-- Access to a block. -/
def block (σ : St X T) (p : Option Nat) : Except Fail (Nat × Block T) :=
  match p with
  | none => .error .ub
  | some b => match σ.blocks b with
    | none => .error .ub
    | some k => .ok (b, k)

/-- Replaces the block `b`. -/
def put (σ : St X T) (b : Nat) (k : Block T) : St X T := { σ with blocks := Function.update σ.blocks b (some k) }

/-- `_ptr[i] = v`. -/
def store (σ : St X T) (x : Option X) (i : Nat) (v : T) : Except Fail (St X T) := do
  let (b, k) ← block σ (σ.ptr x)
  if (i + 1) * s ≤ k.bytes then .ok (put σ b { k with data := Function.update k.data i v }) else .error .ub

/-- `_ptr[i]`. -/
def load (σ : St X T) (x : Option X) (i : Nat) : Except Fail T := do
  let (_, k) ← block σ (σ.ptr x)
  if (i + 1) * s ≤ k.bytes then .ok (k.data i) else .error .ub

/-- `_unref(_ptr)`, sfw.h:3007-3032. The destructors of the elements are not modelled. -/
def unref (σ : St X T) (x : Option X) : Except Fail (St X T) :=
  match σ.ptr x with
  | none => .ok σ
  | some b => do
    let (_, k) ← block σ (some b)
    let r := (k.refc + 2 ^ 32 - 1) % 2 ^ 32
    if r > 0 then .ok (put σ b { k with refc := r }) else .ok { σ with blocks := Function.update σ.blocks b none }

/-- `_ptr = nullptr`. -/
def null (σ : St X T) (x : Option X) : St X T := { σ with ptr := Function.update σ.ptr x none }

/-- `_ref(from)`, sfw.h:3172-3188, with `conditional_increment`, sfw.h:1092-1102. -/
def ref (σ : St X T) (x y : Option X) : Except Fail (St X T) :=
  if σ.ptr x = σ.ptr y then .ok σ else do
    let σ ← unref σ x
    let σ := null σ x
    match σ.ptr y with
    | none => .ok σ
    | some b => do
      let (_, k) ← block σ (some b)
      if k.refc = 0 then .ok σ else
        let c := (k.refc + 1) % 2 ^ 32
        let σ := put σ b { k with refc := c }
        if c > 0 then .ok { σ with ptr := Function.update σ.ptr x (some b) } else .ok σ

/-- `_copy_on_write()`, sfw.h:3034-3070. -/
def copy_on_write (σ : St X T) (x : Option X) : Except Fail (St X T × Nat) :=
  match σ.ptr x with
  | none => .ok (σ, 0)
  | some b => do
    let (_, k) ← block σ (some b)
    if k.refc > 1 then
      if k.size * s ≤ k.bytes ∧ k.size * s ≤ allocSize s k.size then
        let new : Block T := ⟨1, k.size, allocSize s k.size, fun i => if i < k.size then k.data i else σ.junk σ.next i⟩
        let σ' : St X T := { σ with blocks := Function.update σ.blocks σ.next (some new), next := σ.next + 1 }
        let σ'' ← unref σ' x
        .ok ({ σ'' with ptr := Function.update σ''.ptr x (some σ.next) }, 1)
      else .error .ub
    else .ok (σ, k.refc)

/-- `size()`, sfw.h:2933-2940. -/
def size (σ : St X T) (x : Option X) : Except Fail Nat :=
  match σ.ptr x with
  | none => .ok 0
  | some b => do
    let (_, k) ← block σ (some b)
    .ok k.size

/-- `realloc_static(_ptr, bytes)` and the new reference count, sfw.h:3108-3112 and 3136-3140. -/
def realloc (σ : St X T) (x : Option X) (bytes rc : Nat) : Except Fail (St X T) := do
  let (b, k) ← block σ (σ.ptr x)
  let data := fun i => if (i + 1) * s ≤ k.bytes ∧ (i + 1) * s ≤ bytes then k.data i else σ.junk σ.next i
  .ok { σ with blocks := Function.update (Function.update σ.blocks b none) σ.next (some ⟨rc, k.size, bytes, data⟩), next := σ.next + 1,
               ptr := Function.update σ.ptr x (some σ.next) }

/-- The allocation from scratch, sfw.h:3099-3105. -/
def alloc (σ : St X T) (x : Option X) (bytes : Nat) : St X T :=
  { σ with blocks := Function.update σ.blocks σ.next (some ⟨1, 0, bytes, σ.junk σ.next⟩), next := σ.next + 1, ptr := Function.update σ.ptr x (some σ.next) }

/-- `*_get_size() = n`. -/
def setSize (σ : St X T) (x : Option X) (n : Nat) : Except Fail (St X T) := do
  let (b, k) ← block σ (σ.ptr x)
  .ok (put σ b { k with size := n })

/-- The memory of a growing vector, sfw.h:3097-3114. -/
def growBlock (σ : St X T) (x : Option X) (current_size n rc : Nat) : Except Fail (St X T) :=
  if allocSize s n ≠ allocSize s current_size then if current_size = 0 then .ok (alloc σ x (allocSize s n)) else realloc s σ x (allocSize s n) rc else .ok σ

/-- The construction of the elements from `size` to `n`, sfw.h:3116-3122. -/
def construct (σ : St X T) (x : Option X) (size n : Nat) : Except Fail (St X T) :=
  match ctor with
  | none => .ok σ
  | some d => loop (fun i σ => store s σ x (size + i) d) (n - size) σ

/-- The growing part of `resize`, sfw.h:3096-3124. -/
def grow (σ : St X T) (x : Option X) (current_size n rc : Nat) : Except Fail (St X T) := do
  let σ ← growBlock s σ x current_size n rc
  let (_, k) ← block σ (σ.ptr x)
  let σ ← construct s ctor σ x k.size n
  setSize σ x n

/-- The memory of a shrinking vector, sfw.h:3135-3141. -/
def shrinkBlock (σ : St X T) (x : Option X) (current_size n rc : Nat) : Except Fail (St X T) :=
  if allocSize s n ≠ allocSize s current_size then realloc s σ x (allocSize s n) rc else .ok σ

/-- The shrinking part of `resize`, sfw.h:3126-3144. -/
def shrink (σ : St X T) (x : Option X) (current_size n rc : Nat) : Except Fail (St X T) := do
  let σ ← shrinkBlock s σ x current_size n rc
  setSize σ x n

/-- The two parts of `resize`, sfw.h:3096-3144. -/
def change (σ : St X T) (x : Option X) (current_size n rc : Nat) : Except Fail (St X T) :=
  if n > current_size then grow s ctor σ x current_size n rc else shrink s σ x current_size n rc

/-- `resize(n)`, sfw.h:3072-3147; `false`: an error is returned. The number of bytes fits into `size_t`. -/
def resize (σ : St X T) (x : Option X) (n : Int) : Except Fail (St X T × Bool) :=
  if n < 0 then .ok (σ, false) else do
    let current_size ← size σ x
    if n.toNat = current_size then .ok (σ, true)
    else if n.toNat = 0 then do
      let σ ← unref σ x
      .ok (null σ x, true)
    else do
      let (σ, rc) ← copy_on_write s σ x
      let σ ← change s ctor σ x current_size n.toNat rc
      .ok (σ, true)

/-- `set(i, v)`, sfw.h:2945-2949, and `write[i] = v`, sfw.h:4942-4946. -/
def set (σ : St X T) (x : Option X) (i : Int) (v : T) : Except Fail (St X T) := do
  let n ← size σ x
  if i < 0 ∨ i ≥ n then .error .crash else
    let (σ, _) ← copy_on_write s σ x
    store s σ x i.toNat v

/-- `get(i)`, sfw.h:2957-2961. -/
def get (σ : St X T) (x : Option X) (i : Int) : Except Fail T := do
  let n ← size σ x
  if i < 0 ∨ i ≥ n then .error .crash else load s σ x i.toNat

/-- `CowData::remove(i)`, sfw.h:2965-2974. -/
def remove (σ : St X T) (x : Option X) (i : Int) : Except Fail (St X T) := do
  let n ← size σ x
  if i < 0 ∨ i ≥ n then .ok σ else
    let (σ, _) ← copy_on_write s σ x
    let len ← size σ x
    let σ ← loop (fun j σ => do
      let v ← load s σ x (i.toNat + j + 1)
      store s σ x (i.toNat + j) v) (len - 1 - i.toNat) σ
    let (σ, _) ← resize s ctor σ x (len - 1)
    .ok σ

/-- `CowData::insert(pos, v)`, sfw.h:2976-2985; `false`: an error is returned. -/
def insert (σ : St X T) (x : Option X) (pos : Int) (v : T) : Except Fail (St X T × Bool) := do
  let n ← size σ x
  if pos < 0 ∨ pos ≥ n + 1 then .ok (σ, false) else
    let (σ, _) ← resize s ctor σ x (n + 1)
    let n ← size σ x
    let σ ← loop (fun j σ => do
      let w ← get s σ x ((n : Int) - 1 - j - 1)
      set s σ x ((n : Int) - 1 - j) w) (n - 1 - pos.toNat) σ
    let σ ← set s σ x pos v
    .ok (σ, true)

/-- `fill(v)`, sfw.h:2987-2998. -/
def fill (σ : St X T) (x : Option X) (v : T) : Except Fail (St X T) := do
  let len ← size σ x
  if len = 0 then .ok σ else
    let (σ, _) ← copy_on_write s σ x
    loop (fun i σ => store s σ x i v) len σ

/-- The loop of `find`, sfw.h:3157-3162: `fuel` is the number of elements left. -/
def findLoop (σ : St X T) (x : Option X) (v : T) : Nat → Nat → Except Fail Int
  | 0, _ => .ok (-1)
  | fuel + 1, i => do
    let w ← get s σ x i
    if w = v then .ok i else findLoop σ x v fuel (i + 1)

/-- `find(v, from)`, sfw.h:3149-3165. -/
def find (σ : St X T) (x : Option X) (v : T) (start : Int) : Except Fail Int := do
  let n ← size σ x
  if start < 0 ∨ n = 0 then .ok (-1) else findLoop s σ x v (n - start.toNat) start.toNat

/-- `Vector::erase(v)`, sfw.h:4963-4970. -/
def erase (σ : St X T) (x : Option X) (v : T) : Except Fail (St X T × Bool) := do
  let idx ← find s σ x v 0
  if idx ≥ 0 then
    let σ ← remove s ctor σ x idx
    .ok (σ, true)
  else .ok (σ, false)

/-- `Vector::push_back(v)`, sfw.h:5082-5089. -/
def push_back (σ : St X T) (x : Option X) (v : T) : Except Fail (St X T × Bool) := do
  let n ← size σ x
  let (σ, ok) ← resize s ctor σ x (n + 1)
  if ok then
    let n ← size σ x
    let σ ← set s σ x ((n : Int) - 1) v
    .ok (σ, false)
  else .ok (σ, true)

/-- `Vector::invert()`, sfw.h:5061-5067. -/
def invert (σ : St X T) (x : Option X) : Except Fail (St X T) := do
  let n ← size σ x
  loop (fun i σ => do
    let (σ, _) ← copy_on_write s σ x
    let n ← size σ x
    let a ← load s σ x i
    let b ← load s σ x (n - i - 1)
    let σ ← store s σ x i b
    store s σ x (n - i - 1) a) (n / 2) σ

/-- The body of `append_array` when there is something to append, sfw.h:5075-5079. -/
def appendAll (σ : St X T) (x : X) (ds : Nat) : Except Fail (St X T) :=
  if ds = 0 then .ok σ else do
    let bs ← size σ (some x)
    let (σ, _) ← resize s ctor σ (some x) (bs + ds : Nat)
    loop (fun i σ => do
      let (σ, _) ← copy_on_write s σ (some x)
      let v ← get s σ none i
      store s σ (some x) (bs + i) v) ds σ

/-- `Vector::append_array(other)`, sfw.h:5069-5080: the argument is a copy. -/
def append_array (σ : St X T) (x y : X) : Except Fail (St X T) := do
  let σ ← ref σ none (some y)
  let ds ← size σ none
  let σ ← appendAll s ctor σ x ds
  let σ ← unref σ none
  .ok (null σ none)

/-- `CLAMP(p, -s, s)`, and `+= s` if that is negative, sfw.h:5035-5042. -/
def clamp (p : Int) (n : Nat) : Nat :=
  let c := if p < -(n : Int) then -(n : Int) else if p > n then n else p
  (if c < 0 then c + n else c).toNat

/-- The result of `y.slice(…)` for `begin = b` and `end = e`, sfw.h:5044-5055, in a temporary. -/
def sliceResult (σ : St X T) (y : X) (b e : Nat) : Except Fail (St X T) :=
  if b > e then .ok σ else do
    let (σ, _) ← resize s ctor σ none ((e - b : Nat) : Int)
    let (σ, _) ← copy_on_write s σ none
    loop (fun i σ => do
      let v ← load s σ (some y) (b + i)
      store s σ none i v) (e - b) σ

/-- `x = y.slice(b, e)`, sfw.h:5030-5056. -/
def slice (σ : St X T) (x y : X) (b e : Int) : Except Fail (St X T) := do
  let n ← size σ (some y)
  let σ ← sliceResult s ctor σ y (clamp b n) (clamp e n)
  let σ ← ref σ (some x) none
  let σ ← unref σ none
  .ok (null σ none)

/-- The loop of `ordered_insert`, sfw.h:5007-5012. -/
def orderLoop (σ : St X T) (x : Option X) (v : T) : Nat → Nat → Except Fail Nat
  | 0, i => .ok i
  | fuel + 1, i => do
    let w ← get s σ x i
    if lt v w then .ok i else orderLoop σ x v fuel (i + 1)

/-- `Vector::ordered_insert(v)`, sfw.h:5006-5014. -/
def ordered_insert (σ : St X T) (x : Option X) (v : T) : Except Fail (St X T) := do
  let n ← size σ x
  let i ← orderLoop s lt σ x v n 0
  let (σ, _) ← insert s ctor σ x i v
  .ok σ

/-- What a program does with its variables. `empty()` tests the pointer, sfw.h:2943; `destroy` is `~CowData()`, sfw.h:3195-3198. -/
def step (σ : St X T) : Op X T → Except Fail (St X T × Ans T)
  | .assign x y => do
    let σ ← ref σ (some x) (some y)
    .ok (σ, .unit)
  | .destroy x => do
    let σ ← unref σ (some x)
    .ok (null σ (some x), .unit)
  | .resize x n => do
    let (σ, b) ← resize s ctor σ (some x) n
    .ok (σ, .bool b)
  | .set x i v => do
    let σ ← set s σ (some x) i v
    .ok (σ, .unit)
  | .get x i => do
    let v ← get s σ (some x) i
    .ok (σ, .value v)
  | .push_back x v => do
    let (σ, b) ← push_back s ctor σ (some x) v
    .ok (σ, .bool b)
  | .insert x i v => do
    let (σ, b) ← insert s ctor σ (some x) i v
    .ok (σ, .bool b)
  | .remove x i => do
    let σ ← remove s ctor σ (some x) i
    .ok (σ, .unit)
  | .erase x v => do
    let (σ, b) ← erase s ctor σ (some x) v
    .ok (σ, .bool b)
  | .find x v start => do
    let i ← find s σ (some x) v start
    .ok (σ, .int i)
  | .fill x v => do
    let σ ← fill s σ (some x) v
    .ok (σ, .unit)
  | .invert x => do
    let σ ← invert s σ (some x)
    .ok (σ, .unit)
  | .append_array x y => do
    let σ ← append_array s ctor σ x y
    .ok (σ, .unit)
  | .slice x y b e => do
    let σ ← slice s ctor σ x y b e
    .ok (σ, .unit)
  | .ordered_insert x v => do
    let σ ← ordered_insert s ctor lt σ (some x) v
    .ok (σ, .unit)
  | .size x => do
    let n ← size σ (some x)
    .ok (σ, .int n)
  | .empty x => .ok (σ, .bool (σ.ptr (some x)).isNone)

/-- The answers to a history of operations, or why the program stopped. -/
def run : List (Op X T) → St X T → Except Fail (List (Ans T))
  | [], _ => .ok []
  | o :: ops, σ => do
    let (σ, a) ← step s ctor lt σ o
    let as ← run ops σ
    .ok (a :: as)

/-- At the start all variables are empty and no memory is allocated. -/
def start (junk : Nat → Nat → T) : St X T := ⟨fun _ => none, 0, junk, fun _ => none⟩

end Verif.Cow
