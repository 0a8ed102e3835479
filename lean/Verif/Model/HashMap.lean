import Mathlib.Logic.Function.Basic
import Mathlib.Data.List.Basic

/-! # `HashMap` (platform/sfw.h:16099-16709): open addressing with Robin Hood hashing

An element is identified by its key: where the code stores a pointer to an element, the model stores the key of that element, and the doubly linked list of the
elements (`head_element`, `next`, `prev`, `tail_element`) is the list `list` of keys and values, in the order of `next`. The arrays `hashes` and `elements` are
functions; every index the code uses is the result of a remainder by the capacity. A result `none` of a function of type `Option` means that the call does not return:
an endless loop, a failed `CRASH_COND` or a null pointer. -/

namespace Verif.HashMap

/-- `hash_table_size_primes`, sfw.h:15041-15071. -/
def primes : List Nat := [5, 13, 23, 47, 97, 193, 389, 769, 1543, 3079, 6151, 12289, 24593, 49157, 98317, 196613, 393241, 786433, 1572869, 3145739, 6291469,
  12582917, 25165843, 50331653, 100663319, 201326611, 402653189, 805306457, 1610612741]

/-- `hash_table_size_primes_inv`, sfw.h:15074-15104. -/
def primesInv : List Nat := [3689348814741910324, 1418980313362273202, 802032351030850071, 392483916461905354, 190172619316593316, 95578984837873325,
  47420935922132524, 23987963684927896, 11955116055547344, 5991147799191151, 2998982941588287, 1501077717772769, 750081082979285, 375261795343686,
  187625172388393, 93822606204624, 46909513691883, 23456218233098, 11728086747027, 5864041509391, 2932024948977, 1466014921160, 733007198436, 366503839517,
  183251896093, 91625960335, 45812983922, 22906489714, 11453246088]

/-- `hash_table_size_primes[i]`. -/
def cap (i : Nat) : Nat := primes.getD i 0
/-- `hash_table_size_primes_inv[i]`. -/
def inv (i : Nat) : Nat := primesInv.getD i 0

/-- `fastmod(n, c, d)`, sfw.h:15112-15134, where 128-bit integers exist: `c * n` is computed modulo 2⁶⁴. -/
def fastmod (n c d : Nat) : Nat := (c * n % 2 ^ 64 * d / 2 ^ 64) % 2 ^ 32

/-- `fastmod(p, capacity_inv, capacity)` for the capacity number `i`. -/
def slot (i n : Nat) : Nat := fastmod n (inv i) (cap i)

/-- `fastmod(pos + 1, capacity_inv, capacity)`, e.g. sfw.h:16588, in `uint32_t`. -/
def next (i pos : Nat) : Nat := slot i ((pos + 1) % 2 ^ 32)

/-- `_get_probe_length(pos, hash, capacity, capacity_inv)`, sfw.h:16558-16561: the difference is computed in `uint32_t`. -/
def probe (i pos hash : Nat) : Nat := slot i ((pos + 2 ^ 32 - slot i hash + cap i) % 2 ^ 32)

/-- The fields of a map, sfw.h:16539-16546. `alloc` says that `elements` is not null. -/
structure Map (K V : Type) where
  alloc : Bool
  hashes : Nat → Nat
  elements : Nat → Option K
  list : List (K × V)
  capacity_index : Nat
  num_elements : Nat

variable {K V : Type} [DecidableEq K] (hasher : K → UInt32)

/-- `_hash(key)`, sfw.h:16548-16556: `EMPTY_HASH` is 0. -/
def hashOf (k : K) : Nat := if (hasher k).toNat = 0 then 0 + 1 else (hasher k).toNat

/-- The loop of `_lookup_pos`, sfw.h:16574-16590. -/
def lookupLoop (i : Nat) (H : Nat → Nat) (E : Nat → Option K) (hash : Nat) (key : K) : Nat → Nat → Nat → Option (Option Nat)
  | 0, _, _ => none
  | fuel + 1, pos, distance =>
    if H pos = 0 then some none
    else if distance > probe i pos (H pos) then some none
    else if H pos = hash ∧ E pos = some key then some (some pos)
    else lookupLoop i H E hash key fuel (next i pos) (distance + 1)

/-- `_lookup_pos(key, pos)`, sfw.h:16563-16591. -/
def lookup (m : Map K V) (key : K) : Option (Option Nat) :=
  if m.alloc = false ∨ m.num_elements = 0 then some none
  else lookupLoop m.capacity_index m.hashes m.elements (hashOf hasher key) key (cap m.capacity_index + 1) (slot m.capacity_index (hashOf hasher key)) 0

/-- The loop of `_insert_with_hash`, sfw.h:16601-16621. -/
def placeLoop (i : Nat) : Nat → (Nat → Nat) → (Nat → Option K) → Nat → Option K → Nat → Nat → Option ((Nat → Nat) × (Nat → Option K))
  | 0, _, _, _, _, _, _ => none
  | fuel + 1, H, E, hash, value, pos, distance =>
    if H pos = 0 then some (Function.update H pos hash, Function.update E pos value)
    else if probe i pos (H pos) < distance then
      placeLoop i fuel (Function.update H pos hash) (Function.update E pos value) (H pos) (E pos) (next i pos) (probe i pos (H pos) + 1)
    else placeLoop i fuel H E hash value (next i pos) (distance + 1)

/-- `_insert_with_hash(hash, value)`, sfw.h:16593-16622. -/
def insert_with_hash (m : Map K V) (hash : Nat) (value : Option K) : Option (Map K V) := do
  let r ← placeLoop m.capacity_index (cap m.capacity_index + 1) m.hashes m.elements hash value (slot m.capacity_index hash) 0
  pure { m with hashes := r.1, elements := r.2, num_elements := m.num_elements + 1 }

/-- The loop of `_resize_and_rehash`, sfw.h:16649-16655. -/
def rehashLoop (H : Nat → Nat) (E : Nat → Option K) : Nat → Map K V → Option (Map K V)
  | 0, m => some m
  | n + 1, m => do
    let m ← rehashLoop H E n m
    if H n = 0 then pure m else insert_with_hash m (H n) (E n)

/-- `_resize_and_rehash(new_capacity_index)`, sfw.h:16624-16659: `MIN_CAPACITY_INDEX` is 2. -/
def resize_and_rehash (m : Map K V) (new_capacity_index : Nat) : Option (Map K V) :=
  rehashLoop m.hashes m.elements (cap m.capacity_index)
    { m with capacity_index := max 2 new_capacity_index, num_elements := 0, hashes := fun _ => 0, elements := fun _ => none }

/-- `elements[pos]->data.value = f(elements[pos]->data.value)`, e.g. sfw.h:16679. -/
def setValue (m : Map K V) (pos : Nat) (f : V → V) : Option (Map K V) :=
  match m.elements pos with
  | none => none
  | some k => some { m with list := m.list.map fun p => if p.1 = k then (p.1, f p.2) else p }

/-- The allocation on demand, sfw.h:16663-16673. -/
def allocate (m : Map K V) : Map K V :=
  if m.alloc then m else { m with alloc := true, hashes := fun _ => 0, elements := fun _ => none }

/-- `memnew(Element(key, value))`, its place in the linked list and in the table, sfw.h:16687-16704. -/
def add (m : Map K V) (key : K) (value : V) (front : Bool) : Option (Map K V) :=
  insert_with_hash { m with list := if front then (key, value) :: m.list else m.list ++ [(key, value)] } (hashOf hasher key) (some key)

/-- `_insert(key, value, front_insert)`, sfw.h:16661-16707, and `insert` and `set`, sfw.h:16451-16457. The result says whether an element is returned (and not null).
`num_elements + 1 > MAX_OCCUPANCY * capacity` is computed exactly here (in `float` there). -/
def insert (m : Map K V) (key : K) (value : V) (front : Bool) : Option (Map K V × Bool) := do
  let m := allocate m
  let r ← lookup hasher m key
  match r with
  | some pos => do
    let m ← setValue m pos fun _ => value
    pure (m, true)
  | none =>
    if 4 * (m.num_elements + 1) > 3 * cap m.capacity_index then
      if m.capacity_index + 1 = 29 then pure (m, false) else do
        let m ← resize_and_rehash m (m.capacity_index + 1)
        let m ← add hasher m key value front
        pure (m, true)
    else do
      let m ← add hasher m key value front
      pure (m, true)

/-- `map[key] = f(map[key])`: `operator[]`, sfw.h:16439-16447, which inserts `TValue()` if there is no such key, and a change of the value it refers to. -/
def update [Inhabited V] (m : Map K V) (key : K) (f : V → V) : Option (Map K V) := do
  let r ← lookup hasher m key
  match r with
  | some pos => setValue m pos f
  | none => do
    let r ← insert hasher m key default false
    if r.2 then
      let q ← lookup hasher r.1 key
      match q with
      | some pos => setValue r.1 pos f
      | none => none
    else none

/-- The loop of `erase`, sfw.h:16311-16316. -/
def shiftLoop (i : Nat) : Nat → (Nat → Nat) → (Nat → Option K) → Nat → Option ((Nat → Nat) × (Nat → Option K) × Nat)
  | 0, _, _, _ => none
  | fuel + 1, H, E, pos =>
    if H (next i pos) ≠ 0 ∧ probe i (next i pos) (H (next i pos)) ≠ 0 then
      shiftLoop i fuel (Function.update (Function.update H (next i pos) (H pos)) pos (H (next i pos)))
        (Function.update (Function.update E (next i pos) (E pos)) pos (E (next i pos))) (next i pos)
    else some (H, E, pos)

/-- `erase(key)`, sfw.h:16303-16344: the element at the last position is taken out of the linked list and deleted. -/
def erase (m : Map K V) (key : K) : Option (Map K V × Bool) := do
  let r ← lookup hasher m key
  match r with
  | none => pure (m, false)
  | some pos => do
    let r ← shiftLoop m.capacity_index (cap m.capacity_index + 1) m.hashes m.elements pos
    match r.2.1 r.2.2 with
    | none => none
    | some k => pure ({ m with hashes := Function.update r.1 r.2.2 0, elements := Function.update r.2.1 r.2.2 none,
                               list := m.list.filter fun p => p.1 ≠ k, num_elements := m.num_elements - 1 }, true)

/-- `clear()`, sfw.h:16145-16163. -/
def clear (m : Map K V) : Map K V :=
  if m.alloc = false ∨ m.num_elements = 0 then m
  else { m with hashes := fun p => if p < cap m.capacity_index then 0 else m.hashes p,
                elements := fun p => if p < cap m.capacity_index ∧ m.hashes p ≠ 0 then none else m.elements p, list := [], num_elements := 0 }

/-- The loop of `reserve`, sfw.h:16351-16354. `none`: the requested capacity is too large, an error is reported. -/
def reserveIndex (n : Nat) : Nat → Nat → Option Nat
  | 0, _ => none
  | fuel + 1, i => if cap i < n then if i + 1 = 29 then none else reserveIndex n fuel (i + 1) else some i

/-- `reserve(new_capacity)`, sfw.h:16348-16365. -/
def reserve (m : Map K V) (n : Nat) : Option (Map K V) :=
  match reserveIndex n 29 m.capacity_index with
  | none => some m
  | some i => if i = m.capacity_index then some m else if m.alloc = false then some { m with capacity_index := i } else resize_and_rehash m i

/-- `HashMap()`, sfw.h:16509-16511. -/
def empty : Map K V := ⟨false, fun _ => 0, fun _ => none, [], 2, 0⟩

/-- `HashMap(initial_capacity)`, sfw.h:16504-16508. -/
def withCapacity (n : Nat) : Option (Map K V) := reserve ⟨false, fun _ => 0, fun _ => none, [], 0, 0⟩ n

/-- The loop that copies the elements, sfw.h:16480-16482. -/
def insertAll : List (K × V) → Map K V → Option (Map K V)
  | [], m => some m
  | p :: l, m => do
    let r ← insert hasher m p.1 p.2 false
    insertAll l r.1

/-- `HashMap(other)`, sfw.h:16473-16483. -/
def copy (other : Map K V) : Option (Map K V) := do
  let m ← reserve ⟨false, fun _ => 0, fun _ => none, [], 0, 0⟩ (cap other.capacity_index)
  if other.num_elements = 0 then pure m else insertAll hasher other.list m

/-- `operator=(other)` of two different maps, sfw.h:16485-16502. -/
def assign (m other : Map K V) : Option (Map K V) := do
  let m := if m.num_elements ≠ 0 then clear m else m
  let m ← reserve m (cap other.capacity_index)
  if other.alloc = false then pure m else insertAll hasher other.list m

/-- `elements[pos]->data.value`. -/
def valueAt (m : Map K V) (pos : Nat) : Option V :=
  match m.elements pos with
  | none => none
  | some k => (m.list.find? fun p => p.1 = k).map (·.2)

/-- `has(key)`, sfw.h:16298-16301. -/
def has (m : Map K V) (key : K) : Option Bool := do
  let r ← lookup hasher m key
  pure r.isSome

/-- `getptr(key)`, sfw.h:16179-16187: the value, or null. -/
def getptr (m : Map K V) (key : K) : Option (Option V) := do
  let r ← lookup hasher m key
  match r with
  | none => pure none
  | some pos => do
    let v ← valueAt m pos
    pure (some v)

/-- `get(key)`, sfw.h:16165-16170: a missing key stops the program. -/
def get (m : Map K V) (key : K) : Option V := do
  let r ← lookup hasher m key
  match r with
  | none => none
  | some pos => valueAt m pos

/-- `size()`, sfw.h:16137. -/
def size (m : Map K V) : Nat := m.num_elements

/-- `empty()`, sfw.h:16141-16143. -/
def isEmpty (m : Map K V) : Bool := m.num_elements = 0

/-- `get_key_list(keys)`, sfw.h:16461-16469: the keys in the order of the linked list. -/
def keys (m : Map K V) : List K := if m.alloc then m.list.map (·.1) else []

end Verif.HashMap
