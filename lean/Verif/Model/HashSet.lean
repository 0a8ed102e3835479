import Verif.Model.HashMap

/-! # `HashSet` (platform/sfw.h:16727-17182): keys in an array, with a table of Robin Hood hashing in both directions

`keys` is the array of the keys: `none` where no key was constructed. Memory that is allocated without being set contains `junk`; reading a key where there is none, and
storing one behind the capacity, are undefined behaviour. The tables of capacities, `fastmod`, `_get_probe_length` (16755-16758) and `_hash` (16745-16753) are those
of `HashMap`. A result `none` of a function of type `Option` means undefined behaviour or an endless loop. -/

namespace Verif.HashSet
open Verif.HashMap (cap slot next probe hashOf reserveIndex)

/-- The fields of a set, sfw.h:16737-16743. `alloc` says that `keys` is not null. -/
structure Set (K : Type) where
  alloc : Bool
  keys : Nat → Option K
  hash_to_key : Nat → Nat
  key_to_hash : Nat → Nat
  hashes : Nat → Nat
  capacity_index : Nat
  num_elements : Nat

variable {K : Type} [DecidableEq K] (junk : Nat → Nat) (hasher : K → UInt32)

/-- The loop of `_lookup_pos`, sfw.h:16771-16787. -/
def lookupLoop (i : Nat) (H T : Nat → Nat) (keys : Nat → Option K) (hash : Nat) (key : K) : Nat → Nat → Nat → Option (Option Nat)
  | 0, _, _ => none
  | fuel + 1, pos, distance =>
    if H pos = 0 then some none
    else if distance > probe i pos (H pos) then some none
    else if H pos = hash then
      match keys (T pos) with
      | none => none
      | some k => if k = key then some (some (T pos)) else lookupLoop i H T keys hash key fuel (next i pos) (distance + 1)
    else lookupLoop i H T keys hash key fuel (next i pos) (distance + 1)

/-- `_lookup_pos(key, pos)`, sfw.h:16760-16788: the place of the key in `keys`. -/
def lookup (m : Set K) (key : K) : Option (Option Nat) :=
  if m.alloc = false ∨ m.num_elements = 0 then some none
  else lookupLoop m.capacity_index m.hashes m.hash_to_key m.keys (hashOf hasher key) key (cap m.capacity_index + 1)
    (slot m.capacity_index (hashOf hasher key)) 0

/-- The loop of `_insert_with_hash`, sfw.h:16798-16817. -/
def placeLoop (i : Nat) : Nat → (Nat → Nat) → (Nat → Nat) → (Nat → Nat) → Nat → Nat → Nat → Nat → Option ((Nat → Nat) × (Nat → Nat) × (Nat → Nat))
  | 0, _, _, _, _, _, _, _ => none
  | fuel + 1, H, T, U, hash, index, pos, distance =>
    if H pos = 0 then some (Function.update H pos hash, Function.update T pos index, Function.update U index pos)
    else if probe i pos (H pos) < distance then
      placeLoop i fuel (Function.update H pos hash) (Function.update T pos index) (Function.update U index pos) (H pos) (T pos) (next i pos)
        (probe i pos (H pos) + 1)
    else placeLoop i fuel H T U hash index (next i pos) (distance + 1)

/-- `_insert_with_hash(hash, index)`, sfw.h:16790-16818. -/
def insert_with_hash (m : Set K) (hash index : Nat) : Option (Set K) := do
  let r ← placeLoop m.capacity_index (cap m.capacity_index + 1) m.hashes m.hash_to_key m.key_to_hash hash index (slot m.capacity_index hash) 0
  pure { m with hashes := r.1, hash_to_key := r.2.1, key_to_hash := r.2.2 }

/-- The loop of `_resize_and_rehash`, sfw.h:16838-16841. -/
def rehashLoop (H U : Nat → Nat) : Nat → Set K → Option (Set K)
  | 0, m => some m
  | n + 1, m => do
    let m ← rehashLoop H U n m
    insert_with_hash m (H (U n)) n

/-- `_resize_and_rehash(new_capacity_index)`, sfw.h:16820-16845: `MIN_CAPACITY_INDEX` is 2. -/
def resize_and_rehash (m : Set K) (new_capacity_index : Nat) : Option (Set K) :=
  rehashLoop m.hashes m.key_to_hash m.num_elements
    { m with capacity_index := max 2 new_capacity_index, hashes := fun _ => 0, key_to_hash := junk,
             keys := fun j => if j < cap (max 2 new_capacity_index) then m.keys j else none }

/-- The allocation on demand, sfw.h:16849-16861. -/
def allocate (m : Set K) : Set K :=
  if m.alloc then m else { m with alloc := true, hashes := fun _ => 0, keys := fun _ => none, key_to_hash := junk, hash_to_key := junk }

/-- The construction of a new key and its place in the table, sfw.h:16874-16878. -/
def add (m : Set K) (key : K) : Option (Set K × Option Nat) :=
  if m.num_elements < cap m.capacity_index then do
    let m ← insert_with_hash { m with keys := Function.update m.keys m.num_elements (some key) } (hashOf hasher key) m.num_elements
    pure ({ m with num_elements := m.num_elements + 1 }, some m.num_elements)
  else none

/-- `_insert(key)`, sfw.h:16847-16879, and `insert(key)`, sfw.h:17115-17118: the place of the key, `none` where the code returns -1.
`num_elements + 1 > MAX_OCCUPANCY * capacity` is computed exactly here (in `float` there). -/
def insert (m : Set K) (key : K) : Option (Set K × Option Nat) := do
  let m := allocate junk m
  let r ← lookup hasher m key
  match r with
  | some j => pure (m, some j)
  | none =>
    if 4 * (m.num_elements + 1) > 3 * cap m.capacity_index then
      if m.capacity_index + 1 = 29 then pure (m, none) else do
        let m ← resize_and_rehash junk m (m.capacity_index + 1)
        add hasher m key
    else add hasher m key

/-- The loop of `erase`, sfw.h:16951-16960. -/
def shiftLoop (i : Nat) : Nat → (Nat → Nat) → (Nat → Nat) → (Nat → Nat) → Nat → Option ((Nat → Nat) × (Nat → Nat) × (Nat → Nat) × Nat)
  | 0, _, _, _, _ => none
  | fuel + 1, H, T, U, pos =>
    if H (next i pos) ≠ 0 ∧ probe i (next i pos) (H (next i pos)) ≠ 0 then
      shiftLoop i fuel (Function.update (Function.update H (next i pos) (H pos)) pos (H (next i pos)))
        (Function.update (Function.update T (next i pos) (T pos)) pos (T (next i pos)))
        (Function.update (Function.update U (T pos) (U (T (next i pos)))) (T (next i pos)) (U (T pos))) (next i pos)
    else some (H, T, U, pos)

/-- The move of the last key to the place `j`, sfw.h:16964-16971: `num_elements` is decreased already. -/
def moveLast (m : Set K) (j : Nat) : Option (Set K) :=
  if j < m.num_elements then
    match m.keys m.num_elements with
    | none => none
    | some k => some { m with keys := Function.update (Function.update m.keys j (some k)) m.num_elements none,
                              key_to_hash := Function.update m.key_to_hash j (m.key_to_hash m.num_elements),
                              hash_to_key := Function.update m.hash_to_key (m.key_to_hash m.num_elements) j }
  else some m

/-- `erase(key)`, sfw.h:16937-16974. -/
def erase (m : Set K) (key : K) : Option (Set K × Bool) := do
  let r ← lookup hasher m key
  match r with
  | none => pure (m, false)
  | some j => do
    let r ← shiftLoop m.capacity_index (cap m.capacity_index + 1) m.hashes m.hash_to_key m.key_to_hash (m.key_to_hash j)
    let m ← moveLast { m with hashes := Function.update r.1 r.2.2.2 0, hash_to_key := r.2.1, key_to_hash := r.2.2.1,
                              keys := Function.update m.keys j none, num_elements := m.num_elements - 1 } j
    pure (m, true)

/-- `remove(it)`, sfw.h:17107-17111, for an iterator at the place `j`. -/
def remove (m : Set K) (j : Nat) : Option (Set K) :=
  match m.keys j with
  | none => none
  | some k => do
    let r ← erase hasher m k
    pure r.1

/-- `clear()`, sfw.h:16917-16930. -/
def clear (m : Set K) : Set K :=
  if m.alloc = false ∨ m.num_elements = 0 then m
  else { m with hashes := fun p => if p < cap m.capacity_index then 0 else m.hashes p, keys := fun j => if j < m.num_elements then none else m.keys j,
                num_elements := 0 }

/-- `reset()`, sfw.h:17156-17170. -/
def reset (m : Set K) : Set K := { clear m with alloc := false, keys := fun _ => none, capacity_index := 2 }

/-- `reserve(new_capacity)`, sfw.h:16978-16995: the loop is that of `HashMap::reserve`. -/
def reserve (m : Set K) (n : Nat) : Option (Set K) :=
  match reserveIndex n 29 m.capacity_index with
  | none => some m
  | some i => if i = m.capacity_index then some m else if m.alloc = false then some { m with capacity_index := i } else resize_and_rehash junk m i

/-- `HashSet()`, sfw.h:17152-17154. -/
def empty : Set K := ⟨false, fun _ => none, fun _ => 0, fun _ => 0, fun _ => 0, 2, 0⟩

/-- `HashSet(initial_capacity)`, sfw.h:17147-17151. -/
def withCapacity (n : Nat) : Option (Set K) := reserve junk ⟨false, fun _ => none, fun _ => 0, fun _ => 0, fun _ => 0, 0, 0⟩ n

/-- `_init_from(other)`, sfw.h:16881-16905, for a set without arrays; thus `HashSet(other)`, sfw.h:17122-17124, and `operator=(other)`, sfw.h:17126-17145, for
another set, which destroys everything before. A key of `other` that is copied and does not exist is undefined behaviour. -/
def initFrom (other : Set K) : Option (Set K) :=
  if other.num_elements = 0 then some ⟨false, fun _ => none, fun _ => 0, fun _ => 0, fun _ => 0, other.capacity_index, 0⟩
  else if other.alloc = false ∨ ∃ j < other.num_elements, other.keys j = none then none
  else some ⟨true, fun j => if j < other.num_elements then other.keys j else none,
    fun p => if p < cap other.capacity_index then other.hash_to_key p else junk p, fun j => if j < other.num_elements then other.key_to_hash j else junk j,
    fun p => if p < cap other.capacity_index then other.hashes p else junk p, other.capacity_index, other.num_elements⟩

/-- Insertion of keys one after another. -/
def insertAll : List K → Set K → Option (Set K)
  | [], m => some m
  | k :: l, m => do
    let r ← insert junk hasher m k
    insertAll l r.1

/-- `find(key)`, sfw.h:17098-17105: the place of the iterator, `none` for `end()`. -/
def find (m : Set K) (key : K) : Option (Option Nat) := lookup hasher m key

/-- `has(key)`, sfw.h:16932-16935. -/
def has (m : Set K) (key : K) : Option Bool := do
  let r ← lookup hasher m key
  pure r.isSome

/-- `size()`, sfw.h:16909. -/
def size (m : Set K) : Nat := m.num_elements

/-- `is_empty()`, sfw.h:16913-16915. -/
def isEmpty (m : Set K) : Bool := m.num_elements = 0

/-- The keys met by an iterator at the place `j` (`*it`, `++it`), sfw.h:17006-17014, when `fuel` places are left: the iterator stops at `num_elements`. -/
def visit (m : Set K) : Nat → Nat → Option (List K)
  | 0, _ => some []
  | fuel + 1, j =>
    match m.keys j with
    | none => none
    | some k => do
      let l ← visit m fuel (j + 1)
      pure (k :: l)

/-- All keys, from `begin()`, sfw.h:17085-17087. -/
def keyList (m : Set K) : Option (List K) := visit m m.num_elements 0

end Verif.HashSet
