import Verif.Model.Tensor

/-! # Conversions from and to `std::vector`, arrays of vectors and raw memory

core/mlpp_vector.cpp, core/mlpp_matrix.cpp and core/mlpp_tensor3.cpp. A `std::vector` is a list. -/

namespace Verif
variable {R : Type}

namespace Vec

/-- `to_std_vector()`, mlpp_vector.cpp:1510-1516: `&ret[0]` is undefined for an empty `ret`. -/
def to_std_vector (this : Nat) : M R (List R) := do
  let n ← size this
  if n = 0 then ub else readAll (.v this) n

/-- `set_from_std_vector(p_from)`, mlpp_vector.cpp:1518-1523. -/
def set_from_std_vector (this : Nat) (p_from : List R) : M R Unit := do
  resizeTo (.v this) ⟨p_from.length, 1, 1⟩
  storeList (.v this) p_from

end Vec

namespace Mat

/-- `to_flat_std_vector()`, mlpp_matrix.cpp:3164-3170: `&ret[0]` is undefined for an empty `ret`. -/
def to_flat_std_vector (this : Nat) : M R (List R) := do
  let s ← size this
  if s.count = 0 then ub else readAll (.m this) s.count

/-- `to_std_vector()`, mlpp_matrix.cpp:3199-3215. -/
def to_std_vector (this : Nat) : M R (List (List R)) := do
  let s ← size this
  foldN s.y [] fun i ret => do
    let row ← foldN s.x [] fun j row => do
      let v ← load (.m this) (i * s.x + j)
      pure (row ++ [v])
    pure (ret ++ [row])

/-- `set_from_std_vectors(p_from)`, mlpp_matrix.cpp:3172-3197: the same statements as `set_from_vectors`. -/
def set_from_std_vectors (this : Nat) (p_from : List (List R)) : M R Unit := set_from_vectors this p_from

/-- `set_row_std_vector(p_index_y, p_row)`, mlpp_matrix.cpp:3217-3228: the same statements as `row_set_vector`. -/
def set_row_std_vector (this : Nat) (p_index_y : Int) (p_row : List R) : M R Unit := row_set_vector this p_index_y p_row

/-- `set_from_ptr(p_from, p_size_y, p_size_x)`, mlpp_matrix.cpp:594-604: the data pointer is set to null first (the memory it pointed to is lost, which the
model does not show). `p_from` is the memory pointed to, `none` a null pointer. -/
def set_from_ptr (this : Nat) (p_from : Option (List R)) (p_size_y p_size_x : Nat) : M R Unit := do
  memfree (.m this)
  match p_from with
  | none => pure ()
  | some l => do
    resize this p_size_x p_size_y
    let s ← size this
    forN s.count fun i =>
      match l[i]? with
      | some v => store (.m this) i v
      | none => ub

/-- `set_from_mlpp_vectors(p_from)`, `set_from_mlpp_vectors_array(p_from)`, mlpp_matrix.cpp:469-535: an entry that is null or has the wrong length is
skipped, so its cells keep whatever the allocation held. -/
def set_from_mlpp_vectors (this : Nat) (p_from : List (Option Nat)) : M R Unit :=
  match p_from with
  | [] => reset this
  | none :: _ => reset this
  | some v0 :: _ => do
    let n ← Vec.size v0
    resize this n p_from.length
    let s ← size this
    if s.count = 0 then reset this else
      forN p_from.length fun i =>
        match p_from[i]? with
        | none => ub
        | some none => pure ()
        | some (some r) => do
          let k ← Vec.size r
          if k = s.x then
            forN s.x fun j => do
              let v ← load (.v r) j
              store (.m this) (i * s.x + j) v
          else pure ()

/-- `rotate(theta, axis)`, mlpp_matrix.cpp:1967-1971. -/
def rotate [Zero R] [One R] [Neg R] [Add R] [Mul R] [MathFns R] (this : Nat) (theta : R) (axis : Int) : M R Unit := do
  let rm ← create_rotation_matrix theta axis
  let r ← derefM rm
  mult this (some r)

/-- `rotateb(A, theta, axis)`, mlpp_matrix.cpp:1977-1981. -/
def rotateb [Zero R] [One R] [Neg R] [Add R] [Mul R] [MathFns R] (this : Nat) (A : Option Nat) (theta : R) (axis : Int) : M R Unit := do
  let rm ← create_rotation_matrix theta axis
  let r ← derefM rm
  multb this A (some r)

end Mat

namespace Ten

/-- `to_flat_std_vector()`, mlpp_tensor3.cpp:2291-2297: `&ret[0]` is undefined for an empty `ret`. -/
def to_flat_std_vector (this : Nat) : M R (List R) := do
  let s ← size this
  if s.count = 0 then ub else readAll (.t this) s.count

/-- `to_std_vector()`, mlpp_tensor3.cpp:2330-2350. -/
def to_std_vector (this : Nat) : M R (List (List (List R))) := do
  let s ← size this
  foldN s.z [] fun k ret => do
    let plane ← foldN s.y [] fun i plane => do
      let row ← foldN s.x [] fun j row => do
        let v ← load (.t this) (i * s.x + j + s.x * s.y * k)
        pure (row ++ [v])
      pure (plane ++ [row])
    pure (ret ++ [plane])

/-- The loops of `set_from_std_vectors`, mlpp_tensor3.cpp:2313-2327: planes and rows of the wrong length are skipped. -/
def stdLoop (this : Nat) (p_from : List (List (List R))) (s : Size) : M R Unit :=
  forN p_from.length fun z =>
    match p_from[z]? with
    | none => ub
    | some vxy => forN vxy.length fun y =>
      if vxy.length = s.y then
        match vxy[y]? with
        | none => ub
        | some vx =>
          if vx.length = s.x then
            forN vx.length fun x =>
              match vx[x]? with
              | none => ub
              | some v => element_set this (z : Int) (y : Int) (x : Int) v
          else pure ()
      else pure ()

/-- `set_from_std_vectors(p_from)`, mlpp_tensor3.cpp:2299-2328: `p_from[0][0]` is undefined if the first plane has no rows. -/
def set_from_std_vectors (this : Nat) (p_from : List (List (List R))) : M R Unit :=
  match p_from with
  | [] => reset this
  | [] :: _ => ub
  | (r0 :: p0) :: _ => do
    resize this ⟨r0.length, (r0 :: p0).length, p_from.length⟩
    let s ← size this
    if s.count = 0 then reset this else stdLoop this p_from s

end Ten
end Verif
