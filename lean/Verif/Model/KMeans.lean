import Verif.Model.HandleM

/-!
# `MLPPKMeans` (modules/kmeans)

An object is the structure `KMeans` of its fields; the matrices it refers to live in the heap. `_accuracy_threshold` is set to 0 by the constructor and
never read. `_k` is a natural number here: a negative number of clusters cannot be allocated. The numbers drawn by `RandomPCG` are parameters. Not
modelled: printing (`UI`), the binding of methods.
-/

namespace Verif
noncomputable section

namespace Hd

/-- `a->euclidean_distance(b)`, mlpp_vector.cpp:1288-1303. -/
def euclidean_distance (a b : Ref) : M ℝ ℝ := do Vec.euclidean_distance (← derefV a) b.vec
/-- `a->norm_sq()`, mlpp_vector.cpp:1332-1340. -/
def norm_sq (a : Ref) : M ℝ ℝ := do Vec.norm_sq (← derefV a)
/-- `a->subb(b, c)`, mlpp_vector.cpp:628-646. -/
def subb (a b c : Ref) : M ℝ Unit := do Vec.subb (← derefV a) b.vec c.vec
/-- `a->scalar_multiplyb(k, b)`, mlpp_vector.cpp:496-509. -/
def scalar_multiplyb (a : Ref) (k : ℝ) (b : Ref) : M ℝ Unit := do Vec.scalar_multiplyb (← derefV a) k b.vec
/-- `a->element_get(y, x)` of a matrix, mlpp_matrix.h:121-126. -/
def element_getm (a : Ref) (y x : Int) : M ℝ ℝ := do Mat.element_get (← derefM a) y x
/-- `a->element_set(y, x, v)` of a matrix, mlpp_matrix.h:128-133. -/
def element_setm (a : Ref) (y x : Int) (v : ℝ) : M ℝ Unit := do Mat.element_set (← derefM a) y x v
/-- `a->fill(x)` of a matrix, mlpp_matrix.cpp:403-412. -/
def fillm (a : Ref) (x : ℝ) : M ℝ Unit := do fillAll (.m (← derefM a)) x
/-- `a->is_equal_approx(b)` with the default tolerance `CMP_EPSILON`, mlpp_vector.cpp:293-311. -/
def is_equal_approx (a b : Ref) (tol : ℝ) : M ℝ Bool := do Vec.is_equal_approx (.v (← derefV a)) (b.vec.map .v) tol

end Hd

/-- `MeanType`, kmeans.h:45-48. -/
inductive MeanType
  | centroid
  | kmeanspp
  deriving DecidableEq

/-- The fields of `MLPPKMeans`, kmeans.h:80-88. -/
structure KMeans where
  input_set : Ref
  mu : Ref
  r : Ref
  k : Nat
  initialized : Bool
  mean_type : MeanType

namespace KMeans

/-- The default constructor, kmeans.cpp:306-315. -/
def create : M ℝ KMeans := do
  let mu ← newMat
  let r ← newMat
  pure ⟨none, some mu, some r, 0, false, .centroid⟩

/-- `set_input_set(val)`, kmeans.cpp:47-50. -/
def set_input_set (s : KMeans) (val : Ref) : KMeans := { s with input_set := val, initialized := false }

/-- `set_k(val)`, kmeans.cpp:55-58. -/
def set_k (s : KMeans) (val : Nat) : KMeans := { s with k := val, initialized := false }

/-- `set_mean_type(val)`, kmeans.cpp:63-66. -/
def set_mean_type (s : KMeans) (val : MeanType) : KMeans := { s with mean_type := val, initialized := false }

/-- `if (_mu->size() != mu_size) { _mu->resize(mu_size); }`, kmeans.cpp:425-427, 448-450; the same for `_r`, kmeans.cpp:323-325. -/
def fit (m : Ref) (size : Size) : M ℝ Unit := do
  let s ← Hd.sizem m
  if s = size then pure () else Hd.resizem m size

/-- `_centroid_initialization()`, kmeans.cpp:419-441. `pick i` is the row drawn for centroid `i`. -/
def centroid_initialization (s : KMeans) (pick : Nat → Int) : M ℝ Unit := do
  let size ← Hd.sizem s.input_set
  fit s.mu ⟨size.x, s.k, 1⟩
  let mu_tempv ← newVec
  let mu_size ← Hd.sizem s.mu
  resizeTo mu_tempv ⟨mu_size.x, 1, 1⟩
  forN s.k fun i => do
    Hd.row_get_into s.input_set (pick i) (some mu_tempv)
    Hd.row_set_mlpp_vector s.mu i (some mu_tempv)

/-- The sum of the distances of `input_set_j_tempv` to the first `i` centroids, kmeans.cpp:475-480. -/
def distances (s : KMeans) (point mu_tempv : Ref) (i : Nat) : M ℝ ℝ :=
  foldN i (0 : ℝ) fun k sum => do
    Hd.row_get_into s.mu k mu_tempv
    let d ← Hd.euclidean_distance point mu_tempv
    pure (sum + d)

open Classical in
/-- The loop over the points in `_kmeanspp_initialization`, kmeans.cpp:468-486: `max_dist` is set to zero for every point. -/
def farthest (s : KMeans) (mu_tempv point farthest_centroid : Ref) (n i : Nat) : M ℝ Unit :=
  forN n fun j => do
    Hd.row_get_into s.input_set j point
    let sum ← distances s point mu_tempv i
    if sum * sum > 0 then Hd.set_from_mlpp_vector farthest_centroid point else pure ()

/-- `_kmeanspp_initialization()`, kmeans.cpp:443-490. `pick` is the row drawn. -/
def kmeanspp_initialization (s : KMeans) (pick : Int) : M ℝ Unit := do
  let size ← Hd.sizem s.input_set
  fit s.mu ⟨size.x, s.k, 1⟩
  let mu_tempv ← newVec
  let mu_size ← Hd.sizem s.mu
  resizeTo mu_tempv ⟨mu_size.x, 1, 1⟩
  Hd.row_get_into s.input_set pick (some mu_tempv)
  Hd.row_set_mlpp_vector s.mu 0 (some mu_tempv)
  let point ← newVec
  resizeTo point ⟨size.x, 1, 1⟩
  let far ← newVec
  resizeTo far ⟨size.x, 1, 1⟩
  loop 1 (s.k - 1 - 1) () fun i _ => do
    farthest s (some mu_tempv) (some point) (some far) size.y i
    Hd.row_set_mlpp_vector s.mu i (some far)

/-- `initialize()`, kmeans.cpp:68-78. -/
def initialise (s : KMeans) (pick : Nat → Int) : M ℝ KMeans :=
  match s.input_set with
  | none => pure s
  | some _ => do
    match s.mean_type with
    | .kmeanspp => kmeanspp_initialization s (pick 0)
    | .centroid => centroid_initialization s pick
    pure { s with initialized := true }

open Classical in
/-- The loop over the centroids in `model_set_test` and `model_test`, kmeans.cpp:105-113, 136-142. -/
def scan (s : KMeans) (point muj closest : Ref) (k : Nat) : M ℝ Unit :=
  forN k fun j => do
    Hd.row_get_into s.mu j muj
    let a ← Hd.euclidean_distance point muj
    let b ← Hd.euclidean_distance point closest
    if a < b then Hd.set_from_mlpp_vector closest muj else pure ()

/-- `model_set_test(X)`, kmeans.cpp:80-119. -/
def model_set_test (s : KMeans) (X : Ref) : M ℝ Ref :=
  match X with
  | none => pure none
  | some _ =>
    if s.initialized = false then pure none
    else do
      let size ← Hd.sizem s.input_set
      let closest_centroids ← newMat
      let mu_size ← Hd.sizem s.mu
      resizeTo closest_centroids ⟨mu_size.x, size.y, 1⟩
      let closest ← newVec
      resizeTo closest ⟨mu_size.x, 1, 1⟩
      let xi ← newVec
      let x_size ← Hd.sizem X
      resizeTo xi ⟨x_size.x, 1, 1⟩
      let muj ← newVec
      resizeTo muj ⟨mu_size.x, 1, 1⟩
      let r_size ← Hd.sizem s.r
      forN size.y fun i => do
        Hd.row_get_into s.mu 0 (some closest)
        Hd.row_get_into X i (some xi)
        scan s (some xi) (some muj) (some closest) r_size.x
        Hd.row_set_mlpp_vector (some closest_centroids) i (some closest)
      pure (some closest_centroids)

/-- `model_test(x)`, kmeans.cpp:120-145. -/
def model_test (s : KMeans) (x : Ref) : M ℝ Ref :=
  match x with
  | none => pure none
  | some _ =>
    if s.initialized = false then pure none
    else do
      let closest ← newVec
      let mu_size ← Hd.sizem s.mu
      resizeTo closest ⟨mu_size.x, 1, 1⟩
      Hd.row_get_into s.mu 0 (some closest)
      let muj ← newVec
      resizeTo muj ⟨mu_size.x, 1, 1⟩
      scan s x (some muj) (some closest) mu_size.y
      pure (some closest)

open Classical in
/-- The loop over the centroids in `_evaluate`, kmeans.cpp:352-362. The state is the distance and the index kept so far. -/
def assign (s : KMeans) (point muj closest : Ref) (k : Nat) (dist : ℝ) (index : Nat) : M ℝ (ℝ × Nat) :=
  foldN k (dist, index) fun j st => do
    Hd.row_get_into s.mu j muj
    let d ← Hd.euclidean_distance point muj
    if d < st.1 then do
      Hd.row_get_into s.mu j closest
      let d ← Hd.euclidean_distance point closest
      pure (d, j)
    else pure st

/-- `_evaluate()`, kmeans.cpp:319-366. The index of the closest centroid is kept from one row to the next. -/
def evaluate (s : KMeans) : M ℝ Unit :=
  if s.initialized = false then pure ()
  else do
    let size ← Hd.sizem s.input_set
    fit s.r ⟨s.k, size.y, 1⟩
    let r_size ← Hd.sizem s.r
    let mu_size ← Hd.sizem s.mu
    let closest ← newVec
    resizeTo closest ⟨mu_size.x, 1, 1⟩
    let point ← newVec
    resizeTo point ⟨size.x, 1, 1⟩
    let muj ← newVec
    resizeTo muj ⟨mu_size.x, 1, 1⟩
    Hd.fillm s.r 0
    let _ ← foldN r_size.y (0 : Nat) fun i index => do
      Hd.row_get_into s.mu 0 (some closest)
      Hd.row_get_into s.input_set i (some point)
      let d ← Hd.euclidean_distance (some point) (some closest)
      let st ← assign s (some point) (some muj) (some closest) r_size.x d index
      Hd.element_setm s.r i st.2 1
      pure st.2
    pure ()

/-- The loop over the points in `_compute_mu`, kmeans.cpp:395-405: the sum is left in `num`, the number of points is returned. -/
def gather (s : KMeans) (num point mat_tempv : Ref) (n i : Nat) : M ℝ ℝ :=
  foldN n (0 : ℝ) fun j den => do
    Hd.row_get_into s.input_set j point
    let r_j_i ← Hd.element_getm s.r j i
    let r_j_i' ← Hd.element_getm s.r j i
    Hd.scalar_multiplyb mat_tempv r_j_i' point
    Hd.add num mat_tempv
    pure (den + r_j_i)

/-- `_compute_mu()`, kmeans.cpp:369-417. The vector of sums has as many elements as `_r` has columns. -/
def compute_mu (s : KMeans) : M ℝ Unit := do
  let mu_size ← Hd.sizem s.mu
  let r_size ← Hd.sizem s.r
  let num ← newVec
  resizeTo num ⟨r_size.x, 1, 1⟩
  let size ← Hd.sizem s.input_set
  let point ← newVec
  resizeTo point ⟨size.x, 1, 1⟩
  let mat_tempv ← newVec
  resizeTo mat_tempv ⟨size.x, 1, 1⟩
  let mu_tempv ← newVec
  resizeTo mu_tempv ⟨mu_size.x, 1, 1⟩
  forN mu_size.y fun i => do
    Hd.fillv (some num) 0
    let den ← gather s (some num) (some point) (some mat_tempv) r_size.y i
    Hd.scalar_multiplyb (some mu_tempv) (1 / den) (some num)
    Hd.row_set_mlpp_vector s.mu i (some mu_tempv)

/-- `_cost()`, kmeans.cpp:491-521. -/
def cost (s : KMeans) : M ℝ ℝ :=
  if s.initialized = false then pure 0
  else do
    let size ← Hd.sizem s.input_set
    let point ← newVec
    resizeTo point ⟨size.x, 1, 1⟩
    let mu_size ← Hd.sizem s.mu
    let muj ← newVec
    resizeTo muj ⟨mu_size.x, 1, 1⟩
    let sub_tempv ← newVec
    resizeTo sub_tempv ⟨size.x, 1, 1⟩
    let r_size ← Hd.sizem s.r
    foldN r_size.y (0 : ℝ) fun i sum => do
      Hd.row_get_into s.input_set i (some point)
      foldN r_size.x sum fun j sum => do
        Hd.row_get_into s.mu j (some muj)
        Hd.subb (some sub_tempv) (some point) (some muj)
        let rij ← Hd.element_getm s.r i j
        let q ← Hd.norm_sq (some sub_tempv)
        pure (sum + rij * q)

/-- `score()`, kmeans.cpp:184-186. -/
def score (s : KMeans) : M ℝ ℝ := cost s

/-- One turn of the loop of `train`, kmeans.cpp:167-171. -/
def turn (s : KMeans) : M ℝ Unit := do
  let _ ← cost s
  compute_mu s
  evaluate s

/-- `if (!_initialized) { initialize(); }`, kmeans.cpp:149-151. -/
def ensure (s : KMeans) (pick : Nat → Int) : M ℝ KMeans := if s.initialized = true then pure s else initialise s pick

/-- `train(epoch_num, UI)`, kmeans.cpp:146-182: the loop ends when `epoch`, which starts at 1 and is increased after each turn, is greater than
`epoch_num`, so it runs `max(epoch_num, 1)` times. -/
def train (s : KMeans) (epoch_num : Int) (pick : Nat → Int) : M ℝ KMeans :=
  match s.input_set with
  | none => pure s
  | some _ => do
    let s ← ensure s pick
    evaluate s
    forN (max epoch_num.toNat 1) fun _ => turn s
    pure s

/-- The sum `a` of `silhouette_scores`, kmeans.cpp:241-258. -/
def inner (s : KMeans) (tol : ℝ) (ri rj xi xj : Ref) (n i : Nat) : M ℝ ℝ :=
  foldN n (0 : ℝ) fun j a =>
    if i = j then pure a
    else do
      Hd.row_get_into s.r j rj
      if ← Hd.is_equal_approx ri rj tol then do
        Hd.row_get_into s.input_set j xj
        let d ← Hd.euclidean_distance xi xj
        pure (a + d)
      else pure a

/-- The sum over all points, kmeans.cpp:272-277. -/
def total (s : KMeans) (xi xk : Ref) (n : Nat) : M ℝ ℝ :=
  foldN n (0 : ℝ) fun k sum => do
    Hd.row_get_into s.input_set k xk
    let d ← Hd.euclidean_distance xi xk
    pure (sum + d)

/-- The number of points that equal the centroid in `muj`, kmeans.cpp:280-287. -/
def matching (s : KMeans) (tol : ℝ) (ck muj : Ref) (n : Nat) : M ℝ ℝ :=
  foldN n (0 : ℝ) fun k count => do
    Hd.row_get_into s.input_set k ck
    if ← Hd.is_equal_approx ck muj tol then pure (count + 1) else pure count

open Classical in
/-- `if (sum / k_cluster_size < b) b = sum / k_cluster_size`, kmeans.cpp:289-291; `none` is `Math_INF`. Division by a cluster size of zero gives
infinity or not-a-number, neither of which is less than anything. -/
def lower (sum size : ℝ) (b : Option ℝ) : Option ℝ :=
  if size ≠ 0 ∧ ∀ x, b = some x → sum / size < x then some (sum / size) else b

/-- The number `b` of `silhouette_scores`, kmeans.cpp:264-293; `none` is `Math_INF`. -/
def outer (s : KMeans) (tol : ℝ) (ci muj xi xk ck : Ref) (k n m : Nat) : M ℝ (Option ℝ) :=
  foldN k none fun j b => do
    Hd.row_get_into s.mu j muj
    if ← Hd.is_equal_approx ci muj tol then pure b
    else do
      let sum ← total s xi xk n
      let size ← matching s tol ck muj m
      pure (lower sum size b)

open Classical in
/-- `a /= cols - 1`, kmeans.cpp:260, and `(b - a) / fmax(a, b)`, kmeans.cpp:295. With one column `a` becomes infinity or not-a-number, and the quotient
is not a number; it is not a number either if `b` is infinite or if `a` and `b` are both zero. `nan` stands for not-a-number. -/
def quotient (nan a : ℝ) (cols : Nat) (b : Option ℝ) : ℝ :=
  match b with
  | none => nan
  | some b => if cols = 1 ∨ max (a / ((cols : ℝ) - 1)) b = 0 then nan else (b - a / ((cols : ℝ) - 1)) / max (a / ((cols : ℝ) - 1)) b

/-- `silhouette_scores()`, kmeans.cpp:188-304. `tol` is `CMP_EPSILON`, `nan` is not-a-number. -/
def silhouette_scores (s : KMeans) (tol nan : ℝ) : M ℝ Ref :=
  if s.initialized = false then pure none
  else do
    let cc ← model_set_test s s.input_set
    match cc with
    | none => pure none
    | some c => do
      let size ← Hd.sizem s.input_set
      let mu_size ← Hd.sizem s.mu
      let cc_size ← Hd.sizem (some c)
      let scores ← newVec
      resizeTo scores ⟨size.y, 1, 1⟩
      let xi ← newVec
      resizeTo xi ⟨size.x, 1, 1⟩
      let xj ← newVec
      resizeTo xj ⟨size.x, 1, 1⟩
      let xk ← newVec
      resizeTo xk ⟨size.x, 1, 1⟩
      let r_size ← Hd.sizem s.r
      let ri ← newVec
      resizeTo ri ⟨r_size.x, 1, 1⟩
      let rj ← newVec
      resizeTo rj ⟨r_size.x, 1, 1⟩
      let ci ← newVec
      resizeTo ci ⟨cc_size.x, 1, 1⟩
      let ck ← newVec
      resizeTo ck ⟨cc_size.x, 1, 1⟩
      let muj ← newVec
      resizeTo muj ⟨mu_size.x, 1, 1⟩
      forN size.y fun i => do
        Hd.row_get_into s.r i (some ri)
        Hd.row_get_into s.input_set i (some xi)
        let a ← inner s tol (some ri) (some rj) (some xi) (some xj) size.y i
        Hd.row_get_into (some c) i (some ci)
        let b ← outer s tol (some ci) (some muj) (some xi) (some xk) (some ck) mu_size.y size.y cc_size.y
        Hd.element_set (some scores) i (quotient nan a cc_size.x b)
      pure (some scores)

end KMeans
end
end Verif
