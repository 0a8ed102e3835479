import Verif.Model.KMeans

/-!
# Histories of calls on `MLPPKMeans` (modules/kmeans)

The setters and `initialize`, `train`, `model_test`, `model_set_test`, `score` are modelled in `Model/KMeans.lean`. Here they become the calls of a history; the answers
of the calls that give one are thrown away. Not modelled: `silhouette_scores` as a call of a history (see C138).
-/

namespace Verif
noncomputable section
namespace KMeans

/-- `get_input_set()`, kmeans.cpp:44-46. -/
def get_input_set (s : KMeans) : Ref := s.input_set
/-- `get_k()`, kmeans.cpp:52-54. -/
def get_k (s : KMeans) : Nat := s.k
/-- `get_mean_type()`, kmeans.cpp:60-62. -/
def get_mean_type (s : KMeans) : MeanType := s.mean_type

/-- A call on an object. `pick i` is the row drawn for centroid `i`, if centroids are drawn. -/
inductive Call where
  | set_input_set (val : Ref)
  | set_k (val : Nat)
  | set_mean_type (val : MeanType)
  | initialise (pick : Nat → Int)
  | train (epoch_num : Int) (pick : Nat → Int)
  | model_test (x : Ref)
  | model_set_test (X : Ref)
  | score

/-- What a call does to the object. -/
def call (s : KMeans) : Call → M ℝ KMeans
  | .set_input_set v => pure (KMeans.set_input_set s v)
  | .set_k v => pure (KMeans.set_k s v)
  | .set_mean_type v => pure (KMeans.set_mean_type s v)
  | .initialise pick => KMeans.initialise s pick
  | .train e pick => KMeans.train s e pick
  | .model_test x => do
    let _ ← KMeans.model_test s x
    pure s
  | .model_set_test X => do
    let _ ← KMeans.model_set_test s X
    pure s
  | .score => do
    let _ ← KMeans.score s
    pure s

/-- A history of calls. -/
def run (s : KMeans) : List Call → M ℝ KMeans
  | [] => pure s
  | c :: hist => do
    let s ← call s c
    run s hist

end KMeans
end
end Verif
