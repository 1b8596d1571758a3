import Verif.Model.FeatureTracker

/-!
# What the match filters should accept
-/

namespace EkfCal

variable {K : Type} [Field K] [LinearOrder K]

/-- Two candidates, the better of which is better by the given ratio. -/
def PassesRatio (r : K) (m : List (DMatch K)) : Prop :=
  ∃ a b, m = [a, b] ∧ a.distance ≤ r * b.distance

/-- Some backward list confirms the forward list: each names the other's query as its best match.  Both must have two
candidates. -/
def Confirmed (bwd : List (List (DMatch K))) (f : List (DMatch K)) : Prop :=
  ∃ f0 f1, f = [f0, f1] ∧ ∃ b0 b1, [b0, b1] ∈ bwd ∧ b0.query = f0.train ∧ b0.train = f0.query

/-- What `knnMatch` with two neighbours returns: for the `i`-th query at most two matches, all with query index `i`, and
the distances are not negative. -/
def KnnLists (ms : List (List (DMatch K))) : Prop :=
  ∀ i (m : List (DMatch K)), ms[i]? = some m → m.length ≤ 2 ∧ ∀ d ∈ m, d.query = i ∧ 0 ≤ d.distance

/-- All indices of a match point at key points. -/
def InRange (prev curr : List (KeyPoint K)) (m : DMatch K) : Prop := m.query < prev.length ∧ m.train < curr.length

/-- How far the key point of a match moved. -/
def displacement (N : Prim K) (prev curr : List (KeyPoint K)) (m : DMatch K) : K :=
  match prev[m.query]?, curr[m.train]? with
  | some p, some c => N.sqrt ((c.x - p.x) ^ 2 + (c.y - p.y) ^ 2)
  | _, _ => 0

/-- The mean of a list of numbers. -/
def mean (l : List K) : K := l.sum / l.length

end EkfCal
