import Verif.Model.Search

/-! # Specification vocabulary for searching -/

namespace Hrm

/-- Contract of the priority queue: some element of minimal priority is extracted. -/
def HeapTop (pick : ℕ → (ℕ → ℝ) → List ℕ → ℕ) : Prop :=
  ∀ k f q, q ≠ [] → pick k f q ∈ q ∧ ∀ x ∈ q, f (pick k f q) ≤ f x

/-- An undirected edge of weight `w` of the roadmap between vertices `a` and `b`. -/
def Graph.Joins (g : Graph) (a b : ℕ) (w : ℝ) : Prop :=
  ∃ k : ℕ, g.weight[k]? = some w ∧ (g.edge[k]? = some (a, b) ∨ g.edge[k]? = some (b, a))

/-- `l` is a path of the roadmap of total weight `L` (a list of vertices, consecutive ones joined). -/
inductive Graph.IsPath (g : Graph) : List ℕ → ℝ → Prop
  | single (a : ℕ) : a < g.vertex.length → IsPath g [a] 0
  | cons (a b : ℕ) (l : List ℕ) (w L : ℝ) : IsPath g (b :: l) L → g.Joins a b w →
      IsPath g (a :: b :: l) (w + L)

/-- There is a path from `a` to `b` of total weight `L`. -/
def Graph.PathBetween (g : Graph) (a b : ℕ) (l : List ℕ) (L : ℝ) : Prop :=
  g.IsPath l L ∧ l.head? = some a ∧ l.getLast? = some b

end Hrm
