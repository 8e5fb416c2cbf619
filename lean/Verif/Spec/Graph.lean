/-
What a graph given as a dict `{node: collection of successors}` is, independently of the code.
-/
namespace DS

variable {α : Type}

/-- `b` is listed under the key `a` -/
def Edge (g : List (α × List α)) (a b : α) : Prop := ∃ vs, (a, vs) ∈ g ∧ b ∈ vs

/-- the nodes: the keys and everything listed under a key -/
def IsNode (g : List (α × List α)) (v : α) : Prop := (∃ vs, (v, vs) ∈ g) ∨ ∃ a, Edge g a v

/-- a cycle: a non-empty path from a node to itself -/
def Cyclic (g : List (α × List α)) : Prop := ∃ v, Relation.TransGen (Edge g) v v

/-- a Python dict whose values are collections without repetitions (for instance sets) -/
def IsGraph (g : List (α × List α)) : Prop := (g.map (·.1)).Nodup ∧ ∀ kv ∈ g, kv.2.Nodup

/-- `y` can be reached from `x` by following zero or more edges -/
inductive Reaches (g : List (α × List α)) : α → α → Prop where
  | refl (x : α) : Reaches g x x
  | tail {x y z : α} : Reaches g x y → Edge g y z → Reaches g x z

/-- `a` stands strictly before `b` in `l` -/
def Before (l : List α) (a b : α) : Prop := ∃ l1 l2 l3, l = l1 ++ a :: (l2 ++ b :: l3)

/-- a topological order: every node exactly once, and every edge goes forward -/
structure TopOrder (g : List (α × List α)) (l : List α) : Prop where
  once : l.Nodup
  all : ∀ v, v ∈ l ↔ IsNode g v
  forward : ∀ a b, Edge g a b → Before l a b

end DS
