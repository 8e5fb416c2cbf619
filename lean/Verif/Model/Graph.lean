import Verif.Model.Basic

/-
The graph algorithms of datashape/internal_utils.py and datashape/discovery.py, over any type of
nodes with decidable equality.

A Python dict is an association list in insertion order, a Python set is a list; the theorems never
depend on the order of a list that stands for a set.
-/
namespace DS

/-- A Python `dict` -/
abbrev Dict (α β : Type) := List (α × β)

variable {α β : Type} [DecidableEq α]

/-- `d[k] = v`: an existing key keeps its place, a new one goes to the end. -/
def Dict.set (d : Dict α β) (k : α) (v : β) : Dict α β :=
  match d with
  | [] => [(k, v)]
  | (k', v') :: r => if k = k' then (k', v) :: r else (k', v') :: Dict.set r k v

/-- `d.keys()` -/
def Dict.keys (d : Dict α β) : List α := d.map (·.1)

/-- `s.add(x)` for a set -/
def setAdd (s : List α) (x : α) : List α := if x ∈ s then s else s ++ [x]

/-- `set(l)` -/
def toSet (l : List α) : List α := l.foldl setAdd []

/-- The inner loop of `reverse_dict`: internal_utils.py:53-54. -/
def reverseInner (key : α) (result : Dict α (List α)) : List α → Dict α (List α)
  | [] => result
  | val :: vs => reverseInner key (Dict.set result val ((result.lookup val).getD [] ++ [key])) vs

/-- `reverse_dict(d)`: internal_utils.py:38-55, as a fold over the items of `d`. -/
def reverseFrom (result : Dict α (List α)) : Dict α (List α) → Dict α (List α)
  | [] => result
  | (key, vals) :: r => reverseFrom (reverseInner key result vals) r

/-- `reverse_dict(d)`: internal_utils.py:38-55 -/
def reverseDict (d : Dict α (List α)) : Dict α (List α) := reverseFrom [] d

/-- The variables of `_toposort`: `incoming_edges`, `S`, `L`. -/
structure TState (α : Type) where
  incoming : Dict α (List α)
  S : List α
  L : List α

/-- Lines 77-80 of internal_utils.py: the state before the `while` loop. -/
def topoInit (edges : Dict α (List α)) : TState α :=
  let incoming := (reverseDict edges).map fun kv => (kv.1, toSet kv.2)
  { incoming := incoming
    S := (Dict.keys edges).filter fun v => (incoming.lookup v).isNone
    L := [] }

/-- The `for m in edges.get(n, ())` loop, internal_utils.py:85-89. -/
def topoChildren (n : α) (st : TState α) : List α → Except PyErr (TState α)
  | [] => .ok st
  | m :: ms =>
    match st.incoming.lookup m with
    | none => .error .keyError
    | some ps =>
      if n ∈ ps then
        let ps' := ps.erase n
        let st' : TState α :=
          { st with incoming := Dict.set st.incoming m ps'
                    S := if ps'.isEmpty then setAdd st.S m else st.S }
        topoChildren n st' ms
      else .error .assertion

/-- One iteration of the `while` loop that pops `n`: internal_utils.py:83-89. -/
def topoPop (edges : Dict α (List α)) (st : TState α) (n : α) : Except PyErr (TState α) :=
  topoChildren n { st with S := st.S.erase n, L := st.L ++ [n] } ((edges.lookup n).getD [])

/-- Lines 90-92 of internal_utils.py: what happens when `S` is empty. -/
def topoFinish (edges : Dict α (List α)) (st : TState α) : Except PyErr (List α) :=
  if (Dict.keys edges).any fun v => !((st.incoming.lookup v).getD []).isEmpty then .error .valueError
  else .ok st.L

/-- One successful iteration; `S.pop()` removes an arbitrary element. -/
inductive TStep (edges : Dict α (List α)) : TState α → TState α → Prop where
  | pop {st st' : TState α} {n : α} (hn : n ∈ st.S) (h : topoPop edges st n = .ok st') :
      TStep edges st st'

/-- The outcomes of the `while` loop started in a state, over all choices of `S.pop()`. -/
inductive TRun (edges : Dict α (List α)) : TState α → Except PyErr (List α) → Prop where
  | finish {st : TState α} (h : st.S = []) : TRun edges st (topoFinish edges st)
  | step {st st' : TState α} {r : Except PyErr (List α)} (h : TStep edges st st')
      (hr : TRun edges st' r) : TRun edges st r
  | raise {st : TState α} {n : α} {e : PyErr} (hn : n ∈ st.S)
      (h : topoPop edges st n = .error e) : TRun edges st (.error e)

/-- `_toposort(edges)` may end with `r`: internal_utils.py:60-92. -/
def Toposort (edges : Dict α (List α)) (r : Except PyErr (List α)) : Prop :=
  TRun edges (topoInit edges) r

/-! ### groupby (internal_utils.py:97-118) -/

/-- The loop of `groupby`: internal_utils.py:113-117. -/
def groupbyFrom {κ ι : Type} [DecidableEq κ] (f : ι → κ) (d : Dict κ (List ι)) : List ι → Dict κ (List ι)
  | [] => d
  | x :: xs =>
    -- `if key not in d: d[key] = list()`, then `d[key].append(item)`
    groupbyFrom f (Dict.set d (f x) ((d.lookup (f x)).getD [] ++ [x])) xs

/-- `groupby(func, seq)` for a `func` that does not raise. -/
def groupby {κ ι : Type} [DecidableEq κ] (f : ι → κ) (seq : List ι) : Dict κ (List ι) :=
  groupbyFrom f [] seq

/-! ### descendents (discovery.py:417-430) -/

/-- `set.union(*[set(d.get(kid, ())) for kid in desc]) - desc`: discovery.py:427-428 -/
def descNext (d : Dict α (List α)) (desc : List α) : List α :=
  (toSet (desc.flatMap fun kid => (d.lookup kid).getD [])).filter fun y => y ∉ desc

/-- The `while children` loop: discovery.py:426-429, with fuel for the number of iterations. -/
def descLoop (d : Dict α (List α)) : Nat → List α → List α → Except PyErr (List α)
  | 0, _, _ => .error .fuel
  | fuel + 1, children, desc =>
    if children.isEmpty then .ok desc
    else
      let children' := descNext d desc
      descLoop d fuel children' (children'.foldl setAdd desc)

/-- `descendents(d, x)`, running the loop at most `fuel` times. -/
def descendentsN (fuel : Nat) (d : Dict α (List α)) (x : α) : Except PyErr (List α) :=
  descLoop d fuel ((d.lookup x).getD []) [x]

/-- `descendents(d, x)`: discovery.py:417-430. The fuel is always enough, and no larger fuel changes the
result (`C28.terminates`). -/
def descendents (d : Dict α (List α)) (x : α) : Except PyErr (List α) :=
  descendentsN ((d.flatMap (·.2)).length + 3) d x

end DS
