import Verif.Model.Equality
import Verif.Spec.Subterms

/-
Datashape objects in memory: the attribute `_hash`, which `hash` fills, and pickling, which leaves it out.
-/
namespace DS

variable {H : Type}

/-- A datashape object: its value, the attribute `_hash` (coretypes.py:97-102), and the datashape objects that its
parameters refer to. Simplification: when two objects share a part, each has its own copy of it here. -/
inductive Obj (H : Type) where
  | mk (value : Ty) (cache : Option H) (parts : List (Obj H))

/-- the datashape that the object represents -/
def Obj.value : Obj H → Ty
  | .mk v _ _ => v

/-- the parts -/
def Obj.parts : Obj H → List (Obj H)
  | .mk _ _ ps => ps

/-- `hash(self.shape) ^ hash(self.measure.info())` (coretypes.py:97-102; typesets.py:42-43 for `TypeSet`), from the hashes
of the parts, in the order of the parameters. -/
def hashFrom (E : HashEnv H) (v : Ty) (ks : List (HT H)) : HT H :=
  match v with
  | .units u _ => .scalar E (E.info (py"Units") (E.str u :: ks.map HT.own))
  | .option _ => HT.mk' E ((ks.head?.map HT.shape).getD []) (E.info (py"Option") (ks.map HT.own))
      (E.info (py"Option") (ks.map HT.own))
  | .map _ _ => .scalar E (E.info (py"Map") (ks.map HT.own))
  | .func _ => .scalar E (E.info (py"Function") (ks.map HT.own))
  | .record fs => .scalar E (E.info (py"Record") [E.tup (List.zipWith (fun f k => E.tup [E.str f.1, k.own]) fs ks)])
  | .tuple _ => .scalar E (E.info (py"Tuple") [E.tup (ks.map HT.own)])
  | .categorical c _ o => .scalar E (E.info (py"Categorical")
      ([E.tup (c.map E.lit)] ++ ks.map HT.own ++ [E.int (if o then 1 else 0)]))
  | .typeset _ n =>
      ⟨[], E.info (py"TypeSet") [E.tup (ks.map HT.own), E.optStr n],
        E.info (py"TypeSet") [E.tup (ks.map HT.own), E.optStr n], E.tup [E.optStr n, E.tup (ks.map HT.own)]⟩
  | .dshape _ => HT.mk' E (ks.dropLast.map HT.own) ((ks.getLast?.map HT.info).getD (E.info (py"DataShape") []))
      (E.info (py"DataShape") (ks.map HT.own))
  | v => hashT E v

mutual
/-- `hash(o)`: coretypes.py:97-102. The hash is `o._hash` if there is one; otherwise it is computed and kept. The first
component also has the hashes of `o.shape` and `o.info()`, which a surrounding object asks for. Simplifications: parts
are asked for their hashes even where Python finds `_hash` and does not need them, and `TypeSet`, whose `__hash__` keeps
nothing, is treated like the other classes. -/
def Obj.hash (E : HashEnv H) : (o : Obj H) → HT H × Obj H
  | .mk v c ps =>
    let r := hashParts E ps
    let h := hashFrom E v (r.map Prod.fst)
    let own := c.getD h.own
    (⟨h.shape, h.meas, h.info, own⟩, .mk v (some own) (r.map Prod.snd))
termination_by structural o => o
/-- the parts -/
def hashParts (E : HashEnv H) : (l : List (Obj H)) → List (HT H × Obj H)
  | [] => []
  | o :: r => o.hash E :: hashParts E r
termination_by structural l => l
end

mutual
/-- `pickle.loads(pickle.dumps(o))`, possibly in another process: `__getstate__` (coretypes.py:162-163) gives the
parameters only, which are pickled in turn, and `__setstate__` (165-170, 712-715) sets them only. (The value: C39.) -/
def Obj.unpickled : (o : Obj H) → Obj H
  | .mk v _ ps => .mk v none (unpickledParts ps)
termination_by structural o => o
/-- the parts -/
def unpickledParts : (l : List (Obj H)) → List (Obj H)
  | [] => []
  | o :: r => o.unpickled :: unpickledParts r
termination_by structural l => l
end

/-- The objects of all processes: the process, and the object. -/
abbrev World (H : Type) := List (Nat × Obj H)

/-- What a program can do with datashape objects, as far as hashes are concerned. `E p` are the hash functions of process
`p` (they differ, because Python hashes strings with a random seed). The label of a step is a hash that was asked for:
the process, the datashape and the result. -/
inductive WorldStep (E : Nat → HashEnv H) : World H → Option (Nat × Ty × H) → World H → Prop where
  /-- a constructor is called in process `p` with parts that exist there -/
  | build {w : World H} (p : Nat) (v : Ty) (parts : List (Obj H)) :
      (∀ o ∈ parts, (p, o) ∈ w) → parts.map Obj.value = v.children → WorldStep E w none ((p, .mk v none parts) :: w)
  /-- a part of an object is looked up -/
  | part {w : World H} {p : Nat} {o x : Obj H} : (p, o) ∈ w → x ∈ o.parts → WorldStep E w none ((p, x) :: w)
  /-- `hash(o)` in process `p` -/
  | hash {l r : World H} {p : Nat} {o : Obj H} :
      WorldStep E (l ++ (p, o) :: r) (some (p, o.value, (o.hash (E p)).1.own)) (l ++ (p, (o.hash (E p)).2) :: r)
  /-- an object of process `p` is pickled, and unpickled in process `q` -/
  | send {w : World H} {p : Nat} {o : Obj H} (q : Nat) : (p, o) ∈ w → WorldStep E w none ((q, o.unpickled) :: w)

/-- A run of the program, with all hashes that were asked for. -/
inductive WorldRun (E : Nat → HashEnv H) : World H → List (Nat × Ty × H) → World H → Prop where
  | done (w : World H) : WorldRun E w [] w
  | silent {w w' w'' : World H} {l : List (Nat × Ty × H)} : WorldStep E w none w' → WorldRun E w' l w'' → WorldRun E w l w''
  | asked {w w' w'' : World H} {a : Nat × Ty × H} {l : List (Nat × Ty × H)} :
      WorldStep E w (some a) w' → WorldRun E w' l w'' → WorldRun E w (a :: l) w''

end DS
