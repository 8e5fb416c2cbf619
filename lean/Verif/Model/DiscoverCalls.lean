import Verif.Model.Discovery

/-
How often `discover` (datashape/discovery.py) is called while it looks at a value.

Model/Discovery.lean computes the results of the calls. Here the same branches are followed a second time and the calls
are counted: a list comprehension or `map` stops at the first call that raises, a branch given up because of an
`AttributeError` has made its calls, and `seq` is then looked at again by the next branch.

Counted are the calls for the parts of the value (elements of sequences, values of mappings) and the `discover(None)` for
a key that a dict lacks. Not counted is the one call that the discovery of a string may make for its coerced value
(discovery.py:181). The discovery of NumPy arrays makes no calls (400-418).
-/
namespace DS

/-- a computation that has made some calls and returns or raises -/
structure Counted (α : Type) where
  calls : Nat
  result : Except PyErr α

namespace Counted

/-- no call -/
def free (r : Except PyErr α) : Counted α := ⟨0, r⟩

/-- go on with the result, unless an exception was raised -/
def andThen (c : Counted α) (f : α → Counted β) : Counted β :=
  match c.result with
  | .error e => ⟨c.calls, .error e⟩
  | .ok a => ⟨c.calls + (f a).calls, (f a).result⟩

/-- a list comprehension: from left to right, stopping at the first exception -/
def each (f : α → Counted β) : List α → Counted (List β)
  | [] => ⟨0, .ok []⟩
  | x :: r => (f x).andThen fun y => (each f r).andThen fun ys => ⟨0, .ok (y :: ys)⟩

/-- one more call: that of the function itself -/
def tick (c : Counted α) : Counted α := ⟨c.calls + 1, c.result⟩

end Counted

/-- `Item` of Model/Discovery.lean with the numbers of calls -/
structure ItemC where
  self : Counted Ty
  elems : Option (List (Counted Ty))
  entries : Option (List (Str × Counted Ty))

/-- `unite([discover(data) for data in column]).subshape[0]`: discovery.py:209-210, 221-222 -/
def columnC (topo : List Node) (c : List (Counted Ty)) : Counted Ty :=
  (Counted.each id c).andThen fun ts => .free do
    let u ← uniteFull topo ts
    subshape (.int 0) u

/-- `zip(*rows)`: discovery.py:208 -/
def columnsOfC (k : Nat) (rows : List (List (Counted Ty))) : List (List (Counted Ty)) :=
  (List.range k).map fun j => rows.map fun r => (r[j]?).getD (.free (.error .indexError))

/-- discovery.py:206-213 -/
def discoverRowsC (topo : List Node) (items : List ItemC) : Option (Counted Ty) :=
  match items.mapM ItemC.elems with
  | some (r :: rows) =>
    if rows.all fun r' => r'.length == r.length then
      some ((Counted.each (columnC topo) (columnsOfC r.length (r :: rows))).andThen fun types => .free do
        let u ← uniteTuple types
        mul (.int items.length) (.ty u))
    else none
  | _ => none

/-- discovery.py:219 -/
def allKeysC (rows : List (List (Str × Counted Ty))) : List Str :=
  sortStr (toSet (rows.flatMap fun d => d.map (·.1)))

/-- discovery.py:218-226; `discover(None)` for a missing key is a call -/
def discoverDictsC (topo : List Node) (items : List ItemC) : Option (Counted Ty) :=
  match items.mapM ItemC.entries with
  | some rows =>
    some ((Counted.each (columnC topo)
        ((allKeysC rows).map fun k => rows.map fun d => (d.lookup k).getD ⟨1, .ok .null⟩)).andThen
      fun types => .free do
        let r ← mkRecord ((allKeysC rows).zip types)
        mul (.int items.length) (.ty r))
  | none => none

/-- discovery.py:228-229 -/
def discoverRestC (items : List ItemC) : Counted Ty :=
  (Counted.each ItemC.self items).andThen fun types => .free (uniteTuple types)

/-- `try: … except AttributeError: pass`: the calls of the branch have been made -/
def orElseC (branch : Option (Counted Ty)) (rest : Counted Ty) : Counted Ty :=
  match branch with
  | some ⟨n, .error .attributeError⟩ => ⟨n + rest.calls, rest.result⟩
  | some r => r
  | none => rest

/-- `discover(seq)`: discovery.py:200-229 -/
def discoverSeqC (topo : List Node) (items : List ItemC) : Counted Ty :=
  if items.isEmpty then .free (.ok (.dshape [.var, tString]))
  else orElseC (discoverRowsC topo items) (orElseC (discoverDictsC topo items) (discoverRestC items))

/-- `Record((k, discover(v)) …)`: discovery.py:369, 374 -/
def recordOfC (entries : List (Str × Counted Ty)) : Counted Ty :=
  (Counted.each (fun e => e.2.andThen fun t => .free (.ok (e.1, t))) entries).andThen fun fs => .free (mkRecord fs)

/-- `_mapping_discover(m)`: discovery.py:366-369 -/
def discoverMapC (entries : List (Str × Counted Ty)) : Counted Ty :=
  recordOfC ((sortStr (entries.map (·.1))).map fun k =>
    (k, (entries.lookup k).getD (.free (.error .keyError))))

/-- `discover` of something without parts -/
def leafC (r : Except PyErr Ty) : ItemC := ⟨(Counted.free r).tick, none, none⟩

mutual
/-- `discover(v)` with its calls, as `discoverItem` in Model/Discovery.lean: discovery.py:70-229, 366-374 -/
def discoverItemC (strTy : Str → Except PyErr Ty) (topo : List Node) : (v : PyObj) → ItemC
  | .none => leafC (.ok .null)
  | .int => leafC (.ok tInt64)
  | .float => leafC (.ok tFloat64)
  | .bool => leafC (.ok tBool)
  | .complex => leafC (.ok tComplex128)
  | .datetime => leafC (.ok (.datetime none))
  | .timedelta => leafC (.ok tTimedelta)
  | .date => leafC (.ok .date)
  | .time => leafC (.ok (.time none))
  | .bytes => leafC (.ok (.string none (py"A")))
  | .str s => leafC (if s.isEmpty then .ok .null else strTy s)
  | .seq k l =>
    let items := discoverItemsC strTy topo l
    ⟨(discoverSeqC topo items).tick, if k = .set then none else some (items.map ItemC.self), none⟩
  | .dict kvs =>
    let es := discoverEntriesC strTy topo kvs
    ⟨(discoverMapC es).tick, none, some es⟩
  | .od kvs =>
    let es := discoverEntriesC strTy topo kvs
    ⟨(recordOfC es).tick, none, some es⟩
  | .mp kvs =>
    let es := discoverEntriesC strTy topo kvs
    ⟨(discoverMapC es).tick, none, none⟩
  | .array a => leafC a.item
  | .npScalar d => leafC (discoverArrayLike [] d)
  | .arrayLike sh d => leafC (discoverArrayLike sh d)
  | .other => leafC (.error .notImplemented)
termination_by structural v => v
/-- over a list -/
def discoverItemsC (strTy : Str → Except PyErr Ty) (topo : List Node) : (l : List PyObj) → List ItemC
  | [] => []
  | v :: r => discoverItemC strTy topo v :: discoverItemsC strTy topo r
termination_by structural l => l
/-- over the values of a mapping -/
def discoverEntriesC (strTy : Str → Except PyErr Ty) (topo : List Node) :
    (l : List (Str × PyObj)) → List (Str × Counted Ty)
  | [] => []
  | (k, v) :: r => (k, (discoverItemC strTy topo v).self) :: discoverEntriesC strTy topo r
termination_by structural l => l
end

/-- `discover(v)`: its result, and how many calls of `discover` it took, itself included -/
def discoverC (strTy : Str → Except PyErr Ty) (topo : List Node) (v : PyObj) : Counted Ty :=
  (discoverItemC strTy topo v).self

end DS
