import Verif.Model.Discovery

/-
datashape/discovery.py for values built from lists, tuples, sets and dicts whose keys are strings, ints, bools or `None`.
(Model/Discovery.lean has strings only.)
-/
namespace DS

/-- A key of a dict. Simplification: floats, tuples, dates and so on are left out. -/
inductive DKey where
  | str (s : Str)
  | int (i : Int)
  | bool (b : Bool)
  | none
  deriving DecidableEq, Repr

/-- the number that a key is: `True == 1` -/
def DKey.num : DKey → Option Int
  | .int i => some i
  | .bool b => some (if b then 1 else 0)
  | _ => Option.none

/-- `a == b` (and the same hash), as dicts and sets compare their keys -/
def DKey.eq (a b : DKey) : Bool := a == b || (a.num.isSome && a.num == b.num)

/-- `str(name) if not isinstance(name, _strtypes) else name`: coretypes.py:1051 -/
def DKey.text : DKey → Str
  | .str s => s
  | .int i => intStr i
  | .bool b => if b then py"True" else py"False"
  | .none => py"None"

/-- `a < b`: a string and a number, or `None` and anything, cannot be compared -/
def DKey.less : DKey → DKey → Except PyErr Bool
  | .str a, .str b => .ok (!strLe b a)
  | a, b =>
    match a.num, b.num with
    | some x, some y => .ok (decide (x < y))
    | _, _ => .error .typeError

/-- one step of `sorted` -/
def insertKey (x : DKey) : List DKey → Except PyErr (List DKey)
  | [] => .ok [x]
  | y :: r => do
    if ← y.less x then
      let r ← insertKey x r
      .ok (y :: r)
    else .ok (x :: y :: r)

/-- `sorted(keys)`. Simplification: CPython compares other pairs of keys, but like every sorting algorithm it compares some two
keys that cannot be compared if there are any. -/
def sortKeys : List DKey → Except PyErr (List DKey)
  | [] => .ok []
  | x :: r => do
    let r ← sortKeys r
    insertKey x r

/-- `s.add(k)`: an equal key that is already there stays -/
def addKey (s : List DKey) (k : DKey) : List DKey := if s.any (·.eq k) then s else s ++ [k]

/-- `set.union(*(set(d) for d in seq))`: discovery.py:219 -/
def unionKeys (l : List DKey) : List DKey := l.foldl addKey []

/-- `d[k]`, `d.get(k)` -/
def getKey {α : Type} (k : DKey) (es : List (DKey × α)) : Option α := (es.find? fun e => e.1.eq k).map (·.2)

/-- A Python value: one of Model/Discovery.lean, or a container of such values. `od` is `OrderedDict`, `mp` is
`MappingProxyType`. -/
inductive KObj where
  | val (v : PyObj)
  | seq (kind : SeqKind) (l : List KObj)
  | dict (items : List (DKey × KObj))
  | od (items : List (DKey × KObj))
  | mp (items : List (DKey × KObj))

/-- What `discover` of a sequence needs to know about an item, see `Item`. -/
structure ItemK where
  self : Except PyErr Ty
  elems : Option (List (Except PyErr Ty))
  entries : Option (List (DKey × Except PyErr Ty))

/-- without the entries (no code) -/
def ItemK.item (i : ItemK) : Item := ⟨i.self, i.elems, none⟩

/-- dicts with string keys (no code) -/
def Item.keyed (i : Item) : ItemK := ⟨i.self, i.elems, i.entries.map (List.map fun e => (.str e.1, e.2))⟩

/-- discovery.py:218-224: a sequence of dicts. `sorted` is outside the `try`, but it raises no `AttributeError`. -/
def discoverDictsK (topo : List Node) (items : List ItemK) : Option (Except PyErr Ty) :=
  match items.mapM ItemK.entries with
  | some rows =>
    some do
      let keys ← sortKeys (unionKeys (rows.flatMap fun d => d.map (·.1)))
      let types ← (keys.map fun k => rows.map fun d => (getKey k d).getD (.ok .null)).mapM (columnType topo)
      let r ← mkRecord ((keys.map DKey.text).zip types)
      mul (.int items.length) (.ty r)
  | none => none

/-- `discover(seq)`: discovery.py:200-229 -/
def discoverSeqK (topo : List Node) (items : List ItemK) : Except PyErr Ty :=
  if items.isEmpty then .ok (.dshape [.var, tString])
  else orElse (discoverRows topo (items.map ItemK.item)) (orElse (discoverDictsK topo items) (discoverRest (items.map ItemK.item)))

/-- `_mapping_discover(m)`: discovery.py:366-369; `sorted` comes before everything else -/
def discoverMapK (entries : List (DKey × Except PyErr Ty)) : Except PyErr Ty := do
  let keys ← sortKeys (entries.map (·.1))
  recordOf (keys.map fun k => (k.text, (getKey k entries).getD (.error .keyError)))

mutual
/-- `discover(v)`, with the results for the parts of `v`: see `discoverItem` -/
def discoverItemK (strTy : Str → Except PyErr Ty) (topo : List Node) : (v : KObj) → ItemK
  | .val v => (discoverItem strTy topo v).keyed
  | .seq k l =>
    let items := discoverItemsK strTy topo l
    ⟨discoverSeqK topo items, if k = .set then none else some (items.map ItemK.self), none⟩
  | .dict kvs =>
    let es := discoverEntriesK strTy topo kvs
    ⟨discoverMapK es, none, some es⟩
  | .od kvs =>
    let es := discoverEntriesK strTy topo kvs
    ⟨recordOf (es.map fun e => (e.1.text, e.2)), none, some es⟩
  | .mp kvs =>
    let es := discoverEntriesK strTy topo kvs
    ⟨discoverMapK es, none, none⟩
termination_by structural v => v
/-- over a list -/
def discoverItemsK (strTy : Str → Except PyErr Ty) (topo : List Node) : (l : List KObj) → List ItemK
  | [] => []
  | v :: r => discoverItemK strTy topo v :: discoverItemsK strTy topo r
termination_by structural l => l
/-- over the values of a dict -/
def discoverEntriesK (strTy : Str → Except PyErr Ty) (topo : List Node) :
    (l : List (DKey × KObj)) → List (DKey × Except PyErr Ty)
  | [] => []
  | (k, v) :: r => (k, (discoverItemK strTy topo v).self) :: discoverEntriesK strTy topo r
termination_by structural l => l
end

/-- `discover(v)` -/
def discoverK (strTy : Str → Except PyErr Ty) (topo : List Node) (v : KObj) : Except PyErr Ty :=
  (discoverItemK strTy topo v).self

end DS
