import Verif.Model.Subshape
import Verif.Model.Graph
import Verif.Model.ArrayDiscovery

/-
datashape/discovery.py for Python values built from scalars, strings, lists, tuples, sets and dicts.
NumPy arrays and scalars may occur in them (Model/ArrayDiscovery.lean).
-/
namespace DS

/-! ### The conversion graph (discovery.py:238-261) -/

/-- The datashapes that occur in `edges` (discovery.py:239-249). Dicts and sets of datashapes are looked up with `==`;
the nodes are pairwise different datashapes (`node_inj` in Props/Discovery.lean), so the graph can be written over this
type. -/
inductive Node where
  | string | int64 | real | date | datetime | timedelta | bool | int32 | null
  deriving DecidableEq, Repr

/-- the datashape of a node -/
def Node.ty : Node → Ty
  | .string => tString
  | .int64 => tInt64
  | .real => tFloat64
  | .date => .date
  | .datetime => .datetime none
  | .timedelta => tTimedelta
  | .bool => tBool
  | .int32 => tInt32
  | .null => .null

/-- all nodes -/
def Node.all : List Node := [.string, .int64, .real, .date, .datetime, .timedelta, .bool, .int32, .null]

/-- `edges`, discovery.py:239-249: `(a, b)` says that `b` can turn into `a` -/
def edgePairs : List (Node × Node) :=
  [(.string, .int64), (.string, .real), (.string, .date), (.string, .datetime), (.string, .timedelta),
   (.string, .bool), (.datetime, .date), (.int64, .int32), (.real, .int64), (.string, .null)]

/-- `edges`, discovery.py:259-260 -/
def discEdges : Dict Node (List Node) :=
  (groupby (fun x => x.2) edgePairs).map fun kv => (kv.1, toSet (kv.2.map (·.1)))

/-- The key of the dict `edges` that equals `t` -/
def nodeOf (t : Ty) : Option Node := Node.all.find? fun n => pyEq t n.ty

/-- An element of a set of datashapes: one of the nodes, or something that is not a node. -/
inductive Key where
  | node (n : Node)
  | other (t : Ty)

/-- `==` of set elements -/
def Key.eq : Key → Key → Bool
  | .node a, .node b => a == b
  | .other a, .other b => pyEq a b
  | _, _ => false

/-- `descendents(edges, ds)`: for a datashape that is not a key of `edges` the result is `{ds}` -/
def descOf (t : Ty) : Except PyErr (List Key) :=
  match nodeOf t with
  | some n => do .ok ((← descendents discEdges n).map .node)
  | none => .ok [.other t]

/-- `x in toposorted` -/
def inTopo (topo : List Node) : Key → Bool
  | .node n => n ∈ topo
  | .other _ => false

/-- `toposorted.index(x)` -/
def topoIndex (topo : List Node) : Key → Except PyErr Nat
  | .node n => if n ∈ topo then .ok (topo.idxOf n) else .error .valueError
  | .other _ => .error .valueError

/-- `min(common, key=…)` after the first element -/
def minKey : Key × Nat → List (Key × Nat) → Key
  | best, [] => best.1
  | best, x :: r => if x.2 < best.2 then minKey x r else minKey best r

/-- The datashape of a set element. Simplification: if an argument was a one-element `DataShape` around a node, Python
may return that wrapper, which equals the node. -/
def Key.ty : Key → Ty
  | .node n => n.ty
  | .other t => t

/-- `lowest_common_dshape(dshapes)`: discovery.py:264-279; `topo` is the module constant `toposorted`. -/
def lowestCommon (topo : List Node) (ts : List Ty) : Except PyErr Ty := do
  let sets ← ts.mapM descOf
  match sets with
  | [] => .error .typeError   -- `set.intersection()` without arguments
  | s :: r =>
    let common := s.filter fun x => r.all fun t => t.any fun y => x.eq y
    if common.any (inTopo topo) then
      let keyed ← common.mapM fun x => do .ok (x, ← topoIndex topo x)
      match keyed with
      | [] => .error .valueError
      | k :: ks => .ok (minKey k ks).ty
    else .error .valueError

/-! ### Uniting datashapes (discovery.py:282-363) -/

/-- `isnull(ds)`: discovery.py:232-233 -/
def isNull (t : Ty) : Bool := pyEq t .null || pyEq t (.dshape [.null])

/-- `unite_identical(dshapes)`: discovery.py:311-318; `none` is Python's `None` -/
def uniteIdentical (ts : List Ty) : Except PyErr (Option Ty) :=
  if (pyDistinct ts).length = 1 then
    match ts with
    | [] => .ok none
    | t :: _ => do .ok (some (← mul (.int ts.length) (.ty t)))
  else .ok none

/-- `unite_merge_dimensions(dshapes)`: discovery.py:321-338, with the default `unite` -/
def uniteMerge (ts : List Ty) : Except PyErr (Option Ty) :=
  if ts.all fun t => match t with | .dshape (d :: _) => isDimension d | _ => false then do
    let dims ← ts.mapM Ty.head
    let subs ← ts.mapM (subshape (.int 0))
    match ← uniteIdentical subs with
    | none => .ok none
    | some base =>
      let inner ← subshape (.int 0) base
      let d := if (pyDistinct dims).length = 1 then dims.head?.getD .var else .var
      let row ← mul (.ty d) (.ty inner)
      .ok (some (← mul (.int ts.length) (.ty row)))
  else .ok none

/-- `ds.names` -/
def namesOf : Ty → Except PyErr (List Str)
  | .record fs => .ok (recordNames fs)
  | _ => .error .attributeError

/-- `ds.dict.get(name, null)` -/
def dictGet (name : Str) : Ty → Except PyErr Ty
  | .record fs => .ok ((fs.reverse.lookup name).getD .null)
  | _ => .error .attributeError

/-- `unite_base(dshapes)`: discovery.py:282-308, with fuel for the nesting of records. The condition of the `elif` is
a generator expression, which is always true. -/
def uniteBase (topo : List Node) : Nat → List Ty → Except PyErr Ty
  | 0, _ => .error .fuel
  | fuel + 1, ts0 =>
    let ts := ts0.map launderTy
    let good := ts.filter fun t => !isNull t
    match good with
    | [] => mul (.int ts.length) (.ty .null)
    | g :: _ => do
      let base ← (if good.all Ty.isUnit then lowestCommon topo good
        else do
          let names ← namesOf g
          let fields ← names.mapM fun name => do
            let col ← good.mapM (dictGet name)
            let u ← uniteBase topo fuel col
            let t ← subshape (.int 0) u
            .ok (name, t)
          mkRecord fields : Except PyErr Ty)
      let base := if ts.any isNull then mkOption base else base
      mul (.int ts.length) (.ty base)

mutual
/-- nesting depth of a datashape -/
def Ty.depth : (t : Ty) → Nat
  | .units _ t => t.depth + 1
  | .option t => t.depth + 1
  | .map k v => max k.depth v.depth + 1
  | .func ps => depthL ps + 1
  | .record fs => depthF fs + 1
  | .tuple ts => depthL ts + 1
  | .categorical _ t _ => t.depth + 1
  | .typeset o _ => depthL o + 1
  | .dshape ps => depthL ps + 1
  | _ => 0
termination_by structural t => t
/-- over a list -/
def depthL : (l : List Ty) → Nat
  | [] => 0
  | t :: r => max t.depth (depthL r)
termination_by structural l => l
/-- over fields -/
def depthF : (l : List (Str × Ty)) → Nat
  | [] => 0
  | (_, t) :: r => max t.depth (depthF r)
termination_by structural l => l
end

/-- `unite = do_one([unite_identical, unite_base, unite_merge_dimensions])`: discovery.py:204 with 341-348.
`unite_base` returns a datashape or raises, so the third function is never tried. -/
def uniteFull (topo : List Node) (ts : List Ty) : Except PyErr Ty := do
  match ← uniteIdentical ts with
  | some t => .ok t
  | none => uniteBase topo (depthL ts + 1) ts

/-- `do_one([unite_identical, unite_merge_dimensions, Tuple])`: discovery.py:212, 229 -/
def uniteTuple (ts : List Ty) : Except PyErr Ty := do
  match ← uniteIdentical ts with
  | some t => .ok t
  | none =>
    match ← uniteMerge ts with
    | some t => .ok t
    | none => mkTuple ts

/-! ### Python values -/

/-- list, tuple or set (including frozenset) -/
inductive SeqKind where
  | list | tuple | set
  deriving DecidableEq, Repr

/-- A Python value. The contents of numbers, dates and so on do not matter. A set is given in its iteration order.
Dicts have string keys; `od` is `OrderedDict`, `mp` is `MappingProxyType` (not an instance of `dict`). -/
inductive PyObj where
  | none                              -- `None`, and instances of `Null`
  | int | float | bool | complex | datetime | timedelta | date | time | bytes
  | str (s : Str)
  | seq (kind : SeqKind) (l : List PyObj)
  | dict (items : List (Str × PyObj))
  | od (items : List (Str × PyObj))
  | mp (items : List (Str × PyObj))
  | array (a : NdArray)               -- a NumPy array
  | npScalar (d : DType)              -- a NumPy scalar (other than `np.str_` and `np.bytes_`)
  | arrayLike (shape : List Nat) (d : DType)  -- an object of another class with `shape` and `dtype`
  | other                             -- anything else, such as a `Mock` (discovery.py:442-446)

/-- Python's `<=` on strings: code points, lexicographically. -/
def strLe : Str → Str → Bool
  | [], _ => true
  | _ :: _, [] => false
  | a :: s, b :: t => if a < b then true else if b < a then false else strLe s t

/-- insert into a sorted list -/
def insertStr (x : Str) : List Str → List Str
  | [] => [x]
  | y :: r => if strLe x y then x :: y :: r else y :: insertStr x r

/-- `sorted(l)` -/
def sortStr (l : List Str) : List Str := l.foldr insertStr []

/-- What `discover` of a sequence needs to know about an item: the result of `discover(item)`, for a list or tuple
the results for its elements, for a dict the results for its values. Computing them all in advance is the same as
computing them when needed, because `discover` has no side effects. -/
structure Item where
  self : Except PyErr Ty
  elems : Option (List (Except PyErr Ty))
  entries : Option (List (Str × Except PyErr Ty))

/-- `[discover(data) for data in column]` -/
def column (c : List (Except PyErr Ty)) : Except PyErr (List Ty) := c.mapM id

/-- `unite([discover(data) for data in column]).subshape[0]` -/
def columnType (topo : List Node) (c : List (Except PyErr Ty)) : Except PyErr Ty := do
  let ts ← column c
  let u ← uniteFull topo ts
  subshape (.int 0) u

/-- `zip(*rows)` for rows of length `k`: column `j` for each `j < k` -/
def columnsOf (k : Nat) (rows : List (List (Except PyErr Ty))) : List (List (Except PyErr Ty)) :=
  (List.range k).map fun j => rows.map fun r => (r[j]?).getD (.error .indexError)

/-- discovery.py:206-213: rows of equal length; `none` when the branch is not taken -/
def discoverRows (topo : List Node) (items : List Item) : Option (Except PyErr Ty) :=
  match items.mapM Item.elems with
  | some (r :: rows) =>
    if rows.all fun r' => r'.length == r.length then
      some do
        let types ← (columnsOf r.length (r :: rows)).mapM (columnType topo)
        let u ← uniteTuple types
        mul (.int items.length) (.ty u)
    else none
  | _ => none

/-- `sorted(set.union(*(set(d) for d in seq)))`: discovery.py:219 -/
def allKeys (rows : List (List (Str × Except PyErr Ty))) : List Str :=
  sortStr (toSet (rows.flatMap fun d => d.map (·.1)))

/-- discovery.py:218-224: a sequence of dicts; `item.get(key)` is `None` for a missing key, and
`discover(None)` is `null` -/
def discoverDicts (topo : List Node) (items : List Item) : Option (Except PyErr Ty) :=
  match items.mapM Item.entries with
  | some rows =>
    some do
      let keys := allKeys rows
      let types ← (keys.map fun k => rows.map fun d => (d.lookup k).getD (.ok .null)).mapM (columnType topo)
      let r ← mkRecord (keys.zip types)
      mul (.int items.length) (.ty r)
  | none => none

/-- discovery.py:228-229 -/
def discoverRest (items : List Item) : Except PyErr Ty := do
  let types ← items.mapM Item.self
  uniteTuple types

/-- `try: … except AttributeError: pass` around an optional branch -/
def orElse (branch : Option (Except PyErr Ty)) (rest : Except PyErr Ty) : Except PyErr Ty :=
  match branch with
  | some (.error .attributeError) => rest
  | some r => r
  | none => rest

/-- `discover(seq)`: discovery.py:200-229, given what is needed about the items -/
def discoverSeq (topo : List Node) (items : List Item) : Except PyErr Ty :=
  if items.isEmpty then .ok (.dshape [.var, tString])
  else orElse (discoverRows topo items) (orElse (discoverDicts topo items) (discoverRest items))

/-- `Record((k, discover(v)) …)` -/
def recordOf (entries : List (Str × Except PyErr Ty)) : Except PyErr Ty := do
  let fs ← entries.mapM fun e => do .ok (e.1, ← e.2)
  mkRecord fs

/-- `_mapping_discover(m)`: discovery.py:366-369, keys in sorted order -/
def discoverMap (entries : List (Str × Except PyErr Ty)) : Except PyErr Ty :=
  recordOf ((sortStr (entries.map (·.1))).map fun k => (k, (entries.lookup k).getD (.error .keyError)))

mutual
/-- `discover(v)`, with the results for the parts of `v`. The scalars are discovery.py:70-129; strings 175-197, where
the results of the coercions and of `dateutil` are given by `strTy` (the empty string is `null`); sequences 200-229;
dicts 366-369; `OrderedDict` 372-374; arrays (see `NdArray.item`) and array-like objects; everything else raises
`NotImplementedError` (67). -/
def discoverItem (strTy : Str → Except PyErr Ty) (topo : List Node) : (v : PyObj) → Item
  | .none => ⟨.ok .null, none, none⟩
  | .int => ⟨.ok tInt64, none, none⟩
  | .float => ⟨.ok tFloat64, none, none⟩
  | .bool => ⟨.ok tBool, none, none⟩
  | .complex => ⟨.ok tComplex128, none, none⟩
  | .datetime => ⟨.ok (.datetime none), none, none⟩
  | .timedelta => ⟨.ok tTimedelta, none, none⟩
  | .date => ⟨.ok .date, none, none⟩
  | .time => ⟨.ok (.time none), none, none⟩
  | .bytes => ⟨.ok (.string none (py"A")), none, none⟩
  | .str s => ⟨if s.isEmpty then .ok .null else strTy s, none, none⟩
  | .seq k l =>
    let items := discoverItems strTy topo l
    ⟨discoverSeq topo items, if k = .set then none else some (items.map Item.self), none⟩
  | .dict kvs =>
    let es := discoverEntries strTy topo kvs
    ⟨discoverMap es, none, some es⟩
  | .od kvs =>
    let es := discoverEntries strTy topo kvs
    ⟨recordOf es, none, some es⟩
  | .mp kvs =>
    let es := discoverEntries strTy topo kvs
    ⟨discoverMap es, none, none⟩
  | .array a => ⟨a.item, none, none⟩
  | .npScalar d => ⟨discoverArrayLike [] d, none, none⟩
  | .arrayLike sh d => ⟨discoverArrayLike sh d, none, none⟩
  | .other => ⟨.error .notImplemented, none, none⟩
termination_by structural v => v
/-- over a list -/
def discoverItems (strTy : Str → Except PyErr Ty) (topo : List Node) : (l : List PyObj) → List Item
  | [] => []
  | v :: r => discoverItem strTy topo v :: discoverItems strTy topo r
termination_by structural l => l
/-- over the values of a dict -/
def discoverEntries (strTy : Str → Except PyErr Ty) (topo : List Node) :
    (l : List (Str × PyObj)) → List (Str × Except PyErr Ty)
  | [] => []
  | (k, v) :: r => (k, (discoverItem strTy topo v).self) :: discoverEntries strTy topo r
termination_by structural l => l
end

/-- `discover(v)` -/
def discover (strTy : Str → Except PyErr Ty) (topo : List Node) (v : PyObj) : Except PyErr Ty :=
  (discoverItem strTy topo v).self

end DS
