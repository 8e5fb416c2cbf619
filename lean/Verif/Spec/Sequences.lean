import Verif.Spec.Tables

/-
Specification for C67: what `discover` of a list, tuple or set comes to, given what `discover` comes to for its items and for
their elements. A result is a datashape or an exception.
-/
namespace DS

/-- Something is done for one thing after another. The results are collected; the first exception ends it. -/
inductive InTurn {α β : Type} (R : α → Except PyErr β → Prop) : List α → Except PyErr (List β) → Prop where
  | done : InTurn R [] (.ok [])
  | next {x xs y ys} : R x (.ok y) → InTurn R xs (.ok ys) → InTurn R (x :: xs) (.ok (y :: ys))
  | fails {x xs e} : R x (.error e) → InTurn R (x :: xs) (.error e)
  | failsLater {x xs y e} : R x (.ok y) → InTurn R xs (.error e) → InTurn R (x :: xs) (.error e)

/-- `t` is null -/
def isNullType : Ty → Bool
  | .null => true
  | _ => false

/-- the types other than null -/
def notNull (ts : List Ty) : List Ty := ts.filter fun t => !isNullType t

/-- `t`, or `?t` if there are nulls among `ts` -/
def asOptional (ts : List Ty) (t : Ty) : Ty :=
  if ts.any isNullType then .option t else t

/-- the type under a name in the type of a dict: a missing key counts as null -/
def cellAt (name : Str) : Ty → Ty
  | .record fs => cellType name fs
  | _ => .null

/-- `t` is the type of a dict -/
def IsRecord (t : Ty) : Prop := ∃ fs, t = .record fs

/-- What types that are not all the same are united to. -/
inductive United : List Ty → Except PyErr Ty → Prop where
  /-- nothing but nulls -/
  | nulls {ts} : notNull ts = [] → United ts (.ok .null)
  /-- scalars: what all of them can turn into -/
  | scalars {ts n} : notNull ts ≠ [] → LeastCommon ts n → United ts (.ok (asOptional ts n.ty))
  /-- scalars that cannot turn into the same type -/
  | unrelated {ts} : notNull ts ≠ [] → (∀ t ∈ notNull ts, t.isUnit = true) → (∀ n, ¬ LeastCommon ts n) →
      United ts (.error .valueError)
  /-- dicts: the keys of the first one, each with the types under that key united -/
  | records {ts rest} {types : Str → Ty} {fs : List (Str × Ty)} : notNull ts = .record fs :: rest → (∀ t ∈ rest, IsRecord t) →
      (∀ f ∈ fs, United ((notNull ts).map (cellAt f.1)) (.ok (types f.1))) →
      United ts (.ok (asOptional ts (.record (fs.map fun f => (f.1, types f.1)))))
  /-- dicts for which this is not possible: the first key decides -/
  | recordsFail {ts rest f post e} {types : Str → Ty} {pre : List (Str × Ty)} : notNull ts = .record (pre ++ f :: post) :: rest →
      (∀ t ∈ rest, IsRecord t) →
      (∀ f ∈ pre, United ((notNull ts).map (cellAt f.1)) (.ok (types f.1))) →
      United ((notNull ts).map (cellAt f.1)) (.error e) → United ts (.error e)
  /-- `{}` in front: the others do not matter -/
  | emptyRecord {ts rest} : notNull ts = .record [] :: rest → United ts (.ok (asOptional ts (.record [])))
  /-- a dict with keys in front, and something else behind -/
  | mixed {ts fs rest} : notNull ts = .record fs :: rest → fs ≠ [] → (∃ t ∈ rest, ¬ IsRecord t) →
      United ts (.error .attributeError)
  /-- something else in front, and not all are scalars -/
  | noRecord {ts t rest} : notNull ts = t :: rest → ¬ IsRecord t → (∃ t ∈ notNull ts, t.isUnit = false) →
      United ts (.error .attributeError)

/-- The type of a column whose cells have these types. -/
inductive ColumnResult : List Ty → Except PyErr Ty → Prop where
  | same {ts t} : ts ≠ [] → (∀ u ∈ ts, u = t) → ColumnResult ts (.ok t)
  | differ {ts r} : (∃ a ∈ ts, ∃ b ∈ ts, a ≠ b) → United ts r → ColumnResult ts r

/-- The cells of a column are discovered in turn, and their types united. -/
inductive CellsColumn {V : Type} (D : V → Except PyErr Ty) : List V → Except PyErr Ty → Prop where
  | column {cells ts r} : InTurn (fun v r => D v = r) cells (.ok ts) → ColumnResult ts r → CellsColumn D cells r
  | fails {cells e} : InTurn (fun v r => D v = r) cells (.error e) → CellsColumn D cells (.error e)

/-- the dimensions and the measure -/
def paramsOf : Ty → List Ty
  | .dshape ps => ps
  | t => [t]

/-- What several types side by side are combined to. -/
inductive Combined : List Ty → Ty → Prop where
  /-- all the same: an array -/
  | same {ts t} : ts ≠ [] → (∀ u ∈ ts, u = t) → Combined ts (.dshape (.fixed ts.length :: paramsOf t))
  /-- arrays that differ in their length only: a ragged array -/
  | ragged {ts row} : (∃ a ∈ ts, ∃ b ∈ ts, a ≠ b) →
      (∀ t ∈ ts, ∃ d, t = .dshape (d :: row) ∧ (d = .var ∨ ∃ n, d = .fixed n)) →
      Combined ts (.dshape (.fixed ts.length :: .var :: row))
  /-- anything else: a tuple -/
  | tuple {ts} : (ts = [] ∨ ∃ a ∈ ts, ∃ b ∈ ts, a ≠ b) →
      (ts = [] ∨ ∀ row, ∃ t ∈ ts, ∀ d, t = .dshape (d :: row) → d ≠ .var ∧ ∀ n, d ≠ .fixed n) →
      Combined ts (.tuple (ts.map fun t => .dshape (paramsOf t)))

/-- The items are discovered in turn, and their types combined. -/
inductive OneByOne {V : Type} (D : V → Except PyErr Ty) : List V → Except PyErr Ty → Prop where
  | combined {items ts t} : InTurn (fun v r => D v = r) items (.ok ts) → Combined ts t → OneByOne D items (.ok t)
  | fails {items e} : InTurn (fun v r => D v = r) items (.error e) → OneByOne D items (.error e)

/-- `v` is a list or tuple with these elements -/
def ListOf (v : PyObj) (l : List PyObj) : Prop := v = .seq .list l ∨ v = .seq .tuple l

/-- `v` is a dict with these entries -/
def EntriesOf (v : PyObj) (l : List (Str × PyObj)) : Prop := v = .dict l ∨ v = .od l

/-- the items are lists and tuples, all of length `k` -/
def IsTable (items : List PyObj) (rows : List (List PyObj)) (k : Nat) : Prop :=
  Each ListOf items rows ∧ ∀ r ∈ rows, r.length = k

/-- the columns of a table with `k` columns -/
def columnsIn (rows : List (List PyObj)) (k : Nat) : List (List PyObj) := (List.range k).map fun j => rows.filterMap (·[j]?)

/-- the values of dicts under a key; `None` where it is missing -/
def underKey (rows : List (List (Str × PyObj))) (k : Str) : List PyObj := rows.map fun es => (es.lookup k).getD .none

/-- these are the keys of the dicts, in order -/
def KeysOf (rows : List (List (Str × PyObj))) (keys : List Str) : Prop :=
  keys.Pairwise (· < ·) ∧ ∀ k, k ∈ keys ↔ ∃ es ∈ rows, k ∈ es.map (·.1)

/-- `discover` of a list, tuple or set with these items, where `D` is `discover` of its items and their elements. -/
inductive SequenceOf (D : PyObj → Except PyErr Ty) : List PyObj → Except PyErr Ty → Prop where
  | empty : SequenceOf D [] (.ok (.dshape [.var, .string none (py"U8")]))
  /-- rows of the same length are read column by column -/
  | rows {items rows k types t} : items ≠ [] → IsTable items rows k → InTurn (CellsColumn D) (columnsIn rows k) (.ok types) →
      Combined types t → SequenceOf D items (.ok (.dshape (.fixed items.length :: paramsOf t)))
  | rowsFail {items rows k e} : items ≠ [] → IsTable items rows k → InTurn (CellsColumn D) (columnsIn rows k) (.error e) →
      e ≠ .attributeError → SequenceOf D items (.error e)
  /-- dicts are read key by key -/
  | dicts {items rows keys types} : items ≠ [] → Each EntriesOf items rows → KeysOf rows keys →
      InTurn (CellsColumn D) (keys.map (underKey rows)) (.ok types) →
      SequenceOf D items (.ok (.dshape [.fixed items.length, .record (keys.zip types)]))
  | dictsFail {items rows keys e} : items ≠ [] → Each EntriesOf items rows → KeysOf rows keys →
      InTurn (CellsColumn D) (keys.map (underKey rows)) (.error e) → e ≠ .attributeError → SequenceOf D items (.error e)
  /-- other items, and those for which the above runs into an `AttributeError`, are read one by one -/
  | notRows {items rows k r} : items ≠ [] → IsTable items rows k →
      InTurn (CellsColumn D) (columnsIn rows k) (.error .attributeError) → OneByOne D items r → SequenceOf D items r
  | notDicts {items rows keys r} : items ≠ [] → Each EntriesOf items rows → KeysOf rows keys →
      InTurn (CellsColumn D) (keys.map (underKey rows)) (.error .attributeError) → OneByOne D items r → SequenceOf D items r
  | other {items r} : items ≠ [] → (∀ rows k, ¬ IsTable items rows k) → (∀ rows, ¬ Each EntriesOf items rows) →
      OneByOne D items r → SequenceOf D items r

end DS
