import Verif.Model.DictKeys
import Verif.Spec.Sequences

/-
Specification for C74: keys of dicts.
-/
namespace DS

/-- the key is this number -/
inductive IsNumber : DKey → Int → Prop where
  | int {i} : IsNumber (.int i) i
  | true : IsNumber (.bool Bool.true) 1
  | false : IsNumber (.bool Bool.false) 0

/-- the two keys are the same one for a dict -/
def SameKey (a b : DKey) : Prop := a = b ∨ ∃ i, IsNumber a i ∧ IsNumber b i

/-- `a` comes before `b`: strings by code points, numbers by their value; nothing else has an order -/
inductive KeyBefore : DKey → DKey → Prop where
  | str {s t} : s < t → KeyBefore (.str s) (.str t)
  | num {a b i j} : IsNumber a i → IsNumber b j → i < j → KeyBefore a b

/-- a dict has a key only once -/
def DistinctKeys (ks : List DKey) : Prop := ks.Pairwise fun a b => ¬ SameKey a b

/-- `ks'` are the keys `ks` in increasing order -/
def InOrder (ks ks' : List DKey) : Prop := ks'.Perm ks ∧ ks'.Pairwise KeyBefore

/-- the name of a field -/
inductive NameOf : DKey → Str → Prop where
  | str {s} : NameOf (.str s) s
  | int {i} : NameOf (.int i) (intStr i)
  | true : NameOf (.bool Bool.true) (py"True")
  | false : NameOf (.bool Bool.false) (py"False")
  | none : NameOf .none (py"None")

/-- the value of a dict under a key -/
def HasValue {V : Type} (es : List (DKey × V)) (k : DKey) (v : V) : Prop := ∃ k', (k', v) ∈ es ∧ SameKey k' k

/-- `v` is a dict with these entries -/
def EntriesOfK (v : KObj) (es : List (DKey × KObj)) : Prop := v = .dict es ∨ v = .od es

/-- `k` is a key of one of the dicts, as it stands in the first of them that has it -/
def KeyOfDicts {V : Type} (rows : List (List (DKey × V))) (k : DKey) : Prop :=
  ∃ pre es post, rows = pre ++ es :: post ∧ k ∈ es.map (·.1) ∧ ∀ d ∈ pre, ∀ k' ∈ d.map (·.1), ¬ SameKey k' k

/-- the values of dicts under a key; `None` where it is missing -/
inductive UnderKey (k : DKey) : List (List (DKey × KObj)) → List KObj → Prop where
  | done : UnderKey k [] []
  | there {es rows v vs} : HasValue es k v → UnderKey k rows vs → UnderKey k (es :: rows) (v :: vs)
  | missing {es rows vs} : (∀ v, ¬ HasValue es k v) → UnderKey k rows vs → UnderKey k (es :: rows) (.val .none :: vs)

/-- `Record` of the entries in their order, where `D` is `discover` of the values -/
inductive RecordOf (D : KObj → Except PyErr Ty) (es : List (DKey × KObj)) : Except PyErr Ty → Prop where
  | record {names ts} : Each NameOf (es.map (·.1)) names → InTurn (fun v r => D v = r) (es.map (·.2)) (.ok ts) → names.Nodup →
      RecordOf D es (.ok (.record (names.zip ts)))
  /-- two keys have the same text -/
  | repeated {names ts} : Each NameOf (es.map (·.1)) names → InTurn (fun v r => D v = r) (es.map (·.2)) (.ok ts) → ¬ names.Nodup →
      RecordOf D es (.error .valueError)
  | fails {e} : InTurn (fun v r => D v = r) (es.map (·.2)) (.error e) → RecordOf D es (.error e)

/-- `discover` of a dict with these entries, where `D` is `discover` of the values -/
inductive MappingOf (D : KObj → Except PyErr Ty) (es : List (DKey × KObj)) : Except PyErr Ty → Prop where
  /-- the record of the entries in the order of their keys -/
  | sorted {es' r} : es'.Perm es → (es'.map (·.1)).Pairwise KeyBefore → RecordOf D es' r → MappingOf D es r
  | unordered : (∀ ks, ¬ InOrder (es.map (·.1)) ks) → MappingOf D es (.error .typeError)

/-- these are the keys of the dicts, in order -/
def KeysOfDicts {V : Type} (rows : List (List (DKey × V))) (keys : List DKey) : Prop :=
  keys.Pairwise KeyBefore ∧ ∀ k, k ∈ keys ↔ KeyOfDicts rows k

/-- `discover` of a list, tuple or set of dicts, where `rows` are the entries of the dicts `items` and `D` is `discover` of the
items and of the values in them -/
inductive DictsOf (D : KObj → Except PyErr Ty) (items : List KObj) (rows : List (List (DKey × KObj))) : Except PyErr Ty → Prop where
  /-- keys that cannot be compared, in one dict or in two of them -/
  | unordered : (∀ keys, ¬ KeysOfDicts rows keys) → DictsOf D items rows (.error .typeError)
  | record {keys names cols types} : KeysOfDicts rows keys → Each NameOf keys names → Each (fun k c => UnderKey k rows c) keys cols →
      InTurn (CellsColumn D) cols (.ok types) → DictsOf D items rows (.ok (.dshape [.fixed items.length, .record (names.zip types)]))
  | fails {keys cols e} : KeysOfDicts rows keys → Each (fun k c => UnderKey k rows c) keys cols →
      InTurn (CellsColumn D) cols (.error e) → e ≠ .attributeError → DictsOf D items rows (.error e)
  /-- a column without a type: the items are read one by one -/
  | oneByOne {keys cols r} : KeysOfDicts rows keys → Each (fun k c => UnderKey k rows c) keys cols →
      InTurn (CellsColumn D) cols (.error .attributeError) → OneByOne D items r → DictsOf D items rows r

/-- `v` again, with each string key as a key and each list as a list -/
inductive Written : PyObj → KObj → Prop where
  | val {v} : Written v (.val v)
  | seq {k l l'} : Each Written l l' → Written (.seq k l) (.seq k l')
  | dict {es : List (Str × PyObj)} {es' : List (DKey × KObj)} :
      es'.map (·.1) = es.map (fun e => .str e.1) → Each Written (es.map (·.2)) (es'.map (·.2)) → Written (.dict es) (.dict es')
  | od {es : List (Str × PyObj)} {es' : List (DKey × KObj)} :
      es'.map (·.1) = es.map (fun e => .str e.1) → Each Written (es.map (·.2)) (es'.map (·.2)) → Written (.od es) (.od es')
  | mp {es : List (Str × PyObj)} {es' : List (DKey × KObj)} :
      es'.map (·.1) = es.map (fun e => .str e.1) → Each Written (es.map (·.2)) (es'.map (·.2)) → Written (.mp es) (.mp es')

end DS
