import Verif.Model.RecordCall
import Verif.Spec.Classes

/-
What `Record` and `Categorical` accept, in words.
-/
namespace DS

/-- What Python iterates over in a datashape: the dimensions and the measure of an array, the members of a set of types,
and otherwise the datashape itself. A record cannot be iterated over. -/
inductive TypeItems : Ty → List Ty → Prop where
  | array (ps : List Ty) : TypeItems (.dshape ps) ps
  | types (o : List Ty) (n : Option Str) : TypeItems (.typeset o n) o
  | self {t : Ty} : (∀ ps, t ≠ .dshape ps) → (∀ o n, t ≠ .typeset o n) → (∀ fs, t ≠ .record fs) → TypeItems t [t]

/-- The items that an argument of `Record` consists of. -/
inductive ItemsOf : RecArg → List RecItem → Prop where
  | list (l : List RecItem) : ItemsOf (.list l) l
  /-- an `OrderedDict` gives pairs -/
  | ordered (l : List (PVal × PVal)) : ItemsOf (.ordered l) (l.map fun p => .seq [p.1, p.2])
  /-- a plain dict gives only its keys -/
  | dict (l : List (PVal × PVal)) : ItemsOf (.dict l) (l.map fun p => .val p.1)
  | text (s : Str) : ItemsOf (.val (.str s)) (s.map fun c => .val (.str [c]))
  | type {t : Ty} {l : List Ty} : TypeItems t l → ItemsOf (.val (.ty t)) (l.map fun x => .val (.ty x))

/-- An item that consists of two values. -/
inductive TwoParts : RecItem → PVal → PVal → Prop where
  | pair (a b : PVal) : TwoParts (.seq [a, b]) a b
  | letters (a b : Nat) : TwoParts (.val (.str [a, b])) (.str [a]) (.str [b])
  | types {t a b : Ty} : TypeItems t [a, b] → TwoParts (.val (.ty t)) (.ty a) (.ty b)

/-- An item is a name and a value. -/
inductive Named (env : Env) : RecItem → Str × PVal → Prop where
  | mk {i a v n} : TwoParts i a v → Text env a n → Named env i (n, v)

/-- A name with a value that stands for its type. -/
inductive Typed (nest : Str → Except PyErr Ty) : Str × PVal → Str × Ty → Prop where
  | mk {n v t} : StandsFor nest v t → Typed nest (n, v) (n, t)

/-- `Record` called with `a` returns the type. -/
inductive MakesRecord (env : Env) (nest : Str → Except PyErr Ty) (a : RecArg) : Ty → Prop where
  | mk {items vs fs} : ItemsOf a items → Each (Named env) items vs → Each (Typed nest) vs fs →
      (fs.map (·.1)).Nodup → MakesRecord env nest a (.record fs)

/-- An item that is not a name and a value: the exception. -/
inductive NotNamed (env : Env) : RecItem → PyErr → Prop where
  | long {l : List PVal} : l.length ≠ 2 → NotNamed env (.seq l) .valueError
  | text {s : Str} : s.length ≠ 2 → NotNamed env (.val (.str s)) .valueError
  | type {t : Ty} {l : List Ty} : TypeItems t l → l.length ≠ 2 → NotNamed env (.val (.ty t)) .valueError
  | record (fs) : NotNamed env (.val (.ty (.record fs))) .keyError
  | none : NotNamed env (.val .none) .typeError
  | int (i : Int) : NotNamed env (.val (.int i)) .typeError

/-- `Record` called with `a` raises the exception: first the argument itself is iterated over, then the names are taken in
turn, then the types, then the names must be distinct. -/
inductive RejectsRecord (env : Env) (nest : Str → Except PyErr Ty) (a : RecArg) : PyErr → Prop where
  | none : a = .val .none → RejectsRecord env nest a .typeError
  | int {i} : a = .val (.int i) → RejectsRecord env nest a .typeError
  | record {fs} : a = .val (.ty (.record fs)) → RejectsRecord env nest a .keyError
  | item {pre i post vs e} : ItemsOf a (pre ++ i :: post) → Each (Named env) pre vs → NotNamed env i e →
      RejectsRecord env nest a e
  | type {items pre n v post fs e} : ItemsOf a items → Each (Named env) items (pre ++ (n, v) :: post) →
      Each (Typed nest) pre fs → NoPart nest v e → RejectsRecord env nest a e
  | twice {items vs fs} : ItemsOf a items → Each (Named env) items vs → Each (Typed nest) vs fs →
      ¬ (fs.map (·.1)).Nodup → RejectsRecord env nest a .valueError

/-- The call leaves the model: an unknown object is iterated over, or is a name. -/
inductive BeyondRecord (env : Env) (a : RecArg) : Prop where
  | argument : a = .val .other → BeyondRecord env a
  | item {pre post vs} : ItemsOf a (pre ++ .val .other :: post) → Each (Named env) pre vs → BeyondRecord env a
  | name {pre post vs b} {i : RecItem} : ItemsOf a (pre ++ i :: post) → Each (Named env) pre vs → TwoParts i .other b →
      BeyondRecord env a

/-- A value for `type` that is as good as none. -/
inductive NoType : Option PVal → Prop where
  | absent : NoType none
  | none : NoType (some .none)
  | empty : NoType (some (.str []))
  | zero : NoType (some (.int 0))
  | noTypes (n) : NoType (some (.ty (.typeset [] n)))

/-- The measure of a datashape: the last part of an array, otherwise the datashape itself. -/
inductive MeasureOf : Ty → Ty → Prop where
  | array (dims : List Ty) (m : Ty) : MeasureOf (.dshape (dims ++ [m])) m
  | self {t : Ty} : (∀ ps, t ≠ .dshape ps) → MeasureOf t t

/-- `Categorical(c, tp)` has the type `t` for its categories. -/
inductive CategoryClass (disc : List Lit → Except PyErr Ty) (c : List Lit) (tp : Option PVal) : Ty → Prop where
  | given {u m} : tp = some (.ty u) → ¬ NoType tp → MeasureOf u m → CategoryClass disc c tp m
  | discovered {u m} : NoType tp → disc c = .ok u → MeasureOf u m → CategoryClass disc c tp m

/-- `Categorical(c, tp)` raises the exception. -/
inductive NoCategoryClass (disc : List Lit → Except PyErr Ty) (c : List Lit) (tp : Option PVal) : PyErr → Prop where
  | value {v} : tp = some v → ¬ NoType tp → v ≠ .other → (∀ u, v ≠ .ty u) → NoCategoryClass disc c tp .attributeError
  | undiscovered {e} : NoType tp → disc c = .error e → NoCategoryClass disc c tp e

end DS
