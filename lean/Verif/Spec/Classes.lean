import Verif.Model.Classes
import Verif.Spec.Build
import Verif.Spec.TimeUnits
import Verif.Spec.Encodings

/-
What the type classes accept, in words.
-/
namespace DS

/-- An argument that may be left out, or be `None`. -/
inductive Omitted : Option PVal → Prop where
  | absent : Omitted none
  | none : Omitted (some .none)

/-- A capital letter: `A` to `Z`, or a code point from 128 on that Python's tables call upper case. -/
inductive Capital (env : Env) : Nat → Prop where
  | ascii {c : Nat} : 65 ≤ c → c ≤ 90 → Capital env c
  | unicode {c : Nat} : 128 ≤ c → env.upper c = true → Capital env c

/-- The text that `str` makes of a value. -/
inductive Text (env : Env) : PVal → Str → Prop where
  | none : Text env .none (py"None")
  | str (s : Str) : Text env (.str s) s
  | int (i : Int) : Text env (.int i) (intStr i)
  | ty (t : Ty) : Text env (.ty t) (render env t none)

/-- A length of a string. -/
inductive Length : PVal → Option Int → Prop where
  | none : Length .none none
  | int (i : Int) : Length (.int i) (some i)

/-- An encoding: a spelling of it, or something empty, which means `U8`. -/
inductive Encoding : PVal → Str → Prop where
  | none : Encoding .none (py"U8")
  | empty : Encoding (.str []) (py"U8")
  | zero : Encoding (.int 0) (py"U8")
  | noTypes (n : Option Str) : Encoding (.ty (.typeset [] n)) (py"U8")
  | name {e c : Str} : SpellsEncoding e c → Encoding (.str e) c

/-- A part of a tuple type: a `DataShape` stands for itself, anything else but a text is made a `DataShape` with this one
element, which must be able to stand at the end. -/
inductive Component (nest : Str → Except PyErr Ty) : PVal → Ty → Prop where
  | array (ps : List Ty) : Component nest (.ty (.dshape ps)) (.dshape ps)
  | other {v : PVal} {m : Ty} : (∀ s, v ≠ .str s) → (∀ ps, v ≠ .ty (.dshape ps)) → StandsFor nest v m → MayEnd m →
      Component nest v (.dshape [m])

/-- The call of a type class returns the type. -/
inductive Constructs (env : Env) (nest : Str → Except PyErr Ty) : ClassCall → Ty → Prop where
  | time {a} : Omitted a → Constructs env nest (.time a) (.time none)
  | timeZone (z : Str) : Constructs env nest (.time (some (.str z))) (.time (some z))
  | datetime {a} : Omitted a → Constructs env nest (.datetime a) (.datetime none)
  | datetimeZone (z : Str) : Constructs env nest (.datetime (some (.str z))) (.datetime (some z))
  | timedelta : Constructs env nest (.timedelta none) (.timedelta (py"us"))
  | timedeltaUnit {v s u} : Text env v s → SpellsUnit s u → Constructs env nest (.timedelta (some v)) (.timedelta u)
  | units {u : Str} {a} : Omitted a → Constructs env nest (.units (.str u) a) (.units u (.dshape [tFloat64]))
  | unitsOf (u : Str) (ps : List Ty) : Constructs env nest (.units (.str u) (some (.ty (.dshape ps)))) (.units u (.dshape ps))
  | string : Constructs env nest (.string []) (.string none (py"U8"))
  | stringLength (i : Int) : Constructs env nest (.string [.int i]) (.string (some i) (py"U8"))
  | stringEncoding {e c : Str} : Encoding (.str e) c → Constructs env nest (.string [.str e]) (.string none c)
  | stringBoth {a b n c} : Length a n → Encoding b c → Constructs env nest (.string [a, b]) (.string n c)
  | fixed (n : Nat) : Constructs env nest (.fixed (.int n)) (.fixed n)
  | fixedCopy (n : Nat) : Constructs env nest (.fixed (.ty (.fixed n))) (.fixed n)
  | typevar {c : Nat} {r : Str} : Capital env c → Constructs env nest (.typevar (.str (c :: r))) (.typevar (c :: r))
  | option {v t} : StandsFor nest v t → Constructs env nest (.option v) (.option t)
  | map {k v a b} : StandsFor nest k a → StandsFor nest v b → Constructs env nest (.map k v) (.map a b)
  | tuple {vs ts} : Each (Component nest) vs ts → Constructs env nest (.tuple vs) (.tuple ts)

/-- What `Tuple` raises for an item that cannot be a part. -/
inductive NoComponent (nest : Str → Except PyErr Ty) : PVal → PyErr → Prop where
  | text (s : Str) : NoComponent nest (.str s) .typeError
  | value {v e} : (∀ s, v ≠ .str s) → NoPart nest v e → NoComponent nest v e
  | dimension {v m} : (∀ s, v ≠ .str s) → (∀ ps, v ≠ .ty (.dshape ps)) → StandsFor nest v m → ¬ MayEnd m →
      NoComponent nest v .typeError

/-- The call raises the exception (calls that leave the model are not listed). -/
inductive Rejects (env : Env) (nest : Str → Except PyErr Ty) : ClassCall → PyErr → Prop where
  | time {v} : v ≠ .none → (∀ s, v ≠ .str s) → Rejects env nest (.time (some v)) .typeError
  | datetime {v} : v ≠ .none → (∀ s, v ≠ .str s) → Rejects env nest (.datetime (some v)) .typeError
  | timedelta {v s} : Text env v s → (∀ u, ¬ SpellsUnit s u) → ¬ RunsOut s → Rejects env nest (.timedelta (some v)) .valueError
  | timedeltaEmpty {v s} : Text env v s → RunsOut s → Rejects env nest (.timedelta (some v)) .indexError
  | unitsUnit {v a} : (∀ s, v ≠ .str s) → Rejects env nest (.units v a) .typeError
  | unitsType {u : Str} {v} : v ≠ .none → (∀ ps, v ≠ .ty (.dshape ps)) → Rejects env nest (.units (.str u) (some v)) .typeError
  | stringOne {v} : (∀ s, v ≠ .str s) → (∀ i, v ≠ .int i) → Rejects env nest (.string [v]) .unboundLocal
  | stringMany {a b c r} : Rejects env nest (.string (a :: b :: c :: r)) .unboundLocal
  | stringEncoding {e : Str} : (∀ c, ¬ Encoding (.str e) c) → Rejects env nest (.string [.str e]) .valueError
  | stringBoth {a b n} : Length a n → b ≠ .other → (∀ c, ¬ Encoding b c) → Rejects env nest (.string [a, b]) .valueError
  | fixedNegative {i : Int} : i < 0 → Rejects env nest (.fixed (.int i)) .valueError
  | fixed {v} : (∀ i, v ≠ .int i) → (∀ n, v ≠ .ty (.fixed n)) → Rejects env nest (.fixed v) .typeError
  | typevarEmpty : Rejects env nest (.typevar (.str [])) .indexError
  | typevarSmall {c : Nat} {r : Str} : ¬ Capital env c → Rejects env nest (.typevar (.str (c :: r))) .valueError
  | typevarRecord (fs) : Rejects env nest (.typevar (.ty (.record fs))) .keyError
  | typevarType {t : Ty} : (∀ fs, t ≠ .record fs) → Rejects env nest (.typevar (.ty t)) .attributeError
  | typevarNone : Rejects env nest (.typevar .none) .typeError
  | typevarInt (i) : Rejects env nest (.typevar (.int i)) .typeError
  | option {v e} : NoPart nest v e → Rejects env nest (.option v) e
  | mapKey {k v e} : NoPart nest k e → Rejects env nest (.map k v) e
  | mapValue {k v a e} : StandsFor nest k a → NoPart nest v e → Rejects env nest (.map k v) e
  | tuple {pre v post ts e} : Each (Component nest) pre ts → NoComponent nest v e → Rejects env nest (.tuple (pre ++ v :: post)) e

/-- Calls that leave the model: `str` or `[0]` of an unknown object, and strings with a length that is neither `None` nor an
int or an unknown object as encoding. -/
inductive Outside : ClassCall → Prop where
  | timedelta : Outside (.timedelta (some .other))
  | typevar : Outside (.typevar .other)
  | length {a b} : (∀ n, ¬ Length a n) → Outside (.string [a, b])
  | encoding (a) : Outside (.string [a, .other])

end DS
