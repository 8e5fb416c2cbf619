import Verif.Model.Ty

/-
`==` and `hash` of datashapes: coretypes.py:86-102 (`Mono`), 848-852 (`Fixed`),
typesets.py:38-43 (`TypeSet`).

Python's `a.__eq__(b)` compares `a.shape == b.shape` and `a.measure.info() == b.measure.info()`;
`info()` is `(type(self), self.parameters)` and the parameters are compared with `==` again.
Both comparisons are written as one structural recursion with a flag:
`eqM a true b` is `a == b`, and `eqM a false b` is `a.info() == b.info()`.
`Proofs/Equality.lean` proves the equation of the code (`pyEq_code`).
-/
namespace DS

/-- What the information of the left operand is compared with:
`other.measure` in `==` (coretypes.py:92), the object itself for `info()`. -/
def Ty.target (full : Bool) (b : Ty) : Ty := if full then b.measure else b

/-- `() == other.shape` in `==` (coretypes.py:91); no condition for `info()`. -/
def Ty.noShape (full : Bool) (b : Ty) : Bool := !full || b.shape.isEmpty

/-- Python `==` of two lists/tuples of literals (element-wise, same length). -/
def litsEq : List Lit → List Lit → Bool
  | [], [] => true
  | a :: as, b :: bs => a.pyEq b && litsEq as bs
  | _, _ => false

mutual
/-- `eqM a true b`: `a == b`; `eqM a false b`: `a.info() == b.info()`.
coretypes.py:86-92, 848-850; typesets.py:38-40. -/
def eqM : (a : Ty) → Bool → Ty → Bool
  | .ctype n i a, f, b => b.noShape f && (match b.target f with
      | .ctype n' i' a' => n == n' && i == i' && a == a' | _ => false)
  | .null, f, b => b.noShape f && (match b.target f with | .null => true | _ => false)
  | .date, f, b => b.noShape f && (match b.target f with | .date => true | _ => false)
  | .time z, f, b => b.noShape f && (match b.target f with | .time z' => z == z' | _ => false)
  | .datetime z, f, b => b.noShape f && (match b.target f with | .datetime z' => z == z' | _ => false)
  | .timedelta u, f, b => b.noShape f && (match b.target f with | .timedelta u' => u == u' | _ => false)
  | .units u t, f, b => b.noShape f && (match b.target f with
      | .units u' t' => u == u' && eqM t true t' | _ => false)
  | .bytes, f, b => b.noShape f && (match b.target f with | .bytes => true | _ => false)
  | .string n e, f, b => b.noShape f && (match b.target f with
      | .string n' e' => n == n' && e == e' | _ => false)
  | .decimal p s, f, b => b.noShape f && (match b.target f with
      | .decimal p' s' => p == p' && s == s' | _ => false)
  | .json, f, b => b.noShape f && (match b.target f with | .json => true | _ => false)
  -- `Fixed.__eq__` (848-850) asks for the exact class `Fixed`
  | .fixed n, true, b => (match b with | .fixed n' => n == n' | _ => false)
  | .fixed n, false, b => (match b with | .fixed n' => n == n' | _ => false)
  | .var, f, b => b.noShape f && (match b.target f with | .var => true | _ => false)
  | .typevar s, f, b => b.noShape f && (match b.target f with | .typevar s' => s == s' | _ => false)
  | .ellipsis s, f, b => b.noShape f && (match b.target f with | .ellipsis s' => s == s' | _ => false)
  -- `Option.shape` is `self.ty.shape` (732-734)
  | .option t, true, b => eqShape t b.shape && (match b.measure with
      | .option t' => eqM t true t' | _ => false)
  | .option t, false, b => (match b with | .option t' => eqM t true t' | _ => false)
  | .map k v, f, b => b.noShape f && (match b.target f with
      | .map k' v' => eqM k true k' && eqM v true v' | _ => false)
  | .func ps, f, b => b.noShape f && (match b.target f with | .func ps' => eqL ps ps' | _ => false)
  | .record fs, f, b => b.noShape f && (match b.target f with | .record fs' => eqF fs fs' | _ => false)
  | .tuple ts, f, b => b.noShape f && (match b.target f with | .tuple ts' => eqL ts ts' | _ => false)
  | .categorical c t o, f, b => b.noShape f && (match b.target f with
      | .categorical c' t' o' => litsEq c c' && eqM t true t' && o == o' | _ => false)
  -- `TypeSet.__eq__` (typesets.py:38-40) asks for a `TypeSet`
  | .typeset o n, true, b => (match b with | .typeset o' n' => n == n' && eqL o o' | _ => false)
  | .typeset o n, false, b => (match b with | .typeset o' n' => eqL o o' && n == n' | _ => false)
  | .dshape ps, true, b => eqInit ps b.shape && eqLast ps b.measure
  | .dshape ps, false, b => (match b with | .dshape ps' => eqL ps ps' | _ => false)
termination_by structural a => a
/-- `t.shape == sh` (element-wise `==`). -/
def eqShape : Ty → List Ty → Bool
  | .dshape ps, sh => eqInit ps sh
  | .option t, sh => eqShape t sh
  | _, sh => sh.isEmpty
termination_by structural a => a
/-- `params[:-1] == sh` -/
def eqInit : List Ty → List Ty → Bool
  | [], sh => sh.isEmpty
  | [_], sh => sh.isEmpty
  | x :: y :: r, sh => (match sh with | [] => false | s :: sh' => eqM x true s && eqInit (y :: r) sh')
termination_by structural a => a
/-- `params[-1].info() == m.info()` -/
def eqLast : List Ty → Ty → Bool
  | [], m => (match m with | .dshape [] => true | _ => false)
  | [x], m => eqM x false m
  | _ :: y :: r, m => eqLast (y :: r) m
termination_by structural a => a
/-- `==` of two tuples of datashapes. -/
def eqL : List Ty → List Ty → Bool
  | [], b => b.isEmpty
  | x :: r, b => (match b with | [] => false | y :: s => eqM x true y && eqL r s)
termination_by structural a => a
/-- `==` of two tuples of `(name, type)` pairs. -/
def eqF : List (Str × Ty) → List (Str × Ty) → Bool
  | [], b => b.isEmpty
  | (n, x) :: r, b => (match b with | [] => false | (n', y) :: s => n == n' && eqM x true y && eqF r s)
termination_by structural a => a
end

/-- `a == b` -/
def pyEq (a b : Ty) : Bool := eqM a true b

/-- `x in seq` for a Python list, tuple or set of datashapes. (For a set this relies on
`hash` being consistent with `==`, which is property C09.) -/
def pyIn (x : Ty) (l : List Ty) : Bool := l.any fun y => pyEq x y

/-! ### Hashing -/

/-- The hash functions of the Python runtime, over which the theorems quantify. -/
structure HashEnv (H : Type) where
  /-- `hash` of a `str` -/
  str : Str → H
  /-- `hash` of an `int` (and of a `bool`, which hashes like the int it equals) -/
  int : Int → H
  /-- `hash(None)` -/
  none : H
  /-- `hash` of a class object -/
  cls : Str → H
  /-- `hash` of a tuple, a function of the hashes of its elements -/
  tup : List H → H
  /-- `^` -/
  xor : H → H → H

variable {H : Type}

/-- hash of a literal -/
def HashEnv.lit (E : HashEnv H) : Lit → H
  | .int i => E.int i
  | .str s => E.str s
  | .bool b => E.int (if b then 1 else 0)

/-- hash of an optional string -/
def HashEnv.optStr (E : HashEnv H) : Option Str → H
  | some s => E.str s
  | Option.none => E.none

/-- `hash((cls, parameters))` given the hashes of the parameters (coretypes.py:86-87). -/
def HashEnv.info (E : HashEnv H) (cls : Str) (ps : List H) : H := E.tup [E.cls cls, E.tup ps]

/-- hash of an optional int -/
def HashEnv.optInt (E : HashEnv H) : Option Int → H
  | some s => E.int s
  | Option.none => E.none

/-- hash of the parameter of an `Ellipsis`, which is `None` or a `TypeVar` instance -/
def HashEnv.optTypeVar (E : HashEnv H) : Option Str → H
  | some s => E.xor (E.tup []) (E.info (py"TypeVar") [E.str s])
  | Option.none => E.none

/-- The hashes of `t.shape` (element-wise), of `t.measure.info()`, of `t.info()` and of `t`. -/
structure HT (H : Type) where
  shape : List H
  meas : H
  info : H
  own : H

/-- `Mono.__hash__`: `hash(self.shape) ^ hash(self.measure.info())` (coretypes.py:97-102). -/
def HT.mk' (E : HashEnv H) (shape : List H) (meas info : H) : HT H :=
  ⟨shape, meas, info, E.xor (E.tup shape) meas⟩

/-- A type whose shape is `()` and which is its own measure. -/
def HT.scalar (E : HashEnv H) (i : H) : HT H := HT.mk' E [] i i

mutual
/-- Hashes of a type; `Mono.__hash__` (coretypes.py:97-102) except for `TypeSet`, which has its own
`__hash__` (typesets.py:42-43). -/
def hashT (E : HashEnv H) : Ty → HT H
  | .ctype n i a => .scalar E (E.info (py"CType") [E.str n, E.int i, E.int a])
  | .null => .scalar E (E.info (py"Null") [])
  | .date => .scalar E (E.info (py"Date") [])
  | .time z => .scalar E (E.info (py"Time") [E.optStr z])
  | .datetime z => .scalar E (E.info (py"DateTime") [E.optStr z])
  | .timedelta u => .scalar E (E.info (py"TimeDelta") [E.str u])
  | .units u t => .scalar E (E.info (py"Units") [E.str u, (hashT E t).own])
  | .bytes => .scalar E (E.info (py"Bytes") [])
  | .string n e => .scalar E (E.info (py"String") [E.optInt n, E.str e])
  | .decimal p s => .scalar E (E.info (py"Decimal") [E.int p, E.int s])
  | .json => .scalar E (E.info (py"JSON") [])
  | .fixed n => .scalar E (E.info (py"Fixed") [E.int n])
  | .var => .scalar E (E.info (py"Var") [])
  | .typevar s => .scalar E (E.info (py"TypeVar") [E.str s])
  | .ellipsis s => .scalar E (E.info (py"Ellipsis") [E.optTypeVar s])
  | .option t =>
      HT.mk' E (hashT E t).shape (E.info (py"Option") [(hashT E t).own]) (E.info (py"Option") [(hashT E t).own])
  | .map k v => .scalar E (E.info (py"Map") [(hashT E k).own, (hashT E v).own])
  | .func ps => .scalar E (E.info (py"Function") (hashL E ps))
  | .record fs => .scalar E (E.info (py"Record") [E.tup (hashF E fs)])
  | .tuple ts => .scalar E (E.info (py"Tuple") [E.tup (hashL E ts)])
  | .categorical c t o => .scalar E (E.info (py"Categorical")
      [E.tup (c.map E.lit), (hashT E t).own, E.int (if o then 1 else 0)])
  | .typeset o n =>
      ⟨[], E.info (py"TypeSet") [E.tup (hashL E o), E.optStr n],
        E.info (py"TypeSet") [E.tup (hashL E o), E.optStr n], E.tup [E.optStr n, E.tup (hashL E o)]⟩
  | .dshape ps => HT.mk' E (hashInit E ps) (hashLast E ps) (E.info (py"DataShape") (hashL E ps))
/-- hashes of the elements of a tuple of datashapes -/
def hashL (E : HashEnv H) : List Ty → List H
  | [] => []
  | t :: r => (hashT E t).own :: hashL E r
/-- hashes of all elements but the last -/
def hashInit (E : HashEnv H) : List Ty → List H
  | [] => []
  | [_] => []
  | t :: u :: r => (hashT E t).own :: hashInit E (u :: r)
/-- `hash(params[-1].info())` -/
def hashLast (E : HashEnv H) : List Ty → H
  | [] => E.info (py"DataShape") []
  | [t] => (hashT E t).info
  | _ :: u :: r => hashLast E (u :: r)
/-- hashes of the pairs of a record -/
def hashF (E : HashEnv H) : List (Str × Ty) → List H
  | [] => []
  | (n, t) :: r => E.tup [E.str n, (hashT E t).own] :: hashF E r
end

/-- `hash(t)` -/
def pyHash (E : HashEnv H) (t : Ty) : H := (hashT E t).own

end DS
