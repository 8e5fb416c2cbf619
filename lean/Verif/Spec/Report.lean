import Verif.Spec.Path

/-
What the message of a failing `assert_dshape_equal` may report about the two datashapes, and how it is worded.
-/
namespace DS

/-- the names of the fields, in order, or sorted (if `ordered` is false) -/
def NamesOf (ordered : Bool) (fs : List (Str × Ty)) (l : List Str) : Prop :=
  if ordered = true then l = fs.map (·.1)
  else l.Perm (fs.map (·.1)) ∧ l.Pairwise (· ≤ ·)

/-- `str.lower` of an ASCII character -/
def lowerAscii (c : Nat) : Nat := if 65 ≤ c ∧ c ≤ 90 then c + 32 else c

/-- `Reports o a b r q`: the report `r` is true of what stands at `q` in `a` and in `b`; `o`: the order of fields
matters. -/
inductive Reports (o : Bool) (a b : Ty) : Report → List Step → Prop where
  /-- two dimensions at the same position of two shapes -/
  | dims {p : List Step} {as bs : List Ty} {m m' d e : Ty} {n : Nat} : Leads p a (.ty (.dshape (as ++ [m]))) →
      Leads p b (.ty (.dshape (bs ++ [m']))) → as[n]? = some d → bs[n]? = some e → pyEq d e = false →
      (∀ i x y, i < n → as[i]? = some x → bs[i]? = some y → pyEq x y = true) →
      Reports o a b (.dims d e as bs) (p ++ [.shape n])
  /-- an attribute of two objects of the same class -/
  | slot {p : List Step} {t u : Ty} {s : Str} {v w : Param} : Leads p a (.ty t) → Leads p b (.ty u) →
      t.klass = u.klass → Attr t s v → Attr u s w → ¬ SameValue v w →
      Reports o a b (.slot (t.klass.name.map lowerAscii) s v w) (p ++ [.slot s])
  /-- two datashapes -/
  | values {p : List Step} {t u : Ty} : Leads p a (.ty t) → Leads p b (.ty u) → pyEq t u = false →
      Reports o a b (.values t u) p
  /-- two units -/
  | units {p : List Step} {t u : Ty} {s s' : Str} : Leads p a (.ty (.units s t)) → Leads p b (.ty (.units s' u)) →
      s ≠ s' → Reports o a b (.units s s') (p ++ [.slot (py"unit")])
  /-- two encodings -/
  | encoding {p : List Step} {n n' : Option Int} {e e' : Str} : Leads p a (.ty (.string n e)) →
      Leads p b (.ty (.string n' e')) → e ≠ e' → Reports o a b (.encoding e e') (p ++ [.slot (py"encoding")])
  /-- two lengths of strings -/
  | fixlen {p : List Step} {i j : Int} {e e' : Str} : Leads p a (.ty (.string (some i) e)) →
      Leads p b (.ty (.string (some j) e')) → i ≠ j → Reports o a b (.fixlen i j) (p ++ [.slot (py"fixlen")])
  /-- two records with different numbers of fields -/
  | fieldCount {p : List Step} {fs gs : List (Str × Ty)} : Leads p a (.ty (.record fs)) → Leads p b (.ty (.record gs)) →
      fs.length ≠ gs.length → Reports o a b (.fieldCount (fs.map (·.1)) (gs.map (·.1))) p
  /-- the first position where two records have different field names -/
  | fieldName {p : List Step} {fs gs : List (Str × Ty)} {l m : List Str} {n : Nat} {x y : Str} :
      Leads p a (.ty (.record fs)) → Leads p b (.ty (.record gs)) → NamesOf o fs l → NamesOf o gs m →
      l[n]? = some x → m[n]? = some y → x ≠ y → l.take n = m.take n → Reports o a b (.fieldName n x y) p
  /-- two tuples with different numbers of components -/
  | tupleCount {p : List Step} {ts us : List Ty} : Leads p a (.ty (.tuple ts)) → Leads p b (.ty (.tuple us)) →
      ts.length ≠ us.length → Reports o a b (.tupleCount ts us) p
  /-- two functions with different numbers of arguments -/
  | arity {p : List Step} {ts us : List Ty} : Leads p a (.ty (.func ts)) → Leads p b (.ty (.func us)) →
      ts.length ≠ us.length → Reports o a b (.arity ts us) p

/-- Python's `template % args`, for `%s` (and `%r`, `%d`) of arguments that are already text -/
def percent : Str → List Str → Str
  | 37 :: _ :: t, x :: args => x ++ percent t args
  | c :: t, args => c :: percent t args
  | [], _ => []

/-- how a list and a tuple of texts are shown -/
def shownList (l : List Str) : Str := percent (py"[%s]") [join (py", ") l]
def shownTuple (l : List Str) : Str :=
  if l.length = 1 then percent (py"(%s,)") l else percent (py"(%s)") [join (py", ") l]

/-- `repr` of the value of an attribute -/
inductive ValueText (env : Env) : Param → Str → Prop where
  | none : ValueText env .none (py"None")
  | int (i : Int) : ValueText env (.int i) (intStr i)
  | str (s : Str) : ValueText env (.str s) (pyRepr env s)
  | true : ValueText env (.bool true) (py"True")
  | false : ValueText env (.bool false) (py"False")
  | ty (t : Ty) : ValueText env (.ty t) (pyReprTy env t)
  | tys (l : List Ty) : ValueText env (.tys l) (shownTuple (l.map (pyReprTy env)))
  | lits (l : List Lit) : ValueText env (.lits l) (shownTuple (l.map (litRepr env)))

/-- `MessageText env r path msg`: the wording of the report; `path` is the text of the path. -/
inductive MessageText (env : Env) : Report → Str → Str → Prop where
  /-- the shapes are shown too if the first has several dimensions -/
  | dim {d e : Ty} {as bs : List Ty} {path : Str} : as.length ≤ 1 → MessageText env (.dims d e as bs) path
      (percent (py"dimensions do not match: %s != %s\n%s") [pyStr env d, pyStr env e, path])
  | dims {d e : Ty} {as bs : List Ty} {path : Str} : 1 < as.length → MessageText env (.dims d e as bs) path
      (percent (py"dimensions do not match: %s != %s\n%s != %s\n%s") [pyStr env d, pyStr env e,
        join (py" * ") (as.map (pyStr env)), join (py" * ") (bs.map (pyStr env)), path])
  | slot {cls s x y path : Str} {v w : Param} : ValueText env v x → ValueText env w y →
      MessageText env (.slot cls s v w) path (percent (py"%s %ss do not match: %r != %r\n%s") [cls, s, x, y, path])
  | values {t u : Ty} {path : Str} : MessageText env (.values t u) path
      (percent (py"%s != %s\n%s") [pyStr env t, pyStr env u, path])
  | units {s s' path : Str} : MessageText env (.units s s') path
      (percent (py"units units do not match: %r != %s\n%s") [pyRepr env s, s', path])
  | encoding {e e' path : Str} : MessageText env (.encoding e e') path
      (percent (py"string encodings do not match: %r != %r\n%s") [pyRepr env e, pyRepr env e', path])
  | fixlen {i j : Int} {path : Str} : MessageText env (.fixlen i j) path
      (percent (py"string fixlens do not match: %d != %d\n%s") [intStr i, intStr j, path])
  | fieldCount {l m : List Str} {path : Str} : MessageText env (.fieldCount l m) path
      (percent (py"records have mismatched field counts: %d != %d\n%r != %r\n%s") [natStr l.length, natStr m.length,
        shownList (l.map (pyRepr env)), shownList (m.map (pyRepr env)), path])
  | fieldName {n : Nat} {x y path : Str} : MessageText env (.fieldName n x y) path
      (percent (py"record field name at position %d does not match: %r != %r\n%s")
        [natStr n, pyRepr env x, pyRepr env y, path])
  | tupleCount {l m : List Ty} {path : Str} : MessageText env (.tupleCount l m) path
      (percent (py"tuples have mismatched field counts: %d != %d\n%r != %r\n%s") [natStr l.length, natStr m.length,
        pyReprTy env (.tuple l), pyReprTy env (.tuple m), path])
  /-- the last component of a function is its result -/
  | arity {l m : List Ty} {path : Str} : MessageText env (.arity l m) path
      (percent (py"functions have different arities: %d != %d\n%r != %r\n%s") [natStr (l.length - 1),
        natStr (m.length - 1), pyReprTy env (.func l), pyReprTy env (.func m), path])

end DS
