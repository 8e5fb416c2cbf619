import Verif.Model.Params
import Verif.Model.Testing
import Verif.Spec.Same
import Verif.Spec.Subterms

/-
Specification vocabulary for C38: when two datashapes agree as far as the keyword arguments of `assert_dshape_equal` ask.
Nothing of the model is used but the record `Flags` of keyword arguments.
-/
namespace DS

/-- the classes that `assert_dshape_equal` looks into -/
def Klass.opened (k : Klass) : Bool :=
  k == .dshape || k == .datetime || k == .time || k == .timedelta || k == .units || k == .string || k == .option ||
    k == .record || k == .tuple || k == .func

/-- Two datashapes agree as far as asked. Two `Units` never do. -/
inductive Agree (fl : Flags) : Ty → Ty → Prop where
  /-- arrays: the measures agree and, if `check_dim`, the dimensions that both have are the same -/
  | array {ds es : List Ty} {m n : Ty} :
      (fl.dim = true → ∀ (i : Nat) d e, ds[i]? = some d → es[i]? = some e → Same d e) →
      Agree fl m n → Agree fl (.dshape (ds ++ [m])) (.dshape (es ++ [n]))
  | datetime {z z' : Option Str} : (fl.tz = true → z = z') → Agree fl (.datetime z) (.datetime z')
  | time {z z' : Option Str} : (fl.tz = true → z = z') → Agree fl (.time z) (.time z')
  | timedelta {u u' : Str} : (fl.timedeltaUnit = true → u = u') → Agree fl (.timedelta u) (.timedelta u')
  | string {n n' : Option Int} {e e' : Str} : (fl.strEncoding = true → e = e') → (fl.strFixlen = true → n = n') →
      Agree fl (.string n e) (.string n' e')
  | option {t t' : Ty} : Agree fl t t' → Agree fl (.option t) (.option t')
  /-- records: the same names with types that agree, in the same order if `check_record_order` -/
  | record {fs gs hs : List (Str × Ty)} : hs.Perm gs → (fl.recordOrder = true → hs = gs) →
      fs.map (·.1) = hs.map (·.1) →
      (∀ (i : Nat) n t u, fs[i]? = some (n, t) → hs[i]? = some (n, u) → Agree fl t u) → Agree fl (.record fs) (.record gs)
  | tuple {ts us : List Ty} : ts.length = us.length →
      (∀ (i : Nat) t u, ts[i]? = some t → us[i]? = some u → Agree fl t u) → Agree fl (.tuple ts) (.tuple us)
  | func {ts us : List Ty} : ts.length = us.length →
      (∀ (i : Nat) t u, ts[i]? = some t → us[i]? = some u → Agree fl t u) → Agree fl (.func ts) (.func us)
  /-- all others, and two of different classes, have to be the same -/
  | other {a b : Ty} : (a.klass = b.klass → a.klass.opened = false) → Same a b → Agree fl a b

/-- why `assert_dshape_equal(a, b, **flags)` raises `e` -/
def WhyRaised (fl : Flags) (a b : Ty) (e : PyErr) : Prop :=
  e = .assertion ∨
  (e = .attributeError ∧ ∃ u t t', Occurs (.units u t) a ∧ Occurs (.units u t') b) ∨
  (e = .typeError ∧ fl.strFixlen = true ∧ ∃ n n' c c', n ≠ n' ∧ (n = none ∨ n' = none) ∧
    Occurs (.string n c) a ∧ Occurs (.string n' c') b)

end DS
