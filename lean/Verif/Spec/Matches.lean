import Verif.Model.User

/-
Specification of `validate`: which Python values have the structure of a datashape.
-/
namespace DS

/-- `Matches scalar t v`: the value `v` has the structure of the datashape `t`; `scalar` says which base values belong
to which C types. -/
inductive Matches (scalar : Ty → PyObj → Prop) : Ty → PyObj → Prop where
  /-- an `int`, `float`, `bool`, `str`, `date`, `time` or `datetime` of the right C type -/
  | ctype {n : Str} {i a : Nat} {v : PyObj} : v.isBase = true → scalar (.ctype n i a) v →
      Matches scalar (.ctype n i a) v
  | string {n : Option Int} {e s : Str} : Matches scalar (.string n e) (.str s)
  | time {z : Option Str} : Matches scalar (.time z) .time
  | date : Matches scalar .date .date
  | date' : Matches scalar .date .datetime
  | datetime {z : Option Str} : Matches scalar (.datetime z) .datetime
  /-- a dict that has, for each field, an entry of the right structure -/
  | dict {fs : List (Str × Ty)} {v : PyObj} {d : List (Str × PyObj)} (entry : Str → PyObj) :
      v.dictItems = some d → (∀ f ∈ fs, d.lookup f.1 = some (entry f.1)) →
      (∀ f ∈ fs, Matches scalar f.2 (entry f.1)) → Matches scalar (.record fs) v
  /-- a list or tuple whose items have, as far as both go, the structure of the fields -/
  | fields {fs : List (Str × Ty)} {v : PyObj} {l : List PyObj} : v.seqItems = some l →
      (∀ (i : Nat) (h₁ : i < fs.length) (h₂ : i < l.length), Matches scalar (fs[i]).2 l[i]) →
      Matches scalar (.record fs) v
  /-- a measure without dimensions -/
  | measure {t : Ty} {v : PyObj} : Matches scalar t v → Matches scalar (.dshape [t]) v
  /-- a list or tuple, of the length of a fixed dimension, or of any length for `var` -/
  | rows {d : Ty} {ps : List Ty} {v : PyObj} {l : List PyObj} : v.seqItems = some l →
      (d = .var ∨ d = .fixed l.length) → (∀ x ∈ l, Matches scalar (.dshape ps) x) →
      Matches scalar (.dshape (d :: ps)) v

end DS
