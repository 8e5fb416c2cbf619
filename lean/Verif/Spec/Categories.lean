import Verif.Model.Ty
import Verif.Spec.StrDiscovery
import Verif.Spec.Constructors

/-
Specification for C53: the type a `Categorical` takes from its categories.
-/
namespace DS

/-- The type of a single category. -/
inductive CategoryType (E : StrEnv) : Lit → Ty → Prop where
  | int (i : Int) : CategoryType E (.int i) tInt64
  | bool (b : Bool) : CategoryType E (.bool b) tBool
  /-- the empty string stands for a missing value -/
  | empty : CategoryType E (.str []) .null
  /-- any other string is read as `discover` reads it (C46) -/
  | str {s : Str} {t : Ty} : s ≠ [] → Understood E s t → CategoryType E (.str s) t

/-- The type of a list of categories. -/
inductive CategoriesType (E : StrEnv) : List Lit → Ty → Prop where
  /-- without categories: string -/
  | empty : CategoriesType E [] tString
  /-- all of one type -/
  | same {l : List Lit} {t : Ty} : l ≠ [] → (∀ c ∈ l, CategoryType E c t) → CategoriesType E l t
  /-- of different types: a tuple type with one component for each category -/
  | mixed {l : List Lit} {ts : List Ty} {a b : Ty} : Each (CategoryType E) l ts → a ∈ ts → b ∈ ts → a ≠ b →
      CategoriesType E l (.tuple (ts.map fun t => .dshape [t]))

end DS
