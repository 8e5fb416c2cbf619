import Verif.Spec.WellFormed
import Verif.Spec.Printable

/-
Specification vocabulary for C57: the datashapes on which `==` implies that nothing else distinguishes the two.
-/
namespace DS

/-- No option of an array: an option shows the dimensions of its content, so `==` confuses `option[2 * int32]` with an
array of such options (see `C57.option_of_array_witness`). An ellipsis is not a measure. -/
def ordinaryLocal : Ty → Bool
  | .option t => !t.isDShape
  | .dshape ps => ps.getLast?.all Ty.measureLike
  | _ => true

/-- A datashape as the constructors and the parser build it, without an option of an array anywhere in it. -/
structure Ordinary (env : Env) (t : Ty) : Prop where
  wf : WF env t
  ordinary : t.everywhere ordinaryLocal = true
  top : t.measureLike = true

/-- a category is not a Python bool: `True == 1`, but they are printed differently -/
def Lit.notBool : Lit → Bool
  | .bool _ => false
  | _ => true

/-- local condition: a categorical type has no boolean category -/
def noBoolLocal : Ty → Bool
  | .categorical c _ _ => c.all Lit.notBool
  | _ => true

/-- no categorical type in `t` has a boolean category -/
def NoBoolCategories (t : Ty) : Prop := t.everywhere noBoolLocal = true

end DS
