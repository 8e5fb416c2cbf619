import Verif.Model.Ty

/-
Specification vocabulary for C38: two datashapes with the same number of dimensions at corresponding places.
-/
namespace DS

mutual
/-- Wherever both datashapes have an array (a `DataShape`) at the same place, the two have the same number of
dimensions. -/
def SameRank : (a : Ty) → Ty → Prop
  | .dshape ps, b => (match b with
      | .dshape qs => ps.length = qs.length ∧ SameRankL ps qs
      | _ => True)
  | .option t, b => (match b with | .option t' => SameRank t t' | _ => True)
  | .record fs, b => (match b with | .record gs => SameRankF fs gs | _ => True)
  | .tuple ts, b => (match b with | .tuple us => SameRankL ts us | _ => True)
  | .func ts, b => (match b with | .func us => SameRankL ts us | _ => True)
  | _, _ => True
termination_by structural a => a
/-- element by element -/
def SameRankL : (l : List Ty) → List Ty → Prop
  | [], _ => True
  | a :: r, l => (match l with
    | [] => True
    | b :: s => SameRank a b ∧ SameRankL r s)
termination_by structural l => l
/-- field by field -/
def SameRankF : (l : List (Str × Ty)) → List (Str × Ty) → Prop
  | [], _ => True
  | (_, a) :: r, l => (match l with
    | [] => True
    | (_, b) :: s => SameRank a b ∧ SameRankF r s)
termination_by structural l => l
end

/-- `Units` occurs nowhere -/
def Ty.notUnits : Ty → Bool
  | .units .. => false
  | _ => true

end DS
