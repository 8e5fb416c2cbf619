import Verif.Spec.Indexing
import Verif.Spec.Position
import Verif.Spec.SliceLaw
import Verif.Spec.Subterms

/-
What `ds.subshape[index]` returns, for every index of any nesting: exactly, slices outside the bounds included.
-/
namespace DS

/-- What a slice makes of a dimension (or of anything in its place that other components follow): `Spec/SliceLaw.lean`. -/
inductive DimSlice (a b c : Option Int) : Ty → Ty → Prop where
  | fixed {n k : Nat} {p q : Int} : SliceBegins n a p → SliceEnds n b q → SliceLength (q - p) c (.ok k) →
      DimSlice a b c (.fixed n) (.fixed k)
  | known {d : Ty} {k : Nat} {p q : Int} : (∀ n, d ≠ .fixed n) → KnownBounds a b p q → SliceLength (q - p) c (.ok k) →
      DimSlice a b c d (.fixed k)
  | unknown {d : Ty} : (∀ n, d ≠ .fixed n) → (∀ p q, ¬ KnownBounds a b p q) → DimSlice a b c d .var

/-- The fields of a record that a slice selects, as Python does, in either direction. -/
inductive FieldSlice (fs : List (Str × Ty)) (a b : Option Int) : Option Int → List (Str × Ty) → Prop where
  | one : FieldSlice fs a b none ((selected fs.length a b 1).filterMap fun i => fs[i]?)
  | up {c : Int} : 1 ≤ c → FieldSlice fs a b (some c) ((selected fs.length a b c).filterMap fun i => fs[i]?)
  | down {k : Nat} : 0 < k →
      FieldSlice fs a b (some (-(k : Int))) ((selectedDown fs.length a b k).filterMap fun i => fs[i]?)

mutual
/-- `Yields i ps t`: a datashape with dimensions and measure `ps` indexed by `i` is `t`. -/
inductive Yields : Index → List Ty → Ty → Prop where
  | int {d : Ty} {ps : List Ty} (i : Int) : isDimension d = true → ps ≠ [] → Yields (.int i) (d :: ps) (.dshape ps)
  | list {d : Ty} {ps : List Ty} (l : List LIdx) : isDimension d = true → ps ≠ [] →
      Yields (.list l) (d :: ps) (.dshape (.fixed l.length :: ps))
  | slice {d e : Ty} {ps : List Ty} {a b c : Option Int} : ps ≠ [] → DimSlice a b c d e →
      Yields (.slice a b c) (d :: ps) (.dshape (e :: ps))
  | field {fs : List (Str × Ty)} {s : Str} {t : Ty} : (s, t) ∈ fs → Yields (.str s) [.record fs] t
  | fieldAt {fs : List (Str × Ty)} {i : Int} {f : Str × Ty} : At fs i f → Yields (.int i) [.record fs] f.2
  | fields {fs gs : List (Str × Ty)} {l : List LIdx} : PicksAll fs l gs → (gs.map (·.1)).Nodup →
      Yields (.list l) [.record fs] (.dshape [.record gs])
  | fieldSlice {fs gs : List (Str × Ty)} {a b c : Option Int} : FieldSlice fs a b c gs →
      Yields (.slice a b c) [.record fs] (.dshape [.record gs])
  | tuple {l : List Index} {ps : List Ty} {t : Ty} : InTurns l ps t → Yields (.tuple l) ps t
/-- A tuple of indices: `None` makes a new axis of length one; otherwise the first index acts on the first axis, what the other
indices make of the rest being behind it, which must not be a dimension without a measure (a field may be one). -/
inductive InTurns : List Index → List Ty → Ty → Prop where
  | none (ps : List Ty) : InTurns [] ps (.dshape ps)
  | newaxis {r : List Index} {ps : List Ty} {t : Ty} : InTurns r ps t → MayEnd t →
      InTurns (.none :: r) ps (.dshape (.fixed 1 :: asParams t))
  | last {i : Index} {ps : List Ty} {t : Ty} : Yields i ps t → InTurns [i] ps t
  | more {i : Index} {r : List Index} {d t u : Ty} {ps : List Ty} : r ≠ [] → ps ≠ [] → InTurns r ps t → MayEnd t →
      Yields i (d :: asParams t) u → InTurns (i :: r) (d :: ps) u
end

/-- All records in `ps`, at any depth, are as `Record` makes them: distinct names, and types that are not redundant wrappers
and that `DataShape` can have made if they are `DataShape`s. -/
def GoodRecords (ps : List Ty) : Prop :=
  ∀ p ∈ ps, ∀ fs, Occurs (.record fs) p → (fs.map (·.1)).Nodup ∧
    ∀ f ∈ fs, f.2.isSingleton = false ∧ ∀ qs, f.2 = .dshape qs → Constructible qs

end DS
