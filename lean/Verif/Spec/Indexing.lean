import Verif.Spec.Slices
import Verif.Model.Subshape

/-
What `ds.subshape[i1, …, ik]` should be, axis by axis.
-/
namespace DS

/-- The dimensions and the measure of a datashape, as a list: `DataShape` or not. -/
def asParams : Ty → List Ty
  | .dshape ps => ps
  | t => [t]

/-- `l[i]`, with a negative `i` counting from the end -/
inductive At {α : Type} (l : List α) : Int → α → Prop where
  | front (k : Nat) (x : α) (h : l[k]? = some x) : At l k x
  | back (k : Nat) (x : α) (hk : 0 < k) (hle : k ≤ l.length) (h : l[l.length - k]? = some x) : At l (-(k : Int)) x

/-- An element of a list index picks a field by position or by name. -/
inductive Picks (fs : List (Str × Ty)) : LIdx → Str × Ty → Prop where
  | pos (i : Int) (f : Str × Ty) (h : At fs i f) : Picks fs (.int i) f
  | name (s : Str) (t : Ty) (h : (s, t) ∈ fs) : Picks fs (.str s) (s, t)

/-- A list index picks these fields, in this order. -/
inductive PicksAll (fs : List (Str × Ty)) : List LIdx → List (Str × Ty) → Prop where
  | nil : PicksAll fs [] []
  | cons {i : LIdx} {f : Str × Ty} {r : List LIdx} {gs : List (Str × Ty)} :
      Picks fs i f → PicksAll fs r gs → PicksAll fs (i :: r) (f :: gs)

/-- `Sel idx ps qs`: indexing an array with dimensions and measure `ps` by the tuple `idx` gives an array with
dimensions and measure `qs`. Each index acts on one axis, from left to right; `None` makes a new axis of length one
and uses none. A record at the end can be indexed by name, position, list or slice. -/
inductive Sel : List Index → List Ty → List Ty → Prop where
  | done (ps : List Ty) : Sel [] ps ps
  | newaxis {r : List Index} {ps qs : List Ty} : Sel r ps qs → Sel (.none :: r) ps (.fixed 1 :: qs)
  | int {r : List Index} {d : Ty} {ps qs : List Ty} (i : Int) : isDimension d = true → ps ≠ [] → Sel r ps qs →
      Sel (.int i :: r) (d :: ps) qs
  | list {r : List Index} {d : Ty} {ps qs : List Ty} (l : List LIdx) : isDimension d = true → ps ≠ [] → Sel r ps qs →
      Sel (.list l :: r) (d :: ps) (.fixed l.length :: qs)
  | slice {r : List Index} {n : Nat} {ps qs : List Ty} {a b c : Option Int} : InRange n a b c → Sel r ps qs →
      Sel (.slice a b c :: r) (.fixed n :: ps) (.fixed (selected n a b (c.getD 1)).length :: qs)
  | sliceVar {r : List Index} {ps qs : List Ty} (a c : Option Int) : Sel r ps qs →
      Sel (.slice a Option.none c :: r) (.var :: ps) (.var :: qs)
  | sliceVarN {r : List Index} {ps qs : List Ty} {a b : Nat} {c : Option Int} : a ≤ b →
      (∀ x, c = some x → 1 ≤ x) → FitsDouble ((b : Int) - a) c → Sel r ps qs →
      Sel (.slice (some a) (some b) c :: r) (.var :: ps) (.fixed (selected b (some a) (some b) (c.getD 1)).length :: qs)
  | field {fs : List (Str × Ty)} {s : Str} {t : Ty} : (s, t) ∈ fs → Sel [.str s] [.record fs] (asParams t)
  | fieldAt {fs : List (Str × Ty)} {i : Int} {f : Str × Ty} : At fs i f → Sel [.int i] [.record fs] (asParams f.2)
  | fields {fs gs : List (Str × Ty)} {l : List LIdx} : PicksAll fs l gs → (gs.map (·.1)).Nodup →
      Sel [.list l] [.record fs] [.record gs]
  | fieldSlice {fs : List (Str × Ty)} {a b : Option Int} {c : Int} : 1 ≤ c →
      Sel [.slice a b (some c)] [.record fs] [.record ((selected fs.length a b c).filterMap fun i => fs[i]?)]
  | fieldSliceDown {fs : List (Str × Ty)} {a b : Option Int} {k : Nat} : 0 < k →
      Sel [.slice a b (some (-(k : Int)))] [.record fs] [.record ((selectedDown fs.length a b k).filterMap fun i => fs[i]?)]
  | fieldSlice1 {fs : List (Str × Ty)} {a b : Option Int} :
      Sel [.slice a b Option.none] [.record fs] [.record ((selected fs.length a b 1).filterMap fun i => fs[i]?)]

/-- What a slice `a:b:c` may make of a dimension `d`: inside the bounds (`InRange`) the number of elements that Python
selects; otherwise some dimension (C18.out_of_range), which is fixed if `d` is. -/
structure SliceOf (a b c : Option Int) (d e : Ty) : Prop where
  inside : ∀ n, d = .fixed n → InRange n a b c → e = .fixed (selected n a b (c.getD 1)).length
  fixed : ∀ n, d = .fixed n → ∃ k, e = .fixed k
  var : d = .var → b = Option.none → e = .var
  varN : d = .var → ∀ x y : Nat, a = some (x : Int) → b = some (y : Int) → x ≤ y → (∀ z, c = some z → 1 ≤ z) →
    FitsDouble ((y : Int) - x) c → e = .fixed (selected y a b (c.getD 1)).length
  dim : (∃ k, e = .fixed k) ∨ e = .var

/-- `Acts idx ps qs`: like `Sel`, without restriction on the bounds of slices, and for every kind of dimension. -/
inductive Acts : List Index → List Ty → List Ty → Prop where
  | done (ps : List Ty) : Acts [] ps ps
  | newaxis {r : List Index} {ps qs : List Ty} : Acts r ps qs → Acts (.none :: r) ps (.fixed 1 :: qs)
  | int {r : List Index} {d : Ty} {ps qs : List Ty} (i : Int) : isDimension d = true → ps ≠ [] → Acts r ps qs →
      Acts (.int i :: r) (d :: ps) qs
  | list {r : List Index} {d : Ty} {ps qs : List Ty} (l : List LIdx) : isDimension d = true → ps ≠ [] → Acts r ps qs →
      Acts (.list l :: r) (d :: ps) (.fixed l.length :: qs)
  | slice {r : List Index} {d e : Ty} {ps qs : List Ty} {a b c : Option Int} : SliceOf a b c d e → ps ≠ [] →
      Acts r ps qs → Acts (.slice a b c :: r) (d :: ps) (e :: qs)
  /-- a single index on a record: as in `Sel` -/
  | record {i : Index} {fs : List (Str × Ty)} {qs : List Ty} : Sel [i] [.record fs] qs → i ≠ .none →
      Acts [i] [.record fs] qs

end DS
