import Verif.Spec.Yields

/-
Which error `ds.subshape[index]` raises where it returns nothing.
-/
namespace DS

/-- A list index of a record: a name that it does not have comes first, then the first item that is not a field of it, then names
that are selected twice. -/
inductive FieldsFail (fs : List (Str × Ty)) (l : List LIdx) : PyErr → Prop where
  | missing {s : Str} : .str s ∈ l → (∀ t, (s, t) ∉ fs) → FieldsFail fs l .valueError
  | outside {pre post : List LIdx} {i : Int} : (∀ s, .str s ∈ l → ∃ t, (s, t) ∈ fs) → l = pre ++ .int i :: post →
      (∀ x ∈ pre, ∃ f, Picks fs x f) → (∀ f, ¬ At fs i f) → FieldsFail fs l .indexError
  | other {pre post : List LIdx} : (∀ s, .str s ∈ l → ∃ t, (s, t) ∈ fs) → l = pre ++ .other :: post →
      (∀ x ∈ pre, ∃ f, Picks fs x f) → FieldsFail fs l .typeError
  | twice {gs : List (Str × Ty)} : PicksAll fs l gs → ¬ (gs.map (·.1)).Nodup → FieldsFail fs l .valueError

mutual
/-- `IndexFails i ps e`: a datashape with dimensions and measure `ps` indexed by `i` raises `e`. -/
inductive IndexFails : Index → List Ty → PyErr → Prop where
  | none (ps : List Ty) : IndexFails .none ps .typeError
  | other (ps : List Ty) : IndexFails .other ps .typeError
  | str {d : Ty} {ps : List Ty} (s : Str) : (∀ fs, d ≠ .record fs) → IndexFails (.str s) (d :: ps) .typeError
  | int {d : Ty} {ps : List Ty} (i : Int) : (∀ fs, d ≠ .record fs) → isDimension d = false → IndexFails (.int i) (d :: ps) .typeError
  | list {d : Ty} {ps : List Ty} (l : List LIdx) : (∀ fs, d ≠ .record fs) → isDimension d = false →
      IndexFails (.list l) (d :: ps) .typeError
  /-- an ellipsis alone -/
  | intAlone {d : Ty} (i : Int) : isDimension d = true → IndexFails (.int i) [d] .indexError
  | listAlone {d : Ty} (l : List LIdx) : isDimension d = true → IndexFails (.list l) [d] .indexError
  | sliceFixed {n : Nat} {ps : List Ty} {a b c : Option Int} {e : PyErr} : SliceOfFixed n ps a b c (.error e) →
      IndexFails (.slice a b c) (.fixed n :: ps) e
  | sliceDim {d : Ty} {ps : List Ty} {a b c : Option Int} {e : PyErr} : (∀ n, d ≠ .fixed n) → (∀ fs, d ≠ .record fs) → ps ≠ [] →
      SliceOfDim ps a b c (.error e) → IndexFails (.slice a b c) (d :: ps) e
  | sliceStep {d : Ty} {a b c : Option Int} {p q : Int} {e : PyErr} : (∀ n, d ≠ .fixed n) → (∀ fs, d ≠ .record fs) →
      KnownBounds a b p q → SliceLength (q - p) c (.error e) → IndexFails (.slice a b c) [d] e
  | sliceAlone {d : Ty} {a b c : Option Int} : (∀ n, d ≠ .fixed n) → (∀ fs, d ≠ .record fs) →
      (∀ p q e, KnownBounds a b p q → ¬ SliceLength (q - p) c (.error e)) → IndexFails (.slice a b c) [d] .indexError
  | key {fs : List (Str × Ty)} {s : Str} : (∀ t, (s, t) ∉ fs) → IndexFails (.str s) [.record fs] .keyError
  | position {fs : List (Str × Ty)} {i : Int} : (∀ f, ¬ At fs i f) → IndexFails (.int i) [.record fs] .indexError
  | fields {fs : List (Str × Ty)} {l : List LIdx} {e : PyErr} : FieldsFail fs l e → IndexFails (.list l) [.record fs] e
  | zeroStep (fs : List (Str × Ty)) (a b : Option Int) : IndexFails (.slice a b (some 0)) [.record fs] .valueError
  | tuple {l : List Index} {ps : List Ty} {e : PyErr} : TurnsFail l ps e → IndexFails (.tuple l) ps e
/-- A tuple of indices: the last ones come first. -/
inductive TurnsFail : List Index → List Ty → PyErr → Prop where
  | newaxis {r : List Index} {ps : List Ty} {e : PyErr} : TurnsFail r ps e → TurnsFail (.none :: r) ps e
  | newaxisBare {r : List Index} {ps : List Ty} {t : Ty} : InTurns r ps t → ¬ MayEnd t → TurnsFail (.none :: r) ps .typeError
  | last {i : Index} {ps : List Ty} {e : PyErr} : i ≠ .none → IndexFails i ps e → TurnsFail [i] ps e
  | alone {i : Index} {r : List Index} {d : Ty} : i ≠ .none → r ≠ [] → TurnsFail (i :: r) [d] .indexError
  | rest {i : Index} {r : List Index} {d : Ty} {ps : List Ty} {e : PyErr} : i ≠ .none → r ≠ [] → ps ≠ [] → TurnsFail r ps e →
      TurnsFail (i :: r) (d :: ps) e
  | restBare {i : Index} {r : List Index} {d t : Ty} {ps : List Ty} : i ≠ .none → r ≠ [] → ps ≠ [] → InTurns r ps t → ¬ MayEnd t →
      TurnsFail (i :: r) (d :: ps) .typeError
  | first {i : Index} {r : List Index} {d t : Ty} {ps : List Ty} {e : PyErr} : i ≠ .none → r ≠ [] → ps ≠ [] → InTurns r ps t →
      MayEnd t → IndexFails i (d :: asParams t) e → TurnsFail (i :: r) (d :: ps) e
end

end DS
