import Verif.Props.Sequence

/-
Slices with negative step (C19, C52).
-/
namespace DS

/-- A slice with a negative step of a datashape selects, in descending order, from the dimensions followed by the measure
as a slice of a list does. -/
theorem C52.slice_down (ps : List Ty) (hc : Constructible ps) (a b : Option Int) (k : Nat) (hk : 0 < k) :
    (Ty.dshape ps).itemSlice a b (some (-(k : Int))) =
      .ok ((selectedDown (Ty.dshape ps).len a b k).filterMap
        fun i => ((Ty.dshape ps).shape ++ [(Ty.dshape ps).measure])[i]?) := by
  have hp : (Ty.dshape ps).shape ++ [(Ty.dshape ps).measure] = ps := by
    have h1 := (C52.iterate ps hc (.ok ps)).1
    obtain ⟨ds, m, rfl, -⟩ := hc
    simp [Ty.shape, Ty.measure]
  rw [hp]
  exact pySlice_neg ps a b k hk

/-- A slice with step zero raises `ValueError`. -/
theorem C52.slice_zero (ps : List Ty) (a b : Option Int) : (Ty.dshape ps).itemSlice a b (some 0) = .error .valueError := rfl

/-- `ds[::-1]` is the measure followed by the dimensions, the last first. -/
theorem C52.reversed (ps : List Ty) (hc : Constructible ps) :
    (Ty.dshape ps).itemSlice none none (some (-1)) = .ok ((Ty.dshape ps).measure :: (Ty.dshape ps).shape.reverse) := by
  have h := C52.slice_down ps hc none none 1 (by decide)
  rw [show (-((1 : Nat) : Int)) = -1 from rfl] at h
  rw [h]
  obtain ⟨ds, m, rfl, -⟩ := hc
  have hs : selectedDown (Ty.dshape (ds ++ [m])).len none none ((1 : Nat) : Int) =
      (List.range (ds ++ [m]).length).reverse := by
    have hl : (Ty.dshape (ds ++ [m])).len = (ds ++ [m]).length := rfl
    rw [hl]
    unfold selectedDown
    rw [List.filter_eq_self]
    intro i hi
    simp only [List.mem_reverse, List.mem_range] at hi
    have e1 : ∀ (n : Nat) (d : Int), boundDown n d none = d := fun _ _ => rfl
    simp only [e1, Bool.and_eq_true, decide_eq_true_eq, beq_iff_eq]
    exact ⟨⟨by omega, by omega⟩, Int.emod_one _⟩
  rw [hs]
  have hp : (Ty.dshape (ds ++ [m])).shape ++ [(Ty.dshape (ds ++ [m])).measure] = ds ++ [m] := by
    simp [Ty.shape, Ty.measure]
  rw [hp, List.filterMap_reverse]
  have hr : (List.range (ds ++ [m]).length).filterMap (fun i => (ds ++ [m])[i]?) = ds ++ [m] := by
    generalize ds ++ [m] = l
    induction l with
    | nil => rfl
    | cons x l ih =>
      rw [List.length_cons, List.range_succ_eq_map, List.filterMap_cons_some (b := x) (by simp), List.filterMap_map]
      congr 1
  rw [hr]
  simp [Ty.shape, Ty.measure]

/-- Iterating over a type, as `matches_typeset` does (C32), yields what indexing it by 0, 1, 2, … yields. -/
theorem C52.iteration (t : Ty) (ht : ∀ o n, t ≠ .typeset o n) (hc : ∀ ps, t = .dshape ps → Constructible ps)
    (r : Except PyErr (List Ty)) : t.listResult r ↔ pyIter t = r := by
  by_cases hd : ∃ ps, t = .dshape ps
  · obtain ⟨ps, rfl⟩ := hd
    have hps := hc ps rfl
    rw [C52.iterate ps hps]
    obtain ⟨ds, m, rfl, -⟩ := hps
    have hp : (Ty.dshape (ds ++ [m])).shape ++ [(Ty.dshape (ds ++ [m])).measure] = ds ++ [m] := by
      simp [Ty.shape, Ty.measure]
    rw [hp]
    exact eq_comm
  by_cases hr : ∃ fs, t = .record fs
  · obtain ⟨fs, rfl⟩ := hr
    rw [(C52.record fs).2.2 r]
    exact eq_comm
  · have h1 : t.isDShape = false := by cases t <;> first | rfl | exact absurd ⟨_, rfl⟩ hd
    have h2 : t.isRecord = false := by cases t <;> first | rfl | exact absurd ⟨_, rfl⟩ hr
    rw [(C52.scalar t h1 h2).2 r]
    have : pyIter t = .ok [t] := by
      cases t <;> first | rfl | exact absurd ⟨_, rfl⟩ hd | exact absurd ⟨_, rfl⟩ hr | exact absurd rfl (ht _ _)
    rw [this]
    exact eq_comm

example : (Ty.dshape [.fixed 3, .var, tInt32]).itemSlice (some (-1)) (some 0) (some (-1)) = .ok [tInt32, .var] := rfl

/-- Slices of other types. Of a record there are none, because a slice is not hashable: `TypeError`. Any other type is sliced as
the list of just itself. -/
theorem C52.slice_other (t : Ty) (hd : t.isDShape = false) (a b c : Option Int) :
    (t.isRecord = true → t.itemSlice a b c = .error .typeError) ∧
    (t.isRecord = false → c = some 0 → t.itemSlice a b c = .error .valueError) ∧
    (t.isRecord = false → 1 ≤ c.getD 1 → t.itemSlice a b c = .ok ((selected 1 a b (c.getD 1)).map fun _ => t)) ∧
    (t.isRecord = false → ∀ k : Nat, 0 < k → c = some (-(k : Int)) →
      t.itemSlice a b c = .ok ((selectedDown 1 a b k).map fun _ => t)) := by
  have hz : ∀ l : List Nat, (∀ i ∈ l, i = 0) → l.filterMap (fun i => [t][i]?) = l.map fun _ => t := by
    intro l hl
    induction l with
    | nil => rfl
    | cons i l ih =>
      obtain rfl := hl i (by simp)
      rw [List.map_cons, ← ih fun i hi => hl i (by simp [hi])]
      rfl
  refine ⟨fun h => ?_, fun h hc => ?_, fun h hc => ?_, fun h k hk hc => ?_⟩
  · cases t <;> first | rfl | cases h
  · subst hc
    cases t <;> first | rfl | (cases hd; done) | cases h
  · have e : t.itemSlice a b c = pySlice [t] a b c := by cases t <;> first | rfl | (cases h; done) | (cases hd; done)
    rw [e, pySlice_pos _ a b c hc]
    congr 1
    refine hz _ fun i hi => ?_
    have := (List.mem_filter.1 hi).1
    simpa using this
  · have e : t.itemSlice a b c = pySlice [t] a b c := by cases t <;> first | rfl | (cases h; done) | (cases hd; done)
    rw [e, hc, pySlice_neg _ a b k hk]
    congr 1
    refine hz _ fun i hi => ?_
    have := (List.mem_filter.1 hi).1
    simpa using this

example : (Ty.record [(py"a", tInt32)]).itemSlice none none none = .error .typeError ∧ Ty.date.itemSlice (some (-3)) none none = .ok [.date] ∧
    Ty.date.itemSlice (some 1) none none = .ok [] ∧ Ty.date.itemSlice none none (some (-2)) = .ok [.date] := ⟨rfl, rfl, rfl, rfl⟩

end DS
