import Verif.Proofs.InterchangePred
import Verif.Props.Repr
import Verif.Props.Predicates

/-
C57: equal datashapes are interchangeable.
-/
namespace DS

variable {env : Env}

theorem equal_strip {a b : Ty} (ha : Ordinary env a) (hb : Ordinary env b) (h : pyEq a b = true) : a.strip = b.strip :=
  (same_strip a (ordinary_noOptArr ha.ordinary) b (ordinary_noOptArr hb.ordinary)).2
    ((pyEq_same ha.wf.eqOk hb.wf.eqOk).1 h)

/-- **C57.** Two datashapes that compare equal print the same text: `str(a) == str(b)`, and `pprint` agrees at every
width. -/
theorem C57.print (a b : Ty) (ha : Ordinary env a) (hb : Ordinary env b) (h : pyEq a b = true)
    (na : NoBoolCategories a) (nb : NoBoolCategories b) :
    pyStr env a = pyStr env b ∧ ∀ width, pprint env a width = pprint env b width := by
  have e := equal_strip ha hb h
  have key : ∀ w, render env a w = render env b w := by
    intro w
    rw [← render_strip ha.wf na, ← render_strip hb.wf nb, e]
  exact ⟨key _, fun w => key _⟩

/-- In the printable fragment, `str` distinguishes exactly what `==` distinguishes. -/
theorem C57.print_iff {disc : List Lit → Except PyErr Ty} (hd : ∀ l, Returns (disc l)) (a b : Ty)
    (ha : Ordinary env a) (hb : Ordinary env b) (pa : Printable env a) (pb : Printable env b)
    (da : a.isDShape = true) (db : b.isDShape = true) (na : NoBoolCategories a) (nb : NoBoolCategories b) :
    pyStr env a = pyStr env b ↔ pyEq a b = true :=
  ⟨fun h => C01.injective hd a b pa pb da db none none h, fun h => (C57.print a b ha hb h na nb).1⟩

/-- They are the same to NumPy: `to_numpy` and `to_numpy_dtype` return the same, or raise the same. -/
theorem C57.numpy (a b : Ty) (ha : Ordinary env a) (hb : Ordinary env b) (h : pyEq a b = true) :
    toNumpy a = toNumpy b ∧ toNumpyDtype a = toNumpyDtype b := by
  have e := equal_strip ha hb h
  constructor
  · rw [← toNumpy_strip a ha.wf ha.ordinary, ← toNumpy_strip b hb.wf hb.ordinary, e]
  · simp only [toNumpyDtype]
    rw [← toDtype_strip a ha.wf ha.ordinary .measure (by simp), ← toDtype_strip b hb.wf hb.ordinary .measure (by simp), e]

/-- `validate` answers the same for every value. -/
theorem C57.validate (a b : Ty) (ha : Ordinary env a) (hb : Ordinary env b) (h : pyEq a b = true)
    (ext : Ty → PyObj → Except PyErr Bool) (v : PyObj) : DS.validate ext a v = DS.validate ext b v := by
  rw [← validate_strip ext a ha.wf ha.ordinary, ← validate_strip ext b hb.wf hb.ordinary, equal_strip ha hb h]

/-- The questions that `util` and `predicates` ask of a datashape have the same answers, the number of dimensions is
the same, and one is valid exactly when the other is. -/
theorem C57.predicates (a b : Ty) (ha : Ordinary env a) (hb : Ordinary env b) (h : pyEq a b = true) :
    hasVarDim a = hasVarDim b ∧ hasEllipsis a = hasEllipsis b ∧ isScalar a = isScalar b ∧ isRecord a = isRecord b ∧
    isNumeric a = isNumeric b ∧ isReal a = isReal b ∧ isBoolean a = isBoolean b ∧ isDateLike a = isDateLike b ∧
    a.shape.length = b.shape.length ∧ validOk a = validOk b := by
  have e := equal_strip ha hb h
  have na := ordinary_noOptArr ha.ordinary
  have nb := ordinary_noOptArr hb.ordinary
  have ⟨ma, pa⟩ := measureOf_strip ha.wf na
  have ⟨mb, pb⟩ := measureOf_strip hb.wf nb
  have em : (measureOf a).strip = (measureOf b).strip := by rw [← ma, ← mb, e]
  have wa : WF env (measureOf a) ∧ (measureOf a).everywhere ordinaryLocal = true := by
    have h1 : WF env a.measure := measure_everywhere ha.wf ha.wf
    have h2 := measure_everywhere ha.wf ha.ordinary
    simp only [measureOf]
    cases hm : a.measure <;> rw [hm] at h1 h2 <;> first
      | exact ⟨h1, h2⟩
      | exact ⟨everywhere_child h1 (by simp [Ty.children, Ty.unOption]), everywhere_child h2 (by simp [Ty.children, Ty.unOption])⟩
  have wb : WF env (measureOf b) ∧ (measureOf b).everywhere ordinaryLocal = true := by
    have h1 : WF env b.measure := measure_everywhere hb.wf hb.wf
    have h2 := measure_everywhere hb.wf hb.ordinary
    simp only [measureOf]
    cases hm : b.measure <;> rw [hm] at h1 h2 <;> first
      | exact ⟨h1, h2⟩
      | exact ⟨everywhere_child h1 (by simp [Ty.children, Ty.unOption]), everywhere_child h2 (by simp [Ty.children, Ty.unOption])⟩
  have ec : ∀ n i l, measureOf a = .ctype n i l ↔ measureOf b = .ctype n i l := by
    intro n i l
    rw [← ctype_strip pa, ← ctype_strip pb, em]
  refine ⟨?_, ?_, ?_, ?_, ?_, ?_, ?_, ?_, ?_, ?_⟩
  · rw [hasVarDim, ← has_strip _ (by simp) a, e, has_strip _ (by simp) b, hasVarDim]
  · rw [hasEllipsis, ← has_strip _ (by simp +contextual) a, e, has_strip _ (by simp +contextual) b, hasEllipsis]
  · rw [← (class_strip ha.wf na).1, e, (class_strip hb.wf nb).1]
  · rw [← (class_strip ha.wf na).2, e, (class_strip hb.wf nb).2]
  · have h1 : toNumpyDtype (measureOf a) = toNumpyDtype (measureOf b) := by
      simp only [toNumpyDtype]
      rw [← toDtype_strip _ wa.1 wa.2 .measure (by simp), em, toDtype_strip _ wb.1 wb.2 .measure (by simp)]
    have h2 : (measureOf a).isUnit = (measureOf b).isUnit := by
      rw [← (isUnit_strip pa).1, em, (isUnit_strip pb).1]
    simp only [isNumeric, h1, h2]
  · apply Bool.eq_iff_iff.2
    rw [C42.real_iff a pa, C42.real_iff b pb]
    simp only [tFloat32, tFloat64, ec]
  · apply Bool.eq_iff_iff.2
    rw [C42.boolean_iff a pa, C42.boolean_iff b pb]
    simp only [tBool, ec]
  · apply Bool.eq_iff_iff.2
    rw [C42.datelike_iff a pa, C42.datelike_iff b pb, ← (date_strip pa).1, ← (date_strip pa).2, ← (date_strip pb).1,
      ← (date_strip pb).2, em]
  · rw [← shape_strip ha.wf na, e, shape_strip hb.wf nb]
  · rw [← validOk_strip a ha.wf ha.ordinary, e, validOk_strip b hb.wf hb.ordinary]

/-- `isfixed` and `istabular` raise `TypeError` for what is not valid; on valid datashapes they agree as well. -/
theorem C57.fixed_tabular (a b : Ty) (ha : Ordinary env a) (hb : Ordinary env b) (h : pyEq a b = true)
    (hv : validOk a = true) : isFixed a = isFixed b ∧ isTabular a = isTabular b := by
  have e := equal_strip ha hb h
  have hvb : validOk b = true := by
    rw [← validOk_strip b hb.wf hb.ordinary, ← e, validOk_strip a ha.wf ha.ordinary]; exact hv
  constructor
  · rw [← (isFixed_aux a ha.wf ha.ordinary).2 (.inr hv), e, (isFixed_aux b hb.wf hb.ordinary).2 (.inr hvb)]
  · rw [isTabular_eq ha hv, isTabular_eq hb hvb]
    have h1 : a.shape.length = b.shape.length := by
      rw [← shape_strip ha.wf (ordinary_noOptArr ha.ordinary), e, shape_strip hb.wf (ordinary_noOptArr hb.ordinary)]
    have m1 : WF env a.measure := measure_everywhere ha.wf ha.wf
    have m2 : WF env b.measure := measure_everywhere hb.wf hb.wf
    have h2 : isRecord a.measure = isRecord b.measure := by
      rw [← (class_strip m1 (measure_everywhere ha.wf (ordinary_noOptArr ha.ordinary))).2, ← measure_strip ha.wf, e,
        measure_strip hb.wf, (class_strip m2 (measure_everywhere hb.wf (ordinary_noOptArr hb.ordinary))).2]
    rw [h1, h2]

/-- Membership in a set of types, and everything else that is decided by `==`, agrees too. -/
theorem C57.membership (a b : Ty) (ha : Ordinary env a) (hb : Ordinary env b) (h : pyEq a b = true) (l : List Ty)
    (hl : ∀ t ∈ l, WF env t) : pyIn a l = pyIn b l := by
  simp only [pyIn]
  apply Bool.eq_iff_iff.2
  simp only [List.any_eq_true]
  constructor
  · rintro ⟨t, ht, h'⟩
    exact ⟨t, ht, C08.eq_trans b a t hb.wf.eqOk ha.wf.eqOk (hl t ht).eqOk (by rw [← C08.eq_symm a b ha.wf.eqOk hb.wf.eqOk]; exact h) h'⟩
  · rintro ⟨t, ht, h'⟩
    exact ⟨t, ht, C08.eq_trans a b t ha.wf.eqOk hb.wf.eqOk (hl t ht).eqOk h h'⟩

/-! ### The hypotheses are met, and are needed -/

/-- `var * {f: (3 * int32, string) -> ?float64, c: categorical[["x", "y"], type=string]}`, its function written with the
bare measures as `Function(...)` stores them -/
def wordyA : Ty := .dshape [.var, .record [
  (py"f", .func [.dshape [.fixed 3, tInt32], tString, .option tFloat64]),
  (py"c", .categorical [.str (py"x"), .str (py"y")] tString false)]]

/-- the same, as the parser builds it -/
def wordyB : Ty := .dshape [.var, .record [
  (py"f", .func [.dshape [.fixed 3, tInt32], .dshape [tString], .dshape [.option tFloat64]]),
  (py"c", .categorical [.str (py"x"), .str (py"y")] (.dshape [tString]) false)]]

/-- Example: two different values that satisfy all hypotheses. -/
theorem C57.example (env : Env) : Ordinary env wordyA ∧ Ordinary env wordyB ∧ pyEq wordyA wordyB = true ∧
    NoBoolCategories wordyA ∧ NoBoolCategories wordyB ∧ validOk wordyA = true ∧ wordyA ≠ wordyB := by
  refine ⟨⟨?_, ?_, rfl⟩, ⟨?_, ?_, rfl⟩, ?_, ?_, ?_, rfl, ?_⟩
  all_goals first
    | (simp [wordyA, wordyB]; done)
    | decide +kernel
    | rfl

/-- An option of an array: `{a: option[2 * int32]}` and `{a: 2 * option[2 * int32]}` compare equal, and are printed
differently. -/
theorem C57.option_of_array_witness (env : Env) :
    let a : Ty := .record [(py"a", .option (.dshape [.fixed 2, tInt32]))]
    let b : Ty := .record [(py"a", .dshape [.fixed 2, .option (.dshape [.fixed 2, tInt32])])]
    WF env a ∧ WF env b ∧ pyEq a b = true ∧ pyStr env a ≠ pyStr env b := by
  refine ⟨rfl, rfl, rfl, ?_⟩
  have h1 : pyStr env (.record [(py"a", .option (.dshape [.fixed 2, tInt32]))]) = py"{a: ?2 * int32}" := rfl
  have h2 : pyStr env (.record [(py"a", .dshape [.fixed 2, .option (.dshape [.fixed 2, tInt32])])]) =
      py"{a: 2 * ?2 * int32}" := rfl
  rw [h1, h2]
  decide

/-- Boolean categories: `categorical[[True], …]` and `categorical[[1], …]` compare equal, and are printed
differently. -/
theorem C57.bool_category_witness (env : Env) :
    let a : Ty := .categorical [.bool true] tInt64 false
    let b : Ty := .categorical [.int 1] tInt64 false
    Ordinary env a ∧ Ordinary env b ∧ pyEq a b = true ∧ pyStr env a ≠ pyStr env b := by
  refine ⟨⟨rfl, rfl, rfl⟩, ⟨rfl, rfl, rfl⟩, rfl, ?_⟩
  have h1 : pyStr env (.categorical [.bool true] tInt64 false) = py"categorical[[True], type=int64, ordered=False]" := rfl
  have h2 : pyStr env (.categorical [.int 1] tInt64 false) = py"categorical[[1], type=int64, ordered=False]" := rfl
  rw [h1, h2]
  decide

/-- What does distinguish equal datashapes: `iscollection` raises `KeyError` for a bare record, and `promote` does not
look inside a `DataShape` for an option. -/
theorem C57.distinguished (ext : DType → DType → Except PyErr DType) :
    let r : Ty := .record [(py"a", tInt32)]
    pyEq r (.dshape [r]) = true ∧ isCollection r = .error .keyError ∧ isCollection (.dshape [r]) = .ok false ∧
    pyEq (.option tInt32) (.dshape [.option tInt32]) = true ∧
    promote ext (.option tInt32) tInt64 true = .ok (.option tInt64) ∧
    promote ext (.dshape [.option tInt32]) tInt64 true = .error .typeError := ⟨rfl, rfl, rfl, rfl, rfl, rfl⟩

end DS
