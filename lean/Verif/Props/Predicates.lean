import Verif.Props.Promote

/-
C35 isfixed, C42 predicates look at the measure, C43 ishomogeneous.
-/
namespace DS

/-! ### C42 -/

/-- The numeric predicates of an array are those of its measure. -/
theorem C42.measure_only (ds : List Ty) (m : Ty) (hm : m.isDShape = false) :
    isNumeric (.dshape (ds ++ [m])) = isNumeric m ∧ isReal (.dshape (ds ++ [m])) = isReal m ∧
    isBoolean (.dshape (ds ++ [m])) = isBoolean m ∧ isDateLike (.dshape (ds ++ [m])) = isDateLike m := by
  have h : measureOf (.dshape (ds ++ [m])) = measureOf m := by
    have : m.measure = m := by cases m <;> first | rfl | simp [Ty.isDShape] at hm
    show Ty.unOption (Ty.measure _) = m.measure.unOption
    rw [this]; simp [Ty.measure]
  refine ⟨?_, ?_, ?_, ?_⟩ <;> simp only [isNumeric, isReal, isBoolean, isDateLike, h]

/-- They do not see an option around a measure. -/
theorem C42.option (m : Ty) (hm : m.isDShape = false) (ho : m.isOption = false) :
    isNumeric (.option m) = isNumeric m ∧ isReal (.option m) = isReal m ∧
    isBoolean (.option m) = isBoolean m ∧ isDateLike (.option m) = isDateLike m := by
  have h : measureOf (.option m) = measureOf m := by
    have h1 : m.measure = m := by cases m <;> first | rfl | simp [Ty.isDShape] at hm
    have h2 : m.unOption = m := by cases m <;> first | rfl | simp [Ty.isOption] at ho
    simp [measureOf, h1, h2]; simp [Ty.measure, Ty.unOption]
  refine ⟨?_, ?_, ?_, ?_⟩ <;> simp only [isNumeric, isReal, isBoolean, isDateLike, h]

/-- Multiplying by a length changes none of them. -/
theorem C42.times (i : Int) (ps : List Ty) (r : Ty) (hc : Constructible ps) (h : mul (.int i) (.ty (.dshape ps)) = .ok r) :
    isNumeric r = isNumeric (.dshape ps) ∧ isReal r = isReal (.dshape ps) ∧
    isBoolean r = isBoolean (.dshape ps) ∧ isDateLike r = isDateLike (.dshape ps) := by
  have hm : measureOf r = measureOf (.dshape ps) := by
    have := C17.int_mul i ps hc
    have hr : ∃ n, r = .dshape (.fixed n :: ps) := by
      by_cases hi : i < 0
      · simp [mul, rmulDS, Operand.toTy, mkFixed, hi, bind, Except.bind] at h
      · simp only [mul, rmulDS, Operand.toTy, mkFixed, hi, bind, Except.bind, if_false] at h
        have hcc : Constructible (.fixed i.toNat :: ps) := hc.cons (by simp [Ty.cls]) rfl
        rw [mkDS_self.2 hcc] at h
        cases h; exact ⟨_, rfl⟩
    obtain ⟨n, rfl⟩ := hr
    obtain ⟨p, q, rfl⟩ := List.exists_cons_of_ne_nil hc.ne_nil
    simp [measureOf, Ty.measure, List.getLast?_cons_cons]
  refine ⟨?_, ?_, ?_, ?_⟩ <;> simp only [isNumeric, isReal, isBoolean, isDateLike, hm]

/-- What the predicates decide, on a measure `m` under an option or not. -/
theorem C42.boolean_iff (t : Ty) (hd : (measureOf t).isDShape = false) : isBoolean t = true ↔ measureOf t = tBool := by
  have : isBoolean t = pyEq (measureOf t) tBool := by simp [isBoolean, tsContains, tsBoolean, tsTypes, pyIn]
  rw [this]
  constructor
  · intro h; exact pyEq_ctype h hd
  · intro h; rw [h]; rfl

theorem C42.real_iff (t : Ty) (hd : (measureOf t).isDShape = false) :
    isReal t = true ↔ measureOf t = tFloat32 ∨ measureOf t = tFloat64 := by
  have : isReal t = ((measureOf t).isUnit && (pyEq (measureOf t) tFloat32 || pyEq (measureOf t) tFloat64)) := by
    simp [isReal, tsContains, tsFloating, tsTypes, pyIn]
  rw [this]
  simp only [Bool.and_eq_true, Bool.or_eq_true]
  constructor
  · rintro ⟨_, h | h⟩
    · exact .inl (pyEq_ctype h hd)
    · exact .inr (pyEq_ctype h hd)
  · rintro (h | h) <;> rw [h]
    · exact ⟨rfl, .inl rfl⟩
    · exact ⟨rfl, .inr rfl⟩

theorem C42.datelike_iff (t : Ty) (hd : (measureOf t).isDShape = false) :
    isDateLike t = true ↔ measureOf t = .date ∨ measureOf t = .datetime none := by
  simp only [isDateLike, Bool.or_eq_true]
  generalize measureOf t = m at hd
  cases m <;> simp_all [pyEq, eqM, Ty.target, Ty.noShape, Ty.measure, Ty.shape, Ty.isDShape]

/-- the numeric and boolean dtypes a type name can stand for -/
def numericNames : List Str :=
  [py"int8", py"int16", py"int32", py"int64", py"uint8", py"uint16", py"uint32", py"uint64", py"float16", py"float32",
   py"float64", py"complex[float32]", py"complex[float64]", py"complex64", py"complex128"]

/-- `isnumeric` is true exactly of the sized integer, floating and complex types, of time deltas, and of the decimals
NumPy can hold (at most 18 digits, or with a fraction). -/
theorem C42.numeric_iff (t : Ty) : isNumeric t = .ok true ↔
    (∃ n i a, measureOf t = .ctype n i a ∧ n ∈ numericNames) ∨ (∃ u, measureOf t = .timedelta u) ∨
    ∃ p s, measureOf t = .decimal p s ∧ (s ≠ 0 ∨ p ≤ 18) := by
  unfold isNumeric
  simp only
  generalize measureOf t = m
  have aux : ∀ (m : Ty), m.isUnit = false → ∀ x : Except PyErr DType,
      (match x with
        | .error .typeError => (.ok false : Except PyErr Bool)
        | .error e => .error e
        | .ok d => .ok (m.isUnit && d.isNumber)) ≠ .ok true := by
    intro m hm x
    cases x with
    | error e => cases e <;> simp
    | ok d => simp [hm]
  cases m with
  | ctype n i a =>
    simp only [toNumpyDtype, toDtype]
    by_cases hn : n ∈ npDtypeTable.map (·.1)
    · simp only [npDtypeTable, List.map_cons, List.map_nil, List.mem_cons, List.not_mem_nil, or_false] at hn
      rcases hn with rfl | rfl | rfl | rfl | rfl | rfl | rfl | rfl | rfl | rfl | rfl | rfl | rfl | rfl | rfl | rfl | rfl | rfl <;>
        simp [npDtypeTable, List.lookup, Ty.isUnit, DType.isNumber, numericNames]
    · have hl : npDtypeTable.lookup n = none := by
        rw [List.lookup_eq_none_iff]
        intro p hp
        have : p.1 ≠ n := fun e => hn (by rw [← e]; exact List.mem_map.2 ⟨p, hp, rfl⟩)
        simpa using fun e => this e.symm
      rw [hl]
      simp only [Except.ok.injEq, Bool.false_eq_true, false_iff]
      rintro (⟨n', i', a', e, hm⟩ | ⟨_, e⟩ | ⟨_, _, e, _⟩)
      · cases e
        apply hn
        simp only [numericNames, List.mem_cons, List.not_mem_nil, or_false] at hm
        simp only [npDtypeTable, List.map_cons, List.map_nil, List.mem_cons, List.not_mem_nil, or_false]
        grind
      · cases e
      · cases e
  | timedelta u => simp [toNumpyDtype, toDtype, Ty.isUnit, DType.isNumber]
  | decimal p s =>
    simp only [toNumpyDtype, toDtype, decimalDtype]
    by_cases h0 : s = 0
    · rw [if_pos h0]
      by_cases h18 : p ≤ 18
      · have : ∃ q : Prim, (if p ≤ 2 then (.ok .int8 : Except PyErr Prim) else if p ≤ 4 then .ok .int16 else if p ≤ 9 then .ok .int32
            else if p ≤ 18 then .ok .int64 else .error .typeError) = .ok q ∧ (DType.prim q).isNumber = true := by
          rw [if_pos h18]
          split
          · exact ⟨_, rfl, rfl⟩
          · split
            · exact ⟨_, rfl, rfl⟩
            · split <;> exact ⟨_, rfl, rfl⟩
        obtain ⟨q, hq, hn⟩ := this
        rw [hq]
        simp [Except.map, Ty.isUnit, hn]
        exact ⟨p, s, ⟨rfl, rfl⟩, .inr h18⟩
      · rw [if_neg (by omega), if_neg (by omega), if_neg (by omega), if_neg h18]
        simp [Except.map, h0]; omega
    · rw [if_neg h0]
      simp [Except.map, Ty.isUnit, DType.isNumber]
      exact ⟨p, s, ⟨rfl, rfl⟩, .inl h0⟩
  | string f e =>
    simp only [toNumpyDtype, toDtype, stringDtype]
    constructor
    · intro h; exfalso; revert h
      cases f with
      | none => simp [DType.isNumber]
      | some n =>
        by_cases h1 : n = 0
        · simp [h1, DType.isNumber]
        by_cases h2 : n < 0
        · simp [h1, h2]
        by_cases h3 : e = py"A"
        · simp [h1, h2, h3, DType.isNumber]
        · simp [h1, h2, h3, DType.isNumber]
    · rintro (⟨_, _, _, e, _⟩ | ⟨_, e⟩ | ⟨_, _, e, _⟩) <;> cases e
  | date => simp [toNumpyDtype, toDtype, DType.isNumber]
  | datetime => simp [toNumpyDtype, toDtype, DType.isNumber]
  | null | time | units | bytes | fixed | var | typevar | typeset => simp [toNumpyDtype, toDtype]
  | json | ellipsis | func | categorical => simp [toNumpyDtype, toDtype]
  | option | map | record | tuple | dshape =>
    constructor
    · intro h; exact absurd h (aux _ rfl _)
    · rintro (⟨_, _, _, e, _⟩ | ⟨_, e⟩ | ⟨_, _, e, _⟩) <;> cases e

/-- `istabular` is true exactly of arrays with one dimension and a record, or an optional record, as measure. -/
theorem C42.tabular_iff (ds : List Ty) (m : Ty) (hm : m.isDShape = false) : isTabular (.dshape (ds ++ [m])) = .ok true ↔
    ds.length = 1 ∧ ∃ fs, m = .record fs ∨ m = .option (.record fs) := by
  have hl : launderTy m = m := by cases m <;> first | rfl | simp [Ty.isDShape] at hm
  have hr : isRecord m = true ↔ ∃ fs, m = .record fs ∨ m = .option (.record fs) := by
    unfold isRecord; rw [hl]
    cases m with
    | record fs => exact ⟨fun _ => ⟨fs, .inl rfl⟩, fun _ => rfl⟩
    | option t => cases t <;> simp [Ty.unOption, Ty.isRecord]
    | _ => simp [Ty.unOption, Ty.isRecord]
  have hd : dshapeTy (.dshape (ds ++ [m])) = .ok (.dshape (ds ++ [m])) := rfl
  simp only [isTabular, hd, bind, Except.bind, Except.ok.injEq, Bool.and_eq_true, beq_iff_eq]
  simp [Ty.shape, Ty.measure, hr]

/-- `isdimension` is true exactly of a fixed length, `var` and an ellipsis. -/
theorem C42.dimension (t : Ty) : isDimension t = true ↔ (∃ n, t = .fixed n) ∨ t = .var ∨ ∃ s, t = .ellipsis s := by
  cases t <;> simp [isDimension]

/-- `iscollection` is true exactly of the arrays whose first dimension is a fixed length, `var` or an ellipsis (and of
such a dimension alone); it raises only for a bare record, and then `KeyError`. -/
theorem C42.collection (t : Ty) (hne : t ≠ .dshape []) :
    (isCollection t = .ok true ↔ ∃ d, (t = d ∨ ∃ rest, t = .dshape (d :: rest)) ∧
      ((∃ n, d = .fixed n) ∨ d = .var ∨ ∃ s, d = .ellipsis s)) ∧
    (∀ e, isCollection t = .error e ↔ e = .keyError ∧ ∃ fs, t = .record fs) := by
  have dim : ∀ d : Ty, isDimension d = true ↔ (∃ n, d = .fixed n) ∨ d = .var ∨ ∃ s, d = .ellipsis s := by
    intro d; cases d <;> simp [isDimension]
  have val : (∀ p r, t = .dshape (p :: r) → isCollection t = .ok (isDimension p)) ∧
      (∀ fs, t = .record fs → isCollection t = .error .keyError) ∧
      (t.isDShape = false → t.isRecord = false → isCollection t = .ok (isDimension t)) := by
    refine ⟨?_, ?_, ?_⟩
    · rintro p r rfl; rfl
    · rintro fs rfl; rfl
    · intro h h'; cases t <;> simp [Ty.isDShape] at h <;> simp [Ty.isRecord] at h' <;> rfl
  cases hd : t.isDShape with
  | true =>
    cases t <;> simp [Ty.isDShape] at hd
    rename_i ps
    cases ps with
    | nil => exact absurd rfl hne
    | cons p r =>
      rw [val.1 p r rfl]
      refine ⟨?_, by simp⟩
      rw [Except.ok.injEq, dim]
      constructor
      · intro h; exact ⟨p, .inr ⟨r, rfl⟩, h⟩
      · rintro ⟨d, h | ⟨r', h⟩, h'⟩
        · subst h; simp at h'
        · injection h with h; injection h with h _; subst h; exact h'
  | false =>
    cases hr : t.isRecord with
    | true =>
      cases t <;> simp [Ty.isRecord] at hr
      rename_i fs
      rw [val.2.1 fs rfl]
      refine ⟨by simp, fun e => ?_⟩
      simp [eq_comm]
    | false =>
      rw [val.2.2 hd hr]
      refine ⟨?_, ?_⟩
      · rw [Except.ok.injEq, dim]
        constructor
        · intro h; exact ⟨t, .inl rfl, h⟩
        · rintro ⟨d, h | ⟨r', h⟩, h'⟩
          · subst h; exact h'
          · subst h; simp [Ty.isDShape] at hd
      · intro e
        cases t <;> simp [Ty.isRecord] at hr <;> simp

/-- The exceptions: an option around an array hides the measure; time zones are not date-like; `float16` is not real;
time deltas are numeric. -/
theorem C42.witnesses :
    isNumeric (.option (.dshape [.fixed 3, tInt32])) = .ok false ∧
    isDateLike (.datetime (some (py"UTC"))) = false ∧ isReal tFloat16 = false ∧ isNumeric tTimedelta = .ok true := by
  refine ⟨rfl, by decide, by decide, rfl⟩

example : isNumeric (.dshape [.fixed 3, .var, .option tInt32]) = .ok true ∧ isReal (.dshape [.var, tFloat64]) = true ∧
    isTabular (.dshape [.var, .record [(py"a", tInt32)]]) = .ok true := ⟨rfl, by decide, by decide⟩

/-! ### C35 -/

/-- Datashapes whose dimensions are lengths, `var` and type variables, and whose measure is a type without parts or a
record of such datashapes. -/
inductive Simple : Ty → Prop where
  | leaf {t : Ty} : t.children = [] → t.isDim = false → t.isDShape = false → Simple t
  | record {fs : List (Str × Ty)} : (∀ f ∈ fs, Simple f.2) → Simple (.record fs)
  | array {ds : List Ty} {m : Ty} : (∀ d ∈ ds, d.isDim = true ∧ d.isEllipsis = false) → Simple m → m.isDShape = false →
      Simple (.dshape (ds ++ [m]))

/-- no `var` and no type variable anywhere inside -/
def NoVar (t : Ty) : Prop := ¬ Occurs .var t ∧ ∀ s, ¬ Occurs (.typevar s) t

theorem noVar_children {t : Ty} (h1 : t ≠ .var) (h2 : ∀ s, t ≠ .typevar s) : NoVar t ↔ ∀ c ∈ t.children, NoVar c := by
  constructor
  · intro ⟨a, b⟩ c hc
    exact ⟨fun h => a (.step hc h), fun s h => b s (.step hc h)⟩
  · intro h
    constructor
    · intro ho
      cases ho with
      | refl => exact h1 rfl
      | step hc ho => exact (h _ hc).1 ho
    · intro s ho
      cases ho with
      | refl => exact h2 s rfl
      | step hc ho => exact (h _ hc).2 s ho

theorem isFixedL_dims (ds : List Ty) (l : List Ty) (hl : l ≠ []) (hd : ∀ d ∈ ds, d.isDim = true ∧ d.isEllipsis = false) :
    ((∀ d ∈ ds, ∃ n, d = .fixed n) → isFixedL (ds ++ l) = isFixedL l) ∧
    ((∃ d ∈ ds, d = .var ∨ ∃ s, d = .typevar s) → ∃ b, isFixedL (ds ++ l) = .ok b ∧ b ≠ some true) := by
  induction ds with
  | nil => exact ⟨fun _ => rfl, by rintro ⟨d, h, _⟩; cases h⟩
  | cons d ds ih =>
    have ih := ih fun d h => hd d (by simp [h])
    obtain ⟨p, q, hpq⟩ : ∃ p q, ds ++ l = p :: q := List.exists_cons_of_ne_nil (by simp [hl])
    have hstep : ∀ n, isFixedL (.fixed n :: (ds ++ l)) = isFixedL (ds ++ l) := by
      intro n; rw [hpq]; simp [isFixedL, isFixedHead]
    constructor
    · intro h
      obtain ⟨n, rfl⟩ := h d (by simp)
      rw [List.cons_append, hstep]; exact ih.1 fun d h' => h d (by simp [h'])
    · rintro ⟨e, he, hv⟩
      have hdd := hd d (by simp)
      cases d with
      | fixed n =>
        rw [List.cons_append, hstep]
        apply ih.2
        rcases List.mem_cons.1 he with rfl | he
        · rcases hv with h | ⟨s, h⟩ <;> cases h
        · exact ⟨e, he, hv⟩
      | var => exact ⟨some false, by simp [isFixedL, isFixedHead], by simp⟩
      | typevar s => exact ⟨none, by simp [isFixedL, isFixedHead], by simp⟩
      | _ => simp [Ty.isDim, Ty.isEllipsis] at hdd

theorem simple_fixed {t : Ty} (h : Simple t) :
    (∃ b, isFixed t = .ok b) ∧ (isFixed t = .ok (some true) ↔ NoVar t) := by
  induction h with
  | @leaf t hc hd hs =>
    have hf : isFixed t = .ok (some true) := by
      cases t <;> first | rfl | (simp [Ty.isDim] at hd; done) | (simp [Ty.isDShape] at hs; done) | (simp [Ty.children] at hc; done) | skip
      · rename_i ps; simp only [Ty.children] at hc; subst hc; rfl
      · rename_i fs; simp only [Ty.children, List.map_eq_nil_iff] at hc; subst hc; rfl
    refine ⟨⟨_, hf⟩, ?_⟩
    rw [hf]
    simp only [true_iff]
    rw [noVar_children (by rintro rfl; simp [Ty.isDim] at hd) (by rintro s rfl; simp [Ty.isDim] at hd), hc]
    simp
  | @record fs hfs ih =>
    have key : ∀ gs : List (Str × Ty), (∀ f ∈ gs, (∃ b, isFixed f.2 = .ok b) ∧ (isFixed f.2 = .ok (some true) ↔ NoVar f.2)) →
        (∃ b, isFixedF gs = .ok b) ∧ (isFixedF gs = .ok (some true) ↔ ∀ f ∈ gs, NoVar f.2) := by
      intro gs
      induction gs with
      | nil => intro _; exact ⟨⟨_, rfl⟩, by simp [isFixedF]⟩
      | cons g gs ihg =>
        obtain ⟨n, t⟩ := g
        intro h
        obtain ⟨⟨b, hb⟩, hi⟩ := h (n, t) (by simp)
        have ihg := ihg fun f hf => h f (by simp [hf])
        simp only at hb hi
        simp only [isFixedF, hb, bind, Except.bind]
        rw [hb] at hi
        match b with
        | some true =>
          refine ⟨ihg.1, ?_⟩
          rw [ihg.2]
          have hn : NoVar t := hi.1 rfl
          simp [hn]
        | some false =>
          refine ⟨⟨_, rfl⟩, ?_⟩
          simp only [Except.ok.injEq, Option.some.injEq, Bool.false_eq_true, false_iff] at hi ⊢
          intro h; exact hi (h (n, t) (by simp))
        | none =>
          refine ⟨⟨_, rfl⟩, ?_⟩
          simp only [Except.ok.injEq, reduceCtorEq, false_iff] at hi
          simp only [Except.ok.injEq, Option.some.injEq, Bool.false_eq_true, false_iff]
          intro h; exact hi (h (n, t) (by simp))
    have := key fs ih
    simp only [isFixed]
    refine ⟨this.1, ?_⟩
    rw [this.2, noVar_children (by simp) (by simp)]
    simp only [Ty.children, List.mem_map]
    constructor
    · rintro h c ⟨f, hf, rfl⟩; exact h f hf
    · intro h f hf; exact h _ ⟨f, hf, rfl⟩
  | @array ds m hds hm hs ih =>
    have hdim := isFixedL_dims ds [m] (by simp) hds
    have hlast : isFixedL [m] = isFixed m ∧ (m.isDim = false) := by
      cases hm with
      | leaf hc hd _ =>
        refine ⟨?_, hd⟩
        cases m <;> first | rfl | (simp [Ty.isDim] at hd; done) | (simp [Ty.isDShape] at hs; done) | (simp [Ty.children] at hc; done) | skip
        rename_i ps
        simp only [Ty.children] at hc; subst hc; rfl
      | record => exact ⟨rfl, rfl⟩
      | array => simp [Ty.isDShape] at hs
    simp only [isFixed]
    have hN : NoVar (.dshape (ds ++ [m])) ↔ (∀ d ∈ ds, ∃ n, d = .fixed n) ∧ NoVar m := by
      rw [noVar_children (by simp) (by simp)]
      simp only [Ty.children, List.mem_append, List.mem_singleton]
      constructor
      · intro h
        refine ⟨fun d hd => ?_, h m (.inr rfl)⟩
        have h1 := h d (.inl hd)
        have h2 := hds d hd
        cases d with
        | fixed n => exact ⟨n, rfl⟩
        | var => exact absurd (.refl _) h1.1
        | typevar s => exact absurd (.refl _) (h1.2 s)
        | _ => simp [Ty.isDim, Ty.isEllipsis] at h2
      · rintro ⟨h1, h2⟩ c (hc | rfl)
        · obtain ⟨n, rfl⟩ := h1 c hc
          exact (noVar_children (by simp) (by simp)).2 (by simp [Ty.children])
        · exact h2
    by_cases hall : ∀ d ∈ ds, ∃ n, d = .fixed n
    · rw [hdim.1 hall, hlast.1]
      refine ⟨ih.1, ?_⟩
      rw [ih.2, hN]; exact ⟨fun h => ⟨hall, h⟩, fun h => h.2⟩
    · have : ∃ d ∈ ds, d = .var ∨ ∃ s, d = .typevar s := by
        apply Classical.byContradiction
        intro hn
        apply hall
        intro d hd
        have h2 := hds d hd
        cases d with
        | fixed n => exact ⟨n, rfl⟩
        | var => exact absurd ⟨_, hd, .inl rfl⟩ hn
        | typevar s => exact absurd ⟨_, hd, .inr ⟨s, rfl⟩⟩ hn
        | _ => simp [Ty.isDim, Ty.isEllipsis] at h2
      obtain ⟨b, hb, hne⟩ := hdim.2 this
      rw [hb]
      refine ⟨⟨_, rfl⟩, ?_⟩
      rw [hN]
      constructor
      · intro h; cases h; exact absurd rfl hne
      · intro h; exact absurd h.1 hall

/-- `isfixed` answers on every simple datashape. -/
theorem C35.total (t : Ty) (h : Simple t) : ∃ b, isFixed t = .ok b := (simple_fixed h).1

/-- It answers `True` exactly when there is no `var` and no type variable in it, at any depth. -/
theorem C35.true_iff (t : Ty) (h : Simple t) :
    isFixed t = .ok (some true) ↔ ¬ Occurs .var t ∧ ∀ s, ¬ Occurs (.typevar s) t := (simple_fixed h).2

theorem simple_no_ellipsis {t : Ty} (h : Simple t) : ∀ x, ¬ Occurs (.ellipsis x) t := by
  induction h with
  | @leaf t hc hd hs =>
    intro x ho
    cases ho with
    | refl => simp [Ty.isDim] at hd
    | step h _ => rw [hc] at h; cases h
  | @record fs hfs ih =>
    intro x ho
    cases ho with
    | step h ho =>
      simp only [Ty.children, List.mem_map] at h
      obtain ⟨f, hf, rfl⟩ := h
      exact ih f hf x ho
  | @array ds m hds hm hs ih =>
    intro x ho
    cases ho with
    | @step e _ h ho =>
      simp only [Ty.children, List.mem_append, List.mem_singleton] at h
      rcases h with h | rfl
      · have := hds _ h
        have hce : e.children = [] := by cases e <;> first | rfl | simp [Ty.isDim] at this
        cases ho with
        | refl => simp [Ty.isEllipsis] at this
        | step hc _ => rw [hce] at hc; cases hc
      · exact ih x ho

/-- So `isfixed` is sound for `has_var_dim`. -/
theorem C35.sound (t : Ty) (h : Simple t) (hf : isFixed t = .ok (some true)) : hasVarDim t = false := by
  cases e : hasVarDim t with
  | false => rfl
  | true =>
    rcases (C34.has_var_dim t).1 e with h1 | ⟨x, h1⟩
    · exact absurd h1 ((C35.true_iff t h).1 hf).1
    · exact absurd h1 (simple_no_ellipsis h x)

/-- Outside that class it is not: ellipses, and `var` under an option, in a tuple or in a function are overlooked. -/
theorem C35.unsound :
    (isFixed (.dshape [.ellipsis none, tInt32]) = .ok (some true) ∧ hasVarDim (.dshape [.ellipsis none, tInt32]) = true) ∧
    (isFixed (.option (.dshape [.var, tInt32])) = .ok (some true) ∧ hasVarDim (.option (.dshape [.var, tInt32])) = true) ∧
    (isFixed (.tuple [.dshape [.var, tInt32]]) = .ok (some true) ∧ hasVarDim (.tuple [.dshape [.var, tInt32]]) = true) ∧
    (isFixed (.dshape [.fixed 3, .map tInt32 (.dshape [.var, tInt32])]) = .ok (some true) ∧
      hasVarDim (.dshape [.fixed 3, .map tInt32 (.dshape [.var, tInt32])]) = true) := by
  refine ⟨⟨rfl, rfl⟩, ⟨rfl, rfl⟩, ⟨rfl, rfl⟩, ⟨rfl, rfl⟩⟩

/-- a parameter that decides the answer of `isfixed` -/
def Decisive (t : Ty) : Prop := t = .var ∨ (∃ s, t = .typevar s) ∨ ∃ fs, t = .record fs

theorem isFixedHead_none {t : Ty} (h : ¬ Decisive t) : isFixedHead t = none := by
  cases t <;> simp only [isFixedHead] <;> exact absurd (by simp [Decisive]) h

theorem isFixedL_skip (pre l : List Ty) (hl : l ≠ []) (h : ∀ p ∈ pre, ¬ Decisive p) : isFixedL (pre ++ l) = isFixedL l := by
  induction pre with
  | nil => rfl
  | cons p pre ih =>
    have hne : pre ++ l ≠ [] := by simp [hl]
    rw [List.cons_append, ← ih fun x hx => h x (by simp [hx])]
    cases hr : pre ++ l with
    | nil => exact absurd hr hne
    | cons q r => rw [isFixedL, isFixedHead_none (h p (by simp))]; simp

/-- The answer of `isfixed` on any array: it is decided by the first dimension or measure that is a type variable
(`None`), `var` (`False`) or a record (its answer); if there is none of these, it is `True`. -/
theorem C35.array (pre post : List Ty) (h : ∀ p ∈ pre, ¬ Decisive p) :
    (∀ s, isFixed (.dshape (pre ++ .typevar s :: post)) = .ok none) ∧
    isFixed (.dshape (pre ++ .var :: post)) = .ok (some false) ∧
    (∀ fs, isFixed (.dshape (pre ++ .record fs :: post)) = isFixed (.record fs)) ∧
    (pre ≠ [] → isFixed (.dshape pre) = .ok (some true)) := by
  refine ⟨fun s => ?_, ?_, fun fs => ?_, fun hne => ?_⟩
  · rw [isFixed, isFixedL_skip _ _ (by simp) h]; simp [isFixedL, isFixedHead]
  · rw [isFixed, isFixedL_skip _ _ (by simp) h]; simp [isFixedL, isFixedHead]
  · rw [isFixed, isFixedL_skip _ _ (by simp) h]; simp [isFixedL, isFixedHead, isFixed]
  · obtain ⟨l, x, rfl⟩ : ∃ l x, pre = l ++ [x] := ⟨pre.dropLast, pre.getLast hne, (List.dropLast_concat_getLast hne).symm⟩
    rw [isFixed, isFixedL_skip _ _ (by simp) fun p hp => h p (by simp [hp])]
    rw [isFixedL, isFixedHead_none (h x (by simp))]

/-- The answer on a record: the fields are asked in order, up to the first whose answer is not `True`; that one makes
the answer `False`, or the exception it raises is passed on. -/
theorem C35.fields (pre post : List (Str × Ty)) (n : Str) (t : Ty) (h : ∀ f ∈ pre, isFixed f.2 = .ok (some true)) :
    isFixed (.record pre) = .ok (some true) ∧
    (∀ b, isFixed t = .ok b → b ≠ some true → isFixed (.record (pre ++ (n, t) :: post)) = .ok (some false)) ∧
    (∀ e, isFixed t = .error e → isFixed (.record (pre ++ (n, t) :: post)) = .error e) := by
  have skip : ∀ l, isFixedF (pre ++ l) = isFixedF l := by
    intro l
    induction pre with
    | nil => rfl
    | cons f pre ih =>
      obtain ⟨m, u⟩ := f
      have hu := h (m, u) (by simp)
      simp only at hu
      rw [List.cons_append, isFixedF]
      simp only [hu, bind, Except.bind]
      exact ih fun x hx => h x (by simp [hx])
  refine ⟨?_, fun b hb hne => ?_, fun e he => ?_⟩
  · have := skip []
    rw [List.append_nil] at this
    rw [isFixed, this]; rfl
  · rw [isFixed, skip, isFixedF, hb]
    rcases b with _ | b
    · rfl
    · cases b
      · rfl
      · exact absurd rfl hne
  · rw [isFixed, skip, isFixedF, he]; rfl

/-- On any other type `isfixed` is `True`, except that a type variable gives `None`, a dimension and a type with a
misplaced ellipsis inside raise `TypeError`; in every case `isfixed(t)` is `isfixed(dshape(t))`. -/
theorem C35.objects (t : Ty) :
    (∀ s, t = .typevar s → isFixed t = .ok none) ∧
    ((t = .var ∨ ∃ n, t = .fixed n) → isFixed t = .error .typeError) ∧
    (¬ Decisive t → (∀ n, t ≠ .fixed n) → t.isDShape = false →
      isFixed t = if validOk t then .ok (some true) else .error .typeError) ∧
    isFixed t = (dshapeTy t >>= fun d => isFixed d) := by
  refine ⟨?_, ?_, ?_, ?_⟩
  · rintro s rfl; rfl
  · rintro (rfl | ⟨n, rfl⟩) <;> rfl
  · intro h1 h2 h3
    cases t <;> simp only [isFixed] <;> first
      | rfl
      | (exact absurd rfl (h2 _))
      | (simp [Ty.isDShape] at h3; done)
      | (refine absurd ?_ h1; simp [Decisive])
  · cases t with
    | record fs => simp [dshapeTy, Ty.isDShape, Ty.isUnit, Ty.isRecord, mkDS, checkDS, launderTy, Ty.cls, validOk, validOkL, Ty.isEllipsis, bind, Except.bind, isFixed, isFixedL, isFixedHead]
    | dshape ps => rfl
    | option x =>
      simp only [dshapeTy, Ty.isDShape, Ty.isUnit, Ty.isRecord, isFixed, bind, Except.bind]
      cases h : validOk (.option x) <;> simp [h, isFixed]
    | map k v =>
      simp only [dshapeTy, Ty.isDShape, Ty.isUnit, Ty.isRecord, isFixed, bind, Except.bind]
      cases h : validOk (.map k v) <;> simp [h, isFixed]
    | func ps =>
      simp only [dshapeTy, Ty.isDShape, Ty.isUnit, Ty.isRecord, isFixed, bind, Except.bind]
      cases h : validOk (.func ps) <;> simp [h, isFixed]
    | categorical c t o =>
      simp only [dshapeTy, Ty.isDShape, Ty.isUnit, Ty.isRecord, isFixed, bind, Except.bind]
      cases h : validOk (.categorical c t o) <;> simp [h, isFixed]
    | _ => rfl

/-- A type variable gives `None`, unless it is inside a record, where it gives `False`. -/
theorem C35.typevar : isFixed (.dshape [.fixed 3, .typevar (py"N"), tInt32]) = .ok none ∧
    isFixed (.record [(py"a", .dshape [.typevar (py"N"), tInt32])]) = .ok (some false) := ⟨rfl, rfl⟩

example : Simple (.dshape ([.fixed 10] ++ [.record [(py"name", tString), (py"amounts", .dshape ([.var] ++ [tInt32]))]])) := by
  refine .array (by simp [Ty.isDim, Ty.isEllipsis]) (.record ?_) rfl
  simp only [List.mem_cons, List.not_mem_nil, or_false]
  rintro f (rfl | rfl)
  · exact .leaf rfl rfl rfl
  · exact .array (by simp [Ty.isDim, Ty.isEllipsis]) (.leaf rfl rfl rfl) rfl

/-! ### C43 -/

/-- When `ishomogeneous(ds)` answers, it answers `True` exactly when there is at least one scalar and all of them are
equal: the scalars are what `collect(isscalar, ds)` finds, without dimensions. -/
theorem C43.homogeneous_iff (t d : Ty) (l : List Ty) (hd : dshapeTy t = .ok d) (hl : collect isScalar d = .ok l)
    (hok : ∀ x ∈ l, x.everywhere eqLocal = true) :
    isHomogeneous t = .ok true ↔
      (∃ x ∈ l, isDimension x = false) ∧
      ∀ x ∈ l, ∀ y ∈ l, isDimension x = false → isDimension y = false → pyEq x y = true := by
  simp only [isHomogeneous, hd, hl, bind, Except.bind, Except.ok.injEq, beq_iff_eq]
  generalize hk : (l.filter fun x => !isDimension x) = k
  have hmem : ∀ x, x ∈ k ↔ x ∈ l ∧ isDimension x = false := by intro x; rw [← hk]; simp
  have hkk : ∀ x ∈ k, x.everywhere eqLocal = true := fun x hx => hok x ((hmem x).1 hx).1
  have hsub := pyDistinct_sub k
  have hcov := pyDistinct_cover k hkk
  have hpw := pyDistinct_pairwise k
  constructor
  · intro h1
    obtain ⟨z, hz⟩ := List.length_eq_one_iff.1 h1
    rw [hz] at hsub hcov
    have hzk : z ∈ k := hsub z (by simp)
    refine ⟨⟨z, (hmem z).1 hzk⟩, ?_⟩
    intro x hx y hy dx dy
    have hxk := (hmem x).2 ⟨hx, dx⟩
    have hyk := (hmem y).2 ⟨hy, dy⟩
    obtain ⟨a, ha, ea⟩ := hcov x hxk
    obtain ⟨b, hb, eb⟩ := hcov y hyk
    rw [List.mem_singleton] at ha hb
    subst ha hb
    exact pyEq_trans (hkk x hxk) (hkk b hzk) (hkk y hyk) ea (pyEq_symm (hkk y hyk) (hkk b hzk) eb)
  · rintro ⟨⟨x, hx, dx⟩, hall⟩
    have hxk := (hmem x).2 ⟨hx, dx⟩
    obtain ⟨a, ha, _⟩ := hcov x hxk
    match hp : pyDistinct k with
    | [] => rw [hp] at ha; cases ha
    | [z] => rfl
    | u :: v :: r =>
      exfalso
      rw [hp] at hpw hsub
      have h1 := (List.pairwise_cons.1 hpw).1 v (by simp)
      have hu := (hmem u).1 (hsub u (by simp))
      have hv := (hmem v).1 (hsub v (by simp))
      rw [hall u hu.1 v hv.1 hu.2 hv.2] at h1
      cases h1

/-- The scalar types, spelled out (a type variable counts as one). -/
inductive ScalarType : Ty → Prop where
  | ctype (n : Str) (i a : Nat) : ScalarType (.ctype n i a)
  | null : ScalarType .null
  | date : ScalarType .date
  | time (z : Option Str) : ScalarType (.time z)
  | datetime (z : Option Str) : ScalarType (.datetime z)
  | timedelta (u : Str) : ScalarType (.timedelta u)
  | units (u : Str) (t : Ty) : ScalarType (.units u t)
  | bytes : ScalarType .bytes
  | string (n : Option Int) (e : Str) : ScalarType (.string n e)
  | decimal (p s : Int) : ScalarType (.decimal p s)
  | typevar (s : Str) : ScalarType (.typevar s)
  | categorical (c : List Lit) (t : Ty) (o : Bool) : ScalarType (.categorical c t o)
  | typeset (l : List Ty) (n : Option Str) : ScalarType (.typeset l n)

/-- `isscalar(ds)`: `ds`, or the content of a one-element `DataShape`, is a scalar type or an option of one; apart from
the dimensions `Fixed` and `Var`, which are units too. -/
theorem C43.scalar_iff (t : Ty) : isScalar t = true ↔
    ∃ u, (t = u ∨ t = .dshape [u]) ∧ ∃ v, (u = v ∨ u = .option v) ∧ (ScalarType v ∨ v = .var ∨ ∃ n, v = .fixed n) := by
  have key : ∀ v : Ty, (v.isUnit || v.isCategorical) = true ↔ (ScalarType v ∨ v = .var ∨ ∃ n, v = .fixed n) := by
    intro v
    constructor
    · intro h
      cases v <;> simp [Ty.isUnit, Ty.isCategorical] at h <;> first
        | exact .inl (by constructor)
        | exact .inr (.inl rfl)
        | exact .inr (.inr ⟨_, rfl⟩)
    · rintro (h | rfl | ⟨n, rfl⟩)
      · cases h <;> rfl
      · rfl
      · rfl
  have opt : ∀ u : Ty, (u.unOption.isUnit || u.unOption.isCategorical) = true ↔
      ∃ v, (u = v ∨ u = .option v) ∧ (ScalarType v ∨ v = .var ∨ ∃ n, v = .fixed n) := by
    intro u
    rw [key]
    constructor
    · intro h
      cases u with
      | option v => exact ⟨v, .inr rfl, h⟩
      | _ => exact ⟨_, .inl rfl, h⟩
    · rintro ⟨v, rfl | rfl, h⟩
      · rw [← key] at h ⊢
        cases u with
        | option v => simp [Ty.isUnit, Ty.isCategorical] at h
        | _ => exact h
      · exact h
  unfold isScalar
  rw [opt]
  constructor
  · rintro ⟨v, h, h'⟩
    by_cases hs : ∃ u, t = .dshape [u]
    · obtain ⟨u, rfl⟩ := hs
      exact ⟨u, .inr rfl, v, h, h'⟩
    · have : launderTy t = t := by
        unfold launderTy; split
        · exact absurd ⟨_, rfl⟩ hs
        · rfl
      rw [this] at h
      exact ⟨t, .inl rfl, v, h, h'⟩
  · rintro ⟨u, rfl | rfl, v, h, h'⟩
    · have : launderTy t = t := by
        unfold launderTy; split
        · rename_i w
          exfalso
          rw [← key] at h'
          rcases h with rfl | h
          · simp [Ty.isUnit, Ty.isCategorical] at h'
          · simp at h
        · rfl
      rw [this]; exact ⟨v, h, h'⟩
    · exact ⟨v, h, h'⟩

theorem outermost_everywhere {p q : Ty → Bool} {x t : Ty} (h : OutermostMatch p x t) (ht : t.everywhere q = true)
    (hv : ∀ s, q (.typevar s) = true) : x.everywhere q = true := by
  induction h with
  | here => exact ht
  | @down c t _ hc _ ih =>
    apply ih
    have : c ∈ t.children ∨ ∃ s, c = .typevar s := by
      clear ih ht
      cases t with
      | ellipsis s =>
        cases s with
        | none => simp [Ty.parts, Ty.children] at hc
        | some s => exact .inr ⟨s, by simpa [Ty.parts] using hc⟩
      | _ => simp_all [Ty.parts, Ty.children]
    rcases this with h | ⟨s, rfl⟩
    · exact everywhere_child ht h
    · simpa [Ty.everywhere] using hv s

/-- When `ishomogeneous(ds)` answers, it answers `True` exactly when `ds` has a scalar part and all its scalar parts
are the same type. A scalar part is an outermost part of `ds` that is scalar (`C43.scalar_iff`) and not a dimension. -/
theorem C43.answer (t d : Ty) (b : Bool) (hd : dshapeTy t = .ok d) (hok : d.everywhere eqLocal = true)
    (h : isHomogeneous t = .ok b) :
    b = true ↔ (∃ x, OutermostMatch isScalar x d ∧ isDimension x = false) ∧
      ∀ x y, OutermostMatch isScalar x d → OutermostMatch isScalar y d → isDimension x = false →
        isDimension y = false → Same x y := by
  obtain ⟨l, hl⟩ : ∃ l, collect isScalar d = .ok l := by
    simp only [isHomogeneous, hd, bind, Except.bind] at h
    split at h
    · cases h
    · exact ⟨_, by assumption⟩
  have hm := C40.members _ _ _ hl
  have hk : ∀ x ∈ l, x.everywhere eqLocal = true := fun x hx =>
    outermost_everywhere ((hm x).1 hx) hok (fun _ => rfl)
  have := C43.homogeneous_iff t d l hd hl hk
  rw [h] at this
  simp only [Except.ok.injEq] at this
  rw [this]
  constructor
  · rintro ⟨⟨x, hx, dx⟩, hall⟩
    refine ⟨⟨x, (hm x).1 hx, dx⟩, fun x y hx hy dx dy => ?_⟩
    have hx := (hm x).2 hx
    have hy := (hm y).2 hy
    exact (pyEq_same (hk x hx) (hk y hy)).1 (hall x hx y hy dx dy)
  · rintro ⟨⟨x, hx, dx⟩, hall⟩
    refine ⟨⟨x, (hm x).2 hx, dx⟩, fun x hx y hy dx dy => ?_⟩
    exact (pyEq_same (hk x hx) (hk y hy)).2 (hall x y ((hm x).1 hx) ((hm y).1 hy) dx dy)

/-- It raises exactly what `dshape(ds)` raises, and `TypeError` if an anonymous ellipsis is met, at any depth
(but not inside a scalar part). -/
theorem C43.raises (t : Ty) (e : PyErr) : isHomogeneous t = .error e ↔ dshapeTy t = .error e ∨
    (e = .typeError ∧ ∃ d, dshapeTy t = .ok d ∧ Reached isScalar (.ellipsis none) d) := by
  have key : ∀ x : Ty, isScalar x = false ∧ x.scalarParam = true ↔ x = .ellipsis none := by
    intro x
    cases x <;> try (simp [Ty.scalarParam, isScalar, launderTy, Ty.unOption, Ty.isUnit, Ty.isCategorical]; done)
    rename_i s
    cases s <;> simp [Ty.scalarParam, isScalar, launderTy, Ty.unOption, Ty.isUnit, Ty.isCategorical]
  unfold isHomogeneous
  cases hd : dshapeTy t with
  | error f => simp [bind, Except.bind]
  | ok d =>
    have hr := C40.raises isScalar d e
    simp only [key] at hr
    cases hc : collect isScalar d with
    | ok l =>
      rw [hc] at hr
      simp only [bind, Except.bind, hc, reduceCtorEq, false_or, false_iff] at hr ⊢
      rintro ⟨he, d', hd', hx⟩
      cases hd'
      exact hr ⟨he, _, hx, rfl⟩
    | error f =>
      rw [hc] at hr
      simp only [bind, Except.bind, hc, reduceCtorEq, false_or, Except.error.injEq] at hr ⊢
      rw [hr]
      constructor
      · rintro ⟨he, x, hx, rfl⟩; exact ⟨he, d, rfl, hx⟩
      · rintro ⟨he, d', hd', hx⟩; cases hd'; exact ⟨he, _, hx, rfl⟩

/-- For example in front of a measure. -/
theorem C43.ellipsis : isHomogeneous (.dshape [.ellipsis none, tInt32]) = .error .typeError := rfl

/-- Examples, and the case of no scalar at all. -/
theorem C43.cases : isHomogeneous (.dshape [.var, .fixed 3, tString]) = .ok true ∧
    isHomogeneous (.dshape [.var, .record [(py"name", tString), (py"amount", tInt32)]]) = .ok false ∧
    isHomogeneous (.dshape [.var, .record [(py"a", tInt32), (py"b", .dshape [.fixed 2, tInt32])]]) = .ok true ∧
    isHomogeneous .json = .ok false := by
  refine ⟨by decide, by decide, by decide, by decide⟩

end DS
