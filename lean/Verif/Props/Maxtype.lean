import Verif.Props.Typesets

/-
C31 maxtype, C33 registries.
-/
namespace DS

/-! ### C31 -/

/-- Specification: the widest type of the family of a type. -/
inductive MaxOf : Ty → Ty → Prop where
  | bool : MaxOf tBool tBool
  | signed {t : Ty} : t ∈ [tInt8, tInt16, tInt32, tInt64] → MaxOf t tInt64
  | unsigned {t : Ty} : t ∈ [tUint8, tUint16, tUint32, tUint64] → MaxOf t tUint64
  | floating {t : Ty} : t ∈ [tFloat32, tFloat64] → MaxOf t tFloat64
  | complex {t : Ty} : t ∈ [tComplex64, tComplex128] → MaxOf t tComplex128
  | decimal (p s : Int) : MaxOf (.decimal p s) (.decimal p s)
  | timedelta (u : Str) : MaxOf (.timedelta u) (.timedelta u)

/-- the thirteen members of `scalar` -/
def scalarTypes : List Ty :=
  [tBool, tInt8, tUint8, tInt16, tUint16, tInt32, tUint32, tInt64, tUint64, tFloat32, tFloat64, tComplex64, tComplex128]

theorem scalar_types : tsTypes tsScalar = scalarTypes := rfl

theorem pyEq_ctype {t : Ty} {n : Str} {i a : Nat} (h : pyEq t (.ctype n i a) = true) (hd : t.isDShape = false) :
    t = .ctype n i a := by
  cases t <;> simp_all [pyEq, eqM, Ty.target, Ty.noShape, Ty.measure, Ty.shape, Ty.isDShape]

theorem pyEq_ctype_self (n : Str) (i a : Nat) : pyEq (.ctype n i a) (.ctype n i a) = true := by
  simp [pyEq, eqM, Ty.target, Ty.noShape, Ty.measure, Ty.shape]

theorem pyIn_scalar {t : Ty} (hd : t.isDShape = false) : pyIn t scalarTypes = true ↔ t ∈ scalarTypes := by
  rw [pyIn_iff]
  have hc : ∀ y ∈ scalarTypes, ∃ n i a, y = .ctype n i a := by
    intro y hy
    simp only [scalarTypes, List.mem_cons, List.not_mem_nil, or_false] at hy
    rcases hy with rfl | rfl | rfl | rfl | rfl | rfl | rfl | rfl | rfl | rfl | rfl | rfl | rfl <;> exact ⟨_, _, _, rfl⟩
  constructor
  · rintro ⟨y, hy, e⟩
    obtain ⟨n, i, a, rfl⟩ := hc y hy
    rw [pyEq_ctype e hd]; exact hy
  · intro h
    obtain ⟨n, i, a, rfl⟩ := hc t h
    exact ⟨_, h, pyEq_ctype_self n i a⟩

theorem matches_scalar (t : Ty) (h1 : t.isDShape = false) (h2 : t.isRecord = false) (h3 : ∀ o m, t ≠ .typeset o m) :
    matchesTypeset t tsScalar = .ok (pyIn t scalarTypes) :=
  C32.matches t _ _ _ h1 h2 h3 (by simp [tBool])

/-- what `maxtype` does after stripping dimensions and option -/
def maxCore (m : Ty) : Except PyErr Ty := do
  if !(← matchesTypeset m tsScalar) && !m.isDecimalOrDelta then .error .typeError
  else do
    (if pyEq m tBool then .ok tBool
      else if m.isDecimalOrDelta then .ok m
      else do
        let s ← supertype m
        match maxItemsize (tsTypes s) with
        | some x => .ok x
        | none => .error .valueError)

theorem maxtype_core (t : Ty) : maxtype t =
    (maxCore t.measure.unOption).map fun r => if t.measure.isOption then mkOption r else r := by
  show (do
    if !(← matchesTypeset t.measure.unOption tsScalar) && !t.measure.unOption.isDecimalOrDelta then .error .typeError
    else do
      let result ← (if pyEq t.measure.unOption tBool then .ok tBool
        else if t.measure.unOption.isDecimalOrDelta then .ok t.measure.unOption
        else do
          let s ← supertype t.measure.unOption
          match maxItemsize (tsTypes s) with
          | some x => .ok x
          | none => .error .valueError)
      .ok (if t.measure.isOption then mkOption result else result)) = _
  unfold maxCore
  cases matchesTypeset t.measure.unOption tsScalar with
  | error e => rfl
  | ok b =>
    simp only [bind, Except.bind]
    by_cases hc : (!b && !t.measure.unOption.isDecimalOrDelta) = true
    · rw [if_pos hc, if_pos hc]; rfl
    · rw [if_neg hc, if_neg hc]
      by_cases h1 : pyEq t.measure.unOption tBool = true
      · rw [if_pos h1]; rfl
      · rw [if_neg h1]
        by_cases h2 : t.measure.unOption.isDecimalOrDelta = true
        · rw [if_pos h2]; rfl
        · rw [if_neg h2]
          cases supertype t.measure.unOption with
          | error e => rfl
          | ok s => simp only; cases maxItemsize (tsTypes s) <;> rfl

theorem maxCore_iff (m : Ty) (h1 : m.isDShape = false) (h2 : m.isRecord = false) (h3 : ∀ o n, m ≠ .typeset o n) (r : Ty) :
    (maxCore m = .ok r ↔ MaxOf m r) ∧ ((∀ r, ¬ MaxOf m r) → maxCore m = .error .typeError) := by
  by_cases hs : m ∈ scalarTypes
  · have hs' := hs
    simp only [scalarTypes, List.mem_cons, List.not_mem_nil, or_false] at hs'
    have key : ∀ w, maxCore m = .ok w → (∀ r, MaxOf m r ↔ w = r) →
        (maxCore m = .ok r ↔ MaxOf m r) ∧ ((∀ r, ¬ MaxOf m r) → maxCore m = .error .typeError) := by
      intro w hw h
      rw [hw]
      refine ⟨by rw [h]; simp, fun hn => absurd ((h w).2 rfl) (hn w)⟩
    have uniq : ∀ m w, MaxOf m w → m ∈ scalarTypes → ∀ r, MaxOf m r → w = r := by
      intro m w hw hm r hr
      cases hw <;> cases hr <;> first | rfl | (simp_all [tBool, tInt8, tInt16, tInt32, tInt64, tUint8, tUint16, tUint32, tUint64, tFloat32, tFloat64, tComplex64, tComplex128]; done) | skip
      all_goals
        rename_i ha hb
        simp [tBool, tInt8, tInt16, tInt32, tInt64, tUint8, tUint16, tUint32, tUint64, tFloat32, tFloat64, tComplex64, tComplex128] at ha hb
        rcases ha with rfl | rfl | rfl | rfl <;> simp at hb
    have fin : ∀ w, maxCore m = .ok w → MaxOf m w →
        (maxCore m = .ok r ↔ MaxOf m r) ∧ ((∀ r, ¬ MaxOf m r) → maxCore m = .error .typeError) := by
      intro w hw hm
      refine key w hw fun r => ⟨uniq m w hm hs r, ?_⟩
      rintro rfl; exact hm
    rcases hs' with rfl | rfl | rfl | rfl | rfl | rfl | rfl | rfl | rfl | rfl | rfl | rfl | rfl
    · exact fin tBool rfl .bool
    · exact fin tInt64 rfl (.signed (by simp))
    · exact fin tUint64 rfl (.unsigned (by simp))
    · exact fin tInt64 rfl (.signed (by simp))
    · exact fin tUint64 rfl (.unsigned (by simp))
    · exact fin tInt64 rfl (.signed (by simp))
    · exact fin tUint64 rfl (.unsigned (by simp))
    · exact fin tInt64 rfl (.signed (by simp))
    · exact fin tUint64 rfl (.unsigned (by simp))
    · exact fin tFloat64 rfl (.floating (by simp))
    · exact fin tFloat64 rfl (.floating (by simp))
    · exact fin tComplex128 rfl (.complex (by simp))
    · exact fin tComplex128 rfl (.complex (by simp))
  · have hb : pyIn m scalarTypes = false := by
      cases e : pyIn m scalarTypes with
      | false => rfl
      | true => exact absurd ((pyIn_scalar h1).1 e) hs
    have hnb : pyEq m tBool = false := by
      cases e : pyEq m tBool with
      | false => rfl
      | true => exact absurd (by rw [pyEq_ctype (n := py"bool") e h1]; simp [scalarTypes, tBool]) hs
    cases hdd : m.isDecimalOrDelta with
    | true =>
      have hv : maxCore m = .ok m := by
        simp only [maxCore, matches_scalar m h1 h2 h3, hb, hdd, hnb, bind, Except.bind]; rfl
      rw [hv]
      have : MaxOf m m := by cases m <;> first | exact .decimal _ _ | exact .timedelta _ | (simp [Ty.isDecimalOrDelta] at hdd; done)
      refine ⟨?_, fun h => absurd this (h m)⟩
      constructor
      · intro h; cases h; exact this
      · intro h
        cases m <;> first | (simp [Ty.isDecimalOrDelta] at hdd; done) | skip
        all_goals
          cases h <;> first | rfl | (rename_i h; simp [tBool, tInt8, tInt16, tInt32, tInt64, tUint8, tUint16, tUint32, tUint64, tFloat32, tFloat64, tComplex64, tComplex128] at h)
    | false =>
      have hv : maxCore m = .error .typeError := by
        simp only [maxCore, matches_scalar m h1 h2 h3, hb, hdd, bind, Except.bind]; rfl
      rw [hv]
      refine ⟨?_, fun _ => rfl⟩
      constructor
      · intro h; cases h
      · intro h
        exfalso
        cases h with
        | bool => exact hs (by simp [scalarTypes])
        | signed h | unsigned h | floating h | complex h =>
          apply hs
          simp only [List.mem_cons, List.not_mem_nil, or_false] at h
          simp only [scalarTypes, List.mem_cons, List.not_mem_nil, or_false]
          grind
        | decimal => simp [Ty.isDecimalOrDelta] at hdd
        | timedelta => simp [Ty.isDecimalOrDelta] at hdd

theorem MaxOf.shape {m r : Ty} (h : MaxOf m r) : m.isDShape = false ∧ m.isRecord = false ∧ (∀ o n, m ≠ .typeset o n) ∧
    m.isOption = false ∧ m.measure = m := by
  cases h with
  | bool => exact ⟨rfl, rfl, by simp [tBool], rfl, rfl⟩
  | signed h | unsigned h | floating h | complex h =>
    simp only [List.mem_cons, List.not_mem_nil, or_false] at h
    first
    | (rcases h with rfl | rfl | rfl | rfl <;> exact ⟨rfl, rfl, (by intro o n h; cases h), rfl, rfl⟩)
    | (rcases h with rfl | rfl <;> exact ⟨rfl, rfl, (by intro o n h; cases h), rfl, rfl⟩)
  | decimal => exact ⟨rfl, rfl, by simp, rfl, rfl⟩
  | timedelta => exact ⟨rfl, rfl, by simp, rfl, rfl⟩

theorem MaxOf.idem {m r : Ty} (h : MaxOf m r) : MaxOf r r := by
  cases h with
  | bool => exact .bool
  | signed => exact .signed (by simp)
  | unsigned => exact .unsigned (by simp)
  | floating => exact .floating (by simp)
  | complex => exact .complex (by simp)
  | decimal => exact .decimal _ _
  | timedelta => exact .timedelta _

theorem MaxOf.launder {m r : Ty} (h : MaxOf m r) : launderTy r = r := by
  have := h.idem.shape.1
  cases r <;> first | rfl | simp [Ty.isDShape] at this

/-- the measures `maxtype` is meant for: not a `DataShape` (a measure never is), not a record or `TypeSet`, and the
same for the content of an option -/
def PlainMeasure (m : Ty) : Prop :=
  m.isDShape = false ∧ m.unOption.isDShape = false ∧ m.unOption.isRecord = false ∧ ∀ o n, m.unOption ≠ .typeset o n

/-- `maxtype(m)` returns `r` exactly when `r` is the widest type of the family of `m`, with an option kept. -/
theorem C31.ok_iff (m r : Ty) (hm : PlainMeasure m) :
    maxtype m = .ok r ↔ (m.isOption = false ∧ MaxOf m r) ∨ ∃ m' r', m = .option m' ∧ MaxOf m' r' ∧ r = .option r' := by
  obtain ⟨h1, h2, h3, h4⟩ := hm
  have hmm : m.measure = m := by cases m <;> first | rfl | simp [Ty.isDShape] at h1
  rw [maxtype_core, hmm]
  cases hopt : m.isOption with
  | false =>
    have hu : m.unOption = m := by cases m <;> first | rfl | simp [Ty.isOption] at hopt
    rw [hu] at h2 h3 h4 ⊢
    have := (maxCore_iff m h2 h3 h4 r).1
    rw [← this]
    constructor
    · intro h; left; refine ⟨rfl, ?_⟩; cases hc : maxCore m with
      | error e => rw [hc] at h; cases h
      | ok v => rw [hc] at h; simpa [Except.map] using h
    · rintro (⟨_, h⟩ | ⟨m', r', rfl, _⟩)
      · rw [h]; rfl
      · simp [Ty.isOption] at hopt
  | true =>
    obtain ⟨m', rfl⟩ : ∃ m', m = .option m' := by cases m <;> simp [Ty.isOption] at hopt; exact ⟨_, rfl⟩
    simp only [Ty.unOption] at h2 h3 h4 ⊢
    have hi := fun r => (maxCore_iff m' h2 h3 h4 r).1
    constructor
    · intro h
      cases hc : maxCore m' with
      | error e => rw [hc] at h; cases h
      | ok v =>
        have hv := (hi v).1 hc
        rw [hc] at h
        simp only [Except.map, if_true, Except.ok.injEq] at h
        exact .inr ⟨m', v, rfl, hv, by rw [← h, mkOption, hv.launder]⟩
    · rintro (⟨h, _⟩ | ⟨m'', r', e, hr, rfl⟩)
      · cases h
      · cases e
        rw [(hi r').2 hr]
        simp [Except.map, mkOption, hr.launder]

/-- Otherwise it raises `TypeError`. -/
theorem C31.rejects (m : Ty) (hm : PlainMeasure m) (h : ∀ r, ¬ MaxOf m.unOption r) : maxtype m = .error .typeError := by
  obtain ⟨h1, h2, h3, h4⟩ := hm
  have hmm : m.measure = m := by cases m <;> first | rfl | simp [Ty.isDShape] at h1
  rw [maxtype_core, hmm, (maxCore_iff m.unOption h2 h3 h4 m).2 h]; rfl

/-- Records raise `KeyError` instead. -/
theorem C31.record (fs : List (Str × Ty)) : maxtype (.record fs) = .error .keyError := by
  have hb : pyIn (.record fs) scalarTypes = false := by
    simp [pyIn, scalarTypes, pyEq, eqM, Ty.target, Ty.noShape, Ty.measure, tBool, tInt8, tInt16, tInt32, tInt64, tUint8,
      tUint16, tUint32, tUint64, tFloat32, tFloat64, tComplex64, tComplex128]
  rw [maxtype_core]
  simp only [Ty.measure, Ty.unOption, maxCore, matchesTypeset, tsContains, scalar_types, hb, pyIter, bind, Except.bind]
  rfl

/-- `maxtype` only looks at the measure. -/
theorem C31.measure_only (ds : List Ty) (m : Ty) (hm : m.isDShape = false) : maxtype (.dshape (ds ++ [m])) = maxtype m := by
  have hmm : m.measure = m := by cases m <;> first | rfl | simp [Ty.isDShape] at hm
  rw [maxtype_core, maxtype_core, hmm]
  simp [Ty.measure]

/-- It is idempotent. -/
theorem C31.idempotent (m r : Ty) (hm : PlainMeasure m) (h : maxtype m = .ok r) : maxtype r = .ok r := by
  replace h := (C31.ok_iff m r hm).1 h
  rcases h with ⟨_, h⟩ | ⟨m', r', rfl, h, rfl⟩
  · obtain ⟨a, b, c, d, e⟩ := h.idem.shape
    have hu : r.unOption = r := by cases r <;> first | rfl | simp [Ty.isOption] at d
    exact (C31.ok_iff r r ⟨a, by rw [hu]; exact a, by rw [hu]; exact b, by rw [hu]; exact c⟩).2 (.inl ⟨d, h.idem⟩)
  · obtain ⟨a, b, c, d, e⟩ := h.idem.shape
    exact (C31.ok_iff (.option r') (.option r') ⟨rfl, a, b, c⟩).2 (.inr ⟨r', r', rfl, h.idem, rfl⟩)

/-- It keeps optionality. -/
theorem C31.keeps_option (m r : Ty) (hm : PlainMeasure m) (h : maxtype m = .ok r) : r.isOption = m.isOption := by
  replace h := (C31.ok_iff m r hm).1 h
  rcases h with ⟨h1, h⟩ | ⟨m', r', rfl, h, rfl⟩
  · rw [h1, h.idem.shape.2.2.2.1]
  · rfl

/-- It never narrows: the item size does not shrink, and the result is the largest member of the family. -/
theorem C31.never_narrows (m r : Ty) (hm : PlainMeasure m) (h : maxtype m = .ok r) :
    m.unOption.itemsize ≤ r.unOption.itemsize ∧
    ∀ x, MaxOf x r.unOption → x.itemsize ≤ r.unOption.itemsize := by
  have key : ∀ x w, MaxOf x w → x.itemsize ≤ w.itemsize := by
    intro x w h
    cases h with
    | signed h | unsigned h | floating h | complex h =>
      simp only [List.mem_cons, List.not_mem_nil, or_false] at h
      first
      | (rcases h with rfl | rfl | rfl | rfl <;> decide)
      | (rcases h with rfl | rfl <;> decide)
    | _ => exact Nat.le_refl _
  replace h := (C31.ok_iff m r hm).1 h
  rcases h with ⟨h1, h⟩ | ⟨m', r', rfl, h, rfl⟩
  · have hu : m.unOption = m := by cases m <;> first | rfl | simp [Ty.isOption] at h1
    have hr : r.unOption = r := by
      have := h.idem.shape.2.2.2.1
      cases r <;> first | rfl | simp [Ty.isOption] at this
    rw [hu, hr]; exact ⟨key _ _ h, fun x hx => key _ _ hx⟩
  · exact ⟨key _ _ h, fun x hx => key _ _ hx⟩

/-- The result is of the same family: `supertype` agrees (decimals and time deltas have none and are unchanged). -/
theorem C31.same_family (m r : Ty) (hm : PlainMeasure m) (h : maxtype m = .ok r) :
    (m.unOption.isDecimalOrDelta = true ∧ r = m) ∨ ∃ s, supertype m = .ok s ∧ supertype r = .ok s := by
  have key : ∀ x w, MaxOf x w → (x.isDecimalOrDelta = true ∧ w = x) ∨
      ∃ s, supertype x = .ok s ∧ supertype w = .ok s ∧ supertype (.option x) = .ok s ∧ supertype (.option w) = .ok s := by
    intro x w h
    cases h with
    | bool => exact .inr ⟨_, rfl, rfl, rfl, rfl⟩
    | signed h | unsigned h | floating h | complex h =>
      right
      simp only [List.mem_cons, List.not_mem_nil, or_false] at h
      first
      | (rcases h with rfl | rfl | rfl | rfl <;> exact ⟨_, rfl, rfl, rfl, rfl⟩)
      | (rcases h with rfl | rfl <;> exact ⟨_, rfl, rfl, rfl, rfl⟩)
    | _ => exact .inl ⟨rfl, rfl⟩
  replace h := (C31.ok_iff m r hm).1 h
  rcases h with ⟨h1, h⟩ | ⟨m', r', rfl, h, rfl⟩
  · have hu : m.unOption = m := by cases m <;> first | rfl | simp [Ty.isOption] at h1
    rw [hu]
    rcases key _ _ h with h | ⟨s, a, b, _, _⟩
    · exact .inl h
    · exact .inr ⟨s, a, b⟩
  · rcases key _ _ h with ⟨a, rfl⟩ | ⟨s, _, _, a, b⟩
    · exact .inl ⟨a, rfl⟩
    · exact .inr ⟨s, a, b⟩

/-- `float16` has a supertype in the table but is not accepted; nor is `?` of an array or of another option. -/
theorem C31.float16 : maxtype tFloat16 = .error .typeError ∧ supertype tFloat16 = .error .assertion ∧
    maxtype (.option (.dshape [.fixed 3, tInt32])) = .error .typeError ∧
    maxtype (.option (.option tInt32)) = .error .typeError ∧ maxtype (.typeset [tBool] none) = .error .keyError := by
  refine ⟨rfl, rfl, rfl, rfl, rfl⟩

example : PlainMeasure (.option tInt8) ∧ maxtype (.option tInt8) = .ok (.option tInt64) ∧ MaxOf tInt8 tInt64 :=
  ⟨⟨rfl, rfl, rfl, by simp [Ty.unOption, tInt8]⟩, rfl, .signed (by simp)⟩

/-! ### C33 -/

/-- Specification of a registry: a partial map; registering an existing name changes nothing and raises. -/
def regSpec {α : Type} (f : Str → Option α) : RegOp α → (Str → Option α) × RegOut α
  | .register n v => if (f n).isSome then (f, .raised .typeError) else (fun m => if m = n then some v else f m, .done)
  | .define n v => (fun m => if m = n then some v else f m, .done)
  | .lookup n => (f, match f n with | some v => .value v | none => .raised .keyError)

/-- the outputs of a sequence of uses -/
def Registry.outs {α : Type} (r : Registry α) : List (RegOp α) → List (RegOut α)
  | [] => []
  | o :: os => (r.step o).2 :: Registry.outs (r.step o).1 os

/-- the outputs of the specification -/
def regSpecOuts {α : Type} (f : Str → Option α) : List (RegOp α) → List (RegOut α)
  | [] => []
  | o :: os => (regSpec f o).2 :: regSpecOuts (regSpec f o).1 os

theorem Registry.lookup_set {α : Type} (r : Registry α) (n : Str) (v : α) (m : Str) :
    (r.set n v).lookup m = if m = n then some v else r.lookup m := by
  induction r with
  | nil =>
    by_cases h : m = n
    · subst h; simp [Registry.set, List.lookup]
    · have hb : (m == n) = false := by simpa using h
      simp [Registry.set, List.lookup, h, hb]
  | cons p r ih =>
    obtain ⟨k, w⟩ := p
    simp only [Registry.set]
    by_cases hk : k = n
    · subst hk
      by_cases h : m = k
      · subst h; simp [List.lookup]
      · have hb : (m == k) = false := by simpa using h
        simp [List.lookup, h, hb]
    · rw [if_neg hk]
      by_cases h : m = k
      · subst h; simp [List.lookup, hk]
      · have hb : (m == k) = false := by simpa using h
        simp only [List.lookup, hb, ih]

/-- Every sequence of registrations, definitions and lookups behaves exactly like the abstract partial map. -/
theorem C33.refines {α : Type} (r : Registry α) (ops : List (RegOp α)) :
    r.outs ops = regSpecOuts (fun n => r.lookup n) ops := by
  induction ops generalizing r with
  | nil => rfl
  | cons o os ih =>
    have key : ∀ r : Registry α, ((r.step o).2 = (regSpec (fun n => r.lookup n) o).2) ∧
        (fun n => (r.step o).1.lookup n) = (regSpec (fun n => r.lookup n) o).1 := by
      intro r
      cases o with
      | register n v =>
        simp only [Registry.step, regSpec]
        cases h : r.lookup n with
        | none => simp only [Option.isSome_none, Bool.false_eq_true, if_false, true_and]
                  funext m; rw [Registry.lookup_set]
        | some w => simp
      | define n v =>
        simp only [Registry.step, regSpec, true_and]
        funext m; rw [Registry.lookup_set]
      | lookup n =>
        simp only [Registry.step, regSpec]
        cases h : r.lookup n <;> simp
    simp only [Registry.outs, regSpecOuts, ih, (key r).1, (key r).2]

/-- the operations that assign a name unconditionally (class creation, named `DataShape`) -/
def RegOp.defines {α : Type} (n : Str) : RegOp α → Bool
  | .define m _ => m == n
  | _ => false

/-- A bound name keeps its value over every sequence of registrations and lookups. -/
theorem C33.stable {α : Type} (r : Registry α) (ops : List (RegOp α)) (n : Str) (v : α) (hv : r.lookup n = some v)
    (hd : ∀ o ∈ ops, o.defines n = false) : (r.run ops).lookup n = some v := by
  induction ops generalizing r with
  | nil => exact hv
  | cons o os ih =>
    apply ih _ _ fun o' h => hd o' (by simp [h])
    have hdo := hd o (by simp)
    cases o with
    | register m w =>
      simp only [Registry.step]
      cases h : r.lookup m with
      | some _ => exact hv
      | none =>
        simp only [Registry.lookup_set]
        by_cases e : n = m
        · subst e; rw [hv] at h; cases h
        · rw [if_neg e]; exact hv
    | define m w =>
      simp only [RegOp.defines, beq_eq_false_iff_ne] at hdo
      simp only [Registry.step, Registry.lookup_set]
      rw [if_neg fun e => hdo e.symm]; exact hv
    | lookup m =>
      simp only [Registry.step]
      cases r.lookup m <;> exact hv

/-- Registering a bound name raises `TypeError` and changes nothing. -/
theorem C33.second_raises {α : Type} (r : Registry α) (n : Str) (v w : α) (hv : r.lookup n = some v) :
    r.step (.register n w) = (r, .raised .typeError) := by simp [Registry.step, hv]

/-- the first value registered under `n` in a sequence of uses -/
def firstRegistered {α : Type} (n : Str) : List (RegOp α) → Option α
  | [] => none
  | .register m v :: os => if m = n then some v else firstRegistered n os
  | _ :: os => firstRegistered n os

/-- Over any sequence of registrations and lookups from an unbound name, a later lookup returns the first registration
(and raises `KeyError` if there is none). -/
theorem C33.first_wins {α : Type} (r : Registry α) (ops : List (RegOp α)) (n : Str) (hn : r.lookup n = none)
    (hd : ∀ o ∈ ops, o.defines n = false) : (r.run ops).lookup n = firstRegistered n ops := by
  induction ops generalizing r with
  | nil => exact hn
  | cons o os ih =>
    have hd' : ∀ o ∈ os, o.defines n = false := fun o' h => hd o' (by simp [h])
    have hdo := hd o (by simp)
    cases o with
    | register m v =>
      simp only [Registry.run, firstRegistered]
      by_cases e : m = n
      · subst e
        rw [if_pos rfl]
        apply C33.stable _ _ _ _ _ hd'
        simp [Registry.step, hn, Registry.lookup_set]
      · rw [if_neg e]
        apply ih _ _ hd'
        simp only [Registry.step]
        cases h : r.lookup m with
        | some _ => exact hn
        | none => simp only [Registry.lookup_set]; rw [if_neg fun x => e x.symm]; exact hn
    | define m w =>
      simp only [RegOp.defines, beq_eq_false_iff_ne] at hdo
      simp only [Registry.run, firstRegistered]
      apply ih _ _ hd'
      simp only [Registry.step, Registry.lookup_set]
      rw [if_neg fun e => hdo e.symm]; exact hn
    | lookup m =>
      simp only [Registry.run, firstRegistered]
      apply ih _ _ hd'
      simp only [Registry.step]
      cases r.lookup m <;> exact hn

/-- Class creation and named `DataShape`s overwrite whatever was registered. -/
theorem C33.overwrite {α : Type} (r : Registry α) (n : Str) (v : α) :
    ((r.step (.define n v)).1).lookup n = some v := by
  simp [Registry.step, Registry.lookup_set]

example : (Registry.run (α := Nat) [] [.register (py"a") 1, .register (py"a") 2, .register (py"b") 3]).lookup (py"a") = some 1 := by
  decide

end DS
