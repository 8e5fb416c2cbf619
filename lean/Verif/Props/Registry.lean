import Verif.Spec.Registry
import Verif.Props.Names
import Verif.Props.Maxtype
import Verif.Props.Util
import Verif.Props.CallErrors

/-
C62: the registry of type names, and the dtypes that are looked up in it.
-/
namespace DS

theorem loaded_nodup : (loaded.map (·.1)).Nodup := by decide +kernel

theorem loaded_none {n : Str} (h : n ∉ loaded.map (·.1)) : loaded.lookup n = none := by
  cases hl : loaded.lookup n with
  | none => rfl
  | some e => exact absurd (List.mem_map.2 ⟨_, lookup_mem hl, rfl⟩) h

/-- a name that begins with `p`, which no registered name does -/
theorem loaded_prefix {p r : Str} (h : (loaded.map (·.1)).all (fun k => !p.isPrefixOf k) = true) : loaded.lookup (p ++ r) = none := by
  apply loaded_none
  intro hm
  have := List.all_eq_true.1 h _ hm
  have hp : p.isPrefixOf (p ++ r) = true := List.isPrefixOf_iff_prefix.2 (List.prefix_append _ _)
  simp [hp] at this

/-- a name that is `p` with a number behind it -/
theorem loaded_number {p : Str} {n : Nat} (h : (loaded.map (·.1)).all (fun k => !(p.isPrefixOf k &&
    match k.drop p.length with | c :: _ => isDigit c | [] => false)) = true) : loaded.lookup (p ++ natStr n) = none := by
  apply loaded_none
  intro hm
  have := List.all_eq_true.1 h _ hm
  obtain ⟨c, r, e, hc, _⟩ := natStr_cons n
  have hp : p.isPrefixOf (p ++ natStr n) = true := List.isPrefixOf_iff_prefix.2 (List.prefix_append _ _)
  rw [e] at hp this
  simp [hp, hc] at this

/-- **C62.** Importing the package registers every name once: no registration raises. -/
theorem C62.importing : ∀ o ∈ Registry.outs [] loading, (match o with | .done => True | _ => False) := by
  have : (Registry.outs [] loading).all (fun o => match o with | .done => true | _ => false) = true := by decide +kernel
  intro o ho
  have := List.all_eq_true.1 this o ho
  cases o <;> simp_all

/-- the classes and the types -/
theorem loaded_eq : loaded =
  ([py"_", py"Mono", py"Unit", py"Ellipsis", py"Null", py"Date", py"Time", py"DateTime", py"TimeDelta", py"Units", py"Bytes",
    py"String", py"Decimal", py"DataShape", py"Option", py"CType", py"Fixed", py"Var", py"TypeVar", py"Function", py"Map",
    py"Record", py"Categorical", py"Tuple", py"JSON"].map fun n => (n, Entry.cls n)) ++
  ([(py"bool", tBool), (py"char", tChar), (py"int8", tInt8), (py"int16", tInt16), (py"int32", tInt32), (py"int64", tInt64),
    (py"int", tInt32), (py"uint8", tUint8), (py"uint16", tUint16), (py"uint32", tUint32), (py"uint64", tUint64),
    (py"float16", tFloat16), (py"float32", tFloat32), (py"float64", tFloat64), (py"real", tFloat64),
    (py"complex[float32]", tComplex64), (py"complex[float64]", tComplex128), (py"complex64", tComplex64),
    (py"complex128", tComplex128), (py"date", .date), (py"time", .time none), (py"datetime", .datetime none),
    (py"timedelta", tTimedelta), (py"null", .null), (py"intptr", tInt64), (py"uintptr", tUint64), (py"void", tVoid),
    (py"object", tObject), (py"float", tFloat32), (py"double", tFloat64), (py"bytes", .bytes), (py"string", tString)].map
    fun p => (p.1, Entry.ty p.2)) ++ [(py"TypeSet", .cls (py"TypeSet"))] := by rfl

/-- **C62.** After the import, exactly the documented names are bound to types, and to the documented types. -/
theorem C62.registered (n : Str) (t : Ty) : loaded.lookup n = some (.ty t) ↔ RegisteredType n t := by
  constructor
  · intro h
    rw [lookup_nodup loaded_nodup, loaded_eq] at h
    simp only [List.mem_append, List.mem_map, Prod.mk.injEq, Entry.ty.injEq, List.mem_cons, List.not_mem_nil, or_false,
      reduceCtorEq, and_false, exists_false, false_or, and_assoc, Prod.exists] at h
    obtain ⟨a, b, h, rfl, rfl⟩ := h
    have named : ∀ {n t}, dtypeTable.lookup n = some t → n ≠ py"json" → n ≠ py"complex" → RegisteredType n t :=
      fun h h1 h2 => .named ((named_iff _ _).1 h) h1 h2
    rcases h with ⟨rfl, rfl⟩ | ⟨rfl, rfl⟩ | ⟨rfl, rfl⟩ | ⟨rfl, rfl⟩ | ⟨rfl, rfl⟩ | ⟨rfl, rfl⟩ | ⟨rfl, rfl⟩ |
      ⟨rfl, rfl⟩ | ⟨rfl, rfl⟩ | ⟨rfl, rfl⟩ | ⟨rfl, rfl⟩ | ⟨rfl, rfl⟩ | ⟨rfl, rfl⟩ | ⟨rfl, rfl⟩ | ⟨rfl, rfl⟩ | ⟨rfl, rfl⟩ |
      ⟨rfl, rfl⟩ | ⟨rfl, rfl⟩ | ⟨rfl, rfl⟩ | ⟨rfl, rfl⟩ | ⟨rfl, rfl⟩ | ⟨rfl, rfl⟩ | ⟨rfl, rfl⟩ | ⟨rfl, rfl⟩ | ⟨rfl, rfl⟩ |
      ⟨rfl, rfl⟩ | ⟨rfl, rfl⟩ | ⟨rfl, rfl⟩ | ⟨rfl, rfl⟩ | ⟨rfl, rfl⟩ | ⟨rfl, rfl⟩ | ⟨rfl, rfl⟩
    all_goals first
      | exact named rfl (by decide) (by decide)
      | exact .char
      | exact .float
      | exact .double
      | exact .bytes
      | exact .complexes (k := 4) (by decide)
      | exact .complexes (k := 8) (by decide)
  · intro h
    cases h with
    | named h h1 h2 =>
      cases h with
      | int hk | uint hk | float hk | complexes hk =>
        simp only [List.mem_cons, List.not_mem_nil, or_false] at hk
        rcases hk with rfl | rfl | rfl | rfl <;> rfl
      | json => exact absurd rfl h1
      | complex => exact absurd rfl h2
      | _ => rfl
    | complexes hk =>
      simp only [List.mem_cons, List.not_mem_nil, or_false] at hk
      rcases hk with rfl | rfl <;> rfl
    | _ => rfl

theorem prim_loaded (p : Prim) : loaded.lookup p.npName = some (.ty p.toTy) := by cases p <;> rfl

/-- with the names of the import, `from_numpy_dtype` is the function that the rest of the model uses -/
theorem C62.model (d : DType) : fromDtypeIn loaded d = (fromDtype d).map .ty := by
  unfold fromDtypeIn
  cases d with
  | prim p => simp only [DType.npName, prim_loaded]; rfl
  | datetime u =>
    have : loaded.lookup (DType.datetime u).npName = none := by
      simp only [DType.npName]
      split
      · rfl
      · rw [List.append_assoc]; exact loaded_prefix (by decide +kernel)
    simp only [this, fromDtype]
    split <;> rfl
  | timedelta u =>
    have : loaded.lookup (DType.timedelta u).npName = none := by
      simp only [DType.npName]
      split
      · rfl
      · rw [List.append_assoc]; exact loaded_prefix (by decide +kernel)
    simp only [this, fromDtype]
  | str n =>
    have : loaded.lookup (DType.str n).npName = none := by
      simp only [DType.npName]
      split
      · rfl
      · exact loaded_number (by decide +kernel)
    simp only [this, fromDtype]
  | bytes n =>
    by_cases h : n = 0
    · subst h; rfl
    · have : loaded.lookup (DType.bytes n).npName = none := by
        simp only [DType.npName, if_neg h]
        exact loaded_number (by decide +kernel)
      simp only [this, fromDtype, if_neg h]
  | struct fs =>
    by_cases h : fieldsSize fs = 0
    · have : loaded.lookup (DType.struct fs).npName = some (.ty tVoid) := by simp only [DType.npName, if_pos h]; rfl
      simp only [this]
      cases fs with
      | nil => rfl
      | cons f fs => simp only [fromDtype, DType.itemsize, h, if_pos]; rfl
    · have : loaded.lookup (DType.struct fs).npName = none := by
        simp only [DType.npName, if_neg h]
        exact loaded_number (by decide +kernel)
      simp only [this]
      cases fs with
      | nil => exact absurd rfl h
      | cons f fs => simp only [fromDtype, DType.itemsize, h, if_neg]; rfl

theorem fromDtype_prim (p : Prim) (t : Ty) : p.toTy = t ↔ NamedType p.npName t := by
  rw [← named_iff]
  have : dtypeTable.lookup p.npName = some p.toTy := by cases p <;> rfl
  rw [this]; simp

/-- **C62.** While nobody has bound further names, `CType.from_numpy_dtype` gives a type exactly for the dtypes that have one, and
that type. -/
theorem C62.dtype (d : DType) (e : Entry) : fromDtypeIn loaded d = .ok e ↔ ∃ t, e = .ty t ∧ DtypeMeans d t := by
  have key : ∀ t, fromDtype d = .ok t ↔ DtypeMeans d t := by
    intro t
    constructor
    · intro h
      cases d with
      | prim p => injection h with h; exact .prim ((fromDtype_prim p t).1 h)
      | datetime u =>
        simp only [fromDtype] at h
        split at h <;> injection h with h <;> subst h
        · exact .date (by simpa [dateUnits] using ‹_›)
        · rename_i hn; exact .datetime (by simpa only [dateUnits, List.mem_cons, List.not_mem_nil, or_false] using hn)
      | timedelta u =>
        obtain ⟨v, hv, rfl⟩ := (C12.timedelta _ _).1 h
        exact .timedelta hv
      | str n => injection h with h; subst h; exact .str n
      | bytes n =>
        simp only [fromDtype] at h
        split at h
        · injection h with h; subst h; subst n; exact .noBytes
        · injection h with h; subst h; exact .bytes n ‹_›
      | struct fs =>
        cases fs with
        | nil => injection h with h; subst h; exact .empty rfl
        | cons f fs =>
          simp only [fromDtype] at h
          split at h
          · injection h with h; subst h; exact .empty ‹_›
          · cases h
    · intro h
      cases h with
      | prim h => simp only [fromDtype, (fromDtype_prim _ t).2 h]
      | date h => simp only [dateUnits, List.mem_cons, List.not_mem_nil, or_false] at h; simp only [fromDtype, if_pos h]
      | datetime h => simp only [dateUnits, List.mem_cons, List.not_mem_nil, or_false] at h; simp only [fromDtype, if_neg h]
      | timedelta h => exact (C12.timedelta _ _).2 ⟨_, h, rfl⟩
      | str n => rfl
      | bytes n h => simp only [fromDtype, if_neg h]; rfl
      | noBytes => rfl
      | @empty fs h =>
        cases fs with
        | nil => rfl
        | cons f fs => simp only [fromDtype, DType.itemsize, h, if_pos]; rfl
  rw [C62.model]
  cases hd : fromDtype d with
  | error e' =>
    simp only [Except.map]
    exact ⟨fun h => (by cases h), fun ⟨t, _, h⟩ => by rw [← key, hd] at h; cases h⟩
  | ok t =>
    simp only [Except.map, Except.ok.injEq, ← key, hd]
    exact ⟨fun h => ⟨t, h.symm, rfl⟩, fun ⟨t', h, h'⟩ => by rw [h, h']⟩

/-- **C62.** … and what it raises for the others. -/
theorem C62.dtype_raises (d : DType) (e : PyErr) : fromDtypeIn loaded d = .error e ↔ DtypeRaises d e := by
  have key : fromDtype d = .error e ↔ DtypeRaises d e := by
    constructor
    · intro h
      cases d with
      | prim p => cases h
      | datetime u => simp only [fromDtype] at h; split at h <;> cases h
      | timedelta u =>
        rcases timedelta_error.1 h with ⟨rfl, h1, h2⟩ | ⟨rfl, h1⟩
        · exact .timedelta h1 h2
        · exact .timedeltaEmpty h1
      | str n => cases h
      | bytes n => simp only [fromDtype] at h; split at h <;> cases h
      | struct fs =>
        cases fs with
        | nil => cases h
        | cons f fs =>
          simp only [fromDtype] at h
          split at h
          · cases h
          · injection h with h; subst h; exact .struct ‹_›
    · intro h
      cases h with
      | timedelta h1 h2 => exact timedelta_error.2 (.inl ⟨rfl, h1, h2⟩)
      | timedeltaEmpty h => exact timedelta_error.2 (.inr ⟨rfl, h⟩)
      | @struct fs h =>
        cases fs with
        | nil => exact absurd rfl h
        | cons f fs => simp only [fromDtype, DType.itemsize, h, if_neg]; rfl
  rw [C62.model, ← key]
  cases fromDtype d <;> simp [Except.map]

theorem run_lookup {α : Type} (r : Registry α) (ops : List (RegOp α)) (n : Str) (h : ∀ o ∈ ops, ¬ o.binds n) :
    (r.run ops).lookup n = r.lookup n := by
  induction ops generalizing r with
  | nil => rfl
  | cons o os ih =>
    rw [Registry.run, ih _ fun o' h' => h o' (by simp [h'])]
    have ho := h o (by simp)
    cases o with
    | register m v =>
      simp only [Registry.step]
      split
      · rfl
      · rw [Registry.lookup_set, if_neg fun e => ho e.symm]
    | define m v => simp only [Registry.step]; rw [Registry.lookup_set, if_neg fun e => ho e.symm]
    | lookup m => simp only [Registry.step]; split <;> rfl

/-- **C62.** What was registered under other names does not affect what a dtype means. -/
theorem C62.unaffected (r : Registry Entry) (ops : List (RegOp Entry)) (d : DType) (h : ∀ o ∈ ops, ¬ o.binds d.npName) :
    fromDtypeIn (r.run ops) d = fromDtypeIn r d := by
  simp only [fromDtypeIn, run_lookup r ops _ h]

/-- **C62.** Nor do attempts to register the dtype's own name, once it is bound: `Type.register` and `CType` cannot replace a
type. -/
theorem C62.safe (r : Registry Entry) (ops : List (RegOp Entry)) (d : DType) (v : Entry) (hv : r.lookup d.npName = some v)
    (h : ∀ o ∈ ops, o.defines d.npName = false) : fromDtypeIn (r.run ops) d = fromDtypeIn r d := by
  simp only [fromDtypeIn, C33.stable r ops _ v hv h, hv]

/-- The names in question, as NumPy shows them. -/
example : (DType.str 3).npName = py"str96" ∧ (DType.bytes 3).npName = py"bytes24" ∧ (DType.str 0).npName = py"str" ∧
    (DType.bytes 0).npName = py"bytes" ∧ (DType.datetime (py"ns")).npName = py"datetime64[ns]" ∧
    (DType.timedelta (py"D")).npName = py"timedelta64[D]" ∧ (DType.timedelta (py"generic")).npName = py"timedelta64" ∧
    (DType.datetime (py"generic")).npName = py"datetime64" ∧
    (DType.struct [(py"a", [2], .prim .int32), (py"b", [], .timedelta (py"s")),
      (py"c", [2], .str 3), (py"d", [], .bytes 5), (py"e", [], .datetime (py"s"))]).npName = py"void424" := by decide +kernel

/-- **C62.** A datashape that is given a name is what the name stands for from then on, also if it is the name of a dtype:
`DataShape(…, name='int32')` changes what `from_numpy_dtype` makes of every `int32` array. Other names stay. -/
theorem C62.captured (r r' : Registry Entry) (ps : List Ty) (n : Str) (t : Ty) (h : namedDS r ps n = .ok (t, r')) :
    mkDS ps = .ok t ∧ (n = [] → r' = r) ∧ (n ≠ [] → r'.lookup n = some (.ty t)) ∧ (∀ m, m ≠ n → r'.lookup m = r.lookup m) ∧
    ∀ d : DType, (d.npName = n → fromDtypeIn r' d = .ok (.ty t)) ∧ (d.npName ≠ n → fromDtypeIn r' d = fromDtypeIn r d) := by
  unfold namedDS at h
  simp only [bind_ok] at h
  obtain ⟨t', ht, h⟩ := h
  simp only [Except.ok.injEq, Prod.mk.injEq] at h
  obtain ⟨rfl, rfl⟩ := h
  have hne : ∀ d : DType, d.npName ≠ [] := by
    intro d
    cases d with
    | prim p => cases p <;> simp [DType.npName, Prim.npName]
    | _ => simp only [DType.npName]; split <;> simp
  cases n with
  | nil =>
    refine ⟨ht, fun _ => rfl, fun h => absurd rfl h, fun m _ => rfl, fun d => ⟨fun h => absurd h (hne d), fun _ => rfl⟩⟩
  | cons c cs =>
    have hl : ∀ m, List.lookup m (Registry.set r (c :: cs) (Entry.ty t')) = if m = c :: cs then some (.ty t') else List.lookup m r :=
      fun m => Registry.lookup_set r _ _ m
    simp only [List.isEmpty_cons, Bool.false_eq_true, if_false, Registry.step]
    refine ⟨ht, fun h => (by cases h), fun _ => by rw [hl, if_pos rfl], fun m hm => by rw [hl, if_neg hm], fun d => ⟨fun h => ?_, fun h => ?_⟩⟩
    · unfold fromDtypeIn
      rw [hl, if_pos h]
    · unfold fromDtypeIn
      rw [hl, if_neg h]

/-- **C62.** `CType(name, itemsize, alignment)` raises `TypeError` exactly when the name is taken, and then registers nothing;
otherwise the name is bound to the new type, and nothing else changes. -/
theorem C62.ctype (r : Registry Entry) (n : Str) (i a : Nat) :
    (∀ e, newCType r n i a = .error e ↔ e = .typeError ∧ ∃ v, r.lookup n = some v) ∧
    ∀ t r', newCType r n i a = .ok (t, r') → r.lookup n = none ∧ t = .ctype n i a ∧ r'.lookup n = some (.ty t) ∧
      ∀ m, m ≠ n → r'.lookup m = r.lookup m := by
  cases hl : r.lookup n with
  | some v =>
    have : newCType r n i a = .error .typeError := by simp [newCType, Registry.step, hl]
    rw [this]
    refine ⟨fun e => ⟨fun h => ?_, fun h => by rw [h.1]⟩, fun t r' h => by cases h⟩
    injection h with h
    exact ⟨h.symm, v, rfl⟩
  | none =>
    have : newCType r n i a = .ok (.ctype n i a, r.set n (.ty (.ctype n i a))) := by simp [newCType, Registry.step, hl]
    rw [this]
    refine ⟨fun e => ⟨fun h => (by cases h), fun h => (by obtain ⟨_, v, h⟩ := h; cases h)⟩, fun t r' h => ?_⟩
    simp only [Except.ok.injEq, Prod.mk.injEq] at h
    obtain ⟨rfl, rfl⟩ := h
    refine ⟨rfl, rfl, by rw [Registry.lookup_set, if_pos rfl], fun m hm => by rw [Registry.lookup_set, if_neg hm]⟩

/-! `int32` arrays after `DataShape(Fixed(3), float64, name='int32')`; `CType('int32', …)` raises; a new name works, and then
gives a meaning to a dtype that had none. -/
example : ∃ r', namedDS loaded [.fixed 3, tFloat64] (py"int32") = .ok (.dshape [.fixed 3, tFloat64], r') ∧
    fromDtypeIn loaded (.prim .int32) = .ok (.ty tInt32) ∧
    fromDtypeIn r' (.prim .int32) = .ok (.ty (.dshape [.fixed 3, tFloat64])) ∧ fromDtypeIn r' (.prim .int64) = .ok (.ty tInt64) :=
  ⟨_, rfl, rfl, rfl, rfl⟩
example : newCType loaded (py"int32") 4 4 = .error .typeError := rfl
example : ∃ t r', newCType loaded (py"void64") 8 8 = .ok (t, r') ∧
    fromDtypeIn loaded (.struct [(py"x", [], .prim .int64)]) = .error .notImplemented ∧
    fromDtypeIn r' (.struct [(py"x", [], .prim .int64)]) = .ok (.ty t) := ⟨_, _, rfl, rfl, rfl⟩
example : loaded.lookup (py"double") = some (.ty tFloat64) ∧ loaded.lookup (py"json") = none ∧
    loaded.lookup (py"complex") = none ∧ loaded.lookup (py"ascii") = none := ⟨rfl, rfl, rfl, rfl⟩
example : DtypeRaises (.timedelta (py"generic")) .valueError := by
  rw [← C62.dtype_raises]; rfl
example : DtypeMeans (.timedelta (py"ms")) (.timedelta (py"ms")) ∧ DtypeMeans (.datetime (py"generic")) (.datetime none) :=
  ⟨.timedelta ((C12.exact _ _).1 rfl), .datetime (by decide)⟩

end DS
