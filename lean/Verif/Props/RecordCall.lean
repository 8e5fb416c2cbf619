import Verif.Spec.RecordCall
import Verif.Props.Classes
import Verif.Props.Util
import Verif.Props.Dtype

/-
C69: `Record` and `Categorical` called from Python.
-/
namespace DS

variable {env : Env} {nest : Str → Except PyErr Ty}

theorem iterates_iff (t : Ty) (l : List Ty) : pyIter t = .ok l ↔ TypeItems t l := by
  constructor
  · intro h
    cases t <;> cases h <;> first | exact .array _ | exact .types _ _ | exact .self (by simp) (by simp) (by simp)
  · intro h
    cases h with
    | array => rfl
    | types => rfl
    | self h1 h2 h3 =>
      cases t <;> first | rfl | exact absurd rfl (h1 _) | exact absurd rfl (h2 _ _) | exact absurd rfl (h3 _)

theorem iterates_error (t : Ty) (e : PyErr) : pyIter t = .error e ↔ (∃ fs, t = .record fs) ∧ e = .keyError := by
  constructor
  · intro h
    cases t <;> cases h
    exact ⟨⟨_, rfl⟩, rfl⟩
  · rintro ⟨⟨fs, rfl⟩, rfl⟩; rfl

theorem itemsOf_iff (a : RecArg) (l : List RecItem) : recordItems a = .ok l ↔ ItemsOf a l := by
  cases a with
  | list m => exact ⟨fun h => by cases h; exact .list _, fun h => by cases h; rfl⟩
  | ordered m => exact ⟨fun h => by cases h; exact .ordered _, fun h => by cases h; rfl⟩
  | dict m => exact ⟨fun h => by cases h; exact .dict _, fun h => by cases h; rfl⟩
  | val v =>
    cases v with
    | str s => exact ⟨fun h => by cases h; exact .text _, fun h => by cases h; rfl⟩
    | ty t =>
      simp only [recordItems, bind_ok]
      constructor
      · rintro ⟨m, h, e⟩; cases e; exact .type ((iterates_iff t m).1 h)
      · intro h
        cases h with
        | type h => exact ⟨_, (iterates_iff t _).2 h, rfl⟩
    | _ => exact ⟨fun h => (by cases h), fun h => by cases h⟩

theorem itemsOf_error (a : RecArg) (e : PyErr) : recordItems a = .error e ↔
    (a = .val .none ∧ e = .typeError) ∨ (∃ i, a = .val (.int i) ∧ e = .typeError) ∨
    (∃ fs, a = .val (.ty (.record fs)) ∧ e = .keyError) ∨ (a = .val .other ∧ e = .unmodelled) := by
  cases a with
  | val v =>
    cases v with
    | ty t =>
      simp only [recordItems, bind_error]
      constructor
      · rintro (h | ⟨m, h, e⟩)
        · obtain ⟨⟨fs, rfl⟩, rfl⟩ := (iterates_error t e).1 h
          exact .inr (.inr (.inl ⟨fs, rfl, rfl⟩))
        · cases e
      · rintro (⟨h, _⟩ | ⟨_, h, _⟩ | ⟨fs, h, rfl⟩ | ⟨h, _⟩) <;> cases h
        exact .inl rfl
    | _ => simp [recordItems, eq_comm]
  | _ => simp [recordItems]

theorem twoOf_iff {α : Type} (l : List α) (p : α × α) : twoOf l = .ok p ↔ l = [p.1, p.2] := by
  rcases l with _ | ⟨a, _ | ⟨b, _ | ⟨c, r⟩⟩⟩ <;> simp [twoOf, Prod.ext_iff]

theorem twoOf_error {α : Type} (l : List α) (e : PyErr) : twoOf l = .error e ↔ l.length ≠ 2 ∧ e = .valueError := by
  rcases l with _ | ⟨a, _ | ⟨b, _ | ⟨c, r⟩⟩⟩ <;> simp [twoOf, eq_comm]

theorem twoParts_iff (i : RecItem) (p : PVal × PVal) : unpackItem i = .ok p ↔ TwoParts i p.1 p.2 := by
  obtain ⟨a, b⟩ := p
  cases i with
  | seq l =>
    simp only [unpackItem, twoOf_iff]
    exact ⟨fun h => by subst h; exact .pair a b, fun h => by cases h; rfl⟩
  | val v =>
    cases v with
    | str s =>
      simp only [unpackItem, twoOf_iff]
      constructor
      · intro h
        rcases s with _ | ⟨x, _ | ⟨y, _ | ⟨z, r⟩⟩⟩ <;> simp at h
        obtain ⟨rfl, rfl⟩ := h
        exact .letters x y
      · intro h; cases h; rfl
    | ty t =>
      simp only [unpackItem, bind_ok, twoOf_iff]
      constructor
      · rintro ⟨l, hl, h⟩
        rcases l with _ | ⟨x, _ | ⟨y, _ | ⟨z, r⟩⟩⟩ <;> simp at h
        obtain ⟨rfl, rfl⟩ := h
        exact .types ((iterates_iff t _).1 hl)
      · intro h
        cases h with
        | types h => exact ⟨_, (iterates_iff t _).2 h, rfl⟩
    | _ => exact ⟨fun h => (by cases h), fun h => by cases h⟩

theorem namedItem_iff (i : RecItem) (q : Str × PVal) : namedItem env i = .ok q ↔ Named env i q := by
  simp only [namedItem, bind_ok, twoParts_iff, pvalStr_iff]
  constructor
  · rintro ⟨⟨a, v⟩, h1, n, h2, h3⟩; cases h3; exact .mk h1 h2
  · intro h
    cases h with
    | mk h1 h2 => exact ⟨(_, _), h1, _, h2, rfl⟩

theorem namedItem_error (i : RecItem) (e : PyErr) : namedItem env i = .error e ↔
    NotNamed env i e ∨ ((i = .val .other ∨ ∃ b, TwoParts i .other b) ∧ e = .unmodelled) := by
  have key : namedItem env i = .error e ↔
      unpackItem i = .error e ∨ ∃ b, TwoParts i .other b ∧ e = .unmodelled := by
    simp only [namedItem, bind_error, twoParts_iff, pvalStr_error]
    constructor
    · rintro (h | ⟨⟨a, b⟩, h1, ⟨h2, h3⟩ | ⟨_, _, h⟩⟩)
      · exact .inl h
      · simp only at h2; subst h2; exact .inr ⟨b, h1, h3⟩
      · cases h
    · rintro (h | ⟨b, h1, h2⟩)
      · exact .inl h
      · exact .inr ⟨(.other, b), h1, .inl ⟨rfl, h2⟩⟩
  rw [key]
  have key2 : unpackItem i = .error e ↔ NotNamed env i e ∨ (i = .val .other ∧ e = .unmodelled) := by
    cases i with
    | seq l =>
      simp only [unpackItem, twoOf_error]
      constructor
      · rintro ⟨h, rfl⟩; exact .inl (.long h)
      · rintro (h | ⟨h, _⟩) <;> cases h
        exact ⟨by assumption, rfl⟩
    | val v =>
      cases v with
      | str s =>
        simp only [unpackItem, twoOf_error, List.length_map]
        constructor
        · rintro ⟨h, rfl⟩; exact .inl (.text h)
        · rintro (h | ⟨h, _⟩) <;> cases h
          exact ⟨by assumption, rfl⟩
      | ty t =>
        simp only [unpackItem, bind_error, twoOf_error, List.length_map]
        constructor
        · rintro (h | ⟨l, hl, h, rfl⟩)
          · obtain ⟨⟨fs, rfl⟩, rfl⟩ := (iterates_error t e).1 h
            exact .inl (.record fs)
          · exact .inl (.type ((iterates_iff t l).1 hl) h)
        · rintro (h | ⟨h, _⟩)
          · cases h with
            | type h1 h2 => exact .inr ⟨_, (iterates_iff t _).2 h1, h2, rfl⟩
            | record => exact .inl rfl
          · cases h
      | none => exact ⟨fun h => (by cases h; exact .inl .none), fun h => by rcases h with h | ⟨h, _⟩ <;> cases h; rfl⟩
      | int i => exact ⟨fun h => (by cases h; exact .inl (.int i)), fun h => by rcases h with h | ⟨h, _⟩ <;> cases h; rfl⟩
      | other =>
        exact ⟨fun h => (by cases h; exact .inr ⟨rfl, rfl⟩), fun h => by
          rcases h with h | ⟨_, rfl⟩
          · cases h
          · rfl⟩
  rw [key2]
  constructor
  · rintro ((h | ⟨h, h'⟩) | ⟨b, h1, h2⟩)
    · exact .inl h
    · exact .inr ⟨.inl h, h'⟩
    · exact .inr ⟨.inr ⟨b, h1⟩, h2⟩
  · rintro (h | ⟨h | ⟨b, h1⟩, h2⟩)
    · exact .inl (.inl h)
    · exact .inl (.inr ⟨h, h2⟩)
    · exact .inr ⟨b, h1, h2⟩

/-- laundering the types of fields in turn -/
def typedField (nest : Str → Except PyErr Ty) (p : Str × PVal) : Except PyErr (Str × Ty) :=
  (p.2.launder nest).map fun t => (p.1, t)

theorem launderFields_mapM (vs : List (Str × PVal)) : launderFields nest vs = vs.mapM (typedField nest) := by
  induction vs with
  | nil => rfl
  | cons p r ih =>
    obtain ⟨n, v⟩ := p
    simp only [launderFields, List.mapM_cons, ih, typedField]
    cases v.launder nest <;> rfl

theorem typed_iff (p : Str × PVal) (q : Str × Ty) : typedField nest p = .ok q ↔ Typed nest p q := by
  obtain ⟨n, v⟩ := p
  simp only [typedField]
  constructor
  · intro h
    cases hl : v.launder nest with
    | ok t => rw [hl] at h; cases h; exact .mk (standsFor_iff.1 hl)
    | error x => rw [hl] at h; cases h
  · intro h
    cases h with
    | mk h => rw [standsFor_iff.2 h]; rfl

theorem typed_error (p : Str × PVal) (e : PyErr) : typedField nest p = .error e ↔ NoPart nest p.2 e := by
  rw [← noPart_iff]
  simp only [typedField]
  cases p.2.launder nest with
  | ok t => exact ⟨fun h => (by cases h), fun h => by cases h⟩
  | error x => exact ⟨fun h => by cases h; rfl, fun h => by cases h; rfl⟩

/-- `Record` called with any Python value returns exactly the documented records. -/
theorem C69.returns (env : Env) (nest : Str → Except PyErr Ty) (a : RecArg) (t : Ty) :
    recordClass env nest a = .ok t ↔ MakesRecord env nest a t := by
  simp only [recordClass, record, bind_ok, itemsOf_iff, launderFields_mapM]
  constructor
  · rintro ⟨items, h1, vs, h2, fs, h3, h4⟩
    split at h4 <;> cases h4
    exact .mk h1 ((mapM_each fun _ _ _ => namedItem_iff _ _).1 h2) ((mapM_each fun _ _ _ => typed_iff _ _).1 h3) (by assumption)
  · intro h
    cases h with
    | @mk items vs fs h1 h2 h3 h4 =>
      exact ⟨items, h1, vs, (mapM_each fun _ _ _ => namedItem_iff _ _).2 h2, fs,
        (mapM_each fun _ _ _ => typed_iff _ _).2 h3, by rw [if_pos h4]⟩

/-- Otherwise it raises exactly the listed exceptions, or leaves the model. -/
theorem C69.raises (env : Env) (nest : Str → Except PyErr Ty) (a : RecArg) (e : PyErr) :
    recordClass env nest a = .error e ↔
      RejectsRecord env nest a e ∨ (BeyondRecord env a ∧ e = .unmodelled) := by
  have hn : ∀ {l : List RecItem} {m}, l.mapM (namedItem env) = .ok m ↔ Each (Named env) l m :=
    mapM_each fun _ _ _ => namedItem_iff _ _
  have ht : ∀ {l : List (Str × PVal)} {m}, l.mapM (typedField nest) = .ok m ↔ Each (Typed nest) l m :=
    mapM_each fun _ _ _ => typed_iff _ _
  simp only [recordClass, record, bind_error, itemsOf_error, itemsOf_iff, launderFields_mapM, mapM_first_error, hn, ht,
    namedItem_error, typed_error]
  constructor
  · rintro (h | ⟨items, h1, h | ⟨vs, h2, h | ⟨fs, h3, h4⟩⟩⟩)
    · rcases h with ⟨h, rfl⟩ | ⟨i, h, rfl⟩ | ⟨fs, h, rfl⟩ | ⟨h, rfl⟩
      · exact .inl (.none h)
      · exact .inl (.int h)
      · exact .inl (.record h)
      · exact .inr ⟨.argument h, rfl⟩
    · obtain ⟨pre, i, post, vs, rfl, h2, h | ⟨rfl | ⟨b, h⟩, rfl⟩⟩ := h
      · exact .inl (.item h1 h2 h)
      · exact .inr ⟨.item h1 h2, rfl⟩
      · exact .inr ⟨.name h1 h2 h, rfl⟩
    · obtain ⟨pre, ⟨n, v⟩, post, fs, rfl, h3, h4⟩ := h
      exact .inl (.type h1 h2 h3 h4)
    · split at h4 <;> cases h4
      exact .inl (.twice h1 h2 h3 (by assumption))
  · rintro (h | ⟨h, rfl⟩)
    · cases h with
      | none h => exact .inl (.inl ⟨h, rfl⟩)
      | int h => exact .inl (.inr (.inl ⟨_, h, rfl⟩))
      | record h => exact .inl (.inr (.inr (.inl ⟨_, h, rfl⟩)))
      | item h1 h2 h3 => exact .inr ⟨_, h1, .inl ⟨_, _, _, _, rfl, h2, .inl h3⟩⟩
      | type h1 h2 h3 h4 => exact .inr ⟨_, h1, .inr ⟨_, h2, .inl ⟨_, _, _, _, rfl, h3, h4⟩⟩⟩
      | twice h1 h2 h3 h4 => exact .inr ⟨_, h1, .inr ⟨_, h2, .inr ⟨_, h3, by rw [if_neg h4]⟩⟩⟩
    · cases h with
      | argument h => exact .inl (.inr (.inr (.inr ⟨h, rfl⟩)))
      | item h1 h2 => exact .inr ⟨_, h1, .inl ⟨_, _, _, _, rfl, h2, .inr ⟨.inl rfl, rfl⟩⟩⟩
      | name h1 h2 h3 => exact .inr ⟨_, h1, .inl ⟨_, _, _, _, rfl, h2, .inr ⟨.inr ⟨_, h3⟩, rfl⟩⟩⟩

/-- A plain dict never gives its values to the record: whether and what `Record` builds depends on the keys alone. -/
theorem C69.dict_values (env : Env) (nest : Str → Except PyErr Ty) (l m : List (PVal × PVal))
    (h : l.map (·.1) = m.map (·.1)) : recordClass env nest (.dict l) = recordClass env nest (.dict m) := by
  have e : ∀ k : List (PVal × PVal), (k.map fun p => RecItem.val p.1) = (k.map (·.1)).map .val := by simp
  simp only [recordClass, recordItems, e, h]

/-- `Record` of the fields of a record returns the record, for fields that are not one-element `DataShape`s. -/
theorem C69.again (env : Env) (nest : Str → Except PyErr Ty) (fs : List (Str × Ty)) (h1 : (fs.map (·.1)).Nodup)
    (h2 : ∀ f ∈ fs, ∀ m, f.2 ≠ .dshape [m]) :
    recordClass env nest (.list (fs.map fun f => .seq [.str f.1, .ty f.2])) = .ok (.record fs) ∧
    recordClass env nest (.ordered (fs.map fun f => (.str f.1, .ty f.2))) = .ok (.record fs) := by
  have e : recordClass env nest (.ordered (fs.map fun f => (.str f.1, .ty f.2))) =
      recordClass env nest (.list (fs.map fun f => .seq [.str f.1, .ty f.2])) := by
    simp [recordClass, recordItems, Function.comp_def]
  rw [e, and_self, C69.returns]
  refine .mk (vs := fs.map fun f => (f.1, .ty f.2)) (.list _) ?_ ?_ h1
  · clear h1 h2 e
    induction fs with
    | nil => exact .nil
    | cons f r ih => exact .cons (.mk (.pair _ _) (.str _)) ih
  · clear h1 e
    induction fs with
    | nil => exact .nil
    | cons f r ih =>
      exact .cons (.mk (.object (.same _ (h2 f (List.mem_cons_self ..))))) (ih fun g hg => h2 g (List.mem_cons_of_mem _ hg))

theorem measureOf_iff (t m : Ty) (h : t ≠ .dshape []) : t.measure = m ↔ MeasureOf t m := by
  constructor
  · intro e
    subst e
    cases t with
    | dshape ps =>
      have hp : ps ≠ [] := fun hp => h (by rw [hp])
      have := MeasureOf.array ps.dropLast (ps.getLast hp)
      rw [List.dropLast_concat_getLast] at this
      simpa [Ty.measure, List.getLast?_eq_getLast hp] using this
    | _ => exact .self (by simp)
  · intro e
    cases e with
    | array => simp [Ty.measure]
    | self h => cases t <;> first | rfl | exact absurd rfl (h _)

theorem noType_eq (disc : List Lit → Except PyErr Ty) (c : List Lit) {tp : Option PVal} (h : NoType tp) :
    categoryType disc c tp = (disc c).map Ty.measure := by
  cases h <;> simp [categoryType]

theorem someType_eq (disc : List Lit → Except PyErr Ty) (c : List Lit) {v : PVal} (h : ¬ NoType (some v)) :
    categoryType disc c (some v) = match v with
      | .ty u => .ok u.measure
      | .other => .error .unmodelled
      | _ => .error .attributeError := by
  cases v with
  | none => exact absurd .none h
  | str s => simp only [categoryType]; rw [if_neg]; intro e; subst e; exact h .empty
  | int i => simp only [categoryType]; rw [if_neg]; intro e; subst e; exact h .zero
  | ty t =>
    cases t with
    | typeset o n => simp only [categoryType]; rw [if_neg]; rfl; intro e; subst e; exact h (.noTypes n)
    | _ => rfl
  | other => rfl

/-- `Categorical` called from Python: the categories are kept, their type is the measure of the given type, or else of
the type that `discover` finds for the categories; it is unordered by default. -/
theorem C69.categorical (disc : List Lit → Except PyErr Ty) (c : List Lit) (tp : Option PVal) (o : Option Bool) (t : Ty)
    (h1 : ∀ u, tp = some (.ty u) → u ≠ .dshape []) (h2 : ∀ u, disc c = .ok u → u ≠ .dshape []) :
    categoricalClass disc c tp o = .ok t ↔ ∃ m b, CategoryClass disc c tp m ∧
      ((o = none ∧ b = false) ∨ o = some b) ∧ t = .categorical c m b := by
  have hc : ∀ m, categoryType disc c tp = .ok m ↔ CategoryClass disc c tp m := by
    intro m
    by_cases hn : NoType tp
    · rw [noType_eq disc c hn]
      constructor
      · intro h
        cases hd : disc c with
        | ok u => rw [hd] at h; cases h; exact .discovered hn hd ((measureOf_iff u _ (h2 u hd)).1 rfl)
        | error x => rw [hd] at h; cases h
      · intro h
        cases h with
        | given _ h => exact absurd hn h
        | @discovered u _ _ hd hm => rw [hd]; simp [Except.map, (measureOf_iff u _ (h2 u hd)).2 hm]
    · cases tp with
      | none => exact absurd .absent hn
      | some v =>
        rw [someType_eq disc c hn]
        constructor
        · intro h
          cases v with
          | ty u => cases h; exact .given rfl hn ((measureOf_iff u _ (h1 u rfl)).1 rfl)
          | _ => cases h
        · intro h
          cases h with
          | @given u _ hv _ hm => cases hv; simp [(measureOf_iff u _ (h1 u rfl)).2 hm]
          | discovered h => exact absurd h hn
  simp only [categoricalClass, bind_ok, hc]
  constructor
  · rintro ⟨m, hm, e⟩
    cases e
    refine ⟨m, o.getD false, hm, ?_, rfl⟩
    cases o <;> simp
  · rintro ⟨m, b, hm, ho, rfl⟩
    refine ⟨m, hm, ?_⟩
    rcases ho with ⟨rfl, rfl⟩ | rfl <;> rfl

/-- What `Categorical` raises. -/
theorem C69.categorical_raises (disc : List Lit → Except PyErr Ty) (c : List Lit) (tp : Option PVal) (o : Option Bool)
    (e : PyErr) : categoricalClass disc c tp o = .error e ↔
      NoCategoryClass disc c tp e ∨ (tp = some .other ∧ e = .unmodelled) := by
  have hc : categoricalClass disc c tp o = .error e ↔ categoryType disc c tp = .error e := by
    simp only [categoricalClass]
    cases categoryType disc c tp with
    | ok t => exact ⟨fun h => (by cases h), fun h => by cases h⟩
    | error x => exact ⟨fun h => by cases h; rfl, fun h => by cases h; rfl⟩
  rw [hc]
  by_cases hn : NoType tp
  · rw [noType_eq disc c hn]
    constructor
    · intro h
      cases hd : disc c with
      | ok u => rw [hd] at h; cases h
      | error x => rw [hd] at h; cases h; exact .inl (.undiscovered hn hd)
    · rintro (h | ⟨rfl, _⟩)
      · cases h with
        | value _ h => exact absurd hn h
        | undiscovered _ h => rw [h]; rfl
      · cases hn
  · cases tp with
    | none => exact absurd .absent hn
    | some v =>
      rw [someType_eq disc c hn]
      constructor
      · intro h
        cases v with
        | ty u => cases h
        | other => cases h; exact .inr ⟨rfl, rfl⟩
        | _ => cases h; exact .inl (.value rfl hn (by simp) (by simp))
      · rintro (h | ⟨h, rfl⟩)
        · cases h with
          | value hv _ h1 h2 => cases hv; cases v <;> first | rfl | exact absurd rfl h1 | exact absurd rfl (h2 _)
          | undiscovered h => exact absurd h hn
        · cases h; rfl

/-- Some calls. -/
theorem C69.examples (env : Env) (nest : Str → Except PyErr Ty) (h : nest (py"b") = .error (.syntax (py"b") 0 (py"Invalid datashape")))
    (disc : List Lit → Except PyErr Ty) (hd : disc [.str (py"a")] = .ok (.dshape [.fixed 1, tString])) :
    recordClass env nest (.list [.seq [.str (py"x"), .ty tInt32], .seq [.int 1, .int 3]]) =
      .ok (.record [(py"x", tInt32), (py"1", .fixed 3)]) ∧
    recordClass env nest (.list [.seq [.str (py"1"), .ty tInt32], .seq [.int 1, .int 3]]) = .error .valueError ∧
    recordClass env nest (.dict [(.str (py"ab"), .ty tInt32)]) = .error (.syntax (py"b") 0 (py"Invalid datashape")) ∧
    recordClass env nest (.dict [(.str (py"abc"), .ty tInt32)]) = .error .valueError ∧
    recordClass env nest (.list [.val (.ty (.dshape [.fixed 3, tInt32]))]) = .ok (.record [(py"3", tInt32)]) ∧
    recordClass env nest (.val (.ty (.record [(py"x", tInt32)]))) = .error .keyError ∧
    recordClass env nest (.val (.str [])) = .ok (.record []) ∧
    recordClass env nest (.val .none) = .error .typeError ∧
    categoricalClass disc [.str (py"a")] none none = .ok (.categorical [.str (py"a")] tString false) ∧
    categoricalClass disc [.str (py"a")] (some (.ty (.dshape [tBool]))) (some true) =
      .ok (.categorical [.str (py"a")] tBool true) ∧
    categoricalClass disc [.str (py"a")] (some (.str (py"string"))) none = .error .attributeError := by
  refine ⟨rfl, rfl, ?_, rfl, ?_, rfl, rfl, rfl, ?_, rfl, rfl⟩
  · show (launderFields nest [(py"a", .str (py"b"))] >>= _) = _
    simp [launderFields, PVal.launder, h, bind, Except.bind]
  · rfl
  · simp [categoricalClass, categoryType, hd, Except.map, bind, Except.bind, Ty.measure]

end DS
