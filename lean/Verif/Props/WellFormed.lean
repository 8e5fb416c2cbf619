import Verif.Proofs.WF
import Verif.Props.Grammar

/-
C10: everything `dshape` returns is well formed; C11: ellipses.

`disc` is `datashape.discover` on a tuple of category literals; the only thing assumed about it is that what it
returns is itself well formed.
-/
namespace DS

section
variable (env : Env) (disc : List Lit → Except PyErr Ty) (hdisc : ∀ l t, disc l = .ok t → WF env t)
include hdisc

/-- `dshape(s)` returns a `DataShape`, and every datashape occurring in it satisfies `localOk`
(Spec/WellFormed.lean). -/
theorem C10.wellformed (s : Str) (t : Ty) (h : dshape env disc s = .ok t) :
    (∃ ps, t = .dshape ps) ∧ ∀ u, Occurs u t → localOk env u = true := by
  obtain ⟨⟨hw, hd⟩, _⟩ := dshapeN_wf hdisc _ s t h
  exact ⟨isDShape_iff.1 hd, (everywhere_iff _ _).1 hw⟩

/-- Every `DataShape` in the result is a sequence of dimensions followed by one measure; the measure is neither a
fixed nor a `var` dimension nor another `DataShape`. -/
theorem C10.dims (s : Str) (t : Ty) (h : dshape env disc s = .ok t) (ps : List Ty) (ho : Occurs (.dshape ps) t) :
    ∃ dims m, ps = dims ++ [m] ∧
      (∀ d ∈ dims, (∃ n, d = .fixed n) ∨ d = .var ∨ (∃ x, d = .typevar x) ∨ ∃ x, d = .ellipsis x) ∧
      (∀ n, m ≠ .fixed n) ∧ m ≠ .var ∧ ∀ qs, m ≠ .dshape qs := by
  have hl := (C10.wellformed env disc hdisc s t h).2 _ ho
  simp only [localOk, Bool.and_eq_true, Bool.not_eq_true', List.isEmpty_eq_false_iff, List.all_eq_true] at hl
  obtain ⟨⟨⟨hne, hdim⟩, hm⟩, hds⟩ := hl
  refine ⟨ps.dropLast, ps.getLast hne, (List.dropLast_concat_getLast hne).symm, ?_, ?_, ?_, ?_⟩
  · intro d hd
    have := hdim d hd
    cases d <;> simp_all [Ty.isDim]
  · intro n e; rw [List.getLast?_eq_some_getLast hne, e] at hm; simp [Ty.endsOk] at hm
  · intro e; rw [List.getLast?_eq_some_getLast hne, e] at hm; simp [Ty.endsOk] at hm
  · intro qs e
    have := hds _ (List.getLast_mem hne)
    rw [e] at this; simp [Ty.isDShape] at this

/-- The field names of every record in the result are pairwise distinct, and no field type is a redundant
one-element `DataShape`. -/
theorem C10.fields (s : Str) (t : Ty) (h : dshape env disc s = .ok t) (fs : List (Str × Ty))
    (ho : Occurs (.record fs) t) : (fs.map (·.1)).Nodup ∧ ∀ n m, (n, Ty.dshape [m]) ∉ fs := by
  have hl := (C10.wellformed env disc hdisc s t h).2 _ ho
  simp only [localOk, Bool.and_eq_true, decide_eq_true_eq, List.all_eq_true] at hl
  refine ⟨hl.1, fun n m hm => ?_⟩
  have := hl.2 _ hm
  simp [Ty.isSingleton] at this

/-- Every string type in the result carries one of the four canonical encodings. -/
theorem C10.encoding (s : Str) (t : Ty) (h : dshape env disc s = .ok t) (n : Option Int) (e : Str)
    (ho : Occurs (.string n e) t) : e = py"A" ∨ e = py"U8" ∨ e = py"U16" ∨ e = py"U32" := by
  have hl := (C10.wellformed env disc hdisc s t h).2 _ ho
  simpa only [localOk, canonicalEncodings, List.contains_eq_mem, List.mem_cons, List.not_mem_nil, or_false,
    decide_eq_true_eq] using hl

/-- Every time delta in the result carries one of the ten canonical units. -/
theorem C10.unit (s : Str) (t : Ty) (h : dshape env disc s = .ok t) (u : Str) (ho : Occurs (.timedelta u) t) :
    u ∈ [py"ns", py"us", py"ms", py"s", py"m", py"h", py"D", py"W", py"M", py"Y"] := by
  have hl := (C10.wellformed env disc hdisc s t h).2 _ ho
  simpa only [localOk, timeUnits, List.contains_eq_mem, decide_eq_true_eq] using hl

/-- Every type variable in the result starts with an upper-case character. -/
theorem C10.typevar (s : Str) (t : Ty) (h : dshape env disc s = .ok t) (x : Str) (ho : Occurs (.typevar x) t) :
    ∃ c r, x = c :: r ∧ env.isUpper c = true := by
  have hl := (C10.wellformed env disc hdisc s t h).2 _ ho
  cases x with
  | nil => simp [localOk, upperName] at hl
  | cons c r => exact ⟨c, r, rfl, by simpa [localOk, upperName] using hl⟩

/-- No option or map in the result holds a redundant one-element `DataShape`; tuples hold only `DataShape`s. -/
theorem C10.nested (s : Str) (t : Ty) (h : dshape env disc s = .ok t) :
    (∀ m, ¬ Occurs (.option (.dshape [m])) t) ∧
    (∀ m v, ¬ Occurs (.map (.dshape [m]) v) t) ∧ (∀ k m, ¬ Occurs (.map k (.dshape [m])) t) ∧
    (∀ ts, Occurs (.tuple ts) t → ∀ u ∈ ts, ∃ ps, u = .dshape ps) ∧
    (∀ o n, ¬ Occurs (.typeset o n) t) := by
  have H := (C10.wellformed env disc hdisc s t h).2
  refine ⟨?_, ?_, ?_, ?_, ?_⟩
  · intro m ho; have := H _ ho; simp [localOk, Ty.isSingleton] at this
  · intro m v ho; have := H _ ho; simp [localOk, Ty.isSingleton] at this
  · intro k m ho; have := H _ ho; simp [localOk, Ty.isSingleton] at this
  · intro ts ho u hu
    have := H _ ho
    simp only [localOk, List.all_eq_true] at this
    exact isDShape_iff.1 (this u hu)
  · intro o n ho; have := H _ ho; simp [localOk] at this

/-- Hence everything `dshape` returns obeys the laws of `==` and `hash` (C08, C09). -/
theorem C10.equality_laws (s : Str) (t : Ty) (h : dshape env disc s = .ok t) : t.everywhere eqLocal = true :=
  WF.eqOk ((everywhere_iff _ _).2 (C10.wellformed env disc hdisc s t h).2)

end

/-- A fixed dimension is non-negative, and negative lengths are rejected. -/
theorem C10.fixed (i : Int) : (0 ≤ i → ∃ n : Nat, (n : Int) = i ∧ mkFixed i = .ok (.fixed n)) ∧
    (i < 0 → mkFixed i = .error .valueError) := by
  constructor
  · intro h; exact ⟨i.toNat, by omega, by simp [mkFixed]; omega⟩
  · intro h; simp [mkFixed, h]

/-- the hypotheses are met by a nested datashape with every kind of component -/
example (env : Env) : dshape env (fun _ => .error .unmodelled)
      (py"3 * var * {a: ?int32, b: (string['utf8'], timedelta['days']), c: map[A, 2 * B]}") =
    .ok (.dshape [.fixed 3, .var, .record [(py"a", .option tInt32),
      (py"b", .tuple [.dshape [.string none (py"U8")], .dshape [.timedelta (py"D")]]),
      (py"c", .map (.typevar (py"A")) (.dshape [.fixed 2, .typevar (py"B")]))]]) := rfl

/-! ### C11 -/

/-- `Visits u t`: `u` is `t`, or is reached from `t` through dimensions and measures, options, maps, functions and
categoricals, but not through a record, a tuple or a unit-annotated type. -/
inductive Visits : Ty → Ty → Prop where
  | refl (t : Ty) : Visits t t
  | dshape {u p : Ty} {ps : List Ty} : p ∈ ps → Visits u p → Visits u (.dshape ps)
  | option {u t : Ty} : Visits u t → Visits u (.option t)
  | key {u k v : Ty} : Visits u k → Visits u (.map k v)
  | value {u k v : Ty} : Visits u v → Visits u (.map k v)
  | func {u p : Ty} {ps : List Ty} : p ∈ ps → Visits u p → Visits u (.func ps)
  | categorical {u t : Ty} {c : List Lit} {o : Bool} : Visits u t → Visits u (.categorical c t o)

/-- at most one ellipsis, and not as the measure -/
def EllipsisOk (ps : List Ty) : Prop :=
  (∀ a b c x y, ps ≠ a ++ .ellipsis x :: b ++ .ellipsis y :: c) ∧ ∀ a x, ps ≠ a ++ [.ellipsis x]

theorem isEllipsis_iff {t : Ty} : t.isEllipsis = true ↔ ∃ x, t = .ellipsis x := by
  cases t <;> simp [Ty.isEllipsis]

theorem filter_two {α : Type} (p : α → Bool) (l : List α) :
    (l.filter p).length > 1 ↔ ∃ a x b y c, l = a ++ x :: b ++ y :: c ∧ p x = true ∧ p y = true := by
  constructor
  · intro h
    match hf : l.filter p, h with
    | x :: y :: r, _ =>
      obtain ⟨a, l', e, _, hx, hl'⟩ := List.filter_eq_cons_iff.1 hf
      obtain ⟨b, c, e', _, hy, _⟩ := List.filter_eq_cons_iff.1 hl'
      exact ⟨a, x, b, y, c, by rw [e, e']; simp, hx, hy⟩
  · rintro ⟨a, x, b, y, c, rfl, hx, hy⟩
    simp [List.filter_append, List.filter_cons, hx, hy]
    omega

theorem ellipsisOk_iff (ps : List Ty) : EllipsisOk ps ↔
    ¬ (ps.filter Ty.isEllipsis).length > 1 ∧ ((ps.getLast?.map Ty.isEllipsis).getD false) = false := by
  unfold EllipsisOk
  rw [filter_two]
  refine and_congr ⟨?_, ?_⟩ ⟨?_, ?_⟩
  · rintro h ⟨a, x, b, y, c, e, hx, hy⟩
    obtain ⟨x, rfl⟩ := isEllipsis_iff.1 hx
    obtain ⟨y, rfl⟩ := isEllipsis_iff.1 hy
    exact h a b c x y e
  · intro h a b c x y e
    exact h ⟨a, _, b, _, c, e, rfl, rfl⟩
  · intro h
    cases hl : ps.getLast? with
    | none => rfl
    | some m =>
      obtain ⟨a, e⟩ := List.getLast?_eq_some_iff.1 hl
      simp only [Option.map_some, Option.getD_some]
      cases hm : m.isEllipsis
      · rfl
      · obtain ⟨x, rfl⟩ := isEllipsis_iff.1 hm; exact absurd e (h a x)
  · intro h a x e
    rw [e] at h; simp [Ty.isEllipsis] at h

theorem validOkL_iff (l : List Ty) : validOkL l = true ↔ ∀ t ∈ l, validOk t = true := by
  induction l with
  | nil => simp [validOkL]
  | cons a l ih => simp [validOkL, ih]

/-- `validate` accepts a datashape exactly if every `DataShape` it visits is free of double ellipses and of
ellipses as measure. -/
theorem C11.validate_iff (t : Ty) : validOk t = true ↔ ∀ ps, Visits (.dshape ps) t → EllipsisOk ps := by
  constructor
  · intro h ps hv
    induction hv with
    | refl =>
      rw [ellipsisOk_iff]
      simp only [validOk, Bool.and_eq_true, Bool.not_eq_true'] at h
      exact ⟨by simpa using h.1.2, h.2⟩
    | dshape hp _ ih =>
      refine ih ?_
      simp only [validOk, Bool.and_eq_true] at h
      exact (validOkL_iff _).1 h.1.1 _ hp
    | option _ ih => exact ih (by simpa [validOk] using h)
    | key _ ih => exact ih (by simp [validOk] at h; exact h.1)
    | value _ ih => exact ih (by simp [validOk] at h; exact h.2)
    | func hp _ ih => exact ih ((validOkL_iff _).1 (by simpa [validOk] using h) _ hp)
    | categorical _ ih => exact ih (by simpa [validOk] using h)
  · induction t using Ty.ind with
    | dshape ps ih =>
      intro h
      have h1 := (ellipsisOk_iff ps).1 (h ps (.refl _))
      have h2 : validOkL ps = true :=
        (validOkL_iff _).2 fun p hp => ih p hp fun qs hq => h qs (.dshape hp hq)
      simp only [validOk, h2, h1.2]
      simpa using h1.1
    | option t ih => intro h; simpa [validOk] using ih fun qs hq => h qs (.option hq)
    | map k v ih1 ih2 =>
      intro h
      simpa [validOk] using ⟨ih1 fun qs hq => h qs (.key hq), ih2 fun qs hq => h qs (.value hq)⟩
    | func ps ih =>
      intro h
      simpa [validOk] using (validOkL_iff ps).2 fun p hp => ih p hp fun qs hq => h qs (.func hp hq)
    | categorical c t o ih => intro h; simpa [validOk] using ih fun qs hq => h qs (.categorical hq)
    | _ => intros; rfl

/-- If `dshape(s)` returns `t`, no `DataShape` reachable from `t` without passing through a record, a tuple or a
unit-annotated type has two ellipses, or an ellipsis as its measure. -/
theorem C11.parsed (env : Env) (disc : List Lit → Except PyErr Ty) (s : Str) (t : Ty) (h : dshape env disc s = .ok t)
    (ps : List Ty) (hv : Visits (.dshape ps) t) : EllipsisOk ps := by
  have hval : validOk t = true := by
    unfold dshape dshapeN at h
    split at h
    · split at h <;> cases h
      assumption
    · cases h
  exact (C11.validate_iff t).1 hval ps hv

/-- Conversely `dshape` rejects a text whose tree has such a `DataShape`. -/
theorem C11.rejected (env : Env) (disc : List Lit → Except PyErr Ty) (hd : ∀ l, Returns (disc l)) (s : Str) (t : Ty)
    (h : parse (theSym env disc) s = .ok t) (ps : List Ty) (hv : Visits (.dshape ps) t) (hb : ¬ EllipsisOk ps) :
    dshape env disc s = .error .typeError := by
  rw [C03.dshape_recursion env disc hd]
  simp only [h]
  rw [if_neg]
  intro hval
  exact hb ((C11.validate_iff t).1 hval ps hv)

/-- `... * ... * int32` is rejected, also inside an option, a map or a function type. -/
theorem C11.rejects (env : Env) (disc : List Lit → Except PyErr Ty) :
    dshape env disc (py"... * ... * int32") = .error .typeError ∧
    dshape env disc (py"?(... * A... * int32) -> int32") = .error .typeError ∧
    dshape env disc (py"map[int32, ... * ... * int32]") = .error .typeError := ⟨rfl, rfl, rfl⟩

/-- Validation does not look inside records and tuples: `{a: ... * ... * int32}` is accepted. -/
theorem C11.record_not_visited (env : Env) (disc : List Lit → Except PyErr Ty) :
    dshape env disc (py"{a: ... * ... * int32}") =
      .ok (.dshape [.record [(py"a", .dshape [.ellipsis none, .ellipsis none, tInt32])]]) ∧
    dshape env disc (py"(... * ... * int32)") =
      .ok (.dshape [.tuple [.dshape [.ellipsis none, .ellipsis none, tInt32]]]) := ⟨rfl, rfl⟩

/-- Inside a tuple even a `DataShape` whose measure is an ellipsis can be had. -/
theorem C11.ellipsis_measure (env : Env) (disc : List Lit → Except PyErr Ty) :
    dshape env disc (py"tuple[... * int32]") =
      .ok (.dshape [.tuple [.dshape [.ellipsis none], .dshape [tInt32]]]) := rfl

/-- the hypotheses of `C11.parsed` are met, at depth -/
example (env : Env) (disc : List Lit → Except PyErr Ty) :
    dshape env disc (py"map[?(A... * int32), 3 * ... * bool]") =
      .ok (.dshape [.map (.option (.tuple [.dshape [.ellipsis (some (py"A")), tInt32]]))
        (.dshape [.fixed 3, .ellipsis none, tBool])]) ∧
    Visits (.dshape [.fixed 3, .ellipsis none, tBool]) (.dshape [.map (.option (.tuple [.dshape [.ellipsis (some (py"A")), tInt32]]))
        (.dshape [.fixed 3, .ellipsis none, tBool])]) :=
  ⟨rfl, .dshape (List.mem_cons_self ..) (.value (.refl _))⟩

end DS
