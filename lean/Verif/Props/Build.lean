import Verif.Spec.Build
import Verif.Proofs.Util
import Verif.Props.WellFormed
import Verif.Props.Constructors

/-
C50: building datashapes from Python objects.
-/
namespace DS

variable {nest : Str → Except PyErr Ty}

theorem unpacked_iff {t u : Ty} : launderTy t = u ↔ Unpacked t u := by
  constructor
  · intro h
    subst h
    unfold launderTy
    split
    · exact .single _
    · rename_i hn; exact .same _ hn
  · intro h
    cases h with
    | single => rfl
    | same _ hn =>
      unfold launderTy
      split
      · rename_i m; exact absurd rfl (hn m)
      · rfl

theorem standsFor_iff {v : PVal} {u : Ty} : v.launder nest = .ok u ↔ StandsFor nest v u := by
  cases v with
  | none => exact ⟨fun h => by simp [PVal.launder] at h, fun h => by cases h⟩
  | other => exact ⟨fun h => by simp [PVal.launder] at h, fun h => by cases h⟩
  | str s =>
    simp only [PVal.launder]
    cases hn : nest s with
    | error e =>
      constructor
      · intro h; simp at h
      · intro h; cases h with | text h _ => rw [hn] at h; cases h
    | ok t =>
      constructor
      · intro h; injection h with h; exact .text hn (unpacked_iff.1 h)
      · intro h
        cases h with
        | text h hu =>
          rw [hn] at h; injection h with h; subst h
          simp [unpacked_iff.2 hu]
  | int i =>
    simp only [PVal.launder, mkFixed]
    split
    · constructor
      · intro h; cases h
      · intro h; cases h; omega
    · rename_i hi
      constructor
      · intro h
        injection h with h
        subst h
        obtain ⟨n, rfl⟩ := Int.eq_ofNat_of_zero_le (by omega : 0 ≤ i)
        exact .size n
      · intro h; cases h; rfl
  | ty t =>
    simp only [PVal.launder]
    constructor
    · intro h; injection h with h; exact .object (unpacked_iff.1 h)
    · intro h; cases h with | object hu => rw [unpacked_iff.2 hu]

theorem noPart_iff {v : PVal} {e : PyErr} : v.launder nest = .error e ↔ NoPart nest v e := by
  cases v with
  | none => exact ⟨fun h => by simp [PVal.launder] at h; subst h; exact .none, fun h => by cases h; rfl⟩
  | other => exact ⟨fun h => by simp [PVal.launder] at h; subst h; exact .other, fun h => by cases h; rfl⟩
  | str s =>
    simp only [PVal.launder]
    cases hn : nest s with
    | error e' =>
      constructor
      · intro h; injection h with h; subst h; exact .text hn
      · intro h; cases h with | text h => rw [hn] at h; exact h
    | ok t =>
      constructor
      · intro h; cases h
      · intro h; cases h with | text h => rw [hn] at h; cases h
  | int i =>
    simp only [PVal.launder, mkFixed]
    split
    · rename_i hi
      constructor
      · intro h; injection h with h; subst h; exact .negative hi
      · intro h; cases h; rfl
    · rename_i hi
      constructor
      · intro h; cases h
      · intro h; cases h; contradiction
  | ty t => exact ⟨fun h => by simp [PVal.launder] at h, fun h => by cases h⟩

theorem launder_each {vs : List PVal} {ps : List Ty} :
    vs.mapM (PVal.launder nest) = .ok ps ↔ Each (StandsFor nest) vs ps :=
  mapM_each fun _ _ _ => standsFor_iff

theorem single_str {vs : List PVal} : (vs.length = 1 ∧ vs.any PVal.isStr = true) ↔ ∃ s, vs = [.str s] := by
  constructor
  · rintro ⟨h1, h2⟩
    obtain ⟨v, rfl⟩ := List.length_eq_one_iff.1 h1
    cases v <;> simp [PVal.isStr] at h2
    exact ⟨_, rfl⟩
  · rintro ⟨s, rfl⟩; exact ⟨rfl, rfl⟩

/-- `DataShape(*vs)` returns exactly for a sequence of values that stand for dimensions and, at the end, a measure, and
it returns these parts in order. -/
theorem C50.constructor (vs : List PVal) (d : Ty) : dataShape nest vs = .ok d ↔ BuiltFrom nest vs d := by
  unfold dataShape
  constructor
  · intro h
    split at h
    · cases h
    rename_i hs
    rw [single_str] at hs
    split at h
    · simp only [bind_ok] at h
      obtain ⟨ps, hp, h⟩ := h
      obtain ⟨dims, m, rfl, h1, h2, rfl⟩ := checkDS_ok.1 h
      exact .mk (fun s e => hs ⟨s, e⟩) (launder_each.1 hp) (fun d hd => mayPrecede_iff.1 (h1 d hd)) (mayEnd_iff.1 h2)
    · cases h
  · intro h
    cases h with
    | @mk dims m h1 h2 h3 h4 =>
      rw [if_neg (by rw [single_str]; rintro ⟨s, e⟩; exact h1 s e)]
      have hl : vs.length > 0 := by
        cases vs with
        | nil => generalize e : dims ++ [m] = l at h2; cases h2; simp at e
        | cons v r => simp
      rw [if_pos hl]
      simp only [bind_ok]
      exact ⟨_, launder_each.2 h2, checkDS_ok.2 ⟨dims, m, rfl, fun d hd => mayPrecede_iff.2 (h3 d hd), mayEnd_iff.2 h4, rfl⟩⟩

theorem mapM_first_error {α β : Type} {f : α → Except PyErr β} {l : List α} {e : PyErr} :
    l.mapM f = .error e ↔ ∃ pre a post r, l = pre ++ a :: post ∧ pre.mapM f = .ok r ∧ f a = .error e := by
  induction l with
  | nil =>
    constructor
    · intro h; cases h
    · rintro ⟨pre, a, post, r, h, _⟩; simp at h
  | cons x l ih =>
    rw [List.mapM_cons]
    cases hx : f x with
    | error e' =>
      constructor
      · intro h; cases h; exact ⟨[], x, l, [], rfl, rfl, hx⟩
      · rintro ⟨pre, a, post, r, h1, h2, h3⟩
        cases pre with
        | nil => simp at h1; rw [← h1.1, hx] at h3; injection h3 with h3; subst h3; rfl
        | cons p pre =>
          simp at h1
          rw [List.mapM_cons, ← h1.1, hx] at h2; cases h2
    | ok y =>
      have e1 : ((do let y ← Except.ok y; let r ← l.mapM f; pure (y :: r) : Except PyErr (List β)) = .error e) ↔
          l.mapM f = .error e := by
        cases l.mapM f <;> simp [bind, Except.bind, pure, Except.pure]
      rw [e1, ih]
      constructor
      · rintro ⟨pre, a, post, r, h1, h2, h3⟩
        refine ⟨x :: pre, a, post, y :: r, by simp [h1], ?_, h3⟩
        rw [List.mapM_cons, hx, h2]; rfl
      · rintro ⟨pre, a, post, r, h1, h2, h3⟩
        cases pre with
        | nil => simp at h1; rw [← h1.1, hx] at h3; cases h3
        | cons p pre =>
          simp at h1
          rw [List.mapM_cons, ← h1.1, hx] at h2
          simp only [bind_ok] at h2
          obtain ⟨_, _, r', h2, _⟩ := h2
          exact ⟨pre, a, post, r', h1.2, h2, h3⟩

/-- The exceptions of `DataShape(*vs)`: `ValueError` without arguments; `TypeError` for a single string; else that of
the first value that stands for nothing; else `TypeError` if a part is at a wrong place. -/
theorem C50.raises (vs : List PVal) (e : PyErr) : dataShape nest vs = .error e ↔
    (vs = [] ∧ e = .valueError) ∨
    (∃ s, vs = [.str s] ∧ e = .typeError) ∨
    ((∀ s, vs ≠ [.str s]) ∧ ∃ pre v post ps, vs = pre ++ v :: post ∧ Each (StandsFor nest) pre ps ∧ NoPart nest v e) ∨
    ((∀ s, vs ≠ [.str s]) ∧ e = .typeError ∧ ∃ dims m, Each (StandsFor nest) vs (dims ++ [m]) ∧
      (¬ MayEnd m ∨ ∃ d ∈ dims, ¬ MayPrecede d)) := by
  by_cases hs : ∃ s, vs = [.str s]
  · obtain ⟨s, rfl⟩ := hs
    have e1 : dataShape nest [.str s] = .error .typeError := rfl
    rw [e1]
    constructor
    · intro h; cases h; exact .inr (.inl ⟨s, rfl, rfl⟩)
    · rintro (⟨h, _⟩ | ⟨_, _, rfl⟩ | ⟨h, _⟩ | ⟨h, _⟩)
      · simp at h
      · rfl
      · exact absurd rfl (h s)
      · exact absurd rfl (h s)
  have hs' : ∀ s, vs ≠ [.str s] := fun s h => hs ⟨s, h⟩
  by_cases hv : vs = []
  · subst hv
    have e1 : dataShape nest [] = .error .valueError := rfl
    rw [e1]
    constructor
    · intro h; cases h; exact .inl ⟨rfl, rfl⟩
    · rintro (⟨_, rfl⟩ | ⟨s, h, _⟩ | ⟨_, pre, v, post, ps, h, _⟩ | ⟨_, _, dims, m, h, _⟩)
      · rfl
      · cases h
      · simp at h
      · generalize e : dims ++ [m] = l at h; cases h; simp at e
  have e1 : dataShape nest vs = (vs.mapM (PVal.launder nest) >>= checkDS) := by
    unfold dataShape
    rw [if_neg (by rw [single_str]; exact hs), if_pos (List.length_pos_iff.2 hv)]
  rw [e1]
  simp only [hv, false_and, false_or]
  have e2 : ¬ ∃ s, vs = [.str s] ∧ e = .typeError := fun ⟨s, h, _⟩ => hs' s h
  rw [or_iff_right e2]
  simp only [hs', ne_eq, not_false_eq_true, implies_true, true_and]
  cases hm : vs.mapM (PVal.launder nest) with
  | error e' =>
    have hno : ¬ ∃ dims m, Each (StandsFor nest) vs (dims ++ [m]) ∧ (¬ MayEnd m ∨ ∃ d ∈ dims, ¬ MayPrecede d) := by
      rintro ⟨dims, m, h, _⟩
      rw [← launder_each, hm] at h; cases h
    simp only [hno, and_false, or_false]
    have := mapM_first_error.1 hm
    constructor
    · intro h
      have : e' = e := by simpa [bind, Except.bind] using h
      subst this
      obtain ⟨pre, a, post, r, h1, h2, h3⟩ := mapM_first_error.1 hm
      exact ⟨pre, a, post, r, h1, launder_each.1 h2, noPart_iff.1 h3⟩
    · rintro ⟨pre, a, post, r, h1, h2, h3⟩
      have := mapM_first_error.2 ⟨pre, a, post, r, h1, launder_each.2 h2, noPart_iff.2 h3⟩
      rw [hm] at this
      injection this with this; subst this; rfl
  | ok ps =>
    have hno : ¬ ∃ pre v post ps, vs = pre ++ v :: post ∧ Each (StandsFor nest) pre ps ∧ NoPart nest v e := by
      rintro ⟨pre, a, post, r, h1, h2, h3⟩
      have := mapM_first_error.2 ⟨pre, a, post, r, h1, launder_each.2 h2, noPart_iff.2 h3⟩
      rw [hm] at this; cases this
    simp only [hno, false_or]
    show checkDS ps = .error e ↔ _
    have hne : ps ≠ [] := by
      rintro rfl
      have := launder_each.1 hm
      cases this; exact hv rfl
    obtain ⟨dims, m, rfl⟩ : ∃ dims m, ps = dims ++ [m] := ⟨_, _, (List.dropLast_concat_getLast hne).symm⟩
    have hc : checkDS (dims ++ [m]) = if m.cls = some .dimension then .error .typeError
        else if dims.any fun d => d.cls == some .measure then .error .typeError else .ok (.dshape (dims ++ [m])) := by
      unfold checkDS; simp
    rw [hc]
    constructor
    · intro h
      split at h
      · rename_i hd
        cases h
        exact ⟨rfl, dims, m, launder_each.1 hm, .inl fun h => mayEnd_iff.2 h hd⟩
      · split at h
        · rename_i hd
          cases h
          obtain ⟨d, hd, hd'⟩ := List.any_eq_true.1 hd
          exact ⟨rfl, dims, m, launder_each.1 hm, .inr ⟨d, hd, fun h => mayPrecede_iff.2 h (by simpa using hd')⟩⟩
        · cases h
    · rintro ⟨rfl, dims', m', h1, h2⟩
      rw [← launder_each, hm] at h1
      injection h1 with h1
      obtain ⟨hq, hq'⟩ := List.append_inj' h1 rfl
      subst hq
      injection hq' with hq' _; subst hq'
      split
      · rfl
      · rename_i hd
        rcases h2 with h2 | ⟨d, h2, h3⟩
        · exact absurd (mayEnd_iff.1 hd) h2
        · rw [if_pos]
          apply List.any_eq_true.2
          refine ⟨d, h2, ?_⟩
          simp only [beq_iff_eq]
          exact Classical.byContradiction fun hn => h3 (mayPrecede_iff.1 hn)

section
variable {env : Env} {disc : List Lit → Except PyErr Ty}

/-- `dshape(list)` builds the `DataShape` of its elements and then checks the ellipses. -/
theorem C50.sequence (vs : List PVal) (d : Ty) : dshapeObj env disc (.seq vs) = .ok d ↔
    BuiltFrom (DS.dshape env disc) vs d ∧ ∀ ps, Visits (.dshape ps) d → EllipsisOk ps := by
  unfold dshapeObj
  simp only [bind_ok, C50.constructor, ← C11.validate_iff]
  constructor
  · rintro ⟨d', h1, h2⟩
    split at h2
    · injection h2 with h2; subst h2; exact ⟨h1, by assumption⟩
    · cases h2
  · rintro ⟨h1, h2⟩
    exact ⟨d, h1, by rw [if_pos h2]⟩

theorem if_ok {p : Prop} [Decidable p] {t d : Ty} {e : PyErr} :
    (if p then Except.ok t else .error e) = .ok d ↔ d = t ∧ p := by
  split <;> rename_i hp
  · simp only [Except.ok.injEq, hp, and_true]; exact eq_comm
  · simp only [hp, and_false, iff_false]; intro h; cases h

theorem if_error {p : Prop} [Decidable p] {t : Ty} {e e' : PyErr}
    (h : (if p then Except.ok t else .error e) = .error e') : e' = e := by
  split at h
  · cases h
  · injection h with h; exact h.symm

theorem wrapped_iff {t : Ty} : Wrapped t ↔ (t.isUnit || t.isRecord || (match t with | .json => true | _ => false)) = true ∧
    (∀ n, t ≠ .fixed n) ∧ t ≠ .var := by
  constructor
  · intro h; cases h <;> simp [Ty.isUnit, Ty.isRecord]
  · cases t <;> simp [Ty.isUnit, Ty.isRecord] <;> constructor

/-- `dshape(t)` of a datashape object: a `DataShape` is returned as it is; a unit, a record or JSON becomes a
`DataShape` of one; any other object but a dimension is returned as it is if its ellipses are in order. Otherwise
`TypeError`. -/
theorem C50.objects (t d : Ty) : (dshapeObj env disc (.ty t) = .ok d ↔
      (∃ ps, t = .dshape ps ∧ d = t) ∨
      (Wrapped t ∧ d = .dshape [t]) ∨
      ((∀ ps, t ≠ .dshape ps) ∧ ¬ Wrapped t ∧ (∀ n, t ≠ .fixed n) ∧ t ≠ .var ∧ d = t ∧
        ∀ ps, Visits (.dshape ps) t → EllipsisOk ps)) ∧
    (∀ e, dshapeObj env disc (.ty t) = .error e → e = .typeError) := by
  constructor
  · have step : dshapeObj env disc (.ty t) = dshapeTy t := rfl
    rw [step, wrapped_iff]
    have hval := C11.validate_iff t
    cases t <;>
      simp [dshapeTy, Ty.isDShape, Ty.isUnit, Ty.isRecord, mkDS, launderTy, checkDS, Ty.cls, bind, Except.bind,
        validOk, validOkL, Ty.isEllipsis, ← C11.validate_iff] <;>
      first
      | exact eq_comm
      | exact if_ok
  · show ∀ e, dshapeTy t = .error e → e = .typeError
    intro e
    cases t <;>
      first
      | exact if_error
      | exact fun h => nomatch h
      | (intro h; injection h with h; exact h.symm)

/-- Applying `dshape` to its own result changes nothing. -/
theorem C50.idempotent (o : DObj) (d : Ty) (hdisc : ∀ l t, disc l = .ok t → WF env t)
    (h : dshapeObj env disc o = .ok d) : dshapeObj env disc (.ty d) = .ok d := by
  cases o with
  | other => cases h
  | str s =>
    obtain ⟨⟨ps, rfl⟩, _⟩ := C10.wellformed env disc hdisc s d h
    rfl
  | seq vs =>
    obtain ⟨h, _⟩ := (C50.sequence vs d).1 h
    cases h
    rfl
  | ty t =>
    rcases (C50.objects t d).1.1 h with ⟨ps, rfl, rfl⟩ | ⟨_, rfl⟩ | ⟨_, _, _, _, rfl, _⟩
    · rfl
    · rfl
    · exact h

/-- Any other argument is rejected with `TypeError`. -/
theorem C50.foreign : dshapeObj env disc .other = .error .typeError := rfl

/-- What `dshape` returns for a text is also what it returns for the list of its parts: `dshape(list(ds)) == ds`. -/
theorem C50.elements (s : Str) (ps : List Ty) (hdisc : ∀ l t, disc l = .ok t → WF env t)
    (h : DS.dshape env disc s = .ok (.dshape ps)) : dshapeObj env disc (.seq (ps.map .ty)) = .ok (.dshape ps) := by
  have hv : ∀ qs, Visits (.dshape qs) (.dshape ps) → EllipsisOk qs := fun qs hq => C11.parsed env disc s _ h qs hq
  obtain ⟨dims, m, rfl, h1, h2, h3, h4⟩ := C10.dims env disc hdisc s _ h ps (.refl _)
  refine (C50.sequence _ _).2 ⟨.mk ?_ ?_ ?_ ⟨h2, h3⟩, hv⟩
  · intro s e
    cases dims <;> simp at e
  · have : ∀ l : List Ty, (∀ t ∈ l, ∀ qs, t ≠ .dshape qs) → Each (StandsFor (DS.dshape env disc)) (l.map .ty) l := by
      intro l hl
      induction l with
      | nil => exact .nil
      | cons t l ih =>
        exact .cons (.object (.same _ fun m => hl t (by simp) [m])) (ih fun t ht => hl t (by simp [ht]))
    apply this
    intro t ht qs
    rcases List.mem_append.1 ht with ht | ht
    · rcases h1 t ht with ⟨n, rfl⟩ | rfl | ⟨x, rfl⟩ | ⟨x, rfl⟩ <;> simp
    · rw [List.mem_singleton.1 ht]; exact h4 qs
  · intro d hd
    rcases h1 d hd with ⟨n, rfl⟩ | rfl | ⟨x, rfl⟩ | ⟨x, rfl⟩ <;> constructor

/-- `dshape([n, s])` for a size and a text of one measure is `dshape(f'{n}*{s}')`. -/
theorem C50.size_and_text (hd : ∀ l, Returns (disc l)) (hdisc : ∀ l t, disc l = .ok t → WF env t) (n : Nat) (s : Str) (m : Ty)
    (hs : Denotes env disc s (.dshape [m])) (h : DS.dshape env disc s = .ok (.dshape [m])) :
    dshapeObj env disc (.seq [.int n, .str s]) = DS.dshape env disc (natStr n ++ (py"*" ++ s)) := by
  rw [C44.dims env disc hd _ s _ _ (.fixed n) hs hdisc]
  have e : (Ty.dshape [m]).params = [m] := rfl
  rw [e]
  have hv := (C11.validate_iff _).2 fun ps hv => C11.parsed env disc s _ h ps hv
  have hv' : validOk (.dshape [.fixed n, m]) = true := by
    simp only [validOk, validOkL, Bool.and_true, Bool.and_eq_true] at hv ⊢
    refine ⟨⟨⟨trivial, hv.1.1⟩, ?_⟩, ?_⟩
    · have := hv.1.2
      simpa [Ty.isEllipsis] using this
    · have := hv.2
      simpa using this
  rw [if_pos hv']
  obtain ⟨dims, m', e, _, h2, h3, h4⟩ := C10.dims env disc hdisc s _ h [m] (.refl _)
  have : dims = [] ∧ m' = m := by
    cases dims with
    | nil => simpa using e.symm
    | cons a l => simp at e
  obtain ⟨rfl, rfl⟩ := this
  exact (C50.sequence _ _).2 ⟨.mk (dims := [.fixed n]) (by simp) (.cons (.size n) (.cons (.text h (.single _)) .nil))
    (by simp; constructor) ⟨h2, h3⟩, (C11.validate_iff _).1 hv'⟩

/-- the hypotheses are met by a record -/
example : let e : Env := ⟨fun _ => true, fun _ => false⟩
    Denotes e disc (py"{a: int32, b: ?string}") (.dshape [.record [(py"a", tInt32), (py"b", .option tString)]]) ∧
    DS.dshape e disc (py"{a: int32, b: ?string}") = .ok (.dshape [.record [(py"a", tInt32), (py"b", .option tString)]]) :=
  ⟨Denotes.printed (t := .dshape [.record [(py"a", tInt32), (py"b", .option tString)]])
    ⟨by decide, by decide, by decide, by decide⟩ none, rfl⟩

/-- `dshapes(*args)` is the list of the datashapes of the arguments; it raises exactly if one of them is rejected, with
the exception of the first. -/
theorem C50.several (args : List DObj) :
    (∀ l, dshapes env disc args = .ok l ↔ Each (fun o d => dshapeObj env disc o = .ok d) args l) ∧
    ∀ e, dshapes env disc args = .error e ↔ ∃ pre o post l, args = pre ++ o :: post ∧
      Each (fun o d => dshapeObj env disc o = .ok d) pre l ∧ dshapeObj env disc o = .error e := by
  constructor
  · intro l; exact mapM_each fun _ _ _ => Iff.rfl
  · intro e
    unfold dshapes
    rw [mapM_first_error]
    constructor
    · rintro ⟨pre, a, post, r, h1, h2, h3⟩
      exact ⟨pre, a, post, r, h1, (mapM_each fun _ _ _ => Iff.rfl).1 h2, h3⟩
    · rintro ⟨pre, a, post, r, h1, h2, h3⟩
      exact ⟨pre, a, post, r, h1, (mapM_each fun _ _ _ => Iff.rfl).2 h2, h3⟩

/-- `dshape([3, 'var', 'int32'])`, a nested datashape (which prints like the flat one but is not equal to it), objects
that are not wrapped, and rejected arguments. -/
theorem C50.examples :
    dshapeObj env disc (.seq [.int 3, .str (py"int32")]) = .ok (.dshape [.fixed 3, tInt32]) ∧
    dshapeObj env disc (.seq [.int 3, .ty .var, .str (py"{a: int32}")]) =
      .ok (.dshape [.fixed 3, .var, .record [(py"a", tInt32)]]) ∧
    (dshapeObj env disc (.seq [.int 3, .str (py"2 * int32")]) = .ok (.dshape [.fixed 3, .dshape [.fixed 2, tInt32]]) ∧
      pyStr env (.dshape [.fixed 3, .dshape [.fixed 2, tInt32]]) = pyStr env (.dshape [.fixed 3, .fixed 2, tInt32]) ∧
      pyEq (.dshape [.fixed 3, .dshape [.fixed 2, tInt32]]) (.dshape [.fixed 3, .fixed 2, tInt32]) = false) ∧
    dshapeObj env disc (.ty (.option tInt32)) = .ok (.option tInt32) ∧
    dshapeObj env disc (.ty tInt32) = .ok (.dshape [tInt32]) ∧
    dshapeObj env disc (.ty (.fixed 3)) = .error .typeError ∧
    dshapeObj env disc (.seq [.str (py"var"), .str (py"int32")]) = .error (.syntax (py"var") 3 (py"Invalid datashape")) ∧
    dshapeObj env disc (.seq [.int (-1), .str (py"int32")]) = .error .valueError ∧
    dshapeObj env disc (.seq [.str (py"int32")]) = .error .typeError ∧
    dshapeObj env disc (.seq []) = .error .valueError :=
  ⟨rfl, rfl, ⟨rfl, rfl, rfl⟩, rfl, rfl, rfl, rfl, rfl, rfl, rfl⟩

end
end DS
