import Verif.Spec.Matches
import Verif.Spec.WellFormed
import Verif.Props.Equality
import Verif.Props.WellFormed

/-
C36 `validate` and C37 `issubschema`.
-/
namespace DS

/-! ### C36 -/

theorem pyAll_true {α : Type} (f : α → Except PyErr (Option Bool)) (l : List α) :
    pyAll f l = .ok true ↔ ∀ x ∈ l, f x = .ok (some true) := by
  induction l with
  | nil => simp [pyAll]
  | cons x r ih =>
    rw [pyAll]
    cases h : f x with
    | error e => simp [bind, Except.bind, h]
    | ok b =>
      cases b with
      | none => simp [bind, Except.bind, h, isTrue]
      | some b => cases b <;> simp [bind, Except.bind, h, isTrue, ih]

theorem headCheck_true (t : Ty) (items : List PyObj) (f : PyObj → Except PyErr (Option Bool)) :
    headCheck t items f = .ok (some true) ↔
      (t = .var ∨ t = .fixed items.length) ∧ ∀ x ∈ items, f x = .ok (some true) := by
  rw [← pyAll_true]
  cases t <;> simp [headCheck, isDimension]
  case fixed n =>
    by_cases h : n = items.length
    · simp only [h, if_true]
      cases pyAll f items <;> simp [bind, Except.bind]
    · simp [h]
  case var => cases pyAll f items <;> simp [bind, Except.bind]

theorem Matches.not_none {scalar : Ty → PyObj → Prop} {t : Ty} {v : PyObj} (h : Matches scalar t v) : v ≠ .none := by
  induction h <;> simp_all [PyObj.isBase, PyObj.seqItems, PyObj.dictItems] <;> intro hv <;> subst hv <;>
    simp_all [PyObj.isBase, PyObj.seqItems, PyObj.dictItems]

theorem dict_not_seq {v : PyObj} {d : List (Str × PyObj)} (h : v.dictItems = some d) : v.seqItems = none := by
  cases v <;> simp_all [PyObj.seqItems, PyObj.dictItems]

theorem validateDict_true (ext : Ty → PyObj → Except PyErr Bool) (fs : List (Str × Ty)) (d : List (Str × PyObj)) :
    validateDict ext fs d = .ok true ↔
      ∀ f ∈ fs, validate ext f.2 ((d.lookup f.1).getD .none) = .ok (some true) := by
  induction fs with
  | nil => simp [validateDict]
  | cons f r ih =>
    obtain ⟨k, t⟩ := f
    rw [validateDict]
    cases h : validate ext t ((d.lookup k).getD .none) with
    | error e => simp [bind, Except.bind, h]
    | ok b =>
      cases b with
      | none => simp [bind, Except.bind, h, isTrue]
      | some b => cases b <;> simp [bind, Except.bind, h, isTrue, ih]

theorem validateZip_true (ext : Ty → PyObj → Except PyErr Bool) (fs : List (Str × Ty)) (l : List PyObj) :
    validateZip ext fs l = .ok true ↔
      ∀ (i : Nat) (h₁ : i < fs.length) (h₂ : i < l.length), validate ext (fs[i]).2 l[i] = .ok (some true) := by
  induction fs generalizing l with
  | nil => simp [validateZip]
  | cons f r ih =>
    obtain ⟨k, t⟩ := f
    cases l with
    | nil => simp [validateZip]
    | cons v l =>
      rw [validateZip]
      have key : (∀ (i : Nat) (h₁ : i < ((k, t) :: r).length) (h₂ : i < (v :: l).length),
          validate ext (((k, t) :: r)[i]).2 (v :: l)[i] = .ok (some true)) ↔
          validate ext t v = .ok (some true) ∧ validateZip ext r l = .ok true := by
        rw [ih]
        constructor
        · intro H
          exact ⟨H 0 (by simp) (by simp), fun i h₁ h₂ => H (i + 1) (by simp; omega) (by simp; omega)⟩
        · rintro ⟨H₀, H⟩ i h₁ h₂
          cases i with
          | zero => exact H₀
          | succ i => exact H i (by simp at h₁; omega) (by simp at h₂; omega)
      rw [key]
      cases h : validate ext t v with
      | error e => simp [bind, Except.bind]
      | ok b =>
        cases b with
        | none => simp [bind, Except.bind, isTrue]
        | some b => cases b <;> simp [bind, Except.bind, isTrue]

theorem validateDS_true (ext : Ty → PyObj → Except PyErr Bool) (ps : List Ty) (v : PyObj)
    (h : ∀ t ∈ ps, ∀ v, validate ext t v = .ok (some true) ↔ Matches (fun t v => ext t v = .ok true) t v) :
    validateDS ext ps v = .ok (some true) ↔ Matches (fun t v => ext t v = .ok true) (.dshape ps) v := by
  induction ps generalizing v with
  | nil =>
    constructor
    · intro H; rw [validateDS] at H; split at H <;> simp at H
    · intro H; cases H
  | cons t r ih =>
    have ih := fun v => ih v fun t ht => h t (List.mem_cons_of_mem _ ht)
    have ht := h t List.mem_cons_self
    cases r with
    | nil =>
      rw [validateDS]
      constructor
      · intro H
        simp only [bind_ok] at H
        obtain ⟨x, hx, H⟩ := H
        cases hs : v.seqItems with
        | none =>
          rw [hs] at H
          simp only [Except.ok.injEq] at H
          subst H
          exact .measure ((ht v).1 hx)
        | some items =>
          rw [hs] at H
          simp only at H
          split at H
          · simp only [Except.ok.injEq] at H
            subst H
            exact .measure ((ht v).1 hx)
          · rw [headCheck_true] at H
            refine .rows hs H.1 fun x hx => ?_
            exact absurd (H.2 x hx) (by simp)
      · intro H
        cases H with
        | measure H =>
          rw [(ht v).2 H]
          cases hs : v.seqItems <;> simp [bind, Except.bind, isTrue]
        | rows hs hd hl =>
          rename_i l
          have hl' : l = [] := by
            cases l with
            | nil => rfl
            | cons a l => cases hl a List.mem_cons_self
          subst hl'
          have hd' : isDimension t = true := by rcases hd with rfl | rfl <;> rfl
          have hv : validate ext t v = .ok (some false) := by rcases hd with rfl | rfl <;> simp [validate]
          rw [hv]
          simp only [bind, Except.bind, hs, isTrue]
          simp only [Bool.false_eq_true, if_false]
          rw [headCheck_true]
          exact ⟨hd, by simp⟩
    | cons u r =>
      rw [validateDS]
      constructor
      · intro H
        cases hs : v.seqItems with
        | none => rw [hs] at H; simp at H
        | some items =>
          rw [hs] at H
          simp only at H
          rw [headCheck_true] at H
          exact .rows hs H.1 fun x hx => (ih x).1 (H.2 x hx)
      · intro H
        cases H with
        | rows hs hd hl =>
          simp only [hs]
          rw [headCheck_true]
          exact ⟨hd, fun x hx => (ih x).2 (hl x hx)⟩

/-- `validate(schema, value)` returns `True` exactly when the value has the structure of the schema. -/
theorem C36.validate_iff (ext : Ty → PyObj → Except PyErr Bool) (t : Ty) (v : PyObj) :
    validate ext t v = .ok (some true) ↔ Matches (fun t v => ext t v = .ok true) t v := by
  induction t using Ty.ind generalizing v with
  | ctype n i a =>
    rw [validate]
    constructor
    · intro H
      split at H
      · rename_i hb
        simp only [bind_ok, Except.ok.injEq, Option.some.injEq] at H
        obtain ⟨b, hb', rfl⟩ := H
        exact .ctype hb hb'
      · simp at H
    · intro H
      cases H with
      | ctype hb he => simp [hb, he, bind, Except.bind]
  | string f e =>
    constructor
    · intro H; cases v <;> simp [validate] at H; exact .string
    · intro H; cases H; simp [validate]
  | time z =>
    constructor
    · intro H; cases v <;> simp [validate] at H; exact .time
    · intro H; cases H; simp [validate]
  | date =>
    constructor
    · intro H; cases v <;> simp [validate] at H
      · exact .date'
      · exact .date
    · intro H; cases H <;> simp [validate]
  | datetime z =>
    constructor
    · intro H; cases v <;> simp [validate] at H; exact .datetime
    · intro H; cases H; simp [validate]
  | record fs ih =>
    rw [validate]
    constructor
    · intro H
      cases hd : v.dictItems with
      | some d =>
        rw [hd] at H
        simp only [bind_ok, Except.ok.injEq, Option.some.injEq] at H
        obtain ⟨b, hb, rfl⟩ := H
        rw [validateDict_true] at hb
        refine .dict (fun k => (d.lookup k).getD .none) hd ?_ fun f hf => (ih f hf _).1 (hb f hf)
        intro f hf
        have := ((ih f hf _).1 (hb f hf)).not_none
        cases h : d.lookup f.1 with
        | none => rw [h] at this; exact absurd rfl this
        | some x => rfl
      | none =>
        rw [hd] at H
        cases hs : v.seqItems with
        | none => rw [hs] at H; simp at H
        | some l =>
          rw [hs] at H
          simp only [bind_ok, Except.ok.injEq, Option.some.injEq] at H
          obtain ⟨b, hb, rfl⟩ := H
          rw [validateZip_true] at hb
          exact .fields hs fun i h₁ h₂ => (ih _ (List.getElem_mem h₁) _).1 (hb i h₁ h₂)
    · intro H
      cases H with
      | dict entry hd hl hm =>
        rename_i d
        have : validateDict ext fs d = .ok true := by
          rw [validateDict_true]
          intro f hf
          rw [hl f hf]
          exact (ih f hf _).2 (hm f hf)
        simp [hd, this, bind, Except.bind]
      | fields hs hm =>
        rename_i l
        have hd : v.dictItems = none := by
          cases hd : v.dictItems with
          | none => rfl
          | some d => rw [dict_not_seq hd] at hs; simp at hs
        have : validateZip ext fs l = .ok true := by
          rw [validateZip_true]
          exact fun i h₁ h₂ => (ih _ (List.getElem_mem h₁) _).2 (hm i h₁ h₂)
        simp [hd, hs, this, bind, Except.bind]
  | dshape ps ih =>
    rw [validate]
    exact validateDS_true ext ps v fun t ht v => ih t ht v
  | _ =>
    constructor
    · intro H; simp [validate] at H
    · intro H; cases H

theorem pyAll_ok {α : Type} (f : α → Except PyErr (Option Bool)) (l : List α) (h : ∀ x ∈ l, ∃ r, f x = .ok r) :
    ∃ b, pyAll f l = .ok b := by
  induction l with
  | nil => exact ⟨true, rfl⟩
  | cons x r ih =>
    obtain ⟨b, hb⟩ := h x List.mem_cons_self
    obtain ⟨c, hc⟩ := ih fun y hy => h y (List.mem_cons_of_mem _ hy)
    rw [pyAll]
    cases hx : isTrue b <;> simp [hb, bind, Except.bind, hx, hc]

theorem headCheck_ok (t : Ty) (he : t.isEllipsis = false) (items : List PyObj)
    (f : PyObj → Except PyErr (Option Bool)) (h : isDimension t = true → ∀ x ∈ items, ∃ r, f x = .ok r) :
    ∃ b, headCheck t items f = .ok (some b) := by
  cases t <;> simp [headCheck, isDimension, Ty.isEllipsis] at he h ⊢
  case fixed n =>
    obtain ⟨b, hb⟩ := pyAll_ok f items h
    by_cases hn : n = items.length
    · simp [hn, hb, bind, Except.bind]
    · simp [hn]
  case var =>
    obtain ⟨b, hb⟩ := pyAll_ok f items h
    simp [hb, bind, Except.bind]

/-- every measure of a `DataShape` is not a dimension, no `DataShape` contains another one directly, there is no
ellipsis -/
def valLocal : Ty → Bool
  | .dshape ps => !ps.isEmpty && ps.all (fun p => !p.isDShape) &&
      ps.getLast?.all (fun m => m.cls != some .dimension)
  | .ellipsis _ => false
  | _ => true

theorem valLocal_of {env : Env} {t : Ty} (h : WF env t) (he : ∀ x, ¬ Occurs (.ellipsis x) t) :
    t.everywhere valLocal = true := by
  rw [WF, everywhere_iff] at h
  rw [everywhere_iff]
  intro s hs
  have hl := h s hs
  cases s <;> simp_all [valLocal, localOk, endsOk_fun]

theorem dim_of_cls {t : Ty} (he : t.isEllipsis = false) (h : t.cls ≠ some .dimension) : isDimension t = false := by
  cases t <;> simp_all [isDimension, Ty.isEllipsis, Ty.cls]

/-- whether `validate` returns `None` -/
def noAnswer (t : Ty) (v : PyObj) : Bool :=
  match t with
  | .dshape (_ :: _ :: _) => v.seqItems.isNone
  | _ => false

/-- The result of `validate`, when it returns: `None`, or a bool. -/
def Answers (t : Ty) (v : PyObj) (r : Except PyErr (Option Bool)) : Prop :=
  if noAnswer t v = true then r = .ok none else ∃ b, r = .ok (some b)

theorem Answers.ok {t : Ty} {v : PyObj} {r : Except PyErr (Option Bool)} (h : Answers t v r) : ∃ x, r = .ok x := by
  unfold Answers at h
  split at h
  · exact ⟨_, h⟩
  · obtain ⟨b, h⟩ := h; exact ⟨_, h⟩

theorem not_ellipsis_of {t : Ty} (h : t.everywhere valLocal = true) : t.isEllipsis = false := by
  have := everywhere_self h
  cases t <;> simp_all [valLocal, Ty.isEllipsis]

theorem validateDS_answers (ext : Ty → PyObj → Except PyErr Bool) (ps : List Ty) (v : PyObj)
    (hp : ∀ t ∈ ps, t.everywhere valLocal = true) (hl : valLocal (.dshape ps) = true)
    (h : ∀ t ∈ ps, ∀ v, Answers t v (validate ext t v)) : Answers (.dshape ps) v (validateDS ext ps v) := by
  induction ps generalizing v with
  | nil => simp [valLocal] at hl
  | cons t r ih =>
    have he := not_ellipsis_of (hp t List.mem_cons_self)
    cases r with
    | nil =>
      have hd : isDimension t = false := dim_of_cls he (by simp [valLocal] at hl; exact hl.2)
      have ht : ∃ b, validate ext t v = .ok (some b) := by
        have := h t List.mem_cons_self v
        have hn : noAnswer t v = false := by
          simp [valLocal] at hl
          cases t <;> simp_all [noAnswer, Ty.isDShape]
        simpa [Answers, hn] using this
      obtain ⟨b, hb⟩ := ht
      show ∃ b, validateDS ext [t] v = .ok (some b)
      rw [validateDS, hb]
      simp only [bind, Except.bind]
      cases hs : v.seqItems with
      | none => exact ⟨b, rfl⟩
      | some items =>
        cases b with
        | true => exact ⟨true, rfl⟩
        | false => exact headCheck_ok t he items _ (by simp [hd])
    | cons u r =>
      rw [validateDS]
      cases hs : v.seqItems with
      | none => simp [Answers, noAnswer, hs]
      | some items =>
        simp only [Answers, noAnswer, hs, Option.isNone, Bool.false_eq_true, if_false]
        refine headCheck_ok t he items _ fun _ x _ => (ih x ?_ ?_ ?_).ok
        · exact fun t ht => hp t (List.mem_cons_of_mem _ ht)
        · simp [valLocal, Bool.and_eq_true] at hl ⊢
          exact ⟨⟨hl.1.2.1, hl.1.2.2⟩, hl.2⟩
        · exact fun t ht => h t (List.mem_cons_of_mem _ ht)

theorem validate_answers (ext : Ty → PyObj → Except PyErr Bool) (hx : ∀ t v, ∃ b, ext t v = .ok b) (t : Ty)
    (ht : t.everywhere valLocal = true) (v : PyObj) : Answers t v (validate ext t v) := by
  induction t using Ty.ind generalizing v with
  | ctype n i a =>
    simp only [Answers, noAnswer, Bool.false_eq_true, if_false, validate]
    obtain ⟨b, hb⟩ := hx (.ctype n i a) v
    by_cases h : v.isBase = true
    · exact ⟨b, by simp [h, hb, bind, Except.bind]⟩
    · exact ⟨false, by simp [h]⟩
  | string f e => cases v <;> simp [Answers, noAnswer, validate]
  | time z => cases v <;> simp [Answers, noAnswer, validate]
  | date => cases v <;> simp [Answers, noAnswer, validate]
  | datetime z => cases v <;> simp [Answers, noAnswer, validate]
  | record fs ih =>
    have ih' : ∀ f ∈ fs, ∀ v, ∃ x, validate ext f.2 v = .ok x := fun f hf v =>
      (ih f hf (everywhere_child ht (by simp [Ty.children]; exact ⟨f.1, hf⟩)) v).ok
    have hdict : ∀ d, ∃ b, validateDict ext fs d = .ok b := by
      intro d
      clear ih ht
      induction fs with
      | nil => exact ⟨true, by simp [validateDict]⟩
      | cons f r ihr =>
        obtain ⟨k, t⟩ := f
        obtain ⟨x, hx⟩ := ih' (k, t) List.mem_cons_self ((d.lookup k).getD .none)
        obtain ⟨b, hb⟩ := ihr fun f hf => ih' f (List.mem_cons_of_mem _ hf)
        simp only at hx
        rw [validateDict, hx]
        cases h : isTrue x <;> simp [bind, Except.bind, h, hb]
    have hzip : ∀ l, ∃ b, validateZip ext fs l = .ok b := by
      intro l
      clear ih ht hdict
      induction fs generalizing l with
      | nil => exact ⟨true, by simp [validateZip]⟩
      | cons f r ihr =>
        obtain ⟨k, t⟩ := f
        cases l with
        | nil => exact ⟨true, by simp [validateZip]⟩
        | cons v l =>
          obtain ⟨x, hx⟩ := ih' (k, t) List.mem_cons_self v
          obtain ⟨b, hb⟩ := ihr (fun f hf => ih' f (List.mem_cons_of_mem _ hf)) l
          simp only at hx
          rw [validateZip, hx]
          cases h : isTrue x <;> simp [bind, Except.bind, h, hb]
    simp only [Answers, noAnswer, Bool.false_eq_true, if_false, validate]
    cases hd : v.dictItems with
    | some d => obtain ⟨b, hb⟩ := hdict d; exact ⟨b, by simp [hb, bind, Except.bind]⟩
    | none =>
      cases hs : v.seqItems with
      | some l => obtain ⟨b, hb⟩ := hzip l; exact ⟨b, by simp [hb, bind, Except.bind]⟩
      | none => exact ⟨false, rfl⟩
  | dshape ps ih =>
    rw [validate]
    have hc : ∀ t ∈ ps, t.everywhere valLocal = true := fun t h => everywhere_child ht (by simpa [Ty.children] using h)
    exact validateDS_answers ext ps v hc (everywhere_self ht) fun t h v => ih t h (hc t h) v
  | _ => simp [Answers, noAnswer, validate]

/-- On schemas that the parser builds and that contain no ellipsis, `validate` never raises an exception of its own. It
returns `None` for a schema with dimensions and a value that is neither a list nor a tuple, and otherwise `True` or
`False`. -/
theorem C36.answers (env : Env) (ext : Ty → PyObj → Except PyErr Bool) (hx : ∀ t v, ∃ b, ext t v = .ok b) (t : Ty)
    (ht : WF env t) (he : ∀ x, ¬ Occurs (.ellipsis x) t) (v : PyObj) :
    ((∃ d e ps, t = .dshape (d :: e :: ps)) ∧ v.seqItems = none ∧ validate ext t v = .ok none) ∨
    (Matches (fun t v => ext t v = .ok true) t v ∧ validate ext t v = .ok (some true)) ∨
    (¬ Matches (fun t v => ext t v = .ok true) t v ∧ validate ext t v = .ok (some false)) := by
  have h := validate_answers ext hx t (valLocal_of ht he) v
  unfold Answers at h
  split at h
  · rename_i hn
    left
    refine ⟨?_, ?_, h⟩
    · unfold noAnswer at hn
      split at hn
      · exact ⟨_, _, _, rfl⟩
      · simp at hn
    · unfold noAnswer at hn
      split at hn
      · simpa using hn
      · simp at hn
  · right
    obtain ⟨b, hb⟩ := h
    rw [← C36.validate_iff]
    cases b with
    | true => exact .inl ⟨hb, hb⟩
    | false => exact .inr ⟨by rw [hb]; simp, hb⟩

/-- A value that lacks an entry for a field is never valid, whatever the other fields are. -/
theorem C36.missing_field (ext : Ty → PyObj → Except PyErr Bool) (fs : List (Str × Ty)) (d : List (Str × PyObj))
    (k : Str) (t : Ty) (hk : (k, t) ∈ fs) (hd : d.lookup k = none) :
    validate ext (.record fs) (.dict d) ≠ .ok (some true) := by
  intro h
  rw [C36.validate_iff] at h
  cases h with
  | dict entry hd' hl _ =>
    simp [PyObj.dictItems] at hd'
    subst hd'
    rw [hl _ hk] at hd
    simp at hd
  | fields hs _ => simp [PyObj.seqItems] at hs

/-- A tuple of schemas is tried from left to right. It answers `True` exactly when some schema answers `True` and those
before it answered `False` or `None`; it raises what the first schema to raise raises, if none before that answered
`True`; and it answers `False`, never `None`, when every schema answers `False` or `None`. -/
theorem C36.any_schema (ext : Ty → PyObj → Except PyErr Bool) (parse : Str → Except PyErr Ty) (l : List SchemaArg)
    (v : PyObj) :
    let refuses (s : SchemaArg) := validateArg ext parse s v = .ok (some false) ∨ validateArg ext parse s v = .ok none
    (validateArg ext parse (.tuple l) v = .ok (some true) ↔ ∃ pre s post, l = pre ++ s :: post ∧
      (∀ p ∈ pre, refuses p) ∧ validateArg ext parse s v = .ok (some true)) ∧
    (∀ e, validateArg ext parse (.tuple l) v = .error e ↔ ∃ pre s post, l = pre ++ s :: post ∧
      (∀ p ∈ pre, refuses p) ∧ validateArg ext parse s v = .error e) ∧
    (validateArg ext parse (.tuple l) v = .ok (some false) ↔ ∀ s ∈ l, refuses s) ∧
    validateArg ext parse (.tuple l) v ≠ .ok none := by
  intro refuses
  have first : ∀ (P : SchemaArg → Prop) (s : SchemaArg) (r : List SchemaArg), refuses s → ¬ P s →
      ((∃ pre x post, s :: r = pre ++ x :: post ∧ (∀ p ∈ pre, refuses p) ∧ P x) ↔
        ∃ pre x post, r = pre ++ x :: post ∧ (∀ p ∈ pre, refuses p) ∧ P x) := by
    intro P s r hs hP
    constructor
    · rintro ⟨pre, x, post, e, hp, hx⟩
      cases pre with
      | nil => simp at e; rw [← e.1] at hx; exact absurd hx hP
      | cons y pre =>
        simp at e
        exact ⟨pre, x, post, e.2, fun p h => hp p (List.mem_cons_of_mem _ h), hx⟩
    · rintro ⟨pre, x, post, rfl, hp, hx⟩
      refine ⟨s :: pre, x, post, rfl, ?_, hx⟩
      intro p h
      rcases List.mem_cons.1 h with rfl | h
      · exact hs
      · exact hp p h
  have stop : ∀ (P : SchemaArg → Prop) (s : SchemaArg) (r : List SchemaArg), ¬ refuses s →
      ((∃ pre x post, s :: r = pre ++ x :: post ∧ (∀ p ∈ pre, refuses p) ∧ P x) ↔ P s) := by
    intro P s r hs
    constructor
    · rintro ⟨pre, x, post, e, hp, hx⟩
      cases pre with
      | nil => simp at e; rw [← e.1] at hx; exact hx
      | cons y pre => simp at e; exact absurd (hp y List.mem_cons_self) (e.1 ▸ hs)
    · intro h
      exact ⟨[], s, r, rfl, by simp, h⟩
  rw [validateArg]
  have key : (validateAny ext parse l v = .ok true ↔ ∃ pre s post, l = pre ++ s :: post ∧
        (∀ p ∈ pre, refuses p) ∧ validateArg ext parse s v = .ok (some true)) ∧
      (∀ e, validateAny ext parse l v = .error e ↔ ∃ pre s post, l = pre ++ s :: post ∧
        (∀ p ∈ pre, refuses p) ∧ validateArg ext parse s v = .error e) ∧
      (validateAny ext parse l v = .ok false ↔ ∀ s ∈ l, refuses s) := by
    induction l with
    | nil => simp [validateAny]
    | cons s r ih =>
      rw [validateAny]
      cases hx : validateArg ext parse s v with
      | error e =>
        have hr : ¬ refuses s := by simp [refuses, hx]
        rw [stop _ s r hr]
        refine ⟨by simp [bind, Except.bind, hx], fun e' => ?_, ?_⟩
        · rw [stop _ s r hr]; simp [bind, Except.bind, hx]
        · simp [bind, Except.bind, hr]
      | ok x =>
        by_cases ht : x = some true
        · subst ht
          have hr : ¬ refuses s := by simp [refuses, hx]
          rw [stop _ s r hr]
          refine ⟨by simp [bind, Except.bind, hx, isTrue], fun e' => ?_, ?_⟩
          · rw [stop _ s r hr]; simp [bind, Except.bind, hx, isTrue]
          · simp [bind, Except.bind, hr, isTrue]
        · have hf : isTrue x = false := by
            cases x with
            | none => rfl
            | some b => cases b with
              | false => rfl
              | true => exact absurd rfl ht
          have hr : refuses s := by
            cases x with
            | none => exact .inr hx
            | some b => cases b with
              | false => exact .inl hx
              | true => exact absurd rfl ht
          rw [first _ s r hr (by rw [hx]; simpa using ht)]
          refine ⟨by simpa [bind, Except.bind, hf] using ih.1, fun e' => ?_, ?_⟩
          · rw [first _ s r hr (by rw [hx]; simp)]
            simpa [bind, Except.bind, hf] using ih.2.1 e'
          · simpa [bind, Except.bind, hf, hr] using ih.2.2
  rw [← key.1, ← key.2.2]
  refine ⟨?_, fun e => ?_, ?_, ?_⟩
  · cases validateAny ext parse l v <;> simp [bind, Except.bind]
  · rw [← key.2.1]
    cases validateAny ext parse l v <;> simp [bind, Except.bind]
  · cases validateAny ext parse l v <;> simp [bind, Except.bind]
  · cases validateAny ext parse l v <;> simp [bind, Except.bind]

/-- Example: `validate((int, 'int32', 'nonsense['), 1)` is `True` although the last schema is no datashape; tried first,
that schema raises. -/
theorem C36.any_schema_order (ext : Ty → PyObj → Except PyErr Bool) (parse : Str → Except PyErr Ty) (e : PyErr)
    (s : Str) (hs : parse s = .error e) (v : PyObj) (isinst : PyObj → Bool) (hv : isinst v = true) :
    validateArg ext parse (.tuple [.cls isinst, .str s]) v = .ok (some true) ∧
    validateArg ext parse (.tuple [.str s, .cls isinst]) v = .error e ∧
    validateArg ext parse (.tuple []) v = .ok (some false) := by
  simp [validateArg, validateAny, hs, hv, isTrue, bind, Except.bind]

/-- A schema given as text stands for the datashape it parses to. -/
theorem C36.text (env : Env) (disc : List Lit → Except PyErr Ty) (ext : Ty → PyObj → Except PyErr Bool) (s : Str)
    (t : Ty) (h : dshape env disc s = .ok t) (v : PyObj) :
    validateArg ext (dshape env disc) (.str s) v = .ok (some true) ↔ Matches (fun t v => ext t v = .ok true) t v := by
  rw [← C36.validate_iff, validateArg, h]
  rfl

/-- Example: `2 * {name: string, amount: int64}` accepts a dict and a tuple, and rejects three items. -/
theorem C36.example (ext : Ty → PyObj → Except PyErr Bool) (hx : ∀ n i a, ext (.ctype n i a) .int = .ok true) :
    let schema : Ty := .dshape [.fixed 2, .record [(py"name", tString), (py"amount", tInt64)]]
    let a : PyObj := .dict [(py"amount", .int), (py"name", .str (py"Bob"))]
    let b : PyObj := .seq .tuple [.str (py"Alice"), .int]
    validate ext schema (.seq .list [a, b]) = .ok (some true) ∧
    validate ext schema (.seq .list [a, b, b]) = .ok (some false) ∧
    validate ext schema a = .ok none := by
  simp [validate, validateDS, validateDict, validateZip, PyObj.seqItems, PyObj.dictItems, headCheck, pyAll, isDimension,
    bind, Except.bind, isTrue, List.lookup, tString, tInt64, PyObj.isBase, hx]

/-- Sequences shorter and longer than the record are accepted. -/
theorem C36.zip_truncates (ext : Ty → PyObj → Except PyErr Bool) :
    let schema : Ty := .record [(py"a", tString), (py"b", tString)]
    validate ext schema (.seq .tuple []) = .ok (some true) ∧
    validate ext schema (.seq .tuple [.str (py"x"), .str (py"y"), .none]) = .ok (some true) := by
  simp [validate, validateZip, PyObj.seqItems, PyObj.dictItems, bind, Except.bind, isTrue, tString]

/-- Options, tuples, maps, functions, categoricals, JSON and decimals accept no value at all. -/
theorem C36.unsupported (ext : Ty → PyObj → Except PyErr Bool) (v : PyObj) (t k : Ty) (l : List Ty) (c : List Lit)
    (o : Bool) (p s : Int) :
    validate ext (.option t) v = .ok (some false) ∧ validate ext (.tuple l) v = .ok (some false) ∧
    validate ext (.map k t) v = .ok (some false) ∧ validate ext (.func l) v = .ok (some false) ∧
    validate ext (.categorical c t o) v = .ok (some false) ∧ validate ext .json v = .ok (some false) ∧
    validate ext (.decimal p s) v = .ok (some false) := by
  simp [validate]

/-- An ellipsis in front of a sequence raises `TypeError`. -/
theorem C36.ellipsis_raises (ext : Ty → PyObj → Except PyErr Bool) :
    validate ext (.dshape [.ellipsis none, tString]) (.seq .list [.str (py"x")]) = .error .typeError := by
  simp [validate, validateDS, PyObj.seqItems, headCheck, isDimension]

/-! ### C37 -/

/-- `issubschema(a, b)` is `True` when `dshape(a) == dshape(b)`, and `None` when not. -/
theorem C37.iff_equal (parse : Str → Except PyErr Ty) (a b : DArg) (x y : Ty) (ha : a.dshape parse = .ok x)
    (hb : b.dshape parse = .ok y) (hx : x.isDShape = true) (hy : y.isDShape = true) :
    issubschema parse a b = .ok (if pyEq x y then some true else none) := by
  simp [issubschema, ha, hb, hx, hy, bind, Except.bind, issubschemaDS]

/-- The answer is never `False`. -/
theorem C37.never_false (parse : Str → Except PyErr Ty) (a b : DArg) : issubschema parse a b ≠ .ok (some false) := by
  intro h
  simp only [issubschema, bind_ok] at h
  obtain ⟨x, _, y, _, h⟩ := h
  split at h
  · simp only [issubschemaDS, Except.ok.injEq] at h
    split at h <;> simp at h
  · simp at h

theorem issub_true {parse : Str → Except PyErr Ty} {a b : DArg} : issubschema parse a b = .ok (some true) ↔
    ∃ x y, a.dshape parse = .ok x ∧ b.dshape parse = .ok y ∧ x.isDShape = true ∧ y.isDShape = true ∧
      pyEq x y = true := by
  simp only [issubschema, bind_ok]
  constructor
  · rintro ⟨x, hx, y, hy, h⟩
    refine ⟨x, y, hx, hy, ?_⟩
    split at h
    · rename_i hd
      simp only [issubschemaDS, Except.ok.injEq] at h
      split at h
      · rename_i he
        simp only [Bool.and_eq_true] at hd
        exact ⟨hd.1, hd.2, he⟩
      · simp at h
    · simp at h
  · rintro ⟨x, y, hx, hy, h₁, h₂, h₃⟩
    exact ⟨x, hx, y, hy, by simp [h₁, h₂, h₃, issubschemaDS]⟩

/-- On texts, `issubschema` is reflexive, symmetric and transitive. -/
theorem C37.equivalence (env : Env) (disc : List Lit → Except PyErr Ty)
    (hdisc : ∀ l t, disc l = .ok t → WF env t) :
    let P := dshape env disc
    (∀ s t, dshape env disc s = .ok t → issubschema P (.str s) (.str s) = .ok (some true)) ∧
    (∀ a b, issubschema P (.str a) (.str b) = .ok (some true) → issubschema P (.str b) (.str a) = .ok (some true)) ∧
    (∀ a b c, issubschema P (.str a) (.str b) = .ok (some true) → issubschema P (.str b) (.str c) = .ok (some true) →
      issubschema P (.str a) (.str c) = .ok (some true)) := by
  refine ⟨?_, ?_, ?_⟩
  · intro s t h
    rw [issub_true]
    exact ⟨t, t, h, h, isDShape_iff.2 (C10.wellformed env disc hdisc s t h).1, isDShape_iff.2 (C10.wellformed env disc hdisc s t h).1, pyEq_refl (C10.equality_laws env disc hdisc s t h)⟩
  · intro a b h
    rw [issub_true] at h ⊢
    obtain ⟨x, y, hx, hy, h₁, h₂, h₃⟩ := h
    exact ⟨y, x, hy, hx, h₂, h₁, pyEq_symm (C10.equality_laws env disc hdisc a x hx) (C10.equality_laws env disc hdisc b y hy) h₃⟩
  · intro a b c h h'
    rw [issub_true] at h h' ⊢
    obtain ⟨x, y, hx, hy, h₁, h₂, h₃⟩ := h
    obtain ⟨y', z, hy', hz, h₁', h₂', h₃'⟩ := h'
    simp only [DArg.dshape] at hx hy hy' hz
    rw [hy] at hy'
    simp only [Except.ok.injEq] at hy'
    subst hy'
    exact ⟨x, z, hx, hz, h₁, h₂', pyEq_trans (C10.equality_laws env disc hdisc a x hx) (C10.equality_laws env disc hdisc b y hy)
      (C10.equality_laws env disc hdisc c z hz) h₃ h₃'⟩

/-- Two texts for the same datashape, and two for different ones. -/
theorem C37.example (env : Env) (disc : List Lit → Except PyErr Ty) :
    issubschema (dshape env disc) (.str (py"3*int32")) (.ty (.dshape [.fixed 3, tInt32])) = .ok (some true) ∧
    issubschema (dshape env disc) (.str (py"3*int32")) (.ty (.dshape [.fixed 4, tInt32])) = .ok none := by
  exact ⟨rfl, rfl⟩

/-- An array is valid exactly when its datashape equals the schema. -/
theorem C37.array (parse : Str → Except PyErr Ty) (schema : Ty) (hs : schema.isDShape = true) (sh : List Int)
    (dt : DType) (t : Ty) (ht : fromNumpy dt sh = .ok t) (hd : t.isDShape = true) :
    validateArray parse schema sh dt = .ok (if pyEq t schema then some true else none) := by
  rw [validateArray, ht]
  show issubschema parse (.ty t) (.ty schema) = _
  exact C37.iff_equal parse _ _ t schema (by simp [DArg.dshape, dshapeTy, hd]) (by simp [DArg.dshape, dshapeTy, hs])
    hd hs

/-- An option that is not wrapped in a `DataShape` is left as it is by `dshape`, and `issubschema` calls itself with the
same arguments for ever. -/
theorem C37.option_recursion (parse : Str → Except PyErr Ty) :
    issubschema parse (.ty (.option tInt32)) (.ty (.option tInt32)) = .error .recursion := rfl

/-- The three kinds of values that `validate` distinguishes, written out: the ones compared with C types, lists and
tuples, and dicts. -/
theorem C36.values (v : PyObj) :
    (v.isBase = true ↔ v = .int ∨ v = .float ∨ v = .bool ∨ (∃ s, v = .str s) ∨ v = .date ∨ v = .time ∨ v = .datetime ∨
      ∃ d, v = .npScalar d) ∧
    (∀ l, v.seqItems = some l ↔ v = .seq .list l ∨ v = .seq .tuple l) ∧
    (∀ d, v.dictItems = some d ↔ v = .dict d ∨ v = .od d) := by
  refine ⟨?_, fun l => ?_, fun d => ?_⟩
  · cases v <;> simp [PyObj.isBase]
  · cases v <;> simp [PyObj.seqItems]
    rename_i kind l'
    cases kind <;> simp [PyObj.seqItems]
  · cases v <;> simp [PyObj.dictItems]

end DS
