import Verif.Spec.Classes
import Verif.Props.Build
import Verif.Props.Strings
import Verif.Props.Categories

/-
C60: calling the type classes from Python.
-/
namespace DS

variable {env : Env} {nest : Str → Except PyErr Ty}

theorem capital_iff (c : Nat) : env.isUpper c = true ↔ Capital env c := by
  simp only [Env.isUpper]
  constructor
  · intro h
    split at h
    · simp only [isUpperA, Bool.and_eq_true, decide_eq_true_eq] at h
      exact .ascii h.1 h.2
    · exact .unicode (by omega) h
  · intro h
    cases h with
    | ascii h1 h2 => rw [if_pos (by omega)]; simp [isUpperA, h1, h2]
    | unicode h1 h2 => rw [if_neg (by omega), h2]

theorem string_name (f : Option Int) (e : Str) (t : Ty) :
    mkString f (some e) = .ok t ↔ ∃ c, Encoding (.str e) c ∧ t = .string f c := by
  by_cases he : e = []
  · subst he
    constructor
    · intro h; cases h; exact ⟨_, .empty, rfl⟩
    · rintro ⟨c, hc, rfl⟩
      cases hc with
      | empty => rfl
      | name h => rw [← encodings_iff] at h; cases h
  · rw [mkString_some f he]
    constructor
    · rintro ⟨c, hc, rfl⟩; exact ⟨c, .name ((encodings_iff _ _).1 hc), rfl⟩
    · rintro ⟨c, hc, rfl⟩
      cases hc with
      | empty => exact absurd rfl he
      | name h => exact ⟨c, (encodings_iff _ _).2 h, rfl⟩

theorem string_error (f : Option Int) (e : Option Str) (x : PyErr) (h : mkString f e = .error x) : x = .valueError := by
  unfold mkString at h
  simp only at h
  split at h
  · cases h
  · cases h; rfl

theorem stringWith_iff (f : Option Int) (b : PVal) (t : Ty) :
    stringWith f b = .ok t ↔ ∃ c, Encoding b c ∧ t = .string f c := by
  cases b with
  | none => exact ⟨fun h => by cases h; exact ⟨_, .none, rfl⟩, fun ⟨c, hc, e⟩ => by cases hc; subst e; rfl⟩
  | str e => exact string_name f e t
  | int i =>
    simp only [stringWith]
    split
    · rename_i hi; subst hi
      exact ⟨fun h => by cases h; exact ⟨_, .zero, rfl⟩, fun ⟨c, hc, e⟩ => by cases hc; subst e; rfl⟩
    · rename_i hi
      exact ⟨fun h => (by cases h), fun ⟨c, hc, e⟩ => by cases hc; exact absurd rfl hi⟩
  | ty y =>
    by_cases hy : ∃ n, y = .typeset [] n
    · obtain ⟨n, rfl⟩ := hy
      exact ⟨fun h => by cases h; exact ⟨_, .noTypes n, rfl⟩, fun ⟨c, hc, e⟩ => by cases hc; subst e; rfl⟩
    · have : stringWith f (.ty y) = .error .valueError := by
        unfold stringWith
        split <;> first | rfl | (rename_i h; cases h; exact absurd ⟨_, rfl⟩ hy) | (rename_i h; cases h)
      rw [this]
      exact ⟨fun h => (by cases h), fun ⟨c, hc, e⟩ => by cases hc; exact absurd ⟨_, rfl⟩ hy⟩
  | other => exact ⟨fun h => (by cases h), fun ⟨c, hc, e⟩ => by cases hc⟩

theorem stringWith_error (f : Option Int) (b : PVal) (x : PyErr) :
    stringWith f b = .error x ↔ (b ≠ .other ∧ (∀ c, ¬ Encoding b c) ∧ x = .valueError) ∨ (b = .other ∧ x = .unmodelled) := by
  by_cases hb : b = .other
  · subst hb
    constructor
    · intro h; cases h; exact .inr ⟨rfl, rfl⟩
    · rintro (⟨h, _⟩ | ⟨_, rfl⟩)
      · exact absurd rfl h
      · rfl
  · cases h : stringWith f b with
    | ok t =>
      obtain ⟨c, hc, _⟩ := (stringWith_iff f b t).1 h
      exact ⟨fun h => (by cases h), fun h => by
        rcases h with ⟨_, h, _⟩ | ⟨h, _⟩
        · exact absurd hc (h c)
        · exact absurd h hb⟩
    | error y =>
      have hy : y = .valueError := by
        cases b with
        | none => cases h
        | str e => exact string_error f (some e) _ h
        | int i =>
          simp only [stringWith] at h
          split at h
          · cases h
          · cases h; rfl
        | ty t =>
          by_cases ht : ∃ n, t = .typeset [] n
          · obtain ⟨n, rfl⟩ := ht; cases h
          · have : stringWith f (.ty t) = .error .valueError := by
              unfold stringWith
              split <;> first | rfl | (rename_i h; cases h; exact absurd ⟨_, rfl⟩ ht) | (rename_i h; cases h)
            rw [this] at h; cases h; rfl
        | other => exact absurd rfl hb
      subst hy
      constructor
      · intro h'; cases h'
        refine .inl ⟨hb, fun c hc => ?_, rfl⟩
        rw [(stringWith_iff f b (.string f c)).2 ⟨c, hc, rfl⟩] at h
        cases h
      · rintro (⟨_, _, rfl⟩ | ⟨h, _⟩)
        · rfl
        · exact absurd h hb

theorem pvalStr_iff (v : PVal) (s : Str) : pvalStr env v = .ok s ↔ Text env v s := by
  cases v <;> simp only [pvalStr] <;> constructor <;> intro h <;> cases h <;> first | rfl | constructor

theorem tuplePart_iff (v : PVal) (t : Ty) : tuplePart nest v = .ok t ↔ Component nest v t := by
  by_cases hd : ∃ ps, v = .ty (.dshape ps)
  · obtain ⟨ps, rfl⟩ := hd
    constructor
    · intro h; cases h; exact .array ps
    · intro h
      cases h with
      | array => rfl
      | other _ h => exact absurd rfl (h ps)
  have e : tuplePart nest v = dataShape nest [v] := by
    unfold tuplePart
    split
    · exact absurd ⟨_, rfl⟩ hd
    · rfl
  rw [e, C50.constructor]
  constructor
  · intro h
    cases h with
    | @mk dims m h1 h2 h3 h4 =>
      have hl := h2.length_eq
      simp at hl
      subst hl
      cases h2 with
      | cons h2 _ =>
        exact .other (fun s hs => h1 s (by rw [hs])) (fun ps hps => hd ⟨ps, hps⟩) h2 h4
  · intro h
    cases h with
    | array ps => exact absurd ⟨ps, rfl⟩ hd
    | @other _ m h1 _ h2 h3 =>
      exact .mk (dims := []) (fun s hs => h1 s (by simpa using hs)) (.cons h2 .nil) (fun _ h => by cases h) h3

/-- Calls of type classes return exactly the documented types. -/
theorem C60.returns (env : Env) (nest : Str → Except PyErr Ty) (c : ClassCall) (t : Ty) :
    callClass env nest c = .ok t ↔ Constructs env nest c t := by
  cases c with
  | time a =>
    rcases a with _ | v
    · exact ⟨fun h => by cases h; exact .time .absent, fun h => by cases h; rfl⟩
    · cases v <;> constructor <;> intro h <;> cases h <;> first | rfl | exact .time .none | exact .timeZone _ | (rename_i h; cases h; rfl) | (rename_i h; cases h)
  | datetime a =>
    rcases a with _ | v
    · exact ⟨fun h => by cases h; exact .datetime .absent, fun h => by cases h; rfl⟩
    · cases v <;> constructor <;> intro h <;> cases h <;> first | rfl | exact .datetime .none | exact .datetimeZone _ | (rename_i h; cases h; rfl) | (rename_i h; cases h)
  | timedelta a =>
    rcases a with _ | v
    · have e : callClass env nest (.timedelta none) = .ok (.timedelta (py"us")) := rfl
      rw [e]
      exact ⟨fun h => by cases h; exact .timedelta, fun h => by cases h; rfl⟩
    · simp only [callClass, timedeltaClass, bind_ok, Option.getD_some, C12.timedelta, pvalStr_iff]
      constructor
      · rintro ⟨s, h1, u, h2, rfl⟩; exact .timedeltaUnit h1 h2
      · intro h; cases h with | timedeltaUnit h1 h2 => exact ⟨_, h1, _, h2, rfl⟩
  | units u tp =>
    cases u with
    | str u =>
      rcases tp with _ | v
      · exact ⟨fun h => by cases h; exact .units .absent, fun h => by cases h; rfl⟩
      · cases v with
        | none => exact ⟨fun h => by cases h; exact .units .none, fun h => by cases h; rfl⟩
        | str s => exact ⟨fun h => (by cases h), fun h => by cases h with | units h => cases h⟩
        | int s => exact ⟨fun h => (by cases h), fun h => by cases h with | units h => cases h⟩
        | other => exact ⟨fun h => (by cases h), fun h => by cases h with | units h => cases h⟩
        | ty y =>
          simp only [callClass, unitsClass, mkUnits]
          constructor
          · intro h
            split at h
            · rename_i hd
              cases y <;> first | (cases h; exact .unitsOf u _) | cases hd
            · cases h
          · intro h
            cases h with
            | units h => cases h
            | unitsOf => rfl
    | _ => exact ⟨fun h => (by cases h), fun h => by cases h⟩
  | string args =>
    rcases args with _ | ⟨a, _ | ⟨b, _ | ⟨c, r⟩⟩⟩
    · exact ⟨fun h => by cases h; exact .string, fun h => by cases h; rfl⟩
    · cases a with
      | str e =>
        simp only [callClass, stringClass, string_name]
        exact ⟨fun ⟨c, h, e⟩ => e ▸ .stringEncoding h, fun h => by cases h with | stringEncoding h => exact ⟨_, h, rfl⟩⟩
      | int i => exact ⟨fun h => by cases h; exact .stringLength i, fun h => by cases h; rfl⟩
      | _ => exact ⟨fun h => (by cases h), fun h => by cases h⟩
    · have key : ∀ n, Length a n → (stringWith n b = .ok t ↔ Constructs env nest (.string [a, b]) t) := by
        intro n hn
        rw [stringWith_iff]
        constructor
        · rintro ⟨c, hc, rfl⟩; exact .stringBoth hn hc
        · intro h
          cases h with
          | @stringBoth _ _ m c hm hc =>
            have : m = n := by cases hm <;> cases hn <;> rfl
            subst this
            exact ⟨c, hc, rfl⟩
      cases a with
      | none => exact key _ .none
      | int i => exact key _ (.int i)
      | _ => exact ⟨fun h => (by cases h), fun h => by cases h with | stringBoth h => cases h⟩
    · exact ⟨fun h => (by cases a <;> cases h), fun h => by cases h⟩
  | fixed v =>
    cases v with
    | int i =>
      simp only [callClass, fixedClass, mkFixed]
      split
      · exact ⟨fun h => (by cases h), fun h => by cases h; omega⟩
      · rename_i hi
        obtain ⟨n, rfl⟩ := Int.eq_ofNat_of_zero_le (by omega : 0 ≤ i)
        exact ⟨fun h => by cases h; exact .fixed n, fun h => by cases h; rfl⟩
    | ty y =>
      by_cases hy : ∃ n, y = .fixed n
      · obtain ⟨n, rfl⟩ := hy
        exact ⟨fun h => by cases h; exact .fixedCopy n, fun h => by cases h; rfl⟩
      · have e : callClass env nest (.fixed (.ty y)) = .error .typeError := by
          cases y <;> first | rfl | exact absurd ⟨_, rfl⟩ hy
        rw [e]
        exact ⟨fun h => (by cases h), fun h => by cases h; exact absurd ⟨_, rfl⟩ hy⟩
    | _ => exact ⟨fun h => (by cases h), fun h => by cases h⟩
  | typevar v =>
    cases v with
    | str s =>
      cases s with
      | nil => exact ⟨fun h => (by cases h), fun h => by cases h⟩
      | cons c r =>
        simp only [callClass, typevarClass, mkTypeVar]
        constructor
        · intro h
          split at h
          · rename_i hc; cases h; exact .typevar ((capital_iff c).1 hc)
          · cases h
        · intro h
          cases h with
          | typevar h => rw [if_pos ((capital_iff c).2 h)]
    | ty y => exact ⟨fun h => (by cases y <;> cases h), fun h => by cases h⟩
    | _ => exact ⟨fun h => (by cases h), fun h => by cases h⟩
  | option v =>
    simp only [callClass, optionClass, bind_ok, standsFor_iff]
    exact ⟨fun ⟨t, h, e⟩ => by cases e; exact .option h, fun h => by cases h with | option h => exact ⟨_, h, rfl⟩⟩
  | map k v =>
    simp only [callClass, mapClass, bind_ok, standsFor_iff]
    exact ⟨fun ⟨a, h, b, h', e⟩ => by cases e; exact .map h h',
      fun h => by cases h with | map h h' => exact ⟨_, h, _, h', rfl⟩⟩
  | tuple vs =>
    simp only [callClass, tupleClass, bind_ok]
    constructor
    · rintro ⟨ts, h, e⟩
      cases e
      exact .tuple ((mapM_each fun _ _ _ => tuplePart_iff _ _).1 h)
    · intro h
      cases h with
      | tuple h => exact ⟨_, (mapM_each fun _ _ _ => tuplePart_iff _ _).2 h, rfl⟩


theorem pvalStr_error (v : PVal) (e : PyErr) : pvalStr env v = .error e ↔ v = .other ∧ e = .unmodelled := by
  cases v with
  | other => exact ⟨fun h => (by cases h; exact ⟨rfl, rfl⟩), fun ⟨_, h⟩ => by rw [h]; rfl⟩
  | _ => exact ⟨fun h => (by cases h), fun ⟨h, _⟩ => by cases h⟩

theorem noComponent_iff (v : PVal) (e : PyErr) : tuplePart nest v = .error e ↔ NoComponent nest v e := by
  by_cases hd : ∃ ps, v = .ty (.dshape ps)
  · obtain ⟨ps, rfl⟩ := hd
    constructor
    · intro h; cases h
    · intro h
      cases h with
      | value _ h => cases h
      | dimension _ h => exact absurd rfl (h ps)
  have e' : tuplePart nest v = dataShape nest [v] := by
    unfold tuplePart
    split
    · exact absurd ⟨_, rfl⟩ hd
    · rfl
  rw [e', C50.raises]
  constructor
  · rintro (⟨h, _⟩ | ⟨s, h, rfl⟩ | ⟨h1, pre, w, post, ps, h2, h3, h4⟩ | ⟨h1, rfl, dims, m, h2, h3⟩)
    · cases h
    · cases h; exact .text s
    · have : pre = [] ∧ w = v := by
        cases pre with
        | nil => simp at h2; exact ⟨rfl, h2.1.symm⟩
        | cons p pre => simp at h2
      obtain ⟨rfl, rfl⟩ := this
      exact .value (fun s hs => h1 s (by rw [hs])) h4
    · have hl := h2.length_eq
      simp at hl
      subst hl
      cases h2 with
      | cons h2 _ =>
        refine .dimension (fun s hs => h1 s (by rw [hs])) (fun ps hps => hd ⟨ps, hps⟩) h2 ?_
        rcases h3 with h3 | ⟨_, h3, _⟩
        · exact h3
        · cases h3
  · intro h
    cases h with
    | text s => exact .inr (.inl ⟨s, rfl, rfl⟩)
    | value h1 h2 =>
      exact .inr (.inr (.inl ⟨fun s hs => h1 s (by simpa using hs), [], v, [], [], rfl, .nil, h2⟩))
    | @dimension _ m h1 _ h2 h3 =>
      exact .inr (.inr (.inr ⟨fun s hs => h1 s (by simpa using hs), rfl, [], m, .cons h2 .nil, .inl h3⟩))

/-- Other calls raise exactly the listed exceptions, or leave the model. -/
theorem C60.raises (env : Env) (nest : Str → Except PyErr Ty) (c : ClassCall) (e : PyErr) :
    callClass env nest c = .error e ↔ Rejects env nest c e ∨ (Outside c ∧ e = .unmodelled) := by
  have no : ∀ {c : ClassCall} {p : Prop}, (Outside c → False) → (p ∨ (Outside c ∧ e = .unmodelled) ↔ p) :=
    fun h => ⟨fun x => x.elim id fun y => (h y.1).elim, .inl⟩
  cases c with
  | time a =>
    rw [no (fun h => by cases h)]
    rcases a with _ | v
    · exact ⟨fun h => (by cases h), fun h => by cases h⟩
    · cases v with
      | none => exact ⟨fun h => (by cases h), fun h => by cases h with | time h => exact absurd rfl h⟩
      | str s => exact ⟨fun h => (by cases h), fun h => by cases h with | time _ h => exact absurd rfl (h s)⟩
      | _ => exact ⟨fun h => (by cases h; exact .time (by simp) (by simp)), fun h => by cases h; rfl⟩
  | datetime a =>
    rw [no (fun h => by cases h)]
    rcases a with _ | v
    · exact ⟨fun h => (by cases h), fun h => by cases h⟩
    · cases v with
      | none => exact ⟨fun h => (by cases h), fun h => by cases h with | datetime h => exact absurd rfl h⟩
      | str s => exact ⟨fun h => (by cases h), fun h => by cases h with | datetime _ h => exact absurd rfl (h s)⟩
      | _ => exact ⟨fun h => (by cases h; exact .datetime (by simp) (by simp)), fun h => by cases h; rfl⟩
  | timedelta a =>
    rcases a with _ | v
    · have e' : callClass env nest (.timedelta none) = .ok (.timedelta (py"us")) := rfl
      rw [e', no (fun h => by cases h)]
      exact ⟨fun h => (by cases h), fun h => by cases h⟩
    · by_cases hv : v = .other
      · subst hv
        constructor
        · intro h; cases h; exact .inr ⟨.timedelta, rfl⟩
        · rintro (h | ⟨_, rfl⟩)
          · cases h with
            | timedelta h => cases h
            | timedeltaEmpty h => cases h
          · rfl
      · rw [no (fun h => by cases h; exact hv rfl)]
        obtain ⟨s, hs⟩ : ∃ s, pvalStr env v = .ok s := by
          cases v <;> first | exact ⟨_, rfl⟩ | exact absurd rfl hv
        have ht := (pvalStr_iff v s).1 hs
        have uniq : ∀ s', Text env v s' → s' = s := by
          intro s' h'
          rw [← pvalStr_iff, hs] at h'
          cases h'; rfl
        have e1 : callClass env nest (.timedelta (some v)) = mkTimeDelta s := by
          simp only [callClass, timedeltaClass, Option.getD_some, hs]; rfl
        have e2 : mkTimeDelta s = .error e ↔ normalizeTimeUnit s = .error e := by
          simp only [mkTimeDelta]
          cases normalizeTimeUnit s <;> simp
        rw [e1, e2]
        constructor
        · intro h
          rcases C12.errors s e h with rfl | rfl
          · refine .timedelta ht (fun u hu => ?_) (fun hr => ?_)
            · rw [← C12.exact, h] at hu; cases hu
            · rw [← C12.runs_out, h] at hr; cases hr
          · exact .timedeltaEmpty ht ((C12.runs_out s).1 h)
        · intro h
          cases h with
          | timedelta h1 h2 h3 =>
            rw [uniq _ h1] at h2 h3
            cases hn : normalizeTimeUnit s with
            | ok u => exact absurd ((C12.exact s u).1 hn) (h2 u)
            | error x =>
              rcases C12.errors s x hn with rfl | rfl
              · rfl
              · exact absurd ((C12.runs_out s).1 hn) h3
          | timedeltaEmpty h1 h2 => rw [uniq _ h1] at h2; exact (C12.runs_out s).2 h2
  | units u tp =>
    rw [no (fun h => by cases h)]
    cases u with
    | str u =>
      rcases tp with _ | v
      · exact ⟨fun h => (by cases h), fun h => by cases h with | unitsUnit h => exact absurd rfl (h u)⟩
      · by_cases h1 : v = .none
        · subst h1
          refine ⟨fun h => (by cases h), fun h => ?_⟩
          cases h with
          | unitsUnit h => exact absurd rfl (h u)
          | unitsType h => exact absurd rfl h
        by_cases h2 : ∃ ps, v = .ty (.dshape ps)
        · obtain ⟨ps, rfl⟩ := h2
          refine ⟨fun h => (by cases h), fun h => ?_⟩
          cases h with
          | unitsUnit h => exact absurd rfl (h u)
          | unitsType _ h => exact absurd rfl (h ps)
        · have e' : callClass env nest (.units (.str u) (some v)) = .error .typeError := by
            cases v with
            | none => exact absurd rfl h1
            | ty y =>
              simp only [callClass, unitsClass, mkUnits]
              rw [if_neg]
              intro hy
              cases y <;> first | exact absurd ⟨_, rfl⟩ h2 | cases hy
            | _ => rfl
          rw [e']
          constructor
          · intro h; cases h; exact .unitsType h1 fun ps h => h2 ⟨ps, h⟩
          · intro h; cases h <;> rfl
    | _ => exact ⟨fun h => (by cases h; exact .unitsUnit (by simp)), fun h => by cases h; rfl⟩
  | string args =>
    rcases args with _ | ⟨a, _ | ⟨b, _ | ⟨c, r⟩⟩⟩
    · rw [no (fun h => by cases h)]
      exact ⟨fun h => (by cases h), fun h => by cases h⟩
    · rw [no (fun h => by cases h)]
      cases a with
      | str s =>
        constructor
        · intro h
          have hx := string_error none (some s) e h
          subst hx
          refine .stringEncoding fun c hc => ?_
          have := (string_name none s (.string none c)).2 ⟨c, hc, rfl⟩
          simp only [callClass, stringClass] at h
          rw [this] at h; cases h
        · intro h
          cases h with
          | stringOne h => exact absurd rfl (h s)
          | stringEncoding h =>
            simp only [callClass, stringClass]
            cases hm : mkString none (some s) with
            | ok t => obtain ⟨c, hc, _⟩ := (string_name none s t).1 hm; exact absurd hc (h c)
            | error x => rw [string_error none (some s) x hm]
      | int i =>
        exact ⟨fun h => (by cases h), fun h => by cases h with | stringOne _ h => exact absurd rfl (h i)⟩
      | _ => exact ⟨fun h => (by cases h; exact .stringOne (by simp) (by simp)), fun h => by cases h; rfl⟩
    · have key : ∀ n, Length a n →
          (stringWith n b = .error e ↔ Rejects env nest (.string [a, b]) e ∨ (Outside (.string [a, b]) ∧ e = .unmodelled)) := by
        intro n hn
        rw [stringWith_error]
        constructor
        · rintro (⟨h1, h2, rfl⟩ | ⟨rfl, rfl⟩)
          · exact .inl (.stringBoth hn h1 h2)
          · exact .inr ⟨.encoding a, rfl⟩
        · rintro (h | ⟨h, rfl⟩)
          · cases h with
            | stringBoth _ h1 h2 => exact .inl ⟨h1, h2, rfl⟩
          · cases h with
            | length h => exact absurd hn (h n)
            | encoding => exact .inr ⟨rfl, rfl⟩
      have key' : (∀ n, ¬ Length a n) → callClass env nest (.string [a, b]) = .error .unmodelled →
          (callClass env nest (.string [a, b]) = .error e ↔
            Rejects env nest (.string [a, b]) e ∨ (Outside (.string [a, b]) ∧ e = .unmodelled)) := by
        intro hn h
        rw [h]
        constructor
        · intro h; cases h; exact .inr ⟨.length hn, rfl⟩
        · rintro (h | ⟨_, rfl⟩)
          · cases h with | stringBoth h => exact absurd h (hn _)
          · rfl
      cases a with
      | none => exact key _ .none
      | int i => exact key _ (.int i)
      | _ => exact key' (fun n h => by cases h) rfl
    · rw [no (fun h => by cases h)]
      have e' : callClass env nest (.string (a :: b :: c :: r)) = .error .unboundLocal := by cases a <;> rfl
      rw [e']
      exact ⟨fun h => (by cases h; exact .stringMany), fun h => by cases h; rfl⟩
  | fixed v =>
    rw [no (fun h => by cases h)]
    cases v with
    | int i =>
      simp only [callClass, fixedClass, mkFixed]
      split
      · rename_i hi
        refine ⟨fun h => (by cases h; exact .fixedNegative hi), fun h => ?_⟩
        cases h with
        | fixedNegative => rfl
        | fixed h => exact absurd rfl (h i)
      · rename_i hi
        refine ⟨fun h => (by cases h), fun h => ?_⟩
        cases h with
        | fixedNegative h => exact absurd h hi
        | fixed h => exact absurd rfl (h i)
    | ty y =>
      by_cases hy : ∃ n, y = .fixed n
      · obtain ⟨n, rfl⟩ := hy
        exact ⟨fun h => (by cases h), fun h => by cases h with | fixed _ h => exact absurd rfl (h n)⟩
      · have e' : callClass env nest (.fixed (.ty y)) = .error .typeError := by
          cases y <;> first | rfl | exact absurd ⟨_, rfl⟩ hy
        rw [e']
        refine ⟨fun h => ?_, fun h => by cases h; rfl⟩
        cases h
        exact .fixed (by simp) fun n h => by cases h; exact hy ⟨n, rfl⟩
    | _ => exact ⟨fun h => (by cases h; exact .fixed (by simp) (by simp)), fun h => by cases h; rfl⟩
  | typevar v =>
    cases v with
    | str s =>
      rw [no (fun h => by cases h)]
      cases s with
      | nil => exact ⟨fun h => (by cases h; exact .typevarEmpty), fun h => by cases h; rfl⟩
      | cons c r =>
        simp only [callClass, typevarClass, mkTypeVar]
        constructor
        · intro h
          split at h
          · cases h
          · rename_i hc; cases h; exact .typevarSmall fun h => hc ((capital_iff c).2 h)
        · intro h
          cases h with
          | typevarSmall h => rw [if_neg fun h' => h ((capital_iff c).1 h')]
    | ty y =>
      rw [no (fun h => by cases h)]
      by_cases hy : ∃ fs, y = .record fs
      · obtain ⟨fs, rfl⟩ := hy
        refine ⟨fun h => (by cases h; exact .typevarRecord fs), fun h => ?_⟩
        cases h with
        | typevarRecord => rfl
        | typevarType h => exact absurd rfl (h fs)
      · have e' : callClass env nest (.typevar (.ty y)) = .error .attributeError := by
          cases y <;> first | rfl | exact absurd ⟨_, rfl⟩ hy
        rw [e']
        refine ⟨fun h => (by cases h; exact .typevarType fun fs h => hy ⟨fs, h⟩), fun h => ?_⟩
        cases h with
        | typevarRecord fs => exact absurd ⟨fs, rfl⟩ hy
        | typevarType => rfl
    | none =>
      rw [no (fun h => by cases h)]
      exact ⟨fun h => (by cases h; exact .typevarNone), fun h => by cases h; rfl⟩
    | int i =>
      rw [no (fun h => by cases h)]
      exact ⟨fun h => (by cases h; exact .typevarInt i), fun h => by cases h; rfl⟩
    | other =>
      constructor
      · intro h; cases h; exact .inr ⟨.typevar, rfl⟩
      · rintro (h | ⟨_, rfl⟩)
        · cases h
        · rfl
  | option v =>
    rw [no (fun h => by cases h)]
    simp only [callClass, optionClass]
    cases hl : v.launder nest with
    | ok t =>
      refine ⟨fun h => (by cases h), fun h => ?_⟩
      cases h with | option h => rw [← noPart_iff, hl] at h; cases h
    | error x =>
      refine ⟨fun h => (by cases h; exact .option (noPart_iff.1 hl)), fun h => ?_⟩
      cases h with | option h => rw [← noPart_iff, hl] at h; exact h
  | map k v =>
    rw [no (fun h => by cases h)]
    simp only [callClass, mapClass]
    cases hk : k.launder nest with
    | error x =>
      refine ⟨fun h => (by cases h; exact .mapKey (noPart_iff.1 hk)), fun h => ?_⟩
      cases h with
      | mapKey h => rw [← noPart_iff, hk] at h; exact h
      | mapValue h => rw [← standsFor_iff, hk] at h; cases h
    | ok a =>
      cases hl : v.launder nest with
      | ok t =>
        refine ⟨fun h => (by cases h), fun h => ?_⟩
        cases h with
        | mapKey h => rw [← noPart_iff, hk] at h; cases h
        | mapValue _ h => rw [← noPart_iff, hl] at h; cases h
      | error x =>
        refine ⟨fun h => (by cases h; exact .mapValue (standsFor_iff.1 hk) (noPart_iff.1 hl)), fun h => ?_⟩
        cases h with
        | mapKey h => rw [← noPart_iff, hk] at h; cases h
        | mapValue _ h => rw [← noPart_iff, hl] at h; exact h
  | tuple vs =>
    rw [no (fun h => by cases h)]
    have e' : callClass env nest (.tuple vs) = .error e ↔ vs.mapM (tuplePart nest) = .error e := by
      simp only [callClass, tupleClass]
      cases vs.mapM (tuplePart nest) with
      | ok ts => exact ⟨fun h => (by cases h), fun h => by cases h⟩
      | error x => exact ⟨fun h => (by cases h; rfl), fun h => by cases h; rfl⟩
    rw [e', mapM_first_error]
    constructor
    · rintro ⟨pre, v, post, ts, rfl, h2, h3⟩
      exact .tuple ((mapM_each fun _ _ _ => tuplePart_iff _ _).1 h2) ((noComponent_iff v e).1 h3)
    · intro h
      cases h with
      | @tuple pre v post ts _ h2 h3 =>
        exact ⟨pre, v, post, ts, rfl, (mapM_each fun _ _ _ => tuplePart_iff _ _).2 h2, (noComponent_iff v e).2 h3⟩

/-- Some calls. -/
theorem C60.examples (env : Env) (nest : Str → Except PyErr Ty) (h : nest (py"int32") = .ok (.dshape [tInt32])) :
    callClass env nest (.option (.str (py"int32"))) = .ok (.option tInt32) ∧
    callClass env nest (.map (.int 3) (.str (py"int32"))) = .ok (.map (.fixed 3) tInt32) ∧
    callClass env nest (.tuple [.ty tInt32, .ty (.dshape [.fixed 2, tInt32])]) =
      .ok (.tuple [.dshape [tInt32], .dshape [.fixed 2, tInt32]]) ∧
    callClass env nest (.tuple [.ty tInt32, .str (py"int32")]) = .error .typeError ∧
    callClass env nest (.tuple [.int 3]) = .error .typeError ∧
    callClass env nest (.units (.str (py"m")) (some (.ty tFloat64))) = .error .typeError ∧
    callClass env nest (.string [.int 10, .str (py"utf-16")]) = .ok (.string (some 10) (py"U16")) ∧
    callClass env nest (.string [.none]) = .error .unboundLocal ∧
    callClass env nest (.timedelta (some (.ty (.typevar (py"D"))))) = .ok (.timedelta (py"D")) ∧
    callClass env nest (.fixed (.ty (.fixed 3))) = .ok (.fixed 3) := by
  refine ⟨?_, ?_, rfl, rfl, rfl, rfl, ?_, rfl, ?_, rfl⟩
  · simp [callClass, optionClass, PVal.launder, h, launderTy, bind, Except.bind]
  · simp [callClass, mapClass, PVal.launder, h, launderTy, bind, Except.bind, mkFixed]
  · rfl
  · show mkTimeDelta (py"D") = _
    rfl

end DS
