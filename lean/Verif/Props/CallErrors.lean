import Verif.Spec.CallErrors
import Verif.Props.Build
import Verif.Props.Strings

/-
C45, continued: which exception a call of a type constructor raises.
-/
namespace DS

theorem bound_error {names : List Str} {args : List Arg} {kw : List (Str × Arg)} {f : List (Option Arg) → Except PyErr Ty} {e : PyErr} :
    (bindArgs names args kw >>= f) = .error e ↔
      (∃ vals, Binds names args kw vals ∧ f vals = .error e) ∨ (¬ ∃ vals, Binds names args kw vals) ∧ e = .typeError := by
  cases hv : bindArgs names args kw with
  | ok vals =>
    have hb := (bindArgs_iff args kw vals).1 hv
    constructor
    · intro h; exact .inl ⟨vals, hb, h⟩
    · rintro (⟨v, hb', h⟩ | ⟨h, _⟩)
      · have := (bindArgs_iff args kw v).2 hb'
        rw [hv] at this; cases this; exact h
      · exact absurd ⟨vals, hb⟩ h
  | error e' =>
    have he : e' = .typeError := by
      unfold bindArgs at hv
      split at hv
      · cases hv; rfl
      · simp only at hv
        split at hv
        · cases hv; rfl
        · cases hv
    subst he
    have hno : ¬ ∃ vals, Binds names args kw vals := by
      rintro ⟨v, hb⟩
      have := (bindArgs_iff args kw v).2 hb
      rw [hv] at this; cases this
    constructor
    · intro h; cases h; exact .inr ⟨hno, rfl⟩
    · rintro (⟨v, hb, _⟩ | ⟨_, rfl⟩)
      · exact absurd ⟨v, hb⟩ hno
      · rfl

section
variable {env : Env} {disc : List Lit → Except PyErr Ty}

theorem noElems_iff {a : Arg} (ha : ArgOk env a) {e : PyErr} : a.iter = .error e ↔ NoElems a ∧ e = .typeError := by
  constructor
  · intro h
    cases a with
    | lit x =>
      cases x with
      | str s => cases h
      | int i => cases h; exact ⟨.int i, rfl⟩
      | bool b => cases h; exact ⟨.bool b, rfl⟩
    | lits x => cases h
    | dss ts => cases h
    | ds t => obtain ⟨ps, rfl⟩ := isDShape_iff.1 ha.2; cases h
  · rintro ⟨h, rfl⟩
    cases h <;> rfl

theorem notAType_iff {a : Arg} {e : PyErr} : a.launder (DS.dshape env disc) = .error e ↔ NotAType env disc a e := by
  constructor
  · intro h
    cases a with
    | lit x =>
      cases x with
      | int i =>
        simp only [Arg.launder, mkFixed] at h
        split at h
        · cases h; exact .negative (by assumption)
        · cases h
      | bool b => cases h
      | str s =>
        simp only [Arg.launder] at h
        split at h
        · cases h
        · cases h; rename_i h; exact .str h
    | ds t => cases h
    | lits l => cases h; exact .lits l
    | dss l => cases h; exact .dss l
  · intro h
    cases h with
    | negative h => simp only [Arg.launder, mkFixed]; rw [if_pos h]
    | str h => simp only [Arg.launder, h]
    | lits => rfl
    | dss => rfl

theorem notAComponent_iff {a : Arg} (ha : ElemOk env a) (hl : ∀ l, a ≠ .lits l) {e : PyErr} :
    tupleElem a = .error e ↔ NotAComponent a e := by
  constructor
  · intro h
    cases a with
    | lit x =>
      cases x with
      | int i =>
        simp only [tupleElem] at h
        split at h
        · cases h; exact .negative (by assumption)
        · cases h
          obtain ⟨n, rfl⟩ : ∃ n : Nat, i = n := ⟨i.toNat, by omega⟩
          exact .dimension n
      | str s => cases h; exact .str s
      | bool b => cases h; exact .bool b
    | ds u =>
      simp only [tupleElem, wrapDS] at h
      split at h
      · cases h
      · rename_i hd
        have hd' : u.isDShape = false := by simpa using hd
        simp only [mkDS, List.map_cons, List.map_nil, launderTy_id hd', checkDS, List.getLast?_singleton, List.dropLast_singleton,
          List.any_nil] at h
        split at h
        · cases h; rename_i hc; exact .ds hd' fun hm => by
            have := mayEnd_iff.2 hm; simp_all
        · cases h
    | lits l => exact absurd rfl (hl l)
    | dss l => exact ha.elim
  · intro h
    cases h with
    | negative h => simp only [tupleElem]; rw [if_pos h]
    | dimension n => simp only [tupleElem]; rw [if_neg (by omega)]
    | bool => rfl
    | str => rfl
    | @ds t hd hm =>
      simp only [tupleElem, wrapDS]
      rw [if_neg (by simp [hd])]
      have : ¬ ((t.cls) ≠ some .dimension) := fun h => hm (mayEnd_iff.1 h)
      simp only [mkDS, List.map_cons, List.map_nil, launderTy_id hd, checkDS, List.getLast?_singleton]
      simp_all

theorem elem_not_lits {a : Arg} {l : List Arg} (h : Elems a l) : ∀ x ∈ l, (∀ k, x ≠ .lits k) ∧ ∀ k, x ≠ .dss k := by
  cases h <;> (intro x hx; simp at hx; obtain ⟨y, _, rfl⟩ := hx; constructor <;> (intro k h; cases h))

theorem asName_of {a : Arg} (h1 : ∀ k, a ≠ .lits k) (h2 : ∀ k, a ≠ .dss k) : ∃ s, a.str env = some s := by
  cases a with
  | lit x => cases x <;> exact ⟨_, rfl⟩
  | ds t => exact ⟨_, rfl⟩
  | lits l => exact absurd rfl (h1 l)
  | dss l => exact absurd rfl (h2 l)

theorem structFields_error {l : List (Arg × Arg)} (hl : ∀ p ∈ l, ∃ s, p.1.str env = some s) {e : PyErr} :
    structFields env (DS.dshape env disc) l = .error e ↔
      ∃ pre p post ts, l = pre ++ p :: post ∧ Each (fun p t => AsType env disc p.2 t) pre ts ∧ NotAType env disc p.2 e := by
  induction l with
  | nil =>
    constructor
    · intro h; cases h
    · rintro ⟨pre, p, post, ts, h, _⟩; simp at h
  | cons q l ih =>
    obtain ⟨a, b⟩ := q
    obtain ⟨s, hs⟩ := hl (a, b) (by simp)
    have ih := ih fun p hp => hl p (by simp [hp])
    simp only [structFields, hs]
    cases hb : b.launder (DS.dshape env disc) with
    | error e' =>
      constructor
      · intro h; cases h; exact ⟨[], (a, b), l, [], rfl, .nil, notAType_iff.1 hb⟩
      · rintro ⟨pre, p, post, ts, h, h1, h2⟩
        cases pre with
        | nil =>
          simp at h
          obtain ⟨rfl, rfl⟩ := h
          rw [notAType_iff.2 h2] at hb; cases hb; rfl
        | cons q pre =>
          simp at h
          obtain ⟨rfl, rfl⟩ := h
          cases h1 with
          | cons h3 _ => rw [asType_iff.2 h3] at hb; cases hb
    | ok t =>
      simp only [bind, Except.bind]
      constructor
      · intro h
        cases hr : structFields env (DS.dshape env disc) l with
        | ok fs => rw [hr] at h; cases h
        | error e' =>
          rw [hr] at h; cases h
          obtain ⟨pre, p, post, ts, rfl, h1, h2⟩ := ih.1 hr
          exact ⟨(a, b) :: pre, p, post, t :: ts, rfl, .cons (asType_iff.1 hb) h1, h2⟩
      · rintro ⟨pre, p, post, ts, h, h1, h2⟩
        cases pre with
        | nil =>
          simp at h
          obtain ⟨rfl, rfl⟩ := h
          rw [notAType_iff.2 h2] at hb; cases hb
        | cons q pre =>
          simp at h
          obtain ⟨rfl, rfl⟩ := h
          cases h1 with
          | cons _ h3 => rw [ih.2 ⟨pre, p, post, _, rfl, h3, h2⟩]

theorem timedelta_error {s : Str} {e : PyErr} : mkTimeDelta s = .error e ↔
    (e = .valueError ∧ (∀ u, ¬ SpellsUnit s u) ∧ ¬ RunsOut s) ∨ (e = .indexError ∧ RunsOut s) := by
  have he : mkTimeDelta s = .error e ↔ normalizeTimeUnit s = .error e := by
    unfold mkTimeDelta
    cases normalizeTimeUnit s <;> simp
  rw [he]
  constructor
  · intro h
    rcases C12.errors s e h with rfl | rfl
    · refine .inl ⟨rfl, fun u hu => ?_, fun hr => ?_⟩
      · rw [(C12.exact s u).2 hu] at h; cases h
      · rw [(C12.runs_out s).2 hr] at h; cases h
    · exact .inr ⟨rfl, (C12.runs_out s).1 h⟩
  · rintro (⟨rfl, h1, h2⟩ | ⟨rfl, h⟩)
    · cases h : normalizeTimeUnit s with
      | ok u => exact absurd ((C12.exact s u).1 h) (h1 u)
      | error e' =>
        rcases C12.errors s e' h with rfl | rfl
        · rfl
        · exact absurd ((C12.runs_out s).1 h) h2
    · exact (C12.runs_out s).2 h

theorem mkString_kind {f : Option Int} {e : Option Str} {x : PyErr} (h : mkString f e = .error x) : x = .valueError := by
  unfold mkString at h
  generalize (match e with | none => py"U8" | some e => if e.isEmpty then py"U8" else e) = k at h
  simp only at h
  split at h
  · cases h
  · cases h; rfl

theorem encoding_error {e : Str} {x : PyErr} : mkString none (some e) = .error x ↔
    x = .valueError ∧ ∀ c, ¬ AsEncoding (.lit (.str e)) c := by
  by_cases hs : e = []
  · subst hs
    constructor
    · intro h; cases h
    · rintro ⟨_, h⟩; exact absurd (.default .empty) (h (py"U8"))
  · have h0 := mkString_some none hs
    constructor
    · intro h
      refine ⟨?_, fun c hc => ?_⟩
      · exact mkString_kind h
      · have : SpellsEncoding e c := by
          cases hc with
          | name h => exact h
          | default h => cases h; exact absurd rfl hs
        rw [(h0 _).2 ⟨c, (encodings_iff _ _).2 this, rfl⟩] at h
        cases h
    · rintro ⟨rfl, h⟩
      cases hm : mkString none (some e) with
      | ok t =>
        obtain ⟨c, hc, _⟩ := (h0 t).1 hm
        exact absurd (.name ((encodings_iff _ _).1 hc)) (h c)
      | error x => rw [mkString_kind hm]

theorem mapM_some_error {β : Type} {f : Arg → Except PyErr β} {e : PyErr} (hf : ∀ x y, f x = .error y → y = e) {l : List Arg} {x : Arg}
    (hx : x ∈ l) (he : ∀ y, f x ≠ .ok y) : l.mapM f = .error e := by
  induction l with
  | nil => cases hx
  | cons a r ih =>
    rw [List.mapM_cons]
    cases ha : f a with
    | error y => rw [hf a y ha]; rfl
    | ok y =>
      rcases List.mem_cons.1 hx with rfl | h
      · exact absurd ha (he y)
      · rw [ih h]; rfl

theorem asEncoding_iff {b : Arg} : (∃ c, AsEncoding b c) ↔ ¬ ∃ x, NotAnEncoding b x := by
  constructor
  · rintro ⟨c, hc⟩ ⟨x, hx⟩
    cases hx with
    | lits h => cases hc with | default hf => cases hf; exact h rfl
    | dss h => cases hc with | default hf => cases hf; exact h rfl
    | other _ _ h => exact h c hc
  · intro h
    refine Classical.byContradiction fun hc => h ?_
    have hc' : ∀ c, ¬ AsEncoding b c := fun c h => hc ⟨c, h⟩
    cases b with
    | lits l => exact ⟨_, .lits (by rintro rfl; exact hc' _ (.default (falsy_iff.1 rfl)))⟩
    | dss l => exact ⟨_, .dss (by rintro rfl; exact hc' _ (.default (falsy_iff.1 rfl)))⟩
    | lit l => exact ⟨_, .other (by simp) (by simp) hc'⟩
    | ds t => exact ⟨_, .other (by simp) (by simp) hc'⟩

theorem string_error_iff {args : List Arg} {kw : List (Str × Arg)} (hne : (args, kw) ≠ ([], [])) {e : PyErr} :
    cString args kw = .error e ↔ CallRaises env disc (py"string") args kw e := by
  have hsig : ∀ names req, (py"string", names, req) ∈ signatures → False := by
    intro names req h
    simp [signatures] at h
  have henc : ∀ {b : Arg} {x : PyErr}, ((match b with
      | .lit (.str s) => (.ok (some s) : Except PyErr (Option Str))
      | .lits l => if l.isEmpty then .ok none else .error .typeError
      | .dss l => if l.isEmpty then .ok none else .error .typeError
      | b => if b.truthy then .error .valueError else .ok none) = .error x ∨
      ∃ y, (match b with
      | .lit (.str s) => (.ok (some s) : Except PyErr (Option Str))
      | .lits l => if l.isEmpty then .ok none else .error .typeError
      | .dss l => if l.isEmpty then .ok none else .error .typeError
      | b => if b.truthy then .error .valueError else .ok none) = .ok y ∧ mkString none y = .error x) ↔ NotAnEncoding b x := by
    intro b x
    have hno : ∀ y, mkString none none = .error y → False := fun y h => nomatch h
    cases b with
    | lit l =>
      cases l with
      | str s =>
        simp only [reduceCtorEq, Except.ok.injEq, false_or, exists_eq_left', encoding_error]
        constructor
        · rintro ⟨rfl, h⟩; exact .other (by simp) (by simp) h
        · intro h
          cases h with
          | other _ _ h => exact ⟨rfl, h⟩
      | int i =>
        constructor
        · rintro (h | ⟨y, h, h'⟩)
          · simp only at h
            split at h
            · cases h
              rename_i hq
              refine .other (by simp) (by simp) fun c hc => ?_
              cases hc with
              | default hf => rw [falsy_iff.2 hf] at hq; cases hq
            · cases h
          · simp only at h
            split at h
            · cases h
            · cases h; exact (hno _ h').elim
        · intro h
          cases h with
          | other _ _ h =>
            refine .inl ?_
            simp only
            rw [if_pos]
            cases hq : (Arg.lit (.int i)).truthy with
            | true => rfl
            | false => exact absurd (.default (falsy_iff.1 hq)) (h (py"U8"))
      | bool i =>
        constructor
        · rintro (h | ⟨y, h, h'⟩)
          · simp only at h
            split at h
            · cases h
              rename_i hq
              refine .other (by simp) (by simp) fun c hc => ?_
              cases hc with
              | default hf => rw [falsy_iff.2 hf] at hq; cases hq
            · cases h
          · simp only at h
            split at h
            · cases h
            · cases h; exact (hno _ h').elim
        · intro h
          cases h with
          | other _ _ h =>
            refine .inl ?_
            simp only
            rw [if_pos]
            cases hq : (Arg.lit (.bool i)).truthy with
            | true => rfl
            | false => exact absurd (.default (falsy_iff.1 hq)) (h (py"U8"))
    | ds t =>
      constructor
      · rintro (h | ⟨y, h, h'⟩)
        · simp only [Arg.truthy, if_true] at h
          cases h
          refine .other (by simp) (by simp) fun c hc => ?_
          cases hc with
          | default hf => cases hf
        · simp [Arg.truthy] at h
      · intro h
        cases h with
        | other _ _ h => exact .inl (by simp [Arg.truthy])
    | lits l =>
      constructor
      · rintro (h | ⟨y, h, h'⟩)
        · simp only at h
          split at h
          · cases h
          · cases h; exact .lits (by simp_all)
        · simp only at h
          split at h
          · cases h; exact (hno _ h').elim
          · cases h
      · intro h
        cases h with
        | lits h => exact .inl (by simp [h])
        | other h => exact absurd rfl (h l)
    | dss l =>
      constructor
      · rintro (h | ⟨y, h, h'⟩)
        · simp only at h
          split at h
          · cases h
          · cases h; exact .dss (by simp_all)
        · simp only at h
          split at h
          · cases h; exact (hno _ h').elim
          · cases h
      · intro h
        cases h with
        | dss h => exact .inl (by simp [h])
        | other _ h => exact absurd rfl (h l)
  unfold cString
  by_cases hk : kw = []
  case neg =>
    rw [if_pos (by simp [hk])]
    constructor
    · intro h; cases h; exact .stringKeyword hk
    · intro h
      cases h with
      | unbound h => exact (hsig _ _ h).elim
      | stringKeyword => rfl
      | _ => exact absurd rfl hk
  subst hk
  rw [if_neg (by simp)]
  match args, hne with
  | [], hne => exact absurd rfl hne
  | [a], _ =>
    cases a with
    | lit l =>
      cases l with
      | str s =>
        simp only [encoding_error]
        constructor
        · rintro ⟨rfl, h⟩; exact .stringEnc (.other (by simp) (by simp) h)
        · intro h
          cases h with
          | unbound h => exact (hsig _ _ h).elim
          | stringKeyword h => exact absurd rfl h
          | stringOne h => exact absurd rfl (h s)
          | stringMany h => simp at h
          | stringEnc h => cases h with | other _ _ h => exact ⟨rfl, h⟩
      | int i =>
        constructor
        · intro h; cases h
        · intro h
          cases h with
          | unbound h => exact (hsig _ _ h).elim
          | stringKeyword h => exact absurd rfl h
          | stringOne _ h => exact absurd .int (h i)
          | stringMany h => simp at h
      | bool b =>
        constructor
        · intro h; cases h
        · intro h
          cases h with
          | unbound h => exact (hsig _ _ h).elim
          | stringKeyword h => exact absurd rfl h
          | stringOne _ h =>
            cases b with
            | true => exact absurd .true (h 1)
            | false => exact absurd .false (h 0)
          | stringMany h => simp at h
    | _ =>
      constructor
      · intro h; cases h
        exact .stringOne (by simp) (by intro n hn; cases hn)
      · intro h
        cases h with
        | unbound h => exact (hsig _ _ h).elim
        | stringKeyword h => exact absurd rfl h
        | stringOne _ h => rfl
        | stringMany h => simp at h
  | [a, b], _ =>
    have key : ∀ {p : Except PyErr (Option Str)} {g : Ty → Except PyErr Ty},
        ((p >>= fun enc => mkString none enc >>= g) = .error e ↔
          ((p = .error e ∨ ∃ y, p = .ok y ∧ mkString none y = .error e) ∨ ∃ y t, p = .ok y ∧ mkString none y = .ok t ∧ g t = .error e)) := by
      intro p g
      cases p with
      | error x => simp [bind, Except.bind]
      | ok y =>
        simp only [bind, Except.bind]
        cases hm : mkString none y with
        | error x => simp [hm]
        | ok t => simp [hm]
    have hnum : ∀ {p : Except PyErr (Option Str)} {g : Ty → Except PyErr Ty}, (∀ t x, g (.string t x) ≠ .error e) → (∃ n, AsInt a n) →
        ((p = .error e ∨ ∃ y, p = .ok y ∧ mkString none y = .error e) ↔ NotAnEncoding b e) →
        ((p >>= fun enc => mkString none enc >>= g) = .error e ↔
          NotAnEncoding b e ∨ ((∀ n, ¬ AsInt a n) ∧ (∃ c, AsEncoding b c) ∧ e = .unmodelled)) := by
      intro p g hg ⟨n, ha⟩ hq
      rw [key, hq]
      constructor
      · rintro (h | ⟨y, t, _, hm, h⟩)
        · exact .inl h
        · obtain ⟨_, c, rfl, _⟩ := mkString_ok (env := env) hm
          exact absurd h (hg _ _)
      · rintro (h | ⟨h, _⟩)
        · exact .inl h
        · exact absurd ha (h n)
    have hout : ∀ {p : Except PyErr (Option Str)} {g : Ty → Except PyErr Ty}, (∀ t, g t = .error .unmodelled) → (∀ n, ¬ AsInt a n) →
        (∀ x, (p = .error x ∨ ∃ y, p = .ok y ∧ mkString none y = .error x) ↔ NotAnEncoding b x) →
        ((p >>= fun enc => mkString none enc >>= g) = .error e ↔
          NotAnEncoding b e ∨ ((∀ n, ¬ AsInt a n) ∧ (∃ c, AsEncoding b c) ∧ e = .unmodelled)) := by
      intro p g hg hn hq
      rw [key, hq, asEncoding_iff]
      refine or_congr Iff.rfl ⟨?_, ?_⟩
      · rintro ⟨y, t, hp, hm, h⟩
        refine ⟨hn, ?_, by rw [hg] at h; cases h; rfl⟩
        rintro ⟨x, hx⟩
        rcases (hq x).2 hx with h | ⟨z, h, h'⟩
        · rw [h] at hp; cases hp
        · rw [h] at hp; cases hp; rw [h'] at hm; cases hm
      · rintro ⟨_, hno, rfl⟩
        cases hp : p with
        | error x => exact absurd ⟨x, (hq x).1 (.inl hp)⟩ hno
        | ok y =>
          cases hm : mkString none y with
          | error x => exact absurd ⟨x, (hq x).1 (.inr ⟨y, hp, hm⟩)⟩ hno
          | ok t => exact ⟨y, t, rfl, hm, hg t⟩
    have hs : cString [a, b] [] = .error e ↔ NotAnEncoding b e ∨ ((∀ n, ¬ AsInt a n) ∧ (∃ c, AsEncoding b c) ∧ e = .unmodelled) := by
      cases a with
      | lit l =>
        cases l with
        | int i => exact hnum (by intro t x h; cases h) ⟨i, .int⟩ henc
        | str i => exact hout (by intro t; rfl) (by intro n h; cases h) fun x => henc
        | bool i =>
          refine hnum (by intro t x h; cases h) ?_ henc
          cases i with
          | true => exact ⟨1, .true⟩
          | false => exact ⟨0, .false⟩
      | _ => exact hout (by intro t; rfl) (by intro n h; cases h) fun x => henc
    refine hs.trans (Iff.intro (fun h => ?_) fun h => ?_)
    · rcases h with h | ⟨h1, ⟨c, h2⟩, rfl⟩
      · exact .stringBoth h
      · exact .stringLength h1 h2
    cases h with
    | unbound h => exact (hsig _ _ h).elim
    | stringKeyword h => exact absurd rfl h
    | stringMany h => simp at h
    | stringLength h1 h2 => exact .inr ⟨h1, ⟨_, h2⟩, rfl⟩
    | stringBoth h => exact .inl h
  | a :: b :: c :: r, _ =>
    have hs : cString (a :: b :: c :: r) [] = .error .unboundLocal := by
      cases a with
      | lit l => cases l <;> rfl
      | _ => rfl
    refine (show _ ↔ _ from ?_ : cString (a :: b :: c :: r) [] = .error e ↔ _)
    rw [hs]
    constructor
    · intro h; cases h; exact .stringMany (by simp)
    · intro h
      cases h with
      | unbound h => exact (hsig _ _ h).elim
      | stringKeyword h => exact absurd rfl h
      | stringMany h => rfl

variable (hw : ∀ l t, disc l = .ok t → WF env t)

include hw in
/-- Calling a constructor of the symbol table with arguments the parser produces. -/
theorem constr_raises {args : List Arg} {kw : List (Str × Arg)} (h1 : ∀ a ∈ args, ArgOk env a) (h2 : ∀ p ∈ kw, ArgOk env p.2)
    (hne : (args, kw) ≠ ([], [])) :
    ∀ n c, (theSym env disc).dtypeConstr n = some c → n ≠ py"typevar" →
      ∀ e, (c args kw = .error e ↔ CallRaises env disc n args kw e) := by
  have hmem : ∀ {names vals a}, Binds names args kw vals → some a ∈ vals → ArgOk env a := by
    intro names vals a hb ha
    rcases hb.mem ha with h | ⟨p, h, rfl⟩
    · exact h1 a h
    · exact h2 p h
  have hn0 : ∀ {names vals}, Binds names args kw vals → (∀ v ∈ vals, v = none) → False := by
    intro names vals hb hv
    obtain ⟨rfl, rfl⟩ := hb.empty hv
    exact hne rfl
  have huniq : ∀ {names v w}, Binds names args kw v → Binds names args kw w → v = w := by
    intro names v w hv hw
    have a := (bindArgs_iff args kw v).2 hv
    have b := (bindArgs_iff args kw w).2 hw
    rw [a] at b; cases b; rfl
  have hunb : ∀ {n names req} {f : List (Option Arg) → Except PyErr Ty}, (n, names, req) ∈ signatures →
      (¬ ∃ vals, Binds names args kw vals ∧ ∀ v ∈ vals.take req, v ≠ none) →
      (∀ vals, Binds names args kw vals → (¬ ∀ v ∈ vals.take req, v ≠ none) → f vals = .error .typeError) →
      (∃ vals, Binds names args kw vals ∧ f vals = .error .typeError) ∨
        (¬ ∃ vals, Binds names args kw vals) ∧ PyErr.typeError = .typeError := by
    intro n names req f _ hn hf
    by_cases hv : ∃ vals, Binds names args kw vals
    · obtain ⟨vals, hv⟩ := hv
      exact .inl ⟨vals, hv, hf vals hv fun h => hn ⟨vals, hv, h⟩⟩
    · exact .inr ⟨hv, rfl⟩
  have hmiss : ∀ {n names req}, (n, names, req) ∈ signatures → ∀ vals, Binds names args kw vals → none ∈ vals.take req →
      CallRaises env disc n args kw .typeError := by
    intro n names req hs vals hb hn
    refine .unbound hs ?_
    rintro ⟨v, hv, hr⟩
    cases huniq hb hv
    exact hr _ hn rfl
  have hnob : ∀ {n names req}, (n, names, req) ∈ signatures → (¬ ∃ vals, Binds names args kw vals) →
      CallRaises env disc n args kw .typeError := by
    intro n names req hs hn
    exact .unbound hs fun ⟨v, hv, _⟩ => hn ⟨v, hv⟩
  refine forall_constr ?_ ?_ ?_ ?_ ?_ ?_ ?_ ?_ ?_ ?_ ?_ ?_ ?_ ?_
  · -- complex
    intro _ e
    unfold cComplex
    rw [bound_error]
    constructor
    · rintro (⟨vals, hb, h⟩ | ⟨hb, rfl⟩)
      · obtain ⟨a, rfl⟩ := hb.one
        cases a with
        | none => cases h; exact hmiss (names := [py"tp"]) (req := 1) (by simp [signatures]) _ hb (by simp)
        | some a =>
          have hok := hmem hb (a := a) (by simp)
          cases a with
          | ds t =>
            simp only at h
            split at h
            · cases h
            · rename_i q1
              split at h
              · cases h
              · rename_i q2
                cases h
                refine .complex hb ?_ ?_
                · intro he; cases he; exact q1 ((complex_iff hok).2 rfl)
                · intro he; cases he; exact q2 ((complex_iff hok).2 rfl)
          | _ => cases h; exact .complex hb (by simp) (by simp)
      · exact hnob (names := [py"tp"]) (req := 1) (by simp [signatures]) hb
    · intro h
      cases h with
      | @unbound _ names req _ _ hs hn =>
        simp [signatures] at hs
        obtain ⟨rfl, rfl⟩ := hs
        refine hunb (n := py"complex") (req := 1) (by simp [signatures]) hn fun vals hv hr => ?_
        obtain ⟨a, rfl⟩ := hv.one
        cases a with
        | none => rfl
        | some a => exact absurd (by simp) hr
      | @complex _ _ a hb h1 h2 =>
        refine .inl ⟨_, hb, ?_⟩
        have hok := hmem hb (a := a) (by simp)
        cases a with
        | ds t =>
          simp only
          rw [if_neg, if_neg]
          · intro h; exact h2 (by rw [(complex_iff hok).1 h])
          · intro h; exact h1 (by rw [(complex_iff hok).1 h])
        | _ => rfl
  · intro _ e; exact string_error_iff hne
  · -- struct
    intro _ e
    unfold cStruct
    rw [bound_error]
    constructor
    · rintro (⟨vals, hb, h⟩ | ⟨hb, rfl⟩)
      · obtain ⟨a, b, rfl⟩ := hb.two
        cases a with
        | none => cases h; exact hmiss (names := [py"names", py"dshapes"]) (req := 2) (by simp [signatures]) _ hb (by simp)
        | some a =>
          cases b with
          | none => cases h; exact hmiss (names := [py"names", py"dshapes"]) (req := 2) (by simp [signatures]) _ hb (by simp)
          | some b =>
            have ha := hmem hb (a := a) (by simp)
            have hb' := hmem hb (a := b) (by simp)
            simp only at h
            cases hia : a.iter with
            | error x =>
              rw [hia] at h; cases h
              obtain ⟨h, rfl⟩ := (noElems_iff ha).1 hia
              exact .structNames hb h
            | ok ns =>
              have hna := (iter_iff ha).1 hia
              rw [hia] at h
              simp only [bind, Except.bind] at h
              cases hib : b.iter with
              | error x =>
                rw [hib] at h; cases h
                obtain ⟨h, rfl⟩ := (noElems_iff hb').1 hib
                exact .structTypes hb hna h
              | ok ts =>
                have htb := (iter_iff hb').1 hib
                rw [hib] at h
                simp only at h
                have hstr : ∀ p ∈ ns.zip ts, ∃ s, p.1.str env = some s := by
                  intro p hp
                  have := elem_not_lits hna _ (List.of_mem_zip hp).1
                  exact asName_of this.1 this.2
                cases hf : structFields env (DS.dshape env disc) (ns.zip ts) with
                | error x =>
                  rw [hf] at h; cases h
                  obtain ⟨pre, p, post, fs, e1, e2, e3⟩ := (structFields_error hstr).1 hf
                  exact .structField hb hna htb e1 e2 e3
                | ok fs =>
                  rw [hf] at h
                  simp only [mkRecord] at h
                  split at h
                  · cases h
                  · cases h
                    exact .structTwice hb hna htb (structFields_iff.1 hf) (by assumption)
      · exact hnob (names := [py"names", py"dshapes"]) (req := 2) (by simp [signatures]) hb
    · intro h
      cases h with
      | @unbound _ names req _ _ hs hn =>
        simp [signatures] at hs
        obtain ⟨rfl, rfl⟩ := hs
        refine hunb (n := py"struct") (req := 2) (by simp [signatures]) hn fun vals hv hr => ?_
        obtain ⟨a, b, rfl⟩ := hv.two
        cases a with
        | none => rfl
        | some a =>
          cases b with
          | none => rfl
          | some b => exact absurd (by simp) hr
      | @structNames _ _ a b hb ha =>
        refine .inl ⟨_, hb, ?_⟩
        simp only [(noElems_iff (hmem hb (a := a) (by simp))).2 ⟨ha, rfl⟩, bind, Except.bind]
      | @structTypes _ _ a b ns hb ha hb' =>
        refine .inl ⟨_, hb, ?_⟩
        simp only [(iter_iff (hmem hb (a := a) (by simp))).2 ha, (noElems_iff (hmem hb (a := b) (by simp))).2 ⟨hb', rfl⟩, bind, Except.bind]
      | @structField _ _ a b ns ts pre p post fs _ hb ha hb' e1 e2 e3 =>
        refine .inl ⟨_, hb, ?_⟩
        have hstr : ∀ p ∈ ns.zip ts, ∃ s, p.1.str env = some s := by
          intro p hp
          have := elem_not_lits ha _ (List.of_mem_zip hp).1
          exact asName_of this.1 this.2
        simp only [(iter_iff (hmem hb (a := a) (by simp))).2 ha, (iter_iff (hmem hb (a := b) (by simp))).2 hb', bind, Except.bind,
          (structFields_error hstr).2 ⟨pre, p, post, fs, e1, e2, e3⟩]
      | @structTwice _ _ a b ns ts fs hb ha hb' e1 e2 =>
        refine .inl ⟨_, hb, ?_⟩
        simp only [(iter_iff (hmem hb (a := a) (by simp))).2 ha, (iter_iff (hmem hb (a := b) (by simp))).2 hb', bind, Except.bind,
          structFields_iff.2 e1, mkRecord]
        rw [if_neg e2]
  · -- tuple
    intro _ e
    unfold cTuple
    rw [bound_error]
    constructor
    · rintro (⟨vals, hb, h⟩ | ⟨hb, rfl⟩)
      · obtain ⟨a, rfl⟩ := hb.one
        cases a with
        | none => cases h; exact hmiss (names := [py"dshapes"]) (req := 1) (by simp [signatures]) _ hb (by simp)
        | some a =>
          have ha := hmem hb (a := a) (by simp)
          simp only at h
          cases hia : a.iter with
          | error x =>
            rw [hia] at h; cases h
            obtain ⟨h, rfl⟩ := (noElems_iff ha).1 hia
            exact .tuple hb h
          | ok ns =>
            have hna := (iter_iff ha).1 hia
            rw [hia] at h
            simp only [bind, Except.bind] at h
            cases hm : ns.mapM tupleElem with
            | ok l => rw [hm] at h; cases h
            | error x =>
              rw [hm] at h; cases h
              obtain ⟨pre, y, post, r, rfl, hr, hy⟩ := mapM_first_error.1 hm
              refine .tuplePart hb hna ((mapM_each fun a hp b => component_iff (iter_ok ha hia a (by simp [hp]))).1 hr) ?_
              exact (notAComponent_iff (iter_ok ha hia y (by simp)) (elem_not_lits hna y (by simp)).1).1 hy
      · exact hnob (names := [py"dshapes"]) (req := 1) (by simp [signatures]) hb
    · intro h
      cases h with
      | @unbound _ names req _ _ hs hn =>
        simp [signatures] at hs
        obtain ⟨rfl, rfl⟩ := hs
        refine hunb (n := py"tuple") (req := 1) (by simp [signatures]) hn fun vals hv hr => ?_
        obtain ⟨a, rfl⟩ := hv.one
        cases a with
        | none => rfl
        | some a => exact absurd (by simp) hr
      | @tuple _ _ a hb ha =>
        refine .inl ⟨_, hb, ?_⟩
        simp only [(noElems_iff (hmem hb (a := a) (by simp))).2 ⟨ha, rfl⟩, bind, Except.bind]
      | @tuplePart _ _ a pre y post ts _ hb hna e1 e2 =>
        refine .inl ⟨_, hb, ?_⟩
        have ha := hmem hb (a := a) (by simp)
        have hia := (iter_iff ha).2 hna
        have hm : (pre ++ y :: post).mapM tupleElem = .error e := mapM_first_error.2 ⟨pre, y, post, ts, rfl,
          (mapM_each fun a hp b => component_iff (iter_ok ha hia a (by simp [hp]))).2 e1,
          (notAComponent_iff (iter_ok ha hia y (by simp)) (elem_not_lits hna y (by simp)).1).2 e2⟩
        simp only [hia, bind, Except.bind, hm]
  · -- funcproto
    intro _ e
    unfold cFunc
    rw [bound_error]
    constructor
    · rintro (⟨vals, hb, h⟩ | ⟨hb, rfl⟩)
      · obtain ⟨a, b, rfl⟩ := hb.two
        cases a with
        | none => cases h; exact hmiss (names := [py"args", py"ret"]) (req := 2) (by simp [signatures]) _ hb (by simp)
        | some a =>
          cases b with
          | none => cases h; exact hmiss (names := [py"args", py"ret"]) (req := 2) (by simp [signatures]) _ hb (by simp)
          | some b =>
            have ha := hmem hb (a := a) (by simp)
            have hfe : ∀ {x : Arg} {y}, funcElem x = .error y → y = .unmodelled := by
              intro x y h; cases x <;> cases h <;> rfl
            simp only at h
            cases hia : a.iter with
            | error x =>
              rw [hia] at h; cases h
              obtain ⟨h, rfl⟩ := (noElems_iff ha).1 hia
              exact .funcproto hb h
            | ok ns =>
              rw [hia] at h
              simp only [bind, Except.bind] at h
              cases hm : ns.mapM funcElem with
              | error x =>
                rw [hm] at h; cases h
                obtain ⟨pre, y, post, _, hns, _, hy⟩ := mapM_first_error.1 hm
                cases hfe hy
                refine .funcprotoPart hb ((iter_iff ha).1 hia) ⟨y, by simp [hns], ?_⟩
                rintro t rfl
                cases hy
              | ok l =>
                rw [hm] at h
                simp only at h
                cases hr : funcElem b with
                | error x =>
                  rw [hr] at h; cases h
                  cases hfe hr
                  refine .funcprotoPart hb ((iter_iff ha).1 hia) ⟨b, by simp, ?_⟩
                  rintro t rfl
                  cases hr
                | ok t => rw [hr] at h; cases h
      · exact hnob (names := [py"args", py"ret"]) (req := 2) (by simp [signatures]) hb
    · intro h
      cases h with
      | @unbound _ names req _ _ hs hn =>
        simp [signatures] at hs
        obtain ⟨rfl, rfl⟩ := hs
        refine hunb (n := py"funcproto") (req := 2) (by simp [signatures]) hn fun vals hv hr => ?_
        obtain ⟨a, b, rfl⟩ := hv.two
        cases a with
        | none => rfl
        | some a =>
          cases b with
          | none => rfl
          | some b => exact absurd (by simp) hr
      | @funcprotoPart _ _ a b ns hb ha hx =>
        refine .inl ⟨_, hb, ?_⟩
        have hfe : ∀ (x : Arg) y, funcElem x = .error y → y = .unmodelled := by
          intro x y h; cases x <;> cases h <;> rfl
        have hno : ∀ x : Arg, (∀ t, x ≠ .ds t) → ∀ y, funcElem x ≠ .ok y := by
          intro x hx y h
          cases x with
          | ds t => exact hx t rfl
          | _ => cases h
        simp only [(iter_iff (hmem hb (a := a) (by simp))).2 ha, bind, Except.bind]
        obtain ⟨x, hx, hxt⟩ := hx
        cases hm : ns.mapM funcElem with
        | error y =>
          obtain ⟨_, z, _, _, _, _, hz⟩ := mapM_first_error.1 hm
          rw [hfe _ _ hz]
        | ok l =>
          rcases List.mem_append.1 hx with hx | hx
          · rw [mapM_some_error hfe hx (hno x hxt)] at hm; cases hm
          · simp only [List.mem_singleton] at hx
            subst hx
            simp only
            cases hr : funcElem x with
            | error y => rw [hfe _ _ hr]
            | ok y => exact absurd hr (hno x hxt y)
      | @funcproto _ _ a b hb ha =>
        refine .inl ⟨_, hb, ?_⟩
        simp only [(noElems_iff (hmem hb (a := a) (by simp))).2 ⟨ha, rfl⟩, bind, Except.bind]
  · intro h; exact absurd rfl h
  · -- option
    intro _ e
    unfold cOption
    rw [bound_error]
    constructor
    · rintro (⟨vals, hb, h⟩ | ⟨hb, rfl⟩)
      · obtain ⟨a, rfl⟩ := hb.one
        cases a with
        | none => cases h; exact hmiss (names := [py"ds"]) (req := 1) (by simp [signatures]) _ hb (by simp)
        | some a =>
          simp only at h
          cases hia : a.launder (DS.dshape env disc) with
          | error x => rw [hia] at h; cases h; exact .option hb (notAType_iff.1 hia)
          | ok t => rw [hia] at h; cases h
      · exact hnob (names := [py"ds"]) (req := 1) (by simp [signatures]) hb
    · intro h
      cases h with
      | @unbound _ names req _ _ hs hn =>
        simp [signatures] at hs
        obtain ⟨rfl, rfl⟩ := hs
        refine hunb (n := py"option") (req := 1) (by simp [signatures]) hn fun vals hv hr => ?_
        obtain ⟨a, rfl⟩ := hv.one
        cases a with
        | none => rfl
        | some a => exact absurd (by simp) hr
      | @option _ _ a _ hb ha =>
        refine .inl ⟨_, hb, ?_⟩
        simp only [notAType_iff.2 ha, bind, Except.bind]
  · -- map
    intro _ e
    unfold cMap
    rw [bound_error]
    constructor
    · rintro (⟨vals, hb, h⟩ | ⟨hb, rfl⟩)
      · obtain ⟨a, b, rfl⟩ := hb.two
        cases a with
        | none => cases h; exact hmiss (names := [py"key", py"value"]) (req := 2) (by simp [signatures]) _ hb (by simp)
        | some a =>
          cases b with
          | none => cases h; exact hmiss (names := [py"key", py"value"]) (req := 2) (by simp [signatures]) _ hb (by simp)
          | some b =>
            simp only at h
            cases hia : a.launder (DS.dshape env disc) with
            | error x => rw [hia] at h; cases h; exact .mapKey hb (notAType_iff.1 hia)
            | ok t =>
              rw [hia] at h
              simp only [bind, Except.bind] at h
              cases hib : b.launder (DS.dshape env disc) with
              | error x => rw [hib] at h; cases h; exact .mapValue hb (asType_iff.1 hia) (notAType_iff.1 hib)
              | ok t => rw [hib] at h; cases h
      · exact hnob (names := [py"key", py"value"]) (req := 2) (by simp [signatures]) hb
    · intro h
      cases h with
      | @unbound _ names req _ _ hs hn =>
        simp [signatures] at hs
        obtain ⟨rfl, rfl⟩ := hs
        refine hunb (n := py"map") (req := 2) (by simp [signatures]) hn fun vals hv hr => ?_
        obtain ⟨a, b, rfl⟩ := hv.two
        cases a with
        | none => rfl
        | some a =>
          cases b with
          | none => rfl
          | some b => exact absurd (by simp) hr
      | @mapKey _ _ a b _ hb ha =>
        refine .inl ⟨_, hb, ?_⟩
        simp only [notAType_iff.2 ha, bind, Except.bind]
      | @mapValue _ _ a b k _ hb ha hb' =>
        refine .inl ⟨_, hb, ?_⟩
        simp only [asType_iff.2 ha, notAType_iff.2 hb', bind, Except.bind]
  · -- time
    intro _ e
    unfold cTime
    rw [bound_error]
    constructor
    · rintro (⟨vals, hb, h⟩ | ⟨hb, rfl⟩)
      · obtain ⟨a, rfl⟩ := hb.one
        cases a with
        | none => cases h
        | some a =>
          cases a with
          | lit l =>
            cases l with
            | str s => cases h
            | _ => cases h; exact .time hb (by simp)
          | _ => cases h; exact .time hb (by simp)
      · exact hnob (names := [py"tz"]) (req := 0) (by simp [signatures]) hb
    · intro h
      cases h with
      | @unbound _ names req _ _ hs hn =>
        simp [signatures] at hs
        obtain ⟨rfl, rfl⟩ := hs
        refine hunb (n := py"time") (req := 0) (by simp [signatures]) hn fun vals hv hr => ?_
        exact absurd (by simp) hr
      | @time _ _ a hb ha =>
        refine .inl ⟨_, hb, ?_⟩
        cases a with
        | lit l =>
          cases l with
          | str s => exact absurd rfl (ha s)
          | _ => rfl
        | _ => rfl
  · -- datetime
    intro _ e
    unfold cDateTime
    rw [bound_error]
    constructor
    · rintro (⟨vals, hb, h⟩ | ⟨hb, rfl⟩)
      · obtain ⟨a, rfl⟩ := hb.one
        cases a with
        | none => cases h
        | some a =>
          cases a with
          | lit l =>
            cases l with
            | str s => cases h
            | _ => cases h; exact .datetime hb (by simp)
          | _ => cases h; exact .datetime hb (by simp)
      · exact hnob (names := [py"tz"]) (req := 0) (by simp [signatures]) hb
    · intro h
      cases h with
      | @unbound _ names req _ _ hs hn =>
        simp [signatures] at hs
        obtain ⟨rfl, rfl⟩ := hs
        refine hunb (n := py"datetime") (req := 0) (by simp [signatures]) hn fun vals hv hr => ?_
        exact absurd (by simp) hr
      | @datetime _ _ a hb ha =>
        refine .inl ⟨_, hb, ?_⟩
        cases a with
        | lit l =>
          cases l with
          | str s => exact absurd rfl (ha s)
          | _ => rfl
        | _ => rfl
  · -- timedelta
    intro _ e
    unfold cTimeDelta
    rw [bound_error]
    constructor
    · rintro (⟨vals, hb, h⟩ | ⟨hb, rfl⟩)
      · obtain ⟨a, rfl⟩ := hb.one
        cases a with
        | none => exact (hn0 hb (by simp)).elim
        | some a =>
          simp only at h
          split at h
          · rename_i s hs
            rcases timedelta_error.1 h with ⟨rfl, q1, q2⟩ | ⟨rfl, q⟩
            · exact .timedelta hb (asName_iff.1 hs) q1 q2
            · exact .timedeltaEmpty hb (asName_iff.1 hs) q
          · rename_i hs
            cases h
            refine .timedeltaList hb fun s h => ?_
            rw [asName_iff.2 h] at hs; cases hs
      · exact hnob (names := [py"unit"]) (req := 0) (by simp [signatures]) hb
    · intro h
      cases h with
      | @unbound _ names req _ _ hs hn =>
        simp [signatures] at hs
        obtain ⟨rfl, rfl⟩ := hs
        refine hunb (n := py"timedelta") (req := 0) (by simp [signatures]) hn fun vals hv hr => ?_
        exact absurd (by simp) hr
      | @timedelta _ _ a s hb ha q1 q2 =>
        refine .inl ⟨_, hb, ?_⟩
        simp only [asName_iff.2 ha]
        exact timedelta_error.2 (.inl ⟨rfl, q1, q2⟩)
      | @timedeltaEmpty _ _ a s hb ha q =>
        refine .inl ⟨_, hb, ?_⟩
        simp only [asName_iff.2 ha]
        exact timedelta_error.2 (.inr ⟨rfl, q⟩)
      | @timedeltaList _ _ a hb ha =>
        refine .inl ⟨_, hb, ?_⟩
        have : a.str env = none := by
          cases h : a.str env with
          | none => rfl
          | some s => exact absurd (asName_iff.1 h) (ha s)
        simp only [this]
  · -- units
    intro _ e
    unfold cUnits
    rw [bound_error]
    constructor
    · rintro (⟨vals, hb, h⟩ | ⟨hb, rfl⟩)
      · obtain ⟨a, b, rfl⟩ := hb.two
        cases a with
        | none => cases h; exact hmiss (names := [py"unit", py"tp"]) (req := 1) (by simp [signatures]) _ hb (by simp)
        | some a =>
          by_cases hs : ∃ s, a = .lit (.str s)
          · obtain ⟨s, rfl⟩ := hs
            cases b with
            | none => cases h
            | some b =>
              cases b with
              | ds t =>
                have := (hmem hb (a := .ds t) (by simp)).2
                simp only [mkUnits, this, if_true] at h
                cases h
              | _ => cases h; exact .unitsType hb (by simp)
          · have he : e = .typeError := by
              split at h
              · rename_i u hx; simp at hx; exact absurd ⟨u, hx.1⟩ hs
              · rename_i u t hx; simp at hx; exact absurd ⟨u, hx.1⟩ hs
              · cases h; rfl
            subst he
            exact .units hb fun s h => hs ⟨s, h⟩
      · exact hnob (names := [py"unit", py"tp"]) (req := 1) (by simp [signatures]) hb
    · intro h
      cases h with
      | @unbound _ names req _ _ hs hn =>
        simp [signatures] at hs
        obtain ⟨rfl, rfl⟩ := hs
        refine hunb (n := py"units") (req := 1) (by simp [signatures]) hn fun vals hv hr => ?_
        obtain ⟨a, b, rfl⟩ := hv.two
        cases a with
        | none => rfl
        | some a => exact absurd (by simp) hr
      | @units _ _ a b hb ha =>
        refine .inl ⟨_, hb, ?_⟩
        split
        · rename_i h; simp at h; exact absurd h.1 (ha _)
        · rename_i h; simp at h; exact absurd h.1 (ha _)
        · rfl
      | @unitsType _ _ a b hb ha =>
        refine .inl ⟨_, hb, ?_⟩
        split
        · rename_i h; simp at h
        · rename_i h; simp at h; exact absurd h.2 (ha _)
        · rfl
  · -- decimal
    intro _ e
    unfold cDecimal
    rw [bound_error]
    constructor
    · rintro (⟨vals, hb, h⟩ | ⟨hb, rfl⟩)
      · obtain ⟨a, b, rfl⟩ := hb.two
        cases a with
        | none => cases h; exact hmiss (names := [py"precision", py"scale"]) (req := 1) (by simp [signatures]) _ hb (by simp)
        | some a =>
          split at h
          · cases h
          · cases h
          · cases h
            rename_i h1 h2 hx
            simp only [List.cons.injEq, and_true] at hx
            obtain ⟨hx1, hx2⟩ := hx
            cases hx1
            subst hx2
            refine .decimal hb ?_
            by_cases hi : ∃ i, a = .lit (.int i)
            · obtain ⟨i, rfl⟩ := hi
              refine .inr ?_
              cases b with
              | none => exact (h1 i rfl rfl).elim
              | some b => exact ⟨b, rfl, fun j hj => h2 i j rfl (by rw [hj])⟩
            · exact .inl fun i hi' => hi ⟨i, hi'⟩
          · rename_i hx; simp at hx
      · exact hnob (names := [py"precision", py"scale"]) (req := 1) (by simp [signatures]) hb
    · intro h
      cases h with
      | @unbound _ names req _ _ hs hn =>
        simp [signatures] at hs
        obtain ⟨rfl, rfl⟩ := hs
        refine hunb (n := py"decimal") (req := 1) (by simp [signatures]) hn fun vals hv hr => ?_
        obtain ⟨a, b, rfl⟩ := hv.two
        cases a with
        | none => rfl
        | some a => exact absurd (by simp) hr
      | @decimal _ _ a b hb hx =>
        refine .inl ⟨_, hb, ?_⟩
        split
        · rename_i hq; simp at hq
          rcases hx with hx | ⟨x, rfl, hx⟩
          · exact absurd hq.1 (hx _)
          · simp at hq
        · rename_i hq; simp at hq
          rcases hx with hx | ⟨x, rfl, hx⟩
          · exact absurd hq.1 (hx _)
          · simp at hq
            exact absurd hq.2 (hx _)
        · rfl
        · rename_i hq; simp at hq
  · -- categorical
    intro _ e
    unfold cCategorical
    rw [bound_error]
    constructor
    · rintro (⟨vals, hb, h⟩ | ⟨hb, rfl⟩)
      · obtain ⟨a, b, o, rfl⟩ := hb.three
        cases a with
        | none => cases h; exact hmiss (names := [py"categories", py"type", py"ordered"]) (req := 1) (by simp [signatures]) _ hb (by simp)
        | some a =>
          have ha := hmem hb (a := a) (by simp)
          simp only at h
          cases hia : a.iter with
          | error x =>
            rw [hia] at h; cases h
            obtain ⟨h, rfl⟩ := (noElems_iff ha).1 hia
            exact .categorical hb h
          | ok ns =>
            have hna := (iter_iff ha).1 hia
            rw [hia] at h
            simp only [bind, Except.bind] at h
            cases hm : ns.mapM catElem with
            | error x =>
              rw [hm] at h
              replace h : x = e := by injection h
              subst h
              obtain ⟨_, y, _, _, hns, _, hy⟩ := mapM_first_error.1 hm
              have hxe : x = .unmodelled := by cases y <;> cases hy <;> rfl
              subst hxe
              refine .categories hb hna ⟨y, by simp [hns], ?_⟩
              rintro l rfl
              cases hy
            | ok cs =>
              rw [hm] at h
              have hl := (each_map _).1 ((mapM_each fun a ha b => catElem_iff).1 hm)
              subst hl
              have hdisc : (b = none ∨ ∃ x, b = some x ∧ Falsy x) → ∀ {f : Ty → Except PyErr Ty},
                  ((disc cs).map Ty.measure >>= f) = .error e → (∀ t, f t = .error e → (∃ u, disc cs = .ok u) →
                    CallRaises env disc (py"categorical") args kw e) →
                  CallRaises env disc (py"categorical") args kw e := by
                intro hbf f h hf
                cases hd : disc cs with
                | error x => rw [hd] at h; cases h; exact .categoricalDiscover hb hna hbf hd
                | ok t => rw [hd] at h; exact hf _ h ⟨t, hd⟩
              cases b with
              | none => exact hdisc (.inl rfl) h (by
                  intro t h hu
                  split at h
                  · cases h
                  · cases h
                  · cases h
                    rename_i ho1 ho2
                    cases o with
                    | none => exact absurd rfl ho1
                    | some x => exact .categoricalOrdered hb hna (.inr ⟨.inl rfl, hu⟩) fun y hy => ho2 y (by rw [hy]))
              | some b =>
                simp only at h
                cases ht : b.truthy with
                | false =>
                  rw [ht] at h
                  exact hdisc (.inr ⟨b, rfl, falsy_iff.1 ht⟩) h (by
                  intro t h hu
                  split at h
                  · cases h
                  · cases h
                  · cases h
                    rename_i ho1 ho2
                    cases o with
                    | none => exact absurd rfl ho1
                    | some x => exact .categoricalOrdered hb hna (.inr ⟨.inr ⟨b, rfl, falsy_iff.1 ht⟩, hu⟩) fun y hy => ho2 y (by rw [hy]))
                | true =>
                  rw [ht] at h
                  have hnf : ¬ Falsy b := fun hf => by rw [falsy_iff.2 hf] at ht; cases ht
                  cases b with
                  | ds t =>
                    simp only [if_true] at h
                    split at h
                    · cases h
                    · cases h
                    · cases h
                      rename_i ho1 ho2
                      cases o with
                      | none => exact absurd rfl ho1
                      | some x => exact .categoricalOrdered hb hna (.inl ⟨t, rfl⟩) fun y hy => ho2 y (by rw [hy])
                  | _ => cases h; exact .categoricalType hb hna hnf (by simp)
      · exact hnob (names := [py"categories", py"type", py"ordered"]) (req := 1) (by simp [signatures]) hb
    · intro h
      cases h with
      | @unbound _ names req _ _ hs hn =>
        simp [signatures] at hs
        obtain ⟨rfl, rfl⟩ := hs
        refine hunb (n := py"categorical") (req := 1) (by simp [signatures]) hn fun vals hv hr => ?_
        obtain ⟨a, b, o, rfl⟩ := hv.three
        cases a with
        | none => rfl
        | some a => exact absurd (by simp) hr
      | @categories _ _ a b o ns hb ha hx =>
        refine .inl ⟨_, hb, ?_⟩
        obtain ⟨x, hx, hxl⟩ := hx
        have : ns.mapM catElem = .error .unmodelled := by
          refine mapM_some_error (fun x y h => ?_) hx fun y h => ?_
          · cases x <;> cases h <;> rfl
          · cases x with
            | lit l => exact hxl l rfl
            | _ => cases h
        simp only [(iter_iff (hmem hb (a := a) (by simp))).2 ha, this, bind, Except.bind]
      | @categoricalOrdered _ _ a cs b x hb ha ht hx =>
        refine .inl ⟨_, hb, ?_⟩
        have hc : (cs.map Arg.lit).mapM catElem = .ok cs := (mapM_each fun a ha b => catElem_iff).2 ((each_map _).2 rfl)
        have hlast : ∀ t : Ty, (match some x with
            | none => (.ok (.categorical cs t false) : Except PyErr Ty)
            | some (.lit (.bool b)) => .ok (.categorical cs t b)
            | _ => .error .unmodelled) = .error .unmodelled := by
          intro t
          split
          · rename_i h; cases h
          · rename_i h; cases h; exact absurd rfl (hx _)
          · rfl
        simp only [(iter_iff (hmem hb (a := a) (by simp))).2 ha, hc, bind, Except.bind]
        rcases ht with ⟨t, rfl⟩ | ⟨rfl | ⟨y, rfl, hy⟩, t, hd⟩
        · exact hlast _
        · simp only [hd, Except.map]; exact hlast _
        · simp only [falsy_iff.2 hy, hd, Except.map]; exact hlast _
      | @categorical _ _ a b o hb ha =>
        refine .inl ⟨_, hb, ?_⟩
        simp only [(noElems_iff (hmem hb (a := a) (by simp))).2 ⟨ha, rfl⟩, bind, Except.bind]
      | @categoricalType _ _ a cs b o hb ha hf hd =>
        refine .inl ⟨_, hb, ?_⟩
        have ht : b.truthy = true := by
          cases h : b.truthy with
          | true => rfl
          | false => exact absurd (falsy_iff.1 h) hf
        have hc : (cs.map Arg.lit).mapM catElem = .ok cs := (mapM_each fun a ha b => catElem_iff).2 ((each_map _).2 rfl)
        simp only [(iter_iff (hmem hb (a := a) (by simp))).2 ha, hc, ht, bind, Except.bind, if_true]
      | @categoricalDiscover _ _ a cs b o _ hb ha hf hd =>
        refine .inl ⟨_, hb, ?_⟩
        have hc : (cs.map Arg.lit).mapM catElem = .ok cs := (mapM_each fun a ha b => catElem_iff).2 ((each_map _).2 rfl)
        simp only [(iter_iff (hmem hb (a := a) (by simp))).2 ha, hc, bind, Except.bind]
        rcases hf with rfl | ⟨x, rfl, hx⟩
        · simp [hd, Except.map]
        · simp [falsy_iff.2 hx, hd, Except.map]

end

section
variable (env : Env) (disc : List Lit → Except PyErr Ty) (hd : ∀ l, Returns (disc l))
  (hw : ∀ l t, disc l = .ok t → WF env t)
  (n : Str) (hn : n ∈ callable) (pos : List (Str × Arg)) (kw : List KwText) (hne : pos ≠ [] ∨ kw ≠ [])
  (h1 : ∀ p ∈ pos, ArgText env disc p.1 p.2)
  (h2 : ∀ k ∈ kw, Word isLower k.name ∧ ArgText env disc k.text k.val)
  (h3 : ∀ k ∈ kw, (∀ t, ¬ NamedType k.name t) ∧ k.name ≠ py"var" ∧ k.name ≠ py"ellipsis")

include hd hw hn hne h1 h2 h3

/-- **C45.** The text of a call of a type constructor raises an exception exactly if the call raises it, or if the call means
something and this is no valid datashape (`TypeError`). -/
theorem C45.raises (e : PyErr) :
    DS.dshape env disc (callText n pos kw) = .error e ↔
      CallRaises env disc n (pos.map (·.2)) (kw.map fun k => (k.name, k.val)) e ∨
      (e = .typeError ∧ ∃ t, Means env disc n (pos.map (·.2)) (kw.map fun k => (k.name, k.val)) t ∧
        validOk (.dshape [t]) = false) := by
  obtain ⟨c, hc, hm, he⟩ := call_eq hd hn pos kw hne h1 h2 (fun k hk => kw_names (h3 k hk)) hw
  obtain ⟨ks, hg, _⟩ := args_then pos kw hne h1 h2
  have hne' : (pos.map (·.2), kw.map fun k => (k.name, k.val)) ≠ (([], []) : List Arg × List (Str × Arg)) := by
    rcases hne with h | h <;> simp [h]
  have hok := G_wf (fun s t h => (dshapeN_wf hw _ s t h).1.1) hw hg
  have htv := (callable_constr (env := env) (disc := disc) hn).2.2.1
  have hr := constr_raises hw hok.1 hok.2 hne' n c hc htv
  rw [he]
  cases hv : c (pos.map (·.2)) (kw.map fun k => (k.name, k.val)) with
  | error x =>
    simp only [Except.error.injEq]
    constructor
    · rintro rfl; exact .inl ((hr x).1 hv)
    · rintro (h | ⟨_, t, ht, _⟩)
      · have := (hr e).2 h
        rw [hv] at this; cases this; rfl
      · rw [(hm t).2 ht] at hv; cases hv
  | ok t =>
    simp only
    constructor
    · intro h
      split at h
      · cases h
      · cases h
        rename_i hq
        exact .inr ⟨rfl, t, (hm t).1 hv, by simpa using hq⟩
    · rintro (h | ⟨rfl, u, hu', hq⟩)
      · have := (hr e).2 h
        rw [hv] at this; cases this
      · have := (hm u).2 hu'
        rw [hv] at this; cases this
        rw [if_neg (by simp [hq])]

end

section
variable (env : Env) (disc : List Lit → Except PyErr Ty)

/-- `string['latin1']`, `string[1, 2, 3]`, `option[-1]`, `tuple[[1]]`, `time[5]`, `timedelta['sss']`, `struct[['a', 'a'],
[int32, int32]]`, `decimal[scale=2]` -/
example : CallRaises env disc (py"string") [.lit (.str (py"latin1"))] [] .valueError := by
  refine .stringEnc (.other (by simp) (by simp) fun c h => ?_)
  cases h with
  | name h => exact absurd ((encodings_iff _ _).2 h) (by simp [encodings, List.lookup])
  | default h => cases h
example : CallRaises env disc (py"string") [.lit (.int 1), .lit (.int 2), .lit (.int 3)] [] .unboundLocal := .stringMany (by simp)
example : CallRaises env disc (py"option") [.lit (.int (-1))] [] .valueError :=
  .option ((bindArgs_iff _ _ _).1 rfl) (.negative (by decide))
example : CallRaises env disc (py"tuple") [.lits [.int 1]] [] .typeError :=
  .tuplePart (pre := []) (ts := []) ((bindArgs_iff _ _ _).1 rfl) (.lits (l := [.int 1])) .nil (.dimension 1)
example : CallRaises env disc (py"time") [.lit (.int 5)] [] .typeError := .time ((bindArgs_iff _ _ _).1 rfl) (by simp)
example : CallRaises env disc (py"timedelta") [.lit (.str (py"sss"))] [] .indexError :=
  .timedeltaEmpty ((bindArgs_iff _ _ _).1 rfl) .str ((C12.runs_out _).1 (C12.sss_indexError 0))
example : CallRaises env disc (py"struct") [.lits [.str (py"a"), .str (py"a")], .dss [.dshape [tInt32], .dshape [tInt32]]] [] .valueError :=
  .structTwice (fs := [(py"a", tInt32), (py"a", tInt32)]) ((bindArgs_iff _ _ _).1 rfl) (.lits (l := [.str (py"a"), .str (py"a")]))
    (.dss (l := [.dshape [tInt32], .dshape [tInt32]])) (.cons ⟨.str, .ds⟩ (.cons ⟨.str, .ds⟩ .nil)) (by simp)
example : CallRaises env disc (py"decimal") [] [(py"scale", .lit (.int 2))] .typeError :=
  .unbound (names := [py"precision", py"scale"]) (req := 1) (by simp [signatures]) (by
    rintro ⟨v, hv, hr⟩
    have := (bindArgs_iff _ _ _).2 hv
    cases this
    exact hr none (by simp; rfl) rfl)

end

end DS
