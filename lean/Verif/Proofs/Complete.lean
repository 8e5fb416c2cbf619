import Verif.Proofs.Grammar
import Verif.Spec.SyntaxErrors

/-
Completeness of the parser: every token sequence of the documented grammar is parsed, with the value of the
derivation, whatever derivation is given.
-/
namespace DS

variable {msg : Msg}

/-- what comes after a datashape does not continue it -/
def Follow (rest : List Tk) : Prop :=
  ∀ t, rest.head? = some t → t ≠ .lbrack ∧ t ≠ .ellipsis ∧ t ≠ .star ∧ t ≠ .rarrow

theorem Follow.nil : Follow [] := by simp [Follow]
theorem Follow.comma {r} : Follow (.comma :: r) := by simp [Follow]
theorem Follow.rbrack {r} : Follow (.rbrack :: r) := by simp [Follow]
theorem Follow.rbrace {r} : Follow (.rbrace :: r) := by simp [Follow]
theorem Follow.rparen {r} : Follow (.rparen :: r) := by simp [Follow]

theorem Follow.ne {rest : List Tk} (h : Follow rest) (t : Tk)
    (ht : t = .lbrack ∨ t = .ellipsis ∨ t = .star ∨ t = .rarrow) : ¬ rest.head? = some t := by
  intro e
  have := h t e
  rcases ht with h | h | h | h <;> simp_all

theorem Follow.apart {rest : List Tk} (h : Follow rest) {ts : List Tk} : Apart ts rest := by
  intro a t _ e hf
  cases hf
  · exact h.ne _ (by simp) e
  · exact h.ne _ (by simp) e
  · exact h.ne _ (by simp) e
  · exact h.ne _ (by simp) e
  · exact h.ne _ (by simp) e

theorem Apart.suffix {us ts rest : List Tk} (h : Apart us rest) (p : List Tk) (e : us = p ++ ts) : Apart ts rest := by
  subst e
  intro a t h1 h2
  exact h a t (by rw [List.getLast?_append, h1]; rfl) h2

@[simp] theorem advance_none (t : Tk) (s : List Tk) : advance none (t :: s) = .ok s := by
  cases s <;> rfl

/-- closing brackets -/
def Closing (t : Tk) : Prop := t = .rbrack ∨ t = .rbrace ∨ t = .rparen

theorem Closing.follow {t : Tk} (h : Closing t) (r : List Tk) : Follow (t :: r) := by
  rcases h with rfl | rfl | rfl
  · exact .rbrack
  · exact .rbrace
  · exact .rparen

/-- What follows a list: a closing bracket, or (if a trailing comma is allowed) a comma and a closing
bracket, with skipped tokens `J` between them. `out` is the state after the list. -/
inductive Ends (J : List Tk → Prop) : Bool → List Tk → List Tk → Prop where
  | close {tr t r} : Closing t → Ends J tr (t :: r) (t :: r)
  | trail {j t r} : J j → Closing t → Ends J true (.comma :: (j ++ t :: r)) (t :: r)

theorem Ends.follow {J tr rest out} (h : Ends J tr rest out) : Follow rest := by
  cases h with
  | close h => exact h.follow _
  | trail => exact .comma

section
variable {α : Type} {item : List Tk → Res (Option α)} {tr : Bool} {saved : List Tk} {acc : List α}

theorem hlist_end {s rest out : List Tk} {x : α} {fuel : Nat} (hx : item s = .ok (some x, rest))
    {J : List Tk → Prop} (hE : Ends J tr rest out) (hn : ∀ j t r, J j → Closing t → item (j ++ t :: r) = .ok (none, t :: r)) :
    hlist none item msg tr saved (fuel + 2) acc s = .ok (some (acc ++ [x]), out) := by
  cases hE with
  | close h =>
    rw [hlist, hx]
    have : ∀ t r, Closing t → ¬ ((t :: r).head? = some Tk.comma) := by
      intro t r h; rcases h with rfl | rfl | rfl <;> simp
    simp [bind, Except.bind]
    intro e; have := this _ [] h; simp [e] at this
  | trail hj h =>
    rw [hlist, hx]
    simp [bind, Except.bind]
    rw [hlist, hn _ _ _ hj h]
    simp [bind, Except.bind]

theorem hlist_cons {s s' : List Tk} {x : α} {fuel : Nat} (hx : item s = .ok (some x, .comma :: s')) :
    hlist none item msg tr saved (fuel + 1) acc s = hlist none item msg tr saved fuel (acc ++ [x]) s' := by
  rw [hlist, hx]
  simp [bind, Except.bind]

theorem hlist_none {s s' : List Tk} {fuel : Nat} (hx : item s = .ok (none, s')) :
    hlist none item msg tr saved (fuel + 1) [] s = .ok (none, saved) := by
  rw [hlist, hx]
  simp [bind, Except.bind]

theorem parseList_none {s s' : List Tk} (hx : item s = .ok (none, s')) :
    parseList none item msg tr s = .ok (none, s) := hlist_none hx

end

section
variable {sym : Sym}

/-- `parse_datashape` finds nothing at a token that starts no datashape -/
def NoStart (s : List Tk) : Prop :=
  (∃ t r, Closing t ∧ s = t :: r) ∨ (∃ v r, s = .str v :: r) ∨ (∃ v r, s = .bool v :: r) ∨
    (∃ r, s = .lbrack :: r) ∨ (∃ i r, s = .int i :: r ∧ r.head? ≠ some .star)

/-- `parse_dim` and `parse_dtype` find nothing at `s`. -/
structure Idle (sym : Sym) (s : List Tk) : Prop where
  dim : ∀ f, parseDim sym none f s = .ok (none, s)
  dtype : ∀ f, parseDtype sym none f s = .ok (none, s)
  star : ¬ s.head? = some .star
  qmark : ∀ r, s ≠ .qmark :: r

theorem NoStart.idle {s : List Tk} (h : NoStart s) : Idle sym s := by
  rcases h with ⟨t, r, h, rfl⟩ | ⟨v, r, rfl⟩ | ⟨v, r, rfl⟩ | ⟨r, rfl⟩ | ⟨i, r, rfl, h⟩
  · rcases h with rfl | rfl | rfl <;>
      exact ⟨fun f => by simp [parseDim], fun f => by simp [parseDtype], by simp, by simp⟩
  · exact ⟨fun f => by simp [parseDim], fun f => by simp [parseDtype], by simp, by simp⟩
  · exact ⟨fun f => by simp [parseDim], fun f => by simp [parseDtype], by simp, by simp⟩
  · exact ⟨fun f => by simp [parseDim], fun f => by simp [parseDtype], by simp, by simp⟩
  · exact ⟨fun f => by simp [parseDim, bind, Except.bind, h], fun f => by simp [parseDtype], by simp, by simp⟩

theorem kw_idle {k : Str} (h : sym.dtype k = none ∧ sym.dim k = none) (r : List Tk) : Idle sym (.lower k :: .equal :: r) :=
  ⟨fun f => by simp [parseDim, bind, Except.bind, h.2], fun f => by simp [parseDtype, bind, Except.bind, h.1], by simp, by simp⟩

theorem Idle.nooption {s : List Tk} (h : Idle sym s) (f : List Tk → Res (Option Ty)) :
    parseNoOption sym none f s = .ok (none, s) := by
  simp [parseNoOption, bind, Except.bind, h.dim, h.dtype]

/-- a dimension without `*` is read, whatever follows it -/
theorem looseDim_comp {ds : List Tk} (h : LooseDim sym ds) (f : List Tk → Res (Option Ty)) {r : List Tk}
    (hb : r.head? = some .lbrack → ∀ n, ds.getLast? ≠ some (.lower n)) :
    ds ≠ [] ∧ ds.head? ≠ some .qmark ∧ ∃ d, parseDim sym none f (ds ++ r) = .ok (some d, r) := by
  cases h with
  | ellipsisTypevar hc ht => simp [parseDim, bind, Except.bind, sugar, hc, ht, liftPy]
  | @name n d h =>
    have hb : ¬ r.head? = some .lbrack := fun e => hb e n (by simp)
    simp [parseDim, bind, Except.bind, h, hb]
  | ellipsis h => simp [parseDim, bind, Except.bind, sugar, h]

theorem looseDim_idle {ds : List Tk} (h : LooseDim sym ds) (f : List Tk → Res (Option Ty)) {s : List Tk} (hs : Idle sym s)
    (hb : s.head? = some .lbrack → ∀ n, ds.getLast? ≠ some (.lower n)) :
    parseNoOption sym none f (ds ++ s) = .ok (none, s) := by
  obtain ⟨-, -, d, e⟩ := looseDim_comp h f hb
  simp [parseNoOption, bind, Except.bind, e, hs.dtype, hs.star]

/-- skipped tokens are skipped -/
theorem ds_junk {q : Bool} {j s : List Tk} (hj : Junk sym q j) (hs : Idle sym s)
    (hb : s.head? = some .lbrack → ∀ n, j.getLast? ≠ some (.lower n)) (n : Nat) :
    parseDatashapeN sym none (n + 1) (j ++ s) = .ok (none, s) := by
  have plain : ∀ {u : List Tk}, (∀ r, u ≠ .qmark :: r) → parseDatashapeF sym none (parseDatashapeN sym none n) u =
      parseNoOption sym none (parseDatashapeN sym none n) u := by
    intro u hu
    rw [parseDatashapeF]
    exact fun r e => hu r e
  cases hj with
  | none => rw [parseDatashapeN, List.nil_append, plain hs.qmark, hs.nooption]
  | qmark => simp [parseDatashapeN, parseDatashapeF, bind, Except.bind, hs.nooption]
  | dim h =>
    obtain ⟨h1, h2, -⟩ := looseDim_comp h (parseDatashapeN sym none n) hb
    rw [parseDatashapeN, plain, looseDim_idle h _ hs hb]
    intro r e
    cases j with
    | nil => exact h1 rfl
    | cons a j => simp at e h2; exact h2 e.1
  | @qdim ts h =>
    have hb' : s.head? = some .lbrack → ∀ n, ts.getLast? ≠ some (.lower n) := by
      intro e n
      have := hb e n
      have h1 := (looseDim_comp (r := []) h (parseDatashapeN sym none 0) (by simp)).1
      cases ts with
      | nil => exact absurd rfl h1
      | cons a ts => simpa [List.getLast?_cons] using this
    simp [parseDatashapeN, parseDatashapeF, bind, Except.bind, looseDim_idle h _ hs hb']

theorem ds_idle {s : List Tk} (h : Idle sym s) (n : Nat) : parseDatashapeN sym none (n + 1) s = .ok (none, s) :=
  ds_junk (q := true) (j := []) .none h (by simp) n

theorem ds_noStart {s : List Tk} (h : NoStart s) (n : Nat) :
    parseDatashapeN sym none (n + 1) s = .ok (none, s) := ds_idle h.idle n

theorem JunkB.both {q : Bool} {j : List Tk} (h : JunkB sym q j) : Junk sym q j ∧ ∀ n, j.getLast? ≠ some (.lower n) := by
  cases h with
  | none => exact ⟨.none, by simp⟩
  | junk h hb => exact ⟨h, hb⟩

/-- skipped tokens in front of an argument are skipped -/
theorem arg_junk {q : Bool} {j s : List Tk} (hj : Junk sym q j) (hs : Idle sym s)
    (hb : s.head? = some .lbrack → ∀ n, j.getLast? ≠ some (.lower n)) (n : Nat) :
    parseTypeArg none (parseDatashapeN sym none (n + 1)) (j ++ s) = parseTypeArg none (parseDatashapeN sym none (n + 1)) s := by
  simp only [parseTypeArg, ds_junk hj hs hb, ds_idle hs, bind, Except.bind]

theorem ds_closing {t : Tk} (h : Closing t) (r : List Tk) (n : Nat) :
    parseDatashapeN sym none (n + 1) (t :: r) = .ok (none, t :: r) :=
  ds_noStart (.inl ⟨t, r, h, rfl⟩) n

/-- a keyword followed by `=` starts no datashape -/
theorem ds_kw {k : Str} (h : sym.dtype k = none ∧ sym.dim k = none) (r : List Tk) (n : Nat) :
    parseDatashapeN sym none (n + 1) (.lower k :: .equal :: r) = .ok (none, .lower k :: .equal :: r) :=
  ds_idle (kw_idle h r) n

/-- the parsing function of a nonterminal reads exactly the derived tokens -/
def Comp (sym : Sym) (q : Bool) : (nt : NT) → List Tk → nt.Val → Prop
  | .datashape, ts, t => ts ≠ [] ∧ ∀ n rest, ts.length < n → Apart ts rest →
      parseDatashapeN sym none n (ts ++ rest) = .ok (some t, rest)
  | .nooption, ts, t => ts ≠ [] ∧ ts.head? ≠ some .qmark ∧ ∀ n rest, ts.length ≤ n → Apart ts rest →
      parseNoOption sym none (parseDatashapeN sym none n) (ts ++ rest) = .ok (some t, rest)
  | .dtype, ts, t => (ts ≠ [] ∧ ts.head? ≠ some .qmark ∧ ts.head? ≠ some .star ∧ ts.head? ≠ some .lbrack) ∧
      (q = false → NotDimConstr sym ts) ∧ ∀ n rest, ts.length ≤ n → Apart ts rest →
      (NotDimConstr sym ts → parseDim sym none (parseDatashapeN sym none n) (ts ++ rest) = .ok (none, ts ++ rest)) ∧
      parseDtype sym none (parseDatashapeN sym none n) (ts ++ rest) = .ok (some t, rest)
  | .arg, ts, a => ts ≠ [] ∧ ∀ n rest, ts.length < n → Apart ts rest →
      parseTypeArg none (parseDatashapeN sym none n) (ts ++ rest) = .ok (some a, rest)
  | .kwarg, ts, p => (∃ r, ts = .lower p.1 :: .equal :: r) ∧ ∀ n rest, ts.length < n → Apart ts rest →
      parseTypeKwarg none (parseDatashapeN sym none n) (ts ++ rest) = .ok (some p, rest)
  | .field, ts, p => ts ≠ [] ∧ ∀ n rest, ts.length < n → Apart ts rest →
      parseStructField none (parseDatashapeN sym none n) (ts ++ rest) = .ok (some p, rest)
  | .argList, ts, (args, kw) => True ∧ ((∀ p ∈ kw, sym.dtype p.1 = none ∧ sym.dim p.1 = none) →
      ∀ n fuel acc rest, ts.length < n → ts.length < fuel →
      argLoop none (parseDatashapeN sym none n) fuel acc (ts ++ .rbrack :: rest) =
        .ok ((acc ++ args, kw), .rbrack :: rest))
  | .dsList, ts, l => ts ≠ [] ∧ ∀ {msg : Msg} n fuel tr saved acc rest out, ts.length < n → ts.length < fuel →
      Ends (Junk sym q) tr rest out → hlist none (parseDatashapeN sym none n) msg tr saved fuel acc (ts ++ rest) =
        .ok (some (acc ++ l), out)
  | .kwList, ts, l => (∃ p ps r, l = p :: ps ∧ ts = .lower p.1 :: .equal :: r) ∧
      ∀ {msg : Msg} n fuel saved acc rest, ts.length < n → ts.length < fuel →
      hlist none (parseTypeKwarg none (parseDatashapeN sym none n)) msg false saved fuel acc (ts ++ .rbrack :: rest) =
        .ok (some (acc ++ l), .rbrack :: rest)
  | .fieldList, ts, l => ts ≠ [] ∧ ∀ {msg : Msg} n fuel tr saved acc rest out, ts.length < n → ts.length < fuel →
      Ends (· = []) tr rest out →
      hlist none (parseStructField none (parseDatashapeN sym none n)) msg tr saved fuel acc (ts ++ rest) =
        .ok (some (acc ++ l), out)

theorem dimG_comp {ds : List Tk} {d : Ty} (h : DimG sym ds d) (f : List Tk → Res (Option Ty)) (r : List Tk) :
    ds ≠ [] ∧ ds.head? ≠ some .qmark ∧ parseDim sym none f (ds ++ .star :: r) = .ok (some d, .star :: r) := by
  cases h with
  | typevar hc ht => simp [parseDim, bind, Except.bind, sugar, hc, ht, liftPy]
  | ellipsisTypevar hc ht => simp [parseDim, bind, Except.bind, sugar, hc, ht, liftPy]
  | name h => simp [parseDim, bind, Except.bind, h]
  | int hc ht => simp [parseDim, bind, Except.bind, sugar, hc, ht, liftPy]
  | ellipsis h => simp [parseDim, bind, Except.bind, sugar, h]

theorem mono_len {ts us : List Tk} {n : Nat} (h : (ts ++ us).length < n) : ts.length < n ∧ us.length < n := by
  simp at h; omega

theorem hlist_lits {α : Type} (mk : α → Tk) (lit : α → Lit)
    (item : List Tk → Res (Option Lit)) (hitem : ∀ a r, item (mk a :: r) = .ok (some (lit a), r))
    (saved : List Tk) (r : List Tk) : ∀ (l : List α) (a : α) (fuel : Nat) (acc : List Lit), l.length < fuel →
    hlist none item msg false saved fuel acc (commas ((a :: l).map mk) ++ .rbrack :: r) =
      .ok (some (acc ++ (a :: l).map lit), .rbrack :: r) := by
  intro l
  induction l with
  | nil =>
    intro a fuel acc hf
    obtain ⟨fuel, rfl⟩ : ∃ f, fuel = f + 1 := ⟨fuel - 1, by simp at hf; omega⟩
    simp [commas, hlist, hitem, bind, Except.bind]
  | cons b l ih =>
    intro a fuel acc hf
    obtain ⟨fuel, rfl⟩ : ∃ f, fuel = f + 1 := ⟨fuel - 1, by simp at hf; omega⟩
    have := ih b fuel (acc ++ [lit a]) (by simp at hf; omega)
    simp [commas, hlist, hitem, bind, Except.bind]
    simpa using this

theorem commas_length (l : List Tk) : l.length ≤ (commas l).length := by
  match l with
  | [] => simp [commas]
  | [_] => simp [commas]
  | t :: u :: r => have := commas_length (u :: r); simp [commas] at this ⊢; omega

theorem junk_false {j : List Tk} (h : Junk sym false j) : j = [] := by cases h; rfl

theorem arg_lit (l : Lit) (n : Nat) {rest : List Tk} (hr : Apart [l.tok] rest) :
    parseTypeArg none (parseDatashapeN sym none (n+1)) (l.tok :: rest) = .ok (some (.lit l), rest) := by
  cases l with
  | int i =>
    rw [parseTypeArg, Lit.tok, ds_noStart (.inr (.inr (.inr (.inr ⟨i, rest, rfl, fun e => hr _ _ rfl e .int⟩))))]
    simp [bind, Except.bind]
  | str v =>
    rw [parseTypeArg, Lit.tok, ds_noStart (.inr (.inl ⟨v, rest, rfl⟩))]
    simp [bind, Except.bind]
  | bool v =>
    rw [parseTypeArg, Lit.tok, ds_noStart (.inr (.inr (.inl ⟨v, rest, rfl⟩)))]
    simp [bind, Except.bind]

theorem ds_lbrack (r : List Tk) (n : Nat) :
    parseDatashapeN sym none (n+1) (.lbrack :: r) = .ok (none, .lbrack :: r) :=
  ds_noStart (.inr (.inr (.inr (.inl ⟨r, rfl⟩)))) n

theorem arg_empty (n : Nat) (rest : List Tk) :
    parseTypeArg none (parseDatashapeN sym none (n+1)) (.lbrack :: .rbrack :: rest) = .ok (some (.lits []), rest) := by
  have h1 : ∀ msg, parseList none (parseDatashapeN sym none (n+1)) msg false (.rbrack :: rest) = .ok (none, .rbrack :: rest) :=
    fun _ => parseList_none (ds_closing (.inl rfl) rest n)
  have h2 : ∀ msg, parseList none (parseInteger none) msg false (.rbrack :: rest) = .ok (none, .rbrack :: rest) :=
    fun _ => parseList_none (s' := .rbrack :: rest) rfl
  have h3 : ∀ msg, parseList none (parseString none) msg false (.rbrack :: rest) = .ok (none, .rbrack :: rest) :=
    fun _ => parseList_none (s' := .rbrack :: rest) rfl
  have h4 : ∀ msg, parseList none (parseBoolean none) msg false (.rbrack :: rest) = .ok (none, .rbrack :: rest) :=
    fun _ => parseList_none (s' := .rbrack :: rest) rfl
  rw [parseTypeArg, ds_lbrack]
  simp [bind, Except.bind, h1, h2, h3, h4]

theorem arg_dss (n : Nat) {s rest : List Tk} {l : List Ty}
    (h : parseList none (parseDatashapeN sym none (n+1)) (.uniform (py"datashape")) false s = .ok (some l, .rbrack :: rest)) :
    parseTypeArg none (parseDatashapeN sym none (n+1)) (.lbrack :: s) = .ok (some (.dss l), rest) := by
  rw [parseTypeArg, ds_lbrack]
  simp [bind, Except.bind, h]

theorem commas_cons (t : Tk) (l : List Tk) : ∃ u, commas (t :: l) = t :: u ∧ (l = [] ∧ u = [] ∨ ∃ v, u = .comma :: v) := by
  cases l with
  | nil => exact ⟨[], rfl, .inl ⟨rfl, rfl⟩⟩
  | cons b l => exact ⟨_, rfl, .inr ⟨_, rfl⟩⟩

theorem lits_list {α : Type} (mk : α → Tk) (lit : α → Lit) (item : List Tk → Res (Option Lit))
    (hitem : ∀ a r, item (mk a :: r) = .ok (some (lit a), r)) (a : α) (l : List α) (r : List Tk) :
    parseList none item msg false (commas ((a :: l).map mk) ++ .rbrack :: r) =
      .ok (some ((a :: l).map lit), .rbrack :: r) := by
  rw [parseList, hlist_lits mk lit item hitem]
  · rfl
  · have := commas_length ((a :: l).map mk); simp at this ⊢; omega

theorem lits_none {α β : Type} (mk : α → Tk) (item : List Tk → Res (Option β)) (a : α)
    (hitem : ∀ r, Follow r → item (mk a :: r) = .ok (none, mk a :: r)) (l : List α) (r : List Tk) :
    parseList none item msg false (commas ((a :: l).map mk) ++ .rbrack :: r) =
      .ok (none, commas ((a :: l).map mk) ++ .rbrack :: r) := by
  obtain ⟨u, e, hu⟩ := commas_cons (mk a) (l.map mk)
  rw [List.map_cons, e]
  refine parseList_none (s' := mk a :: (u ++ .rbrack :: r)) ?_
  refine hitem _ ?_
  rcases hu with ⟨_, rfl⟩ | ⟨v, rfl⟩
  · exact .rbrack
  · exact .comma

theorem arg_lits (n : Nat) {l : List Lit} (hl : litList l) (rest : List Tk) :
    parseTypeArg none (parseDatashapeN sym none (n+1)) (.lbrack :: (commas (l.map Lit.tok) ++ .rbrack :: rest)) =
      .ok (some (.lits l), rest) := by
  rw [parseTypeArg, ds_lbrack]
  obtain ⟨hne, ⟨_ | ⟨a, is⟩, rfl⟩ | ⟨_ | ⟨a, is⟩, rfl⟩ | ⟨_ | ⟨a, is⟩, rfl⟩⟩ := hl
  · simp at hne
  · have e' : ((a :: is).map Lit.int).map Lit.tok = (a :: is).map Tk.int := by simp [Lit.tok, Function.comp_def]
    have h1 (msg : Msg) := lits_none (msg := msg) Tk.int (parseDatashapeN sym none (n+1)) a
      (fun r hf => ds_noStart (.inr (.inr (.inr (.inr ⟨a, _, rfl, hf.ne .star (by simp)⟩)))) n) is rest
    have h2 (msg : Msg) := lits_list (msg := msg) Tk.int Lit.int (parseInteger none) (fun a r => by simp [parseInteger, bind, Except.bind]) a is rest
    rw [e']
    simp only [bind, Except.bind, advance_none, h1, h2]
    simp
  · simp at hne
  · have e' : ((a :: is).map Lit.str).map Lit.tok = (a :: is).map Tk.str := by simp [Lit.tok, Function.comp_def]
    have h1 (msg : Msg) := lits_none (msg := msg) Tk.str (parseDatashapeN sym none (n+1)) a
      (fun r hf => ds_noStart (.inr (.inl ⟨a, _, rfl⟩)) n) is rest
    have h2 (msg : Msg) := lits_none (msg := msg) Tk.str (parseInteger none) a (fun r hf => rfl) is rest
    have h3 (msg : Msg) := lits_list (msg := msg) Tk.str Lit.str (parseString none) (fun a r => by simp [parseString, bind, Except.bind]) a is rest
    rw [e']
    simp only [bind, Except.bind, advance_none, h1, h2, h3]
    simp
  · simp at hne
  · have e' : ((a :: is).map Lit.bool).map Lit.tok = (a :: is).map Tk.bool := by simp [Lit.tok, Function.comp_def]
    have h1 (msg : Msg) := lits_none (msg := msg) Tk.bool (parseDatashapeN sym none (n+1)) a
      (fun r hf => ds_noStart (.inr (.inr (.inl ⟨a, _, rfl⟩))) n) is rest
    have h2 (msg : Msg) := lits_none (msg := msg) Tk.bool (parseInteger none) a (fun r hf => rfl) is rest
    have h3 (msg : Msg) := lits_none (msg := msg) Tk.bool (parseString none) a (fun r hf => rfl) is rest
    have h4 (msg : Msg) := lits_list (msg := msg) Tk.bool Lit.bool (parseBoolean none) (fun a r => by simp [parseBoolean, bind, Except.bind]) a is rest
    rw [e']
    simp only [bind, Except.bind, advance_none, h1, h2, h3, h4]
    simp

theorem comp {nt : NT} {ts : List Tk} {v : nt.Val} (hT : sym.Truthy) (hS : sym.Sep) {q : Bool} (h : G sym q nt ts v) :
    Comp sym q nt ts v := by
  induction h with
  | plain h ih =>
    refine ⟨ih.1, fun n rest hn hr => ?_⟩
    obtain ⟨n, rfl⟩ : ∃ m, n = m + 1 := ⟨n - 1, by omega⟩
    have := ih.2.2 n rest (by omega) hr
    rw [parseDatashapeN, parseDatashapeF]
    · exact this
    · rename_i ts t
      cases ts with
      | nil => exact absurd rfl ih.1
      | cons a ts => have := ih.2.1; intro r e; simp at e; simp [e.1] at this
  | option h hc ho hm ih =>
    refine ⟨by simp, fun n rest hn hr => ?_⟩
    obtain ⟨n, rfl⟩ : ∃ m, n = m + 1 := ⟨n - 1, by omega⟩
    have := ih.2.2 n rest (by simp at hn; omega) (hr.suffix [.qmark] rfl)
    simp [parseDatashapeN, parseDatashapeF, bind, Except.bind, this, sugar, hc, ho, hm, liftPy]
  | dim hd h hm ih =>
    rename_i ds ts d t r
    refine ⟨by simp, ?_, fun n rest hn hr => ?_⟩
    · have := (dimG_comp hd (parseDatashapeN sym none 0) []).2.1
      have := (dimG_comp hd (parseDatashapeN sym none 0) []).1
      cases ds <;> simp_all
    · have h1 := (dimG_comp hd (parseDatashapeN sym none n) (ts ++ rest)).2.2
      have h2 := ih.2 n rest (by simp at hn; omega) (hr.suffix (ds ++ [.star]) (by simp))
      simp [parseNoOption, bind, Except.bind, h1, h2, hm, liftPy]
  | dtype h hm hd ih =>
    refine ⟨ih.1.1, ih.1.2.1, fun n rest hn hr => ?_⟩
    obtain ⟨h1, h2⟩ := ih.2.2 n rest hn hr
    have h1 := h1 (by cases q with
      | true => exact hd rfl
      | false => exact ih.2.1 rfl)
    simp [parseNoOption, bind, Except.bind, h1, h2, dtype_truthy hT h, hm, liftPy]
  | dropped hq hl h hm ih =>
    rename_i ds ts t r
    obtain ⟨⟨i1, -, i3, i4⟩, -, ih⟩ := ih
    have hh : ∀ rest : List Tk, (ts ++ rest).head? = ts.head? := by
      intro rest
      cases ts with
      | nil => exact absurd rfl i1
      | cons a ts => rfl
    have hx := fun (n : Nat) (rest : List Tk) => looseDim_comp hl (parseDatashapeN sym none n) (r := ts ++ rest)
      (by rw [hh]; exact fun e => absurd e i4)
    refine ⟨by simp [(hx 0 []).1], ?_, fun n rest hn hr => ?_⟩
    · have := (hx 0 []).1
      have := (hx 0 []).2.1
      cases ds <;> simp_all
    · obtain ⟨-, -, d, e⟩ := hx n rest
      have h2 := (ih n rest (by simp at hn; omega) (hr.suffix ds rfl)).2
      rw [List.append_assoc]
      simp [parseNoOption, bind, Except.bind, e, h2, hh, i3, dtype_truthy hT h, hm, liftPy]
  | typevar hc ht =>
    refine ⟨by simp, fun _ => by simp [NotDimConstr], fun n rest hn hr => ?_⟩
    have e1 : ¬ rest.head? = some .ellipsis := fun e => hr _ _ rfl e .ellipsis
    have e2 : ¬ rest.head? = some .star := fun e => hr _ _ rfl e .typevar
    simp [parseDim, parseDtype, bind, Except.bind, e1, e2, sugar, hc, ht, liftPy]
  | name h =>
    refine ⟨by simp, fun _ => by simp [NotDimConstr], fun n rest hn hr => ?_⟩
    have e1 : ¬ rest.head? = some .lbrack := fun e => hr _ _ rfl e .lower
    simp [parseDim, parseDtype, bind, Except.bind, e1, h, hS.disjoint _ _ h]
  | constr hc hd hg hne ht ih =>
    rename_i nm c ts args kw t
    refine ⟨by simp, fun hq => by rintro n r e; cases e; exact hd hq, fun n rest hn hr => ?_⟩
    have h1 : parseTypeArgList none (parseDatashapeN sym none n) (ts ++ .rbrack :: rest) =
        .ok ((args, kw), .rbrack :: rest) := by
      have := ih.2 (hS.kw _ _ _ _ _ hc ht) n ((ts ++ .rbrack :: rest).length + 1) [] rest
        (by simp at hn; omega) (by simp; omega)
      simpa [parseTypeArgList] using this
    have hne' : ¬ (args = [] ∧ kw = []) := by simpa using hne
    constructor
    · intro hnd
      simp [parseDim, bind, Except.bind, hnd _ _ rfl]
    · simp [parseDtype, bind, Except.bind, hc, h1, ht, liftPy]
      intro a b; exact absurd ⟨a, b⟩ hne'
  | struct hg hcm hc ht ih =>
    rename_i ts fs comma c t
    refine ⟨by simp, fun _ => by simp [NotDimConstr], fun n rest hn hr => ⟨by simp [parseDim], ?_⟩⟩
    have hE : Ends (· = []) true (comma ++ .rbrace :: rest) (.rbrace :: rest) := by
      rcases hcm with rfl | rfl
      · exact .close (.inr (.inl rfl))
      · exact .trail (j := []) rfl (.inr (.inl rfl))
    have h1 (msg : Msg) := ih.2 (msg := msg) n ((ts ++ (comma ++ .rbrace :: rest)).length + 1) true (ts ++ (comma ++ .rbrace :: rest)) []
      (comma ++ .rbrace :: rest) _ (by simp at hn; omega) (by simp; omega) hE
    have e : (Tk.lbrace :: (ts ++ comma ++ [.rbrace])) ++ rest = .lbrace :: (ts ++ (comma ++ .rbrace :: rest)) := by simp
    rw [e]
    simp only [parseDtype, parseStruct, bind, Except.bind, parseList, advance_none, h1, sugar]
    simp [hc, ht, liftPy]
  | emptyStruct hc ht =>
    refine ⟨by simp, fun _ => by simp [NotDimConstr], fun n rest hn hr => ⟨by simp [parseDim], ?_⟩⟩
    simp [parseDtype, parseStruct, bind, Except.bind, parseList, hlist, parseStructField, sugar, hc, ht, liftPy]
  | tuple hg hcm hc ht ih =>
    rename_i ts l comma c t
    refine ⟨by simp, fun _ => by simp [NotDimConstr], fun n rest hn hr => ⟨by simp [parseDim], ?_⟩⟩
    have hE : Ends (Junk sym q) true (comma ++ .rparen :: rest) (.rparen :: rest) := by
      rcases hcm with rfl | ⟨j, hj, rfl⟩
      · exact .close (.inr (.inr rfl))
      · exact .trail hj (.inr (.inr rfl))
    have h1 (msg : Msg) := ih.2 (msg := msg) n ((ts ++ (comma ++ .rparen :: rest)).length + 1) true (ts ++ (comma ++ .rparen :: rest)) []
      (comma ++ .rparen :: rest) _ (by simp at hn; omega) (by simp; omega) hE
    have e1 : ¬ rest.head? = some .rarrow := fun e => hr .rparen _ (by simp [List.getLast?_cons]) e .func
    have e : (Tk.lparen :: (ts ++ comma ++ [.rparen])) ++ rest = .lparen :: (ts ++ (comma ++ .rparen :: rest)) := by simp
    rw [e]
    simp only [parseDtype, parseParen, bind, Except.bind, parseList, advance_none, h1, sugar]
    simp [e1, hc, ht, liftPy]
  | emptyTuple hc ht =>
    refine ⟨by simp, fun _ => by simp [NotDimConstr], fun n rest hn hr => ⟨by simp [parseDim], ?_⟩⟩
    obtain ⟨n, rfl⟩ : ∃ m, n = m + 1 := ⟨n - 1, by simp at hn; omega⟩
    have h1 : ∀ msg, parseList none (parseDatashapeN sym none (n+1)) msg true (.rparen :: rest) = .ok (none, .rparen :: rest) :=
      fun _ => parseList_none (ds_closing (.inr (.inr rfl)) rest n)
    have e1 : ¬ rest.head? = some .rarrow := fun e => hr .rparen _ (by simp [List.getLast?_cons]) e .func
    simp [parseDtype, parseParen, bind, Except.bind, h1, e1, sugar, hc, ht, liftPy]
  | func hg hcm hr' hc ht ih ih' =>
    rename_i ts l comma us r c t
    refine ⟨by simp, fun _ => by simp [NotDimConstr], fun n rest hn hr => ⟨by simp [parseDim], ?_⟩⟩
    have hE : Ends (Junk sym q) true (comma ++ .rparen :: .rarrow :: (us ++ rest)) (.rparen :: .rarrow :: (us ++ rest)) := by
      rcases hcm with rfl | ⟨j, hj, rfl⟩
      · exact .close (.inr (.inr rfl))
      · exact .trail hj (.inr (.inr rfl))
    have h1 (msg : Msg) := ih.2 (msg := msg) n ((ts ++ (comma ++ .rparen :: .rarrow :: (us ++ rest))).length + 1) true
      (ts ++ (comma ++ .rparen :: .rarrow :: (us ++ rest))) []
      (comma ++ .rparen :: .rarrow :: (us ++ rest)) _ (by simp at hn; omega) (by simp; omega) hE
    have h2 := ih'.2 n rest (by simp at hn; omega) (hr.suffix (.lparen :: (ts ++ comma ++ [.rparen, .rarrow])) (by simp))
    have e : (Tk.lparen :: (ts ++ comma ++ .rparen :: .rarrow :: us)) ++ rest =
        .lparen :: (ts ++ (comma ++ .rparen :: .rarrow :: (us ++ rest))) := by simp
    rw [e]
    simp only [parseDtype, parseParen, bind, Except.bind, parseList, advance_none, h1, sugar]
    simp [h2, hc, ht, liftPy]
  | emptyFunc hr' hc ht ih' =>
    rename_i us r c t
    refine ⟨by simp, fun _ => by simp [NotDimConstr], fun n rest hn hr => ⟨by simp [parseDim], ?_⟩⟩
    obtain ⟨n, rfl⟩ : ∃ m, n = m + 1 := ⟨n - 1, by simp at hn; omega⟩
    have h1 : ∀ msg, parseList none (parseDatashapeN sym none (n+1)) msg true (.rparen :: .rarrow :: (us ++ rest)) =
        .ok (none, .rparen :: .rarrow :: (us ++ rest)) :=
      fun _ => parseList_none (ds_closing (.inr (.inr rfl)) _ n)
    have h2 := ih'.2 (n+1) rest (by simp at hn; omega) (hr.suffix [.lparen, .rparen, .rarrow] rfl)
    simp [parseDtype, parseParen, bind, Except.bind, h1, h2, sugar, hc, ht, liftPy]
  | field hk h ih =>
    refine ⟨by simp, fun n rest hn hr => ?_⟩
    have := ih.2 n rest (by simp at hn; omega) (hr.suffix [_, .colon] rfl)
    cases hk <;> simp [parseStructField, bind, Except.bind, this]
  | argDs h ih =>
    refine ⟨ih.1, fun n rest hn hr => ?_⟩
    simp [parseTypeArg, bind, Except.bind, ih.2 n rest hn hr]
  | @argLit j l hj =>
    refine ⟨by simp, fun n rest hn hr => ?_⟩
    obtain ⟨n, rfl⟩ : ∃ m, n = m + 1 := ⟨n - 1, by simp at hn; omega⟩
    have hi : Idle sym (l.tok :: rest) := by
      cases l with
      | int i => exact NoStart.idle (.inr (.inr (.inr (.inr ⟨i, rest, rfl, fun e => hr (.int i) _ (by simp [Lit.tok]) e .int⟩))))
      | str v => exact NoStart.idle (.inr (.inl ⟨v, rest, rfl⟩))
      | bool v => exact NoStart.idle (.inr (.inr (.inl ⟨v, rest, rfl⟩)))
    rw [List.append_assoc]
    exact (arg_junk hj hi (by cases l <;> simp [Lit.tok]) n).trans (arg_lit _ n (hr.suffix j rfl))
  | argEmpty hj =>
    refine ⟨by simp, fun n rest hn hr => ?_⟩
    obtain ⟨n, rfl⟩ : ∃ m, n = m + 1 := ⟨n - 1, by simp at hn; omega⟩
    rw [List.append_assoc]
    exact (arg_junk hj.both.1 (NoStart.idle (.inr (.inr (.inr (.inl ⟨_, rfl⟩))))) (fun _ => hj.both.2) n).trans (arg_empty n rest)
  | argLits hj hl =>
    refine ⟨by simp, fun n rest hn hr => ?_⟩
    obtain ⟨n, rfl⟩ : ∃ m, n = m + 1 := ⟨n - 1, by simp at hn; omega⟩
    rw [List.append_assoc]
    refine (arg_junk hj.both.1 (NoStart.idle (.inr (.inr (.inr (.inl ⟨_, rfl⟩))))) (fun _ => hj.both.2) n).trans ?_
    simpa using arg_lits n hl rest
  | argDss hj h ih =>
    rename_i j ts l
    refine ⟨by simp, fun n rest hn hr => ?_⟩
    obtain ⟨n, rfl⟩ : ∃ m, n = m + 1 := ⟨n - 1, by simp at hn; omega⟩
    have := arg_dss (sym := sym) n (s := ts ++ .rbrack :: rest) (rest := rest) (l := l)
      (ih.2 (n+1) _ false _ [] _ _ (by simp at hn; omega) (by simp; omega) (.close (.inl rfl)))
    rw [List.append_assoc]
    refine (arg_junk hj.both.1 (NoStart.idle (.inr (.inr (.inr (.inl ⟨_, rfl⟩))))) (fun _ => hj.both.2) n).trans ?_
    simpa using this
  | kwarg h ih =>
    refine ⟨⟨_, rfl⟩, fun n rest hn hr => ?_⟩
    simp [parseTypeKwarg, bind, Except.bind, ih.2 n rest (by simp at hn; omega) (hr.suffix [.lower _, .equal] rfl)]
  | argsOne h ih =>
    refine ⟨trivial, fun _ n fuel acc rest hn hf => ?_⟩
    obtain ⟨fuel, rfl⟩ : ∃ m, fuel = m + 1 := ⟨fuel - 1, by omega⟩
    simp [argLoop, bind, Except.bind, ih.2 n _ hn Follow.rbrack.apart]
  | argsCons h h' ih ih' =>
    rename_i ts us a args kw
    refine ⟨trivial, fun hk n fuel acc rest hn hf => ?_⟩
    obtain ⟨fuel, rfl⟩ : ∃ m, fuel = m + 1 := ⟨fuel - 1, by omega⟩
    have h1 := ih.2 n (.comma :: (us ++ .rbrack :: rest)) (by simp at hn; omega) Follow.comma.apart
    have h2 := ih'.2 hk n fuel (acc ++ [a]) rest (by simp at hn; omega) (by simp at hf; omega)
    simp [argLoop, bind, Except.bind, h1, h2]
  | @argsKw j _ _ hj h ih =>
    obtain ⟨⟨p, ps, r, rfl, rfl⟩, ih⟩ := ih
    refine ⟨trivial, fun hk n fuel acc rest hn hf => ?_⟩
    obtain ⟨fuel, rfl⟩ : ∃ m, fuel = m + 1 := ⟨fuel - 1, by omega⟩
    obtain ⟨n, rfl⟩ : ∃ m, n = m + 1 := ⟨n - 1, by simp at hn; omega⟩
    have h1 : parseTypeArg none (parseDatashapeN sym none (n+1)) (j ++ (.lower p.1 :: .equal :: r ++ .rbrack :: rest)) =
        .ok (none, .lower p.1 :: .equal :: r ++ .rbrack :: rest) := by
      refine (arg_junk hj (kw_idle (hk p (by simp)) _) (by simp) n).trans ?_
      simp [parseTypeArg, bind, Except.bind, ds_kw (hk p (by simp))]
    have h2 (msg : Msg) := ih (msg := msg) (n+1) ((.lower p.1 :: .equal :: r ++ .rbrack :: rest).length + 1)
      (.lower p.1 :: .equal :: r ++ .rbrack :: rest) [] rest (by simp at hn ⊢; omega) (by simp; omega)
    simp only [List.append_assoc, argLoop, bind, Except.bind, h1, parseList, h2]
    simp
  | @argsEnd j hq hj =>
    refine ⟨trivial, fun hk n fuel acc rest hn hf => ?_⟩
    obtain ⟨fuel, rfl⟩ : ∃ m, fuel = m + 1 := ⟨fuel - 1, by omega⟩
    obtain ⟨n, rfl⟩ : ∃ m, n = m + 1 := ⟨n - 1, by omega⟩
    have hi : Idle sym (.rbrack :: rest) := NoStart.idle (.inl ⟨_, _, .inl rfl, rfl⟩)
    have h1 : parseTypeArg none (parseDatashapeN sym none (n+1)) (j ++ .rbrack :: rest) = .ok (none, .rbrack :: rest) := by
      refine (arg_junk hj hi (by simp) n).trans ?_
      simp [parseTypeArg, bind, Except.bind, ds_idle hi]
    have h2 : ∀ msg, parseList none (parseTypeKwarg none (parseDatashapeN sym none (n+1))) msg false (.rbrack :: rest) =
        .ok (none, .rbrack :: rest) := fun _ => parseList_none (s' := .rbrack :: rest) rfl
    simp only [argLoop, bind, Except.bind, h1, h2]
    simp
  | dsOne h ih =>
    refine ⟨ih.1, fun n fuel tr saved acc rest out hn hf hE => ?_⟩
    have hl := List.length_pos_iff.2 ih.1
    obtain ⟨fuel, rfl⟩ : ∃ m, fuel = m + 2 := ⟨fuel - 2, by omega⟩
    obtain ⟨n, rfl⟩ : ∃ m, n = m + 1 := ⟨n - 1, by omega⟩
    exact hlist_end (ih.2 _ _ hn hE.follow.apart) hE (fun j t r hj ht =>
      ds_junk hj (NoStart.idle (.inl ⟨t, r, ht, rfl⟩)) (by rcases ht with rfl | rfl | rfl <;> simp) n)
  | dsCons h h' ih ih' =>
    refine ⟨by simp, fun n fuel tr saved acc rest out hn hf hE => ?_⟩
    obtain ⟨fuel, rfl⟩ : ∃ m, fuel = m + 1 := ⟨fuel - 1, by omega⟩
    simp only [List.append_assoc, List.cons_append]
    rw [hlist_cons (ih.2 n _ (by simp at hn; omega) Follow.comma.apart),
      ih'.2 n fuel tr saved _ rest out (by simp at hn; omega) (by simp at hf; omega) hE]
    simp
  | kwOne h ih =>
    obtain ⟨⟨r, rfl⟩, ih⟩ := ih
    refine ⟨⟨_, [], r, rfl, rfl⟩, fun n fuel saved acc rest hn hf => ?_⟩
    obtain ⟨fuel, rfl⟩ : ∃ m, fuel = m + 2 := ⟨fuel - 2, by simp at hf; omega⟩
    exact hlist_end (J := (· = [])) (ih _ _ hn Follow.rbrack.apart) (.close (.inl rfl))
      (fun j t r hj ht => by subst hj; rcases ht with rfl | rfl | rfl <;> rfl)
  | kwCons h h' ih ih' =>
    obtain ⟨⟨r, rfl⟩, ih⟩ := ih
    refine ⟨⟨_, _, _, rfl, rfl⟩, fun n fuel saved acc rest hn hf => ?_⟩
    obtain ⟨fuel, rfl⟩ : ∃ m, fuel = m + 1 := ⟨fuel - 1, by omega⟩
    have h1 := ih n
    simp only [List.append_assoc, List.cons_append] at h1 ⊢
    rw [hlist_cons (h1 _ (by simp at hn ⊢; omega) Follow.comma.apart),
      ih'.2 n fuel saved _ rest (by simp at hn; omega) (by simp at hf; omega)]
    simp
  | fieldOne h ih =>
    refine ⟨ih.1, fun n fuel tr saved acc rest out hn hf hE => ?_⟩
    have hl := List.length_pos_iff.2 ih.1
    obtain ⟨fuel, rfl⟩ : ∃ m, fuel = m + 2 := ⟨fuel - 2, by omega⟩
    exact hlist_end (ih.2 _ _ hn hE.follow.apart) hE
      (fun j t r hj ht => by subst hj; rcases ht with rfl | rfl | rfl <;> rfl)
  | fieldCons h h' ih ih' =>
    refine ⟨by simp, fun n fuel tr saved acc rest out hn hf hE => ?_⟩
    obtain ⟨fuel, rfl⟩ : ∃ m, fuel = m + 1 := ⟨fuel - 1, by omega⟩
    simp only [List.append_assoc, List.cons_append]
    rw [hlist_cons (ih.2 n _ (by simp at hn; omega) Follow.comma.apart),
      ih'.2 n fuel tr saved _ rest out (by simp at hn; omega) (by simp at hf; omega) hE]
    simp

/-- every datashape of the grammar is parsed, with its value -/
theorem parseToks_complete (hT : sym.Truthy) (hS : sym.Sep) {ts : List Tk} {t : Ty}
    {q : Bool} (h : G sym q .datashape ts t) : parseToks sym none ts = .ok t := by
  have := (comp hT hS h).2 (ts.length + 1) [] (by omega) Follow.nil.apart
  have hne := (comp hT hS h).1
  cases ts with
  | nil => exact absurd rfl hne
  | cons a ts =>
    simp only [List.append_nil] at this
    simp only [parseToks, parseDatashape, bind, Except.bind, this]
    simp

theorem parse_complete (hT : sym.Truthy) (hS : sym.Sep) {text : Str} {toks : List Token} {t : Ty}
    {q : Bool} (hl : lex text = (toks, none)) (h : G sym q .datashape (toks.map (·.tk)) t) : parse sym text = .ok t := by
  simp [parse, hl, parseToks_complete hT hS h]

end
end DS
