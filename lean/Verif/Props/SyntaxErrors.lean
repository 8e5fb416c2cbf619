import Verif.Spec.SyntaxErrors
import Verif.Proofs.Complaints
import Verif.Proofs.Complete
import Verif.Proofs.SymTab
import Verif.Proofs.SymSep
import Verif.Spec.Lexical
import Verif.Proofs.Lexer
import Verif.Proofs.Broken
import Verif.Proofs.Prefix
import Verif.Props.Parsing

/-
C72: a syntax error is at the first token that cannot come where it does.
-/
namespace DS

variable {msg : Msg}

variable {sym : Sym}

/-- where no datashape begins, none is found -/
theorem Nothing.ds {s : List Tk} (h : Nothing sym s) (f : List Tk → Res (Option Ty)) :
    (parseNoOption sym none f s = .ok (none, s)) ∧ parseDatashapeF sym none f s = .ok (none, s) := by
  cases h with
  | finished => simp [parseDatashapeF, parseNoOption, parseDim, parseDtype, bind, Except.bind]
  | symbol ht =>
    simp only [List.mem_cons, List.not_mem_nil, or_false] at ht
    rcases ht with rfl | rfl | rfl | rfl | rfl | rfl | rfl | rfl | rfl <;>
      simp [parseDatashapeF, parseNoOption, parseDim, parseDtype, bind, Except.bind]
  | str => simp [parseDatashapeF, parseNoOption, parseDim, parseDtype, bind, Except.bind]
  | bool => simp [parseDatashapeF, parseNoOption, parseDim, parseDtype, bind, Except.bind]
  | other => simp [parseDatashapeF, parseNoOption, parseDim, parseDtype, bind, Except.bind]
  | int h => simp [parseDatashapeF, parseNoOption, parseDim, parseDtype, bind, Except.bind, h]
  | name h1 h2 h3 => simp [parseDatashapeF, parseNoOption, parseDim, parseDtype, bind, Except.bind, h1, h2, h3]
  | call h1 h2 => simp [parseDatashapeF, parseNoOption, parseDim, parseDtype, bind, Except.bind, h1, h2]

theorem Nothing.dsN {s : List Tk} (h : Nothing sym s) (n : Nat) : parseDatashapeN sym none (n+1) s = .ok (none, s) :=
  (h.ds _).2

theorem Nothing.dsQ {s : List Tk} (h : Nothing sym s) (n : Nat) : parseDatashapeN sym none (n+1) (.qmark :: s) = .ok (none, s) := by
  simp [parseDatashapeN, parseDatashapeF, bind, Except.bind, (h.ds (parseDatashapeN sym none n)).1]

/-! ### Lists -/

section
variable {α : Type} {item : List Tk → Res (Option α)} {nt : NT}

/-- complete items are read -/
theorem items_hlist {pre : List Tk} (hp : Items sym nt pre) {n : Nat} (hn : pre.length < n)
    (hi : ∀ ts v rest, ts.length < n → G sym false nt ts v → Apart ts rest → ∃ x, item (ts ++ rest) = .ok (some x, rest))
    (tr : Bool) (saved s : List Tk) : ∀ (fuel : Nat) (acc : List α), pre.length < fuel →
    ∃ fuel' acc', (acc = [] → pre = [] → acc' = []) ∧ (acc ≠ [] ∨ pre ≠ [] → acc' ≠ []) ∧
      hlist none item msg tr saved fuel acc (pre ++ s) = hlist none item msg tr saved (fuel' + 1) acc' s := by
  induction hp with
  | nil =>
    intro fuel acc hf
    obtain ⟨fuel, rfl⟩ : ∃ f, fuel = f + 1 := ⟨fuel - 1, by simp at hf; omega⟩
    exact ⟨fuel, acc, by simp, by simp, rfl⟩
  | @cons ts us v hg _ ih =>
    intro fuel acc hf
    obtain ⟨fuel, rfl⟩ : ∃ f, fuel = f + 1 := ⟨fuel - 1, by simp at hf; omega⟩
    obtain ⟨x, hx⟩ := hi ts v (.comma :: (us ++ s)) (by simp at hn; omega) hg Follow.comma.apart
    obtain ⟨fuel', acc', h1, h2, h3⟩ := ih (by simp at hn; omega) fuel (acc ++ [x]) (by simp at hf; omega)
    refine ⟨fuel', acc', by simp, fun _ => h2 (.inl (by simp)), ?_⟩
    rw [← h3, List.append_assoc, List.cons_append, hlist_cons hx]

variable {pre : List Tk} (hp : Items sym nt pre) {n : Nat} (hn : pre.length < n)
    (hi : ∀ ts v rest, ts.length < n → G sym false nt ts v → Apart ts rest → ∃ x, item (ts ++ rest) = .ok (some x, rest))
include hp hn hi

/-- an error in an item -/
theorem list_error (tr : Bool) {s : List Tk} {e : PFail} (h : item s = .error e) :
    parseList none item msg tr (pre ++ s) = .error e := by
  obtain ⟨f, a, -, -, h3⟩ := items_hlist hp hn hi tr (pre ++ s) s ((pre ++ s).length + 1) [] (by simp; omega)
  rw [parseList, h3, hlist, h]
  rfl

/-- no item after a comma or at the beginning -/
theorem list_none {s : List Tk} (h : item s = .ok (none, s)) : ∃ r, parseList none item msg true (pre ++ s) = .ok (r, s) := by
  obtain ⟨f, a, h1, h2, h3⟩ := items_hlist hp hn hi true (pre ++ s) s ((pre ++ s).length + 1) [] (by simp; omega)
  rw [parseList, h3, hlist, h]
  by_cases e : pre = []
  · subst e; simp [h1 rfl rfl, bind, Except.bind]
  · have := h2 (.inr e)
    exact ⟨some a, by simp [bind, Except.bind, this]⟩

/-- no item after a comma, where a trailing comma is not allowed -/
theorem list_trailing (hne : pre ≠ []) {s s' : List Tk} (h : item s = .ok (none, s')) :
    parseList none item msg false (pre ++ s) = .error (.tok s'.length msg) := by
  obtain ⟨f, a, h1, h2, h3⟩ := items_hlist hp hn hi false (pre ++ s) s ((pre ++ s).length + 1) [] (by simp; omega)
  rw [parseList, h3, hlist, h]
  have := h2 (.inr hne)
  simp [bind, Except.bind, this, raiseAt]

/-- a last item -/
theorem list_last (tr : Bool) {s rest : List Tk} {x : α} (h : item s = .ok (some x, rest)) (hc : rest.head? ≠ some .comma) :
    ∃ r, parseList none item msg tr (pre ++ s) = .ok (some r, rest) := by
  obtain ⟨f, a, -, -, h3⟩ := items_hlist hp hn hi tr (pre ++ s) s ((pre ++ s).length + 1) [] (by simp; omega)
  rw [parseList, h3, hlist, h]
  exact ⟨a ++ [x], by simp [bind, Except.bind, hc]⟩

end

/-- complete arguments are read -/
theorem items_argLoop {ds : List Tk → Res (Option Ty)} {pre : List Tk} (hp : Items sym .arg pre) {n : Nat} (hn : pre.length < n)
    (hi : ∀ ts v rest, ts.length < n → G sym false .arg ts v → Apart ts rest → ∃ x, parseTypeArg none ds (ts ++ rest) = .ok (some x, rest))
    (s : List Tk) : ∀ (fuel : Nat) (acc : List Arg), pre.length < fuel →
    ∃ fuel' acc', argLoop none ds fuel acc (pre ++ s) = argLoop none ds (fuel' + 1) acc' s := by
  induction hp with
  | nil =>
    intro fuel acc hf
    obtain ⟨fuel, rfl⟩ : ∃ f, fuel = f + 1 := ⟨fuel - 1, by simp at hf; omega⟩
    exact ⟨fuel, acc, rfl⟩
  | @cons ts us v hg _ ih =>
    intro fuel acc hf
    obtain ⟨fuel, rfl⟩ : ∃ f, fuel = f + 1 := ⟨fuel - 1, by simp at hf; omega⟩
    obtain ⟨x, hx⟩ := hi ts v (.comma :: (us ++ s)) (by simp at hn; omega) hg Follow.comma.apart
    obtain ⟨fuel', acc', h3⟩ := ih (by simp at hn; omega) fuel (acc ++ [x]) (by simp at hf; omega)
    refine ⟨fuel', acc', ?_⟩
    rw [← h3, List.append_assoc, List.cons_append, argLoop, hx]
    simp [bind, Except.bind]

/-! ### Literals -/

theorem not_literal {s : List Tk} (h : ¬ LiteralNext s) :
    parseInteger none s = .ok (none, s) ∧ parseString none s = .ok (none, s) ∧ parseBoolean none s = .ok (none, s) := by
  refine ⟨?_, ?_, ?_⟩
  · unfold parseInteger; split
    · exact absurd ⟨.int _, rfl⟩ h
    · rfl
  · unfold parseString; split
    · exact absurd ⟨.str _, rfl⟩ h
    · rfl
  · unfold parseBoolean; split
    · exact absurd ⟨.bool _, rfl⟩ h
    · rfl

section
variable {α : Type} (mk : α → Tk) (lit : α → Lit) (item : List Tk → Res (Option Lit))
  (hitem : ∀ a r, item (mk a :: r) = .ok (some (lit a), r)) (saved rest : List Tk)
include hitem

theorem lits_hlist : ∀ (l : List α) (a : α) (fuel : Nat) (acc : List Lit), l.length < fuel →
    (rest.head? ≠ some .comma → ∃ r, hlist none item msg false saved fuel acc (commas ((a :: l).map mk) ++ rest) = .ok (some r, rest)) ∧
    (∀ r', item rest = .ok (none, r') → hlist none item msg false saved (fuel + 1) acc (commas ((a :: l).map mk) ++ .comma :: rest) =
      .error (.tok r'.length msg)) := by
  intro l
  induction l with
  | nil =>
    intro a fuel acc hf
    obtain ⟨fuel, rfl⟩ : ∃ f, fuel = f + 1 := ⟨fuel - 1, by simp at hf; omega⟩
    refine ⟨fun h => ⟨acc ++ [lit a], ?_⟩, fun r' h => ?_⟩
    · simp [commas, hlist, hitem, bind, Except.bind, h]
    · simp [commas, hlist, hitem, bind, Except.bind, h, raiseAt]
  | cons b l ih =>
    intro a fuel acc hf
    obtain ⟨fuel, rfl⟩ : ∃ f, fuel = f + 1 := ⟨fuel - 1, by simp at hf; omega⟩
    obtain ⟨h1, h2⟩ := ih b fuel (acc ++ [lit a]) (by simp at hf; omega)
    refine ⟨fun h => ?_, fun r' h => ?_⟩
    · obtain ⟨r, h1⟩ := h1 h
      refine ⟨r, ?_⟩
      simp [commas, hlist, hitem, bind, Except.bind]
      simpa using h1
    · have h2 := h2 r' h
      rw [hlist]
      simp [commas, hitem, bind, Except.bind]
      simpa using h2

theorem lits_parse (a : α) (l : List α) :
    (rest.head? ≠ some .comma → ∃ r, parseList none item msg false (commas ((a :: l).map mk) ++ rest) = .ok (some r, rest)) ∧
    (∀ r', item rest = .ok (none, r') → parseList none item msg false (commas ((a :: l).map mk) ++ .comma :: rest) =
      .error (.tok r'.length msg)) := by
  have hl := commas_length ((a :: l).map mk)
  simp only [List.length_map, List.length_cons] at hl
  refine ⟨fun h => ?_, fun r' h => ?_⟩
  · exact (lits_hlist mk lit item hitem _ rest l a _ [] (by simp; simp at hl; omega)).1 h
  · exact (lits_hlist mk lit item hitem _ rest l a _ [] (by simp; simp at hl; omega)).2 r' h

end

theorem lits_not {α β : Type} (mk : α → Tk) (item : List Tk → Res (Option β)) (a : α) (rest : List Tk)
    (hitem : ∀ r, (r.head? = rest.head? ∨ r.head? = some .comma) → item (mk a :: r) = .ok (none, mk a :: r)) (l : List α) :
    parseList none item msg false (commas ((a :: l).map mk) ++ rest) = .ok (none, commas ((a :: l).map mk) ++ rest) := by
  obtain ⟨u, e, hu⟩ := commas_cons (mk a) (l.map mk)
  rw [List.map_cons, e]
  refine parseList_none (s' := mk a :: (u ++ rest)) ?_
  refine hitem _ ?_
  rcases hu with ⟨_, rfl⟩ | ⟨v, rfl⟩
  · exact .inl rfl
  · exact .inr rfl

/-! ### The parser's error -/

/-- the error of the parsing function of a nonterminal -/
def Fails (sym : Sym) (s rest : List Tk) (c : Complaint) : NT → Prop
  | .datashape => ∀ n, s.length ≤ n → parseDatashapeN sym none (n+1) s = .error (.tok rest.length c.msg)
  | .field => ∀ n, s.length ≤ n → parseStructField none (parseDatashapeN sym none (n+1)) s = .error (.tok rest.length c.msg)
  | .arg => ∀ n, s.length ≤ n → parseTypeArg none (parseDatashapeN sym none (n+1)) s = .error (.tok rest.length c.msg)
  | .kwarg => ∀ n, s.length ≤ n → parseTypeKwarg none (parseDatashapeN sym none (n+1)) s = .error (.tok rest.length c.msg)
  | _ => True

theorem parameters_list (hT : sym.Truthy) (hS : sym.Sep) {ps : List Tk} (h : Parameters sym ps) (r : List Tk) (n : Nat)
    (hn : ps.length ≤ n) : ∃ l, parseList none (parseDatashapeN sym none (n+1)) msg true (ps ++ .rparen :: r) = .ok (l, .rparen :: r) := by
  cases h with
  | items hp =>
    exact list_none hp (n := n+1) (by omega) (fun ts v rest hl hg hf => ⟨v, (comp hT hS hg).2 _ rest hl hf⟩)
      (ds_closing (.inr (.inr rfl)) r n)
  | @last ps ts t hp hg =>
    obtain ⟨l, hl⟩ := list_last hp (n := n+1) (by simp at hn; omega)
      (fun ts v rest hl hg hf => ⟨v, (comp hT hS hg).2 _ rest hl hf⟩) true
      ((comp hT hS hg).2 (n+1) (.rparen :: r) (by simp at hn; omega) Follow.rparen.apart) (by simp)
    exact ⟨some l, by rw [List.append_assoc]; exact hl⟩

theorem fieldName_go {k : Tk} {nm : Str} (h : FieldName k nm) (f : List Tk → Res (Option Ty)) (s : List Tk) :
    (s.head? ≠ some .colon → parseStructField none f (k :: s) = .error (.tok s.length .colon)) ∧
    ∀ r, s = .colon :: r → parseStructField none f (k :: s) = (f r).bind fun x => match x.1 with
      | some t => .ok (some (nm, t), x.2)
      | none => .error (.tok x.2.length .fieldType) := by
  cases h <;> (
    refine ⟨fun h => by simp [parseStructField, bind, Except.bind, h, raiseAt], ?_⟩
    rintro r rfl
    simp only [parseStructField, bind, advance_none, Except.bind, List.head?_cons, if_true]
    rcases f r with e | ⟨_ | t, s⟩ <;> rfl)

theorem noFieldName {s : List Tk} (h : ∀ k n, s.head? = some k → ¬ FieldName k n) (f : List Tk → Res (Option Ty)) :
    parseStructField none f s = .ok (none, s) := by
  unfold parseStructField
  split
  · exact absurd .lower (h _ _ rfl)
  · exact absurd .upper (h _ _ rfl)
  · exact absurd .other (h _ _ rfl)
  · exact absurd .str (h _ _ rfl)
  · rfl

theorem noKeyword_none {s : List Tk} (h : NoKeyword s) (f : List Tk → Res (Option Ty)) :
    parseTypeKwarg none f s = .ok (none, s) := by
  unfold parseTypeKwarg
  split
  · rename_i name r
    have : ¬ r.head? = some .equal := by
      intro e
      cases r with
      | nil => cases e
      | cons a r => simp at e; subst e; exact h _ _ rfl
    simp [bind, Except.bind, this]
  · rfl

/-- a constructor call -/
theorem call_fails {n : Str} {k : Complaint} (hc : Called sym n k) (f : List Tk → Res (Option Ty)) (s : List Tk) {rest : List Tk}
    (h : parseTypeArgList none f s = .error (.tok rest.length msg) ∨ (∃ x, parseTypeArgList none f s = .ok (x, rest) ∧
      (rest.head? ≠ some .rbrack ∧ msg = k.msg))) :
    parseDatashapeF sym none f (.lower n :: .lbrack :: s) = .error (.tok rest.length msg) := by
  cases hc with
  | type hc =>
    obtain ⟨h1, h2⟩ := hc
    obtain ⟨c, hc⟩ := Option.isSome_iff_exists.1 h1
    rcases h with h | ⟨x, h, ⟨h3, rfl⟩⟩
    · simp [parseDatashapeF, parseNoOption, parseDim, parseDtype, bind, Except.bind, h2, hc, h]
    · simp [parseDatashapeF, parseNoOption, parseDim, parseDtype, bind, Except.bind, h2, hc, h, h3, raiseAt, Complaint.msg]
  | dim hc =>
    obtain ⟨c, hc⟩ := Option.isSome_iff_exists.1 hc
    rcases h with h | ⟨x, h, ⟨h3, rfl⟩⟩
    · simp [parseDatashapeF, parseNoOption, parseDim, bind, Except.bind, hc, h]
    · simp [parseDatashapeF, parseNoOption, parseDim, bind, Except.bind, hc, h, h3, raiseAt, Complaint.msg]

theorem call_empty {n : Str} (hc : TypeConstr sym n) (f : List Tk → Res (Option Ty)) (s : List Tk) {rest : List Tk}
    (h : parseTypeArgList none f s = .ok (([], []), rest)) (h3 : rest.head? = some .rbrack) :
    parseDatashapeF sym none f (.lower n :: .lbrack :: s) = .error (.tok rest.length .someArgument) := by
  obtain ⟨h1, h2⟩ := hc
  obtain ⟨c, hc⟩ := Option.isSome_iff_exists.1 h1
  simp [parseDatashapeF, parseNoOption, parseDim, parseDtype, bind, Except.bind, h2, hc, h, h3, raiseAt]

/-- arguments, up to an argument that cannot be read -/
theorem args_before (hT : sym.Truthy) (hS : sym.Sep) {pre : List Tk} (hp : Items sym .arg pre) (s : List Tk) (n : Nat)
    (hn : pre.length ≤ n) : ∃ fuel acc, parseTypeArgList none (parseDatashapeN sym none (n+1)) (pre ++ s) =
      argLoop none (parseDatashapeN sym none (n+1)) (fuel + 1) acc s :=
  items_argLoop hp (n := n+1) (by omega) (fun ts v rest hl hg hf => ⟨v, (comp hT hS hg).2 _ rest hl hf⟩) s _ [] (by simp; omega)

/-- where no argument begins -/
theorem noArg {s : List Tk} (h : Nothing sym s) (hl : ¬ LiteralNext s) (hb : s.head? ≠ some .lbrack) (n : Nat) :
    parseTypeArg none (parseDatashapeN sym none (n+1)) s = .ok (none, s) := by
  simp only [parseTypeArg, bind, Except.bind, h.dsN]
  split
  · exact absurd ⟨.int _, rfl⟩ hl
  · exact absurd ⟨.str _, rfl⟩ hl
  · exact absurd ⟨.bool _, rfl⟩ hl
  · exact absurd rfl hb
  · rfl

/-- a free keyword begins no argument -/
theorem kwArg {s : List Tk} (h : FreeKeyword sym s) {k : Str} {r : List Tk} (e : s = .lower k :: .equal :: r) (n : Nat) :
    parseTypeArg none (parseDatashapeN sym none (n+1)) s = .ok (none, s) := by
  have := h k r e
  subst e
  simp [parseTypeArg, bind, Except.bind, ds_kw this]

/-- keyword arguments begin with a keyword -/
theorem kwarg_head {ts : List Tk} {p : Str × Arg} (h : G sym false .kwarg ts p) : ∃ k r, ts = .lower k :: .equal :: r := by
  cases h; exact ⟨_, _, rfl⟩

theorem kwItems_head {kws : List Tk} (h : Items sym .kwarg kws) (hne : kws ≠ []) : ∃ k r, kws = .lower k :: .equal :: r := by
  cases h with
  | nil => exact absurd rfl hne
  | cons hg _ => obtain ⟨k, r, rfl⟩ := kwarg_head hg; exact ⟨_, _, rfl⟩

/-- the parser fails where `Wrong` says -/
theorem Wrong.fails (hT : sym.Truthy) (hS : sym.Sep) {nt : NT} {s rest : List Tk} {c : Complaint} (h : Wrong sym nt s rest c) :
    Fails sym s rest c nt := by
  have items : ∀ n ts v rest, ts.length < n → G sym false .datashape ts v → Apart ts rest →
      ∃ x, parseDatashapeN sym none n (ts ++ rest) = .ok (some x, rest) :=
    fun n ts v rest hl hg hf => ⟨v, (comp hT hS hg).2 _ rest hl hf⟩
  have fields : ∀ n ts v rest, ts.length < n → G sym false .field ts v → Apart ts rest →
      ∃ x, parseStructField none (parseDatashapeN sym none n) (ts ++ rest) = .ok (some x, rest) :=
    fun n ts v rest hl hg hf => ⟨v, (comp hT hS hg).2 _ rest hl hf⟩
  have kwargs : ∀ n ts v rest, ts.length < n → G sym false .kwarg ts v → Apart ts rest →
      ∃ x, parseTypeKwarg none (parseDatashapeN sym none n) (ts ++ rest) = .ok (some x, rest) :=
    fun n ts v rest hl hg hf => ⟨v, (comp hT hS hg).2 _ rest hl hf⟩
  induction h with
  | @option s rest c hq _ ih =>
    intro n hn
    have := ih n (by simp at hn; omega)
    rw [parseDatashapeN, parseDatashapeF] at this
    · simp [parseDatashapeN, parseDatashapeF, bind, Except.bind, this]
    · intro r e; simp [e] at hq
  | @dim ds s rest c d hd _ ih =>
    intro n hn
    obtain ⟨n, rfl⟩ : ∃ m, n = m + 1 := ⟨n - 1, by simp at hn; omega⟩
    have h3 := dimG_comp hd (parseDatashapeN sym none (n + 1)) s
    have h4 := ih n (by simp at hn; omega)
    rw [parseDatashapeN, parseDatashapeF]
    · simp [parseNoOption, bind, Except.bind, h3.2.2, h4]
    · intro r e
      cases ds with
      | nil => simp at h3
      | cons a ds => simp at e; simp [e.1] at h3
  | @noElement ds rest d hd hr =>
    intro n hn
    obtain ⟨n, rfl⟩ : ∃ m, n = m + 1 := ⟨n - 1, by simp at hn; omega⟩
    have h3 := dimG_comp hd (parseDatashapeN sym none (n + 1)) rest
    rw [parseDatashapeN, parseDatashapeF]
    · simp [parseNoOption, bind, Except.bind, h3.2.2, hr.dsN, raiseAt, Complaint.msg]
    · intro r e
      cases ds with
      | nil => simp at h3
      | cons a ds => simp at e; simp [e.1] at h3
  | @noOptionElement ds s d hd hr =>
    intro n hn
    obtain ⟨n, rfl⟩ : ∃ m, n = m + 1 := ⟨n - 1, by simp at hn; omega⟩
    have h3 := dimG_comp hd (parseDatashapeN sym none (n + 1)) (.qmark :: s)
    rw [parseDatashapeN, parseDatashapeF]
    · simp [parseNoOption, bind, Except.bind, h3.2.2, hr.dsQ, raiseAt, Complaint.msg]
    · intro r e
      cases ds with
      | nil => simp at h3
      | cons a ds => simp at e; simp [e.1] at h3
  | @struct pre s rest c hp _ ih =>
    intro n hn
    obtain ⟨n, rfl⟩ : ∃ m, n = m + 1 := ⟨n - 1, by simp at hn; omega⟩
    have h4 := list_error (msg := .field) hp (n := n+1) (by simp at hn; omega) (fields _) true (ih n (by simp at hn; omega))
    rw [parseDatashapeN]
    simp [parseDatashapeF, parseNoOption, parseDim, parseDtype, parseStruct, bind, Except.bind, h4]
  | @noName pre rest hp hr hb =>
    intro n hn
    obtain ⟨n, rfl⟩ : ∃ m, n = m + 1 := ⟨n - 1, by simp at hn; omega⟩
    obtain ⟨l, h4⟩ := list_none (msg := .field) hp (n := n+1) (by simp at hn; omega) (fields _) (noFieldName hr _)
    rw [parseDatashapeN]
    simp [parseDatashapeF, parseNoOption, parseDim, parseDtype, parseStruct, bind, Except.bind, h4, hb, raiseAt, Complaint.msg]
  | @afterField pre ts rest f hp hg hr hc hb =>
    intro n hn
    obtain ⟨n, rfl⟩ : ∃ m, n = m + 1 := ⟨n - 1, by simp at hn; omega⟩
    obtain ⟨l, h4⟩ := list_last (msg := .field) hp (n := n+1) (by simp at hn; omega) (fields _) true
      ((comp hT hS hg).2 (n+1) rest (by simp at hn; omega) hr) hc
    rw [parseDatashapeN]
    simp [parseDatashapeF, parseNoOption, parseDim, parseDtype, parseStruct, bind, Except.bind, h4, hb, raiseAt, Complaint.msg]
  | @field k nm s rest c hk _ ih =>
    intro n hn
    rw [(fieldName_go hk _ _).2 _ rfl, ih n (by simp at hn; omega)]
    rfl
  | noColon hk hr => exact fun n hn => (fieldName_go hk _ _).1 hr
  | noType hk hr =>
    intro n hn
    rw [(fieldName_go hk _ _).2 _ rfl, hr.dsN]
    rfl
  | noOptionType hk hr =>
    intro n hn
    rw [(fieldName_go hk _ _).2 _ rfl, hr.dsQ]
    rfl
  | @paren pre s rest c hp _ ih =>
    intro n hn
    obtain ⟨n, rfl⟩ : ∃ m, n = m + 1 := ⟨n - 1, by simp at hn; omega⟩
    have h4 := list_error (msg := .tupleItem) hp (n := n+1) (by simp at hn; omega) (items _) true (ih n (by simp at hn; omega))
    rw [parseDatashapeN]
    simp [parseDatashapeF, parseNoOption, parseDim, parseDtype, parseParen, bind, Except.bind, h4]
  | @noItem pre rest hp hr hb =>
    intro n hn
    obtain ⟨n, rfl⟩ : ∃ m, n = m + 1 := ⟨n - 1, by simp at hn; omega⟩
    obtain ⟨l, h4⟩ := list_none (msg := .tupleItem) hp (n := n+1) (by simp at hn; omega) (items _) (hr.dsN n)
    rw [parseDatashapeN]
    simp [parseDatashapeF, parseNoOption, parseDim, parseDtype, parseParen, bind, Except.bind, h4, hb, raiseAt, Complaint.msg]
  | @afterItem pre ts rest f hp hg hr hc hb =>
    intro n hn
    obtain ⟨n, rfl⟩ : ∃ m, n = m + 1 := ⟨n - 1, by simp at hn; omega⟩
    obtain ⟨l, h4⟩ := list_last (msg := .tupleItem) hp (n := n+1) (by simp at hn; omega) (items _) true
      ((comp hT hS hg).2 (n+1) rest (by simp at hn; omega) hr) hc
    rw [parseDatashapeN]
    simp [parseDatashapeF, parseNoOption, parseDim, parseDtype, parseParen, bind, Except.bind, h4, hb, raiseAt, Complaint.msg]
  | @result ps s rest c hp _ ih =>
    intro n hn
    obtain ⟨n, rfl⟩ : ∃ m, n = m + 1 := ⟨n - 1, by simp at hn; omega⟩
    obtain ⟨l, h4⟩ := parameters_list (msg := .tupleItem) hT hS hp (.rarrow :: s) n (by simp at hn; omega)
    have h5 := ih n (by simp at hn; omega)
    rw [parseDatashapeN]
    simp [parseDatashapeF, parseNoOption, parseDim, parseDtype, parseParen, bind, Except.bind, h4, h5]
  | @noResult ps rest hp hr =>
    intro n hn
    obtain ⟨n, rfl⟩ : ∃ m, n = m + 1 := ⟨n - 1, by simp at hn; omega⟩
    obtain ⟨l, h4⟩ := parameters_list (msg := .tupleItem) hT hS hp (.rarrow :: rest) n (by simp at hn; omega)
    rw [parseDatashapeN]
    simp [parseDatashapeF, parseNoOption, parseDim, parseDtype, parseParen, bind, Except.bind, h4, hr.dsN, raiseAt, Complaint.msg]
  | @call nm pre s rest c ck hc hp _ ih =>
    intro n hn
    obtain ⟨n, rfl⟩ : ∃ m, n = m + 1 := ⟨n - 1, by simp at hn; omega⟩
    obtain ⟨f, a, h4⟩ := args_before hT hS hp s n (by simp at hn; omega)
    rw [parseDatashapeN]
    refine call_fails hc _ _ (.inl ?_)
    rw [h4, argLoop, ih n (by simp at hn; omega)]
    rfl
  | @callKeyword nm pre kws s rest c ck hc hp hk hf hw ih =>
    intro n hn
    obtain ⟨n, rfl⟩ : ∃ m, n = m + 1 := ⟨n - 1, by simp at hn; omega⟩
    obtain ⟨f, a, h4⟩ := args_before hT hS hp (kws ++ s) n (by simp at hn; omega)
    have h5 := list_error (msg := .keyword) hk (n := n+1) (by simp at hn; omega) (kwargs _) false (ih n (by simp at hn; omega))
    have h6 : ∃ k r, kws ++ s = .lower k :: .equal :: r := by
      by_cases e : kws = []
      · subst e; cases hw <;> exact ⟨_, _, rfl⟩
      · obtain ⟨k, r, rfl⟩ := kwItems_head hk e; exact ⟨_, _, rfl⟩
    obtain ⟨k, r, h6⟩ := h6
    rw [parseDatashapeN]
    refine call_fails hc _ _ (.inl ?_)
    rw [h4, argLoop, kwArg hf h6]
    simp only [bind, Except.bind, h5]
  | @keyword k s rest c _ ih =>
    intro n hn
    simp [parseTypeKwarg, bind, Except.bind, ih n (by simp at hn; omega)]
  | @noValue k rest hr hl hb =>
    intro n hn
    simp [parseTypeKwarg, bind, Except.bind, noArg hr hl hb, raiseAt, Complaint.msg]
  | @noArguments nm s hc =>
    intro n hn
    obtain ⟨n, rfl⟩ : ∃ m, n = m + 1 := ⟨n - 1, by simp at hn; omega⟩
    rw [parseDatashapeN]
    refine call_empty hc _ _ ?_ rfl
    have h5 : ∀ msg, parseList none (parseTypeKwarg none (parseDatashapeN sym none (n+1))) msg false (.rbrack :: s) = .ok (none, .rbrack :: s) :=
      fun _ => parseList_none (noKeyword_none (by intro k r e; cases e) _)
    rw [parseTypeArgList, argLoop, noArg (.symbol (by simp)) (by rintro ⟨_ | _ | _, h⟩ <;> cases h) (by simp)]
    simp [bind, Except.bind, h5]
  | @noArgument nm pre rest ck hc hp hr hl hk hb hb' =>
    intro n hn
    obtain ⟨n, rfl⟩ : ∃ m, n = m + 1 := ⟨n - 1, by simp at hn; omega⟩
    obtain ⟨f, a, h4⟩ := args_before hT hS hp rest n (by simp at hn; omega)
    rw [parseDatashapeN]
    have h5 : ∀ msg, parseList none (parseTypeKwarg none (parseDatashapeN sym none (n+1))) msg false rest = .ok (none, rest) :=
      fun _ => parseList_none (noKeyword_none hk _)
    refine call_fails hc _ _ (.inr ⟨(a, []), ?_, ⟨hb', rfl⟩⟩)
    rw [h4, argLoop, noArg hr hl hb]
    simp [bind, Except.bind, h5]
  | @afterArgument nm pre ts rest a ck hc hp hg hr hm hb =>
    intro n hn
    obtain ⟨n, rfl⟩ : ∃ m, n = m + 1 := ⟨n - 1, by simp at hn; omega⟩
    obtain ⟨f, as, h4⟩ := args_before hT hS hp (ts ++ rest) n (by simp at hn; omega)
    rw [parseDatashapeN]
    refine call_fails hc _ _ (.inr ⟨(as ++ [a], []), ?_, ⟨hb, rfl⟩⟩)
    rw [h4, argLoop, (comp hT hS hg).2 (n+1) rest (by simp at hn; omega) hr]
    simp [bind, Except.bind, hm]
  | @noKeyword nm pre kws rest ck hc hp hk hne hf hr =>
    intro n hn
    obtain ⟨n, rfl⟩ : ∃ m, n = m + 1 := ⟨n - 1, by simp at hn; omega⟩
    obtain ⟨f, a, h4⟩ := args_before hT hS hp (kws ++ rest) n (by simp at hn; omega)
    have h5 := list_trailing (msg := .keyword) hk (n := n+1) (by simp at hn; omega) (kwargs _) hne (noKeyword_none hr _)
    obtain ⟨k, r, h6⟩ := kwItems_head hk hne
    have h7 : FreeKeyword sym (kws ++ rest) := by
      intro k' r' e
      refine hf k' r ?_
      rw [h6] at e ⊢
      injection e with e
      rw [e]
    rw [parseDatashapeN]
    refine call_fails hc _ _ (.inl ?_)
    rw [h4, argLoop, kwArg h7 (by rw [h6]; rfl)]
    simp only [bind, Except.bind, h5, Complaint.msg]
  | @afterKeyword nm pre kws ts rest p ck hc hp hk hg hf hr hm hb =>
    intro n hn
    obtain ⟨n, rfl⟩ : ∃ m, n = m + 1 := ⟨n - 1, by simp at hn; omega⟩
    obtain ⟨f, a, h4⟩ := args_before hT hS hp (kws ++ (ts ++ rest)) n (by simp at hn; omega)
    obtain ⟨l, h5⟩ := list_last (msg := .keyword) hk (n := n+1) (by simp at hn; omega) (kwargs _) false
      ((comp hT hS hg).2 (n+1) rest (by simp at hn; omega) hr) hm
    have h6 : ∃ k r, kws ++ ts = .lower k :: .equal :: r := by
      by_cases e : kws = []
      · subst e; exact kwarg_head hg
      · obtain ⟨k, r, rfl⟩ := kwItems_head hk e; exact ⟨_, _, rfl⟩
    obtain ⟨k, r, h6⟩ := h6
    have h7 : kws ++ (ts ++ rest) = .lower k :: .equal :: (r ++ rest) := by
      rw [← List.append_assoc, h6]; rfl
    have h8 : FreeKeyword sym (kws ++ (ts ++ rest)) := by
      intro k' r' e
      refine hf k' r ?_
      rw [h7] at e
      injection e with e
      rw [h6, e]
    rw [parseDatashapeN]
    refine call_fails hc _ _ (.inr ⟨(a, l), ?_, ⟨hb, rfl⟩⟩)
    rw [h4, argLoop, kwArg h8 h7]
    simp only [bind, Except.bind, h5]
    rfl
  | arg _ ih =>
    intro n hn
    simp [parseTypeArg, bind, Except.bind, ih n hn]
  | @list pre s rest c hp _ ih =>
    intro n hn
    have h4 := list_error (msg := .uniform (py"datashape")) hp (n := n+1) (by simp at hn; omega) (items _) false (ih n (by simp at hn; omega))
    rw [parseTypeArg, ds_lbrack]
    simp [bind, Except.bind, h4]
  | @noElements rest hr hl hb =>
    intro n hn
    have h1 : ∀ msg, parseList none (parseDatashapeN sym none (n+1)) msg false rest = .ok (none, rest) := fun _ => parseList_none (hr.dsN n)
    obtain ⟨h2, h3, h4⟩ := not_literal hl
    rw [parseTypeArg, ds_lbrack]
    simp [bind, Except.bind, h1, parseList_none h2, parseList_none h3, parseList_none h4, hb, raiseAt, Complaint.msg]
  | @afterListItem pre ts rest t hp hg hr hc hb =>
    intro n hn
    obtain ⟨l, h4⟩ := list_last (msg := .uniform (py"datashape")) hp (n := n+1) (by simp at hn; omega) (items _) false
      ((comp hT hS hg).2 (n+1) rest (by simp at hn; omega) hr) hc
    rw [parseTypeArg, ds_lbrack]
    simp [bind, Except.bind, h4, hb, raiseAt, Complaint.msg]
  | @noListItem pre rest hp hne hr =>
    intro n hn
    have h4 := list_trailing (msg := .uniform (py"datashape")) hp (n := n+1) (by simp at hn; omega) (items _) hne (hr.dsN n)
    rw [parseTypeArg, ds_lbrack]
    simp [bind, Except.bind, h4, Complaint.msg]
  | @afterLiterals l rest hl hs hc hb =>
    intro n hn
    rw [parseTypeArg, ds_lbrack]
    obtain ⟨hne, ⟨_ | ⟨a, is⟩, rfl⟩ | ⟨_ | ⟨a, is⟩, rfl⟩ | ⟨_ | ⟨a, is⟩, rfl⟩⟩ := hl
    · simp at hne
    · have e' : ((a :: is).map Lit.int).map Lit.tok = (a :: is).map Tk.int := by simp [Lit.tok, Function.comp_def]
      have h1 := lits_not (msg := .uniform (py"datashape")) Tk.int (parseDatashapeN sym none (n+1)) a rest (fun r h => Nothing.dsN (.int (by
        rcases h with h | h
        · rw [h]
          exact fun e => hs (.int (is.getLast?.getD a)) .star (by rw [e', List.getLast?_map, List.getLast?_cons]; rfl) e .int
        · simp [h])) n) is
      obtain ⟨r, h2⟩ := (lits_parse (msg := .uniform (py"integer")) Tk.int Lit.int (parseInteger none) (fun a r => by simp [parseInteger, bind, Except.bind]) rest a is).1 hc
      rw [e']
      simp only [bind, Except.bind, advance_none, h1, h2]
      simp [hb, raiseAt, Complaint.msg]
    · simp at hne
    · have e' : ((a :: is).map Lit.str).map Lit.tok = (a :: is).map Tk.str := by simp [Lit.tok, Function.comp_def]
      have h1 := lits_not (msg := .uniform (py"datashape")) Tk.str (parseDatashapeN sym none (n+1)) a rest (fun r h => Nothing.dsN .str n) is
      have h2 := lits_not (msg := .uniform (py"integer")) Tk.str (parseInteger none) a rest (fun r h => rfl) is
      obtain ⟨r, h3⟩ := (lits_parse (msg := .uniform (py"string")) Tk.str Lit.str (parseString none) (fun a r => by simp [parseString, bind, Except.bind]) rest a is).1 hc
      rw [e']
      simp only [bind, Except.bind, advance_none, h1, h2, h3]
      simp [hb, raiseAt, Complaint.msg]
    · simp at hne
    · have e' : ((a :: is).map Lit.bool).map Lit.tok = (a :: is).map Tk.bool := by simp [Lit.tok, Function.comp_def]
      have h1 := lits_not (msg := .uniform (py"datashape")) Tk.bool (parseDatashapeN sym none (n+1)) a rest (fun r h => Nothing.dsN .bool n) is
      have h2 := lits_not (msg := .uniform (py"integer")) Tk.bool (parseInteger none) a rest (fun r h => rfl) is
      have h3 := lits_not (msg := .uniform (py"string")) Tk.bool (parseString none) a rest (fun r h => rfl) is
      obtain ⟨r, h4⟩ := (lits_parse (msg := .uniform (py"boolean")) Tk.bool Lit.bool (parseBoolean none) (fun a r => by simp [parseBoolean, bind, Except.bind]) rest a is).1 hc
      rw [e']
      simp only [bind, Except.bind, advance_none, h1, h2, h3, h4]
      simp [hb, raiseAt, Complaint.msg]
  | @noLiteral l x rest hl hx hy =>
    intro n hn
    rw [parseTypeArg, ds_lbrack]
    obtain ⟨hne, ⟨_ | ⟨a, is⟩, rfl⟩ | ⟨_ | ⟨a, is⟩, rfl⟩ | ⟨_ | ⟨a, is⟩, rfl⟩⟩ := hl
    · simp at hne
    · have hkind : (Complaint.mixedList (literalKind x)).msg = .uniform (py"integer") := by
        obtain ⟨v, -, rfl⟩ := List.mem_map.1 hx
        rfl
      have e' : ((a :: is).map Lit.int).map Lit.tok = (a :: is).map Tk.int := by simp [Lit.tok, Function.comp_def]
      have h0 : parseInteger none rest = .ok (none, rest) := by
        unfold parseInteger; split
        · exact absurd ⟨by simp, .inl ⟨a :: is ++ [_], by simp; rfl⟩⟩ (hy (.int _) rfl)
        · rfl
      have h1 := lits_not (msg := .uniform (py"datashape")) Tk.int (parseDatashapeN sym none (n+1)) a (.comma :: rest) (fun r h => Nothing.dsN (.int (by
        rcases h with h | h <;> simp [h])) n) is
      have h2 := (lits_parse (msg := .uniform (py"integer")) Tk.int Lit.int (parseInteger none) (fun a r => by simp [parseInteger, bind, Except.bind]) rest a is).2 _ h0
      rw [e']
      simp only [bind, Except.bind, advance_none, h1, h2, hkind]
    · simp at hne
    · have hkind : (Complaint.mixedList (literalKind x)).msg = .uniform (py"string") := by
        obtain ⟨v, -, rfl⟩ := List.mem_map.1 hx
        rfl
      have e' : ((a :: is).map Lit.str).map Lit.tok = (a :: is).map Tk.str := by simp [Lit.tok, Function.comp_def]
      have h0 : parseString none rest = .ok (none, rest) := by
        unfold parseString; split
        · exact absurd ⟨by simp, .inr (.inl ⟨a :: is ++ [_], by simp; rfl⟩)⟩ (hy (.str _) rfl)
        · rfl
      have h1 := lits_not (msg := .uniform (py"datashape")) Tk.str (parseDatashapeN sym none (n+1)) a (.comma :: rest) (fun r h => Nothing.dsN .str n) is
      have h2 := lits_not (msg := .uniform (py"integer")) Tk.str (parseInteger none) a (.comma :: rest) (fun r h => rfl) is
      have h3 := (lits_parse (msg := .uniform (py"string")) Tk.str Lit.str (parseString none) (fun a r => by simp [parseString, bind, Except.bind]) rest a is).2 _ h0
      rw [e']
      simp only [bind, Except.bind, advance_none, h1, h2, h3, hkind]
    · simp at hne
    · have hkind : (Complaint.mixedList (literalKind x)).msg = .uniform (py"boolean") := by
        obtain ⟨v, -, rfl⟩ := List.mem_map.1 hx
        rfl
      have e' : ((a :: is).map Lit.bool).map Lit.tok = (a :: is).map Tk.bool := by simp [Lit.tok, Function.comp_def]
      have h0 : parseBoolean none rest = .ok (none, rest) := by
        unfold parseBoolean; split
        · exact absurd ⟨by simp, .inr (.inr ⟨a :: is ++ [_], by simp; rfl⟩)⟩ (hy (.bool _) rfl)
        · rfl
      have h1 := lits_not (msg := .uniform (py"datashape")) Tk.bool (parseDatashapeN sym none (n+1)) a (.comma :: rest) (fun r h => Nothing.dsN .bool n) is
      have h2 := lits_not (msg := .uniform (py"integer")) Tk.bool (parseInteger none) a (.comma :: rest) (fun r h => rfl) is
      have h3 := lits_not (msg := .uniform (py"string")) Tk.bool (parseString none) a (.comma :: rest) (fun r h => rfl) is
      have h4 := (lits_parse (msg := .uniform (py"boolean")) Tk.bool Lit.bool (parseBoolean none) (fun a r => by simp [parseBoolean, bind, Except.bind]) rest a is).2 _ h0
      rw [e']
      simp only [bind, Except.bind, advance_none, h1, h2, h3, h4, hkind]

theorem WrongText.fails (hT : sym.Truthy) (hS : sym.Sep) {s rest : List Tk} {c : Complaint} (hw : WrongText sym s rest c) :
    parseToks sym none s = .error (.tok rest.length c.msg) := by
  unfold parseToks
  split
  · rename_i h; cases h
  cases hw with
  | inside h => rw [show parseDatashape sym none _ = _ from h.fails hT hS _ (Nat.le_refl _)]; rfl
  | nothing h => rw [show parseDatashape sym none _ = _ from h.dsN _]; rfl
  | option h => rw [show parseDatashape sym none (.qmark :: rest) = _ from h.dsQ _]; rfl
  | @more ts rest t hg hb hne =>
    rw [show parseDatashape sym none (ts ++ rest) = _ from (comp hT hS hg).2 _ rest (by simp; omega) hb]
    cases rest with
    | nil => exact absurd rfl hne
    | cons a r => rfl

/-- the offset that the parser reports, in terms of the tokens before and after -/
theorem errPos_between (l : List Token) (k : Nat) : errPos l k = offsetBetween (l.take (l.length - k)) (l.drop (l.length - k)) := by
  simp only [errPos, offsetBetween, List.head?_drop]
  cases ht : l[l.length - k]? with
  | some t => rfl
  | none =>
    have : l.take (l.length - k) = l := List.take_of_length_le (by simpa using ht)
    rw [this]
    cases l.getLast? <;> rfl

/-- **C72.** A syntax error is at the first token that cannot come where it does: at its first character, or, at the end of the
text, after the last token. -/
theorem C72.position (hT : sym.Truthy) (hS : sym.Sep) (text : Str) (before after : List Token)
    (hx : Lexed 0 text (before ++ after))
    (c : Complaint) (hw : WrongText sym ((before ++ after).map (·.tk)) (after.map (·.tk)) c) :
    parse sym text = .error (.syntax text (offsetBetween before after) c.text) := by
  have hp := hw.fails hT hS
  simp only [parse, (lex_iff text (before ++ after)).2 hx, hp, List.length_map]
  rw [errPos_between, c.msg_text]
  simp

theorem Wrong.suffix {nt : NT} {s rest : List Tk} {c : Complaint} (h : Wrong sym nt s rest c) : rest <:+ s := by
  have app : ∀ {a b c : List Tk}, a <:+ b → a <:+ c ++ b := fun h => h.trans (List.suffix_append _ _)
  have cons : ∀ {a b : List Tk} {t : Tk}, a <:+ b → a <:+ t :: b := fun h => h.trans (List.suffix_cons _ _)
  have rf : ∀ {a : List Tk}, a <:+ a := List.suffix_rfl
  induction h <;>
    first
      | assumption
      | exact cons ‹_›
      | exact cons (cons ‹_›)
      | exact app (cons ‹_›)
      | exact cons (app ‹_›)
      | exact cons (cons (app ‹_›))
      | exact cons (cons (app (app ‹_›)))
      | exact cons (app (cons (cons ‹_›)))
      | exact cons rf
      | exact cons (cons rf)
      | exact cons (cons (cons rf))
      | exact app (cons rf)
      | exact cons (app rf)
      | exact cons (app (app rf))
      | exact cons (app (cons rf))
      | exact cons (app (cons (cons rf)))
      | exact cons (cons (app rf))
      | exact cons (cons (app (app rf)))
      | exact cons (cons (app (app (app rf))))

theorem WrongText.suffix {s rest : List Tk} {c : Complaint} (h : WrongText sym s rest c) : rest <:+ s := by
  cases h with
  | inside h => exact h.suffix
  | nothing _ => exact List.suffix_rfl
  | option _ => exact List.suffix_cons _ _
  | more _ _ _ => exact List.suffix_append _ _

theorem Complaint.msg_inj {c c' : Complaint} (h : c.msg = c'.msg) : c = c' := by
  cases c <;> cases c' <;> simp_all [Complaint.msg]

/-- **C72.** There is one offending token, and one thing that is wrong with it. -/
theorem C72.unique (hT : sym.Truthy) (hS : sym.Sep) {s rest rest' : List Tk} {c c' : Complaint}
    (h : WrongText sym s rest c) (h' : WrongText sym s rest' c') : rest = rest' ∧ c = c' := by
  have e := (h.fails hT hS).symm.trans (h'.fails hT hS)
  injection e with e
  injection e with e1 e2
  refine ⟨?_, Complaint.msg_inj e2⟩
  rw [List.suffix_iff_eq_drop.1 h.suffix, List.suffix_iff_eq_drop.1 h'.suffix, e1]

/-- **C72.** Tokens that are wrong are no datashape: not in the documented grammar, nor with the undocumented skipped tokens. -/
theorem C72.unread (hT : sym.Truthy) (hS : sym.Sep) {s rest : List Tk} {c : Complaint} (h : WrongText sym s rest c) (q : Bool) (t : Ty) :
    ¬ G sym q .datashape s t := fun hg => by
  cases (h.fails hT hS).symm.trans (parseToks_complete hT hS hg)

/-- For `dshape(text)`, with the default symbol table. -/
theorem C72.dshape (env : Env) (disc : List Lit → Except PyErr Ty) (hd : ∀ l, Returns (disc l)) (text : Str)
    (before after : List Token) (hx : Lexed 0 text (before ++ after)) (c : Complaint)
    (hw : WrongText (defaultSym env (DS.dshape env disc) disc) ((before ++ after).map (·.tk)) (after.map (·.tk)) c) :
    DS.dshape env disc text = .error (.syntax text (offsetBetween before after) c.text) := by
  rw [C03.dshape_recursion env disc hd,
    C72.position (defaultSym_truthy env _ disc) (defaultSym_sep env _ disc) text before after hx c hw]

/-- **C72.** If a text consists of tokens, a syntax error of `dshape(text)` in it is at the beginning of a token or after the
last one. -/
theorem C72.boundary (env : Env) (disc : List Lit → Except PyErr Ty) (hd : ∀ l, Returns (disc l))
    (hds : ∀ l tx p m, disc l ≠ .error (.syntax tx p m)) (text : Str) (toks : List Token) (p : Nat) (m : Str) (hx : Lexed 0 text toks)
    (h : DS.dshape env disc text = .error (.syntax text p m)) :
    ∃ before after, toks = before ++ after ∧ p = offsetBetween before after := by
  have hl := (lex_iff text toks).2 hx
  let E : PyErr → Prop := fun e => ∀ q m, e = .syntax text q m → ∃ before after, toks = before ++ after ∧ q = offsetBetween before after
  have hE : CtorOk E := by refine ⟨⟨?_, ?_, ?_⟩, ?_, ?_, ?_, ?_, ?_⟩ <;> simp [E]
  have hN := defaultSym_noFuel (n := text.length) hE env (nest := DS.dshape env disc) (disc := disc)
    (fun u hu e he q m hq => by
      have := (C05.offset env disc hd hds u text q m (hq ▸ he)).2
      rcases this with h | h
      · rw [h] at hu; omega
      · omega)
    (fun l e he q m hq => absurd (hq ▸ he) (hds l text q m))
  have hp := parse_err_at hE.toErrOk hN (defaultSym_truthy env (DS.dshape env disc) disc) text
    (fun e he => by rw [hl] at he; cases he)
    (fun k _ q m hq => by
      rw [hl] at hq
      injection hq with _ hq
      refine ⟨toks.take (toks.length - k), toks.drop (toks.length - k), by simp, ?_⟩
      rw [← hq]
      simp only [errPos, offsetBetween, List.head?_drop]
      cases ht : toks[toks.length - k]? with
      | some t => rfl
      | none =>
        have : toks.take (toks.length - k) = toks := List.take_of_length_le (by simpa using ht)
        rw [this]
        cases toks.getLast? <;> rfl)
    (fun t ht => by
      cases htk : t.tk with
      | str v => exact lex_str text t ht v htk
      | _ => trivial)
  rw [C03.dshape_recursion env disc hd] at h
  split at h
  · split at h <;> cases h
  · rename_i e he
    injection h with h
    exact hp e he p m h

/-- **C72.** There are no other messages than those of the complaints and that of the lexer. -/
theorem C72.messages (env : Env) (disc : List Lit → Except PyErr Ty) (hd : ∀ l, Returns (disc l))
    (hds : ∀ l tx p m, disc l ≠ .error (.syntax tx p m)) (text tx : Str) (p : Nat) (m : Str)
    (h : DS.dshape env disc text = .error (.syntax tx p m)) :
    m = py"Invalid DataShape token" ∨ ∃ c : Complaint, m = c.text := by
  generalize hn : text.length = n
  induction n using Nat.strongRecOn generalizing text tx p m with
  | ind n ih =>
  let E : PyErr → Prop := fun e => ∀ tx q m, e = .syntax tx q m → m = py"Invalid DataShape token" ∨ ∃ c : Complaint, m = c.text
  have hE : CtorOk E := by refine ⟨⟨?_, ?_, ?_⟩, ?_, ?_, ?_, ?_, ?_⟩ <;> simp [E]
  have hN := defaultSym_noFuel (n := text.length) hE env (nest := DS.dshape env disc) (disc := disc)
    (fun u hu e he tx q m hq => ih u.length (by omega) u tx q m (hq ▸ he) rfl)
    (fun l e he tx q m hq => absurd (hq ▸ he) (hds l tx q m))
  have hp := parse_err_at hE.toErrOk hN (defaultSym_truthy env (DS.dshape env disc) disc) text
    (fun e he => by
      rcases lex_err text e he with rfl | ⟨p, hp, rfl⟩
      · exact hE.toErrOk.valueError
      · exact fun _ _ _ hq => by injection hq with _ _ hq; exact .inl hq.symm)
    (fun k m tx q m' hq => by
      injection hq with _ _ hq
      obtain ⟨c, rfl⟩ := m.complaint
      exact .inr ⟨c, by rw [← hq, c.msg_text]⟩)
    (fun t ht => by
      cases htk : t.tk with
      | str v => exact lex_str text t ht v htk
      | _ => trivial)
  rw [C03.dshape_recursion env disc hd] at h
  split at h
  · split at h <;> cases h
  · rename_i e he
    injection h with h
    exact hp e he tx p m h

/-- **C07.** Texts that spell the same tokens have the same result; or both have a syntax error with the same message, at
corresponding places: before the token number `k` in each, or at the end of each. -/
theorem C07.same_tokens (env : Env) (disc : List Lit → Except PyErr Ty) (hd : ∀ l, Returns (disc l)) (s s' : Str)
    (toks toks' : List Token) (h : Lexed 0 s toks) (h' : Lexed 0 s' toks') (he : toks.map (·.tk) = toks'.map (·.tk)) :
    DS.dshape env disc s = DS.dshape env disc s' ∨
    ∃ k m, DS.dshape env disc s = .error (.syntax s (offsetBetween (toks.take k) (toks.drop k)) m) ∧
      DS.dshape env disc s' = .error (.syntax s' (offsetBetween (toks'.take k) (toks'.drop k)) m) := by
  have hlen : toks.length = toks'.length := by simpa using congrArg List.length he
  rw [C03.dshape_recursion env disc hd s, C03.dshape_recursion env disc hd s']
  simp only [parse, (lex_iff s toks).2 h, (lex_iff s' toks').2 h', ← he]
  cases parseToks (defaultSym env (DS.dshape env disc) disc) none (toks.map (·.tk)) with
  | ok t => exact .inl rfl
  | error f =>
    rcases f with ⟨k, m⟩ | e
    · exact .inr ⟨toks.length - k, m.text, by simp only [errPos_between], by simp only [errPos_between, hlen]⟩
    · exact .inl rfl

/-! ### Texts that consist of tokens only up to some place -/

section
variable (env : Env) (disc : List Lit → Except PyErr Ty) (hd : ∀ l, Returns (disc l))

/-- the exception for a failure of the parser -/
def PFail.raised (s : Str) (toks : List Token) : PFail → PyErr
  | .py e => e
  | .tok k m => .syntax s (offsetBetween (toks.take (toks.length - k)) (toks.drop (toks.length - k))) m.text

include hd in
/-- what the parser raises comes out of `dshape` -/
theorem dshape_raises {s : Str} {toks : List Token} {b : Option PyErr} (hl : lex s = (toks, b)) {f : PFail}
    (h : parseToks (defaultSym env (DS.dshape env disc) disc) b (toks.map (·.tk)) = .error f) :
    DS.dshape env disc s = .error (f.raised s toks) := by
  rw [C03.dshape_recursion env disc hd s]
  simp only [parse, hl, h]
  rcases f with ⟨k, m⟩ | e
  · simp only [errPos_between, PFail.raised]
  · rfl

include hd

/-- **C72.** If a text consists of tokens only up to a place where the lexer raises `e`, and those tokens are wrong: `dshape` raises
`e`, or the syntax error that comes before; if what is missing comes after the last token, it raises `e`. -/
theorem C72.broken (text : Str) (before after : List Token) (e : PyErr) (hx : Broken text 0 text (before ++ after) e) (c : Complaint)
    (hw : WrongText (defaultSym env (DS.dshape env disc) disc) ((before ++ after).map (·.tk)) (after.map (·.tk)) c) :
    DS.dshape env disc text = .error e ∨
    (after ≠ [] ∧ DS.dshape env disc text = .error (.syntax text (offsetBetween before after) c.text)) := by
  have hl := (lex_broken_iff text _ e).2 hx
  have hp := hw.fails (defaultSym_truthy env _ disc) (defaultSym_sep env _ disc)
  rcases parseToks_sim (e := e) (e' := e) (sym := defaultSym env (DS.dshape env disc) disc) ((before ++ after).map (·.tk)) with
    ⟨h, -⟩ | ⟨-, h, -, -, h0⟩
  · exact .inl (dshape_raises env disc hd hl h)
  · refine .inr ⟨?_, ?_⟩
    · rintro rfl
      exact h0 _ hp
    · rw [dshape_raises env disc hd hl (h.trans hp)]
      simp [PFail.raised, c.msg_text]

/-- **C64.** If a text `s` consists of tokens only up to a place where the lexer raises `e`, and `s'` is spelled by these tokens:
`dshape(s)` raises `e`, or `dshape(s')` raises, and `dshape(s)` the same; a syntax error is then before one of the tokens. -/
theorem C64.stopped (s s' : Str) (toks toks' : List Token) (e : PyErr) (h : Broken s 0 s toks e) (h' : Lexed 0 s' toks')
    (he : toks.map (·.tk) = toks'.map (·.tk)) :
    DS.dshape env disc s = .error e ∨
    (∃ x, DS.dshape env disc s = .error x ∧ DS.dshape env disc s' = .error x) ∨
    ∃ k m, k < toks.length ∧ DS.dshape env disc s = .error (.syntax s (offsetBetween (toks.take k) (toks.drop k)) m) ∧
      DS.dshape env disc s' = .error (.syntax s' (offsetBetween (toks'.take k) (toks'.drop k)) m) := by
  have hl := (lex_broken_iff s _ e).2 h
  have hl' := (lex_iff s' toks').2 h'
  have hlen : toks.length = toks'.length := by simpa using congrArg List.length he
  rcases parseToks_sim (e := e) (e' := e) (sym := defaultSym env (DS.dshape env disc) disc) (toks.map (·.tk)) with
    ⟨h, -⟩ | ⟨hne, h, -, ⟨f, hf⟩, h0⟩
  · exact .inl (dshape_raises env disc hd hl h)
  · have r := dshape_raises env disc hd hl (h.trans hf)
    have r' := dshape_raises env disc hd hl' (he ▸ hf)
    rcases f with ⟨k, m⟩ | x
    · cases k with
      | zero => exact absurd hf (h0 m)
      | succ k =>
        refine .inr (.inr ⟨_, m.text, ?_, r, hlen ▸ r'⟩)
        have : toks.length ≠ 0 := by simpa using hne
        omega
    · exact .inr (.inl ⟨x, r, r'⟩)

/-- In particular it raises `e` if the tokens are a datashape. -/
theorem C64.stopped_complete (s s' : Str) (toks toks' : List Token) (e : PyErr) (h : Broken s 0 s toks e) (h' : Lexed 0 s' toks')
    (he : toks.map (·.tk) = toks'.map (·.tk)) (t : Ty) (ht : DS.dshape env disc s' = .ok t) : DS.dshape env disc s = .error e := by
  rcases C64.stopped env disc hd s s' toks toks' e h h' he with h | ⟨_, -, h⟩ | ⟨_, _, -, -, h⟩
  · exact h
  · cases ht.symm.trans h
  · cases ht.symm.trans h

/-- **C72.** Mistakes do not go away: if a text consists of the tokens `toks` only up to a place where the lexer raises `e`, `dshape`
raises `e`, or every text that begins with these tokens raises the same exception as this one, or a syntax error with the same
message before the same token. -/
theorem C72.decided (s s' : Str) (toks toks' : List Token) (e : PyErr) (h : Broken s 0 s toks e) (h' : Begins s' toks')
    (he : toks.map (·.tk) = toks'.map (·.tk)) :
    DS.dshape env disc s = .error e ∨
    (∃ x, DS.dshape env disc s = .error x ∧ DS.dshape env disc s' = .error x) ∨
    ∃ k m, k < toks.length ∧ DS.dshape env disc s = .error (.syntax s (offsetBetween (toks.take k) (toks.drop k)) m) ∧
      DS.dshape env disc s' = .error (.syntax s' (offsetBetween (toks'.take k) (toks'.drop k)) m) := by
  have hl := (lex_broken_iff s _ e).2 h
  obtain ⟨more, b, hl'⟩ : ∃ more b, lex s' = (toks' ++ more, b) := by
    obtain ⟨more, h' | ⟨e', h'⟩⟩ := h'
    · exact ⟨more, _, (lex_iff s' _).2 h'⟩
    · exact ⟨more, _, (lex_broken_iff s' _ e').2 h'⟩
  have hlen : toks.length = toks'.length := by simpa using congrArg List.length he
  rcases parseToks_sim (e := .fuel) (e' := e) (sym := defaultSym env (DS.dshape env disc) disc) (toks.map (·.tk)) with
    ⟨-, h⟩ | ⟨hne, h, h', ⟨f, hf⟩, h0⟩
  · exact .inl (dshape_raises env disc hd hl h)
  · right
    have r := dshape_raises env disc hd hl (h'.trans hf)
    rcases parseToks_prefix (sym := defaultSym env (DS.dshape env disc) disc) (toks.map (·.tk)) (more.map (·.tk)) b with
      g | ⟨k, m, g, g'⟩ | ⟨x, g, g'⟩
    · have := (h.trans hf).symm.trans g
      injection this with this
      subst this
      exact absurd r (C03.dshape env disc hd s)
    · have := (h.trans hf).symm.trans g
      injection this with this
      subst this
      have r' := dshape_raises env disc hd hl' (by rw [List.map_append, ← he]; exact g')
      cases k with
      | zero => exact absurd hf (h0 m)
      | succ k =>
        right
        have hpos : toks.length ≠ 0 := by simpa using hne
        refine ⟨_, m.text, ?_, r, ?_⟩
        · omega
        · have hk : (toks' ++ more).length - (k + 1 + (more.map (·.tk)).length) = toks.length - (k + 1) := by simp; omega
          rw [r', PFail.raised, hk]
          have h1 : toks.length - (k + 1) < toks'.length := by omega
          simp only [offsetBetween, List.head?_drop, List.getElem?_append_left h1, List.getElem?_eq_getElem h1]
    · have := (h.trans hf).symm.trans g
      injection this with this
      subst this
      exact .inl ⟨x, r, dshape_raises env disc hd hl' (f := .py x) (by rw [List.map_append, ← he]; exact g')⟩

/-- In particular no text that begins with these tokens is a datashape then. -/
theorem C72.hopeless (s s' : Str) (toks toks' : List Token) (e : PyErr) (h : Broken s 0 s toks e) (h' : Begins s' toks')
    (he : toks.map (·.tk) = toks'.map (·.tk)) (hne : DS.dshape env disc s ≠ .error e) (t : Ty) : DS.dshape env disc s' ≠ .ok t := by
  intro ht
  rcases C72.decided env disc hd s s' toks toks' e h h' he with h | ⟨_, -, h⟩ | ⟨_, _, -, -, h⟩
  · exact hne h
  · cases ht.symm.trans h
  · cases ht.symm.trans h

/-- **C07.** Texts that consist of the same tokens up to a place where no token is: each raises the exception of its lexer, or both
raise the same exception, or a syntax error with the same message before the same token. -/
theorem C07.same_broken (s s' : Str) (toks toks' : List Token) (e e' : PyErr) (h : Broken s 0 s toks e) (h' : Broken s' 0 s' toks' e')
    (he : toks.map (·.tk) = toks'.map (·.tk)) :
    (DS.dshape env disc s = .error e ∧ DS.dshape env disc s' = .error e') ∨
    (∃ x, DS.dshape env disc s = .error x ∧ DS.dshape env disc s' = .error x) ∨
    ∃ k m, k < toks.length ∧ DS.dshape env disc s = .error (.syntax s (offsetBetween (toks.take k) (toks.drop k)) m) ∧
      DS.dshape env disc s' = .error (.syntax s' (offsetBetween (toks'.take k) (toks'.drop k)) m) := by
  have hl := (lex_broken_iff s _ e).2 h
  have hl' := (lex_broken_iff s' _ e').2 h'
  have hlen : toks.length = toks'.length := by simpa using congrArg List.length he
  rcases parseToks_sim (e := e) (e' := e') (sym := defaultSym env (DS.dshape env disc) disc) (toks.map (·.tk)) with
    ⟨h, h'⟩ | ⟨hne, h, h', ⟨f, hf⟩, h0⟩
  · exact .inl ⟨dshape_raises env disc hd hl h, dshape_raises env disc hd hl' (f := .py e') (he ▸ h')⟩
  · have r := dshape_raises env disc hd hl (h.trans hf)
    have r' := dshape_raises env disc hd hl' (he ▸ (h'.trans hf))
    rcases f with ⟨k, m⟩ | x
    · cases k with
      | zero => exact absurd hf (h0 m)
      | succ k =>
        refine .inr (.inr ⟨_, m.text, ?_, r, hlen ▸ r'⟩)
        have : toks.length ≠ 0 := by simpa using hne
        omega
    · exact .inr (.inl ⟨x, r, r'⟩)

end

/-- `int32` in the default table -/
theorem g_int32 (env : Env) (nest : Str → Except PyErr Ty) (disc : List Lit → Except PyErr Ty) :
    G (defaultSym env nest disc) false .datashape [.lower (py"int32")] (.dshape [tInt32]) :=
  .plain (.dtype (.name rfl) rfl)

/-- In `3 * {x: int32, y int32}` the colon is missing: the error is at the second `int32`; in `(int32, [` at the bracket; in
`int32 * 3` at the star; in `string[3, 'A' int32]` at `int32`; in `var *` at the end; in `fixed[3 {` at the brace. -/
theorem C72.example (env : Env) (nest : Str → Except PyErr Ty) (disc : List Lit → Except PyErr Ty) :
    let sym := defaultSym env nest disc
    (WrongText sym [.int 3, .star, .lbrace, .lower (py"x"), .colon, .lower (py"int32"), .comma, .lower (py"y"),
      .lower (py"int32"), .rbrace] [.lower (py"int32"), .rbrace] .noColon) ∧
    parse sym (py"3 * {x: int32, y int32}") = .error (.syntax (py"3 * {x: int32, y int32}") 17
      (py"Expected a \":\" separating the field name from its datashape")) ∧
    WrongText sym [.lparen, .lower (py"int32"), .comma, .lbrack] [.lbrack] .badItem ∧
    parse sym (py"(int32, [") = .error (.syntax (py"(int32, [") 8 (py"Invalid datashape in tuple")) ∧
    WrongText sym [.lower (py"int32"), .star, .int 3] [.star, .int 3] .tooMuch ∧
    parse sym (py"int32 * 3") = .error (.syntax (py"int32 * 3") 6 (py"Unexpected token in datashape")) ∧
    WrongText sym [.lower (py"string"), .lbrack, .int 3, .comma, .str (py"A"), .lower (py"int32"), .rbrack]
      [.lower (py"int32"), .rbrack] .badArgument ∧
    parse sym (py"string[3, 'A' int32]") = .error (.syntax (py"string[3, 'A' int32]") 14
      (py"Invalid type constructor argument")) ∧
    WrongText sym [.lower (py"var"), .star] [] .noElement ∧
    parse sym (py"var *") = .error (.syntax (py"var *") 5 (py"Expected a dim or a dtype")) ∧
    WrongText sym [.lower (py"fixed"), .lbrack, .int 3, .lbrace] [.lbrace] .openDimension ∧
    parse sym (py"fixed[3 {") = .error (.syntax (py"fixed[3 {") 8 (py"Expected a closing \"]\"")) := by
  intro sym
  have gi := g_int32 env nest disc
  refine ⟨?_, rfl, ?_, rfl, ?_, rfl, ?_, rfl, ?_, rfl, ?_, rfl⟩
  · exact .inside (.dim (ds := [.int 3]) (d := .fixed 3) (.int rfl rfl) (.struct
      (pre := [.lower (py"x"), .colon, .lower (py"int32"), .comma])
      (.cons (ts := [.lower (py"x"), .colon, .lower (py"int32")]) (.field .lower gi) .nil) (.noColon .lower (by simp))))
  · exact .inside (.noItem (pre := [.lower (py"int32"), .comma]) (.cons (ts := [.lower (py"int32")]) gi .nil)
      (.symbol (by simp)) (by simp))
  · exact .more (ts := [.lower (py"int32")]) gi (by
      intro a t h1 h2 hf
      cases h1; cases h2; cases hf) (by simp)
  · exact .inside (.afterArgument (pre := [.int 3, .comma]) (ts := [.str (py"A")]) (a := .lit (.str (py"A"))) (.type ⟨rfl, rfl⟩)
      (.cons (ts := [.int 3]) (v := .lit (.int 3)) (.argLit (j := []) (l := .int 3) .none) .nil)
      (.argLit (j := []) (l := .str (py"A")) .none) (by
        intro a t h1 h2 hf
        cases h1; cases h2; cases hf) (by simp) (by simp))
  · exact .inside (.noElement (ds := [.lower (py"var")]) (d := .var) (.name rfl) .finished)
  · exact .inside (.afterArgument (pre := []) (ts := [.int 3]) (a := .lit (.int 3)) (.dim rfl) .nil
      (.argLit (j := []) (l := .int 3) .none) (by
        intro a t h1 h2 hf
        cases h1; cases h2; cases hf) (by simp) (by simp))

/-- `3*{x int32}` and the same with blanks and a comment: the error is at `int32` in both. -/
example (env : Env) (nest : Str → Except PyErr Ty) (disc : List Lit → Except PyErr Ty) :
    let sym := defaultSym env nest disc
    (lex (py"3*{x int32}")).1.map (·.tk) = (lex (py" 3 *\n{ x # name\n int32 }")).1.map (·.tk) ∧
    parse sym (py"3*{x int32}") = .error (.syntax (py"3*{x int32}") 5
      (py"Expected a \":\" separating the field name from its datashape")) ∧
    parse sym (py" 3 *\n{ x # name\n int32 }") = .error (.syntax (py" 3 *\n{ x # name\n int32 }") 17
      (py"Expected a \":\" separating the field name from its datashape")) := ⟨rfl, rfl, rfl⟩

/-- `var * !`: no token begins at the `!`, and before it a type is missing, so the error is that of the lexer; `{x int32 !`: the
parser has found the missing colon before it; `int32 3 !` is `int32 3` with a `!`, where the parser stops at `3`. -/
example (env : Env) (nest : Str → Except PyErr Ty) (disc : List Lit → Except PyErr Ty) :
    let sym := defaultSym env nest disc
    Broken (py"var * !") 0 (py"var * !") [⟨.lower (py"var"), 0, 3⟩, ⟨.star, 4, 5⟩] (.syntax (py"var * !") 6 (py"Invalid DataShape token")) ∧
    WrongText sym [.lower (py"var"), .star] [] .noElement ∧
    parse sym (py"var * !") = .error (.syntax (py"var * !") 6 (py"Invalid DataShape token")) ∧
    parse sym (py"{x int32 !") = .error (.syntax (py"{x int32 !") 3
      (py"Expected a \":\" separating the field name from its datashape")) ∧
    parse sym (py"int32 !") = .error (.syntax (py"int32 !") 6 (py"Invalid DataShape token")) ∧
    parse sym (py"int32 3 !") = .error (.syntax (py"int32 3 !") 6 (py"Unexpected token in datashape")) :=
  ⟨(lex_broken_iff _ _ _).1 rfl, .inside (.noElement (ds := [.lower (py"var")]) (d := .var) (.name rfl) .finished), rfl, rfl, rfl, rfl⟩

/-- `{x int32 !` is hopeless; `{x int32; 3` and `{x int32, y: var * string} -> ` begin with its tokens and have the same error. -/
example (env : Env) (nest : Str → Except PyErr Ty) (disc : List Lit → Except PyErr Ty) :
    let sym := defaultSym env nest disc
    let toks : List Token := [⟨.lbrace, 0, 1⟩, ⟨.lower (py"x"), 1, 2⟩, ⟨.lower (py"int32"), 3, 8⟩]
    let e := PyErr.syntax (py"{x int32 !") 9 (py"Invalid DataShape token")
    Broken (py"{x int32 !") 0 (py"{x int32 !") toks e ∧ parse sym (py"{x int32 !") ≠ .error e ∧
    Begins (py"{x int32; 3") toks ∧
    parse sym (py"{x int32; 3") = .error (.syntax (py"{x int32; 3") 3
      (py"Expected a \":\" separating the field name from its datashape")) ∧
    Begins (py"{x int32, y: var * string} ->") toks ∧
    parse sym (py"{x int32, y: var * string} ->") = .error (.syntax (py"{x int32, y: var * string} ->") 3
      (py"Expected a \":\" separating the field name from its datashape")) := by
  refine ⟨(lex_broken_iff _ _ _).1 rfl, ?_, ⟨[], .inr ⟨_, (lex_broken_iff _ _ _).1 rfl⟩⟩, rfl,
    ⟨(lex (py"{x int32, y: var * string} ->")).1.drop 3, .inl ((lex_iff _ _).1 rfl)⟩, rfl⟩
  rw [show parse (defaultSym env nest disc) (py"{x int32 !") = .error (.syntax (py"{x int32 !") 3
    (py"Expected a \":\" separating the field name from its datashape")) from rfl]
  intro h
  cases h

end DS
