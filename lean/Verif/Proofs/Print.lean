import Verif.Proofs.Layout
import Verif.Proofs.Numeral
import Verif.Spec.Printable

/-
What the printed text lexes to: text as a sequence of white space and tokens, independent of line breaks.
-/
namespace DS

/-- `Lay s ks`: the text `s` consists of white space and spellings of the tokens `ks`. -/
inductive Lay : Str → List Tk → Prop where
  | nil : Lay [] []
  | sp {c r ks} : isSpace c = true → Lay r ks → Lay (c :: r) ks
  | tok {w r k ks} : Spells w k → Munch k r → Lay r ks → Lay (w ++ r) (k :: ks)

/-- text that cannot extend a token in front of it -/
def Soft (s : Str) : Prop := ∀ c, s.head? = some c → isWord c = false

theorem isDigit_isWord {c : Nat} (h : isWord c = false) : isDigit c = false := by
  simp [isWord] at h; exact h.1.2

theorem Soft.nil : Soft [] := by simp [Soft]
theorem Soft.cons {c : Nat} {s : Str} (h : isWord c = false) : Soft (c :: s) := by simpa [Soft] using h

theorem Soft.append {a b : Str} (ha : Soft a) (hb : Soft b) : Soft (a ++ b) := by
  cases a with
  | nil => exact hb
  | cons c a => exact ha

theorem Munch.append {k : Tk} {r s : Str} (h : Munch k r) (hs : Soft s) : Munch k (r ++ s) := by
  cases r with
  | nil => cases k <;> simp_all [Munch, Soft]; exact fun c hc => isDigit_isWord (hs c hc)
  | cons c r => cases k <;> simpa [Munch] using h

theorem Lay.append {a b : Str} {ks ls : List Tk} (h : Lay a ks) (h' : Lay b ls) (hs : Soft b) : Lay (a ++ b) (ks ++ ls) := by
  induction h with
  | nil => exact h'
  | sp hc _ ih => exact .sp hc ih
  | tok hw hm _ ih => rw [List.append_assoc]; exact .tok hw (hm.append hs) ih

theorem Lay.lexed {s : Str} {ks : List Tk} (h : Lay s ks) : ∀ n, ∃ toks, Lexed n s toks ∧ toks.map (·.tk) = ks := by
  induction h with
  | nil => exact fun n => ⟨[], .done .nil, rfl⟩
  | sp hc _ ih =>
    intro n
    obtain ⟨toks, h, e⟩ := ih (n + 1)
    exact ⟨toks, h.leading (g := [_]) (.space hc .nil) rfl, e⟩
  | tok hw hm _ ih =>
    rename_i w r k ks _
    intro n
    obtain ⟨toks, h, e⟩ := ih (n + w.length)
    exact ⟨_, .tok (g := []) .nil hw hm (by simpa using h), by simp [e]⟩

theorem Lay.lex {s : Str} {ks : List Tk} (h : Lay s ks) : ∃ toks, lex s = (toks, none) ∧ toks.map (·.tk) = ks := by
  obtain ⟨toks, h, e⟩ := h.lexed 0
  exact ⟨toks, (lex_iff _ _).2 h, e⟩

/-! ### Single tokens -/

theorem Lay.one {w : Str} {k : Tk} (h : Spells w k) (hm : Munch k []) : Lay w [k] := by
  have := Lay.tok h hm .nil
  simpa using this

/-- a token of one punctuation character -/
theorem Lay.punct {c : Nat} {k : Tk} {r : Str} {ks : List Tk} (h : Spells [c] k) (hm : ∀ r, Munch k r) (hr : Lay r ks) :
    Lay (c :: r) (k :: ks) := Lay.tok (w := [c]) h (hm r) hr

theorem Lay.comma {r ks} (h : Lay r ks) : Lay (44 :: r) (.comma :: ks) := .punct rfl (fun _ => trivial) h
theorem Lay.star {r ks} (h : Lay r ks) : Lay (42 :: r) (.star :: ks) := .punct rfl (fun _ => trivial) h
theorem Lay.equal {r ks} (h : Lay r ks) : Lay (61 :: r) (.equal :: ks) := .punct rfl (fun _ => trivial) h
theorem Lay.colon {r ks} (h : Lay r ks) : Lay (58 :: r) (.colon :: ks) := .punct rfl (fun _ => trivial) h
theorem Lay.lbrack {r ks} (h : Lay r ks) : Lay (91 :: r) (.lbrack :: ks) := .punct rfl (fun _ => trivial) h
theorem Lay.rbrack {r ks} (h : Lay r ks) : Lay (93 :: r) (.rbrack :: ks) := .punct rfl (fun _ => trivial) h
theorem Lay.lbrace {r ks} (h : Lay r ks) : Lay (123 :: r) (.lbrace :: ks) := .punct rfl (fun _ => trivial) h
theorem Lay.rbrace {r ks} (h : Lay r ks) : Lay (125 :: r) (.rbrace :: ks) := .punct rfl (fun _ => trivial) h
theorem Lay.lparen {r ks} (h : Lay r ks) : Lay (40 :: r) (.lparen :: ks) := .punct rfl (fun _ => trivial) h
theorem Lay.rparen {r ks} (h : Lay r ks) : Lay (41 :: r) (.rparen :: ks) := .punct rfl (fun _ => trivial) h
theorem Lay.qmark {r ks} (h : Lay r ks) : Lay (63 :: r) (.qmark :: ks) := .punct rfl (fun _ => trivial) h
theorem Lay.space {r ks} (h : Lay r ks) : Lay (32 :: r) ks := .sp rfl h
theorem Lay.newline {r ks} (h : Lay r ks) : Lay (10 :: r) ks := .sp rfl h

/-- a lower-case name -/
theorem Lay.lower {w r : Str} {ks : List Tk} (hw : Word isLower w) (hs : Soft r) (h : Lay r ks) :
    Lay (w ++ r) (.lower w :: ks) := .tok ⟨rfl, hw⟩ hs h

theorem word_of {start : Nat → Bool} {c : Nat} {r : Str} (hc : start c = true) (hr : r.all isWord = true) :
    Word start (c :: r) := ⟨c, r, rfl, hc, by simpa using hr⟩

theorem prefix_of {p s : Str} (h : p.isPrefixOf s = false) : ¬ p <+: s := by
  intro h'
  rw [← List.isPrefixOf_iff_prefix] at h'
  rw [h] at h'; cases h'

/-- a name of a type variable -/
theorem Lay.upper {s r : Str} {ks : List Tk} (hn : typeVarName s = true) (hs : Soft r) (h : Lay r ks) :
    Lay (s ++ r) (.upper s :: ks) := by
  cases s with
  | nil => cases hn
  | cons c s =>
    simp only [typeVarName, Bool.and_eq_true, Bool.not_eq_true', startsBool, Bool.or_eq_false_iff] at hn
    exact .tok ⟨rfl, word_of hn.1.1 hn.1.2⟩ ⟨hs, prefix_of hn.2.1, prefix_of hn.2.2⟩ h

theorem Lay.int {i : Int} {r : Str} {ks : List Tk} (hs : Soft r) (h : Lay r ks) : Lay (intStr i ++ r) (.int i :: ks) :=
  .tok rfl (fun c hc => isDigit_isWord (hs c hc)) h

theorem Lay.bool {b : Bool} {r : Str} {ks : List Tk} (h : Lay r ks) : Lay (boolStr b ++ r) (.bool b :: ks) := by
  cases b <;> exact .tok rfl trivial h

/-! ### String literals -/

theorem hexDigit_ok {n : Nat} (h : n < 16) : isHex (hexDigit n) = true ∧ hexVal (hexDigit n) = n := by
  have : n = 0 ∨ n = 1 ∨ n = 2 ∨ n = 3 ∨ n = 4 ∨ n = 5 ∨ n = 6 ∨ n = 7 ∨ n = 8 ∨ n = 9 ∨ n = 10 ∨ n = 11 ∨ n = 12 ∨
      n = 13 ∨ n = 14 ∨ n = 15 := by omega
  rcases this with rfl | rfl | rfl | rfl | rfl | rfl | rfl | rfl | rfl | rfl | rfl | rfl | rfl | rfl | rfl | rfl <;> decide

theorem reprQuote_or (s : Str) : reprQuote s = 34 ∨ reprQuote s = 39 := by
  unfold reprQuote; split <;> simp

theorem strBody_append {q : Nat} {a b v w : Str} (h : StrBody q a v) (h' : StrBody q b w) : StrBody q (a ++ b) (v ++ w) := by
  induction h with
  | nil => exact h'
  | raw h1 h2 h3 h4 h5 h6 _ ih => exact .raw h1 h2 h3 h4 h5 h6 ih
  | hex ha hb hc hd _ ih => exact .hex ha hb hc hd ih
  | esc he _ ih => exact .esc he ih

theorem reprChar_body {env : Env} {q c : Nat} (hq : q = 34 ∨ q = 39) (hc : spelledChar env c = true) :
    StrBody q (reprChar env q c) [c] := by
  have esc : ∀ e x, (e, x) ∈ [(q, q), (98, 8), (102, 12), (110, 10), (114, 13), (116, 9)] → StrBody q [92, e] [x] :=
    fun e x h => .esc h .nil
  unfold spelledChar at hc
  unfold reprChar
  by_cases h1 : c = q
  · rw [if_pos (.inl h1), h1]; exact esc q q (by simp)
  by_cases h2 : c = 92
  · subst h2; simp at hc
  rw [if_neg (by simp [h1, h2])]
  by_cases h9 : c = 9
  · rw [if_pos h9, h9]; exact esc _ _ (by simp)
  rw [if_neg h9]
  by_cases h10 : c = 10
  · rw [if_pos h10, h10]; exact esc _ _ (by simp)
  rw [if_neg h10]
  by_cases h13 : c = 13
  · rw [if_pos h13, h13]; exact esc _ _ (by simp)
  rw [if_neg h13]
  by_cases hlt : c < 127
  · simp only [hlt, ite_true, Bool.or_eq_true, beq_iff_eq, Bool.and_eq_true, decide_eq_true_eq] at hc
    have h32 : 32 ≤ c := by omega
    rw [if_neg (by omega), if_pos hlt]
    exact .raw h1 h10 h13 h2 (by omega) (by omega) .nil
  · simp only [hlt, ite_false, Bool.and_eq_true, bne_iff_ne] at hc
    rw [if_neg (by omega), if_neg hlt]
    cases hp : env.printable c with
    | true =>
      simp only [hp, ite_true, Bool.not_eq_true', Bool.and_eq_false_iff, decide_eq_false_iff_not] at hc
      simp only [ite_true]
      exact .raw h1 h10 h13 h2 (by omega) (by omega) .nil
    | false =>
      simp only [hp, Bool.false_eq_true, ite_false, Bool.and_eq_true, decide_eq_true_eq] at hc
      simp only [Bool.false_eq_true, ite_false]
      rw [if_neg (by omega), if_pos hc.2.2]
      have e : hexStr 4 c = [hexDigit (c / 16 / 16 / 16 % 16), hexDigit (c / 16 / 16 % 16), hexDigit (c / 16 % 16), hexDigit (c % 16)] := by
        simp [hexStr]
      rw [e]
      have h1 := hexDigit_ok (n := c / 16 / 16 / 16 % 16) (by omega)
      have h2 := hexDigit_ok (n := c / 16 / 16 % 16) (by omega)
      have h3 := hexDigit_ok (n := c / 16 % 16) (by omega)
      have h4 := hexDigit_ok (n := c % 16) (by omega)
      have := StrBody.hex (q := q) (hexDigit_iff.2 h1) (hexDigit_iff.2 h2) (hexDigit_iff.2 h3) (hexDigit_iff.2 h4) .nil
      have ev : 4096 * (c / 16 / 16 / 16 % 16) + 256 * (c / 16 / 16 % 16) + 16 * (c / 16 % 16) + c % 16 = c := by omega
      rw [ev] at this
      exact this

theorem repr_body {env : Env} {q : Nat} (hq : q = 34 ∨ q = 39) {s : Str} (hs : spelledStr env s = true) :
    StrBody q (s.flatMap (reprChar env q)) s := by
  induction s with
  | nil => exact .nil
  | cons c s ih =>
    simp only [spelledStr, List.all_cons, Bool.and_eq_true] at hs
    rw [List.flatMap_cons]
    exact strBody_append (v := [c]) (reprChar_body hq hs.1) (ih hs.2)

/-- `repr` of a spelled string is a string token with that value -/
theorem spells_repr {env : Env} {s : Str} (hs : spelledStr env s = true) : Spells (pyRepr env s) (.str s) :=
  ⟨reprQuote s, _, reprQuote_or s, by simp [pyRepr], repr_body (reprQuote_or s) hs⟩

theorem Lay.repr {env : Env} {s r : Str} {ks : List Tk} (hs : spelledStr env s = true) (h : Lay r ks) :
    Lay (pyRepr env s ++ r) (.str s :: ks) := .tok (spells_repr hs) trivial h

/-! ### Line breaks -/

theorem strBody_nl {q : Nat} {b v : Str} (hq : q = 34 ∨ q = 39) (h : StrBody q b v) : 10 ∉ b := by
  induction h with
  | nil => simp
  | raw _ h _ _ _ _ _ ih => simp [ih]; exact fun e => h e.symm
  | hex ha hb hc hd _ ih =>
    rename_i a b c d r v _
    have : ∀ n, ¬ HexDigit 10 n := fun n h => by simpa [isHex, isDigit] using (hexDigit_iff.1 h).1
    simp only [List.mem_cons, not_or]
    exact ⟨by decide, by decide, fun e => (by subst e; exact this _ ha), fun e => (by subst e; exact this _ hb),
      fun e => (by subst e; exact this _ hc), fun e => (by subst e; exact this _ hd), ih⟩
  | esc he _ ih =>
    simp only [List.mem_cons, Prod.mk.injEq, List.not_mem_nil, or_false] at he
    simp only [List.mem_cons, not_or]
    exact ⟨by decide, by omega, ih⟩

theorem word_nl {start : Nat → Bool} {w : Str} (h : Word start w) (hs : start 10 = false) : 10 ∉ w := by
  obtain ⟨c, r, rfl, hc, hr⟩ := h
  simp only [List.mem_cons, not_or]
  exact ⟨fun e => (by subst e; rw [hs] at hc; cases hc), fun e => (by have := hr _ e; revert this; decide)⟩

theorem spells_nl {w : Str} {k : Tk} (h : Spells w k) : 10 ∉ w := by
  cases k with
  | bool b => cases b <;> (rw [show w = _ from h]; decide)
  | lower s => rw [h.1]; exact word_nl h.2 rfl
  | upper s => rw [h.1]; exact word_nl h.2 rfl
  | other s => rw [h.1]; exact word_nl h.2 rfl
  | int i =>
    rw [show w = _ from h]
    intro hc
    have hd : ∀ n, 10 ∉ natStr n := fun n hc => by have := natStr_digits n _ hc; revert this; decide
    cases i with
    | ofNat n => exact hd _ hc
    | negSucc n =>
      simp only [intStr, List.mem_cons] at hc
      exact hc.elim (by decide) (hd _)
  | str v =>
    obtain ⟨q, body, hq, rfl, hb⟩ := h
    have := strBody_nl hq hb
    simp [this]; omega
  | _ => rw [show w = _ from h]; decide

theorem replaceNL_append (a b : Str) : replaceNL (a ++ b) = replaceNL a ++ replaceNL b := by
  simp [replaceNL]

theorem replaceNL_id {w : Str} (h : 10 ∉ w) : replaceNL w = w := by
  induction w with
  | nil => rfl
  | cons c w ih =>
    simp only [List.mem_cons, not_or] at h
    have : replaceNL (c :: w) = (if c = 10 then [10, 32, 32] else [c]) ++ replaceNL w := by simp [replaceNL]
    rw [this, ih h.2, if_neg (fun e => h.1 e.symm)]; rfl

theorem replaceNL_head (s : Str) : (replaceNL s).head? = s.head? := by
  cases s with
  | nil => rfl
  | cons c s =>
    simp only [replaceNL, List.flatMap_cons, List.head?_cons]
    split
    · rename_i h; subst h; rfl
    · rfl

theorem munch_head {k : Tk} {r r' : Str} (h : Munch k r) (e : r'.head? = r.head?) : Munch k r' := by
  cases k <;> simpa [Munch, e] using h

/-- Indenting continuation lines changes no token. -/
theorem Lay.replaceNL {s : Str} {ks : List Tk} (h : Lay s ks) : Lay (replaceNL s) ks := by
  induction h with
  | nil => exact .nil
  | sp hc _ ih =>
    rename_i c r ks _
    have : DS.replaceNL (c :: r) = (if c = 10 then [10, 32, 32] else [c]) ++ DS.replaceNL r := by simp [DS.replaceNL]
    rw [this]
    split
    · exact .sp rfl (.sp rfl (.sp rfl ih))
    · exact .sp hc ih
  | tok hw hm _ ih =>
    rw [replaceNL_append, replaceNL_id (spells_nl hw)]
    exact .tok hw (munch_head hm (replaceNL_head _)) ih

/-! ### Lists of components -/

/-- tokens of several components separated by commas -/
def sepBy : List (List Tk) → List Tk
  | [] => []
  | [t] => t
  | t :: u :: r => t ++ .comma :: sepBy (u :: r)

/-- one text for each token sequence -/
inductive LayL : List Str → List (List Tk) → Prop where
  | nil : LayL [] []
  | cons {s ss k ks} : Lay s k → LayL ss ks → LayL (s :: ss) (k :: ks)

theorem lay_join {sep : Str} (hsep : sep = py", " ∨ sep = [44, 10]) {ss : List Str} {ks : List (List Tk)} (h : LayL ss ks) :
    Lay (join sep ss) (sepBy ks) := by
  induction h with
  | nil => exact .nil
  | cons h1 h2 ih =>
    rename_i s ss k ks
    cases h2 with
    | nil => exact h1
    | cons h3 h4 =>
      rename_i s' ss k' ks
      simp only [join, sepBy, List.append_assoc]
      refine h1.append ?_ ?_
      · rcases hsep with rfl | rfl
        · exact .comma (.space ih)
        · exact .comma (.newline ih)
      · rcases hsep with rfl | rfl <;> exact Soft.cons (by decide)

/-- brackets around components, on one line or several -/
theorem lay_layout {l r : Nat} {kl kr : Tk} (hl : Spells [l] kl) (hml : ∀ r, Munch kl r) (hr : Spells [r] kr)
    (hmr : ∀ r, Munch kr r) (hrw : isWord r = false) {items : List Str} {ks : List (List Tk)} (h : LayL items ks)
    (result : Str) (w : Int) : ∃ X, layout l r result items w = result ++ X ∧ Lay X (kl :: (sepBy ks ++ [kr])) := by
  have hend : Lay [r] [kr] := .punct hr hmr .nil
  unfold layout
  simp only
  split
  · exact ⟨_, rfl, by
      simp only [List.append_assoc, List.singleton_append]
      exact .punct hl hml ((lay_join (.inl rfl) h).append hend (.cons hrw))⟩
  · refine ⟨_, rfl, Lay.replaceNL ?_⟩
    simp only [List.append_assoc, List.cons_append, List.nil_append]
    exact .punct hl hml (.newline ((lay_join (.inr rfl) h).append (.newline hend) (.cons (by decide))))

end DS
