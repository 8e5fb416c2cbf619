import Verif.Spec.VersionKeywords
import Verif.Props.Version

/-
C66: the keywords as read from the text of a file.
-/
namespace DS

theorem TextLines.unique {s : Str} {l m : List Str} (h : TextLines s l) (k : readLines s = m) : l = m := by
  induction h generalizing m with
  | nil => simpa [readLines] using k
  | @last l h0 h1 =>
    subst k
    induction l with
    | nil => exact absurd rfl h0
    | cons c l ih =>
      simp only [List.mem_cons, not_or] at h1
      have hc : c ≠ 10 := fun e => h1.1 e.symm
      simp only [readLines, if_neg hc]
      cases l with
      | nil => rfl
      | cons d l => rw [← ih (by simp) (by simpa using h1.2)]; rfl
  | @line l rest ls h1 _ ih =>
    subst k
    have ih := ih rfl
    induction l with
    | nil => simp only [List.nil_append, readLines, if_true, ← ih]
    | cons c l ihl =>
      simp only [List.mem_cons, not_or] at h1
      have hc : c ≠ 10 := fun e => h1.1 e.symm
      simp only [List.cons_append, readLines, if_neg hc]
      rw [← ihl h1.2]; rfl

theorem textLines (s : Str) : TextLines s (readLines s) := by
  induction s with
  | nil => exact .nil
  | cons c s ih =>
    by_cases hc : c = 10
    · subst hc
      simp only [readLines, if_true]
      exact .line (l := []) (by simp) ih
    · simp only [readLines, if_neg hc]
      generalize readLines s = ls at ih
      cases ih with
      | nil => exact .last (by simp) (by simp; exact fun e => hc e.symm)
      | last h0 h1 => exact .last (by simp) (by simp; exact ⟨fun e => hc e.symm, h1⟩)
      | @line l rest ls h1 h2 => exact .line (l := c :: l) (by simp; exact ⟨fun e => hc e.symm, h1⟩) h2

/-- line ends stand at the end only -/
def OneLine (l : Str) : Prop := ∀ a b, l = a ++ 10 :: b → b = []

theorem TextLines.one {s : Str} {ls : List Str} (h : TextLines s ls) : ∀ l ∈ ls, OneLine l := by
  induction h with
  | nil => intro l h; cases h
  | last _ h1 => intro l h a b e; simp only [List.mem_singleton] at h; subst h; subst e; simp at h1
  | @line l rest ls h1 _ ih =>
    intro m h a b e
    rcases List.mem_cons.1 h with rfl | h
    · cases hb : b.reverse with
      | nil => simpa using hb
      | cons x r =>
        have : b = r.reverse ++ [x] := by rw [← List.reverse_reverse b, hb]; simp
        subst this
        rw [← List.cons_append, ← List.append_assoc] at e
        have := (List.append_inj' e rfl).1
        subst this; simp at h1
    · exact ih m h a b e

theorem OneLine.tail {c : Nat} {l : Str} (h : OneLine (c :: l)) : OneLine l := fun a b e => h (c :: a) b (by simp [e])

theorem OneLine.suffix {a l : Str} (h : OneLine (a ++ l)) : OneLine l := by
  induction a with
  | nil => exact h
  | cons c a ih => exact ih h.tail

theorem takeWhile_one {l : Str} (h : OneLine l) : ∃ e, l = l.takeWhile (· != 10) ++ e ∧ (e = [] ∨ e = [10]) := by
  induction l with
  | nil => exact ⟨[], rfl, .inl rfl⟩
  | cons c l ih =>
    by_cases hc : c = 10
    · subst hc
      have := h [] l rfl
      subst this; exact ⟨[10], by simp, .inr rfl⟩
    · obtain ⟨e, h1, h2⟩ := ih h.tail
      have : (c != 10) = true := by simpa using hc
      refine ⟨e, ?_, h2⟩
      rw [List.takeWhile_cons, if_pos this, List.cons_append, ← h1]

theorem last_split {a b c d : Str} (h : a ++ 34 :: b = c ++ 34 :: d) (hb : 34 ∉ b) (hd : 34 ∉ d) : a = c ∧ b = d := by
  have h' := congrArg List.reverse h
  simp only [List.reverse_append, List.reverse_cons, List.append_assoc, List.singleton_append] at h'
  have := split_at_first (a := b.reverse) (b := d.reverse) (by simpa using hb) (by simpa using hd) h'
  simpa [and_comm] using this

theorem last_quote (t : Str) (h : 34 ∈ t) :
    ∃ b, t = ((t.reverse.dropWhile (· != 34)).drop 1).reverse ++ 34 :: b ∧ 34 ∉ b := by
  generalize hr : t.reverse = r
  have ht : t = r.reverse := by rw [← hr, List.reverse_reverse]
  subst ht
  clear hr
  replace h : 34 ∈ r := by simpa using h
  suffices ∃ b, r = b ++ 34 :: (r.dropWhile (· != 34)).drop 1 ∧ 34 ∉ b by
    obtain ⟨b, h1, h2⟩ := this
    refine ⟨b.reverse, ?_, by simpa using h2⟩
    have := congrArg List.reverse h1
    simpa using this
  induction r with
  | nil => cases h
  | cons c r ih =>
    by_cases hc : c = 34
    · subst hc; exact ⟨[], by simp, by simp⟩
    · obtain ⟨b, h1, h2⟩ := ih ((List.mem_cons.1 h).resolve_left fun e => hc e.symm)
      refine ⟨c :: b, ?_, by simp [h2]; exact fun e => hc e.symm⟩
      have : (c != 34) = true := by simpa using hc
      rw [List.dropWhile_cons, if_pos this, List.cons_append, ← h1]

theorem uptoLastQuote_iff {r x : Str} (h : OneLine r) : uptoLastQuote r = some x ↔ ∃ b, r = x ++ 34 :: b ∧ 34 ∉ b := by
  obtain ⟨e, h1, h2⟩ := takeWhile_one h
  have he : 34 ∉ e := by rcases h2 with rfl | rfl <;> simp
  simp only [uptoLastQuote, List.contains_iff_mem]
  generalize r.takeWhile (· != 10) = t at h1
  subst h1
  constructor
  · intro k
    split at k
    · rename_i hm
      cases k
      obtain ⟨b, k1, k2⟩ := last_quote t hm
      refine ⟨b ++ e, ?_, by simp [k2, he]⟩
      conv => lhs; rw [k1]
      simp
    · cases k
  · rintro ⟨b, k1, k2⟩
    have hm : 34 ∈ t := by
      have : 34 ∈ t ++ e := by rw [k1]; simp
      rcases List.mem_append.1 this with h | h
      · exact h
      · exact absurd h he
    rw [if_pos hm]
    obtain ⟨b', k3, k4⟩ := last_quote t hm
    have : x ++ 34 :: b = ((t.reverse.dropWhile (· != 34)).drop 1).reverse ++ 34 :: (b' ++ e) := by
      rw [← k1]; conv => lhs; rw [k3]
      simp
    rw [(last_split this k2 (by simp [k4, he])).1]

theorem dropSpace_quote {ws r : Str} (h : AllSpace ws) : (ws ++ 34 :: r).dropWhile isSpace = 34 :: r := by
  induction ws with
  | nil => rfl
  | cons c ws ih =>
    rw [List.cons_append, List.dropWhile_cons, if_pos (h c (by simp))]
    exact ih fun d hd => h d (by simp [hd])

theorem dropSpace_inv {s : Str} {c : Nat} {r : Str} (h : s.dropWhile isSpace = c :: r) : ∃ ws, AllSpace ws ∧ s = ws ++ c :: r := by
  refine ⟨s.takeWhile isSpace, fun c hc => ?_, ?_⟩
  · exact List.all_eq_true.1 (List.all_takeWhile (l := s)) c hc
  · rw [← h, List.takeWhile_append_dropWhile]

theorem matchQuoted_iff {s x : Str} (h : OneLine s) :
    matchQuoted s = some x ↔ ∃ ws b, AllSpace ws ∧ s = ws ++ 34 :: (x ++ 34 :: b) ∧ 34 ∉ b := by
  unfold matchQuoted
  constructor
  · intro k
    cases hd : s.dropWhile isSpace with
    | nil => rw [hd] at k; cases k
    | cons c r =>
      rw [hd] at k
      simp only at k
      split at k
      · rename_i hc
        subst hc
        obtain ⟨ws, h1, h2⟩ := dropSpace_inv hd
        have : OneLine r := by rw [h2] at h; exact (h.suffix).tail
        obtain ⟨b, h3, h4⟩ := (uptoLastQuote_iff this).1 k
        exact ⟨ws, b, h1, by rw [h2, h3], h4⟩
      · cases k
  · rintro ⟨ws, b, h1, rfl, h4⟩
    rw [dropSpace_quote h1]
    simp only [if_true]
    exact (uptoLastQuote_iff h.suffix.tail).2 ⟨b, rfl, h4⟩

theorem searchQuoted_iff (s x : Str) (h : OneLine s) : searchQuoted s = some x ↔ QuotedIn s x := by
  induction s with
  | nil =>
    simp only [searchQuoted]
    constructor
    · intro k; cases k
    · rintro ⟨a, b, ⟨ws, _, k⟩, _⟩; simp at k
  | cons c s ih =>
    simp only [searchQuoted]
    by_cases hc : c = 61
    · subst hc
      simp only [if_true]
      cases hm : matchQuoted s with
      | some y =>
        obtain ⟨ws, b, k1, k2, k3⟩ := (matchQuoted_iff h.tail).1 hm
        constructor
        · intro k
          cases k
          exact ⟨[], b, ⟨ws, k1, by simp [k2]⟩, k3, fun a' _ _ => Nat.zero_le _⟩
        · rintro ⟨a, b', ⟨ws', k4, k5⟩, k6, k7⟩
          have := k7 [] (y ++ [34] ++ b) ⟨ws, k1, by simp [k2]⟩
          have : a = [] := by cases a <;> simp_all
          subst this
          simp only [List.nil_append, List.append_assoc, List.cons_append, List.cons.injEq, true_and] at k5
          have := (matchQuoted_iff (x := x) h.tail).2 ⟨ws', b', k4, k5, k6⟩
          rw [hm] at this; exact this
      | none =>
        simp only [ih h.tail]
        constructor
        · rintro ⟨a, b, ⟨ws, k1, k2⟩, k3, k4⟩
          refine ⟨61 :: a, b, ⟨ws, k1, by simp [k2]⟩, k3, ?_⟩
          rintro a' rest ⟨ws', k5, k6⟩
          cases a' with
          | nil =>
            exfalso
            simp only [List.nil_append, List.append_assoc, List.cons_append, List.cons.injEq, true_and] at k6
            -- a quote that opens here is closed by those that follow
            have hq : 34 ∈ rest := by
              have e : ws' ++ 34 :: rest = (a ++ [61] ++ ws ++ [34] ++ x) ++ 34 :: b := by rw [← k6, k2]; simp
              apply Classical.byContradiction
              intro hn
              obtain ⟨e1, -⟩ := last_split e hn k3
              have := k5 61 (by rw [e1]; simp)
              revert this; decide
            obtain ⟨b'', q1, q2⟩ := last_quote rest hq
            have := (matchQuoted_iff h.tail).2 ⟨ws', b'', k5, by rw [k6]; conv => lhs; rw [q1], q2⟩
            rw [hm] at this; cases this
          | cons d a' =>
            simp only [List.cons_append, List.cons.injEq] at k6
            have := k4 a' rest ⟨ws', k5, by simp [k6.2]⟩
            simpa using this
        · rintro ⟨a, b, ⟨ws, k1, k2⟩, k3, k4⟩
          cases a with
          | nil =>
            simp only [List.nil_append, List.append_assoc, List.cons_append, List.cons.injEq, true_and] at k2
            have := (matchQuoted_iff (x := x) h.tail).2 ⟨ws, b, k1, k2, k3⟩
            rw [hm] at this; cases this
          | cons d a =>
            simp only [List.cons_append, List.cons.injEq] at k2
            refine ⟨a, b, ⟨ws, k1, by simp [k2.2]⟩, k3, ?_⟩
            rintro a' rest ⟨ws', k5, k6⟩
            have := k4 (61 :: a') rest ⟨ws', k5, by simp [k6]⟩
            simpa using this
    · simp only [if_neg hc, ih h.tail]
      constructor
      · rintro ⟨a, b, ⟨ws, k1, k2⟩, k3, k4⟩
        refine ⟨c :: a, b, ⟨ws, k1, by simp [k2]⟩, k3, ?_⟩
        rintro a' rest ⟨ws', k5, k6⟩
        cases a' with
        | nil => simp only [List.nil_append, List.append_assoc, List.cons_append, List.cons.injEq] at k6; exact absurd k6.1 hc
        | cons d a' =>
          simp only [List.cons_append, List.cons.injEq] at k6
          have := k4 a' rest ⟨ws', k5, by simp [k6.2]⟩
          simpa using this
      · rintro ⟨a, b, ⟨ws, k1, k2⟩, k3, k4⟩
        cases a with
        | nil => simp only [List.nil_append, List.append_assoc, List.cons_append, List.cons.injEq] at k2; exact absurd k2.1 hc
        | cons d a =>
          simp only [List.cons_append, List.cons.injEq] at k2
          refine ⟨a, b, ⟨ws, k1, by simp [k2.2]⟩, k3, ?_⟩
          rintro a' rest ⟨ws', k5, k6⟩
          have := k4 (c :: a') rest ⟨ws', k5, by simp [k6]⟩
          simpa using this

/-- stripping does not change what a line begins with, when that has no white space at its two ends -/
theorem strip_begins {p line : Str} (hp : p ≠ []) (ht : Trimmed p) :
    p.isPrefixOf (strip line) = true ↔ ∃ ws rest, AllSpace ws ∧ line = ws ++ p ++ rest := by
  rw [prefix_iff]
  constructor
  · rintro ⟨t, h⟩
    obtain ⟨a, b, h1, h2, _, _⟩ := strip_spec line
    exact ⟨a, t ++ b, h2, by rw [h1, h]; simp⟩
  · rintro ⟨ws, rest, h1, rfl⟩
    obtain ⟨a, b, h2, h3, h4, h5⟩ := strip_spec rest
    by_cases hr : strip rest = []
    · have hs : AllSpace rest := by
        rw [h2, hr]; intro c hc
        simp only [List.append_nil, List.mem_append] at hc
        exact hc.elim (h3 c) (h4 c)
      exact ⟨[], by rw [strip_trim h1 hs ht]; simp⟩
    · refine ⟨a ++ strip rest, ?_⟩
      have e : ws ++ p ++ rest = ws ++ (p ++ a ++ strip rest) ++ b := by conv => lhs; rw [h2]
                                                                         simp
      rw [e, strip_trim h1 h4]
      · simp
      · constructor
        · intro c hc
          apply ht.1
          cases p with
          | nil => exact absurd rfl hp
          | cons d p => simpa using hc
        · intro c hc
          apply h5.2
          rw [List.getLast?_append] at hc
          cases hl : (strip rest).getLast? with
          | none => exact absurd (List.getLast?_eq_none_iff.1 hl) hr
          | some d => rw [hl] at hc; simpa using hc

theorem keyword_step {name line : Str} (ht : Trimmed (name ++ py" =")) (h : OneLine line) (old : Option Str) :
    (∀ x, SetsKeyword name line x → keywordStep (name ++ py" =") old line = some x) ∧
    ((∀ x, ¬ SetsKeyword name line x) → keywordStep (name ++ py" =") old line = old) := by
  have hb : (name ++ py" =").isPrefixOf (strip line) = true ↔ BeginsWith name line :=
    strip_begins (by intro e; have := congrArg List.length e; simp at this) ht
  unfold keywordStep
  constructor
  · rintro x ⟨h1, h2⟩
    rw [if_pos (hb.2 h1), (searchQuoted_iff line x h).2 h2]
  · intro hn
    split
    · rename_i hp
      cases hs : searchQuoted line with
      | none => rfl
      | some x => exact absurd ⟨hb.1 hp, (searchQuoted_iff line x h).1 hs⟩ (hn x)
    · rfl

theorem keyword_fold {name : Str} (ht : Trimmed (name ++ py" =")) (lines : List Str) (h : ∀ l ∈ lines, OneLine l)
    (old : Option Str) :
    (∀ x, LastSets name lines x → lines.foldl (keywordStep (name ++ py" =")) old = some x) ∧
    ((∀ l ∈ lines, ∀ x, ¬ SetsKeyword name l x) → lines.foldl (keywordStep (name ++ py" =")) old = old) := by
  induction lines generalizing old with
  | nil =>
    refine ⟨?_, fun _ => rfl⟩
    rintro x ⟨b, l, a, e, _⟩; cases b <;> cases e
  | cons m ls ih =>
    have hs := keyword_step ht (h m (by simp)) old
    have ih := ih (fun l hl => h l (by simp [hl]))
    simp only [List.foldl_cons]
    constructor
    · rintro x ⟨b, l, a, e, h1, h2⟩
      cases b with
      | nil =>
        simp only [List.nil_append, List.cons.injEq] at e
        obtain ⟨rfl, rfl⟩ := e
        rw [hs.1 x h1]
        exact (ih _).2 h2
      | cons d b =>
        simp only [List.cons_append, List.cons.injEq] at e
        exact (ih _).1 x ⟨b, l, a, e.2, h1, h2⟩
    · intro hn
      rw [hs.2 (hn m (by simp))]
      exact (ih _).2 fun l hl => hn l (by simp [hl])

theorem keyword_exists (name : Str) (lines : List Str) : ∃ v, KeywordIn name lines v := by
  induction lines with
  | nil => exact ⟨none, fun l h => by cases h⟩
  | cons m ls ih =>
    obtain ⟨v, hv⟩ := ih
    cases v with
    | some x =>
      obtain ⟨b, l, a, e, h⟩ := hv
      exact ⟨some x, m :: b, l, a, by simp [e], h⟩
    | none =>
      by_cases hm : ∃ x, SetsKeyword name m x
      · obtain ⟨x, hx⟩ := hm
        exact ⟨some x, [], m, ls, rfl, hx, hv⟩
      · refine ⟨none, fun l hl x hx => ?_⟩
        rcases List.mem_cons.1 hl with rfl | hl
        · exact hm ⟨x, hx⟩
        · exact hv l hl x hx

theorem keyword_iff {name : Str} (ht : Trimmed (name ++ py" =")) {text : Str} {v : Option Str} :
    (readLines text).foldl (keywordStep (name ++ py" =")) none = v ↔ KeywordIn name (readLines text) v := by
  have h1 : ∀ u, KeywordIn name (readLines text) u → (readLines text).foldl (keywordStep (name ++ py" =")) none = u := by
    intro u hu
    have hf := keyword_fold ht (readLines text) (textLines text).one none
    cases u with
    | some x => exact hf.1 x hu
    | none => exact hf.2 hu
  constructor
  · rintro rfl
    obtain ⟨u, hu⟩ := keyword_exists name (readLines text)
    rw [h1 u hu]; exact hu
  · exact h1 v

/-- the two names have no white space at their ends -/
theorem refnames_trimmed : Trimmed (py"git_refnames" ++ py" =") := by
  constructor <;> intro c h <;> cases h <;> decide
theorem full_trimmed : Trimmed (py"git_full" ++ py" =") := by
  constructor <;> intro c h <;> cases h <;> decide

/-- **C66.** What `git_get_keywords` reads from a file: nothing when the file cannot be read; otherwise each keyword is set by
the last line of the file that begins with its name and ` =` and has a quoted text behind an equals sign, and its value is all
that stands between the first such quote and the last quote of the line. -/
theorem C66.keywords (file : Option Str) (k : KeywordsRead) :
    getKeywords file = k ↔ (file = none ∧ k = ⟨none, none⟩) ∨
      (∃ text lines, file = some text ∧ TextLines text lines ∧ KeywordIn (py"git_refnames") lines k.refnames ∧
        KeywordIn (py"git_full") lines k.full) := by
  cases file with
  | none => simp [getKeywords, eq_comm]
  | some text =>
    have e1 := @keyword_iff _ refnames_trimmed text k.refnames
    have e2 := @keyword_iff _ full_trimmed text k.full
    constructor
    · rintro rfl
      exact .inr ⟨text, _, rfl, textLines text, e1.1 rfl, e2.1 rfl⟩
    · rintro (⟨h, _⟩ | ⟨t, lines, h, hl, h1, h2⟩)
      · cases h
      · cases h
        obtain rfl := hl.unique rfl
        have := e1.2 h1
        have := e2.2 h2
        cases k
        simp_all [getKeywords]

theorem not_space_eq {c : Nat} {ws : Str} (h : AllSpace ws) (hc : isSpace c = false) : c ∉ ws := fun hm => by
  rw [h c hm] at hc; cases hc

theorem first_nonspace {a b p q : Str} {c d : Nat} (ha : AllSpace a) (hb : AllSpace b) (hc : isSpace c = false)
    (hd : isSpace d = false) (h : a ++ c :: p = b ++ d :: q) : c :: p = d :: q := by
  induction a generalizing b with
  | nil =>
    cases b with
    | nil => exact h
    | cons x b => cases h; rw [hb _ (by simp)] at hc; cases hc
  | cons x a ih =>
    cases b with
    | nil => cases h; rw [ha _ (by simp)] at hd; cases hd
    | cons y b =>
      simp only [List.cons_append, List.cons.injEq] at h
      exact ih (fun c hc => ha c (by simp [hc])) (fun c hc => hb c (by simp [hc])) h.2

theorem keywordLine_sets {indent name : Str} (value : Str) (hi : AllSpace indent) (hn : 61 ∉ name) :
    SetsKeyword name (keywordLine indent name value) value := by
  refine ⟨⟨indent, py" \"" ++ value ++ py"\"\n", hi, by simp [keywordLine]⟩,
    indent ++ name ++ [32], [10], ⟨[32], by intro c hc; simp at hc; subst hc; decide, by simp [keywordLine]⟩, by decide, ?_⟩
  rintro a rest ⟨ws, _, h⟩
  have h61 : 61 ∉ indent ++ name ++ [32] := by
    simp only [List.mem_append, not_or]
    exact ⟨⟨not_space_eq hi (by decide), hn⟩, by decide⟩
  by_cases ha : 61 ∈ a
  · apply Classical.byContradiction
    intro hl
    have e : (indent ++ name ++ [32]) ++ (61 :: 32 :: 34 :: (value ++ py"\"\n")) = a ++ (61 :: (ws ++ 34 :: rest)) := by
      rw [← show keywordLine indent name value = (indent ++ name ++ [32]) ++ (61 :: 32 :: 34 :: (value ++ py"\"\n")) by
        simp [keywordLine], h]; simp
    have := List.append_eq_append_iff.1 e
    rcases this with ⟨t, rfl, _⟩ | ⟨t, h2, _⟩
    · simp at hl
    · exact h61 (by rw [h2]; simp [ha])
  · have e : (indent ++ name ++ [32]) ++ 61 :: (32 :: 34 :: (value ++ py"\"\n")) = a ++ 61 :: (ws ++ 34 :: rest) := by
      rw [← show keywordLine indent name value = (indent ++ name ++ [32]) ++ (61 :: 32 :: 34 :: (value ++ py"\"\n")) by
        simp [keywordLine], h]; simp
    rw [(split_at_first h61 ha e).1]
    exact Nat.le_refl _

theorem full_not_refnames {indent value : Str} (hi : AllSpace indent) :
    ¬ BeginsWith (py"git_refnames") (keywordLine indent (py"git_full") value) := by
  rintro ⟨ws, rest, h1, h2⟩
  have := first_nonspace hi h1 (c := 103) (d := 103) (by decide) (by decide)
    (p := py"it_full = \"" ++ value ++ py"\"\n") (q := py"it_refnames =" ++ rest) (by simpa [keywordLine] using h2)
  simp at this

/-- **C66.** What Git writes into the file is what is read from it, whatever Git writes (quotes and equals signs included): in a
file with a line `git_refnames = "R"` and, below it, a line `git_full = "F"`, followed by no other line that begins like these,
the keywords are `R` and `F`. So when `R` is that of an archive, `setup.py` finds the version that importing the package gives,
and when it is not, neither of them takes a version from the keywords. -/
theorem C66.written {text indent indent' refnames full : Str} {before between after : List Str}
    (h : TextLines text (before ++ [keywordLine indent (py"git_refnames") refnames] ++ between ++
      [keywordLine indent' (py"git_full") full] ++ after))
    (hi : AllSpace indent) (hi' : AllSpace indent')
    (h1 : ∀ l ∈ between ++ after, ¬ BeginsWith (py"git_refnames") l) (h2 : ∀ l ∈ after, ¬ BeginsWith (py"git_full") l) :
    getKeywords (some text) = ⟨some refnames, some full⟩ ∧
    (∀ refs, Archived ⟨refnames, full⟩ refs → ∀ w cfg, ∃ v,
      versionsFromRead w (getKeywords (some text)) cfg.tagPrefix = .value v ∧ getVersionsWith w cfg ⟨refnames, full⟩ = .ok v) ∧
    (NotArchived ⟨refnames, full⟩ → ∀ w pre, versionsFromRead w (getKeywords (some text)) pre = .notThis) := by
  have e : getKeywords (some text) = ⟨some refnames, some full⟩ := by
    rw [C66.keywords]
    refine .inr ⟨text, _, rfl, h, ?_, ?_⟩
    · refine ⟨before, keywordLine indent (py"git_refnames") refnames,
        between ++ [keywordLine indent' (py"git_full") full] ++ after, by simp, keywordLine_sets _ hi (by decide), ?_⟩
      rintro l hl x ⟨hb, _⟩
      simp only [List.mem_append, List.mem_singleton] at hl
      rcases hl with (hl | rfl) | hl
      · exact h1 l (by simp [hl]) hb
      · exact full_not_refnames hi' hb
      · exact h1 l (by simp [hl]) hb
    · exact ⟨before ++ [keywordLine indent (py"git_refnames") refnames] ++ between,
        keywordLine indent' (py"git_full") full, after, by simp, keywordLine_sets _ hi' (by decide),
        fun l hl x hx => h2 l hl hx.1⟩
  refine ⟨e, fun refs hr w cfg => ?_, fun hr w pre => ?_⟩
  · rw [e]
    simp only [versionsFromRead]
    cases hv : versionsFromKeywords w ⟨refnames, full⟩ cfg.tagPrefix with
    | value v => exact ⟨v, rfl, by simp only [getVersionsWith, hv]⟩
    | notThis =>
      rw [archived_keywords hr] at hv
      split at hv <;> cases hv
    | raised er =>
      rw [archived_keywords hr] at hv
      split at hv <;> cases hv
  · rw [e]; simp only [versionsFromRead]; exact keywords_not hr

/-- **C66.** Taking the version from keywords that were read fails exactly when one of the two is missing: `KeyError`, except that
nothing at all, and a first text that begins with `$Format`, are passed over. -/
theorem C66.read_fails (w : Machine) (k : KeywordsRead) (pre : Str) (er : PyErr) :
    versionsFromRead w k pre = .raised er ↔ er = .keyError ∧ ((k.refnames = none ∧ k.full ≠ none) ∨
      (k.full = none ∧ ∃ r, k.refnames = some r ∧ ∀ a s, AllSpace a → r ≠ a ++ py"$Format" ++ s)) := by
  obtain ⟨r, f⟩ := k
  have ht : Trimmed (py"$Format") := by constructor <;> intro c h <;> cases h <;> decide
  cases r with
  | none => cases f <;> simp [versionsFromRead, eq_comm]
  | some r =>
    cases f with
    | none =>
      simp only [versionsFromRead]
      have hs := strip_begins (p := py"$Format") (line := r) (by simp) ht
      split
      · rename_i hp
        obtain ⟨ws, rest, h1, h2⟩ := hs.1 hp
        constructor
        · intro h; cases h
        · rintro ⟨_, ⟨h, _⟩ | ⟨_, r', h, h3⟩⟩
          · cases h
          · cases h; exact absurd h2 (h3 ws rest h1)
      · rename_i hp
        constructor
        · intro h
          cases h
          exact ⟨rfl, .inr ⟨trivial, r, rfl, fun a s ha he => hp (hs.2 ⟨a, s, ha, he⟩)⟩⟩
        · rintro ⟨rfl, _⟩; rfl
    | some f =>
      simp only [versionsFromRead]
      constructor
      · intro h
        exfalso
        unfold versionsFromKeywords at h
        simp only at h
        split at h
        · cases h
        · split at h <;> cases h
      · rintro ⟨_, ⟨h, _⟩ | ⟨h, _⟩⟩ <;> cases h

/-- a file with two lines that set the names of the commit, the second with quotes and an equals sign in them -/
def exampleVersionFile : Str :=
  py"def get_keywords():\n    git_refnames = \"$Format$\"\n\tgit_refnames = \" (HEAD, tag: a=\"1\")\"\n    git_full = \"12ab\"\n    return"

example : getKeywords (some exampleVersionFile) = ⟨some (py" (HEAD, tag: a=\"1\")"), some (py"12ab")⟩ := by decide +kernel

/-- the hypotheses of `C66.written` hold of it -/
example : ∃ before between after, TextLines exampleVersionFile (before ++ [keywordLine (py"\t") (py"git_refnames") (py" (HEAD, tag: a=\"1\")")] ++
    between ++ [keywordLine (py"    ") (py"git_full") (py"12ab")] ++ after) ∧
    (∀ l ∈ between ++ after, ¬ BeginsWith (py"git_refnames") l) ∧ (∀ l ∈ after, ¬ BeginsWith (py"git_full") l) := by
  refine ⟨[py"def get_keywords():\n", py"    git_refnames = \"$Format$\"\n"], [], [py"    return"], ?_, ?_, ?_⟩
  · have h := textLines exampleVersionFile
    have e : readLines exampleVersionFile = [py"def get_keywords():\n", py"    git_refnames = \"$Format$\"\n",
      keywordLine (py"\t") (py"git_refnames") (py" (HEAD, tag: a=\"1\")"), keywordLine (py"    ") (py"git_full") (py"12ab"),
      py"    return"] := by decide +kernel
    rw [e] at h; exact h
  all_goals
    intro l hl
    simp only [List.nil_append, List.mem_singleton] at hl
    subst hl
    intro hb
    exact absurd ((strip_begins (by decide) (by first | exact refnames_trimmed | exact full_trimmed)).2 hb) (by decide)

end DS
