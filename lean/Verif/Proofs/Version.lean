import Verif.Spec.Version
import Verif.Proofs.Strings
import Verif.Proofs.Numeral
import Verif.Proofs.Graph
import Verif.Props.Mappings

/-
Lemmas for C66.
-/
namespace DS

theorem strip_iff (s t : Str) : strip s = t ↔ ∃ a b, s = a ++ t ++ b ∧ AllSpace a ∧ AllSpace b ∧ Trimmed t := by
  constructor
  · rintro rfl; exact strip_spec s
  · rintro ⟨a, b, rfl, ha, hb, ht⟩; exact strip_trim ha hb ht

theorem gits_eq (w : Machine) : gits w = gitCommands w := by simp [gits, gitCommands]

theorem runCommand_iff (w : Machine) (args : List Str) (cwd : Str) (l : List Str) (t : Str) :
    runCommand w args cwd l = some t ↔ ∃ missing cmd others a b, l = missing ++ cmd :: others ∧
      (∀ c ∈ missing, w.popen c args cwd = .missing) ∧ w.popen cmd args cwd = .exited 0 (a ++ t ++ b) ∧ AllSpace a ∧
      AllSpace b ∧ Trimmed t := by
  induction l with
  | nil =>
    simp only [runCommand]
    constructor
    · intro h; cases h
    · rintro ⟨m, c, o, a, b, h, _⟩; cases m <;> cases h
  | cons c cs ih =>
    simp only [runCommand]
    cases hp : w.popen c args cwd with
    | missing =>
      simp only [ih]
      constructor
      · rintro ⟨m, d, o, a, b, rfl, hm, h⟩
        exact ⟨c :: m, d, o, a, b, rfl, by simpa [hp] using hm, h⟩
      · rintro ⟨m, d, o, a, b, hl, hm, h⟩
        cases m with
        | nil => simp only [List.nil_append, List.cons.injEq] at hl; rw [← hl.1, hp] at h; cases h.1
        | cons x m =>
          simp only [List.cons_append, List.cons.injEq] at hl
          exact ⟨m, d, o, a, b, hl.2, fun c hc => hm c (by simp [hc]), h⟩
    | failed =>
      constructor
      · intro h; cases h
      · rintro ⟨m, d, o, a, b, hl, hm, h⟩
        cases m with
        | nil => simp only [List.nil_append, List.cons.injEq] at hl; rw [← hl.1, hp] at h; cases h.1
        | cons x m =>
          simp only [List.cons_append, List.cons.injEq] at hl
          have := hm x (by simp); rw [← hl.1, hp] at this; cases this
    | exited code out =>
      constructor
      · intro h
        by_cases hc : code = 0
        · subst hc
          simp only [↓reduceIte, Option.some.injEq] at h
          obtain ⟨a, b, hs, ha, hb, ht⟩ := (strip_iff _ _).1 h
          exact ⟨[], c, cs, a, b, rfl, by simp, by rw [hp, hs], ha, hb, ht⟩
        · simp [hc] at h
      · rintro ⟨m, d, o, a, b, hl, hm, h, ha, hb, ht⟩
        cases m with
        | nil =>
          simp only [List.nil_append, List.cons.injEq] at hl
          rw [← hl.1, hp] at h
          injection h with h1 h2
          subst h1; subst h2
          simp only [↓reduceIte, strip_trim ha hb ht]
        | cons x m =>
          simp only [List.cons_append, List.cons.injEq] at hl
          have := hm x (by simp); rw [← hl.1, hp] at this; cases this

theorem prints_iff (w : Machine) (cwd : Str) (args : List Str) (t : Str) :
    runCommand w args cwd (gits w) = some t ↔ Prints w cwd args t := by
  rw [runCommand_iff, gits_eq]; exact Iff.rfl

theorem prints_trimmed {w : Machine} {cwd : Str} {args : List Str} {t : Str} (h : Prints w cwd args t) : strip t = t := by
  obtain ⟨_, _, _, _, _, _, _, _, _, _, h⟩ := h
  exact strip_self h

/-! ### The description -/

theorem isHexLower_iff (c : Nat) : isHexLower c = true ↔ (48 ≤ c ∧ c ≤ 57) ∨ (97 ≤ c ∧ c ≤ 102) := by
  simp [isHexLower, isDigit]

theorem isDigit_iff' (c : Nat) : isDigit c = true ↔ 48 ≤ c ∧ c ≤ 57 := by simp [isDigit]

theorem digitVal_iff (w : Machine) (c d : Nat) :
    w.digitVal c = some d ↔ (48 ≤ c ∧ c ≤ 57 ∧ d = c - 48) ∨ (128 ≤ c ∧ w.digit c = some d) := by
  simp only [Machine.digitVal]
  by_cases h : c < 128
  · simp only [h, ↓reduceIte]
    by_cases h2 : isDigit c = true
    · have := (isDigit_iff' c).1 h2
      simp only [h2, ↓reduceIte, Option.some.injEq]
      omega
    · have := mt (isDigit_iff' c).2 h2
      simp only [h2]
      constructor
      · intro h; cases h
      · rintro (h | h) <;> omega
  · simp only [h, ↓reduceIte]
    constructor
    · intro h'; exact .inr ⟨by omega, h'⟩
    · rintro (h' | h')
      · omega
      · exact h'.2

theorem isDec_iff (w : Machine) (c : Nat) : w.isDec c = true ↔ (48 ≤ c ∧ c ≤ 57) ∨ (128 ≤ c ∧ ∃ d, w.digit c = some d) := by
  simp only [Machine.isDec, Option.isSome_iff_exists, digitVal_iff]
  constructor
  · rintro ⟨d, h | h⟩
    · exact .inl ⟨h.1, h.2.1⟩
    · exact .inr ⟨h.1, d, h.2⟩
  · rintro (h | ⟨h, d, h2⟩)
    · exact ⟨c - 48, .inl ⟨h.1, h.2, rfl⟩⟩
    · exact ⟨d, .inr ⟨h, h2⟩⟩

theorem decimal_aux (w : Machine) (s : Str) (a : Nat) : (∀ c ∈ s, w.isDec c = true) →
    ∃ ds : List Nat, Each (fun c d => (48 ≤ c ∧ c ≤ 57 ∧ d = c - 48) ∨ (128 ≤ c ∧ w.digit c = some d)) s ds ∧
      ∀ a, s.foldl (fun a c => 10 * a + (w.digitVal c).getD 0) a = ds.foldl (fun a d => 10 * a + d) a := by
  induction s with
  | nil => intro _; exact ⟨[], .nil, fun _ => rfl⟩
  | cons c s ih =>
    intro h
    obtain ⟨ds, h1, h2⟩ := ih fun x hx => h x (by simp [hx])
    have hc := h c (by simp)
    obtain ⟨d, hd⟩ := Option.isSome_iff_exists.1 hc
    exact ⟨d :: ds, .cons ((digitVal_iff w c d).1 hd) h1, fun a => by simp [hd, h2]⟩

theorem each_dec {w : Machine} {s : Str} {ds : List Nat}
    (h : Each (fun c d => (48 ≤ c ∧ c ≤ 57 ∧ d = c - 48) ∨ (128 ≤ c ∧ w.digit c = some d)) s ds) :
    (∀ c ∈ s, w.isDec c = true) ∧
      ∀ a, s.foldl (fun a c => 10 * a + (w.digitVal c).getD 0) a = ds.foldl (fun a d => 10 * a + d) a := by
  induction h with
  | nil => simp
  | @cons c d l m h _ ih =>
    have hd := (digitVal_iff w c d).2 h
    refine ⟨?_, fun a => by simp [hd, ih.2]⟩
    intro x hx
    rcases List.mem_cons.1 hx with rfl | hx
    · simp [Machine.isDec, hd]
    · exact ih.1 x hx

theorem decimal_iff (w : Machine) (s : Str) (n : Nat) :
    Decimal w s n ↔ s ≠ [] ∧ (∀ c ∈ s, w.isDec c = true) ∧ n = w.decVal s := by
  simp only [Decimal, Machine.decVal]
  constructor
  · rintro ⟨h, ds, h1, rfl⟩
    exact ⟨h, (each_dec h1).1, ((each_dec h1).2 0).symm⟩
  · rintro ⟨h, h1, rfl⟩
    obtain ⟨ds, h2, h3⟩ := decimal_aux w s 0 h1
    exact ⟨h, ds, h2, h3 0⟩

theorem takeWhile_stop_at {p : Nat → Bool} {a : Str} {c : Nat} {s : Str} (ha : ∀ x ∈ a, p x = true) (hc : p c = false) :
    (a ++ c :: s).takeWhile p = a ∧ (a ++ c :: s).dropWhile p = c :: s := by
  induction a with
  | nil => simp [hc]
  | cons x a ih =>
    have hx := ha x (by simp)
    obtain ⟨h1, h2⟩ := ih fun y hy => ha y (by simp [hy])
    simp [hx, h1, h2]

/-- the part of `matchDescribe` after the newline -/
theorem describe_core (w : Machine) (r0 : Str) (tag : Str) (n : Nat) (hex : Str) :
    matchBackwards w r0 = some (tag, n, hex) ↔
    ∃ num, Decimal w num n ∧ HexText hex ∧ tag ≠ [] ∧ 10 ∉ tag ∧ r0.reverse = tag ++ py"-" ++ num ++ py"-g" ++ hex := by
  have g0 : isHexLower 103 = false := by decide
  have g1 : w.isDec 45 = false := by
    cases h : w.isDec 45 with
    | false => rfl
    | true => have := (isDec_iff w 45).1 h; omega
  unfold matchBackwards
  constructor
  · intro h
    obtain ⟨e1, e2⟩ := split_while isHexLower r0
    split at h
    · rename_i r2 hr2
      obtain ⟨e3, e4⟩ := split_while w.isDec r2
      split at h
      · rename_i t ht
        dsimp only at h
        split at h
        · cases h
        · rename_i hne
          injection h with h
          injection h with h1 h2
          injection h2 with h2 h3
          subst h1; subst h2; subst h3
          simp only [Bool.or_eq_true, List.isEmpty_iff, List.contains_iff_mem, not_or] at hne
          refine ⟨(r2.takeWhile w.isDec).reverse, (decimal_iff ..).2 ⟨by simpa using hne.1.1.2, ?_, rfl⟩, ⟨by simpa using hne.1.1.1, ?_⟩,
            by simpa using hne.1.2, by simpa using hne.2, ?_⟩
          · intro c hc; exact e4 c (by simpa using hc)
          · intro c hc; exact (isHexLower_iff c).1 (e2 c (by simpa using hc))
          · rw [hr2] at e1; rw [ht] at e3
            conv => lhs; rw [e1, e3]
            simp
      · cases h
    · cases h
  · rintro ⟨num, hn, ⟨hh1, hh2⟩, ht, ht2, he⟩
    obtain ⟨hn1, hn2, rfl⟩ := (decimal_iff ..).1 hn
    have hr : r0 = hex.reverse ++ 103 :: (45 :: (num.reverse ++ 45 :: tag.reverse)) := by
      rw [← List.reverse_reverse r0, he]; simp
    have h1 := takeWhile_stop_at (p := isHexLower) (a := hex.reverse) (c := 103)
      (s := 45 :: (num.reverse ++ 45 :: tag.reverse)) (fun x hx => (isHexLower_iff x).2 (hh2 x (by simpa using hx))) g0
    have h2 := takeWhile_stop_at (p := w.isDec) (a := num.reverse) (c := 45) (s := tag.reverse)
      (fun x hx => hn2 x (by simpa using hx)) g1
    simp only [hr, h1.1, h1.2, h2.1, h2.2]
    rw [if_neg]
    · simp
    · simp [hh1, hn1, ht, ht2]

theorem describe_iff (w : Machine) (s tag : Str) (n : Nat) (hex : Str) :
    matchDescribe w s = some (tag, n, hex) ↔ Described w s tag n hex := by
  have key : ∀ r0 : Str, r0.reverse = s → ∀ num, HexText hex → s = tag ++ py"-" ++ num ++ py"-g" ++ hex → ∀ r, r0 ≠ 10 :: r := by
    intro r0 hr num hh hs r h
    subst h
    have hl : s.getLast? = some 10 := by rw [← hr]; simp
    have : hex.getLast? = some 10 := by
      rw [hs, List.getLast?_append] at hl
      cases hg : hex.getLast? with
      | none => exact absurd (List.getLast?_eq_none_iff.1 hg) hh.1
      | some x => rw [hg] at hl; simpa using hl
    have := hh.2 10 (List.mem_of_getLast? this)
    omega
  have hc := describe_core w
  unfold matchDescribe
  split
  · rename_i r hr
    have hs : s = r.reverse ++ [10] := by rw [← List.reverse_reverse s, hr]; simp
    rw [hc r tag n hex]
    unfold Described
    constructor
    · rintro ⟨num, h1, h2, h3, h4, h5⟩
      exact ⟨num, h1, h2, h3, h4, .inr (by rw [hs, h5])⟩
    · rintro ⟨num, h1, h2, h3, h4, h5 | h5⟩
      · exact absurd hr (key _ (by simp) num h2 h5 r)
      · refine ⟨num, h1, h2, h3, h4, ?_⟩
        rw [hs] at h5
        exact List.append_cancel_right h5
  · rename_i hno
    rw [hc s.reverse tag n hex]
    unfold Described
    rw [List.reverse_reverse]
    constructor
    · rintro ⟨num, h1, h2, h3, h4, h5⟩
      exact ⟨num, h1, h2, h3, h4, .inl h5⟩
    · rintro ⟨num, h1, h2, h3, h4, h5 | h5⟩
      · exact ⟨num, h1, h2, h3, h4, h5⟩
      · exact absurd (by rw [h5]; simp : s.reverse = 10 :: (tag ++ py"-" ++ num ++ py"-g" ++ hex).reverse) (hno _)

theorem describe_none (w : Machine) (s : Str) : matchDescribe w s = none ↔ ∀ t n hex, ¬ Described w s t n hex := by
  constructor
  · intro h t n hex hd; rw [(describe_iff w s t n hex).2 hd] at h; cases h
  · intro h
    cases hm : matchDescribe w s with
    | none => rfl
    | some p => obtain ⟨t, n, x⟩ := p; exact absurd ((describe_iff ..).1 hm) (h t n x)

theorem described_hyphen {w : Machine} {s t : Str} {n : Nat} {hex : Str} (h : Described w s t n hex) : 45 ∈ s := by
  obtain ⟨num, _, _, _, _, h | h⟩ := h <;> simp [h]

theorem suffix_dirty (s : Str) : (py"-dirty").isSuffixOf s = true ↔ ∃ t, s = t ++ py"-dirty" := by
  rw [List.isSuffixOf_iff_suffix]
  constructor
  · rintro ⟨t, h⟩; exact ⟨t, h.symm⟩
  · rintro ⟨t, h⟩; exact ⟨t, h.symm⟩

theorem marked_iff (out text : Str) (dirty : Bool) :
    Marked out text dirty ↔ dirty = (py"-dirty").isSuffixOf out ∧ text = if dirty then out.take (out.length - 6) else out := by
  unfold Marked
  constructor
  · rintro (⟨rfl, rfl⟩ | ⟨rfl, rfl, h⟩)
    · exact ⟨((suffix_dirty _).2 ⟨text, rfl⟩).symm, by simp⟩
    · refine ⟨?_, by simp⟩
      cases hs : (py"-dirty").isSuffixOf out with
      | false => rfl
      | true => obtain ⟨t, ht⟩ := (suffix_dirty _).1 hs; exact absurd ht (h t)
  · rintro ⟨h1, h2⟩
    cases hs : (py"-dirty").isSuffixOf out with
    | false =>
      rw [hs] at h1; subst h1
      refine .inr ⟨rfl, by simpa using h2.symm, fun s h => ?_⟩
      rw [(suffix_dirty _).2 ⟨s, h⟩] at hs; cases hs
    | true =>
      obtain ⟨t, ht⟩ := (suffix_dirty _).1 hs
      rw [hs] at h1; subst h1
      refine .inl ⟨rfl, ?_⟩
      rw [h2, ht]; simp

/-! ### Styles -/

theorem intStr_plus (i : Int) : 43 ∉ intStr i := by
  intro h
  cases i with
  | ofNat n => have := natStr_digits n 43 h; simp [isDigit] at this
  | negSucc n =>
    simp only [intStr, List.mem_cons] at h
    rcases h with h | h
    · omega
    · have := natStr_digits (n + 1) 43 h; simp [isDigit] at this

theorem renderVersion_ok {p : Pieces} {style s : Str} (he : p.error = none)
    (h : Rendered style p.tag? p.distance p.short p.dirty s) :
    renderVersion p style = .value ⟨s, some p.long, some p.dirty, none⟩ := by
  generalize ht : p.tag? = tag at h
  generalize hn : p.distance = n at h
  generalize hx : p.short = hex at h
  generalize hd : p.dirty = dirty at h
  have base : ∀ s, Rendered (py"pep440") tag n hex dirty s → renderPep440 p = s := by
    intro s h
    generalize hst : py"pep440" = style at h
    cases h <;> simp at hst <;> simp only [renderPep440, ht, hn, hx, hd, withLocal, plusOrDot, whenDirty]
    · simp
    · rename_i h; rw [if_pos h]; cases dirty <;> simp [join]
    · cases dirty <;> simp [join]
  cases h
  case unset h => simp only [renderVersion, he, base _ h, hd]; rfl
  case byDefault h => simp only [renderVersion, he, base _ h, hd]; rfl
  case pep440Exact => simp only [renderVersion, he, base _ .pep440Exact, hd]; rfl
  case pep440Since h => simp only [renderVersion, he, base _ (.pep440Since h), hd]; rfl
  case pep440None => simp only [renderVersion, he, base _ .pep440None, hd]; rfl
  case preExact => simp [renderVersion, he, renderPep440Pre, ht, hn, hd]
  case preSince h => simp [renderVersion, he, renderPep440Pre, ht, hn, hd, h, join]
  case preNone => simp [renderVersion, he, renderPep440Pre, ht, hn, hd, join]
  case postExact => simp [renderVersion, he, renderPep440Post, ht, hn, hd]
  case postSince t h =>
    have := intStr_plus n
    cases dirty <;> simp [renderVersion, he, renderPep440Post, ht, hn, hd, hx, h, join, withLocal, whenDirty, plusOrDot, this] <;>
      (try simp at h) <;> (try simp [h])
  case postNone =>
    have := intStr_plus n
    cases dirty <;> simp [renderVersion, he, renderPep440Post, ht, hn, hd, hx, join, withLocal, whenDirty, plusOrDot, this]
  case oldExact => simp [renderVersion, he, renderPep440Old, ht, hn, hd]
  case oldSince h =>
    cases dirty <;> simp [renderVersion, he, renderPep440Old, ht, hn, hd, join, whenDirty] <;> (try simp at h) <;> (try simp [h])
  case oldNone => cases dirty <;> simp [renderVersion, he, renderPep440Old, ht, hn, hd, join, whenDirty]
  case describeExact => cases dirty <;> simp [renderVersion, he, renderGitDescribe, ht, hn, hd, join, whenDirty]
  case describeSince h => cases dirty <;> simp [renderVersion, he, renderGitDescribe, ht, hn, hx, hd, h, join, whenDirty]
  case describeNone => cases dirty <;> simp [renderVersion, he, renderGitDescribe, ht, hx, hd, join, whenDirty]
  case long => cases dirty <;> simp [renderVersion, he, renderGitDescribeLong, ht, hn, hx, hd, join, whenDirty]
  case longNone => cases dirty <;> simp [renderVersion, he, renderGitDescribeLong, ht, hx, hd, join, whenDirty]

theorem rendered_total {style : Str} (h : style ∈ versionStyles) (tag : Option Str) (n : Int) (hex : Str) (dirty : Bool) :
    ∃ s, Rendered style tag n hex dirty s := by
  have base : ∃ s, Rendered (py"pep440") tag n hex dirty s := by
    cases tag with
    | none => exact ⟨_, .pep440None⟩
    | some t =>
      by_cases hn : n ≠ 0 ∨ dirty = true
      · exact ⟨_, .pep440Since hn⟩
      · have h0 : n = 0 := Decidable.not_not.1 fun h => hn (.inl h)
        have h1 : dirty = false := by cases dirty; rfl; exact absurd (.inr rfl) hn
        subst h0; subst h1
        exact ⟨_, .pep440Exact⟩
  simp only [versionStyles, List.mem_cons, List.not_mem_nil, or_false] at h
  obtain ⟨s, hs⟩ := base
  rcases h with rfl | rfl | rfl | rfl | rfl | rfl | rfl | rfl
  · exact ⟨s, .unset hs⟩
  · exact ⟨s, .byDefault hs⟩
  · exact ⟨s, hs⟩
  all_goals cases tag with
    | none => first | exact ⟨_, .preNone⟩ | exact ⟨_, .postNone⟩ | exact ⟨_, .oldNone⟩ | exact ⟨_, .describeNone⟩ | exact ⟨_, .longNone⟩
    | some t =>
      by_cases hn : n = 0
      · subst hn
        cases dirty <;> first | exact ⟨_, .preExact⟩ | exact ⟨_, .postExact⟩ | exact ⟨_, .postSince (.inr rfl)⟩ |
          exact ⟨_, .oldExact⟩ | exact ⟨_, .oldSince (.inr rfl)⟩ | exact ⟨_, .describeExact⟩ | exact ⟨_, .long⟩
      · first | exact ⟨_, .preSince hn⟩ | exact ⟨_, .postSince (.inl hn)⟩ | exact ⟨_, .oldSince (.inl hn)⟩ |
          exact ⟨_, .describeSince hn⟩ | exact ⟨_, .long⟩

theorem renderVersion_unknown {p : Pieces} {style : Str} (he : p.error = none) (h : style ∉ versionStyles) :
    renderVersion p style = .raised .valueError := by
  simp only [versionStyles, List.mem_cons, List.not_mem_nil, or_false, not_or] at h
  obtain ⟨h0, h1, h2, h3, h4, h5, h6, h7⟩ := h
  simp [renderVersion, he, h0, h1, h2, h3, h4, h5, h6, h7]

/-! ### Names of the commit -/

theorem splitOn_ne (sep : Nat) (s : Str) : splitOn sep s ≠ [] := by
  cases s with
  | nil => simp [splitOn]
  | cons c r =>
    simp only [splitOn]
    split
    · simp
    · cases splitOn sep r <;> simp [splitOn.consHead]

theorem splitOn_spec (sep : Nat) (s : Str) : join [sep] (splitOn sep s) = s ∧ ∀ p ∈ splitOn sep s, sep ∉ p := by
  induction s with
  | nil => simp [splitOn, join]
  | cons c r ih =>
    have hne := splitOn_ne sep r
    simp only [splitOn]
    cases hs : splitOn sep r with
    | nil => exact absurd hs hne
    | cons x l =>
      rw [hs] at ih
      by_cases hc : c = sep
      · subst hc
        rw [if_pos rfl]
        refine ⟨by rw [join]; simp [ih.1], ?_⟩
        intro p hp
        rcases List.mem_cons.1 hp with rfl | hp
        · simp
        · exact ih.2 p hp
      · rw [if_neg hc, splitOn.consHead]
        refine ⟨?_, ?_⟩
        · cases l with
          | nil => simp only [join] at ih ⊢; rw [ih.1]
          | cons y l => simp only [join, List.cons_append] at ih ⊢; rw [ih.1]
        · intro p hp
          rcases List.mem_cons.1 hp with rfl | hp
          · have := ih.2 x (by simp)
            simp [Ne.symm hc, this]
          · exact ih.2 p (by simp [hp])

theorem splitOn_join (sep : Nat) (l : List Str) (hne : l ≠ []) (h : ∀ p ∈ l, sep ∉ p) : splitOn sep (join [sep] l) = l := by
  have one : ∀ p : Str, sep ∉ p → ∀ rest, splitOn sep (p ++ sep :: rest) = p :: splitOn sep rest := by
    intro p
    induction p with
    | nil => intro _ rest; simp [splitOn]
    | cons c p ih =>
      intro hp rest
      simp only [List.mem_cons, not_or] at hp
      simp only [List.cons_append, splitOn]
      rw [if_neg (Ne.symm hp.1), ih hp.2, splitOn.consHead]
  have last : ∀ p : Str, sep ∉ p → splitOn sep p = [p] := by
    intro p
    induction p with
    | nil => intro _; rfl
    | cons c p ih =>
      intro hp
      simp only [List.mem_cons, not_or] at hp
      simp only [splitOn]
      rw [if_neg (Ne.symm hp.1), ih hp.2, splitOn.consHead]
  induction l with
  | nil => exact absurd rfl hne
  | cons x l ih =>
    cases l with
    | nil => simpa [join] using last x (h x (by simp))
    | cons y l =>
      rw [join, List.append_assoc, List.singleton_append, one x (h x (by simp)), ih (by simp) fun p hp => h p (by simp [hp])]

theorem splitOn_iff (sep : Nat) (s : Str) (l : List Str) :
    splitOn sep s = l ↔ l ≠ [] ∧ s = join [sep] l ∧ ∀ p ∈ l, sep ∉ p := by
  constructor
  · rintro rfl; exact ⟨splitOn_ne sep s, (splitOn_spec sep s).1.symm, (splitOn_spec sep s).2⟩
  · rintro ⟨h1, rfl, h2⟩; exact splitOn_join sep l h1 h2

theorem splitOn_length (sep : Nat) (s : Str) : (splitOn sep s).length = 1 + s.count sep := by
  induction s with
  | nil => rfl
  | cons c r ih =>
    simp only [splitOn]
    by_cases hc : c = sep
    · subst hc; rw [if_pos rfl]; simp [ih]; omega
    · rw [if_neg hc, List.count_cons_of_ne hc, ← ih]
      have hne := splitOn_ne sep r
      cases h : splitOn sep r with
      | nil => exact absurd h hne
      | cons x l => simp [splitOn.consHead]

theorem stripParens_iff (s t : Str) : stripParens s = t ↔ ∃ a b, s = a ++ t ++ b ∧ (∀ c ∈ a ++ b, c = 40 ∨ c = 41) ∧
    (∀ c, t.head? = some c → c ≠ 40 ∧ c ≠ 41) ∧ (∀ c, t.getLast? = some c → c ≠ 40 ∧ c ≠ 41) := by
  let p : Nat → Bool := fun c => c == 40 || c == 41
  have hp : ∀ c, p c = true ↔ c = 40 ∨ c = 41 := by intro c; simp [p]
  have hpf : ∀ c, p c = false ↔ c ≠ 40 ∧ c ≠ 41 := by intro c; simp [p]
  constructor
  · rintro rfl
    obtain ⟨h1, h2⟩ := split_while p s
    have h5 := dropWhile_head_false (p := p) s
    generalize hm : s.dropWhile p = m at *
    obtain ⟨h3, h4⟩ := split_while p m.reverse
    have h6 := dropWhile_head_false (p := p) m.reverse
    have he : stripParens s = (m.reverse.dropWhile p).reverse := by simp only [stripParens, ← hm]; rfl
    rw [he]
    have hmm : m = (m.reverse.dropWhile p).reverse ++ (m.reverse.takeWhile p).reverse := by
      rw [← List.reverse_append, ← h3, List.reverse_reverse]
    refine ⟨s.takeWhile p, (m.reverse.takeWhile p).reverse, ?_, ?_, ?_, ?_⟩
    · rw [List.append_assoc, ← hmm]; exact h1
    · intro c hc
      rcases List.mem_append.1 hc with hc | hc
      · exact (hp c).1 (h2 c hc)
      · exact (hp c).1 (h4 c (by simpa using hc))
    · intro c hc
      refine (hpf c).1 (h5 c ?_)
      rw [hmm, List.head?_append, hc]; rfl
    · intro c hc
      refine (hpf c).1 (h6 c ?_)
      rwa [List.getLast?_reverse] at hc
  · rintro ⟨a, b, rfl, hab, h1, h2⟩
    have e1 : (a ++ t ++ b).dropWhile p = if t = [] then [] else t ++ b := by
      rw [List.append_assoc, dropWhile_append_all fun c hc => (hp c).2 (hab c (by simp [hc]))]
      cases t with
      | nil =>
        have := dropWhile_append_all (p := p) (a := b) (s := []) fun c hc => (hp c).2 (hab c (by simp [hc]))
        simpa using this
      | cons x t => exact dropWhile_eq_self fun c hc => (hpf c).2 (h1 c (by simpa using hc))
    show (((a ++ t ++ b).dropWhile p).reverse.dropWhile p).reverse = t
    rw [e1]
    by_cases ht : t = []
    · simp [ht]
    · rw [if_neg ht, List.reverse_append, dropWhile_append_all fun c hc => (hp c).2 (hab c (by simpa using Or.inr hc)),
        dropWhile_eq_self (fun c hc => (hpf c).2 (h2 c (by rwa [List.head?_reverse] at hc))), List.reverse_reverse]

theorem each_strip (l m : List Str) :
    Each (fun p r => ∃ a b, p = a ++ r ++ b ∧ AllSpace a ∧ AllSpace b ∧ Trimmed r) l m ↔ l.map strip = m := by
  induction l generalizing m with
  | nil =>
    constructor
    · intro h; cases h; rfl
    · rintro rfl; exact .nil
  | cons x l ih =>
    constructor
    · intro h
      cases h with
      | cons h1 h2 => rw [List.map_cons, (strip_iff _ _).2 h1, (ih _).1 h2]
    · rintro rfl
      exact .cons ((strip_iff _ _).1 rfl) ((ih _).2 rfl)

theorem refNames_iff (text : Str) (refs : List Str) :
    RefNames text refs ↔ refs = (splitOn 44 (stripParens text)).map strip := by
  unfold RefNames
  constructor
  · rintro ⟨o, core, c, pieces, h1, h2, h3, h4, h5, h6, h7, h8⟩
    rw [(stripParens_iff text core).2 ⟨o, c, h1, h2, h3, h4⟩, (splitOn_iff 44 core pieces).2 ⟨h5, h6, h7⟩, (each_strip _ _).1 h8]
  · rintro rfl
    obtain ⟨o, c, h1, h2, h3, h4⟩ := (stripParens_iff text _).1 rfl
    obtain ⟨h5, h6, h7⟩ := (splitOn_iff 44 (stripParens text) _).1 rfl
    exact ⟨o, _, c, _, h1, h2, h3, h4, h5, h6, h7, (each_strip _ _).2 rfl⟩

theorem prefix_iff (p s : Str) : p.isPrefixOf s = true ↔ ∃ t, s = p ++ t := by
  rw [List.isPrefixOf_iff_prefix]
  constructor
  · rintro ⟨t, h⟩; exact ⟨t, h.symm⟩
  · rintro ⟨t, h⟩; exact ⟨t, h.symm⟩

theorem tags_iff (w : Machine) (l : List Str) (t : Str) : t ∈ tagsOf w (toSet l) ↔ Candidate w l t := by
  have h0 : ∀ s, s ∈ toSet (((toSet l).filter fun r => (py"tag: ").isPrefixOf r).map fun r => r.drop (py"tag: ").length) ↔
      py"tag: " ++ s ∈ l := by
    intro s
    rw [mem_toSet, List.mem_map]
    constructor
    · rintro ⟨r, hr, rfl⟩
      rw [List.mem_filter, mem_toSet, prefix_iff] at hr
      obtain ⟨hr, u, rfl⟩ := hr
      simpa using hr
    · intro h
      exact ⟨_, List.mem_filter.2 ⟨(mem_toSet _ _).2 h, (prefix_iff _ _).2 ⟨s, rfl⟩⟩, by simp⟩
  unfold tagsOf Candidate
  dsimp only
  split
  · rename_i he
    rw [List.isEmpty_iff] at he
    have hn : ∀ s, py"tag: " ++ s ∉ l := fun s hs => by have := (h0 s).2 hs; rw [he] at this; cases this
    rw [List.mem_filter, mem_toSet, List.any_eq_true]
    constructor
    · rintro ⟨h, c, hc, hd⟩
      exact .inr ⟨hn, h, c, hc, (isDec_iff w c).1 hd⟩
    · rintro (h | ⟨_, h, c, hc, hd⟩)
      · exact absurd h (hn t)
      · exact ⟨h, c, hc, (isDec_iff w c).2 hd⟩
  · rename_i he
    rw [h0]
    constructor
    · exact .inl
    · rintro (h | ⟨hn, _⟩)
      · exact h
      · refine absurd ?_ he
        rw [List.isEmpty_iff]
        refine List.eq_nil_iff_forall_not_mem.2 fun s hs => hn s ((h0 s).1 hs)

theorem tags_nodup (w : Machine) (l : List Str) : (tagsOf w (toSet l)).Nodup := by
  unfold tagsOf
  dsimp only
  split
  · exact (nodup_toSet l).filter _
  · exact nodup_toSet _

theorem find_first {l : List Str} (hs : l.Pairwise (· < ·)) (q : Str → Bool) (x : Str) :
    l.find? q = some x ↔ x ∈ l ∧ q x = true ∧ ∀ y ∈ l, q y = true → ¬ y < x := by
  induction l with
  | nil => simp
  | cons a l ih =>
    obtain ⟨h1, h2⟩ := List.pairwise_cons.1 hs
    rw [List.find?_cons]
    cases ha : q a with
    | true =>
      simp only [Option.some.injEq]
      constructor
      · rintro rfl
        refine ⟨by simp, ha, ?_⟩
        intro y hy _ hlt
        rcases List.mem_cons.1 hy with rfl | hy
        · exact List.lt_irrefl _ hlt
        · exact List.lt_irrefl _ (List.lt_trans hlt (h1 y hy))
      · rintro ⟨hx, _, hmin⟩
        rcases List.mem_cons.1 hx with rfl | hx
        · rfl
        · exact absurd (h1 x hx) (hmin a (by simp) ha)
    | false =>
      simp only [ih h2]
      constructor
      · rintro ⟨hx, hq, hmin⟩
        refine ⟨by simp [hx], hq, ?_⟩
        intro y hy hqy
        rcases List.mem_cons.1 hy with rfl | hy
        · rw [ha] at hqy; cases hqy
        · exact hmin y hy hqy
      · rintro ⟨hx, hq, hmin⟩
        rcases List.mem_cons.1 hx with rfl | hx
        · rw [ha] at hq; cases hq
        · exact ⟨hx, hq, fun y hy => hmin y (by simp [hy])⟩

theorem archived_iff (k : Keywords) (refs : List Str) : Archived k refs ↔
    (py"$Format").isPrefixOf (strip k.refnames) = false ∧ refs = (splitOn 44 (stripParens (strip k.refnames))).map strip := by
  constructor
  · rintro ⟨a, text, b, h1, h2, h3, h4, h5, h6⟩
    have hs : strip k.refnames = text := (strip_iff _ _).2 ⟨a, b, h1, h2, h3, h4⟩
    rw [hs]
    refine ⟨?_, (refNames_iff _ _).1 h6⟩
    cases hp : (py"$Format").isPrefixOf text with
    | false => rfl
    | true => obtain ⟨s, h⟩ := (prefix_iff _ _).1 hp; exact absurd h (h5 s)
  · rintro ⟨h1, h2⟩
    obtain ⟨a, b, h3, h4, h5, h6⟩ := (strip_iff k.refnames _).1 rfl
    refine ⟨a, _, b, h3, h4, h5, h6, ?_, (refNames_iff _ _).2 h2⟩
    intro s hs
    rw [(prefix_iff _ _).2 ⟨s, hs⟩] at h1; cases h1

theorem notArchived_iff (k : Keywords) : NotArchived k ↔ (py"$Format").isPrefixOf (strip k.refnames) = true := by
  rw [prefix_iff]
  constructor
  · rintro ⟨a, s, b, h⟩; exact ⟨s, (strip_iff _ _).2 ⟨a, b, h⟩⟩
  · rintro ⟨s, h⟩
    obtain ⟨a, b, h⟩ := (strip_iff _ _).1 h
    exact ⟨a, s, b, h⟩

theorem sortedTags (w : Machine) (l : List Str) (pre t : Str) :
    (sortStr (tagsOf w (toSet l))).find? (fun r => pre.isPrefixOf r) = some t ↔
      Candidate w l t ∧ (∃ s, t = pre ++ s) ∧ ∀ s, Candidate w l (pre ++ s) → ¬ pre ++ s < t := by
  rw [find_first (sortStr_sorted _ (tags_nodup w l)), sortStr_mem, tags_iff, prefix_iff]
  constructor
  · rintro ⟨h1, h2, h3⟩
    exact ⟨h1, h2, fun s hs => h3 _ ((sortStr_mem _ _).2 ((tags_iff ..).2 hs)) ((prefix_iff _ _).2 ⟨s, rfl⟩)⟩
  · rintro ⟨h1, h2, h3⟩
    refine ⟨h1, h2, fun y hy hp => ?_⟩
    obtain ⟨s, rfl⟩ := (prefix_iff _ _).1 hp
    exact h3 s ((tags_iff ..).1 ((sortStr_mem _ _).1 hy))

/-! ### Paths -/

theorem dirname_iff (p q : Str) : dirname p = q ↔ ParentDir p q := by
  have hne : ∀ name : Str, 47 ∉ name → ∀ c ∈ name.reverse, (fun c : Nat => c != 47) c = true := by
    intro name h c hc
    simp only [bne_iff_ne, ne_eq]
    rintro rfl
    exact h (by simpa using hc)
  have head : ∀ (r name : Str), 47 ∉ name → ((r ++ [47] ++ name).reverse.dropWhile (· != 47)).reverse = r ++ [47] := by
    intro r name h
    rw [List.reverse_append, dropWhile_append_all (hne name h), List.reverse_append]
    simp
  have total : ∀ p : Str, ∃ q, ParentDir p q := by
    intro p
    by_cases h : 47 ∈ p
    · obtain ⟨h1, h2⟩ := split_while (· != 47) p.reverse
      have h3 := dropWhile_head_false (p := (· != 47)) p.reverse
      generalize ha : p.reverse.takeWhile (· != 47) = a at *
      generalize hb : p.reverse.dropWhile (· != 47) = b at *
      have hp : p = b.reverse ++ a.reverse := by rw [← List.reverse_append, ← h1, List.reverse_reverse]
      have hna : 47 ∉ a.reverse := by intro h; have := h2 47 (by simpa using h); simp at this
      cases b with
      | nil => rw [hp] at h; exact absurd h (by simpa using hna)
      | cons c b =>
        have hc : c = 47 := by have := h3 c rfl; simpa using this
        subst hc
        obtain ⟨h4, h5⟩ := split_while (· == 47) b
        have h6 := dropWhile_head_false (p := (· == 47)) b
        generalize hs : b.takeWhile (· == 47) = sl at *
        generalize hq : b.dropWhile (· == 47) = qr at *
        have hsl : ∀ c ∈ sl.reverse ++ [47], c = 47 := by
          intro c hc
          rcases List.mem_append.1 hc with hc | hc
          · have := h5 c (by simpa using hc); simpa using this
          · simpa using hc
        have he : p = qr.reverse ++ (sl.reverse ++ [47]) ++ a.reverse := by rw [hp, h4]; simp
        cases qr with
        | nil => exact ⟨_, by rw [he]; simpa using ParentDir.top (slashes := sl.reverse ++ [47]) (by simp) hsl hna⟩
        | cons x qr =>
          have hx : (x :: qr).reverse.getLast? ≠ some 47 := by
            have := h6 x rfl
            simpa using this
          exact ⟨_, by rw [he]; exact .path (by simp) hsl hna (by simp) hx⟩
    · exact ⟨[], .here h⟩
  have sound : ∀ q, ParentDir p q → dirname p = q := by
    intro q h
    have slash : ∀ sl : Str, sl ≠ [] → (∀ c ∈ sl, c = 47) → ∃ r, sl = r ++ [47] ∧ ∀ c ∈ r, c = 47 := by
      intro sl h1 h2
      refine ⟨sl.dropLast, ?_, fun c hc => h2 c (List.dropLast_subset _ hc)⟩
      have := List.dropLast_concat_getLast h1
      rw [h2 _ (List.getLast_mem h1)] at this
      exact this.symm
    cases h with
    | @path q sl name h1 h2 h3 h4 h5 =>
      obtain ⟨r, rfl, hr⟩ := slash sl h1 h2
      have := head (q ++ r) name h3
      unfold dirname
      simp only [List.append_assoc] at this ⊢
      rw [this]
      rw [if_neg]
      · rw [← List.append_assoc, List.reverse_append, List.reverse_append, ← List.append_assoc,
          dropWhile_append_all, dropWhile_eq_self, List.reverse_reverse]
        · intro c hc
          rw [List.head?_reverse] at hc
          have : c ≠ 47 := by rintro rfl; exact h5 hc
          simpa using this
        · intro c hc
          simp only [List.reverse_cons, List.reverse_nil, List.nil_append, List.cons_append, List.mem_cons, List.mem_reverse] at hc
          rcases hc with rfl | hc
          · simp
          · simp [hr c hc]
      · intro hall
        rw [List.all_eq_true] at hall
        cases hq : q.getLast? with
        | none => exact h4 (List.getLast?_eq_none_iff.1 hq)
        | some x =>
          have := hall x (by simp [List.mem_of_getLast? hq])
          have hx : x = 47 := by simpa using this
          exact h5 (by rw [hq, hx])
    | @top sl name h1 h2 h3 =>
      obtain ⟨r, rfl, hr⟩ := slash q h1 h2
      have := head r name h3
      unfold dirname
      dsimp only
      rw [this, if_pos]
      rw [List.all_eq_true]
      intro c hc; simp [h2 c hc]
    | here h3 =>
      unfold dirname
      have : p.reverse.dropWhile (· != 47) = [] := by
        have := dropWhile_append_all (p := (· != 47)) (a := p.reverse) (s := []) (hne p h3)
        simpa using this
      simp [this]
  constructor
  · rintro rfl
    obtain ⟨q, hq⟩ := total p
    rw [sound q hq]; exact hq
  · exact sound q

theorem ancestor_iff {α : Type} (l : List α) (p q : Str) : l.foldl (fun r _ => dirname r) p = q ↔ Ancestor l.length p q := by
  induction l generalizing p with
  | nil =>
    constructor
    · rintro rfl; exact .self
    · intro h; cases h; rfl
  | cons x l ih =>
    rw [List.foldl_cons, ih, List.length_cons]
    constructor
    · intro h; exact .up ((dirname_iff _ _).1 rfl) h
    · intro h
      cases h with
      | up h1 h2 => rw [(dirname_iff _ _).2 h1]; exact h2

theorem sourceTree_iff (cfg : VersionConfig) (file root : Str) :
    (splitOn 47 cfg.versionfileSource).foldl (fun r _ => dirname r) file = root ↔ SourceTree cfg file root := by
  rw [ancestor_iff, splitOn_length]; exact Iff.rfl

theorem fileIn_eq (dir name : Str) : joinPath dir name = fileIn dir name := by
  unfold joinPath fileIn
  cases dir with
  | nil => simp
  | cons c r => simp

theorem basename_iff (p n : Str) : basename p = n ↔ 47 ∉ n ∧ (p = n ∨ ∃ d, p = d ++ [47] ++ n) := by
  have hne : ∀ name : Str, 47 ∉ name → ∀ c ∈ name.reverse, (fun c : Nat => c != 47) c = true := by
    intro name h c hc
    simp only [bne_iff_ne, ne_eq]
    rintro rfl
    exact h (by simpa using hc)
  unfold basename
  constructor
  · rintro rfl
    obtain ⟨h1, h2⟩ := split_while (· != 47) p.reverse
    have h3 := dropWhile_head_false (p := (· != 47)) p.reverse
    generalize ha : p.reverse.takeWhile (· != 47) = a at *
    generalize hb : p.reverse.dropWhile (· != 47) = b at *
    have hp : p = b.reverse ++ a.reverse := by rw [← List.reverse_append, ← h1, List.reverse_reverse]
    refine ⟨by intro h; have := h2 47 (by simpa using h); simp at this, ?_⟩
    cases b with
    | nil => exact .inl (by simpa using hp)
    | cons c b =>
      have hc : c = 47 := by have := h3 c rfl; simpa using this
      exact .inr ⟨b.reverse, by rw [hp, hc]; simp⟩
  · rintro ⟨h, rfl | ⟨d, rfl⟩⟩
    · have := List.takeWhile_append_of_pos (l₁ := p.reverse) (l₂ := []) (hne p h)
      simp only [List.append_nil, List.takeWhile_nil] at this
      rw [this, List.reverse_reverse]
    · rw [List.reverse_append, List.reverse_append, List.takeWhile_append_of_pos (hne n h)]
      simp

end DS
