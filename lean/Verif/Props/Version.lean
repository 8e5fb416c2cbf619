import Verif.Proofs.Version

/-
C66: `datashape.__version__`.
-/
namespace DS

theorem keywords_not {w : Machine} {k : Keywords} {pre : Str} (h : NotArchived k) : versionsFromKeywords w k pre = .notThis := by
  simp only [versionsFromKeywords, (notArchived_iff k).1 h, ↓reduceIte]

theorem archived_keywords {w : Machine} {k : Keywords} {pre : Str} {l : List Str} (h : Archived k l) :
    versionsFromKeywords w k pre = match (sortStr (tagsOf w (toSet l))).find? fun r => pre.isPrefixOf r with
      | some r => .value ⟨r.drop pre.length, some (strip k.full), some false, none⟩
      | none => .value ⟨py"0+unknown", some (strip k.full), some false, some (py"no suitable tags")⟩ := by
  obtain ⟨h1, rfl⟩ := (archived_iff k l).1 h
  simp only [versionsFromKeywords, h1, Bool.false_eq_true, ↓reduceIte]
  generalize List.find? _ _ = o
  cases o <;> rfl

theorem checkout_pieces {w : Machine} {root out full : Str} (pre : Str) (h : Checkout w root out full) :
    piecesFromVcs w pre root = readDescribe w pre root out full := by
  obtain ⟨h1, h2, h3⟩ := h
  have h2' := (prints_iff ..).2 h2
  have h3' := (prints_iff ..).2 h3
  simp only [describeArgs, revParseArgs] at h2' h3'
  simp only [piecesFromVcs, fileIn_eq, h1, h2', h3', Bool.not_true, Bool.false_eq_true, ↓reduceIte]

theorem no_checkout {w : Machine} {root : Str} (pre : Str) (h : ∀ out full, ¬ Checkout w root out full) :
    piecesFromVcs w pre root = .notThis := by
  unfold piecesFromVcs
  rw [fileIn_eq]
  cases h1 : w.pathExists (fileIn root (py".git")) with
  | false => rfl
  | true =>
    simp only [Bool.not_true, Bool.false_eq_true, ↓reduceIte]
    cases h2 : runCommand w [py"describe", py"--tags", py"--dirty", py"--always", py"--long"] root (gits w) with
    | none => rfl
    | some out =>
      cases h3 : runCommand w [py"rev-parse", py"HEAD"] root (gits w) with
      | none => rfl
      | some full => exact absurd ⟨h1, (prints_iff ..).1 h2, (prints_iff ..).1 h3⟩ (h out full)

theorem checkout_text {w : Machine} {root out full : Str} (h : Checkout w root out full) : strip out = out ∧ strip full = full :=
  ⟨prints_trimmed h.2.1, prints_trimmed h.2.2⟩

theorem read_tagged {w : Machine} {root out full text pre t hex : Str} {dirty : Bool} {n : Nat} (h : Checkout w root out full)
    (hm : Marked out text dirty) (hd : Described w text (pre ++ t) n hex) :
    readDescribe w pre root out full = .value ⟨full, hex, none, dirty, some t, n⟩ := by
  obtain ⟨m1, m2⟩ := (marked_iff ..).1 hm
  obtain ⟨s1, s2⟩ := checkout_text h
  have hy : text.contains 45 = true := by simpa using described_hyphen hd
  simp only [readDescribe, s1, s2, ← m1, ← m2, hy, (describe_iff ..).2 hd, ↓reduceIte]
  rw [if_pos ((prefix_iff _ _).2 ⟨t, rfl⟩)]
  simp

theorem read_other {w : Machine} {root out full text pre t hex : Str} {dirty : Bool} {n : Nat} (h : Checkout w root out full)
    (hm : Marked out text dirty) (hd : Described w text t n hex) (hp : ∀ s, t ≠ pre ++ s) :
    readDescribe w pre root out full = .value ⟨full, full.take 7,
      some (py"tag '" ++ t ++ py"' doesn't start with prefix '" ++ pre ++ py"'"), dirty, none, 0⟩ := by
  obtain ⟨m1, m2⟩ := (marked_iff ..).1 hm
  obtain ⟨s1, s2⟩ := checkout_text h
  have hy : text.contains 45 = true := by simpa using described_hyphen hd
  simp only [readDescribe, s1, s2, ← m1, ← m2, hy, (describe_iff ..).2 hd, ↓reduceIte]
  rw [if_neg]
  intro h
  obtain ⟨s, hs⟩ := (prefix_iff _ _).1 h
  exact hp s hs

theorem read_unreadable {w : Machine} {root out full text pre : Str} {dirty : Bool} (h : Checkout w root out full)
    (hm : Marked out text dirty) (hy : 45 ∈ text) (hd : ∀ t n hex, ¬ Described w text t n hex) :
    readDescribe w pre root out full = .value ⟨full, full.take 7,
      some (py"unable to parse git-describe output: '" ++ out ++ py"'"), dirty, none, 0⟩ := by
  obtain ⟨m1, m2⟩ := (marked_iff ..).1 hm
  obtain ⟨s1, s2⟩ := checkout_text h
  have hy : text.contains 45 = true := by simpa using hy
  simp only [readDescribe, s1, s2, ← m1, ← m2, hy, (describe_none ..).2 hd, ↓reduceIte]

theorem read_untagged {w : Machine} {root out full text pre : Str} {dirty : Bool} (h : Checkout w root out full)
    (hm : Marked out text dirty) (hy : 45 ∉ text) :
    readDescribe w pre root out full = match runCommand w revListArgs root (gits w) with
      | none => .raised .typeError
      | some count => match w.int count with
        | none => .raised .valueError
        | some n => .value ⟨full, full.take 7, none, dirty, none, n⟩ := by
  obtain ⟨m1, m2⟩ := (marked_iff ..).1 hm
  obtain ⟨s1, s2⟩ := checkout_text h
  have hy : text.contains 45 = false := by simpa using hy
  simp only [readDescribe, s1, s2, ← m1, ← m2, hy, revListArgs]
  generalize runCommand w [py"rev-list", py"HEAD", py"--count"] root (gits w) = o
  cases o with
  | none => rfl
  | some count => simp only [Bool.false_eq_true, ↓reduceIte]; cases w.int count <;> rfl

/-- an answer of a method that is tried before the others fall back -/
def Method.ofExcept {α : Type} : Except PyErr α → Method α
  | .ok v => .value v
  | .error e => .raised e

/-- the answer of the checkout -/
theorem versions_of_checkout {w : Machine} {cfg : VersionConfig} {k : Keywords} {file root out full : Str} (hk : NotArchived k)
    (hf : w.file = some file) (hs : SourceTree cfg file root) (hc : Checkout w root out full) {r : Except PyErr VersionInfo}
    (h : (match readDescribe w cfg.tagPrefix root out full with
      | .notThis => Method.notThis
      | .raised e => .raised e
      | .value p => renderVersion p cfg.style) = Method.ofExcept r) : getVersionsWith w cfg k = r := by
  have : versionsFromVcs w cfg root = Method.ofExcept r := by
    rw [← h]; unfold versionsFromVcs; rw [checkout_pieces cfg.tagPrefix hc]
    cases readDescribe w cfg.tagPrefix root out full <;> rfl
  simp only [getVersionsWith, keywords_not hk, hf, (sourceTree_iff ..).2 hs, this]
  cases r <;> rfl

theorem version_sound {w : Machine} {cfg : VersionConfig} {k : Keywords} {r : Except PyErr VersionInfo}
    (h : VersionOf w cfg k r) : getVersionsWith w cfg k = r := by
  cases h with
  | @archive refs t full a b h1 h2 h3 h4 h5 h6 h7 =>
    have := (sortedTags w refs cfg.tagPrefix _).2 ⟨h2, ⟨t, rfl⟩, h3⟩
    have hf : strip k.full = full := (strip_iff _ _).2 ⟨a, b, h4, h5, h6, h7⟩
    simp only [getVersionsWith, archived_keywords h1, this, hf]
    simp
  | @archiveNone refs full a b h1 h2 h4 h5 h6 h7 =>
    have : (sortStr (tagsOf w (toSet refs))).find? (fun r => cfg.tagPrefix.isPrefixOf r) = none := by
      cases hf : (sortStr (tagsOf w (toSet refs))).find? (fun r => cfg.tagPrefix.isPrefixOf r) with
      | none => rfl
      | some t =>
        obtain ⟨g1, ⟨s, rfl⟩, _⟩ := (sortedTags w refs cfg.tagPrefix t).1 hf
        exact absurd g1 (h2 s)
    have hf : strip k.full = full := (strip_iff _ _).2 ⟨a, b, h4, h5, h6, h7⟩
    simp only [getVersionsWith, archived_keywords h1, this, hf]
  | noFile h1 h2 => simp only [getVersionsWith, keywords_not h1, h2]
  | @tagged file root out full text dirty t n hex s h1 h2 h3 h4 h5 h6 h7 =>
    refine versions_of_checkout h1 h2 h3 h4 ?_
    rw [read_tagged h4 h5 h6]
    refine renderVersion_ok rfl ?_
    have : Pieces.tag? ⟨full, hex, none, dirty, some t, n⟩ = if t = [] then none else some t := by
      cases t <;> simp [Pieces.tag?]
    rw [this]; exact h7
  | @untagged file root out full text dirty count n s h1 h2 h3 h4 h5 h6 h7 h8 h9 =>
    refine versions_of_checkout h1 h2 h3 h4 ?_
    rw [read_untagged h4 h5 h6, (prints_iff ..).2 h7]
    simp only [h8]
    exact renderVersion_ok rfl h9
  | @otherTag file root out full text dirty t n hex h1 h2 h3 h4 h5 h6 h7 =>
    refine versions_of_checkout h1 h2 h3 h4 ?_
    rw [read_other h4 h5 h6 h7]
    rfl
  | @unreadable file root out full text dirty h1 h2 h3 h4 h5 h6 h7 =>
    refine versions_of_checkout h1 h2 h3 h4 ?_
    rw [read_unreadable h4 h5 h6 h7]
    rfl
  | @countFails file root out full text dirty h1 h2 h3 h4 h5 h6 h7 =>
    refine versions_of_checkout h1 h2 h3 h4 ?_
    have : runCommand w revListArgs root (gits w) = none := by
      cases hr : runCommand w revListArgs root (gits w) with
      | none => rfl
      | some c => exact absurd ((prints_iff ..).1 hr) (h7 c)
    rw [read_untagged h4 h5 h6, this]
    rfl
  | @countBad file root out full text dirty count h1 h2 h3 h4 h5 h6 h7 h8 =>
    refine versions_of_checkout h1 h2 h3 h4 ?_
    rw [read_untagged h4 h5 h6, (prints_iff ..).2 h7]
    simp only [h8]
    rfl
  | @styleTagged file root out full text dirty t n hex h1 h2 h3 h4 h5 h6 h7 =>
    refine versions_of_checkout h1 h2 h3 h4 ?_
    rw [read_tagged h4 h5 h6]
    exact renderVersion_unknown rfl h7
  | @styleUntagged file root out full text dirty count n h1 h2 h3 h4 h5 h6 h7 h8 h9 =>
    refine versions_of_checkout h1 h2 h3 h4 ?_
    rw [read_untagged h4 h5 h6, (prints_iff ..).2 h7]
    simp only [h8]
    exact renderVersion_unknown rfl h9
  | @directory file root v h1 h2 h3 h4 h5 h6 =>
    have hb := (basename_iff root _).2 h6
    have hp : cfg.parentdirPrefix.isPrefixOf (cfg.parentdirPrefix ++ v) = true := (prefix_iff _ _).2 ⟨v, rfl⟩
    have he : cfg.parentdirPrefix.isEmpty = false := by simpa using h5
    simp only [getVersionsWith, keywords_not h1, h2, (sourceTree_iff ..).2 h3, versionsFromVcs, no_checkout cfg.tagPrefix h4, he,
      versionsFromParentdir, hb, hp, Bool.false_eq_true, ↓reduceIte]
    simp
  | @unknown file root h1 h2 h3 h4 h5 =>
    simp only [getVersionsWith, keywords_not h1, h2, (sourceTree_iff ..).2 h3, versionsFromVcs, no_checkout cfg.tagPrefix h4]
    split
    · rfl
    · rename_i he
      have hp : ¬ cfg.parentdirPrefix.isPrefixOf (basename root) = true := by
        intro hp
        obtain ⟨v, hv⟩ := (prefix_iff _ _).1 hp
        rcases h5 with h5 | h5
        · exact he (by simp [h5])
        · exact h5 v ((basename_iff root _).1 hv)
      simp only [versionsFromParentdir, hp, Bool.false_eq_true, ↓reduceIte]

theorem strip_exists (s : Str) : ∃ a t b, s = a ++ t ++ b ∧ AllSpace a ∧ AllSpace b ∧ Trimmed t := by
  obtain ⟨a, b, h⟩ := strip_spec s
  exact ⟨a, _, b, h⟩

theorem version_total (w : Machine) (cfg : VersionConfig) (k : Keywords) : ∃ r, VersionOf w cfg k r := by
  by_cases hk : NotArchived k
  · cases hf : w.file with
    | none => exact ⟨_, .noFile hk hf⟩
    | some file =>
      obtain ⟨root, hs⟩ : ∃ root, SourceTree cfg file root := ⟨_, (sourceTree_iff ..).1 rfl⟩
      by_cases hc : ∃ out full, Checkout w root out full
      · obtain ⟨out, full, hc⟩ := hc
        obtain ⟨text, dirty, hm⟩ : ∃ text dirty, Marked out text dirty := ⟨_, _, (marked_iff ..).2 ⟨rfl, rfl⟩⟩
        by_cases hy : 45 ∈ text
        · cases hd : matchDescribe w text with
          | none => exact ⟨_, .unreadable hk hf hs hc hm hy ((describe_none ..).1 hd)⟩
          | some x =>
            obtain ⟨t, n, hex⟩ := x
            have hd := (describe_iff ..).1 hd
            by_cases hp : ∃ s, t = cfg.tagPrefix ++ s
            · obtain ⟨s, rfl⟩ := hp
              by_cases hst : cfg.style ∈ versionStyles
              · obtain ⟨v, hv⟩ := rendered_total hst (if s = [] then none else some s) n hex dirty
                exact ⟨_, .tagged hk hf hs hc hm hd hv⟩
              · exact ⟨_, .styleTagged hk hf hs hc hm hd hst⟩
            · exact ⟨_, .otherTag hk hf hs hc hm hd fun s h => hp ⟨s, h⟩⟩
        · by_cases hr : ∃ count, Prints w root revListArgs count
          · obtain ⟨count, hr⟩ := hr
            cases hi : w.int count with
            | none => exact ⟨_, .countBad hk hf hs hc hm hy hr hi⟩
            | some n =>
              by_cases hst : cfg.style ∈ versionStyles
              · obtain ⟨v, hv⟩ := rendered_total hst none n (full.take 7) dirty
                exact ⟨_, .untagged hk hf hs hc hm hy hr hi hv⟩
              · exact ⟨_, .styleUntagged hk hf hs hc hm hy hr hi hst⟩
          · exact ⟨_, .countFails hk hf hs hc hm hy fun c h => hr ⟨c, h⟩⟩
      · have hc : ∀ out full, ¬ Checkout w root out full := fun o f h => hc ⟨o, f, h⟩
        by_cases hp : cfg.parentdirPrefix = []
        · exact ⟨_, .unknown hk hf hs hc (.inl hp)⟩
        · by_cases hv : ∃ v, 47 ∉ cfg.parentdirPrefix ++ v ∧
              (root = cfg.parentdirPrefix ++ v ∨ ∃ p, root = p ++ [47] ++ (cfg.parentdirPrefix ++ v))
          · obtain ⟨v, hv⟩ := hv
            exact ⟨_, .directory hk hf hs hc hp hv⟩
          · exact ⟨_, .unknown hk hf hs hc (.inr fun v h => hv ⟨v, h⟩)⟩
  · obtain ⟨refs, ha⟩ : ∃ refs, Archived k refs :=
      ⟨_, (archived_iff ..).2 ⟨Bool.eq_false_iff.2 (mt (notArchived_iff k).2 hk), rfl⟩⟩
    obtain ⟨a, full, b, h1, h2, h3, h4⟩ := strip_exists k.full
    cases hf : (sortStr (tagsOf w (toSet refs))).find? (fun r => cfg.tagPrefix.isPrefixOf r) with
    | some t =>
      obtain ⟨g1, ⟨s, rfl⟩, g2⟩ := (sortedTags w refs cfg.tagPrefix t).1 hf
      exact ⟨_, .archive ha g1 g2 h1 h2 h3 h4⟩
    | none =>
      refine ⟨_, .archiveNone ha (fun s hs => ?_) h1 h2 h3 h4⟩
      rw [List.find?_eq_none] at hf
      exact hf _ ((sortStr_mem _ _).2 ((tags_iff ..).2 hs)) ((prefix_iff _ _).2 ⟨s, rfl⟩)

/-- **C66.** `get_versions()` returns and raises what the specification says, whatever Git, the file system and the
configuration are like. -/
theorem C66.version (w : Machine) (cfg : VersionConfig) (k : Keywords) (r : Except PyErr VersionInfo) :
    getVersionsWith w cfg k = r ↔ VersionOf w cfg k r := by
  constructor
  · rintro rfl
    obtain ⟨r, hr⟩ := version_total w cfg k
    rw [version_sound hr]; exact hr
  · exact version_sound

/-! ### The version that is shown -/

theorem source_not_archived : NotArchived keywordsInSource :=
  (notArchived_iff _).2 (by decide)

theorem plain_tree {root : Str} (h : root ≠ [] ∧ root.getLast? ≠ some 47) :
    SourceTree versionConfig (root ++ py"/datashape/_version.py") root := by
  have h1 : ParentDir (root ++ py"/datashape/_version.py") (root ++ py"/datashape") := by
    have := ParentDir.path (q := root ++ py"/datashape") (slashes := [47]) (name := py"_version.py") (by simp) (by simp)
      (by decide) (by simp) (by simp)
    simpa using this
  have h2 : ParentDir (root ++ py"/datashape") root := by
    have := ParentDir.path (q := root) (slashes := [47]) (name := py"datashape") (by simp) (by simp) (by decide) h.1 h.2
    simpa using this
  exact .up h1 (.up h2 .self)

theorem natStr_decimal (w : Machine) (n : Nat) : Decimal w (natStr n) n := by
  refine (decimal_iff ..).2 ⟨?_, ?_, ?_⟩
  · obtain ⟨c, r, h, _⟩ := natStr_cons n; simp [h]
  · intro c hc
    exact (isDec_iff w c).2 (.inl ((isDigit_iff' c).1 (natStr_digits n c hc)))
  · have key : ∀ (s : Str) (a : Nat), (∀ c ∈ s, isDigit c = true) →
        s.foldl (fun a c => 10 * a + (w.digitVal c).getD 0) a = digitsVal a s := by
      intro s
      induction s with
      | nil => intro a _; rfl
      | cons c s ih =>
        intro a h
        have hc := h c (by simp)
        have hd := (digitVal_iff w c (c - 48)).2 (.inl ⟨((isDigit_iff' c).1 hc).1, ((isDigit_iff' c).1 hc).2, rfl⟩)
        simp only [List.foldl_cons, hd, Option.getD_some]
        rw [ih _ fun x hx => h x (by simp [hx])]
        simp [digitsVal]
    rw [Machine.decVal, key _ _ (natStr_digits n), digitsVal_natStr]

theorem hex_no_dirty {s hex : Str} (hh : HexText hex) (t : Str) : s ++ hex ≠ t ++ py"-dirty" := by
  intro h
  have h1 : (s ++ hex).getLast? = some 121 := by rw [h]; simp
  rw [List.getLast?_append] at h1
  cases hg : hex.getLast? with
  | none => exact hh.1 (List.getLast?_eq_none_iff.1 hg)
  | some x =>
    rw [hg] at h1
    have hx : x = 121 := by simpa using h1
    have := hh.2 x (List.mem_of_getLast? hg)
    omega

theorem checkout_facts {w : Machine} {root tag : Str} {n : Nat} {hex : Str} {dirty : Bool}
    (h : TaggedCheckout w root tag n hex dirty) : ∃ full, Checkout w root (describeText tag n hex dirty) full ∧
      Marked (describeText tag n hex dirty) (tag ++ py"-" ++ natStr n ++ py"-g" ++ hex) dirty ∧
      Described w (tag ++ py"-" ++ natStr n ++ py"-g" ++ hex) tag n hex := by
  obtain ⟨full, hf⟩ := h.hash
  refine ⟨full, ⟨?_, h.describe, hf⟩, ?_, natStr n, natStr_decimal w n, h.hex, h.tag.1, h.tag.2, .inl rfl⟩
  · have : fileIn root (py".git") = root ++ py"/.git" := by
      unfold fileIn; rw [if_neg (by simp [h.absolute])]; simp
    rw [this]; exact h.git
  · cases dirty with
    | true => exact .inl ⟨rfl, by simp [describeText]⟩
    | false => exact .inr ⟨rfl, by simp [describeText], fun s => by simpa [describeText] using hex_no_dirty (s := tag ++ py"-" ++ natStr n ++ py"-g") h.hex s⟩

/-- **C66.** A checkout: the version is the tag when the commit has the tag and nothing is changed; otherwise the number of
commits since the tag, the hash and the mark `dirty` follow, behind `+`, or behind `.` when the tag has a `+` already. The
tag may contain hyphens and digits. -/
theorem C66.checkout {w : Machine} {root tag : Str} {n : Nat} {hex : Str} {dirty : Bool}
    (h : TaggedCheckout w root tag n hex dirty) :
    datashapeVersion w keywordsInSource = .ok (if n = 0 ∧ dirty = false then tag
      else withLocal tag ([natStr n, py"g" ++ hex] ++ whenDirty dirty (py"dirty"))) := by
  obtain ⟨full, hc, hm, hd⟩ := checkout_facts h
  have key : ∀ s, Rendered (py"pep440") (some tag) n hex dirty s → datashapeVersion w keywordsInSource = .ok s := by
    intro s hs
    have := version_sound (.tagged source_not_archived h.file (plain_tree h.absolute) hc hm (cfg := versionConfig) (t := tag)
      (by simpa [versionConfig] using hd) (by rw [if_neg h.tag.1]; exact hs))
    simp only [datashapeVersion, getVersions, this, Except.map]
  by_cases h0 : n = 0 ∧ dirty = false
  · rw [if_pos h0]
    obtain ⟨rfl, rfl⟩ := h0
    exact key _ .pep440Exact
  · rw [if_neg h0]
    refine key _ (.pep440Since ?_)
    cases dirty with
    | true => exact .inr rfl
    | false => exact .inl (by intro h; exact h0 ⟨by omega, rfl⟩)

theorem join_dot_append (l m : List Str) (hl : l ≠ []) (hm : m ≠ []) :
    join (py".") (l ++ m) = join (py".") l ++ py"." ++ join (py".") m := by
  induction l with
  | nil => exact absurd rfl hl
  | cons x l ih =>
    cases l with
    | nil =>
      cases m with
      | nil => exact absurd rfl hm
      | cons y m => simp [join]
    | cons z l =>
      have := ih (by simp)
      simp only [List.cons_append] at this ⊢
      rw [join, this, join]
      simp

/-- **C66.** The version of a checkout is a version as in PEP 440 whenever its tag is. -/
theorem C66.pep440 (Public : Str → Prop) (hp : ∀ p, Public p → 43 ∉ p) {w : Machine} {root tag : Str} {n : Nat} {hex : Str}
    {dirty : Bool} (h : TaggedCheckout w root tag n hex dirty) (ht : ValidVersion Public tag) :
    ∃ v, datashapeVersion w keywordsInSource = .ok v ∧ ValidVersion Public v := by
  refine ⟨_, C66.checkout h, ?_⟩
  split
  · exact ht
  · obtain ⟨p, segs, h1, h2, h3⟩ := ht
    refine ⟨p, segs ++ ([natStr n, py"g" ++ hex] ++ whenDirty dirty (py"dirty")), h1, ?_, ?_⟩
    · intro s hs
      rcases List.mem_append.1 hs with hs | hs
      · exact h2 s hs
      · have hmem : s = natStr n ∨ s = py"g" ++ hex ∨ s = py"dirty" := by
          rcases List.mem_append.1 hs with hs | hs
          · simp only [List.mem_cons, List.not_mem_nil, or_false] at hs
            rcases hs with hs | hs
            · exact .inl hs
            · exact .inr (.inl hs)
          · cases dirty
            · simp [whenDirty] at hs
            · exact .inr (.inr (by simpa [whenDirty] using hs))
        rcases hmem with rfl | rfl | rfl
        · obtain ⟨c, r, hc, _⟩ := natStr_cons n
          refine ⟨by simp [hc], fun c hc => .inl ((isDigit_iff' c).1 (natStr_digits n c hc))⟩
        · refine ⟨by simp, fun c hc => ?_⟩
          rcases List.mem_append.1 hc with hc | hc
          · simp at hc; omega
          · have := h.hex.2 c hc; omega
        · refine ⟨by simp, fun c hc => ?_⟩
          simp at hc; omega
    · rw [if_neg (by simp)]
      unfold withLocal
      cases segs with
      | nil =>
        simp only [↓reduceIte] at h3
        subst h3
        rw [if_neg (hp _ h1)]; simp
      | cons x segs =>
        rw [if_neg (by simp)] at h3
        rw [if_pos (by rw [h3]; simp), join_dot_append (x :: segs) ([natStr n, py"g" ++ hex] ++ whenDirty dirty (py"dirty"))
          (by simp) (by simp), h3]
        simp only [List.append_assoc]

theorem split_at_first {a b : Str} {c : Nat} {r s : Str} (ha : c ∉ a) (hb : c ∉ b) (h : a ++ c :: r = b ++ c :: s) :
    a = b ∧ r = s := by
  induction a generalizing b with
  | nil =>
    cases b with
    | nil => simpa using h
    | cons y b => simp only [List.nil_append, List.cons_append, List.cons.injEq] at h; simp [h.1] at hb
  | cons x a ih =>
    cases b with
    | nil => simp only [List.nil_append, List.cons_append, List.cons.injEq] at h; simp [h.1] at ha
    | cons y b =>
      simp only [List.cons_append, List.cons.injEq, List.mem_cons, not_or] at h ha hb
      obtain ⟨h1, h2⟩ := ih ha.2 hb.2 h.2
      exact ⟨by rw [h.1, h1], h2⟩

/-- **C66.** Versions of checkouts tell them apart: with tags without `+`, the same version means the same tag, and either
both are the tagged commit itself, unchanged, or the number of commits, the hash and the mark are the same. -/
theorem C66.distinct {w w' : Machine} {root root' tag tag' : Str} {n n' : Nat} {hex hex' : Str} {dirty dirty' : Bool}
    (h : TaggedCheckout w root tag n hex dirty) (h' : TaggedCheckout w' root' tag' n' hex' dirty') (ht : 43 ∉ tag)
    (ht' : 43 ∉ tag') (hv : datashapeVersion w keywordsInSource = datashapeVersion w' keywordsInSource) :
    tag = tag' ∧ ((n = 0 ∧ dirty = false ∧ n' = 0 ∧ dirty' = false) ∨ (n = n' ∧ hex = hex' ∧ dirty = dirty')) := by
  rw [C66.checkout h, C66.checkout h'] at hv
  injection hv with hv
  have hx : ∀ {x : Str}, HexText x → 46 ∉ x := by
    intro x hx hm; have := hx.2 46 hm; omega
  have hn : ∀ n, 46 ∉ natStr n := by
    intro n hm; have := (isDigit_iff' 46).1 (natStr_digits n 46 hm); omega
  by_cases h0 : n = 0 ∧ dirty = false <;> by_cases h0' : n' = 0 ∧ dirty' = false
  · rw [if_pos h0, if_pos h0'] at hv
    exact ⟨hv, .inl ⟨h0.1, h0.2, h0'⟩⟩
  · rw [if_pos h0, if_neg h0'] at hv
    refine absurd ?_ ht
    rw [hv]; simp [withLocal, ht']
  · rw [if_neg h0, if_pos h0'] at hv
    refine absurd ?_ ht'
    rw [← hv]; simp [withLocal, ht]
  · rw [if_neg h0, if_neg h0'] at hv
    unfold withLocal at hv
    rw [if_neg ht, if_neg ht'] at hv
    simp only [List.append_assoc, List.singleton_append] at hv
    obtain ⟨h1, h2⟩ := split_at_first ht ht' hv
    refine ⟨h1, .inr ?_⟩
    have hj : ∀ (m : Nat) (x : Str) (d : Bool), join (py".") (natStr m :: (103 :: x) :: whenDirty d (py"dirty")) =
        natStr m ++ 46 :: (103 :: (x ++ if d = true then 46 :: py"dirty" else [])) := by
      intro m x d; cases d <;> simp [whenDirty, join]
    simp only [List.cons_append, List.nil_append] at h2
    rw [hj, hj] at h2
    obtain ⟨h3, h4⟩ := split_at_first (hn n) (hn n') h2
    have hnn : n = n' := by rw [← digitsVal_natStr n, h3, digitsVal_natStr]
    refine ⟨hnn, ?_⟩
    injection h4 with _ h4
    cases dirty <;> cases dirty' <;> simp only [Bool.false_eq_true, ↓reduceIte, List.append_nil] at h4
    · exact ⟨h4, rfl⟩
    · exact absurd (by rw [h4]; simp) (hx h.hex)
    · exact absurd (by rw [← h4]; simp) (hx h'.hex)
    · exact ⟨(split_at_first (hx h.hex) (hx h'.hex) h4).1, rfl⟩

theorem candidate_congr {w : Machine} {l m : List Str} (h : ∀ r, r ∈ l ↔ r ∈ m) (t : Str) : Candidate w l t ↔ Candidate w m t := by
  simp only [Candidate, h]

/-- **C66.** The version of an archive depends on the names of the commit, not on their order or on how Python orders a set,
nor on anything outside the archive (but what Unicode calls a digit). -/
theorem C66.archive {w w' : Machine} {k k' : Keywords} {refs refs' : List Str} (h : Archived k refs) (h' : Archived k' refs')
    (hr : ∀ r, r ∈ refs ↔ r ∈ refs') (hd : w.digit = w'.digit) :
    ∃ v, datashapeVersion w k = .ok v ∧ datashapeVersion w' k' = .ok v := by
  have hc : ∀ t, Candidate w refs t ↔ Candidate w' refs' t := by
    intro t; rw [candidate_congr hr]; simp only [Candidate, hd]
  obtain ⟨a, full, b, f1, f2, f3, f4⟩ := strip_exists k.full
  obtain ⟨a', full', b', f1', f2', f3', f4'⟩ := strip_exists k'.full
  cases hf : (sortStr (tagsOf w (toSet refs))).find? (fun r => versionConfig.tagPrefix.isPrefixOf r) with
  | some t =>
    obtain ⟨g1, ⟨s, hs⟩, g2⟩ := (sortedTags w refs versionConfig.tagPrefix t).1 hf
    rw [hs] at g1 g2
    have e1 := version_sound (.archive (cfg := versionConfig) (t := s) h g1 g2 f1 f2 f3 f4)
    have e2 := version_sound (.archive (cfg := versionConfig) (t := s) h' ((hc _).1 g1) (fun s hs => g2 s ((hc _).2 hs)) f1' f2' f3' f4')
    exact ⟨s, by simp only [datashapeVersion, getVersions, e1, Except.map], by simp only [datashapeVersion, getVersions, e2, Except.map]⟩
  | none =>
    rw [List.find?_eq_none] at hf
    have hn : ∀ s, ¬ Candidate w refs (versionConfig.tagPrefix ++ s) :=
      fun s hs => hf _ ((sortStr_mem _ _).2 ((tags_iff ..).2 hs)) ((prefix_iff _ _).2 ⟨s, rfl⟩)
    have e1 := version_sound (.archiveNone h hn f1 f2 f3 f4)
    have e2 := version_sound (.archiveNone h' (fun s hs => hn s ((hc _).2 hs)) f1' f2' f3' f4')
    exact ⟨py"0+unknown", by simp only [datashapeVersion, getVersions, e1, Except.map], by simp only [datashapeVersion, getVersions, e2, Except.map]⟩

/-- **C66.** Importing the package fails for want of a version only in a checkout without tags, when Git cannot count the
commits (`TypeError`) or does not print a number (`ValueError`). -/
theorem C66.fails (w : Machine) (k : Keywords) (e : PyErr) : datashapeVersion w k = .error e ↔
    NotArchived k ∧ ∃ file root out full text dirty, w.file = some file ∧ SourceTree versionConfig file root ∧
      Checkout w root out full ∧ Marked out text dirty ∧ 45 ∉ text ∧
      ((e = .typeError ∧ ∀ count, ¬ Prints w root revListArgs count) ∨
       (e = .valueError ∧ ∃ count, Prints w root revListArgs count ∧ w.int count = none)) := by
  have hm : datashapeVersion w k = .error e ↔ getVersionsWith w versionConfig k = .error e := by
    unfold datashapeVersion getVersions
    cases getVersionsWith w versionConfig k <;> simp [Except.map]
  have hst : versionConfig.style ∈ versionStyles := by decide
  rw [hm, C66.version]
  constructor
  · intro h
    cases h with
    | countFails h1 h2 h3 h4 h5 h6 h7 => exact ⟨h1, _, _, _, _, _, _, h2, h3, h4, h5, h6, .inl ⟨rfl, h7⟩⟩
    | countBad h1 h2 h3 h4 h5 h6 h7 h8 => exact ⟨h1, _, _, _, _, _, _, h2, h3, h4, h5, h6, .inr ⟨rfl, _, h7, h8⟩⟩
    | styleTagged _ _ _ _ _ _ h => exact absurd hst h
    | styleUntagged _ _ _ _ _ _ _ _ h => exact absurd hst h
  · rintro ⟨h1, _, _, _, _, _, _, h2, h3, h4, h5, h6, ⟨rfl, h7⟩ | ⟨rfl, _, h7, h8⟩⟩
    · exact .countFails h1 h2 h3 h4 h5 h6 h7
    · exact .countBad h1 h2 h3 h4 h5 h6 h7 h8

/-- **C66.** In the style `git-describe-long`, the version of a checkout is what Git says, letter by letter. -/
theorem C66.describe_long {w : Machine} {root tag : Str} {n : Nat} {hex : Str} {dirty : Bool}
    (h : TaggedCheckout w root tag n hex dirty) :
    ∃ v, getVersionsWith w { versionConfig with style := py"git-describe-long" } keywordsInSource = .ok v ∧
      v.version = describeText tag n hex dirty ∧ v.dirty = some dirty ∧ v.error = none := by
  obtain ⟨full, hc, hm, hd⟩ := checkout_facts h
  refine ⟨_, version_sound (.tagged source_not_archived h.file (plain_tree h.absolute) hc hm (t := tag)
      (by simpa [versionConfig] using hd) (by rw [if_neg h.tag.1]; exact .long)), ?_, rfl, rfl⟩
  cases dirty <;> simp [describeText, join, whenDirty, intStr]

/-- A checkout as in the hypotheses: seven commits after the tag `0.5.3-rc1`, with changes. -/
def exampleWorld : Machine :=
  { win32 := false
    file := some (py"/home/me/blaze/datashape/_version.py")
    pathExists := fun p => p == py"/home/me/blaze/.git"
    popen := fun c args cwd =>
      if c = py"git" ∧ cwd = py"/home/me/blaze" then
        if args = describeArgs then .exited 0 (py"0.5.3-rc1-7-g1234abc-dirty" ++ [10])
        else if args = revParseArgs then .exited 0 (py"1234abcdef" ++ [10])
        else .exited 1 []
      else .missing
    digit := fun _ => none
    int := fun _ => none }

theorem exampleCheckout : TaggedCheckout exampleWorld (py"/home/me/blaze") (py"0.5.3-rc1") 7 (py"1234abc") true where
  file := rfl
  absolute := by decide
  git := rfl
  describe := ⟨[], py"git", [], [], [10], rfl, by simp, rfl, by simp [AllSpace], by simp [AllSpace, isSpace],
    ⟨by decide, by decide⟩⟩
  hash := ⟨py"1234abcdef", [], py"git", [], [], [10], rfl, by simp, rfl, by simp [AllSpace], by simp [AllSpace, isSpace],
    ⟨by decide, by decide⟩⟩
  tag := by decide
  hex := ⟨by decide, by decide⟩

example : datashapeVersion exampleWorld keywordsInSource = .ok (py"0.5.3-rc1+7.g1234abc.dirty") := by
  rw [C66.checkout exampleCheckout]; rfl

/-- An archive, with the names in two orders; the tags that are there decide. -/
example : datashapeVersion exampleWorld ⟨py" (HEAD -> master, tag: 0.5.4, tag: 0.5.4rc1, origin/v2)", py"1234"⟩ = .ok (py"0.5.4") ∧
    datashapeVersion exampleWorld ⟨py"(tag: 0.5.4rc1, tag: 0.5.4)", py"1234"⟩ = .ok (py"0.5.4") ∧
    datashapeVersion exampleWorld ⟨py"(HEAD, 0.5.2, master)", py"1234"⟩ = .ok (py"0.5.2") ∧
    datashapeVersion exampleWorld ⟨py"(HEAD, master)", py"1234"⟩ = .ok (py"0+unknown") := by decide +kernel

/-- Without Git: the name of the directory; a commit without tags; a description that is none. -/
example :
    datashapeVersion { exampleWorld with file := some (py"/tmp/datashape-0.5.2/datashape/_version.py") } keywordsInSource
      = .ok (py"0.5.2") ∧
    datashapeVersion { exampleWorld with file := some (py"/tmp/x/datashape/_version.py") } keywordsInSource
      = .ok (py"0+unknown") ∧
    datashapeVersion { exampleWorld with popen := (fun _ args _ => if args = describeArgs then .exited 0 (py"1234abc-dirty")
      else if args = revListArgs then .exited 0 (py"12") else .exited 0 (py"1234abcdef")), int := fun _ => some 12 }
      keywordsInSource = .ok (py"0+untagged.12.g1234abc.dirty") ∧
    datashapeVersion { exampleWorld with popen := fun _ args _ => if args = describeArgs then .exited 0 (py"1234abc")
      else if args = revListArgs then .exited 1 [] else .exited 0 (py"1234abcdef") } keywordsInSource = .error .typeError ∧
    datashapeVersion { exampleWorld with popen := fun _ _ _ => .exited 0 (py"a-b") } keywordsInSource = .ok (py"unknown") := by
  decide +kernel

end DS
