import Verif.Model.Version
import Verif.Spec.TimeUnits
import Verif.Spec.Constructors

/-
Specification for C66: which version `datashape.__version__` shows, stated without the code of _version.py. Only the vocabulary
(`Machine`, `VersionConfig`, `Keywords`, `VersionInfo`, `join`, `intStr`) is that of the model.
-/
namespace DS

/-- The names under which Git is called. -/
def gitCommands (w : Machine) : List Str := if w.win32 = true then [py"git.cmd", py"git.exe"] else [py"git"]

/-- In the directory `cwd`, Git called with `args` succeeds and prints `text`, up to white space around it. Names that no
command has are passed over. -/
def Prints (w : Machine) (cwd : Str) (args : List Str) (text : Str) : Prop :=
  ∃ missing cmd others a b, gitCommands w = missing ++ cmd :: others ∧ (∀ c ∈ missing, w.popen c args cwd = .missing) ∧
    w.popen cmd args cwd = .exited 0 (a ++ text ++ b) ∧ AllSpace a ∧ AllSpace b ∧ Trimmed text

/-- `git describe` as it is called -/
def describeArgs : List Str := [py"describe", py"--tags", py"--dirty", py"--always", py"--long"]
/-- the call that prints the hash of the commit -/
def revParseArgs : List Str := [py"rev-parse", py"HEAD"]
/-- the call that prints the number of commits -/
def revListArgs : List Str := [py"rev-list", py"HEAD", py"--count"]

/-- a hash, or its beginning -/
def HexText (s : Str) : Prop := s ≠ [] ∧ ∀ c ∈ s, (48 ≤ c ∧ c ≤ 57) ∨ (97 ≤ c ∧ c ≤ 102)

/-- the text `s` consists of decimal digits and denotes `n` -/
def Decimal (w : Machine) (s : Str) (n : Nat) : Prop :=
  s ≠ [] ∧ ∃ ds : List Nat, Each (fun c d => (48 ≤ c ∧ c ≤ 57 ∧ d = c - 48) ∨ (128 ≤ c ∧ w.digit c = some d)) s ds ∧
    n = ds.foldl (fun a d => 10 * a + d) 0

/-- `git describe --long` of a commit that is `n` commits after `tag` and whose hash begins with `hex`. -/
def Described (w : Machine) (text tag : Str) (n : Nat) (hex : Str) : Prop :=
  ∃ num, Decimal w num n ∧ HexText hex ∧ tag ≠ [] ∧ 10 ∉ tag ∧
    (text = tag ++ py"-" ++ num ++ py"-g" ++ hex ∨ text = tag ++ py"-" ++ num ++ py"-g" ++ hex ++ [10])

/-- The mark of a working tree with changes. -/
def Marked (out text : Str) (dirty : Bool) : Prop :=
  (dirty = true ∧ out = text ++ py"-dirty") ∨ (dirty = false ∧ out = text ∧ ∀ s, out ≠ s ++ py"-dirty")

/-- a local part (what follows the `+` of a version) behind the version `v`, which may have one already -/
def withLocal (v : Str) (segments : List Str) : Str :=
  v ++ (if 43 ∈ v then py"." else py"+") ++ join (py".") segments

/-- a segment that is only there in a working tree with changes -/
def whenDirty (dirty : Bool) (s : Str) : List Str := if dirty = true then [s] else []

/-- How the version of a commit is written in a style: `tag` is the closest tag, if there is one, `n` the number of commits
since (or altogether), `hex` the beginning of the hash. -/
inductive Rendered : (style : Str) → (tag : Option Str) → (n : Int) → (hex : Str) → (dirty : Bool) → Str → Prop where
  | pep440Exact {t hex} : Rendered (py"pep440") (some t) 0 hex false t
  | pep440Since {t n hex dirty} : n ≠ 0 ∨ dirty = true → Rendered (py"pep440") (some t) n hex dirty
      (withLocal t ([intStr n, py"g" ++ hex] ++ whenDirty dirty (py"dirty")))
  | pep440None {n hex dirty} : Rendered (py"pep440") none n hex dirty
      (withLocal (py"0") ([py"untagged", intStr n, py"g" ++ hex] ++ whenDirty dirty (py"dirty")))
  | preExact {t hex dirty} : Rendered (py"pep440-pre") (some t) 0 hex dirty t
  | preSince {t n hex dirty} : n ≠ 0 → Rendered (py"pep440-pre") (some t) n hex dirty
      (join (py".") [t, py"post", py"dev" ++ intStr n])
  | preNone {n hex dirty} : Rendered (py"pep440-pre") none n hex dirty
      (join (py".") [py"0", py"post", py"dev" ++ intStr n])
  | postExact {t hex} : Rendered (py"pep440-post") (some t) 0 hex false t
  | postSince {t n hex dirty} : n ≠ 0 ∨ dirty = true → Rendered (py"pep440-post") (some t) n hex dirty
      (withLocal (join (py".") ([t, py"post" ++ intStr n] ++ whenDirty dirty (py"dev0"))) [py"g" ++ hex])
  | postNone {n hex dirty} : Rendered (py"pep440-post") none n hex dirty
      (withLocal (join (py".") ([py"0", py"post" ++ intStr n] ++ whenDirty dirty (py"dev0"))) [py"g" ++ hex])
  | oldExact {t hex} : Rendered (py"pep440-old") (some t) 0 hex false t
  | oldSince {t n hex dirty} : n ≠ 0 ∨ dirty = true → Rendered (py"pep440-old") (some t) n hex dirty
      (join (py".") ([t, py"post" ++ intStr n] ++ whenDirty dirty (py"dev0")))
  | oldNone {n hex dirty} : Rendered (py"pep440-old") none n hex dirty
      (join (py".") ([py"0", py"post" ++ intStr n] ++ whenDirty dirty (py"dev0")))
  | describeExact {t hex dirty} : Rendered (py"git-describe") (some t) 0 hex dirty
      (join (py"-") ([t] ++ whenDirty dirty (py"dirty")))
  | describeSince {t n hex dirty} : n ≠ 0 → Rendered (py"git-describe") (some t) n hex dirty
      (join (py"-") ([t, intStr n, py"g" ++ hex] ++ whenDirty dirty (py"dirty")))
  | describeNone {n hex dirty} : Rendered (py"git-describe") none n hex dirty
      (join (py"-") ([hex] ++ whenDirty dirty (py"dirty")))
  | long {t n hex dirty} : Rendered (py"git-describe-long") (some t) n hex dirty
      (join (py"-") ([t, intStr n, py"g" ++ hex] ++ whenDirty dirty (py"dirty")))
  | longNone {n hex dirty} : Rendered (py"git-describe-long") none n hex dirty
      (join (py"-") ([hex] ++ whenDirty dirty (py"dirty")))
  /-- no style, or `default`, is `pep440` -/
  | unset {tag n hex dirty s} : Rendered (py"pep440") tag n hex dirty s → Rendered [] tag n hex dirty s
  | byDefault {tag n hex dirty s} : Rendered (py"pep440") tag n hex dirty s → Rendered (py"default") tag n hex dirty s

/-- the styles there are -/
def versionStyles : List Str :=
  [[], py"default", py"pep440", py"pep440-pre", py"pep440-post", py"pep440-old", py"git-describe", py"git-describe-long"]

/-- The names of a commit in the text that Git puts into an archive: between commas, within parentheses. -/
def RefNames (text : Str) (refs : List Str) : Prop :=
  ∃ open_ core close pieces, text = open_ ++ core ++ close ∧ (∀ c ∈ open_ ++ close, c = 40 ∨ c = 41) ∧
    (∀ c, core.head? = some c → c ≠ 40 ∧ c ≠ 41) ∧ (∀ c, core.getLast? = some c → c ≠ 40 ∧ c ≠ 41) ∧
    pieces ≠ [] ∧ core = join (py",") pieces ∧ (∀ p ∈ pieces, 44 ∉ p) ∧
    Each (fun p r => ∃ a b, p = a ++ r ++ b ∧ AllSpace a ∧ AllSpace b ∧ Trimmed r) pieces refs

/-- Which names may be versions: those after `tag: `; if there are none, every name with a digit in it. -/
def Candidate (w : Machine) (refs : List Str) (t : Str) : Prop :=
  (py"tag: " ++ t ∈ refs) ∨ ((∀ s, py"tag: " ++ s ∉ refs) ∧ t ∈ refs ∧
    ∃ c ∈ t, (48 ≤ c ∧ c ≤ 57) ∨ (128 ≤ c ∧ ∃ d, w.digit c = some d))

/-- The texts have been replaced by Git: they are those of the archive of a commit with the names `refs`. -/
def Archived (k : Keywords) (refs : List Str) : Prop :=
  ∃ a text b, k.refnames = a ++ text ++ b ∧ AllSpace a ∧ AllSpace b ∧ Trimmed text ∧ (∀ s, text ≠ py"$Format" ++ s) ∧
    RefNames text refs

/-- The texts are those of the source. -/
def NotArchived (k : Keywords) : Prop :=
  ∃ a s b, k.refnames = a ++ (py"$Format" ++ s) ++ b ∧ AllSpace a ∧ AllSpace b ∧ Trimmed (py"$Format" ++ s)

/-- `q` is the directory that the path `p` lies in. -/
inductive ParentDir : (p q : Str) → Prop where
  | path {q slashes name} : slashes ≠ [] → (∀ c ∈ slashes, c = 47) → 47 ∉ name → q ≠ [] → q.getLast? ≠ some 47 →
      ParentDir (q ++ slashes ++ name) q
  | top {slashes name} : slashes ≠ [] → (∀ c ∈ slashes, c = 47) → 47 ∉ name → ParentDir (slashes ++ name) slashes
  | here {name} : 47 ∉ name → ParentDir name []

/-- the directory `n` levels up -/
inductive Ancestor : (n : Nat) → (p q : Str) → Prop where
  | self {p} : Ancestor 0 p p
  | up {n p q r} : ParentDir p q → Ancestor n q r → Ancestor (n + 1) p r

/-- `root` is the directory of the source tree, when `file` is the path of the file with the version: the configuration
tells the path from the one to the other. -/
def SourceTree (cfg : VersionConfig) (file root : Str) : Prop := Ancestor (1 + cfg.versionfileSource.count 47) file root

/-- the path of a file in a directory -/
def fileIn (dir name : Str) : Str := if dir = [] ∨ dir.getLast? = some 47 then dir ++ name else dir ++ [47] ++ name

/-- In the tree at `root` Git says: `out` is the description of the commit and `full` its hash. -/
def Checkout (w : Machine) (root out full : Str) : Prop :=
  w.pathExists (fileIn root (py".git")) = true ∧ Prints w root describeArgs out ∧ Prints w root revParseArgs full

/-- What `get_versions()` returns or raises. -/
inductive VersionOf (w : Machine) (cfg : VersionConfig) (k : Keywords) : Except PyErr VersionInfo → Prop where
  /-- an archive: the least of the tags that have the prefix -/
  | archive {refs t full a b} : Archived k refs → Candidate w refs (cfg.tagPrefix ++ t) →
      (∀ s, Candidate w refs (cfg.tagPrefix ++ s) → ¬ cfg.tagPrefix ++ s < cfg.tagPrefix ++ t) →
      k.full = a ++ full ++ b → AllSpace a → AllSpace b → Trimmed full →
      VersionOf w cfg k (.ok ⟨t, some full, some false, none⟩)
  /-- an archive of a commit without such tags -/
  | archiveNone {refs full a b} : Archived k refs → (∀ s, ¬ Candidate w refs (cfg.tagPrefix ++ s)) →
      k.full = a ++ full ++ b → AllSpace a → AllSpace b → Trimmed full →
      VersionOf w cfg k (.ok ⟨py"0+unknown", some full, some false, some (py"no suitable tags")⟩)
  /-- the place of the file is unknown -/
  | noFile : NotArchived k → w.file = none →
      VersionOf w cfg k (.ok ⟨py"0+unknown", none, none, some (py"unable to find root of source tree")⟩)
  /-- a checkout of a commit with a tag before it -/
  | tagged {file root out full text dirty t n hex s} : NotArchived k → w.file = some file → SourceTree cfg file root →
      Checkout w root out full → Marked out text dirty → Described w text (cfg.tagPrefix ++ t) n hex →
      Rendered cfg.style (if t = [] then none else some t) n hex dirty s →
      VersionOf w cfg k (.ok ⟨s, some full, some dirty, none⟩)
  /-- a checkout of a commit without tags -/
  | untagged {file root out full text dirty count n s} : NotArchived k → w.file = some file → SourceTree cfg file root →
      Checkout w root out full → Marked out text dirty → 45 ∉ text → Prints w root revListArgs count →
      w.int count = some n → Rendered cfg.style none n (full.take 7) dirty s →
      VersionOf w cfg k (.ok ⟨s, some full, some dirty, none⟩)
  /-- a checkout with a tag of another kind -/
  | otherTag {file root out full text dirty t n hex} : NotArchived k → w.file = some file → SourceTree cfg file root →
      Checkout w root out full → Marked out text dirty → Described w text t n hex → (∀ s, t ≠ cfg.tagPrefix ++ s) →
      VersionOf w cfg k (.ok ⟨py"unknown", some full, none,
        some (py"tag '" ++ t ++ py"' doesn't start with prefix '" ++ cfg.tagPrefix ++ py"'")⟩)
  /-- a description that cannot be read -/
  | unreadable {file root out full text dirty} : NotArchived k → w.file = some file → SourceTree cfg file root →
      Checkout w root out full → Marked out text dirty → 45 ∈ text → (∀ t n hex, ¬ Described w text t n hex) →
      VersionOf w cfg k (.ok ⟨py"unknown", some full, none, some (py"unable to parse git-describe output: '" ++ out ++ py"'")⟩)
  /-- the commits cannot be counted -/
  | countFails {file root out full text dirty} : NotArchived k → w.file = some file → SourceTree cfg file root →
      Checkout w root out full → Marked out text dirty → 45 ∉ text → (∀ count, ¬ Prints w root revListArgs count) →
      VersionOf w cfg k (.error .typeError)
  /-- the number of commits is not a number -/
  | countBad {file root out full text dirty count} : NotArchived k → w.file = some file → SourceTree cfg file root →
      Checkout w root out full → Marked out text dirty → 45 ∉ text → Prints w root revListArgs count →
      w.int count = none → VersionOf w cfg k (.error .valueError)
  /-- there is no such style -/
  | styleTagged {file root out full text dirty t n hex} : NotArchived k → w.file = some file → SourceTree cfg file root →
      Checkout w root out full → Marked out text dirty → Described w text (cfg.tagPrefix ++ t) n hex →
      cfg.style ∉ versionStyles → VersionOf w cfg k (.error .valueError)
  | styleUntagged {file root out full text dirty count n} : NotArchived k → w.file = some file → SourceTree cfg file root →
      Checkout w root out full → Marked out text dirty → 45 ∉ text → Prints w root revListArgs count →
      w.int count = some n → cfg.style ∉ versionStyles → VersionOf w cfg k (.error .valueError)
  /-- no checkout, but the tree is called after the version -/
  | directory {file root v} : NotArchived k → w.file = some file → SourceTree cfg file root →
      (∀ out full, ¬ Checkout w root out full) → cfg.parentdirPrefix ≠ [] →
      (47 ∉ cfg.parentdirPrefix ++ v ∧ (root = cfg.parentdirPrefix ++ v ∨ ∃ p, root = p ++ [47] ++ (cfg.parentdirPrefix ++ v))) →
      VersionOf w cfg k (.ok ⟨v, none, some false, none⟩)
  /-- nothing is known -/
  | unknown {file root} : NotArchived k → w.file = some file → SourceTree cfg file root →
      (∀ out full, ¬ Checkout w root out full) →
      (cfg.parentdirPrefix = [] ∨ ∀ v, ¬ (47 ∉ cfg.parentdirPrefix ++ v ∧
        (root = cfg.parentdirPrefix ++ v ∨ ∃ p, root = p ++ [47] ++ (cfg.parentdirPrefix ++ v)))) →
      VersionOf w cfg k (.ok ⟨py"0+unknown", none, none, some (py"unable to compute version")⟩)

/-- what `git describe --tags --dirty --always --long` prints for a commit that is `n` commits after `tag` -/
def describeText (tag : Str) (n : Nat) (hex : Str) (dirty : Bool) : Str :=
  tag ++ py"-" ++ natStr n ++ py"-g" ++ hex ++ (if dirty = true then py"-dirty" else [])

/-- The package at `root ++ "/datashape"` is a checkout: Git describes its commit as being `n` commits after `tag`. -/
structure TaggedCheckout (w : Machine) (root tag : Str) (n : Nat) (hex : Str) (dirty : Bool) : Prop where
  file : w.file = some (root ++ py"/datashape/_version.py")
  absolute : root ≠ [] ∧ root.getLast? ≠ some 47
  git : w.pathExists (root ++ py"/.git") = true
  describe : Prints w root describeArgs (describeText tag n hex dirty)
  hash : ∃ full, Prints w root revParseArgs full
  tag : tag ≠ [] ∧ 10 ∉ tag
  hex : HexText hex

/-- A version as in PEP 440: a public version (of whatever form `Public`), and perhaps a local one, whose segments are made of
letters and digits. -/
def ValidVersion (Public : Str → Prop) (v : Str) : Prop :=
  ∃ p segments, Public p ∧
    (∀ s ∈ segments, s ≠ [] ∧ ∀ c ∈ s, (48 ≤ c ∧ c ≤ 57) ∨ (97 ≤ c ∧ c ≤ 122) ∨ (65 ≤ c ∧ c ≤ 90)) ∧
    v = if segments = [] then p else p ++ py"+" ++ join (py".") segments

end DS
