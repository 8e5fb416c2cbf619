import Verif.Model.Discovery

/-
datashape/_version.py: how `datashape.__version__` is computed when the package is imported (datashape/__init__.py:14-16).

Git, the file system and the operating system are external: they are given by a `Machine`, and the theorems hold for every
one. `git_get_keywords` (110-131) is in `Model/VersionKeywords.lean`. Not modelled: the `HANDLERS` table (50-60, nothing here looks
anything up in it) and what is printed when `verbose` is set (the configuration at 33-43 does not set it).
-/
namespace DS

/-- What a call of `subprocess.Popen` comes to. -/
inductive Ran where
  /-- there is no such command (`ENOENT`) -/
  | missing
  /-- it could not be started for another reason -/
  | failed
  /-- it ended with this code, having written this text (decoded) -/
  | exited (code : Int) (out : Str)

/-- What is used of the outside world. -/
structure Machine where
  /-- `sys.platform == "win32"` -/
  win32 : Bool
  /-- `os.path.realpath(__file__)`; `none` when the interpreter does not define `__file__` -/
  file : Option Str
  /-- `os.path.exists(path)` -/
  pathExists : Str → Bool
  /-- `subprocess.Popen([command] + args, cwd=cwd)` -/
  popen : Str → List Str → Str → Ran
  /-- the value of a decimal digit of Unicode, for code points `≥ 128` -/
  digit : Nat → Option Nat
  /-- `int(text)`; `none` is `ValueError` -/
  int : Str → Option Int

/-- `[0-9a-f]` -/
def isHexLower (c : Nat) : Bool := isDigit c || (97 ≤ c && c ≤ 102)

/-- the value of a character matched by `\d` -/
def Machine.digitVal (w : Machine) (c : Nat) : Option Nat :=
  if c < 128 then if isDigit c then some (c - 48) else none else w.digit c

/-- `\d` of Python's `re` for `str` patterns -/
def Machine.isDec (w : Machine) (c : Nat) : Bool := (w.digitVal c).isSome

/-- `int(s)` for a text matched by `\d+` -/
def Machine.decVal (w : Machine) (s : Str) : Nat := s.foldl (fun a c => 10 * a + (w.digitVal c).getD 0) 0

/-! ### Paths (posix) -/

/-- `os.path.basename(p)`: what follows the last slash -/
def basename (p : Str) : Str := (p.reverse.takeWhile (· != 47)).reverse

/-- `os.path.dirname(p)`: what precedes it, without the slashes at its end unless there is nothing else -/
def dirname (p : Str) : Str :=
  let head := (p.reverse.dropWhile (· != 47)).reverse
  if head.all (· == 47) then head else (head.reverse.dropWhile (· == 47)).reverse

/-- `os.path.join(p, name)` for a relative name -/
def joinPath (p name : Str) : Str :=
  if p.isEmpty then name else if p.getLast? = some 47 then p ++ name else p ++ [47] ++ name

/-- `s.split(sep)` for a separator of one character -/
def splitOn (sep : Nat) : Str → List Str
  | [] => [[]]
  | c :: r => if c = sep then [] :: splitOn sep r else consHead c (splitOn sep r)
where
  /-- put a character in front of the first piece -/
  consHead (c : Nat) : List Str → List Str
    | [] => [[c]]
    | w :: ws => (c :: w) :: ws

/-- `s.strip("()")` -/
def stripParens (s : Str) : Str :=
  ((s.dropWhile fun c => c == 40 || c == 41).reverse.dropWhile fun c => c == 40 || c == 41).reverse

/-- `cfg.tag_prefix`, `cfg.parentdir_prefix`, `cfg.versionfile_source` and `cfg.style`: _version.py:33-43 -/
structure VersionConfig where
  tagPrefix : Str
  parentdirPrefix : Str
  versionfileSource : Str
  style : Str

/-- `get_config()`: _version.py:33-43 -/
def versionConfig : VersionConfig :=
  { tagPrefix := [], parentdirPrefix := py"datashape-", versionfileSource := py"datashape/_version.py", style := py"pep440" }

/-- `get_keywords()`: _version.py:18-26. Git puts the names of the commit and its hash in place of these texts when it makes
an archive. -/
structure Keywords where
  refnames : Str
  full : Str

/-- the texts in the source: _version.py:23-24 -/
def keywordsInSource : Keywords := { refnames := py"$Format:%d$", full := py"$Format:%H$" }

/-- the dict that `get_versions` returns -/
structure VersionInfo where
  version : Str
  revision : Option Str
  dirty : Option Bool
  error : Option Str
  deriving DecidableEq, Repr

/-- What a method comes to: `NotThisMethod` (_version.py:46-47), another exception, or a value. -/
inductive Method (α : Type) where
  | notThis
  | raised (e : PyErr)
  | value (a : α)

/-- `run_command(commands, args, cwd)`: _version.py:63-93; `none` is `None` -/
def runCommand (w : Machine) (args : List Str) (cwd : Str) : List Str → Option Str
  | [] => none
  | c :: cs => match w.popen c args cwd with
    | .missing => runCommand w args cwd cs
    | .failed => none
    | .exited code out => if code = 0 then some (strip out) else none

/-- `GITS`: _version.py:191-193 -/
def gits (w : Machine) : List Str := if w.win32 then [py"git.cmd", py"git.exe"] else [py"git"]

/-- `versions_from_parentdir(parentdir_prefix, root)`: _version.py:96-107 -/
def versionsFromParentdir (pre root : Str) : Method VersionInfo :=
  let dir := basename root
  if pre.isPrefixOf dir then
    .value { version := dir.drop pre.length, revision := none, dirty := some false, error := none }
  else .notThis

/-- the set `tags` for a set of names: _version.py:144-159 -/
def tagsOf (w : Machine) (refs : List Str) : List Str :=
  let tags0 := toSet ((refs.filter fun r => (py"tag: ").isPrefixOf r).map fun r => r.drop (py"tag: ").length)
  if tags0.isEmpty then refs.filter fun r => r.any w.isDec else tags0

/-- `git_versions_from_keywords(keywords, tag_prefix)`: _version.py:134-176 -/
def versionsFromKeywords (w : Machine) (k : Keywords) (tagPrefix : Str) : Method VersionInfo :=
  let refnames := strip k.refnames
  if (py"$Format").isPrefixOf refnames then .notThis
  else
    let refs := toSet ((splitOn 44 (stripParens refnames)).map strip)
    match (sortStr (tagsOf w refs)).find? fun r => tagPrefix.isPrefixOf r with
    | some r => .value { version := r.drop tagPrefix.length, revision := some (strip k.full), dirty := some false,
                         error := none }
    | none => .value { version := py"0+unknown", revision := some (strip k.full), dirty := some false,
                       error := some (py"no suitable tags") }

/-- the dict `pieces` of `git_pieces_from_vcs`. `closest-tag` and `distance` are missing from it when there is an error. -/
structure Pieces where
  long : Str
  short : Str
  error : Option Str
  dirty : Bool
  closestTag : Option Str
  distance : Int
  deriving DecidableEq, Repr

/-- A match of `^(.+)-(\d+)-g([0-9a-f]+)$` with the whole of a text, which is given backwards: _version.py:227. Neither a
digit nor a hex digit is a hyphen or a `g`, so that the search from the end finds the only match; `.` does not match a
newline. -/
def matchBackwards (w : Machine) (r0 : Str) : Option (Str × Nat × Str) :=
  let hex := r0.takeWhile isHexLower
  match r0.dropWhile isHexLower with
  | 103 :: 45 :: r2 =>
    let digits := r2.takeWhile w.isDec
    match r2.dropWhile w.isDec with
    | 45 :: tag =>
      if hex.isEmpty || digits.isEmpty || tag.isEmpty || tag.contains 10 then none
      else some (tag.reverse, w.decVal digits.reverse, hex.reverse)
    | _ => none
  | _ => none

/-- `re.search(r'^(.+)-(\d+)-g([0-9a-f]+)$', s)`, with `int` of the second group: _version.py:227, 246. `$` also matches in
front of a newline at the end. -/
def matchDescribe (w : Machine) (s : Str) : Option (Str × Nat × Str) :=
  match s.reverse with
  | 10 :: r => matchBackwards w r
  | r => matchBackwards w r

/-- The second half of `git_pieces_from_vcs(tag_prefix, root)`, after both calls of Git have succeeded:
_version.py:206-258 -/
def readDescribe (w : Machine) (tagPrefix root describeOut fullOut : Str) : Method Pieces :=
  let describe := strip describeOut
  let full := strip fullOut
  let dirty := (py"-dirty").isSuffixOf describe
  let gitDescribe := if dirty then describe.take (describe.length - 6) else describe
  let failed (msg : Str) : Pieces :=
    { long := full, short := full.take 7, error := some msg, dirty := dirty, closestTag := none, distance := 0 }
  if gitDescribe.contains 45 then
    match matchDescribe w gitDescribe with
    | none => .value (failed (py"unable to parse git-describe output: '" ++ describe ++ py"'"))
    | some (tag, n, hex) =>
      if tagPrefix.isPrefixOf tag then
        .value { long := full, short := hex, error := none, dirty := dirty,
                 closestTag := some (tag.drop tagPrefix.length), distance := n }
      else .value (failed (py"tag '" ++ tag ++ py"' doesn't start with prefix '" ++ tagPrefix ++ py"'"))
  else match runCommand w [py"rev-list", py"HEAD", py"--count"] root (gits w) with
    | none => .raised .typeError
    | some count => match w.int count with
      | none => .raised .valueError
      | some n => .value { long := full, short := full.take 7, error := none, dirty := dirty, closestTag := none,
                           distance := n }

/-- `git_pieces_from_vcs(tag_prefix, root)`: _version.py:179-258 -/
def piecesFromVcs (w : Machine) (tagPrefix root : Str) : Method Pieces :=
  if !w.pathExists (joinPath root (py".git")) then .notThis
  else match runCommand w [py"describe", py"--tags", py"--dirty", py"--always", py"--long"] root (gits w) with
  | none => .notThis
  | some describeOut =>
    match runCommand w [py"rev-parse", py"HEAD"] root (gits w) with
    | none => .notThis
    | some fullOut => readDescribe w tagPrefix root describeOut fullOut

/-- `pieces["closest-tag"]` if it is true -/
def Pieces.tag? (p : Pieces) : Option Str :=
  match p.closestTag with
  | none => none
  | some t => if t.isEmpty then none else some t

/-- `plus_or_dot(pieces)`: _version.py:261-264 -/
def plusOrDot (tag : Str) : Str := if tag.contains 43 then py"." else py"+"

/-- `render_pep440(pieces)`: _version.py:267-288 -/
def renderPep440 (p : Pieces) : Str :=
  match p.tag? with
  | some t =>
    if p.distance ≠ 0 ∨ p.dirty = true then
      t ++ plusOrDot t ++ intStr p.distance ++ py".g" ++ p.short ++ (if p.dirty then py".dirty" else [])
    else t
  | none => py"0+untagged." ++ intStr p.distance ++ py".g" ++ p.short ++ (if p.dirty then py".dirty" else [])

/-- `render_pep440_pre(pieces)`: _version.py:291-304 -/
def renderPep440Pre (p : Pieces) : Str :=
  match p.tag? with
  | some t => if p.distance ≠ 0 then t ++ py".post.dev" ++ intStr p.distance else t
  | none => py"0.post.dev" ++ intStr p.distance

/-- `render_pep440_post(pieces)`: _version.py:307-330 -/
def renderPep440Post (p : Pieces) : Str :=
  match p.tag? with
  | some t =>
    if p.distance ≠ 0 ∨ p.dirty = true then
      t ++ py".post" ++ intStr p.distance ++ (if p.dirty then py".dev0" else []) ++ plusOrDot t ++ py"g" ++ p.short
    else t
  | none => py"0.post" ++ intStr p.distance ++ (if p.dirty then py".dev0" else []) ++ py"+g" ++ p.short

/-- `render_pep440_old(pieces)`: _version.py:333-350 -/
def renderPep440Old (p : Pieces) : Str :=
  match p.tag? with
  | some t =>
    if p.distance ≠ 0 ∨ p.dirty = true then
      t ++ py".post" ++ intStr p.distance ++ (if p.dirty then py".dev0" else [])
    else t
  | none => py"0.post" ++ intStr p.distance ++ (if p.dirty then py".dev0" else [])

/-- `render_git_describe(pieces)`: _version.py:353-369 -/
def renderGitDescribe (p : Pieces) : Str :=
  (match p.tag? with
  | some t => if p.distance ≠ 0 then t ++ py"-" ++ intStr p.distance ++ py"-g" ++ p.short else t
  | none => p.short) ++ (if p.dirty then py"-dirty" else [])

/-- `render_git_describe_long(pieces)`: _version.py:372-387 -/
def renderGitDescribeLong (p : Pieces) : Str :=
  (match p.tag? with
  | some t => t ++ py"-" ++ intStr p.distance ++ py"-g" ++ p.short
  | none => p.short) ++ (if p.dirty then py"-dirty" else [])

/-- `render(pieces, style)`: _version.py:390-416 -/
def renderVersion (p : Pieces) (style : Str) : Method VersionInfo :=
  match p.error with
  | some e => .value { version := py"unknown", revision := some p.long, dirty := none, error := some e }
  | none =>
    let style := if style.isEmpty || style == py"default" then py"pep440" else style
    let done (s : Str) : Method VersionInfo :=
      .value { version := s, revision := some p.long, dirty := some p.dirty, error := none }
    if style = py"pep440" then done (renderPep440 p)
    else if style = py"pep440-pre" then done (renderPep440Pre p)
    else if style = py"pep440-post" then done (renderPep440Post p)
    else if style = py"pep440-old" then done (renderPep440Old p)
    else if style = py"git-describe" then done (renderGitDescribe p)
    else if style = py"git-describe-long" then done (renderGitDescribeLong p)
    else .raised .valueError

/-- `pieces = git_pieces_from_vcs(…); return render(pieces, cfg.style)`: _version.py:446-448 -/
def versionsFromVcs (w : Machine) (cfg : VersionConfig) (root : Str) : Method VersionInfo :=
  match piecesFromVcs w cfg.tagPrefix root with
  | .notThis => .notThis
  | .raised e => .raised e
  | .value p => renderVersion p cfg.style

/-- `get_versions()` with the configuration `cfg` and the keywords `k`: _version.py:419-460 -/
def getVersionsWith (w : Machine) (cfg : VersionConfig) (k : Keywords) : Except PyErr VersionInfo :=
  match versionsFromKeywords w k cfg.tagPrefix with
  | .value v => .ok v
  | .raised e => .error e
  | .notThis =>
    match w.file with
    | none => .ok { version := py"0+unknown", revision := none, dirty := none,
                    error := some (py"unable to find root of source tree") }
    | some file =>
      let root := (splitOn 47 cfg.versionfileSource).foldl (fun r _ => dirname r) file
      match versionsFromVcs w cfg root with
      | .value v => .ok v
      | .raised e => .error e
      | .notThis =>
        let unknown : VersionInfo := { version := py"0+unknown", revision := none, dirty := none,
                                       error := some (py"unable to compute version") }
        if cfg.parentdirPrefix.isEmpty then .ok unknown
        else match versionsFromParentdir cfg.parentdirPrefix root with
          | .value v => .ok v
          | .raised e => .error e
          | .notThis => .ok unknown

/-- `get_versions()`, with the configuration in the source: _version.py:419-460 -/
def getVersions (w : Machine) (k : Keywords) : Except PyErr VersionInfo := getVersionsWith w versionConfig k

/-- `datashape.__version__`: datashape/__init__.py:14-15; the import fails when `get_versions` does -/
def datashapeVersion (w : Machine) (k : Keywords) : Except PyErr Str := (getVersions w k).map (·.version)

end DS
