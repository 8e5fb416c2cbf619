import Verif.Model.Version

/-
datashape/_version.py:110-131, `git_get_keywords`: the keywords read from the text of a file, which is how `setup.py` learns
the version of an archive without importing the package.
-/
namespace DS

/-- the dict that `git_get_keywords` returns: `none` when it has no such key -/
structure KeywordsRead where
  refnames : Option Str
  full : Option Str
  deriving DecidableEq, Repr

/-- `f.readlines()`: _version.py:118. The text is what reading the file gives: decoded, every line end a `\n`. -/
def readLines : Str → List Str
  | [] => []
  | c :: s => if c = 10 then [c] :: readLines s else splitOn.consHead c (readLines s)

/-- `(.*)"` behind the opening quote; `.` matches anything but a line end, and as much as possible -/
def uptoLastQuote (s : Str) : Option Str :=
  let line := s.takeWhile (· != 10)
  if line.contains 34 then some ((line.reverse.dropWhile (· != 34)).drop 1).reverse else none

/-- `\s*"(.*)"`: white space contains no quote, so there is one way to match it -/
def matchQuoted (s : Str) : Option Str :=
  match s.dropWhile isSpace with
  | [] => none
  | c :: r => if c = 34 then uptoLastQuote r else none

/-- `re.search(r'=\s*"(.*)"', line)`, the group: the leftmost match. _version.py:120, 124 -/
def searchQuoted : Str → Option Str
  | [] => none
  | c :: s =>
    match (if c = 61 then matchQuoted s else none) with
    | some x => some x
    | none => searchQuoted s

/-- one turn of the loop, for one key: _version.py:119-122, 123-126 -/
def keywordStep (pre : Str) (old : Option Str) (line : Str) : Option Str :=
  if pre.isPrefixOf (strip line) then
    match searchQuoted line with
    | some x => some x
    | none => old
  else old

/-- `git_get_keywords(versionfile_abs)`: _version.py:110-131; `none` for a file that cannot be opened or read
(`EnvironmentError`). The two keys do not influence each other, so the loop is written as one loop per key. -/
def getKeywords (file : Option Str) : KeywordsRead :=
  match file with
  | none => ⟨none, none⟩
  | some text =>
    ⟨(readLines text).foldl (keywordStep (py"git_refnames =")) none, (readLines text).foldl (keywordStep (py"git_full =")) none⟩

/-- `git_versions_from_keywords(keywords, tag_prefix)` for a dict that may lack keys: _version.py:134-176 -/
def versionsFromRead (w : Machine) (k : KeywordsRead) (tagPrefix : Str) : Method VersionInfo :=
  match k.refnames, k.full with
  | none, none => .notThis
  | none, some _ => .raised .keyError
  | some r, none => if (py"$Format").isPrefixOf (strip r) then .notThis else .raised .keyError
  | some r, some f => versionsFromKeywords w ⟨r, f⟩ tagPrefix

end DS
