import Verif.Props.Grammar

/-
Specification vocabulary for C41: texts that are read as datashapes, to be put inside other texts.
-/
namespace DS

/-- `TextOf s ks`: the text `s` consists of spellings of the tokens `ks`, with white space and comments between them,
every comment closed by a newline. (This is `Lexed` without the positions, where only the last comment may be open.) -/
inductive TextOf : Str → List Tk → Prop where
  | done {g} : Blank false g → TextOf g []
  | tok {g w t rest ts} : Blank false g → Spells w t → Munch t rest → TextOf rest ts →
      TextOf (g ++ (w ++ rest)) (t :: ts)

/-- `s` is a text that denotes the datashape `t`, by the grammar of everything that is accepted (C06), and it does not end
in a comment that would swallow what is written after it. -/
def Denotes (env : Env) (disc : List Lit → Except PyErr Ty) (s : Str) (t : Ty) : Prop :=
  ∃ ks, TextOf s ks ∧ G (theSym env disc) true .datashape ks t

/-- the first token of `s` is not a question mark -/
def NoQmark (s : Str) : Prop := ∀ t ∈ (lex s).1.head?, t.tk ≠ .qmark

/-- `w` written before a colon is the field name `n`: an identifier (not starting with `True` or `False`), or a quoted
string -/
def NameText (w n : Str) : Prop := ∃ k, Spells w k ∧ Munch k (py":") ∧ FieldName k n

/-- `w` is a quoted string with value `n` -/
def Quoted (w n : Str) : Prop := Spells w (.str n)

end DS
