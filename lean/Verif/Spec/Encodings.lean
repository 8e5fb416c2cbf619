import Verif.Model.Basic

/-
Specification of the string-encoding names, independent of the table in the code.
-/
namespace DS

/-- `SpellsEncoding name c`: the text `name` is an accepted spelling of the canonical encoding `c`.
ASCII is `A` or `ascii`; the `n`-bit Unicode encoding `Un` (n = 8, 16, 32) is `Un`, `utf-n`, `utf_n` or `utfn`. -/
inductive SpellsEncoding : Str → Str → Prop where
  | A : SpellsEncoding (py"A") (py"A")
  | ascii : SpellsEncoding (py"ascii") (py"A")
  | U {n} : n ∈ [8, 16, 32] → SpellsEncoding (py"U" ++ natStr n) (py"U" ++ natStr n)
  | dash {n} : n ∈ [8, 16, 32] → SpellsEncoding (py"utf-" ++ natStr n) (py"U" ++ natStr n)
  | under {n} : n ∈ [8, 16, 32] → SpellsEncoding (py"utf_" ++ natStr n) (py"U" ++ natStr n)
  | plain {n} : n ∈ [8, 16, 32] → SpellsEncoding (py"utf" ++ natStr n) (py"U" ++ natStr n)

end DS
