import Verif.Model.Basic

/-
The messages of syntax errors.
-/
namespace DS

/-- What a syntax error of the parser complains about. -/
inductive Complaint where
  /-- no datashape after `dimension *` -/
  | noElement
  /-- no field after `{` or `,`, or neither `,` nor `}` after a field -/
  | badField
  /-- no colon after the name of a field -/
  | noColon
  /-- no type after the colon -/
  | noFieldType
  /-- no type after `(` or `,`, or neither `,` nor `)` after a type -/
  | badItem
  /-- no type after `->` -/
  | noResult
  /-- nothing between the brackets of a type constructor -/
  | noArguments
  /-- no argument after `[` or `,`, or neither `,` nor `]` after an argument -/
  | badArgument
  /-- no keyword argument after a keyword argument and a comma -/
  | notKeyword
  /-- nothing after `keyword =` -/
  | noValue
  /-- nothing that can be in a list after its bracket -/
  | badList
  /-- neither `,` nor `]` after an item of a list -/
  | openList
  /-- an item of a list is of another kind than those before it -/
  | mixedList (kind : Str)
  /-- no datashape at all -/
  | noDatashape
  /-- something after a complete datashape -/
  | tooMuch
  /-- no `]` after the arguments of a dimension constructor -/
  | openDimension
  /-- the symbol table has no entry for a piece of syntax -/
  | noEntry (name syn : Str)

/-- The message. -/
def Complaint.text : Complaint → Str
  | .noElement => py"Expected a dim or a dtype"
  | .badField => py"Invalid field in struct"
  | .noColon => py"Expected a \":\" separating the field name from its datashape"
  | .noFieldType => py"Expected the datashape of the field"
  | .badItem => py"Invalid datashape in tuple"
  | .noResult => py"Expected function prototype return datashape"
  | .noArguments => py"Expected at least one type constructor argument"
  | .badArgument => py"Invalid type constructor argument"
  | .notKeyword => py"Expected another keyword argument, positional arguments cannot follow keyword arguments"
  | .noValue => py"Expected a type constructor argument"
  | .badList => py"Expected a type constructor argument or a closing \"]\""
  | .openList => py"Expected a \",\" or a closing \"]\""
  | .mixedList kind => py"Expected another " ++ kind ++ py", type constructor parameter lists must have uniform type"
  | .noDatashape => py"Invalid datashape"
  | .tooMuch => py"Unexpected token in datashape"
  | .openDimension => py"Expected a closing \"]\""
  | .noEntry name syn => py"Symbol table missing \"" ++ name ++ py"\" entry for " ++ syn

end DS
