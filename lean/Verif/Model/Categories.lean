import Verif.Model.Discovery
import Verif.Model.StrDiscovery

/-
`Categorical` and `discover` together: the parameter `disc` of the parser model (`Model/SymTab.lean`) is replaced by the
model of `datashape.discover`.
-/
namespace DS

/-- A category as the Python value that `discover` sees. -/
def Lit.obj : Lit → PyObj
  | .int _ => .int
  | .bool _ => .bool
  | .str s => .str s

/-- `datashape.discover(self.categories)`, where `categories` is a tuple: coretypes.py:1111-1112 -/
def discoverCategories (E : StrEnv) (topo : List Node) (l : List Lit) : Except PyErr Ty :=
  discover (discoverStr E) topo (.seq .tuple (l.map Lit.obj))

end DS
