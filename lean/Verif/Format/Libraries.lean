import Verif.Model.Libraries
import Verif.Fmt
/-!
# Library tables: values and well-formedness
-/
namespace Kiutils

def Library.toVal (o : Library) : Val :=
  .list ([.str k!"lib", .list [.str k!"name", o.name.canon], .list [.str k!"type", o.type.canon], .list [.str k!"uri", o.uri.canon], .list [.str k!"options", o.options.canon], .list [.str k!"descr", o.description.canon]] ++
    ifL (!o.active) [.list [.str k!"disabled"]])

structure Library.WF [TextRule] (o : Library) : Prop where
  name : TextOk o.name
  type : TextOk o.type
  uri : TextOk o.uri
  options : TextOk o.options
  description : TextOk o.description

def LibTable.toVal (o : LibTable) : Val := .list (o.type.canon :: o.libs.map Library.toVal)

/-- A table is a symbol or a footprint library table. -/
structure LibTable.WF [TextRule] (o : LibTable) : Prop where
  type : o.type = .str k!"sym_lib_table" ∨ o.type = .str k!"fp_lib_table"
  libs : ∀ v ∈ o.libs, v.WF

end Kiutils
