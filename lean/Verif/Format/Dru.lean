import Verif.Model.Dru
import Verif.Fmt
/-!
# Design rules: values and well-formedness
-/
namespace Kiutils

def Constraint.toVal (o : Constraint) : Val :=
  .list ([.str k!"constraint", o.type.canon] ++ (optL o.min fun v => [.list [.str k!"min", v.canon]]) ++
    (optL o.opt fun v => [.list [.str k!"opt", v.canon]]) ++ (optL o.max fun v => [.list [.str k!"max", v.canon]]) ++
    o.elements.map Val.canon)

structure Constraint.WF [TextRule] (o : Constraint) : Prop where
  type : TokOk o.type
  min : ∀ v, o.min = some v → TextOk v
  opt : ∀ v, o.opt = some v → TextOk v
  max : ∀ v, o.max = some v → TextOk v
  elements : ∀ v ∈ o.elements, TokOk v

def Rule.toVal (o : Rule) : Val :=
  .list ([.str k!"rule", o.name.canon] ++ (optL o.layer fun v => [.list [.str k!"layer", v.canon]]) ++
    o.constraints.map Constraint.toVal ++ [.list [.str k!"condition", o.condition.canon]] ++
    (optL o.severity fun v => [.list [.str k!"severity", v.canon]]))

structure Rule.WF [TextRule] (o : Rule) : Prop where
  name : TextOk o.name
  layer : ∀ v, o.layer = some v → TextOk v
  constraints : ∀ v ∈ o.constraints, v.WF
  condition : TextOk o.condition
  severity : ∀ v, o.severity = some v → WordOk v

/-- The expressions in a rules file: they are not enclosed in brackets. -/
def DesignRules.toVals (o : DesignRules) : List Val := .list [.str k!"version", o.version.canon] :: o.rules.map Rule.toVal

structure DesignRules.WF [TextRule] (o : DesignRules) : Prop where
  version : NumOk o.version
  rules : ∀ v ∈ o.rules, v.WF

end Kiutils
