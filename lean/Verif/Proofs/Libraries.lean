import Verif.Format.Libraries
import Verif.Proofs.Common
/-!
# Library tables: the text denotes `toVal`, `from_sexpr` reads `toVal`
-/
namespace Kiutils

theorem Library.lx [TextRule] {o : Library} (h : o.WF) {i nl s t} (hs : s ⇛ t) :
    (o.toSexpr i nl ++ s) ⇛ toks o.toVal ++ t := by
  obtain ⟨h1, h2, h3, h4, h5⟩ := h
  simp only [toSexpr, toVal]
  lxNorm
  lxAuto

macro_rules | `(tactic| lxObj) => `(tactic| ((with_reducible refine Library.lx ?_ ?_); (· wf)))

theorem Library.from_toVal [TextRule] {o : Library} (h : o.WF) : Library.fromSexpr o.toVal = .ok (canon o) := by
  simp only [toVal, fromSexpr]
  foStart
  foSkip
  fld name
  fld type
  fld uri
  fld options
  fld description
  obtain ⟨a, b, c, d, e, f⟩ := o
  cases f <;> rfl

seal Library.fromSexpr

theorem LibTable.lx [TextRule] {o : LibTable} (h : o.WF) {i nl s t} (hs : s ⇛ t) :
    (o.toSexpr i nl ++ s) ⇛ toks o.toVal ++ t := by
  obtain ⟨h1, h2⟩ := h
  have h3 : TokOk o.type := by
    rcases h1 with h | h <;> rw [h] <;> exact ⟨by simp, by decide, TextRule.word_noQuote (by decide), by decide⟩
  simp only [toSexpr, toVal]
  lxNorm
  lxAuto

theorem LibTable.from_toVal [TextRule] {o : LibTable} (h : o.WF) : LibTable.fromSexpr o.toVal = .ok (canon { o with filePath := none }) := by
  obtain ⟨type, libs, path⟩ := o
  obtain ⟨h1, h2⟩ := h
  simp only at h1 h2
  rcases h1 with rfl | rfl
  all_goals
    simp only [toVal]
    change forM LibTable.step _ (_ :: _) = _
    foStart
    foSkip
    fldL libs using (fun a ha => Library.from_toVal (h2 a ha))
    rfl

end Kiutils
