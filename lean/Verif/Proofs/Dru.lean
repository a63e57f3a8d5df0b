import Verif.Format.Dru
import Verif.Proofs.Common
/-!
# Design rules: the text denotes `toVal`, `from_sexpr` reads `toVal`
-/
namespace Kiutils

theorem joinSp_lx [TextRule] {l : List Val} (h : ∀ v ∈ l, TokOk v) :
    ∃ x, joinSp l = .ok x ∧ ∀ s t, bareEnd s = true → s ⇛ t →
      ((if l.isEmpty then [] else ' ' :: x) ++ s) ⇛ toksL (l.map Val.canon) ++ t := by
  induction l with
  | nil => exact ⟨[], rfl, fun s t _ hs => by simpa [toksL_nil] using hs⟩
  | cons v l ih =>
    have hv := h v (by simp)
    obtain ⟨x, hx, hx'⟩ := ih (fun w hw => h w (by simp [hw]))
    cases v with
    | str w =>
      cases l with
      | nil =>
        refine ⟨w, rfl, fun s t hd hs => ?_⟩
        simp only [List.isEmpty_cons, Bool.false_eq_true, if_false, List.map_cons, List.map_nil]
        lxNorm
        apply lx_sp
        exact lx_tok hv hd hs
      | cons u l =>
        refine ⟨w ++ ' ' :: x, by rw [joinSp, hx]; rfl; simp, fun s t hd hs => ?_⟩
        simp only [List.isEmpty_cons, Bool.false_eq_true, if_false]
        rw [List.map_cons]
        lxNorm
        apply lx_sp
        refine lx_tok hv rfl ?_
        have := hx' s t hd hs
        simp only [List.isEmpty_cons, Bool.false_eq_true, if_false] at this
        exact this
    | _ => exact False.elim hv

theorem Constraint.lx [TextRule] {o : Constraint} (h : o.WF) (i nl) : Lexes (o.toSexpr i nl) [o.toVal] := by
  obtain ⟨h1, h2, h3, h4, h5⟩ := h
  obtain ⟨x, hx, hx'⟩ := joinSp_lx h5
  refine ⟨_, by rw [toSexpr, hx]; rfl, fun s t hs => ?_⟩
  have hj := hx' (')' :: (endl nl ++ s)) (.cl :: t) rfl (by lxAuto)
  have hd : numEnd ((if o.elements.isEmpty then [] else ' ' :: x) ++ ')' :: (endl nl ++ s)) = true := by
    split <;> rfl
  generalize (if o.elements.isEmpty then [] else ' ' :: x) = y at hj hd
  simp only [toVal]
  lxNorm
  lxAuto

theorem Constraint.step_element [TextRule] {o : Constraint} {v : Val} (h : TokOk v) :
    Constraint.step o v.canon = .ok { o with elements := o.elements ++ [v.canon] } := by
  cases v with
  | str s =>
    cases s with
    | nil => exact absurd rfl h.1
    | cons c s =>
      simp only [step, Val.canon, Val.isList]
      refine bind_ok (a := .str [c]) rfl ?_
      simp only [char_is]
      rfl
  | _ => exact False.elim h

theorem Constraint.from_toVal [TextRule] {o : Constraint} (h : o.WF) : Constraint.fromSexpr o.toVal = .ok (canon o) := by
  simp only [toVal, fromSexpr]
  foStart
  fldO min
  fldO opt
  fldO max
  refine fo_list (fun o v => { o with elements := v }) canon rfl (fun pre a ha => step_element (h.elements a ha)) ?_
  rfl

theorem Rule.from_toVal [TextRule] {o : Rule} (h : o.WF) : Rule.fromSexpr o.toVal = .ok (canon o) := by
  simp only [toVal, fromSexpr]
  foStart
  fldO layer
  fldL constraints using (fun a ha => Constraint.from_toVal (h.constraints a ha))
  fld condition
  fldO severity
  rfl

seal Rule.fromSexpr

theorem Rule.lx [TextRule] {o : Rule} (h : o.WF) (i) : Lexes (o.toSexpr i) [o.toVal] := by
  obtain ⟨h1, h2, h3, h4, h5⟩ := h
  have : ∀ c ∈ o.constraints, Lexes (do
      let text ← c.toSexpr (i + 2)
      return py!"{indents i}{text}") [c.toVal] := by
    intro c hc
    obtain ⟨x, hx, hx'⟩ := Constraint.lx (h3 c hc) (i + 2) true
    refine ⟨indents i ++ x, by rw [hx]; rfl, fun s t hs => ?_⟩
    lxNorm
    apply lx_indents
    have := hx' s t hs
    simpa only [toksL_cons, toksL_nil, List.append_nil] using this
  obtain ⟨x, hx, hx'⟩ := Lexes.forSM this
  refine ⟨_, by rw [toSexpr, hx]; rfl, fun s t hs => ?_⟩
  simp only [toVal]
  lxNorm
  lxAuto

theorem DesignRules.lx [TextRule] {o : DesignRules} (h : o.WF) (i nl) : Lexes (o.toSexpr i nl) o.toVals := by
  obtain ⟨h1, h2⟩ := h
  have : ∀ c ∈ o.rules, Lexes (do
      let text ← c.toSexpr i
      return py!"{indents i}{text}") [c.toVal] := by
    intro c hc
    obtain ⟨x, hx, hx'⟩ := Rule.lx (h2 c hc) i
    refine ⟨indents i ++ x, by rw [hx]; rfl, fun s t hs => ?_⟩
    lxNorm
    apply lx_indents
    have := hx' s t hs
    simpa only [toksL_cons, toksL_nil, List.append_nil] using this
  obtain ⟨x, hx, hx'⟩ := Lexes.forSM this
  refine ⟨_, by rw [toSexpr, hx]; rfl, fun s t hs => ?_⟩
  have hr : ∀ s t, s ⇛ t →
      ((if o.rules.isEmpty = true then [] else indents i ++ '\n' :: x) ++ s) ⇛ toksL (o.rules.map Rule.toVal) ++ t := by
    intro s t hs
    cases hq : o.rules with
    | nil => simpa [toksL_nil] using hs
    | cons r rs =>
      simp only [List.isEmpty_cons, Bool.false_eq_true, if_false]
      rw [← hq]
      lxNorm
      lxAuto
  generalize (if o.rules.isEmpty = true then [] else indents i ++ '\n' :: x) = y at hr
  simp only [toVals]
  lxNorm
  lxAuto

theorem DesignRules.from_toVals [TextRule] {o : DesignRules} (h : o.WF) :
    DesignRules.fromSexpr (.list o.toVals) = .ok (canon { o with filePath := none }) := by
  simp only [toVals]
  change forM DesignRules.step {} (_ :: _) = _
  foStart
  fld version
  fldL rules using (fun a ha => Rule.from_toVal (h.rules a ha))
  rfl

theorem DesignRules.parse [TextRule] {o : DesignRules} (h : o.WF) (i nl) :
    (o.toSexpr i nl >>= DesignRules.parseText) = .ok (canon { o with filePath := none }) := by
  obtain ⟨x, hx, hx'⟩ := DesignRules.lx h i nl
  rw [hx]
  show DesignRules.parseText x = _
  have : parseSexp ('(' :: (x ++ [')'])) = .ok (.list o.toVals) := by
    apply parse_of_lex
    rw [toks_list]
    exact (lx_op (hx' _ _ (lx_cl lx_nil))).lex
  rw [parseText, this]
  exact DesignRules.from_toVals h

end Kiutils
