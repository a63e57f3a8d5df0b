import Verif.Format.SchItems
import Verif.Proofs.Common
import Verif.Proofs.LibId
/-!
# Items of schematics: the text denotes `toVal`, `from_sexpr` reads `toVal`
-/
namespace Kiutils

seal Position.fromSexpr Stroke.fromSexpr Fill.fromSexpr Effects.fromSexpr Property.fromSexpr ColorRGBA.fromSexpr

theorem Junction.lexes [TextRule] {o : Junction} (h : o.WF) (i nl) : Lexes (o.toSexpr i nl) [o.toVal] := by
  obtain ⟨pos, dia, color, uuid⟩ := o
  obtain ⟨h1, h2, h3, h4⟩ := h
  simp only at h1 h2 h3 h4
  cases color with
  | raw v => exact False.elim h3
  | rgba c =>
    simp only [JunctionColor.WF] at h3
    refine ⟨_, by rw [toSexpr]; rfl, fun s t hs => ?_⟩
    simp only [toVal, JunctionColor.toVal]
    lxNorm
    lxAuto

theorem Junction.from_toVal [TextRule] {o : Junction} (h : o.WF) : Junction.fromSexpr o.toVal = .ok (canon o.asRead) := by
  obtain ⟨pos, dia, color, uuid⟩ := o
  obtain ⟨h1, h2, h3, h4⟩ := h
  simp only at h1 h2 h3 h4
  cases color with
  | raw v => exact False.elim h3
  | rgba c =>
    simp only [toVal, fromSexpr, JunctionColor.toVal]
    foStart
    foSkip
    fld position using Position.from_toValXY h1 rfl
    refine fo_set (fun o v => { o with color := v }) (JunctionColor.raw dia.canon) (by rfl) ?_
    refine fo_setB (fun o v => { o with color := JunctionColor.rgba v }) (ColorRGBA.from_toVal h3) (by rfl) ?_
    fldO uuid
    rfl

seal Junction.fromSexpr

theorem NoConnect.lx [TextRule] {o : NoConnect} (h : o.WF) {i nl s t} (hs : s ⇛ t) :
    (o.toSexpr i nl ++ s) ⇛ toks o.toVal ++ t := by
  obtain ⟨h1, h2⟩ := h
  simp only [toSexpr, toVal]
  lxNorm
  lxAuto

macro_rules | `(tactic| lxObj) => `(tactic| ((with_reducible refine NoConnect.lx ?_ ?_); (· wf)))

theorem NoConnect.from_toVal [TextRule] {o : NoConnect} (h : o.WF) : NoConnect.fromSexpr o.toVal = .ok (canon o) := by
  simp only [toVal, fromSexpr]
  foStart
  foSkip
  fld position using Position.from_toValXY h.position rfl
  fldO uuid
  rfl

seal NoConnect.fromSexpr

theorem BusEntry.lx [TextRule] {o : BusEntry} (h : o.WF) {i nl s t} (hs : s ⇛ t) :
    (o.toSexpr i nl ++ s) ⇛ toks o.toVal ++ t := by
  obtain ⟨h1, h2, h3, h4⟩ := h
  simp only [toSexpr, toVal]
  lxNorm
  lxAuto

macro_rules | `(tactic| lxObj) => `(tactic| ((with_reducible refine BusEntry.lx ?_ ?_); (· wf)))

theorem BusEntry.from_toVal [TextRule] {o : BusEntry} (h : o.WF) : BusEntry.fromSexpr o.toVal = .ok (canon o) := by
  simp only [toVal, fromSexpr]
  foStart
  foSkip
  fld position using Position.from_toValXY h.position rfl
  fld size using Position.from_toValXY h.size rfl
  fld stroke using Stroke.from_toVal h.stroke
  fldO uuid
  rfl

seal BusEntry.fromSexpr

theorem lx_joinQuoted [TextRule] {l : List Val} (h : ∀ v ∈ l, TextOk v) {s t} (hd : sqEnd s = true) (hs : s ⇛ t) :
    (joinQuoted l ++ s) ⇛ toksL (l.map Val.canon) ++ t := by
  induction l with
  | nil => simpa [joinQuoted, toksL_nil] using hs
  | cons v r ih =>
    have h1 : TextOk v := h v (by simp)
    have h2 : ∀ w ∈ r, TextOk w := fun w hw => h w (by simp [hw])
    cases r with
    | nil =>
      simp only [joinQuoted, List.map_cons, List.map_nil]
      lxNorm
      lxAuto
    | cons w r =>
      have := ih h2
      rw [joinQuoted]
      · simp only [List.map_cons] at this ⊢
        lxNorm
        rw [toksL_cons] at this
        refine lx_text h1 rfl (lx_sp ?_)
        rwa [List.append_assoc] at this
      · simp

theorem BusAlias.lx [TextRule] {o : BusAlias} (h : o.WF) {i nl s t} (hs : s ⇛ t) :
    (o.toSexpr i nl ++ s) ⇛ toks o.toVal ++ t := by
  obtain ⟨h1, h2⟩ := h
  have h3 : ∀ {s t}, sqEnd s = true → s ⇛ t → (joinQuoted o.members ++ s) ⇛ toksL (o.members.map Val.canon) ++ t :=
    lx_joinQuoted h2
  simp only [toSexpr, toVal]
  lxNorm
  lxAuto
  delim

macro_rules | `(tactic| lxObj) => `(tactic| ((with_reducible refine BusAlias.lx ?_ ?_); (· wf)))

theorem BusAlias.from_toVal {o : BusAlias} : BusAlias.fromSexpr o.toVal = .ok (canon o) := rfl

seal BusAlias.fromSexpr

theorem Connection.lx [TextRule] {o : Connection} (h : o.WF) {i nl s t} (hs : s ⇛ t) :
    (o.toSexpr i nl ++ s) ⇛ toks o.toVal ++ t := by
  obtain ⟨h1, h2, h3, h4⟩ := h
  have h5 : TokOk o.type := by rcases h1 with h | h <;> rw [h] <;> exact ⟨by simp, by decide, TextRule.word_noQuote (by decide), by decide⟩
  simp only [toSexpr, toVal]
  lxNorm
  lxAuto

macro_rules | `(tactic| lxObj) => `(tactic| ((with_reducible refine Connection.lx ?_ ?_); (· wf)))

theorem Connection.from_toVal [TextRule] {o : Connection} (h : o.WF) : Connection.fromSexpr o.toVal = .ok (canon o) := by
  obtain ⟨type, points, stroke, uuid⟩ := o
  obtain ⟨h1, h2, h3, h4⟩ := h
  simp only at h1 h2 h3 h4
  rcases h1 with rfl | rfl
  all_goals
    simp only [toVal]
    change forM Connection.step _ _ = _
    foStart
    foSkip
    refine fo_setB (fun o v => { o with points := v }) (mapM'_map fun p hp => Position.from_toValXY (h2 p hp) rfl) rfl ?_
    fld stroke using Stroke.from_toVal h3
    fldO uuid
    rfl

seal Connection.fromSexpr

theorem PolyLine.lx [TextRule] {o : PolyLine} (h : o.WF) {i nl s t} (hs : s ⇛ t) :
    (o.toSexpr i nl ++ s) ⇛ toks o.toVal ++ t := by
  obtain ⟨h1, h2, h3⟩ := h
  simp only [toSexpr, toVal]
  lxNorm
  lxAuto

macro_rules | `(tactic| lxObj) => `(tactic| ((with_reducible refine PolyLine.lx ?_ ?_); (· wf)))

theorem PolyLine.from_toVal [TextRule] {o : PolyLine} (h : o.WF) : PolyLine.fromSexpr o.toVal = .ok (canon o) := by
  simp only [toVal, fromSexpr]
  foStart
  foSkip
  refine fo_setB (fun o v => { o with points := v }) (mapM'_map fun p hp => Position.from_toValXY (h.points p hp) rfl) rfl ?_
  fld stroke using Stroke.from_toVal h.stroke
  fldO uuid
  rfl

seal PolyLine.fromSexpr

theorem Text.from_toVal [TextRule] {o : Text} (h : o.WF) : Text.fromSexpr o.toVal = .ok (canon o) := by
  simp only [toVal, fromSexpr]
  foStart
  fld position using Position.from_toVal h.position rfl
  fld effects using Effects.from_toVal h.effects
  fldO uuid
  rfl

seal Text.fromSexpr

theorem Text.lexes [TextRule] {o : Text} (h : o.WF) (i nl) : Lexes (o.toSexpr i nl) [o.toVal] := by
  obtain ⟨text, pos, effects, uuid⟩ := o
  obtain ⟨h1, h2, h3, h4⟩ := h
  simp only at h1 h2 h3 h4
  cases text with
  | str x =>
    refine ⟨_, by rw [toSexpr]; rfl, fun s t hs => ?_⟩
    simp only [toVal]
    by_cases hn : x.length ≥ 50
    · simp only [if_pos hn]
      lxNorm
      lxAuto
    · simp only [if_neg hn]
      lxNorm
      lxAuto
  | _ => exact False.elim h1

theorem TextBox.lx [TextRule] {o : TextBox} (h : o.WF) {i nl s t} (hs : s ⇛ t) :
    (o.toSexpr i nl ++ s) ⇛ toks o.toVal ++ t := by
  obtain ⟨h1, h2, h3, h4, h5, h6, h7⟩ := h
  simp only [toSexpr, toVal]
  lxNorm
  lxAuto

macro_rules | `(tactic| lxObj) => `(tactic| ((with_reducible refine TextBox.lx ?_ ?_); (· wf)))

theorem TextBox.from_toVal [TextRule] {o : TextBox} (h : o.WF) : TextBox.fromSexpr o.toVal = .ok (canon o) := by
  simp only [toVal, fromSexpr]
  foStart
  fld position using Position.from_toVal h.position rfl
  fld size using Position.from_toValXY h.size rfl
  fld stroke using Stroke.from_toVal h.stroke
  fld fill using Fill.from_toVal h.fill
  fld effects using Effects.from_toVal h.effects
  fldO uuid
  rfl

seal TextBox.fromSexpr

theorem LocalLabel.lx [TextRule] {o : LocalLabel} (h : o.WF) {i nl s t} (hs : s ⇛ t) :
    (o.toSexpr i nl ++ s) ⇛ toks o.toVal ++ t := by
  obtain ⟨h1, h2, h3, h4⟩ := h
  simp only [toSexpr, toVal]
  lxNorm
  lxAuto

macro_rules | `(tactic| lxObj) => `(tactic| ((with_reducible refine LocalLabel.lx ?_ ?_); (· wf)))

theorem LocalLabel.from_toVal [TextRule] {o : LocalLabel} (h : o.WF) : LocalLabel.fromSexpr o.toVal = .ok (canon o) := by
  simp only [toVal, fromSexpr]
  foStart
  fld position using Position.from_toVal h.position rfl
  fldF fieldsAutoplaced
  fld effects using Effects.from_toVal h.effects
  fldO uuid
  rfl

seal LocalLabel.fromSexpr

theorem GlobalLabel.lx [TextRule] {o : GlobalLabel} (h : o.WF) {i nl s t} (hs : s ⇛ t) :
    (o.toSexpr i nl ++ s) ⇛ toks o.toVal ++ t := by
  obtain ⟨h1, h2, h3, h4, h5, h6⟩ := h
  simp only [toSexpr, toVal]
  lxNorm
  lxAuto

macro_rules | `(tactic| lxObj) => `(tactic| ((with_reducible refine GlobalLabel.lx ?_ ?_); (· wf)))

theorem GlobalLabel.from_toVal [TextRule] {o : GlobalLabel} (h : o.WF) : GlobalLabel.fromSexpr o.toVal = .ok (canon o) := by
  simp only [toVal, fromSexpr]
  foStart
  fld shape
  fld position using Position.from_toVal h.position rfl
  fldF fieldsAutoplaced
  fld effects using Effects.from_toVal h.effects
  fldO uuid
  fldL properties using (fun a ha => Property.from_toVal (h.properties a ha))
  rfl

seal GlobalLabel.fromSexpr

theorem HierarchicalLabel.lx [TextRule] {o : HierarchicalLabel} (h : o.WF) {i nl s t} (hs : s ⇛ t) :
    (o.toSexpr i nl ++ s) ⇛ toks o.toVal ++ t := by
  obtain ⟨h1, h2, h3, h4, h5⟩ := h
  simp only [toSexpr, toVal]
  lxNorm
  lxAuto

macro_rules | `(tactic| lxObj) => `(tactic| ((with_reducible refine HierarchicalLabel.lx ?_ ?_); (· wf)))

theorem HierarchicalLabel.from_toVal [TextRule] {o : HierarchicalLabel} (h : o.WF) : HierarchicalLabel.fromSexpr o.toVal = .ok (canon o) := by
  simp only [toVal, fromSexpr]
  foStart
  fld shape
  fld position using Position.from_toVal h.position rfl
  fldF fieldsAutoplaced
  fld effects using Effects.from_toVal h.effects
  fldO uuid
  rfl

seal HierarchicalLabel.fromSexpr

theorem SymbolProjectPath.lx [TextRule] {o : SymbolProjectPath} (h : o.WF) {i nl s t} (hs : s ⇛ t) :
    (o.toSexpr i nl ++ s) ⇛ toks o.toVal ++ t := by
  obtain ⟨h1, h2, h3⟩ := h
  simp only [toSexpr, toVal]
  lxNorm
  lxAuto

macro_rules | `(tactic| lxObj) => `(tactic| ((with_reducible refine SymbolProjectPath.lx ?_ ?_); (· wf)))

theorem SymbolProjectPath.from_toVal [TextRule] {o : SymbolProjectPath} (h : o.WF) : SymbolProjectPath.fromSexpr o.toVal = .ok (canon o) := by
  simp only [toVal, List.cons_append, List.nil_append]
  change forM SymbolProjectPath.step _ _ = _
  foStart
  fld reference
  fld unit
  rfl

seal SymbolProjectPath.fromSexpr

theorem SymbolProjectInstance.lx [TextRule] {o : SymbolProjectInstance} (h : o.WF) {i nl s t} (hs : s ⇛ t) :
    (o.toSexpr i nl ++ s) ⇛ toks o.toVal ++ t := by
  obtain ⟨h1, h2⟩ := h
  simp only [toSexpr, toVal]
  lxNorm
  lxAuto

macro_rules | `(tactic| lxObj) => `(tactic| ((with_reducible refine SymbolProjectInstance.lx ?_ ?_); (· wf)))

theorem SymbolProjectInstance.from_toVal [TextRule] {o : SymbolProjectInstance} (h : o.WF) : SymbolProjectInstance.fromSexpr o.toVal = .ok (canon o) := by
  simp only [toVal, List.cons_append, List.nil_append]
  change forM SymbolProjectInstance.step _ _ = _
  foStart
  fldL paths using (fun a ha => SymbolProjectPath.from_toVal (h.paths a ha))
  rfl

seal SymbolProjectInstance.fromSexpr

theorem SchIdOk.text [TextRule] {o : SchematicSymbol} (h : SchIdOk o.libraryNickname o.entryName) : TextOk (.str o.libId) := by
  obtain ⟨a, b, _⟩ := o
  simp only at h
  cases h with
  | nick n e h1 h2 h3 h4 h5 h6 =>
    have : n.isEmpty = false := by cases n <;> simp_all
    simp only [TextOk, SchematicSymbol.libId, Val.truthy, this, optPyStr, Val.pyStr]
    simpa [kw] using TextRule.text_named h1 h4 h6
  | plain e h1 h2 => simpa [TextOk, SchematicSymbol.libId, optPyStr, Val.pyStr] using h2

/-- Setting `libId` to what `libId` returns gives back the two parts. -/
theorem SchIdOk.set_get [TextRule] {o : SchematicSymbol} (h : SchIdOk o.libraryNickname o.entryName) (p : SchematicSymbol) :
    SchematicSymbol.setLibId p (.str o.libId) = .ok
      { p with libraryNickname := canon o.libraryNickname, entryName := canon o.entryName } := by
  obtain ⟨a, b, _⟩ := o
  simp only at h
  cases h with
  | nick n e h1 h2 h3 h4 h5 h6 =>
    have : n.isEmpty = false := by cases n <;> simp_all
    have e1 := matchNick_mk h1 h2 h3 h4 h5
    simp only [SchematicSymbol.setLibId, SchematicSymbol.libId, Val.truthy, this, optPyStr, Val.pyStr, kw, Bool.not_false, if_true,
      List.cons_append, List.nil_append, e1]
    rfl
  | plain e h1 h2 =>
    have e1 : matchNick e = none := matchNick_none h1
    simp only [SchematicSymbol.setLibId, SchematicSymbol.libId, optPyStr, Val.pyStr, e1]
    rfl

theorem Dict.update_text [TextRule] {β : Type} {d : Dict β} {k : Val} {v : β} (hk : TextOk k) : d.update k.canon v = .ok (d.set k.canon v) := by
  cases k with
  | str s => rfl
  | _ => exact False.elim hk

theorem SchematicSymbol.step_pin (o : SchematicSymbol) (a b : Val) :
    step o (.list [.str k!"pin", a, .list [.str k!"uuid", b]]) = (Dict.update o.pins a b >>= fun c => .ok { o with pins := c }) := rfl

theorem SchematicSymbol.lx [TextRule] {o : SchematicSymbol} (h : o.WF) {i nl s t} (hs : s ⇛ t) :
    (o.toSexpr i nl ++ s) ⇛ toks o.toVal ++ t := by
  obtain ⟨h1, h2, h3, h4, h5, h6, h7, h8, h9, h10, h11⟩ := h
  obtain ⟨u, hu, hu'⟩ := h6
  have h11 : ∀ {s t}, sqEnd s = true → s ⇛ t → ('"' :: (dequote o.libId ++ '"' :: s)) ⇛ toks (.str o.libId) ++ t :=
    fun hd hs => lx_text (v := .str o.libId) h2.text hd hs
  have h12 : ∀ {s t}, s ⇛ t → ((optS o.uuid fun u => ifS u.truthy py!"{indents i}  (uuid {u.pyStr})\n") ++ s) ⇛
      toksL (optL o.uuid fun u => ifL u.truthy [.list [.str k!"uuid", u.canon]]) ++ t := by
    intro s t hs
    rcases hu' with rfl | hu'
    · rw [hu]; simpa [optS, optL, Val.truthy, ifS, ifL, toksL_nil] using hs
    · rw [hu]
      simp only [optS, optL]
      refine lx_if hs (fun _ t hs => ?_)
      lxNorm
      lxAuto
  simp only [toSexpr, toVal]
  lxNorm
  lxAuto
  delim

macro_rules | `(tactic| lxObj) => `(tactic| ((with_reducible refine SchematicSymbol.lx ?_ ?_); (· wf)))

theorem SchematicSymbol.from_toVal [TextRule] {o : SchematicSymbol} (h : o.WF) : SchematicSymbol.fromSexpr o.toVal = .ok (canon o) := by
  have e : ∀ (p : SchematicSymbol) xs r, p.uuid = some (.str []) → forM SchematicSymbol.step { p with uuid := canon o.uuid } xs = r →
      forM SchematicSymbol.step p ((optL o.uuid fun u => ifL u.truthy [.list [.str k!"uuid", u.canon]]) ++ xs) = r := by
    intro p xs r hp hr
    obtain ⟨u, hu, hu'⟩ := h.uuid
    rw [hu] at hr ⊢
    rcases hu' with rfl | hu'
    · rw [← hr]
      cases p; cases hp; rfl
    · cases u with
      | str w =>
        obtain ⟨hw, -⟩ := hu'
        have : (Val.str w).truthy = true := by cases w <;> simp_all [Val.truthy]
        simp only [optL, this, ifL]
        exact fo_cons rfl hr
      | _ => exact False.elim hu'
  have d : ∀ pre a post, o.pins = pre ++ a :: post →
      Dict.update (pre.map canon) a.1.canon a.2.canon = .ok (pre.map canon ++ [canon a]) := by
    intro pre a post hl
    rw [Dict.update_text (h.pinNumbers a (by simp [hl])), Dict.set_new]
    · rfl
    · intro p hp
      obtain ⟨q, hq, rfl⟩ := List.mem_map.1 hp
      have := h.distinct
      rw [hl, List.pairwise_append] at this
      show q.1.canon.keyEq _ = false
      rw [Val.keyEq_canon]
      exact this.2.2 q hq a (by simp)
  simp only [toVal, fromSexpr]
  foStart
  fldO libName
  dsimp only
  refine fo_cons (h.id.set_get { libName := canon o.libName }) ?_
  dsimp only
  fld position using Position.from_toVal h.position rfl
  dsimp only
  fldO mirror
  dsimp only
  fldO unit
  dsimp only
  fldB inBom o.inBom
  dsimp only
  fldB onBoard o.onBoard
  dsimp only
  refine fo_opt (fun o v => { o with dnp := v }) canon rfl (by intro b _; cases b <;> rfl) ?_
  dsimp only
  fldF fieldsAutoplaced
  dsimp only
  refine e _ _ _ rfl ?_
  dsimp only
  fldL properties using (fun a ha => Property.from_toVal (h.properties a ha))
  dsimp only
  refine fo_list_pre (fun o v => { o with pins := v }) canon rfl (fun pre a post hl => (step_pin _ _ _).trans (bind_ok (d pre a post hl) rfl)) ?_
  dsimp only
  fldM instances using (fun a ha => SymbolProjectInstance.from_toVal (h.instances a ha))
  rfl

seal SchematicSymbol.fromSexpr

theorem HierarchicalPin.lx [TextRule] {o : HierarchicalPin} (h : o.WF) {i nl s t} (hs : s ⇛ t) :
    (o.toSexpr i nl ++ s) ⇛ toks o.toVal ++ t := by
  obtain ⟨h1, h2, h3, h4, h5⟩ := h
  simp only [toSexpr, toVal]
  lxNorm
  lxAuto

macro_rules | `(tactic| lxObj) => `(tactic| ((with_reducible refine HierarchicalPin.lx ?_ ?_); (· wf)))

theorem HierarchicalPin.from_toVal [TextRule] {o : HierarchicalPin} (h : o.WF) : HierarchicalPin.fromSexpr o.toVal = .ok (canon o) := by
  simp only [toVal, fromSexpr]
  foStart
  fld position using Position.from_toVal h.position rfl
  fld effects using Effects.from_toVal h.effects
  fldO uuid
  rfl

seal HierarchicalPin.fromSexpr

theorem HierarchicalSheetProjectPath.lx [TextRule] {o : HierarchicalSheetProjectPath} (h : o.WF) {i nl s t} (hs : s ⇛ t) :
    (o.toSexpr i nl ++ s) ⇛ toks o.toVal ++ t := by
  obtain ⟨h1, h2⟩ := h
  simp only [toSexpr, toVal]
  lxNorm
  lxAuto

macro_rules | `(tactic| lxObj) => `(tactic| ((with_reducible refine HierarchicalSheetProjectPath.lx ?_ ?_); (· wf)))

theorem HierarchicalSheetProjectPath.from_toVal [TextRule] {o : HierarchicalSheetProjectPath} (h : o.WF) : HierarchicalSheetProjectPath.fromSexpr o.toVal = .ok (canon o) := by
  simp only [toVal, List.cons_append, List.nil_append]
  change forM HierarchicalSheetProjectPath.step _ _ = _
  foStart
  fld page
  rfl

seal HierarchicalSheetProjectPath.fromSexpr

theorem HierarchicalSheetProjectInstance.lx [TextRule] {o : HierarchicalSheetProjectInstance} (h : o.WF) {i nl s t} (hs : s ⇛ t) :
    (o.toSexpr i nl ++ s) ⇛ toks o.toVal ++ t := by
  obtain ⟨h1, h2⟩ := h
  simp only [toSexpr, toVal]
  lxNorm
  lxAuto

macro_rules | `(tactic| lxObj) => `(tactic| ((with_reducible refine HierarchicalSheetProjectInstance.lx ?_ ?_); (· wf)))

theorem HierarchicalSheetProjectInstance.from_toVal [TextRule] {o : HierarchicalSheetProjectInstance} (h : o.WF) : HierarchicalSheetProjectInstance.fromSexpr o.toVal = .ok (canon o) := by
  simp only [toVal, List.cons_append, List.nil_append]
  change forM HierarchicalSheetProjectInstance.step _ _ = _
  foStart
  fldL paths using (fun a ha => HierarchicalSheetProjectPath.from_toVal (h.paths a ha))
  rfl

seal HierarchicalSheetProjectInstance.fromSexpr

/-- A number literal begins with a sign or a digit. -/
theorem NumLit.Wf.head {n : NumLit} (h : n.Wf) {c : Char} {r : Str} (hs : n.src = c :: r) : c = '+' ∨ c = '-' ∨ isDigit c = true := by
  obtain ⟨sg, ip, fp⟩ := n
  obtain ⟨h1, h2, -, -, h5⟩ := h
  cases ip with
  | nil => exact absurd rfl h1
  | cons d ip =>
    rcases h5 with h5 | h5 | ⟨h5, -⟩ <;> (simp only at h5; subst h5; injection hs with e e'; subst e)
    · exact .inr (.inr (h2 d (by simp)))
    · exact .inr (.inl rfl)
    · exact .inl rfl

/-- An infinity is not printed as a number literal. -/
theorem NumLit.Wf.src_ne_inf {n : NumLit} (h : n.Wf) (p : Nat) (neg : Bool) : n.src ≠ F64.fmtFixed p (.inf neg) := by
  intro hs
  cases neg with
  | false => rcases h.head hs with e | e | e <;> exact absurd e (by decide)
  | true =>
    obtain ⟨sg, ip, fp⟩ := n
    obtain ⟨h1, h2, -, -, h5⟩ := h
    cases ip with
    | nil => exact absurd rfl h1
    | cons d ip =>
      have hd := h2 d (by simp)
      rcases h5 with h5 | h5 | ⟨h5, -⟩ <;> (simp only at h5; subst h5)
      · injection hs with e e'; subst e; exact absurd hd (by decide)
      · injection hs with e e'; injection e' with e e'; subst e; exact absurd hd (by decide)
      · injection hs with e e'; exact absurd e (by decide)

/-- A number that is printed without loss is printed without an exception. -/
theorem FixOk.formatFixed {p : Nat} {v : Val} (h : FixOk p v) : formatFixed p v = .ok (fmtFixedVal p v) := by
  obtain ⟨n, h1, h2, h3⟩ := h
  have h4 : (∃ k, n.val = .int k) ∨ ∃ f, n.val = .flt f := by
    simp only [NumLit.val, Val.canon]; split <;> simp
  cases v with
  | int k =>
    simp only [fmtFixedVal] at h2
    simp only [Kiutils.formatFixed, floatOfInt, fmtFixedVal]
    cases hf : F64.ofRat (decide (k < 0)) k.natAbs 1 with
    | inf b => rw [hf] at h2; exact absurd h2 (h1.src_ne_inf p b)
    | fin _ _ _ => rfl
  | flt f => rfl
  | str s => rcases h4 with ⟨k, e⟩ | ⟨k, e⟩ <;> rw [e] at h3 <;> exact absurd h3 (by simp [Val.canon])
  | list s => rcases h4 with ⟨k, e⟩ | ⟨k, e⟩ <;> rw [e] at h3 <;> exact absurd h3 (by simp [Val.canon])

/-- See `FixOk.formatFixed`. -/
theorem FixOk.floatFixed {p : Nat} {v : Val} (h : FixOk p v) : floatFixed p v = .ok (fmtFixedVal p v) := by
  have := h.formatFixed
  cases v with
  | int k => exact this
  | flt f => rfl
  | str s => exact absurd this (by simp [Kiutils.formatFixed])
  | list s => exact absurd this (by simp [Kiutils.formatFixed])

theorem lx_fix [TextRule] {p : Nat} {v : Val} (h : FixOk p v) {s t} (hd : numEnd s = true) (hs : s ⇛ t) :
    (fmtFixedVal p v ++ s) ⇛ toks v.canon ++ t := by
  obtain ⟨n, h1, h2, h3⟩ := h
  have := lx_lit h1 hd hs
  rw [h2, h3] at this
  have e : toks v.canon = [.atom v.canon] := by
    cases v with
    | flt f => simp only [Val.canon]; split <;> rfl
    | list l => exact absurd h3 (by simp only [NumLit.val, Val.canon]; split <;> simp)
    | _ => rfl
  rw [e]
  exact this

theorem ColorRGBA.lxPrec [TextRule] {o : ColorRGBA} (h : o.WFPrec) {s t} (hs : s ⇛ t) :
    (o.toSexpr ++ s) ⇛ toks o.toVal ++ t := by
  obtain ⟨h1, h2, h3, h4⟩ := h
  rcases h4 with ⟨h4, h5⟩ | ⟨p, h4, h5⟩
  · exact ColorRGBA.lx ⟨h1, h2, h3, h5, h4⟩ hs
  · have h6 : ∀ {s t}, numEnd s = true → s ⇛ t → (fmtFixedVal p o.A ++ s) ⇛ toks o.A.canon ++ t := lx_fix h5
    simp only [toSexpr, toVal, h4]
    lxNorm
    lxAuto
    delim

macro_rules | `(tactic| lxObj) => `(tactic| ((with_reducible refine ColorRGBA.lxPrec ?_ ?_); (· wf)))

theorem ColorRGBA.toSexprM_eq [TextRule] {o : ColorRGBA} (h : o.WFPrec) (i nl) : o.toSexprM i nl = .ok (o.toSexpr i nl) := by
  rcases h.A with ⟨h1, -⟩ | ⟨p, h1, h2⟩
  · simp only [toSexprM, toSexpr, h1]; rfl
  · simp only [toSexprM, toSexpr, h1, h2.formatFixed]; rfl

theorem ColorRGBA.from_toVal_prec (o : ColorRGBA) :
    ColorRGBA.fromSexpr o.toVal = .ok { canon o with precision := none } := by
  rw [ColorRGBA.fromSexpr.eq_def]; rfl

theorem HierarchicalSheet.step_name [TextRule] {o : HierarchicalSheet} {p : Property} (h : p.WF)
    (hk : p.key = .str k!"Sheet name" ∨ p.key = .str k!"Sheetname") :
    step o p.toVal = .ok { o with sheetName := canon p } := by
  refine eq_bind (fun v : Property => { o with sheetName := v }) (Property.from_toVal h) ?_
  simp only [Property.toVal]
  rcases hk with hk | hk <;> rw [hk] <;> rfl

theorem HierarchicalSheet.step_file [TextRule] {o : HierarchicalSheet} {p : Property} (h : p.WF)
    (hk : p.key = .str k!"Sheet file" ∨ p.key = .str k!"Sheetfile") :
    step o p.toVal = .ok { o with fileName := canon p } := by
  refine eq_bind (fun v : Property => { o with fileName := v }) (Property.from_toVal h) ?_
  simp only [Property.toVal]
  rcases hk with hk | hk <;> rw [hk] <;> rfl

theorem HierarchicalSheet.step_property [TextRule] {o : HierarchicalSheet} {p : Property} (h : p.WF)
    (hk : p.key ≠ .str k!"Sheet name" ∧ p.key ≠ .str k!"Sheetname" ∧ p.key ≠ .str k!"Sheet file" ∧ p.key ≠ .str k!"Sheetfile") :
    step o p.toVal = .ok { o with properties := o.properties ++ [canon p] } := by
  refine eq_bind (fun v : Property => { o with properties := o.properties ++ [v] }) (Property.from_toVal h) ?_
  obtain ⟨k1, k2, k3, k4⟩ := hk
  have e1 := h.key.is_eq k1
  have e2 := h.key.is_eq k2
  have e3 := h.key.is_eq k3
  have e4 := h.key.is_eq k4
  have : step o p.toVal = (Property.fromSexpr p.toVal >>= fun v =>
      if p.key.canon.is k!"Sheet name" || p.key.canon.is k!"Sheetname" then return { o with sheetName := v }
      else if p.key.canon.is k!"Sheet file" || p.key.canon.is k!"Sheetfile" then return { o with fileName := v }
      else return { o with properties := o.properties ++ [v] }) := rfl
  rw [this, e1, e2, e3, e4]
  rfl

theorem HierarchicalSheet.lexes [TextRule] {o : HierarchicalSheet} (h : o.WF) (i nl) : Lexes (o.toSexpr i nl) [o.toVal] := by
  have hf := ColorRGBA.toSexprM_eq h.fill 0 false
  obtain ⟨h1, h2, h3, h4, h5, h6, h7, h8, h9, h10, h11, h12, h13, h14⟩ := h
  refine ⟨_, by rw [toSexpr, hf]; rfl, fun s t hs => ?_⟩
  simp only [toVal]
  lxNorm
  lxAuto

theorem HierarchicalSheet.from_toVal [TextRule] {o : HierarchicalSheet} (h : o.WF) : HierarchicalSheet.fromSexpr o.toVal = .ok (canon o.asRead) := by
  simp only [toVal, fromSexpr]
  foStart
  fld position using Position.from_toValXY h.position rfl
  dsimp only
  refine fo_cons (by rfl) ?_
  dsimp only
  fldF fieldsAutoplaced
  dsimp only
  fld stroke using Stroke.from_toVal h.stroke
  dsimp only
  refine fo_setB (fun o v => { o with fill := { v with precision := some 4 } }) (ColorRGBA.from_toVal_prec o.fill) rfl ?_
  dsimp only
  fldO uuid
  dsimp only
  refine fo_cons (step_name h.sheetName h.sheetName_key) ?_
  dsimp only
  refine fo_cons (step_file h.fileName h.fileName_key) ?_
  dsimp only
  refine fo_list (fun o v => { o with properties := v }) canon rfl (fun pre a ha => step_property (h.properties a ha) (h.properties_key a ha)) ?_
  dsimp only
  fldL pins using (fun a ha => HierarchicalPin.from_toVal (h.pins a ha))
  dsimp only
  fldM instances using (fun a ha => HierarchicalSheetProjectInstance.from_toVal (h.instances a ha))
  rfl

seal HierarchicalSheet.fromSexpr

theorem HierarchicalSheetInstance.lx [TextRule] {o : HierarchicalSheetInstance} (h : o.WF) {i nl s t} (hs : s ⇛ t) :
    (o.toSexpr i nl ++ s) ⇛ toks o.toVal ++ t := by
  obtain ⟨h1, h2⟩ := h
  simp only [toSexpr, toVal]
  lxNorm
  lxAuto

macro_rules | `(tactic| lxObj) => `(tactic| ((with_reducible refine HierarchicalSheetInstance.lx ?_ ?_); (· wf)))

theorem HierarchicalSheetInstance.from_toVal [TextRule] {o : HierarchicalSheetInstance} (h : o.WF) : HierarchicalSheetInstance.fromSexpr o.toVal = .ok (canon o) := by
  simp only [toVal, fromSexpr]
  foStart
  fld page
  rfl

seal HierarchicalSheetInstance.fromSexpr

theorem SymbolInstance.lx [TextRule] {o : SymbolInstance} (h : o.WF) {i nl s t} (hs : s ⇛ t) :
    (o.toSexpr i nl ++ s) ⇛ toks o.toVal ++ t := by
  obtain ⟨h1, h2, h3, h4, h5⟩ := h
  simp only [toSexpr, toVal]
  lxNorm
  lxAuto

macro_rules | `(tactic| lxObj) => `(tactic| ((with_reducible refine SymbolInstance.lx ?_ ?_); (· wf)))

theorem SymbolInstance.from_toVal [TextRule] {o : SymbolInstance} (h : o.WF) : SymbolInstance.fromSexpr o.toVal = .ok (canon o) := by
  simp only [toVal, fromSexpr]
  foStart
  fld reference
  fld unit
  fld value
  fld footprint
  rfl

seal SymbolInstance.fromSexpr

theorem Rectangle.lx [TextRule] {o : Rectangle} (h : o.WF) {i nl s t} (hs : s ⇛ t) :
    (o.toSexpr i nl ++ s) ⇛ toks o.toVal ++ t := by
  obtain ⟨h1, h2, h3, h4, h5⟩ := h
  simp only [toSexpr, toVal]
  lxNorm
  lxAuto

macro_rules | `(tactic| lxObj) => `(tactic| ((with_reducible refine Rectangle.lx ?_ ?_); (· wf)))

theorem Rectangle.from_toVal [TextRule] {o : Rectangle} (h : o.WF) : Rectangle.fromSexpr o.toVal = .ok (canon o) := by
  simp only [toVal, fromSexpr]
  foStart
  foSkip
  fld start using Position.from_toValXY h.start rfl
  fld «end» using Position.from_toValXY h.end rfl
  fld stroke using Stroke.from_toVal h.stroke
  fld fill using Fill.from_toVal h.fill
  fldO uuid
  rfl

seal Rectangle.fromSexpr

theorem Arc.lx [TextRule] {o : Arc} (h : o.WF) {i nl s t} (hs : s ⇛ t) :
    (o.toSexpr i nl ++ s) ⇛ toks o.toVal ++ t := by
  obtain ⟨h1, h2, h3, h4, h5, h6⟩ := h
  simp only [toSexpr, toVal]
  lxNorm
  lxAuto

macro_rules | `(tactic| lxObj) => `(tactic| ((with_reducible refine Arc.lx ?_ ?_); (· wf)))

theorem Arc.from_toVal [TextRule] {o : Arc} (h : o.WF) : Arc.fromSexpr o.toVal = .ok (canon o) := by
  simp only [toVal, fromSexpr]
  foStart
  foSkip
  fld start using Position.from_toValXY h.start rfl
  fld mid using Position.from_toValXY h.mid rfl
  fld «end» using Position.from_toValXY h.end rfl
  fld stroke using Stroke.from_toVal h.stroke
  fld fill using Fill.from_toVal h.fill
  fldO uuid
  rfl

seal Arc.fromSexpr

theorem Circle.lx [TextRule] {o : Circle} (h : o.WF) {i nl s t} (hs : s ⇛ t) :
    (o.toSexpr i nl ++ s) ⇛ toks o.toVal ++ t := by
  obtain ⟨h1, h2, h3, h4, h5⟩ := h
  simp only [toSexpr, toVal]
  lxNorm
  lxAuto

macro_rules | `(tactic| lxObj) => `(tactic| ((with_reducible refine Circle.lx ?_ ?_); (· wf)))

theorem Circle.from_toVal [TextRule] {o : Circle} (h : o.WF) : Circle.fromSexpr o.toVal = .ok (canon o) := by
  simp only [toVal, fromSexpr]
  foStart
  foSkip
  fld center using Position.from_toValXY h.center rfl
  fld radius
  fld stroke using Stroke.from_toVal h.stroke
  fld fill using Fill.from_toVal h.fill
  fldO uuid
  rfl

seal Circle.fromSexpr

theorem NetclassFlag.lexes [TextRule] {o : NetclassFlag} (h : o.WF) (i nl) : Lexes (o.toSexpr i nl) [o.toVal] := by
  obtain ⟨h1, h2, h3, h4, ⟨e, h5, h5'⟩, h6, h7⟩ := h
  refine ⟨_, by rw [toSexpr, h5]; rfl, fun s t hs => ?_⟩
  simp only [toVal, h5, optL_some]
  lxNorm
  lxAuto

theorem NetclassFlag.from_toVal [TextRule] {o : NetclassFlag} (h : o.WF) : NetclassFlag.fromSexpr o.toVal = .ok (canon o) := by
  have he : ∀ a, o.effects = some a → Effects.fromSexpr a.toVal = .ok (canon a) := by
    obtain ⟨e, he, he'⟩ := h.effects
    intro a ha
    rw [he] at ha
    cases ha
    exact Effects.from_toVal he'
  simp only [toVal, fromSexpr]
  foStart
  fld length
  fld shape
  fld position using Position.from_toVal h.position rfl
  fldF fieldsAutoplaced
  fldO effects using he
  fldO uuid
  fldL properties using (fun a ha => Property.from_toVal (h.properties a ha))
  rfl

seal NetclassFlag.fromSexpr

end Kiutils
