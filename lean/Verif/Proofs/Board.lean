import Verif.Format.Board
import Verif.Proofs.Footprint
import Verif.Proofs.BrdItems
import Verif.Proofs.Dimensions
/-!
# Boards: the text denotes `toVal`, `from_sexpr` reads `toVal`
-/
namespace Kiutils

seal Position.fromSexpr Net.fromSexpr Image.fromSexpr Group.fromSexpr PageSettings.fromSexpr TitleBlock.fromSexpr GrText.fromSexpr GrTextBox.fromSexpr GrLine.fromSexpr GrRect.fromSexpr GrCircle.fromSexpr GrArc.fromSexpr GrPoly.fromSexpr GrCurve.fromSexpr Zone.fromSexpr Footprint.fromSexpr GeneralSettings.fromSexpr LayerToken.fromSexpr SetupData.fromSexpr Segment.fromSexpr Via.fromSexpr TraceArc.fromSexpr Target.fromSexpr Dimension.fromSexpr

theorem TraceItem.lx [TextRule] {o : TraceItem} (h : o.WF) {i s t} (hs : s ⇛ t) : (o.toSexpr i ++ s) ⇛ toks o.toVal ++ t := by
  cases o with
  | segment o => exact Segment.lx h hs
  | arc o => exact TraceArc.lx h hs
  | via o => exact Via.lx h hs

macro_rules | `(tactic| lxObj) => `(tactic| ((with_reducible refine TraceItem.lx ?_ ?_); (· wf)))

theorem Board.step_traceItems [TextRule] {tedit : Val} {o : Board} {a : TraceItem} (h : a.WF) :
    Board.step tedit o a.toVal = .ok { o with traceItems := o.traceItems ++ [canon a] } := by
  cases a with
  | segment a =>
    refine eq_bind (b := canon a) (fun v : Segment => { o with traceItems := o.traceItems ++ [TraceItem.segment v] }) (Segment.from_toVal (o := a) h) ?_
    rfl
  | arc a =>
    refine eq_bind (b := canon a) (fun v : TraceArc => { o with traceItems := o.traceItems ++ [TraceItem.arc v] }) (TraceArc.from_toVal (o := a) h) ?_
    rfl
  | via a =>
    refine eq_bind (b := canon a) (fun v : Via => { o with traceItems := o.traceItems ++ [TraceItem.via v] }) (Via.from_toVal (o := a) h) ?_
    rfl

theorem Board.step_graphicItems [TextRule] {tedit : Val} {o : Board} {a : GrItem} (h : a.WF) :
    Board.step tedit o a.toVal = .ok { o with graphicItems := o.graphicItems ++ [canon a] } := by
  cases a with
  | text a =>
    refine eq_bind (b := canon a) (fun v : GrText => { o with graphicItems := o.graphicItems ++ [GrItem.text v] }) (GrText.from_toVal (o := a) h) ?_
    rfl
  | textBox a =>
    refine eq_bind (b := canon a) (fun v : GrTextBox => { o with graphicItems := o.graphicItems ++ [GrItem.textBox v] }) (GrTextBox.from_toVal (o := a) h) ?_
    rfl
  | line a =>
    refine eq_bind (b := canon a) (fun v : GrLine => { o with graphicItems := o.graphicItems ++ [GrItem.line v] }) (GrLine.from_toVal (o := a) h) ?_
    rfl
  | rect a =>
    refine eq_bind (b := canon a) (fun v : GrRect => { o with graphicItems := o.graphicItems ++ [GrItem.rect v] }) (GrRect.from_toVal (o := a) h) ?_
    rfl
  | circle a =>
    refine eq_bind (b := canon a) (fun v : GrCircle => { o with graphicItems := o.graphicItems ++ [GrItem.circle v] }) (GrCircle.from_toVal (o := a) h) ?_
    rfl
  | arc a =>
    refine eq_bind (b := canon a) (fun v : GrArc => { o with graphicItems := o.graphicItems ++ [GrItem.arc v] }) (GrArc.from_toVal (o := a) h) ?_
    rfl
  | poly a =>
    refine eq_bind (b := canon a) (fun v : GrPoly => { o with graphicItems := o.graphicItems ++ [GrItem.poly v] }) (GrPoly.from_toVal (o := a) h) ?_
    rfl
  | curve a =>
    refine eq_bind (b := canon a) (fun v : GrCurve => { o with graphicItems := o.graphicItems ++ [GrItem.curve v] }) (GrCurve.from_toVal (o := a) h) ?_
    rfl
  | image a =>
    refine eq_bind (b := canon a) (fun v : Image => { o with graphicItems := o.graphicItems ++ [GrItem.image v] }) (Image.from_toVal (o := a) h) ?_
    rfl

theorem Board.step_zones [TextRule] {tedit : Val} {o : Board} {a : Zone} (h : a.WF) :
    Board.step tedit o a.toVal = .ok { o with zones := o.zones ++ [canon a] } := by
  have key : ∀ l, Board.step tedit o (.list (.str k!"zone" :: l)) =
      (Zone.fromSexpr (.list (.str k!"zone" :: l)) >>= fun v => .ok { o with zones := o.zones ++ [v] }) := fun _ => rfl
  obtain ⟨l, e⟩ : ∃ l, a.toVal = .list (.str k!"zone" :: l) := by
    simp only [Zone.toVal, List.append_assoc, List.cons_append]
    exact ⟨_, rfl⟩
  have hf := Zone.from_toVal (o := a) h
  rw [e] at hf ⊢
  rw [key, hf]
  rfl

theorem Board.step_groups [TextRule] {tedit : Val} {o : Board} {a : Group} (h : a.WF) :
    Board.step tedit o a.toVal = .ok { o with groups := o.groups ++ [canon a] } := by
  have key : ∀ l, Board.step tedit o (.list (.str k!"group" :: l)) =
      (Group.fromSexpr (.list (.str k!"group" :: l)) >>= fun v => .ok { o with groups := o.groups ++ [v] }) := fun _ => rfl
  obtain ⟨l, e⟩ : ∃ l, a.toVal = .list (.str k!"group" :: l) := by
    simp only [Group.toVal, List.append_assoc, List.cons_append]
    exact ⟨_, rfl⟩
  have hf := Group.from_toVal (o := a) h
  rw [e] at hf ⊢
  rw [key, hf]
  rfl

theorem Board.step_nets [TextRule] {tedit : Val} {o : Board} {a : Net} (h : a.WF) :
    Board.step tedit o a.toVal = .ok { o with nets := o.nets ++ [canon a] } := by
  have key : ∀ l, Board.step tedit o (.list (.str k!"net" :: l)) =
      (Net.fromSexpr (.list (.str k!"net" :: l)) >>= fun v => .ok { o with nets := o.nets ++ [v] }) := fun _ => rfl
  obtain ⟨l, e⟩ : ∃ l, a.toVal = .list (.str k!"net" :: l) := by
    simp only [Net.toVal, List.append_assoc, List.cons_append]
    exact ⟨_, rfl⟩
  have hf := Net.from_toVal (o := a)
  rw [e] at hf ⊢
  rw [key, hf]
  rfl

theorem Board.step_dimensions [TextRule] {tedit : Val} {o : Board} {a : Dimension} (h : a.WF) :
    Board.step tedit o a.toVal = .ok { o with dimensions := o.dimensions ++ [canon a] } := by
  have key : ∀ l, Board.step tedit o (.list (.str k!"dimension" :: l)) =
      (Dimension.fromSexpr (.list (.str k!"dimension" :: l)) >>= fun v => .ok { o with dimensions := o.dimensions ++ [v] }) := fun _ => rfl
  obtain ⟨l, e⟩ : ∃ l, a.toVal = .list (.str k!"dimension" :: l) := by
    simp only [Dimension.toVal, List.append_assoc, List.cons_append]
    exact ⟨_, rfl⟩
  have hf := Dimension.from_toVal (o := a) h
  rw [e] at hf ⊢
  rw [key, hf]
  rfl

theorem Board.step_targets [TextRule] {tedit : Val} {o : Board} {a : Target} (h : a.WF) :
    Board.step tedit o a.toVal = .ok { o with targets := o.targets ++ [canon a] } := by
  have key : ∀ l, Board.step tedit o (.list (.str k!"target" :: l)) =
      (Target.fromSexpr (.list (.str k!"target" :: l)) >>= fun v => .ok { o with targets := o.targets ++ [v] }) := fun _ => rfl
  obtain ⟨l, e⟩ : ∃ l, a.toVal = .list (.str k!"target" :: l) := by
    simp only [Target.toVal, List.append_assoc, List.cons_append]
    exact ⟨_, rfl⟩
  have hf := Target.from_toVal (o := a) h
  rw [e] at hf ⊢
  rw [key, hf]
  rfl

theorem Board.step_footprints [TextRule] {tedit : Val} {o : Board} {a : Footprint} (h : a.WF) :
    Board.step tedit o a.toVal = .ok { o with footprints := o.footprints ++ [canon { a with filePath := none }] } := by
  have key : ∀ l, Board.step tedit o (.list (.str k!"footprint" :: l)) =
      (Footprint.fromSexpr tedit (.list (.str k!"footprint" :: l)) >>= fun v => .ok { o with footprints := o.footprints ++ [v] }) := fun _ => rfl
  obtain ⟨l, e⟩ : ∃ l, a.toVal = .list (.str k!"footprint" :: l) := by
    simp only [Footprint.toVal, List.append_assoc, List.cons_append]
    exact ⟨_, rfl⟩
  have hf := Footprint.from_toVal (o := a) h tedit
  rw [e] at hf ⊢
  rw [key, hf]
  rfl

theorem Board.step_property {tedit : Val} (o : Board) (a b : Val) :
    step tedit o (.list [.str k!"property", a, b]) = (Dict.update o.properties a b >>= fun c => .ok { o with properties := c }) := rfl

theorem Board.from_toVal [TextRule] {o : Board} (h : o.WF) (tedit : Val) : Board.fromSexpr tedit o.toVal = .ok (canon o.asRead) := by
  simp only [toVal, fromSexpr]
  foStart
  foSkip
  fld version
  dsimp only
  fld generator
  dsimp only
  fld general using GeneralSettings.from_toVal h.general
  dsimp only
  fld paper using PageSettings.from_toVal h.paper
  dsimp only
  fldO titleBlock using (fun a ha => TitleBlock.from_toVal (h.titleBlock a ha))
  dsimp only
  refine fo_map (fun o v => { o with layers := v }) (fun _ _ => LayerToken.from_toVal) (by intro _; rfl) ?_
  dsimp only
  fld setup using SetupData.from_toVal h.setup
  dsimp only
  refine fo_list_pre (fun p v => { p with properties := v }) canon rfl (fun pre a post hl => (Board.step_property _ _ _).trans (by rw [Dict.update_distinct h.propertyNames h.distinct hl]; rfl)) ?_
  dsimp only
  refine fo_list (fun o v => { o with nets := v }) canon rfl (fun pre a ha => step_nets (h.nets a ha)) ?_
  dsimp only
  refine fo_list (fun o v => { o with footprints := v }) (fun a => canon { a with filePath := none }) rfl (fun pre a ha => step_footprints (h.footprints a ha)) ?_
  dsimp only
  refine fo_list (fun o v => { o with graphicItems := v }) canon rfl (fun pre a ha => step_graphicItems (h.graphicItems a ha)) ?_
  dsimp only
  refine fo_list (fun o v => { o with dimensions := v }) canon rfl (fun pre a ha => step_dimensions (h.dimensions a ha)) ?_
  dsimp only
  refine fo_list (fun o v => { o with targets := v }) canon rfl (fun pre a ha => step_targets (h.targets a ha)) ?_
  dsimp only
  refine fo_list (fun o v => { o with traceItems := v }) canon rfl (fun pre a ha => step_traceItems (h.traceItems a ha)) ?_
  dsimp only
  refine fo_list (fun o v => { o with zones := v }) canon rfl (fun pre a ha => step_zones (h.zones a ha)) ?_
  dsimp only
  refine fo_list (fun o v => { o with groups := v }) canon rfl (fun pre a ha => step_groups (h.groups a ha)) ?_
  rw [fo_end]
  refine congrArg Except.ok ?_
  dsimp only
  simp only [canon, asRead, List.map_map]
  rfl

seal Board.fromSexpr

/-- A list of items with an empty line after it, if there are any. -/
theorem lx_ifFor [TextRule] {α : Type} {xs : List α} {f : α → Str} {g : α → Val} {s t} (hs : s ⇛ t)
    (hf : ∀ a ∈ xs, ∀ s t, s ⇛ t → (f a ++ s) ⇛ toks (g a) ++ t) :
    (ifS (!xs.isEmpty) (forS xs f ++ py!"\n") ++ s) ⇛ toksL (xs.map g) ++ t := by
  refine lx_group ?_ (fun hs => ?_) hs
  · intro h
    cases xs with
    | nil => rfl
    | cons a l => exact absurd h (by simp)
  · rw [List.append_assoc]
    exact lx_for (lx_nl hs) hf

theorem Board.lexes [TextRule] {o : Board} (h : o.WF) (i nl) : Lexes (o.toSexpr i nl) [o.toVal] := by
  obtain ⟨h1, h2, h3, h4, h5, h6, h7, h8, h9, h10, h11, h12, h13, h14, h15, h16, h17, h18⟩ := h
  obtain ⟨x1, hx1, hy1⟩ := PageSettings.lx h4 (i + 2) true
  obtain ⟨x6, hx6, hy6⟩ := SetupData.lexes h7 (i + 2) true
  obtain ⟨x2, hx2, hy2⟩ := Lexes.forSM (f := fun f : Footprint => do return py!"{← f.toSexpr (i + 2) true true}\n") (g := Footprint.toVal)
    (xs := o.footprints) fun a ha => by
      obtain ⟨x, hx, hy⟩ := Footprint.lexes (h12 a ha) (i + 2) true true
      exact ⟨x ++ ['\n'], by rw [hx]; rfl, fun s t hs => by rw [List.append_assoc]; exact hy _ _ (lx_nl hs)⟩
  obtain ⟨x3, hx3, hy3⟩ := Lexes.forSM (f := fun a => GrItem.toSexpr a (i + 2) true true) fun a ha =>
    GrItem.lexes (h13 a ha) (i + 2) true true
  obtain ⟨x4, hx4, hy4⟩ := Lexes.forSM (f := fun a => Dimension.toSexpr a (i + 2)) fun a ha => Dimension.lexes (h14 a ha) (i + 2) true
  obtain ⟨x5, hx5, hy5⟩ := Lexes.forSM (f := fun a => Zone.toSexpr a (i + 2)) fun a ha => Zone.lexes (h17 a ha) (i + 2) true
  refine ⟨_, by rw [toSexpr, hx1, hx6, hx2, hx3, hx4, hx5]; rfl, fun s t hs => ?_⟩
  have hl1 : ∀ {s t}, s ⇛ t →
      (ifS (!o.properties.isEmpty) ((forS o.properties fun p => py!"  (property \"{dq p.1}\" \"{dq p.2}\")\n") ++ py!"\n") ++ s) ⇛
        toksL (o.properties.map fun p => .list [.str k!"property", p.1.canon, p.2.canon]) ++ t := fun hs =>
    lx_ifFor hs fun a ha s t hs => by
      have := h8 a ha
      have := h9 a ha
      lxNorm
      lxAuto
  have hl2 : ∀ {s t}, s ⇛ t → (ifS (!o.nets.isEmpty) ((forS o.nets fun n => n.toSexpr (i + 2) true) ++ py!"\n") ++ s) ⇛
      toksL (o.nets.map Net.toVal) ++ t := fun hs => lx_ifFor hs fun a ha s t hs => Net.lx (h11 a ha) hs
  have hl3 : ∀ {s t}, s ⇛ t → (ifS (!o.traceItems.isEmpty) ((forS o.traceItems fun t => t.toSexpr (i + 2)) ++ py!"\n") ++ s) ⇛
      toksL (o.traceItems.map TraceItem.toVal) ++ t := fun hs => lx_ifFor hs fun a ha s t hs => TraceItem.lx (h16 a ha) hs
  have hl4 : ∀ {b : Bool} {s t}, s ⇛ t → (ifS b py!"\n" ++ s) ⇛ t := by
    intro b s t hs
    cases b
    · exact hs
    · exact lx_nl hs
  generalize ifS (!o.properties.isEmpty) _ = L1 at hl1 ⊢
  generalize ifS (!o.nets.isEmpty) _ = L2 at hl2 ⊢
  generalize ifS (!o.traceItems.isEmpty) _ = L3 at hl3 ⊢
  replace hl4 := @hl4 (!o.graphicItems.isEmpty || !o.dimensions.isEmpty || !o.targets.isEmpty)
  generalize ifS (!o.graphicItems.isEmpty || !o.dimensions.isEmpty || !o.targets.isEmpty) _ = L4 at hl4 ⊢
  simp only [toVal]
  simp only [toks_list, List.append_assoc, List.cons_append, List.nil_append, toksL_cons, toksL_nil, toksL_append] at hy1 hy6
  lxNorm
  lxAuto

end Kiutils
