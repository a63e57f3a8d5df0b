import Verif.Props.SaveLoad
import Verif.Props.CreateNew
import Verif.Model.Examples
/-!
# C74: the example programs of the documentation do what they are meant to do

For all files in the documented format, in any layout, and for all encodings that work character by character.
-/
namespace Kiutils

/-! ## Specification -/

/-- The surroundings: the encoding works character by character, `has` says for which characters, and the device does not get full. -/
structure Usual (env : Env) (has : Char → Prop) : Prop where
  charWise : CharWise env.locale has
  lawful : env.locale.Lawful
  room : env.full = none

/-- The file can be read, and its text is one of the texts of the tree `v`. -/
def Holds (env : Env) (fs : FS) (p : Path) (v : Val) : Prop := ∃ t, Contains env fs p none t ∧ TextOf v t

/-- The program ended without an exception, changed no file but `p`, and `p` now has a text that is read as the tree `v`. -/
structure Leaves (r : PyM Unit × FS) (env : Env) (fs : FS) (p : Path) (v : Val) : Prop where
  success : r.1 = .ok ()
  only : OnlyAt p fs r.2
  tree : ∃ t, Contains env r.2 p none t ∧ parseSexp t = .ok v

/-- All texts of the type `reference` say `s`. -/
def withReference (s : Str) : FpItem → FpItem
  | .text x => match x.type with
    | .str t => .text { x with text := if t = k!"reference" then .str s else x.text }
    | _ => .text x
  | x => x

/-- A through via of size 1.0 with a drill of 0.6 from the front to the back. -/
def viaAt (a : Val × Val) : TraceItem :=
  .via { position := { X := a.1, Y := a.2 }, size := fl k!"1" k!"0", drill := fl k!"0" k!"6", layers := [.str k!"F.Cu", .str k!"B.Cu"] }

/-- The vias that are added for an item: two for a segment. -/
def viasFor (points : Segment → PyM ((Val × Val) × (Val × Val))) : TraceItem → List TraceItem
  | .segment s => match points s with
    | .ok (a, b) => [viaAt a, viaAt b]
    | .error _ => []
  | _ => []

/-! ## Lemmas -/

theorem run_ok {α β : Type} {m : FileM α} {f : α → FileM β} {fs fs' : FS} {a : α} (h : m fs = (.ok a, fs')) : (m >>= f) fs = f a fs' := by
  show (match m fs with | (.ok a, fs') => f a fs' | (.error e, fs') => (.error e, fs')) = _
  rw [h]

theorem run_error {α β : Type} {m : FileM α} {f : α → FileM β} {fs fs' : FS} {e : PyErr} (h : m fs = (.error e, fs')) :
    (m >>= f) fs = (.error e, fs') := by
  show (match m fs with | (.ok a, fs') => f a fs' | (.error e, fs') => (.error e, fs')) = _
  rw [h]

theorem parse_load [TextRule] {α : Type} {v : Val} {s : Str} {load : Val → PyM α} {r : PyM α} (hs : TextOf v s) (h : load v = r) :
    (parseSexp s >>= load) = r := by
  rw [textOf_parse hs]; exact h

/-! ### The strings of edited objects -/

theorem only_lit {has : Char → Prop} [Base has] {s : Str} (h : s.all (fun c => decide (Plain c)) = true) :
    Only (Chars has) (some (Val.str s)) := fun t ht => by
  cases List.mem_singleton.1 (show t ∈ [s] from ht)
  exact .lit h

theorem only_texts {has : Char → Prop} [Base has] {α : Type} [Texts α] {a : α}
    (h : (texts a).all (fun s => s.all fun c => decide (Plain c)) = true) : Only (Chars has) a := fun s hs =>
  .lit (List.all_eq_true.1 h s hs)

theorem only_some {Q : Str → Prop} {α : Type} [Texts α] {a : α} (h : Only Q a) : Only Q (some a) := fun s hs =>
  h s (by simpa [texts] using hs)

theorem Schematic.set_only {Q : Str → Prop} {o : Schematic} {p : Option Path} (h : Only Q o) {t} (ht : Only Q t) :
    Only Q ({ o with titleBlock := t, filePath := p } : Schematic) :=
  Schematic.of_only (Schematic.version_only h :) (Schematic.generator_only h :) (Schematic.uuid_only h :) (Schematic.paper_only h :) ht (Schematic.libSymbols_only h :) (Schematic.schematicSymbols_only h :) (Schematic.junctions_only h :) (Schematic.noConnects_only h :) (Schematic.busEntries_only h :) (Schematic.busAliases_only h :) (Schematic.graphicalItems_only h :) (Schematic.shapes_only h :) (Schematic.images_only h :) (Schematic.texts_only h :) (Schematic.textBoxes_only h :) (Schematic.labels_only h :) (Schematic.globalLabels_only h :) (Schematic.hierarchicalLabels_only h :) (Schematic.netclassFlags_only h :) (Schematic.sheets_only h :) (Schematic.sheetInstances_only h :) (Schematic.symbolInstances_only h :)

theorem TitleBlock.set_only {Q : Str → Prop} {o : TitleBlock} (h : Only Q o) {x} (hx : Only Q x) {y} (hy : Only Q y) :
    Only Q ({ o with title := x, revision := y } : TitleBlock) :=
  TitleBlock.of_only hx (TitleBlock.date_only h :) hy (TitleBlock.company_only h :) (TitleBlock.comments_only h :)

theorem Footprint.set_only {Q : Str → Prop} {o : Footprint} {p : Option Path} (h : Only Q o) {x} (hx : Only Q x) {y} (hy : Only Q y) :
    Only Q ({ o with position := x, graphicItems := y, filePath := p } : Footprint) :=
  Footprint.of_only (Footprint.libraryNickname_only h :) (Footprint.entryName_only h :) (Footprint.version_only h :) (Footprint.generator_only h :) (Footprint.locked_only h :) (Footprint.placed_only h :) (Footprint.layer_only h :) (Footprint.tedit_only h :) (Footprint.tstamp_only h :) hx (Footprint.description_only h :) (Footprint.tags_only h :) (Footprint.properties_only h :) (Footprint.path_only h :) (Footprint.autoplaceCost90_only h :) (Footprint.autoplaceCost180_only h :) (Footprint.solderMaskMargin_only h :) (Footprint.solderPasteMargin_only h :) (Footprint.solderPasteRatio_only h :) (Footprint.clearance_only h :) (Footprint.zoneConnect_only h :) (Footprint.thermalWidth_only h :) (Footprint.thermalGap_only h :) (Footprint.attributes_only h :) (Footprint.privateLayers_only h :) (Footprint.netTiePadGroups_only h :) hy (Footprint.pads_only h :) (Footprint.zones_only h :) (Footprint.groups_only h :) (Footprint.models_only h :)

theorem Board.set_only {Q : Str → Prop} {o : Board} {p : Option Path} (h : Only Q o) {x} (hx : Only Q x) :
    Only Q ({ o with footprints := x, filePath := p } : Board) :=
  Board.of_only (Board.version_only h :) (Board.generator_only h :) (Board.general_only h :) (Board.paper_only h :) (Board.titleBlock_only h :) (Board.layers_only h :) (Board.setup_only h :) (Board.properties_only h :) (Board.nets_only h :) hx (Board.graphicItems_only h :) (Board.traceItems_only h :) (Board.zones_only h :) (Board.dimensions_only h :) (Board.targets_only h :) (Board.groups_only h :)

theorem Board.items_only {Q : Str → Prop} {o : Board} {p : Option Path} (h : Only Q o) {x} (hx : Only Q x) :
    Only Q ({ o with traceItems := x, filePath := p } : Board) :=
  Board.of_only (Board.version_only h :) (Board.generator_only h :) (Board.general_only h :) (Board.paper_only h :) (Board.titleBlock_only h :) (Board.layers_only h :) (Board.setup_only h :) (Board.properties_only h :) (Board.nets_only h :) (Board.footprints_only h :) (Board.graphicItems_only h :) hx (Board.zones_only h :) (Board.dimensions_only h :) (Board.targets_only h :) (Board.groups_only h :)

theorem FpText.set_only {Q : Str → Prop} {o : FpText} (h : Only Q o) {x} (hx : Only Q x) :
    Only Q ({ o with text := x } : FpText) :=
  FpText.of_only (FpText.type_only h :) hx (FpText.position_only h :) (FpText.layer_only h :) (FpText.knockout_only h :) (FpText.hide_only h :) (FpText.effects_only h :) (FpText.tstamp_only h :) (FpText.renderCache_only h :)

theorem Schematic.symbols_only {Q : Str → Prop} {o : Schematic} {p : Option Path} (h : Only Q o) {x} (hx : Only Q x) {y} (hy : Only Q y) :
    Only Q ({ o with libSymbols := x, schematicSymbols := y, filePath := p } : Schematic) :=
  Schematic.of_only (Schematic.version_only h :) (Schematic.generator_only h :) (Schematic.uuid_only h :) (Schematic.paper_only h :) (Schematic.titleBlock_only h :) hx hy (Schematic.junctions_only h :) (Schematic.noConnects_only h :) (Schematic.busEntries_only h :) (Schematic.busAliases_only h :) (Schematic.graphicalItems_only h :) (Schematic.shapes_only h :) (Schematic.images_only h :) (Schematic.texts_only h :) (Schematic.textBoxes_only h :) (Schematic.labels_only h :) (Schematic.globalLabels_only h :) (Schematic.hierarchicalLabels_only h :) (Schematic.netclassFlags_only h :) (Schematic.sheets_only h :) (Schematic.sheetInstances_only h :) (Schematic.symbolInstances_only h :)

/-! ### Schematics -/

theorem Schematic.loaded_only {has : Char → Prop} [Base has] {text : Str} (hc : Chars has text) {o : Schematic}
    (hr : (parseSexp text >>= Schematic.fromSexpr) = .ok o) : Only (Chars has) o := by
  obtain ⟨v, hv, ho⟩ := bind_ok_split hr
  have hs : Only (Chars has) v := fun s hs => stands_chars (parse_stands hv s hs) hc
  exact fun s h => orig_chars (Schematic.fromSexpr_only hs o ho s h)

/-- What is loaded from a file in the documented format. -/
theorem Schematic.opens {o : Schematic} (h : o.WF) {env : Env} {has : Char → Prop} (he : Usual env has) {p : Path} {fs : FS}
    (hf : Holds env fs p o.toVal) :
    ∃ a, a = canon o.asRead ∧ Schematic.fromFile env p none fs = (.ok { a with filePath := some p }, fs) ∧
      Only (Chars (NoCR has)) a := by
  obtain ⟨text, hc, hs⟩ := hf
  have hb := noCR_base he.charWise
  have hl := parse_load hs (Schematic.from_toVal h)
  exact ⟨_, rfl, Session.load C58_Schematic hc (congrArg (Except.map fun o => { o with filePath := some p }) hl),
    Schematic.loaded_only (contains_noCR (show CharWise (used env none) has from he.charWise) hc) hl⟩

/-- Saving a schematic. -/
theorem Schematic.leaves {o : Schematic} (h : o.WF) {env : Env} {has : Char → Prop} (he : Usual env has) {fp : Option Path} {p : Path} {fs : FS}
    (hp : (Doc.schematic o).target fp = some p) (hw : Openable fs p) (hr : fs.canRead p = true) (hc : Only (Chars (NoCR has)) o) :
    Leaves (saving (o.toFile env fp none) fs) env fs p o.toVal := by
  have := noCR_base he.charWise
  have hx := (Schematic.lexes h 0 true).parse
  obtain ⟨t, ht, hv⟩ := bind_ok_split hx
  have hs := saved_as (.schematic o) (fp := fp) (enc := none) (enc' := none) he.charWise he.lawful rfl hp ht (Schematic.toSexpr_chars hc t ht) he.room hw hr
  exact ⟨hs.success, hs.only, t, hs.content, hv⟩

theorem Schematic.toVal_path (o : Schematic) (p : Option Path) : Schematic.toVal { o with filePath := p } = o.toVal := rfl

theorem TitleBlock.canon_set (t : TitleBlock) (a b : Option Val) :
    canon ({ canon t with title := a, revision := b } : TitleBlock) = canon ({ t with title := a, revision := b } : TitleBlock) := by
  have h := idem t
  show ({ canon (canon t) with title := canon a, revision := canon b } : TitleBlock) = _
  rw [h]; rfl

theorem Schematic.canon_set (o : Schematic) (t t' : Option TitleBlock) (p : Option Path) (h : canon t' = canon t) :
    canon ({ canon o with titleBlock := t', filePath := p } : Schematic) = canon ({ o with titleBlock := t, filePath := p } : Schematic) := by
  have ho := idem o
  show ({ canon (canon o) with titleBlock := canon t', filePath := canon p } : Schematic) = _
  rw [ho, h]; rfl

theorem Schematic.toVal_set {o a : Schematic} {t t' : Option TitleBlock} {p : Option Path} (ha : a = canon o) (ht : canon t' = canon t)
    (hw' : Schematic.WF { a with titleBlock := t', filePath := p }) (h1 : Schematic.WF { o with titleBlock := t, filePath := p }) :
    Schematic.toVal { a with titleBlock := t', filePath := p } = Schematic.toVal { o with titleBlock := t } := by
  subst ha
  rw [← Schematic.toVal_canon _ hw', Schematic.canon_set o t t' p ht, Schematic.toVal_canon _ h1]
  rfl

theorem TitleBlock.set_wf {t : TitleBlock} (h : t.WF) {a b : Val} (ha : TextOk a) (hb : TextOk b) :
    TitleBlock.WF { t with title := some a, revision := some b } :=
  { h with title := fun _ e => by cases e; exact ha, revision := fun _ e => by cases e; exact hb }

/-! ### Boards -/

theorem Board.loaded_only (tedit : Val) (hclock : PlainClock tedit) {has : Char → Prop} [Base has] {text : Str} (hc : Chars has text) {o : Board}
    (hr : (parseSexp text >>= (Board.fromSexpr tedit)) = .ok o) : Only (Chars has) o := by
  obtain ⟨v, hv, ho⟩ := bind_ok_split hr
  have hs : Only (Chars has) v := fun s hs => stands_chars (parse_stands hv s hs) (hc)
  exact fun s h => orig_chars (Board.fromSexpr_only (clock_chars hclock) hs (fun l e x hx => listName_chars (Only.mem (by subst e; exact hs.list) hx)) o ho s h)

theorem Footprint.loaded_only (tedit : Val) (hclock : PlainClock tedit) {has : Char → Prop} [Base has] {text : Str} (hc : Chars has text) {o : Footprint}
    (hr : (parseSexp text >>= (Footprint.fromSexpr tedit)) = .ok o) : Only (Chars has) o := by
  obtain ⟨v, hv, ho⟩ := bind_ok_split hr
  have hs : Only (Chars has) v := fun s hs => stands_chars (parse_stands hv s hs) (hc)
  exact fun s h => orig_chars (Footprint.fromSexpr_only (clock_chars hclock) hs (listName_chars hs) o ho s h)

theorem Board.opens {o : Board} (h : o.WF) {env : Env} {has : Char → Prop} (he : Usual env has) (tedit : Val) (hclock : PlainClock tedit)
    {p : Path} {fs : FS} (hf : Holds env fs p o.toVal) :
    ∃ a, a = canon o.asRead ∧ Board.fromFile env tedit p none fs = (.ok { a with filePath := some p }, fs) ∧
      Only (Chars (NoCR has)) a := by
  obtain ⟨text, hc, hs⟩ := hf
  have hb := noCR_base he.charWise
  have hl := parse_load hs (Board.from_toVal h tedit)
  exact ⟨_, rfl, Session.load (C58_Board tedit) hc (congrArg (Except.map fun o => { o with filePath := some p }) hl),
    Board.loaded_only tedit hclock (contains_noCR (show CharWise (used env none) has from he.charWise) hc) hl⟩

theorem Footprint.opens {o : Footprint} (h : o.WF) {env : Env} {has : Char → Prop} (he : Usual env has) (tedit : Val) (hclock : PlainClock tedit)
    {p : Path} {fs : FS} (hf : Holds env fs p o.toVal) :
    ∃ a, a = canon { o with filePath := none } ∧ Footprint.fromFile env tedit p none fs = (.ok a, fs) ∧ Only (Chars (NoCR has)) a := by
  obtain ⟨text, hc, hs⟩ := hf
  have hb := noCR_base he.charWise
  have hl := parse_load hs (Footprint.from_toVal h tedit)
  exact ⟨_, rfl, Session.load (C58_Footprint tedit) hc hl,
    Footprint.loaded_only tedit hclock (contains_noCR (show CharWise (used env none) has from he.charWise) hc) hl⟩

/-- Saving a board. -/
theorem Board.leaves {o : Board} (h : o.WF) {env : Env} {has : Char → Prop} (he : Usual env has) {fp : Option Path} {p : Path} {fs : FS}
    (hp : (Doc.board o).target fp = some p) (hw : Openable fs p) (hr : fs.canRead p = true) (hc : Only (Chars (NoCR has)) o) :
    Leaves (saving (o.toFile env fp none) fs) env fs p o.toVal := by
  have := noCR_base he.charWise
  have hx := (Board.lexes h 0 true).parse
  obtain ⟨t, ht, hv⟩ := bind_ok_split hx
  have hs := saved_as (.board o) (fp := fp) (enc := none) (enc' := none) he.charWise he.lawful rfl hp ht (Board.toSexpr_chars hc t ht) he.room hw hr
  exact ⟨hs.success, hs.only, t, hs.content, hv⟩

theorem Board.toVal_asRead (o : Board) : Board.toVal o.asRead =
    Board.toVal { o with setup := { o.setup with plotSettings := o.setup.plotSettings.map fun p => { p with useAuxOrigin := false } } } := by
  simp only [Board.asRead, Board.toVal, Board.asRead_footprints]; rfl

/-! ### The new footprint -/

theorem withReference_yes {s : Str} {y : FpText} (h : y.type = .str k!"reference") :
    withReference s (.text y) = .text { y with text := .str s } := by
  obtain ⟨⟩ := y
  subst h
  rfl

theorem withReference_no {s : Str} {y : FpText} (h : y.type ≠ .str k!"reference") : withReference s (.text y) = .text y := by
  obtain ⟨t, _⟩ := y
  cases t with
  | str t =>
    show FpItem.text (FpText.mk _ (if _ then _ else _) ..) = _
    rw [if_neg (fun e => h (congrArg Val.str e))]
  | _ => rfl

theorem setReference_eq (x : FpItem) : setReference x = withReference k!"C105" x := by
  cases x with
  | text x =>
    by_cases h : x.type = .str k!"reference"
    · rw [withReference_yes h]
      show (if _ then _ else _) = _
      rw [h]; rfl
    · rw [withReference_no h]
      show (if _ then _ else _) = _
      rw [if_neg]
      intro hi
      refine h ?_
      generalize x.type = t at hi
      cases t with
      | str t => exact congrArg Val.str (by simpa [Val.is] using hi)
      | _ => cases hi
  | _ => rfl

theorem withReference_canon (s : Str) (x : FpItem) : canon (withReference s (canon x)) = canon (withReference s x) := by
  cases x with
  | text x =>
    have hx := idem x
    by_cases h : x.type = .str k!"reference"
    · rw [withReference_yes h, show canon (FpItem.text x) = .text (canon x) from rfl, withReference_yes (show canon x.type = _ by rw [h]; rfl)]
      exact congrArg (fun y : FpText => FpItem.text { y with text := canon (Val.str s) }) hx
    · rw [withReference_no h, show canon (FpItem.text x) = .text (canon x) from rfl,
        withReference_no (show canon x.type ≠ _ from fun e => h (Stable.strEq' e))]
      exact congrArg FpItem.text hx
  | _ => exact idem _

theorem withReference_wf {s : Str} (hs : TextOk (.str s)) {x : FpItem} (h : x.WF) : (withReference s x).WF := by
  cases x with
  | text x =>
    by_cases hx : x.type = .str k!"reference"
    · rw [withReference_yes hx]
      exact { (show FpText.WF x from h) with text := hs }
    · rw [withReference_no hx]; exact h
  | _ => exact h

theorem withReference_only {s : Str} {Q : Str → Prop} (hs : Q s) {x : FpItem} (h : Only Q x) : Only Q (withReference s x) := by
  cases x with
  | text x =>
    by_cases hx : x.type = .str k!"reference"
    · rw [withReference_yes hx]
      refine FpItem.text_of (FpText.set_only (FpItem.text_case h) ?_)
      intro t ht; cases List.mem_singleton.1 (show t ∈ [s] from ht); exact hs
    · rw [withReference_no hx]; exact h
  | _ => exact h

/-- The footprint of the example, made from the footprint of the file. -/
def placed (f : Footprint) : Footprint :=
  { f with
    position := some { X := fl k!"127" k!"0", Y := fl k!"85" k!"0" }
    graphicItems := f.graphicItems.map (withReference k!"C105") }

theorem map_withReference_canon (s : Str) (l : List FpItem) :
    canon ((canon l).map (withReference s)) = canon (l.map (withReference s)) := by
  show ((l.map canon).map (withReference s)).map canon = (l.map (withReference s)).map canon
  simp only [List.map_map]
  exact List.map_congr_left fun x _ => withReference_canon s x

theorem placed_canon (f : Footprint) : canon (placed (canon f)) = canon (placed f) := by
  have hf := idem f
  show ({ canon (canon f) with
    position := canon (placed f).position
    graphicItems := canon ((canon f.graphicItems).map (withReference k!"C105")) } : Footprint) = _
  rw [hf, map_withReference_canon]; rfl

theorem placed_wf {f : Footprint} (h : f.WF) : (placed f).WF :=
  { h with
    position := fun _ e => by
      cases e
      exact ⟨⟨false, k!"127", k!"0", by decide, by decide, by decide, by decide, by rfl, rfl⟩,
        ⟨false, k!"85", k!"0", by decide, by decide, by decide, by decide, by rfl, rfl⟩, by optOk, rfl⟩
    graphicItems := fun v hv => by
      obtain ⟨x, hx, rfl⟩ := List.mem_map.1 hv
      exact withReference_wf (by textOk) (h.graphicItems x hx) }

theorem only_map {Q : Str → Prop} {α β : Type} [Texts α] [Texts β] {f : α → β} {l : List α} (h : Only Q l) (hf : ∀ x, Only Q x → Only Q (f x)) :
    Only Q (l.map f) := fun s hs => by
  obtain ⟨y, hy, hs⟩ := List.mem_flatMap.1 (show s ∈ (l.map f).flatMap texts from hs)
  obtain ⟨x, hx, rfl⟩ := List.mem_map.1 hy
  exact hf x (h.mem hx) s hs

theorem only_append {Q : Str → Prop} {α : Type} [Texts α] {l m : List α} (h : Only Q l) (hm : Only Q m) : Only Q (l ++ m) := fun s hs => by
  obtain ⟨y, hy, hs⟩ := List.mem_flatMap.1 (show s ∈ (l ++ m).flatMap texts from hs)
  exact (List.mem_append.1 hy).elim (fun hy => h.mem hy s hs) (fun hy => hm.mem hy s hs)

theorem only_single {Q : Str → Prop} {α : Type} [Texts α] {a : α} (h : Only Q a) : Only Q [a] := fun s hs => by
  obtain ⟨y, hy, hs⟩ := List.mem_flatMap.1 (show s ∈ [a].flatMap texts from hs)
  cases List.mem_singleton.1 hy
  exact h s hs

theorem placed_only {has : Char → Prop} [Base has] {f : Footprint} (h : Only (Chars has) f) : Only (Chars has) (placed f) :=
  Footprint.set_only h (only_texts (by decide +kernel)) (only_map (Footprint.graphicItems_only h) fun _ hx =>
    withReference_only (.lit (by decide)) hx)

theorem mem_add {α : Type} {P : α → Prop} {l : List α} {a : α} (hl : ∀ v ∈ l, P v) (ha : P a) : ∀ v ∈ l ++ [a], P v := fun v hv =>
  (List.mem_append.1 hv).elim (hl v) fun hv => by cases List.mem_singleton.1 hv; exact ha

theorem canon_add {α : Type} [Canon α] [CanonIdem α] {l l' m m' : List α} (hl : l' = canon l) (hm : canon m' = canon m) :
    canon (l' ++ m') = canon (l ++ m) := by
  subst hl
  show (canon l ++ m').map canon = (l ++ m).map canon
  rw [List.map_append, List.map_append]
  exact congrArg₂ (· ++ ·) (idem l) hm

theorem Board.toVal_add {o a : Board} {l l' : List Footprint} {p : Option Path} (ha : a = canon o) (hl : canon l' = canon l)
    (hw' : Board.WF { a with footprints := l', filePath := p }) (h1 : Board.WF { o with footprints := l, filePath := p }) :
    Board.toVal { a with footprints := l', filePath := p } = Board.toVal { o with footprints := l } := by
  subst ha
  have hc : canon ({ canon o with footprints := l', filePath := p } : Board) = canon ({ o with footprints := l, filePath := p } : Board) := by
    have ho := idem o
    show ({ canon (canon o) with footprints := canon l', filePath := canon p } : Board) = _
    rw [ho, hl]; rfl
  rw [← Board.toVal_canon _ hw', hc, Board.toVal_canon _ h1]
  rfl

/-! ### The loop -/

section
variable {points : Segment → PyM ((Val × Val) × (Val × Val))}

/-- The loop has at most one end. -/
theorem Loop.unique {items : List TraceItem} {i : Nat} {r r' : PyM (List TraceItem)} (h : Loop points items i r) (h' : Loop points items i r') :
    r = r' := by
  induction h with
  | done hi =>
    cases h' with
    | done => rfl
    | other hx => rw [List.getElem?_eq_none hi] at hx; cases hx
    | segment hx => rw [List.getElem?_eq_none hi] at hx; cases hx
    | raises hx => rw [List.getElem?_eq_none hi] at hx; cases hx
  | other hx hn _ ih =>
    cases h' with
    | done hi => rw [List.getElem?_eq_none hi] at hx; cases hx
    | other _ _ h' => exact ih h'
    | segment hx' => cases hx.symm.trans hx'; exact absurd rfl (hn _)
    | raises hx' => cases hx.symm.trans hx'; exact absurd rfl (hn _)
  | segment hx hp _ ih =>
    cases h' with
    | done hi => rw [List.getElem?_eq_none hi] at hx; cases hx
    | other hx' hn => cases hx.symm.trans hx'; exact absurd rfl (hn _)
    | segment hx' hp' h' => cases hx.symm.trans hx'; cases hp.symm.trans hp'; exact ih h'
    | raises hx' hp' => cases hx.symm.trans hx'; cases hp.symm.trans hp'
  | raises hx hp =>
    cases h' with
    | done hi => rw [List.getElem?_eq_none hi] at hx; cases hx
    | other hx' hn => cases hx.symm.trans hx'; exact absurd rfl (hn _)
    | segment hx' hp' => cases hx.symm.trans hx'; cases hp.symm.trans hp'
    | raises hx' hp' => cases hx.symm.trans hx'; cases hp.symm.trans hp'; rfl

/-- Items that are not segments are passed over. -/
theorem Loop.pass {items : List TraceItem} (n : Nat) : ∀ i, items.length ≤ i + n → (∀ x ∈ items.drop i, ∀ s, x ≠ .segment s) →
    Loop points items i (.ok items) := by
  induction n with
  | zero => exact fun i hi _ => .done hi
  | succ n ih =>
    intro i hi hx
    rcases Nat.lt_or_ge i items.length with h | h
    · refine .other (List.getElem?_eq_getElem h) (hx _ ?_) (ih (i + 1) (by omega) fun x hm => hx x ?_)
      · rw [List.drop_eq_getElem_cons h]; exact List.mem_cons_self ..
      · rw [List.drop_eq_getElem_cons h]; exact List.mem_cons_of_mem _ hm
    · exact .done h

theorem newVia_eq (a : Val × Val) : newVia a = viaAt a := rfl

theorem viasFor_not (x : TraceItem) : ∀ y ∈ viasFor points x, ∀ s, y ≠ .segment s := by
  intro y hy s
  unfold viasFor at hy
  split at hy
  · split at hy
    · simp only [List.mem_cons, List.not_mem_nil, or_false] at hy
      rcases hy with rfl | rfl <;> exact nofun
    · cases hy
  · cases hy

/-- The loop gets to the end of `m`, having passed `l`. -/
theorem Loop.walk {m : List TraceItem} (hm : ∀ s, .segment s ∈ m → ∃ a b, points s = .ok (a, b)) :
    ∀ {l k : List TraceItem} {r : PyM (List TraceItem)}, Loop points (l ++ m ++ k ++ m.flatMap (viasFor points)) (l ++ m).length r →
      Loop points (l ++ m ++ k) l.length r := by
  induction m with
  | nil => intro l k r h; simpa using h
  | cons x m ih =>
    intro l k r h
    have hx : (l ++ x :: m ++ k)[l.length]? = some x := by simp
    have next : ∀ {k' : List TraceItem}, Loop points (l ++ x :: m ++ k' ++ m.flatMap (viasFor points)) (l ++ x :: m).length r →
        Loop points (l ++ x :: m ++ k') (l.length + 1) r := fun {k'} h => by
      have := ih (fun s hs => hm s (List.mem_cons_of_mem _ hs)) (l := l ++ [x]) (k := k') (r := r) (by simpa using h)
      simpa using this
    cases x with
    | segment s =>
      obtain ⟨a, b, hp⟩ := hm s (List.mem_cons_self ..)
      refine .segment hx hp ?_
      have := next (k' := k ++ [newVia a] ++ [newVia b]) (by simpa [viasFor, hp, newVia_eq] using h)
      simpa using this
    | arc y => exact .other hx (fun _ => nofun) (next (by simpa [viasFor] using h))
    | via y => exact .other hx (fun _ => nofun) (next (by simpa [viasFor] using h))

/-- If nothing raises, the loop ends; it has appended two vias for each segment. -/
theorem Loop.ends {l : List TraceItem} (hl : ∀ s, .segment s ∈ l → ∃ a b, points s = .ok (a, b)) :
    Loop points l 0 (.ok (l ++ l.flatMap (viasFor points))) := by
  have h0 : Loop points (l ++ l.flatMap (viasFor points)) l.length (.ok (l ++ l.flatMap (viasFor points))) := by
    refine Loop.pass (l ++ l.flatMap (viasFor points)).length _ (Nat.le_add_left ..) fun x hx => ?_
    rw [List.drop_left] at hx
    obtain ⟨y, _, hx⟩ := List.mem_flatMap.1 hx
    exact viasFor_not y x hx
  have := Loop.walk hl (l := []) (k := []) (by simpa using h0)
  simpa using this

/-- If the calculation raises for a segment and for none before it, the loop ends with this exception. -/
theorem Loop.fails {l m : List TraceItem} {s : Segment} {e : PyErr} (hl : ∀ s, .segment s ∈ l → ∃ a b, points s = .ok (a, b))
    (hs : points s = .error e) : Loop points (l ++ .segment s :: m) 0 (.error e) := by
  have := Loop.walk hl (l := []) (k := .segment s :: m) (r := .error e) (by
    refine .raises (s := s) ?_ hs
    simp)
  simpa using this

end

theorem newVia_wf {a : Val × Val} (h1 : NumOk a.1) (h2 : NumOk a.2) : (newVia a).WF :=
  show Via.WF _ from
  { type := by optOk, position := ⟨h1, h2, rfl, rfl⟩
    size := ⟨false, k!"1", k!"0", by decide, by decide, by decide, by decide, by rfl, rfl⟩
    drill := ⟨false, k!"0", k!"6", by decide, by decide, by decide, by decide, by rfl, rfl⟩
    layers := (by listOk <;> textOk), net := ok_int (by decide), tstamp := by optOk }

theorem newVia_only {has : Char → Prop} [Base has] {a : Val × Val} (h1 : NumOk a.1) (h2 : NumOk a.2) : Only (Chars has) (newVia a) := by
  obtain ⟨x, y⟩ := a
  refine only_texts ?_
  cases x with
  | int n => cases y with
    | int m => rfl
    | flt m => rfl
    | _ => exact h2.elim
  | flt n => cases y with
    | int m => rfl
    | flt m => rfl
    | _ => exact h2.elim
  | _ => exact h1.elim

/-! ### The resistor -/

theorem SymbolLib.loaded_only {has : Char → Prop} [Base has] {text : Str} (hc : Chars has text) {o : SymbolLib}
    (hr : (parseSexp text >>= SymbolLib.fromSexpr) = .ok o) : Only (Chars has) o := by
  obtain ⟨v, hv, ho⟩ := bind_ok_split hr
  have hs : Only (Chars has) v := fun s hs => stands_chars (parse_stands hv s hs) hc
  exact fun s h => orig_chars (SymbolLib.fromSexpr_only hs o ho s h)

theorem SymbolLib.opens {o : SymbolLib} (h : o.WF) {env : Env} {has : Char → Prop} (he : Usual env has) {p : Path} {fs : FS}
    (hf : Holds env fs p o.toVal) :
    ∃ a, a = canon { o with filePath := none } ∧ SymbolLib.fromFile env p none fs = (.ok { a with filePath := some p }, fs) ∧
      Only (Chars (NoCR has)) a := by
  obtain ⟨text, hc, hs⟩ := hf
  have hb := noCR_base he.charWise
  have hl := parse_load hs (SymbolLib.from_toVal h)
  exact ⟨_, rfl, Session.load C58_SymbolLib hc (congrArg (Except.map fun o => { o with filePath := some p }) hl),
    SymbolLib.loaded_only (contains_noCR (show CharWise (used env none) has from he.charWise) hc) hl⟩

theorem isResistor_iff (s : Symbol) : isResistor s = true ↔ s.entryName = some (.str k!"R_Small_US") := by
  unfold isResistor
  constructor
  · intro h
    split at h
    · rename_i v hv
      cases v with
      | str t => rw [hv, show t = k!"R_Small_US" by simpa [Val.is] using h]
      | _ => cases h
    · cases h
  · intro h; rw [h]; rfl

theorem Symbol.canon_entryName (s : Symbol) : (canon s).entryName = canon s.entryName := by
  obtain ⟨⟩ := s
  rfl

theorem isResistor_canon (s : Symbol) : isResistor (canon s) = isResistor s := by
  rw [Bool.eq_iff_iff, isResistor_iff, isResistor_iff, Symbol.canon_entryName]
  constructor
  · intro h
    obtain ⟨v, hv, e⟩ := Stable.some_inv h
    rw [hv, Stable.strEq' e.symm]
  · intro h; rw [h]; rfl

/-! ## The programs -/

/-- "Loading and saving a board" -/
theorem C74_openAndSave (o : Board) (h : o.WF) (env : Env) (has : Char → Prop) (he : Usual env has) (tedit : Val) (hclock : PlainClock tedit)
    (p : Path) (fs : FS) (hf : Holds env fs p o.toVal) (hw : Openable fs p) :
    Leaves (openAndSave env tedit p fs) env fs p (Board.toVal { o with
      setup := { o.setup with plotSettings := o.setup.plotSettings.map fun p => { p with useAuxOrigin := false } } }) := by
  have hr : fs.canRead p = true := let ⟨_, hc, _⟩ := hf; contains_canRead hc
  obtain ⟨a, ha, hl, hon⟩ := Board.opens h he tedit hclock hf
  have h0 : Board.WF o.asRead := Board.WF.asRead h
  have hwa : a.WF := ha ▸ Stable.keep h0
  have hw' : Board.WF { a with filePath := some p } := { hwa with }
  have hend := Board.leaves hw' he (fp := none) (p := p) rfl hw hr (Board.set_only hon (Board.footprints_only hon :))
  have hrun := run_ok (f := fun board => saving (board.toFile env none none)) hl
  rw [show openAndSave env tedit p fs = _ from hrun]
  have hv : Board.toVal { a with filePath := some p } = Board.toVal o.asRead := by
    rw [ha]; exact Board.toVal_canon o.asRead h0
  rw [hv, Board.toVal_asRead] at hend
  exact hend

/-- "Create a new object and dump it to a file" -/
theorem C74_createAndSave (env : Env) (has : Char → Prop) (he : Usual env has) (p : Path) (fs : FS) (hw : Openable fs p) (hr : fs.canRead p = true) :
    Leaves (createAndSave env p fs) env fs p (Board.toVal { Board.createNew with version := .int 20211014 }) := by
  have hb := noCR_base he.charWise
  have hend := Board.leaves Board.createNew_wf he (fp := some p) (p := p) rfl hw hr (only_texts (by decide +kernel))
  have ht : Board.toSexpr { Board.createNew with version := .int 20211014 } = Board.createNew.toSexpr := by
    unfold Board.toSexpr
    simp only [show (Val.int 20211014).pyStr = Board.createNew.version.pyStr from by decide]
  unfold createAndSave
  unfold Board.toFile at hend ⊢
  rw [ht] at hend
  exact hend

/-- "Loading and adding footprint to board" -/
theorem C74_addFootprint (o : Board) (h : o.WF) (f : Footprint) (hf : f.WF) (env : Env) (has : Char → Prop) (he : Usual env has) (tedit : Val)
    (hclock : PlainClock tedit) (p q : Path) (fs : FS) (hp : Holds env fs p o.toVal) (hq : Holds env fs q f.toVal) (hw : Openable fs p) :
    Leaves (addFootprint env tedit p q fs) env fs p (Board.toVal { o with
      setup := { o.setup with plotSettings := o.setup.plotSettings.map fun p => { p with useAuxOrigin := false } }
      footprints := o.footprints ++ [{ f with
        position := some { X := fl k!"127" k!"0", Y := fl k!"85" k!"0" }
        graphicItems := f.graphicItems.map (withReference k!"C105") }] }) := by
  have hr : fs.canRead p = true := let ⟨_, hc, _⟩ := hp; contains_canRead hc
  have hb := noCR_base he.charWise
  obtain ⟨a, ha, hl, hon⟩ := Board.opens h he tedit hclock hp
  obtain ⟨g, hg, hlg, hong⟩ := Footprint.opens hf he tedit hclock hq
  have h0 : Board.WF o.asRead := Board.WF.asRead h
  have hwa : a.WF := ha ▸ Stable.keep h0
  have hf0 : Footprint.WF { f with filePath := none } := { hf with }
  have hwg : g.WF := hg ▸ Stable.keep hf0
  have hw' : Board.WF { a with footprints := a.footprints ++ [placed g], filePath := some p } :=
    { hwa with footprints := mem_add hwa.footprints (placed_wf hwg) }
  have h1 : Board.WF { o.asRead with footprints := o.asRead.footprints ++ [placed { f with filePath := none }], filePath := some p } :=
    { h0 with footprints := mem_add h0.footprints (placed_wf hf0) }
  have hend := Board.leaves hw' he (fp := none) (p := p) rfl hw hr
    (Board.set_only hon (only_append (Board.footprints_only hon) (only_single (placed_only hong))))
  have hadd : canon (a.footprints ++ [placed g]) = canon (o.asRead.footprints ++ [placed { f with filePath := none }]) :=
    canon_add (by rw [ha]; rfl) (congrArg (fun x => [x]) (by rw [hg, placed_canon]))
  rw [Board.toVal_add ha hadd hw' h1] at hend
  have hrun : addFootprint env tedit p q fs =
      saving (Board.toFile env { a with footprints := a.footprints ++ [placed g], filePath := some p } none none) fs := by
    unfold addFootprint
    rw [run_ok hl, run_ok hlg, List.map_congr_left fun x _ => setReference_eq x]
    rfl
  rw [hrun]
  refine (congrArg (Leaves _ env fs p) ?_).mp hend
  simp only [Board.asRead, Board.toVal, List.map_append, Board.asRead_footprints]
  rfl

theorem Board.toVal_items {o a : Board} {l l' : List TraceItem} {p : Option Path} (ha : a = canon o) (hl : canon l' = canon l)
    (hw' : Board.WF { a with traceItems := l', filePath := p }) (h1 : Board.WF { o with traceItems := l, filePath := p }) :
    Board.toVal { a with traceItems := l', filePath := p } = Board.toVal { o with traceItems := l } := by
  subst ha
  have hc : canon ({ canon o with traceItems := l', filePath := p } : Board) = canon ({ o with traceItems := l, filePath := p } : Board) := by
    have ho := idem o
    show ({ canon (canon o) with traceItems := canon l', filePath := canon p } : Board) = _
    rw [ho, hl]; rfl
  rw [← Board.toVal_canon _ hw', hc, Board.toVal_canon _ h1]
  rfl

/-- "Adding vias to board": the program ends, although it appends to the list it goes through, if the calculation gives numbers for all
segments. It is applied to the segments as they are loaded (whole numbers are ints). -/
theorem C74_addVias (o : Board) (h : o.WF) (env : Env) (has : Char → Prop) (he : Usual env has) (tedit : Val) (hclock : PlainClock tedit)
    (points : Segment → PyM ((Val × Val) × (Val × Val)))
    (hpoints : ∀ s, .segment s ∈ o.traceItems → ∃ a b c d, points (canon s) = .ok ((a, b), (c, d)) ∧ NumOk a ∧ NumOk b ∧ NumOk c ∧ NumOk d)
    (p : Path) (fs : FS) (hf : Holds env fs p o.toVal) (hw : Openable fs p) :
    ∃ r fs', AddVias env tedit points p fs r fs' ∧ (∀ r₁ fs₁, AddVias env tedit points p fs r₁ fs₁ → r₁ = r ∧ fs₁ = fs') ∧
      Leaves (r, fs') env fs p (Board.toVal { o with
        setup := { o.setup with plotSettings := o.setup.plotSettings.map fun p => { p with useAuxOrigin := false } }
        traceItems := o.traceItems ++ o.traceItems.flatMap (viasFor fun s => points (canon s)) }) := by
  have hr : fs.canRead p = true := let ⟨_, hc, _⟩ := hf; contains_canRead hc
  have hb := noCR_base he.charWise
  obtain ⟨a, ha, hl, hon⟩ := Board.opens h he tedit hclock hf
  have h0 : Board.WF o.asRead := Board.WF.asRead h
  have hwa : a.WF := ha ▸ Stable.keep h0
  have hitems : a.traceItems = canon o.traceItems := by rw [ha]; rfl
  have hvias : a.traceItems.flatMap (viasFor points) = o.traceItems.flatMap (viasFor fun s => points (canon s)) := by
    rw [hitems]
    show (o.traceItems.map canon).flatMap _ = _
    rw [List.flatMap_map]
    refine List.flatMap_congr fun x _ => ?_
    cases x <;> rfl
  have hwv : ∀ v ∈ o.traceItems.flatMap (viasFor fun s => points (canon s)), v.WF ∧ Only (Chars (NoCR has)) v := by
    intro v hv
    obtain ⟨x, hx, hv⟩ := List.mem_flatMap.1 hv
    cases x with
    | segment s =>
      obtain ⟨a, b, c, d, hp, ha, hb, hc, hd⟩ := hpoints s hx
      simp only [viasFor, hp, List.mem_cons, List.not_mem_nil, or_false] at hv
      rcases hv with rfl | rfl
      · exact ⟨newVia_wf ha hb, newVia_only ha hb⟩
      · exact ⟨newVia_wf hc hd, newVia_only hc hd⟩
    | arc y => cases hv
    | via y => cases hv
  have hloop : Loop points a.traceItems 0 (.ok (a.traceItems ++ o.traceItems.flatMap (viasFor fun s => points (canon s)))) := by
    rw [← hvias]
    refine Loop.ends fun s hs => ?_
    rw [hitems] at hs
    obtain ⟨x, hx, e⟩ := List.mem_map.1 (show _ ∈ o.traceItems.map canon from hs)
    cases x with
    | segment s' =>
      cases e
      obtain ⟨a, b, c, d, hp, -⟩ := hpoints s' hx
      exact ⟨_, _, hp⟩
    | arc y => cases e
    | via y => cases e
  have hw' : Board.WF { a with traceItems := a.traceItems ++ o.traceItems.flatMap (viasFor fun s => points (canon s)), filePath := some p } :=
    { hwa with traceItems := fun v hv => (List.mem_append.1 hv).elim (hwa.traceItems v) fun hv => (hwv v hv).1 }
  have h1 : Board.WF { o.asRead with
      traceItems := o.traceItems ++ o.traceItems.flatMap (viasFor fun s => points (canon s)), filePath := some p } :=
    { h0 with traceItems := fun v hv => (List.mem_append.1 hv).elim (h.traceItems v) fun hv => (hwv v hv).1 }
  have hend := Board.leaves hw' he (fp := none) (p := p) rfl hw hr
    (Board.items_only hon (only_append (Board.traceItems_only hon) fun s hs => by
      obtain ⟨v, hv, hs⟩ := List.mem_flatMap.1 hs
      exact (hwv v hv).2 s hs))
  rw [Board.toVal_items ha (canon_add hitems rfl) hw' h1] at hend
  refine ⟨_, _, .saves hl hloop, ?_, (congrArg (Leaves _ env fs p) ?_).mp hend⟩
  · intro r₁ fs₁ hrun
    cases hrun with
    | notLoaded h' => cases hl.symm.trans h'
    | raises h' hloop' => cases hl.symm.trans h'; cases hloop.unique hloop'
    | saves h' hloop' => cases hl.symm.trans h'; cases hloop.unique hloop'; exact ⟨rfl, rfl⟩
  · simp only [Board.asRead, Board.toVal, Board.asRead_footprints]
    rfl

/-- "Adding vias to board": if the calculation raises for a segment (as it does for one of length zero) and for none before it, the program
ends with this exception, and nothing is changed. -/
theorem C74_addVias_raises (o : Board) (h : o.WF) (env : Env) (has : Char → Prop) (he : Usual env has) (tedit : Val) (hclock : PlainClock tedit)
    (points : Segment → PyM ((Val × Val) × (Val × Val))) (l m : List TraceItem) (s : Segment) (e : PyErr)
    (ho : o.traceItems = l ++ .segment s :: m) (hl : ∀ s, .segment s ∈ l → ∃ x, points (canon s) = .ok x) (hs : points (canon s) = .error e)
    (p : Path) (fs : FS) (hf : Holds env fs p o.toVal) :
    AddVias env tedit points p fs (.error e) fs ∧ ∀ r₁ fs₁, AddVias env tedit points p fs r₁ fs₁ → r₁ = .error e ∧ fs₁ = fs := by
  obtain ⟨a, ha, hload, -⟩ := Board.opens h he tedit hclock hf
  have hitems : a.traceItems = canon l ++ .segment (canon s) :: canon m := by
    rw [ha]
    show o.traceItems.map canon = _
    rw [ho, List.map_append]; rfl
  have hloop : Loop points a.traceItems 0 (.error e) := by
    rw [hitems]
    refine Loop.fails (fun s hs => ?_) hs
    obtain ⟨x, hx, e⟩ := List.mem_map.1 (show _ ∈ l.map canon from hs)
    cases x with
    | segment s' => cases e; obtain ⟨⟨_, _⟩, hx⟩ := hl s' hx; exact ⟨_, _, hx⟩
    | arc y => cases e
    | via y => cases e
  refine ⟨.raises hload hloop, fun r₁ fs₁ hrun => ?_⟩
  cases hrun with
  | notLoaded h' => cases hload.symm.trans h'
  | raises h' hloop' => cases hload.symm.trans h'; cases hloop.unique hloop'; exact ⟨rfl, rfl⟩
  | saves h' hloop' => cases hload.symm.trans h'; cases hloop.unique hloop'

/-- "Changing title and revision in schematic": the schematic has a title block. -/
theorem C74_title (o : Schematic) (h : o.WF) (hprec : ∀ v ∈ o.sheets, FixOk 4 v.fill.A) (t : TitleBlock) (ht : o.titleBlock = some t)
    (env : Env) (has : Char → Prop) (he : Usual env has) (p : Path) (fs : FS) (hf : Holds env fs p o.toVal) (hw : Openable fs p) :
    Leaves (changeTitle env p fs) env fs p (Schematic.toVal { o with
      junctions := o.junctions.map fun j => { j with diameter := .int 0 }
      titleBlock := some { t with title := some (.str k!"This is schematic xyz"), revision := some (.str k!"B") } }) := by
  have hr : fs.canRead p = true := let ⟨_, hc, _⟩ := hf; contains_canRead hc
  obtain ⟨a, ha, hl, hon⟩ := Schematic.opens h he hf
  have h0 : Schematic.WF o.asRead := Schematic.WF.asRead h hprec
  have hwa : a.WF := ha ▸ Stable.keep h0
  have hta : a.titleBlock = some (canon t) := by rw [ha]; exact congrArg canon ht
  have hset : setTitle { a with filePath := some p } = .ok { a with
    filePath := some p
    titleBlock := some { canon t with title := some (.str k!"This is schematic xyz"), revision := some (.str k!"B") } } := by
    unfold setTitle
    simp only [hta]
  have hrun := run_ok (f := fun schematic => FileM.lift (setTitle schematic) >>= fun schematic => saving (schematic.toFile env none none)) hl
  rw [show changeTitle env p fs = _ from hrun, run_ok (show FileM.lift _ fs = (.ok _, fs) from congrArg (·, fs) hset)]
  have htc : TitleBlock.WF (canon t) := hwa.titleBlock _ hta
  have hb := noCR_base he.charWise
  have hts := TitleBlock.set_wf htc (a := .str k!"This is schematic xyz") (b := .str k!"B") (by textOk) (by textOk)
  have hw' : Schematic.WF { a with
    filePath := some p
    titleBlock := some { canon t with title := some (.str k!"This is schematic xyz"), revision := some (.str k!"B") } } :=
    { hwa with titleBlock := fun _ e => by cases e; exact hts }
  have hT := TitleBlock.set_only ((Schematic.titleBlock_only hon).of_some hta)
    (only_lit (s := k!"This is schematic xyz") (by decide)) (only_lit (s := k!"B") (by decide))
  have hend := Schematic.leaves hw' he (fp := none) (p := p) rfl hw hr (Schematic.set_only hon (only_some hT))
  have h1 : Schematic.WF { o.asRead with
    filePath := some p
    titleBlock := some { t with title := some (.str k!"This is schematic xyz"), revision := some (.str k!"B") } } :=
    { h0 with titleBlock := fun _ e => by cases e; exact TitleBlock.set_wf (h.titleBlock _ ht) (by textOk) (by textOk) }
  have hv := Schematic.toVal_set ha (congrArg some (TitleBlock.canon_set t _ _)) hw' h1
  rw [hv] at hend
  refine (congrArg (Leaves _ env fs p) ?_).mp hend
  simp only [Schematic.asRead, Schematic.toVal, Schematic.asRead_sheets]
  rfl
/-- "Changing title and revision": without a title block, the program raises an exception and changes nothing. -/
theorem C74_title_missing (o : Schematic) (ho : o.titleBlock = none) (env : Env) (p : Path) (fs : FS)
    (hl : Schematic.fromFile env p none fs = (.ok o, fs)) : changeTitle env p fs = (.error .attributeError, fs) := by
  unfold changeTitle
  rw [run_ok hl]
  refine run_error (congrArg (·, fs) ?_)
  unfold setTitle
  simp only [ho]

/-- The symbol that the example places. -/
def placedResistor : SchematicSymbol :=
  { libraryNickname := some (.str k!"Device")
    entryName := some (.str k!"R_Small_US")
    libName := some (.str k!"R_Small_US")
    position := { X := .int 0, Y := .int 0, angle := some (.int 0) }
    properties := [{ key := .str k!"Reference", value := .str k!"R?", id := some (.int 0) },
      { key := .str k!"Value", value := .str k!"R_Small_US", id := some (.int 1) }] }

theorem resistorSymbol_eq : resistorSymbol = .ok placedResistor := by rfl

theorem Property.new_wf {k v : Val} {n : Int} (hk : TextOk k) (hv : TextOk v) (hn : NumOk (.int n)) :
    Property.WF { key := k, value := v, id := some (.int n) } :=
  { key := hk
    value := hv
    id := fun _ e => by cases e; exact hn
    position := ⟨ok_zero, ok_zero, fun _ e => by cases e; exact ok_int (by decide), rfl⟩
    effects := fun _ e => by cases e }

theorem placedResistor_wf : placedResistor.WF :=
  { libName := by optOk; exact by textOk
    id := .nick k!"Device" k!"R_Small_US" (by decide) (by decide) (by decide) (by decide) (by decide) (by decide)
    position := ⟨ok_int (by decide), ok_int (by decide), fun _ e => by cases e; exact ok_int (by decide), rfl⟩
    mirror := by optOk
    unit := by optOk
    uuid := ⟨_, rfl, .inl rfl⟩
    properties := by listOk; exacts [Property.new_wf (by textOk) (by textOk) (ok_int (by decide)), Property.new_wf (by textOk) (by textOk) (ok_int (by decide))]
    pinNumbers := by listOk
    pinIds := by listOk
    distinct := .nil
    instances := by listOk }

/-- "Adding a schematic symbol" -/
theorem C74_addSymbol (o : SymbolLib) (h : o.WF) (env : Env) (has : Char → Prop) (he : Usual env has) (q p : Path) (fs : FS)
    (hf : Holds env fs q o.toVal) (l m : List Symbol) (s : Symbol) (ho : o.symbols = l ++ s :: m)
    (hl : ∀ x ∈ l, x.entryName ≠ some (.str k!"R_Small_US")) (hs : s.entryName = some (.str k!"R_Small_US"))
    (hw : Openable fs p) (hr : fs.canRead p = true) :
    Leaves (addSymbol env q p fs) env fs p (Schematic.toVal {
      version := .int 20211014
      generator := .str k!"kiutils"
      sheetInstances := [{ instancePath := .str k!"/", page := .str k!"1" }]
      libSymbols := [s]
      schematicSymbols := [{
        libraryNickname := some (.str k!"Device")
        entryName := some (.str k!"R_Small_US")
        libName := some (.str k!"R_Small_US")
        position := { X := .int 0, Y := .int 0, angle := some (.int 0) }
        properties := [{ key := .str k!"Reference", value := .str k!"R?", id := some (.int 0) },
          { key := .str k!"Value", value := .str k!"R_Small_US", id := some (.int 1) }] }] }) := by
  have hb := noCR_base he.charWise
  obtain ⟨a, ha, hload, hon⟩ := SymbolLib.opens h he hf
  have hsym : a.symbols = canon l ++ canon s :: canon m := by
    rw [ha]
    show o.symbols.map canon = _
    rw [ho, List.map_append]; rfl
  have hfind : a.symbols.find? isResistor = some (canon s) := by
    rw [hsym, List.find?_append, List.find?_eq_none.2 ?_, Option.none_or, List.find?_cons_of_pos ((isResistor_canon s).trans ((isResistor_iff s).2 hs))]
    intro x hx
    obtain ⟨y, hy, rfl⟩ := List.mem_map.1 (show x ∈ l.map canon from hx)
    rw [isResistor_canon, isResistor_iff]
    exact hl y hy
  have hws : s.WF := h.symbols s (by rw [ho]; simp)
  have hw' : Schematic.WF { Schematic.createNew with version := .int 20211014, libSymbols := [canon s], schematicSymbols := [placedResistor] } :=
    { Schematic.createNew_wf with
      libSymbols := fun v hv => by cases List.mem_singleton.1 hv; exact Stable.keep hws
      schematicSymbols := fun v hv => by cases List.mem_singleton.1 hv; exact placedResistor_wf }
  have hon' : Only (Chars (NoCR has)) (canon s) := (SymbolLib.symbols_only hon).mem (by rw [hsym]; simp)
  have hend := Schematic.leaves hw' he (fp := some p) (p := p) rfl hw hr
    (Schematic.symbols_only (o := { Schematic.createNew with version := .int 20211014 }) (p := none) (only_texts (by decide +kernel)) (only_single hon') (only_texts (by decide +kernel)))
  have ht : Schematic.toSexpr { Schematic.createNew with version := .int 20211014, libSymbols := [canon s], schematicSymbols := [placedResistor] } =
      Schematic.toSexpr { Schematic.createNew with libSymbols := [canon s], schematicSymbols := [placedResistor] } := by
    unfold Schematic.toSexpr
    simp only [show (Val.int 20211014).pyStr = Schematic.createNew.version.pyStr from by decide]
  have hrun : addSymbol env q p fs =
      saving (Schematic.toFile env { Schematic.createNew with libSymbols := [canon s], schematicSymbols := [placedResistor] } (some p) none) fs := by
    unfold addSymbol
    rw [run_ok hload, hfind]
    show (FileM.lift resistorSymbol >>= _) fs = _
    rw [run_ok (show FileM.lift resistorSymbol fs = (.ok placedResistor, fs) from congrArg (·, fs) resistorSymbol_eq)]
    rfl
  rw [hrun]
  unfold Schematic.toFile at hend ⊢
  rw [ht] at hend
  refine (congrArg (Leaves _ env fs p) ?_).mp hend
  simp only [Schematic.toVal, List.map_cons, List.map_nil, Symbol.toVal_canon s hws]
  rfl

/-- "Adding a schematic symbol": if the library has no such symbol, the program raises an exception and changes nothing. -/
theorem C74_addSymbol_missing (o : SymbolLib) (env : Env) (q p : Path) (fs : FS) (hload : SymbolLib.fromFile env q none fs = (.ok o, fs))
    (hl : ∀ x ∈ o.symbols, x.entryName ≠ some (.str k!"R_Small_US")) : addSymbol env q p fs = (.error .valueError, fs) := by
  unfold addSymbol
  rw [run_ok hload, List.find?_eq_none.2 fun x hx => by rw [isResistor_iff]; exact hl x hx]
  rfl

/-! ## Examples -/

theorem usual_latin1 (crlf : Bool) : Usual (Env.simple .latin1 crlf) (fun c => c.toNat < 256) := ⟨charWise_latin1, Codec.latin1_lawful, rfl⟩

theorem spelled_holds {v : Val} (h : spellable v = true) (crlf : Bool) : Holds (Env.simple .latin1 crlf) (FS.spelled v) k!"a" v :=
  ⟨_, spelled_contains h crlf, spelled_textOf h⟩

/-- Two files with one tree each. -/
def FS.both (v w : Val) : FS := FS.two k!"a" k!"b" (latin (Kiutils.spelled v)) (latin (Kiutils.spelled w))

theorem latin_contains_at {fs : FS} {p : Path} {s : Str} (hn : fs.node p = some (.file (latin s))) (hr : fs.canRead p = true)
    (h : ∀ c ∈ s, c.toNat < 256 ∧ c ≠ '\r') (crlf : Bool) : Contains (Env.simple .latin1 crlf) fs p none s := by
  obtain ⟨b, t, hb, -, hd, hm⟩ := latin_contains h crlf
  cases (show some (Node.file (latin s)) = some (Node.file b) from hb)
  exact ⟨_, t, hn, hr, hd, hm⟩

theorem both_holds {v w : Val} (hv : spellable v = true) (hw : spellable w = true) (crlf : Bool) :
    Holds (Env.simple .latin1 crlf) (FS.both v w) k!"a" v ∧ Holds (Env.simple .latin1 crlf) (FS.both v w) k!"b" w :=
  ⟨⟨_, latin_contains_at rfl rfl (spelled_chars hv) crlf, spelled_textOf hv⟩, ⟨_, latin_contains_at rfl rfl (spelled_chars hw) crlf, spelled_textOf hw⟩⟩

set_option maxRecDepth 100000 in
example := C74_openAndSave smallBoard smallBoard_wf _ _ (usual_latin1 true) (.str k!"0") (by unfold PlainClock; decide) k!"a"
  (FS.spelled smallBoard.toVal) (spelled_holds (by decide +kernel) true) (two_openable ..)
example := C74_createAndSave _ _ (usual_latin1 true) k!"a" (FS.two k!"a" k!"b" [1] [2]) (two_openable ..) rfl

def titledSchematic : Schematic := { smallSchematic with titleBlock := some sampleTitleBlock }
theorem titledSchematic_wf : titledSchematic.WF :=
  { smallSchematic_wf with titleBlock := fun _ e => by cases e; exact sampleTitleBlock_wf }
set_option maxRecDepth 100000 in
example := C74_title titledSchematic titledSchematic_wf (fun _ h => nomatch h) sampleTitleBlock rfl _ _ (usual_latin1 true) k!"a"
  (FS.spelled titledSchematic.toVal) (spelled_holds (by decide +kernel) true) (two_openable ..)
/-- A schematic without a title block: the program raises an exception. -/
example : ∃ fs, changeTitle (Env.simple .latin1 true) k!"a" fs = (.error .attributeError, fs) := by
  obtain ⟨a, ha, hl, -⟩ := Schematic.opens smallSchematic_wf (usual_latin1 true) (fs := FS.spelled smallSchematic.toVal) (p := k!"a")
    (spelled_holds (by decide +kernel) true)
  exact ⟨_, C74_title_missing _ (by rw [ha]; rfl) _ _ _ hl⟩

def referenceFootprint : Footprint :=
  { smallFootprint with graphicItems := [.text { sampleFpText with type := .str k!"reference" }, .text sampleFpText] }
theorem referenceFootprint_wf : referenceFootprint.WF :=
  { smallFootprint_wf with graphicItems := by listOk; exacts [{ sampleFpText_wf with type := by tokOk }, sampleFpText_wf] }
set_option maxRecDepth 100000 in
example := C74_addFootprint smallBoard smallBoard_wf referenceFootprint referenceFootprint_wf _ _ (usual_latin1 true) (.str k!"0")
  (by unfold PlainClock; decide) k!"a" k!"b" (FS.both smallBoard.toVal referenceFootprint.toVal)
  (both_holds (by decide +kernel) (by decide +kernel) true).1 (both_holds (by decide +kernel) (by decide +kernel) true).2 (two_openable ..)

set_option maxRecDepth 100000 in
example := C74_addVias smallBoard smallBoard_wf _ _ (usual_latin1 true) (.str k!"0") (by unfold PlainClock; decide)
  (fun s => .ok ((s.start.X, s.start.Y), (.int 1, .int 2))) (fun s hs => by
    rcases List.mem_cons.1 (show TraceItem.segment s ∈ [.segment sampleSegment, .arc sampleTraceArc, .via sampleVia] from hs) with h | h
    · cases h
      exact ⟨_, _, _, _, rfl, (Stable.keep (P := Position.WFXY) sampleSegment_wf.start).X, (Stable.keep (P := Position.WFXY) sampleSegment_wf.start).Y,
        ok_int (by decide), ok_int (by decide)⟩
    · rcases List.mem_cons.1 h with h | h
      · cases h
      · cases List.mem_singleton.1 h) k!"a"
  (FS.spelled smallBoard.toVal) (spelled_holds (by decide +kernel) true) (two_openable ..)
set_option maxRecDepth 100000 in
example := C74_addVias_raises smallBoard smallBoard_wf _ _ (usual_latin1 true) (.str k!"0") (by unfold PlainClock; decide)
  (fun _ => .error .valueError) [] [.arc sampleTraceArc, .via sampleVia] sampleSegment .valueError rfl (fun _ h => nomatch h) rfl k!"a"
  (FS.spelled smallBoard.toVal) (spelled_holds (by decide +kernel) true)

def resistor : Symbol := { entryName := some (.str k!"R_Small_US") }
theorem resistor_wf : resistor.WF := .mk _
  { id := .top k!"R_Small_US" (by decide) (by decide) (by decide) (by
      intro p u s h _ _ hs hd
      have hl := congrArg List.getLast? h
      have hr : (p ++ '_' :: (u ++ '_' :: s)).getLast? = s.getLast? := by
        rw [List.getLast?_append_of_ne_nil _ (by simp), List.getLast?_cons_of_ne_nil (by simp), List.getLast?_append_of_ne_nil _ (by simp),
          List.getLast?_cons_of_ne_nil hs]
      exact absurd (hd.2 'S' (List.mem_of_getLast? (hl.trans hr).symm)) (by decide))
    extends_ := by optOk, pinNames := fun _ => ⟨rfl, rfl⟩, pinNamesOffset := by optOk, properties := by listOk, graphicItems := by listOk, pins := by listOk }
  (by listOk)
def resistorLib : SymbolLib := { sampleSymbolLib with symbols := [sampleSymbol, resistor] }
theorem resistorLib_wf : resistorLib.WF := { sampleSymbolLib_wf with symbols := by listOk; exacts [sampleSymbol_wf, resistor_wf] }
set_option maxRecDepth 100000 in
example := C74_addSymbol resistorLib resistorLib_wf _ _ (usual_latin1 true) k!"a" k!"c" (FS.spelled resistorLib.toVal)
  (spelled_holds (by decide +kernel) true) [sampleSymbol] [] resistor rfl (by listOk; exact fun h => by cases h) rfl ⟨rfl, fun h => by cases h⟩ rfl
set_option maxRecDepth 100000 in
/-- A library without the symbol: the program raises an exception. -/
example : ∃ fs, addSymbol (Env.simple .latin1 true) k!"a" k!"c" fs = (.error .valueError, fs) := by
  obtain ⟨a, ha, hl, -⟩ := SymbolLib.opens sampleSymbolLib_wf (usual_latin1 true) (fs := FS.spelled sampleSymbolLib.toVal) (p := k!"a")
    (spelled_holds (by decide +kernel) true)
  refine ⟨_, C74_addSymbol_missing _ _ _ _ _ hl ?_⟩
  rw [ha]
  intro x hx
  cases List.mem_singleton.1 (show x ∈ [canon sampleSymbol] from hx)
  exact fun h => by cases h

end Kiutils
