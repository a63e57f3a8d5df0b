import Verif.Proofs.Provenance
import Verif.Props.Loads
import Verif.Props.RoundTrip
/-!
# C63: loading invents no text

Whatever a file contains, as long as it is accepted: every string in the loaded object is a contiguous part of a string of the file, or
one of a short list of default texts.
-/
namespace Kiutils

/-! ## Specification -/

/-- Each of the strings `ts` is a default text or a contiguous part of one of the strings `us`. -/
def ComesFrom (us ts : List Str) : Prop := ∀ t ∈ ts, t ∈ defaultTexts ∨ ∃ u ∈ us, t <:+: u

/-- `t` is `w` with the backslash left out before some of the quotation marks. -/
inductive DropsEscapes : Str → Str → Prop where
  | nil : DropsEscapes [] []
  | keep {c : Char} {w t : Str} : DropsEscapes w t → DropsEscapes (c :: w) (c :: t)
  | drop {w t : Str} : DropsEscapes w t → DropsEscapes ('\\' :: '"' :: w) ('"' :: t)

/-- `t` stands in the text: a contiguous part of the text reads `t`, up to backslashes before quotation marks. -/
def StandsIn (text t : Str) : Prop := ∃ w, w <:+: text ∧ DropsEscapes w t

/-- Each of the strings `ts` is a default text or stands in the text. -/
def ReadFrom (text : Str) (ts : List Str) : Prop := ∀ t ∈ ts, t ∈ defaultTexts ∨ StandsIn text t

/-- The same, with a clock: the edit time of a footprint that has none in the file comes from there. -/
def ReadFromAt (tedit : Val) (text : Str) (ts : List Str) : Prop :=
  ∀ t ∈ ts, t ∈ defaultTexts ∨ StandsIn text t ∨ ∃ u ∈ texts tedit, t <:+: u

/-- A footprint whose name is not a list. -/
def NameIsAtom (v : Val) : Prop :=
  ∀ h l r, v = .list (h :: .list l :: r) → h ≠ .str k!"module" ∧ h ≠ .str k!"footprint"

/-! ## Lemmas -/

/-- Contiguous parts of some strings. -/
def PartOf (us : List Str) (t : Str) : Prop := ∃ u ∈ us, t <:+: u

instance (us : List Str) : Parts (PartOf us) := ⟨fun _ _ h ⟨u, hu, hb⟩ => ⟨u, hu, h.trans hb⟩⟩

theorem only_partOf {α : Type} [Texts α] (v : α) : Only (PartOf (texts v)) v := fun s hs => ⟨s, hs, List.infix_refl _⟩

theorem comes_of {α : Type} [Texts α] {v : Val} {m : PyM α} {o : α} (h : OnlyM (Orig (PartOf (texts v))) m) (e : m = .ok o) :
    ComesFrom (texts v) (texts o) := h o e

theorem is_eq {h : Val} {k : Str} (e : h.is k = true) : h = .str k := by
  cases h with
  | str s => simp only [Val.is, beq_iff_eq] at e; rw [e]
  | _ => exact nomatch e

theorem idOk_of {R : Str → Prop} {v : Val} (hn : NameIsAtom v) : ListNameOk R v := fun h l r e hh => by
  have := hn h l r e
  rw [Bool.or_eq_true] at hh
  exact hh.elim (fun x => absurd (is_eq x) this.1) fun x => absurd (is_eq x) this.2

theorem DropsEscapes.refl : ∀ w, DropsEscapes w w
  | [] => .nil
  | _ :: r => .keep (DropsEscapes.refl r)

theorem DropsEscapes.unescape (w : Str) : DropsEscapes w (unescape w) := by
  fun_induction Kiutils.unescape w with
  | case1 r ih => exact .drop ih
  | case2 c r h ih => exact .keep ih
  | case3 => exact .nil

theorem DropsEscapes.split {w : Str} {a b : Str} (h : DropsEscapes w (a ++ b)) :
    ∃ w1 w2, w = w1 ++ w2 ∧ DropsEscapes w1 a ∧ DropsEscapes w2 b := by
  induction a generalizing w with
  | nil => exact ⟨[], w, rfl, .nil, h⟩
  | cons c a ih =>
    cases h with
    | keep h =>
      obtain ⟨w1, w2, rfl, h1, h2⟩ := ih h
      exact ⟨c :: w1, w2, rfl, .keep h1, h2⟩
    | drop h =>
      obtain ⟨w1, w2, rfl, h1, h2⟩ := ih h
      exact ⟨'\\' :: '"' :: w1, w2, rfl, .drop h1, h2⟩

theorem StandsIn.part {text a b : Str} (h : a <:+: b) (hb : StandsIn text b) : StandsIn text a := by
  obtain ⟨w, hw, hd⟩ := hb
  obtain ⟨x, y, rfl⟩ := h
  obtain ⟨w12, w3, rfl, h12, -⟩ := hd.split
  obtain ⟨w1, w2, rfl, -, h2⟩ := h12.split
  exact ⟨w2, .trans ⟨w1, w3, rfl⟩ hw, h2⟩

instance (text : Str) : Parts (StandsIn text) := ⟨fun _ _ => StandsIn.part⟩

theorem tokenAt_stands {s src rest : Str} {v : Val} (h : tokenAt s = some (src, .atom v, rest)) : Only (StandsIn s) v := by
  unfold tokenAt at h
  split at h
  · exact nomatch h
  · next c r =>
    split at h
    · exact nomatch h
    · split at h
      · exact nomatch h
      · split at h
        · cases h
          unfold NumLit.val Val.canon
          simp only
          exact .ite .int .flt
        · split at h
          · next b rest' hb =>
            cases h
            obtain ⟨hb, -⟩ := matchSq_spec hb
            exact .str ⟨b, ⟨['"'], '"' :: rest, by rw [← hb]; simp⟩, .unescape b⟩
          · split at h
            · cases h
              exact .str ⟨_, (List.takeWhile_prefix _).isInfix, .refl _⟩
            · exact nomatch h

theorem StandsIn.mono {s text t : Str} (h : s <:+: text) (ht : StandsIn s t) : StandsIn text t :=
  ht.imp fun _ hw => ⟨hw.1.trans h, hw.2⟩

theorem Only.imp {α : Type} [Texts α] {Q R : Str → Prop} {a : α} (h : ∀ s, Q s → R s) (ha : Only Q a) : Only R a := fun s hs => h s (ha s hs)

theorem scan_stands {text : Str} (fuel : Nat) (s : Str) (hs : s <:+: text) (src : Str) (v : Val)
    (h : Piece.tok src (.atom v) ∈ scan fuel s) : Only (StandsIn text) v := by
  induction fuel generalizing s with
  | zero => exact absurd h (by simp [scan])
  | succ fuel ih =>
    cases s with
    | nil => exact absurd h (by simp [scan])
    | cons c r =>
      have hr : r <:+: text := .trans ⟨[c], [], by simp⟩ hs
      rw [scan] at h
      split at h
      · rcases List.mem_cons.1 h with h | h
        · exact nomatch h
        · exact ih r hr h
      · split at h
        · next src' t rest e =>
          rcases List.mem_cons.1 h with h | h
          · cases h
            exact (tokenAt_stands e).imp fun _ => StandsIn.mono hs
          · refine ih rest (.trans ⟨src', [], ?_⟩ hs) h
            rw [List.append_nil]; exact (tokenAt_spec e).1
        · rcases List.mem_cons.1 h with h | h
          · exact nomatch h
          · exact ih r hr h

theorem run_only {Q : Str → Prop} {stack : List (List Val)} {out : List Val} {ts : List Tok} {v : Val} (h1 : Only Q stack) (h2 : Only Q out)
    (h3 : ∀ w, .atom w ∈ ts → Only Q w) (h : run stack out ts = .ok v) : Only Q v := by
  induction ts generalizing stack out with
  | nil =>
    cases stack with
    | cons => exact nomatch h
    | nil => cases out with
      | nil => exact nomatch h
      | cons => cases h; exact h2.head
  | cons t ts ih =>
    have h3' : ∀ w, .atom w ∈ ts → Only Q w := fun w hw => h3 w (List.mem_cons_of_mem _ hw)
    cases t with
    | op => exact ih (.cons h2 h1) .nil h3' h
    | cl =>
      cases stack with
      | nil => exact nomatch h
      | cons => exact ih h1.tail (.append h1.head (.cons (.mk_list h2) .nil)) h3' h
    | atom w => exact ih h1 (.append h2 (.cons (h3 w (List.mem_cons_self ..)) .nil)) h3' h

/-- The strings of the tree stand in the text. -/
theorem parse_stands {text : Str} {v : Val} (h : parseSexp text = .ok v) : Only (StandsIn text) v :=
  run_only .nil .nil (fun w hw => by
    obtain ⟨p, hp, e⟩ := List.mem_filterMap.1 hw
    cases p with
    | skip => exact nomatch e
    | tok src t => cases e; exact scan_stands _ _ (List.infix_refl _) src w hp) h

theorem bind_ok_split {α β : Type} {m : PyM α} {f : α → PyM β} {o : β} (h : (m >>= f) = .ok o) : ∃ a, m = .ok a ∧ f a = .ok o := by
  cases m with
  | error => exact nomatch h
  | ok a => exact ⟨a, rfl, h⟩

theorem map_ok_split {α β : Type} {m : PyM α} {f : α → β} {o : β} (h : m.map f = .ok o) : ∃ a, m = .ok a ∧ f a = o := by
  cases m with
  | error => exact nomatch h
  | ok a => exact ⟨a, rfl, by cases h; rfl⟩

/-- What is written for an object that can be loaded again is a case to which the theorems apply. -/
theorem comes_sample {α : Type} [Texts α] [PyEq α] {text : PyM Str} {load : Val → PyM α} {o : α} (h : Reloads text load o)
    (hc : ∀ v o, load v = .ok o → ComesFrom (texts v) (texts o)) : ∃ v o', load v = .ok o' ∧ ComesFrom (texts v) (texts o') := by
  obtain ⟨o', h, -⟩ := h
  obtain ⟨v, -, ho⟩ := bind_ok_split h
  exact ⟨v, o', ho, hc v o' ho⟩

theorem read_of {α : Type} [Texts α] {text : Str} {f : Val → PyM α} {o : α}
    (hf : ∀ v, Only (StandsIn text) v → OnlyM (Orig (StandsIn text)) (f v)) (h : (parseSexp text >>= f) = .ok o) :
    ReadFrom text (texts o) := by
  obtain ⟨v, hv, ho⟩ := bind_ok_split h
  exact hf v (parse_stands hv) o ho

/-- In the text, or in the edit time. -/
def StandsInAt (tedit : Val) (text t : Str) : Prop := StandsIn text t ∨ ∃ u ∈ texts tedit, t <:+: u

instance (tedit : Val) (text : Str) : Parts (StandsInAt tedit text) :=
  ⟨fun _ _ h => .imp (StandsIn.part h) fun ⟨u, hu, hb⟩ => ⟨u, hu, h.trans hb⟩⟩

theorem only_tedit (tedit : Val) (text : Str) : Only (Orig (StandsInAt tedit text)) tedit := fun s hs => .inr (.inr ⟨s, hs, List.infix_refl _⟩)

/-! ## `from_sexpr` of every class: strings of the object are parts of strings of the tree -/

theorem C63_Position (v : Val) (o : Position) (h : Position.fromSexpr v = .ok o) : ComesFrom (texts v) (texts o) :=
  comes_of (Position.fromSexpr_only (only_partOf v)) h
example := C63_Position (.list [.str k!"at", .int 1, .str k!"x"]) _ rfl
theorem C63_Coordinate (v : Val) (o : Coordinate) (h : Coordinate.fromSexpr v = .ok o) : ComesFrom (texts v) (texts o) :=
  comes_of (Coordinate.fromSexpr_only (only_partOf v)) h
example := comes_sample (C20_Coordinate sampleCoordinate sampleCoordinate_wf 0 false) C63_Coordinate
theorem C63_ColorRGBA (v : Val) (o : ColorRGBA) (h : ColorRGBA.fromSexpr v = .ok o) : ComesFrom (texts v) (texts o) :=
  comes_of (ColorRGBA.fromSexpr_only (only_partOf v)) h
example := comes_sample (C20_ColorRGBA sampleColorRGBA sampleColorRGBA_wf 0 false) C63_ColorRGBA
theorem C63_Stroke (v : Val) (o : Stroke) (h : Stroke.fromSexpr v = .ok o) : ComesFrom (texts v) (texts o) :=
  comes_of (Stroke.fromSexpr_only (only_partOf v)) h
example := comes_sample (C20_Stroke sampleStroke sampleStroke_wf 0 false) C63_Stroke
theorem C63_Font (v : Val) (o : Font) (h : Font.fromSexpr v = .ok o) : ComesFrom (texts v) (texts o) :=
  comes_of (Font.fromSexpr_only (only_partOf v)) h
example := comes_sample (C20_Font sampleFont sampleFont_wf 0 false) C63_Font
theorem C63_Justify (v : Val) (o : Justify) (h : Justify.fromSexpr v = .ok o) : ComesFrom (texts v) (texts o) :=
  comes_of (Justify.fromSexpr_only (only_partOf v)) h
example := comes_sample (C20_Justify sampleJustify sampleJustify_wf rfl 0 false) C63_Justify
theorem C63_Effects (v : Val) (o : Effects) (h : Effects.fromSexpr v = .ok o) : ComesFrom (texts v) (texts o) :=
  comes_of (Effects.fromSexpr_only (only_partOf v)) h
example := comes_sample (C20_Effects sampleEffects sampleEffects_wf 0 false) C63_Effects
theorem C63_Net (v : Val) (o : Net) (h : Net.fromSexpr v = .ok o) : ComesFrom (texts v) (texts o) :=
  comes_of (Net.fromSexpr_only (only_partOf v)) h
example := comes_sample (C20_Net sampleNet sampleNet_wf 0 false) C63_Net
theorem C63_Group (v : Val) (o : Group) (h : Group.fromSexpr v = .ok o) : ComesFrom (texts v) (texts o) :=
  comes_of (Group.fromSexpr_only (only_partOf v)) h
example := comes_sample (C20_Group sampleGroup sampleGroup_wf 0 false) C63_Group
theorem C63_PageSettings (v : Val) (o : PageSettings) (h : PageSettings.fromSexpr v = .ok o) : ComesFrom (texts v) (texts o) :=
  comes_of (PageSettings.fromSexpr_only (only_partOf v)) h
example := comes_sample (C20_PageSettings samplePageSettings samplePageSettings_wf 0 false) C63_PageSettings
theorem C63_TitleBlock (v : Val) (o : TitleBlock) (h : TitleBlock.fromSexpr v = .ok o) : ComesFrom (texts v) (texts o) :=
  comes_of (TitleBlock.fromSexpr_only (only_partOf v)) h
example := comes_sample (C20_TitleBlock sampleTitleBlock sampleTitleBlock_wf 0 false) C63_TitleBlock
theorem C63_Property (v : Val) (o : Property) (h : Property.fromSexpr v = .ok o) : ComesFrom (texts v) (texts o) :=
  comes_of (Property.fromSexpr_only (only_partOf v)) h
example := comes_sample (C20_Property sampleProperty sampleProperty_wf 0 false) C63_Property
theorem C63_RenderCachePolygon (v : Val) (o : RenderCachePolygon) (h : RenderCachePolygon.fromSexpr v = .ok o) : ComesFrom (texts v) (texts o) :=
  comes_of (RenderCachePolygon.fromSexpr_only (only_partOf v)) h
example := comes_sample (C20_RenderCachePolygon sampleRenderCachePolygon sampleRenderCachePolygon_wf 0 false) C63_RenderCachePolygon
theorem C63_RenderCache (v : Val) (o : RenderCache) (h : RenderCache.fromSexpr v = .ok o) : ComesFrom (texts v) (texts o) :=
  comes_of (RenderCache.fromSexpr_only (only_partOf v)) h
example := comes_sample (C20_RenderCache sampleRenderCache sampleRenderCache_wf 0 false) C63_RenderCache
theorem C63_Fill (v : Val) (o : Fill) (h : Fill.fromSexpr v = .ok o) : ComesFrom (texts v) (texts o) :=
  comes_of (Fill.fromSexpr_only (only_partOf v)) h
example := comes_sample (C20_Fill sampleFill sampleFill_wf 0 false) C63_Fill
theorem C63_Image (v : Val) (o : Image) (h : Image.fromSexpr v = .ok o) : ComesFrom (texts v) (texts o) :=
  comes_of (Image.fromSexpr_only (only_partOf v)) h
example := comes_sample (C20_Image sampleImage sampleImage_wf 0 false) C63_Image
theorem C63_Library (v : Val) (o : Library) (h : Library.fromSexpr v = .ok o) : ComesFrom (texts v) (texts o) :=
  comes_of (Library.fromSexpr_only (only_partOf v)) h
example := comes_sample (C13_Library sampleLibrary sampleLibrary_wf 0 false) C63_Library
theorem C63_LibTable (v : Val) (o : LibTable) (h : LibTable.fromSexpr v = .ok o) : ComesFrom (texts v) (texts o) :=
  comes_of (LibTable.fromSexpr_only (only_partOf v)) h
example := comes_sample (C13_LibTable sampleLibTable sampleLibTable_wf 0 false) C63_LibTable
theorem C63_Constraint (v : Val) (o : Constraint) (h : Constraint.fromSexpr v = .ok o) : ComesFrom (texts v) (texts o) :=
  comes_of (Constraint.fromSexpr_only (only_partOf v)) h
example := comes_sample (C14_Constraint sampleConstraint sampleConstraint_wf 0 false) C63_Constraint
theorem C63_Rule (v : Val) (o : Rule) (h : Rule.fromSexpr v = .ok o) : ComesFrom (texts v) (texts o) :=
  comes_of (Rule.fromSexpr_only (only_partOf v)) h
example := comes_sample (C14_Rule sampleRule sampleRule_wf 0) C63_Rule
theorem C63_DesignRules (v : Val) (o : DesignRules) (h : DesignRules.fromSexpr v = .ok o) : ComesFrom (texts v) (texts o) :=
  comes_of (DesignRules.fromSexpr_only (only_partOf v)) h
example := C63_DesignRules (.list [.list [.str k!"version", .str k!"x"]]) _ rfl
theorem C63_WksFontSize (v : Val) (o : WksFontSize) (h : WksFontSize.fromSexpr v = .ok o) : ComesFrom (texts v) (texts o) :=
  comes_of (WksFontSize.fromSexpr_only (only_partOf v)) h
example := comes_sample (C15_WksFontSize sampleWksFontSize sampleWksFontSize_wf 0 false) C63_WksFontSize
theorem C63_WksFont (v : Val) (o : WksFont) (h : WksFont.fromSexpr v = .ok o) : ComesFrom (texts v) (texts o) :=
  comes_of (WksFont.fromSexpr_only (only_partOf v)) h
example := C63_WksFont (.list [.str k!"font", .str k!"bold", .list [.str k!"linewidth", .str k!"x"]]) _ rfl
theorem C63_WksPosition (v : Val) (o : WksPosition) (h : WksPosition.fromSexpr v = .ok o) : ComesFrom (texts v) (texts o) :=
  comes_of (WksPosition.fromSexpr_only (only_partOf v)) h
example := comes_sample (C15_WksPosition sampleWksPosition sampleWksPosition_wf k!"pos" rfl) C63_WksPosition
theorem C63_Bitmap (v : Val) (o : Bitmap) (h : Bitmap.fromSexpr v = .ok o) : ComesFrom (texts v) (texts o) :=
  comes_of (Bitmap.fromSexpr_only (only_partOf v)) h
example := comes_sample (C15_Bitmap sampleBitmap sampleBitmap_wf 0 false) C63_Bitmap
theorem C63_TbText (v : Val) (o : TbText) (h : TbText.fromSexpr v = .ok o) : ComesFrom (texts v) (texts o) :=
  comes_of (TbText.fromSexpr_only (only_partOf v)) h
example := comes_sample (C15_TbText sampleTbText sampleTbText_wf 0 false) C63_TbText
theorem C63_TextSize (v : Val) (o : TextSize) (h : TextSize.fromSexpr v = .ok o) : ComesFrom (texts v) (texts o) :=
  comes_of (TextSize.fromSexpr_only (only_partOf v)) h
example := comes_sample (C15_TextSize sampleTextSize sampleTextSize_wf 0 false) C63_TextSize
theorem C63_Setup (v : Val) (o : Setup) (h : Setup.fromSexpr v = .ok o) : ComesFrom (texts v) (texts o) :=
  comes_of (Setup.fromSexpr_only (only_partOf v)) h
example := comes_sample (C15_Setup sampleSetup sampleSetup_wf 0 false) C63_Setup
theorem C63_WorkSheet (v : Val) (o : WorkSheet) (h : WorkSheet.fromSexpr v = .ok o) : ComesFrom (texts v) (texts o) :=
  comes_of (WorkSheet.fromSexpr_only (only_partOf v)) h
example := comes_sample (C15_WorkSheet sampleWorkSheet sampleWorkSheet_wf 0 false) C63_WorkSheet
theorem C63_SyArc (v : Val) (o : SyArc) (h : SyArc.fromSexpr v = .ok o) : ComesFrom (texts v) (texts o) :=
  comes_of (SyArc.fromSexpr_only (only_partOf v)) h
example := comes_sample (C41_SyArc sampleSyArc sampleSyArc_wf 0 false) C63_SyArc
theorem C63_SyCircle (v : Val) (o : SyCircle) (h : SyCircle.fromSexpr v = .ok o) : ComesFrom (texts v) (texts o) :=
  comes_of (SyCircle.fromSexpr_only (only_partOf v)) h
example := comes_sample (C41_SyCircle sampleSyCircle sampleSyCircle_wf 0 false) C63_SyCircle
theorem C63_SyCurve (v : Val) (o : SyCurve) (h : SyCurve.fromSexpr v = .ok o) : ComesFrom (texts v) (texts o) :=
  comes_of (SyCurve.fromSexpr_only (only_partOf v)) h
example := C63_SyCurve (.list [.str k!"curve", .list [.str k!"pts", .list [.str k!"xy", .int 1, .str k!"x"]]]) _ rfl
theorem C63_SyPolyLine (v : Val) (o : SyPolyLine) (h : SyPolyLine.fromSexpr v = .ok o) : ComesFrom (texts v) (texts o) :=
  comes_of (SyPolyLine.fromSexpr_only (only_partOf v)) h
example := comes_sample (C41_SyPolyLine sampleSyPolyLine sampleSyPolyLine_wf 0 false) C63_SyPolyLine
theorem C63_SyRect (v : Val) (o : SyRect) (h : SyRect.fromSexpr v = .ok o) : ComesFrom (texts v) (texts o) :=
  comes_of (SyRect.fromSexpr_only (only_partOf v)) h
example := comes_sample (C41_SyRect sampleSyRect sampleSyRect_wf 0 false) C63_SyRect
theorem C63_SyText (v : Val) (o : SyText) (h : SyText.fromSexpr v = .ok o) : ComesFrom (texts v) (texts o) :=
  comes_of (SyText.fromSexpr_only (only_partOf v)) h
example := comes_sample (C41_SyText sampleSyText sampleSyText_wf 0 false) C63_SyText
theorem C63_SyTextBox (v : Val) (o : SyTextBox) (h : SyTextBox.fromSexpr v = .ok o) : ComesFrom (texts v) (texts o) :=
  comes_of (SyTextBox.fromSexpr_only (only_partOf v)) h
example := comes_sample (C41_SyTextBox sampleSyTextBox sampleSyTextBox_wf 0 false) C63_SyTextBox
theorem C63_SymbolAlternativePin (v : Val) (o : SymbolAlternativePin) (h : SymbolAlternativePin.fromSexpr v = .ok o) : ComesFrom (texts v) (texts o) :=
  comes_of (SymbolAlternativePin.fromSexpr_only (only_partOf v)) h
example := comes_sample (C41_SymbolAlternativePin sampleSymbolAlternativePin sampleSymbolAlternativePin_wf 0 false) C63_SymbolAlternativePin
theorem C63_SymbolPin (v : Val) (o : SymbolPin) (h : SymbolPin.fromSexpr v = .ok o) : ComesFrom (texts v) (texts o) :=
  comes_of (SymbolPin.fromSexpr_only (only_partOf v)) h
example := comes_sample (C41_SymbolPin sampleSymbolPin sampleSymbolPin_wf 0 false) C63_SymbolPin
theorem C63_SymbolLib (v : Val) (o : SymbolLib) (h : SymbolLib.fromSexpr v = .ok o) : ComesFrom (texts v) (texts o) :=
  comes_of (SymbolLib.fromSexpr_only (only_partOf v)) h
example := comes_sample (C16_SymbolLib sampleSymbolLib sampleSymbolLib_wf 0 false) C63_SymbolLib
theorem C63_Junction (v : Val) (o : Junction) (h : Junction.fromSexpr v = .ok o) : ComesFrom (texts v) (texts o) :=
  comes_of (Junction.fromSexpr_only (only_partOf v)) h
example := C63_Junction (.list [.str k!"junction", .list [.str k!"at", .int 1, .str k!"x"]]) _ rfl
theorem C63_NoConnect (v : Val) (o : NoConnect) (h : NoConnect.fromSexpr v = .ok o) : ComesFrom (texts v) (texts o) :=
  comes_of (NoConnect.fromSexpr_only (only_partOf v)) h
example := comes_sample (C41_NoConnect sampleNoConnect sampleNoConnect_wf 0 false) C63_NoConnect
theorem C63_BusEntry (v : Val) (o : BusEntry) (h : BusEntry.fromSexpr v = .ok o) : ComesFrom (texts v) (texts o) :=
  comes_of (BusEntry.fromSexpr_only (only_partOf v)) h
example := comes_sample (C41_BusEntry sampleBusEntry sampleBusEntry_wf 0 false) C63_BusEntry
theorem C63_BusAlias (v : Val) (o : BusAlias) (h : BusAlias.fromSexpr v = .ok o) : ComesFrom (texts v) (texts o) :=
  comes_of (BusAlias.fromSexpr_only (only_partOf v)) h
example := comes_sample (C41_BusAlias sampleBusAlias sampleBusAlias_wf 0 false) C63_BusAlias
theorem C63_Connection (v : Val) (o : Connection) (h : Connection.fromSexpr v = .ok o) : ComesFrom (texts v) (texts o) :=
  comes_of (Connection.fromSexpr_only (only_partOf v)) h
example := comes_sample (C41_Connection sampleConnection sampleConnection_wf 0 false) C63_Connection
theorem C63_PolyLine (v : Val) (o : PolyLine) (h : PolyLine.fromSexpr v = .ok o) : ComesFrom (texts v) (texts o) :=
  comes_of (PolyLine.fromSexpr_only (only_partOf v)) h
example := comes_sample (C41_PolyLine samplePolyLine samplePolyLine_wf 0 false) C63_PolyLine
theorem C63_Text (v : Val) (o : Text) (h : Text.fromSexpr v = .ok o) : ComesFrom (texts v) (texts o) :=
  comes_of (Text.fromSexpr_only (only_partOf v)) h
example := comes_sample (C41_Text sampleText sampleText_wf 0 false) C63_Text
theorem C63_TextBox (v : Val) (o : TextBox) (h : TextBox.fromSexpr v = .ok o) : ComesFrom (texts v) (texts o) :=
  comes_of (TextBox.fromSexpr_only (only_partOf v)) h
example := comes_sample (C41_TextBox sampleTextBox sampleTextBox_wf 0 false) C63_TextBox
theorem C63_LocalLabel (v : Val) (o : LocalLabel) (h : LocalLabel.fromSexpr v = .ok o) : ComesFrom (texts v) (texts o) :=
  comes_of (LocalLabel.fromSexpr_only (only_partOf v)) h
example := comes_sample (C41_LocalLabel sampleLocalLabel sampleLocalLabel_wf 0 false) C63_LocalLabel
theorem C63_GlobalLabel (v : Val) (o : GlobalLabel) (h : GlobalLabel.fromSexpr v = .ok o) : ComesFrom (texts v) (texts o) :=
  comes_of (GlobalLabel.fromSexpr_only (only_partOf v)) h
example := comes_sample (C41_GlobalLabel sampleGlobalLabel sampleGlobalLabel_wf 0 false) C63_GlobalLabel
theorem C63_HierarchicalLabel (v : Val) (o : HierarchicalLabel) (h : HierarchicalLabel.fromSexpr v = .ok o) : ComesFrom (texts v) (texts o) :=
  comes_of (HierarchicalLabel.fromSexpr_only (only_partOf v)) h
example := comes_sample (C41_HierarchicalLabel sampleHierarchicalLabel sampleHierarchicalLabel_wf 0 false) C63_HierarchicalLabel
theorem C63_SymbolProjectPath (v : Val) (o : SymbolProjectPath) (h : SymbolProjectPath.fromSexpr v = .ok o) : ComesFrom (texts v) (texts o) :=
  comes_of (SymbolProjectPath.fromSexpr_only (only_partOf v)) h
example := comes_sample (C41_SymbolProjectPath sampleSymbolProjectPath sampleSymbolProjectPath_wf 0 false) C63_SymbolProjectPath
theorem C63_SymbolProjectInstance (v : Val) (o : SymbolProjectInstance) (h : SymbolProjectInstance.fromSexpr v = .ok o) : ComesFrom (texts v) (texts o) :=
  comes_of (SymbolProjectInstance.fromSexpr_only (only_partOf v)) h
example := comes_sample (C41_SymbolProjectInstance sampleSymbolProjectInstance sampleSymbolProjectInstance_wf 0 false) C63_SymbolProjectInstance
theorem C63_SchematicSymbol (v : Val) (o : SchematicSymbol) (h : SchematicSymbol.fromSexpr v = .ok o) : ComesFrom (texts v) (texts o) :=
  comes_of (SchematicSymbol.fromSexpr_only (only_partOf v)) h
example := comes_sample (C41_SchematicSymbol sampleSchematicSymbol sampleSchematicSymbol_wf 0 false) C63_SchematicSymbol
theorem C63_HierarchicalPin (v : Val) (o : HierarchicalPin) (h : HierarchicalPin.fromSexpr v = .ok o) : ComesFrom (texts v) (texts o) :=
  comes_of (HierarchicalPin.fromSexpr_only (only_partOf v)) h
example := comes_sample (C41_HierarchicalPin sampleHierarchicalPin sampleHierarchicalPin_wf 0 false) C63_HierarchicalPin
theorem C63_HierarchicalSheetProjectPath (v : Val) (o : HierarchicalSheetProjectPath) (h : HierarchicalSheetProjectPath.fromSexpr v = .ok o) : ComesFrom (texts v) (texts o) :=
  comes_of (HierarchicalSheetProjectPath.fromSexpr_only (only_partOf v)) h
example := comes_sample (C41_HierarchicalSheetProjectPath sampleHierarchicalSheetProjectPath sampleHierarchicalSheetProjectPath_wf 0 false) C63_HierarchicalSheetProjectPath
theorem C63_HierarchicalSheetProjectInstance (v : Val) (o : HierarchicalSheetProjectInstance) (h : HierarchicalSheetProjectInstance.fromSexpr v = .ok o) : ComesFrom (texts v) (texts o) :=
  comes_of (HierarchicalSheetProjectInstance.fromSexpr_only (only_partOf v)) h
example := comes_sample (C41_HierarchicalSheetProjectInstance sampleHierarchicalSheetProjectInstance sampleHierarchicalSheetProjectInstance_wf 0 false) C63_HierarchicalSheetProjectInstance
theorem C63_HierarchicalSheet (v : Val) (o : HierarchicalSheet) (h : HierarchicalSheet.fromSexpr v = .ok o) : ComesFrom (texts v) (texts o) :=
  comes_of (HierarchicalSheet.fromSexpr_only (only_partOf v)) h
example := comes_sample (C41_HierarchicalSheet sampleHierarchicalSheet sampleHierarchicalSheet_wf 0 false) C63_HierarchicalSheet
theorem C63_HierarchicalSheetInstance (v : Val) (o : HierarchicalSheetInstance) (h : HierarchicalSheetInstance.fromSexpr v = .ok o) : ComesFrom (texts v) (texts o) :=
  comes_of (HierarchicalSheetInstance.fromSexpr_only (only_partOf v)) h
example := comes_sample (C41_HierarchicalSheetInstance sampleHierarchicalSheetInstance sampleHierarchicalSheetInstance_wf 0 false) C63_HierarchicalSheetInstance
theorem C63_SymbolInstance (v : Val) (o : SymbolInstance) (h : SymbolInstance.fromSexpr v = .ok o) : ComesFrom (texts v) (texts o) :=
  comes_of (SymbolInstance.fromSexpr_only (only_partOf v)) h
example := comes_sample (C41_SymbolInstance sampleSymbolInstance sampleSymbolInstance_wf 0 false) C63_SymbolInstance
theorem C63_Rectangle (v : Val) (o : Rectangle) (h : Rectangle.fromSexpr v = .ok o) : ComesFrom (texts v) (texts o) :=
  comes_of (Rectangle.fromSexpr_only (only_partOf v)) h
example := comes_sample (C41_Rectangle sampleRectangle sampleRectangle_wf 0 false) C63_Rectangle
theorem C63_Arc (v : Val) (o : Arc) (h : Arc.fromSexpr v = .ok o) : ComesFrom (texts v) (texts o) :=
  comes_of (Arc.fromSexpr_only (only_partOf v)) h
example := comes_sample (C41_Arc sampleArc sampleArc_wf 0 false) C63_Arc
theorem C63_Circle (v : Val) (o : Circle) (h : Circle.fromSexpr v = .ok o) : ComesFrom (texts v) (texts o) :=
  comes_of (Circle.fromSexpr_only (only_partOf v)) h
example := comes_sample (C41_Circle sampleCircle sampleCircle_wf 0 false) C63_Circle
theorem C63_NetclassFlag (v : Val) (o : NetclassFlag) (h : NetclassFlag.fromSexpr v = .ok o) : ComesFrom (texts v) (texts o) :=
  comes_of (NetclassFlag.fromSexpr_only (only_partOf v)) h
example := comes_sample (C41_NetclassFlag sampleNetclassFlag sampleNetclassFlag_wf 0 false) C63_NetclassFlag
theorem C63_Schematic (v : Val) (o : Schematic) (h : Schematic.fromSexpr v = .ok o) : ComesFrom (texts v) (texts o) :=
  comes_of (Schematic.fromSexpr_only (only_partOf v)) h
example := comes_sample (C17_Schematic sampleSchematic sampleSchematic_wf 0 false) C63_Schematic
theorem C63_GrText (v : Val) (o : GrText) (h : GrText.fromSexpr v = .ok o) : ComesFrom (texts v) (texts o) :=
  comes_of (GrText.fromSexpr_only (only_partOf v)) h
example := comes_sample (C41_GrText sampleGrText sampleGrText_wf 0 false) C63_GrText
theorem C63_GrTextBox (v : Val) (o : GrTextBox) (h : GrTextBox.fromSexpr v = .ok o) : ComesFrom (texts v) (texts o) :=
  comes_of (GrTextBox.fromSexpr_only (only_partOf v)) h
example := comes_sample (C41_GrTextBox sampleGrTextBox sampleGrTextBox_wf 0 false) C63_GrTextBox
theorem C63_GrLine (v : Val) (o : GrLine) (h : GrLine.fromSexpr v = .ok o) : ComesFrom (texts v) (texts o) :=
  comes_of (GrLine.fromSexpr_only (only_partOf v)) h
example := comes_sample (C41_GrLine sampleGrLine sampleGrLine_wf 0 false) C63_GrLine
theorem C63_GrRect (v : Val) (o : GrRect) (h : GrRect.fromSexpr v = .ok o) : ComesFrom (texts v) (texts o) :=
  comes_of (GrRect.fromSexpr_only (only_partOf v)) h
example := comes_sample (C41_GrRect sampleGrRect sampleGrRect_wf 0 false) C63_GrRect
theorem C63_GrCircle (v : Val) (o : GrCircle) (h : GrCircle.fromSexpr v = .ok o) : ComesFrom (texts v) (texts o) :=
  comes_of (GrCircle.fromSexpr_only (only_partOf v)) h
example := comes_sample (C41_GrCircle sampleGrCircle sampleGrCircle_wf 0 false) C63_GrCircle
theorem C63_GrArc (v : Val) (o : GrArc) (h : GrArc.fromSexpr v = .ok o) : ComesFrom (texts v) (texts o) :=
  comes_of (GrArc.fromSexpr_only (only_partOf v)) h
example := comes_sample (C41_GrArc sampleGrArc sampleGrArc_wf 0 false) C63_GrArc
theorem C63_GrPoly (v : Val) (o : GrPoly) (h : GrPoly.fromSexpr v = .ok o) : ComesFrom (texts v) (texts o) :=
  comes_of (GrPoly.fromSexpr_only (only_partOf v)) h
example := comes_sample (C41_GrPoly sampleGrPoly sampleGrPoly_wf 0 false false) C63_GrPoly
theorem C63_GrCurve (v : Val) (o : GrCurve) (h : GrCurve.fromSexpr v = .ok o) : ComesFrom (texts v) (texts o) :=
  comes_of (GrCurve.fromSexpr_only (only_partOf v)) h
example := comes_sample (C41_GrCurve sampleGrCurve sampleGrCurve_wf 0 false) C63_GrCurve
theorem C63_FpText (v : Val) (o : FpText) (h : FpText.fromSexpr v = .ok o) : ComesFrom (texts v) (texts o) :=
  comes_of (FpText.fromSexpr_only (only_partOf v)) h
example := comes_sample (C41_FpText sampleFpText sampleFpText_wf 0 false) C63_FpText
theorem C63_FpLine (v : Val) (o : FpLine) (h : FpLine.fromSexpr v = .ok o) : ComesFrom (texts v) (texts o) :=
  comes_of (FpLine.fromSexpr_only (only_partOf v)) h
example := comes_sample (C41_FpLine sampleFpLine sampleFpLine_wf 0 false) C63_FpLine
theorem C63_FpRect (v : Val) (o : FpRect) (h : FpRect.fromSexpr v = .ok o) : ComesFrom (texts v) (texts o) :=
  comes_of (FpRect.fromSexpr_only (only_partOf v)) h
example := comes_sample (C41_FpRect sampleFpRect sampleFpRect_wf 0 false) C63_FpRect
theorem C63_FpTextBox (v : Val) (o : FpTextBox) (h : FpTextBox.fromSexpr v = .ok o) : ComesFrom (texts v) (texts o) :=
  comes_of (FpTextBox.fromSexpr_only (only_partOf v)) h
example := comes_sample (C41_FpTextBox sampleFpTextBox sampleFpTextBox_wf 0 false) C63_FpTextBox
theorem C63_FpCircle (v : Val) (o : FpCircle) (h : FpCircle.fromSexpr v = .ok o) : ComesFrom (texts v) (texts o) :=
  comes_of (FpCircle.fromSexpr_only (only_partOf v)) h
example := comes_sample (C41_FpCircle sampleFpCircle sampleFpCircle_wf 0 false) C63_FpCircle
theorem C63_FpArc (v : Val) (o : FpArc) (h : FpArc.fromSexpr v = .ok o) : ComesFrom (texts v) (texts o) :=
  comes_of (FpArc.fromSexpr_only (only_partOf v)) h
example := comes_sample (C41_FpArc sampleFpArc sampleFpArc_wf 0 false) C63_FpArc
theorem C63_FpPoly (v : Val) (o : FpPoly) (h : FpPoly.fromSexpr v = .ok o) : ComesFrom (texts v) (texts o) :=
  comes_of (FpPoly.fromSexpr_only (only_partOf v)) h
example := comes_sample (C41_FpPoly sampleFpPoly sampleFpPoly_wf 0 false) C63_FpPoly
theorem C63_FpCurve (v : Val) (o : FpCurve) (h : FpCurve.fromSexpr v = .ok o) : ComesFrom (texts v) (texts o) :=
  comes_of (FpCurve.fromSexpr_only (only_partOf v)) h
example := comes_sample (C41_FpCurve sampleFpCurve sampleFpCurve_wf 0 false) C63_FpCurve
theorem C63_KeepoutSettings (v : Val) (o : KeepoutSettings) (h : KeepoutSettings.fromSexpr v = .ok o) : ComesFrom (texts v) (texts o) :=
  comes_of (KeepoutSettings.fromSexpr_only (only_partOf v)) h
example := comes_sample (C41_KeepoutSettings sampleKeepoutSettings sampleKeepoutSettings_wf 0 false) C63_KeepoutSettings
theorem C63_FillSettings (v : Val) (o : FillSettings) (h : FillSettings.fromSexpr v = .ok o) : ComesFrom (texts v) (texts o) :=
  comes_of (FillSettings.fromSexpr_only (only_partOf v)) h
example := comes_sample (C41_FillSettings sampleFillSettings sampleFillSettings_wf 0 false) C63_FillSettings
theorem C63_ZonePolygon (v : Val) (o : ZonePolygon) (h : ZonePolygon.fromSexpr v = .ok o) : ComesFrom (texts v) (texts o) :=
  comes_of (ZonePolygon.fromSexpr_only (only_partOf v)) h
example := comes_sample (C41_ZonePolygon sampleZonePolygon sampleZonePolygon_wf 0 false) C63_ZonePolygon
theorem C63_FilledPolygon (v : Val) (o : FilledPolygon) (h : FilledPolygon.fromSexpr v = .ok o) : ComesFrom (texts v) (texts o) :=
  comes_of (FilledPolygon.fromSexpr_only (only_partOf v)) h
example := comes_sample (C41_FilledPolygon sampleFilledPolygon sampleFilledPolygon_wf 0 false) C63_FilledPolygon
theorem C63_FillSegments (v : Val) (o : FillSegments) (h : FillSegments.fromSexpr v = .ok o) : ComesFrom (texts v) (texts o) :=
  comes_of (FillSegments.fromSexpr_only (only_partOf v)) h
example := comes_sample (C41_FillSegments sampleFillSegments sampleFillSegments_wf 0 false) C63_FillSegments
theorem C63_Zone (v : Val) (o : Zone) (h : Zone.fromSexpr v = .ok o) : ComesFrom (texts v) (texts o) :=
  comes_of (Zone.fromSexpr_only (only_partOf v)) h
example := comes_sample (C41_Zone sampleZone sampleZone_wf 0 false) C63_Zone
theorem C63_Attributes (v : Val) (o : Attributes) (h : Attributes.fromSexpr v = .ok o) : ComesFrom (texts v) (texts o) :=
  comes_of (Attributes.fromSexpr_only (only_partOf v)) h
example := comes_sample (C41_Attributes sampleAttributes sampleAttributes_wf rfl 0 false) C63_Attributes
theorem C63_Model (v : Val) (o : Model) (h : Model.fromSexpr v = .ok o) : ComesFrom (texts v) (texts o) :=
  comes_of (Model.fromSexpr_only (only_partOf v)) h
example := comes_sample (C41_Model sampleModel sampleModel_wf 0 false) C63_Model
theorem C63_DrillDefinition (v : Val) (o : DrillDefinition) (h : DrillDefinition.fromSexpr v = .ok o) : ComesFrom (texts v) (texts o) :=
  comes_of (DrillDefinition.fromSexpr_only (only_partOf v)) h
example := comes_sample (C41_DrillDefinition sampleDrillDefinition sampleDrillDefinition_wf 0 false) C63_DrillDefinition
theorem C63_PadOptions (v : Val) (o : PadOptions) (h : PadOptions.fromSexpr v = .ok o) : ComesFrom (texts v) (texts o) :=
  comes_of (PadOptions.fromSexpr_only (only_partOf v)) h
example := comes_sample (C41_PadOptions samplePadOptions samplePadOptions_wf 0 false) C63_PadOptions
theorem C63_Pad (v : Val) (o : Pad) (h : Pad.fromSexpr v = .ok o) : ComesFrom (texts v) (texts o) :=
  comes_of (Pad.fromSexpr_only (only_partOf v)) h
example := comes_sample (C41_Pad samplePad samplePad_wf 0 false) C63_Pad
theorem C63_GeneralSettings (v : Val) (o : GeneralSettings) (h : GeneralSettings.fromSexpr v = .ok o) : ComesFrom (texts v) (texts o) :=
  comes_of (GeneralSettings.fromSexpr_only (only_partOf v)) h
example := comes_sample (C41_GeneralSettings sampleGeneralSettings sampleGeneralSettings_wf 0 false) C63_GeneralSettings
theorem C63_LayerToken (v : Val) (o : LayerToken) (h : LayerToken.fromSexpr v = .ok o) : ComesFrom (texts v) (texts o) :=
  comes_of (LayerToken.fromSexpr_only (only_partOf v)) h
example := comes_sample (C41_LayerToken sampleLayerToken sampleLayerToken_wf 0 false) C63_LayerToken
theorem C63_StackupLayer (v : Val) (o : StackupLayer) (h : StackupLayer.fromSexpr v = .ok o) : ComesFrom (texts v) (texts o) :=
  comes_of (StackupLayer.fromSexpr_only (only_partOf v)) h
example := comes_sample (C41_StackupLayer sampleStackupLayer sampleStackupLayer_wf 0 false) C63_StackupLayer
theorem C63_Stackup (v : Val) (o : Stackup) (h : Stackup.fromSexpr v = .ok o) : ComesFrom (texts v) (texts o) :=
  comes_of (Stackup.fromSexpr_only (only_partOf v)) h
example := comes_sample (C41_Stackup sampleStackup sampleStackup_wf 0 false) C63_Stackup
theorem C63_PlotSettings (v : Val) (o : PlotSettings) (h : PlotSettings.fromSexpr v = .ok o) : ComesFrom (texts v) (texts o) :=
  comes_of (PlotSettings.fromSexpr_only (only_partOf v)) h
example := C63_PlotSettings (.list [.str k!"pcbplotparams", .list [.str k!"outputdirectory", .str k!"x"]]) _ rfl
theorem C63_SetupData (v : Val) (o : SetupData) (h : SetupData.fromSexpr v = .ok o) : ComesFrom (texts v) (texts o) :=
  comes_of (SetupData.fromSexpr_only (only_partOf v)) h
example := comes_sample (C41_SetupData sampleSetupData sampleSetupData_wf 0 false) C63_SetupData
theorem C63_Segment (v : Val) (o : Segment) (h : Segment.fromSexpr v = .ok o) : ComesFrom (texts v) (texts o) :=
  comes_of (Segment.fromSexpr_only (only_partOf v)) h
example := comes_sample (C41_Segment sampleSegment sampleSegment_wf 0 false) C63_Segment
theorem C63_Via (v : Val) (o : Via) (h : Via.fromSexpr v = .ok o) : ComesFrom (texts v) (texts o) :=
  comes_of (Via.fromSexpr_only (only_partOf v)) h
example := comes_sample (C41_Via sampleVia sampleVia_wf 0 false) C63_Via
theorem C63_TraceArc (v : Val) (o : TraceArc) (h : TraceArc.fromSexpr v = .ok o) : ComesFrom (texts v) (texts o) :=
  comes_of (TraceArc.fromSexpr_only (only_partOf v)) h
example := comes_sample (C41_TraceArc sampleTraceArc sampleTraceArc_wf 0 false) C63_TraceArc
theorem C63_Target (v : Val) (o : Target) (h : Target.fromSexpr v = .ok o) : ComesFrom (texts v) (texts o) :=
  comes_of (Target.fromSexpr_only (only_partOf v)) h
example := comes_sample (C41_Target sampleTarget sampleTarget_wf 0 false) C63_Target
theorem C63_DimensionFormat (v : Val) (o : DimensionFormat) (h : DimensionFormat.fromSexpr v = .ok o) : ComesFrom (texts v) (texts o) :=
  comes_of (DimensionFormat.fromSexpr_only (only_partOf v)) h
example := comes_sample (C41_DimensionFormat sampleDimensionFormat sampleDimensionFormat_wf 0 false) C63_DimensionFormat
theorem C63_DimensionStyle (v : Val) (o : DimensionStyle) (h : DimensionStyle.fromSexpr v = .ok o) : ComesFrom (texts v) (texts o) :=
  comes_of (DimensionStyle.fromSexpr_only (only_partOf v)) h
example := comes_sample (C41_DimensionStyle sampleDimensionStyle sampleDimensionStyle_wf 0 false) C63_DimensionStyle
theorem C63_Dimension (v : Val) (o : Dimension) (h : Dimension.fromSexpr v = .ok o) : ComesFrom (texts v) (texts o) :=
  comes_of (Dimension.fromSexpr_only (only_partOf v)) h
example := comes_sample (C41_Dimension sampleDimension sampleDimension_wf 0 false) C63_Dimension
theorem C63_WksShape (head : Str) (v : Val) (o : WksShape) (h : WksShape.fromSexpr head v = .ok o) : ComesFrom (texts v) (texts o) :=
  comes_of (WksShape.fromSexpr_only (only_partOf v)) h
example := comes_sample (C15_Line sampleWksShape sampleWksShape_wf 0 false) (C63_WksShape k!"line")
theorem C63_Symbol (v : Val) (o : Symbol) (h : Symbol.fromSexpr v = .ok o) : ComesFrom (texts v) (texts o) :=
  comes_of (Symbol.fromSexpr_only (only_partOf v)) h
example := C63_Symbol (.list [.str k!"symbol", .str k!"Device:R", .list [.str k!"symbol", .str k!"R_1_2"]]) _ rfl
/-- Footprints, if their names are not lists; the edit time may come from the clock. -/
theorem C63_Footprint (tedit v : Val) (hn : NameIsAtom v) (o : Footprint) (h : Footprint.fromSexpr tedit v = .ok o) :
    ComesFrom (texts v ++ texts tedit) (texts o) :=
  Footprint.fromSexpr_only (R := PartOf (texts v ++ texts tedit)) (fun s hs => .inr ⟨s, List.mem_append_right _ hs, List.infix_refl _⟩)
    (fun s hs => ⟨s, List.mem_append_left _ hs, List.infix_refl _⟩) (idOk_of hn) o h
example := C63_Footprint (.str k!"0") (.list [.str k!"footprint", .str k!"a:b", .list [.str k!"descr", .str k!"x"]]) (fun _ _ _ h => nomatch h) _ rfl
/-- Boards, if the names of the footprints are not lists. -/
theorem C63_Board (tedit : Val) (items : List Val) (hn : ∀ v ∈ items, NameIsAtom v) (o : Board)
    (h : Board.fromSexpr tedit (.list items) = .ok o) : ComesFrom (texts (Val.list items) ++ texts tedit) (texts o) :=
  Board.fromSexpr_only (R := PartOf (texts (Val.list items) ++ texts tedit))
    (fun s hs => .inr ⟨s, List.mem_append_right _ hs, List.infix_refl _⟩)
    (fun s hs => ⟨s, List.mem_append_left _ hs, List.infix_refl _⟩) (fun l e v hv => by cases e; exact idOk_of (hn v hv)) o h

set_option maxRecDepth 100000 in
example := C63_Board (.str k!"0") [.str k!"kicad_pcb", .list [.str k!"footprint", .str k!"a:b"], .list [.str k!"generator", .str k!"x"]]
  (by
    intro v hv
    simp only [List.mem_cons, List.not_mem_nil, or_false] at hv
    rcases hv with rfl | rfl | rfl
    · exact fun _ _ _ h => nomatch h
    · exact fun _ _ _ h => nomatch h
    · exact fun _ _ _ h => nomatch h) _ rfl

/-! ## `from_file`: strings of the object stand in the text of the file -/

theorem C63_file_LibTable (env : Env) (p : Path) (enc : Option Codec) (fs : FS) (o : LibTable) (h : (LibTable.fromFile env p enc fs).1 = .ok o) :
    ∃ text, Contains env fs p enc text ∧ ReadFrom text (texts o) := by
  obtain ⟨text, hc, hr⟩ := (C58_LibTable.success ..).1 h
  obtain ⟨o', ho', rfl⟩ := map_ok_split hr
  exact ⟨text, hc, read_of (o := o') (fun v hv => LibTable.fromSexpr_only hv) ho'⟩

theorem C63_file_WorkSheet (env : Env) (p : Path) (enc : Option Codec) (fs : FS) (o : WorkSheet) (h : (WorkSheet.fromFile env p enc fs).1 = .ok o) :
    ∃ text, Contains env fs p enc text ∧ ReadFrom text (texts o) := by
  obtain ⟨text, hc, hr⟩ := (C58_WorkSheet.success ..).1 h
  obtain ⟨o', ho', rfl⟩ := map_ok_split hr
  exact ⟨text, hc, read_of (o := o') (fun v hv => WorkSheet.fromSexpr_only hv) ho'⟩

theorem C63_file_SymbolLib (env : Env) (p : Path) (enc : Option Codec) (fs : FS) (o : SymbolLib) (h : (SymbolLib.fromFile env p enc fs).1 = .ok o) :
    ∃ text, Contains env fs p enc text ∧ ReadFrom text (texts o) := by
  obtain ⟨text, hc, hr⟩ := (C58_SymbolLib.success ..).1 h
  obtain ⟨o', ho', rfl⟩ := map_ok_split hr
  exact ⟨text, hc, read_of (o := o') (fun v hv => SymbolLib.fromSexpr_only hv) ho'⟩

theorem C63_file_Schematic (env : Env) (p : Path) (enc : Option Codec) (fs : FS) (o : Schematic) (h : (Schematic.fromFile env p enc fs).1 = .ok o) :
    ∃ text, Contains env fs p enc text ∧ ReadFrom text (texts o) := by
  obtain ⟨text, hc, hr⟩ := (C58_Schematic.success ..).1 h
  obtain ⟨o', ho', rfl⟩ := map_ok_split hr
  exact ⟨text, hc, read_of (o := o') (fun v hv => Schematic.fromSexpr_only hv) ho'⟩

/-- The file holds the rules without brackets around them; these are added before reading. -/
theorem C63_file_DesignRules (env : Env) (p : Path) (enc : Option Codec) (fs : FS) (o : DesignRules)
    (h : (DesignRules.fromFile env p enc fs).1 = .ok o) :
    ∃ text, Contains env fs p enc text ∧ ReadFrom ('(' :: (text ++ [')'])) (texts o) := by
  obtain ⟨text, hc, hr⟩ := (C58_DesignRules.success ..).1 h
  obtain ⟨o', ho', rfl⟩ := map_ok_split hr
  exact ⟨text, hc, read_of (o := o') (fun v hv => DesignRules.fromSexpr_only hv) ho'⟩

/-- If the name is not a list. -/
theorem C63_file_Footprint (env : Env) (tedit : Val) (p : Path) (enc : Option Codec) (fs : FS) (o : Footprint)
    (h : (Footprint.fromFile env tedit p enc fs).1 = .ok o) :
    ∃ text, Contains env fs p enc text ∧ ∃ v, parseSexp text = .ok v ∧ (NameIsAtom v → ReadFromAt tedit text (texts o)) := by
  obtain ⟨text, hc, hr⟩ := ((C58_Footprint tedit).success ..).1 h
  obtain ⟨v, hv, ho⟩ := bind_ok_split hr
  exact ⟨text, hc, v, hv, fun hn => Footprint.fromSexpr_only (R := StandsInAt tedit text) (only_tedit _ _)
    ((parse_stands hv).imp fun _ => .inl) (idOk_of hn) o ho⟩

/-- If the names of the footprints are not lists. -/
theorem C63_file_Board (env : Env) (tedit : Val) (p : Path) (enc : Option Codec) (fs : FS) (o : Board)
    (h : (Board.fromFile env tedit p enc fs).1 = .ok o) :
    ∃ text, Contains env fs p enc text ∧ ∃ items, parseSexp text = .ok (.list items) ∧
      ((∀ v ∈ items, NameIsAtom v) → ReadFromAt tedit text (texts o)) := by
  obtain ⟨text, hc, hr⟩ := ((C58_Board tedit).success ..).1 h
  obtain ⟨o', ho', rfl⟩ := map_ok_split hr
  obtain ⟨v, hv, ho⟩ := bind_ok_split ho'
  obtain ⟨items, rfl⟩ : ∃ items, v = .list items := by
    cases v with
    | list l => exact ⟨l, rfl⟩
    | _ => exact nomatch ho
  exact ⟨text, hc, items, hv, fun hn => Board.fromSexpr_only (R := StandsInAt tedit text) (only_tedit _ _)
    ((parse_stands hv).imp fun _ => .inl) (fun l e v hv => by cases e; exact idOk_of (hn v hv)) o' ho⟩

/-- `(footprint (a:b))`: the names are parts of what Python prints for the list, the first one begins with a bracket and an apostrophe. -/
theorem C63_Footprint_list_name (tedit : Val) : ∃ o, Footprint.fromSexpr tedit (.list [.str k!"footprint", .list [.str k!"a:b"]]) = .ok o ∧
    o.libraryNickname = some (.str k!"['a") ∧ o.entryName = some (.str k!"b']") := ⟨_, rfl, rfl, rfl⟩

/-! ## Examples -/

/-- A file that loads. -/
example (env : Env) : ∃ o, (LibTable.fromFile env k!"a" (some .latin1)
    (FS.one (k!"(sym_lib_table\r\n(lib (name \"x\")))".map fun c => UInt8.ofNat c.toNat) true)).1 = .ok o :=
  ⟨_, (C58_LibTable.success ..).mpr ⟨k!"(sym_lib_table\n(lib (name \"x\")))", ⟨_, k!"(sym_lib_table\r\n(lib (name \"x\")))", rfl, rfl,
    (by show Codec.latin1.decode _ = _; decide +kernel), textMode_universal _⟩, rfl⟩⟩

/-- A symbol library whose symbol has a name with a nickname and a unit: the parts of the names stand in the text, the version is a
default. -/
example : ∃ o, (parseSexp k!"(kicad_symbol_lib (symbol \"Device:R\" (symbol \"R_1_2\")))" >>= SymbolLib.fromSexpr) = .ok o ∧
    texts o = [k!"20211014", k!"Device", k!"R", k!"R"] := ⟨_, rfl, by decide +kernel⟩
/-- Backslashes before quotation marks are dropped. -/
example : (parseSexp k!"(net 1 \"a\\\"b\")" >>= Net.fromSexpr) = .ok { number := .int 1, name := .str k!"a\"b" } := by rfl
example : StandsIn k!"(net 1 \"a\\\"b\")" k!"a\"b" := ⟨k!"a\\\"b", ⟨k!"(net 1 \"", k!"\")", rfl⟩, .keep (.drop (.keep .nil))⟩
example : ¬ StandsIn k!"(net 1 \"ab\")" k!"xy" := fun ⟨_, hw, hd⟩ => by
  cases hd with
  | keep hd => exact absurd (hw.subset (List.mem_cons_self ..)) (by decide)
example : NameIsAtom (.list [.str k!"footprint", .str k!"a"]) := fun _ _ _ h => nomatch h

end Kiutils
