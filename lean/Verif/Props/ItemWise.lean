import Verif.Tracks.Common
import Verif.Tracks.Libraries
import Verif.Tracks.Dru
import Verif.Tracks.Wks
import Verif.Tracks.SyItems
import Verif.Tracks.Symbol
import Verif.Tracks.SymbolUnits
import Verif.Tracks.SchItems
import Verif.Tracks.Schematic
import Verif.Tracks.GrItems
import Verif.Tracks.FpItems
import Verif.Tracks.Zones
import Verif.Tracks.Footprint
import Verif.Tracks.BrdItems
import Verif.Tracks.Dimensions
import Verif.Tracks.Board
/-!
# A list is accepted exactly if each of its items is (C59)

The theorems without suffix say, for every class, that `from_sexpr` accepts a list of children if and only if it accepts the list
with each child alone: one bad child is never overlooked, whatever stands around it, and children that are acceptable alone are
acceptable together. The theorems with the name of a nested class say which children are acceptable alone: those that the nested
class accepts.
-/
namespace Kiutils

/-- `load` accepts a list of children exactly if it accepts every child alone (and no children at all). -/
def ItemWise {α : Type} (load : List Val → PyM α) : Prop :=
  ∀ xs, (∃ o, load xs = .ok o) ↔ (∃ o, load [] = .ok o) ∧ ∀ x ∈ xs, ∃ o, load [x] = .ok o

/-- `load` accepts the child `x` alone exactly if `sub` accepts it. -/
def Nested {α β : Type} (load : List Val → PyM α) (key : Str) (sub : Val → PyM β) : Prop :=
  (∃ o, load [] = .ok o) → ∀ r, (∃ o, load [.list (.str key :: r)] = .ok o) ↔ ∃ o, sub (.list (.str key :: r)) = .ok o

/-- `load` accepts the child `x` alone exactly if `sub` accepts all its elements. -/
def NestedAll {α β : Type} (load : List Val → PyM α) (key : Str) (sub : Val → PyM β) : Prop :=
  (∃ o, load [] = .ok o) → ∀ r, (∃ o, load [.list (.str key :: r)] = .ok o) ↔ ∀ x ∈ r, ∃ o, sub x = .ok o

theorem forM_iff {σ : Type} {step : σ → Val → PyM σ} (hi : ∀ o o' x, Same (step o x) (step o' x)) (s : σ) (l : List Val) :
    (∃ o, forM step s l = .ok o) ↔ ∀ x ∈ l, ∃ o, step s x = .ok o := by
  induction l generalizing s with
  | nil => exact ⟨fun _ x hx => absurd hx List.not_mem_nil, fun _ => ⟨s, rfl⟩⟩
  | cons v l ih =>
    simp only [forM]
    constructor
    · intro ⟨o, h⟩
      cases hv : step s v with
      | error e => rw [hv] at h; exact nomatch h
      | ok s1 =>
        rw [hv] at h
        intro x hx
        rcases List.mem_cons.mp hx with rfl | hx
        · exact ⟨s1, hv⟩
        · exact hi s1 s x ((ih s1).mp ⟨o, h⟩ x hx)
    · intro h
      obtain ⟨s1, hv⟩ := h v List.mem_cons_self
      rw [hv]
      exact (ih s1).mpr fun x hx => hi s s1 x (h x (List.mem_cons_of_mem _ hx))

theorem itemWise_of {σ : Type} {step : σ → Val → PyM σ} {load : List Val → PyM σ} {s : σ} (pre : List Val)
    (hl : ∀ xs, load xs = forM step s (pre ++ xs)) (hi : ∀ o o' x, Same (step o x) (step o' x)) : ItemWise load := by
  intro xs
  simp only [hl, forM_iff hi, List.append_nil, List.mem_append]
  constructor
  · intro h
    exact ⟨fun x hx => h x (.inl hx), fun x hx y hy => h y (hy.imp_right fun hy => by rw [List.mem_singleton.mp hy]; exact hx)⟩
  · intro ⟨h0, h⟩ x hx
    rcases hx with hx | hx
    · exact h0 x hx
    · exact h x hx x (.inr List.mem_cons_self)

theorem nested_of {σ β : Type} {step : σ → Val → PyM σ} {load : List Val → PyM σ} {s : σ} (pre : List Val)
    (hl : ∀ xs, load xs = forM step s (pre ++ xs)) (hi : ∀ o o' x, Same (step o x) (step o' x)) {key : Str} {sub : Val → PyM β}
    (f : β → σ) (hs : ∀ r, step s (.list (.str key :: r)) = (sub (.list (.str key :: r)) >>= fun b => .ok (f b))) : Nested load key sub := by
  intro h0 r
  simp only [hl, forM_iff hi, List.append_nil, List.mem_append] at h0 ⊢
  constructor
  · intro h
    obtain ⟨o, h⟩ := h _ (.inr List.mem_cons_self)
    rw [hs] at h
    cases hb : sub (.list (.str key :: r)) with
    | error e => rw [hb] at h; exact nomatch h
    | ok b => exact ⟨b, rfl⟩
  · intro ⟨b, hb⟩ x hx
    rcases hx with hx | hx
    · exact h0 x hx
    · rw [List.mem_singleton.mp hx, hs, hb]
      exact ⟨_, rfl⟩

theorem mapM'_iff {β : Type} (sub : Val → PyM β) (r : List Val) : (∃ l, mapM' sub r = .ok l) ↔ ∀ x ∈ r, ∃ o, sub x = .ok o := by
  induction r with
  | nil => exact ⟨fun _ x hx => absurd hx List.not_mem_nil, fun _ => ⟨[], rfl⟩⟩
  | cons v r ih =>
    simp only [mapM']
    constructor
    · intro ⟨l, h⟩
      cases hv : sub v with
      | error e => rw [hv] at h; exact nomatch h
      | ok b =>
        rw [hv] at h
        change (mapM' sub r >>= fun ys => Except.ok (b :: ys)) = .ok l at h
        cases hr : mapM' sub r with
        | error e => rw [hr] at h; exact nomatch h
        | ok bs =>
          intro x hx
          rcases List.mem_cons.mp hx with rfl | hx
          · exact ⟨b, hv⟩
          · exact ih.mp ⟨bs, hr⟩ x hx
    · intro h
      obtain ⟨b, hv⟩ := h v List.mem_cons_self
      obtain ⟨bs, hr⟩ := ih.mpr fun x hx => h x (List.mem_cons_of_mem _ hx)
      rw [hv, hr]
      exact ⟨_, rfl⟩

/-- `exp[1:]` of a list -/
def Val.tail : Val → List Val
  | .list l => l.tail
  | _ => []

theorem nestedAll_of {σ β : Type} {step : σ → Val → PyM σ} {load : List Val → PyM σ} {s : σ} (pre : List Val)
    (hl : ∀ xs, load xs = forM step s (pre ++ xs)) (hi : ∀ o o' x, Same (step o x) (step o' x)) {key : Str} {sub : Val → PyM β}
    (f : List β → σ) (hs : ∀ r, step s (.list (.str key :: r)) = (mapM' sub r >>= fun b => .ok (f b))) : NestedAll load key sub := by
  intro h0 r
  rw [nested_of pre hl hi (sub := fun v => mapM' sub v.tail) f hs h0 r]
  exact mapM'_iff sub r

theorem C59_Stroke (a : Val) : ItemWise (fun xs => Stroke.fromSexpr (.list (.str k!"stroke" :: a :: xs))) :=
  itemWise_of [.str k!"stroke", a] (Stroke.loopEq a) Stroke.indep
theorem C59_Stroke_color (a : Val) : Nested (fun xs => Stroke.fromSexpr (.list (.str k!"stroke" :: a :: xs))) k!"color" ColorRGBA.fromSexpr :=
  nested_of [.str k!"stroke", a] (Stroke.loopEq a) Stroke.indep (fun sub => let o : Stroke := {}; { o with color := some sub }) fun _ => rfl
example := C59_Stroke_color (.str k!"x") ⟨_, rfl⟩ [.int 1]

theorem C59_Font : ItemWise (fun xs => Font.fromSexpr (.list (.str k!"font" :: xs))) :=
  itemWise_of [.str k!"font"] (Font.loopEq) Font.indep
theorem C59_Font_color : Nested (fun xs => Font.fromSexpr (.list (.str k!"font" :: xs))) k!"color" ColorRGBA.fromSexpr :=
  nested_of [.str k!"font"] (Font.loopEq) Font.indep (fun sub => let o : Font := {}; { o with color := some sub }) fun _ => rfl
example := C59_Font_color ⟨_, rfl⟩ [.int 1]

theorem C59_Justify : ItemWise (fun xs => Justify.fromSexpr (.list (.str k!"justify" :: xs))) :=
  itemWise_of [.str k!"justify"] (Justify.loopEq) Justify.indep

theorem C59_Effects : ItemWise (fun xs => Effects.fromSexpr (.list (.str k!"effects" :: xs))) :=
  itemWise_of [.str k!"effects"] (Effects.loopEq) Effects.indep
theorem C59_Effects_font : Nested (fun xs => Effects.fromSexpr (.list (.str k!"effects" :: xs))) k!"font" Font.fromSexpr :=
  nested_of [.str k!"effects"] (Effects.loopEq) Effects.indep (fun sub => let o : Effects := {}; { o with font := sub }) fun _ => rfl
example := C59_Effects_font ⟨_, rfl⟩ [.int 1]
theorem C59_Effects_justify : Nested (fun xs => Effects.fromSexpr (.list (.str k!"effects" :: xs))) k!"justify" Justify.fromSexpr :=
  nested_of [.str k!"effects"] (Effects.loopEq) Effects.indep (fun sub => let o : Effects := {}; { o with justify := sub }) fun _ => rfl
example := C59_Effects_justify ⟨_, rfl⟩ [.int 1]

theorem C59_Group (name : Val) : ItemWise (fun xs => Group.fromSexpr (.list (.str k!"group" :: name :: xs))) :=
  itemWise_of [.str k!"group", name] (Group.loopEq name) Group.indep

theorem C59_PageSettings {size : Val} (ha : size.is k!"User" = false) : ItemWise (fun xs => PageSettings.fromSexpr (.list (.str k!"paper" :: size :: xs))) :=
  itemWise_of [.str k!"paper", size] (PageSettings.loopEq ha) PageSettings.indep
example := C59_PageSettings (size := .str k!"A4") rfl

theorem C59_TitleBlock : ItemWise (fun xs => TitleBlock.fromSexpr (.list (.str k!"title_block" :: xs))) :=
  itemWise_of [.str k!"title_block"] (TitleBlock.loopEq) TitleBlock.indep

theorem C59_Property (key value : Val) : ItemWise (fun xs => Property.fromSexpr (.list (.str k!"property" :: key :: value :: xs))) :=
  itemWise_of [] (Property.loopEq key value) Property.indep
theorem C59_Property_at (key value : Val) : Nested (fun xs => Property.fromSexpr (.list (.str k!"property" :: key :: value :: xs))) k!"at" Position.fromSexpr :=
  nested_of [] (Property.loopEq key value) Property.indep (fun sub => let o : Property := { key := key, value := value }; { o with position := sub }) fun _ => rfl
example := C59_Property_at (.str k!"x") (.str k!"x") ⟨_, rfl⟩ [.int 1]
theorem C59_Property_effects (key value : Val) : Nested (fun xs => Property.fromSexpr (.list (.str k!"property" :: key :: value :: xs))) k!"effects" Effects.fromSexpr :=
  nested_of [] (Property.loopEq key value) Property.indep (fun sub => let o : Property := { key := key, value := value }; { o with effects := some sub }) fun _ => rfl
example := C59_Property_effects (.str k!"x") (.str k!"x") ⟨_, rfl⟩ [.int 1]

theorem C59_RenderCachePolygon : ItemWise (fun xs => RenderCachePolygon.fromSexpr (.list (.str k!"polygon" :: xs))) :=
  itemWise_of [.str k!"polygon"] (RenderCachePolygon.loopEq) RenderCachePolygon.indep
theorem C59_RenderCachePolygon_pts : NestedAll (fun xs => RenderCachePolygon.fromSexpr (.list (.str k!"polygon" :: xs))) k!"pts" Position.fromSexpr :=
  nestedAll_of [.str k!"polygon"] (RenderCachePolygon.loopEq) RenderCachePolygon.indep (fun sub => let o : RenderCachePolygon := {}; { o with pts := o.pts ++ sub }) fun _ => rfl
example := C59_RenderCachePolygon_pts ⟨_, rfl⟩ [.int 1]

theorem C59_RenderCache (text id : Val) : ItemWise (fun xs => RenderCache.fromSexpr (.list (.str k!"render_cache" :: text :: id :: xs))) :=
  itemWise_of [.str k!"render_cache", text, id] (RenderCache.loopEq text id) RenderCache.indep
theorem C59_RenderCache_polygon (text id : Val) : Nested (fun xs => RenderCache.fromSexpr (.list (.str k!"render_cache" :: text :: id :: xs))) k!"polygon" RenderCachePolygon.fromSexpr :=
  nested_of [.str k!"render_cache", text, id] (RenderCache.loopEq text id) RenderCache.indep (fun sub => let o : RenderCache := { text := text, id := id }; { o with polygons := o.polygons ++ [sub] }) fun _ => rfl
example := C59_RenderCache_polygon (.str k!"x") (.str k!"x") ⟨_, rfl⟩ [.int 1]

theorem C59_Fill : ItemWise (fun xs => Fill.fromSexpr (.list (.str k!"fill" :: xs))) :=
  itemWise_of [.str k!"fill"] (Fill.loopEq) Fill.indep
theorem C59_Fill_color : Nested (fun xs => Fill.fromSexpr (.list (.str k!"fill" :: xs))) k!"color" ColorRGBA.fromSexpr :=
  nested_of [.str k!"fill"] (Fill.loopEq) Fill.indep (fun sub => let o : Fill := {}; { o with color := some sub }) fun _ => rfl
example := C59_Fill_color ⟨_, rfl⟩ [.int 1]

theorem C59_Image : ItemWise (fun xs => Image.fromSexpr (.list (.str k!"image" :: xs))) :=
  itemWise_of [.str k!"image"] (Image.loopEq) Image.indep
theorem C59_Image_at : Nested (fun xs => Image.fromSexpr (.list (.str k!"image" :: xs))) k!"at" Position.fromSexpr :=
  nested_of [.str k!"image"] (Image.loopEq) Image.indep (fun sub => let o : Image := {}; { o with position := sub }) fun _ => rfl
example := C59_Image_at ⟨_, rfl⟩ [.int 1]

theorem C59_Library : ItemWise (fun xs => Library.fromSexpr (.list (.str k!"lib" :: xs))) :=
  itemWise_of [.str k!"lib"] (Library.loopEq) Library.indep

theorem C59_LibTable {hd : Str} (hh : hd = k!"fp_lib_table" ∨ hd = k!"sym_lib_table") : ItemWise (fun xs => LibTable.fromSexpr (.list (.str hd :: xs))) :=
  itemWise_of [.str hd] (LibTable.loopEq hh) LibTable.indep
example := C59_LibTable (.inl rfl)
theorem C59_LibTable_lib {hd : Str} (hh : hd = k!"fp_lib_table" ∨ hd = k!"sym_lib_table") : Nested (fun xs => LibTable.fromSexpr (.list (.str hd :: xs))) k!"lib" Library.fromSexpr :=
  nested_of [.str hd] (LibTable.loopEq hh) LibTable.indep (fun sub => let o : LibTable := { type := .str hd }; { o with libs := o.libs ++ [sub] }) fun _ => rfl
example := C59_LibTable_lib (.inl rfl) ⟨_, rfl⟩ [.int 1]

theorem C59_Constraint (type : Val) : ItemWise (fun xs => Constraint.fromSexpr (.list (.str k!"constraint" :: type :: xs))) :=
  itemWise_of [] (Constraint.loopEq type) Constraint.indep

theorem C59_Rule (name : Val) : ItemWise (fun xs => Rule.fromSexpr (.list (.str k!"rule" :: name :: xs))) :=
  itemWise_of [] (Rule.loopEq name) Rule.indep
theorem C59_Rule_constraint (name : Val) : Nested (fun xs => Rule.fromSexpr (.list (.str k!"rule" :: name :: xs))) k!"constraint" Constraint.fromSexpr :=
  nested_of [] (Rule.loopEq name) Rule.indep (fun sub => let o : Rule := { name := name }; { o with constraints := o.constraints ++ [sub] }) fun _ => rfl
example := C59_Rule_constraint (.str k!"x") ⟨_, rfl⟩ [.int 1]

theorem C59_DesignRules (r0 : List Val) : ItemWise (fun xs => DesignRules.fromSexpr (.list (.list (.str k!"version" :: r0) :: xs))) :=
  itemWise_of [.list (.str k!"version" :: r0)] (DesignRules.loopEq r0) DesignRules.indep
theorem C59_DesignRules_rule (r0 : List Val) : Nested (fun xs => DesignRules.fromSexpr (.list (.list (.str k!"version" :: r0) :: xs))) k!"rule" Rule.fromSexpr :=
  nested_of [.list (.str k!"version" :: r0)] (DesignRules.loopEq r0) DesignRules.indep (fun sub => let o : DesignRules := {}; { o with rules := o.rules ++ [sub] }) fun _ => rfl
example := C59_DesignRules_rule [.int 1] ⟨_, rfl⟩ [.int 1]

theorem C59_WksFont : ItemWise (fun xs => WksFont.fromSexpr (.list (.str k!"font" :: xs))) :=
  itemWise_of [.str k!"font"] (WksFont.loopEq) WksFont.indep
theorem C59_WksFont_size : Nested (fun xs => WksFont.fromSexpr (.list (.str k!"font" :: xs))) k!"size" WksFontSize.fromSexpr :=
  nested_of [.str k!"font"] (WksFont.loopEq) WksFont.indep (fun sub => let o : WksFont := {}; { o with size := some sub }) fun _ => rfl
example := C59_WksFont_size ⟨_, rfl⟩ [.int 1]

theorem C59_WksShape (hd : Str) : ItemWise (fun xs => WksShape.fromSexpr hd (.list (.str hd :: xs))) :=
  itemWise_of [] (WksShape.loopEq hd) WksShape.indep
theorem C59_WksShape_start (hd : Str) : Nested (fun xs => WksShape.fromSexpr hd (.list (.str hd :: xs))) k!"start" WksPosition.fromSexpr :=
  nested_of [] (WksShape.loopEq hd) WksShape.indep (fun sub => let o : WksShape := {}; { o with start := sub }) fun _ => rfl
example := C59_WksShape_start k!"line" ⟨_, rfl⟩ [.int 1]

theorem C59_Bitmap : ItemWise (fun xs => Bitmap.fromSexpr (.list (.str k!"bitmap" :: xs))) :=
  itemWise_of [] (Bitmap.loopEq) Bitmap.indep
theorem C59_Bitmap_pos : Nested (fun xs => Bitmap.fromSexpr (.list (.str k!"bitmap" :: xs))) k!"pos" WksPosition.fromSexpr :=
  nested_of [] (Bitmap.loopEq) Bitmap.indep (fun sub => let o : Bitmap := {}; { o with position := sub }) fun _ => rfl
example := C59_Bitmap_pos ⟨_, rfl⟩ [.int 1]

theorem C59_TbText (text : Val) : ItemWise (fun xs => TbText.fromSexpr (.list (.str k!"tbtext" :: text :: xs))) :=
  itemWise_of [] (TbText.loopEq text) TbText.indep
theorem C59_TbText_pos (text : Val) : Nested (fun xs => TbText.fromSexpr (.list (.str k!"tbtext" :: text :: xs))) k!"pos" WksPosition.fromSexpr :=
  nested_of [] (TbText.loopEq text) TbText.indep (fun sub => let o : TbText := { text := text }; { o with position := sub }) fun _ => rfl
example := C59_TbText_pos (.str k!"x") ⟨_, rfl⟩ [.int 1]
theorem C59_TbText_font (text : Val) : Nested (fun xs => TbText.fromSexpr (.list (.str k!"tbtext" :: text :: xs))) k!"font" WksFont.fromSexpr :=
  nested_of [] (TbText.loopEq text) TbText.indep (fun sub => let o : TbText := { text := text }; { o with font := sub }) fun _ => rfl
example := C59_TbText_font (.str k!"x") ⟨_, rfl⟩ [.int 1]
theorem C59_TbText_justify (text : Val) : Nested (fun xs => TbText.fromSexpr (.list (.str k!"tbtext" :: text :: xs))) k!"justify" Justify.fromSexpr :=
  nested_of [] (TbText.loopEq text) TbText.indep (fun sub => let o : TbText := { text := text }; { o with justify := some sub }) fun _ => rfl
example := C59_TbText_justify (.str k!"x") ⟨_, rfl⟩ [.int 1]

theorem C59_Setup : ItemWise (fun xs => Setup.fromSexpr (.list (.str k!"setup" :: xs))) :=
  itemWise_of [] (Setup.loopEq) Setup.indep
theorem C59_Setup_textsize : Nested (fun xs => Setup.fromSexpr (.list (.str k!"setup" :: xs))) k!"textsize" TextSize.fromSexpr :=
  nested_of [] (Setup.loopEq) Setup.indep (fun sub => let o : Setup := {}; { o with textSize := sub }) fun _ => rfl
example := C59_Setup_textsize ⟨_, rfl⟩ [.int 1]

theorem C59_WorkSheet : ItemWise (fun xs => WorkSheet.fromSexpr (.list (.str k!"kicad_wks" :: xs))) :=
  itemWise_of [] (WorkSheet.loopEq) WorkSheet.indep
theorem C59_WorkSheet_setup : Nested (fun xs => WorkSheet.fromSexpr (.list (.str k!"kicad_wks" :: xs))) k!"setup" Setup.fromSexpr :=
  nested_of [] (WorkSheet.loopEq) WorkSheet.indep (fun sub => let o : WorkSheet := {}; { o with setup := sub }) fun _ => rfl
example := C59_WorkSheet_setup ⟨_, rfl⟩ [.int 1]
theorem C59_WorkSheet_tbtext : Nested (fun xs => WorkSheet.fromSexpr (.list (.str k!"kicad_wks" :: xs))) k!"tbtext" TbText.fromSexpr :=
  nested_of [] (WorkSheet.loopEq) WorkSheet.indep (fun sub => let o : WorkSheet := {}; { o with drawingObjects := o.drawingObjects ++ [.tbtext sub] }) fun _ => rfl
example := C59_WorkSheet_tbtext ⟨_, rfl⟩ [.int 1]
theorem C59_WorkSheet_bitmap : Nested (fun xs => WorkSheet.fromSexpr (.list (.str k!"kicad_wks" :: xs))) k!"bitmap" Bitmap.fromSexpr :=
  nested_of [] (WorkSheet.loopEq) WorkSheet.indep (fun sub => let o : WorkSheet := {}; { o with drawingObjects := o.drawingObjects ++ [.bitmap sub] }) fun _ => rfl
example := C59_WorkSheet_bitmap ⟨_, rfl⟩ [.int 1]

theorem C59_SyArc : ItemWise (fun xs => SyArc.fromSexpr (.list (.str k!"arc" :: xs))) :=
  itemWise_of [.str k!"arc"] (SyArc.loopEq) SyArc.indep
theorem C59_SyArc_start : Nested (fun xs => SyArc.fromSexpr (.list (.str k!"arc" :: xs))) k!"start" Position.fromSexpr :=
  nested_of [.str k!"arc"] (SyArc.loopEq) SyArc.indep (fun sub => let o : SyArc := {}; { o with start := sub }) fun _ => rfl
example := C59_SyArc_start ⟨_, rfl⟩ [.int 1]
theorem C59_SyArc_mid : Nested (fun xs => SyArc.fromSexpr (.list (.str k!"arc" :: xs))) k!"mid" Position.fromSexpr :=
  nested_of [.str k!"arc"] (SyArc.loopEq) SyArc.indep (fun sub => let o : SyArc := {}; { o with mid := sub }) fun _ => rfl
example := C59_SyArc_mid ⟨_, rfl⟩ [.int 1]
theorem C59_SyArc_stroke : Nested (fun xs => SyArc.fromSexpr (.list (.str k!"arc" :: xs))) k!"stroke" Stroke.fromSexpr :=
  nested_of [.str k!"arc"] (SyArc.loopEq) SyArc.indep (fun sub => let o : SyArc := {}; { o with stroke := sub }) fun _ => rfl
example := C59_SyArc_stroke ⟨_, rfl⟩ [.int 1]
theorem C59_SyArc_fill : Nested (fun xs => SyArc.fromSexpr (.list (.str k!"arc" :: xs))) k!"fill" Fill.fromSexpr :=
  nested_of [.str k!"arc"] (SyArc.loopEq) SyArc.indep (fun sub => let o : SyArc := {}; { o with fill := sub }) fun _ => rfl
example := C59_SyArc_fill ⟨_, rfl⟩ [.int 1]

theorem C59_SyCircle : ItemWise (fun xs => SyCircle.fromSexpr (.list (.str k!"circle" :: xs))) :=
  itemWise_of [.str k!"circle"] (SyCircle.loopEq) SyCircle.indep
theorem C59_SyCircle_center : Nested (fun xs => SyCircle.fromSexpr (.list (.str k!"circle" :: xs))) k!"center" Position.fromSexpr :=
  nested_of [.str k!"circle"] (SyCircle.loopEq) SyCircle.indep (fun sub => let o : SyCircle := {}; { o with center := sub }) fun _ => rfl
example := C59_SyCircle_center ⟨_, rfl⟩ [.int 1]
theorem C59_SyCircle_stroke : Nested (fun xs => SyCircle.fromSexpr (.list (.str k!"circle" :: xs))) k!"stroke" Stroke.fromSexpr :=
  nested_of [.str k!"circle"] (SyCircle.loopEq) SyCircle.indep (fun sub => let o : SyCircle := {}; { o with stroke := sub }) fun _ => rfl
example := C59_SyCircle_stroke ⟨_, rfl⟩ [.int 1]
theorem C59_SyCircle_fill : Nested (fun xs => SyCircle.fromSexpr (.list (.str k!"circle" :: xs))) k!"fill" Fill.fromSexpr :=
  nested_of [.str k!"circle"] (SyCircle.loopEq) SyCircle.indep (fun sub => let o : SyCircle := {}; { o with fill := sub }) fun _ => rfl
example := C59_SyCircle_fill ⟨_, rfl⟩ [.int 1]

theorem C59_SyCurve : ItemWise (fun xs => SyCurve.fromSexpr (.list (.str k!"curve" :: xs))) :=
  itemWise_of [.str k!"curve"] (SyCurve.loopEq) SyCurve.indep
theorem C59_SyCurve_stroke : Nested (fun xs => SyCurve.fromSexpr (.list (.str k!"curve" :: xs))) k!"stroke" Stroke.fromSexpr :=
  nested_of [.str k!"curve"] (SyCurve.loopEq) SyCurve.indep (fun sub => let o : SyCurve := {}; { o with stroke := sub }) fun _ => rfl
example := C59_SyCurve_stroke ⟨_, rfl⟩ [.int 1]
theorem C59_SyCurve_fill : Nested (fun xs => SyCurve.fromSexpr (.list (.str k!"curve" :: xs))) k!"fill" Fill.fromSexpr :=
  nested_of [.str k!"curve"] (SyCurve.loopEq) SyCurve.indep (fun sub => let o : SyCurve := {}; { o with fill := sub }) fun _ => rfl
example := C59_SyCurve_fill ⟨_, rfl⟩ [.int 1]
theorem C59_SyCurve_pts : NestedAll (fun xs => SyCurve.fromSexpr (.list (.str k!"curve" :: xs))) k!"pts" Position.fromSexpr :=
  nestedAll_of [.str k!"curve"] (SyCurve.loopEq) SyCurve.indep (fun sub => let o : SyCurve := {}; { o with points := o.points ++ sub }) fun _ => rfl
example := C59_SyCurve_pts ⟨_, rfl⟩ [.int 1]

theorem C59_SyPolyLine : ItemWise (fun xs => SyPolyLine.fromSexpr (.list (.str k!"polyline" :: xs))) :=
  itemWise_of [.str k!"polyline"] (SyPolyLine.loopEq) SyPolyLine.indep
theorem C59_SyPolyLine_stroke : Nested (fun xs => SyPolyLine.fromSexpr (.list (.str k!"polyline" :: xs))) k!"stroke" Stroke.fromSexpr :=
  nested_of [.str k!"polyline"] (SyPolyLine.loopEq) SyPolyLine.indep (fun sub => let o : SyPolyLine := {}; { o with stroke := sub }) fun _ => rfl
example := C59_SyPolyLine_stroke ⟨_, rfl⟩ [.int 1]
theorem C59_SyPolyLine_fill : Nested (fun xs => SyPolyLine.fromSexpr (.list (.str k!"polyline" :: xs))) k!"fill" Fill.fromSexpr :=
  nested_of [.str k!"polyline"] (SyPolyLine.loopEq) SyPolyLine.indep (fun sub => let o : SyPolyLine := {}; { o with fill := sub }) fun _ => rfl
example := C59_SyPolyLine_fill ⟨_, rfl⟩ [.int 1]
theorem C59_SyPolyLine_pts : NestedAll (fun xs => SyPolyLine.fromSexpr (.list (.str k!"polyline" :: xs))) k!"pts" Position.fromSexpr :=
  nestedAll_of [.str k!"polyline"] (SyPolyLine.loopEq) SyPolyLine.indep (fun sub => let o : SyPolyLine := {}; { o with points := o.points ++ sub }) fun _ => rfl
example := C59_SyPolyLine_pts ⟨_, rfl⟩ [.int 1]

theorem C59_SyRect : ItemWise (fun xs => SyRect.fromSexpr (.list (.str k!"rectangle" :: xs))) :=
  itemWise_of [.str k!"rectangle"] (SyRect.loopEq) SyRect.indep
theorem C59_SyRect_start : Nested (fun xs => SyRect.fromSexpr (.list (.str k!"rectangle" :: xs))) k!"start" Position.fromSexpr :=
  nested_of [.str k!"rectangle"] (SyRect.loopEq) SyRect.indep (fun sub => let o : SyRect := {}; { o with start := sub }) fun _ => rfl
example := C59_SyRect_start ⟨_, rfl⟩ [.int 1]
theorem C59_SyRect_stroke : Nested (fun xs => SyRect.fromSexpr (.list (.str k!"rectangle" :: xs))) k!"stroke" Stroke.fromSexpr :=
  nested_of [.str k!"rectangle"] (SyRect.loopEq) SyRect.indep (fun sub => let o : SyRect := {}; { o with stroke := sub }) fun _ => rfl
example := C59_SyRect_stroke ⟨_, rfl⟩ [.int 1]
theorem C59_SyRect_fill : Nested (fun xs => SyRect.fromSexpr (.list (.str k!"rectangle" :: xs))) k!"fill" Fill.fromSexpr :=
  nested_of [.str k!"rectangle"] (SyRect.loopEq) SyRect.indep (fun sub => let o : SyRect := {}; { o with fill := sub }) fun _ => rfl
example := C59_SyRect_fill ⟨_, rfl⟩ [.int 1]

theorem C59_SyText (text : Val) : ItemWise (fun xs => SyText.fromSexpr (.list (.str k!"text" :: text :: xs))) :=
  itemWise_of [] (SyText.loopEq text) SyText.indep
theorem C59_SyText_at (text : Val) : Nested (fun xs => SyText.fromSexpr (.list (.str k!"text" :: text :: xs))) k!"at" Position.fromSexpr :=
  nested_of [] (SyText.loopEq text) SyText.indep (fun sub => let o : SyText := { text := text }; { o with position := sub }) fun _ => rfl
example := C59_SyText_at (.str k!"x") ⟨_, rfl⟩ [.int 1]
theorem C59_SyText_effects (text : Val) : Nested (fun xs => SyText.fromSexpr (.list (.str k!"text" :: text :: xs))) k!"effects" Effects.fromSexpr :=
  nested_of [] (SyText.loopEq text) SyText.indep (fun sub => let o : SyText := { text := text }; { o with effects := sub }) fun _ => rfl
example := C59_SyText_effects (.str k!"x") ⟨_, rfl⟩ [.int 1]

theorem C59_SyTextBox {a : Val} (ha : a.is k!"private" = false) : ItemWise (fun xs => SyTextBox.fromSexpr (.list (.str k!"text_box" :: a :: xs))) :=
  itemWise_of [] (SyTextBox.loopEq ha) SyTextBox.indep
example := C59_SyTextBox (a := .str k!"x") rfl
theorem C59_SyTextBox_at {a : Val} (ha : a.is k!"private" = false) : Nested (fun xs => SyTextBox.fromSexpr (.list (.str k!"text_box" :: a :: xs))) k!"at" Position.fromSexpr :=
  nested_of [] (SyTextBox.loopEq ha) SyTextBox.indep (fun sub => let o : SyTextBox := { text := a }; { o with position := sub }) fun _ => rfl
example := C59_SyTextBox_at (a := .str k!"x") rfl ⟨_, rfl⟩ [.int 1]
theorem C59_SyTextBox_size {a : Val} (ha : a.is k!"private" = false) : Nested (fun xs => SyTextBox.fromSexpr (.list (.str k!"text_box" :: a :: xs))) k!"size" Position.fromSexpr :=
  nested_of [] (SyTextBox.loopEq ha) SyTextBox.indep (fun sub => let o : SyTextBox := { text := a }; { o with size := sub }) fun _ => rfl
example := C59_SyTextBox_size (a := .str k!"x") rfl ⟨_, rfl⟩ [.int 1]
theorem C59_SyTextBox_effects {a : Val} (ha : a.is k!"private" = false) : Nested (fun xs => SyTextBox.fromSexpr (.list (.str k!"text_box" :: a :: xs))) k!"effects" Effects.fromSexpr :=
  nested_of [] (SyTextBox.loopEq ha) SyTextBox.indep (fun sub => let o : SyTextBox := { text := a }; { o with effects := sub }) fun _ => rfl
example := C59_SyTextBox_effects (a := .str k!"x") rfl ⟨_, rfl⟩ [.int 1]
theorem C59_SyTextBox_stroke {a : Val} (ha : a.is k!"private" = false) : Nested (fun xs => SyTextBox.fromSexpr (.list (.str k!"text_box" :: a :: xs))) k!"stroke" Stroke.fromSexpr :=
  nested_of [] (SyTextBox.loopEq ha) SyTextBox.indep (fun sub => let o : SyTextBox := { text := a }; { o with stroke := sub }) fun _ => rfl
example := C59_SyTextBox_stroke (a := .str k!"x") rfl ⟨_, rfl⟩ [.int 1]
theorem C59_SyTextBox_fill {a : Val} (ha : a.is k!"private" = false) : Nested (fun xs => SyTextBox.fromSexpr (.list (.str k!"text_box" :: a :: xs))) k!"fill" Fill.fromSexpr :=
  nested_of [] (SyTextBox.loopEq ha) SyTextBox.indep (fun sub => let o : SyTextBox := { text := a }; { o with fill := sub }) fun _ => rfl
example := C59_SyTextBox_fill (a := .str k!"x") rfl ⟨_, rfl⟩ [.int 1]

theorem C59_SymbolPin (a b : Val) : ItemWise (fun xs => SymbolPin.fromSexpr (.list (.str k!"pin" :: a :: b :: xs))) :=
  itemWise_of [] (SymbolPin.loopEq a b) SymbolPin.indep
theorem C59_SymbolPin_at (a b : Val) : Nested (fun xs => SymbolPin.fromSexpr (.list (.str k!"pin" :: a :: b :: xs))) k!"at" Position.fromSexpr :=
  nested_of [] (SymbolPin.loopEq a b) SymbolPin.indep (fun sub => let o : SymbolPin := { electricalType := a, graphicalStyle := b }; { o with position := sub }) fun _ => rfl
example := C59_SymbolPin_at (.str k!"x") (.str k!"x") ⟨_, rfl⟩ [.int 1]
theorem C59_SymbolPin_alternate (a b : Val) : Nested (fun xs => SymbolPin.fromSexpr (.list (.str k!"pin" :: a :: b :: xs))) k!"alternate" SymbolAlternativePin.fromSexpr :=
  nested_of [] (SymbolPin.loopEq a b) SymbolPin.indep (fun sub => let o : SymbolPin := { electricalType := a, graphicalStyle := b }; { o with alternatePins := o.alternatePins ++ [sub] }) fun _ => rfl
example := C59_SymbolPin_alternate (.str k!"x") (.str k!"x") ⟨_, rfl⟩ [.int 1]

theorem C59_SymbolLib : ItemWise (fun xs => SymbolLib.fromSexpr (.list (.str k!"kicad_symbol_lib" :: xs))) :=
  itemWise_of [] (SymbolLib.loopEq) SymbolLib.indep
theorem C59_SymbolLib_symbol : Nested (fun xs => SymbolLib.fromSexpr (.list (.str k!"kicad_symbol_lib" :: xs))) k!"symbol" Symbol.fromSexpr :=
  nested_of [] (SymbolLib.loopEq) SymbolLib.indep (fun sub => let o : SymbolLib := {}; { o with symbols := o.symbols ++ [sub] }) fun _ => rfl
example := C59_SymbolLib_symbol ⟨_, rfl⟩ [.int 1]

theorem C59_Junction : ItemWise (fun xs => Junction.fromSexpr (.list (.str k!"junction" :: xs))) :=
  itemWise_of [.str k!"junction"] (Junction.loopEq) Junction.indep
theorem C59_Junction_at : Nested (fun xs => Junction.fromSexpr (.list (.str k!"junction" :: xs))) k!"at" Position.fromSexpr :=
  nested_of [.str k!"junction"] (Junction.loopEq) Junction.indep (fun sub => let o : Junction := {}; { o with position := sub }) fun _ => rfl
example := C59_Junction_at ⟨_, rfl⟩ [.int 1]
theorem C59_Junction_color : Nested (fun xs => Junction.fromSexpr (.list (.str k!"junction" :: xs))) k!"color" ColorRGBA.fromSexpr :=
  nested_of [.str k!"junction"] (Junction.loopEq) Junction.indep (fun sub => let o : Junction := {}; { o with color := .rgba sub }) fun _ => rfl
example := C59_Junction_color ⟨_, rfl⟩ [.int 1]

theorem C59_NoConnect : ItemWise (fun xs => NoConnect.fromSexpr (.list (.str k!"no_connect" :: xs))) :=
  itemWise_of [.str k!"no_connect"] (NoConnect.loopEq) NoConnect.indep
theorem C59_NoConnect_at : Nested (fun xs => NoConnect.fromSexpr (.list (.str k!"no_connect" :: xs))) k!"at" Position.fromSexpr :=
  nested_of [.str k!"no_connect"] (NoConnect.loopEq) NoConnect.indep (fun sub => let o : NoConnect := {}; { o with position := sub }) fun _ => rfl
example := C59_NoConnect_at ⟨_, rfl⟩ [.int 1]

theorem C59_BusEntry : ItemWise (fun xs => BusEntry.fromSexpr (.list (.str k!"bus_entry" :: xs))) :=
  itemWise_of [.str k!"bus_entry"] (BusEntry.loopEq) BusEntry.indep
theorem C59_BusEntry_at : Nested (fun xs => BusEntry.fromSexpr (.list (.str k!"bus_entry" :: xs))) k!"at" Position.fromSexpr :=
  nested_of [.str k!"bus_entry"] (BusEntry.loopEq) BusEntry.indep (fun sub => let o : BusEntry := {}; { o with position := sub }) fun _ => rfl
example := C59_BusEntry_at ⟨_, rfl⟩ [.int 1]
theorem C59_BusEntry_stroke : Nested (fun xs => BusEntry.fromSexpr (.list (.str k!"bus_entry" :: xs))) k!"stroke" Stroke.fromSexpr :=
  nested_of [.str k!"bus_entry"] (BusEntry.loopEq) BusEntry.indep (fun sub => let o : BusEntry := {}; { o with stroke := sub }) fun _ => rfl
example := C59_BusEntry_stroke ⟨_, rfl⟩ [.int 1]
theorem C59_BusEntry_size : Nested (fun xs => BusEntry.fromSexpr (.list (.str k!"bus_entry" :: xs))) k!"size" Position.fromSexpr :=
  nested_of [.str k!"bus_entry"] (BusEntry.loopEq) BusEntry.indep (fun sub => let o : BusEntry := {}; { o with size := sub }) fun _ => rfl
example := C59_BusEntry_size ⟨_, rfl⟩ [.int 1]

theorem C59_Connection {hd : Str} (hh : hd = k!"wire" ∨ hd = k!"bus") : ItemWise (fun xs => Connection.fromSexpr (.list (.str hd :: xs))) :=
  itemWise_of [.str hd] (Connection.loopEq hh) Connection.indep
example := C59_Connection (.inl rfl)
theorem C59_Connection_pts {hd : Str} (hh : hd = k!"wire" ∨ hd = k!"bus") : NestedAll (fun xs => Connection.fromSexpr (.list (.str hd :: xs))) k!"pts" Position.fromSexpr :=
  nestedAll_of [.str hd] (Connection.loopEq hh) Connection.indep (fun sub => let o : Connection := { type := .str hd }; { o with points := o.points ++ sub }) fun _ => rfl
example := C59_Connection_pts (.inl rfl) ⟨_, rfl⟩ [.int 1]
theorem C59_Connection_stroke {hd : Str} (hh : hd = k!"wire" ∨ hd = k!"bus") : Nested (fun xs => Connection.fromSexpr (.list (.str hd :: xs))) k!"stroke" Stroke.fromSexpr :=
  nested_of [.str hd] (Connection.loopEq hh) Connection.indep (fun sub => let o : Connection := { type := .str hd }; { o with stroke := sub }) fun _ => rfl
example := C59_Connection_stroke (.inl rfl) ⟨_, rfl⟩ [.int 1]

theorem C59_PolyLine : ItemWise (fun xs => PolyLine.fromSexpr (.list (.str k!"polyline" :: xs))) :=
  itemWise_of [.str k!"polyline"] (PolyLine.loopEq) PolyLine.indep
theorem C59_PolyLine_pts : NestedAll (fun xs => PolyLine.fromSexpr (.list (.str k!"polyline" :: xs))) k!"pts" Position.fromSexpr :=
  nestedAll_of [.str k!"polyline"] (PolyLine.loopEq) PolyLine.indep (fun sub => let o : PolyLine := {}; { o with points := o.points ++ sub }) fun _ => rfl
example := C59_PolyLine_pts ⟨_, rfl⟩ [.int 1]
theorem C59_PolyLine_stroke : Nested (fun xs => PolyLine.fromSexpr (.list (.str k!"polyline" :: xs))) k!"stroke" Stroke.fromSexpr :=
  nested_of [.str k!"polyline"] (PolyLine.loopEq) PolyLine.indep (fun sub => let o : PolyLine := {}; { o with stroke := sub }) fun _ => rfl
example := C59_PolyLine_stroke ⟨_, rfl⟩ [.int 1]

theorem C59_Text (a1 : Val) : ItemWise (fun xs => Text.fromSexpr (.list (.str k!"text" :: a1 :: xs))) :=
  itemWise_of [] (Text.loopEq a1) Text.indep
theorem C59_Text_at (a1 : Val) : Nested (fun xs => Text.fromSexpr (.list (.str k!"text" :: a1 :: xs))) k!"at" Position.fromSexpr :=
  nested_of [] (Text.loopEq a1) Text.indep (fun sub => let o : Text := { text := a1 }; { o with position := sub }) fun _ => rfl
example := C59_Text_at (.str k!"x") ⟨_, rfl⟩ [.int 1]
theorem C59_Text_effects (a1 : Val) : Nested (fun xs => Text.fromSexpr (.list (.str k!"text" :: a1 :: xs))) k!"effects" Effects.fromSexpr :=
  nested_of [] (Text.loopEq a1) Text.indep (fun sub => let o : Text := { text := a1 }; { o with effects := sub }) fun _ => rfl
example := C59_Text_effects (.str k!"x") ⟨_, rfl⟩ [.int 1]

theorem C59_TextBox (a1 : Val) : ItemWise (fun xs => TextBox.fromSexpr (.list (.str k!"text_box" :: a1 :: xs))) :=
  itemWise_of [] (TextBox.loopEq a1) TextBox.indep
theorem C59_TextBox_at (a1 : Val) : Nested (fun xs => TextBox.fromSexpr (.list (.str k!"text_box" :: a1 :: xs))) k!"at" Position.fromSexpr :=
  nested_of [] (TextBox.loopEq a1) TextBox.indep (fun sub => let o : TextBox := { text := a1 }; { o with position := sub }) fun _ => rfl
example := C59_TextBox_at (.str k!"x") ⟨_, rfl⟩ [.int 1]
theorem C59_TextBox_size (a1 : Val) : Nested (fun xs => TextBox.fromSexpr (.list (.str k!"text_box" :: a1 :: xs))) k!"size" Position.fromSexpr :=
  nested_of [] (TextBox.loopEq a1) TextBox.indep (fun sub => let o : TextBox := { text := a1 }; { o with size := sub }) fun _ => rfl
example := C59_TextBox_size (.str k!"x") ⟨_, rfl⟩ [.int 1]
theorem C59_TextBox_effects (a1 : Val) : Nested (fun xs => TextBox.fromSexpr (.list (.str k!"text_box" :: a1 :: xs))) k!"effects" Effects.fromSexpr :=
  nested_of [] (TextBox.loopEq a1) TextBox.indep (fun sub => let o : TextBox := { text := a1 }; { o with effects := sub }) fun _ => rfl
example := C59_TextBox_effects (.str k!"x") ⟨_, rfl⟩ [.int 1]
theorem C59_TextBox_stroke (a1 : Val) : Nested (fun xs => TextBox.fromSexpr (.list (.str k!"text_box" :: a1 :: xs))) k!"stroke" Stroke.fromSexpr :=
  nested_of [] (TextBox.loopEq a1) TextBox.indep (fun sub => let o : TextBox := { text := a1 }; { o with stroke := sub }) fun _ => rfl
example := C59_TextBox_stroke (.str k!"x") ⟨_, rfl⟩ [.int 1]
theorem C59_TextBox_fill (a1 : Val) : Nested (fun xs => TextBox.fromSexpr (.list (.str k!"text_box" :: a1 :: xs))) k!"fill" Fill.fromSexpr :=
  nested_of [] (TextBox.loopEq a1) TextBox.indep (fun sub => let o : TextBox := { text := a1 }; { o with fill := sub }) fun _ => rfl
example := C59_TextBox_fill (.str k!"x") ⟨_, rfl⟩ [.int 1]

theorem C59_LocalLabel (a1 : Val) : ItemWise (fun xs => LocalLabel.fromSexpr (.list (.str k!"label" :: a1 :: xs))) :=
  itemWise_of [] (LocalLabel.loopEq a1) LocalLabel.indep
theorem C59_LocalLabel_at (a1 : Val) : Nested (fun xs => LocalLabel.fromSexpr (.list (.str k!"label" :: a1 :: xs))) k!"at" Position.fromSexpr :=
  nested_of [] (LocalLabel.loopEq a1) LocalLabel.indep (fun sub => let o : LocalLabel := { text := a1 }; { o with position := sub }) fun _ => rfl
example := C59_LocalLabel_at (.str k!"x") ⟨_, rfl⟩ [.int 1]
theorem C59_LocalLabel_effects (a1 : Val) : Nested (fun xs => LocalLabel.fromSexpr (.list (.str k!"label" :: a1 :: xs))) k!"effects" Effects.fromSexpr :=
  nested_of [] (LocalLabel.loopEq a1) LocalLabel.indep (fun sub => let o : LocalLabel := { text := a1 }; { o with effects := sub }) fun _ => rfl
example := C59_LocalLabel_effects (.str k!"x") ⟨_, rfl⟩ [.int 1]

theorem C59_GlobalLabel (a1 : Val) : ItemWise (fun xs => GlobalLabel.fromSexpr (.list (.str k!"global_label" :: a1 :: xs))) :=
  itemWise_of [] (GlobalLabel.loopEq a1) GlobalLabel.indep
theorem C59_GlobalLabel_at (a1 : Val) : Nested (fun xs => GlobalLabel.fromSexpr (.list (.str k!"global_label" :: a1 :: xs))) k!"at" Position.fromSexpr :=
  nested_of [] (GlobalLabel.loopEq a1) GlobalLabel.indep (fun sub => let o : GlobalLabel := { text := a1 }; { o with position := sub }) fun _ => rfl
example := C59_GlobalLabel_at (.str k!"x") ⟨_, rfl⟩ [.int 1]
theorem C59_GlobalLabel_effects (a1 : Val) : Nested (fun xs => GlobalLabel.fromSexpr (.list (.str k!"global_label" :: a1 :: xs))) k!"effects" Effects.fromSexpr :=
  nested_of [] (GlobalLabel.loopEq a1) GlobalLabel.indep (fun sub => let o : GlobalLabel := { text := a1 }; { o with effects := sub }) fun _ => rfl
example := C59_GlobalLabel_effects (.str k!"x") ⟨_, rfl⟩ [.int 1]
theorem C59_GlobalLabel_property (a1 : Val) : Nested (fun xs => GlobalLabel.fromSexpr (.list (.str k!"global_label" :: a1 :: xs))) k!"property" Property.fromSexpr :=
  nested_of [] (GlobalLabel.loopEq a1) GlobalLabel.indep (fun sub => let o : GlobalLabel := { text := a1 }; { o with properties := o.properties ++ [sub] }) fun _ => rfl
example := C59_GlobalLabel_property (.str k!"x") ⟨_, rfl⟩ [.int 1]

theorem C59_HierarchicalLabel (a1 : Val) : ItemWise (fun xs => HierarchicalLabel.fromSexpr (.list (.str k!"hierarchical_label" :: a1 :: xs))) :=
  itemWise_of [] (HierarchicalLabel.loopEq a1) HierarchicalLabel.indep
theorem C59_HierarchicalLabel_at (a1 : Val) : Nested (fun xs => HierarchicalLabel.fromSexpr (.list (.str k!"hierarchical_label" :: a1 :: xs))) k!"at" Position.fromSexpr :=
  nested_of [] (HierarchicalLabel.loopEq a1) HierarchicalLabel.indep (fun sub => let o : HierarchicalLabel := { text := a1 }; { o with position := sub }) fun _ => rfl
example := C59_HierarchicalLabel_at (.str k!"x") ⟨_, rfl⟩ [.int 1]
theorem C59_HierarchicalLabel_effects (a1 : Val) : Nested (fun xs => HierarchicalLabel.fromSexpr (.list (.str k!"hierarchical_label" :: a1 :: xs))) k!"effects" Effects.fromSexpr :=
  nested_of [] (HierarchicalLabel.loopEq a1) HierarchicalLabel.indep (fun sub => let o : HierarchicalLabel := { text := a1 }; { o with effects := sub }) fun _ => rfl
example := C59_HierarchicalLabel_effects (.str k!"x") ⟨_, rfl⟩ [.int 1]

theorem C59_SymbolProjectPath (a : Val) : ItemWise (fun xs => SymbolProjectPath.fromSexpr (.list (.str k!"path" :: a :: xs))) :=
  itemWise_of [] (SymbolProjectPath.loopEq a) SymbolProjectPath.indep

theorem C59_SymbolProjectInstance (a : Val) : ItemWise (fun xs => SymbolProjectInstance.fromSexpr (.list (.str k!"project" :: a :: xs))) :=
  itemWise_of [] (SymbolProjectInstance.loopEq a) SymbolProjectInstance.indep
theorem C59_SymbolProjectInstance_path (a : Val) : Nested (fun xs => SymbolProjectInstance.fromSexpr (.list (.str k!"project" :: a :: xs))) k!"path" SymbolProjectPath.fromSexpr :=
  nested_of [] (SymbolProjectInstance.loopEq a) SymbolProjectInstance.indep (fun sub => let o : SymbolProjectInstance := { name := a }; { o with paths := o.paths ++ [sub] }) fun _ => rfl
example := C59_SymbolProjectInstance_path (.str k!"x") ⟨_, rfl⟩ [.int 1]

theorem C59_SchematicSymbol : ItemWise (fun xs => SchematicSymbol.fromSexpr (.list (.str k!"symbol" :: xs))) :=
  itemWise_of [] (SchematicSymbol.loopEq) SchematicSymbol.indep
theorem C59_SchematicSymbol_at : Nested (fun xs => SchematicSymbol.fromSexpr (.list (.str k!"symbol" :: xs))) k!"at" Position.fromSexpr :=
  nested_of [] (SchematicSymbol.loopEq) SchematicSymbol.indep (fun sub => let o : SchematicSymbol := {}; { o with position := sub }) fun _ => rfl
example := C59_SchematicSymbol_at ⟨_, rfl⟩ [.int 1]
theorem C59_SchematicSymbol_property : Nested (fun xs => SchematicSymbol.fromSexpr (.list (.str k!"symbol" :: xs))) k!"property" Property.fromSexpr :=
  nested_of [] (SchematicSymbol.loopEq) SchematicSymbol.indep (fun sub => let o : SchematicSymbol := {}; { o with properties := o.properties ++ [sub] }) fun _ => rfl
example := C59_SchematicSymbol_property ⟨_, rfl⟩ [.int 1]
theorem C59_SchematicSymbol_instances : NestedAll (fun xs => SchematicSymbol.fromSexpr (.list (.str k!"symbol" :: xs))) k!"instances" SymbolProjectInstance.fromSexpr :=
  nestedAll_of [] (SchematicSymbol.loopEq) SchematicSymbol.indep (fun sub => let o : SchematicSymbol := {}; { o with instances := o.instances ++ sub }) fun _ => rfl
example := C59_SchematicSymbol_instances ⟨_, rfl⟩ [.int 1]

theorem C59_HierarchicalPin (a1 a2 : Val) : ItemWise (fun xs => HierarchicalPin.fromSexpr (.list (.str k!"pin" :: a1 :: a2 :: xs))) :=
  itemWise_of [] (HierarchicalPin.loopEq a1 a2) HierarchicalPin.indep
theorem C59_HierarchicalPin_at (a1 a2 : Val) : Nested (fun xs => HierarchicalPin.fromSexpr (.list (.str k!"pin" :: a1 :: a2 :: xs))) k!"at" Position.fromSexpr :=
  nested_of [] (HierarchicalPin.loopEq a1 a2) HierarchicalPin.indep (fun sub => let o : HierarchicalPin := { name := a1, connectionType := a2 }; { o with position := sub }) fun _ => rfl
example := C59_HierarchicalPin_at (.str k!"x") (.str k!"x") ⟨_, rfl⟩ [.int 1]
theorem C59_HierarchicalPin_effects (a1 a2 : Val) : Nested (fun xs => HierarchicalPin.fromSexpr (.list (.str k!"pin" :: a1 :: a2 :: xs))) k!"effects" Effects.fromSexpr :=
  nested_of [] (HierarchicalPin.loopEq a1 a2) HierarchicalPin.indep (fun sub => let o : HierarchicalPin := { name := a1, connectionType := a2 }; { o with effects := sub }) fun _ => rfl
example := C59_HierarchicalPin_effects (.str k!"x") (.str k!"x") ⟨_, rfl⟩ [.int 1]

theorem C59_HierarchicalSheetProjectPath (a : Val) : ItemWise (fun xs => HierarchicalSheetProjectPath.fromSexpr (.list (.str k!"path" :: a :: xs))) :=
  itemWise_of [] (HierarchicalSheetProjectPath.loopEq a) HierarchicalSheetProjectPath.indep

theorem C59_HierarchicalSheetProjectInstance (a : Val) : ItemWise (fun xs => HierarchicalSheetProjectInstance.fromSexpr (.list (.str k!"project" :: a :: xs))) :=
  itemWise_of [] (HierarchicalSheetProjectInstance.loopEq a) HierarchicalSheetProjectInstance.indep
theorem C59_HierarchicalSheetProjectInstance_path (a : Val) : Nested (fun xs => HierarchicalSheetProjectInstance.fromSexpr (.list (.str k!"project" :: a :: xs))) k!"path" HierarchicalSheetProjectPath.fromSexpr :=
  nested_of [] (HierarchicalSheetProjectInstance.loopEq a) HierarchicalSheetProjectInstance.indep (fun sub => let o : HierarchicalSheetProjectInstance := { name := a }; { o with paths := o.paths ++ [sub] }) fun _ => rfl
example := C59_HierarchicalSheetProjectInstance_path (.str k!"x") ⟨_, rfl⟩ [.int 1]

theorem C59_HierarchicalSheet : ItemWise (fun xs => HierarchicalSheet.fromSexpr (.list (.str k!"sheet" :: xs))) :=
  itemWise_of [] (HierarchicalSheet.loopEq) HierarchicalSheet.indep
theorem C59_HierarchicalSheet_at : Nested (fun xs => HierarchicalSheet.fromSexpr (.list (.str k!"sheet" :: xs))) k!"at" Position.fromSexpr :=
  nested_of [] (HierarchicalSheet.loopEq) HierarchicalSheet.indep (fun sub => let o : HierarchicalSheet := {}; { o with position := sub }) fun _ => rfl
example := C59_HierarchicalSheet_at ⟨_, rfl⟩ [.int 1]
theorem C59_HierarchicalSheet_stroke : Nested (fun xs => HierarchicalSheet.fromSexpr (.list (.str k!"sheet" :: xs))) k!"stroke" Stroke.fromSexpr :=
  nested_of [] (HierarchicalSheet.loopEq) HierarchicalSheet.indep (fun sub => let o : HierarchicalSheet := {}; { o with stroke := sub }) fun _ => rfl
example := C59_HierarchicalSheet_stroke ⟨_, rfl⟩ [.int 1]
theorem C59_HierarchicalSheet_pin : Nested (fun xs => HierarchicalSheet.fromSexpr (.list (.str k!"sheet" :: xs))) k!"pin" HierarchicalPin.fromSexpr :=
  nested_of [] (HierarchicalSheet.loopEq) HierarchicalSheet.indep (fun sub => let o : HierarchicalSheet := {}; { o with pins := o.pins ++ [sub] }) fun _ => rfl
example := C59_HierarchicalSheet_pin ⟨_, rfl⟩ [.int 1]
theorem C59_HierarchicalSheet_instances : NestedAll (fun xs => HierarchicalSheet.fromSexpr (.list (.str k!"sheet" :: xs))) k!"instances" HierarchicalSheetProjectInstance.fromSexpr :=
  nestedAll_of [] (HierarchicalSheet.loopEq) HierarchicalSheet.indep (fun sub => let o : HierarchicalSheet := {}; { o with instances := o.instances ++ sub }) fun _ => rfl
example := C59_HierarchicalSheet_instances ⟨_, rfl⟩ [.int 1]

theorem C59_HierarchicalSheetInstance (a1 : Val) : ItemWise (fun xs => HierarchicalSheetInstance.fromSexpr (.list (.str k!"path" :: a1 :: xs))) :=
  itemWise_of [] (HierarchicalSheetInstance.loopEq a1) HierarchicalSheetInstance.indep

theorem C59_SymbolInstance (a1 : Val) : ItemWise (fun xs => SymbolInstance.fromSexpr (.list (.str k!"path" :: a1 :: xs))) :=
  itemWise_of [] (SymbolInstance.loopEq a1) SymbolInstance.indep

theorem C59_Rectangle : ItemWise (fun xs => Rectangle.fromSexpr (.list (.str k!"rectangle" :: xs))) :=
  itemWise_of [.str k!"rectangle"] (Rectangle.loopEq) Rectangle.indep
theorem C59_Rectangle_start : Nested (fun xs => Rectangle.fromSexpr (.list (.str k!"rectangle" :: xs))) k!"start" Position.fromSexpr :=
  nested_of [.str k!"rectangle"] (Rectangle.loopEq) Rectangle.indep (fun sub => let o : Rectangle := {}; { o with start := sub }) fun _ => rfl
example := C59_Rectangle_start ⟨_, rfl⟩ [.int 1]
theorem C59_Rectangle_stroke : Nested (fun xs => Rectangle.fromSexpr (.list (.str k!"rectangle" :: xs))) k!"stroke" Stroke.fromSexpr :=
  nested_of [.str k!"rectangle"] (Rectangle.loopEq) Rectangle.indep (fun sub => let o : Rectangle := {}; { o with stroke := sub }) fun _ => rfl
example := C59_Rectangle_stroke ⟨_, rfl⟩ [.int 1]
theorem C59_Rectangle_fill : Nested (fun xs => Rectangle.fromSexpr (.list (.str k!"rectangle" :: xs))) k!"fill" Fill.fromSexpr :=
  nested_of [.str k!"rectangle"] (Rectangle.loopEq) Rectangle.indep (fun sub => let o : Rectangle := {}; { o with fill := sub }) fun _ => rfl
example := C59_Rectangle_fill ⟨_, rfl⟩ [.int 1]

theorem C59_Arc : ItemWise (fun xs => Arc.fromSexpr (.list (.str k!"arc" :: xs))) :=
  itemWise_of [.str k!"arc"] (Arc.loopEq) Arc.indep
theorem C59_Arc_start : Nested (fun xs => Arc.fromSexpr (.list (.str k!"arc" :: xs))) k!"start" Position.fromSexpr :=
  nested_of [.str k!"arc"] (Arc.loopEq) Arc.indep (fun sub => let o : Arc := {}; { o with start := sub }) fun _ => rfl
example := C59_Arc_start ⟨_, rfl⟩ [.int 1]
theorem C59_Arc_mid : Nested (fun xs => Arc.fromSexpr (.list (.str k!"arc" :: xs))) k!"mid" Position.fromSexpr :=
  nested_of [.str k!"arc"] (Arc.loopEq) Arc.indep (fun sub => let o : Arc := {}; { o with mid := sub }) fun _ => rfl
example := C59_Arc_mid ⟨_, rfl⟩ [.int 1]
theorem C59_Arc_stroke : Nested (fun xs => Arc.fromSexpr (.list (.str k!"arc" :: xs))) k!"stroke" Stroke.fromSexpr :=
  nested_of [.str k!"arc"] (Arc.loopEq) Arc.indep (fun sub => let o : Arc := {}; { o with stroke := sub }) fun _ => rfl
example := C59_Arc_stroke ⟨_, rfl⟩ [.int 1]
theorem C59_Arc_fill : Nested (fun xs => Arc.fromSexpr (.list (.str k!"arc" :: xs))) k!"fill" Fill.fromSexpr :=
  nested_of [.str k!"arc"] (Arc.loopEq) Arc.indep (fun sub => let o : Arc := {}; { o with fill := sub }) fun _ => rfl
example := C59_Arc_fill ⟨_, rfl⟩ [.int 1]

theorem C59_Circle : ItemWise (fun xs => Circle.fromSexpr (.list (.str k!"circle" :: xs))) :=
  itemWise_of [.str k!"circle"] (Circle.loopEq) Circle.indep
theorem C59_Circle_center : Nested (fun xs => Circle.fromSexpr (.list (.str k!"circle" :: xs))) k!"center" Position.fromSexpr :=
  nested_of [.str k!"circle"] (Circle.loopEq) Circle.indep (fun sub => let o : Circle := {}; { o with center := sub }) fun _ => rfl
example := C59_Circle_center ⟨_, rfl⟩ [.int 1]
theorem C59_Circle_stroke : Nested (fun xs => Circle.fromSexpr (.list (.str k!"circle" :: xs))) k!"stroke" Stroke.fromSexpr :=
  nested_of [.str k!"circle"] (Circle.loopEq) Circle.indep (fun sub => let o : Circle := {}; { o with stroke := sub }) fun _ => rfl
example := C59_Circle_stroke ⟨_, rfl⟩ [.int 1]
theorem C59_Circle_fill : Nested (fun xs => Circle.fromSexpr (.list (.str k!"circle" :: xs))) k!"fill" Fill.fromSexpr :=
  nested_of [.str k!"circle"] (Circle.loopEq) Circle.indep (fun sub => let o : Circle := {}; { o with fill := sub }) fun _ => rfl
example := C59_Circle_fill ⟨_, rfl⟩ [.int 1]

theorem C59_NetclassFlag (a1 : Val) : ItemWise (fun xs => NetclassFlag.fromSexpr (.list (.str k!"netclass_flag" :: a1 :: xs))) :=
  itemWise_of [] (NetclassFlag.loopEq a1) NetclassFlag.indep
theorem C59_NetclassFlag_at (a1 : Val) : Nested (fun xs => NetclassFlag.fromSexpr (.list (.str k!"netclass_flag" :: a1 :: xs))) k!"at" Position.fromSexpr :=
  nested_of [] (NetclassFlag.loopEq a1) NetclassFlag.indep (fun sub => let o : NetclassFlag := { text := a1 }; { o with position := sub }) fun _ => rfl
example := C59_NetclassFlag_at (.str k!"x") ⟨_, rfl⟩ [.int 1]
theorem C59_NetclassFlag_effects (a1 : Val) : Nested (fun xs => NetclassFlag.fromSexpr (.list (.str k!"netclass_flag" :: a1 :: xs))) k!"effects" Effects.fromSexpr :=
  nested_of [] (NetclassFlag.loopEq a1) NetclassFlag.indep (fun sub => let o : NetclassFlag := { text := a1 }; { o with effects := some sub }) fun _ => rfl
example := C59_NetclassFlag_effects (.str k!"x") ⟨_, rfl⟩ [.int 1]
theorem C59_NetclassFlag_property (a1 : Val) : Nested (fun xs => NetclassFlag.fromSexpr (.list (.str k!"netclass_flag" :: a1 :: xs))) k!"property" Property.fromSexpr :=
  nested_of [] (NetclassFlag.loopEq a1) NetclassFlag.indep (fun sub => let o : NetclassFlag := { text := a1 }; { o with properties := o.properties ++ [sub] }) fun _ => rfl
example := C59_NetclassFlag_property (.str k!"x") ⟨_, rfl⟩ [.int 1]

theorem C59_Schematic : ItemWise (fun xs => Schematic.fromSexpr (.list (.str k!"kicad_sch" :: xs))) :=
  itemWise_of [.str k!"kicad_sch"] (Schematic.loopEq) Schematic.indep
theorem C59_Schematic_paper : Nested (fun xs => Schematic.fromSexpr (.list (.str k!"kicad_sch" :: xs))) k!"paper" PageSettings.fromSexpr :=
  nested_of [.str k!"kicad_sch"] (Schematic.loopEq) Schematic.indep (fun sub => let o : Schematic := {}; { o with paper := sub }) fun _ => rfl
example := C59_Schematic_paper ⟨_, rfl⟩ [.int 1]
theorem C59_Schematic_title_block : Nested (fun xs => Schematic.fromSexpr (.list (.str k!"kicad_sch" :: xs))) k!"title_block" TitleBlock.fromSexpr :=
  nested_of [.str k!"kicad_sch"] (Schematic.loopEq) Schematic.indep (fun sub => let o : Schematic := {}; { o with titleBlock := some sub }) fun _ => rfl
example := C59_Schematic_title_block ⟨_, rfl⟩ [.int 1]
theorem C59_Schematic_lib_symbols : NestedAll (fun xs => Schematic.fromSexpr (.list (.str k!"kicad_sch" :: xs))) k!"lib_symbols" Symbol.fromSexpr :=
  nestedAll_of [.str k!"kicad_sch"] (Schematic.loopEq) Schematic.indep (fun sub => let o : Schematic := {}; { o with libSymbols := o.libSymbols ++ sub }) fun _ => rfl
example := C59_Schematic_lib_symbols ⟨_, rfl⟩ [.int 1]
theorem C59_Schematic_junction : Nested (fun xs => Schematic.fromSexpr (.list (.str k!"kicad_sch" :: xs))) k!"junction" Junction.fromSexpr :=
  nested_of [.str k!"kicad_sch"] (Schematic.loopEq) Schematic.indep (fun sub => let o : Schematic := {}; { o with junctions := o.junctions ++ [sub] }) fun _ => rfl
example := C59_Schematic_junction ⟨_, rfl⟩ [.int 1]
theorem C59_Schematic_no_connect : Nested (fun xs => Schematic.fromSexpr (.list (.str k!"kicad_sch" :: xs))) k!"no_connect" NoConnect.fromSexpr :=
  nested_of [.str k!"kicad_sch"] (Schematic.loopEq) Schematic.indep (fun sub => let o : Schematic := {}; { o with noConnects := o.noConnects ++ [sub] }) fun _ => rfl
example := C59_Schematic_no_connect ⟨_, rfl⟩ [.int 1]
theorem C59_Schematic_bus_entry : Nested (fun xs => Schematic.fromSexpr (.list (.str k!"kicad_sch" :: xs))) k!"bus_entry" BusEntry.fromSexpr :=
  nested_of [.str k!"kicad_sch"] (Schematic.loopEq) Schematic.indep (fun sub => let o : Schematic := {}; { o with busEntries := o.busEntries ++ [sub] }) fun _ => rfl
example := C59_Schematic_bus_entry ⟨_, rfl⟩ [.int 1]
theorem C59_Schematic_bus_alias : Nested (fun xs => Schematic.fromSexpr (.list (.str k!"kicad_sch" :: xs))) k!"bus_alias" BusAlias.fromSexpr :=
  nested_of [.str k!"kicad_sch"] (Schematic.loopEq) Schematic.indep (fun sub => let o : Schematic := {}; { o with busAliases := o.busAliases ++ [sub] }) fun _ => rfl
example := C59_Schematic_bus_alias ⟨_, rfl⟩ [.int 1]
theorem C59_Schematic_polyline : Nested (fun xs => Schematic.fromSexpr (.list (.str k!"kicad_sch" :: xs))) k!"polyline" PolyLine.fromSexpr :=
  nested_of [.str k!"kicad_sch"] (Schematic.loopEq) Schematic.indep (fun sub => let o : Schematic := {}; { o with graphicalItems := o.graphicalItems ++ [.polyline sub] }) fun _ => rfl
example := C59_Schematic_polyline ⟨_, rfl⟩ [.int 1]
theorem C59_Schematic_arc : Nested (fun xs => Schematic.fromSexpr (.list (.str k!"kicad_sch" :: xs))) k!"arc" Arc.fromSexpr :=
  nested_of [.str k!"kicad_sch"] (Schematic.loopEq) Schematic.indep (fun sub => let o : Schematic := {}; { o with shapes := o.shapes ++ [.arc sub] }) fun _ => rfl
example := C59_Schematic_arc ⟨_, rfl⟩ [.int 1]
theorem C59_Schematic_circle : Nested (fun xs => Schematic.fromSexpr (.list (.str k!"kicad_sch" :: xs))) k!"circle" Circle.fromSexpr :=
  nested_of [.str k!"kicad_sch"] (Schematic.loopEq) Schematic.indep (fun sub => let o : Schematic := {}; { o with shapes := o.shapes ++ [.circle sub] }) fun _ => rfl
example := C59_Schematic_circle ⟨_, rfl⟩ [.int 1]
theorem C59_Schematic_rectangle : Nested (fun xs => Schematic.fromSexpr (.list (.str k!"kicad_sch" :: xs))) k!"rectangle" Rectangle.fromSexpr :=
  nested_of [.str k!"kicad_sch"] (Schematic.loopEq) Schematic.indep (fun sub => let o : Schematic := {}; { o with shapes := o.shapes ++ [.rectangle sub] }) fun _ => rfl
example := C59_Schematic_rectangle ⟨_, rfl⟩ [.int 1]
theorem C59_Schematic_image : Nested (fun xs => Schematic.fromSexpr (.list (.str k!"kicad_sch" :: xs))) k!"image" Image.fromSexpr :=
  nested_of [.str k!"kicad_sch"] (Schematic.loopEq) Schematic.indep (fun sub => let o : Schematic := {}; { o with images := o.images ++ [sub] }) fun _ => rfl
example := C59_Schematic_image ⟨_, rfl⟩ [.int 1]
theorem C59_Schematic_text : Nested (fun xs => Schematic.fromSexpr (.list (.str k!"kicad_sch" :: xs))) k!"text" Text.fromSexpr :=
  nested_of [.str k!"kicad_sch"] (Schematic.loopEq) Schematic.indep (fun sub => let o : Schematic := {}; { o with texts := o.texts ++ [sub] }) fun _ => rfl
example := C59_Schematic_text ⟨_, rfl⟩ [.int 1]
theorem C59_Schematic_text_box : Nested (fun xs => Schematic.fromSexpr (.list (.str k!"kicad_sch" :: xs))) k!"text_box" TextBox.fromSexpr :=
  nested_of [.str k!"kicad_sch"] (Schematic.loopEq) Schematic.indep (fun sub => let o : Schematic := {}; { o with textBoxes := o.textBoxes ++ [sub] }) fun _ => rfl
example := C59_Schematic_text_box ⟨_, rfl⟩ [.int 1]
theorem C59_Schematic_label : Nested (fun xs => Schematic.fromSexpr (.list (.str k!"kicad_sch" :: xs))) k!"label" LocalLabel.fromSexpr :=
  nested_of [.str k!"kicad_sch"] (Schematic.loopEq) Schematic.indep (fun sub => let o : Schematic := {}; { o with labels := o.labels ++ [sub] }) fun _ => rfl
example := C59_Schematic_label ⟨_, rfl⟩ [.int 1]
theorem C59_Schematic_global_label : Nested (fun xs => Schematic.fromSexpr (.list (.str k!"kicad_sch" :: xs))) k!"global_label" GlobalLabel.fromSexpr :=
  nested_of [.str k!"kicad_sch"] (Schematic.loopEq) Schematic.indep (fun sub => let o : Schematic := {}; { o with globalLabels := o.globalLabels ++ [sub] }) fun _ => rfl
example := C59_Schematic_global_label ⟨_, rfl⟩ [.int 1]
theorem C59_Schematic_hierarchical_label : Nested (fun xs => Schematic.fromSexpr (.list (.str k!"kicad_sch" :: xs))) k!"hierarchical_label" HierarchicalLabel.fromSexpr :=
  nested_of [.str k!"kicad_sch"] (Schematic.loopEq) Schematic.indep (fun sub => let o : Schematic := {}; { o with hierarchicalLabels := o.hierarchicalLabels ++ [sub] }) fun _ => rfl
example := C59_Schematic_hierarchical_label ⟨_, rfl⟩ [.int 1]
theorem C59_Schematic_netclass_flag : Nested (fun xs => Schematic.fromSexpr (.list (.str k!"kicad_sch" :: xs))) k!"netclass_flag" NetclassFlag.fromSexpr :=
  nested_of [.str k!"kicad_sch"] (Schematic.loopEq) Schematic.indep (fun sub => let o : Schematic := {}; { o with netclassFlags := o.netclassFlags ++ [sub] }) fun _ => rfl
example := C59_Schematic_netclass_flag ⟨_, rfl⟩ [.int 1]
theorem C59_Schematic_symbol : Nested (fun xs => Schematic.fromSexpr (.list (.str k!"kicad_sch" :: xs))) k!"symbol" SchematicSymbol.fromSexpr :=
  nested_of [.str k!"kicad_sch"] (Schematic.loopEq) Schematic.indep (fun sub => let o : Schematic := {}; { o with schematicSymbols := o.schematicSymbols ++ [sub] }) fun _ => rfl
example := C59_Schematic_symbol ⟨_, rfl⟩ [.int 1]
theorem C59_Schematic_sheet : Nested (fun xs => Schematic.fromSexpr (.list (.str k!"kicad_sch" :: xs))) k!"sheet" HierarchicalSheet.fromSexpr :=
  nested_of [.str k!"kicad_sch"] (Schematic.loopEq) Schematic.indep (fun sub => let o : Schematic := {}; { o with sheets := o.sheets ++ [sub] }) fun _ => rfl
example := C59_Schematic_sheet ⟨_, rfl⟩ [.int 1]
theorem C59_Schematic_sheet_instances : NestedAll (fun xs => Schematic.fromSexpr (.list (.str k!"kicad_sch" :: xs))) k!"sheet_instances" HierarchicalSheetInstance.fromSexpr :=
  nestedAll_of [.str k!"kicad_sch"] (Schematic.loopEq) Schematic.indep (fun sub => let o : Schematic := {}; { o with sheetInstances := o.sheetInstances ++ sub }) fun _ => rfl
example := C59_Schematic_sheet_instances ⟨_, rfl⟩ [.int 1]
theorem C59_Schematic_symbol_instances : NestedAll (fun xs => Schematic.fromSexpr (.list (.str k!"kicad_sch" :: xs))) k!"symbol_instances" SymbolInstance.fromSexpr :=
  nestedAll_of [.str k!"kicad_sch"] (Schematic.loopEq) Schematic.indep (fun sub => let o : Schematic := {}; { o with symbolInstances := o.symbolInstances ++ sub }) fun _ => rfl
example := C59_Schematic_symbol_instances ⟨_, rfl⟩ [.int 1]

theorem C59_GrText (a1 : Val) : ItemWise (fun xs => GrText.fromSexpr (.list (.str k!"gr_text" :: a1 :: xs))) :=
  itemWise_of [] (GrText.loopEq a1) GrText.indep
theorem C59_GrText_at (a1 : Val) : Nested (fun xs => GrText.fromSexpr (.list (.str k!"gr_text" :: a1 :: xs))) k!"at" Position.fromSexpr :=
  nested_of [] (GrText.loopEq a1) GrText.indep (fun sub => let o : GrText := { text := a1 }; { o with position := sub }) fun _ => rfl
example := C59_GrText_at (.str k!"x") ⟨_, rfl⟩ [.int 1]
theorem C59_GrText_effects (a1 : Val) : Nested (fun xs => GrText.fromSexpr (.list (.str k!"gr_text" :: a1 :: xs))) k!"effects" Effects.fromSexpr :=
  nested_of [] (GrText.loopEq a1) GrText.indep (fun sub => let o : GrText := { text := a1 }; { o with effects := sub }) fun _ => rfl
example := C59_GrText_effects (.str k!"x") ⟨_, rfl⟩ [.int 1]
theorem C59_GrText_render_cache (a1 : Val) : Nested (fun xs => GrText.fromSexpr (.list (.str k!"gr_text" :: a1 :: xs))) k!"render_cache" RenderCache.fromSexpr :=
  nested_of [] (GrText.loopEq a1) GrText.indep (fun sub => let o : GrText := { text := a1 }; { o with renderCache := some sub }) fun _ => rfl
example := C59_GrText_render_cache (.str k!"x") ⟨_, rfl⟩ [.int 1]

theorem C59_GrTextBox {a : Val} (ha : a.is k!"locked" = false) : ItemWise (fun xs => GrTextBox.fromSexpr (.list (.str k!"gr_text_box" :: a :: xs))) :=
  itemWise_of [] (GrTextBox.loopEq ha) GrTextBox.indep
example := C59_GrTextBox (a := .str k!"x") rfl
theorem C59_GrTextBox_start {a : Val} (ha : a.is k!"locked" = false) : Nested (fun xs => GrTextBox.fromSexpr (.list (.str k!"gr_text_box" :: a :: xs))) k!"start" Position.fromSexpr :=
  nested_of [] (GrTextBox.loopEq ha) GrTextBox.indep (fun sub => let o : GrTextBox := { text := a }; { o with start := some sub }) fun _ => rfl
example := C59_GrTextBox_start (a := .str k!"x") rfl ⟨_, rfl⟩ [.int 1]
theorem C59_GrTextBox_pts {a : Val} (ha : a.is k!"locked" = false) : NestedAll (fun xs => GrTextBox.fromSexpr (.list (.str k!"gr_text_box" :: a :: xs))) k!"pts" Position.fromSexpr :=
  nestedAll_of [] (GrTextBox.loopEq ha) GrTextBox.indep (fun sub => let o : GrTextBox := { text := a }; { o with pts := o.pts ++ sub }) fun _ => rfl
example := C59_GrTextBox_pts (a := .str k!"x") rfl ⟨_, rfl⟩ [.int 1]
theorem C59_GrTextBox_effects {a : Val} (ha : a.is k!"locked" = false) : Nested (fun xs => GrTextBox.fromSexpr (.list (.str k!"gr_text_box" :: a :: xs))) k!"effects" Effects.fromSexpr :=
  nested_of [] (GrTextBox.loopEq ha) GrTextBox.indep (fun sub => let o : GrTextBox := { text := a }; { o with effects := some sub }) fun _ => rfl
example := C59_GrTextBox_effects (a := .str k!"x") rfl ⟨_, rfl⟩ [.int 1]
theorem C59_GrTextBox_stroke {a : Val} (ha : a.is k!"locked" = false) : Nested (fun xs => GrTextBox.fromSexpr (.list (.str k!"gr_text_box" :: a :: xs))) k!"stroke" Stroke.fromSexpr :=
  nested_of [] (GrTextBox.loopEq ha) GrTextBox.indep (fun sub => let o : GrTextBox := { text := a }; { o with stroke := some sub }) fun _ => rfl
example := C59_GrTextBox_stroke (a := .str k!"x") rfl ⟨_, rfl⟩ [.int 1]
theorem C59_GrTextBox_render_cache {a : Val} (ha : a.is k!"locked" = false) : Nested (fun xs => GrTextBox.fromSexpr (.list (.str k!"gr_text_box" :: a :: xs))) k!"render_cache" RenderCache.fromSexpr :=
  nested_of [] (GrTextBox.loopEq ha) GrTextBox.indep (fun sub => let o : GrTextBox := { text := a }; { o with renderCache := some sub }) fun _ => rfl
example := C59_GrTextBox_render_cache (a := .str k!"x") rfl ⟨_, rfl⟩ [.int 1]

theorem C59_GrLine : ItemWise (fun xs => GrLine.fromSexpr (.list (.str k!"gr_line" :: xs))) :=
  itemWise_of [.str k!"gr_line"] (GrLine.loopEq) GrLine.indep
theorem C59_GrLine_start : Nested (fun xs => GrLine.fromSexpr (.list (.str k!"gr_line" :: xs))) k!"start" Position.fromSexpr :=
  nested_of [.str k!"gr_line"] (GrLine.loopEq) GrLine.indep (fun sub => let o : GrLine := {}; { o with start := sub }) fun _ => rfl
example := C59_GrLine_start ⟨_, rfl⟩ [.int 1]

theorem C59_GrRect : ItemWise (fun xs => GrRect.fromSexpr (.list (.str k!"gr_rect" :: xs))) :=
  itemWise_of [.str k!"gr_rect"] (GrRect.loopEq) GrRect.indep
theorem C59_GrRect_start : Nested (fun xs => GrRect.fromSexpr (.list (.str k!"gr_rect" :: xs))) k!"start" Position.fromSexpr :=
  nested_of [.str k!"gr_rect"] (GrRect.loopEq) GrRect.indep (fun sub => let o : GrRect := {}; { o with start := sub }) fun _ => rfl
example := C59_GrRect_start ⟨_, rfl⟩ [.int 1]

theorem C59_GrCircle : ItemWise (fun xs => GrCircle.fromSexpr (.list (.str k!"gr_circle" :: xs))) :=
  itemWise_of [.str k!"gr_circle"] (GrCircle.loopEq) GrCircle.indep
theorem C59_GrCircle_center : Nested (fun xs => GrCircle.fromSexpr (.list (.str k!"gr_circle" :: xs))) k!"center" Position.fromSexpr :=
  nested_of [.str k!"gr_circle"] (GrCircle.loopEq) GrCircle.indep (fun sub => let o : GrCircle := {}; { o with center := sub }) fun _ => rfl
example := C59_GrCircle_center ⟨_, rfl⟩ [.int 1]

theorem C59_GrArc : ItemWise (fun xs => GrArc.fromSexpr (.list (.str k!"gr_arc" :: xs))) :=
  itemWise_of [.str k!"gr_arc"] (GrArc.loopEq) GrArc.indep
theorem C59_GrArc_start : Nested (fun xs => GrArc.fromSexpr (.list (.str k!"gr_arc" :: xs))) k!"start" Position.fromSexpr :=
  nested_of [.str k!"gr_arc"] (GrArc.loopEq) GrArc.indep (fun sub => let o : GrArc := {}; { o with start := sub }) fun _ => rfl
example := C59_GrArc_start ⟨_, rfl⟩ [.int 1]
theorem C59_GrArc_mid : Nested (fun xs => GrArc.fromSexpr (.list (.str k!"gr_arc" :: xs))) k!"mid" Position.fromSexpr :=
  nested_of [.str k!"gr_arc"] (GrArc.loopEq) GrArc.indep (fun sub => let o : GrArc := {}; { o with mid := sub }) fun _ => rfl
example := C59_GrArc_mid ⟨_, rfl⟩ [.int 1]

theorem C59_GrPoly : ItemWise (fun xs => GrPoly.fromSexpr (.list (.str k!"gr_poly" :: xs))) :=
  itemWise_of [.str k!"gr_poly"] (GrPoly.loopEq) GrPoly.indep
theorem C59_GrPoly_pts : NestedAll (fun xs => GrPoly.fromSexpr (.list (.str k!"gr_poly" :: xs))) k!"pts" Position.fromSexpr :=
  nestedAll_of [.str k!"gr_poly"] (GrPoly.loopEq) GrPoly.indep (fun sub => let o : GrPoly := {}; { o with coordinates := o.coordinates ++ sub }) fun _ => rfl
example := C59_GrPoly_pts ⟨_, rfl⟩ [.int 1]

theorem C59_GrCurve : ItemWise (fun xs => GrCurve.fromSexpr (.list (.str k!"gr_curve" :: xs))) :=
  itemWise_of [.str k!"gr_curve"] (GrCurve.loopEq) GrCurve.indep
theorem C59_GrCurve_pts : NestedAll (fun xs => GrCurve.fromSexpr (.list (.str k!"gr_curve" :: xs))) k!"pts" Position.fromSexpr :=
  nestedAll_of [.str k!"gr_curve"] (GrCurve.loopEq) GrCurve.indep (fun sub => let o : GrCurve := {}; { o with coordinates := o.coordinates ++ sub }) fun _ => rfl
example := C59_GrCurve_pts ⟨_, rfl⟩ [.int 1]

theorem C59_FpText (a1 a2 : Val) : ItemWise (fun xs => FpText.fromSexpr (.list (.str k!"fp_text" :: a1 :: a2 :: xs))) :=
  itemWise_of [] (FpText.loopEq a1 a2) FpText.indep
theorem C59_FpText_at (a1 a2 : Val) : Nested (fun xs => FpText.fromSexpr (.list (.str k!"fp_text" :: a1 :: a2 :: xs))) k!"at" Position.fromSexpr :=
  nested_of [] (FpText.loopEq a1 a2) FpText.indep (fun sub => let o : FpText := { type := a1, text := a2 }; { o with position := sub }) fun _ => rfl
example := C59_FpText_at (.str k!"x") (.str k!"x") ⟨_, rfl⟩ [.int 1]
theorem C59_FpText_effects (a1 a2 : Val) : Nested (fun xs => FpText.fromSexpr (.list (.str k!"fp_text" :: a1 :: a2 :: xs))) k!"effects" Effects.fromSexpr :=
  nested_of [] (FpText.loopEq a1 a2) FpText.indep (fun sub => let o : FpText := { type := a1, text := a2 }; { o with effects := sub }) fun _ => rfl
example := C59_FpText_effects (.str k!"x") (.str k!"x") ⟨_, rfl⟩ [.int 1]
theorem C59_FpText_render_cache (a1 a2 : Val) : Nested (fun xs => FpText.fromSexpr (.list (.str k!"fp_text" :: a1 :: a2 :: xs))) k!"render_cache" RenderCache.fromSexpr :=
  nested_of [] (FpText.loopEq a1 a2) FpText.indep (fun sub => let o : FpText := { type := a1, text := a2 }; { o with renderCache := some sub }) fun _ => rfl
example := C59_FpText_render_cache (.str k!"x") (.str k!"x") ⟨_, rfl⟩ [.int 1]

theorem C59_FpLine : ItemWise (fun xs => FpLine.fromSexpr (.list (.str k!"fp_line" :: xs))) :=
  itemWise_of [.str k!"fp_line"] (FpLine.loopEq) FpLine.indep
theorem C59_FpLine_start : Nested (fun xs => FpLine.fromSexpr (.list (.str k!"fp_line" :: xs))) k!"start" Position.fromSexpr :=
  nested_of [.str k!"fp_line"] (FpLine.loopEq) FpLine.indep (fun sub => let o : FpLine := {}; { o with start := sub }) fun _ => rfl
example := C59_FpLine_start ⟨_, rfl⟩ [.int 1]
theorem C59_FpLine_stroke : Nested (fun xs => FpLine.fromSexpr (.list (.str k!"fp_line" :: xs))) k!"stroke" Stroke.fromSexpr :=
  nested_of [.str k!"fp_line"] (FpLine.loopEq) FpLine.indep (fun sub => let o : FpLine := {}; { o with stroke := some sub, width := none }) fun _ => rfl
example := C59_FpLine_stroke ⟨_, rfl⟩ [.int 1]

theorem C59_FpRect : ItemWise (fun xs => FpRect.fromSexpr (.list (.str k!"fp_rect" :: xs))) :=
  itemWise_of [.str k!"fp_rect"] (FpRect.loopEq) FpRect.indep
theorem C59_FpRect_start : Nested (fun xs => FpRect.fromSexpr (.list (.str k!"fp_rect" :: xs))) k!"start" Position.fromSexpr :=
  nested_of [.str k!"fp_rect"] (FpRect.loopEq) FpRect.indep (fun sub => let o : FpRect := {}; { o with start := sub }) fun _ => rfl
example := C59_FpRect_start ⟨_, rfl⟩ [.int 1]
theorem C59_FpRect_stroke : Nested (fun xs => FpRect.fromSexpr (.list (.str k!"fp_rect" :: xs))) k!"stroke" Stroke.fromSexpr :=
  nested_of [.str k!"fp_rect"] (FpRect.loopEq) FpRect.indep (fun sub => let o : FpRect := {}; { o with stroke := some sub, width := none }) fun _ => rfl
example := C59_FpRect_stroke ⟨_, rfl⟩ [.int 1]

theorem C59_FpTextBox {a : Val} (ha : a.is k!"locked" = false) : ItemWise (fun xs => FpTextBox.fromSexpr (.list (.str k!"fp_text_box" :: a :: xs))) :=
  itemWise_of [] (FpTextBox.loopEq ha) FpTextBox.indep
example := C59_FpTextBox (a := .str k!"x") rfl
theorem C59_FpTextBox_start {a : Val} (ha : a.is k!"locked" = false) : Nested (fun xs => FpTextBox.fromSexpr (.list (.str k!"fp_text_box" :: a :: xs))) k!"start" Position.fromSexpr :=
  nested_of [] (FpTextBox.loopEq ha) FpTextBox.indep (fun sub => let o : FpTextBox := { text := a }; { o with start := some sub }) fun _ => rfl
example := C59_FpTextBox_start (a := .str k!"x") rfl ⟨_, rfl⟩ [.int 1]
theorem C59_FpTextBox_pts {a : Val} (ha : a.is k!"locked" = false) : NestedAll (fun xs => FpTextBox.fromSexpr (.list (.str k!"fp_text_box" :: a :: xs))) k!"pts" Position.fromSexpr :=
  nestedAll_of [] (FpTextBox.loopEq ha) FpTextBox.indep (fun sub => let o : FpTextBox := { text := a }; { o with pts := o.pts ++ sub }) fun _ => rfl
example := C59_FpTextBox_pts (a := .str k!"x") rfl ⟨_, rfl⟩ [.int 1]
theorem C59_FpTextBox_effects {a : Val} (ha : a.is k!"locked" = false) : Nested (fun xs => FpTextBox.fromSexpr (.list (.str k!"fp_text_box" :: a :: xs))) k!"effects" Effects.fromSexpr :=
  nested_of [] (FpTextBox.loopEq ha) FpTextBox.indep (fun sub => let o : FpTextBox := { text := a }; { o with effects := some sub }) fun _ => rfl
example := C59_FpTextBox_effects (a := .str k!"x") rfl ⟨_, rfl⟩ [.int 1]
theorem C59_FpTextBox_stroke {a : Val} (ha : a.is k!"locked" = false) : Nested (fun xs => FpTextBox.fromSexpr (.list (.str k!"fp_text_box" :: a :: xs))) k!"stroke" Stroke.fromSexpr :=
  nested_of [] (FpTextBox.loopEq ha) FpTextBox.indep (fun sub => let o : FpTextBox := { text := a }; { o with stroke := some sub }) fun _ => rfl
example := C59_FpTextBox_stroke (a := .str k!"x") rfl ⟨_, rfl⟩ [.int 1]
theorem C59_FpTextBox_render_cache {a : Val} (ha : a.is k!"locked" = false) : Nested (fun xs => FpTextBox.fromSexpr (.list (.str k!"fp_text_box" :: a :: xs))) k!"render_cache" RenderCache.fromSexpr :=
  nested_of [] (FpTextBox.loopEq ha) FpTextBox.indep (fun sub => let o : FpTextBox := { text := a }; { o with renderCache := some sub }) fun _ => rfl
example := C59_FpTextBox_render_cache (a := .str k!"x") rfl ⟨_, rfl⟩ [.int 1]

theorem C59_FpCircle : ItemWise (fun xs => FpCircle.fromSexpr (.list (.str k!"fp_circle" :: xs))) :=
  itemWise_of [.str k!"fp_circle"] (FpCircle.loopEq) FpCircle.indep
theorem C59_FpCircle_center : Nested (fun xs => FpCircle.fromSexpr (.list (.str k!"fp_circle" :: xs))) k!"center" Position.fromSexpr :=
  nested_of [.str k!"fp_circle"] (FpCircle.loopEq) FpCircle.indep (fun sub => let o : FpCircle := {}; { o with center := sub }) fun _ => rfl
example := C59_FpCircle_center ⟨_, rfl⟩ [.int 1]
theorem C59_FpCircle_stroke : Nested (fun xs => FpCircle.fromSexpr (.list (.str k!"fp_circle" :: xs))) k!"stroke" Stroke.fromSexpr :=
  nested_of [.str k!"fp_circle"] (FpCircle.loopEq) FpCircle.indep (fun sub => let o : FpCircle := {}; { o with stroke := some sub, width := none }) fun _ => rfl
example := C59_FpCircle_stroke ⟨_, rfl⟩ [.int 1]

theorem C59_FpArc : ItemWise (fun xs => FpArc.fromSexpr (.list (.str k!"fp_arc" :: xs))) :=
  itemWise_of [.str k!"fp_arc"] (FpArc.loopEq) FpArc.indep
theorem C59_FpArc_start : Nested (fun xs => FpArc.fromSexpr (.list (.str k!"fp_arc" :: xs))) k!"start" Position.fromSexpr :=
  nested_of [.str k!"fp_arc"] (FpArc.loopEq) FpArc.indep (fun sub => let o : FpArc := {}; { o with start := sub }) fun _ => rfl
example := C59_FpArc_start ⟨_, rfl⟩ [.int 1]
theorem C59_FpArc_mid : Nested (fun xs => FpArc.fromSexpr (.list (.str k!"fp_arc" :: xs))) k!"mid" Position.fromSexpr :=
  nested_of [.str k!"fp_arc"] (FpArc.loopEq) FpArc.indep (fun sub => let o : FpArc := {}; { o with mid := sub }) fun _ => rfl
example := C59_FpArc_mid ⟨_, rfl⟩ [.int 1]
theorem C59_FpArc_stroke : Nested (fun xs => FpArc.fromSexpr (.list (.str k!"fp_arc" :: xs))) k!"stroke" Stroke.fromSexpr :=
  nested_of [.str k!"fp_arc"] (FpArc.loopEq) FpArc.indep (fun sub => let o : FpArc := {}; { o with stroke := some sub, width := none }) fun _ => rfl
example := C59_FpArc_stroke ⟨_, rfl⟩ [.int 1]

theorem C59_FpPoly : ItemWise (fun xs => FpPoly.fromSexpr (.list (.str k!"fp_poly" :: xs))) :=
  itemWise_of [.str k!"fp_poly"] (FpPoly.loopEq) FpPoly.indep
theorem C59_FpPoly_pts : NestedAll (fun xs => FpPoly.fromSexpr (.list (.str k!"fp_poly" :: xs))) k!"pts" Position.fromSexpr :=
  nestedAll_of [.str k!"fp_poly"] (FpPoly.loopEq) FpPoly.indep (fun sub => let o : FpPoly := {}; { o with coordinates := o.coordinates ++ sub }) fun _ => rfl
example := C59_FpPoly_pts ⟨_, rfl⟩ [.int 1]
theorem C59_FpPoly_stroke : Nested (fun xs => FpPoly.fromSexpr (.list (.str k!"fp_poly" :: xs))) k!"stroke" Stroke.fromSexpr :=
  nested_of [.str k!"fp_poly"] (FpPoly.loopEq) FpPoly.indep (fun sub => let o : FpPoly := {}; { o with stroke := some sub, width := none }) fun _ => rfl
example := C59_FpPoly_stroke ⟨_, rfl⟩ [.int 1]

theorem C59_FpCurve : ItemWise (fun xs => FpCurve.fromSexpr (.list (.str k!"fp_curve" :: xs))) :=
  itemWise_of [.str k!"fp_curve"] (FpCurve.loopEq) FpCurve.indep
theorem C59_FpCurve_pts : NestedAll (fun xs => FpCurve.fromSexpr (.list (.str k!"fp_curve" :: xs))) k!"pts" Position.fromSexpr :=
  nestedAll_of [.str k!"fp_curve"] (FpCurve.loopEq) FpCurve.indep (fun sub => let o : FpCurve := {}; { o with coordinates := o.coordinates ++ sub }) fun _ => rfl
example := C59_FpCurve_pts ⟨_, rfl⟩ [.int 1]
theorem C59_FpCurve_stroke : Nested (fun xs => FpCurve.fromSexpr (.list (.str k!"fp_curve" :: xs))) k!"stroke" Stroke.fromSexpr :=
  nested_of [.str k!"fp_curve"] (FpCurve.loopEq) FpCurve.indep (fun sub => let o : FpCurve := {}; { o with stroke := some sub, width := none }) fun _ => rfl
example := C59_FpCurve_stroke ⟨_, rfl⟩ [.int 1]

theorem C59_KeepoutSettings : ItemWise (fun xs => KeepoutSettings.fromSexpr (.list (.str k!"keepout" :: xs))) :=
  itemWise_of [.str k!"keepout"] (KeepoutSettings.loopEq) KeepoutSettings.indep

theorem C59_FillSettings : ItemWise (fun xs => FillSettings.fromSexpr (.list (.str k!"fill" :: xs))) :=
  itemWise_of [.str k!"fill"] (FillSettings.loopEq) FillSettings.indep

theorem C59_ZonePolygon : ItemWise (fun xs => ZonePolygon.fromSexpr (.list (.str k!"polygon" :: xs))) :=
  itemWise_of [.str k!"polygon"] (ZonePolygon.loopEq) ZonePolygon.indep
theorem C59_ZonePolygon_pts : NestedAll (fun xs => ZonePolygon.fromSexpr (.list (.str k!"polygon" :: xs))) k!"pts" Position.fromSexpr :=
  nestedAll_of [.str k!"polygon"] (ZonePolygon.loopEq) ZonePolygon.indep (fun sub => let o : ZonePolygon := {}; { o with coordinates := o.coordinates ++ sub }) fun _ => rfl
example := C59_ZonePolygon_pts ⟨_, rfl⟩ [.int 1]

theorem C59_FilledPolygon : ItemWise (fun xs => FilledPolygon.fromSexpr (.list (.str k!"filled_polygon" :: xs))) :=
  itemWise_of [.str k!"filled_polygon"] (FilledPolygon.loopEq) FilledPolygon.indep
theorem C59_FilledPolygon_pts : NestedAll (fun xs => FilledPolygon.fromSexpr (.list (.str k!"filled_polygon" :: xs))) k!"pts" Position.fromSexpr :=
  nestedAll_of [.str k!"filled_polygon"] (FilledPolygon.loopEq) FilledPolygon.indep (fun sub => let o : FilledPolygon := {}; { o with coordinates := o.coordinates ++ sub }) fun _ => rfl
example := C59_FilledPolygon_pts ⟨_, rfl⟩ [.int 1]

theorem C59_FillSegments : ItemWise (fun xs => FillSegments.fromSexpr (.list (.str k!"fill_segments" :: xs))) :=
  itemWise_of [.str k!"fill_segments"] (FillSegments.loopEq) FillSegments.indep
theorem C59_FillSegments_pts : NestedAll (fun xs => FillSegments.fromSexpr (.list (.str k!"fill_segments" :: xs))) k!"pts" Position.fromSexpr :=
  nestedAll_of [.str k!"fill_segments"] (FillSegments.loopEq) FillSegments.indep (fun sub => let o : FillSegments := {}; { o with coordinates := o.coordinates ++ sub }) fun _ => rfl
example := C59_FillSegments_pts ⟨_, rfl⟩ [.int 1]

theorem C59_Zone : ItemWise (fun xs => Zone.fromSexpr (.list (.str k!"zone" :: xs))) :=
  itemWise_of [.str k!"zone"] (Zone.loopEq) Zone.indep
theorem C59_Zone_keepout : Nested (fun xs => Zone.fromSexpr (.list (.str k!"zone" :: xs))) k!"keepout" KeepoutSettings.fromSexpr :=
  nested_of [.str k!"zone"] (Zone.loopEq) Zone.indep (fun sub => let o : Zone := {}; { o with keepoutSettings := some sub }) fun _ => rfl
example := C59_Zone_keepout ⟨_, rfl⟩ [.int 1]
theorem C59_Zone_fill : Nested (fun xs => Zone.fromSexpr (.list (.str k!"zone" :: xs))) k!"fill" FillSettings.fromSexpr :=
  nested_of [.str k!"zone"] (Zone.loopEq) Zone.indep (fun sub => let o : Zone := {}; { o with fillSettings := some sub }) fun _ => rfl
example := C59_Zone_fill ⟨_, rfl⟩ [.int 1]
theorem C59_Zone_polygon : Nested (fun xs => Zone.fromSexpr (.list (.str k!"zone" :: xs))) k!"polygon" ZonePolygon.fromSexpr :=
  nested_of [.str k!"zone"] (Zone.loopEq) Zone.indep (fun sub => let o : Zone := {}; { o with polygons := o.polygons ++ [sub] }) fun _ => rfl
example := C59_Zone_polygon ⟨_, rfl⟩ [.int 1]
theorem C59_Zone_filled_polygon : Nested (fun xs => Zone.fromSexpr (.list (.str k!"zone" :: xs))) k!"filled_polygon" FilledPolygon.fromSexpr :=
  nested_of [.str k!"zone"] (Zone.loopEq) Zone.indep (fun sub => let o : Zone := {}; { o with filledPolygons := o.filledPolygons ++ [sub] }) fun _ => rfl
example := C59_Zone_filled_polygon ⟨_, rfl⟩ [.int 1]
theorem C59_Zone_fill_segments : Nested (fun xs => Zone.fromSexpr (.list (.str k!"zone" :: xs))) k!"fill_segments" FillSegments.fromSexpr :=
  nested_of [.str k!"zone"] (Zone.loopEq) Zone.indep (fun sub => let o : Zone := {}; { o with fillSegments := some sub }) fun _ => rfl
example := C59_Zone_fill_segments ⟨_, rfl⟩ [.int 1]

theorem C59_Attributes (t : Val) : ItemWise (fun xs => Attributes.fromSexpr (.list (.str k!"attr" :: t :: xs))) :=
  itemWise_of [.str k!"attr", t] (Attributes.loopEq t) Attributes.indep

theorem C59_Model (path x y z : Val) : ItemWise (fun xs => Model.fromSexpr (.list (.str k!"model" :: path :: x :: y :: z :: xs))) :=
  itemWise_of [x, y, z] (Model.loopEq path x y z) Model.indep

theorem C59_DrillDefinition {d w : Val} (ha : d.is k!"oval" = false) : ItemWise (fun xs => DrillDefinition.fromSexpr (.list (.str k!"drill" :: d :: w :: xs))) :=
  itemWise_of [.str k!"drill", d, w] (DrillDefinition.loopEq ha) DrillDefinition.indep
example := C59_DrillDefinition (d := .int 1) (w := .int 2) rfl
theorem C59_DrillDefinition_offset {d w : Val} (ha : d.is k!"oval" = false) : Nested (fun xs => DrillDefinition.fromSexpr (.list (.str k!"drill" :: d :: w :: xs))) k!"offset" Position.fromSexpr :=
  nested_of [.str k!"drill", d, w] (DrillDefinition.loopEq ha) DrillDefinition.indep (fun sub => let o : DrillDefinition := { diameter := d, width := some w }; { o with offset := some sub }) fun _ => rfl
example := C59_DrillDefinition_offset (d := .str k!"x") (w := .str k!"x") rfl ⟨_, rfl⟩ [.int 1]

theorem C59_PadOptions : ItemWise (fun xs => PadOptions.fromSexpr (.list (.str k!"options" :: xs))) :=
  itemWise_of [.str k!"options"] (PadOptions.loopEq) PadOptions.indep

theorem C59_Pad (a1 a2 a3 : Val) : ItemWise (fun xs => Pad.fromSexpr (.list (.str k!"pad" :: a1 :: a2 :: a3 :: xs))) :=
  itemWise_of [a3] (Pad.loopEq a1 a2 a3) Pad.indep
theorem C59_Pad_at (a1 a2 a3 : Val) : Nested (fun xs => Pad.fromSexpr (.list (.str k!"pad" :: a1 :: a2 :: a3 :: xs))) k!"at" Position.fromSexpr :=
  nested_of [a3] (Pad.loopEq a1 a2 a3) Pad.indep (fun sub => let o : Pad := { number := a1, type := a2, shape := a3 }; { o with position := sub }) fun _ => rfl
example := C59_Pad_at (.str k!"x") (.str k!"x") (.str k!"x") ⟨_, rfl⟩ [.int 1]
theorem C59_Pad_size (a1 a2 a3 : Val) : Nested (fun xs => Pad.fromSexpr (.list (.str k!"pad" :: a1 :: a2 :: a3 :: xs))) k!"size" Position.fromSexpr :=
  nested_of [a3] (Pad.loopEq a1 a2 a3) Pad.indep (fun sub => let o : Pad := { number := a1, type := a2, shape := a3 }; { o with size := sub }) fun _ => rfl
example := C59_Pad_size (.str k!"x") (.str k!"x") (.str k!"x") ⟨_, rfl⟩ [.int 1]
theorem C59_Pad_drill (a1 a2 a3 : Val) : Nested (fun xs => Pad.fromSexpr (.list (.str k!"pad" :: a1 :: a2 :: a3 :: xs))) k!"drill" DrillDefinition.fromSexpr :=
  nested_of [a3] (Pad.loopEq a1 a2 a3) Pad.indep (fun sub => let o : Pad := { number := a1, type := a2, shape := a3 }; { o with drill := some sub }) fun _ => rfl
example := C59_Pad_drill (.str k!"x") (.str k!"x") (.str k!"x") ⟨_, rfl⟩ [.int 1]
theorem C59_Pad_net (a1 a2 a3 : Val) : Nested (fun xs => Pad.fromSexpr (.list (.str k!"pad" :: a1 :: a2 :: a3 :: xs))) k!"net" Net.fromSexpr :=
  nested_of [a3] (Pad.loopEq a1 a2 a3) Pad.indep (fun sub => let o : Pad := { number := a1, type := a2, shape := a3 }; { o with net := some sub }) fun _ => rfl
example := C59_Pad_net (.str k!"x") (.str k!"x") (.str k!"x") ⟨_, rfl⟩ [.int 1]
theorem C59_Pad_options (a1 a2 a3 : Val) : Nested (fun xs => Pad.fromSexpr (.list (.str k!"pad" :: a1 :: a2 :: a3 :: xs))) k!"options" PadOptions.fromSexpr :=
  nested_of [a3] (Pad.loopEq a1 a2 a3) Pad.indep (fun sub => let o : Pad := { number := a1, type := a2, shape := a3 }; { o with customPadOptions := some sub }) fun _ => rfl
example := C59_Pad_options (.str k!"x") (.str k!"x") (.str k!"x") ⟨_, rfl⟩ [.int 1]

theorem C59_Footprint (tedit : Val) {hd : Str} (id : Val) (hh : hd = k!"module" ∨ hd = k!"footprint") : ItemWise (fun xs => Footprint.fromSexpr tedit (.list (.str hd :: id :: xs))) :=
  itemWise_of [] (Footprint.loopEq tedit id hh) Footprint.indep
example := C59_Footprint (.str k!"0") (.str k!"R") (.inr rfl)
theorem C59_Footprint_at (tedit : Val) {hd : Str} (id : Val) (hh : hd = k!"module" ∨ hd = k!"footprint") : Nested (fun xs => Footprint.fromSexpr tedit (.list (.str hd :: id :: xs))) k!"at" Position.fromSexpr :=
  nested_of [] (Footprint.loopEq tedit id hh) Footprint.indep (fun sub => let o : Footprint := { tedit := tedit, libraryNickname := (Footprint.setLibId { tedit := tedit } id).libraryNickname, entryName := (Footprint.setLibId { tedit := tedit } id).entryName }; { o with position := some sub }) fun _ => rfl
example := C59_Footprint_at (.int 0) (.str k!"x") (.inl rfl) ⟨_, rfl⟩ [.int 1]
theorem C59_Footprint_attr (tedit : Val) {hd : Str} (id : Val) (hh : hd = k!"module" ∨ hd = k!"footprint") : Nested (fun xs => Footprint.fromSexpr tedit (.list (.str hd :: id :: xs))) k!"attr" Attributes.fromSexpr :=
  nested_of [] (Footprint.loopEq tedit id hh) Footprint.indep (fun sub => let o : Footprint := { tedit := tedit, libraryNickname := (Footprint.setLibId { tedit := tedit } id).libraryNickname, entryName := (Footprint.setLibId { tedit := tedit } id).entryName }; { o with attributes := sub }) fun _ => rfl
example := C59_Footprint_attr (.int 0) (.str k!"x") (.inl rfl) ⟨_, rfl⟩ [.int 1]
theorem C59_Footprint_model (tedit : Val) {hd : Str} (id : Val) (hh : hd = k!"module" ∨ hd = k!"footprint") : Nested (fun xs => Footprint.fromSexpr tedit (.list (.str hd :: id :: xs))) k!"model" Model.fromSexpr :=
  nested_of [] (Footprint.loopEq tedit id hh) Footprint.indep (fun sub => let o : Footprint := { tedit := tedit, libraryNickname := (Footprint.setLibId { tedit := tedit } id).libraryNickname, entryName := (Footprint.setLibId { tedit := tedit } id).entryName }; { o with models := o.models ++ [sub] }) fun _ => rfl
example := C59_Footprint_model (.int 0) (.str k!"x") (.inl rfl) ⟨_, rfl⟩ [.int 1]
theorem C59_Footprint_fp_text (tedit : Val) {hd : Str} (id : Val) (hh : hd = k!"module" ∨ hd = k!"footprint") : Nested (fun xs => Footprint.fromSexpr tedit (.list (.str hd :: id :: xs))) k!"fp_text" FpText.fromSexpr :=
  nested_of [] (Footprint.loopEq tedit id hh) Footprint.indep (fun sub => let o : Footprint := { tedit := tedit, libraryNickname := (Footprint.setLibId { tedit := tedit } id).libraryNickname, entryName := (Footprint.setLibId { tedit := tedit } id).entryName }; { o with graphicItems := o.graphicItems ++ [.text sub] }) fun _ => rfl
example := C59_Footprint_fp_text (.int 0) (.str k!"x") (.inl rfl) ⟨_, rfl⟩ [.int 1]
theorem C59_Footprint_fp_text_box (tedit : Val) {hd : Str} (id : Val) (hh : hd = k!"module" ∨ hd = k!"footprint") : Nested (fun xs => Footprint.fromSexpr tedit (.list (.str hd :: id :: xs))) k!"fp_text_box" FpTextBox.fromSexpr :=
  nested_of [] (Footprint.loopEq tedit id hh) Footprint.indep (fun sub => let o : Footprint := { tedit := tedit, libraryNickname := (Footprint.setLibId { tedit := tedit } id).libraryNickname, entryName := (Footprint.setLibId { tedit := tedit } id).entryName }; { o with graphicItems := o.graphicItems ++ [.textBox sub] }) fun _ => rfl
example := C59_Footprint_fp_text_box (.int 0) (.str k!"x") (.inl rfl) ⟨_, rfl⟩ [.int 1]
theorem C59_Footprint_fp_line (tedit : Val) {hd : Str} (id : Val) (hh : hd = k!"module" ∨ hd = k!"footprint") : Nested (fun xs => Footprint.fromSexpr tedit (.list (.str hd :: id :: xs))) k!"fp_line" FpLine.fromSexpr :=
  nested_of [] (Footprint.loopEq tedit id hh) Footprint.indep (fun sub => let o : Footprint := { tedit := tedit, libraryNickname := (Footprint.setLibId { tedit := tedit } id).libraryNickname, entryName := (Footprint.setLibId { tedit := tedit } id).entryName }; { o with graphicItems := o.graphicItems ++ [.line sub] }) fun _ => rfl
example := C59_Footprint_fp_line (.int 0) (.str k!"x") (.inl rfl) ⟨_, rfl⟩ [.int 1]
theorem C59_Footprint_fp_rect (tedit : Val) {hd : Str} (id : Val) (hh : hd = k!"module" ∨ hd = k!"footprint") : Nested (fun xs => Footprint.fromSexpr tedit (.list (.str hd :: id :: xs))) k!"fp_rect" FpRect.fromSexpr :=
  nested_of [] (Footprint.loopEq tedit id hh) Footprint.indep (fun sub => let o : Footprint := { tedit := tedit, libraryNickname := (Footprint.setLibId { tedit := tedit } id).libraryNickname, entryName := (Footprint.setLibId { tedit := tedit } id).entryName }; { o with graphicItems := o.graphicItems ++ [.rect sub] }) fun _ => rfl
example := C59_Footprint_fp_rect (.int 0) (.str k!"x") (.inl rfl) ⟨_, rfl⟩ [.int 1]
theorem C59_Footprint_fp_circle (tedit : Val) {hd : Str} (id : Val) (hh : hd = k!"module" ∨ hd = k!"footprint") : Nested (fun xs => Footprint.fromSexpr tedit (.list (.str hd :: id :: xs))) k!"fp_circle" FpCircle.fromSexpr :=
  nested_of [] (Footprint.loopEq tedit id hh) Footprint.indep (fun sub => let o : Footprint := { tedit := tedit, libraryNickname := (Footprint.setLibId { tedit := tedit } id).libraryNickname, entryName := (Footprint.setLibId { tedit := tedit } id).entryName }; { o with graphicItems := o.graphicItems ++ [.circle sub] }) fun _ => rfl
example := C59_Footprint_fp_circle (.int 0) (.str k!"x") (.inl rfl) ⟨_, rfl⟩ [.int 1]
theorem C59_Footprint_fp_arc (tedit : Val) {hd : Str} (id : Val) (hh : hd = k!"module" ∨ hd = k!"footprint") : Nested (fun xs => Footprint.fromSexpr tedit (.list (.str hd :: id :: xs))) k!"fp_arc" FpArc.fromSexpr :=
  nested_of [] (Footprint.loopEq tedit id hh) Footprint.indep (fun sub => let o : Footprint := { tedit := tedit, libraryNickname := (Footprint.setLibId { tedit := tedit } id).libraryNickname, entryName := (Footprint.setLibId { tedit := tedit } id).entryName }; { o with graphicItems := o.graphicItems ++ [.arc sub] }) fun _ => rfl
example := C59_Footprint_fp_arc (.int 0) (.str k!"x") (.inl rfl) ⟨_, rfl⟩ [.int 1]
theorem C59_Footprint_fp_poly (tedit : Val) {hd : Str} (id : Val) (hh : hd = k!"module" ∨ hd = k!"footprint") : Nested (fun xs => Footprint.fromSexpr tedit (.list (.str hd :: id :: xs))) k!"fp_poly" FpPoly.fromSexpr :=
  nested_of [] (Footprint.loopEq tedit id hh) Footprint.indep (fun sub => let o : Footprint := { tedit := tedit, libraryNickname := (Footprint.setLibId { tedit := tedit } id).libraryNickname, entryName := (Footprint.setLibId { tedit := tedit } id).entryName }; { o with graphicItems := o.graphicItems ++ [.poly sub] }) fun _ => rfl
example := C59_Footprint_fp_poly (.int 0) (.str k!"x") (.inl rfl) ⟨_, rfl⟩ [.int 1]
theorem C59_Footprint_fp_curve (tedit : Val) {hd : Str} (id : Val) (hh : hd = k!"module" ∨ hd = k!"footprint") : Nested (fun xs => Footprint.fromSexpr tedit (.list (.str hd :: id :: xs))) k!"fp_curve" FpCurve.fromSexpr :=
  nested_of [] (Footprint.loopEq tedit id hh) Footprint.indep (fun sub => let o : Footprint := { tedit := tedit, libraryNickname := (Footprint.setLibId { tedit := tedit } id).libraryNickname, entryName := (Footprint.setLibId { tedit := tedit } id).entryName }; { o with graphicItems := o.graphicItems ++ [.curve sub] }) fun _ => rfl
example := C59_Footprint_fp_curve (.int 0) (.str k!"x") (.inl rfl) ⟨_, rfl⟩ [.int 1]
theorem C59_Footprint_image (tedit : Val) {hd : Str} (id : Val) (hh : hd = k!"module" ∨ hd = k!"footprint") : Nested (fun xs => Footprint.fromSexpr tedit (.list (.str hd :: id :: xs))) k!"image" Image.fromSexpr :=
  nested_of [] (Footprint.loopEq tedit id hh) Footprint.indep (fun sub => let o : Footprint := { tedit := tedit, libraryNickname := (Footprint.setLibId { tedit := tedit } id).libraryNickname, entryName := (Footprint.setLibId { tedit := tedit } id).entryName }; { o with graphicItems := o.graphicItems ++ [.image sub] }) fun _ => rfl
example := C59_Footprint_image (.int 0) (.str k!"x") (.inl rfl) ⟨_, rfl⟩ [.int 1]
theorem C59_Footprint_pad (tedit : Val) {hd : Str} (id : Val) (hh : hd = k!"module" ∨ hd = k!"footprint") : Nested (fun xs => Footprint.fromSexpr tedit (.list (.str hd :: id :: xs))) k!"pad" Pad.fromSexpr :=
  nested_of [] (Footprint.loopEq tedit id hh) Footprint.indep (fun sub => let o : Footprint := { tedit := tedit, libraryNickname := (Footprint.setLibId { tedit := tedit } id).libraryNickname, entryName := (Footprint.setLibId { tedit := tedit } id).entryName }; { o with pads := o.pads ++ [sub] }) fun _ => rfl
example := C59_Footprint_pad (.int 0) (.str k!"x") (.inl rfl) ⟨_, rfl⟩ [.int 1]
theorem C59_Footprint_zone (tedit : Val) {hd : Str} (id : Val) (hh : hd = k!"module" ∨ hd = k!"footprint") : Nested (fun xs => Footprint.fromSexpr tedit (.list (.str hd :: id :: xs))) k!"zone" Zone.fromSexpr :=
  nested_of [] (Footprint.loopEq tedit id hh) Footprint.indep (fun sub => let o : Footprint := { tedit := tedit, libraryNickname := (Footprint.setLibId { tedit := tedit } id).libraryNickname, entryName := (Footprint.setLibId { tedit := tedit } id).entryName }; { o with zones := o.zones ++ [sub] }) fun _ => rfl
example := C59_Footprint_zone (.int 0) (.str k!"x") (.inl rfl) ⟨_, rfl⟩ [.int 1]
theorem C59_Footprint_group (tedit : Val) {hd : Str} (id : Val) (hh : hd = k!"module" ∨ hd = k!"footprint") : Nested (fun xs => Footprint.fromSexpr tedit (.list (.str hd :: id :: xs))) k!"group" Group.fromSexpr :=
  nested_of [] (Footprint.loopEq tedit id hh) Footprint.indep (fun sub => let o : Footprint := { tedit := tedit, libraryNickname := (Footprint.setLibId { tedit := tedit } id).libraryNickname, entryName := (Footprint.setLibId { tedit := tedit } id).entryName }; { o with groups := o.groups ++ [sub] }) fun _ => rfl
example := C59_Footprint_group (.int 0) (.str k!"x") (.inl rfl) ⟨_, rfl⟩ [.int 1]

theorem C59_GeneralSettings : ItemWise (fun xs => GeneralSettings.fromSexpr (.list (.str k!"general" :: xs))) :=
  itemWise_of [.str k!"general"] (GeneralSettings.loopEq) GeneralSettings.indep

theorem C59_Stackup : ItemWise (fun xs => Stackup.fromSexpr (.list (.str k!"stackup" :: xs))) :=
  itemWise_of [.str k!"stackup"] (Stackup.loopEq) Stackup.indep
theorem C59_Stackup_layer : Nested (fun xs => Stackup.fromSexpr (.list (.str k!"stackup" :: xs))) k!"layer" StackupLayer.fromSexpr :=
  nested_of [.str k!"stackup"] (Stackup.loopEq) Stackup.indep (fun sub => let o : Stackup := {}; { o with layers := o.layers ++ [sub] }) fun _ => rfl
example := C59_Stackup_layer ⟨_, rfl⟩ [.int 1]

theorem C59_PlotSettings : ItemWise (fun xs => PlotSettings.fromSexpr (.list (.str k!"pcbplotparams" :: xs))) :=
  itemWise_of [.str k!"pcbplotparams"] (PlotSettings.loopEq) PlotSettings.indep

theorem C59_SetupData : ItemWise (fun xs => SetupData.fromSexpr (.list (.str k!"setup" :: xs))) :=
  itemWise_of [.str k!"setup"] (SetupData.loopEq) SetupData.indep
theorem C59_SetupData_stackup : Nested (fun xs => SetupData.fromSexpr (.list (.str k!"setup" :: xs))) k!"stackup" Stackup.fromSexpr :=
  nested_of [.str k!"setup"] (SetupData.loopEq) SetupData.indep (fun sub => let o : SetupData := {}; { o with stackup := some sub }) fun _ => rfl
example := C59_SetupData_stackup ⟨_, rfl⟩ [.int 1]
theorem C59_SetupData_pcbplotparams : Nested (fun xs => SetupData.fromSexpr (.list (.str k!"setup" :: xs))) k!"pcbplotparams" PlotSettings.fromSexpr :=
  nested_of [.str k!"setup"] (SetupData.loopEq) SetupData.indep (fun sub => let o : SetupData := {}; { o with plotSettings := some sub }) fun _ => rfl
example := C59_SetupData_pcbplotparams ⟨_, rfl⟩ [.int 1]
theorem C59_SetupData_aux_axis_origin : Nested (fun xs => SetupData.fromSexpr (.list (.str k!"setup" :: xs))) k!"aux_axis_origin" Position.fromSexpr :=
  nested_of [.str k!"setup"] (SetupData.loopEq) SetupData.indep (fun sub => let o : SetupData := {}; { o with auxAxisOrigin := some sub }) fun _ => rfl
example := C59_SetupData_aux_axis_origin ⟨_, rfl⟩ [.int 1]
theorem C59_SetupData_grid_origin : Nested (fun xs => SetupData.fromSexpr (.list (.str k!"setup" :: xs))) k!"grid_origin" Position.fromSexpr :=
  nested_of [.str k!"setup"] (SetupData.loopEq) SetupData.indep (fun sub => let o : SetupData := {}; { o with gridOrigin := some sub }) fun _ => rfl
example := C59_SetupData_grid_origin ⟨_, rfl⟩ [.int 1]

theorem C59_Segment : ItemWise (fun xs => Segment.fromSexpr (.list (.str k!"segment" :: xs))) :=
  itemWise_of [.str k!"segment"] (Segment.loopEq) Segment.indep
theorem C59_Segment_start : Nested (fun xs => Segment.fromSexpr (.list (.str k!"segment" :: xs))) k!"start" Position.fromSexpr :=
  nested_of [.str k!"segment"] (Segment.loopEq) Segment.indep (fun sub => let o : Segment := {}; { o with start := sub }) fun _ => rfl
example := C59_Segment_start ⟨_, rfl⟩ [.int 1]

theorem C59_Via : ItemWise (fun xs => Via.fromSexpr (.list (.str k!"via" :: xs))) :=
  itemWise_of [.str k!"via"] (Via.loopEq) Via.indep
theorem C59_Via_at : Nested (fun xs => Via.fromSexpr (.list (.str k!"via" :: xs))) k!"at" Position.fromSexpr :=
  nested_of [.str k!"via"] (Via.loopEq) Via.indep (fun sub => let o : Via := {}; { o with position := sub }) fun _ => rfl
example := C59_Via_at ⟨_, rfl⟩ [.int 1]

theorem C59_TraceArc : ItemWise (fun xs => TraceArc.fromSexpr (.list (.str k!"arc" :: xs))) :=
  itemWise_of [.str k!"arc"] (TraceArc.loopEq) TraceArc.indep
theorem C59_TraceArc_start : Nested (fun xs => TraceArc.fromSexpr (.list (.str k!"arc" :: xs))) k!"start" Position.fromSexpr :=
  nested_of [.str k!"arc"] (TraceArc.loopEq) TraceArc.indep (fun sub => let o : TraceArc := {}; { o with start := sub }) fun _ => rfl
example := C59_TraceArc_start ⟨_, rfl⟩ [.int 1]
theorem C59_TraceArc_mid : Nested (fun xs => TraceArc.fromSexpr (.list (.str k!"arc" :: xs))) k!"mid" Position.fromSexpr :=
  nested_of [.str k!"arc"] (TraceArc.loopEq) TraceArc.indep (fun sub => let o : TraceArc := {}; { o with mid := sub }) fun _ => rfl
example := C59_TraceArc_mid ⟨_, rfl⟩ [.int 1]

theorem C59_Target (a1 : Val) : ItemWise (fun xs => Target.fromSexpr (.list (.str k!"target" :: a1 :: xs))) :=
  itemWise_of [] (Target.loopEq a1) Target.indep
theorem C59_Target_at (a1 : Val) : Nested (fun xs => Target.fromSexpr (.list (.str k!"target" :: a1 :: xs))) k!"at" Position.fromSexpr :=
  nested_of [] (Target.loopEq a1) Target.indep (fun sub => let o : Target := { type := a1 }; { o with position := sub }) fun _ => rfl
example := C59_Target_at (.str k!"x") ⟨_, rfl⟩ [.int 1]

theorem C59_DimensionFormat : ItemWise (fun xs => DimensionFormat.fromSexpr (.list (.str k!"format" :: xs))) :=
  itemWise_of [] (DimensionFormat.loopEq) DimensionFormat.indep

theorem C59_DimensionStyle : ItemWise (fun xs => DimensionStyle.fromSexpr (.list (.str k!"style" :: xs))) :=
  itemWise_of [] (DimensionStyle.loopEq) DimensionStyle.indep

theorem C59_Dimension : ItemWise (fun xs => Dimension.fromSexpr (.list (.str k!"dimension" :: xs))) :=
  itemWise_of [] (Dimension.loopEq) Dimension.indep
theorem C59_Dimension_gr_text : Nested (fun xs => Dimension.fromSexpr (.list (.str k!"dimension" :: xs))) k!"gr_text" GrText.fromSexpr :=
  nested_of [] (Dimension.loopEq) Dimension.indep (fun sub => let o : Dimension := {}; { o with grText := some sub }) fun _ => rfl
example := C59_Dimension_gr_text ⟨_, rfl⟩ [.int 1]
theorem C59_Dimension_format : Nested (fun xs => Dimension.fromSexpr (.list (.str k!"dimension" :: xs))) k!"format" DimensionFormat.fromSexpr :=
  nested_of [] (Dimension.loopEq) Dimension.indep (fun sub => let o : Dimension := {}; { o with format := some sub }) fun _ => rfl
example := C59_Dimension_format ⟨_, rfl⟩ [.int 1]
theorem C59_Dimension_style : Nested (fun xs => Dimension.fromSexpr (.list (.str k!"dimension" :: xs))) k!"style" DimensionStyle.fromSexpr :=
  nested_of [] (Dimension.loopEq) Dimension.indep (fun sub => let o : Dimension := {}; { o with style := sub }) fun _ => rfl
example := C59_Dimension_style ⟨_, rfl⟩ [.int 1]
theorem C59_Dimension_pts : NestedAll (fun xs => Dimension.fromSexpr (.list (.str k!"dimension" :: xs))) k!"pts" Position.fromSexpr :=
  nestedAll_of [] (Dimension.loopEq) Dimension.indep (fun sub => let o : Dimension := {}; { o with pts := o.pts ++ sub }) fun _ => rfl
example := C59_Dimension_pts ⟨_, rfl⟩ [.int 1]

theorem C59_Board (tedit : Val) : ItemWise (fun xs => Board.fromSexpr tedit (.list (.str k!"kicad_pcb" :: xs))) :=
  itemWise_of [.str k!"kicad_pcb"] (Board.loopEq tedit) (Board.indep tedit)
theorem C59_Board_general (tedit : Val) : Nested (fun xs => Board.fromSexpr tedit (.list (.str k!"kicad_pcb" :: xs))) k!"general" GeneralSettings.fromSexpr :=
  nested_of [.str k!"kicad_pcb"] (Board.loopEq tedit) (Board.indep tedit) (fun sub => let o : Board := {}; { o with general := sub }) fun _ => rfl
example := C59_Board_general (.int 0) ⟨_, rfl⟩ [.int 1]
theorem C59_Board_paper (tedit : Val) : Nested (fun xs => Board.fromSexpr tedit (.list (.str k!"kicad_pcb" :: xs))) k!"paper" PageSettings.fromSexpr :=
  nested_of [.str k!"kicad_pcb"] (Board.loopEq tedit) (Board.indep tedit) (fun sub => let o : Board := {}; { o with paper := sub }) fun _ => rfl
example := C59_Board_paper (.int 0) ⟨_, rfl⟩ [.int 1]
theorem C59_Board_title_block (tedit : Val) : Nested (fun xs => Board.fromSexpr tedit (.list (.str k!"kicad_pcb" :: xs))) k!"title_block" TitleBlock.fromSexpr :=
  nested_of [.str k!"kicad_pcb"] (Board.loopEq tedit) (Board.indep tedit) (fun sub => let o : Board := {}; { o with titleBlock := some sub }) fun _ => rfl
example := C59_Board_title_block (.int 0) ⟨_, rfl⟩ [.int 1]
theorem C59_Board_layers (tedit : Val) : NestedAll (fun xs => Board.fromSexpr tedit (.list (.str k!"kicad_pcb" :: xs))) k!"layers" LayerToken.fromSexpr :=
  nestedAll_of [.str k!"kicad_pcb"] (Board.loopEq tedit) (Board.indep tedit) (fun sub => let o : Board := {}; { o with layers := o.layers ++ sub }) fun _ => rfl
example := C59_Board_layers (.int 0) ⟨_, rfl⟩ [.int 1]
theorem C59_Board_setup (tedit : Val) : Nested (fun xs => Board.fromSexpr tedit (.list (.str k!"kicad_pcb" :: xs))) k!"setup" SetupData.fromSexpr :=
  nested_of [.str k!"kicad_pcb"] (Board.loopEq tedit) (Board.indep tedit) (fun sub => let o : Board := {}; { o with setup := sub }) fun _ => rfl
example := C59_Board_setup (.int 0) ⟨_, rfl⟩ [.int 1]
theorem C59_Board_net (tedit : Val) : Nested (fun xs => Board.fromSexpr tedit (.list (.str k!"kicad_pcb" :: xs))) k!"net" Net.fromSexpr :=
  nested_of [.str k!"kicad_pcb"] (Board.loopEq tedit) (Board.indep tedit) (fun sub => let o : Board := {}; { o with nets := o.nets ++ [sub] }) fun _ => rfl
example := C59_Board_net (.int 0) ⟨_, rfl⟩ [.int 1]
theorem C59_Board_footprint (tedit : Val) : Nested (fun xs => Board.fromSexpr tedit (.list (.str k!"kicad_pcb" :: xs))) k!"footprint" (Footprint.fromSexpr tedit) :=
  nested_of [.str k!"kicad_pcb"] (Board.loopEq tedit) (Board.indep tedit) (fun sub => let o : Board := {}; { o with footprints := o.footprints ++ [sub] }) fun _ => rfl
example := C59_Board_footprint (.int 0) ⟨_, rfl⟩ [.int 1]
theorem C59_Board_gr_text (tedit : Val) : Nested (fun xs => Board.fromSexpr tedit (.list (.str k!"kicad_pcb" :: xs))) k!"gr_text" GrText.fromSexpr :=
  nested_of [.str k!"kicad_pcb"] (Board.loopEq tedit) (Board.indep tedit) (fun sub => let o : Board := {}; { o with graphicItems := o.graphicItems ++ [.text sub] }) fun _ => rfl
example := C59_Board_gr_text (.int 0) ⟨_, rfl⟩ [.int 1]
theorem C59_Board_gr_text_box (tedit : Val) : Nested (fun xs => Board.fromSexpr tedit (.list (.str k!"kicad_pcb" :: xs))) k!"gr_text_box" GrTextBox.fromSexpr :=
  nested_of [.str k!"kicad_pcb"] (Board.loopEq tedit) (Board.indep tedit) (fun sub => let o : Board := {}; { o with graphicItems := o.graphicItems ++ [.textBox sub] }) fun _ => rfl
example := C59_Board_gr_text_box (.int 0) ⟨_, rfl⟩ [.int 1]
theorem C59_Board_gr_line (tedit : Val) : Nested (fun xs => Board.fromSexpr tedit (.list (.str k!"kicad_pcb" :: xs))) k!"gr_line" GrLine.fromSexpr :=
  nested_of [.str k!"kicad_pcb"] (Board.loopEq tedit) (Board.indep tedit) (fun sub => let o : Board := {}; { o with graphicItems := o.graphicItems ++ [.line sub] }) fun _ => rfl
example := C59_Board_gr_line (.int 0) ⟨_, rfl⟩ [.int 1]
theorem C59_Board_gr_rect (tedit : Val) : Nested (fun xs => Board.fromSexpr tedit (.list (.str k!"kicad_pcb" :: xs))) k!"gr_rect" GrRect.fromSexpr :=
  nested_of [.str k!"kicad_pcb"] (Board.loopEq tedit) (Board.indep tedit) (fun sub => let o : Board := {}; { o with graphicItems := o.graphicItems ++ [.rect sub] }) fun _ => rfl
example := C59_Board_gr_rect (.int 0) ⟨_, rfl⟩ [.int 1]
theorem C59_Board_gr_circle (tedit : Val) : Nested (fun xs => Board.fromSexpr tedit (.list (.str k!"kicad_pcb" :: xs))) k!"gr_circle" GrCircle.fromSexpr :=
  nested_of [.str k!"kicad_pcb"] (Board.loopEq tedit) (Board.indep tedit) (fun sub => let o : Board := {}; { o with graphicItems := o.graphicItems ++ [.circle sub] }) fun _ => rfl
example := C59_Board_gr_circle (.int 0) ⟨_, rfl⟩ [.int 1]
theorem C59_Board_gr_arc (tedit : Val) : Nested (fun xs => Board.fromSexpr tedit (.list (.str k!"kicad_pcb" :: xs))) k!"gr_arc" GrArc.fromSexpr :=
  nested_of [.str k!"kicad_pcb"] (Board.loopEq tedit) (Board.indep tedit) (fun sub => let o : Board := {}; { o with graphicItems := o.graphicItems ++ [.arc sub] }) fun _ => rfl
example := C59_Board_gr_arc (.int 0) ⟨_, rfl⟩ [.int 1]
theorem C59_Board_gr_poly (tedit : Val) : Nested (fun xs => Board.fromSexpr tedit (.list (.str k!"kicad_pcb" :: xs))) k!"gr_poly" GrPoly.fromSexpr :=
  nested_of [.str k!"kicad_pcb"] (Board.loopEq tedit) (Board.indep tedit) (fun sub => let o : Board := {}; { o with graphicItems := o.graphicItems ++ [.poly sub] }) fun _ => rfl
example := C59_Board_gr_poly (.int 0) ⟨_, rfl⟩ [.int 1]
theorem C59_Board_gr_curve (tedit : Val) : Nested (fun xs => Board.fromSexpr tedit (.list (.str k!"kicad_pcb" :: xs))) k!"gr_curve" GrCurve.fromSexpr :=
  nested_of [.str k!"kicad_pcb"] (Board.loopEq tedit) (Board.indep tedit) (fun sub => let o : Board := {}; { o with graphicItems := o.graphicItems ++ [.curve sub] }) fun _ => rfl
example := C59_Board_gr_curve (.int 0) ⟨_, rfl⟩ [.int 1]
theorem C59_Board_image (tedit : Val) : Nested (fun xs => Board.fromSexpr tedit (.list (.str k!"kicad_pcb" :: xs))) k!"image" Image.fromSexpr :=
  nested_of [.str k!"kicad_pcb"] (Board.loopEq tedit) (Board.indep tedit) (fun sub => let o : Board := {}; { o with graphicItems := o.graphicItems ++ [.image sub] }) fun _ => rfl
example := C59_Board_image (.int 0) ⟨_, rfl⟩ [.int 1]
theorem C59_Board_dimension (tedit : Val) : Nested (fun xs => Board.fromSexpr tedit (.list (.str k!"kicad_pcb" :: xs))) k!"dimension" Dimension.fromSexpr :=
  nested_of [.str k!"kicad_pcb"] (Board.loopEq tedit) (Board.indep tedit) (fun sub => let o : Board := {}; { o with dimensions := o.dimensions ++ [sub] }) fun _ => rfl
example := C59_Board_dimension (.int 0) ⟨_, rfl⟩ [.int 1]
theorem C59_Board_target (tedit : Val) : Nested (fun xs => Board.fromSexpr tedit (.list (.str k!"kicad_pcb" :: xs))) k!"target" Target.fromSexpr :=
  nested_of [.str k!"kicad_pcb"] (Board.loopEq tedit) (Board.indep tedit) (fun sub => let o : Board := {}; { o with targets := o.targets ++ [sub] }) fun _ => rfl
example := C59_Board_target (.int 0) ⟨_, rfl⟩ [.int 1]
theorem C59_Board_segment (tedit : Val) : Nested (fun xs => Board.fromSexpr tedit (.list (.str k!"kicad_pcb" :: xs))) k!"segment" Segment.fromSexpr :=
  nested_of [.str k!"kicad_pcb"] (Board.loopEq tedit) (Board.indep tedit) (fun sub => let o : Board := {}; { o with traceItems := o.traceItems ++ [.segment sub] }) fun _ => rfl
example := C59_Board_segment (.int 0) ⟨_, rfl⟩ [.int 1]
theorem C59_Board_arc (tedit : Val) : Nested (fun xs => Board.fromSexpr tedit (.list (.str k!"kicad_pcb" :: xs))) k!"arc" TraceArc.fromSexpr :=
  nested_of [.str k!"kicad_pcb"] (Board.loopEq tedit) (Board.indep tedit) (fun sub => let o : Board := {}; { o with traceItems := o.traceItems ++ [.arc sub] }) fun _ => rfl
example := C59_Board_arc (.int 0) ⟨_, rfl⟩ [.int 1]
theorem C59_Board_via (tedit : Val) : Nested (fun xs => Board.fromSexpr tedit (.list (.str k!"kicad_pcb" :: xs))) k!"via" Via.fromSexpr :=
  nested_of [.str k!"kicad_pcb"] (Board.loopEq tedit) (Board.indep tedit) (fun sub => let o : Board := {}; { o with traceItems := o.traceItems ++ [.via sub] }) fun _ => rfl
example := C59_Board_via (.int 0) ⟨_, rfl⟩ [.int 1]
theorem C59_Board_zone (tedit : Val) : Nested (fun xs => Board.fromSexpr tedit (.list (.str k!"kicad_pcb" :: xs))) k!"zone" Zone.fromSexpr :=
  nested_of [.str k!"kicad_pcb"] (Board.loopEq tedit) (Board.indep tedit) (fun sub => let o : Board := {}; { o with zones := o.zones ++ [sub] }) fun _ => rfl
example := C59_Board_zone (.int 0) ⟨_, rfl⟩ [.int 1]
theorem C59_Board_group (tedit : Val) : Nested (fun xs => Board.fromSexpr tedit (.list (.str k!"kicad_pcb" :: xs))) k!"group" Group.fromSexpr :=
  nested_of [.str k!"kicad_pcb"] (Board.loopEq tedit) (Board.indep tedit) (fun sub => let o : Board := {}; { o with groups := o.groups ++ [sub] }) fun _ => rfl
example := C59_Board_group (.int 0) ⟨_, rfl⟩ [.int 1]

/-- A symbol is accepted if its name is and its children are; the units are nested to any depth. -/
theorem C59_Symbol {id : Val} {s : Symbol} (hs : Symbol.setLibId {} id = .ok s) : ItemWise (fun xs => Symbol.fromSexpr (.list (.str k!"symbol" :: id :: xs))) :=
  itemWise_of [] (Symbol.loopEq hs) Symbol.indep
example := C59_Symbol (id := .str k!"Device:R") rfl
theorem C59_Symbol_symbol {id : Val} {s : Symbol} (hs : Symbol.setLibId {} id = .ok s) : Nested (fun xs => Symbol.fromSexpr (.list (.str k!"symbol" :: id :: xs))) k!"symbol" Symbol.fromSexpr :=
  nested_of [] (Symbol.loopEq hs) Symbol.indep (fun sub => let o : Symbol := { libraryNickname := s.libraryNickname, entryName := s.entryName, unitId := s.unitId, styleId := s.styleId }; { o with units := o.units ++ [sub] }) fun _ => rfl
example := C59_Symbol_symbol (id := .str k!"x") rfl ⟨_, rfl⟩ [.int 1]
theorem C59_Symbol_property {id : Val} {s : Symbol} (hs : Symbol.setLibId {} id = .ok s) : Nested (fun xs => Symbol.fromSexpr (.list (.str k!"symbol" :: id :: xs))) k!"property" Property.fromSexpr :=
  nested_of [] (Symbol.loopEq hs) Symbol.indep (fun sub => let o : Symbol := { libraryNickname := s.libraryNickname, entryName := s.entryName, unitId := s.unitId, styleId := s.styleId }; { o with properties := o.properties ++ [sub] }) fun _ => rfl
example := C59_Symbol_property (id := .str k!"x") rfl ⟨_, rfl⟩ [.int 1]
theorem C59_Symbol_pin {id : Val} {s : Symbol} (hs : Symbol.setLibId {} id = .ok s) : Nested (fun xs => Symbol.fromSexpr (.list (.str k!"symbol" :: id :: xs))) k!"pin" SymbolPin.fromSexpr :=
  nested_of [] (Symbol.loopEq hs) Symbol.indep (fun sub => let o : Symbol := { libraryNickname := s.libraryNickname, entryName := s.entryName, unitId := s.unitId, styleId := s.styleId }; { o with pins := o.pins ++ [sub] }) fun _ => rfl
example := C59_Symbol_pin (id := .str k!"x") rfl ⟨_, rfl⟩ [.int 1]
theorem C59_Symbol_arc {id : Val} {s : Symbol} (hs : Symbol.setLibId {} id = .ok s) : Nested (fun xs => Symbol.fromSexpr (.list (.str k!"symbol" :: id :: xs))) k!"arc" SyArc.fromSexpr :=
  nested_of [] (Symbol.loopEq hs) Symbol.indep (fun sub => let o : Symbol := { libraryNickname := s.libraryNickname, entryName := s.entryName, unitId := s.unitId, styleId := s.styleId }; { o with graphicItems := o.graphicItems ++ [.arc sub] }) fun _ => rfl
example := C59_Symbol_arc (id := .str k!"x") rfl ⟨_, rfl⟩ [.int 1]
theorem C59_Symbol_circle {id : Val} {s : Symbol} (hs : Symbol.setLibId {} id = .ok s) : Nested (fun xs => Symbol.fromSexpr (.list (.str k!"symbol" :: id :: xs))) k!"circle" SyCircle.fromSexpr :=
  nested_of [] (Symbol.loopEq hs) Symbol.indep (fun sub => let o : Symbol := { libraryNickname := s.libraryNickname, entryName := s.entryName, unitId := s.unitId, styleId := s.styleId }; { o with graphicItems := o.graphicItems ++ [.circle sub] }) fun _ => rfl
example := C59_Symbol_circle (id := .str k!"x") rfl ⟨_, rfl⟩ [.int 1]
theorem C59_Symbol_curve {id : Val} {s : Symbol} (hs : Symbol.setLibId {} id = .ok s) : Nested (fun xs => Symbol.fromSexpr (.list (.str k!"symbol" :: id :: xs))) k!"curve" SyCurve.fromSexpr :=
  nested_of [] (Symbol.loopEq hs) Symbol.indep (fun sub => let o : Symbol := { libraryNickname := s.libraryNickname, entryName := s.entryName, unitId := s.unitId, styleId := s.styleId }; { o with graphicItems := o.graphicItems ++ [.curve sub] }) fun _ => rfl
example := C59_Symbol_curve (id := .str k!"x") rfl ⟨_, rfl⟩ [.int 1]
theorem C59_Symbol_polyline {id : Val} {s : Symbol} (hs : Symbol.setLibId {} id = .ok s) : Nested (fun xs => Symbol.fromSexpr (.list (.str k!"symbol" :: id :: xs))) k!"polyline" SyPolyLine.fromSexpr :=
  nested_of [] (Symbol.loopEq hs) Symbol.indep (fun sub => let o : Symbol := { libraryNickname := s.libraryNickname, entryName := s.entryName, unitId := s.unitId, styleId := s.styleId }; { o with graphicItems := o.graphicItems ++ [.polyline sub] }) fun _ => rfl
example := C59_Symbol_polyline (id := .str k!"x") rfl ⟨_, rfl⟩ [.int 1]
theorem C59_Symbol_rectangle {id : Val} {s : Symbol} (hs : Symbol.setLibId {} id = .ok s) : Nested (fun xs => Symbol.fromSexpr (.list (.str k!"symbol" :: id :: xs))) k!"rectangle" SyRect.fromSexpr :=
  nested_of [] (Symbol.loopEq hs) Symbol.indep (fun sub => let o : Symbol := { libraryNickname := s.libraryNickname, entryName := s.entryName, unitId := s.unitId, styleId := s.styleId }; { o with graphicItems := o.graphicItems ++ [.rect sub] }) fun _ => rfl
example := C59_Symbol_rectangle (id := .str k!"x") rfl ⟨_, rfl⟩ [.int 1]
theorem C59_Symbol_text {id : Val} {s : Symbol} (hs : Symbol.setLibId {} id = .ok s) : Nested (fun xs => Symbol.fromSexpr (.list (.str k!"symbol" :: id :: xs))) k!"text" SyText.fromSexpr :=
  nested_of [] (Symbol.loopEq hs) Symbol.indep (fun sub => let o : Symbol := { libraryNickname := s.libraryNickname, entryName := s.entryName, unitId := s.unitId, styleId := s.styleId }; { o with graphicItems := o.graphicItems ++ [.text sub] }) fun _ => rfl
example := C59_Symbol_text (id := .str k!"x") rfl ⟨_, rfl⟩ [.int 1]
theorem C59_Symbol_text_box {id : Val} {s : Symbol} (hs : Symbol.setLibId {} id = .ok s) : Nested (fun xs => Symbol.fromSexpr (.list (.str k!"symbol" :: id :: xs))) k!"text_box" SyTextBox.fromSexpr :=
  nested_of [] (Symbol.loopEq hs) Symbol.indep (fun sub => let o : Symbol := { libraryNickname := s.libraryNickname, entryName := s.entryName, unitId := s.unitId, styleId := s.styleId }; { o with graphicItems := o.graphicItems ++ [.textBox sub] }) fun _ => rfl
example := C59_Symbol_text_box (id := .str k!"x") rfl ⟨_, rfl⟩ [.int 1]

/-! ## Examples: the hypotheses can be met, and both sides of the equivalences occur. -/

example (tedit : Val) : ∃ o, Board.fromSexpr tedit (.list (.str k!"kicad_pcb" :: [])) = .ok o := ⟨_, rfl⟩
/-- A board whose second child is a net without a name is rejected, whatever comes before and behind. -/
example (tedit : Val) (a : Val) (r : List Val) (o : Board) :
    Board.fromSexpr tedit (.list (.str k!"kicad_pcb" :: a :: .list [.str k!"net", .int 1] :: r)) ≠ .ok o := fun h => by
  obtain ⟨n, hn⟩ := (C59_Board_net tedit ⟨_, rfl⟩ _).mp (((C59_Board tedit _).mp ⟨o, h⟩).2 _ (List.mem_cons_of_mem _ List.mem_cons_self))
  exact nomatch hn
/-- A board with two nets is accepted because each net is. -/
example (tedit : Val) (a b : Val) :
    ∃ o, Board.fromSexpr tedit (.list (.str k!"kicad_pcb" :: [.list [.str k!"net", .int 1, a], .list [.str k!"net", .int 2, b]])) = .ok o :=
  (C59_Board tedit _).mpr ⟨⟨_, rfl⟩, fun x hx => by
    rcases List.mem_cons.mp hx with rfl | hx
    · exact (C59_Board_net tedit ⟨_, rfl⟩ _).mpr ⟨_, rfl⟩
    · rw [List.mem_singleton.mp hx]
      exact (C59_Board_net tedit ⟨_, rfl⟩ _).mpr ⟨_, rfl⟩⟩
example : ∃ s, Symbol.setLibId {} (.str k!"Device:R") = .ok s := ⟨_, rfl⟩

end Kiutils
