import Verif.Alike
import Verif.Props.ItemWise
import Verif.Props.TokensBoard
import Verif.Props.TokensBrdItems
import Verif.Props.TokensCommon
import Verif.Props.TokensDimensions
import Verif.Props.TokensDru
import Verif.Props.TokensFootprint
import Verif.Props.TokensFpItems
import Verif.Props.TokensGrItems
import Verif.Props.TokensLibraries
import Verif.Props.TokensSchItems
import Verif.Props.TokensSchematic
import Verif.Props.TokensSyItems
import Verif.Props.TokensSymbol
import Verif.Props.TokensSymbolUnits
import Verif.Props.TokensWks
import Verif.Props.TokensZones
import Verif.Props.InPlace
/-!
# Lemmas for C76: one step of "says the same"
-/
namespace Kiutils

/-! ## Lemmas -/

theorem forM_at {σ : Type} {step : σ → Val → PyM σ} {x x' : Val} (hx : ∀ o o', step o x = .ok o' ↔ step o x' = .ok o') (a b : List Val) :
    ∀ s o, forM step s (a ++ x :: b) = .ok o ↔ forM step s (a ++ x' :: b) = .ok o := by
  induction a with
  | nil =>
    intro s o
    show (step s x >>= fun s => forM step s b) = .ok o ↔ (step s x' >>= fun s => forM step s b) = .ok o
    constructor
    · intro h
      obtain ⟨s1, h1, h2⟩ := bind_ok_split h
      rw [(hx ..).1 h1]; exact h2
    · intro h
      obtain ⟨s1, h1, h2⟩ := bind_ok_split h
      rw [(hx ..).2 h1]; exact h2
  | cons c a ih =>
    intro s o
    show (step s c >>= fun s => forM step s _) = .ok o ↔ (step s c >>= fun s => forM step s _) = .ok o
    cases step s c with
    | error e => exact Iff.rfl
    | ok s1 => exact ih s1 o

theorem bind_iff {α β : Type} {m m' : PyM α} {f : α → PyM β} (h : ∀ b, m = .ok b ↔ m' = .ok b) (o : β) : (m >>= f) = .ok o ↔ (m' >>= f) = .ok o := by
  constructor
  · intro hm
    obtain ⟨b, h1, h2⟩ := bind_ok_split hm
    rw [(h b).1 h1]; exact h2
  · intro hm
    obtain ⟨b, h1, h2⟩ := bind_ok_split hm
    rw [(h b).2 h1]; exact h2

theorem child_of {σ β : Type} {step : σ → Val → PyM σ} {load : List Val → PyM σ} {s : σ} (pre : List Val)
    (hl : ∀ xs, load xs = forM step s (pre ++ xs)) {sub : Val → PyM β} (f : σ → β → σ) {w : Str} {r r' : List Val}
    (hs : ∀ o r, step o (.list (.str w :: r)) = (sub (.list (.str w :: r)) >>= fun b => .ok (f o b)))
    (h : ∀ b, sub (.list (.str w :: r)) = .ok b ↔ sub (.list (.str w :: r')) = .ok b) (xs ys : List Val) (o : σ) :
    load (xs ++ .list (.str w :: r) :: ys) = .ok o ↔ load (xs ++ .list (.str w :: r') :: ys) = .ok o := by
  rw [hl, hl, ← List.append_assoc, ← List.append_assoc]
  exact forM_at (fun o o' => by rw [hs, hs]; exact bind_iff h o') _ _ s o

theorem mapM'_at {β : Type} {sub : Val → PyM β} {v v' : Val} (h : ∀ b, sub v = .ok b ↔ sub v' = .ok b) (a b : List Val) :
    ∀ l, mapM' sub (a ++ v :: b) = .ok l ↔ mapM' sub (a ++ v' :: b) = .ok l := by
  induction a with
  | nil => exact fun l => bind_iff h l
  | cons c a ih =>
    intro l
    show (sub c >>= fun y => mapM' sub (a ++ v :: b) >>= fun ys => Except.ok (y :: ys)) = .ok l ↔
      (sub c >>= fun y => mapM' sub (a ++ v' :: b) >>= fun ys => Except.ok (y :: ys)) = .ok l
    cases sub c with
    | error e => exact Iff.rfl
    | ok y => exact bind_iff ih l

theorem grandchild_of {σ β : Type} {step : σ → Val → PyM σ} {load : List Val → PyM σ} {s : σ} (pre : List Val)
    (hl : ∀ xs, load xs = forM step s (pre ++ xs)) {sub : Val → PyM β} (f : σ → List β → σ) {w : Str} {v v' : Val}
    (hs : ∀ o r, step o (.list (.str w :: r)) = (mapM' sub r >>= fun b => .ok (f o b)))
    (h : ∀ b, sub v = .ok b ↔ sub v' = .ok b) (as bs xs ys : List Val) (o : σ) :
    load (xs ++ .list (.str w :: (as ++ v :: bs)) :: ys) = .ok o ↔ load (xs ++ .list (.str w :: (as ++ v' :: bs)) :: ys) = .ok o := by
  rw [hl, hl, ← List.append_assoc, ← List.append_assoc]
  exact forM_at (fun o o' => by rw [hs, hs]; exact bind_iff (mapM'_at h as bs) o') _ _ s o

theorem Val.is_ne {v : Val} {w : Str} (h : v ≠ .str w) : v.is w = false :=
  is_false_of_ne (ks := [w]) (fun x hx => by rw [List.mem_singleton.1 hx]; exact h) (List.mem_singleton.2 rfl)

theorem same_of_eq {α : Type} {m m' : PyM α} (h : m = m') (o : α) : m = .ok o ↔ m' = .ok o := by rw [h]

theorem SaysSame.Board_unknown {s : List Val} (h : ExpKind.Board.Start s) (xs ys : List Val) {u : Val} {r : List Val} (hu : ∀ w ∈ ExpKind.Board.known, u ≠ .str w) :
    ExpKind.Board.Same (.list (s ++ (xs ++ .list (u :: r) :: ys))) (.list (s ++ (xs ++ ys))) := by
  cases h
  intro tedit o
  exact same_of_eq (C10_Board tedit xs ys hu) o
theorem SaysSame.Board_order {s : List Val} (h : ExpKind.Board.Start s) {xs ys : List Val} (hr : Reordered ExpKind.Board.together xs ys) :
    ExpKind.Board.Same (.list (s ++ xs)) (.list (s ++ ys)) := by
  cases h
  intro tedit o
  exact C36_Board tedit hr o

theorem SaysSame.GeneralSettings_unknown {s : List Val} (h : ExpKind.GeneralSettings.Start s) (xs ys : List Val) {u : Val} {r : List Val} (hu : ∀ w ∈ ExpKind.GeneralSettings.known, u ≠ .str w) :
    ExpKind.GeneralSettings.Same (.list (s ++ (xs ++ .list (u :: r) :: ys))) (.list (s ++ (xs ++ ys))) := by
  cases h
  intro o
  exact same_of_eq (C10_GeneralSettings  xs ys hu) o
theorem SaysSame.GeneralSettings_order {s : List Val} (h : ExpKind.GeneralSettings.Start s) {xs ys : List Val} (hr : Reordered ExpKind.GeneralSettings.together xs ys) :
    ExpKind.GeneralSettings.Same (.list (s ++ xs)) (.list (s ++ ys)) := by
  cases h
  intro o
  exact C36_GeneralSettings  hr o

theorem SaysSame.Stackup_unknown {s : List Val} (h : ExpKind.Stackup.Start s) (xs ys : List Val) {u : Val} {r : List Val} (hu : ∀ w ∈ ExpKind.Stackup.known, u ≠ .str w) :
    ExpKind.Stackup.Same (.list (s ++ (xs ++ .list (u :: r) :: ys))) (.list (s ++ (xs ++ ys))) := by
  cases h
  intro o
  exact same_of_eq (C10_Stackup  xs ys hu) o
theorem SaysSame.Stackup_order {s : List Val} (h : ExpKind.Stackup.Start s) {xs ys : List Val} (hr : Reordered ExpKind.Stackup.together xs ys) :
    ExpKind.Stackup.Same (.list (s ++ xs)) (.list (s ++ ys)) := by
  cases h
  intro o
  exact C36_Stackup  hr o

theorem SaysSame.PlotSettings_unknown {s : List Val} (h : ExpKind.PlotSettings.Start s) (xs ys : List Val) {u : Val} {r : List Val} (hu : ∀ w ∈ ExpKind.PlotSettings.known, u ≠ .str w) :
    ExpKind.PlotSettings.Same (.list (s ++ (xs ++ .list (u :: r) :: ys))) (.list (s ++ (xs ++ ys))) := by
  cases h
  intro o
  exact same_of_eq (C10_PlotSettings  xs ys hu) o
theorem SaysSame.PlotSettings_order {s : List Val} (h : ExpKind.PlotSettings.Start s) {xs ys : List Val} (hr : Reordered ExpKind.PlotSettings.together xs ys) :
    ExpKind.PlotSettings.Same (.list (s ++ xs)) (.list (s ++ ys)) := by
  cases h
  intro o
  exact C36_PlotSettings  hr o

theorem SaysSame.SetupData_unknown {s : List Val} (h : ExpKind.SetupData.Start s) (xs ys : List Val) {u : Val} {r : List Val} (hu : ∀ w ∈ ExpKind.SetupData.known, u ≠ .str w) :
    ExpKind.SetupData.Same (.list (s ++ (xs ++ .list (u :: r) :: ys))) (.list (s ++ (xs ++ ys))) := by
  cases h
  intro o
  exact same_of_eq (C10_SetupData  xs ys hu) o
theorem SaysSame.SetupData_order {s : List Val} (h : ExpKind.SetupData.Start s) {xs ys : List Val} (hr : Reordered ExpKind.SetupData.together xs ys) :
    ExpKind.SetupData.Same (.list (s ++ xs)) (.list (s ++ ys)) := by
  cases h
  intro o
  exact C36_SetupData  hr o

theorem SaysSame.Segment_unknown {s : List Val} (h : ExpKind.Segment.Start s) (xs ys : List Val) {u : Val} {r : List Val} (hu : ∀ w ∈ ExpKind.Segment.known, u ≠ .str w) :
    ExpKind.Segment.Same (.list (s ++ (xs ++ .list (u :: r) :: ys))) (.list (s ++ (xs ++ ys))) := by
  cases h
  intro o
  exact same_of_eq (C10_Segment  xs ys hu) o
theorem SaysSame.Segment_order {s : List Val} (h : ExpKind.Segment.Start s) {xs ys : List Val} (hr : Reordered ExpKind.Segment.together xs ys) :
    ExpKind.Segment.Same (.list (s ++ xs)) (.list (s ++ ys)) := by
  cases h
  intro o
  exact C36_Segment  hr o

theorem SaysSame.Via_unknown {s : List Val} (h : ExpKind.Via.Start s) (xs ys : List Val) {u : Val} {r : List Val} (hu : ∀ w ∈ ExpKind.Via.known, u ≠ .str w) :
    ExpKind.Via.Same (.list (s ++ (xs ++ .list (u :: r) :: ys))) (.list (s ++ (xs ++ ys))) := by
  cases h
  intro o
  exact same_of_eq (C10_Via  xs ys hu) o
theorem SaysSame.Via_order {s : List Val} (h : ExpKind.Via.Start s) {xs ys : List Val} (hr : Reordered ExpKind.Via.together xs ys) :
    ExpKind.Via.Same (.list (s ++ xs)) (.list (s ++ ys)) := by
  cases h
  intro o
  exact C36_Via  hr o

theorem SaysSame.TraceArc_unknown {s : List Val} (h : ExpKind.TraceArc.Start s) (xs ys : List Val) {u : Val} {r : List Val} (hu : ∀ w ∈ ExpKind.TraceArc.known, u ≠ .str w) :
    ExpKind.TraceArc.Same (.list (s ++ (xs ++ .list (u :: r) :: ys))) (.list (s ++ (xs ++ ys))) := by
  cases h
  intro o
  exact same_of_eq (C10_TraceArc  xs ys hu) o
theorem SaysSame.TraceArc_order {s : List Val} (h : ExpKind.TraceArc.Start s) {xs ys : List Val} (hr : Reordered ExpKind.TraceArc.together xs ys) :
    ExpKind.TraceArc.Same (.list (s ++ xs)) (.list (s ++ ys)) := by
  cases h
  intro o
  exact C36_TraceArc  hr o

theorem SaysSame.Target_unknown {s : List Val} (h : ExpKind.Target.Start s) (xs ys : List Val) {u : Val} {r : List Val} (hu : ∀ w ∈ ExpKind.Target.known, u ≠ .str w) :
    ExpKind.Target.Same (.list (s ++ (xs ++ .list (u :: r) :: ys))) (.list (s ++ (xs ++ ys))) := by
  obtain ⟨a1, rfl⟩ := h
  intro o
  exact same_of_eq (C10_Target a1 xs ys hu) o
theorem SaysSame.Target_order {s : List Val} (h : ExpKind.Target.Start s) {xs ys : List Val} (hr : Reordered ExpKind.Target.together xs ys) :
    ExpKind.Target.Same (.list (s ++ xs)) (.list (s ++ ys)) := by
  obtain ⟨a1, rfl⟩ := h
  intro o
  exact C36_Target a1 hr o

theorem SaysSame.Stroke_unknown {s : List Val} (h : ExpKind.Stroke.Start s) (xs ys : List Val) {u : Val} {r : List Val} (hu : ∀ w ∈ ExpKind.Stroke.known, u ≠ .str w) :
    ExpKind.Stroke.Same (.list (s ++ (xs ++ .list (u :: r) :: ys))) (.list (s ++ (xs ++ ys))) := by
  obtain ⟨a, rfl⟩ := h
  intro o
  exact same_of_eq (C10_Stroke a xs ys hu) o
theorem SaysSame.Stroke_order {s : List Val} (h : ExpKind.Stroke.Start s) {xs ys : List Val} (hr : Reordered ExpKind.Stroke.together xs ys) :
    ExpKind.Stroke.Same (.list (s ++ xs)) (.list (s ++ ys)) := by
  obtain ⟨a, rfl⟩ := h
  intro o
  exact C36_Stroke a hr o

theorem SaysSame.Font_unknown {s : List Val} (h : ExpKind.Font.Start s) (xs ys : List Val) {u : Val} {r : List Val} (hu : ∀ w ∈ ExpKind.Font.known, u ≠ .str w) :
    ExpKind.Font.Same (.list (s ++ (xs ++ .list (u :: r) :: ys))) (.list (s ++ (xs ++ ys))) := by
  cases h
  intro o
  exact same_of_eq (C10_Font  xs ys hu) o
theorem SaysSame.Font_order {s : List Val} (h : ExpKind.Font.Start s) {xs ys : List Val} (hr : Reordered ExpKind.Font.together xs ys) :
    ExpKind.Font.Same (.list (s ++ xs)) (.list (s ++ ys)) := by
  cases h
  intro o
  exact C36_Font  hr o

theorem SaysSame.Effects_unknown {s : List Val} (h : ExpKind.Effects.Start s) (xs ys : List Val) {u : Val} {r : List Val} (hu : ∀ w ∈ ExpKind.Effects.known, u ≠ .str w) :
    ExpKind.Effects.Same (.list (s ++ (xs ++ .list (u :: r) :: ys))) (.list (s ++ (xs ++ ys))) := by
  cases h
  intro o
  exact same_of_eq (C10_Effects  xs ys hu) o
theorem SaysSame.Effects_order {s : List Val} (h : ExpKind.Effects.Start s) {xs ys : List Val} (hr : Reordered ExpKind.Effects.together xs ys) :
    ExpKind.Effects.Same (.list (s ++ xs)) (.list (s ++ ys)) := by
  cases h
  intro o
  exact C36_Effects  hr o

theorem SaysSame.Group_unknown {s : List Val} (h : ExpKind.Group.Start s) (xs ys : List Val) {u : Val} {r : List Val} (hu : ∀ w ∈ ExpKind.Group.known, u ≠ .str w) :
    ExpKind.Group.Same (.list (s ++ (xs ++ .list (u :: r) :: ys))) (.list (s ++ (xs ++ ys))) := by
  obtain ⟨name, rfl⟩ := h
  intro o
  exact same_of_eq (C10_Group name xs ys hu) o
theorem SaysSame.Group_order {s : List Val} (h : ExpKind.Group.Start s) {xs ys : List Val} (hr : Reordered ExpKind.Group.together xs ys) :
    ExpKind.Group.Same (.list (s ++ xs)) (.list (s ++ ys)) := by
  obtain ⟨name, rfl⟩ := h
  intro o
  exact C36_Group name hr o

theorem SaysSame.TitleBlock_unknown {s : List Val} (h : ExpKind.TitleBlock.Start s) (xs ys : List Val) {u : Val} {r : List Val} (hu : ∀ w ∈ ExpKind.TitleBlock.known, u ≠ .str w) :
    ExpKind.TitleBlock.Same (.list (s ++ (xs ++ .list (u :: r) :: ys))) (.list (s ++ (xs ++ ys))) := by
  cases h
  intro o
  exact same_of_eq (C10_TitleBlock  xs ys hu) o
theorem SaysSame.TitleBlock_order {s : List Val} (h : ExpKind.TitleBlock.Start s) {xs ys : List Val} (hr : Reordered ExpKind.TitleBlock.together xs ys) :
    ExpKind.TitleBlock.Same (.list (s ++ xs)) (.list (s ++ ys)) := by
  cases h
  intro o
  exact C36_TitleBlock  hr o

theorem SaysSame.Property_unknown {s : List Val} (h : ExpKind.Property.Start s) (xs ys : List Val) {u : Val} {r : List Val} (hu : ∀ w ∈ ExpKind.Property.known, u ≠ .str w) :
    ExpKind.Property.Same (.list (s ++ (xs ++ .list (u :: r) :: ys))) (.list (s ++ (xs ++ ys))) := by
  obtain ⟨key, value, rfl⟩ := h
  intro o
  exact same_of_eq (C10_Property key value xs ys hu) o
theorem SaysSame.Property_order {s : List Val} (h : ExpKind.Property.Start s) {xs ys : List Val} (hr : Reordered ExpKind.Property.together xs ys) :
    ExpKind.Property.Same (.list (s ++ xs)) (.list (s ++ ys)) := by
  obtain ⟨key, value, rfl⟩ := h
  intro o
  exact C36_Property key value hr o

theorem SaysSame.RenderCachePolygon_unknown {s : List Val} (h : ExpKind.RenderCachePolygon.Start s) (xs ys : List Val) {u : Val} {r : List Val} (hu : ∀ w ∈ ExpKind.RenderCachePolygon.known, u ≠ .str w) :
    ExpKind.RenderCachePolygon.Same (.list (s ++ (xs ++ .list (u :: r) :: ys))) (.list (s ++ (xs ++ ys))) := by
  cases h
  intro o
  exact same_of_eq (C10_RenderCachePolygon  xs ys hu) o
theorem SaysSame.RenderCachePolygon_order {s : List Val} (h : ExpKind.RenderCachePolygon.Start s) {xs ys : List Val} (hr : Reordered ExpKind.RenderCachePolygon.together xs ys) :
    ExpKind.RenderCachePolygon.Same (.list (s ++ xs)) (.list (s ++ ys)) := by
  cases h
  intro o
  exact C36_RenderCachePolygon  hr o

theorem SaysSame.RenderCache_unknown {s : List Val} (h : ExpKind.RenderCache.Start s) (xs ys : List Val) {u : Val} {r : List Val} (hu : ∀ w ∈ ExpKind.RenderCache.known, u ≠ .str w) :
    ExpKind.RenderCache.Same (.list (s ++ (xs ++ .list (u :: r) :: ys))) (.list (s ++ (xs ++ ys))) := by
  obtain ⟨text, id, rfl⟩ := h
  intro o
  exact same_of_eq (C10_RenderCache text id xs ys hu) o
theorem SaysSame.RenderCache_order {s : List Val} (h : ExpKind.RenderCache.Start s) {xs ys : List Val} (hr : Reordered ExpKind.RenderCache.together xs ys) :
    ExpKind.RenderCache.Same (.list (s ++ xs)) (.list (s ++ ys)) := by
  obtain ⟨text, id, rfl⟩ := h
  intro o
  exact C36_RenderCache text id hr o

theorem SaysSame.Fill_unknown {s : List Val} (h : ExpKind.Fill.Start s) (xs ys : List Val) {u : Val} {r : List Val} (hu : ∀ w ∈ ExpKind.Fill.known, u ≠ .str w) :
    ExpKind.Fill.Same (.list (s ++ (xs ++ .list (u :: r) :: ys))) (.list (s ++ (xs ++ ys))) := by
  cases h
  intro o
  exact same_of_eq (C10_Fill  xs ys hu) o
theorem SaysSame.Fill_order {s : List Val} (h : ExpKind.Fill.Start s) {xs ys : List Val} (hr : Reordered ExpKind.Fill.together xs ys) :
    ExpKind.Fill.Same (.list (s ++ xs)) (.list (s ++ ys)) := by
  cases h
  intro o
  exact C36_Fill  hr o

theorem SaysSame.Image_unknown {s : List Val} (h : ExpKind.Image.Start s) (xs ys : List Val) {u : Val} {r : List Val} (hu : ∀ w ∈ ExpKind.Image.known, u ≠ .str w) :
    ExpKind.Image.Same (.list (s ++ (xs ++ .list (u :: r) :: ys))) (.list (s ++ (xs ++ ys))) := by
  cases h
  intro o
  exact same_of_eq (C10_Image  xs ys hu) o
theorem SaysSame.Image_order {s : List Val} (h : ExpKind.Image.Start s) {xs ys : List Val} (hr : Reordered ExpKind.Image.together xs ys) :
    ExpKind.Image.Same (.list (s ++ xs)) (.list (s ++ ys)) := by
  cases h
  intro o
  exact C36_Image  hr o

theorem SaysSame.DimensionFormat_unknown {s : List Val} (h : ExpKind.DimensionFormat.Start s) (xs ys : List Val) {u : Val} {r : List Val} (hu : ∀ w ∈ ExpKind.DimensionFormat.known, u ≠ .str w) :
    ExpKind.DimensionFormat.Same (.list (s ++ (xs ++ .list (u :: r) :: ys))) (.list (s ++ (xs ++ ys))) := by
  cases h
  intro o
  exact same_of_eq (C10_DimensionFormat  xs ys hu) o
theorem SaysSame.DimensionFormat_order {s : List Val} (h : ExpKind.DimensionFormat.Start s) {xs ys : List Val} (hr : Reordered ExpKind.DimensionFormat.together xs ys) :
    ExpKind.DimensionFormat.Same (.list (s ++ xs)) (.list (s ++ ys)) := by
  cases h
  intro o
  exact C36_DimensionFormat  hr o

theorem SaysSame.DimensionStyle_unknown {s : List Val} (h : ExpKind.DimensionStyle.Start s) (xs ys : List Val) {u : Val} {r : List Val} (hu : ∀ w ∈ ExpKind.DimensionStyle.known, u ≠ .str w) :
    ExpKind.DimensionStyle.Same (.list (s ++ (xs ++ .list (u :: r) :: ys))) (.list (s ++ (xs ++ ys))) := by
  cases h
  intro o
  exact same_of_eq (C10_DimensionStyle  xs ys hu) o
theorem SaysSame.DimensionStyle_order {s : List Val} (h : ExpKind.DimensionStyle.Start s) {xs ys : List Val} (hr : Reordered ExpKind.DimensionStyle.together xs ys) :
    ExpKind.DimensionStyle.Same (.list (s ++ xs)) (.list (s ++ ys)) := by
  cases h
  intro o
  exact C36_DimensionStyle  hr o

theorem SaysSame.Dimension_unknown {s : List Val} (h : ExpKind.Dimension.Start s) (xs ys : List Val) {u : Val} {r : List Val} (hu : ∀ w ∈ ExpKind.Dimension.known, u ≠ .str w) :
    ExpKind.Dimension.Same (.list (s ++ (xs ++ .list (u :: r) :: ys))) (.list (s ++ (xs ++ ys))) := by
  cases h
  intro o
  exact same_of_eq (C10_Dimension  xs ys hu) o
theorem SaysSame.Dimension_order {s : List Val} (h : ExpKind.Dimension.Start s) {xs ys : List Val} (hr : Reordered ExpKind.Dimension.together xs ys) :
    ExpKind.Dimension.Same (.list (s ++ xs)) (.list (s ++ ys)) := by
  cases h
  intro o
  exact C36_Dimension  hr o

theorem SaysSame.Constraint_unknown {s : List Val} (h : ExpKind.Constraint.Start s) (xs ys : List Val) {u : Val} {r : List Val} (hu : ∀ w ∈ ExpKind.Constraint.known, u ≠ .str w) :
    ExpKind.Constraint.Same (.list (s ++ (xs ++ .list (u :: r) :: ys))) (.list (s ++ (xs ++ ys))) := by
  obtain ⟨type, rfl⟩ := h
  intro o
  exact same_of_eq (C10_Constraint type xs ys hu) o
theorem SaysSame.Constraint_order {s : List Val} (h : ExpKind.Constraint.Start s) {xs ys : List Val} (hr : Reordered ExpKind.Constraint.together xs ys) :
    ExpKind.Constraint.Same (.list (s ++ xs)) (.list (s ++ ys)) := by
  obtain ⟨type, rfl⟩ := h
  intro o
  exact C36_Constraint type hr o

theorem SaysSame.Rule_unknown {s : List Val} (h : ExpKind.Rule.Start s) (xs ys : List Val) {u : Val} {r : List Val} (hu : ∀ w ∈ ExpKind.Rule.known, u ≠ .str w) :
    ExpKind.Rule.Same (.list (s ++ (xs ++ .list (u :: r) :: ys))) (.list (s ++ (xs ++ ys))) := by
  obtain ⟨name, rfl⟩ := h
  intro o
  exact same_of_eq (C10_Rule name xs ys hu) o
theorem SaysSame.Rule_order {s : List Val} (h : ExpKind.Rule.Start s) {xs ys : List Val} (hr : Reordered ExpKind.Rule.together xs ys) :
    ExpKind.Rule.Same (.list (s ++ xs)) (.list (s ++ ys)) := by
  obtain ⟨name, rfl⟩ := h
  intro o
  exact C36_Rule name hr o

theorem SaysSame.DesignRules_unknown {s : List Val} (h : ExpKind.DesignRules.Start s) (xs ys : List Val) {u : Val} {r : List Val} (hu : ∀ w ∈ ExpKind.DesignRules.known, u ≠ .str w) :
    ExpKind.DesignRules.Same (.list (s ++ (xs ++ .list (u :: r) :: ys))) (.list (s ++ (xs ++ ys))) := by
  obtain ⟨r0, rfl⟩ := h
  intro o
  exact same_of_eq (C10_DesignRules r0 xs ys hu) o
theorem SaysSame.DesignRules_order {s : List Val} (h : ExpKind.DesignRules.Start s) {xs ys : List Val} (hr : Reordered ExpKind.DesignRules.together xs ys) :
    ExpKind.DesignRules.Same (.list (s ++ xs)) (.list (s ++ ys)) := by
  obtain ⟨r0, rfl⟩ := h
  intro o
  exact C36_DesignRules r0 hr o

theorem SaysSame.Model_unknown {s : List Val} (h : ExpKind.Model.Start s) (xs ys : List Val) {u : Val} {r : List Val} (hu : ∀ w ∈ ExpKind.Model.known, u ≠ .str w) :
    ExpKind.Model.Same (.list (s ++ (xs ++ .list (u :: r) :: ys))) (.list (s ++ (xs ++ ys))) := by
  obtain ⟨path, x, y, z, rfl⟩ := h
  intro o
  exact same_of_eq (C10_Model path x y z xs ys hu) o

theorem SaysSame.DrillDefinition_unknown {s : List Val} (h : ExpKind.DrillDefinition.Start s) (xs ys : List Val) {u : Val} {r : List Val} (hu : ∀ w ∈ ExpKind.DrillDefinition.known, u ≠ .str w) :
    ExpKind.DrillDefinition.Same (.list (s ++ (xs ++ .list (u :: r) :: ys))) (.list (s ++ (xs ++ ys))) := by
  obtain ⟨d, w, ha, rfl⟩ := h
  intro o
  exact same_of_eq (C10_DrillDefinition (Val.is_ne ha) xs ys hu) o
theorem SaysSame.DrillDefinition_order {s : List Val} (h : ExpKind.DrillDefinition.Start s) {xs ys : List Val} (hr : Reordered ExpKind.DrillDefinition.together xs ys) :
    ExpKind.DrillDefinition.Same (.list (s ++ xs)) (.list (s ++ ys)) := by
  obtain ⟨d, w, ha, rfl⟩ := h
  intro o
  exact C36_DrillDefinition (Val.is_ne ha) hr o

theorem SaysSame.PadOptions_unknown {s : List Val} (h : ExpKind.PadOptions.Start s) (xs ys : List Val) {u : Val} {r : List Val} (hu : ∀ w ∈ ExpKind.PadOptions.known, u ≠ .str w) :
    ExpKind.PadOptions.Same (.list (s ++ (xs ++ .list (u :: r) :: ys))) (.list (s ++ (xs ++ ys))) := by
  cases h
  intro o
  exact same_of_eq (C10_PadOptions  xs ys hu) o
theorem SaysSame.PadOptions_order {s : List Val} (h : ExpKind.PadOptions.Start s) {xs ys : List Val} (hr : Reordered ExpKind.PadOptions.together xs ys) :
    ExpKind.PadOptions.Same (.list (s ++ xs)) (.list (s ++ ys)) := by
  cases h
  intro o
  exact C36_PadOptions  hr o

theorem SaysSame.Pad_unknown {s : List Val} (h : ExpKind.Pad.Start s) (xs ys : List Val) {u : Val} {r : List Val} (hu : ∀ w ∈ ExpKind.Pad.known, u ≠ .str w) :
    ExpKind.Pad.Same (.list (s ++ (xs ++ .list (u :: r) :: ys))) (.list (s ++ (xs ++ ys))) := by
  obtain ⟨a1, a2, a3, rfl⟩ := h
  intro o
  exact same_of_eq (C10_Pad a1 a2 a3 xs ys hu) o
theorem SaysSame.Pad_order {s : List Val} (h : ExpKind.Pad.Start s) {xs ys : List Val} (hr : Reordered ExpKind.Pad.together xs ys) :
    ExpKind.Pad.Same (.list (s ++ xs)) (.list (s ++ ys)) := by
  obtain ⟨a1, a2, a3, rfl⟩ := h
  intro o
  exact C36_Pad a1 a2 a3 hr o

theorem SaysSame.Footprint_unknown {s : List Val} (h : ExpKind.Footprint.Start s) (xs ys : List Val) {u : Val} {r : List Val} (hu : ∀ w ∈ ExpKind.Footprint.known, u ≠ .str w) :
    ExpKind.Footprint.Same (.list (s ++ (xs ++ .list (u :: r) :: ys))) (.list (s ++ (xs ++ ys))) := by
  obtain ⟨hd, id, hh, rfl⟩ := h
  intro tedit o
  exact same_of_eq (C10_Footprint tedit id hh xs ys hu) o
theorem SaysSame.Footprint_order {s : List Val} (h : ExpKind.Footprint.Start s) {xs ys : List Val} (hr : Reordered ExpKind.Footprint.together xs ys) :
    ExpKind.Footprint.Same (.list (s ++ xs)) (.list (s ++ ys)) := by
  obtain ⟨hd, id, hh, rfl⟩ := h
  intro tedit o
  exact C36_Footprint tedit id hh hr o

theorem SaysSame.FpText_unknown {s : List Val} (h : ExpKind.FpText.Start s) (xs ys : List Val) {u : Val} {r : List Val} (hu : ∀ w ∈ ExpKind.FpText.known, u ≠ .str w) :
    ExpKind.FpText.Same (.list (s ++ (xs ++ .list (u :: r) :: ys))) (.list (s ++ (xs ++ ys))) := by
  obtain ⟨a1, a2, rfl⟩ := h
  intro o
  exact same_of_eq (C10_FpText a1 a2 xs ys hu) o
theorem SaysSame.FpText_order {s : List Val} (h : ExpKind.FpText.Start s) {xs ys : List Val} (hr : Reordered ExpKind.FpText.together xs ys) :
    ExpKind.FpText.Same (.list (s ++ xs)) (.list (s ++ ys)) := by
  obtain ⟨a1, a2, rfl⟩ := h
  intro o
  exact C36_FpText a1 a2 hr o

theorem SaysSame.FpLine_unknown {s : List Val} (h : ExpKind.FpLine.Start s) (xs ys : List Val) {u : Val} {r : List Val} (hu : ∀ w ∈ ExpKind.FpLine.known, u ≠ .str w) :
    ExpKind.FpLine.Same (.list (s ++ (xs ++ .list (u :: r) :: ys))) (.list (s ++ (xs ++ ys))) := by
  cases h
  intro o
  exact same_of_eq (C10_FpLine  xs ys hu) o
theorem SaysSame.FpLine_order {s : List Val} (h : ExpKind.FpLine.Start s) {xs ys : List Val} (hr : Reordered ExpKind.FpLine.together xs ys) :
    ExpKind.FpLine.Same (.list (s ++ xs)) (.list (s ++ ys)) := by
  cases h
  intro o
  exact C36_FpLine  hr o

theorem SaysSame.FpRect_unknown {s : List Val} (h : ExpKind.FpRect.Start s) (xs ys : List Val) {u : Val} {r : List Val} (hu : ∀ w ∈ ExpKind.FpRect.known, u ≠ .str w) :
    ExpKind.FpRect.Same (.list (s ++ (xs ++ .list (u :: r) :: ys))) (.list (s ++ (xs ++ ys))) := by
  cases h
  intro o
  exact same_of_eq (C10_FpRect  xs ys hu) o
theorem SaysSame.FpRect_order {s : List Val} (h : ExpKind.FpRect.Start s) {xs ys : List Val} (hr : Reordered ExpKind.FpRect.together xs ys) :
    ExpKind.FpRect.Same (.list (s ++ xs)) (.list (s ++ ys)) := by
  cases h
  intro o
  exact C36_FpRect  hr o

theorem SaysSame.FpTextBox_unknown {s : List Val} (h : ExpKind.FpTextBox.Start s) (xs ys : List Val) {u : Val} {r : List Val} (hu : ∀ w ∈ ExpKind.FpTextBox.known, u ≠ .str w) :
    ExpKind.FpTextBox.Same (.list (s ++ (xs ++ .list (u :: r) :: ys))) (.list (s ++ (xs ++ ys))) := by
  obtain ⟨a, ha, rfl⟩ := h
  intro o
  exact same_of_eq (C10_FpTextBox (Val.is_ne ha) xs ys hu) o
theorem SaysSame.FpTextBox_order {s : List Val} (h : ExpKind.FpTextBox.Start s) {xs ys : List Val} (hr : Reordered ExpKind.FpTextBox.together xs ys) :
    ExpKind.FpTextBox.Same (.list (s ++ xs)) (.list (s ++ ys)) := by
  obtain ⟨a, ha, rfl⟩ := h
  intro o
  exact C36_FpTextBox (Val.is_ne ha) hr o

theorem SaysSame.FpCircle_unknown {s : List Val} (h : ExpKind.FpCircle.Start s) (xs ys : List Val) {u : Val} {r : List Val} (hu : ∀ w ∈ ExpKind.FpCircle.known, u ≠ .str w) :
    ExpKind.FpCircle.Same (.list (s ++ (xs ++ .list (u :: r) :: ys))) (.list (s ++ (xs ++ ys))) := by
  cases h
  intro o
  exact same_of_eq (C10_FpCircle  xs ys hu) o
theorem SaysSame.FpCircle_order {s : List Val} (h : ExpKind.FpCircle.Start s) {xs ys : List Val} (hr : Reordered ExpKind.FpCircle.together xs ys) :
    ExpKind.FpCircle.Same (.list (s ++ xs)) (.list (s ++ ys)) := by
  cases h
  intro o
  exact C36_FpCircle  hr o

theorem SaysSame.FpArc_unknown {s : List Val} (h : ExpKind.FpArc.Start s) (xs ys : List Val) {u : Val} {r : List Val} (hu : ∀ w ∈ ExpKind.FpArc.known, u ≠ .str w) :
    ExpKind.FpArc.Same (.list (s ++ (xs ++ .list (u :: r) :: ys))) (.list (s ++ (xs ++ ys))) := by
  cases h
  intro o
  exact same_of_eq (C10_FpArc  xs ys hu) o
theorem SaysSame.FpArc_order {s : List Val} (h : ExpKind.FpArc.Start s) {xs ys : List Val} (hr : Reordered ExpKind.FpArc.together xs ys) :
    ExpKind.FpArc.Same (.list (s ++ xs)) (.list (s ++ ys)) := by
  cases h
  intro o
  exact C36_FpArc  hr o

theorem SaysSame.FpPoly_unknown {s : List Val} (h : ExpKind.FpPoly.Start s) (xs ys : List Val) {u : Val} {r : List Val} (hu : ∀ w ∈ ExpKind.FpPoly.known, u ≠ .str w) :
    ExpKind.FpPoly.Same (.list (s ++ (xs ++ .list (u :: r) :: ys))) (.list (s ++ (xs ++ ys))) := by
  cases h
  intro o
  exact same_of_eq (C10_FpPoly  xs ys hu) o
theorem SaysSame.FpPoly_order {s : List Val} (h : ExpKind.FpPoly.Start s) {xs ys : List Val} (hr : Reordered ExpKind.FpPoly.together xs ys) :
    ExpKind.FpPoly.Same (.list (s ++ xs)) (.list (s ++ ys)) := by
  cases h
  intro o
  exact C36_FpPoly  hr o

theorem SaysSame.FpCurve_unknown {s : List Val} (h : ExpKind.FpCurve.Start s) (xs ys : List Val) {u : Val} {r : List Val} (hu : ∀ w ∈ ExpKind.FpCurve.known, u ≠ .str w) :
    ExpKind.FpCurve.Same (.list (s ++ (xs ++ .list (u :: r) :: ys))) (.list (s ++ (xs ++ ys))) := by
  cases h
  intro o
  exact same_of_eq (C10_FpCurve  xs ys hu) o
theorem SaysSame.FpCurve_order {s : List Val} (h : ExpKind.FpCurve.Start s) {xs ys : List Val} (hr : Reordered ExpKind.FpCurve.together xs ys) :
    ExpKind.FpCurve.Same (.list (s ++ xs)) (.list (s ++ ys)) := by
  cases h
  intro o
  exact C36_FpCurve  hr o

theorem SaysSame.GrText_unknown {s : List Val} (h : ExpKind.GrText.Start s) (xs ys : List Val) {u : Val} {r : List Val} (hu : ∀ w ∈ ExpKind.GrText.known, u ≠ .str w) :
    ExpKind.GrText.Same (.list (s ++ (xs ++ .list (u :: r) :: ys))) (.list (s ++ (xs ++ ys))) := by
  obtain ⟨a1, rfl⟩ := h
  intro o
  exact same_of_eq (C10_GrText a1 xs ys hu) o
theorem SaysSame.GrText_order {s : List Val} (h : ExpKind.GrText.Start s) {xs ys : List Val} (hr : Reordered ExpKind.GrText.together xs ys) :
    ExpKind.GrText.Same (.list (s ++ xs)) (.list (s ++ ys)) := by
  obtain ⟨a1, rfl⟩ := h
  intro o
  exact C36_GrText a1 hr o

theorem SaysSame.GrTextBox_unknown {s : List Val} (h : ExpKind.GrTextBox.Start s) (xs ys : List Val) {u : Val} {r : List Val} (hu : ∀ w ∈ ExpKind.GrTextBox.known, u ≠ .str w) :
    ExpKind.GrTextBox.Same (.list (s ++ (xs ++ .list (u :: r) :: ys))) (.list (s ++ (xs ++ ys))) := by
  obtain ⟨a, ha, rfl⟩ := h
  intro o
  exact same_of_eq (C10_GrTextBox (Val.is_ne ha) xs ys hu) o
theorem SaysSame.GrTextBox_order {s : List Val} (h : ExpKind.GrTextBox.Start s) {xs ys : List Val} (hr : Reordered ExpKind.GrTextBox.together xs ys) :
    ExpKind.GrTextBox.Same (.list (s ++ xs)) (.list (s ++ ys)) := by
  obtain ⟨a, ha, rfl⟩ := h
  intro o
  exact C36_GrTextBox (Val.is_ne ha) hr o

theorem SaysSame.GrLine_unknown {s : List Val} (h : ExpKind.GrLine.Start s) (xs ys : List Val) {u : Val} {r : List Val} (hu : ∀ w ∈ ExpKind.GrLine.known, u ≠ .str w) :
    ExpKind.GrLine.Same (.list (s ++ (xs ++ .list (u :: r) :: ys))) (.list (s ++ (xs ++ ys))) := by
  cases h
  intro o
  exact same_of_eq (C10_GrLine  xs ys hu) o
theorem SaysSame.GrLine_order {s : List Val} (h : ExpKind.GrLine.Start s) {xs ys : List Val} (hr : Reordered ExpKind.GrLine.together xs ys) :
    ExpKind.GrLine.Same (.list (s ++ xs)) (.list (s ++ ys)) := by
  cases h
  intro o
  exact C36_GrLine  hr o

theorem SaysSame.GrRect_unknown {s : List Val} (h : ExpKind.GrRect.Start s) (xs ys : List Val) {u : Val} {r : List Val} (hu : ∀ w ∈ ExpKind.GrRect.known, u ≠ .str w) :
    ExpKind.GrRect.Same (.list (s ++ (xs ++ .list (u :: r) :: ys))) (.list (s ++ (xs ++ ys))) := by
  cases h
  intro o
  exact same_of_eq (C10_GrRect  xs ys hu) o
theorem SaysSame.GrRect_order {s : List Val} (h : ExpKind.GrRect.Start s) {xs ys : List Val} (hr : Reordered ExpKind.GrRect.together xs ys) :
    ExpKind.GrRect.Same (.list (s ++ xs)) (.list (s ++ ys)) := by
  cases h
  intro o
  exact C36_GrRect  hr o

theorem SaysSame.GrCircle_unknown {s : List Val} (h : ExpKind.GrCircle.Start s) (xs ys : List Val) {u : Val} {r : List Val} (hu : ∀ w ∈ ExpKind.GrCircle.known, u ≠ .str w) :
    ExpKind.GrCircle.Same (.list (s ++ (xs ++ .list (u :: r) :: ys))) (.list (s ++ (xs ++ ys))) := by
  cases h
  intro o
  exact same_of_eq (C10_GrCircle  xs ys hu) o
theorem SaysSame.GrCircle_order {s : List Val} (h : ExpKind.GrCircle.Start s) {xs ys : List Val} (hr : Reordered ExpKind.GrCircle.together xs ys) :
    ExpKind.GrCircle.Same (.list (s ++ xs)) (.list (s ++ ys)) := by
  cases h
  intro o
  exact C36_GrCircle  hr o

theorem SaysSame.GrArc_unknown {s : List Val} (h : ExpKind.GrArc.Start s) (xs ys : List Val) {u : Val} {r : List Val} (hu : ∀ w ∈ ExpKind.GrArc.known, u ≠ .str w) :
    ExpKind.GrArc.Same (.list (s ++ (xs ++ .list (u :: r) :: ys))) (.list (s ++ (xs ++ ys))) := by
  cases h
  intro o
  exact same_of_eq (C10_GrArc  xs ys hu) o
theorem SaysSame.GrArc_order {s : List Val} (h : ExpKind.GrArc.Start s) {xs ys : List Val} (hr : Reordered ExpKind.GrArc.together xs ys) :
    ExpKind.GrArc.Same (.list (s ++ xs)) (.list (s ++ ys)) := by
  cases h
  intro o
  exact C36_GrArc  hr o

theorem SaysSame.GrPoly_unknown {s : List Val} (h : ExpKind.GrPoly.Start s) (xs ys : List Val) {u : Val} {r : List Val} (hu : ∀ w ∈ ExpKind.GrPoly.known, u ≠ .str w) :
    ExpKind.GrPoly.Same (.list (s ++ (xs ++ .list (u :: r) :: ys))) (.list (s ++ (xs ++ ys))) := by
  cases h
  intro o
  exact same_of_eq (C10_GrPoly  xs ys hu) o
theorem SaysSame.GrPoly_order {s : List Val} (h : ExpKind.GrPoly.Start s) {xs ys : List Val} (hr : Reordered ExpKind.GrPoly.together xs ys) :
    ExpKind.GrPoly.Same (.list (s ++ xs)) (.list (s ++ ys)) := by
  cases h
  intro o
  exact C36_GrPoly  hr o

theorem SaysSame.GrCurve_unknown {s : List Val} (h : ExpKind.GrCurve.Start s) (xs ys : List Val) {u : Val} {r : List Val} (hu : ∀ w ∈ ExpKind.GrCurve.known, u ≠ .str w) :
    ExpKind.GrCurve.Same (.list (s ++ (xs ++ .list (u :: r) :: ys))) (.list (s ++ (xs ++ ys))) := by
  cases h
  intro o
  exact same_of_eq (C10_GrCurve  xs ys hu) o
theorem SaysSame.GrCurve_order {s : List Val} (h : ExpKind.GrCurve.Start s) {xs ys : List Val} (hr : Reordered ExpKind.GrCurve.together xs ys) :
    ExpKind.GrCurve.Same (.list (s ++ xs)) (.list (s ++ ys)) := by
  cases h
  intro o
  exact C36_GrCurve  hr o

theorem SaysSame.Library_unknown {s : List Val} (h : ExpKind.Library.Start s) (xs ys : List Val) {u : Val} {r : List Val} (hu : ∀ w ∈ ExpKind.Library.known, u ≠ .str w) :
    ExpKind.Library.Same (.list (s ++ (xs ++ .list (u :: r) :: ys))) (.list (s ++ (xs ++ ys))) := by
  cases h
  intro o
  exact same_of_eq (C10_Library  xs ys hu) o
theorem SaysSame.Library_order {s : List Val} (h : ExpKind.Library.Start s) {xs ys : List Val} (hr : Reordered ExpKind.Library.together xs ys) :
    ExpKind.Library.Same (.list (s ++ xs)) (.list (s ++ ys)) := by
  cases h
  intro o
  exact C36_Library  hr o

theorem SaysSame.LibTable_unknown {s : List Val} (h : ExpKind.LibTable.Start s) (xs ys : List Val) {u : Val} {r : List Val} (hu : ∀ w ∈ ExpKind.LibTable.known, u ≠ .str w) :
    ExpKind.LibTable.Same (.list (s ++ (xs ++ .list (u :: r) :: ys))) (.list (s ++ (xs ++ ys))) := by
  obtain ⟨hd, hh, rfl⟩ := h
  intro o
  exact same_of_eq (C10_LibTable hh xs ys hu) o
theorem SaysSame.LibTable_order {s : List Val} (h : ExpKind.LibTable.Start s) {xs ys : List Val} (hr : Reordered ExpKind.LibTable.together xs ys) :
    ExpKind.LibTable.Same (.list (s ++ xs)) (.list (s ++ ys)) := by
  obtain ⟨hd, hh, rfl⟩ := h
  intro o
  exact C36_LibTable hh hr o

theorem SaysSame.Junction_unknown {s : List Val} (h : ExpKind.Junction.Start s) (xs ys : List Val) {u : Val} {r : List Val} (hu : ∀ w ∈ ExpKind.Junction.known, u ≠ .str w) :
    ExpKind.Junction.Same (.list (s ++ (xs ++ .list (u :: r) :: ys))) (.list (s ++ (xs ++ ys))) := by
  cases h
  intro o
  exact same_of_eq (C10_Junction  xs ys hu) o
theorem SaysSame.Junction_order {s : List Val} (h : ExpKind.Junction.Start s) {xs ys : List Val} (hr : Reordered ExpKind.Junction.together xs ys) :
    ExpKind.Junction.Same (.list (s ++ xs)) (.list (s ++ ys)) := by
  cases h
  intro o
  exact C36_Junction  hr o

theorem SaysSame.NoConnect_unknown {s : List Val} (h : ExpKind.NoConnect.Start s) (xs ys : List Val) {u : Val} {r : List Val} (hu : ∀ w ∈ ExpKind.NoConnect.known, u ≠ .str w) :
    ExpKind.NoConnect.Same (.list (s ++ (xs ++ .list (u :: r) :: ys))) (.list (s ++ (xs ++ ys))) := by
  cases h
  intro o
  exact same_of_eq (C10_NoConnect  xs ys hu) o
theorem SaysSame.NoConnect_order {s : List Val} (h : ExpKind.NoConnect.Start s) {xs ys : List Val} (hr : Reordered ExpKind.NoConnect.together xs ys) :
    ExpKind.NoConnect.Same (.list (s ++ xs)) (.list (s ++ ys)) := by
  cases h
  intro o
  exact C36_NoConnect  hr o

theorem SaysSame.BusEntry_unknown {s : List Val} (h : ExpKind.BusEntry.Start s) (xs ys : List Val) {u : Val} {r : List Val} (hu : ∀ w ∈ ExpKind.BusEntry.known, u ≠ .str w) :
    ExpKind.BusEntry.Same (.list (s ++ (xs ++ .list (u :: r) :: ys))) (.list (s ++ (xs ++ ys))) := by
  cases h
  intro o
  exact same_of_eq (C10_BusEntry  xs ys hu) o
theorem SaysSame.BusEntry_order {s : List Val} (h : ExpKind.BusEntry.Start s) {xs ys : List Val} (hr : Reordered ExpKind.BusEntry.together xs ys) :
    ExpKind.BusEntry.Same (.list (s ++ xs)) (.list (s ++ ys)) := by
  cases h
  intro o
  exact C36_BusEntry  hr o

theorem SaysSame.Connection_unknown {s : List Val} (h : ExpKind.Connection.Start s) (xs ys : List Val) {u : Val} {r : List Val} (hu : ∀ w ∈ ExpKind.Connection.known, u ≠ .str w) :
    ExpKind.Connection.Same (.list (s ++ (xs ++ .list (u :: r) :: ys))) (.list (s ++ (xs ++ ys))) := by
  obtain ⟨hd, hh, rfl⟩ := h
  intro o
  exact same_of_eq (C10_Connection hh xs ys hu) o
theorem SaysSame.Connection_order {s : List Val} (h : ExpKind.Connection.Start s) {xs ys : List Val} (hr : Reordered ExpKind.Connection.together xs ys) :
    ExpKind.Connection.Same (.list (s ++ xs)) (.list (s ++ ys)) := by
  obtain ⟨hd, hh, rfl⟩ := h
  intro o
  exact C36_Connection hh hr o

theorem SaysSame.PolyLine_unknown {s : List Val} (h : ExpKind.PolyLine.Start s) (xs ys : List Val) {u : Val} {r : List Val} (hu : ∀ w ∈ ExpKind.PolyLine.known, u ≠ .str w) :
    ExpKind.PolyLine.Same (.list (s ++ (xs ++ .list (u :: r) :: ys))) (.list (s ++ (xs ++ ys))) := by
  cases h
  intro o
  exact same_of_eq (C10_PolyLine  xs ys hu) o
theorem SaysSame.PolyLine_order {s : List Val} (h : ExpKind.PolyLine.Start s) {xs ys : List Val} (hr : Reordered ExpKind.PolyLine.together xs ys) :
    ExpKind.PolyLine.Same (.list (s ++ xs)) (.list (s ++ ys)) := by
  cases h
  intro o
  exact C36_PolyLine  hr o

theorem SaysSame.Text_unknown {s : List Val} (h : ExpKind.Text.Start s) (xs ys : List Val) {u : Val} {r : List Val} (hu : ∀ w ∈ ExpKind.Text.known, u ≠ .str w) :
    ExpKind.Text.Same (.list (s ++ (xs ++ .list (u :: r) :: ys))) (.list (s ++ (xs ++ ys))) := by
  obtain ⟨a1, rfl⟩ := h
  intro o
  exact same_of_eq (C10_Text a1 xs ys hu) o
theorem SaysSame.Text_order {s : List Val} (h : ExpKind.Text.Start s) {xs ys : List Val} (hr : Reordered ExpKind.Text.together xs ys) :
    ExpKind.Text.Same (.list (s ++ xs)) (.list (s ++ ys)) := by
  obtain ⟨a1, rfl⟩ := h
  intro o
  exact C36_Text a1 hr o

theorem SaysSame.TextBox_unknown {s : List Val} (h : ExpKind.TextBox.Start s) (xs ys : List Val) {u : Val} {r : List Val} (hu : ∀ w ∈ ExpKind.TextBox.known, u ≠ .str w) :
    ExpKind.TextBox.Same (.list (s ++ (xs ++ .list (u :: r) :: ys))) (.list (s ++ (xs ++ ys))) := by
  obtain ⟨a1, rfl⟩ := h
  intro o
  exact same_of_eq (C10_TextBox a1 xs ys hu) o
theorem SaysSame.TextBox_order {s : List Val} (h : ExpKind.TextBox.Start s) {xs ys : List Val} (hr : Reordered ExpKind.TextBox.together xs ys) :
    ExpKind.TextBox.Same (.list (s ++ xs)) (.list (s ++ ys)) := by
  obtain ⟨a1, rfl⟩ := h
  intro o
  exact C36_TextBox a1 hr o

theorem SaysSame.LocalLabel_unknown {s : List Val} (h : ExpKind.LocalLabel.Start s) (xs ys : List Val) {u : Val} {r : List Val} (hu : ∀ w ∈ ExpKind.LocalLabel.known, u ≠ .str w) :
    ExpKind.LocalLabel.Same (.list (s ++ (xs ++ .list (u :: r) :: ys))) (.list (s ++ (xs ++ ys))) := by
  obtain ⟨a1, rfl⟩ := h
  intro o
  exact same_of_eq (C10_LocalLabel a1 xs ys hu) o
theorem SaysSame.LocalLabel_order {s : List Val} (h : ExpKind.LocalLabel.Start s) {xs ys : List Val} (hr : Reordered ExpKind.LocalLabel.together xs ys) :
    ExpKind.LocalLabel.Same (.list (s ++ xs)) (.list (s ++ ys)) := by
  obtain ⟨a1, rfl⟩ := h
  intro o
  exact C36_LocalLabel a1 hr o

theorem SaysSame.GlobalLabel_unknown {s : List Val} (h : ExpKind.GlobalLabel.Start s) (xs ys : List Val) {u : Val} {r : List Val} (hu : ∀ w ∈ ExpKind.GlobalLabel.known, u ≠ .str w) :
    ExpKind.GlobalLabel.Same (.list (s ++ (xs ++ .list (u :: r) :: ys))) (.list (s ++ (xs ++ ys))) := by
  obtain ⟨a1, rfl⟩ := h
  intro o
  exact same_of_eq (C10_GlobalLabel a1 xs ys hu) o
theorem SaysSame.GlobalLabel_order {s : List Val} (h : ExpKind.GlobalLabel.Start s) {xs ys : List Val} (hr : Reordered ExpKind.GlobalLabel.together xs ys) :
    ExpKind.GlobalLabel.Same (.list (s ++ xs)) (.list (s ++ ys)) := by
  obtain ⟨a1, rfl⟩ := h
  intro o
  exact C36_GlobalLabel a1 hr o

theorem SaysSame.HierarchicalLabel_unknown {s : List Val} (h : ExpKind.HierarchicalLabel.Start s) (xs ys : List Val) {u : Val} {r : List Val} (hu : ∀ w ∈ ExpKind.HierarchicalLabel.known, u ≠ .str w) :
    ExpKind.HierarchicalLabel.Same (.list (s ++ (xs ++ .list (u :: r) :: ys))) (.list (s ++ (xs ++ ys))) := by
  obtain ⟨a1, rfl⟩ := h
  intro o
  exact same_of_eq (C10_HierarchicalLabel a1 xs ys hu) o
theorem SaysSame.HierarchicalLabel_order {s : List Val} (h : ExpKind.HierarchicalLabel.Start s) {xs ys : List Val} (hr : Reordered ExpKind.HierarchicalLabel.together xs ys) :
    ExpKind.HierarchicalLabel.Same (.list (s ++ xs)) (.list (s ++ ys)) := by
  obtain ⟨a1, rfl⟩ := h
  intro o
  exact C36_HierarchicalLabel a1 hr o

theorem SaysSame.SymbolProjectPath_unknown {s : List Val} (h : ExpKind.SymbolProjectPath.Start s) (xs ys : List Val) {u : Val} {r : List Val} (hu : ∀ w ∈ ExpKind.SymbolProjectPath.known, u ≠ .str w) :
    ExpKind.SymbolProjectPath.Same (.list (s ++ (xs ++ .list (u :: r) :: ys))) (.list (s ++ (xs ++ ys))) := by
  obtain ⟨a, rfl⟩ := h
  intro o
  exact same_of_eq (C10_SymbolProjectPath a xs ys hu) o
theorem SaysSame.SymbolProjectPath_order {s : List Val} (h : ExpKind.SymbolProjectPath.Start s) {xs ys : List Val} (hr : Reordered ExpKind.SymbolProjectPath.together xs ys) :
    ExpKind.SymbolProjectPath.Same (.list (s ++ xs)) (.list (s ++ ys)) := by
  obtain ⟨a, rfl⟩ := h
  intro o
  exact C36_SymbolProjectPath a hr o

theorem SaysSame.SymbolProjectInstance_unknown {s : List Val} (h : ExpKind.SymbolProjectInstance.Start s) (xs ys : List Val) {u : Val} {r : List Val} (hu : ∀ w ∈ ExpKind.SymbolProjectInstance.known, u ≠ .str w) :
    ExpKind.SymbolProjectInstance.Same (.list (s ++ (xs ++ .list (u :: r) :: ys))) (.list (s ++ (xs ++ ys))) := by
  obtain ⟨a, rfl⟩ := h
  intro o
  exact same_of_eq (C10_SymbolProjectInstance a xs ys hu) o
theorem SaysSame.SymbolProjectInstance_order {s : List Val} (h : ExpKind.SymbolProjectInstance.Start s) {xs ys : List Val} (hr : Reordered ExpKind.SymbolProjectInstance.together xs ys) :
    ExpKind.SymbolProjectInstance.Same (.list (s ++ xs)) (.list (s ++ ys)) := by
  obtain ⟨a, rfl⟩ := h
  intro o
  exact C36_SymbolProjectInstance a hr o

theorem SaysSame.SchematicSymbol_unknown {s : List Val} (h : ExpKind.SchematicSymbol.Start s) (xs ys : List Val) {u : Val} {r : List Val} (hu : ∀ w ∈ ExpKind.SchematicSymbol.known, u ≠ .str w) :
    ExpKind.SchematicSymbol.Same (.list (s ++ (xs ++ .list (u :: r) :: ys))) (.list (s ++ (xs ++ ys))) := by
  cases h
  intro o
  exact same_of_eq (C10_SchematicSymbol  xs ys hu) o
theorem SaysSame.SchematicSymbol_order {s : List Val} (h : ExpKind.SchematicSymbol.Start s) {xs ys : List Val} (hr : Reordered ExpKind.SchematicSymbol.together xs ys) :
    ExpKind.SchematicSymbol.Same (.list (s ++ xs)) (.list (s ++ ys)) := by
  cases h
  intro o
  exact C36_SchematicSymbol  hr o

theorem SaysSame.HierarchicalPin_unknown {s : List Val} (h : ExpKind.HierarchicalPin.Start s) (xs ys : List Val) {u : Val} {r : List Val} (hu : ∀ w ∈ ExpKind.HierarchicalPin.known, u ≠ .str w) :
    ExpKind.HierarchicalPin.Same (.list (s ++ (xs ++ .list (u :: r) :: ys))) (.list (s ++ (xs ++ ys))) := by
  obtain ⟨a1, a2, rfl⟩ := h
  intro o
  exact same_of_eq (C10_HierarchicalPin a1 a2 xs ys hu) o
theorem SaysSame.HierarchicalPin_order {s : List Val} (h : ExpKind.HierarchicalPin.Start s) {xs ys : List Val} (hr : Reordered ExpKind.HierarchicalPin.together xs ys) :
    ExpKind.HierarchicalPin.Same (.list (s ++ xs)) (.list (s ++ ys)) := by
  obtain ⟨a1, a2, rfl⟩ := h
  intro o
  exact C36_HierarchicalPin a1 a2 hr o

theorem SaysSame.HierarchicalSheetProjectPath_unknown {s : List Val} (h : ExpKind.HierarchicalSheetProjectPath.Start s) (xs ys : List Val) {u : Val} {r : List Val} (hu : ∀ w ∈ ExpKind.HierarchicalSheetProjectPath.known, u ≠ .str w) :
    ExpKind.HierarchicalSheetProjectPath.Same (.list (s ++ (xs ++ .list (u :: r) :: ys))) (.list (s ++ (xs ++ ys))) := by
  obtain ⟨a, rfl⟩ := h
  intro o
  exact same_of_eq (C10_HierarchicalSheetProjectPath a xs ys hu) o
theorem SaysSame.HierarchicalSheetProjectPath_order {s : List Val} (h : ExpKind.HierarchicalSheetProjectPath.Start s) {xs ys : List Val} (hr : Reordered ExpKind.HierarchicalSheetProjectPath.together xs ys) :
    ExpKind.HierarchicalSheetProjectPath.Same (.list (s ++ xs)) (.list (s ++ ys)) := by
  obtain ⟨a, rfl⟩ := h
  intro o
  exact C36_HierarchicalSheetProjectPath a hr o

theorem SaysSame.HierarchicalSheetProjectInstance_unknown {s : List Val} (h : ExpKind.HierarchicalSheetProjectInstance.Start s) (xs ys : List Val) {u : Val} {r : List Val} (hu : ∀ w ∈ ExpKind.HierarchicalSheetProjectInstance.known, u ≠ .str w) :
    ExpKind.HierarchicalSheetProjectInstance.Same (.list (s ++ (xs ++ .list (u :: r) :: ys))) (.list (s ++ (xs ++ ys))) := by
  obtain ⟨a, rfl⟩ := h
  intro o
  exact same_of_eq (C10_HierarchicalSheetProjectInstance a xs ys hu) o
theorem SaysSame.HierarchicalSheetProjectInstance_order {s : List Val} (h : ExpKind.HierarchicalSheetProjectInstance.Start s) {xs ys : List Val} (hr : Reordered ExpKind.HierarchicalSheetProjectInstance.together xs ys) :
    ExpKind.HierarchicalSheetProjectInstance.Same (.list (s ++ xs)) (.list (s ++ ys)) := by
  obtain ⟨a, rfl⟩ := h
  intro o
  exact C36_HierarchicalSheetProjectInstance a hr o

theorem SaysSame.HierarchicalSheet_unknown {s : List Val} (h : ExpKind.HierarchicalSheet.Start s) (xs ys : List Val) {u : Val} {r : List Val} (hu : ∀ w ∈ ExpKind.HierarchicalSheet.known, u ≠ .str w) :
    ExpKind.HierarchicalSheet.Same (.list (s ++ (xs ++ .list (u :: r) :: ys))) (.list (s ++ (xs ++ ys))) := by
  cases h
  intro o
  exact same_of_eq (C10_HierarchicalSheet  xs ys hu) o
theorem SaysSame.HierarchicalSheet_order {s : List Val} (h : ExpKind.HierarchicalSheet.Start s) {xs ys : List Val} (hr : Reordered ExpKind.HierarchicalSheet.together xs ys) :
    ExpKind.HierarchicalSheet.Same (.list (s ++ xs)) (.list (s ++ ys)) := by
  cases h
  intro o
  exact C36_HierarchicalSheet  hr o

theorem SaysSame.HierarchicalSheetInstance_unknown {s : List Val} (h : ExpKind.HierarchicalSheetInstance.Start s) (xs ys : List Val) {u : Val} {r : List Val} (hu : ∀ w ∈ ExpKind.HierarchicalSheetInstance.known, u ≠ .str w) :
    ExpKind.HierarchicalSheetInstance.Same (.list (s ++ (xs ++ .list (u :: r) :: ys))) (.list (s ++ (xs ++ ys))) := by
  obtain ⟨a1, rfl⟩ := h
  intro o
  exact same_of_eq (C10_HierarchicalSheetInstance a1 xs ys hu) o
theorem SaysSame.HierarchicalSheetInstance_order {s : List Val} (h : ExpKind.HierarchicalSheetInstance.Start s) {xs ys : List Val} (hr : Reordered ExpKind.HierarchicalSheetInstance.together xs ys) :
    ExpKind.HierarchicalSheetInstance.Same (.list (s ++ xs)) (.list (s ++ ys)) := by
  obtain ⟨a1, rfl⟩ := h
  intro o
  exact C36_HierarchicalSheetInstance a1 hr o

theorem SaysSame.SymbolInstance_unknown {s : List Val} (h : ExpKind.SymbolInstance.Start s) (xs ys : List Val) {u : Val} {r : List Val} (hu : ∀ w ∈ ExpKind.SymbolInstance.known, u ≠ .str w) :
    ExpKind.SymbolInstance.Same (.list (s ++ (xs ++ .list (u :: r) :: ys))) (.list (s ++ (xs ++ ys))) := by
  obtain ⟨a1, rfl⟩ := h
  intro o
  exact same_of_eq (C10_SymbolInstance a1 xs ys hu) o
theorem SaysSame.SymbolInstance_order {s : List Val} (h : ExpKind.SymbolInstance.Start s) {xs ys : List Val} (hr : Reordered ExpKind.SymbolInstance.together xs ys) :
    ExpKind.SymbolInstance.Same (.list (s ++ xs)) (.list (s ++ ys)) := by
  obtain ⟨a1, rfl⟩ := h
  intro o
  exact C36_SymbolInstance a1 hr o

theorem SaysSame.Rectangle_unknown {s : List Val} (h : ExpKind.Rectangle.Start s) (xs ys : List Val) {u : Val} {r : List Val} (hu : ∀ w ∈ ExpKind.Rectangle.known, u ≠ .str w) :
    ExpKind.Rectangle.Same (.list (s ++ (xs ++ .list (u :: r) :: ys))) (.list (s ++ (xs ++ ys))) := by
  cases h
  intro o
  exact same_of_eq (C10_Rectangle  xs ys hu) o
theorem SaysSame.Rectangle_order {s : List Val} (h : ExpKind.Rectangle.Start s) {xs ys : List Val} (hr : Reordered ExpKind.Rectangle.together xs ys) :
    ExpKind.Rectangle.Same (.list (s ++ xs)) (.list (s ++ ys)) := by
  cases h
  intro o
  exact C36_Rectangle  hr o

theorem SaysSame.Arc_unknown {s : List Val} (h : ExpKind.Arc.Start s) (xs ys : List Val) {u : Val} {r : List Val} (hu : ∀ w ∈ ExpKind.Arc.known, u ≠ .str w) :
    ExpKind.Arc.Same (.list (s ++ (xs ++ .list (u :: r) :: ys))) (.list (s ++ (xs ++ ys))) := by
  cases h
  intro o
  exact same_of_eq (C10_Arc  xs ys hu) o
theorem SaysSame.Arc_order {s : List Val} (h : ExpKind.Arc.Start s) {xs ys : List Val} (hr : Reordered ExpKind.Arc.together xs ys) :
    ExpKind.Arc.Same (.list (s ++ xs)) (.list (s ++ ys)) := by
  cases h
  intro o
  exact C36_Arc  hr o

theorem SaysSame.Circle_unknown {s : List Val} (h : ExpKind.Circle.Start s) (xs ys : List Val) {u : Val} {r : List Val} (hu : ∀ w ∈ ExpKind.Circle.known, u ≠ .str w) :
    ExpKind.Circle.Same (.list (s ++ (xs ++ .list (u :: r) :: ys))) (.list (s ++ (xs ++ ys))) := by
  cases h
  intro o
  exact same_of_eq (C10_Circle  xs ys hu) o
theorem SaysSame.Circle_order {s : List Val} (h : ExpKind.Circle.Start s) {xs ys : List Val} (hr : Reordered ExpKind.Circle.together xs ys) :
    ExpKind.Circle.Same (.list (s ++ xs)) (.list (s ++ ys)) := by
  cases h
  intro o
  exact C36_Circle  hr o

theorem SaysSame.NetclassFlag_unknown {s : List Val} (h : ExpKind.NetclassFlag.Start s) (xs ys : List Val) {u : Val} {r : List Val} (hu : ∀ w ∈ ExpKind.NetclassFlag.known, u ≠ .str w) :
    ExpKind.NetclassFlag.Same (.list (s ++ (xs ++ .list (u :: r) :: ys))) (.list (s ++ (xs ++ ys))) := by
  obtain ⟨a1, rfl⟩ := h
  intro o
  exact same_of_eq (C10_NetclassFlag a1 xs ys hu) o
theorem SaysSame.NetclassFlag_order {s : List Val} (h : ExpKind.NetclassFlag.Start s) {xs ys : List Val} (hr : Reordered ExpKind.NetclassFlag.together xs ys) :
    ExpKind.NetclassFlag.Same (.list (s ++ xs)) (.list (s ++ ys)) := by
  obtain ⟨a1, rfl⟩ := h
  intro o
  exact C36_NetclassFlag a1 hr o

theorem SaysSame.Schematic_unknown {s : List Val} (h : ExpKind.Schematic.Start s) (xs ys : List Val) {u : Val} {r : List Val} (hu : ∀ w ∈ ExpKind.Schematic.known, u ≠ .str w) :
    ExpKind.Schematic.Same (.list (s ++ (xs ++ .list (u :: r) :: ys))) (.list (s ++ (xs ++ ys))) := by
  cases h
  intro o
  exact same_of_eq (C10_Schematic  xs ys hu) o
theorem SaysSame.Schematic_order {s : List Val} (h : ExpKind.Schematic.Start s) {xs ys : List Val} (hr : Reordered ExpKind.Schematic.together xs ys) :
    ExpKind.Schematic.Same (.list (s ++ xs)) (.list (s ++ ys)) := by
  cases h
  intro o
  exact C36_Schematic  hr o

theorem SaysSame.SyArc_unknown {s : List Val} (h : ExpKind.SyArc.Start s) (xs ys : List Val) {u : Val} {r : List Val} (hu : ∀ w ∈ ExpKind.SyArc.known, u ≠ .str w) :
    ExpKind.SyArc.Same (.list (s ++ (xs ++ .list (u :: r) :: ys))) (.list (s ++ (xs ++ ys))) := by
  cases h
  intro o
  exact same_of_eq (C10_SyArc  xs ys hu) o
theorem SaysSame.SyArc_order {s : List Val} (h : ExpKind.SyArc.Start s) {xs ys : List Val} (hr : Reordered ExpKind.SyArc.together xs ys) :
    ExpKind.SyArc.Same (.list (s ++ xs)) (.list (s ++ ys)) := by
  cases h
  intro o
  exact C36_SyArc  hr o

theorem SaysSame.SyCircle_unknown {s : List Val} (h : ExpKind.SyCircle.Start s) (xs ys : List Val) {u : Val} {r : List Val} (hu : ∀ w ∈ ExpKind.SyCircle.known, u ≠ .str w) :
    ExpKind.SyCircle.Same (.list (s ++ (xs ++ .list (u :: r) :: ys))) (.list (s ++ (xs ++ ys))) := by
  cases h
  intro o
  exact same_of_eq (C10_SyCircle  xs ys hu) o
theorem SaysSame.SyCircle_order {s : List Val} (h : ExpKind.SyCircle.Start s) {xs ys : List Val} (hr : Reordered ExpKind.SyCircle.together xs ys) :
    ExpKind.SyCircle.Same (.list (s ++ xs)) (.list (s ++ ys)) := by
  cases h
  intro o
  exact C36_SyCircle  hr o

theorem SaysSame.SyCurve_unknown {s : List Val} (h : ExpKind.SyCurve.Start s) (xs ys : List Val) {u : Val} {r : List Val} (hu : ∀ w ∈ ExpKind.SyCurve.known, u ≠ .str w) :
    ExpKind.SyCurve.Same (.list (s ++ (xs ++ .list (u :: r) :: ys))) (.list (s ++ (xs ++ ys))) := by
  cases h
  intro o
  exact same_of_eq (C10_SyCurve  xs ys hu) o
theorem SaysSame.SyCurve_order {s : List Val} (h : ExpKind.SyCurve.Start s) {xs ys : List Val} (hr : Reordered ExpKind.SyCurve.together xs ys) :
    ExpKind.SyCurve.Same (.list (s ++ xs)) (.list (s ++ ys)) := by
  cases h
  intro o
  exact C36_SyCurve  hr o

theorem SaysSame.SyPolyLine_unknown {s : List Val} (h : ExpKind.SyPolyLine.Start s) (xs ys : List Val) {u : Val} {r : List Val} (hu : ∀ w ∈ ExpKind.SyPolyLine.known, u ≠ .str w) :
    ExpKind.SyPolyLine.Same (.list (s ++ (xs ++ .list (u :: r) :: ys))) (.list (s ++ (xs ++ ys))) := by
  cases h
  intro o
  exact same_of_eq (C10_SyPolyLine  xs ys hu) o
theorem SaysSame.SyPolyLine_order {s : List Val} (h : ExpKind.SyPolyLine.Start s) {xs ys : List Val} (hr : Reordered ExpKind.SyPolyLine.together xs ys) :
    ExpKind.SyPolyLine.Same (.list (s ++ xs)) (.list (s ++ ys)) := by
  cases h
  intro o
  exact C36_SyPolyLine  hr o

theorem SaysSame.SyRect_unknown {s : List Val} (h : ExpKind.SyRect.Start s) (xs ys : List Val) {u : Val} {r : List Val} (hu : ∀ w ∈ ExpKind.SyRect.known, u ≠ .str w) :
    ExpKind.SyRect.Same (.list (s ++ (xs ++ .list (u :: r) :: ys))) (.list (s ++ (xs ++ ys))) := by
  cases h
  intro o
  exact same_of_eq (C10_SyRect  xs ys hu) o
theorem SaysSame.SyRect_order {s : List Val} (h : ExpKind.SyRect.Start s) {xs ys : List Val} (hr : Reordered ExpKind.SyRect.together xs ys) :
    ExpKind.SyRect.Same (.list (s ++ xs)) (.list (s ++ ys)) := by
  cases h
  intro o
  exact C36_SyRect  hr o

theorem SaysSame.SyText_unknown {s : List Val} (h : ExpKind.SyText.Start s) (xs ys : List Val) {u : Val} {r : List Val} (hu : ∀ w ∈ ExpKind.SyText.known, u ≠ .str w) :
    ExpKind.SyText.Same (.list (s ++ (xs ++ .list (u :: r) :: ys))) (.list (s ++ (xs ++ ys))) := by
  obtain ⟨text, rfl⟩ := h
  intro o
  exact same_of_eq (C10_SyText text xs ys hu) o
theorem SaysSame.SyText_order {s : List Val} (h : ExpKind.SyText.Start s) {xs ys : List Val} (hr : Reordered ExpKind.SyText.together xs ys) :
    ExpKind.SyText.Same (.list (s ++ xs)) (.list (s ++ ys)) := by
  obtain ⟨text, rfl⟩ := h
  intro o
  exact C36_SyText text hr o

theorem SaysSame.SyTextBox_unknown {s : List Val} (h : ExpKind.SyTextBox.Start s) (xs ys : List Val) {u : Val} {r : List Val} (hu : ∀ w ∈ ExpKind.SyTextBox.known, u ≠ .str w) :
    ExpKind.SyTextBox.Same (.list (s ++ (xs ++ .list (u :: r) :: ys))) (.list (s ++ (xs ++ ys))) := by
  obtain ⟨a, ha, rfl⟩ := h
  intro o
  exact same_of_eq (C10_SyTextBox (Val.is_ne ha) xs ys hu) o
theorem SaysSame.SyTextBox_order {s : List Val} (h : ExpKind.SyTextBox.Start s) {xs ys : List Val} (hr : Reordered ExpKind.SyTextBox.together xs ys) :
    ExpKind.SyTextBox.Same (.list (s ++ xs)) (.list (s ++ ys)) := by
  obtain ⟨a, ha, rfl⟩ := h
  intro o
  exact C36_SyTextBox (Val.is_ne ha) hr o

theorem SaysSame.SymbolPin_unknown {s : List Val} (h : ExpKind.SymbolPin.Start s) (xs ys : List Val) {u : Val} {r : List Val} (hu : ∀ w ∈ ExpKind.SymbolPin.known, u ≠ .str w) :
    ExpKind.SymbolPin.Same (.list (s ++ (xs ++ .list (u :: r) :: ys))) (.list (s ++ (xs ++ ys))) := by
  obtain ⟨a, b, rfl⟩ := h
  intro o
  exact same_of_eq (C10_SymbolPin a b xs ys hu) o
theorem SaysSame.SymbolPin_order {s : List Val} (h : ExpKind.SymbolPin.Start s) {xs ys : List Val} (hr : Reordered ExpKind.SymbolPin.together xs ys) :
    ExpKind.SymbolPin.Same (.list (s ++ xs)) (.list (s ++ ys)) := by
  obtain ⟨a, b, rfl⟩ := h
  intro o
  exact C36_SymbolPin a b hr o

theorem SaysSame.SymbolLib_unknown {s : List Val} (h : ExpKind.SymbolLib.Start s) (xs ys : List Val) {u : Val} {r : List Val} (hu : ∀ w ∈ ExpKind.SymbolLib.known, u ≠ .str w) :
    ExpKind.SymbolLib.Same (.list (s ++ (xs ++ .list (u :: r) :: ys))) (.list (s ++ (xs ++ ys))) := by
  cases h
  intro o
  exact same_of_eq (C10_SymbolLib  xs ys hu) o
theorem SaysSame.SymbolLib_order {s : List Val} (h : ExpKind.SymbolLib.Start s) {xs ys : List Val} (hr : Reordered ExpKind.SymbolLib.together xs ys) :
    ExpKind.SymbolLib.Same (.list (s ++ xs)) (.list (s ++ ys)) := by
  cases h
  intro o
  exact C36_SymbolLib  hr o

theorem SaysSame.Symbol_unknown {s : List Val} (h : ExpKind.Symbol.Start s) (xs ys : List Val) {u : Val} {r : List Val} (hu : ∀ w ∈ ExpKind.Symbol.known, u ≠ .str w) :
    ExpKind.Symbol.Same (.list (s ++ (xs ++ .list (u :: r) :: ys))) (.list (s ++ (xs ++ ys))) := by
  obtain ⟨id, rfl⟩ := h
  intro o
  cases hs : Symbol.setLibId {} id with
  | error e =>
    have hx : ∀ l, Symbol.fromSexpr (.list (.str k!"symbol" :: id :: l)) = .error e := fun l => by rw [Symbol.fromSexpr_eq, hs]; rfl
    exact same_of_eq ((hx _).trans (hx _).symm) o
  | ok s => exact same_of_eq (C10_Symbol hs xs ys hu) o
theorem SaysSame.Symbol_order {s : List Val} (h : ExpKind.Symbol.Start s) {xs ys : List Val} (hr : Reordered ExpKind.Symbol.together xs ys) :
    ExpKind.Symbol.Same (.list (s ++ xs)) (.list (s ++ ys)) := by
  obtain ⟨id, rfl⟩ := h
  intro o
  cases hs : Symbol.setLibId {} id with
  | error e =>
    have hx : ∀ l, Symbol.fromSexpr (.list (.str k!"symbol" :: id :: l)) = .error e := fun l => by rw [Symbol.fromSexpr_eq, hs]; rfl
    exact same_of_eq ((hx _).trans (hx _).symm) o
  | ok s => exact C36_Symbol hs hr o

theorem SaysSame.WksFont_unknown {s : List Val} (h : ExpKind.WksFont.Start s) (xs ys : List Val) {u : Val} {r : List Val} (hu : ∀ w ∈ ExpKind.WksFont.known, u ≠ .str w) :
    ExpKind.WksFont.Same (.list (s ++ (xs ++ .list (u :: r) :: ys))) (.list (s ++ (xs ++ ys))) := by
  cases h
  intro o
  exact same_of_eq (C10_WksFont  xs ys hu) o
theorem SaysSame.WksFont_order {s : List Val} (h : ExpKind.WksFont.Start s) {xs ys : List Val} (hr : Reordered ExpKind.WksFont.together xs ys) :
    ExpKind.WksFont.Same (.list (s ++ xs)) (.list (s ++ ys)) := by
  cases h
  intro o
  exact C36_WksFont  hr o

theorem SaysSame.Bitmap_unknown {s : List Val} (h : ExpKind.Bitmap.Start s) (xs ys : List Val) {u : Val} {r : List Val} (hu : ∀ w ∈ ExpKind.Bitmap.known, u ≠ .str w) :
    ExpKind.Bitmap.Same (.list (s ++ (xs ++ .list (u :: r) :: ys))) (.list (s ++ (xs ++ ys))) := by
  cases h
  intro o
  exact same_of_eq (C10_Bitmap  xs ys hu) o
theorem SaysSame.Bitmap_order {s : List Val} (h : ExpKind.Bitmap.Start s) {xs ys : List Val} (hr : Reordered ExpKind.Bitmap.together xs ys) :
    ExpKind.Bitmap.Same (.list (s ++ xs)) (.list (s ++ ys)) := by
  cases h
  intro o
  exact C36_Bitmap  hr o

theorem SaysSame.TbText_unknown {s : List Val} (h : ExpKind.TbText.Start s) (xs ys : List Val) {u : Val} {r : List Val} (hu : ∀ w ∈ ExpKind.TbText.known, u ≠ .str w) :
    ExpKind.TbText.Same (.list (s ++ (xs ++ .list (u :: r) :: ys))) (.list (s ++ (xs ++ ys))) := by
  obtain ⟨text, rfl⟩ := h
  intro o
  exact same_of_eq (C10_TbText text xs ys hu) o
theorem SaysSame.TbText_order {s : List Val} (h : ExpKind.TbText.Start s) {xs ys : List Val} (hr : Reordered ExpKind.TbText.together xs ys) :
    ExpKind.TbText.Same (.list (s ++ xs)) (.list (s ++ ys)) := by
  obtain ⟨text, rfl⟩ := h
  intro o
  exact C36_TbText text hr o

theorem SaysSame.Setup_unknown {s : List Val} (h : ExpKind.Setup.Start s) (xs ys : List Val) {u : Val} {r : List Val} (hu : ∀ w ∈ ExpKind.Setup.known, u ≠ .str w) :
    ExpKind.Setup.Same (.list (s ++ (xs ++ .list (u :: r) :: ys))) (.list (s ++ (xs ++ ys))) := by
  cases h
  intro o
  exact same_of_eq (C10_Setup  xs ys hu) o
theorem SaysSame.Setup_order {s : List Val} (h : ExpKind.Setup.Start s) {xs ys : List Val} (hr : Reordered ExpKind.Setup.together xs ys) :
    ExpKind.Setup.Same (.list (s ++ xs)) (.list (s ++ ys)) := by
  cases h
  intro o
  exact C36_Setup  hr o

theorem SaysSame.WorkSheet_unknown {s : List Val} (h : ExpKind.WorkSheet.Start s) (xs ys : List Val) {u : Val} {r : List Val} (hu : ∀ w ∈ ExpKind.WorkSheet.known, u ≠ .str w) :
    ExpKind.WorkSheet.Same (.list (s ++ (xs ++ .list (u :: r) :: ys))) (.list (s ++ (xs ++ ys))) := by
  cases h
  intro o
  exact same_of_eq (C10_WorkSheet  xs ys hu) o
theorem SaysSame.WorkSheet_order {s : List Val} (h : ExpKind.WorkSheet.Start s) {xs ys : List Val} (hr : Reordered ExpKind.WorkSheet.together xs ys) :
    ExpKind.WorkSheet.Same (.list (s ++ xs)) (.list (s ++ ys)) := by
  cases h
  intro o
  exact C36_WorkSheet  hr o

theorem SaysSame.KeepoutSettings_unknown {s : List Val} (h : ExpKind.KeepoutSettings.Start s) (xs ys : List Val) {u : Val} {r : List Val} (hu : ∀ w ∈ ExpKind.KeepoutSettings.known, u ≠ .str w) :
    ExpKind.KeepoutSettings.Same (.list (s ++ (xs ++ .list (u :: r) :: ys))) (.list (s ++ (xs ++ ys))) := by
  cases h
  intro o
  exact same_of_eq (C10_KeepoutSettings  xs ys hu) o
theorem SaysSame.KeepoutSettings_order {s : List Val} (h : ExpKind.KeepoutSettings.Start s) {xs ys : List Val} (hr : Reordered ExpKind.KeepoutSettings.together xs ys) :
    ExpKind.KeepoutSettings.Same (.list (s ++ xs)) (.list (s ++ ys)) := by
  cases h
  intro o
  exact C36_KeepoutSettings  hr o

theorem SaysSame.FillSettings_unknown {s : List Val} (h : ExpKind.FillSettings.Start s) (xs ys : List Val) {u : Val} {r : List Val} (hu : ∀ w ∈ ExpKind.FillSettings.known, u ≠ .str w) :
    ExpKind.FillSettings.Same (.list (s ++ (xs ++ .list (u :: r) :: ys))) (.list (s ++ (xs ++ ys))) := by
  cases h
  intro o
  exact same_of_eq (C10_FillSettings  xs ys hu) o
theorem SaysSame.FillSettings_order {s : List Val} (h : ExpKind.FillSettings.Start s) {xs ys : List Val} (hr : Reordered ExpKind.FillSettings.together xs ys) :
    ExpKind.FillSettings.Same (.list (s ++ xs)) (.list (s ++ ys)) := by
  cases h
  intro o
  exact C36_FillSettings  hr o

theorem SaysSame.ZonePolygon_unknown {s : List Val} (h : ExpKind.ZonePolygon.Start s) (xs ys : List Val) {u : Val} {r : List Val} (hu : ∀ w ∈ ExpKind.ZonePolygon.known, u ≠ .str w) :
    ExpKind.ZonePolygon.Same (.list (s ++ (xs ++ .list (u :: r) :: ys))) (.list (s ++ (xs ++ ys))) := by
  cases h
  intro o
  exact same_of_eq (C10_ZonePolygon  xs ys hu) o
theorem SaysSame.ZonePolygon_order {s : List Val} (h : ExpKind.ZonePolygon.Start s) {xs ys : List Val} (hr : Reordered ExpKind.ZonePolygon.together xs ys) :
    ExpKind.ZonePolygon.Same (.list (s ++ xs)) (.list (s ++ ys)) := by
  cases h
  intro o
  exact C36_ZonePolygon  hr o

theorem SaysSame.FilledPolygon_unknown {s : List Val} (h : ExpKind.FilledPolygon.Start s) (xs ys : List Val) {u : Val} {r : List Val} (hu : ∀ w ∈ ExpKind.FilledPolygon.known, u ≠ .str w) :
    ExpKind.FilledPolygon.Same (.list (s ++ (xs ++ .list (u :: r) :: ys))) (.list (s ++ (xs ++ ys))) := by
  cases h
  intro o
  exact same_of_eq (C10_FilledPolygon  xs ys hu) o
theorem SaysSame.FilledPolygon_order {s : List Val} (h : ExpKind.FilledPolygon.Start s) {xs ys : List Val} (hr : Reordered ExpKind.FilledPolygon.together xs ys) :
    ExpKind.FilledPolygon.Same (.list (s ++ xs)) (.list (s ++ ys)) := by
  cases h
  intro o
  exact C36_FilledPolygon  hr o

theorem SaysSame.FillSegments_unknown {s : List Val} (h : ExpKind.FillSegments.Start s) (xs ys : List Val) {u : Val} {r : List Val} (hu : ∀ w ∈ ExpKind.FillSegments.known, u ≠ .str w) :
    ExpKind.FillSegments.Same (.list (s ++ (xs ++ .list (u :: r) :: ys))) (.list (s ++ (xs ++ ys))) := by
  cases h
  intro o
  exact same_of_eq (C10_FillSegments  xs ys hu) o
theorem SaysSame.FillSegments_order {s : List Val} (h : ExpKind.FillSegments.Start s) {xs ys : List Val} (hr : Reordered ExpKind.FillSegments.together xs ys) :
    ExpKind.FillSegments.Same (.list (s ++ xs)) (.list (s ++ ys)) := by
  cases h
  intro o
  exact C36_FillSegments  hr o

theorem SaysSame.Zone_unknown {s : List Val} (h : ExpKind.Zone.Start s) (xs ys : List Val) {u : Val} {r : List Val} (hu : ∀ w ∈ ExpKind.Zone.known, u ≠ .str w) :
    ExpKind.Zone.Same (.list (s ++ (xs ++ .list (u :: r) :: ys))) (.list (s ++ (xs ++ ys))) := by
  cases h
  intro o
  exact same_of_eq (C10_Zone  xs ys hu) o
theorem SaysSame.Zone_order {s : List Val} (h : ExpKind.Zone.Start s) {xs ys : List Val} (hr : Reordered ExpKind.Zone.together xs ys) :
    ExpKind.Zone.Same (.list (s ++ xs)) (.list (s ++ ys)) := by
  cases h
  intro o
  exact C36_Zone  hr o

theorem SaysSame.WksLine_unknown {s : List Val} (h : ExpKind.WksLine.Start s) (xs ys : List Val) {u : Val} {r : List Val} (hu : ∀ w ∈ ExpKind.WksLine.known, u ≠ .str w) :
    ExpKind.WksLine.Same (.list (s ++ (xs ++ .list (u :: r) :: ys))) (.list (s ++ (xs ++ ys))) := by
  cases h
  intro o
  exact same_of_eq (C10_WksShape k!"line" xs ys hu) o
theorem SaysSame.WksLine_order {s : List Val} (h : ExpKind.WksLine.Start s) {xs ys : List Val} (hr : Reordered ExpKind.WksLine.together xs ys) :
    ExpKind.WksLine.Same (.list (s ++ xs)) (.list (s ++ ys)) := by
  cases h
  intro o
  exact C36_WksShape k!"line" hr o

theorem SaysSame.WksRect_unknown {s : List Val} (h : ExpKind.WksRect.Start s) (xs ys : List Val) {u : Val} {r : List Val} (hu : ∀ w ∈ ExpKind.WksRect.known, u ≠ .str w) :
    ExpKind.WksRect.Same (.list (s ++ (xs ++ .list (u :: r) :: ys))) (.list (s ++ (xs ++ ys))) := by
  cases h
  intro o
  exact same_of_eq (C10_WksShape k!"rect" xs ys hu) o
theorem SaysSame.WksRect_order {s : List Val} (h : ExpKind.WksRect.Start s) {xs ys : List Val} (hr : Reordered ExpKind.WksRect.together xs ys) :
    ExpKind.WksRect.Same (.list (s ++ xs)) (.list (s ++ ys)) := by
  cases h
  intro o
  exact C36_WksShape k!"rect" hr o

theorem SaysSame.Effects_font {s : List Val} (h : ExpKind.Effects.Start s) (xs ys : List Val) {r r' : List Val} (h' : ExpKind.Font.Same (.list (.str k!"font" :: r)) (.list (.str k!"font" :: r'))) :
    ExpKind.Effects.Same (.list (s ++ (xs ++ .list (.str k!"font" :: r) :: ys))) (.list (s ++ (xs ++ .list (.str k!"font" :: r') :: ys))) := by
  cases h
  intro o
  exact child_of [.str k!"effects"] (Effects.loopEq ) (sub := Font.fromSexpr) (fun o sub => { o with font := sub }) (fun _ _ => rfl) h' xs ys o

theorem SaysSame.Property_effects {s : List Val} (h : ExpKind.Property.Start s) (xs ys : List Val) {r r' : List Val} (h' : ExpKind.Effects.Same (.list (.str k!"effects" :: r)) (.list (.str k!"effects" :: r'))) :
    ExpKind.Property.Same (.list (s ++ (xs ++ .list (.str k!"effects" :: r) :: ys))) (.list (s ++ (xs ++ .list (.str k!"effects" :: r') :: ys))) := by
  obtain ⟨key, value, rfl⟩ := h
  intro o
  exact child_of [] (Property.loopEq key value) (sub := Effects.fromSexpr) (fun o sub => { o with effects := some sub }) (fun _ _ => rfl) h' xs ys o

theorem SaysSame.RenderCache_polygon {s : List Val} (h : ExpKind.RenderCache.Start s) (xs ys : List Val) {r r' : List Val} (h' : ExpKind.RenderCachePolygon.Same (.list (.str k!"polygon" :: r)) (.list (.str k!"polygon" :: r'))) :
    ExpKind.RenderCache.Same (.list (s ++ (xs ++ .list (.str k!"polygon" :: r) :: ys))) (.list (s ++ (xs ++ .list (.str k!"polygon" :: r') :: ys))) := by
  obtain ⟨text, id, rfl⟩ := h
  intro o
  exact child_of [.str k!"render_cache", text, id] (RenderCache.loopEq text id) (sub := RenderCachePolygon.fromSexpr) (fun o sub => { o with polygons := o.polygons ++ [sub] }) (fun _ _ => rfl) h' xs ys o

theorem SaysSame.LibTable_lib {s : List Val} (h : ExpKind.LibTable.Start s) (xs ys : List Val) {r r' : List Val} (h' : ExpKind.Library.Same (.list (.str k!"lib" :: r)) (.list (.str k!"lib" :: r'))) :
    ExpKind.LibTable.Same (.list (s ++ (xs ++ .list (.str k!"lib" :: r) :: ys))) (.list (s ++ (xs ++ .list (.str k!"lib" :: r') :: ys))) := by
  obtain ⟨hd, hh, rfl⟩ := h
  intro o
  exact child_of [.str hd] (LibTable.loopEq hh) (sub := Library.fromSexpr) (fun o sub => { o with libs := o.libs ++ [sub] }) (fun _ _ => rfl) h' xs ys o

theorem SaysSame.Rule_constraint {s : List Val} (h : ExpKind.Rule.Start s) (xs ys : List Val) {r r' : List Val} (h' : ExpKind.Constraint.Same (.list (.str k!"constraint" :: r)) (.list (.str k!"constraint" :: r'))) :
    ExpKind.Rule.Same (.list (s ++ (xs ++ .list (.str k!"constraint" :: r) :: ys))) (.list (s ++ (xs ++ .list (.str k!"constraint" :: r') :: ys))) := by
  obtain ⟨name, rfl⟩ := h
  intro o
  exact child_of [] (Rule.loopEq name) (sub := Constraint.fromSexpr) (fun o sub => { o with constraints := o.constraints ++ [sub] }) (fun _ _ => rfl) h' xs ys o

theorem SaysSame.DesignRules_rule {s : List Val} (h : ExpKind.DesignRules.Start s) (xs ys : List Val) {r r' : List Val} (h' : ExpKind.Rule.Same (.list (.str k!"rule" :: r)) (.list (.str k!"rule" :: r'))) :
    ExpKind.DesignRules.Same (.list (s ++ (xs ++ .list (.str k!"rule" :: r) :: ys))) (.list (s ++ (xs ++ .list (.str k!"rule" :: r') :: ys))) := by
  obtain ⟨r0, rfl⟩ := h
  intro o
  exact child_of [.list (.str k!"version" :: r0)] (DesignRules.loopEq r0) (sub := Rule.fromSexpr) (fun o sub => { o with rules := o.rules ++ [sub] }) (fun _ _ => rfl) h' xs ys o

theorem SaysSame.TbText_font {s : List Val} (h : ExpKind.TbText.Start s) (xs ys : List Val) {r r' : List Val} (h' : ExpKind.WksFont.Same (.list (.str k!"font" :: r)) (.list (.str k!"font" :: r'))) :
    ExpKind.TbText.Same (.list (s ++ (xs ++ .list (.str k!"font" :: r) :: ys))) (.list (s ++ (xs ++ .list (.str k!"font" :: r') :: ys))) := by
  obtain ⟨text, rfl⟩ := h
  intro o
  exact child_of [] (TbText.loopEq text) (sub := WksFont.fromSexpr) (fun o sub => { o with font := sub }) (fun _ _ => rfl) h' xs ys o

theorem SaysSame.WorkSheet_setup {s : List Val} (h : ExpKind.WorkSheet.Start s) (xs ys : List Val) {r r' : List Val} (h' : ExpKind.Setup.Same (.list (.str k!"setup" :: r)) (.list (.str k!"setup" :: r'))) :
    ExpKind.WorkSheet.Same (.list (s ++ (xs ++ .list (.str k!"setup" :: r) :: ys))) (.list (s ++ (xs ++ .list (.str k!"setup" :: r') :: ys))) := by
  cases h
  intro o
  exact child_of [] (WorkSheet.loopEq ) (sub := Setup.fromSexpr) (fun o sub => { o with setup := sub }) (fun _ _ => rfl) h' xs ys o

theorem SaysSame.WorkSheet_tbtext {s : List Val} (h : ExpKind.WorkSheet.Start s) (xs ys : List Val) {r r' : List Val} (h' : ExpKind.TbText.Same (.list (.str k!"tbtext" :: r)) (.list (.str k!"tbtext" :: r'))) :
    ExpKind.WorkSheet.Same (.list (s ++ (xs ++ .list (.str k!"tbtext" :: r) :: ys))) (.list (s ++ (xs ++ .list (.str k!"tbtext" :: r') :: ys))) := by
  cases h
  intro o
  exact child_of [] (WorkSheet.loopEq ) (sub := TbText.fromSexpr) (fun o sub => { o with drawingObjects := o.drawingObjects ++ [.tbtext sub] }) (fun _ _ => rfl) h' xs ys o

theorem SaysSame.WorkSheet_bitmap {s : List Val} (h : ExpKind.WorkSheet.Start s) (xs ys : List Val) {r r' : List Val} (h' : ExpKind.Bitmap.Same (.list (.str k!"bitmap" :: r)) (.list (.str k!"bitmap" :: r'))) :
    ExpKind.WorkSheet.Same (.list (s ++ (xs ++ .list (.str k!"bitmap" :: r) :: ys))) (.list (s ++ (xs ++ .list (.str k!"bitmap" :: r') :: ys))) := by
  cases h
  intro o
  exact child_of [] (WorkSheet.loopEq ) (sub := Bitmap.fromSexpr) (fun o sub => { o with drawingObjects := o.drawingObjects ++ [.bitmap sub] }) (fun _ _ => rfl) h' xs ys o

theorem SaysSame.SyArc_stroke {s : List Val} (h : ExpKind.SyArc.Start s) (xs ys : List Val) {r r' : List Val} (h' : ExpKind.Stroke.Same (.list (.str k!"stroke" :: r)) (.list (.str k!"stroke" :: r'))) :
    ExpKind.SyArc.Same (.list (s ++ (xs ++ .list (.str k!"stroke" :: r) :: ys))) (.list (s ++ (xs ++ .list (.str k!"stroke" :: r') :: ys))) := by
  cases h
  intro o
  exact child_of [.str k!"arc"] (SyArc.loopEq ) (sub := Stroke.fromSexpr) (fun o sub => { o with stroke := sub }) (fun _ _ => rfl) h' xs ys o

theorem SaysSame.SyArc_fill {s : List Val} (h : ExpKind.SyArc.Start s) (xs ys : List Val) {r r' : List Val} (h' : ExpKind.Fill.Same (.list (.str k!"fill" :: r)) (.list (.str k!"fill" :: r'))) :
    ExpKind.SyArc.Same (.list (s ++ (xs ++ .list (.str k!"fill" :: r) :: ys))) (.list (s ++ (xs ++ .list (.str k!"fill" :: r') :: ys))) := by
  cases h
  intro o
  exact child_of [.str k!"arc"] (SyArc.loopEq ) (sub := Fill.fromSexpr) (fun o sub => { o with fill := sub }) (fun _ _ => rfl) h' xs ys o

theorem SaysSame.SyCircle_stroke {s : List Val} (h : ExpKind.SyCircle.Start s) (xs ys : List Val) {r r' : List Val} (h' : ExpKind.Stroke.Same (.list (.str k!"stroke" :: r)) (.list (.str k!"stroke" :: r'))) :
    ExpKind.SyCircle.Same (.list (s ++ (xs ++ .list (.str k!"stroke" :: r) :: ys))) (.list (s ++ (xs ++ .list (.str k!"stroke" :: r') :: ys))) := by
  cases h
  intro o
  exact child_of [.str k!"circle"] (SyCircle.loopEq ) (sub := Stroke.fromSexpr) (fun o sub => { o with stroke := sub }) (fun _ _ => rfl) h' xs ys o

theorem SaysSame.SyCircle_fill {s : List Val} (h : ExpKind.SyCircle.Start s) (xs ys : List Val) {r r' : List Val} (h' : ExpKind.Fill.Same (.list (.str k!"fill" :: r)) (.list (.str k!"fill" :: r'))) :
    ExpKind.SyCircle.Same (.list (s ++ (xs ++ .list (.str k!"fill" :: r) :: ys))) (.list (s ++ (xs ++ .list (.str k!"fill" :: r') :: ys))) := by
  cases h
  intro o
  exact child_of [.str k!"circle"] (SyCircle.loopEq ) (sub := Fill.fromSexpr) (fun o sub => { o with fill := sub }) (fun _ _ => rfl) h' xs ys o

theorem SaysSame.SyCurve_stroke {s : List Val} (h : ExpKind.SyCurve.Start s) (xs ys : List Val) {r r' : List Val} (h' : ExpKind.Stroke.Same (.list (.str k!"stroke" :: r)) (.list (.str k!"stroke" :: r'))) :
    ExpKind.SyCurve.Same (.list (s ++ (xs ++ .list (.str k!"stroke" :: r) :: ys))) (.list (s ++ (xs ++ .list (.str k!"stroke" :: r') :: ys))) := by
  cases h
  intro o
  exact child_of [.str k!"curve"] (SyCurve.loopEq ) (sub := Stroke.fromSexpr) (fun o sub => { o with stroke := sub }) (fun _ _ => rfl) h' xs ys o

theorem SaysSame.SyCurve_fill {s : List Val} (h : ExpKind.SyCurve.Start s) (xs ys : List Val) {r r' : List Val} (h' : ExpKind.Fill.Same (.list (.str k!"fill" :: r)) (.list (.str k!"fill" :: r'))) :
    ExpKind.SyCurve.Same (.list (s ++ (xs ++ .list (.str k!"fill" :: r) :: ys))) (.list (s ++ (xs ++ .list (.str k!"fill" :: r') :: ys))) := by
  cases h
  intro o
  exact child_of [.str k!"curve"] (SyCurve.loopEq ) (sub := Fill.fromSexpr) (fun o sub => { o with fill := sub }) (fun _ _ => rfl) h' xs ys o

theorem SaysSame.SyPolyLine_stroke {s : List Val} (h : ExpKind.SyPolyLine.Start s) (xs ys : List Val) {r r' : List Val} (h' : ExpKind.Stroke.Same (.list (.str k!"stroke" :: r)) (.list (.str k!"stroke" :: r'))) :
    ExpKind.SyPolyLine.Same (.list (s ++ (xs ++ .list (.str k!"stroke" :: r) :: ys))) (.list (s ++ (xs ++ .list (.str k!"stroke" :: r') :: ys))) := by
  cases h
  intro o
  exact child_of [.str k!"polyline"] (SyPolyLine.loopEq ) (sub := Stroke.fromSexpr) (fun o sub => { o with stroke := sub }) (fun _ _ => rfl) h' xs ys o

theorem SaysSame.SyPolyLine_fill {s : List Val} (h : ExpKind.SyPolyLine.Start s) (xs ys : List Val) {r r' : List Val} (h' : ExpKind.Fill.Same (.list (.str k!"fill" :: r)) (.list (.str k!"fill" :: r'))) :
    ExpKind.SyPolyLine.Same (.list (s ++ (xs ++ .list (.str k!"fill" :: r) :: ys))) (.list (s ++ (xs ++ .list (.str k!"fill" :: r') :: ys))) := by
  cases h
  intro o
  exact child_of [.str k!"polyline"] (SyPolyLine.loopEq ) (sub := Fill.fromSexpr) (fun o sub => { o with fill := sub }) (fun _ _ => rfl) h' xs ys o

theorem SaysSame.SyRect_stroke {s : List Val} (h : ExpKind.SyRect.Start s) (xs ys : List Val) {r r' : List Val} (h' : ExpKind.Stroke.Same (.list (.str k!"stroke" :: r)) (.list (.str k!"stroke" :: r'))) :
    ExpKind.SyRect.Same (.list (s ++ (xs ++ .list (.str k!"stroke" :: r) :: ys))) (.list (s ++ (xs ++ .list (.str k!"stroke" :: r') :: ys))) := by
  cases h
  intro o
  exact child_of [.str k!"rectangle"] (SyRect.loopEq ) (sub := Stroke.fromSexpr) (fun o sub => { o with stroke := sub }) (fun _ _ => rfl) h' xs ys o

theorem SaysSame.SyRect_fill {s : List Val} (h : ExpKind.SyRect.Start s) (xs ys : List Val) {r r' : List Val} (h' : ExpKind.Fill.Same (.list (.str k!"fill" :: r)) (.list (.str k!"fill" :: r'))) :
    ExpKind.SyRect.Same (.list (s ++ (xs ++ .list (.str k!"fill" :: r) :: ys))) (.list (s ++ (xs ++ .list (.str k!"fill" :: r') :: ys))) := by
  cases h
  intro o
  exact child_of [.str k!"rectangle"] (SyRect.loopEq ) (sub := Fill.fromSexpr) (fun o sub => { o with fill := sub }) (fun _ _ => rfl) h' xs ys o

theorem SaysSame.SyText_effects {s : List Val} (h : ExpKind.SyText.Start s) (xs ys : List Val) {r r' : List Val} (h' : ExpKind.Effects.Same (.list (.str k!"effects" :: r)) (.list (.str k!"effects" :: r'))) :
    ExpKind.SyText.Same (.list (s ++ (xs ++ .list (.str k!"effects" :: r) :: ys))) (.list (s ++ (xs ++ .list (.str k!"effects" :: r') :: ys))) := by
  obtain ⟨text, rfl⟩ := h
  intro o
  exact child_of [] (SyText.loopEq text) (sub := Effects.fromSexpr) (fun o sub => { o with effects := sub }) (fun _ _ => rfl) h' xs ys o

theorem SaysSame.SyTextBox_effects {s : List Val} (h : ExpKind.SyTextBox.Start s) (xs ys : List Val) {r r' : List Val} (h' : ExpKind.Effects.Same (.list (.str k!"effects" :: r)) (.list (.str k!"effects" :: r'))) :
    ExpKind.SyTextBox.Same (.list (s ++ (xs ++ .list (.str k!"effects" :: r) :: ys))) (.list (s ++ (xs ++ .list (.str k!"effects" :: r') :: ys))) := by
  obtain ⟨a, ha, rfl⟩ := h
  intro o
  exact child_of [] (SyTextBox.loopEq (Val.is_ne ha)) (sub := Effects.fromSexpr) (fun o sub => { o with effects := sub }) (fun _ _ => rfl) h' xs ys o

theorem SaysSame.SyTextBox_stroke {s : List Val} (h : ExpKind.SyTextBox.Start s) (xs ys : List Val) {r r' : List Val} (h' : ExpKind.Stroke.Same (.list (.str k!"stroke" :: r)) (.list (.str k!"stroke" :: r'))) :
    ExpKind.SyTextBox.Same (.list (s ++ (xs ++ .list (.str k!"stroke" :: r) :: ys))) (.list (s ++ (xs ++ .list (.str k!"stroke" :: r') :: ys))) := by
  obtain ⟨a, ha, rfl⟩ := h
  intro o
  exact child_of [] (SyTextBox.loopEq (Val.is_ne ha)) (sub := Stroke.fromSexpr) (fun o sub => { o with stroke := sub }) (fun _ _ => rfl) h' xs ys o

theorem SaysSame.SyTextBox_fill {s : List Val} (h : ExpKind.SyTextBox.Start s) (xs ys : List Val) {r r' : List Val} (h' : ExpKind.Fill.Same (.list (.str k!"fill" :: r)) (.list (.str k!"fill" :: r'))) :
    ExpKind.SyTextBox.Same (.list (s ++ (xs ++ .list (.str k!"fill" :: r) :: ys))) (.list (s ++ (xs ++ .list (.str k!"fill" :: r') :: ys))) := by
  obtain ⟨a, ha, rfl⟩ := h
  intro o
  exact child_of [] (SyTextBox.loopEq (Val.is_ne ha)) (sub := Fill.fromSexpr) (fun o sub => { o with fill := sub }) (fun _ _ => rfl) h' xs ys o

theorem SaysSame.SymbolLib_symbol {s : List Val} (h : ExpKind.SymbolLib.Start s) (xs ys : List Val) {r r' : List Val} (h' : ExpKind.Symbol.Same (.list (.str k!"symbol" :: r)) (.list (.str k!"symbol" :: r'))) :
    ExpKind.SymbolLib.Same (.list (s ++ (xs ++ .list (.str k!"symbol" :: r) :: ys))) (.list (s ++ (xs ++ .list (.str k!"symbol" :: r') :: ys))) := by
  cases h
  intro o
  exact child_of [] (SymbolLib.loopEq ) (sub := Symbol.fromSexpr) (fun o sub => { o with symbols := o.symbols ++ [sub] }) (fun _ _ => rfl) h' xs ys o

theorem SaysSame.BusEntry_stroke {s : List Val} (h : ExpKind.BusEntry.Start s) (xs ys : List Val) {r r' : List Val} (h' : ExpKind.Stroke.Same (.list (.str k!"stroke" :: r)) (.list (.str k!"stroke" :: r'))) :
    ExpKind.BusEntry.Same (.list (s ++ (xs ++ .list (.str k!"stroke" :: r) :: ys))) (.list (s ++ (xs ++ .list (.str k!"stroke" :: r') :: ys))) := by
  cases h
  intro o
  exact child_of [.str k!"bus_entry"] (BusEntry.loopEq ) (sub := Stroke.fromSexpr) (fun o sub => { o with stroke := sub }) (fun _ _ => rfl) h' xs ys o

theorem SaysSame.Connection_stroke {s : List Val} (h : ExpKind.Connection.Start s) (xs ys : List Val) {r r' : List Val} (h' : ExpKind.Stroke.Same (.list (.str k!"stroke" :: r)) (.list (.str k!"stroke" :: r'))) :
    ExpKind.Connection.Same (.list (s ++ (xs ++ .list (.str k!"stroke" :: r) :: ys))) (.list (s ++ (xs ++ .list (.str k!"stroke" :: r') :: ys))) := by
  obtain ⟨hd, hh, rfl⟩ := h
  intro o
  exact child_of [.str hd] (Connection.loopEq hh) (sub := Stroke.fromSexpr) (fun o sub => { o with stroke := sub }) (fun _ _ => rfl) h' xs ys o

theorem SaysSame.PolyLine_stroke {s : List Val} (h : ExpKind.PolyLine.Start s) (xs ys : List Val) {r r' : List Val} (h' : ExpKind.Stroke.Same (.list (.str k!"stroke" :: r)) (.list (.str k!"stroke" :: r'))) :
    ExpKind.PolyLine.Same (.list (s ++ (xs ++ .list (.str k!"stroke" :: r) :: ys))) (.list (s ++ (xs ++ .list (.str k!"stroke" :: r') :: ys))) := by
  cases h
  intro o
  exact child_of [.str k!"polyline"] (PolyLine.loopEq ) (sub := Stroke.fromSexpr) (fun o sub => { o with stroke := sub }) (fun _ _ => rfl) h' xs ys o

theorem SaysSame.Text_effects {s : List Val} (h : ExpKind.Text.Start s) (xs ys : List Val) {r r' : List Val} (h' : ExpKind.Effects.Same (.list (.str k!"effects" :: r)) (.list (.str k!"effects" :: r'))) :
    ExpKind.Text.Same (.list (s ++ (xs ++ .list (.str k!"effects" :: r) :: ys))) (.list (s ++ (xs ++ .list (.str k!"effects" :: r') :: ys))) := by
  obtain ⟨a1, rfl⟩ := h
  intro o
  exact child_of [] (Text.loopEq a1) (sub := Effects.fromSexpr) (fun o sub => { o with effects := sub }) (fun _ _ => rfl) h' xs ys o

theorem SaysSame.TextBox_effects {s : List Val} (h : ExpKind.TextBox.Start s) (xs ys : List Val) {r r' : List Val} (h' : ExpKind.Effects.Same (.list (.str k!"effects" :: r)) (.list (.str k!"effects" :: r'))) :
    ExpKind.TextBox.Same (.list (s ++ (xs ++ .list (.str k!"effects" :: r) :: ys))) (.list (s ++ (xs ++ .list (.str k!"effects" :: r') :: ys))) := by
  obtain ⟨a1, rfl⟩ := h
  intro o
  exact child_of [] (TextBox.loopEq a1) (sub := Effects.fromSexpr) (fun o sub => { o with effects := sub }) (fun _ _ => rfl) h' xs ys o

theorem SaysSame.TextBox_stroke {s : List Val} (h : ExpKind.TextBox.Start s) (xs ys : List Val) {r r' : List Val} (h' : ExpKind.Stroke.Same (.list (.str k!"stroke" :: r)) (.list (.str k!"stroke" :: r'))) :
    ExpKind.TextBox.Same (.list (s ++ (xs ++ .list (.str k!"stroke" :: r) :: ys))) (.list (s ++ (xs ++ .list (.str k!"stroke" :: r') :: ys))) := by
  obtain ⟨a1, rfl⟩ := h
  intro o
  exact child_of [] (TextBox.loopEq a1) (sub := Stroke.fromSexpr) (fun o sub => { o with stroke := sub }) (fun _ _ => rfl) h' xs ys o

theorem SaysSame.TextBox_fill {s : List Val} (h : ExpKind.TextBox.Start s) (xs ys : List Val) {r r' : List Val} (h' : ExpKind.Fill.Same (.list (.str k!"fill" :: r)) (.list (.str k!"fill" :: r'))) :
    ExpKind.TextBox.Same (.list (s ++ (xs ++ .list (.str k!"fill" :: r) :: ys))) (.list (s ++ (xs ++ .list (.str k!"fill" :: r') :: ys))) := by
  obtain ⟨a1, rfl⟩ := h
  intro o
  exact child_of [] (TextBox.loopEq a1) (sub := Fill.fromSexpr) (fun o sub => { o with fill := sub }) (fun _ _ => rfl) h' xs ys o

theorem SaysSame.LocalLabel_effects {s : List Val} (h : ExpKind.LocalLabel.Start s) (xs ys : List Val) {r r' : List Val} (h' : ExpKind.Effects.Same (.list (.str k!"effects" :: r)) (.list (.str k!"effects" :: r'))) :
    ExpKind.LocalLabel.Same (.list (s ++ (xs ++ .list (.str k!"effects" :: r) :: ys))) (.list (s ++ (xs ++ .list (.str k!"effects" :: r') :: ys))) := by
  obtain ⟨a1, rfl⟩ := h
  intro o
  exact child_of [] (LocalLabel.loopEq a1) (sub := Effects.fromSexpr) (fun o sub => { o with effects := sub }) (fun _ _ => rfl) h' xs ys o

theorem SaysSame.GlobalLabel_effects {s : List Val} (h : ExpKind.GlobalLabel.Start s) (xs ys : List Val) {r r' : List Val} (h' : ExpKind.Effects.Same (.list (.str k!"effects" :: r)) (.list (.str k!"effects" :: r'))) :
    ExpKind.GlobalLabel.Same (.list (s ++ (xs ++ .list (.str k!"effects" :: r) :: ys))) (.list (s ++ (xs ++ .list (.str k!"effects" :: r') :: ys))) := by
  obtain ⟨a1, rfl⟩ := h
  intro o
  exact child_of [] (GlobalLabel.loopEq a1) (sub := Effects.fromSexpr) (fun o sub => { o with effects := sub }) (fun _ _ => rfl) h' xs ys o

theorem SaysSame.GlobalLabel_property {s : List Val} (h : ExpKind.GlobalLabel.Start s) (xs ys : List Val) {r r' : List Val} (h' : ExpKind.Property.Same (.list (.str k!"property" :: r)) (.list (.str k!"property" :: r'))) :
    ExpKind.GlobalLabel.Same (.list (s ++ (xs ++ .list (.str k!"property" :: r) :: ys))) (.list (s ++ (xs ++ .list (.str k!"property" :: r') :: ys))) := by
  obtain ⟨a1, rfl⟩ := h
  intro o
  exact child_of [] (GlobalLabel.loopEq a1) (sub := Property.fromSexpr) (fun o sub => { o with properties := o.properties ++ [sub] }) (fun _ _ => rfl) h' xs ys o

theorem SaysSame.HierarchicalLabel_effects {s : List Val} (h : ExpKind.HierarchicalLabel.Start s) (xs ys : List Val) {r r' : List Val} (h' : ExpKind.Effects.Same (.list (.str k!"effects" :: r)) (.list (.str k!"effects" :: r'))) :
    ExpKind.HierarchicalLabel.Same (.list (s ++ (xs ++ .list (.str k!"effects" :: r) :: ys))) (.list (s ++ (xs ++ .list (.str k!"effects" :: r') :: ys))) := by
  obtain ⟨a1, rfl⟩ := h
  intro o
  exact child_of [] (HierarchicalLabel.loopEq a1) (sub := Effects.fromSexpr) (fun o sub => { o with effects := sub }) (fun _ _ => rfl) h' xs ys o

theorem SaysSame.SymbolProjectInstance_path {s : List Val} (h : ExpKind.SymbolProjectInstance.Start s) (xs ys : List Val) {r r' : List Val} (h' : ExpKind.SymbolProjectPath.Same (.list (.str k!"path" :: r)) (.list (.str k!"path" :: r'))) :
    ExpKind.SymbolProjectInstance.Same (.list (s ++ (xs ++ .list (.str k!"path" :: r) :: ys))) (.list (s ++ (xs ++ .list (.str k!"path" :: r') :: ys))) := by
  obtain ⟨a, rfl⟩ := h
  intro o
  exact child_of [] (SymbolProjectInstance.loopEq a) (sub := SymbolProjectPath.fromSexpr) (fun o sub => { o with paths := o.paths ++ [sub] }) (fun _ _ => rfl) h' xs ys o

theorem SaysSame.SchematicSymbol_property {s : List Val} (h : ExpKind.SchematicSymbol.Start s) (xs ys : List Val) {r r' : List Val} (h' : ExpKind.Property.Same (.list (.str k!"property" :: r)) (.list (.str k!"property" :: r'))) :
    ExpKind.SchematicSymbol.Same (.list (s ++ (xs ++ .list (.str k!"property" :: r) :: ys))) (.list (s ++ (xs ++ .list (.str k!"property" :: r') :: ys))) := by
  cases h
  intro o
  exact child_of [] (SchematicSymbol.loopEq ) (sub := Property.fromSexpr) (fun o sub => { o with properties := o.properties ++ [sub] }) (fun _ _ => rfl) h' xs ys o

theorem SaysSame.SchematicSymbol_instances {s : List Val} (h : ExpKind.SchematicSymbol.Start s) (xs ys as bs : List Val) {v v' : Val} (h' : ExpKind.SymbolProjectInstance.Same v v') :
    ExpKind.SchematicSymbol.Same (.list (s ++ (xs ++ .list (.str k!"instances" :: (as ++ v :: bs)) :: ys))) (.list (s ++ (xs ++ .list (.str k!"instances" :: (as ++ v' :: bs)) :: ys))) := by
  cases h
  intro o
  exact grandchild_of [] (SchematicSymbol.loopEq ) (sub := SymbolProjectInstance.fromSexpr) (fun o sub => { o with instances := o.instances ++ sub }) (fun _ _ => rfl) h' as bs xs ys o

theorem SaysSame.HierarchicalPin_effects {s : List Val} (h : ExpKind.HierarchicalPin.Start s) (xs ys : List Val) {r r' : List Val} (h' : ExpKind.Effects.Same (.list (.str k!"effects" :: r)) (.list (.str k!"effects" :: r'))) :
    ExpKind.HierarchicalPin.Same (.list (s ++ (xs ++ .list (.str k!"effects" :: r) :: ys))) (.list (s ++ (xs ++ .list (.str k!"effects" :: r') :: ys))) := by
  obtain ⟨a1, a2, rfl⟩ := h
  intro o
  exact child_of [] (HierarchicalPin.loopEq a1 a2) (sub := Effects.fromSexpr) (fun o sub => { o with effects := sub }) (fun _ _ => rfl) h' xs ys o

theorem SaysSame.HierarchicalSheetProjectInstance_path {s : List Val} (h : ExpKind.HierarchicalSheetProjectInstance.Start s) (xs ys : List Val) {r r' : List Val} (h' : ExpKind.HierarchicalSheetProjectPath.Same (.list (.str k!"path" :: r)) (.list (.str k!"path" :: r'))) :
    ExpKind.HierarchicalSheetProjectInstance.Same (.list (s ++ (xs ++ .list (.str k!"path" :: r) :: ys))) (.list (s ++ (xs ++ .list (.str k!"path" :: r') :: ys))) := by
  obtain ⟨a, rfl⟩ := h
  intro o
  exact child_of [] (HierarchicalSheetProjectInstance.loopEq a) (sub := HierarchicalSheetProjectPath.fromSexpr) (fun o sub => { o with paths := o.paths ++ [sub] }) (fun _ _ => rfl) h' xs ys o

theorem SaysSame.HierarchicalSheet_stroke {s : List Val} (h : ExpKind.HierarchicalSheet.Start s) (xs ys : List Val) {r r' : List Val} (h' : ExpKind.Stroke.Same (.list (.str k!"stroke" :: r)) (.list (.str k!"stroke" :: r'))) :
    ExpKind.HierarchicalSheet.Same (.list (s ++ (xs ++ .list (.str k!"stroke" :: r) :: ys))) (.list (s ++ (xs ++ .list (.str k!"stroke" :: r') :: ys))) := by
  cases h
  intro o
  exact child_of [] (HierarchicalSheet.loopEq ) (sub := Stroke.fromSexpr) (fun o sub => { o with stroke := sub }) (fun _ _ => rfl) h' xs ys o

theorem SaysSame.HierarchicalSheet_pin {s : List Val} (h : ExpKind.HierarchicalSheet.Start s) (xs ys : List Val) {r r' : List Val} (h' : ExpKind.HierarchicalPin.Same (.list (.str k!"pin" :: r)) (.list (.str k!"pin" :: r'))) :
    ExpKind.HierarchicalSheet.Same (.list (s ++ (xs ++ .list (.str k!"pin" :: r) :: ys))) (.list (s ++ (xs ++ .list (.str k!"pin" :: r') :: ys))) := by
  cases h
  intro o
  exact child_of [] (HierarchicalSheet.loopEq ) (sub := HierarchicalPin.fromSexpr) (fun o sub => { o with pins := o.pins ++ [sub] }) (fun _ _ => rfl) h' xs ys o

theorem SaysSame.HierarchicalSheet_instances {s : List Val} (h : ExpKind.HierarchicalSheet.Start s) (xs ys as bs : List Val) {v v' : Val} (h' : ExpKind.HierarchicalSheetProjectInstance.Same v v') :
    ExpKind.HierarchicalSheet.Same (.list (s ++ (xs ++ .list (.str k!"instances" :: (as ++ v :: bs)) :: ys))) (.list (s ++ (xs ++ .list (.str k!"instances" :: (as ++ v' :: bs)) :: ys))) := by
  cases h
  intro o
  exact grandchild_of [] (HierarchicalSheet.loopEq ) (sub := HierarchicalSheetProjectInstance.fromSexpr) (fun o sub => { o with instances := o.instances ++ sub }) (fun _ _ => rfl) h' as bs xs ys o

theorem SaysSame.Rectangle_stroke {s : List Val} (h : ExpKind.Rectangle.Start s) (xs ys : List Val) {r r' : List Val} (h' : ExpKind.Stroke.Same (.list (.str k!"stroke" :: r)) (.list (.str k!"stroke" :: r'))) :
    ExpKind.Rectangle.Same (.list (s ++ (xs ++ .list (.str k!"stroke" :: r) :: ys))) (.list (s ++ (xs ++ .list (.str k!"stroke" :: r') :: ys))) := by
  cases h
  intro o
  exact child_of [.str k!"rectangle"] (Rectangle.loopEq ) (sub := Stroke.fromSexpr) (fun o sub => { o with stroke := sub }) (fun _ _ => rfl) h' xs ys o

theorem SaysSame.Rectangle_fill {s : List Val} (h : ExpKind.Rectangle.Start s) (xs ys : List Val) {r r' : List Val} (h' : ExpKind.Fill.Same (.list (.str k!"fill" :: r)) (.list (.str k!"fill" :: r'))) :
    ExpKind.Rectangle.Same (.list (s ++ (xs ++ .list (.str k!"fill" :: r) :: ys))) (.list (s ++ (xs ++ .list (.str k!"fill" :: r') :: ys))) := by
  cases h
  intro o
  exact child_of [.str k!"rectangle"] (Rectangle.loopEq ) (sub := Fill.fromSexpr) (fun o sub => { o with fill := sub }) (fun _ _ => rfl) h' xs ys o

theorem SaysSame.Arc_stroke {s : List Val} (h : ExpKind.Arc.Start s) (xs ys : List Val) {r r' : List Val} (h' : ExpKind.Stroke.Same (.list (.str k!"stroke" :: r)) (.list (.str k!"stroke" :: r'))) :
    ExpKind.Arc.Same (.list (s ++ (xs ++ .list (.str k!"stroke" :: r) :: ys))) (.list (s ++ (xs ++ .list (.str k!"stroke" :: r') :: ys))) := by
  cases h
  intro o
  exact child_of [.str k!"arc"] (Arc.loopEq ) (sub := Stroke.fromSexpr) (fun o sub => { o with stroke := sub }) (fun _ _ => rfl) h' xs ys o

theorem SaysSame.Arc_fill {s : List Val} (h : ExpKind.Arc.Start s) (xs ys : List Val) {r r' : List Val} (h' : ExpKind.Fill.Same (.list (.str k!"fill" :: r)) (.list (.str k!"fill" :: r'))) :
    ExpKind.Arc.Same (.list (s ++ (xs ++ .list (.str k!"fill" :: r) :: ys))) (.list (s ++ (xs ++ .list (.str k!"fill" :: r') :: ys))) := by
  cases h
  intro o
  exact child_of [.str k!"arc"] (Arc.loopEq ) (sub := Fill.fromSexpr) (fun o sub => { o with fill := sub }) (fun _ _ => rfl) h' xs ys o

theorem SaysSame.Circle_stroke {s : List Val} (h : ExpKind.Circle.Start s) (xs ys : List Val) {r r' : List Val} (h' : ExpKind.Stroke.Same (.list (.str k!"stroke" :: r)) (.list (.str k!"stroke" :: r'))) :
    ExpKind.Circle.Same (.list (s ++ (xs ++ .list (.str k!"stroke" :: r) :: ys))) (.list (s ++ (xs ++ .list (.str k!"stroke" :: r') :: ys))) := by
  cases h
  intro o
  exact child_of [.str k!"circle"] (Circle.loopEq ) (sub := Stroke.fromSexpr) (fun o sub => { o with stroke := sub }) (fun _ _ => rfl) h' xs ys o

theorem SaysSame.Circle_fill {s : List Val} (h : ExpKind.Circle.Start s) (xs ys : List Val) {r r' : List Val} (h' : ExpKind.Fill.Same (.list (.str k!"fill" :: r)) (.list (.str k!"fill" :: r'))) :
    ExpKind.Circle.Same (.list (s ++ (xs ++ .list (.str k!"fill" :: r) :: ys))) (.list (s ++ (xs ++ .list (.str k!"fill" :: r') :: ys))) := by
  cases h
  intro o
  exact child_of [.str k!"circle"] (Circle.loopEq ) (sub := Fill.fromSexpr) (fun o sub => { o with fill := sub }) (fun _ _ => rfl) h' xs ys o

theorem SaysSame.NetclassFlag_effects {s : List Val} (h : ExpKind.NetclassFlag.Start s) (xs ys : List Val) {r r' : List Val} (h' : ExpKind.Effects.Same (.list (.str k!"effects" :: r)) (.list (.str k!"effects" :: r'))) :
    ExpKind.NetclassFlag.Same (.list (s ++ (xs ++ .list (.str k!"effects" :: r) :: ys))) (.list (s ++ (xs ++ .list (.str k!"effects" :: r') :: ys))) := by
  obtain ⟨a1, rfl⟩ := h
  intro o
  exact child_of [] (NetclassFlag.loopEq a1) (sub := Effects.fromSexpr) (fun o sub => { o with effects := some sub }) (fun _ _ => rfl) h' xs ys o

theorem SaysSame.NetclassFlag_property {s : List Val} (h : ExpKind.NetclassFlag.Start s) (xs ys : List Val) {r r' : List Val} (h' : ExpKind.Property.Same (.list (.str k!"property" :: r)) (.list (.str k!"property" :: r'))) :
    ExpKind.NetclassFlag.Same (.list (s ++ (xs ++ .list (.str k!"property" :: r) :: ys))) (.list (s ++ (xs ++ .list (.str k!"property" :: r') :: ys))) := by
  obtain ⟨a1, rfl⟩ := h
  intro o
  exact child_of [] (NetclassFlag.loopEq a1) (sub := Property.fromSexpr) (fun o sub => { o with properties := o.properties ++ [sub] }) (fun _ _ => rfl) h' xs ys o

theorem SaysSame.Schematic_title_block {s : List Val} (h : ExpKind.Schematic.Start s) (xs ys : List Val) {r r' : List Val} (h' : ExpKind.TitleBlock.Same (.list (.str k!"title_block" :: r)) (.list (.str k!"title_block" :: r'))) :
    ExpKind.Schematic.Same (.list (s ++ (xs ++ .list (.str k!"title_block" :: r) :: ys))) (.list (s ++ (xs ++ .list (.str k!"title_block" :: r') :: ys))) := by
  cases h
  intro o
  exact child_of [.str k!"kicad_sch"] (Schematic.loopEq ) (sub := TitleBlock.fromSexpr) (fun o sub => { o with titleBlock := some sub }) (fun _ _ => rfl) h' xs ys o

theorem SaysSame.Schematic_lib_symbols {s : List Val} (h : ExpKind.Schematic.Start s) (xs ys as bs : List Val) {v v' : Val} (h' : ExpKind.Symbol.Same v v') :
    ExpKind.Schematic.Same (.list (s ++ (xs ++ .list (.str k!"lib_symbols" :: (as ++ v :: bs)) :: ys))) (.list (s ++ (xs ++ .list (.str k!"lib_symbols" :: (as ++ v' :: bs)) :: ys))) := by
  cases h
  intro o
  exact grandchild_of [.str k!"kicad_sch"] (Schematic.loopEq ) (sub := Symbol.fromSexpr) (fun o sub => { o with libSymbols := o.libSymbols ++ sub }) (fun _ _ => rfl) h' as bs xs ys o

theorem SaysSame.Schematic_junction {s : List Val} (h : ExpKind.Schematic.Start s) (xs ys : List Val) {r r' : List Val} (h' : ExpKind.Junction.Same (.list (.str k!"junction" :: r)) (.list (.str k!"junction" :: r'))) :
    ExpKind.Schematic.Same (.list (s ++ (xs ++ .list (.str k!"junction" :: r) :: ys))) (.list (s ++ (xs ++ .list (.str k!"junction" :: r') :: ys))) := by
  cases h
  intro o
  exact child_of [.str k!"kicad_sch"] (Schematic.loopEq ) (sub := Junction.fromSexpr) (fun o sub => { o with junctions := o.junctions ++ [sub] }) (fun _ _ => rfl) h' xs ys o

theorem SaysSame.Schematic_no_connect {s : List Val} (h : ExpKind.Schematic.Start s) (xs ys : List Val) {r r' : List Val} (h' : ExpKind.NoConnect.Same (.list (.str k!"no_connect" :: r)) (.list (.str k!"no_connect" :: r'))) :
    ExpKind.Schematic.Same (.list (s ++ (xs ++ .list (.str k!"no_connect" :: r) :: ys))) (.list (s ++ (xs ++ .list (.str k!"no_connect" :: r') :: ys))) := by
  cases h
  intro o
  exact child_of [.str k!"kicad_sch"] (Schematic.loopEq ) (sub := NoConnect.fromSexpr) (fun o sub => { o with noConnects := o.noConnects ++ [sub] }) (fun _ _ => rfl) h' xs ys o

theorem SaysSame.Schematic_bus_entry {s : List Val} (h : ExpKind.Schematic.Start s) (xs ys : List Val) {r r' : List Val} (h' : ExpKind.BusEntry.Same (.list (.str k!"bus_entry" :: r)) (.list (.str k!"bus_entry" :: r'))) :
    ExpKind.Schematic.Same (.list (s ++ (xs ++ .list (.str k!"bus_entry" :: r) :: ys))) (.list (s ++ (xs ++ .list (.str k!"bus_entry" :: r') :: ys))) := by
  cases h
  intro o
  exact child_of [.str k!"kicad_sch"] (Schematic.loopEq ) (sub := BusEntry.fromSexpr) (fun o sub => { o with busEntries := o.busEntries ++ [sub] }) (fun _ _ => rfl) h' xs ys o

theorem SaysSame.Schematic_polyline {s : List Val} (h : ExpKind.Schematic.Start s) (xs ys : List Val) {r r' : List Val} (h' : ExpKind.PolyLine.Same (.list (.str k!"polyline" :: r)) (.list (.str k!"polyline" :: r'))) :
    ExpKind.Schematic.Same (.list (s ++ (xs ++ .list (.str k!"polyline" :: r) :: ys))) (.list (s ++ (xs ++ .list (.str k!"polyline" :: r') :: ys))) := by
  cases h
  intro o
  exact child_of [.str k!"kicad_sch"] (Schematic.loopEq ) (sub := PolyLine.fromSexpr) (fun o sub => { o with graphicalItems := o.graphicalItems ++ [.polyline sub] }) (fun _ _ => rfl) h' xs ys o

theorem SaysSame.Schematic_arc {s : List Val} (h : ExpKind.Schematic.Start s) (xs ys : List Val) {r r' : List Val} (h' : ExpKind.Arc.Same (.list (.str k!"arc" :: r)) (.list (.str k!"arc" :: r'))) :
    ExpKind.Schematic.Same (.list (s ++ (xs ++ .list (.str k!"arc" :: r) :: ys))) (.list (s ++ (xs ++ .list (.str k!"arc" :: r') :: ys))) := by
  cases h
  intro o
  exact child_of [.str k!"kicad_sch"] (Schematic.loopEq ) (sub := Arc.fromSexpr) (fun o sub => { o with shapes := o.shapes ++ [.arc sub] }) (fun _ _ => rfl) h' xs ys o

theorem SaysSame.Schematic_circle {s : List Val} (h : ExpKind.Schematic.Start s) (xs ys : List Val) {r r' : List Val} (h' : ExpKind.Circle.Same (.list (.str k!"circle" :: r)) (.list (.str k!"circle" :: r'))) :
    ExpKind.Schematic.Same (.list (s ++ (xs ++ .list (.str k!"circle" :: r) :: ys))) (.list (s ++ (xs ++ .list (.str k!"circle" :: r') :: ys))) := by
  cases h
  intro o
  exact child_of [.str k!"kicad_sch"] (Schematic.loopEq ) (sub := Circle.fromSexpr) (fun o sub => { o with shapes := o.shapes ++ [.circle sub] }) (fun _ _ => rfl) h' xs ys o

theorem SaysSame.Schematic_rectangle {s : List Val} (h : ExpKind.Schematic.Start s) (xs ys : List Val) {r r' : List Val} (h' : ExpKind.Rectangle.Same (.list (.str k!"rectangle" :: r)) (.list (.str k!"rectangle" :: r'))) :
    ExpKind.Schematic.Same (.list (s ++ (xs ++ .list (.str k!"rectangle" :: r) :: ys))) (.list (s ++ (xs ++ .list (.str k!"rectangle" :: r') :: ys))) := by
  cases h
  intro o
  exact child_of [.str k!"kicad_sch"] (Schematic.loopEq ) (sub := Rectangle.fromSexpr) (fun o sub => { o with shapes := o.shapes ++ [.rectangle sub] }) (fun _ _ => rfl) h' xs ys o

theorem SaysSame.Schematic_image {s : List Val} (h : ExpKind.Schematic.Start s) (xs ys : List Val) {r r' : List Val} (h' : ExpKind.Image.Same (.list (.str k!"image" :: r)) (.list (.str k!"image" :: r'))) :
    ExpKind.Schematic.Same (.list (s ++ (xs ++ .list (.str k!"image" :: r) :: ys))) (.list (s ++ (xs ++ .list (.str k!"image" :: r') :: ys))) := by
  cases h
  intro o
  exact child_of [.str k!"kicad_sch"] (Schematic.loopEq ) (sub := Image.fromSexpr) (fun o sub => { o with images := o.images ++ [sub] }) (fun _ _ => rfl) h' xs ys o

theorem SaysSame.Schematic_text {s : List Val} (h : ExpKind.Schematic.Start s) (xs ys : List Val) {r r' : List Val} (h' : ExpKind.Text.Same (.list (.str k!"text" :: r)) (.list (.str k!"text" :: r'))) :
    ExpKind.Schematic.Same (.list (s ++ (xs ++ .list (.str k!"text" :: r) :: ys))) (.list (s ++ (xs ++ .list (.str k!"text" :: r') :: ys))) := by
  cases h
  intro o
  exact child_of [.str k!"kicad_sch"] (Schematic.loopEq ) (sub := Text.fromSexpr) (fun o sub => { o with texts := o.texts ++ [sub] }) (fun _ _ => rfl) h' xs ys o

theorem SaysSame.Schematic_text_box {s : List Val} (h : ExpKind.Schematic.Start s) (xs ys : List Val) {r r' : List Val} (h' : ExpKind.TextBox.Same (.list (.str k!"text_box" :: r)) (.list (.str k!"text_box" :: r'))) :
    ExpKind.Schematic.Same (.list (s ++ (xs ++ .list (.str k!"text_box" :: r) :: ys))) (.list (s ++ (xs ++ .list (.str k!"text_box" :: r') :: ys))) := by
  cases h
  intro o
  exact child_of [.str k!"kicad_sch"] (Schematic.loopEq ) (sub := TextBox.fromSexpr) (fun o sub => { o with textBoxes := o.textBoxes ++ [sub] }) (fun _ _ => rfl) h' xs ys o

theorem SaysSame.Schematic_label {s : List Val} (h : ExpKind.Schematic.Start s) (xs ys : List Val) {r r' : List Val} (h' : ExpKind.LocalLabel.Same (.list (.str k!"label" :: r)) (.list (.str k!"label" :: r'))) :
    ExpKind.Schematic.Same (.list (s ++ (xs ++ .list (.str k!"label" :: r) :: ys))) (.list (s ++ (xs ++ .list (.str k!"label" :: r') :: ys))) := by
  cases h
  intro o
  exact child_of [.str k!"kicad_sch"] (Schematic.loopEq ) (sub := LocalLabel.fromSexpr) (fun o sub => { o with labels := o.labels ++ [sub] }) (fun _ _ => rfl) h' xs ys o

theorem SaysSame.Schematic_global_label {s : List Val} (h : ExpKind.Schematic.Start s) (xs ys : List Val) {r r' : List Val} (h' : ExpKind.GlobalLabel.Same (.list (.str k!"global_label" :: r)) (.list (.str k!"global_label" :: r'))) :
    ExpKind.Schematic.Same (.list (s ++ (xs ++ .list (.str k!"global_label" :: r) :: ys))) (.list (s ++ (xs ++ .list (.str k!"global_label" :: r') :: ys))) := by
  cases h
  intro o
  exact child_of [.str k!"kicad_sch"] (Schematic.loopEq ) (sub := GlobalLabel.fromSexpr) (fun o sub => { o with globalLabels := o.globalLabels ++ [sub] }) (fun _ _ => rfl) h' xs ys o

theorem SaysSame.Schematic_hierarchical_label {s : List Val} (h : ExpKind.Schematic.Start s) (xs ys : List Val) {r r' : List Val} (h' : ExpKind.HierarchicalLabel.Same (.list (.str k!"hierarchical_label" :: r)) (.list (.str k!"hierarchical_label" :: r'))) :
    ExpKind.Schematic.Same (.list (s ++ (xs ++ .list (.str k!"hierarchical_label" :: r) :: ys))) (.list (s ++ (xs ++ .list (.str k!"hierarchical_label" :: r') :: ys))) := by
  cases h
  intro o
  exact child_of [.str k!"kicad_sch"] (Schematic.loopEq ) (sub := HierarchicalLabel.fromSexpr) (fun o sub => { o with hierarchicalLabels := o.hierarchicalLabels ++ [sub] }) (fun _ _ => rfl) h' xs ys o

theorem SaysSame.Schematic_netclass_flag {s : List Val} (h : ExpKind.Schematic.Start s) (xs ys : List Val) {r r' : List Val} (h' : ExpKind.NetclassFlag.Same (.list (.str k!"netclass_flag" :: r)) (.list (.str k!"netclass_flag" :: r'))) :
    ExpKind.Schematic.Same (.list (s ++ (xs ++ .list (.str k!"netclass_flag" :: r) :: ys))) (.list (s ++ (xs ++ .list (.str k!"netclass_flag" :: r') :: ys))) := by
  cases h
  intro o
  exact child_of [.str k!"kicad_sch"] (Schematic.loopEq ) (sub := NetclassFlag.fromSexpr) (fun o sub => { o with netclassFlags := o.netclassFlags ++ [sub] }) (fun _ _ => rfl) h' xs ys o

theorem SaysSame.Schematic_symbol {s : List Val} (h : ExpKind.Schematic.Start s) (xs ys : List Val) {r r' : List Val} (h' : ExpKind.SchematicSymbol.Same (.list (.str k!"symbol" :: r)) (.list (.str k!"symbol" :: r'))) :
    ExpKind.Schematic.Same (.list (s ++ (xs ++ .list (.str k!"symbol" :: r) :: ys))) (.list (s ++ (xs ++ .list (.str k!"symbol" :: r') :: ys))) := by
  cases h
  intro o
  exact child_of [.str k!"kicad_sch"] (Schematic.loopEq ) (sub := SchematicSymbol.fromSexpr) (fun o sub => { o with schematicSymbols := o.schematicSymbols ++ [sub] }) (fun _ _ => rfl) h' xs ys o

theorem SaysSame.Schematic_sheet {s : List Val} (h : ExpKind.Schematic.Start s) (xs ys : List Val) {r r' : List Val} (h' : ExpKind.HierarchicalSheet.Same (.list (.str k!"sheet" :: r)) (.list (.str k!"sheet" :: r'))) :
    ExpKind.Schematic.Same (.list (s ++ (xs ++ .list (.str k!"sheet" :: r) :: ys))) (.list (s ++ (xs ++ .list (.str k!"sheet" :: r') :: ys))) := by
  cases h
  intro o
  exact child_of [.str k!"kicad_sch"] (Schematic.loopEq ) (sub := HierarchicalSheet.fromSexpr) (fun o sub => { o with sheets := o.sheets ++ [sub] }) (fun _ _ => rfl) h' xs ys o

theorem SaysSame.Schematic_sheet_instances {s : List Val} (h : ExpKind.Schematic.Start s) (xs ys as bs : List Val) {v v' : Val} (h' : ExpKind.HierarchicalSheetInstance.Same v v') :
    ExpKind.Schematic.Same (.list (s ++ (xs ++ .list (.str k!"sheet_instances" :: (as ++ v :: bs)) :: ys))) (.list (s ++ (xs ++ .list (.str k!"sheet_instances" :: (as ++ v' :: bs)) :: ys))) := by
  cases h
  intro o
  exact grandchild_of [.str k!"kicad_sch"] (Schematic.loopEq ) (sub := HierarchicalSheetInstance.fromSexpr) (fun o sub => { o with sheetInstances := o.sheetInstances ++ sub }) (fun _ _ => rfl) h' as bs xs ys o

theorem SaysSame.Schematic_symbol_instances {s : List Val} (h : ExpKind.Schematic.Start s) (xs ys as bs : List Val) {v v' : Val} (h' : ExpKind.SymbolInstance.Same v v') :
    ExpKind.Schematic.Same (.list (s ++ (xs ++ .list (.str k!"symbol_instances" :: (as ++ v :: bs)) :: ys))) (.list (s ++ (xs ++ .list (.str k!"symbol_instances" :: (as ++ v' :: bs)) :: ys))) := by
  cases h
  intro o
  exact grandchild_of [.str k!"kicad_sch"] (Schematic.loopEq ) (sub := SymbolInstance.fromSexpr) (fun o sub => { o with symbolInstances := o.symbolInstances ++ sub }) (fun _ _ => rfl) h' as bs xs ys o

theorem SaysSame.GrText_effects {s : List Val} (h : ExpKind.GrText.Start s) (xs ys : List Val) {r r' : List Val} (h' : ExpKind.Effects.Same (.list (.str k!"effects" :: r)) (.list (.str k!"effects" :: r'))) :
    ExpKind.GrText.Same (.list (s ++ (xs ++ .list (.str k!"effects" :: r) :: ys))) (.list (s ++ (xs ++ .list (.str k!"effects" :: r') :: ys))) := by
  obtain ⟨a1, rfl⟩ := h
  intro o
  exact child_of [] (GrText.loopEq a1) (sub := Effects.fromSexpr) (fun o sub => { o with effects := sub }) (fun _ _ => rfl) h' xs ys o

theorem SaysSame.GrText_render_cache {s : List Val} (h : ExpKind.GrText.Start s) (xs ys : List Val) {r r' : List Val} (h' : ExpKind.RenderCache.Same (.list (.str k!"render_cache" :: r)) (.list (.str k!"render_cache" :: r'))) :
    ExpKind.GrText.Same (.list (s ++ (xs ++ .list (.str k!"render_cache" :: r) :: ys))) (.list (s ++ (xs ++ .list (.str k!"render_cache" :: r') :: ys))) := by
  obtain ⟨a1, rfl⟩ := h
  intro o
  exact child_of [] (GrText.loopEq a1) (sub := RenderCache.fromSexpr) (fun o sub => { o with renderCache := some sub }) (fun _ _ => rfl) h' xs ys o

theorem SaysSame.GrTextBox_effects {s : List Val} (h : ExpKind.GrTextBox.Start s) (xs ys : List Val) {r r' : List Val} (h' : ExpKind.Effects.Same (.list (.str k!"effects" :: r)) (.list (.str k!"effects" :: r'))) :
    ExpKind.GrTextBox.Same (.list (s ++ (xs ++ .list (.str k!"effects" :: r) :: ys))) (.list (s ++ (xs ++ .list (.str k!"effects" :: r') :: ys))) := by
  obtain ⟨a, ha, rfl⟩ := h
  intro o
  exact child_of [] (GrTextBox.loopEq (Val.is_ne ha)) (sub := Effects.fromSexpr) (fun o sub => { o with effects := some sub }) (fun _ _ => rfl) h' xs ys o

theorem SaysSame.GrTextBox_stroke {s : List Val} (h : ExpKind.GrTextBox.Start s) (xs ys : List Val) {r r' : List Val} (h' : ExpKind.Stroke.Same (.list (.str k!"stroke" :: r)) (.list (.str k!"stroke" :: r'))) :
    ExpKind.GrTextBox.Same (.list (s ++ (xs ++ .list (.str k!"stroke" :: r) :: ys))) (.list (s ++ (xs ++ .list (.str k!"stroke" :: r') :: ys))) := by
  obtain ⟨a, ha, rfl⟩ := h
  intro o
  exact child_of [] (GrTextBox.loopEq (Val.is_ne ha)) (sub := Stroke.fromSexpr) (fun o sub => { o with stroke := some sub }) (fun _ _ => rfl) h' xs ys o

theorem SaysSame.GrTextBox_render_cache {s : List Val} (h : ExpKind.GrTextBox.Start s) (xs ys : List Val) {r r' : List Val} (h' : ExpKind.RenderCache.Same (.list (.str k!"render_cache" :: r)) (.list (.str k!"render_cache" :: r'))) :
    ExpKind.GrTextBox.Same (.list (s ++ (xs ++ .list (.str k!"render_cache" :: r) :: ys))) (.list (s ++ (xs ++ .list (.str k!"render_cache" :: r') :: ys))) := by
  obtain ⟨a, ha, rfl⟩ := h
  intro o
  exact child_of [] (GrTextBox.loopEq (Val.is_ne ha)) (sub := RenderCache.fromSexpr) (fun o sub => { o with renderCache := some sub }) (fun _ _ => rfl) h' xs ys o

theorem SaysSame.FpText_effects {s : List Val} (h : ExpKind.FpText.Start s) (xs ys : List Val) {r r' : List Val} (h' : ExpKind.Effects.Same (.list (.str k!"effects" :: r)) (.list (.str k!"effects" :: r'))) :
    ExpKind.FpText.Same (.list (s ++ (xs ++ .list (.str k!"effects" :: r) :: ys))) (.list (s ++ (xs ++ .list (.str k!"effects" :: r') :: ys))) := by
  obtain ⟨a1, a2, rfl⟩ := h
  intro o
  exact child_of [] (FpText.loopEq a1 a2) (sub := Effects.fromSexpr) (fun o sub => { o with effects := sub }) (fun _ _ => rfl) h' xs ys o

theorem SaysSame.FpText_render_cache {s : List Val} (h : ExpKind.FpText.Start s) (xs ys : List Val) {r r' : List Val} (h' : ExpKind.RenderCache.Same (.list (.str k!"render_cache" :: r)) (.list (.str k!"render_cache" :: r'))) :
    ExpKind.FpText.Same (.list (s ++ (xs ++ .list (.str k!"render_cache" :: r) :: ys))) (.list (s ++ (xs ++ .list (.str k!"render_cache" :: r') :: ys))) := by
  obtain ⟨a1, a2, rfl⟩ := h
  intro o
  exact child_of [] (FpText.loopEq a1 a2) (sub := RenderCache.fromSexpr) (fun o sub => { o with renderCache := some sub }) (fun _ _ => rfl) h' xs ys o

theorem SaysSame.FpLine_stroke {s : List Val} (h : ExpKind.FpLine.Start s) (xs ys : List Val) {r r' : List Val} (h' : ExpKind.Stroke.Same (.list (.str k!"stroke" :: r)) (.list (.str k!"stroke" :: r'))) :
    ExpKind.FpLine.Same (.list (s ++ (xs ++ .list (.str k!"stroke" :: r) :: ys))) (.list (s ++ (xs ++ .list (.str k!"stroke" :: r') :: ys))) := by
  cases h
  intro o
  exact child_of [.str k!"fp_line"] (FpLine.loopEq ) (sub := Stroke.fromSexpr) (fun o sub => { o with stroke := some sub, width := none }) (fun _ _ => rfl) h' xs ys o

theorem SaysSame.FpRect_stroke {s : List Val} (h : ExpKind.FpRect.Start s) (xs ys : List Val) {r r' : List Val} (h' : ExpKind.Stroke.Same (.list (.str k!"stroke" :: r)) (.list (.str k!"stroke" :: r'))) :
    ExpKind.FpRect.Same (.list (s ++ (xs ++ .list (.str k!"stroke" :: r) :: ys))) (.list (s ++ (xs ++ .list (.str k!"stroke" :: r') :: ys))) := by
  cases h
  intro o
  exact child_of [.str k!"fp_rect"] (FpRect.loopEq ) (sub := Stroke.fromSexpr) (fun o sub => { o with stroke := some sub, width := none }) (fun _ _ => rfl) h' xs ys o

theorem SaysSame.FpTextBox_effects {s : List Val} (h : ExpKind.FpTextBox.Start s) (xs ys : List Val) {r r' : List Val} (h' : ExpKind.Effects.Same (.list (.str k!"effects" :: r)) (.list (.str k!"effects" :: r'))) :
    ExpKind.FpTextBox.Same (.list (s ++ (xs ++ .list (.str k!"effects" :: r) :: ys))) (.list (s ++ (xs ++ .list (.str k!"effects" :: r') :: ys))) := by
  obtain ⟨a, ha, rfl⟩ := h
  intro o
  exact child_of [] (FpTextBox.loopEq (Val.is_ne ha)) (sub := Effects.fromSexpr) (fun o sub => { o with effects := some sub }) (fun _ _ => rfl) h' xs ys o

theorem SaysSame.FpTextBox_stroke {s : List Val} (h : ExpKind.FpTextBox.Start s) (xs ys : List Val) {r r' : List Val} (h' : ExpKind.Stroke.Same (.list (.str k!"stroke" :: r)) (.list (.str k!"stroke" :: r'))) :
    ExpKind.FpTextBox.Same (.list (s ++ (xs ++ .list (.str k!"stroke" :: r) :: ys))) (.list (s ++ (xs ++ .list (.str k!"stroke" :: r') :: ys))) := by
  obtain ⟨a, ha, rfl⟩ := h
  intro o
  exact child_of [] (FpTextBox.loopEq (Val.is_ne ha)) (sub := Stroke.fromSexpr) (fun o sub => { o with stroke := some sub }) (fun _ _ => rfl) h' xs ys o

theorem SaysSame.FpTextBox_render_cache {s : List Val} (h : ExpKind.FpTextBox.Start s) (xs ys : List Val) {r r' : List Val} (h' : ExpKind.RenderCache.Same (.list (.str k!"render_cache" :: r)) (.list (.str k!"render_cache" :: r'))) :
    ExpKind.FpTextBox.Same (.list (s ++ (xs ++ .list (.str k!"render_cache" :: r) :: ys))) (.list (s ++ (xs ++ .list (.str k!"render_cache" :: r') :: ys))) := by
  obtain ⟨a, ha, rfl⟩ := h
  intro o
  exact child_of [] (FpTextBox.loopEq (Val.is_ne ha)) (sub := RenderCache.fromSexpr) (fun o sub => { o with renderCache := some sub }) (fun _ _ => rfl) h' xs ys o

theorem SaysSame.FpCircle_stroke {s : List Val} (h : ExpKind.FpCircle.Start s) (xs ys : List Val) {r r' : List Val} (h' : ExpKind.Stroke.Same (.list (.str k!"stroke" :: r)) (.list (.str k!"stroke" :: r'))) :
    ExpKind.FpCircle.Same (.list (s ++ (xs ++ .list (.str k!"stroke" :: r) :: ys))) (.list (s ++ (xs ++ .list (.str k!"stroke" :: r') :: ys))) := by
  cases h
  intro o
  exact child_of [.str k!"fp_circle"] (FpCircle.loopEq ) (sub := Stroke.fromSexpr) (fun o sub => { o with stroke := some sub, width := none }) (fun _ _ => rfl) h' xs ys o

theorem SaysSame.FpArc_stroke {s : List Val} (h : ExpKind.FpArc.Start s) (xs ys : List Val) {r r' : List Val} (h' : ExpKind.Stroke.Same (.list (.str k!"stroke" :: r)) (.list (.str k!"stroke" :: r'))) :
    ExpKind.FpArc.Same (.list (s ++ (xs ++ .list (.str k!"stroke" :: r) :: ys))) (.list (s ++ (xs ++ .list (.str k!"stroke" :: r') :: ys))) := by
  cases h
  intro o
  exact child_of [.str k!"fp_arc"] (FpArc.loopEq ) (sub := Stroke.fromSexpr) (fun o sub => { o with stroke := some sub, width := none }) (fun _ _ => rfl) h' xs ys o

theorem SaysSame.FpPoly_stroke {s : List Val} (h : ExpKind.FpPoly.Start s) (xs ys : List Val) {r r' : List Val} (h' : ExpKind.Stroke.Same (.list (.str k!"stroke" :: r)) (.list (.str k!"stroke" :: r'))) :
    ExpKind.FpPoly.Same (.list (s ++ (xs ++ .list (.str k!"stroke" :: r) :: ys))) (.list (s ++ (xs ++ .list (.str k!"stroke" :: r') :: ys))) := by
  cases h
  intro o
  exact child_of [.str k!"fp_poly"] (FpPoly.loopEq ) (sub := Stroke.fromSexpr) (fun o sub => { o with stroke := some sub, width := none }) (fun _ _ => rfl) h' xs ys o

theorem SaysSame.FpCurve_stroke {s : List Val} (h : ExpKind.FpCurve.Start s) (xs ys : List Val) {r r' : List Val} (h' : ExpKind.Stroke.Same (.list (.str k!"stroke" :: r)) (.list (.str k!"stroke" :: r'))) :
    ExpKind.FpCurve.Same (.list (s ++ (xs ++ .list (.str k!"stroke" :: r) :: ys))) (.list (s ++ (xs ++ .list (.str k!"stroke" :: r') :: ys))) := by
  cases h
  intro o
  exact child_of [.str k!"fp_curve"] (FpCurve.loopEq ) (sub := Stroke.fromSexpr) (fun o sub => { o with stroke := some sub, width := none }) (fun _ _ => rfl) h' xs ys o

theorem SaysSame.Zone_keepout {s : List Val} (h : ExpKind.Zone.Start s) (xs ys : List Val) {r r' : List Val} (h' : ExpKind.KeepoutSettings.Same (.list (.str k!"keepout" :: r)) (.list (.str k!"keepout" :: r'))) :
    ExpKind.Zone.Same (.list (s ++ (xs ++ .list (.str k!"keepout" :: r) :: ys))) (.list (s ++ (xs ++ .list (.str k!"keepout" :: r') :: ys))) := by
  cases h
  intro o
  exact child_of [.str k!"zone"] (Zone.loopEq ) (sub := KeepoutSettings.fromSexpr) (fun o sub => { o with keepoutSettings := some sub }) (fun _ _ => rfl) h' xs ys o

theorem SaysSame.Zone_fill {s : List Val} (h : ExpKind.Zone.Start s) (xs ys : List Val) {r r' : List Val} (h' : ExpKind.FillSettings.Same (.list (.str k!"fill" :: r)) (.list (.str k!"fill" :: r'))) :
    ExpKind.Zone.Same (.list (s ++ (xs ++ .list (.str k!"fill" :: r) :: ys))) (.list (s ++ (xs ++ .list (.str k!"fill" :: r') :: ys))) := by
  cases h
  intro o
  exact child_of [.str k!"zone"] (Zone.loopEq ) (sub := FillSettings.fromSexpr) (fun o sub => { o with fillSettings := some sub }) (fun _ _ => rfl) h' xs ys o

theorem SaysSame.Zone_polygon {s : List Val} (h : ExpKind.Zone.Start s) (xs ys : List Val) {r r' : List Val} (h' : ExpKind.ZonePolygon.Same (.list (.str k!"polygon" :: r)) (.list (.str k!"polygon" :: r'))) :
    ExpKind.Zone.Same (.list (s ++ (xs ++ .list (.str k!"polygon" :: r) :: ys))) (.list (s ++ (xs ++ .list (.str k!"polygon" :: r') :: ys))) := by
  cases h
  intro o
  exact child_of [.str k!"zone"] (Zone.loopEq ) (sub := ZonePolygon.fromSexpr) (fun o sub => { o with polygons := o.polygons ++ [sub] }) (fun _ _ => rfl) h' xs ys o

theorem SaysSame.Zone_filled_polygon {s : List Val} (h : ExpKind.Zone.Start s) (xs ys : List Val) {r r' : List Val} (h' : ExpKind.FilledPolygon.Same (.list (.str k!"filled_polygon" :: r)) (.list (.str k!"filled_polygon" :: r'))) :
    ExpKind.Zone.Same (.list (s ++ (xs ++ .list (.str k!"filled_polygon" :: r) :: ys))) (.list (s ++ (xs ++ .list (.str k!"filled_polygon" :: r') :: ys))) := by
  cases h
  intro o
  exact child_of [.str k!"zone"] (Zone.loopEq ) (sub := FilledPolygon.fromSexpr) (fun o sub => { o with filledPolygons := o.filledPolygons ++ [sub] }) (fun _ _ => rfl) h' xs ys o

theorem SaysSame.Zone_fill_segments {s : List Val} (h : ExpKind.Zone.Start s) (xs ys : List Val) {r r' : List Val} (h' : ExpKind.FillSegments.Same (.list (.str k!"fill_segments" :: r)) (.list (.str k!"fill_segments" :: r'))) :
    ExpKind.Zone.Same (.list (s ++ (xs ++ .list (.str k!"fill_segments" :: r) :: ys))) (.list (s ++ (xs ++ .list (.str k!"fill_segments" :: r') :: ys))) := by
  cases h
  intro o
  exact child_of [.str k!"zone"] (Zone.loopEq ) (sub := FillSegments.fromSexpr) (fun o sub => { o with fillSegments := some sub }) (fun _ _ => rfl) h' xs ys o

theorem SaysSame.Pad_drill {s : List Val} (h : ExpKind.Pad.Start s) (xs ys : List Val) {r r' : List Val} (h' : ExpKind.DrillDefinition.Same (.list (.str k!"drill" :: r)) (.list (.str k!"drill" :: r'))) :
    ExpKind.Pad.Same (.list (s ++ (xs ++ .list (.str k!"drill" :: r) :: ys))) (.list (s ++ (xs ++ .list (.str k!"drill" :: r') :: ys))) := by
  obtain ⟨a1, a2, a3, rfl⟩ := h
  intro o
  exact child_of [a3] (Pad.loopEq a1 a2 a3) (sub := DrillDefinition.fromSexpr) (fun o sub => { o with drill := some sub }) (fun _ _ => rfl) h' xs ys o

theorem SaysSame.Pad_options {s : List Val} (h : ExpKind.Pad.Start s) (xs ys : List Val) {r r' : List Val} (h' : ExpKind.PadOptions.Same (.list (.str k!"options" :: r)) (.list (.str k!"options" :: r'))) :
    ExpKind.Pad.Same (.list (s ++ (xs ++ .list (.str k!"options" :: r) :: ys))) (.list (s ++ (xs ++ .list (.str k!"options" :: r') :: ys))) := by
  obtain ⟨a1, a2, a3, rfl⟩ := h
  intro o
  exact child_of [a3] (Pad.loopEq a1 a2 a3) (sub := PadOptions.fromSexpr) (fun o sub => { o with customPadOptions := some sub }) (fun _ _ => rfl) h' xs ys o

theorem SaysSame.Footprint_model {s : List Val} (h : ExpKind.Footprint.Start s) (xs ys : List Val) {r r' : List Val} (h' : ExpKind.Model.Same (.list (.str k!"model" :: r)) (.list (.str k!"model" :: r'))) :
    ExpKind.Footprint.Same (.list (s ++ (xs ++ .list (.str k!"model" :: r) :: ys))) (.list (s ++ (xs ++ .list (.str k!"model" :: r') :: ys))) := by
  obtain ⟨hd, id, hh, rfl⟩ := h
  intro tedit o
  exact child_of [] (Footprint.loopEq tedit id hh) (sub := Model.fromSexpr) (fun o sub => { o with models := o.models ++ [sub] }) (fun _ _ => rfl) h' xs ys o

theorem SaysSame.Footprint_fp_text {s : List Val} (h : ExpKind.Footprint.Start s) (xs ys : List Val) {r r' : List Val} (h' : ExpKind.FpText.Same (.list (.str k!"fp_text" :: r)) (.list (.str k!"fp_text" :: r'))) :
    ExpKind.Footprint.Same (.list (s ++ (xs ++ .list (.str k!"fp_text" :: r) :: ys))) (.list (s ++ (xs ++ .list (.str k!"fp_text" :: r') :: ys))) := by
  obtain ⟨hd, id, hh, rfl⟩ := h
  intro tedit o
  exact child_of [] (Footprint.loopEq tedit id hh) (sub := FpText.fromSexpr) (fun o sub => { o with graphicItems := o.graphicItems ++ [.text sub] }) (fun _ _ => rfl) h' xs ys o

theorem SaysSame.Footprint_fp_text_box {s : List Val} (h : ExpKind.Footprint.Start s) (xs ys : List Val) {r r' : List Val} (h' : ExpKind.FpTextBox.Same (.list (.str k!"fp_text_box" :: r)) (.list (.str k!"fp_text_box" :: r'))) :
    ExpKind.Footprint.Same (.list (s ++ (xs ++ .list (.str k!"fp_text_box" :: r) :: ys))) (.list (s ++ (xs ++ .list (.str k!"fp_text_box" :: r') :: ys))) := by
  obtain ⟨hd, id, hh, rfl⟩ := h
  intro tedit o
  exact child_of [] (Footprint.loopEq tedit id hh) (sub := FpTextBox.fromSexpr) (fun o sub => { o with graphicItems := o.graphicItems ++ [.textBox sub] }) (fun _ _ => rfl) h' xs ys o

theorem SaysSame.Footprint_fp_line {s : List Val} (h : ExpKind.Footprint.Start s) (xs ys : List Val) {r r' : List Val} (h' : ExpKind.FpLine.Same (.list (.str k!"fp_line" :: r)) (.list (.str k!"fp_line" :: r'))) :
    ExpKind.Footprint.Same (.list (s ++ (xs ++ .list (.str k!"fp_line" :: r) :: ys))) (.list (s ++ (xs ++ .list (.str k!"fp_line" :: r') :: ys))) := by
  obtain ⟨hd, id, hh, rfl⟩ := h
  intro tedit o
  exact child_of [] (Footprint.loopEq tedit id hh) (sub := FpLine.fromSexpr) (fun o sub => { o with graphicItems := o.graphicItems ++ [.line sub] }) (fun _ _ => rfl) h' xs ys o

theorem SaysSame.Footprint_fp_rect {s : List Val} (h : ExpKind.Footprint.Start s) (xs ys : List Val) {r r' : List Val} (h' : ExpKind.FpRect.Same (.list (.str k!"fp_rect" :: r)) (.list (.str k!"fp_rect" :: r'))) :
    ExpKind.Footprint.Same (.list (s ++ (xs ++ .list (.str k!"fp_rect" :: r) :: ys))) (.list (s ++ (xs ++ .list (.str k!"fp_rect" :: r') :: ys))) := by
  obtain ⟨hd, id, hh, rfl⟩ := h
  intro tedit o
  exact child_of [] (Footprint.loopEq tedit id hh) (sub := FpRect.fromSexpr) (fun o sub => { o with graphicItems := o.graphicItems ++ [.rect sub] }) (fun _ _ => rfl) h' xs ys o

theorem SaysSame.Footprint_fp_circle {s : List Val} (h : ExpKind.Footprint.Start s) (xs ys : List Val) {r r' : List Val} (h' : ExpKind.FpCircle.Same (.list (.str k!"fp_circle" :: r)) (.list (.str k!"fp_circle" :: r'))) :
    ExpKind.Footprint.Same (.list (s ++ (xs ++ .list (.str k!"fp_circle" :: r) :: ys))) (.list (s ++ (xs ++ .list (.str k!"fp_circle" :: r') :: ys))) := by
  obtain ⟨hd, id, hh, rfl⟩ := h
  intro tedit o
  exact child_of [] (Footprint.loopEq tedit id hh) (sub := FpCircle.fromSexpr) (fun o sub => { o with graphicItems := o.graphicItems ++ [.circle sub] }) (fun _ _ => rfl) h' xs ys o

theorem SaysSame.Footprint_fp_arc {s : List Val} (h : ExpKind.Footprint.Start s) (xs ys : List Val) {r r' : List Val} (h' : ExpKind.FpArc.Same (.list (.str k!"fp_arc" :: r)) (.list (.str k!"fp_arc" :: r'))) :
    ExpKind.Footprint.Same (.list (s ++ (xs ++ .list (.str k!"fp_arc" :: r) :: ys))) (.list (s ++ (xs ++ .list (.str k!"fp_arc" :: r') :: ys))) := by
  obtain ⟨hd, id, hh, rfl⟩ := h
  intro tedit o
  exact child_of [] (Footprint.loopEq tedit id hh) (sub := FpArc.fromSexpr) (fun o sub => { o with graphicItems := o.graphicItems ++ [.arc sub] }) (fun _ _ => rfl) h' xs ys o

theorem SaysSame.Footprint_fp_poly {s : List Val} (h : ExpKind.Footprint.Start s) (xs ys : List Val) {r r' : List Val} (h' : ExpKind.FpPoly.Same (.list (.str k!"fp_poly" :: r)) (.list (.str k!"fp_poly" :: r'))) :
    ExpKind.Footprint.Same (.list (s ++ (xs ++ .list (.str k!"fp_poly" :: r) :: ys))) (.list (s ++ (xs ++ .list (.str k!"fp_poly" :: r') :: ys))) := by
  obtain ⟨hd, id, hh, rfl⟩ := h
  intro tedit o
  exact child_of [] (Footprint.loopEq tedit id hh) (sub := FpPoly.fromSexpr) (fun o sub => { o with graphicItems := o.graphicItems ++ [.poly sub] }) (fun _ _ => rfl) h' xs ys o

theorem SaysSame.Footprint_fp_curve {s : List Val} (h : ExpKind.Footprint.Start s) (xs ys : List Val) {r r' : List Val} (h' : ExpKind.FpCurve.Same (.list (.str k!"fp_curve" :: r)) (.list (.str k!"fp_curve" :: r'))) :
    ExpKind.Footprint.Same (.list (s ++ (xs ++ .list (.str k!"fp_curve" :: r) :: ys))) (.list (s ++ (xs ++ .list (.str k!"fp_curve" :: r') :: ys))) := by
  obtain ⟨hd, id, hh, rfl⟩ := h
  intro tedit o
  exact child_of [] (Footprint.loopEq tedit id hh) (sub := FpCurve.fromSexpr) (fun o sub => { o with graphicItems := o.graphicItems ++ [.curve sub] }) (fun _ _ => rfl) h' xs ys o

theorem SaysSame.Footprint_image {s : List Val} (h : ExpKind.Footprint.Start s) (xs ys : List Val) {r r' : List Val} (h' : ExpKind.Image.Same (.list (.str k!"image" :: r)) (.list (.str k!"image" :: r'))) :
    ExpKind.Footprint.Same (.list (s ++ (xs ++ .list (.str k!"image" :: r) :: ys))) (.list (s ++ (xs ++ .list (.str k!"image" :: r') :: ys))) := by
  obtain ⟨hd, id, hh, rfl⟩ := h
  intro tedit o
  exact child_of [] (Footprint.loopEq tedit id hh) (sub := Image.fromSexpr) (fun o sub => { o with graphicItems := o.graphicItems ++ [.image sub] }) (fun _ _ => rfl) h' xs ys o

theorem SaysSame.Footprint_pad {s : List Val} (h : ExpKind.Footprint.Start s) (xs ys : List Val) {r r' : List Val} (h' : ExpKind.Pad.Same (.list (.str k!"pad" :: r)) (.list (.str k!"pad" :: r'))) :
    ExpKind.Footprint.Same (.list (s ++ (xs ++ .list (.str k!"pad" :: r) :: ys))) (.list (s ++ (xs ++ .list (.str k!"pad" :: r') :: ys))) := by
  obtain ⟨hd, id, hh, rfl⟩ := h
  intro tedit o
  exact child_of [] (Footprint.loopEq tedit id hh) (sub := Pad.fromSexpr) (fun o sub => { o with pads := o.pads ++ [sub] }) (fun _ _ => rfl) h' xs ys o

theorem SaysSame.Footprint_zone {s : List Val} (h : ExpKind.Footprint.Start s) (xs ys : List Val) {r r' : List Val} (h' : ExpKind.Zone.Same (.list (.str k!"zone" :: r)) (.list (.str k!"zone" :: r'))) :
    ExpKind.Footprint.Same (.list (s ++ (xs ++ .list (.str k!"zone" :: r) :: ys))) (.list (s ++ (xs ++ .list (.str k!"zone" :: r') :: ys))) := by
  obtain ⟨hd, id, hh, rfl⟩ := h
  intro tedit o
  exact child_of [] (Footprint.loopEq tedit id hh) (sub := Zone.fromSexpr) (fun o sub => { o with zones := o.zones ++ [sub] }) (fun _ _ => rfl) h' xs ys o

theorem SaysSame.Footprint_group {s : List Val} (h : ExpKind.Footprint.Start s) (xs ys : List Val) {r r' : List Val} (h' : ExpKind.Group.Same (.list (.str k!"group" :: r)) (.list (.str k!"group" :: r'))) :
    ExpKind.Footprint.Same (.list (s ++ (xs ++ .list (.str k!"group" :: r) :: ys))) (.list (s ++ (xs ++ .list (.str k!"group" :: r') :: ys))) := by
  obtain ⟨hd, id, hh, rfl⟩ := h
  intro tedit o
  exact child_of [] (Footprint.loopEq tedit id hh) (sub := Group.fromSexpr) (fun o sub => { o with groups := o.groups ++ [sub] }) (fun _ _ => rfl) h' xs ys o

theorem SaysSame.SetupData_stackup {s : List Val} (h : ExpKind.SetupData.Start s) (xs ys : List Val) {r r' : List Val} (h' : ExpKind.Stackup.Same (.list (.str k!"stackup" :: r)) (.list (.str k!"stackup" :: r'))) :
    ExpKind.SetupData.Same (.list (s ++ (xs ++ .list (.str k!"stackup" :: r) :: ys))) (.list (s ++ (xs ++ .list (.str k!"stackup" :: r') :: ys))) := by
  cases h
  intro o
  exact child_of [.str k!"setup"] (SetupData.loopEq ) (sub := Stackup.fromSexpr) (fun o sub => { o with stackup := some sub }) (fun _ _ => rfl) h' xs ys o

theorem SaysSame.SetupData_pcbplotparams {s : List Val} (h : ExpKind.SetupData.Start s) (xs ys : List Val) {r r' : List Val} (h' : ExpKind.PlotSettings.Same (.list (.str k!"pcbplotparams" :: r)) (.list (.str k!"pcbplotparams" :: r'))) :
    ExpKind.SetupData.Same (.list (s ++ (xs ++ .list (.str k!"pcbplotparams" :: r) :: ys))) (.list (s ++ (xs ++ .list (.str k!"pcbplotparams" :: r') :: ys))) := by
  cases h
  intro o
  exact child_of [.str k!"setup"] (SetupData.loopEq ) (sub := PlotSettings.fromSexpr) (fun o sub => { o with plotSettings := some sub }) (fun _ _ => rfl) h' xs ys o

theorem SaysSame.Dimension_gr_text {s : List Val} (h : ExpKind.Dimension.Start s) (xs ys : List Val) {r r' : List Val} (h' : ExpKind.GrText.Same (.list (.str k!"gr_text" :: r)) (.list (.str k!"gr_text" :: r'))) :
    ExpKind.Dimension.Same (.list (s ++ (xs ++ .list (.str k!"gr_text" :: r) :: ys))) (.list (s ++ (xs ++ .list (.str k!"gr_text" :: r') :: ys))) := by
  cases h
  intro o
  exact child_of [] (Dimension.loopEq ) (sub := GrText.fromSexpr) (fun o sub => { o with grText := some sub }) (fun _ _ => rfl) h' xs ys o

theorem SaysSame.Dimension_format {s : List Val} (h : ExpKind.Dimension.Start s) (xs ys : List Val) {r r' : List Val} (h' : ExpKind.DimensionFormat.Same (.list (.str k!"format" :: r)) (.list (.str k!"format" :: r'))) :
    ExpKind.Dimension.Same (.list (s ++ (xs ++ .list (.str k!"format" :: r) :: ys))) (.list (s ++ (xs ++ .list (.str k!"format" :: r') :: ys))) := by
  cases h
  intro o
  exact child_of [] (Dimension.loopEq ) (sub := DimensionFormat.fromSexpr) (fun o sub => { o with format := some sub }) (fun _ _ => rfl) h' xs ys o

theorem SaysSame.Dimension_style {s : List Val} (h : ExpKind.Dimension.Start s) (xs ys : List Val) {r r' : List Val} (h' : ExpKind.DimensionStyle.Same (.list (.str k!"style" :: r)) (.list (.str k!"style" :: r'))) :
    ExpKind.Dimension.Same (.list (s ++ (xs ++ .list (.str k!"style" :: r) :: ys))) (.list (s ++ (xs ++ .list (.str k!"style" :: r') :: ys))) := by
  cases h
  intro o
  exact child_of [] (Dimension.loopEq ) (sub := DimensionStyle.fromSexpr) (fun o sub => { o with style := sub }) (fun _ _ => rfl) h' xs ys o

theorem SaysSame.Symbol_symbol {s : List Val} (h : ExpKind.Symbol.Start s) (xs ys : List Val) {r r' : List Val} (h' : ExpKind.Symbol.Same (.list (.str k!"symbol" :: r)) (.list (.str k!"symbol" :: r'))) :
    ExpKind.Symbol.Same (.list (s ++ (xs ++ .list (.str k!"symbol" :: r) :: ys))) (.list (s ++ (xs ++ .list (.str k!"symbol" :: r') :: ys))) := by
  obtain ⟨id, rfl⟩ := h
  intro o
  cases hs : Symbol.setLibId {} id with
  | error e =>
    have hx : ∀ l, Symbol.fromSexpr (.list (.str k!"symbol" :: id :: l)) = .error e := fun l => by rw [Symbol.fromSexpr_eq, hs]; rfl
    exact same_of_eq ((hx _).trans (hx _).symm) o
  | ok s => exact child_of [] (Symbol.loopEq hs) (sub := Symbol.fromSexpr) (fun o sub => { o with units := o.units ++ [sub] }) (fun _ _ => rfl) h' xs ys o

theorem SaysSame.Symbol_property {s : List Val} (h : ExpKind.Symbol.Start s) (xs ys : List Val) {r r' : List Val} (h' : ExpKind.Property.Same (.list (.str k!"property" :: r)) (.list (.str k!"property" :: r'))) :
    ExpKind.Symbol.Same (.list (s ++ (xs ++ .list (.str k!"property" :: r) :: ys))) (.list (s ++ (xs ++ .list (.str k!"property" :: r') :: ys))) := by
  obtain ⟨id, rfl⟩ := h
  intro o
  cases hs : Symbol.setLibId {} id with
  | error e =>
    have hx : ∀ l, Symbol.fromSexpr (.list (.str k!"symbol" :: id :: l)) = .error e := fun l => by rw [Symbol.fromSexpr_eq, hs]; rfl
    exact same_of_eq ((hx _).trans (hx _).symm) o
  | ok s => exact child_of [] (Symbol.loopEq hs) (sub := Property.fromSexpr) (fun o sub => { o with properties := o.properties ++ [sub] }) (fun _ _ => rfl) h' xs ys o

theorem SaysSame.Symbol_pin {s : List Val} (h : ExpKind.Symbol.Start s) (xs ys : List Val) {r r' : List Val} (h' : ExpKind.SymbolPin.Same (.list (.str k!"pin" :: r)) (.list (.str k!"pin" :: r'))) :
    ExpKind.Symbol.Same (.list (s ++ (xs ++ .list (.str k!"pin" :: r) :: ys))) (.list (s ++ (xs ++ .list (.str k!"pin" :: r') :: ys))) := by
  obtain ⟨id, rfl⟩ := h
  intro o
  cases hs : Symbol.setLibId {} id with
  | error e =>
    have hx : ∀ l, Symbol.fromSexpr (.list (.str k!"symbol" :: id :: l)) = .error e := fun l => by rw [Symbol.fromSexpr_eq, hs]; rfl
    exact same_of_eq ((hx _).trans (hx _).symm) o
  | ok s => exact child_of [] (Symbol.loopEq hs) (sub := SymbolPin.fromSexpr) (fun o sub => { o with pins := o.pins ++ [sub] }) (fun _ _ => rfl) h' xs ys o

theorem SaysSame.Symbol_arc {s : List Val} (h : ExpKind.Symbol.Start s) (xs ys : List Val) {r r' : List Val} (h' : ExpKind.SyArc.Same (.list (.str k!"arc" :: r)) (.list (.str k!"arc" :: r'))) :
    ExpKind.Symbol.Same (.list (s ++ (xs ++ .list (.str k!"arc" :: r) :: ys))) (.list (s ++ (xs ++ .list (.str k!"arc" :: r') :: ys))) := by
  obtain ⟨id, rfl⟩ := h
  intro o
  cases hs : Symbol.setLibId {} id with
  | error e =>
    have hx : ∀ l, Symbol.fromSexpr (.list (.str k!"symbol" :: id :: l)) = .error e := fun l => by rw [Symbol.fromSexpr_eq, hs]; rfl
    exact same_of_eq ((hx _).trans (hx _).symm) o
  | ok s => exact child_of [] (Symbol.loopEq hs) (sub := SyArc.fromSexpr) (fun o sub => { o with graphicItems := o.graphicItems ++ [.arc sub] }) (fun _ _ => rfl) h' xs ys o

theorem SaysSame.Symbol_circle {s : List Val} (h : ExpKind.Symbol.Start s) (xs ys : List Val) {r r' : List Val} (h' : ExpKind.SyCircle.Same (.list (.str k!"circle" :: r)) (.list (.str k!"circle" :: r'))) :
    ExpKind.Symbol.Same (.list (s ++ (xs ++ .list (.str k!"circle" :: r) :: ys))) (.list (s ++ (xs ++ .list (.str k!"circle" :: r') :: ys))) := by
  obtain ⟨id, rfl⟩ := h
  intro o
  cases hs : Symbol.setLibId {} id with
  | error e =>
    have hx : ∀ l, Symbol.fromSexpr (.list (.str k!"symbol" :: id :: l)) = .error e := fun l => by rw [Symbol.fromSexpr_eq, hs]; rfl
    exact same_of_eq ((hx _).trans (hx _).symm) o
  | ok s => exact child_of [] (Symbol.loopEq hs) (sub := SyCircle.fromSexpr) (fun o sub => { o with graphicItems := o.graphicItems ++ [.circle sub] }) (fun _ _ => rfl) h' xs ys o

theorem SaysSame.Symbol_curve {s : List Val} (h : ExpKind.Symbol.Start s) (xs ys : List Val) {r r' : List Val} (h' : ExpKind.SyCurve.Same (.list (.str k!"curve" :: r)) (.list (.str k!"curve" :: r'))) :
    ExpKind.Symbol.Same (.list (s ++ (xs ++ .list (.str k!"curve" :: r) :: ys))) (.list (s ++ (xs ++ .list (.str k!"curve" :: r') :: ys))) := by
  obtain ⟨id, rfl⟩ := h
  intro o
  cases hs : Symbol.setLibId {} id with
  | error e =>
    have hx : ∀ l, Symbol.fromSexpr (.list (.str k!"symbol" :: id :: l)) = .error e := fun l => by rw [Symbol.fromSexpr_eq, hs]; rfl
    exact same_of_eq ((hx _).trans (hx _).symm) o
  | ok s => exact child_of [] (Symbol.loopEq hs) (sub := SyCurve.fromSexpr) (fun o sub => { o with graphicItems := o.graphicItems ++ [.curve sub] }) (fun _ _ => rfl) h' xs ys o

theorem SaysSame.Symbol_polyline {s : List Val} (h : ExpKind.Symbol.Start s) (xs ys : List Val) {r r' : List Val} (h' : ExpKind.SyPolyLine.Same (.list (.str k!"polyline" :: r)) (.list (.str k!"polyline" :: r'))) :
    ExpKind.Symbol.Same (.list (s ++ (xs ++ .list (.str k!"polyline" :: r) :: ys))) (.list (s ++ (xs ++ .list (.str k!"polyline" :: r') :: ys))) := by
  obtain ⟨id, rfl⟩ := h
  intro o
  cases hs : Symbol.setLibId {} id with
  | error e =>
    have hx : ∀ l, Symbol.fromSexpr (.list (.str k!"symbol" :: id :: l)) = .error e := fun l => by rw [Symbol.fromSexpr_eq, hs]; rfl
    exact same_of_eq ((hx _).trans (hx _).symm) o
  | ok s => exact child_of [] (Symbol.loopEq hs) (sub := SyPolyLine.fromSexpr) (fun o sub => { o with graphicItems := o.graphicItems ++ [.polyline sub] }) (fun _ _ => rfl) h' xs ys o

theorem SaysSame.Symbol_rectangle {s : List Val} (h : ExpKind.Symbol.Start s) (xs ys : List Val) {r r' : List Val} (h' : ExpKind.SyRect.Same (.list (.str k!"rectangle" :: r)) (.list (.str k!"rectangle" :: r'))) :
    ExpKind.Symbol.Same (.list (s ++ (xs ++ .list (.str k!"rectangle" :: r) :: ys))) (.list (s ++ (xs ++ .list (.str k!"rectangle" :: r') :: ys))) := by
  obtain ⟨id, rfl⟩ := h
  intro o
  cases hs : Symbol.setLibId {} id with
  | error e =>
    have hx : ∀ l, Symbol.fromSexpr (.list (.str k!"symbol" :: id :: l)) = .error e := fun l => by rw [Symbol.fromSexpr_eq, hs]; rfl
    exact same_of_eq ((hx _).trans (hx _).symm) o
  | ok s => exact child_of [] (Symbol.loopEq hs) (sub := SyRect.fromSexpr) (fun o sub => { o with graphicItems := o.graphicItems ++ [.rect sub] }) (fun _ _ => rfl) h' xs ys o

theorem SaysSame.Symbol_text {s : List Val} (h : ExpKind.Symbol.Start s) (xs ys : List Val) {r r' : List Val} (h' : ExpKind.SyText.Same (.list (.str k!"text" :: r)) (.list (.str k!"text" :: r'))) :
    ExpKind.Symbol.Same (.list (s ++ (xs ++ .list (.str k!"text" :: r) :: ys))) (.list (s ++ (xs ++ .list (.str k!"text" :: r') :: ys))) := by
  obtain ⟨id, rfl⟩ := h
  intro o
  cases hs : Symbol.setLibId {} id with
  | error e =>
    have hx : ∀ l, Symbol.fromSexpr (.list (.str k!"symbol" :: id :: l)) = .error e := fun l => by rw [Symbol.fromSexpr_eq, hs]; rfl
    exact same_of_eq ((hx _).trans (hx _).symm) o
  | ok s => exact child_of [] (Symbol.loopEq hs) (sub := SyText.fromSexpr) (fun o sub => { o with graphicItems := o.graphicItems ++ [.text sub] }) (fun _ _ => rfl) h' xs ys o

theorem SaysSame.Symbol_text_box {s : List Val} (h : ExpKind.Symbol.Start s) (xs ys : List Val) {r r' : List Val} (h' : ExpKind.SyTextBox.Same (.list (.str k!"text_box" :: r)) (.list (.str k!"text_box" :: r'))) :
    ExpKind.Symbol.Same (.list (s ++ (xs ++ .list (.str k!"text_box" :: r) :: ys))) (.list (s ++ (xs ++ .list (.str k!"text_box" :: r') :: ys))) := by
  obtain ⟨id, rfl⟩ := h
  intro o
  cases hs : Symbol.setLibId {} id with
  | error e =>
    have hx : ∀ l, Symbol.fromSexpr (.list (.str k!"symbol" :: id :: l)) = .error e := fun l => by rw [Symbol.fromSexpr_eq, hs]; rfl
    exact same_of_eq ((hx _).trans (hx _).symm) o
  | ok s => exact child_of [] (Symbol.loopEq hs) (sub := SyTextBox.fromSexpr) (fun o sub => { o with graphicItems := o.graphicItems ++ [.textBox sub] }) (fun _ _ => rfl) h' xs ys o

theorem SaysSame.Board_general {s : List Val} (h : ExpKind.Board.Start s) (xs ys : List Val) {r r' : List Val} (h' : ExpKind.GeneralSettings.Same (.list (.str k!"general" :: r)) (.list (.str k!"general" :: r'))) :
    ExpKind.Board.Same (.list (s ++ (xs ++ .list (.str k!"general" :: r) :: ys))) (.list (s ++ (xs ++ .list (.str k!"general" :: r') :: ys))) := by
  cases h
  intro tedit o
  exact child_of [.str k!"kicad_pcb"] (Board.loopEq tedit) (sub := GeneralSettings.fromSexpr) (fun o sub => { o with general := sub }) (fun _ _ => rfl) h' xs ys o

theorem SaysSame.Board_title_block {s : List Val} (h : ExpKind.Board.Start s) (xs ys : List Val) {r r' : List Val} (h' : ExpKind.TitleBlock.Same (.list (.str k!"title_block" :: r)) (.list (.str k!"title_block" :: r'))) :
    ExpKind.Board.Same (.list (s ++ (xs ++ .list (.str k!"title_block" :: r) :: ys))) (.list (s ++ (xs ++ .list (.str k!"title_block" :: r') :: ys))) := by
  cases h
  intro tedit o
  exact child_of [.str k!"kicad_pcb"] (Board.loopEq tedit) (sub := TitleBlock.fromSexpr) (fun o sub => { o with titleBlock := some sub }) (fun _ _ => rfl) h' xs ys o

theorem SaysSame.Board_setup {s : List Val} (h : ExpKind.Board.Start s) (xs ys : List Val) {r r' : List Val} (h' : ExpKind.SetupData.Same (.list (.str k!"setup" :: r)) (.list (.str k!"setup" :: r'))) :
    ExpKind.Board.Same (.list (s ++ (xs ++ .list (.str k!"setup" :: r) :: ys))) (.list (s ++ (xs ++ .list (.str k!"setup" :: r') :: ys))) := by
  cases h
  intro tedit o
  exact child_of [.str k!"kicad_pcb"] (Board.loopEq tedit) (sub := SetupData.fromSexpr) (fun o sub => { o with setup := sub }) (fun _ _ => rfl) h' xs ys o

theorem SaysSame.Board_footprint {s : List Val} (h : ExpKind.Board.Start s) (xs ys : List Val) {r r' : List Val} (h' : ExpKind.Footprint.Same (.list (.str k!"footprint" :: r)) (.list (.str k!"footprint" :: r'))) :
    ExpKind.Board.Same (.list (s ++ (xs ++ .list (.str k!"footprint" :: r) :: ys))) (.list (s ++ (xs ++ .list (.str k!"footprint" :: r') :: ys))) := by
  cases h
  intro tedit o
  exact child_of [.str k!"kicad_pcb"] (Board.loopEq tedit) (sub := Footprint.fromSexpr tedit) (fun o sub => { o with footprints := o.footprints ++ [sub] }) (fun _ _ => rfl) (h' tedit) xs ys o

theorem SaysSame.Board_gr_text {s : List Val} (h : ExpKind.Board.Start s) (xs ys : List Val) {r r' : List Val} (h' : ExpKind.GrText.Same (.list (.str k!"gr_text" :: r)) (.list (.str k!"gr_text" :: r'))) :
    ExpKind.Board.Same (.list (s ++ (xs ++ .list (.str k!"gr_text" :: r) :: ys))) (.list (s ++ (xs ++ .list (.str k!"gr_text" :: r') :: ys))) := by
  cases h
  intro tedit o
  exact child_of [.str k!"kicad_pcb"] (Board.loopEq tedit) (sub := GrText.fromSexpr) (fun o sub => { o with graphicItems := o.graphicItems ++ [.text sub] }) (fun _ _ => rfl) h' xs ys o

theorem SaysSame.Board_gr_text_box {s : List Val} (h : ExpKind.Board.Start s) (xs ys : List Val) {r r' : List Val} (h' : ExpKind.GrTextBox.Same (.list (.str k!"gr_text_box" :: r)) (.list (.str k!"gr_text_box" :: r'))) :
    ExpKind.Board.Same (.list (s ++ (xs ++ .list (.str k!"gr_text_box" :: r) :: ys))) (.list (s ++ (xs ++ .list (.str k!"gr_text_box" :: r') :: ys))) := by
  cases h
  intro tedit o
  exact child_of [.str k!"kicad_pcb"] (Board.loopEq tedit) (sub := GrTextBox.fromSexpr) (fun o sub => { o with graphicItems := o.graphicItems ++ [.textBox sub] }) (fun _ _ => rfl) h' xs ys o

theorem SaysSame.Board_gr_line {s : List Val} (h : ExpKind.Board.Start s) (xs ys : List Val) {r r' : List Val} (h' : ExpKind.GrLine.Same (.list (.str k!"gr_line" :: r)) (.list (.str k!"gr_line" :: r'))) :
    ExpKind.Board.Same (.list (s ++ (xs ++ .list (.str k!"gr_line" :: r) :: ys))) (.list (s ++ (xs ++ .list (.str k!"gr_line" :: r') :: ys))) := by
  cases h
  intro tedit o
  exact child_of [.str k!"kicad_pcb"] (Board.loopEq tedit) (sub := GrLine.fromSexpr) (fun o sub => { o with graphicItems := o.graphicItems ++ [.line sub] }) (fun _ _ => rfl) h' xs ys o

theorem SaysSame.Board_gr_rect {s : List Val} (h : ExpKind.Board.Start s) (xs ys : List Val) {r r' : List Val} (h' : ExpKind.GrRect.Same (.list (.str k!"gr_rect" :: r)) (.list (.str k!"gr_rect" :: r'))) :
    ExpKind.Board.Same (.list (s ++ (xs ++ .list (.str k!"gr_rect" :: r) :: ys))) (.list (s ++ (xs ++ .list (.str k!"gr_rect" :: r') :: ys))) := by
  cases h
  intro tedit o
  exact child_of [.str k!"kicad_pcb"] (Board.loopEq tedit) (sub := GrRect.fromSexpr) (fun o sub => { o with graphicItems := o.graphicItems ++ [.rect sub] }) (fun _ _ => rfl) h' xs ys o

theorem SaysSame.Board_gr_circle {s : List Val} (h : ExpKind.Board.Start s) (xs ys : List Val) {r r' : List Val} (h' : ExpKind.GrCircle.Same (.list (.str k!"gr_circle" :: r)) (.list (.str k!"gr_circle" :: r'))) :
    ExpKind.Board.Same (.list (s ++ (xs ++ .list (.str k!"gr_circle" :: r) :: ys))) (.list (s ++ (xs ++ .list (.str k!"gr_circle" :: r') :: ys))) := by
  cases h
  intro tedit o
  exact child_of [.str k!"kicad_pcb"] (Board.loopEq tedit) (sub := GrCircle.fromSexpr) (fun o sub => { o with graphicItems := o.graphicItems ++ [.circle sub] }) (fun _ _ => rfl) h' xs ys o

theorem SaysSame.Board_gr_arc {s : List Val} (h : ExpKind.Board.Start s) (xs ys : List Val) {r r' : List Val} (h' : ExpKind.GrArc.Same (.list (.str k!"gr_arc" :: r)) (.list (.str k!"gr_arc" :: r'))) :
    ExpKind.Board.Same (.list (s ++ (xs ++ .list (.str k!"gr_arc" :: r) :: ys))) (.list (s ++ (xs ++ .list (.str k!"gr_arc" :: r') :: ys))) := by
  cases h
  intro tedit o
  exact child_of [.str k!"kicad_pcb"] (Board.loopEq tedit) (sub := GrArc.fromSexpr) (fun o sub => { o with graphicItems := o.graphicItems ++ [.arc sub] }) (fun _ _ => rfl) h' xs ys o

theorem SaysSame.Board_gr_poly {s : List Val} (h : ExpKind.Board.Start s) (xs ys : List Val) {r r' : List Val} (h' : ExpKind.GrPoly.Same (.list (.str k!"gr_poly" :: r)) (.list (.str k!"gr_poly" :: r'))) :
    ExpKind.Board.Same (.list (s ++ (xs ++ .list (.str k!"gr_poly" :: r) :: ys))) (.list (s ++ (xs ++ .list (.str k!"gr_poly" :: r') :: ys))) := by
  cases h
  intro tedit o
  exact child_of [.str k!"kicad_pcb"] (Board.loopEq tedit) (sub := GrPoly.fromSexpr) (fun o sub => { o with graphicItems := o.graphicItems ++ [.poly sub] }) (fun _ _ => rfl) h' xs ys o

theorem SaysSame.Board_gr_curve {s : List Val} (h : ExpKind.Board.Start s) (xs ys : List Val) {r r' : List Val} (h' : ExpKind.GrCurve.Same (.list (.str k!"gr_curve" :: r)) (.list (.str k!"gr_curve" :: r'))) :
    ExpKind.Board.Same (.list (s ++ (xs ++ .list (.str k!"gr_curve" :: r) :: ys))) (.list (s ++ (xs ++ .list (.str k!"gr_curve" :: r') :: ys))) := by
  cases h
  intro tedit o
  exact child_of [.str k!"kicad_pcb"] (Board.loopEq tedit) (sub := GrCurve.fromSexpr) (fun o sub => { o with graphicItems := o.graphicItems ++ [.curve sub] }) (fun _ _ => rfl) h' xs ys o

theorem SaysSame.Board_image {s : List Val} (h : ExpKind.Board.Start s) (xs ys : List Val) {r r' : List Val} (h' : ExpKind.Image.Same (.list (.str k!"image" :: r)) (.list (.str k!"image" :: r'))) :
    ExpKind.Board.Same (.list (s ++ (xs ++ .list (.str k!"image" :: r) :: ys))) (.list (s ++ (xs ++ .list (.str k!"image" :: r') :: ys))) := by
  cases h
  intro tedit o
  exact child_of [.str k!"kicad_pcb"] (Board.loopEq tedit) (sub := Image.fromSexpr) (fun o sub => { o with graphicItems := o.graphicItems ++ [.image sub] }) (fun _ _ => rfl) h' xs ys o

theorem SaysSame.Board_dimension {s : List Val} (h : ExpKind.Board.Start s) (xs ys : List Val) {r r' : List Val} (h' : ExpKind.Dimension.Same (.list (.str k!"dimension" :: r)) (.list (.str k!"dimension" :: r'))) :
    ExpKind.Board.Same (.list (s ++ (xs ++ .list (.str k!"dimension" :: r) :: ys))) (.list (s ++ (xs ++ .list (.str k!"dimension" :: r') :: ys))) := by
  cases h
  intro tedit o
  exact child_of [.str k!"kicad_pcb"] (Board.loopEq tedit) (sub := Dimension.fromSexpr) (fun o sub => { o with dimensions := o.dimensions ++ [sub] }) (fun _ _ => rfl) h' xs ys o

theorem SaysSame.Board_target {s : List Val} (h : ExpKind.Board.Start s) (xs ys : List Val) {r r' : List Val} (h' : ExpKind.Target.Same (.list (.str k!"target" :: r)) (.list (.str k!"target" :: r'))) :
    ExpKind.Board.Same (.list (s ++ (xs ++ .list (.str k!"target" :: r) :: ys))) (.list (s ++ (xs ++ .list (.str k!"target" :: r') :: ys))) := by
  cases h
  intro tedit o
  exact child_of [.str k!"kicad_pcb"] (Board.loopEq tedit) (sub := Target.fromSexpr) (fun o sub => { o with targets := o.targets ++ [sub] }) (fun _ _ => rfl) h' xs ys o

theorem SaysSame.Board_segment {s : List Val} (h : ExpKind.Board.Start s) (xs ys : List Val) {r r' : List Val} (h' : ExpKind.Segment.Same (.list (.str k!"segment" :: r)) (.list (.str k!"segment" :: r'))) :
    ExpKind.Board.Same (.list (s ++ (xs ++ .list (.str k!"segment" :: r) :: ys))) (.list (s ++ (xs ++ .list (.str k!"segment" :: r') :: ys))) := by
  cases h
  intro tedit o
  exact child_of [.str k!"kicad_pcb"] (Board.loopEq tedit) (sub := Segment.fromSexpr) (fun o sub => { o with traceItems := o.traceItems ++ [.segment sub] }) (fun _ _ => rfl) h' xs ys o

theorem SaysSame.Board_arc {s : List Val} (h : ExpKind.Board.Start s) (xs ys : List Val) {r r' : List Val} (h' : ExpKind.TraceArc.Same (.list (.str k!"arc" :: r)) (.list (.str k!"arc" :: r'))) :
    ExpKind.Board.Same (.list (s ++ (xs ++ .list (.str k!"arc" :: r) :: ys))) (.list (s ++ (xs ++ .list (.str k!"arc" :: r') :: ys))) := by
  cases h
  intro tedit o
  exact child_of [.str k!"kicad_pcb"] (Board.loopEq tedit) (sub := TraceArc.fromSexpr) (fun o sub => { o with traceItems := o.traceItems ++ [.arc sub] }) (fun _ _ => rfl) h' xs ys o

theorem SaysSame.Board_via {s : List Val} (h : ExpKind.Board.Start s) (xs ys : List Val) {r r' : List Val} (h' : ExpKind.Via.Same (.list (.str k!"via" :: r)) (.list (.str k!"via" :: r'))) :
    ExpKind.Board.Same (.list (s ++ (xs ++ .list (.str k!"via" :: r) :: ys))) (.list (s ++ (xs ++ .list (.str k!"via" :: r') :: ys))) := by
  cases h
  intro tedit o
  exact child_of [.str k!"kicad_pcb"] (Board.loopEq tedit) (sub := Via.fromSexpr) (fun o sub => { o with traceItems := o.traceItems ++ [.via sub] }) (fun _ _ => rfl) h' xs ys o

theorem SaysSame.Board_zone {s : List Val} (h : ExpKind.Board.Start s) (xs ys : List Val) {r r' : List Val} (h' : ExpKind.Zone.Same (.list (.str k!"zone" :: r)) (.list (.str k!"zone" :: r'))) :
    ExpKind.Board.Same (.list (s ++ (xs ++ .list (.str k!"zone" :: r) :: ys))) (.list (s ++ (xs ++ .list (.str k!"zone" :: r') :: ys))) := by
  cases h
  intro tedit o
  exact child_of [.str k!"kicad_pcb"] (Board.loopEq tedit) (sub := Zone.fromSexpr) (fun o sub => { o with zones := o.zones ++ [sub] }) (fun _ _ => rfl) h' xs ys o

theorem SaysSame.Board_group {s : List Val} (h : ExpKind.Board.Start s) (xs ys : List Val) {r r' : List Val} (h' : ExpKind.Group.Same (.list (.str k!"group" :: r)) (.list (.str k!"group" :: r'))) :
    ExpKind.Board.Same (.list (s ++ (xs ++ .list (.str k!"group" :: r) :: ys))) (.list (s ++ (xs ++ .list (.str k!"group" :: r') :: ys))) := by
  cases h
  intro tedit o
  exact child_of [.str k!"kicad_pcb"] (Board.loopEq tedit) (sub := Group.fromSexpr) (fun o sub => { o with groups := o.groups ++ [sub] }) (fun _ _ => rfl) h' xs ys o

theorem SaysSame.Schematic_wire {s : List Val} (h : ExpKind.Schematic.Start s) (xs ys : List Val) {r r' : List Val} (h' : ExpKind.Connection.Same (.list (.str k!"wire" :: r)) (.list (.str k!"wire" :: r'))) :
    ExpKind.Schematic.Same (.list (s ++ (xs ++ .list (.str k!"wire" :: r) :: ys))) (.list (s ++ (xs ++ .list (.str k!"wire" :: r') :: ys))) := by
  cases h
  intro o
  exact child_of [.str k!"kicad_sch"] (Schematic.loopEq ) (sub := Connection.fromSexpr) (fun o sub => { o with graphicalItems := o.graphicalItems ++ [.connection sub] }) (fun _ _ => rfl) h' xs ys o

theorem SaysSame.Schematic_bus {s : List Val} (h : ExpKind.Schematic.Start s) (xs ys : List Val) {r r' : List Val} (h' : ExpKind.Connection.Same (.list (.str k!"bus" :: r)) (.list (.str k!"bus" :: r'))) :
    ExpKind.Schematic.Same (.list (s ++ (xs ++ .list (.str k!"bus" :: r) :: ys))) (.list (s ++ (xs ++ .list (.str k!"bus" :: r') :: ys))) := by
  cases h
  intro o
  exact child_of [.str k!"kicad_sch"] (Schematic.loopEq ) (sub := Connection.fromSexpr) (fun o sub => { o with graphicalItems := o.graphicalItems ++ [.connection sub] }) (fun _ _ => rfl) h' xs ys o

theorem SaysSame.WorkSheet_line {s : List Val} (h : ExpKind.WorkSheet.Start s) (xs ys : List Val) {r r' : List Val} (h' : ExpKind.WksLine.Same (.list (.str k!"line" :: r)) (.list (.str k!"line" :: r'))) :
    ExpKind.WorkSheet.Same (.list (s ++ (xs ++ .list (.str k!"line" :: r) :: ys))) (.list (s ++ (xs ++ .list (.str k!"line" :: r') :: ys))) := by
  cases h
  intro o
  exact child_of [] (WorkSheet.loopEq ) (sub := WksShape.fromSexpr k!"line") (fun o sub => { o with drawingObjects := o.drawingObjects ++ [.line sub] }) (fun _ _ => rfl) h' xs ys o

theorem SaysSame.WorkSheet_rect {s : List Val} (h : ExpKind.WorkSheet.Start s) (xs ys : List Val) {r r' : List Val} (h' : ExpKind.WksRect.Same (.list (.str k!"rect" :: r)) (.list (.str k!"rect" :: r'))) :
    ExpKind.WorkSheet.Same (.list (s ++ (xs ++ .list (.str k!"rect" :: r) :: ys))) (.list (s ++ (xs ++ .list (.str k!"rect" :: r') :: ys))) := by
  cases h
  intro o
  exact child_of [] (WorkSheet.loopEq ) (sub := WksShape.fromSexpr k!"rect") (fun o sub => { o with drawingObjects := o.drawingObjects ++ [.rect sub] }) (fun _ _ => rfl) h' xs ys o

theorem Property.key_of {r : List Val} {p : Property} (h : Property.fromSexpr (.list (.str k!"property" :: r)) = .ok p) :
    Val.idx (.list (.str k!"property" :: r)) 1 = .ok p.key := by
  match r, h with
  | key :: value :: xs, h => exact congrArg Except.ok (C37_Property key value xs p h).1.symm
  | [_], h => cases h
  | [], h => cases h

theorem SaysSame.HierarchicalSheet_property {s : List Val} (h : ExpKind.HierarchicalSheet.Start s) (xs ys : List Val) {r r' : List Val}
    (h' : ExpKind.Property.Same (.list (.str k!"property" :: r)) (.list (.str k!"property" :: r'))) :
    ExpKind.HierarchicalSheet.Same (.list (s ++ (xs ++ .list (.str k!"property" :: r) :: ys))) (.list (s ++ (xs ++ .list (.str k!"property" :: r') :: ys))) := by
  cases h
  intro o
  have hs : ∀ (o : HierarchicalSheet) (r : List Val), HierarchicalSheet.step o (.list (.str k!"property" :: r)) =
      (Property.fromSexpr (.list (.str k!"property" :: r)) >>= fun p =>
        if p.key.is k!"Sheet name" || p.key.is k!"Sheetname" then .ok { o with sheetName := p }
        else if p.key.is k!"Sheet file" || p.key.is k!"Sheetfile" then .ok { o with fileName := p }
        else .ok { o with properties := o.properties ++ [p] }) := by
    intro o r
    show (Property.fromSexpr (.list (.str k!"property" :: r)) >>= fun p => Val.idx (.list (.str k!"property" :: r)) 1 >>= fun n => _) = _
    cases e : Property.fromSexpr (.list (.str k!"property" :: r)) with
    | error x => rfl
    | ok p =>
      show (Val.idx (.list (.str k!"property" :: r)) 1 >>= fun n => _) = _
      rw [Property.key_of e]
      rfl
  show HierarchicalSheet.fromSexpr (.list (.str k!"sheet" :: (xs ++ _ :: ys))) = .ok o ↔ HierarchicalSheet.fromSexpr (.list (.str k!"sheet" :: (xs ++ _ :: ys))) = .ok o
  rw [HierarchicalSheet.loopEq, HierarchicalSheet.loopEq]
  exact forM_at (fun o o' => by rw [hs, hs]; exact bind_iff h' o') _ _ _ o

theorem SaysSame.Pad_primitives {s : List Val} (h : ExpKind.Pad.Start s) (xs ys : List Val) {r r' : List Val}
    (h' : ExpKind.Primitives.Same (.list (.str k!"primitives" :: r)) (.list (.str k!"primitives" :: r'))) :
    ExpKind.Pad.Same (.list (s ++ (xs ++ .list (.str k!"primitives" :: r) :: ys))) (.list (s ++ (xs ++ .list (.str k!"primitives" :: r') :: ys))) := by
  obtain ⟨a1, a2, a3, rfl⟩ := h
  intro o
  have hs : ∀ (o : Pad) (r : List Val), Pad.step o (.list (.str k!"primitives" :: r)) =
      (forM padPrimitive o.customPadPrimitives r >>= fun ps => .ok { o with customPadPrimitives := ps }) := fun _ _ => rfl
  show Pad.fromSexpr (.list (.str k!"pad" :: a1 :: a2 :: a3 :: (xs ++ _ :: ys))) = .ok o ↔ Pad.fromSexpr (.list (.str k!"pad" :: a1 :: a2 :: a3 :: (xs ++ _ :: ys))) = .ok o
  rw [Pad.loopEq, Pad.loopEq]
  exact forM_at (fun o o' => by rw [hs, hs]; exact bind_iff (h' _) o') (a3 :: xs) _ _ o

theorem SaysSame.Primitives_unknown {s : List Val} (h : ExpKind.Primitives.Start s) (xs ys : List Val) {u : Val} {r : List Val} (hu : ∀ w ∈ ExpKind.Primitives.known, u ≠ .str w) :
    ExpKind.Primitives.Same (.list (s ++ (xs ++ .list (u :: r) :: ys))) (.list (s ++ (xs ++ ys))) := by
  cases h
  intro acc o
  have hs : ∀ acc, padPrimitive acc (.list (u :: r)) = .ok acc := by
    intro acc
    have hn : ∀ w ∈ ExpKind.Primitives.known, u.is w = false := fun w hw => Val.is_ne (hu w hw)
    show (if u.is k!"gr_text" = true then _ else _) = _
    rw [hn k!"gr_text" (by decide), hn k!"gr_text_box" (by decide), hn k!"gr_line" (by decide), hn k!"gr_rect" (by decide),
      hn k!"gr_circle" (by decide), hn k!"gr_arc" (by decide), hn k!"gr_poly" (by decide), hn k!"gr_curve" (by decide), hn k!"dimension" (by decide)]
    rfl
  show forM padPrimitive acc (xs ++ .list (u :: r) :: ys) = .ok o ↔ forM padPrimitive acc (xs ++ ys) = .ok o
  rw [forM_append, forM_append]
  refine Iff.of_eq (congrArg (· = Except.ok o) (bind_congr fun a => ?_))
  show (padPrimitive a (.list (u :: r)) >>= fun a => forM padPrimitive a ys) = _
  rw [hs a]
  rfl

theorem SaysSame.primitive {β : Type} {sub : Val → PyM β} {w : Str} (mk : β → GrItem)
    (hs : ∀ acc r, padPrimitive acc (.list (.str w :: r)) = (sub (.list (.str w :: r)) >>= fun b => .ok (acc ++ [mk b])))
    {s : List Val} (h : ExpKind.Primitives.Start s) (xs ys : List Val) {r r' : List Val}
    (h' : ∀ o, sub (.list (.str w :: r)) = .ok o ↔ sub (.list (.str w :: r')) = .ok o) :
    ExpKind.Primitives.Same (.list (s ++ (xs ++ .list (.str w :: r) :: ys))) (.list (s ++ (xs ++ .list (.str w :: r') :: ys))) := by
  cases h
  intro acc o
  exact forM_at (fun o o' => by rw [hs, hs]; exact bind_iff h' o') xs ys acc o

theorem SaysSame.Primitives_gr_text {s : List Val} (h : ExpKind.Primitives.Start s) (xs ys : List Val) {r r' : List Val} (h' : ExpKind.GrText.Same (.list (.str k!"gr_text" :: r)) (.list (.str k!"gr_text" :: r'))) :
    ExpKind.Primitives.Same (.list (s ++ (xs ++ .list (.str k!"gr_text" :: r) :: ys))) (.list (s ++ (xs ++ .list (.str k!"gr_text" :: r') :: ys))) :=
  SaysSame.primitive .text (fun _ _ => rfl) h xs ys h'
theorem SaysSame.Primitives_gr_text_box {s : List Val} (h : ExpKind.Primitives.Start s) (xs ys : List Val) {r r' : List Val} (h' : ExpKind.GrTextBox.Same (.list (.str k!"gr_text_box" :: r)) (.list (.str k!"gr_text_box" :: r'))) :
    ExpKind.Primitives.Same (.list (s ++ (xs ++ .list (.str k!"gr_text_box" :: r) :: ys))) (.list (s ++ (xs ++ .list (.str k!"gr_text_box" :: r') :: ys))) :=
  SaysSame.primitive .textBox (fun _ _ => rfl) h xs ys h'
theorem SaysSame.Primitives_gr_line {s : List Val} (h : ExpKind.Primitives.Start s) (xs ys : List Val) {r r' : List Val} (h' : ExpKind.GrLine.Same (.list (.str k!"gr_line" :: r)) (.list (.str k!"gr_line" :: r'))) :
    ExpKind.Primitives.Same (.list (s ++ (xs ++ .list (.str k!"gr_line" :: r) :: ys))) (.list (s ++ (xs ++ .list (.str k!"gr_line" :: r') :: ys))) :=
  SaysSame.primitive .line (fun _ _ => rfl) h xs ys h'
theorem SaysSame.Primitives_gr_rect {s : List Val} (h : ExpKind.Primitives.Start s) (xs ys : List Val) {r r' : List Val} (h' : ExpKind.GrRect.Same (.list (.str k!"gr_rect" :: r)) (.list (.str k!"gr_rect" :: r'))) :
    ExpKind.Primitives.Same (.list (s ++ (xs ++ .list (.str k!"gr_rect" :: r) :: ys))) (.list (s ++ (xs ++ .list (.str k!"gr_rect" :: r') :: ys))) :=
  SaysSame.primitive .rect (fun _ _ => rfl) h xs ys h'
theorem SaysSame.Primitives_gr_circle {s : List Val} (h : ExpKind.Primitives.Start s) (xs ys : List Val) {r r' : List Val} (h' : ExpKind.GrCircle.Same (.list (.str k!"gr_circle" :: r)) (.list (.str k!"gr_circle" :: r'))) :
    ExpKind.Primitives.Same (.list (s ++ (xs ++ .list (.str k!"gr_circle" :: r) :: ys))) (.list (s ++ (xs ++ .list (.str k!"gr_circle" :: r') :: ys))) :=
  SaysSame.primitive .circle (fun _ _ => rfl) h xs ys h'
theorem SaysSame.Primitives_gr_arc {s : List Val} (h : ExpKind.Primitives.Start s) (xs ys : List Val) {r r' : List Val} (h' : ExpKind.GrArc.Same (.list (.str k!"gr_arc" :: r)) (.list (.str k!"gr_arc" :: r'))) :
    ExpKind.Primitives.Same (.list (s ++ (xs ++ .list (.str k!"gr_arc" :: r) :: ys))) (.list (s ++ (xs ++ .list (.str k!"gr_arc" :: r') :: ys))) :=
  SaysSame.primitive .arc (fun _ _ => rfl) h xs ys h'
theorem SaysSame.Primitives_gr_poly {s : List Val} (h : ExpKind.Primitives.Start s) (xs ys : List Val) {r r' : List Val} (h' : ExpKind.GrPoly.Same (.list (.str k!"gr_poly" :: r)) (.list (.str k!"gr_poly" :: r'))) :
    ExpKind.Primitives.Same (.list (s ++ (xs ++ .list (.str k!"gr_poly" :: r) :: ys))) (.list (s ++ (xs ++ .list (.str k!"gr_poly" :: r') :: ys))) :=
  SaysSame.primitive .poly (fun _ _ => rfl) h xs ys h'
theorem SaysSame.Primitives_gr_curve {s : List Val} (h : ExpKind.Primitives.Start s) (xs ys : List Val) {r r' : List Val} (h' : ExpKind.GrCurve.Same (.list (.str k!"gr_curve" :: r)) (.list (.str k!"gr_curve" :: r'))) :
    ExpKind.Primitives.Same (.list (s ++ (xs ++ .list (.str k!"gr_curve" :: r) :: ys))) (.list (s ++ (xs ++ .list (.str k!"gr_curve" :: r') :: ys))) :=
  SaysSame.primitive .curve (fun _ _ => rfl) h xs ys h'

end Kiutils
