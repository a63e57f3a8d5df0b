import Verif.Tokens
import Verif.Proofs.Symbol
/-!
# Loop body of `Symbol.from_sexpr` item by item
-/
namespace Kiutils

theorem Symbol.pinNamesTrack (o : Symbol) (x : Val) : Post (Symbol.pinNamesStep o x) fun o' =>
    Track (fun _ => false) (fun v _ => .ok v) x o.libraryNickname o'.libraryNickname ∧
    Track (fun _ => false) (fun v _ => .ok v) x o.entryName o'.entryName ∧
    Track (fun _ => false) (fun v _ => .ok v) x o.unitId o'.unitId ∧
    Track (fun _ => false) (fun v _ => .ok v) x o.styleId o'.styleId ∧
    Track (fun _ => false) (fun v _ => .ok v) x o.extends_ o'.extends_ ∧
    Track (fun _ => false) (fun v _ => .ok v) x o.hidePinNumbers o'.hidePinNumbers ∧
    Track (fun _ => false) (fun v _ => .ok v) x o.pinNames o'.pinNames ∧
    Track (wordIn [k!"hide"]) (fun _ _ => .ok true) x o.pinNamesHide o'.pinNamesHide ∧
    Track (tok k!"offset") (fun _ i => do return some (← i.idx 1)) x o.pinNamesOffset o'.pinNamesOffset ∧
    Track (fun _ => false) (fun v _ => .ok v) x o.inBom o'.inBom ∧
    Track (fun _ => false) (fun v _ => .ok v) x o.onBoard o'.onBoard ∧
    Track (fun _ => false) (fun v _ => .ok v) x o.isPower o'.isPower ∧
    Track (fun _ => false) (fun v _ => .ok v) x o.properties o'.properties ∧
    Track (fun _ => false) (fun v _ => .ok v) x o.graphicItems o'.graphicItems ∧
    Track (fun _ => false) (fun v _ => .ok v) x o.pins o'.pins ∧
    Track (fun _ => false) (fun v _ => .ok v) x o.units o'.units := by
  unfold Symbol.pinNamesStep
  cases x <;> trackBoth

theorem track_const {β : Type} {key : Val → Bool} {upd : β → Val → PyM β} {x : Val} {old new : β} (hn : new = old)
    (h : key x = false := by rfl) : Track key upd x old new := by
  rw [hn]; exact track_other h

theorem Symbol.pinNamesPost (o : Symbol) (r a : List Val) (ha : (Val.list (.str k!"pin_names" :: r)).slice 1 = .ok a) :
    Post (forM Symbol.pinNamesStep { o with pinNames := true } a) fun o' =>
    Track (fun _ => false) (fun v _ => .ok v) (.list (.str k!"pin_names" :: r)) o.libraryNickname o'.libraryNickname ∧
    Track (fun _ => false) (fun v _ => .ok v) (.list (.str k!"pin_names" :: r)) o.entryName o'.entryName ∧
    Track (fun _ => false) (fun v _ => .ok v) (.list (.str k!"pin_names" :: r)) o.unitId o'.unitId ∧
    Track (fun _ => false) (fun v _ => .ok v) (.list (.str k!"pin_names" :: r)) o.styleId o'.styleId ∧
    Track (tok k!"extends") (fun _ i => do return some (← i.idx 1)) (.list (.str k!"pin_names" :: r)) o.extends_ o'.extends_ ∧
    Track (tok k!"pin_numbers") (fun acc i => do if (← i.idx 1).is k!"hide" then return true else return acc) (.list (.str k!"pin_names" :: r)) o.hidePinNumbers o'.hidePinNumbers ∧
    Track (tok k!"pin_names") (fun _ _ => .ok true) (.list (.str k!"pin_names" :: r)) o.pinNames o'.pinNames ∧
    Track (tok k!"pin_names") (fun acc i => do forM (fun _ _ => .ok true) acc ((← i.slice 1).filter (wordIn [k!"hide"]))) (.list (.str k!"pin_names" :: r)) o.pinNamesHide o'.pinNamesHide ∧
    Track (tok k!"pin_names") (fun acc i => do forM (fun _ j => do return some (← j.idx 1)) acc ((← i.slice 1).filter (tok k!"offset"))) (.list (.str k!"pin_names" :: r)) o.pinNamesOffset o'.pinNamesOffset ∧
    Track (tok k!"in_bom") (fun _ i => do return some ((← i.idx 1).is k!"yes")) (.list (.str k!"pin_names" :: r)) o.inBom o'.inBom ∧
    Track (tok k!"on_board") (fun _ i => do return some ((← i.idx 1).is k!"yes")) (.list (.str k!"pin_names" :: r)) o.onBoard o'.onBoard ∧
    Track (tok k!"power") (fun _ _ => .ok true) (.list (.str k!"pin_names" :: r)) o.isPower o'.isPower ∧
    Track (tok k!"property") (fun l i => do return l ++ [← Property.fromSexpr i]) (.list (.str k!"pin_names" :: r)) o.properties o'.properties ∧
    Track (tokIn [k!"arc", k!"circle", k!"curve", k!"polyline", k!"rectangle", k!"text", k!"text_box"])
      (fun l i => do return l ++ [← (fun i => if tok k!"arc" i then do return .arc (← SyArc.fromSexpr i)
        else if tok k!"circle" i then do return .circle (← SyCircle.fromSexpr i)
        else if tok k!"curve" i then do return .curve (← SyCurve.fromSexpr i)
        else if tok k!"polyline" i then do return .polyline (← SyPolyLine.fromSexpr i)
        else if tok k!"rectangle" i then do return .rect (← SyRect.fromSexpr i)
        else if tok k!"text" i then do return .text (← SyText.fromSexpr i)
        else do return .textBox (← SyTextBox.fromSexpr i)) i]) (.list (.str k!"pin_names" :: r)) o.graphicItems o'.graphicItems ∧
    Track (tok k!"pin") (fun l i => do return l ++ [← SymbolPin.fromSexpr i]) (.list (.str k!"pin_names" :: r)) o.pins o'.pins ∧
    Track (tok k!"symbol") (fun l i => do return l ++ [← Symbol.fromSexpr i]) (.list (.str k!"pin_names" :: r)) o.units o'.units := by
  intro o' ho
  refine ⟨?_,?_,?_,?_,?_,?_,?_,?_,?_,?_,?_,?_,?_,?_,?_,?_⟩
  · exact track_const ((Track.folds (get := (·.libraryNickname)) (fun o x o' hs => (Symbol.pinNamesTrack o x o' hs).1) ho).const)
  · exact track_const ((Track.folds (get := (·.entryName)) (fun o x o' hs => (Symbol.pinNamesTrack o x o' hs).2.1) ho).const)
  · exact track_const ((Track.folds (get := (·.unitId)) (fun o x o' hs => (Symbol.pinNamesTrack o x o' hs).2.2.1) ho).const)
  · exact track_const ((Track.folds (get := (·.styleId)) (fun o x o' hs => (Symbol.pinNamesTrack o x o' hs).2.2.2.1) ho).const)
  · exact track_const ((Track.folds (get := (·.extends_)) (fun o x o' hs => (Symbol.pinNamesTrack o x o' hs).2.2.2.2.1) ho).const)
  · exact track_const ((Track.folds (get := (·.hidePinNumbers)) (fun o x o' hs => (Symbol.pinNamesTrack o x o' hs).2.2.2.2.2.1) ho).const)
  · exact track_own rfl (congrArg Except.ok (FoldsTo.const (Track.folds (get := (·.pinNames)) (fun o x o' hs => (Symbol.pinNamesTrack o x o' hs).2.2.2.2.2.2.1) ho)).symm)
  · have h := Track.folds (get := (·.pinNamesHide)) (fun o x o' hs => (Symbol.pinNamesTrack o x o' hs).2.2.2.2.2.2.2.1) ho
    exact track_own rfl (own_bind ha h)
  · have h := Track.folds (get := (·.pinNamesOffset)) (fun o x o' hs => (Symbol.pinNamesTrack o x o' hs).2.2.2.2.2.2.2.2.1) ho
    exact track_own rfl (own_bind ha h)
  · exact track_const ((Track.folds (get := (·.inBom)) (fun o x o' hs => (Symbol.pinNamesTrack o x o' hs).2.2.2.2.2.2.2.2.2.1) ho).const)
  · exact track_const ((Track.folds (get := (·.onBoard)) (fun o x o' hs => (Symbol.pinNamesTrack o x o' hs).2.2.2.2.2.2.2.2.2.2.1) ho).const)
  · exact track_const ((Track.folds (get := (·.isPower)) (fun o x o' hs => (Symbol.pinNamesTrack o x o' hs).2.2.2.2.2.2.2.2.2.2.2.1) ho).const)
  · exact track_const ((Track.folds (get := (·.properties)) (fun o x o' hs => (Symbol.pinNamesTrack o x o' hs).2.2.2.2.2.2.2.2.2.2.2.2.1) ho).const)
  · exact track_const ((Track.folds (get := (·.graphicItems)) (fun o x o' hs => (Symbol.pinNamesTrack o x o' hs).2.2.2.2.2.2.2.2.2.2.2.2.2.1) ho).const)
  · exact track_const ((Track.folds (get := (·.pins)) (fun o x o' hs => (Symbol.pinNamesTrack o x o' hs).2.2.2.2.2.2.2.2.2.2.2.2.2.2.1) ho).const)
  · exact track_const ((Track.folds (get := (·.units)) (fun o x o' hs => (Symbol.pinNamesTrack o x o' hs).2.2.2.2.2.2.2.2.2.2.2.2.2.2.2) ho).const)

theorem Symbol.trackAll (o : Symbol) (x : Val) : Post (Symbol.step o x) fun o' =>
    Track (fun _ => false) (fun v _ => .ok v) x o.libraryNickname o'.libraryNickname ∧
    Track (fun _ => false) (fun v _ => .ok v) x o.entryName o'.entryName ∧
    Track (fun _ => false) (fun v _ => .ok v) x o.unitId o'.unitId ∧
    Track (fun _ => false) (fun v _ => .ok v) x o.styleId o'.styleId ∧
    Track (tok k!"extends") (fun _ i => do return some (← i.idx 1)) x o.extends_ o'.extends_ ∧
    Track (tok k!"pin_numbers") (fun acc i => do if (← i.idx 1).is k!"hide" then return true else return acc) x o.hidePinNumbers o'.hidePinNumbers ∧
    Track (tok k!"pin_names") (fun _ _ => .ok true) x o.pinNames o'.pinNames ∧
    Track (tok k!"pin_names") (fun acc i => do forM (fun _ _ => .ok true) acc ((← i.slice 1).filter (wordIn [k!"hide"]))) x o.pinNamesHide o'.pinNamesHide ∧
    Track (tok k!"pin_names") (fun acc i => do forM (fun _ j => do return some (← j.idx 1)) acc ((← i.slice 1).filter (tok k!"offset"))) x o.pinNamesOffset o'.pinNamesOffset ∧
    Track (tok k!"in_bom") (fun _ i => do return some ((← i.idx 1).is k!"yes")) x o.inBom o'.inBom ∧
    Track (tok k!"on_board") (fun _ i => do return some ((← i.idx 1).is k!"yes")) x o.onBoard o'.onBoard ∧
    Track (tok k!"power") (fun _ _ => .ok true) x o.isPower o'.isPower ∧
    Track (tok k!"property") (fun l i => do return l ++ [← Property.fromSexpr i]) x o.properties o'.properties ∧
    Track (tokIn [k!"arc", k!"circle", k!"curve", k!"polyline", k!"rectangle", k!"text", k!"text_box"])
      (fun l i => do return l ++ [← (fun i => if tok k!"arc" i then do return .arc (← SyArc.fromSexpr i)
        else if tok k!"circle" i then do return .circle (← SyCircle.fromSexpr i)
        else if tok k!"curve" i then do return .curve (← SyCurve.fromSexpr i)
        else if tok k!"polyline" i then do return .polyline (← SyPolyLine.fromSexpr i)
        else if tok k!"rectangle" i then do return .rect (← SyRect.fromSexpr i)
        else if tok k!"text" i then do return .text (← SyText.fromSexpr i)
        else do return .textBox (← SyTextBox.fromSexpr i)) i]) x o.graphicItems o'.graphicItems ∧
    Track (tok k!"pin") (fun l i => do return l ++ [← SymbolPin.fromSexpr i]) x o.pins o'.pins ∧
    Track (tok k!"symbol") (fun l i => do return l ++ [← Symbol.fromSexpr i]) x o.units o'.units := by
  unfold Symbol.step Symbol.stepFlat
  refine post_idx0 (fun c w hx => ?_) (fun h r hx => ?_) <;> subst hx
  · refine post_is ?_ (fun hs => ?_)
    · intro hk; cases hk
    · refine post_bindE fun k hk => ?_
      cases hk
      trackGo
      all_goals trackLeaf
  · refine post_is ?_ (fun hs => ?_)
    · intro hk; cases hk; trackGo; trackLeaf
    · refine post_bindE fun k hk => ?_
      cases hk
      trackGo
      all_goals first
        | exact Symbol.pinNamesPost _ _ _ (by assumption)
        | trackLeaf

theorem Symbol.pinNamesIndep (o o' : Symbol) (x : Val) : Same (Symbol.pinNamesStep o x) (Symbol.pinNamesStep o' x) := by
  unfold Symbol.pinNamesStep
  cases x <;> same

theorem Symbol.indep (o o' : Symbol) (x : Val) : Same (Symbol.step o x) (Symbol.step o' x) := by
  unfold Symbol.step Symbol.stepFlat
  same
  exact forM_same Symbol.pinNamesIndep _ _ _

theorem Symbol.setLibId_new {id : Val} {s : Symbol} (h : Symbol.setLibId {} id = .ok s) : s =
    { libraryNickname := s.libraryNickname, entryName := s.entryName, unitId := s.unitId, styleId := s.styleId } := by
  cases id with
  | str w =>
    simp only [Symbol.setLibId] at h
    cases hn : matchNick w with
    | some p => rw [hn] at h; cases h; rfl
    | none =>
      rw [hn] at h
      cases hu : matchUnit w with
      | some p => rw [hu] at h; cases h; rfl
      | none => rw [hu] at h; cases h; rfl
  | _ => cases h

theorem Symbol.loopEq {id : Val} {s : Symbol} (hs : Symbol.setLibId {} id = .ok s) (xs : List Val) :
    Symbol.fromSexpr (.list (.str k!"symbol" :: id :: xs)) = forM Symbol.step
      { libraryNickname := s.libraryNickname, entryName := s.entryName, unitId := s.unitId, styleId := s.styleId } xs := by
  rw [Symbol.fromSexpr_eq, hs, ← Symbol.setLibId_new hs]; rfl

theorem Symbol.unknown {h : Val} {r : List Val} (hu : ∀ k ∈ [k!"symbol", k!"extends", k!"pin_numbers", k!"pin_names", k!"in_bom", k!"on_board", k!"power", k!"property", k!"pin", k!"arc", k!"circle", k!"curve", k!"polyline", k!"rectangle", k!"text", k!"text_box"], h ≠ .str k) (o : Symbol) :
    Symbol.step o (.list (h :: r)) = .ok o := by
  unfold Symbol.step Symbol.stepFlat
  refine own_bind rfl ?_
  refine own_false (is_false_of_ne hu (by decide)) ?_
  unknownHead hu

theorem Symbol.reordered {o a b : Symbol} {xs ys : List Val} (hr : Reordered [[k!"arc", k!"circle", k!"curve", k!"polyline", k!"rectangle", k!"text", k!"text_box"]] xs ys)
    (ha : forM Symbol.step o xs = .ok a) (hb : forM Symbol.step o ys = .ok b) : a = b := by
  have f0 : a.libraryNickname = b.libraryNickname := (Track.folds (get := (·.libraryNickname)) (fun o x o' hs => (Symbol.trackAll o x o' hs).1) ha).unique
    (Track.folds (get := (·.libraryNickname)) (fun o x o' hs => (Symbol.trackAll o x o' hs).1) hb) filter_never
  have f1 : a.entryName = b.entryName := (Track.folds (get := (·.entryName)) (fun o x o' hs => (Symbol.trackAll o x o' hs).2.1) ha).unique
    (Track.folds (get := (·.entryName)) (fun o x o' hs => (Symbol.trackAll o x o' hs).2.1) hb) filter_never
  have f2 : a.unitId = b.unitId := (Track.folds (get := (·.unitId)) (fun o x o' hs => (Symbol.trackAll o x o' hs).2.2.1) ha).unique
    (Track.folds (get := (·.unitId)) (fun o x o' hs => (Symbol.trackAll o x o' hs).2.2.1) hb) filter_never
  have f3 : a.styleId = b.styleId := (Track.folds (get := (·.styleId)) (fun o x o' hs => (Symbol.trackAll o x o' hs).2.2.2.1) ha).unique
    (Track.folds (get := (·.styleId)) (fun o x o' hs => (Symbol.trackAll o x o' hs).2.2.2.1) hb) filter_never
  have f4 : a.extends_ = b.extends_ := (Track.folds (get := (·.extends_)) (fun o x o' hs => (Symbol.trackAll o x o' hs).2.2.2.2.1) ha).unique
    (Track.folds (get := (·.extends_)) (fun o x o' hs => (Symbol.trackAll o x o' hs).2.2.2.2.1) hb) (hr.tokens _)
  have f5 : a.hidePinNumbers = b.hidePinNumbers := (Track.folds (get := (·.hidePinNumbers)) (fun o x o' hs => (Symbol.trackAll o x o' hs).2.2.2.2.2.1) ha).unique
    (Track.folds (get := (·.hidePinNumbers)) (fun o x o' hs => (Symbol.trackAll o x o' hs).2.2.2.2.2.1) hb) (hr.tokens _)
  have f6 : a.pinNames = b.pinNames := (Track.folds (get := (·.pinNames)) (fun o x o' hs => (Symbol.trackAll o x o' hs).2.2.2.2.2.2.1) ha).unique
    (Track.folds (get := (·.pinNames)) (fun o x o' hs => (Symbol.trackAll o x o' hs).2.2.2.2.2.2.1) hb) (hr.tokens _)
  have f7 : a.pinNamesHide = b.pinNamesHide := (Track.folds (get := (·.pinNamesHide)) (fun o x o' hs => (Symbol.trackAll o x o' hs).2.2.2.2.2.2.2.1) ha).unique
    (Track.folds (get := (·.pinNamesHide)) (fun o x o' hs => (Symbol.trackAll o x o' hs).2.2.2.2.2.2.2.1) hb) (hr.tokens _)
  have f8 : a.pinNamesOffset = b.pinNamesOffset := (Track.folds (get := (·.pinNamesOffset)) (fun o x o' hs => (Symbol.trackAll o x o' hs).2.2.2.2.2.2.2.2.1) ha).unique
    (Track.folds (get := (·.pinNamesOffset)) (fun o x o' hs => (Symbol.trackAll o x o' hs).2.2.2.2.2.2.2.2.1) hb) (hr.tokens _)
  have f9 : a.inBom = b.inBom := (Track.folds (get := (·.inBom)) (fun o x o' hs => (Symbol.trackAll o x o' hs).2.2.2.2.2.2.2.2.2.1) ha).unique
    (Track.folds (get := (·.inBom)) (fun o x o' hs => (Symbol.trackAll o x o' hs).2.2.2.2.2.2.2.2.2.1) hb) (hr.tokens _)
  have f10 : a.onBoard = b.onBoard := (Track.folds (get := (·.onBoard)) (fun o x o' hs => (Symbol.trackAll o x o' hs).2.2.2.2.2.2.2.2.2.2.1) ha).unique
    (Track.folds (get := (·.onBoard)) (fun o x o' hs => (Symbol.trackAll o x o' hs).2.2.2.2.2.2.2.2.2.2.1) hb) (hr.tokens _)
  have f11 : a.isPower = b.isPower := (Track.folds (get := (·.isPower)) (fun o x o' hs => (Symbol.trackAll o x o' hs).2.2.2.2.2.2.2.2.2.2.2.1) ha).unique
    (Track.folds (get := (·.isPower)) (fun o x o' hs => (Symbol.trackAll o x o' hs).2.2.2.2.2.2.2.2.2.2.2.1) hb) (hr.tokens _)
  have f12 : a.properties = b.properties := (Track.folds (get := (·.properties)) (fun o x o' hs => (Symbol.trackAll o x o' hs).2.2.2.2.2.2.2.2.2.2.2.2.1) ha).unique
    (Track.folds (get := (·.properties)) (fun o x o' hs => (Symbol.trackAll o x o' hs).2.2.2.2.2.2.2.2.2.2.2.2.1) hb) (hr.tokens _)
  have f13 : a.graphicItems = b.graphicItems := (Track.folds (get := (·.graphicItems)) (fun o x o' hs => (Symbol.trackAll o x o' hs).2.2.2.2.2.2.2.2.2.2.2.2.2.1) ha).unique
    (Track.folds (get := (·.graphicItems)) (fun o x o' hs => (Symbol.trackAll o x o' hs).2.2.2.2.2.2.2.2.2.2.2.2.2.1) hb) (hr.groups _ (by simp))
  have f14 : a.pins = b.pins := (Track.folds (get := (·.pins)) (fun o x o' hs => (Symbol.trackAll o x o' hs).2.2.2.2.2.2.2.2.2.2.2.2.2.2.1) ha).unique
    (Track.folds (get := (·.pins)) (fun o x o' hs => (Symbol.trackAll o x o' hs).2.2.2.2.2.2.2.2.2.2.2.2.2.2.1) hb) (hr.tokens _)
  have f15 : a.units = b.units := (Track.folds (get := (·.units)) (fun o x o' hs => (Symbol.trackAll o x o' hs).2.2.2.2.2.2.2.2.2.2.2.2.2.2.2) ha).unique
    (Track.folds (get := (·.units)) (fun o x o' hs => (Symbol.trackAll o x o' hs).2.2.2.2.2.2.2.2.2.2.2.2.2.2.2) hb) (hr.tokens _)
  cases a
  cases b
  simp only at f0 f1 f2 f3 f4 f5 f6 f7 f8 f9 f10 f11 f12 f13 f14 f15
  rw [f0, f1, f2, f3, f4, f5, f6, f7, f8, f9, f10, f11, f12, f13, f14, f15]

end Kiutils
