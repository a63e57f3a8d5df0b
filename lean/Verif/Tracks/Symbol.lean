import Verif.Tokens
import Verif.Model.Symbol
/-!
# Loop bodies of `from_sexpr` item by item: Symbol
-/
namespace Kiutils

theorem SymbolPin.trackAll (o : SymbolPin) (x : Val) : Post (SymbolPin.step o x) fun o' =>
    Track (fun _ => false) (fun v _ => .ok v) x o.electricalType o'.electricalType ∧
    Track (fun _ => false) (fun v _ => .ok v) x o.graphicalStyle o'.graphicalStyle ∧
    Track (tok k!"at") (fun _ => Position.fromSexpr) x o.position o'.position ∧
    Track (tok k!"length") (fun _ => (·.idx 1)) x o.length o'.length ∧
    Track (tok k!"name") (fun _ => (·.idx 1)) x o.name o'.name ∧
    Track (tok k!"name") (fun acc i => do if (← i.len) > 2 then return some (← Effects.fromSexpr (← i.idx 2)) else return acc) x o.nameEffects o'.nameEffects ∧
    Track (tok k!"number") (fun _ => (·.idx 1)) x o.number o'.number ∧
    Track (tok k!"number") (fun acc i => do if (← i.len) > 2 then return some (← Effects.fromSexpr (← i.idx 2)) else return acc) x o.numberEffects o'.numberEffects ∧
    Track (wordIn [k!"hide"]) (fun _ _ => .ok true) x o.hide o'.hide ∧
    Track (tok k!"alternate") (fun l i => do return l ++ [← SymbolAlternativePin.fromSexpr i]) x o.alternatePins o'.alternatePins := by
  unfold SymbolPin.step
  cases x <;> trackBoth

theorem SymbolPin.indep (o o' : SymbolPin) (x : Val) : Same (SymbolPin.step o x) (SymbolPin.step o' x) := by
  unfold SymbolPin.step
  cases x <;> same

theorem SymbolPin.unknown {h : Val} {r : List Val} (hu : ∀ k ∈ [k!"at", k!"length", k!"name", k!"number", k!"alternate"], h ≠ .str k) (o : SymbolPin) :
    SymbolPin.step o (.list (h :: r)) = .ok o := by
  unfold SymbolPin.step
  unknownHead hu

theorem SymbolPin.reordered {o a b : SymbolPin} {xs ys : List Val} (hr : Reordered [] xs ys) (ha : forM SymbolPin.step o xs = .ok a)
    (hb : forM SymbolPin.step o ys = .ok b) : a = b := by
  have f0 : a.electricalType = b.electricalType := (Track.folds (get := (·.electricalType)) (fun o x o' hs => (SymbolPin.trackAll o x o' hs).1) ha).unique
    (Track.folds (get := (·.electricalType)) (fun o x o' hs => (SymbolPin.trackAll o x o' hs).1) hb) filter_never
  have f1 : a.graphicalStyle = b.graphicalStyle := (Track.folds (get := (·.graphicalStyle)) (fun o x o' hs => (SymbolPin.trackAll o x o' hs).2.1) ha).unique
    (Track.folds (get := (·.graphicalStyle)) (fun o x o' hs => (SymbolPin.trackAll o x o' hs).2.1) hb) filter_never
  have f2 : a.position = b.position := (Track.folds (get := (·.position)) (fun o x o' hs => (SymbolPin.trackAll o x o' hs).2.2.1) ha).unique
    (Track.folds (get := (·.position)) (fun o x o' hs => (SymbolPin.trackAll o x o' hs).2.2.1) hb) (hr.tokens _)
  have f3 : a.length = b.length := (Track.folds (get := (·.length)) (fun o x o' hs => (SymbolPin.trackAll o x o' hs).2.2.2.1) ha).unique
    (Track.folds (get := (·.length)) (fun o x o' hs => (SymbolPin.trackAll o x o' hs).2.2.2.1) hb) (hr.tokens _)
  have f4 : a.name = b.name := (Track.folds (get := (·.name)) (fun o x o' hs => (SymbolPin.trackAll o x o' hs).2.2.2.2.1) ha).unique
    (Track.folds (get := (·.name)) (fun o x o' hs => (SymbolPin.trackAll o x o' hs).2.2.2.2.1) hb) (hr.tokens _)
  have f5 : a.nameEffects = b.nameEffects := (Track.folds (get := (·.nameEffects)) (fun o x o' hs => (SymbolPin.trackAll o x o' hs).2.2.2.2.2.1) ha).unique
    (Track.folds (get := (·.nameEffects)) (fun o x o' hs => (SymbolPin.trackAll o x o' hs).2.2.2.2.2.1) hb) (hr.tokens _)
  have f6 : a.number = b.number := (Track.folds (get := (·.number)) (fun o x o' hs => (SymbolPin.trackAll o x o' hs).2.2.2.2.2.2.1) ha).unique
    (Track.folds (get := (·.number)) (fun o x o' hs => (SymbolPin.trackAll o x o' hs).2.2.2.2.2.2.1) hb) (hr.tokens _)
  have f7 : a.numberEffects = b.numberEffects := (Track.folds (get := (·.numberEffects)) (fun o x o' hs => (SymbolPin.trackAll o x o' hs).2.2.2.2.2.2.2.1) ha).unique
    (Track.folds (get := (·.numberEffects)) (fun o x o' hs => (SymbolPin.trackAll o x o' hs).2.2.2.2.2.2.2.1) hb) (hr.tokens _)
  have f8 : a.hide = b.hide := (Track.folds (get := (·.hide)) (fun o x o' hs => (SymbolPin.trackAll o x o' hs).2.2.2.2.2.2.2.2.1) ha).unique
    (Track.folds (get := (·.hide)) (fun o x o' hs => (SymbolPin.trackAll o x o' hs).2.2.2.2.2.2.2.2.1) hb) (hr.word _)
  have f9 : a.alternatePins = b.alternatePins := (Track.folds (get := (·.alternatePins)) (fun o x o' hs => (SymbolPin.trackAll o x o' hs).2.2.2.2.2.2.2.2.2) ha).unique
    (Track.folds (get := (·.alternatePins)) (fun o x o' hs => (SymbolPin.trackAll o x o' hs).2.2.2.2.2.2.2.2.2) hb) (hr.tokens _)
  show SymbolPin.mk a.electricalType a.graphicalStyle a.position a.length a.name a.nameEffects a.number a.numberEffects a.hide a.alternatePins =
    SymbolPin.mk b.electricalType b.graphicalStyle b.position b.length b.name b.nameEffects b.number b.numberEffects b.hide b.alternatePins
  rw [f0, f1, f2, f3, f4, f5, f6, f7, f8, f9]

theorem SymbolPin.loopEq (a b : Val) (xs : List Val) :
    SymbolPin.fromSexpr (.list (.str k!"pin" :: a :: b :: xs)) = forM SymbolPin.step { electricalType := a, graphicalStyle := b } xs :=
  rfl

theorem SymbolLib.trackAll (o : SymbolLib) (x : Val) : Post (SymbolLib.step o x) fun o' =>
    Track (tok k!"version") (fun _ => (·.idx 1)) x o.version o'.version ∧
    Track (tok k!"generator") (fun _ => fun i => do return some (← i.idx 1)) x o.generator o'.generator ∧
    Track (tok k!"symbol") (fun l i => do return l ++ [← Symbol.fromSexpr i]) x o.symbols o'.symbols ∧
    Track (fun _ => false) (fun v _ => .ok v) x o.filePath o'.filePath := by
  unfold SymbolLib.step
  trackItems

theorem SymbolLib.indep (o o' : SymbolLib) (x : Val) : Same (SymbolLib.step o x) (SymbolLib.step o' x) := by
  unfold SymbolLib.step
  same

theorem SymbolLib.unknown {h : Val} {r : List Val} (hu : ∀ k ∈ [k!"version", k!"generator", k!"symbol"], h ≠ .str k) (o : SymbolLib) :
    SymbolLib.step o (.list (h :: r)) = .ok o := by
  unfold SymbolLib.step
  unknownHead hu

theorem SymbolLib.reordered {o a b : SymbolLib} {xs ys : List Val} (hr : Reordered [] xs ys) (ha : forM SymbolLib.step o xs = .ok a)
    (hb : forM SymbolLib.step o ys = .ok b) : a = b := by
  have f0 : a.version = b.version := (Track.folds (get := (·.version)) (fun o x o' hs => (SymbolLib.trackAll o x o' hs).1) ha).unique
    (Track.folds (get := (·.version)) (fun o x o' hs => (SymbolLib.trackAll o x o' hs).1) hb) (hr.tokens _)
  have f1 : a.generator = b.generator := (Track.folds (get := (·.generator)) (fun o x o' hs => (SymbolLib.trackAll o x o' hs).2.1) ha).unique
    (Track.folds (get := (·.generator)) (fun o x o' hs => (SymbolLib.trackAll o x o' hs).2.1) hb) (hr.tokens _)
  have f2 : a.symbols = b.symbols := (Track.folds (get := (·.symbols)) (fun o x o' hs => (SymbolLib.trackAll o x o' hs).2.2.1) ha).unique
    (Track.folds (get := (·.symbols)) (fun o x o' hs => (SymbolLib.trackAll o x o' hs).2.2.1) hb) (hr.tokens _)
  have f3 : a.filePath = b.filePath := (Track.folds (get := (·.filePath)) (fun o x o' hs => (SymbolLib.trackAll o x o' hs).2.2.2) ha).unique
    (Track.folds (get := (·.filePath)) (fun o x o' hs => (SymbolLib.trackAll o x o' hs).2.2.2) hb) filter_never
  show SymbolLib.mk a.version a.generator a.symbols a.filePath =
    SymbolLib.mk b.version b.generator b.symbols b.filePath
  rw [f0, f1, f2, f3]

theorem SymbolLib.loopEq (xs : List Val) :
    SymbolLib.fromSexpr (.list (.str k!"kicad_symbol_lib" :: xs)) = forM SymbolLib.step {} xs :=
  rfl

end Kiutils
