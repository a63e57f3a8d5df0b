import Verif.Swap
import Verif.Tracks.SchItems
/-!
# What `from_sexpr` makes of the items of a list: SchItems

For each class: `C37` (every field is read from the last item with its token; flags are set when their word or token occurs),
`C11` (lists contain all items with their tokens, once each, in order), `C36` (unrelated items may change places), `C10` (items
with unknown tokens are ignored). The vocabulary is defined in `Verif/Tokens.lean`.
-/
namespace Kiutils

theorem C37_Junction (xs : List Val) (o : Junction) (h : Junction.fromSexpr (.list (.str k!"junction" :: xs)) = .ok o) :
    LastWins (tok k!"at") Position.fromSexpr xs ({} : Position) o.position ∧
    o.diameter = (.int 0 : Val) ∧
    LastWins (tokIn [k!"color", k!"diameter"]) (fun i => if tok k!"color" i then do return .rgba (← ColorRGBA.fromSexpr i) else do return .raw (← i.idx 1)) xs (.rgba {} : JunctionColor) o.color ∧
    LastWins (tok k!"uuid") (fun i => do return some (← i.idx 1)) xs (none : Option Val) o.uuid := by
  rw [Junction.loopEq ] at h
  exact ⟨((Track.folds (get := (·.position)) (fun o x o' hs => (Junction.trackAll o x o' hs).1) h).drop rfl).last,
    ((Track.folds (get := (·.diameter)) (fun o x o' hs => (Junction.trackAll o x o' hs).2.1) h)).const,
    ((Track.folds (get := (·.color)) (fun o x o' hs => (Junction.trackAll o x o' hs).2.2.1) h).drop rfl).last,
    ((Track.folds (get := (·.uuid)) (fun o x o' hs => (Junction.trackAll o x o' hs).2.2.2) h).drop rfl).last⟩

/-- A repeated token with an unknown one in between. -/
example : (Junction.fromSexpr (.list [.str k!"junction", .list [.str k!"uuid", .str k!"a"], .list [.str k!"zzz", .int 1], .list [.str k!"uuid", .str k!"b"]])).map (·.uuid) = .ok (some (.str k!"b")) := rfl

theorem C36_Junction {xs ys : List Val} (hr : Reordered [[k!"color", k!"diameter"]] xs ys) (o : Junction) :
    Junction.fromSexpr (.list (.str k!"junction" :: xs)) = .ok o ↔ Junction.fromSexpr (.list (.str k!"junction" :: ys)) = .ok o := by
  rw [Junction.loopEq , Junction.loopEq ]
  exact reordered_iff Junction.indep Junction.reordered (hr.cons _) o
example := C36_Junction (.swap [] [] [.int 1] [.int 2] k!"at" k!"color" (by decide) (by decide))

theorem C10_Junction (xs ys : List Val) {u : Val} {r : List Val}
    (hu : ∀ k ∈ [k!"at", k!"color", k!"diameter", k!"uuid"], u ≠ .str k) :
    Junction.fromSexpr (.list (.str k!"junction" :: (xs ++ .list (u :: r) :: ys))) =
    Junction.fromSexpr (.list (.str k!"junction" :: (xs ++ ys))) := by
  rw [Junction.loopEq , Junction.loopEq ]
  exact forM_insert (Junction.unknown hu) _ (.str k!"junction" :: xs) ys
example := C10_Junction [.list [.str k!"at", .int 1]] [] (u := .str k!"zzz") (r := [.int 1]) (by simp)

theorem C37_NoConnect (xs : List Val) (o : NoConnect) (h : NoConnect.fromSexpr (.list (.str k!"no_connect" :: xs)) = .ok o) :
    LastWins (tok k!"at") Position.fromSexpr xs ({} : Position) o.position ∧
    LastWins (tok k!"uuid") (fun i => do return some (← i.idx 1)) xs (none : Option Val) o.uuid := by
  rw [NoConnect.loopEq ] at h
  exact ⟨((Track.folds (get := (·.position)) (fun o x o' hs => (NoConnect.trackAll o x o' hs).1) h).drop rfl).last,
    ((Track.folds (get := (·.uuid)) (fun o x o' hs => (NoConnect.trackAll o x o' hs).2) h).drop rfl).last⟩

/-- A repeated token with an unknown one in between. -/
example : (NoConnect.fromSexpr (.list [.str k!"no_connect", .list [.str k!"uuid", .str k!"a"], .list [.str k!"zzz", .int 1], .list [.str k!"uuid", .str k!"b"]])).map (·.uuid) = .ok (some (.str k!"b")) := rfl

theorem C36_NoConnect {xs ys : List Val} (hr : Reordered [] xs ys) (o : NoConnect) :
    NoConnect.fromSexpr (.list (.str k!"no_connect" :: xs)) = .ok o ↔ NoConnect.fromSexpr (.list (.str k!"no_connect" :: ys)) = .ok o := by
  rw [NoConnect.loopEq , NoConnect.loopEq ]
  exact reordered_iff NoConnect.indep NoConnect.reordered (hr.cons _) o
example := C36_NoConnect (.swap [] [] [.int 1] [.int 2] k!"at" k!"uuid" (by decide) (by decide))

theorem C10_NoConnect (xs ys : List Val) {u : Val} {r : List Val}
    (hu : ∀ k ∈ [k!"at", k!"uuid"], u ≠ .str k) :
    NoConnect.fromSexpr (.list (.str k!"no_connect" :: (xs ++ .list (u :: r) :: ys))) =
    NoConnect.fromSexpr (.list (.str k!"no_connect" :: (xs ++ ys))) := by
  rw [NoConnect.loopEq , NoConnect.loopEq ]
  exact forM_insert (NoConnect.unknown hu) _ (.str k!"no_connect" :: xs) ys
example := C10_NoConnect [.list [.str k!"at", .int 1]] [] (u := .str k!"zzz") (r := [.int 1]) (by simp)

theorem C37_BusEntry (xs : List Val) (o : BusEntry) (h : BusEntry.fromSexpr (.list (.str k!"bus_entry" :: xs)) = .ok o) :
    LastWins (tok k!"at") Position.fromSexpr xs ({} : Position) o.position ∧
    LastWins (tok k!"uuid") (fun i => do return some (← i.idx 1)) xs (none : Option Val) o.uuid ∧
    LastWins (tok k!"size") Position.fromSexpr xs ({} : Position) o.size ∧
    LastWins (tok k!"stroke") Stroke.fromSexpr xs ({} : Stroke) o.stroke := by
  rw [BusEntry.loopEq ] at h
  exact ⟨((Track.folds (get := (·.position)) (fun o x o' hs => (BusEntry.trackAll o x o' hs).1) h).drop rfl).last,
    ((Track.folds (get := (·.uuid)) (fun o x o' hs => (BusEntry.trackAll o x o' hs).2.1) h).drop rfl).last,
    ((Track.folds (get := (·.size)) (fun o x o' hs => (BusEntry.trackAll o x o' hs).2.2.1) h).drop rfl).last,
    ((Track.folds (get := (·.stroke)) (fun o x o' hs => (BusEntry.trackAll o x o' hs).2.2.2) h).drop rfl).last⟩

/-- A repeated token with an unknown one in between. -/
example : (BusEntry.fromSexpr (.list [.str k!"bus_entry", .list [.str k!"uuid", .str k!"a"], .list [.str k!"zzz", .int 1], .list [.str k!"uuid", .str k!"b"]])).map (·.uuid) = .ok (some (.str k!"b")) := rfl

theorem C36_BusEntry {xs ys : List Val} (hr : Reordered [] xs ys) (o : BusEntry) :
    BusEntry.fromSexpr (.list (.str k!"bus_entry" :: xs)) = .ok o ↔ BusEntry.fromSexpr (.list (.str k!"bus_entry" :: ys)) = .ok o := by
  rw [BusEntry.loopEq , BusEntry.loopEq ]
  exact reordered_iff BusEntry.indep BusEntry.reordered (hr.cons _) o
example := C36_BusEntry (.swap [] [] [.int 1] [.int 2] k!"at" k!"stroke" (by decide) (by decide))

theorem C10_BusEntry (xs ys : List Val) {u : Val} {r : List Val}
    (hu : ∀ k ∈ [k!"at", k!"stroke", k!"size", k!"uuid"], u ≠ .str k) :
    BusEntry.fromSexpr (.list (.str k!"bus_entry" :: (xs ++ .list (u :: r) :: ys))) =
    BusEntry.fromSexpr (.list (.str k!"bus_entry" :: (xs ++ ys))) := by
  rw [BusEntry.loopEq , BusEntry.loopEq ]
  exact forM_insert (BusEntry.unknown hu) _ (.str k!"bus_entry" :: xs) ys
example := C10_BusEntry [.list [.str k!"at", .int 1]] [] (u := .str k!"zzz") (r := [.int 1]) (by simp)

theorem C37_Connection {hd : Str} (hh : hd = k!"wire" ∨ hd = k!"bus") (xs : List Val) (o : Connection) (h : Connection.fromSexpr (.list (.str hd :: xs)) = .ok o) :
    o.type = (.str hd) ∧
    LastWins (tok k!"stroke") Stroke.fromSexpr xs ({} : Stroke) o.stroke ∧
    LastWins (tok k!"uuid") (fun i => do return some (← i.idx 1)) xs (none : Option Val) o.uuid := by
  rw [Connection.loopEq hh] at h
  exact ⟨((Track.folds (get := (·.type)) (fun o x o' hs => (Connection.trackAll o x o' hs).1) h)).const,
    ((Track.folds (get := (·.stroke)) (fun o x o' hs => (Connection.trackAll o x o' hs).2.2.1) h).drop (by rcases hh with rfl | rfl <;> rfl)).last,
    ((Track.folds (get := (·.uuid)) (fun o x o' hs => (Connection.trackAll o x o' hs).2.2.2) h).drop (by rcases hh with rfl | rfl <;> rfl)).last⟩
example := C37_Connection (.inl rfl) [.list [.str k!"uuid", .str k!"a"]] _ rfl

theorem C11_Connection {hd : Str} (hh : hd = k!"wire" ∨ hd = k!"bus") (xs : List Val) (o : Connection) (h : Connection.fromSexpr (.list (.str hd :: xs)) = .ok o) :
    CollectedAll (tok k!"pts") (fun i => do mapM' Position.fromSexpr (← i.slice 1)) xs o.points := by
  rw [Connection.loopEq hh] at h
  exact ((Track.folds (get := (·.points)) (fun o x o' hs => (Connection.trackAll o x o' hs).2.1) h).drop (by rcases hh with rfl | rfl <;> rfl)).collectedAll

/-- A repeated token with an unknown one in between. -/
example : (Connection.fromSexpr (.list [.str k!"wire", .list [.str k!"uuid", .str k!"a"], .list [.str k!"zzz", .int 1], .list [.str k!"uuid", .str k!"b"]])).map (·.uuid) = .ok (some (.str k!"b")) := rfl

theorem C36_Connection {hd : Str} (hh : hd = k!"wire" ∨ hd = k!"bus") {xs ys : List Val} (hr : Reordered [] xs ys) (o : Connection) :
    Connection.fromSexpr (.list (.str hd :: xs)) = .ok o ↔ Connection.fromSexpr (.list (.str hd :: ys)) = .ok o := by
  rw [Connection.loopEq hh, Connection.loopEq hh]
  exact reordered_iff Connection.indep Connection.reordered (hr.cons _) o
example := C36_Connection (.inl rfl) (.swap [] [] [.int 1] [.int 2] k!"pts" k!"stroke" (by decide) (by decide))

theorem C10_Connection {hd : Str} (hh : hd = k!"wire" ∨ hd = k!"bus") (xs ys : List Val) {u : Val} {r : List Val}
    (hu : ∀ k ∈ [k!"pts", k!"stroke", k!"uuid"], u ≠ .str k) :
    Connection.fromSexpr (.list (.str hd :: (xs ++ .list (u :: r) :: ys))) =
    Connection.fromSexpr (.list (.str hd :: (xs ++ ys))) := by
  rw [Connection.loopEq hh, Connection.loopEq hh]
  exact forM_insert (Connection.unknown hu) _ (.str hd :: xs) ys
example := C10_Connection (.inl rfl) [.list [.str k!"pts", .int 1]] [] (u := .str k!"zzz") (r := [.int 1]) (by simp)

theorem C37_PolyLine (xs : List Val) (o : PolyLine) (h : PolyLine.fromSexpr (.list (.str k!"polyline" :: xs)) = .ok o) :
    LastWins (tok k!"stroke") Stroke.fromSexpr xs ({} : Stroke) o.stroke ∧
    LastWins (tok k!"uuid") (fun i => do return some (← i.idx 1)) xs (none : Option Val) o.uuid := by
  rw [PolyLine.loopEq ] at h
  exact ⟨((Track.folds (get := (·.stroke)) (fun o x o' hs => (PolyLine.trackAll o x o' hs).2.1) h).drop rfl).last,
    ((Track.folds (get := (·.uuid)) (fun o x o' hs => (PolyLine.trackAll o x o' hs).2.2) h).drop rfl).last⟩
example := C37_PolyLine [.list [.str k!"uuid", .str k!"a"]] _ rfl

theorem C11_PolyLine (xs : List Val) (o : PolyLine) (h : PolyLine.fromSexpr (.list (.str k!"polyline" :: xs)) = .ok o) :
    CollectedAll (tok k!"pts") (fun i => do mapM' Position.fromSexpr (← i.slice 1)) xs o.points := by
  rw [PolyLine.loopEq ] at h
  exact ((Track.folds (get := (·.points)) (fun o x o' hs => (PolyLine.trackAll o x o' hs).1) h).drop rfl).collectedAll

/-- A repeated token with an unknown one in between. -/
example : (PolyLine.fromSexpr (.list [.str k!"polyline", .list [.str k!"uuid", .str k!"a"], .list [.str k!"zzz", .int 1], .list [.str k!"uuid", .str k!"b"]])).map (·.uuid) = .ok (some (.str k!"b")) := rfl

theorem C36_PolyLine {xs ys : List Val} (hr : Reordered [] xs ys) (o : PolyLine) :
    PolyLine.fromSexpr (.list (.str k!"polyline" :: xs)) = .ok o ↔ PolyLine.fromSexpr (.list (.str k!"polyline" :: ys)) = .ok o := by
  rw [PolyLine.loopEq , PolyLine.loopEq ]
  exact reordered_iff PolyLine.indep PolyLine.reordered (hr.cons _) o
example := C36_PolyLine (.swap [] [] [.int 1] [.int 2] k!"pts" k!"stroke" (by decide) (by decide))

theorem C10_PolyLine (xs ys : List Val) {u : Val} {r : List Val}
    (hu : ∀ k ∈ [k!"pts", k!"stroke", k!"uuid"], u ≠ .str k) :
    PolyLine.fromSexpr (.list (.str k!"polyline" :: (xs ++ .list (u :: r) :: ys))) =
    PolyLine.fromSexpr (.list (.str k!"polyline" :: (xs ++ ys))) := by
  rw [PolyLine.loopEq , PolyLine.loopEq ]
  exact forM_insert (PolyLine.unknown hu) _ (.str k!"polyline" :: xs) ys
example := C10_PolyLine [.list [.str k!"pts", .int 1]] [] (u := .str k!"zzz") (r := [.int 1]) (by simp)

theorem C37_Text (a1 : Val) (xs : List Val) (o : Text) (h : Text.fromSexpr (.list (.str k!"text" :: a1 :: xs)) = .ok o) :
    o.text = a1 ∧
    LastWins (tok k!"at") Position.fromSexpr xs ({} : Position) o.position ∧
    LastWins (tok k!"effects") Effects.fromSexpr xs ({} : Effects) o.effects ∧
    LastWins (tok k!"uuid") (fun i => do return some (← i.idx 1)) xs (none : Option Val) o.uuid := by
  rw [Text.loopEq a1] at h
  exact ⟨((Track.folds (get := (·.text)) (fun o x o' hs => (Text.trackAll o x o' hs).1) h)).const,
    ((Track.folds (get := (·.position)) (fun o x o' hs => (Text.trackAll o x o' hs).2.1) h)).last,
    ((Track.folds (get := (·.effects)) (fun o x o' hs => (Text.trackAll o x o' hs).2.2.1) h)).last,
    ((Track.folds (get := (·.uuid)) (fun o x o' hs => (Text.trackAll o x o' hs).2.2.2) h)).last⟩

/-- A repeated token with an unknown one in between. -/
example : (Text.fromSexpr (.list [.str k!"text", .str k!"x", .list [.str k!"uuid", .str k!"a"], .list [.str k!"zzz", .int 1], .list [.str k!"uuid", .str k!"b"]])).map (·.uuid) = .ok (some (.str k!"b")) := rfl

theorem C36_Text (a1 : Val) {xs ys : List Val} (hr : Reordered [] xs ys) (o : Text) :
    Text.fromSexpr (.list (.str k!"text" :: a1 :: xs)) = .ok o ↔ Text.fromSexpr (.list (.str k!"text" :: a1 :: ys)) = .ok o := by
  rw [Text.loopEq a1, Text.loopEq a1]
  exact reordered_iff Text.indep Text.reordered hr o
example := C36_Text (.str k!"x") (.swap [] [] [.int 1] [.int 2] k!"at" k!"effects" (by decide) (by decide))

theorem C10_Text (a1 : Val) (xs ys : List Val) {u : Val} {r : List Val}
    (hu : ∀ k ∈ [k!"at", k!"effects", k!"uuid"], u ≠ .str k) :
    Text.fromSexpr (.list (.str k!"text" :: a1 :: (xs ++ .list (u :: r) :: ys))) =
    Text.fromSexpr (.list (.str k!"text" :: a1 :: (xs ++ ys))) := by
  rw [Text.loopEq a1, Text.loopEq a1]
  exact forM_insert (Text.unknown hu) _ xs ys
example := C10_Text (.str k!"x") [.list [.str k!"at", .int 1]] [] (u := .str k!"zzz") (r := [.int 1]) (by simp)

theorem C37_TextBox (a1 : Val) (xs : List Val) (o : TextBox) (h : TextBox.fromSexpr (.list (.str k!"text_box" :: a1 :: xs)) = .ok o) :
    o.text = a1 ∧
    LastWins (tok k!"at") Position.fromSexpr xs ({} : Position) o.position ∧
    LastWins (tok k!"size") Position.fromSexpr xs ({} : Position) o.size ∧
    LastWins (tok k!"stroke") Stroke.fromSexpr xs ({} : Stroke) o.stroke ∧
    LastWins (tok k!"fill") Fill.fromSexpr xs ({} : Fill) o.fill ∧
    LastWins (tok k!"effects") Effects.fromSexpr xs ({} : Effects) o.effects ∧
    LastWins (tok k!"uuid") (fun i => do return some (← i.idx 1)) xs (none : Option Val) o.uuid := by
  rw [TextBox.loopEq a1] at h
  exact ⟨((Track.folds (get := (·.text)) (fun o x o' hs => (TextBox.trackAll o x o' hs).1) h)).const,
    ((Track.folds (get := (·.position)) (fun o x o' hs => (TextBox.trackAll o x o' hs).2.1) h)).last,
    ((Track.folds (get := (·.size)) (fun o x o' hs => (TextBox.trackAll o x o' hs).2.2.1) h)).last,
    ((Track.folds (get := (·.stroke)) (fun o x o' hs => (TextBox.trackAll o x o' hs).2.2.2.1) h)).last,
    ((Track.folds (get := (·.fill)) (fun o x o' hs => (TextBox.trackAll o x o' hs).2.2.2.2.1) h)).last,
    ((Track.folds (get := (·.effects)) (fun o x o' hs => (TextBox.trackAll o x o' hs).2.2.2.2.2.1) h)).last,
    ((Track.folds (get := (·.uuid)) (fun o x o' hs => (TextBox.trackAll o x o' hs).2.2.2.2.2.2) h)).last⟩

/-- A repeated token with an unknown one in between. -/
example : (TextBox.fromSexpr (.list [.str k!"text_box", .str k!"x", .list [.str k!"uuid", .str k!"a"], .list [.str k!"zzz", .int 1], .list [.str k!"uuid", .str k!"b"]])).map (·.uuid) = .ok (some (.str k!"b")) := rfl

theorem C36_TextBox (a1 : Val) {xs ys : List Val} (hr : Reordered [] xs ys) (o : TextBox) :
    TextBox.fromSexpr (.list (.str k!"text_box" :: a1 :: xs)) = .ok o ↔ TextBox.fromSexpr (.list (.str k!"text_box" :: a1 :: ys)) = .ok o := by
  rw [TextBox.loopEq a1, TextBox.loopEq a1]
  exact reordered_iff TextBox.indep TextBox.reordered hr o
example := C36_TextBox (.str k!"x") (.swap [] [] [.int 1] [.int 2] k!"at" k!"size" (by decide) (by decide))

theorem C10_TextBox (a1 : Val) (xs ys : List Val) {u : Val} {r : List Val}
    (hu : ∀ k ∈ [k!"at", k!"size", k!"effects", k!"stroke", k!"fill", k!"uuid"], u ≠ .str k) :
    TextBox.fromSexpr (.list (.str k!"text_box" :: a1 :: (xs ++ .list (u :: r) :: ys))) =
    TextBox.fromSexpr (.list (.str k!"text_box" :: a1 :: (xs ++ ys))) := by
  rw [TextBox.loopEq a1, TextBox.loopEq a1]
  exact forM_insert (TextBox.unknown hu) _ xs ys
example := C10_TextBox (.str k!"x") [.list [.str k!"at", .int 1]] [] (u := .str k!"zzz") (r := [.int 1]) (by simp)

theorem C37_LocalLabel (a1 : Val) (xs : List Val) (o : LocalLabel) (h : LocalLabel.fromSexpr (.list (.str k!"label" :: a1 :: xs)) = .ok o) :
    o.text = a1 ∧
    LastWins (tok k!"at") Position.fromSexpr xs ({} : Position) o.position ∧
    LastWins (tok k!"effects") Effects.fromSexpr xs ({} : Effects) o.effects ∧
    LastWins (tok k!"uuid") (fun i => do return some (← i.idx 1)) xs (none : Option Val) o.uuid ∧
    o.fieldsAutoplaced = xs.any (tok k!"fields_autoplaced") := by
  rw [LocalLabel.loopEq a1] at h
  exact ⟨((Track.folds (get := (·.text)) (fun o x o' hs => (LocalLabel.trackAll o x o' hs).1) h)).const,
    ((Track.folds (get := (·.position)) (fun o x o' hs => (LocalLabel.trackAll o x o' hs).2.1) h)).last,
    ((Track.folds (get := (·.effects)) (fun o x o' hs => (LocalLabel.trackAll o x o' hs).2.2.1) h)).last,
    ((Track.folds (get := (·.uuid)) (fun o x o' hs => (LocalLabel.trackAll o x o' hs).2.2.2.1) h)).last,
    ((Track.folds (get := (·.fieldsAutoplaced)) (fun o x o' hs => (LocalLabel.trackAll o x o' hs).2.2.2.2) h)).flag⟩

/-- A repeated token with an unknown one in between. -/
example : (LocalLabel.fromSexpr (.list [.str k!"label", .str k!"x", .list [.str k!"uuid", .str k!"a"], .list [.str k!"zzz", .int 1], .list [.str k!"uuid", .str k!"b"]])).map (·.uuid) = .ok (some (.str k!"b")) := rfl

theorem C36_LocalLabel (a1 : Val) {xs ys : List Val} (hr : Reordered [] xs ys) (o : LocalLabel) :
    LocalLabel.fromSexpr (.list (.str k!"label" :: a1 :: xs)) = .ok o ↔ LocalLabel.fromSexpr (.list (.str k!"label" :: a1 :: ys)) = .ok o := by
  rw [LocalLabel.loopEq a1, LocalLabel.loopEq a1]
  exact reordered_iff LocalLabel.indep LocalLabel.reordered hr o
example := C36_LocalLabel (.str k!"x") (.swap [] [] [.int 1] [.int 2] k!"at" k!"effects" (by decide) (by decide))

theorem C10_LocalLabel (a1 : Val) (xs ys : List Val) {u : Val} {r : List Val}
    (hu : ∀ k ∈ [k!"at", k!"effects", k!"uuid", k!"fields_autoplaced"], u ≠ .str k) :
    LocalLabel.fromSexpr (.list (.str k!"label" :: a1 :: (xs ++ .list (u :: r) :: ys))) =
    LocalLabel.fromSexpr (.list (.str k!"label" :: a1 :: (xs ++ ys))) := by
  rw [LocalLabel.loopEq a1, LocalLabel.loopEq a1]
  exact forM_insert (LocalLabel.unknown hu) _ xs ys
example := C10_LocalLabel (.str k!"x") [.list [.str k!"at", .int 1]] [] (u := .str k!"zzz") (r := [.int 1]) (by simp)

theorem C37_GlobalLabel (a1 : Val) (xs : List Val) (o : GlobalLabel) (h : GlobalLabel.fromSexpr (.list (.str k!"global_label" :: a1 :: xs)) = .ok o) :
    o.text = a1 ∧
    LastWins (tok k!"shape") (·.idx 1) xs (st k!"input" : Val) o.shape ∧
    o.fieldsAutoplaced = xs.any (tok k!"fields_autoplaced") ∧
    LastWins (tok k!"at") Position.fromSexpr xs ({} : Position) o.position ∧
    LastWins (tok k!"effects") Effects.fromSexpr xs ({} : Effects) o.effects ∧
    LastWins (tok k!"uuid") (fun i => do return some (← i.idx 1)) xs (none : Option Val) o.uuid := by
  rw [GlobalLabel.loopEq a1] at h
  exact ⟨((Track.folds (get := (·.text)) (fun o x o' hs => (GlobalLabel.trackAll o x o' hs).1) h)).const,
    ((Track.folds (get := (·.shape)) (fun o x o' hs => (GlobalLabel.trackAll o x o' hs).2.1) h)).last,
    ((Track.folds (get := (·.fieldsAutoplaced)) (fun o x o' hs => (GlobalLabel.trackAll o x o' hs).2.2.1) h)).flag,
    ((Track.folds (get := (·.position)) (fun o x o' hs => (GlobalLabel.trackAll o x o' hs).2.2.2.1) h)).last,
    ((Track.folds (get := (·.effects)) (fun o x o' hs => (GlobalLabel.trackAll o x o' hs).2.2.2.2.1) h)).last,
    ((Track.folds (get := (·.uuid)) (fun o x o' hs => (GlobalLabel.trackAll o x o' hs).2.2.2.2.2.1) h)).last⟩
example := C37_GlobalLabel (.str k!"x") [.list [.str k!"shape", .str k!"a"]] _ rfl

theorem C11_GlobalLabel (a1 : Val) (xs : List Val) (o : GlobalLabel) (h : GlobalLabel.fromSexpr (.list (.str k!"global_label" :: a1 :: xs)) = .ok o) :
    Collected (tok k!"property") Property.fromSexpr xs o.properties := by
  rw [GlobalLabel.loopEq a1] at h
  exact ((Track.folds (get := (·.properties)) (fun o x o' hs => (GlobalLabel.trackAll o x o' hs).2.2.2.2.2.2) h)).collected

/-- A repeated token with an unknown one in between. -/
example : (GlobalLabel.fromSexpr (.list [.str k!"global_label", .str k!"x", .list [.str k!"shape", .str k!"a"], .list [.str k!"zzz", .int 1], .list [.str k!"shape", .str k!"b"]])).map (·.shape) = .ok (.str k!"b") := rfl

theorem C36_GlobalLabel (a1 : Val) {xs ys : List Val} (hr : Reordered [] xs ys) (o : GlobalLabel) :
    GlobalLabel.fromSexpr (.list (.str k!"global_label" :: a1 :: xs)) = .ok o ↔ GlobalLabel.fromSexpr (.list (.str k!"global_label" :: a1 :: ys)) = .ok o := by
  rw [GlobalLabel.loopEq a1, GlobalLabel.loopEq a1]
  exact reordered_iff GlobalLabel.indep GlobalLabel.reordered hr o
example := C36_GlobalLabel (.str k!"x") (.swap [] [] [.int 1] [.int 2] k!"fields_autoplaced" k!"at" (by decide) (by decide))

theorem C10_GlobalLabel (a1 : Val) (xs ys : List Val) {u : Val} {r : List Val}
    (hu : ∀ k ∈ [k!"fields_autoplaced", k!"at", k!"effects", k!"property", k!"shape", k!"uuid"], u ≠ .str k) :
    GlobalLabel.fromSexpr (.list (.str k!"global_label" :: a1 :: (xs ++ .list (u :: r) :: ys))) =
    GlobalLabel.fromSexpr (.list (.str k!"global_label" :: a1 :: (xs ++ ys))) := by
  rw [GlobalLabel.loopEq a1, GlobalLabel.loopEq a1]
  exact forM_insert (GlobalLabel.unknown hu) _ xs ys
example := C10_GlobalLabel (.str k!"x") [.list [.str k!"fields_autoplaced", .int 1]] [] (u := .str k!"zzz") (r := [.int 1]) (by simp)

theorem C37_HierarchicalLabel (a1 : Val) (xs : List Val) (o : HierarchicalLabel) (h : HierarchicalLabel.fromSexpr (.list (.str k!"hierarchical_label" :: a1 :: xs)) = .ok o) :
    o.text = a1 ∧
    LastWins (tok k!"shape") (·.idx 1) xs (st k!"input" : Val) o.shape ∧
    LastWins (tok k!"at") Position.fromSexpr xs ({} : Position) o.position ∧
    LastWins (tok k!"effects") Effects.fromSexpr xs ({} : Effects) o.effects ∧
    LastWins (tok k!"uuid") (fun i => do return some (← i.idx 1)) xs (none : Option Val) o.uuid ∧
    o.fieldsAutoplaced = xs.any (tok k!"fields_autoplaced") := by
  rw [HierarchicalLabel.loopEq a1] at h
  exact ⟨((Track.folds (get := (·.text)) (fun o x o' hs => (HierarchicalLabel.trackAll o x o' hs).1) h)).const,
    ((Track.folds (get := (·.shape)) (fun o x o' hs => (HierarchicalLabel.trackAll o x o' hs).2.1) h)).last,
    ((Track.folds (get := (·.position)) (fun o x o' hs => (HierarchicalLabel.trackAll o x o' hs).2.2.1) h)).last,
    ((Track.folds (get := (·.effects)) (fun o x o' hs => (HierarchicalLabel.trackAll o x o' hs).2.2.2.1) h)).last,
    ((Track.folds (get := (·.uuid)) (fun o x o' hs => (HierarchicalLabel.trackAll o x o' hs).2.2.2.2.1) h)).last,
    ((Track.folds (get := (·.fieldsAutoplaced)) (fun o x o' hs => (HierarchicalLabel.trackAll o x o' hs).2.2.2.2.2) h)).flag⟩

/-- A repeated token with an unknown one in between. -/
example : (HierarchicalLabel.fromSexpr (.list [.str k!"hierarchical_label", .str k!"x", .list [.str k!"shape", .str k!"a"], .list [.str k!"zzz", .int 1], .list [.str k!"shape", .str k!"b"]])).map (·.shape) = .ok (.str k!"b") := rfl

theorem C36_HierarchicalLabel (a1 : Val) {xs ys : List Val} (hr : Reordered [] xs ys) (o : HierarchicalLabel) :
    HierarchicalLabel.fromSexpr (.list (.str k!"hierarchical_label" :: a1 :: xs)) = .ok o ↔ HierarchicalLabel.fromSexpr (.list (.str k!"hierarchical_label" :: a1 :: ys)) = .ok o := by
  rw [HierarchicalLabel.loopEq a1, HierarchicalLabel.loopEq a1]
  exact reordered_iff HierarchicalLabel.indep HierarchicalLabel.reordered hr o
example := C36_HierarchicalLabel (.str k!"x") (.swap [] [] [.int 1] [.int 2] k!"at" k!"effects" (by decide) (by decide))

theorem C10_HierarchicalLabel (a1 : Val) (xs ys : List Val) {u : Val} {r : List Val}
    (hu : ∀ k ∈ [k!"at", k!"effects", k!"shape", k!"uuid", k!"fields_autoplaced"], u ≠ .str k) :
    HierarchicalLabel.fromSexpr (.list (.str k!"hierarchical_label" :: a1 :: (xs ++ .list (u :: r) :: ys))) =
    HierarchicalLabel.fromSexpr (.list (.str k!"hierarchical_label" :: a1 :: (xs ++ ys))) := by
  rw [HierarchicalLabel.loopEq a1, HierarchicalLabel.loopEq a1]
  exact forM_insert (HierarchicalLabel.unknown hu) _ xs ys
example := C10_HierarchicalLabel (.str k!"x") [.list [.str k!"at", .int 1]] [] (u := .str k!"zzz") (r := [.int 1]) (by simp)

theorem C37_SymbolProjectPath (a : Val) (xs : List Val) (o : SymbolProjectPath) (h : SymbolProjectPath.fromSexpr (.list (.str k!"path" :: a :: xs)) = .ok o) :
    o.sheetInstancePath = a ∧
    LastWins (tok k!"reference") (·.idx 1) xs (st k!"" : Val) o.reference ∧
    LastWins (tok k!"unit") (·.idx 1) xs (.int 1 : Val) o.unit := by
  rw [SymbolProjectPath.loopEq a] at h
  exact ⟨((Track.folds (get := (·.sheetInstancePath)) (fun o x o' hs => (SymbolProjectPath.trackAll o x o' hs).1) h)).const,
    ((Track.folds (get := (·.reference)) (fun o x o' hs => (SymbolProjectPath.trackAll o x o' hs).2.1) h)).last,
    ((Track.folds (get := (·.unit)) (fun o x o' hs => (SymbolProjectPath.trackAll o x o' hs).2.2) h)).last⟩

/-- A repeated token with an unknown one in between. -/
example : (SymbolProjectPath.fromSexpr (.list [.str k!"path", .str k!"x", .list [.str k!"reference", .str k!"a"], .list [.str k!"zzz", .int 1], .list [.str k!"reference", .str k!"b"]])).map (·.reference) = .ok (.str k!"b") := rfl

theorem C36_SymbolProjectPath (a : Val) {xs ys : List Val} (hr : Reordered [] xs ys) (o : SymbolProjectPath) :
    SymbolProjectPath.fromSexpr (.list (.str k!"path" :: a :: xs)) = .ok o ↔ SymbolProjectPath.fromSexpr (.list (.str k!"path" :: a :: ys)) = .ok o := by
  rw [SymbolProjectPath.loopEq a, SymbolProjectPath.loopEq a]
  exact reordered_iff SymbolProjectPath.indep SymbolProjectPath.reordered hr o
example := C36_SymbolProjectPath (.str k!"x") (.swap [] [] [.int 1] [.int 2] k!"reference" k!"unit" (by decide) (by decide))

theorem C10_SymbolProjectPath (a : Val) (xs ys : List Val) {u : Val} {r : List Val}
    (hu : ∀ k ∈ [k!"reference", k!"unit"], u ≠ .str k) :
    SymbolProjectPath.fromSexpr (.list (.str k!"path" :: a :: (xs ++ .list (u :: r) :: ys))) =
    SymbolProjectPath.fromSexpr (.list (.str k!"path" :: a :: (xs ++ ys))) := by
  rw [SymbolProjectPath.loopEq a, SymbolProjectPath.loopEq a]
  exact forM_insert (SymbolProjectPath.unknown hu) _ xs ys
example := C10_SymbolProjectPath (.str k!"x") [.list [.str k!"reference", .int 1]] [] (u := .str k!"zzz") (r := [.int 1]) (by simp)

theorem C37_SymbolProjectInstance (a : Val) (xs : List Val) (o : SymbolProjectInstance) (h : SymbolProjectInstance.fromSexpr (.list (.str k!"project" :: a :: xs)) = .ok o) :
    o.name = a := by
  rw [SymbolProjectInstance.loopEq a] at h
  exact ((Track.folds (get := (·.name)) (fun o x o' hs => (SymbolProjectInstance.trackAll o x o' hs).1) h)).const
example := C37_SymbolProjectInstance (.str k!"x") [.list [.str k!"zzz", .int 1]] _ rfl

theorem C11_SymbolProjectInstance (a : Val) (xs : List Val) (o : SymbolProjectInstance) (h : SymbolProjectInstance.fromSexpr (.list (.str k!"project" :: a :: xs)) = .ok o) :
    Collected (tok k!"path") SymbolProjectPath.fromSexpr xs o.paths := by
  rw [SymbolProjectInstance.loopEq a] at h
  exact ((Track.folds (get := (·.paths)) (fun o x o' hs => (SymbolProjectInstance.trackAll o x o' hs).2) h)).collected
example := C11_SymbolProjectInstance (.str k!"x") [.list [.str k!"zzz", .int 1]] _ rfl

theorem C36_SymbolProjectInstance (a : Val) {xs ys : List Val} (hr : Reordered [] xs ys) (o : SymbolProjectInstance) :
    SymbolProjectInstance.fromSexpr (.list (.str k!"project" :: a :: xs)) = .ok o ↔ SymbolProjectInstance.fromSexpr (.list (.str k!"project" :: a :: ys)) = .ok o := by
  rw [SymbolProjectInstance.loopEq a, SymbolProjectInstance.loopEq a]
  exact reordered_iff SymbolProjectInstance.indep SymbolProjectInstance.reordered hr o
example := C36_SymbolProjectInstance (.str k!"x") (.swap [] [] [.int 1] [.int 2] k!"path" k!"zzz" (by decide) (by decide))

theorem C10_SymbolProjectInstance (a : Val) (xs ys : List Val) {u : Val} {r : List Val}
    (hu : ∀ k ∈ [k!"path"], u ≠ .str k) :
    SymbolProjectInstance.fromSexpr (.list (.str k!"project" :: a :: (xs ++ .list (u :: r) :: ys))) =
    SymbolProjectInstance.fromSexpr (.list (.str k!"project" :: a :: (xs ++ ys))) := by
  rw [SymbolProjectInstance.loopEq a, SymbolProjectInstance.loopEq a]
  exact forM_insert (SymbolProjectInstance.unknown hu) _ xs ys
example := C10_SymbolProjectInstance (.str k!"x") [.list [.str k!"path", .int 1]] [] (u := .str k!"zzz") (r := [.int 1]) (by simp)

theorem C37_SchematicSymbol (xs : List Val) (o : SchematicSymbol) (h : SchematicSymbol.fromSexpr (.list (.str k!"symbol" :: xs)) = .ok o) :
    LastWins (tok k!"lib_id") (fun i => do return (← SchematicSymbol.setLibId {} (← i.idx 1)).libraryNickname) xs (none : Option Val) o.libraryNickname ∧
    LastWins (tok k!"lib_id") (fun i => do return (← SchematicSymbol.setLibId {} (← i.idx 1)).entryName) xs (none : Option Val) o.entryName ∧
    LastWins (tok k!"lib_name") (fun i => do return some (← i.idx 1)) xs (none : Option Val) o.libName ∧
    LastWins (tok k!"at") Position.fromSexpr xs ({} : Position) o.position ∧
    LastWins (tok k!"unit") (fun i => do return some (← i.idx 1)) xs (none : Option Val) o.unit ∧
    LastWins (tok k!"in_bom") (fun i => do return (← i.idx 1).is k!"yes") xs (false : Bool) o.inBom ∧
    LastWins (tok k!"on_board") (fun i => do return (← i.idx 1).is k!"yes") xs (false : Bool) o.onBoard ∧
    LastWins (tok k!"dnp") (fun i => do return some ((← i.idx 1).is k!"yes")) xs (none : Option Bool) o.dnp ∧
    o.fieldsAutoplaced = xs.any (tok k!"fields_autoplaced") ∧
    LastWins (tok k!"uuid") (fun i => do return some (← i.idx 1)) xs (some (st k!"") : Option Val) o.uuid ∧
    FoldsTo (tok k!"pin") (fun acc i => do let n ← i.idx 1; let u ← (← i.idx 2).idx 1; Dict.update acc n u) xs ([] : Dict Val) o.pins ∧
    LastWins (tok k!"mirror") (fun i => do return some (← i.idx 1)) xs (none : Option Val) o.mirror := by
  rw [SchematicSymbol.loopEq ] at h
  exact ⟨((Track.folds (get := (·.libraryNickname)) (fun o x o' hs => (SchematicSymbol.trackAll o x o' hs).1) h)).last,
    ((Track.folds (get := (·.entryName)) (fun o x o' hs => (SchematicSymbol.trackAll o x o' hs).2.1) h)).last,
    ((Track.folds (get := (·.libName)) (fun o x o' hs => (SchematicSymbol.trackAll o x o' hs).2.2.1) h)).last,
    ((Track.folds (get := (·.position)) (fun o x o' hs => (SchematicSymbol.trackAll o x o' hs).2.2.2.1) h)).last,
    ((Track.folds (get := (·.unit)) (fun o x o' hs => (SchematicSymbol.trackAll o x o' hs).2.2.2.2.1) h)).last,
    ((Track.folds (get := (·.inBom)) (fun o x o' hs => (SchematicSymbol.trackAll o x o' hs).2.2.2.2.2.1) h)).last,
    ((Track.folds (get := (·.onBoard)) (fun o x o' hs => (SchematicSymbol.trackAll o x o' hs).2.2.2.2.2.2.1) h)).last,
    ((Track.folds (get := (·.dnp)) (fun o x o' hs => (SchematicSymbol.trackAll o x o' hs).2.2.2.2.2.2.2.1) h)).last,
    ((Track.folds (get := (·.fieldsAutoplaced)) (fun o x o' hs => (SchematicSymbol.trackAll o x o' hs).2.2.2.2.2.2.2.2.1) h)).flag,
    ((Track.folds (get := (·.uuid)) (fun o x o' hs => (SchematicSymbol.trackAll o x o' hs).2.2.2.2.2.2.2.2.2.1) h)).last,
    ((Track.folds (get := (·.pins)) (fun o x o' hs => (SchematicSymbol.trackAll o x o' hs).2.2.2.2.2.2.2.2.2.2.2.1) h)),
    ((Track.folds (get := (·.mirror)) (fun o x o' hs => (SchematicSymbol.trackAll o x o' hs).2.2.2.2.2.2.2.2.2.2.2.2.1) h)).last⟩
example := C37_SchematicSymbol [.list [.str k!"lib_name", .str k!"a"]] _ rfl

theorem C11_SchematicSymbol (xs : List Val) (o : SchematicSymbol) (h : SchematicSymbol.fromSexpr (.list (.str k!"symbol" :: xs)) = .ok o) :
    Collected (tok k!"property") Property.fromSexpr xs o.properties ∧
    CollectedAll (tok k!"instances") (fun i => do mapM' SymbolProjectInstance.fromSexpr (← i.slice 1)) xs o.instances := by
  rw [SchematicSymbol.loopEq ] at h
  exact ⟨((Track.folds (get := (·.properties)) (fun o x o' hs => (SchematicSymbol.trackAll o x o' hs).2.2.2.2.2.2.2.2.2.2.1) h)).collected,
    ((Track.folds (get := (·.instances)) (fun o x o' hs => (SchematicSymbol.trackAll o x o' hs).2.2.2.2.2.2.2.2.2.2.2.2.2) h)).collectedAll⟩

/-- A repeated token with an unknown one in between. -/
example : (SchematicSymbol.fromSexpr (.list [.str k!"symbol", .list [.str k!"lib_name", .str k!"a"], .list [.str k!"zzz", .int 1], .list [.str k!"lib_name", .str k!"b"]])).map (·.libName) = .ok (some (.str k!"b")) := rfl

theorem C36_SchematicSymbol {xs ys : List Val} (hr : Reordered [] xs ys) (o : SchematicSymbol) :
    SchematicSymbol.fromSexpr (.list (.str k!"symbol" :: xs)) = .ok o ↔ SchematicSymbol.fromSexpr (.list (.str k!"symbol" :: ys)) = .ok o := by
  rw [SchematicSymbol.loopEq , SchematicSymbol.loopEq ]
  exact reordered_iff SchematicSymbol.indep SchematicSymbol.reordered hr o
example := C36_SchematicSymbol (.swap [] [] [.int 1] [.int 2] k!"fields_autoplaced" k!"lib_id" (by decide) (by decide))

theorem C10_SchematicSymbol (xs ys : List Val) {u : Val} {r : List Val}
    (hu : ∀ k ∈ [k!"fields_autoplaced", k!"lib_id", k!"lib_name", k!"uuid", k!"unit", k!"in_bom", k!"on_board", k!"dnp", k!"at", k!"property", k!"pin", k!"mirror", k!"instances"], u ≠ .str k) :
    SchematicSymbol.fromSexpr (.list (.str k!"symbol" :: (xs ++ .list (u :: r) :: ys))) =
    SchematicSymbol.fromSexpr (.list (.str k!"symbol" :: (xs ++ ys))) := by
  rw [SchematicSymbol.loopEq , SchematicSymbol.loopEq ]
  exact forM_insert (SchematicSymbol.unknown hu) _ xs ys
example := C10_SchematicSymbol [.list [.str k!"fields_autoplaced", .int 1]] [] (u := .str k!"zzz") (r := [.int 1]) (by simp)

theorem C37_HierarchicalPin (a1 a2 : Val) (xs : List Val) (o : HierarchicalPin) (h : HierarchicalPin.fromSexpr (.list (.str k!"pin" :: a1 :: a2 :: xs)) = .ok o) :
    o.name = a1 ∧
    o.connectionType = a2 ∧
    LastWins (tok k!"at") Position.fromSexpr xs ({} : Position) o.position ∧
    LastWins (tok k!"effects") Effects.fromSexpr xs ({} : Effects) o.effects ∧
    LastWins (tok k!"uuid") (fun i => do return some (← i.idx 1)) xs (none : Option Val) o.uuid := by
  rw [HierarchicalPin.loopEq a1 a2] at h
  exact ⟨((Track.folds (get := (·.name)) (fun o x o' hs => (HierarchicalPin.trackAll o x o' hs).1) h)).const,
    ((Track.folds (get := (·.connectionType)) (fun o x o' hs => (HierarchicalPin.trackAll o x o' hs).2.1) h)).const,
    ((Track.folds (get := (·.position)) (fun o x o' hs => (HierarchicalPin.trackAll o x o' hs).2.2.1) h)).last,
    ((Track.folds (get := (·.effects)) (fun o x o' hs => (HierarchicalPin.trackAll o x o' hs).2.2.2.1) h)).last,
    ((Track.folds (get := (·.uuid)) (fun o x o' hs => (HierarchicalPin.trackAll o x o' hs).2.2.2.2) h)).last⟩

/-- A repeated token with an unknown one in between. -/
example : (HierarchicalPin.fromSexpr (.list [.str k!"pin", .str k!"x", .str k!"x", .list [.str k!"uuid", .str k!"a"], .list [.str k!"zzz", .int 1], .list [.str k!"uuid", .str k!"b"]])).map (·.uuid) = .ok (some (.str k!"b")) := rfl

theorem C36_HierarchicalPin (a1 a2 : Val) {xs ys : List Val} (hr : Reordered [] xs ys) (o : HierarchicalPin) :
    HierarchicalPin.fromSexpr (.list (.str k!"pin" :: a1 :: a2 :: xs)) = .ok o ↔ HierarchicalPin.fromSexpr (.list (.str k!"pin" :: a1 :: a2 :: ys)) = .ok o := by
  rw [HierarchicalPin.loopEq a1 a2, HierarchicalPin.loopEq a1 a2]
  exact reordered_iff HierarchicalPin.indep HierarchicalPin.reordered hr o
example := C36_HierarchicalPin (.str k!"x") (.str k!"x") (.swap [] [] [.int 1] [.int 2] k!"at" k!"effects" (by decide) (by decide))

theorem C10_HierarchicalPin (a1 a2 : Val) (xs ys : List Val) {u : Val} {r : List Val}
    (hu : ∀ k ∈ [k!"at", k!"effects", k!"uuid"], u ≠ .str k) :
    HierarchicalPin.fromSexpr (.list (.str k!"pin" :: a1 :: a2 :: (xs ++ .list (u :: r) :: ys))) =
    HierarchicalPin.fromSexpr (.list (.str k!"pin" :: a1 :: a2 :: (xs ++ ys))) := by
  rw [HierarchicalPin.loopEq a1 a2, HierarchicalPin.loopEq a1 a2]
  exact forM_insert (HierarchicalPin.unknown hu) _ xs ys
example := C10_HierarchicalPin (.str k!"x") (.str k!"x") [.list [.str k!"at", .int 1]] [] (u := .str k!"zzz") (r := [.int 1]) (by simp)

theorem C37_HierarchicalSheetProjectPath (a : Val) (xs : List Val) (o : HierarchicalSheetProjectPath) (h : HierarchicalSheetProjectPath.fromSexpr (.list (.str k!"path" :: a :: xs)) = .ok o) :
    o.sheetInstancePath = a ∧
    LastWins (tok k!"page") (·.idx 1) xs (st k!"" : Val) o.page := by
  rw [HierarchicalSheetProjectPath.loopEq a] at h
  exact ⟨((Track.folds (get := (·.sheetInstancePath)) (fun o x o' hs => (HierarchicalSheetProjectPath.trackAll o x o' hs).1) h)).const,
    ((Track.folds (get := (·.page)) (fun o x o' hs => (HierarchicalSheetProjectPath.trackAll o x o' hs).2) h)).last⟩

/-- A repeated token with an unknown one in between. -/
example : (HierarchicalSheetProjectPath.fromSexpr (.list [.str k!"path", .str k!"x", .list [.str k!"page", .str k!"a"], .list [.str k!"zzz", .int 1], .list [.str k!"page", .str k!"b"]])).map (·.page) = .ok (.str k!"b") := rfl

theorem C36_HierarchicalSheetProjectPath (a : Val) {xs ys : List Val} (hr : Reordered [] xs ys) (o : HierarchicalSheetProjectPath) :
    HierarchicalSheetProjectPath.fromSexpr (.list (.str k!"path" :: a :: xs)) = .ok o ↔ HierarchicalSheetProjectPath.fromSexpr (.list (.str k!"path" :: a :: ys)) = .ok o := by
  rw [HierarchicalSheetProjectPath.loopEq a, HierarchicalSheetProjectPath.loopEq a]
  exact reordered_iff HierarchicalSheetProjectPath.indep HierarchicalSheetProjectPath.reordered hr o
example := C36_HierarchicalSheetProjectPath (.str k!"x") (.swap [] [] [.int 1] [.int 2] k!"page" k!"zzz" (by decide) (by decide))

theorem C10_HierarchicalSheetProjectPath (a : Val) (xs ys : List Val) {u : Val} {r : List Val}
    (hu : ∀ k ∈ [k!"page"], u ≠ .str k) :
    HierarchicalSheetProjectPath.fromSexpr (.list (.str k!"path" :: a :: (xs ++ .list (u :: r) :: ys))) =
    HierarchicalSheetProjectPath.fromSexpr (.list (.str k!"path" :: a :: (xs ++ ys))) := by
  rw [HierarchicalSheetProjectPath.loopEq a, HierarchicalSheetProjectPath.loopEq a]
  exact forM_insert (HierarchicalSheetProjectPath.unknown hu) _ xs ys
example := C10_HierarchicalSheetProjectPath (.str k!"x") [.list [.str k!"page", .int 1]] [] (u := .str k!"zzz") (r := [.int 1]) (by simp)

theorem C37_HierarchicalSheetProjectInstance (a : Val) (xs : List Val) (o : HierarchicalSheetProjectInstance) (h : HierarchicalSheetProjectInstance.fromSexpr (.list (.str k!"project" :: a :: xs)) = .ok o) :
    o.name = a := by
  rw [HierarchicalSheetProjectInstance.loopEq a] at h
  exact ((Track.folds (get := (·.name)) (fun o x o' hs => (HierarchicalSheetProjectInstance.trackAll o x o' hs).1) h)).const
example := C37_HierarchicalSheetProjectInstance (.str k!"x") [.list [.str k!"zzz", .int 1]] _ rfl

theorem C11_HierarchicalSheetProjectInstance (a : Val) (xs : List Val) (o : HierarchicalSheetProjectInstance) (h : HierarchicalSheetProjectInstance.fromSexpr (.list (.str k!"project" :: a :: xs)) = .ok o) :
    Collected (tok k!"path") HierarchicalSheetProjectPath.fromSexpr xs o.paths := by
  rw [HierarchicalSheetProjectInstance.loopEq a] at h
  exact ((Track.folds (get := (·.paths)) (fun o x o' hs => (HierarchicalSheetProjectInstance.trackAll o x o' hs).2) h)).collected
example := C11_HierarchicalSheetProjectInstance (.str k!"x") [.list [.str k!"zzz", .int 1]] _ rfl

theorem C36_HierarchicalSheetProjectInstance (a : Val) {xs ys : List Val} (hr : Reordered [] xs ys) (o : HierarchicalSheetProjectInstance) :
    HierarchicalSheetProjectInstance.fromSexpr (.list (.str k!"project" :: a :: xs)) = .ok o ↔ HierarchicalSheetProjectInstance.fromSexpr (.list (.str k!"project" :: a :: ys)) = .ok o := by
  rw [HierarchicalSheetProjectInstance.loopEq a, HierarchicalSheetProjectInstance.loopEq a]
  exact reordered_iff HierarchicalSheetProjectInstance.indep HierarchicalSheetProjectInstance.reordered hr o
example := C36_HierarchicalSheetProjectInstance (.str k!"x") (.swap [] [] [.int 1] [.int 2] k!"path" k!"zzz" (by decide) (by decide))

theorem C10_HierarchicalSheetProjectInstance (a : Val) (xs ys : List Val) {u : Val} {r : List Val}
    (hu : ∀ k ∈ [k!"path"], u ≠ .str k) :
    HierarchicalSheetProjectInstance.fromSexpr (.list (.str k!"project" :: a :: (xs ++ .list (u :: r) :: ys))) =
    HierarchicalSheetProjectInstance.fromSexpr (.list (.str k!"project" :: a :: (xs ++ ys))) := by
  rw [HierarchicalSheetProjectInstance.loopEq a, HierarchicalSheetProjectInstance.loopEq a]
  exact forM_insert (HierarchicalSheetProjectInstance.unknown hu) _ xs ys
example := C10_HierarchicalSheetProjectInstance (.str k!"x") [.list [.str k!"path", .int 1]] [] (u := .str k!"zzz") (r := [.int 1]) (by simp)

theorem C37_HierarchicalSheet (xs : List Val) (o : HierarchicalSheet) (h : HierarchicalSheet.fromSexpr (.list (.str k!"sheet" :: xs)) = .ok o) :
    LastWins (tok k!"at") Position.fromSexpr xs ({} : Position) o.position ∧
    LastWins (tok k!"size") (·.idx 1) xs (.int 0 : Val) o.width ∧
    LastWins (tok k!"size") (·.idx 2) xs (.int 0 : Val) o.height ∧
    o.fieldsAutoplaced = xs.any (tok k!"fields_autoplaced") ∧
    LastWins (tok k!"stroke") Stroke.fromSexpr xs ({} : Stroke) o.stroke ∧
    LastWins (tok k!"fill") (fun i => do let c ← ColorRGBA.fromSexpr (← i.idx 1); return { c with precision := some 4 }) xs ({} : ColorRGBA) o.fill ∧
    LastWins (tok k!"uuid") (fun i => do return some (← i.idx 1)) xs (none : Option Val) o.uuid ∧
    FoldsTo (tok k!"property") (fun acc i => do let p ← Property.fromSexpr i; let n ← i.idx 1; if n.is k!"Sheet name" || n.is k!"Sheetname" then return p else return acc) xs ({ key := st k!"Sheet name" } : Property) o.sheetName ∧
    FoldsTo (tok k!"property") (fun acc i => do let p ← Property.fromSexpr i; let n ← i.idx 1; if n.is k!"Sheet name" || n.is k!"Sheetname" then return acc else if n.is k!"Sheet file" || n.is k!"Sheetfile" then return p else return acc) xs ({ key := st k!"Sheet file" } : Property) o.fileName ∧
    FoldsTo (tok k!"property") (fun acc i => do let p ← Property.fromSexpr i; let n ← i.idx 1; if n.is k!"Sheet name" || n.is k!"Sheetname" then return acc else if n.is k!"Sheet file" || n.is k!"Sheetfile" then return acc else return acc ++ [p]) xs ([] : List Property) o.properties := by
  rw [HierarchicalSheet.loopEq ] at h
  exact ⟨((Track.folds (get := (·.position)) (fun o x o' hs => (HierarchicalSheet.trackAll o x o' hs).1) h)).last,
    ((Track.folds (get := (·.width)) (fun o x o' hs => (HierarchicalSheet.trackAll o x o' hs).2.1) h)).last,
    ((Track.folds (get := (·.height)) (fun o x o' hs => (HierarchicalSheet.trackAll o x o' hs).2.2.1) h)).last,
    ((Track.folds (get := (·.fieldsAutoplaced)) (fun o x o' hs => (HierarchicalSheet.trackAll o x o' hs).2.2.2.1) h)).flag,
    ((Track.folds (get := (·.stroke)) (fun o x o' hs => (HierarchicalSheet.trackAll o x o' hs).2.2.2.2.1) h)).last,
    ((Track.folds (get := (·.fill)) (fun o x o' hs => (HierarchicalSheet.trackAll o x o' hs).2.2.2.2.2.1) h)).last,
    ((Track.folds (get := (·.uuid)) (fun o x o' hs => (HierarchicalSheet.trackAll o x o' hs).2.2.2.2.2.2.1) h)).last,
    ((Track.folds (get := (·.sheetName)) (fun o x o' hs => (HierarchicalSheet.trackAll o x o' hs).2.2.2.2.2.2.2.1) h)),
    ((Track.folds (get := (·.fileName)) (fun o x o' hs => (HierarchicalSheet.trackAll o x o' hs).2.2.2.2.2.2.2.2.1) h)),
    ((Track.folds (get := (·.properties)) (fun o x o' hs => (HierarchicalSheet.trackAll o x o' hs).2.2.2.2.2.2.2.2.2.1) h))⟩
example := C37_HierarchicalSheet [.list [.str k!"size", .int 3, .int 4]] _ rfl

theorem C11_HierarchicalSheet (xs : List Val) (o : HierarchicalSheet) (h : HierarchicalSheet.fromSexpr (.list (.str k!"sheet" :: xs)) = .ok o) :
    Collected (tok k!"pin") HierarchicalPin.fromSexpr xs o.pins ∧
    CollectedAll (tok k!"instances") (fun i => do mapM' HierarchicalSheetProjectInstance.fromSexpr (← i.slice 1)) xs o.instances := by
  rw [HierarchicalSheet.loopEq ] at h
  exact ⟨((Track.folds (get := (·.pins)) (fun o x o' hs => (HierarchicalSheet.trackAll o x o' hs).2.2.2.2.2.2.2.2.2.2.1) h)).collected,
    ((Track.folds (get := (·.instances)) (fun o x o' hs => (HierarchicalSheet.trackAll o x o' hs).2.2.2.2.2.2.2.2.2.2.2) h)).collectedAll⟩

/-- A repeated token with an unknown one in between. -/
example : (HierarchicalSheet.fromSexpr (.list [.str k!"sheet", .list [.str k!"uuid", .str k!"a"], .list [.str k!"zzz", .int 1], .list [.str k!"uuid", .str k!"b"]])).map (·.uuid) = .ok (some (.str k!"b")) := rfl

theorem C36_HierarchicalSheet {xs ys : List Val} (hr : Reordered [] xs ys) (o : HierarchicalSheet) :
    HierarchicalSheet.fromSexpr (.list (.str k!"sheet" :: xs)) = .ok o ↔ HierarchicalSheet.fromSexpr (.list (.str k!"sheet" :: ys)) = .ok o := by
  rw [HierarchicalSheet.loopEq , HierarchicalSheet.loopEq ]
  exact reordered_iff HierarchicalSheet.indep HierarchicalSheet.reordered hr o
example := C36_HierarchicalSheet (.swap [] [] [.int 1] [.int 2] k!"fields_autoplaced" k!"at" (by decide) (by decide))

theorem C10_HierarchicalSheet (xs ys : List Val) {u : Val} {r : List Val}
    (hu : ∀ k ∈ [k!"fields_autoplaced", k!"at", k!"stroke", k!"size", k!"fill", k!"uuid", k!"property", k!"pin", k!"instances"], u ≠ .str k) :
    HierarchicalSheet.fromSexpr (.list (.str k!"sheet" :: (xs ++ .list (u :: r) :: ys))) =
    HierarchicalSheet.fromSexpr (.list (.str k!"sheet" :: (xs ++ ys))) := by
  rw [HierarchicalSheet.loopEq , HierarchicalSheet.loopEq ]
  exact forM_insert (HierarchicalSheet.unknown hu) _ xs ys
example := C10_HierarchicalSheet [.list [.str k!"fields_autoplaced", .int 1]] [] (u := .str k!"zzz") (r := [.int 1]) (by simp)

theorem C37_HierarchicalSheetInstance (a1 : Val) (xs : List Val) (o : HierarchicalSheetInstance) (h : HierarchicalSheetInstance.fromSexpr (.list (.str k!"path" :: a1 :: xs)) = .ok o) :
    o.instancePath = a1 ∧
    LastWins (tok k!"page") (·.idx 1) xs (st k!"1" : Val) o.page := by
  rw [HierarchicalSheetInstance.loopEq a1] at h
  exact ⟨((Track.folds (get := (·.instancePath)) (fun o x o' hs => (HierarchicalSheetInstance.trackAll o x o' hs).1) h)).const,
    ((Track.folds (get := (·.page)) (fun o x o' hs => (HierarchicalSheetInstance.trackAll o x o' hs).2) h)).last⟩

/-- A repeated token with an unknown one in between. -/
example : (HierarchicalSheetInstance.fromSexpr (.list [.str k!"path", .str k!"x", .list [.str k!"page", .str k!"a"], .list [.str k!"zzz", .int 1], .list [.str k!"page", .str k!"b"]])).map (·.page) = .ok (.str k!"b") := rfl

theorem C36_HierarchicalSheetInstance (a1 : Val) {xs ys : List Val} (hr : Reordered [] xs ys) (o : HierarchicalSheetInstance) :
    HierarchicalSheetInstance.fromSexpr (.list (.str k!"path" :: a1 :: xs)) = .ok o ↔ HierarchicalSheetInstance.fromSexpr (.list (.str k!"path" :: a1 :: ys)) = .ok o := by
  rw [HierarchicalSheetInstance.loopEq a1, HierarchicalSheetInstance.loopEq a1]
  exact reordered_iff HierarchicalSheetInstance.indep HierarchicalSheetInstance.reordered hr o
example := C36_HierarchicalSheetInstance (.str k!"x") (.swap [] [] [.int 1] [.int 2] k!"page" k!"zzz" (by decide) (by decide))

theorem C10_HierarchicalSheetInstance (a1 : Val) (xs ys : List Val) {u : Val} {r : List Val}
    (hu : ∀ k ∈ [k!"page"], u ≠ .str k) :
    HierarchicalSheetInstance.fromSexpr (.list (.str k!"path" :: a1 :: (xs ++ .list (u :: r) :: ys))) =
    HierarchicalSheetInstance.fromSexpr (.list (.str k!"path" :: a1 :: (xs ++ ys))) := by
  rw [HierarchicalSheetInstance.loopEq a1, HierarchicalSheetInstance.loopEq a1]
  exact forM_insert (HierarchicalSheetInstance.unknown hu) _ xs ys
example := C10_HierarchicalSheetInstance (.str k!"x") [.list [.str k!"page", .int 1]] [] (u := .str k!"zzz") (r := [.int 1]) (by simp)

theorem C37_SymbolInstance (a1 : Val) (xs : List Val) (o : SymbolInstance) (h : SymbolInstance.fromSexpr (.list (.str k!"path" :: a1 :: xs)) = .ok o) :
    o.path = a1 ∧
    LastWins (tok k!"reference") (·.idx 1) xs (st k!"" : Val) o.reference ∧
    LastWins (tok k!"unit") (·.idx 1) xs (.int 0 : Val) o.unit ∧
    LastWins (tok k!"value") (·.idx 1) xs (st k!"" : Val) o.value ∧
    LastWins (tok k!"footprint") (·.idx 1) xs (st k!"" : Val) o.footprint := by
  rw [SymbolInstance.loopEq a1] at h
  exact ⟨((Track.folds (get := (·.path)) (fun o x o' hs => (SymbolInstance.trackAll o x o' hs).1) h)).const,
    ((Track.folds (get := (·.reference)) (fun o x o' hs => (SymbolInstance.trackAll o x o' hs).2.1) h)).last,
    ((Track.folds (get := (·.unit)) (fun o x o' hs => (SymbolInstance.trackAll o x o' hs).2.2.1) h)).last,
    ((Track.folds (get := (·.value)) (fun o x o' hs => (SymbolInstance.trackAll o x o' hs).2.2.2.1) h)).last,
    ((Track.folds (get := (·.footprint)) (fun o x o' hs => (SymbolInstance.trackAll o x o' hs).2.2.2.2) h)).last⟩

/-- A repeated token with an unknown one in between. -/
example : (SymbolInstance.fromSexpr (.list [.str k!"path", .str k!"x", .list [.str k!"reference", .str k!"a"], .list [.str k!"zzz", .int 1], .list [.str k!"reference", .str k!"b"]])).map (·.reference) = .ok (.str k!"b") := rfl

theorem C36_SymbolInstance (a1 : Val) {xs ys : List Val} (hr : Reordered [] xs ys) (o : SymbolInstance) :
    SymbolInstance.fromSexpr (.list (.str k!"path" :: a1 :: xs)) = .ok o ↔ SymbolInstance.fromSexpr (.list (.str k!"path" :: a1 :: ys)) = .ok o := by
  rw [SymbolInstance.loopEq a1, SymbolInstance.loopEq a1]
  exact reordered_iff SymbolInstance.indep SymbolInstance.reordered hr o
example := C36_SymbolInstance (.str k!"x") (.swap [] [] [.int 1] [.int 2] k!"reference" k!"unit" (by decide) (by decide))

theorem C10_SymbolInstance (a1 : Val) (xs ys : List Val) {u : Val} {r : List Val}
    (hu : ∀ k ∈ [k!"reference", k!"unit", k!"value", k!"footprint"], u ≠ .str k) :
    SymbolInstance.fromSexpr (.list (.str k!"path" :: a1 :: (xs ++ .list (u :: r) :: ys))) =
    SymbolInstance.fromSexpr (.list (.str k!"path" :: a1 :: (xs ++ ys))) := by
  rw [SymbolInstance.loopEq a1, SymbolInstance.loopEq a1]
  exact forM_insert (SymbolInstance.unknown hu) _ xs ys
example := C10_SymbolInstance (.str k!"x") [.list [.str k!"reference", .int 1]] [] (u := .str k!"zzz") (r := [.int 1]) (by simp)

theorem C37_Rectangle (xs : List Val) (o : Rectangle) (h : Rectangle.fromSexpr (.list (.str k!"rectangle" :: xs)) = .ok o) :
    LastWins (tok k!"start") Position.fromSexpr xs ({} : Position) o.start ∧
    LastWins (tok k!"end") Position.fromSexpr xs ({} : Position) o.«end» ∧
    LastWins (tok k!"stroke") Stroke.fromSexpr xs ({} : Stroke) o.stroke ∧
    LastWins (tok k!"fill") Fill.fromSexpr xs ({} : Fill) o.fill ∧
    LastWins (tok k!"uuid") (fun i => do return some (← i.idx 1)) xs (none : Option Val) o.uuid := by
  rw [Rectangle.loopEq ] at h
  exact ⟨((Track.folds (get := (·.start)) (fun o x o' hs => (Rectangle.trackAll o x o' hs).1) h).drop rfl).last,
    ((Track.folds (get := (·.«end»)) (fun o x o' hs => (Rectangle.trackAll o x o' hs).2.1) h).drop rfl).last,
    ((Track.folds (get := (·.stroke)) (fun o x o' hs => (Rectangle.trackAll o x o' hs).2.2.1) h).drop rfl).last,
    ((Track.folds (get := (·.fill)) (fun o x o' hs => (Rectangle.trackAll o x o' hs).2.2.2.1) h).drop rfl).last,
    ((Track.folds (get := (·.uuid)) (fun o x o' hs => (Rectangle.trackAll o x o' hs).2.2.2.2) h).drop rfl).last⟩

/-- A repeated token with an unknown one in between. -/
example : (Rectangle.fromSexpr (.list [.str k!"rectangle", .list [.str k!"uuid", .str k!"a"], .list [.str k!"zzz", .int 1], .list [.str k!"uuid", .str k!"b"]])).map (·.uuid) = .ok (some (.str k!"b")) := rfl

theorem C36_Rectangle {xs ys : List Val} (hr : Reordered [] xs ys) (o : Rectangle) :
    Rectangle.fromSexpr (.list (.str k!"rectangle" :: xs)) = .ok o ↔ Rectangle.fromSexpr (.list (.str k!"rectangle" :: ys)) = .ok o := by
  rw [Rectangle.loopEq , Rectangle.loopEq ]
  exact reordered_iff Rectangle.indep Rectangle.reordered (hr.cons _) o
example := C36_Rectangle (.swap [] [] [.int 1] [.int 2] k!"start" k!"end" (by decide) (by decide))

theorem C10_Rectangle (xs ys : List Val) {u : Val} {r : List Val}
    (hu : ∀ k ∈ [k!"start", k!"end", k!"stroke", k!"fill", k!"uuid"], u ≠ .str k) :
    Rectangle.fromSexpr (.list (.str k!"rectangle" :: (xs ++ .list (u :: r) :: ys))) =
    Rectangle.fromSexpr (.list (.str k!"rectangle" :: (xs ++ ys))) := by
  rw [Rectangle.loopEq , Rectangle.loopEq ]
  exact forM_insert (Rectangle.unknown hu) _ (.str k!"rectangle" :: xs) ys
example := C10_Rectangle [.list [.str k!"start", .int 1]] [] (u := .str k!"zzz") (r := [.int 1]) (by simp)

theorem C37_Arc (xs : List Val) (o : Arc) (h : Arc.fromSexpr (.list (.str k!"arc" :: xs)) = .ok o) :
    LastWins (tok k!"start") Position.fromSexpr xs ({} : Position) o.start ∧
    LastWins (tok k!"mid") Position.fromSexpr xs ({} : Position) o.mid ∧
    LastWins (tok k!"end") Position.fromSexpr xs ({} : Position) o.«end» ∧
    LastWins (tok k!"stroke") Stroke.fromSexpr xs ({} : Stroke) o.stroke ∧
    LastWins (tok k!"fill") Fill.fromSexpr xs ({} : Fill) o.fill ∧
    LastWins (tok k!"uuid") (fun i => do return some (← i.idx 1)) xs (none : Option Val) o.uuid := by
  rw [Arc.loopEq ] at h
  exact ⟨((Track.folds (get := (·.start)) (fun o x o' hs => (Arc.trackAll o x o' hs).1) h).drop rfl).last,
    ((Track.folds (get := (·.mid)) (fun o x o' hs => (Arc.trackAll o x o' hs).2.1) h).drop rfl).last,
    ((Track.folds (get := (·.«end»)) (fun o x o' hs => (Arc.trackAll o x o' hs).2.2.1) h).drop rfl).last,
    ((Track.folds (get := (·.stroke)) (fun o x o' hs => (Arc.trackAll o x o' hs).2.2.2.1) h).drop rfl).last,
    ((Track.folds (get := (·.fill)) (fun o x o' hs => (Arc.trackAll o x o' hs).2.2.2.2.1) h).drop rfl).last,
    ((Track.folds (get := (·.uuid)) (fun o x o' hs => (Arc.trackAll o x o' hs).2.2.2.2.2) h).drop rfl).last⟩

/-- A repeated token with an unknown one in between. -/
example : (Arc.fromSexpr (.list [.str k!"arc", .list [.str k!"uuid", .str k!"a"], .list [.str k!"zzz", .int 1], .list [.str k!"uuid", .str k!"b"]])).map (·.uuid) = .ok (some (.str k!"b")) := rfl

theorem C36_Arc {xs ys : List Val} (hr : Reordered [] xs ys) (o : Arc) :
    Arc.fromSexpr (.list (.str k!"arc" :: xs)) = .ok o ↔ Arc.fromSexpr (.list (.str k!"arc" :: ys)) = .ok o := by
  rw [Arc.loopEq , Arc.loopEq ]
  exact reordered_iff Arc.indep Arc.reordered (hr.cons _) o
example := C36_Arc (.swap [] [] [.int 1] [.int 2] k!"start" k!"mid" (by decide) (by decide))

theorem C10_Arc (xs ys : List Val) {u : Val} {r : List Val}
    (hu : ∀ k ∈ [k!"start", k!"mid", k!"end", k!"stroke", k!"fill", k!"uuid"], u ≠ .str k) :
    Arc.fromSexpr (.list (.str k!"arc" :: (xs ++ .list (u :: r) :: ys))) =
    Arc.fromSexpr (.list (.str k!"arc" :: (xs ++ ys))) := by
  rw [Arc.loopEq , Arc.loopEq ]
  exact forM_insert (Arc.unknown hu) _ (.str k!"arc" :: xs) ys
example := C10_Arc [.list [.str k!"start", .int 1]] [] (u := .str k!"zzz") (r := [.int 1]) (by simp)

theorem C37_Circle (xs : List Val) (o : Circle) (h : Circle.fromSexpr (.list (.str k!"circle" :: xs)) = .ok o) :
    LastWins (tok k!"center") Position.fromSexpr xs ({} : Position) o.center ∧
    LastWins (tok k!"radius") (·.idx 1) xs (fl k!"0" k!"0" : Val) o.radius ∧
    LastWins (tok k!"stroke") Stroke.fromSexpr xs ({} : Stroke) o.stroke ∧
    LastWins (tok k!"fill") Fill.fromSexpr xs ({} : Fill) o.fill ∧
    LastWins (tok k!"uuid") (fun i => do return some (← i.idx 1)) xs (none : Option Val) o.uuid := by
  rw [Circle.loopEq ] at h
  exact ⟨((Track.folds (get := (·.center)) (fun o x o' hs => (Circle.trackAll o x o' hs).1) h).drop rfl).last,
    ((Track.folds (get := (·.radius)) (fun o x o' hs => (Circle.trackAll o x o' hs).2.1) h).drop rfl).last,
    ((Track.folds (get := (·.stroke)) (fun o x o' hs => (Circle.trackAll o x o' hs).2.2.1) h).drop rfl).last,
    ((Track.folds (get := (·.fill)) (fun o x o' hs => (Circle.trackAll o x o' hs).2.2.2.1) h).drop rfl).last,
    ((Track.folds (get := (·.uuid)) (fun o x o' hs => (Circle.trackAll o x o' hs).2.2.2.2) h).drop rfl).last⟩

/-- A repeated token with an unknown one in between. -/
example : (Circle.fromSexpr (.list [.str k!"circle", .list [.str k!"radius", .str k!"a"], .list [.str k!"zzz", .int 1], .list [.str k!"radius", .str k!"b"]])).map (·.radius) = .ok (.str k!"b") := rfl

theorem C36_Circle {xs ys : List Val} (hr : Reordered [] xs ys) (o : Circle) :
    Circle.fromSexpr (.list (.str k!"circle" :: xs)) = .ok o ↔ Circle.fromSexpr (.list (.str k!"circle" :: ys)) = .ok o := by
  rw [Circle.loopEq , Circle.loopEq ]
  exact reordered_iff Circle.indep Circle.reordered (hr.cons _) o
example := C36_Circle (.swap [] [] [.int 1] [.int 2] k!"center" k!"radius" (by decide) (by decide))

theorem C10_Circle (xs ys : List Val) {u : Val} {r : List Val}
    (hu : ∀ k ∈ [k!"center", k!"radius", k!"stroke", k!"fill", k!"uuid"], u ≠ .str k) :
    Circle.fromSexpr (.list (.str k!"circle" :: (xs ++ .list (u :: r) :: ys))) =
    Circle.fromSexpr (.list (.str k!"circle" :: (xs ++ ys))) := by
  rw [Circle.loopEq , Circle.loopEq ]
  exact forM_insert (Circle.unknown hu) _ (.str k!"circle" :: xs) ys
example := C10_Circle [.list [.str k!"center", .int 1]] [] (u := .str k!"zzz") (r := [.int 1]) (by simp)

theorem C37_NetclassFlag (a1 : Val) (xs : List Val) (o : NetclassFlag) (h : NetclassFlag.fromSexpr (.list (.str k!"netclass_flag" :: a1 :: xs)) = .ok o) :
    o.text = a1 ∧
    LastWins (tok k!"length") (·.idx 1) xs (fl k!"2" k!"54" : Val) o.length ∧
    LastWins (tok k!"shape") (·.idx 1) xs (st k!"round" : Val) o.shape ∧
    LastWins (tok k!"at") Position.fromSexpr xs ({} : Position) o.position ∧
    LastWins (tok k!"effects") (fun i => do return some (← Effects.fromSexpr i)) xs (none : Option Effects) o.effects ∧
    LastWins (tok k!"uuid") (fun i => do return some (← i.idx 1)) xs (none : Option Val) o.uuid ∧
    o.fieldsAutoplaced = xs.any (tok k!"fields_autoplaced") := by
  rw [NetclassFlag.loopEq a1] at h
  exact ⟨((Track.folds (get := (·.text)) (fun o x o' hs => (NetclassFlag.trackAll o x o' hs).1) h)).const,
    ((Track.folds (get := (·.length)) (fun o x o' hs => (NetclassFlag.trackAll o x o' hs).2.1) h)).last,
    ((Track.folds (get := (·.shape)) (fun o x o' hs => (NetclassFlag.trackAll o x o' hs).2.2.1) h)).last,
    ((Track.folds (get := (·.position)) (fun o x o' hs => (NetclassFlag.trackAll o x o' hs).2.2.2.1) h)).last,
    ((Track.folds (get := (·.effects)) (fun o x o' hs => (NetclassFlag.trackAll o x o' hs).2.2.2.2.1) h)).last,
    ((Track.folds (get := (·.uuid)) (fun o x o' hs => (NetclassFlag.trackAll o x o' hs).2.2.2.2.2.2.1) h)).last,
    ((Track.folds (get := (·.fieldsAutoplaced)) (fun o x o' hs => (NetclassFlag.trackAll o x o' hs).2.2.2.2.2.2.2) h)).flag⟩
example := C37_NetclassFlag (.str k!"x") [.list [.str k!"length", .str k!"a"]] _ rfl

theorem C11_NetclassFlag (a1 : Val) (xs : List Val) (o : NetclassFlag) (h : NetclassFlag.fromSexpr (.list (.str k!"netclass_flag" :: a1 :: xs)) = .ok o) :
    Collected (tok k!"property") Property.fromSexpr xs o.properties := by
  rw [NetclassFlag.loopEq a1] at h
  exact ((Track.folds (get := (·.properties)) (fun o x o' hs => (NetclassFlag.trackAll o x o' hs).2.2.2.2.2.1) h)).collected

/-- A repeated token with an unknown one in between. -/
example : (NetclassFlag.fromSexpr (.list [.str k!"netclass_flag", .str k!"x", .list [.str k!"length", .str k!"a"], .list [.str k!"zzz", .int 1], .list [.str k!"length", .str k!"b"]])).map (·.length) = .ok (.str k!"b") := rfl

theorem C36_NetclassFlag (a1 : Val) {xs ys : List Val} (hr : Reordered [] xs ys) (o : NetclassFlag) :
    NetclassFlag.fromSexpr (.list (.str k!"netclass_flag" :: a1 :: xs)) = .ok o ↔ NetclassFlag.fromSexpr (.list (.str k!"netclass_flag" :: a1 :: ys)) = .ok o := by
  rw [NetclassFlag.loopEq a1, NetclassFlag.loopEq a1]
  exact reordered_iff NetclassFlag.indep NetclassFlag.reordered hr o
example := C36_NetclassFlag (.str k!"x") (.swap [] [] [.int 1] [.int 2] k!"length" k!"shape" (by decide) (by decide))

theorem C10_NetclassFlag (a1 : Val) (xs ys : List Val) {u : Val} {r : List Val}
    (hu : ∀ k ∈ [k!"length", k!"shape", k!"at", k!"fields_autoplaced", k!"effects", k!"uuid", k!"property"], u ≠ .str k) :
    NetclassFlag.fromSexpr (.list (.str k!"netclass_flag" :: a1 :: (xs ++ .list (u :: r) :: ys))) =
    NetclassFlag.fromSexpr (.list (.str k!"netclass_flag" :: a1 :: (xs ++ ys))) := by
  rw [NetclassFlag.loopEq a1, NetclassFlag.loopEq a1]
  exact forM_insert (NetclassFlag.unknown hu) _ xs ys
example := C10_NetclassFlag (.str k!"x") [.list [.str k!"length", .int 1]] [] (u := .str k!"zzz") (r := [.int 1]) (by simp)

end Kiutils
