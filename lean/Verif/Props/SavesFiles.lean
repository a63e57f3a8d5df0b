import Verif.Props.Saves
import Verif.Props.TokensSchematic
import Verif.Props.TokensBoard
import Verif.Props.TokensGrItems
import Verif.Props.TokensFpItems
import Verif.Props.TokensFootprint
import Verif.Props.TokensSchItems
import Verif.Props.TokensBrdItems
/-!
# Exactly which files can be loaded but not saved (C47)

The conditions are on the expressions as they are in the file, not on objects. For every class whose `to_sexpr` can raise: an object
loaded from the expression can be saved exactly if the expression meets the condition.
-/
namespace Kiutils

/-! ## The conditions -/

/-- The elements of a list. -/
def Val.parts : Val → List Val
  | .list l => l
  | _ => []

/-- The last item `(key …)`, if there is one, has the property. -/
def LastItem (key : Str) (P : Val → Prop) (xs : List Val) : Prop :=
  ∀ a x b, xs = a ++ x :: b → x.Tagged key → (∀ y ∈ b, ¬ y.Tagged key) → P x

/-- There is an item `(key …)`. -/
def HasItem (key : Str) (xs : List Val) : Prop := ∃ x ∈ xs, x.Tagged key

/-- All items `(key …)` have the property. -/
def EachItem (key : Str) (P : Val → Prop) (xs : List Val) : Prop := ∀ x ∈ xs, x.Tagged key → P x

/-- The number of points in an item `(pts …)`. -/
def pointsOf : Val → Nat
  | .list (.str k :: ps) => if k = k!"pts" then ps.length else 0
  | _ => 0

/-- The number of points in all items `(pts …)`. -/
def pointsIn (xs : List Val) : Nat := (xs.map pointsOf).sum

/-- The angle of the last item `(angle …)`, if there is one, is 0, 90, 180 or 270. -/
def UprightItems (xs : List Val) : Prop :=
  LastItem k!"angle" (fun x => ∀ a, x.parts[1]? = some a → a.canon ∈ [Val.int 0, .int 90, .int 180, .int 270]) xs

/-- The items of a text box: with such an angle there are items `(start …)` and `(end …)`, with any other angle there are four points. -/
def BoxItemsFine (xs : List Val) : Prop :=
  (UprightItems xs → HasItem k!"start" xs ∧ HasItem k!"end" xs) ∧ (¬ UprightItems xs → pointsIn xs = 4)

/-- `(gr_text_box text …)` and `(fp_text_box text …)` -/
def TextBoxFine (v : Val) : Prop := BoxItemsFine (v.parts.drop 2)

/-- `(zone …)` has an item `(layer …)` or `(layers …)` that is not empty. -/
def ZoneFine (v : Val) : Prop := ∃ a r, .list (.str k!"layer" :: a :: r) ∈ v.parts ∨ .list (.str k!"layers" :: a :: r) ∈ v.parts

/-- `(dimension …)` has an item `(pts …)` that is not empty. -/
def DimensionFine (v : Val) : Prop := ∃ a r, .list (.str k!"pts" :: a :: r) ∈ v.parts.drop 1

/-- `(pad number type shape …)`: no layer is a number, and the text boxes among the primitives are fine. -/
def PadFine (v : Val) : Prop :=
  EachItem k!"layers" (fun x => ∀ l ∈ x.parts.drop 1, l.Sized) (v.parts.drop 3) ∧
    EachItem k!"primitives" (fun x => EachItem k!"gr_text_box" TextBoxFine (x.parts.drop 1)) (v.parts.drop 3)

/-- `(footprint id …)` -/
def FootprintFine (v : Val) : Prop :=
  EachItem k!"fp_text_box" TextBoxFine (v.parts.drop 2) ∧ EachItem k!"pad" PadFine (v.parts.drop 2) ∧ EachItem k!"zone" ZoneFine (v.parts.drop 2)

/-- `(pcbplotparams …)`: three of the values can be converted by `float()`. -/
def PlotSettingsFine (v : Val) : Prop :=
  ∀ key ∈ [k!"dashed_line_dash_ratio", k!"dashed_line_gap_ratio", k!"hpglpendiameter"],
    LastItem key (fun x => ∀ a, x.parts[1]? = some a → a.Floats) (v.parts.drop 1)

/-- `(setup …)` -/
def SetupFine (v : Val) : Prop := LastItem k!"pcbplotparams" PlotSettingsFine (v.parts.drop 1)

/-- `(kicad_pcb …)` -/
def BoardFine (v : Val) : Prop :=
  LastItem k!"setup" SetupFine (v.parts.drop 1) ∧ EachItem k!"footprint" FootprintFine (v.parts.drop 1) ∧
    EachItem k!"gr_text_box" TextBoxFine (v.parts.drop 1) ∧ EachItem k!"dimension" DimensionFine (v.parts.drop 1) ∧
    EachItem k!"zone" ZoneFine (v.parts.drop 1)

/-- `(junction …)`: after every item `(diameter …)` there is an item `(color …)`. -/
def JunctionFine (v : Val) : Prop := ∀ a d b, v.parts = a ++ d :: b → d.Tagged k!"diameter" → HasItem k!"color" b

/-- `(text t …)`: the text is not a number. -/
def TextFine (v : Val) : Prop := ∀ t, v.parts[1]? = some t → t.Sized

/-- `(netclass_flag text …)` has an item `(effects …)`. -/
def NetclassFlagFine (v : Val) : Prop := HasItem k!"effects" (v.parts.drop 2)

/-- `(sheet …)`: the transparency of the last fill colour is a number. -/
def SheetFine (v : Val) : Prop :=
  LastItem k!"fill" (fun x => ∀ c, x.parts[1]? = some c → ∀ a, c.parts[4]? = some a → a.IsNumber) (v.parts.drop 1)

/-- `(kicad_sch …)` -/
def SchematicFine (v : Val) : Prop :=
  EachItem k!"junction" JunctionFine (v.parts.drop 1) ∧ EachItem k!"text" TextFine (v.parts.drop 1) ∧
    EachItem k!"netclass_flag" NetclassFlagFine (v.parts.drop 1) ∧ EachItem k!"sheet" SheetFine (v.parts.drop 1)

/-! ## Tools -/

theorem tok_iff {k : Str} {v : Val} : tok k v = true ↔ v.Tagged k := by
  unfold tok Val.Tagged
  split
  · rename_i h r
    rw [Val.is_text_iff]
    exact ⟨fun e => ⟨r, by rw [e]⟩, fun ⟨_, e⟩ => by cases e; rfl⟩
  · rename_i h
    exact iff_of_false (by simp) fun ⟨r, e⟩ => h _ _ e

theorem lastItem_iff {key : Str} {P : Val → Prop} {xs : List Val} : LastItem key P xs ↔ ∀ x, (xs.filter (tok key)).getLast? = some x → P x := by
  constructor
  · intro h x hx
    obtain ⟨l, hl⟩ := List.getLast?_eq_some_iff.1 hx
    obtain ⟨a, r, rfl, ha, hr⟩ := List.filter_eq_append_iff.1 hl
    obtain ⟨b, c, rfl, hb, hxk, hc⟩ := List.filter_eq_cons_iff.1 hr
    refine h (a ++ b) x c (by simp) (tok_iff.1 hxk) fun y hy ht => ?_
    have := List.filter_eq_nil_iff.1 hc y hy
    exact this (tok_iff.2 ht)
  · rintro h a x b rfl hx hb
    refine h x ?_
    rw [List.filter_append, List.filter_cons_of_pos (tok_iff.2 hx), List.filter_eq_nil_iff.2 fun y hy ht => hb y hy (tok_iff.1 ht)]
    simp

/-- A field of which the last item wins. -/
theorem LastWins.item {β : Type} {key : Str} {read : Val → PyM β} {xs : List Val} {d v : β} {P : Val → Prop} {Q : β → Prop}
    (h : LastWins (tok key) read xs d v) (hd : Q d) (hr : ∀ r b, read (.list (.str key :: r)) = .ok b → (Q b ↔ P (.list (.str key :: r)))) :
    Q v ↔ LastItem key P xs := by
  rw [lastItem_iff]
  unfold LastWins at h
  split at h
  · rename_i x hx
    obtain ⟨r, rfl⟩ := tok_iff.1 (List.mem_filter.1 (List.mem_of_getLast? hx)).2
    rw [hr r v h, hx]
    exact ⟨fun h y e => by cases e; exact h, fun h => h _ rfl⟩
  · rename_i hx
    subst h
    rw [hx]
    exact iff_of_true hd fun _ e => nomatch e

/-- A field that is missing without an item. -/
theorem LastWins.has {β γ : Type} {key : Str} {read : Val → PyM (Option β)} {xs : List Val} {v : Option β} {m : Val → PyM γ} {f : γ → β}
    (h : LastWins (tok key) read xs none v) (hr : ∀ x, read x = (m x >>= fun y => pure (some (f y)))) : v ≠ none ↔ HasItem key xs := by
  unfold LastWins at h
  split at h
  · rename_i x hx
    rw [hr] at h
    obtain ⟨y, -, h⟩ := bind_returns h
    cases h
    have := List.mem_filter.1 (List.mem_of_getLast? hx)
    exact iff_of_true (by simp) ⟨x, this.1, tok_iff.1 this.2⟩
  · rename_i hx
    subst h
    refine iff_of_false (by simp) fun ⟨x, hx', ht⟩ => ?_
    have : x ∈ xs.filter (tok key) := List.mem_filter.2 ⟨hx', tok_iff.2 ht⟩
    rw [List.getLast?_eq_none_iff.1 hx] at this
    exact absurd this List.not_mem_nil

theorem mapM'_each {β : Type} {read : Val → PyM β} {P : Val → Prop} {Q : β → Prop} :
    ∀ {xs : List Val} {v : List β}, mapM' read xs = .ok v → (∀ x ∈ xs, ∀ b, read x = .ok b → (Q b ↔ P x)) → ((∀ b ∈ v, Q b) ↔ ∀ x ∈ xs, P x)
  | [], v, h, _ => by cases h; simp
  | x :: r, v, h, hr => by
    rw [mapM'] at h
    obtain ⟨y, hy, h⟩ := bind_returns h
    obtain ⟨z, hz, h⟩ := bind_returns h
    cases h
    rw [List.forall_mem_cons, List.forall_mem_cons, hr x (by simp) y hy, mapM'_each hz fun x hx => hr x (List.mem_cons_of_mem _ hx)]

/-- A list of items of one kind. -/
theorem Collected.each {β : Type} {key : Str} {read : Val → PyM β} {xs : List Val} {v : List β} {P : Val → Prop} {Q : β → Prop}
    (h : Collected (tok key) read xs v) (hr : ∀ x b, read x = .ok b → (Q b ↔ P x)) : (∀ b ∈ v, Q b) ↔ EachItem key P xs := by
  rw [mapM'_each h fun x _ => hr x]
  simp only [List.mem_filter, tok_iff, EachItem, and_imp]

/-- A list of items of several kinds, of which only one matters. -/
theorem Collected.eachOf {β : Type} {keys : List Str} {key : Str} (hk : key ∈ keys) {read : Val → PyM β} {xs : List Val} {v : List β}
    {P : Val → Prop} {Q : β → Prop} (h : Collected (tokIn keys) read xs v)
    (hr : ∀ x b, read x = .ok b → (Q b ↔ (x.Tagged key → P x))) : (∀ b ∈ v, Q b) ↔ EachItem key P xs := by
  rw [mapM'_each h fun x _ => hr x]
  constructor
  · exact fun h x hx ht => h x (List.mem_filter.2 ⟨hx, List.any_eq_true.2 ⟨key, hk, tok_iff.2 ht⟩⟩) ht
  · exact fun h x hx ht => h x (List.mem_filter.1 hx).1 ht

theorem forM_each {σ : Type} {step : σ → Val → PyM σ} {Q : σ → Prop} {P : Val → Prop} :
    ∀ {xs : List Val} {o o' : σ}, forM step o xs = .ok o' → (∀ x ∈ xs, ∀ o o', step o x = .ok o' → (Q o' ↔ Q o ∧ P x)) →
      (Q o' ↔ Q o ∧ ∀ x ∈ xs, P x)
  | [], o, o', he, _ => by cases he; simp
  | x :: r, o, o', he, h => by
    rw [forM] at he
    obtain ⟨o1, h1, he⟩ := bind_returns he
    rw [forM_each he fun x hx => h x (List.mem_cons_of_mem _ hx), h x (by simp) o o1 h1, List.forall_mem_cons, and_assoc]

/-- A field to which each item contributes. -/
theorem FoldsTo.each {β : Type} {key : Str} {upd : β → Val → PyM β} {xs : List Val} {d v : β} {P : Val → Prop} {Q : β → Prop}
    (h : FoldsTo (tok key) upd xs d v) (hd : Q d)
    (hr : ∀ r b b', upd b (.list (.str key :: r)) = .ok b' → (Q b' ↔ Q b ∧ P (.list (.str key :: r)))) : Q v ↔ EachItem key P xs := by
  rw [forM_each (Q := Q) (P := P) h fun x hx o o' hs => ?_]
  · simp only [hd, true_and, List.mem_filter, tok_iff, EachItem, and_imp]
  · obtain ⟨r, rfl⟩ := tok_iff.1 (List.mem_filter.1 hx).2
    exact hr r o o' hs

theorem checkHead_inv {key : Str} {v : Val} {l : List Val} (h : checkHead key v = .ok l) : ∃ r, v = .list (.str key :: r) ∧ l = .str key :: r := by
  cases v with
  | list l' =>
    cases checkHead_list h
    cases l with
    | nil => cases h
    | cons a r =>
      unfold checkHead at h
      simp only at h
      split at h
      · rename_i hk
        rw [Val.is_text_iff] at hk
        exact ⟨r, by rw [hk], by rw [hk]⟩
      · cases h
  | _ => cases h

theorem idx_parts {l : List Val} {n : Nat} {a : Val} (h : (Val.list l).idx n = .ok a) : l[n]? = some a := by
  unfold Val.idx at h
  simp only at h
  cases hl : l[n]? <;> rw [hl] at h <;> cases h
  rfl

/-! ## Text boxes -/

theorem mapM'_length {β : Type} {f : Val → PyM β} : ∀ {xs : List Val} {ys : List β}, mapM' f xs = .ok ys → ys.length = xs.length
  | [], _, h => by cases h; rfl
  | x :: r, _, h => by
    rw [mapM'] at h
    obtain ⟨y, -, h⟩ := bind_returns h
    obtain ⟨z, hz, h⟩ := bind_returns h
    cases h
    rw [List.length_cons, List.length_cons, mapM'_length hz]

theorem pointsIn_eq {pts : List Position} {xs : List Val}
    (hp : CollectedAll (tok k!"pts") (fun i => do mapM' Position.fromSexpr (← i.slice 1)) xs pts) : pts.length = pointsIn xs := by
  obtain ⟨vs, h, rfl⟩ := hp
  induction xs generalizing vs with
  | nil => cases h; rfl
  | cons x r ih =>
    cases hx : tok k!"pts" x with
    | false =>
      rw [List.filter_cons_of_neg (by simp [hx])] at h
      have : pointsOf x = 0 := by
        unfold pointsOf
        split
        · exact if_neg fun e => by subst e; cases hx
        · rfl
      rw [ih vs h, pointsIn, pointsIn, List.map_cons, List.sum_cons, this, Nat.zero_add]
    | true =>
      rw [List.filter_cons_of_pos hx, mapM'] at h
      obtain ⟨q, hq⟩ := tok_iff.1 hx
      subst hq
      obtain ⟨y, hy, h⟩ := bind_returns h
      obtain ⟨z, hz, h⟩ := bind_returns h
      cases h
      have hy : mapM' Position.fromSexpr q = .ok y := hy
      rw [List.flatten_cons, List.length_append, ih z hz, mapM'_length hy]
      rfl

/-- The properties of a loaded text box that matter. -/
theorem textBox_iff {angle : Option Val} {start «end» : Option Position} {pts : List Position} {xs : List Val}
    (ha : LastWins (tok k!"angle") (fun i => do return some (← i.idx 1)) xs none angle)
    (hs : LastWins (tok k!"start") (fun i => do return some (← Position.fromSexpr i)) xs none start)
    (he : LastWins (tok k!"end") (fun i => do return some (← Position.fromSexpr i)) xs none «end»)
    (hp : CollectedAll (tok k!"pts") (fun i => do mapM' Position.fromSexpr (← i.slice 1)) xs pts) :
    ((Upright angle → start ≠ none ∧ «end» ≠ none) ∧ (¬ Upright angle → pts.length = 4)) ↔
      BoxItemsFine xs := by
  have hu : Upright angle ↔ UprightItems xs := by
    refine ha.item (fun _ h => nomatch h) fun r b h => ?_
    obtain ⟨y, hy, h⟩ := bind_returns h
    cases h
    have hy := idx_parts hy
    exact ⟨fun h a ha => h a (by rw [← ha]; exact hy.symm), fun h a ha => h a (by rw [← ha]; exact hy)⟩
  rw [hu, pointsIn_eq hp, hs.has fun _ => rfl, he.has fun _ => rfl]
  rfl

theorem tok_word {y : Val} (hy : y.isList = false) (k : Str) : tok k y = false := by
  cases y <;> first | rfl | cases hy

theorem lastItem_cons {y : Val} (hy : y.isList = false) {key : Str} {P : Val → Prop} {xs : List Val} : LastItem key P (y :: xs) ↔ LastItem key P xs := by
  rw [lastItem_iff, lastItem_iff, List.filter_cons_of_neg (by simp [tok_word hy])]

theorem hasItem_cons {y : Val} (hy : y.isList = false) {key : Str} {xs : List Val} : HasItem key (y :: xs) ↔ HasItem key xs := by
  constructor
  · rintro ⟨x, hx, hr⟩
    rcases List.mem_cons.1 hx with rfl | hx
    · obtain ⟨_, rfl⟩ := hr; cases hy
    · exact ⟨x, hx, hr⟩
  · rintro ⟨x, hx, hr⟩
    exact ⟨x, List.mem_cons_of_mem _ hx, hr⟩

theorem boxItems_cons {y : Val} (hy : y.isList = false) {xs : List Val} : BoxItemsFine xs ↔ BoxItemsFine (y :: xs) := by
  unfold BoxItemsFine UprightItems
  rw [lastItem_cons hy, hasItem_cons hy, hasItem_cons hy, show pointsIn (y :: xs) = pointsIn xs from ?_]
  cases y
  case list => cases hy
  all_goals exact Nat.zero_add _

theorem GrTextBox.loops {v : Val} {o : GrTextBox} (h : GrTextBox.fromSexpr v = .ok o) : ∃ (o₀ : GrTextBox) (xs : List Val),
    o₀.start = none ∧ o₀.«end» = none ∧ o₀.pts = [] ∧ o₀.angle = none ∧ forM GrTextBox.step o₀ xs = .ok o ∧
      (v.parts.drop 2 = xs ∨ ∃ y, y.isList = false ∧ v.parts.drop 2 = y :: xs) := by
  unfold GrTextBox.fromSexpr at h
  split at h
  · rename_i a x r
    split at h
    · split at h
      · split at h
        · cases h
        · rename_i y r'
          split at h
          · exact ⟨{ text := x }, _, rfl, rfl, rfl, rfl, h, .inl rfl⟩
          · rename_i hy
            exact ⟨{ locked := true, text := y }, r', rfl, rfl, rfl, rfl, h, .inr ⟨y, by simpa using hy, rfl⟩⟩
      · exact ⟨{ text := x }, _, rfl, rfl, rfl, rfl, h, .inl rfl⟩
    · cases h
  · cases h

/-- A loaded text box can be saved exactly if it has the corners or points it needs. -/
theorem C47_GrTextBox (v : Val) (o : GrTextBox) (h : GrTextBox.fromSexpr v = .ok o) (i : Nat) (nl : Bool) : Returns (o.toSexpr i nl) ↔ TextBoxFine v := by
  rw [C46_GrTextBox]
  obtain ⟨o₀, xs, hs, he, hp, ha, hl, hx⟩ := GrTextBox.loops h
  have h3 := (Track.folds (get := (·.start)) (fun o x o' hs => (GrTextBox.trackAll o x o' hs).2.2.1) hl).last
  have h4 := (Track.folds (get := (·.«end»)) (fun o x o' hs => (GrTextBox.trackAll o x o' hs).2.2.2.1) hl).last
  have h5 := Track.folds (get := (·.pts)) (fun o x o' hs => (GrTextBox.trackAll o x o' hs).2.2.2.2.1) hl
  have h6 := (Track.folds (get := (·.angle)) (fun o x o' hs => (GrTextBox.trackAll o x o' hs).2.2.2.2.2.1) hl).last
  rw [hs] at h3
  rw [he] at h4
  rw [hp] at h5
  rw [ha] at h6
  unfold GrTextBox.Savable TextBoxFine
  rw [textBox_iff h6 h3 h4 h5.collectedAll]
  rcases hx with hx | ⟨y, hy, hx⟩
  · rw [hx]
  · rw [hx]; exact boxItems_cons hy
example := C47_GrTextBox (.list [.str k!"gr_text_box", .str k!"locked", .str k!"a", .list [.str k!"start", .int 1, .int 2]]) _ rfl

theorem FpTextBox.loops {v : Val} {o : FpTextBox} (h : FpTextBox.fromSexpr v = .ok o) : ∃ (o₀ : FpTextBox) (xs : List Val),
    o₀.start = none ∧ o₀.«end» = none ∧ o₀.pts = [] ∧ o₀.angle = none ∧ forM FpTextBox.step o₀ xs = .ok o ∧
      (v.parts.drop 2 = xs ∨ ∃ y, y.isList = false ∧ v.parts.drop 2 = y :: xs) := by
  unfold FpTextBox.fromSexpr at h
  split at h
  · rename_i a x r
    split at h
    · split at h
      · split at h
        · cases h
        · rename_i y r'
          split at h
          · exact ⟨{ text := x }, _, rfl, rfl, rfl, rfl, h, .inl rfl⟩
          · rename_i hy
            exact ⟨{ locked := true, text := y }, r', rfl, rfl, rfl, rfl, h, .inr ⟨y, by simpa using hy, rfl⟩⟩
      · exact ⟨{ text := x }, _, rfl, rfl, rfl, rfl, h, .inl rfl⟩
    · cases h
  · cases h

/-- A loaded text box can be saved exactly if it has the corners or points it needs. -/
theorem C47_FpTextBox (v : Val) (o : FpTextBox) (h : FpTextBox.fromSexpr v = .ok o) (i : Nat) (nl : Bool) : Returns (o.toSexpr i nl) ↔ TextBoxFine v := by
  rw [C46_FpTextBox]
  obtain ⟨o₀, xs, hs, he, hp, ha, hl, hx⟩ := FpTextBox.loops h
  have h3 := (Track.folds (get := (·.start)) (fun o x o' hs => (FpTextBox.trackAll o x o' hs).2.2.1) hl).last
  have h4 := (Track.folds (get := (·.«end»)) (fun o x o' hs => (FpTextBox.trackAll o x o' hs).2.2.2.1) hl).last
  have h5 := Track.folds (get := (·.pts)) (fun o x o' hs => (FpTextBox.trackAll o x o' hs).2.2.2.2.1) hl
  have h6 := (Track.folds (get := (·.angle)) (fun o x o' hs => (FpTextBox.trackAll o x o' hs).2.2.2.2.2.1) hl).last
  rw [hs] at h3
  rw [he] at h4
  rw [hp] at h5
  rw [ha] at h6
  unfold FpTextBox.Savable TextBoxFine
  rw [textBox_iff h6 h3 h4 h5.collectedAll]
  rcases hx with hx | ⟨y, hy, hx⟩
  · rw [hx]
  · rw [hx]; exact boxItems_cons hy
example := C47_FpTextBox (.list [.str k!"fp_text_box", .str k!"locked", .str k!"a", .list [.str k!"start", .int 1, .int 2]]) _ rfl


/-! ## Boards and footprints -/

/-- As `C47_Zone`. -/
theorem Zone.fine {v : Val} {o : Zone} (h : Zone.fromSexpr v = .ok o) : o.Savable ↔ ZoneFine v := by
  have h' := h
  unfold Zone.fromSexpr at h'
  obtain ⟨l, hl, -⟩ := bind_returns h'
  obtain ⟨r, rfl, -⟩ := checkHead_inv hl
  exact (C46_Zone o 0 true).symm.trans (C47_Zone _ o h 0 true)

/-- As `C47_Dimension`. -/
theorem Dimension.fine {v : Val} {o : Dimension} (h : Dimension.fromSexpr v = .ok o) : o.Savable ↔ DimensionFine v := by
  have h' := h
  unfold Dimension.fromSexpr at h'
  obtain ⟨l, hl, -⟩ := bind_returns h'
  obtain ⟨r, rfl, -⟩ := checkHead_inv hl
  exact (C46_Dimension o 0 true).symm.trans (C47_Dimension _ o h 0 true)

theorem GrTextBox.fine {v : Val} {o : GrTextBox} (h : GrTextBox.fromSexpr v = .ok o) : o.Savable ↔ TextBoxFine v :=
  (C46_GrTextBox o 0 true).symm.trans (C47_GrTextBox v o h 0 true)
theorem FpTextBox.fine {v : Val} {o : FpTextBox} (h : FpTextBox.fromSexpr v = .ok o) : o.Savable ↔ TextBoxFine v :=
  (C46_FpTextBox o 0 true).symm.trans (C47_FpTextBox v o h 0 true)

/-- What is read from the item of a list of graphic items. -/
theorem GrItem.fine_box {v : Val} {b : GrItem} (h : (do return GrItem.textBox (← GrTextBox.fromSexpr v)) = .ok b) : b.Savable ↔ TextBoxFine v := by
  obtain ⟨y, hy, h⟩ := bind_returns h
  cases h
  rw [← GrTextBox.fine hy]
  exact ⟨fun h => h y rfl, fun h _ e => by cases e; exact h⟩

theorem FpItem.fine_box {v : Val} {b : FpItem} (h : (do return FpItem.textBox (← FpTextBox.fromSexpr v)) = .ok b) : b.Savable ↔ TextBoxFine v := by
  obtain ⟨y, hy, h⟩ := bind_returns h
  cases h
  rw [← FpTextBox.fine hy]
  exact ⟨fun h => h y rfl, fun h _ e => by cases e; exact h⟩

theorem savable_other {γ β : Type} {m : PyM γ} {f : γ → β} {b : β} {Q : β → Prop} (hq : ∀ y, Q (f y)) (h : (m >>= fun y => pure (f y)) = .ok b) : Q b := by
  obtain ⟨y, -, h⟩ := bind_returns h
  cases h
  exact hq y

theorem tagged_other {k k' : Str} (hne : k ≠ k') {v : Val} (h : v.Tagged k) : ¬ v.Tagged k' := by
  rintro ⟨r, rfl⟩
  obtain ⟨r', h⟩ := h
  cases h
  exact hne rfl

theorem padPrimitive_fine (acc : List GrItem) (x : Val) : Post (padPrimitive acc x) fun acc' =>
    (∀ p ∈ acc', p.Savable) ↔ (∀ p ∈ acc, p.Savable) ∧ (x.Tagged k!"gr_text_box" → TextBoxFine x) := by
  intro acc' h
  unfold padPrimitive at h
  obtain ⟨k, hk, h⟩ := bind_returns h
  have ht := fun key (hkey : key.length ≠ 1) => Val.tagged_iff (key := key) hk hkey
  have other : ∀ {γ : Type} {m : PyM γ} {f : γ → GrItem}, (∀ y, (f y).Savable) → k.is k!"gr_text_box" = false →
      (m >>= fun y => pure (acc ++ [f y])) = .ok acc' →
      ((∀ p ∈ acc', p.Savable) ↔ (∀ p ∈ acc, p.Savable) ∧ (x.Tagged k!"gr_text_box" → TextBoxFine x)) := by
    intro γ m f hf hne h
    obtain ⟨y, -, h⟩ := bind_returns h
    cases h
    rw [List.forall_mem_append, ht _ (by decide), hne]
    simp [hf]
  by_cases hb : k.is k!"gr_text_box" = true
  · have hk' := (Val.is_text_iff _ _).1 hb
    subst hk'
    rw [if_neg (by decide), if_pos (by decide)] at h
    obtain ⟨y, hy, h⟩ := bind_returns h
    cases h
    rw [List.forall_mem_append, ht _ (by decide), ← GrTextBox.fine hy]
    simp [hb, GrItem.Savable]
  · have hb : k.is k!"gr_text_box" = false := by simpa using hb
    rw [hb] at h
    simp only [Bool.false_eq_true, if_false] at h
    repeat' (first | (split at h) | (refine other ?_ hb h; intro _ _ h; cases h))
    all_goals cases h
    rw [ht _ (by decide), hb]
    simp

/-- A loaded pad can be saved exactly if none of its layers is a number and its text boxes can be saved. -/
theorem C47_Pad (v : Val) (o : Pad) (h : Pad.fromSexpr v = .ok o) (i : Nat) (nl : Bool) : Returns (o.toSexpr i nl) ↔ PadFine v := by
  rw [C46_Pad]
  unfold Pad.fromSexpr at h
  obtain ⟨l, hl, h⟩ := bind_returns h
  obtain ⟨r, rfl, rfl⟩ := checkHead_inv hl
  obtain ⟨a1, -, h⟩ := bind_returns h
  obtain ⟨a2, -, h⟩ := bind_returns h
  obtain ⟨a3, -, h⟩ := bind_returns h
  have h1 := Track.folds (get := (·.layers)) (fun o x o' hs => (Pad.trackAll o x o' hs).2.2.2.2.2.2.2.1) h
  have h2 := Track.folds (get := (·.customPadPrimitives)) (fun o x o' hs => (Pad.trackAll o x o' hs).2.2.2.2.2.2.2.2.2.2.2.2.2.2.2.2.2.2.2.2.2.2.2.2.2.2.2) h
  refine and_congr ?_ ?_
  · refine h1.each (Q := fun ls => ∀ l ∈ ls, l.Sized) (fun _ h => nomatch h) fun r b b' h => ?_
    cases h
    rw [List.forall_mem_append]
    rfl
  · refine h2.each (Q := fun ps => ∀ p ∈ ps, p.Savable) (fun _ h => nomatch h) fun r b b' h => ?_
    exact forM_each (Q := fun ps : List GrItem => ∀ p ∈ ps, p.Savable) (show forM padPrimitive b r = .ok b' from h)
      fun x _ o o' hs => padPrimitive_fine o x o' hs
example := C47_Pad (.list [.str k!"pad", .int 1, .str k!"smd", .str k!"rect", .list [.str k!"layers", .int 1]]) _ rfl

theorem Pad.fine {v : Val} {o : Pad} (h : Pad.fromSexpr v = .ok o) : o.Savable ↔ PadFine v := (C46_Pad o 0 true).symm.trans (C47_Pad v o h 0 true)

/-- A loaded footprint can be saved exactly if its text boxes, pads and zones can. -/
theorem C47_Footprint (tedit v : Val) (o : Footprint) (h : Footprint.fromSexpr tedit v = .ok o) (i : Nat) (nl first : Bool) :
    Returns (o.toSexpr i nl first) ↔ FootprintFine v := by
  rw [C46_Footprint]
  obtain ⟨hd, id, xs, rfl, hh⟩ : ∃ hd id xs, v = .list (.str hd :: id :: xs) ∧ (hd = k!"module" ∨ hd = k!"footprint") := by
    unfold Footprint.fromSexpr at h
    split at h
    · rename_i a r
      split at h
      · rename_i hk
        rw [Bool.or_eq_true, Val.is_text_iff, Val.is_text_iff] at hk
        split at h
        · rename_i id r'
          rcases hk with rfl | rfl
          · exact ⟨_, id, r', rfl, .inl rfl⟩
          · exact ⟨_, id, r', rfl, .inr rfl⟩
        · cases h
      · cases h
    · cases h
    · cases h
  obtain ⟨-, -, hg, hp, hz, -⟩ := C11_Footprint tedit id hh xs o h
  refine and_congr (hg.eachOf (key := k!"fp_text_box") (by decide) fun x b hb => ?_) (and_congr (hp.each fun x b => Pad.fine) (hz.each fun x b => Zone.fine))
  by_cases ht : x.Tagged k!"fp_text_box"
  · rw [if_neg (fun h => tagged_other (by decide) (tok_iff.1 h) ht), if_pos (tok_iff.2 ht)] at hb
    rw [FpItem.fine_box hb]
    exact ⟨fun h _ => h, fun h => h ht⟩
  · refine iff_of_true ?_ fun h => absurd h ht
    rw [show tok k!"fp_text_box" x = false from Bool.eq_false_iff.2 fun h => ht (tok_iff.1 h)] at hb
    simp only [Bool.false_eq_true, if_false] at hb
    repeat' (first | (split at hb) | (refine savable_other (Q := FpItem.Savable) ?_ hb; intro _ _ h; cases h))
example := C47_Footprint (.int 0) (.list [.str k!"footprint", .str k!"a:b", .list [.str k!"zone"]]) _ rfl

theorem Footprint.fine {tedit v : Val} {o : Footprint} (h : Footprint.fromSexpr tedit v = .ok o) : o.Savable ↔ FootprintFine v :=
  (C46_Footprint o 0 true false).symm.trans (C47_Footprint tedit v o h 0 true false)

theorem floats_item {key : Str} {xs : List Val} {d v : Val} (h : LastWins (tok key) (·.idx 1) xs d v) (hd : d.Floats) :
    v.Floats ↔ LastItem key (fun x => ∀ a, x.parts[1]? = some a → a.Floats) xs :=
  h.item hd fun r b hb => by
    have := idx_parts hb
    exact ⟨fun h a ha => by cases ha.symm.trans this; exact h, fun h => h b this⟩

theorem floats_optItem {key : Str} {xs : List Val} {v : Option Val} (h : LastWins (tok key) (fun i => do return some (← i.idx 1)) xs none v) :
    (∀ a, v = some a → a.Floats) ↔ LastItem key (fun x => ∀ a, x.parts[1]? = some a → a.Floats) xs :=
  h.item (Q := fun v => ∀ a, v = some a → a.Floats) (fun _ h => nomatch h) fun r b hb => by
    obtain ⟨y, hy, hb⟩ := bind_returns hb
    cases hb
    have := idx_parts hy
    exact ⟨fun h a ha => by cases ha.symm.trans this; exact h _ rfl, fun h a ha => by cases ha; exact h _ this⟩

/-- Loaded plot settings can be saved exactly if three of their values can be converted to numbers. -/
theorem C47_PlotSettings (v : Val) (o : PlotSettings) (h : PlotSettings.fromSexpr v = .ok o) (i : Nat) (nl : Bool) :
    Returns (o.toSexpr i nl) ↔ PlotSettingsFine v := by
  rw [C46_PlotSettings]
  have h' := h
  unfold PlotSettings.fromSexpr at h'
  obtain ⟨l, hl, -⟩ := bind_returns h'
  obtain ⟨xs, rfl, -⟩ := checkHead_inv hl
  have hall := C37_PlotSettings xs o h
  have h1 : LastWins (tok k!"dashed_line_dash_ratio") (fun i => do return some (← i.idx 1)) xs none o.dashedLineDashRatio := by
    simp only [hall]
  have h2 : LastWins (tok k!"dashed_line_gap_ratio") (fun i => do return some (← i.idx 1)) xs none o.dashedLineGapRatio := by
    simp only [hall]
  have h3 : LastWins (tok k!"hpglpendiameter") (·.idx 1) xs (fl k!"0" k!"0") o.hpglPenDiameter := by
    simp only [hall]
  unfold PlotSettings.Savable PlotSettingsFine
  rw [floats_optItem h1, floats_optItem h2, floats_item h3 (.inl (.inl ⟨_, rfl⟩))]
  simp [Val.parts]
example := C47_PlotSettings (.list [.str k!"pcbplotparams", .list [.str k!"hpglpendiameter", .str k!"x"]]) _ rfl

theorem C47_SetupData (v : Val) (o : SetupData) (h : SetupData.fromSexpr v = .ok o) (i : Nat) (nl : Bool) :
    Returns (o.toSexpr i nl) ↔ SetupFine v := by
  rw [C46_SetupData]
  have h' := h
  unfold SetupData.fromSexpr at h'
  obtain ⟨l, hl, -⟩ := bind_returns h'
  obtain ⟨xs, rfl, -⟩ := checkHead_inv hl
  obtain ⟨-, -, -, -, -, -, -, hp⟩ := C37_SetupData xs o h
  refine hp.item (Q := fun p => ∀ s, p = some s → s.Savable) (fun _ h => nomatch h) fun r b hb => ?_
  obtain ⟨y, hy, hb⟩ := bind_returns hb
  cases hb
  rw [← C47_PlotSettings _ y hy 0 true, C46_PlotSettings]
  exact ⟨fun h => h y rfl, fun h _ e => by cases e; exact h⟩
example := C47_SetupData (.list [.str k!"setup", .list [.str k!"pcbplotparams", .list [.str k!"hpglpendiameter", .str k!"x"]]]) _ rfl

/-- A loaded board can be saved exactly if the expression of its file meets the condition. -/
theorem C47_Board (tedit v : Val) (o : Board) (h : Board.fromSexpr tedit v = .ok o) (i : Nat) (nl : Bool) :
    Returns (o.toSexpr i nl) ↔ BoardFine v := by
  rw [C47_Board_partial tedit v o h]
  have h' := h
  unfold Board.fromSexpr at h'
  obtain ⟨l, hl, -⟩ := bind_returns h'
  obtain ⟨xs, rfl, -⟩ := checkHead_inv hl
  obtain ⟨-, -, hf, hg, -, hz, hd, -⟩ := C11_Board tedit xs o h
  obtain ⟨-, -, -, -, -, hs, -⟩ := C37_Board tedit xs o h
  refine and_congr (hs.item (Q := SetupData.Savable) (fun _ h => nomatch h) fun r b hb => ?_) (and_congr (hf.each fun x b hb => ?_)
    (and_congr (hg.eachOf (key := k!"gr_text_box") (by decide) fun x b hb => ?_) (and_congr (hd.each fun x b => Dimension.fine)
      (hz.each fun x b => Zone.fine))))
  · rw [← C47_SetupData _ b hb 0 true, C46_SetupData]
  · exact Footprint.fine hb
  · by_cases ht : x.Tagged k!"gr_text_box"
    · rw [if_neg (fun h => tagged_other (by decide) (tok_iff.1 h) ht), if_pos (tok_iff.2 ht)] at hb
      rw [GrItem.fine_box hb]
      exact ⟨fun h _ => h, fun h => h ht⟩
    · refine iff_of_true ?_ fun h => absurd h ht
      rw [show tok k!"gr_text_box" x = false from Bool.eq_false_iff.2 fun h => ht (tok_iff.1 h)] at hb
      simp only [Bool.false_eq_true, if_false] at hb
      repeat' (first | (split at hb) | (refine savable_other (Q := GrItem.Savable) ?_ hb; intro _ _ h; cases h))
example := C47_Board (.int 0) (.list [.str k!"kicad_pcb", .list [.str k!"zone"]]) _ rfl

/-! ## Schematics -/

theorem C47_HierarchicalSheet (v : Val) (o : HierarchicalSheet) (h : HierarchicalSheet.fromSexpr v = .ok o) (i : Nat) (nl : Bool) :
    Returns (o.toSexpr i nl) ↔ SheetFine v := by
  rw [C46_HierarchicalSheet]
  have h' := h
  unfold HierarchicalSheet.fromSexpr at h'
  obtain ⟨l, hl, -⟩ := bind_returns h'
  obtain ⟨xs, rfl, -⟩ := checkHead_inv hl
  obtain ⟨-, -, -, -, -, hf, -⟩ := C37_HierarchicalSheet xs o h
  refine hf.item (Q := fun c => c.precision ≠ none → c.A.IsNumber) (fun h => absurd rfl h) fun r b hb => ?_
  obtain ⟨y, hy, hb⟩ := bind_returns hb
  obtain ⟨c, hc, hb⟩ := bind_returns hb
  cases hb
  have hy := idx_parts hy
  unfold ColorRGBA.fromSexpr at hc
  split at hc
  · split at hc
    · cases hc
      constructor
      · intro h c' hc' a ha
        cases hc'.symm.trans hy
        cases ha
        exact h (by simp)
      · exact fun h _ => h _ hy _ rfl
    · cases hc
  · cases hc
example := C47_HierarchicalSheet (.list [.str k!"sheet", .list [.str k!"fill", .list [.str k!"color", .int 0, .int 0, .int 0, .str k!"x"]]]) _ rfl

theorem Junction.fine {v : Val} {o : Junction} (h : Junction.fromSexpr v = .ok o) : o.Savable ↔ JunctionFine v := by
  have h' := h
  unfold Junction.fromSexpr at h'
  obtain ⟨l, hl, -⟩ := bind_returns h'
  obtain ⟨r, rfl, -⟩ := checkHead_inv hl
  exact (C46_Junction o 0 true).symm.trans (C47_Junction _ o h 0 true)

theorem getI_some {l : List Val} {n : Nat} {a : Val} (h : getI l n = .ok a) : l[n]? = some a := by
  unfold getI at h
  cases hl : l[n]? <;> rw [hl] at h <;> cases h
  rfl

theorem Text.fine {v : Val} {o : Text} (h : Text.fromSexpr v = .ok o) : o.Savable ↔ TextFine v := by
  have h' := h
  unfold Text.fromSexpr at h'
  obtain ⟨l, hl, h'⟩ := bind_returns h'
  obtain ⟨r, rfl, rfl⟩ := checkHead_inv hl
  obtain ⟨t, ht, -⟩ := bind_returns h'
  have ht := getI_some ht
  cases r with
  | nil => cases ht
  | cons a r =>
    cases ht
    rw [← C46_Text o 0 true, C47_Text _ _ _ o h 0 true]
    exact ⟨fun h t e => by cases e; exact h, fun h => h _ rfl⟩

theorem NetclassFlag.fine {v : Val} {o : NetclassFlag} (h : NetclassFlag.fromSexpr v = .ok o) : o.Savable ↔ NetclassFlagFine v := by
  have h' := h
  unfold NetclassFlag.fromSexpr at h'
  obtain ⟨l, hl, h'⟩ := bind_returns h'
  obtain ⟨r, rfl, rfl⟩ := checkHead_inv hl
  obtain ⟨t, ht, -⟩ := bind_returns h'
  have ht := getI_some ht
  cases r with
  | nil => cases ht
  | cons a r => exact (C46_NetclassFlag o 0 true).symm.trans (C47_NetclassFlag _ _ _ o h 0 true)

/-- A loaded schematic can be saved exactly if the expression of its file meets the condition. -/
theorem C47_Schematic (v : Val) (o : Schematic) (h : Schematic.fromSexpr v = .ok o) (i : Nat) (nl : Bool) :
    Returns (o.toSexpr i nl) ↔ SchematicFine v := by
  rw [C47_Schematic_partial v o h]
  have h' := h
  unfold Schematic.fromSexpr at h'
  obtain ⟨l, hl, -⟩ := bind_returns h'
  obtain ⟨xs, rfl, -⟩ := checkHead_inv hl
  have hall := C11_Schematic xs o h
  have h1 : Collected (tok k!"junction") Junction.fromSexpr xs o.junctions := by simp only [hall]
  have h2 : Collected (tok k!"text") Text.fromSexpr xs o.texts := by simp only [hall]
  have h3 : Collected (tok k!"netclass_flag") NetclassFlag.fromSexpr xs o.netclassFlags := by simp only [hall]
  have h4 : Collected (tok k!"sheet") HierarchicalSheet.fromSexpr xs o.sheets := by simp only [hall]
  refine and_congr (h1.each fun x b => Junction.fine) (and_congr (h2.each fun x b => Text.fine) (and_congr (h3.each fun x b => NetclassFlag.fine)
    (h4.each fun x b hb => ?_)))
  rw [← C47_HierarchicalSheet x b hb 0 true, C46_HierarchicalSheet]
example := C47_Schematic (.list [.str k!"kicad_sch", .list [.str k!"junction", .list [.str k!"diameter", .int 1]]]) _ rfl

end Kiutils
