import Verif.Props.Combine
import Verif.Props.TimeStamp
import Verif.Props.TokensFootprint
import Verif.Props.TokensBoard
/-!
# C85: what is loaded depends only on the file, not on the time

The default of the time stamp `tedit` of footprints is the time at which the module was imported. A file with a footprint that has no
time stamp is loaded as a different object each time the program is run, and saving it adds the time to the file.
-/
namespace Kiutils

/-! ## Specification -/

/-- The child of a footprint with its time stamp. -/
def IsStamp (x : Val) : Prop := ∃ r, x = .list (.str k!"tedit" :: r)

/-- The tree of a footprint with a time stamp. -/
def HasStamp (x : Val) : Prop := ∃ h id r, x = .list (h :: id :: r) ∧ ∃ y ∈ r, IsStamp y

/-- Everything else. -/
def isOther : Val → Bool
  | .list (.str s :: _) => s != k!"tedit"
  | _ => true

/-- The tree of a footprint without its time stamp. -/
def withoutStamp : Val → Val
  | .list (h :: id :: r) => .list (h :: id :: r.filter isOther)
  | v => v

/-- A child of a board; if it is a footprint, then without its time stamp. -/
def childWithout : Val → Val
  | .list (.str s :: r) => if s = k!"footprint" then withoutStamp (.list (.str s :: r)) else .list (.str s :: r)
  | x => x

/-- The tree of a board without the time stamps of its footprints. -/
def withoutStamps : Val → Val
  | .list l => .list (l.map childWithout)
  | v => v

/-- `Restamped t t' xs l l'`: of the children `xs` of a board, the footprints are loaded as `l` if the module was imported at the time `t`,
and as `l'` if it was imported at `t'`; those with a time stamp are the same, the others have the time of the import. -/
inductive Restamped (t t' : Val) : List Val → List Footprint → List Footprint → Prop
  | nil : Restamped t t' [] [] []
  | other {x : Val} {xs : List Val} {l l' : List Footprint} (hx : ¬ ∃ r, x = .list (.str k!"footprint" :: r)) (h : Restamped t t' xs l l') :
    Restamped t t' (x :: xs) l l'
  | same {r xs : List Val} {l l' : List Footprint} (f : Footprint) (hx : HasStamp (.list (.str k!"footprint" :: r))) (h : Restamped t t' xs l l') :
    Restamped t t' (.list (.str k!"footprint" :: r) :: xs) (f :: l) (f :: l')
  | moved {r xs : List Val} {l l' : List Footprint} (f : Footprint) (hx : ¬ HasStamp (.list (.str k!"footprint" :: r))) (h : Restamped t t' xs l l') :
    Restamped t t' (.list (.str k!"footprint" :: r) :: xs) ({ f with tedit := t } :: l) ({ f with tedit := t' } :: l')

/-! ## Lemmas -/

theorem comm_bind {α β : Type} {u : β → β} {m : PyM α} {f g : α → PyM β} (h : ∀ a, g a = (f a).map u) : (m >>= g) = (m >>= f).map u := by
  cases m with
  | error e => rfl
  | ok a => exact h a

theorem comm_ite {β : Type} {u : β → β} {c : Prop} [Decidable c] {a b a' b' : PyM β} (hc : c → a' = a.map u) (hn : ¬ c → b' = b.map u) :
    (if c then a' else b') = (if c then a else b).map u := by
  by_cases h : c
  · rw [if_pos h, if_pos h]; exact hc h
  · rw [if_neg h, if_neg h]; exact hn h

theorem comm_ok {α β : Type} {u : β → β} {m : PyM α} {a : α} {f g : α → PyM β} (hm : m = .ok a) (h : g a = (f a).map u) :
    (m >>= g) = (m >>= f).map u := by
  rw [hm]; exact h

/-- Goes through the branches of a loop body. -/
macro "comm" : tactic => `(tactic|
  repeat' (with_reducible first
    | refine comm_ite (fun _ => ?_) (fun _ => ?_)
    | refine comm_bind fun _ => ?_
    | exact rfl))

/-- The footprint with another time stamp. -/
abbrev stamp (t : Val) (o : Footprint) : Footprint := { o with tedit := t }

theorem Footprint.step_stamp (t : Val) {x : Val} (hx : ¬ IsStamp x) (o : Footprint) :
    Footprint.step (stamp t o) x = (Footprint.step o x).map (stamp t) := by
  cases x with
  | list l =>
    cases l with
    | nil => rfl
    | cons k r =>
      have hk : k.is k!"tedit" = true → False := fun h => hx ⟨r, by rw [Val.is_iff h]⟩
      unfold Footprint.step
      refine comm_ok (a := k) rfl ?_
      comm
      all_goals first | rfl | (exfalso; apply hk; assumption)
  | _ =>
    unfold Footprint.step
    comm
    all_goals rfl

theorem Footprint.step_isStamp (t : Val) {x : Val} (hx : IsStamp x) (o : Footprint) :
    Footprint.step (stamp t o) x = Footprint.step o x := by
  obtain ⟨r, rfl⟩ := hx
  rfl

theorem Footprint.loop_stamp (t : Val) {xs : List Val} (hx : ∀ x ∈ xs, ¬ IsStamp x) (o : Footprint) :
    forM Footprint.step (stamp t o) xs = (forM Footprint.step o xs).map (stamp t) := by
  induction xs generalizing o with
  | nil => rfl
  | cons x xs ih =>
    simp only [forM]
    rw [Footprint.step_stamp t (hx x List.mem_cons_self)]
    cases Footprint.step o x with
    | error e => rfl
    | ok a => exact ih (fun y hy => hx y (List.mem_cons_of_mem _ hy)) a

theorem Footprint.loop_isStamp (t : Val) {xs : List Val} (hx : ∃ x ∈ xs, IsStamp x) (o : Footprint) :
    forM Footprint.step (stamp t o) xs = forM Footprint.step o xs := by
  induction xs generalizing o with
  | nil => obtain ⟨x, h, _⟩ := hx; cases h
  | cons x xs ih =>
    simp only [forM]
    by_cases h : IsStamp x
    · rw [Footprint.step_isStamp t h]
    · rw [Footprint.step_stamp t h]
      cases Footprint.step o x with
      | error e => rfl
      | ok a =>
        refine ih ?_ a
        obtain ⟨y, hy, hs⟩ := hx
        rcases List.mem_cons.1 hy with rfl | hy
        · exact absurd hs h
        · exact ⟨y, hy, hs⟩

theorem Footprint.loop_keeps {xs : List Val} (hx : ∀ x ∈ xs, ¬ IsStamp x) {o a : Footprint} (h : forM Footprint.step o xs = .ok a) :
    a.tedit = o.tedit := by
  have := Footprint.loop_stamp o.tedit hx o
  rw [show stamp o.tedit o = o from rfl, h] at this
  have e : a = stamp o.tedit a := Except.ok.inj this
  rw [e]

theorem Footprint.loop_map (t v : Val) (xs : List Val) (o : Footprint) :
    (forM Footprint.step (stamp v o) xs).map (stamp t) = (forM Footprint.step o xs).map (stamp t) := by
  by_cases h : ∃ x ∈ xs, IsStamp x
  · rw [Footprint.loop_isStamp v h]
  · rw [Footprint.loop_stamp v (fun x hx hs => h ⟨x, hx, hs⟩)]
    cases forM Footprint.step o xs <;> rfl

theorem Footprint.fromSexpr_list (t : Val) (h : Val) (r : List Val) : Footprint.fromSexpr t (.list (h :: r)) =
    if h.is k!"module" || h.is k!"footprint" then
      match r with
      | id :: r' => forM Footprint.step (stamp t (Footprint.setLibId { tedit := .int 0 } id)) r'
      | [] => .error .indexError
    else .error .exception := by
  cases r with
  | nil => rfl
  | cons id r =>
    have e : Footprint.setLibId { tedit := t } id = stamp t (Footprint.setLibId { tedit := .int 0 } id) := by
      simp only [Footprint.setLibId]
      cases matchNick id.pyStr <;> rfl
    show (if _ then forM Footprint.step (Footprint.setLibId { tedit := t } id) r else _) = _
    rw [e]

theorem Footprint.stamped (t t' : Val) {v : Val} (h : HasStamp v) : Footprint.fromSexpr t v = Footprint.fromSexpr t' v := by
  obtain ⟨h, id, r, rfl, hr⟩ := h
  rw [Footprint.fromSexpr_list, Footprint.fromSexpr_list]
  simp only [Footprint.loop_isStamp _ hr]

theorem Footprint.unstamped (t : Val) {v : Val} (h : ¬ HasStamp v) :
    Footprint.fromSexpr t v = (Footprint.fromSexpr (.int 0) v).map (stamp t) := by
  cases v with
  | list l =>
    match l with
    | [] => rfl
    | [a] =>
      rw [Footprint.fromSexpr_list, Footprint.fromSexpr_list]
      exact comm_ite (fun _ => rfl) (fun _ => rfl)
    | a :: id :: r =>
      rw [Footprint.fromSexpr_list, Footprint.fromSexpr_list]
      have hr : ∀ y ∈ r, ¬ IsStamp y := fun y hy hs => h ⟨a, id, r, rfl, y, hy, hs⟩
      refine comm_ite (fun _ => ?_) (fun _ => rfl)
      exact Footprint.loop_stamp t hr (stamp (.int 0) (Footprint.setLibId { tedit := .int 0 } id))
  | _ => rfl

theorem notStamp_of_keep {x : Val} (h : isOther x = true) : ¬ IsStamp x := by
  rintro ⟨r, rfl⟩
  cases h

theorem isStamp_of_drop {x : Val} (h : ¬ isOther x = true) : IsStamp x := by
  unfold isOther at h
  split at h
  · rename_i s r
    have : s = k!"tedit" := by simpa using h
    exact ⟨r, by rw [this]⟩
  · exact absurd rfl h

theorem Footprint.loop_filter (t : Val) (xs : List Val) {o a : Footprint} (h : forM Footprint.step o xs = .ok a) :
    forM Footprint.step (stamp t o) (xs.filter isOther) = .ok (stamp t a) := by
  induction xs generalizing o with
  | nil => cases h; rfl
  | cons x xs ih =>
    obtain ⟨b, hb, hx⟩ := bind_ok_split (m := Footprint.step o x) (f := fun o' => forM Footprint.step o' xs) h
    clear h
    rw [List.filter_cons]
    split
    · rename_i hk
      simp only [forM]
      rw [Footprint.step_stamp t (notStamp_of_keep hk), hb]
      exact ih hx
    · rename_i hk
      obtain ⟨r, rfl⟩ := isStamp_of_drop hk
      have hc : stamp t b = stamp t o := by
        cases r with
        | nil => cases hb
        | cons y r => cases hb; rfl
      rw [← hc]
      exact ih hx

theorem Footprint.from_without (t t' : Val) {v : Val} {o : Footprint} (h : Footprint.fromSexpr t v = .ok o) :
    Footprint.fromSexpr t' (withoutStamp v) = .ok { o with tedit := t' } := by
  cases v with
  | list l =>
    match l with
    | [] => cases h
    | [a] =>
      rw [Footprint.fromSexpr_list] at h
      split at h <;> cases h
    | a :: id :: r =>
      rw [Footprint.fromSexpr_list] at h
      rw [withoutStamp, Footprint.fromSexpr_list]
      split at h
      · rename_i hc
        rw [if_pos hc]
        exact Footprint.loop_filter t' r (o := stamp t (Footprint.setLibId { tedit := .int 0 } id)) h
      · cases h
  | _ => cases h

/-- The board with other footprints. -/
abbrev withFootprints (l : List Footprint) (o : Board) : Board := { o with footprints := l }

theorem Board.step_other (t t' : Val) (l : List Footprint) {x : Val} (hx : ¬ ∃ r, x = .list (.str k!"footprint" :: r)) (o : Board) :
    Board.step t (withFootprints l o) x = (Board.step t' o x).map (withFootprints l) := by
  cases x with
  | list c =>
    cases c with
    | nil => rfl
    | cons k r =>
      have hk : k.is k!"footprint" = true → False := fun h => hx ⟨r, by rw [Val.is_iff h]⟩
      unfold Board.step
      refine comm_ok (a := k) rfl ?_
      comm
      all_goals first | rfl | (exfalso; apply hk; assumption)
  | str s =>
    cases s with
    | nil => rfl
    | cons c s =>
      unfold Board.step
      refine comm_ok (a := .str [c]) rfl ?_
      comm
      all_goals rfl
  | _ => rfl

theorem Board.step_footprint (t : Val) (r : List Val) (o : Board) :
    Board.step t o (.list (.str k!"footprint" :: r)) =
      (Footprint.fromSexpr t (.list (.str k!"footprint" :: r))).map fun f => { o with footprints := o.footprints ++ [f] } := by
  show (Footprint.fromSexpr t (.list (.str k!"footprint" :: r)) >>= fun f => pure _) = _
  cases Footprint.fromSexpr t (.list (.str k!"footprint" :: r)) <;> rfl

theorem Board.loop_moved (t t' : Val) (xs : List Val) (o : Board) (l l' : List Footprint) :
    (∃ e, forM (Board.step t) (withFootprints l o) xs = .error e ∧ forM (Board.step t') (withFootprints l' o) xs = .error e) ∨
    ∃ a m m', forM (Board.step t) (withFootprints l o) xs = .ok (withFootprints (l ++ m) a) ∧
      forM (Board.step t') (withFootprints l' o) xs = .ok (withFootprints (l' ++ m') a) ∧ Restamped t t' xs m m' := by
  induction xs generalizing o l l' with
  | nil => exact .inr ⟨o, [], [], by rw [List.append_nil]; rfl, by rw [List.append_nil]; rfl, .nil⟩
  | cons x xs ih =>
    simp only [forM]
    by_cases hx : ∃ r, x = .list (.str k!"footprint" :: r)
    · obtain ⟨r, rfl⟩ := hx
      rw [Board.step_footprint, Board.step_footprint]
      have hd : (∃ e, Footprint.fromSexpr t (.list (.str k!"footprint" :: r)) = .error e ∧
            Footprint.fromSexpr t' (.list (.str k!"footprint" :: r)) = .error e) ∨
          ∃ f f', Footprint.fromSexpr t (.list (.str k!"footprint" :: r)) = .ok f ∧
            Footprint.fromSexpr t' (.list (.str k!"footprint" :: r)) = .ok f' ∧
            ∀ m m', Restamped t t' xs m m' → Restamped t t' (.list (.str k!"footprint" :: r) :: xs) (f :: m) (f' :: m') := by
        by_cases hs : HasStamp (.list (.str k!"footprint" :: r))
        · rw [← Footprint.stamped t t' hs]
          cases Footprint.fromSexpr t (.list (.str k!"footprint" :: r)) with
          | error e => exact .inl ⟨e, rfl, rfl⟩
          | ok f => exact .inr ⟨f, f, rfl, rfl, fun m m' hm => .same f hs hm⟩
        · rw [Footprint.unstamped t hs, Footprint.unstamped t' hs]
          cases Footprint.fromSexpr (.int 0) (.list (.str k!"footprint" :: r)) with
          | error e => exact .inl ⟨e, rfl, rfl⟩
          | ok f => exact .inr ⟨_, _, rfl, rfl, fun m m' hm => .moved f hs hm⟩
      rcases hd with ⟨e, h1, h2⟩ | ⟨f, f', h1, h2, hr⟩
      · rw [h1, h2]
        exact .inl ⟨e, rfl, rfl⟩
      · rw [h1, h2]
        rcases ih o (l ++ [f]) (l' ++ [f']) with ⟨e, h3, h4⟩ | ⟨a, m, m', h3, h4, hm⟩
        · exact .inl ⟨e, h3, h4⟩
        · rw [List.append_assoc] at h3 h4
          exact .inr ⟨a, f :: m, f' :: m', h3, h4, hr m m' hm⟩
    · rw [Board.step_other t t' l hx o, Board.step_other t' t' l' hx o]
      cases Board.step t' o x with
      | error e => exact .inl ⟨e, rfl, rfl⟩
      | ok o' =>
        rcases ih o' l l' with h | ⟨a, m, m', h1, h2, hm⟩
        · exact .inl h
        · exact .inr ⟨a, m, m', h1, h2, .other hx hm⟩

theorem Board.loop_without (t : Val) (xs : List Val) {o a : Board} (h : forM (Board.step t) o xs = .ok a) :
    forM (Board.step t) (withFootprints (o.footprints.map (stamp t)) o) (xs.map childWithout) = .ok (withFootprints (a.footprints.map (stamp t)) a) := by
  induction xs generalizing o with
  | nil => cases h; rfl
  | cons x xs ih =>
    obtain ⟨b, hb, hx⟩ := bind_ok_split (m := Board.step t o x) (f := fun o' => forM (Board.step t) o' xs) h
    clear h
    rw [List.map_cons]
    simp only [forM]
    by_cases hf : ∃ r, x = .list (.str k!"footprint" :: r)
    · obtain ⟨r, rfl⟩ := hf
      rw [Board.step_footprint] at hb
      cases hq : Footprint.fromSexpr t (.list (.str k!"footprint" :: r)) with
      | error e => rw [hq] at hb; cases hb
      | ok f =>
        rw [hq] at hb
        have hw := Footprint.from_without t t hq
        have hy : ∃ r', withoutStamp (.list (.str k!"footprint" :: r)) = .list (.str k!"footprint" :: r') := by
          cases r <;> exact ⟨_, rfl⟩
        obtain ⟨r', hr'⟩ := hy
        have e : Board.step t (withFootprints (o.footprints.map (stamp t)) o) (withoutStamp (.list (.str k!"footprint" :: r))) =
            .ok (withFootprints (b.footprints.map (stamp t)) b) := by
          rw [hr'] at hw ⊢
          rw [Board.step_footprint, hw]
          have hb : ({ o with footprints := o.footprints ++ [f] } : Board) = b := Except.ok.inj hb
          rw [← hb]
          simp [Except.map]
        rw [show childWithout (.list (.str k!"footprint" :: r)) = withoutStamp (.list (.str k!"footprint" :: r)) from rfl, e]
        exact ih hx
    · have hk : Board.step t (withFootprints (o.footprints.map (stamp t)) o) x = .ok (withFootprints (b.footprints.map (stamp t)) b) := by
        have h1 := Board.step_other t t o.footprints hf o
        have h2 := Board.step_other t t (o.footprints.map (stamp t)) hf o
        rw [hb] at h2
        rw [show withFootprints o.footprints o = o from rfl, hb] at h1
        have : b = withFootprints o.footprints b := Except.ok.inj h1
        rw [h2, this]
        rfl
      have hm : childWithout x = x := by
        unfold childWithout
        split
        · rename_i s r
          rw [if_neg]
          rintro rfl
          exact hf ⟨r, rfl⟩
        · rfl
      rw [hm, hk]
      exact ih hx

theorem Board.from_without (t : Val) {v : Val} {o : Board} (h : Board.fromSexpr t v = .ok o) :
    Board.fromSexpr t (withoutStamps v) = .ok { o with footprints := o.footprints.map fun f => { f with tedit := t } } := by
  cases v with
  | list l =>
    cases l with
    | nil => cases h
    | cons k r =>
      unfold Board.fromSexpr at h
      obtain ⟨l, hl, hx⟩ := bind_ok_split (m := checkHead k!"kicad_pcb" (.list (k :: r))) h
      unfold checkHead at hl
      simp only at hl
      split at hl
      · rename_i hk
        cases hl
        cases Val.is_iff hk
        exact Board.loop_without t (.str k!"kicad_pcb" :: r) hx
      · cases hl
  | _ => cases h

theorem Footprint.canon_stamp (o : Footprint) (s : Str) : canon (stamp (.str s) o) = stamp (.str s) (canon o) := rfl

theorem Board.canon_stamp (o : Board) (s : Str) : canon (withFootprints (o.footprints.map (stamp (.str s))) o) =
    withFootprints ((canon o).footprints.map (stamp (.str s))) (canon o) := by
  show withFootprints (canon (o.footprints.map (stamp (.str s)))) (canon o) = _
  congr 1
  show (o.footprints.map (stamp (.str s))).map canon = (o.footprints.map canon).map (stamp (.str s))
  rw [List.map_map, List.map_map]
  rfl

/-- The default time stamp with a letter is a word, and plain text. -/
theorem default_word {now : Nat} {s : Str} (hs : Footprint.defaultTedit now = .str s) {l : Char} (hl : l ∈ s) (hd : isDigit l = false) :
    AtomOk (.str s) ∧ PlainClock (.str s) := by
  have hx : HexOf s now := by
    obtain ⟨s', hs', hx, -⟩ := C52_default now
    rw [hs] at hs'
    exact Val.str.inj hs' ▸ hx
  refine ⟨.inr (hex_tokOk (hex_chars hx) hl hd), ?_⟩
  intro u hu c hc
  cases List.mem_singleton.1 (show u ∈ [s] from hu)
  obtain ⟨ds, hds, rfl, -⟩ := hx
  obtain ⟨d, hd, rfl⟩ := List.mem_map.1 hc
  have := hds d hd
  revert this
  generalize d = n
  intro h
  have : ∀ n < 16, 32 ≤ (hexDigits.getD n ' ').toNat ∧ (hexDigits.getD n ' ').toNat ≤ 126 := by decide
  exact this n h

/-! ## Theorems -/

/-- A footprint with a time stamp is loaded as the same object whatever the time. -/
theorem C85_Footprint_partial (t t' : Val) (h id : Val) (xs : List Val) (hs : ∃ x ∈ xs, IsStamp x) :
    Footprint.fromSexpr t (.list (h :: id :: xs)) = Footprint.fromSexpr t' (.list (h :: id :: xs)) :=
  Footprint.stamped t t' ⟨h, id, xs, rfl, hs⟩
example := C85_Footprint_partial (.str k!"5f12ab34") (.str k!"5f12ab35") (.str k!"footprint") (.str k!"A:B")
  [.list [.str k!"layer", .str k!"F.Cu"], .list [.str k!"tedit", .str k!"1a"]] ⟨_, .tail _ (.head _), _, rfl⟩

/-- Violated by every footprint without one: the object loaded has the time of the import, and another one at another time. -/
theorem C85_Footprint_violated (t t' : Val) (v : Val) (hv : ¬ HasStamp v) (o : Footprint) (ho : Footprint.fromSexpr t v = .ok o) :
    o.tedit = t ∧ Footprint.fromSexpr t' v = .ok { o with tedit := t' } := by
  rw [Footprint.unstamped t hv] at ho
  rw [Footprint.unstamped t' hv]
  cases h : Footprint.fromSexpr (.int 0) v with
  | error e => rw [h] at ho; cases ho
  | ok f =>
    rw [h] at ho
    have ho : stamp t f = o := Except.ok.inj ho
    rw [← ho]
    exact ⟨rfl, rfl⟩

theorem C85_Footprint_differs (t t' : Val) (ht : t ≠ t') (v : Val) (hv : ¬ HasStamp v) (o o' : Footprint) (ho : Footprint.fromSexpr t v = .ok o)
    (ho' : Footprint.fromSexpr t' v = .ok o') : o ≠ o' := by
  rintro rfl
  exact ht ((C85_Footprint_violated t t' v hv o ho).1.symm.trans (C85_Footprint_violated t' t v hv o ho').1)
example := C85_Footprint_differs (.str k!"5f12ab34") (.str k!"5f12ab35") (fun e => absurd (Val.str.inj e) (by decide))
  (.list [.str k!"footprint", .str k!"A:B", .list [.str k!"layer", .str k!"F.Cu"]])
  (by
    rintro ⟨h, id, r, e, y, hy, hs⟩
    cases e
    cases List.mem_singleton.1 hy
    obtain ⟨r, hr⟩ := hs
    cases hr) _ _ rfl rfl

/-- Opening a footprint file without a time stamp and saving it at once adds the time of the import to the file, which is otherwise kept. -/
theorem C85_Footprint_in_place (o : Footprint) (h : o.WF) (now : Nat) (s : Str) (hs : Footprint.defaultTedit now = .str s) (l : Char) (hl : l ∈ s)
    (hd : isDigit l = false) (env : Env) (has : Char → Prop) (he : Usual env has) (p : Path) (fs : FS) (hp : Holds env fs p (withoutStamp o.toVal))
    (hw : Openable fs p) :
    Leaves ((do
      let a ← Footprint.fromFile env (Footprint.defaultTedit now) p none
      saving (a.toFile env (some p) none) : FileM Unit) fs) env fs p (Footprint.toVal { o with tedit := .str s }) := by
  rw [hs]
  obtain ⟨ha, hc⟩ := default_word hs hl hd
  obtain ⟨text, htext, hof⟩ := hp
  have hr : fs.canRead p = true := contains_canRead htext
  have hb := noCR_base he.charWise
  have hf := parse_load hof (Footprint.from_without (.str s) (.str s) (Footprint.from_toVal h (.str s)))
  have hload := Session.load (C58_Footprint (.str s)) htext hf
  have hon := Footprint.loaded_only (.str s) hc (contains_noCR (show CharWise (used env none) has from he.charWise) htext) hf
  have h1 : Footprint.WF (stamp (.str s) { o with filePath := none }) := { h with tedit := ha }
  have hwn : Footprint.WF (stamp (.str s) (canon { o with filePath := none })) := Footprint.canon_stamp .. ▸ Stable.keep h1
  have hend := Footprint.leaves hwn he (fp := some p) (p := p) rfl hw hr hon
  rw [run_ok hload]
  refine (congrArg (Leaves _ env fs p) ?_).mp hend
  rw [← Footprint.canon_stamp, Footprint.toVal_canon _ h1]
  rfl
set_option maxRecDepth 100000 in
example := C85_Footprint_in_place smallFootprint smallFootprint_wf 0x5f12ab34 k!"5f12ab34" (congrArg Val.str (by decide +kernel)) 'f' (by decide) (by decide)
  (Env.simple .latin1 false) _ (usual_latin1 false) k!"a" (FS.spelled (withoutStamp smallFootprint.toVal))
  (spelled_holds (by decide +kernel) false) (two_openable ..)

/-- The footprints of a board: those with a time stamp are loaded as the same objects whatever the time, all others have the time of the
import. Everything else, also whether the file can be loaded, does not depend on the time. -/
theorem C85_Board_partial (t t' : Val) (items : List Val) :
    (∃ e, Board.fromSexpr t (.list (.str k!"kicad_pcb" :: items)) = .error e ∧ Board.fromSexpr t' (.list (.str k!"kicad_pcb" :: items)) = .error e) ∨
    ∃ (o : Board) (l l' : List Footprint), Board.fromSexpr t (.list (.str k!"kicad_pcb" :: items)) = .ok { o with footprints := l } ∧
      Board.fromSexpr t' (.list (.str k!"kicad_pcb" :: items)) = .ok { o with footprints := l' } ∧ Restamped t t' items l l' := by
  rcases Board.loop_moved t t' (.str k!"kicad_pcb" :: items) {} [] [] with h | ⟨a, m, m', h1, h2, hm⟩
  · exact .inl h
  · cases hm with
    | other _ hm => exact .inr ⟨a, m, m', h1, h2, hm⟩

theorem Restamped.refl {t t' : Val} {xs : List Val} {l l' : List Footprint} (h : Restamped t t' xs l l')
    (hs : ∀ r, .list (.str k!"footprint" :: r) ∈ xs → HasStamp (.list (.str k!"footprint" :: r))) : l = l' := by
  induction h with
  | nil => rfl
  | other _ _ ih => exact ih fun r hr => hs r (List.mem_cons_of_mem _ hr)
  | same f _ _ ih => rw [ih fun r hr => hs r (List.mem_cons_of_mem _ hr)]
  | moved f hx _ ih => exact absurd (hs _ List.mem_cons_self) hx

theorem Restamped.ne {t t' : Val} (ht : t ≠ t') {xs : List Val} {l l' : List Footprint} (h : Restamped t t' xs l l') {r : List Val}
    (hm : .list (.str k!"footprint" :: r) ∈ xs) (hs : ¬ HasStamp (.list (.str k!"footprint" :: r))) : l ≠ l' := by
  induction h with
  | nil => cases hm
  | other hx _ ih =>
    rcases List.mem_cons.1 hm with rfl | hm
    · exact absurd ⟨r, rfl⟩ hx
    · exact ih hm
  | same f hx _ ih =>
    rcases List.mem_cons.1 hm with hm | hm
    · exact absurd (hm ▸ hx) hs
    · exact fun e => ih hm (List.cons.inj e).2
  | moved f hx _ ih => exact fun e => ht (congrArg Footprint.tedit (List.cons.inj e).1)

/-- If all its footprints have time stamps, a board is loaded as the same object whatever the time. -/
theorem C85_Board_same (t t' : Val) (items : List Val)
    (hs : ∀ r, .list (.str k!"footprint" :: r) ∈ items → HasStamp (.list (.str k!"footprint" :: r))) :
    Board.fromSexpr t (.list (.str k!"kicad_pcb" :: items)) = Board.fromSexpr t' (.list (.str k!"kicad_pcb" :: items)) := by
  rcases C85_Board_partial t t' items with ⟨e, h1, h2⟩ | ⟨o, l, l', h1, h2, h3⟩
  · rw [h1, h2]
  · rw [h1, h2, h3.refl hs]
example := C85_Board_same (.str k!"5f12ab34") (.str k!"5f12ab35")
  [.list [.str k!"footprint", .str k!"A:B", .list [.str k!"tedit", .str k!"1a"]]]
  (fun r hr => by
    cases List.mem_singleton.1 hr
    exact ⟨_, _, _, rfl, _, .head _, _, rfl⟩)

/-- Violated by every board with a footprint without time stamp. -/
theorem C85_Board_violated (t t' : Val) (ht : t ≠ t') (items : List Val) (r : List Val) (hm : .list (.str k!"footprint" :: r) ∈ items)
    (hs : ¬ HasStamp (.list (.str k!"footprint" :: r))) (o o' : Board) (ho : Board.fromSexpr t (.list (.str k!"kicad_pcb" :: items)) = .ok o)
    (ho' : Board.fromSexpr t' (.list (.str k!"kicad_pcb" :: items)) = .ok o') : o ≠ o' := by
  rcases C85_Board_partial t t' items with ⟨e, h1, h2⟩ | ⟨b, l, l', h1, h2, h3⟩
  · rw [h1] at ho; cases ho
  · have e1 : withFootprints l b = o := Except.ok.inj (h1.symm.trans ho)
    have e2 : withFootprints l' b = o' := Except.ok.inj (h2.symm.trans ho')
    rw [← e1, ← e2]
    exact fun e => h3.ne ht hm hs (congrArg Board.footprints e)
example := C85_Board_violated (.str k!"5f12ab34") (.str k!"5f12ab35") (fun e => absurd (Val.str.inj e) (by decide))
  [.list [.str k!"footprint", .str k!"A:B", .list [.str k!"layer", .str k!"F.Cu"]]] _ (.head _)
  (by
    rintro ⟨h, id, r, e, y, hy, hs⟩
    cases e
    cases List.mem_singleton.1 hy
    obtain ⟨r, hr⟩ := hs
    cases hr) _ _ rfl rfl

/-- Opening a board whose footprints have no time stamps and saving it at once adds the time of the import to all of them. The setting
useauxorigin is lost (C40). -/
theorem C85_Board_in_place (o : Board) (h : o.WF) (now : Nat) (s : Str) (hs : Footprint.defaultTedit now = .str s) (l : Char) (hl : l ∈ s)
    (hd : isDigit l = false) (env : Env) (has : Char → Prop) (he : Usual env has) (p : Path) (fs : FS) (hp : Holds env fs p (withoutStamps o.toVal))
    (hw : Openable fs p) :
    Leaves ((do
      let a ← Board.fromFile env (Footprint.defaultTedit now) p none
      saving (a.toFile env none none) : FileM Unit) fs) env fs p (Board.toVal { o with
        setup := { o.setup with plotSettings := o.setup.plotSettings.map fun p => { p with useAuxOrigin := false } }
        footprints := o.footprints.map fun f => { f with tedit := .str s } }) := by
  rw [hs]
  obtain ⟨ha, hc⟩ := default_word hs hl hd
  obtain ⟨text, htext, hof⟩ := hp
  have hr : fs.canRead p = true := contains_canRead htext
  have hb := noCR_base he.charWise
  have hf := parse_load hof (Board.from_without (.str s) (Board.from_toVal h (.str s)))
  have hload := Session.load (C58_Board (.str s)) htext (congrArg (Except.map fun o => { o with filePath := some p }) hf)
  have hon := Board.loaded_only (.str s) hc (contains_noCR (show CharWise (used env none) has from he.charWise) htext) hf
  have h0 : Board.WF o.asRead := Board.WF.asRead h
  have hfs : ∀ f ∈ o.asRead.footprints.map (stamp (.str s)), f.WF := fun f hf => by
    obtain ⟨g, hg, rfl⟩ := List.mem_map.1 hf
    exact Footprint.wf_tedit (h0.footprints g hg) ha
  have h1 : Board.WF (withFootprints (o.asRead.footprints.map (stamp (.str s))) o.asRead) := { h0 with footprints := hfs }
  have hwn := Stable.keep h1
  rw [Board.canon_stamp] at hwn
  have hwp : Board.WF { withFootprints ((canon o.asRead).footprints.map (stamp (.str s))) (canon o.asRead) with filePath := some p } := { hwn with }
  have hend := Board.leaves hwp he (fp := none) (p := p) rfl hw hr hon
  rw [run_ok hload]
  refine (congrArg (Leaves _ env fs p) ?_).mp hend
  show Board.toVal (withFootprints ((canon o.asRead).footprints.map (stamp (.str s))) (canon o.asRead)) = _
  rw [← Board.canon_stamp, Board.toVal_canon _ h1]
  simp only [Board.asRead, Board.toVal, List.map_map]
  rfl

/-- A board with a footprint. -/
def stampBoard : Board := { smallBoard with footprints := [smallFootprint] }

theorem stampBoard_wf : stampBoard.WF :=
  { smallBoard_wf with footprints := fun _ h => by cases List.mem_singleton.1 h; exact smallFootprint_wf }

set_option maxRecDepth 100000 in
example := C85_Board_in_place stampBoard stampBoard_wf 0x5f12ab34 k!"5f12ab34" (congrArg Val.str (by decide +kernel)) 'f' (by decide) (by decide)
  (Env.simple .latin1 false) _ (usual_latin1 false) k!"a" (FS.spelled (withoutStamps stampBoard.toVal))
  (spelled_holds (by decide +kernel) false) (two_openable ..)

end Kiutils
