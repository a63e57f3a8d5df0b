import Verif.Props.TimeStamp
/-!
# C92: numbers and the white space behind them

The pattern of the reader accepts a number only if a blank or a closing bracket follows (sexpr.py 13: `(?=[\ \)])`). Before a line
break, a tab or an opening bracket, what looks like a number is read as a text.
-/
namespace Kiutils

/-! ## Specification -/

/-- What the reader should make of a number: its value (C05, C45, C51 say which). -/
def asNumber (n : NumLit) : Val := n.val

/-- What the reader makes of a number in front of the white space `w` (nothing: in front of the closing bracket). -/
def readBefore (n : NumLit) : Str → Val
  | [] => n.val
  | ' ' :: _ => n.val
  | _ => .str n.src

/-! ## Lemmas -/

theorem src_not {n : NumLit} (h : n.Wf) {c : Char} (hd : isDigit c = false) (h1 : c ≠ '-') (h2 : c ≠ '+') (h3 : c ≠ '.') : c ∉ n.src := by
  intro hb
  unfold NumLit.src at hb
  rcases List.mem_append.1 hb with hb | hb
  · rcases List.mem_append.1 hb with hb | hb
    · rcases h.sign_ok with hs | hs | ⟨hs, -⟩ <;> rw [hs] at hb <;> simp at hb
      · exact h1 hb
      · exact h2 hb
    · rw [h.ip_digits _ hb] at hd
      cases hd
  · split at hb
    · cases hb
    · rename_i f hf
      rcases List.mem_cons.1 hb with hb | hb
      · exact h3 hb
      · rw [h.fp_digits f hf _ hb] at hd
        cases hd

theorem src_noQuote {n : NumLit} (h : n.Wf) : n.src.head? ≠ some '"' := fun e =>
  src_not h (by decide) (by decide) (by decide) (by decide) (List.mem_of_mem_head? e)

theorem parse_key {key : Str} (hk : isKeyword key = true) {rest : Str} {vs : List Val} (h : lex rest = toksL vs ++ [.cl])
    (hb : bareEnd rest = true) : parseSexp ('(' :: (key ++ rest)) = .ok (.list (.str key :: vs)) := by
  refine parse_of_lex ?_
  rw [lex_op, lex_keyword key rest hk hb, h, toks_list, toksL_cons]
  simp [toks]

theorem src_ne {n : NumLit} (h : n.Wf) : n.src ≠ [] := by
  intro e
  unfold NumLit.src at e
  simp only [List.append_eq_nil_iff] at e
  exact h.ip_ne e.1.2

theorem space_notBare {c : Char} (h : isSpace c = true) : isBare c = false := by
  simp [isBare, h]

/-- A number in front of white space. -/
theorem lex_before {n : NumLit} (h : n.Wf) {w : Str} (hw : Blank w) (hne : w ≠ []) (r : Str) :
    lex (n.src ++ (w ++ r)) = .atom (readBefore n w) :: lex r := by
  match w, hne with
  | c :: w, _ =>
    have hc := hw c List.mem_cons_self
    by_cases hb : c = ' '
    · subst hb
      rw [lex_num h rfl, lex_spaces hw]
      rfl
    · have e : readBefore n (c :: w) = .str n.src := by
        unfold readBefore
        split
        · rename_i e; cases e
        · rename_i e; cases e; exact absurd rfl hb
        · rfl
      have h1 : bareEnd (c :: w ++ r) = true := by simp [bareEnd, space_notBare hc]
      have h2 : numEnd (c :: w ++ r) = false := by
        have hd : c ≠ ')' := by rintro rfl; revert hc; decide
        simp [numEnd, hb, hd]
      rw [e, lex_word_of_not_numEnd n.src _ (src_ne h) (NumLit.src_bare h) (src_noQuote h) h1 h2, lex_spaces hw]

theorem sq_none {x r : Str} (hq : '"' ∉ x) (hb : '\\' ∉ x) (hr : sqEnd r = false) {prev : Char} (hp : prev ≠ '\\') :
    matchSqBody prev (x ++ '"' :: r) = none := by
  induction x generalizing prev with
  | nil => simp [matchSqBody, hp, hr]
  | cons c x ih =>
    have h1 : c ≠ '"' := fun e => hq (by simp [e])
    have h2 : c ≠ '\\' := fun e => hb (by simp [e])
    rw [List.cons_append, matchSqBody, if_pos (by simpa using h1), ih (fun h => hq (List.mem_cons_of_mem _ h)) (fun h => hb (List.mem_cons_of_mem _ h)) h2]

theorem lex_quoted_word (x r : Str) (hx : ∀ c ∈ x, isBare c = true) (hq : '"' ∉ x) (hb : '\\' ∉ x) (hs : sqEnd r = false)
    (hr : bareEnd r = true) : lex ('"' :: (x ++ '"' :: r)) = .atom (.str ('"' :: (x ++ ['"']))) :: lex r := by
  have hw : ∀ c ∈ '"' :: (x ++ ['"']), isBare c = true := by
    intro c hc
    rcases List.mem_cons.1 hc with rfl | hc
    · decide
    · rcases List.mem_append.1 hc with hc | hc
      · exact hx c hc
      · cases List.mem_singleton.1 hc; decide
  have htd := takeWhile_append_stop hw (bareEnd_head hr)
  have e : '"' :: (x ++ ['"']) ++ r = '"' :: (x ++ '"' :: r) := by simp
  rw [e] at htd
  refine lex_tok (src := '"' :: (x ++ ['"'])) (by decide) ?_
  have hn : matchNum ('"' :: (x ++ '"' :: r)) = none := by
    have d : isDigit '"' = false := by decide
    simp [matchNum, matchFloat, matchInt, splitSign, d]
  have hsq : matchSq ('"' :: (x ++ '"' :: r)) = none := sq_none hq hb hs (by decide)
  unfold tokenAt
  dsimp only
  rw [if_neg (by decide), if_neg (by decide), hn]
  dsimp only
  rw [hsq]
  dsimp only
  rw [if_pos (by decide), htd.1, htd.2]

theorem toks_readBefore (n : NumLit) (w : Str) : toks (readBefore n w) = [.atom (readBefore n w)] := by
  unfold readBefore NumLit.val
  split
  · simp only [Val.canon]; split <;> rfl
  · simp only [Val.canon]; split <;> rfl
  · rfl

theorem lex_numbers (xs : List (NumLit × Str)) (h : ∀ x ∈ xs, x.1.Wf ∧ Blank x.2) (hne : ∀ x ∈ xs.dropLast, x.2 ≠ []) :
    lex (xs.flatMap (fun x => x.1.src ++ x.2) ++ [')']) = toksL (xs.map fun x => readBefore x.1 x.2) ++ [.cl] := by
  induction xs with
  | nil => rw [List.flatMap_nil, List.nil_append, lex_cl, lex_nil]; rfl
  | cons x xs ih =>
    have hx := h x List.mem_cons_self
    have ih := ih (fun y hy => h y (List.mem_cons_of_mem _ hy)) (fun y hy => hne y (by
      cases xs with
      | nil => cases hy
      | cons z zs => rw [List.dropLast_cons_of_ne_nil (by simp)]; exact List.mem_cons_of_mem _ hy))
    rw [List.flatMap_cons, List.map_cons, toksL_cons, toks_readBefore, List.append_assoc, List.append_assoc]
    by_cases hw : x.2 = []
    · cases xs with
      | nil =>
        rw [hw, List.flatMap_nil, List.nil_append, List.nil_append, lex_num hx.1 rfl, lex_cl, lex_nil]
        rfl
      | cons z zs => exact absurd hw (hne x (by rw [List.dropLast_cons_of_ne_nil (by simp)]; exact List.mem_cons_self))
    · rw [lex_before hx.1 hx.2 hw, ih]
      rfl

/-! ## The property -/

/-- C92, the part that holds: in front of a closing bracket, or of white space that begins with a blank, a number is read as a number. -/
theorem C92_number_partial (key : Str) (hk : isKeyword key = true) (n : NumLit) (h : n.Wf) (w : Str) (hw : Blank w)
    (hb : ∀ c, w.head? = some c → c = ' ') :
    parseSexp ('(' :: (key ++ ' ' :: (n.src ++ (w ++ [')'])))) = .ok (.list [.str key, asNumber n]) := by
  refine parse_key hk ?_ rfl
  show _ = toksL [n.val] ++ [.cl]
  · rw [lex_blank]
    have := lex_numbers [(n, w)] (by simpa using ⟨h, hw⟩) (by simp)
    simp only [List.flatMap_cons, List.flatMap_nil, List.append_nil, List.append_assoc, List.map_cons, List.map_nil] at this
    rw [this]
    match w, hb with
    | [], _ => rfl
    | c :: w, hb => cases hb c rfl; rfl

/-- C92 is false of the code: in front of a tab or line break every number is read as a text. Its characters are kept. -/
theorem C92_violated (key : Str) (hk : isKeyword key = true) (n : NumLit) (h : n.Wf) (c : Char) (w : Str) (hc : isSpace c = true)
    (hn : c ≠ ' ') (hw : Blank w) :
    parseSexp ('(' :: (key ++ ' ' :: (n.src ++ (c :: w ++ [')'])))) = .ok (.list [.str key, .str n.src]) ∧ asNumber n ≠ .str n.src := by
  constructor
  · refine parse_key hk ?_ rfl
    have hw' : Blank (c :: w) := fun d hd => (List.mem_cons.1 hd).elim (fun e => e ▸ hc) (hw d)
    · rw [lex_blank, lex_before h hw' (by simp), lex_cl, lex_nil]
      have e : readBefore n (c :: w) = .str n.src := by
        unfold readBefore
        split
        · rename_i e; cases e
        · rename_i e; cases e; exact absurd rfl hn
        · rfl
      rw [e]
      rfl
  · unfold asNumber NumLit.val
    simp only [Val.canon]
    split <;> exact nofun

/-- The same in front of an opening bracket: `(key 1(b))`. -/
theorem C92_bracket_violated (key word : Str) (hk : isKeyword key = true) (hw : isKeyword word = true) (n : NumLit) (h : n.Wf) :
    parseSexp ('(' :: (key ++ ' ' :: (n.src ++ '(' :: (word ++ [')', ')'])))) = .ok (.list [.str key, .str n.src, .list [.str word]]) := by
  refine parse_key hk ?_ rfl
  rw [lex_blank, lex_word_of_not_numEnd n.src _ (src_ne h) (NumLit.src_bare h) (src_noQuote h) rfl rfl, lex_op, lex_keyword word _ hw rfl,
    lex_cl, lex_cl, lex_nil]
  rfl

/-- Quoted texts are treated alike: in front of an opening bracket the quotation marks become part of the text, `(key "x"(b))`. -/
theorem C92_quoted_violated (key x word : Str) (hk : isKeyword key = true) (hw : isKeyword word = true) (hx : ∀ c ∈ x, isBare c = true)
    (hq : '"' ∉ x) (hb : '\\' ∉ x) :
    parseSexp ('(' :: (key ++ ' ' :: '"' :: (x ++ '"' :: '(' :: (word ++ [')', ')'])))) =
      .ok (.list [.str key, .str ('"' :: (x ++ ['"'])), .list [.str word]]) := by
  refine parse_key hk ?_ rfl
  rw [lex_blank, lex_quoted_word x _ hx hq hb rfl rfl, lex_op, lex_keyword word _ hw rfl, lex_cl, lex_cl, lex_nil]
  rfl

/-- Exactly what becomes of a list of numbers, each with any white space behind it. -/
theorem C92_list (key : Str) (hk : isKeyword key = true) (xs : List (NumLit × Str)) (h : ∀ x ∈ xs, x.1.Wf ∧ Blank x.2)
    (hne : ∀ x ∈ xs.dropLast, x.2 ≠ []) :
    parseSexp ('(' :: (key ++ ' ' :: (xs.flatMap (fun x => x.1.src ++ x.2) ++ [')']))) =
      .ok (.list (.str key :: xs.map fun x => readBefore x.1 x.2)) := by
  refine parse_key hk ?_ rfl
  rw [lex_blank, lex_numbers xs h hne]

/-- A position with a line break behind the first number: loaded, but the first coordinate is a text. -/
theorem C92_Position_violated (n m : NumLit) (hn : n.Wf) (hm : m.Wf) :
    (parseSexp (k!"(at " ++ n.src ++ '\n' :: (m.src ++ [')'])) >>= Position.fromSexpr) = .ok { X := .str n.src, Y := asNumber m } ∧
    (parseSexp (k!"(at " ++ n.src ++ ' ' :: (m.src ++ [')'])) >>= Position.fromSexpr) = .ok { X := asNumber n, Y := asNumber m } := by
  have hu : ∀ k : NumLit, k.val.is k!"unlocked" = false := by
    intro k
    unfold NumLit.val
    simp only [Val.canon]
    split <;> rfl
  have hs : ∀ k : NumLit, k.Wf → (Val.str k.src).is k!"unlocked" = false := by
    intro k hk
    have hn : 'u' ∉ k.src := src_not hk (by decide) (by decide) (by decide) (by decide)
    cases he : (Val.str k.src).is k!"unlocked" with
    | false => rfl
    | true =>
      have e : k.src = k!"unlocked" := by simpa [Val.is] using he
      rw [e] at hn
      exact absurd (by decide) hn
  have h1 := C92_list k!"at" (by decide) [(n, ['\n']), (m, [])] (by simp [hn, hm, Blank, isSpace]) (by simp)
  have h2 := C92_list k!"at" (by decide) [(n, [' ']), (m, [])] (by simp [hn, hm, Blank, isSpace]) (by simp)
  have e1 : k!"(at " ++ n.src ++ '\n' :: (m.src ++ [')']) = '(' :: (k!"at" ++ ' ' :: ([(n, ['\n']), (m, [])].flatMap (fun x => x.1.src ++ x.2) ++ [')'])) := by simp
  have e2 : k!"(at " ++ n.src ++ ' ' :: (m.src ++ [')']) = '(' :: (k!"at" ++ ' ' :: ([(n, [' ']), (m, [])].flatMap (fun x => x.1.src ++ x.2) ++ [')'])) := by simp
  rw [e1, e2, h1, h2]
  constructor
  · show Position.fromSexpr (.list [.str k!"at", .str n.src, m.val]) = _
    unfold Position.fromSexpr
    have : ([Val.str k!"at", .str n.src, m.val].any (·.is k!"unlocked")) = false := by simp [hu m, hs n hn]; decide
    simp only [this]
    rfl
  · show Position.fromSexpr (.list [.str k!"at", n.val, m.val]) = _
    unfold Position.fromSexpr
    have : ([Val.str k!"at", n.val, m.val].any (·.is k!"unlocked")) = false := by simp [hu m, hu n]; decide
    simp only [this]
    rfl

/-! ## Numbers that meet the hypotheses -/

/-- `1.5` -/
def oneAndHalf : NumLit := ⟨none, k!"1", some k!"5"⟩
theorem oneAndHalf_wf : oneAndHalf.Wf := ⟨by decide, by decide, by decide, by decide, .inl rfl⟩

example : parseSexp k!"(width 1.5 \n)" = .ok (.list [.str k!"width", asNumber oneAndHalf]) :=
  C92_number_partial k!"width" (by decide) oneAndHalf oneAndHalf_wf k!" \n" (by unfold Blank; decide) (by decide)

example : parseSexp k!"(width 1.5\n )" = .ok (.list [.str k!"width", .str k!"1.5"]) :=
  (C92_violated k!"width" (by decide) oneAndHalf oneAndHalf_wf '\n' k!" " (by decide) (by decide) (by unfold Blank; decide)).1

example : parseSexp k!"(width 1.5(mm))" = .ok (.list [.str k!"width", .str k!"1.5", .list [.str k!"mm"]]) :=
  C92_bracket_violated k!"width" k!"mm" (by decide) (by decide) oneAndHalf oneAndHalf_wf

example : parseSexp k!"(name \"R1\"(hide))" = .ok (.list [.str k!"name", .str k!"\"R1\"", .list [.str k!"hide"]]) :=
  C92_quoted_violated k!"name" k!"R1" k!"hide" (by decide) (by decide) (by decide) (by decide) (by decide)

example : parseSexp k!"(size 1.5\t1.5 1.5)" = .ok (.list [.str k!"size", .str k!"1.5", asNumber oneAndHalf, asNumber oneAndHalf]) :=
  C92_list k!"size" (by decide) [(oneAndHalf, k!"\t"), (oneAndHalf, k!" "), (oneAndHalf, [])]
    (by simp [oneAndHalf_wf, Blank, isSpace]) (by simp)

example : (parseSexp k!"(at 1.5\n1.5)" >>= Position.fromSexpr) = .ok { X := .str k!"1.5", Y := asNumber oneAndHalf } :=
  (C92_Position_violated oneAndHalf oneAndHalf oneAndHalf_wf oneAndHalf_wf).1

end Kiutils
