import Verif.Proofs.Regex
/-!
# The scanners of the model are the regular expressions of the source (C01, C25)

The model of `parse_sexp` and of the `libId` setters scans text with hand-written functions. Here they are proved equal to the
expressions of the source, given letter by letter as text, read with the notation of `re` and run by back-tracking search
(`Verif/Regex.lean`).
-/
namespace Kiutils

/-! ## Specification -/

/-- `float(text)` for the texts that the group `num` matches: optional sign, digits, optionally a point and digits. -/
def floatText (s : Str) : F64 :=
  let sg := splitSign (fun c => c == '+' || c == '-') s
  F64.ofDecimal (sg.1 == some '-') (sg.2.takeWhile (· != '.')) ((sg.2.dropWhile (· != '.')).drop 1)

/-- `term, value = [(t,v) for t,v in termtypes.groupdict().items() if v][0]` (sexpr.py 23) -/
def termAndValue (groups : List (Str × Str)) : Option (Str × Str) :=
  [k!"brackl", k!"brackr", k!"num", k!"sq", k!"s"].findSome? fun t =>
    match groupText t groups with
    | some v => if v.isEmpty then none else some (t, v)
    | none => none

/-- The loop of `parse_sexp`, sexpr.py 22–43, on the matches of the regular expression. -/
def parseMatches (stack : List (List Val)) (out : List Val) : List (List (Str × Str)) → PyM Val
  | [] =>
    if !stack.isEmpty then .error .assertionError
    else match out with
      | v :: _ => .ok v
      | [] => .error .indexError
  | m :: ms =>
    match termAndValue m with
    | none => .error .indexError
    | some (term, value) =>
      if term = k!"brackl" then parseMatches (out :: stack) [] ms
      else if term = k!"brackr" then
        match stack with
        | [] => .error .assertionError
        | top :: stack' => parseMatches stack' (top ++ [.list out]) ms
      else if term = k!"num" then
        let v := floatText value
        parseMatches stack (out ++ [if v.isInteger then .int v.toInt else .flt v]) ms
      else if term = k!"sq" then parseMatches stack (out ++ [.str (unescape ((value.drop 1).dropLast))]) ms
      else if term = k!"s" then parseMatches stack (out ++ [.str value]) ms
      else .error .notImplemented

/-! ## The tokens -/

/-- What the loop makes of a match. -/
def termToken (m : List (Str × Str)) : Option Tok :=
  match termAndValue m with
  | none => none
  | some (term, value) =>
    if term = k!"brackl" then some .op
    else if term = k!"brackr" then some .cl
    else if term = k!"num" then some (.atom (Val.canon (.flt (floatText value))))
    else if term = k!"sq" then some (.atom (.str (unescape ((value.drop 1).dropLast))))
    else if term = k!"s" then some (.atom (.str value))
    else none

theorem floatText_src {n : NumLit} (h : n.Wf) :
    floatText n.src = F64.ofDecimal (n.sign == some '-') n.ip (n.fp.getD []) := by
  obtain ⟨sign, ip, fp⟩ := n
  have hdot : ∀ c ∈ ip, (c != '.') = true := by
    intro c hc
    have := h.ip_digits c hc
    simp only [bne_iff_ne, ne_eq]
    rintro rfl
    exact absurd this (by decide)
  have hsplit : ∀ t, splitSign (fun c => c == '+' || c == '-') (sign.toList ++ ip ++ t) = (sign, ip ++ t) := by
    intro t
    rcases h.sign_ok with h1 | h1 | ⟨h1, _⟩
    · simp only at h1
      subst h1
      exact splitSign_digits h.ip_ne h.ip_digits fun c hc => (isDigit_ne_sign hc).1
    · simp only at h1
      subst h1
      rfl
    · simp only at h1
      subst h1
      rfl
  cases fp with
  | none =>
    simp only [floatText, NumLit.src, hsplit]
    rw [List.takeWhile_append_of_pos hdot, List.dropWhile_append_of_pos hdot]
    simp
  | some f =>
    simp only [floatText, NumLit.src, hsplit]
    rw [List.takeWhile_append_of_pos hdot, List.dropWhile_append_of_pos hdot]
    simp

theorem termToken_num {v : Str} (h : v ≠ []) : termToken [(k!"num", v)] = some (.atom (Val.canon (.flt (floatText v)))) := by
  cases v with
  | nil => exact absurd rfl h
  | cons c v => rfl

theorem termToken_sq {v : Str} (h : v ≠ []) : termToken [(k!"sq", v)] = some (.atom (.str (unescape ((v.drop 1).dropLast)))) := by
  cases v with
  | nil => exact absurd rfl h
  | cons c v => rfl

theorem termToken_s {v : Str} (h : v ≠ []) : termToken [(k!"s", v)] = some (.atom (.str v)) := by
  cases v with
  | nil => exact absurd rfl h
  | cons c v => rfl

theorem textTo_eq {a b src : Str} {x y : Option Char} {g g' : List (Str × Str)} (h : src ++ b = a) :
    RePos.textTo ⟨x, a, g⟩ ⟨y, b, g'⟩ = src := by
  subst h
  simp [RePos.textTo]

/-- The alternatives of `term_regex` behind the white space. -/
def termAlts : Re :=
  match termRegex with
  | .seq _ a => a
  | a => a

theorem tokenAt_space {c : Char} (r : Str) (h : isSpace c = true) : tokenAt (c :: r) = none := by
  have hd := isDigit_of_space h
  have hs : ∀ d, isSpace d = false → (c == d) = false := by
    intro d hd
    simp only [beq_eq_false_iff_ne, ne_eq]
    rintro rfl
    simp [h] at hd
  have hq : c ≠ '"' := by simpa using hs '"' rfl
  have hsq : matchSq (c :: r) = none := by
    rw [matchSq]
    intro r' h
    exact hq (List.cons.inj h).1
  have hb : isBare c = false := by simp [isBare, h]
  simp only [tokenAt, hs '(' rfl, hs ')' rfl, matchNum_of_head hd (by simpa using hs '+' rfl) (by simpa using hs '-' rfl), hsq, hb]
  rfl

theorem first_termAlts (b : Option Char) (s : Str) :
    match tokenAt s with
    | some (src, t, rest) => ∃ b' n, termAlts.first ⟨b, s, []⟩ some = some ⟨b', rest, [(n, src)]⟩ ∧ termToken [(n, src)] = some t
    | none => termAlts.first ⟨b, s, []⟩ some = none := by
  simp only [termAlts, termRegex, Re.first_alt, Re.first_group]
  obtain ⟨b1, h1⟩ := Re.first_float (k := fun t => some ({ t with groups := t.groups ++ [(k!"num", RePos.textTo ⟨b, s, []⟩ t)] } : RePos)) ⟨b, s, []⟩
  obtain ⟨b2, h2⟩ := Re.first_int (k := fun t => some ({ t with groups := t.groups ++ [(k!"num", RePos.textTo ⟨b, s, []⟩ t)] } : RePos)) ⟨b, s, []⟩
  have h3 := Re.first_sq (k := fun t => some ({ t with groups := t.groups ++ [(k!"sq", RePos.textTo ⟨b, s, []⟩ t)] } : RePos)) (fun _ => rfl) ⟨b, s, []⟩
  obtain ⟨b4, h4⟩ := Re.first_bare (k := fun t => some ({ t with groups := t.groups ++ [(k!"s", RePos.textTo ⟨b, s, []⟩ t)] } : RePos)) (fun _ => rfl) ⟨b, s, []⟩
  rw [h1, h2, h3, h4]
  simp only [Re.first_set, Re.inSet_lit]
  cases s with
  | nil => rfl
  | cons c r =>
    simp only [tokenAt]
    cases hc1 : c == '(' with
    | true =>
      simp only [beq_iff_eq] at hc1
      subst hc1
      exact ⟨some '(', k!"brackl", by simp [RePos.textTo], rfl⟩
    | false =>
    cases hc2 : c == ')' with
    | true =>
      simp only [beq_iff_eq] at hc2
      subst hc2
      exact ⟨some ')', k!"brackr", by simp [RePos.textTo], rfl⟩
    | false =>
    simp only [Bool.false_eq_true, if_false, Option.none_or]
    cases hn : matchNum (c :: r) with
    | some x =>
      obtain ⟨n, rest⟩ := x
      have hspec := matchNum_spec hn
      have hw := matchNum_wf hn
      have htok : termToken [(k!"num", n.src)] = some (.atom n.val) := by
        rw [termToken_num (NumLit.src_ne_nil_of hspec.2.1), floatText_src hw]
        rfl
      simp only
      rw [matchNum] at hn
      cases hf : matchFloat (c :: r) with
      | some y =>
        obtain ⟨n', rest'⟩ := y
        rw [hf] at hn
        simp only [Option.some_or, Option.some.injEq, Prod.mk.injEq] at hn
        obtain ⟨rfl, rfl⟩ := hn
        refine ⟨b1, k!"num", ?_, htok⟩
        simp only [Option.some_or, textTo_eq hspec.1, List.nil_append]
      | none =>
        rw [hf, Option.none_or] at hn
        refine ⟨b2, k!"num", ?_, htok⟩
        simp only [hn, Option.none_or, Option.some_or, textTo_eq hspec.1, List.nil_append]
    | none =>
      have hf : matchFloat (c :: r) = none := by
        rw [matchNum] at hn
        cases hf : matchFloat (c :: r) with
        | none => rfl
        | some y => simp [hf] at hn
      have hi : matchInt (c :: r) = none := by
        rw [matchNum, hf, Option.none_or] at hn
        exact hn
      simp only [hf, hi, Option.none_or]
      cases hq : matchSq (c :: r) with
      | some x =>
        obtain ⟨body, rest⟩ := x
        have hspec := matchSq_spec hq
        have hsrc : ('"' :: (body ++ ['"'])) ++ rest = c :: r := by
          rw [← hspec.1]
          simp
        refine ⟨some '"', k!"sq", ?_, ?_⟩
        · simp only [Option.some_or, textTo_eq hsrc, List.nil_append]
        · rw [termToken_sq (by simp)]
          simp
      | none =>
        simp only [Option.none_or, List.takeWhile_cons, List.dropWhile_cons]
        cases hb : isBare c with
        | false => rfl
        | true =>
          refine ⟨b4, k!"s", ?_, ?_⟩
          · have hsrc : (c :: r.takeWhile isBare) ++ r.dropWhile isBare = c :: r := by
              simp [List.takeWhile_append_dropWhile]
            simp only [if_true, List.isEmpty_cons, Bool.false_eq_true, if_false, textTo_eq hsrc, List.nil_append]
          · rw [if_pos rfl, termToken_s (by simp)]

theorem first_term (b : Option Char) (s : Str) :
    match tokenAt (s.dropWhile isSpace) with
    | some (src, t, rest) => ∃ b' n, (termRegex.run ⟨b, s, []⟩).head? = some ⟨b', rest, [(n, src)]⟩ ∧ termToken [(n, src)] = some t
    | none => (termRegex.run ⟨b, s, []⟩).head? = none := by
  have hset : Re.inSet false [.space] = isSpace := funext Re.inSet_space
  have h : (termRegex.run ⟨b, s, []⟩).head? = termAlts.first (RePos.eatAll isSpace ⟨b, s, []⟩) some := by
    rw [Re.head_run]
    show (Re.seq (.star true (.set false [.space])) termAlts).first _ _ = _
    rw [Re.first_seq, Re.first_star_set, hset]
    refine Re.greedy_eatAll isSpace [] ?_ b s
    intro b c r hc
    have := first_termAlts b (c :: r)
    rw [tokenAt_space r hc] at this
    exact this
  rw [h]
  exact first_termAlts _ _

theorem lex_none {c : Char} {r : Str} (hs : isSpace c = false) (h : tokenAt (c :: r) = none) : lex (c :: r) = lex r := by
  show (scan (r.length + 1) (c :: r)).filterMap Piece.tok? = _
  simp only [scan, hs, h, Bool.false_eq_true, if_false]
  rfl

theorem lex_dropSpace (s : Str) : lex s = lex (s.dropWhile isSpace) := by
  conv => lhs; rw [← List.takeWhile_append_dropWhile (p := isSpace) (l := s)]
  exact lex_spaces mem_takeWhile _

theorem dropWhile_head {p : Char → Bool} {s : Str} {c : Char} {r : Str} (h : s.dropWhile p = c :: r) : p c = false := by
  induction s with
  | nil => cases h
  | cons d s ih =>
    rw [List.dropWhile_cons] at h
    split at h
    · exact ih h
    · rename_i hd
      obtain ⟨rfl, _⟩ := List.cons.inj h
      simpa using hd

theorem dropWhile_length (p : Char → Bool) (s : Str) : (s.dropWhile p).length ≤ s.length := by
  induction s with
  | nil => exact Nat.le_refl _
  | cons c s ih =>
    rw [List.dropWhile_cons]
    split
    · exact Nat.le_trans ih (by simp)
    · exact Nat.le_refl _

theorem findFrom_lex (n : Nat) (b : Option Char) (s : Str) (h : s.length < n) :
    (termRegex.findFrom n b s).map termToken = (lex s).map some := by
  induction n generalizing b s with
  | zero => omega
  | succ n ih =>
    have ft := first_term b s
    rw [Re.findFrom.eq_def]
    simp only
    cases ht : tokenAt (s.dropWhile isSpace) with
    | some x =>
      obtain ⟨src, t, rest⟩ := x
      simp only [ht] at ft
      obtain ⟨b', m, h1, h2⟩ := ft
      have hlen := tokenAt_length ht
      have hd := dropWhile_length isSpace s
      have hlt : rest.length < s.length := by omega
      rw [h1]
      simp only [hlt, if_true, List.map_cons, h2]
      rw [ih b' rest (by omega), lex_dropSpace s]
      cases hs : s.dropWhile isSpace with
      | nil => rw [hs] at ht; cases ht
      | cons c r =>
        rw [hs] at ht
        rw [lex_tok (dropWhile_head hs) ht]
        rfl
    | none =>
      simp only [ht] at ft
      rw [ft]
      cases s with
      | nil => rfl
      | cons c u =>
        have hu : u.length < n := by simp only [List.length_cons] at h; omega
        simp only
        rw [ih (some c) u hu]
        cases hc : isSpace c with
        | true => rw [lex_space hc]
        | false =>
          rw [List.dropWhile_cons, hc] at ht
          rw [lex_none hc (by simpa using ht)]

theorem parseMatches_run (ms : List (List (Str × Str))) (ts : List Tok) (h : ms.map termToken = ts.map some) (stack : List (List Val))
    (out : List Val) : parseMatches stack out ms = run stack out ts := by
  induction ms generalizing ts stack out with
  | nil =>
    cases ts with
    | cons t ts => cases h
    | nil =>
      cases stack with
      | nil => cases out <;> rfl
      | cons _ _ => rfl
  | cons m ms ih =>
    cases ts with
    | nil => cases h
    | cons t ts =>
      rw [List.map_cons, List.map_cons, List.cons.injEq] at h
      obtain ⟨hm, hms⟩ := h
      rw [parseMatches.eq_def]
      simp only
      rw [termToken] at hm
      cases htv : termAndValue m with
      | none => rw [htv] at hm; cases hm
      | some tv =>
        obtain ⟨term, value⟩ := tv
        rw [htv] at hm
        simp only at hm ⊢
        split at hm
        · rename_i h1
          cases hm
          rw [if_pos h1]
          exact ih ts hms _ _
        · rename_i h1
          rw [if_neg h1]
          split at hm
          · rename_i h2
            cases hm
            rw [if_pos h2]
            cases stack with
            | nil => rfl
            | cons top stack => exact ih ts hms _ _
          · rename_i h2
            rw [if_neg h2]
            split at hm
            · rename_i h3
              cases hm
              rw [if_pos h3]
              exact ih ts hms _ _
            · rename_i h3
              rw [if_neg h3]
              split at hm
              · rename_i h4
                cases hm
                rw [if_pos h4]
                exact ih ts hms _ _
              · rename_i h4
                rw [if_neg h4]
                split at hm
                · rename_i h5
                  cases hm
                  rw [if_pos h5]
                  exact ih ts hms _ _
                · cases hm

/-- For every text, `parse_sexp` of the model is the loop of the source run on the matches of the regular expression of the
source. -/
theorem C01_regex (s : Str) : ∃ r, Re.ofText termRegexText = some r ∧ parseSexp s = parseMatches [] [] (r.findIter s) :=
  ⟨termRegex, termRegex_text, (parseMatches_run _ _ (findFrom_lex _ _ s (Nat.lt_succ_self _)) [] []).symm⟩

example : (∃ r, Re.ofText termRegexText = some r ∧ (r.findIter k!"(a ^1.5 \"x\" )").map (·.length) = [1, 1, 1, 1, 1]) := ⟨termRegex, termRegex_text, by rfl⟩

/-! ## Identifiers -/

/-- `re.match(r"^(.+?):(.+?)$", s)`, for every string: the model finds the same two groups, or none. -/
theorem C25_nick_regex (s : Str) : ∃ r, Re.ofText nickRegexText = some r ∧
    r.match? s = (matchNick s).map fun x => [(k!"1", x.1), (k!"2", x.2)] := by
  refine ⟨nickRegex, nickRegex_text, ?_⟩
  rw [Re.match?, Re.head_run]
  simp only [nickRegex, Re.first_seq, Re.first_start, Option.isNone_none, if_true]
  rw [Re.lazyGroup Re.lazyPlus_dot k!"1" ':' (fun b s g => Re.lastGroup Re.lazyPlus_dot k!"2" b s g), matchNick, Re.matchNickAux_search]
  rfl

/-- `re.match(r"^(.+?)_(\d+?)_(\d+?)$", s)`, for every string: the model finds the same three groups, or none. -/
theorem C25_unit_regex (s : Str) : ∃ r, Re.ofText unitRegexText = some r ∧
    r.match? s = (matchUnit s).map fun x => [(k!"1", x.1), (k!"2", x.2.1), (k!"3", x.2.2)] := by
  refine ⟨unitRegex, unitRegex_text, ?_⟩
  rw [Re.match?, Re.head_run]
  simp only [unitRegex, Re.first_seq, Re.first_start, Option.isNone_none, if_true]
  rw [Re.lazyGroup Re.lazyPlus_dot k!"1" '_' (F := matchIdsAux []) (G := fun x => [(k!"2", x.1), (k!"3", x.2)])
    (fun b s g => by
      rw [Re.lazyGroup Re.lazyPlus_digit k!"2" '_' (fun b s g => Re.lastGroup Re.lazyPlus_digit k!"3" b s g), Re.matchIdsAux_search]),
    matchUnit, Re.matchUnitAux_search]
  rfl

end Kiutils
