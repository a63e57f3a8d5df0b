import Verif.Props.Joined
import Verif.Props.Conflict
import Verif.Props.Exact
import Verif.Props.InPlace
import Verif.Props.Blanks
/-!
# C93: comments in design rules

KiCad ignores everything from `#` to the end of the line in files of design rules. The library does not know comments: it reads them
as words and expressions.
-/
namespace Kiutils

/-! ## Specification -/

/-- A word of a comment: no white space, no brackets, no `^`, no quotation marks, and not a number. -/
structure CommentWord (w : Str) : Prop where
  ne : w ≠ []
  chars : ∀ c ∈ w, isSpace c = false ∧ c ≠ '(' ∧ c ≠ ')' ∧ c ≠ '^' ∧ c ≠ '"'
  noNumber : ∀ n : NumLit, n.Wf → n.src ≠ w

/-- Blanks and tabs, at least one. -/
def Gap (g : Str) : Prop := g ≠ [] ∧ ∀ c ∈ g, c = ' ' ∨ c = '\t'

/-- Words, each with a gap in front. -/
def gapped (l : List (Str × Str)) : Str := l.flatMap fun x => x.1 ++ x.2

/-- A line of comment: `#`, perhaps directly followed by a word, then words with gaps in front; perhaps blanks at the end; a line break. -/
def IsComment (c : Str) : Prop :=
  ∃ (w : Str) (l : List (Str × Str)) (g : Str), CommentWord ('#' :: w) ∧ (∀ x ∈ l, Gap x.1 ∧ CommentWord x.2) ∧ (g = [] ∨ Gap g) ∧
    c = '#' :: w ++ (gapped l ++ (g ++ ['\n']))

/-- The text consists of the rules `rs`, as they are saved, with any number of comments between them, in front of the first and behind
the last. -/
inductive RulesText : List Rule → Str → Prop
  | nil : RulesText [] []
  | rule (r : Rule) (t : Str) (rs : List Rule) (y : Str) (ht : r.toSexpr = .ok t) (h : RulesText rs y) : RulesText (r :: rs) (t ++ y)
  | comment (c : Str) (rs : List Rule) (y : Str) (hc : IsComment c) (h : RulesText rs y) : RulesText rs (c ++ y)

/-! ## Lemmas -/

theorem CommentWord.bare {w : Str} (h : CommentWord w) : ∀ c ∈ w, isBare c = true := by
  intro c hc
  obtain ⟨h1, h2, h3, h4, -⟩ := h.chars c hc
  simp [isBare, h1, h2, h3, h4]

theorem CommentWord.numeric {w : Str} (h : CommentWord w) : looksNumeric w = false := by
  cases hn : looksNumeric w with
  | false => rfl
  | true =>
    exfalso
    unfold looksNumeric at hn
    rcases hm : matchNum (w ++ [' ']) with _ | ⟨n, rest⟩
    · rw [hm] at hn; cases hn
    · have h1 := matchNum_spec hm
      have h2 := matchNum_wf hm
      have := bare_cut h1.1 (NumLit.src_bare h2) h.bare (bareEnd_of_numEnd h1.2.2) rfl
      exact h.noNumber n h2 this.1

theorem CommentWord.lex {w : Str} (h : CommentWord w) {r : Str} (hr : bareEnd r = true) : Kiutils.lex (w ++ r) = .atom (.str w) :: Kiutils.lex r :=
  lex_word w r h.ne h.bare (fun e => (h.chars _ (List.mem_of_mem_head? e)).2.2.2.2 rfl) h.numeric hr

theorem hash_word : CommentWord ['#'] := by
  refine ⟨by decide, by decide, fun n hn e => ?_⟩
  obtain ⟨d, r, hd⟩ := List.exists_cons_of_ne_nil hn.ip_ne
  have h1 := hn.ip_digits d (by rw [hd]; exact List.mem_cons_self)
  have h2 : d ∈ n.src := by
    unfold NumLit.src
    simp [hd]
  rw [e] at h2
  cases List.mem_singleton.1 h2
  revert h1
  decide

theorem Gap.lex {g : Str} (h : ∀ c ∈ g, c = ' ' ∨ c = '\t') (r : Str) : Kiutils.lex (g ++ r) = Kiutils.lex r :=
  lex_spaces (fun c hc => by rcases h c hc with rfl | rfl <;> decide) r

theorem Gap.bareEnd {g : Str} (h : Gap g) (r : Str) : Kiutils.bareEnd (g ++ r) = true := by
  match g, h.1 with
  | c :: g, _ => rcases h.2 c List.mem_cons_self with rfl | rfl <;> rfl

theorem gapped_end {l : List (Str × Str)} (h : ∀ x ∈ l, Gap x.1 ∧ CommentWord x.2) {r : Str} (hr : bareEnd r = true) : bareEnd (gapped l ++ r) = true := by
  cases l with
  | nil => exact hr
  | cons x l =>
    rw [gapped, List.flatMap_cons, List.append_assoc, List.append_assoc]
    exact (h x List.mem_cons_self).1.bareEnd _

theorem lex_gapped (l : List (Str × Str)) (h : ∀ x ∈ l, Gap x.1 ∧ CommentWord x.2) {r : Str} (hr : bareEnd r = true) :
    lex (gapped l ++ r) = toksL ((l.map Prod.snd).map Val.str) ++ lex r := by
  induction l with
  | nil => rfl
  | cons x l ih =>
    have h' := fun v hv => h v (List.mem_cons_of_mem _ hv)
    have e : gapped (x :: l) ++ r = x.1 ++ (x.2 ++ (gapped l ++ r)) := by simp [gapped]
    rw [e, Gap.lex (h x List.mem_cons_self).1.2, (h x List.mem_cons_self).2.lex (gapped_end h' hr), ih h']
    rfl

theorem gap_end {g : Str} (h : g = [] ∨ Gap g) (r : Str) : bareEnd (g ++ '\n' :: r) = true := by
  rcases h with rfl | h
  · rfl
  · exact h.bareEnd _

theorem gap_lex {g : Str} (h : g = [] ∨ Gap g) (r : Str) : lex (g ++ '\n' :: r) = lex r := by
  rcases h with rfl | h
  · exact lex_newline r
  · rw [Gap.lex h.2, lex_newline]

theorem lex_comment {c : Str} (h : IsComment c) (r : Str) :
    ∃ ws : List Str, (∀ w ∈ ws, w ≠ []) ∧ lex (c ++ r) = toksL (ws.map Val.str) ++ lex r := by
  obtain ⟨w, l, g, hw, hl, hg, rfl⟩ := h
  refine ⟨('#' :: w) :: l.map Prod.snd, ?_, ?_⟩
  · intro v hv
    rcases List.mem_cons.1 hv with rfl | hv
    · nofun
    · obtain ⟨x, hx, rfl⟩ := List.mem_map.1 hv
      exact (hl x hx).2.ne
  · have e : '#' :: w ++ (gapped l ++ (g ++ ['\n'])) ++ r = '#' :: w ++ (gapped l ++ (g ++ '\n' :: r)) := by simp
    rw [e, hw.lex (gapped_end hl (gap_end hg r)), lex_gapped l hl (gap_end hg r), gap_lex hg]
    rfl

theorem DesignRules.step_word (o : DesignRules) {w : Str} (h : w ≠ []) : o.step (.str w) = .ok o := by
  match w, h with
  | c :: s, _ =>
    have e1 : (Val.str [c]).is k!"version" = false := by simp [Val.is]
    have e2 : (Val.str [c]).is k!"rule" = false := by simp [Val.is]
    have e3 : (Val.str (c :: s)).idx 0 = .ok (.str [c]) := rfl
    unfold DesignRules.step
    rw [e3, ok_bind, e1, e2]
    rfl

theorem DesignRules.steps_words (ws : List Str) (h : ∀ w ∈ ws, w ≠ []) (o : DesignRules) : forM DesignRules.step o (ws.map Val.str) = .ok o := by
  induction ws with
  | nil => rfl
  | cons w ws ih =>
    rw [List.map_cons, forM, DesignRules.step_word o (h w List.mem_cons_self), ok_bind]
    exact ih fun v hv => h v (List.mem_cons_of_mem _ hv)

/-- Design rules and then anything: the loop goes on behind them. -/
theorem DesignRules.fromSexpr_behind (o : DesignRules) (m : List Val) :
    DesignRules.fromSexpr (.list (o.toVals ++ m)) = forM DesignRules.step {} (o.toVals ++ m) := by
  unfold DesignRules.toVals DesignRules.fromSexpr
  rfl

theorem DesignRules.fromSexpr_words (o : DesignRules) (ws : List Str) (h : ∀ w ∈ ws, w ≠ []) (m : List Val) :
    DesignRules.fromSexpr (.list (o.toVals ++ (ws.map Val.str ++ m))) = DesignRules.fromSexpr (.list (o.toVals ++ m)) := by
  rw [fromSexpr_behind, fromSexpr_behind, forM_append, forM_append]
  cases forM DesignRules.step {} o.toVals with
  | error e => rfl
  | ok a => rw [ok_bind, ok_bind, forM_append, steps_words ws h, ok_bind]

theorem lex_rules {rs : List Rule} (h : ∀ r ∈ rs, r.WF) {y : Str} (hy : RulesText rs y) (s : Str) :
    ∃ vs : List Val, lex (y ++ s) = toksL vs ++ lex s ∧ ∀ a, forM DesignRules.step a vs = forM DesignRules.step a (rs.map Rule.toVal) := by
  induction hy with
  | nil => exact ⟨[], rfl, fun _ => rfl⟩
  | rule r t rs y ht _ ih =>
    obtain ⟨vs, h1, h2⟩ := ih fun q hq => h q (List.mem_cons_of_mem _ hq)
    obtain ⟨x, hx, hx'⟩ := Rule.lx (h r List.mem_cons_self) 0
    cases Except.ok.inj (ht.symm.trans hx)
    have := (hx' _ _ ⟨h1, trivial⟩).lex
    refine ⟨r.toVal :: vs, ?_, fun a => ?_⟩
    · rw [List.append_assoc, this, toksL_cons, toksL_cons, toksL_nil]
      simp
    · rw [List.map_cons, forM, forM]
      cases a.step r.toVal with
      | error e => rfl
      | ok b => exact h2 b
  | comment c rs y hc _ ih =>
    obtain ⟨vs, h1, h2⟩ := ih h
    obtain ⟨ws, hne, hw⟩ := lex_comment hc (y ++ s)
    refine ⟨ws.map Val.str ++ vs, ?_, fun a => ?_⟩
    · rw [List.append_assoc, hw, h1, toksL_append]
      simp
    · rw [forM_append, DesignRules.steps_words ws hne, ok_bind, h2]

theorem parse_rules {o : DesignRules} (h : o.WF) {x : Str} (hx : o.toSexpr = .ok x) {s : Str} {vs : List Val} (hs : lex (s ++ [')']) = toksL vs ++ [.cl]) :
    parseSexp ('(' :: (x ++ s ++ [')'])) = .ok (.list (o.toVals ++ vs)) := by
  obtain ⟨x', hx0, hx'⟩ := DesignRules.lx h 0 false
  cases Except.ok.inj (hx.symm.trans hx0)
  apply parse_of_lex
  rw [lex_op, List.append_assoc, (hx' _ _ ⟨hs, trivial⟩).lex, toks_list, toksL_append]
  simp

/-- The design rules `o` with the rules `rs` behind. -/
def DesignRules.with (o : DesignRules) (rs : List Rule) : DesignRules := { o with rules := o.rules ++ rs }

theorem DesignRules.toVals_with (o : DesignRules) (rs : List Rule) : (o.with rs).toVals = o.toVals ++ rs.map Rule.toVal := by
  simp [DesignRules.toVals, DesignRules.with]

theorem read_with {o : DesignRules} (h : o.WF) {rs : List Rule} (hrs : ∀ r ∈ rs, r.WF) {env : Env} {p : Path} {enc : Option Codec} {fs : FS} {text : Str}
    (hc : Contains env fs p enc text)
    (hp : (parseSexp ('(' :: (text ++ [')'])) >>= DesignRules.fromSexpr) = DesignRules.fromSexpr (.list (o.toVals ++ rs.map Rule.toVal))) :
    ∃ o', DesignRules.fromFile env p enc fs = (.ok o', fs) ∧ PyEq.eq { o with rules := o.rules ++ rs, filePath := some p } o' := by
  have hw : (o.with rs).WF := ⟨h.version, fun r hr => (List.mem_append.1 hr).elim (h.rules r) (hrs r)⟩
  rw [← DesignRules.toVals_with, DesignRules.from_toVals hw] at hp
  refine ⟨_, Prod.ext ((C58_DesignRules.success ..).2 ⟨text, hc, by rw [hp]; rfl⟩) (C58_DesignRules.keeps ..), ?_⟩
  exact DesignRules.withPath (a := { o.with rs with filePath := none }) (canonEq _) (some p)

theorem DesignRules.behind_congr (o : DesignRules) {vs us : List Val} (h : ∀ a, forM DesignRules.step a vs = forM DesignRules.step a us) :
    DesignRules.fromSexpr (.list (o.toVals ++ vs)) = DesignRules.fromSexpr (.list (o.toVals ++ us)) := by
  rw [fromSexpr_behind, fromSexpr_behind, forM_append, forM_append]
  cases forM DesignRules.step {} o.toVals with
  | error e => rfl
  | ok a => exact h a

/-! ## The property -/

/-- C93, the part that holds: behind the version, any number of comments of words in front of, between and behind the rules is ignored. -/
theorem C93_words_partial (o : DesignRules) (h : o.WF) (rs : List Rule) (hrs : ∀ r ∈ rs, r.WF)
    (x y : Str) (hx : o.toSexpr = .ok x) (hy : RulesText rs y) (env : Env) (p : Path) (enc : Option Codec) (fs : FS)
    (hc : Contains env fs p enc (x ++ y)) :
    ∃ o', DesignRules.fromFile env p enc fs = (.ok o', fs) ∧ PyEq.eq { o with rules := o.rules ++ rs, filePath := some p } o' := by
  refine read_with h hrs hc ?_
  obtain ⟨vs, h1, h2⟩ := lex_rules hrs hy [')']
  rw [lex_cl, lex_nil] at h1
  rw [parse_rules h hx h1, ok_bind]
  exact o.behind_congr h2

/-- C93 is false of the code: a rule that is commented out (in any layout; all of it is in the comment if `t` has no line break) is
loaded like any other. -/
theorem C93_rule_violated (o : DesignRules) (h : o.WF) (rs : List Rule) (hrs : ∀ r ∈ rs, r.WF) (r : Rule) (hr : r.WF)
    (l : List Val) (t : Str) (hl : r.toVal = .list l) (ht : Prints l t) (x y : Str) (hx : o.toSexpr = .ok x) (hy : RulesText rs y)
    (env : Env) (p : Path) (enc : Option Codec) (fs : FS) (hc : Contains env fs p enc (x ++ ('#' :: ' ' :: (t ++ '\n' :: y)))) :
    ∃ o', DesignRules.fromFile env p enc fs = (.ok o', fs) ∧ PyEq.eq { o with rules := o.rules ++ r :: rs, filePath := some p } o' := by
  refine read_with h (rs := r :: rs) (fun q hq => (List.mem_cons.1 hq).elim (fun e => e ▸ hr) (hrs q)) hc ?_
  obtain ⟨vs, h1, h2⟩ := lex_rules hrs hy [')']
  rw [lex_cl, lex_nil] at h1
  have hlex : lex ('#' :: ' ' :: (t ++ '\n' :: y) ++ [')']) = toksL (([['#']] : List Str).map Val.str ++ r.toVal :: vs) ++ [.cl] := by
    have e : '#' :: ' ' :: (t ++ '\n' :: y) ++ [')'] = ['#'] ++ ' ' :: (t ++ '\n' :: (y ++ [')'])) := by simp
    rw [e, hash_word.lex rfl, lex_blank, ht.lex, lex_newline, h1, ← hl]
    simp [toks, toksL_cons]
  rw [parse_rules h hx hlex, ok_bind, DesignRules.fromSexpr_words o [['#']] (by decide)]
  refine o.behind_congr fun a => ?_
  rw [List.map_cons, forM, forM]
  cases a.step r.toVal with
  | error e => rfl
  | ok b => exact h2 b

/-- A number in a comment (with a blank behind it) makes the file unreadable: `TypeError`, whatever follows the line. -/
theorem C93_number_violated (o : DesignRules) (h : o.WF) (rs : List Rule) (hrs : ∀ r ∈ rs, r.WF) (w : Str) (hw : CommentWord ('#' :: w))
    (l l' : List (Str × Str)) (hl : ∀ x ∈ l, Gap x.1 ∧ CommentWord x.2) (hl' : ∀ x ∈ l', Gap x.1 ∧ CommentWord x.2) (g g' : Str) (hg : Gap g)
    (hg' : g' = [] ∨ Gap g') (n : NumLit) (hn : n.Wf) (x y : Str) (hx : o.toSexpr = .ok x) (hy : RulesText rs y)
    (hb : ∃ r, gapped l' ++ (g' ++ ['\n']) = ' ' :: r) (env : Env) (p : Path) (enc : Option Codec) (fs : FS)
    (hc : Contains env fs p enc (x ++ ('#' :: w ++ (gapped l ++ (g ++ (n.src ++ (gapped l' ++ (g' ++ ['\n']) ++ y))))))) :
    DesignRules.fromFile env p enc fs = (.error .typeError, fs) := by
  refine Prod.ext (C58_DesignRules.malformed _ _ _ _ _ _ hc ?_) (C58_DesignRules.keeps ..)
  obtain ⟨vs, h1, -⟩ := lex_rules hrs hy [')']
  rw [lex_cl, lex_nil] at h1
  have htv : toks n.val = [.atom n.val] := by
    unfold NumLit.val
    simp only [Val.canon]
    split <;> rfl
  have hlex : lex ('#' :: w ++ (gapped l ++ (g ++ (n.src ++ (gapped l' ++ (g' ++ ['\n']) ++ y)))) ++ [')']) =
      toksL ((('#' :: w) :: l.map Prod.snd).map Val.str ++ n.val :: ((l'.map Prod.snd).map Val.str ++ vs)) ++ [.cl] := by
    have e : '#' :: w ++ (gapped l ++ (g ++ (n.src ++ (gapped l' ++ (g' ++ ['\n']) ++ y)))) ++ [')'] =
        '#' :: w ++ (gapped l ++ (g ++ (n.src ++ (gapped l' ++ (g' ++ '\n' :: (y ++ [')'])))))) := by simp
    have hm : numEnd (gapped l' ++ (g' ++ '\n' :: (y ++ [')']))) = true := by
      obtain ⟨r, hr⟩ := hb
      have : gapped l' ++ (g' ++ '\n' :: (y ++ [')'])) = gapped l' ++ (g' ++ ['\n']) ++ (y ++ [')']) := by simp
      rw [this, hr]
      rfl
    rw [e, hw.lex (gapped_end hl (hg.bareEnd _)), lex_gapped l hl (hg.bareEnd _), Gap.lex hg.2, lex_num hn hm, lex_gapped l' hl' (gap_end hg' _),
      gap_lex hg', h1]
    simp [toks, htv, toksL_cons, toksL_append]
  rw [parse_rules h hx hlex, ok_bind, DesignRules.fromSexpr_words o (('#' :: w) :: l.map Prod.snd) (fun v hv => by
    rcases List.mem_cons.1 hv with rfl | hv
    · nofun
    · obtain ⟨x, hx, rfl⟩ := List.mem_map.1 hv
      exact (hl x hx).2.ne), DesignRules.fromSexpr_behind, forM_append]
  have := DesignRules.fromSexpr_steps (DesignRules.from_toVals h)
  rw [this, ok_bind, forM]
  have : ∀ a : DesignRules, a.step n.val = .error .typeError := by
    intro a
    unfold NumLit.val DesignRules.step
    simp only [Val.canon]
    split <;> rfl
  rw [this]
  rfl

/-- A comment at the beginning of the file makes it unreadable. -/
theorem C93_front_violated (c : Str) (x : Str) (env : Env) (p : Path) (enc : Option Codec) (fs : FS)
    (hc : Contains env fs p enc ('#' :: (c ++ '\n' :: x))) : ∃ e, DesignRules.fromFile env p enc fs = (.error e, fs) :=
  C83_DesignRules_front_partial env p enc fs _ hc ⟨[], '#', c ++ '\n' :: x, rfl, nofun, by decide, by decide, by decide⟩

/-! ## Examples -/

theorem word_ok {w : Str} (h : (w ≠ [] ∧ ∀ c ∈ w, isSpace c = false ∧ c ≠ '(' ∧ c ≠ ')' ∧ c ≠ '^' ∧ c ≠ '"') ∧ looksNumeric w = false) : CommentWord w :=
  ⟨h.1.1, h.1.2, fun n hn e => not_isNumeral h.2 ⟨n, hn, e⟩⟩

/-- Two rules, then the rule `c` on one line or as it is saved. -/
def raceText : Str := k!"(rule \"c\"\n  (condition \"x\"))\n"
def raceLine : Str := k!"(rule \"c\" (condition \"x\"))"
def rulesText : Str := k!"(version 1)\n\n(rule \"a\"\n  (condition \"x\"))\n(rule \"b\"\n  (condition \"x\"))\n"

theorem gap_ok {g : Str} (h : g ≠ [] ∧ ∀ c ∈ g, c = ' ' ∨ c = '\t') : Gap g := h

theorem gapped_ok {l : List (Str × Str)} (h : ∀ x ∈ l, (x.1 ≠ [] ∧ ∀ c ∈ x.1, c = ' ' ∨ c = '\t') ∧
    (x.2 ≠ [] ∧ ∀ c ∈ x.2, isSpace c = false ∧ c ≠ '(' ∧ c ≠ ')' ∧ c ≠ '^' ∧ c ≠ '"') ∧ looksNumeric x.2 = false) :
    ∀ x ∈ l, Gap x.1 ∧ CommentWord x.2 := fun x hx => ⟨(h x hx).1, word_ok (h x hx).2⟩

/-- `#see\t below` and `# end`, with the rule between them. -/
theorem raceText_ok : RulesText [raceRule k!"c"] (k!"#see\t below \n" ++ (raceText ++ (k!"# end\n" ++ []))) :=
  .comment _ _ _ ⟨k!"see", [(k!"\t ", k!"below")], k!" ", word_ok (by decide), gapped_ok (by decide), .inr (gap_ok (by decide)), by decide⟩
    (.rule _ _ _ _ (by rfl) (.comment _ _ _ ⟨[], [(k!" ", k!"end")], [], hash_word, gapped_ok (by decide), .inl rfl, by decide⟩ .nil))

theorem raceOnly_ok : RulesText [raceRule k!"c"] (raceText ++ []) := .rule _ _ _ _ (by rfl) .nil

theorem rulesText_ok : cutRules.toSexpr = .ok rulesText := by rfl

theorem raceLine_ok : Prints [.str k!"rule", .str k!"c", .list [.str k!"condition", .str k!"x"]] raceLine :=
  ⟨[], k!"rule \"c\" (condition \"x\")", by unfold Blank; decide,
    .word [] k!"rule" k!" \"c\" (condition \"x\")" _ (by unfold Blank; decide) (by decide) (by decide) (by decide)
      (fun n hn e => not_isNumeral (s := k!"rule") (by decide) ⟨n, hn, e⟩) (by decide)
      (.text k!" " k!"c" k!" (condition \"x\")" _ (by unfold Blank; decide) (by decide) (by decide)
        (.list k!" " k!"condition \"x\"" [] _ _ (by unfold Blank; decide)
          (.word [] k!"condition" k!" \"x\"" _ (by unfold Blank; decide) (by decide) (by decide) (by decide)
            (fun n hn e => not_isNumeral (s := k!"condition") (by decide) ⟨n, hn, e⟩) (by decide)
            (.text k!" " k!"x" [] _ (by unfold Blank; decide) (by decide) (by decide) (.nil [] (by unfold Blank; decide))))
          (.nil [] (by unfold Blank; decide)))), by decide⟩

theorem raceRules_wf : ∀ r ∈ [raceRule k!"c"], r.WF := fun r h => by
  cases List.mem_singleton.1 h
  exact raceRule_wf _ (by decide)

example : ∃ o', DesignRules.fromFile (Env.simple .latin1 false) k!"a" none (FS.two k!"a" k!"b" (latin (rulesText ++ (k!"#see\t below \n" ++ (raceText ++ (k!"# end\n" ++ []))))) [2]) = (.ok o', FS.two k!"a" k!"b" (latin (rulesText ++ (k!"#see\t below \n" ++ (raceText ++ (k!"# end\n" ++ []))))) [2]) ∧
    PyEq.eq { cutRules with rules := cutRules.rules ++ [raceRule k!"c"], filePath := some k!"a" } o' :=
  C93_words_partial cutRules cutRules_wf _ raceRules_wf rulesText _ rulesText_ok raceText_ok _ _ _ _
    (latin_contains (s := rulesText ++ (k!"#see\t below \n" ++ (raceText ++ (k!"# end\n" ++ [])))) (by decide +kernel) false)

/-- `# (rule "c" (condition "x"))` is the third rule of the file, and `c` as it is saved the fourth. -/
example : '\n' ∉ raceLine ∧
    ∃ o', DesignRules.fromFile (Env.simple .latin1 false) k!"a" none (FS.two k!"a" k!"b" (latin (rulesText ++ ('#' :: ' ' :: (raceLine ++ '\n' :: (raceText ++ []))))) [2]) = (.ok o', FS.two k!"a" k!"b" (latin (rulesText ++ ('#' :: ' ' :: (raceLine ++ '\n' :: (raceText ++ []))))) [2]) ∧
    PyEq.eq { cutRules with rules := cutRules.rules ++ [raceRule k!"c", raceRule k!"c"], filePath := some k!"a" } o' :=
  ⟨by decide, C93_rule_violated cutRules cutRules_wf _ raceRules_wf (raceRule k!"c") (raceRule_wf _ (by decide)) _ _ rfl raceLine_ok
    rulesText _ rulesText_ok raceOnly_ok _ _ _ _ (latin_contains (by decide +kernel) false)⟩

/-- `# least 1.5 mm`. -/
example : (DesignRules.fromFile (Env.simple .latin1 false) k!"a" none (FS.two k!"a" k!"b" (latin (rulesText ++ (k!"# least 1.5 mm\n" ++ (raceText ++ [])))) [2])).1 = .error .typeError :=
  congrArg Prod.fst (C93_number_violated cutRules cutRules_wf _ raceRules_wf [] hash_word [(k!" ", k!"least")] [(k!" ", k!"mm")]
    (gapped_ok (by decide)) (gapped_ok (by decide)) k!" " [] (gap_ok (by decide)) (.inl rfl) oneAndHalf oneAndHalf_wf
    rulesText _ rulesText_ok raceOnly_ok ⟨k!"mm\n", rfl⟩ _ _ _ _ (latin_contains (s := rulesText ++ (k!"# least 1.5 mm\n" ++ (raceText ++ []))) (by decide +kernel) false))

/-- `# My rules` as the first line. -/
example : ∃ e, DesignRules.fromFile (Env.simple .latin1 false) k!"a" none (FS.two k!"a" k!"b" (latin (k!"# My rules\n" ++ rulesText)) [2]) =
    (.error e, FS.two k!"a" k!"b" (latin (k!"# My rules\n" ++ rulesText)) [2]) :=
  C93_front_violated k!" My rules" rulesText _ _ _ _ (latin_contains (by decide +kernel) false)

end Kiutils
