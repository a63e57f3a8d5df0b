import Verif.Props.Provenance
import Verif.Props.Chars
import Verif.Props.Encoding
/-!
# C64: what was loaded in an encoding can be saved in it

An object loaded from a file in some encoding contains no characters that the encoding lacks, and saving adds none: saving it again
in that encoding never fails because of the encoding – a file opened in ASCII or Latin-1 can be saved in ASCII or Latin-1. Nothing is
assumed about the content of the file but that it loads.
-/
namespace Kiutils

/-! ## Specification -/

/-- An encoding that works character by character: `has` are the characters it has, among them printable ASCII characters and line
ends; it can encode exactly the strings of such characters, and decoding gives nothing else. -/
structure CharWise (e : Codec) (has : Char → Prop) : Prop where
  ascii : ∀ c : Char, 32 ≤ c.toNat ∧ c.toNat ≤ 126 → has c
  lineFeed : has '\n'
  carriageReturn : has '\r'
  encodes : ∀ s, (∀ c ∈ s, has c) → (e.encode s).isSome = true
  decodes : ∀ b s, e.decode b = some s → ∀ c ∈ s, has c

/-- The encoding that is used: the one given, else that of the platform. -/
def used (env : Env) (encoding : Option Codec) : Codec :=
  match encoding with
  | some c => c
  | none => env.locale

/-- The clock gives printable ASCII characters. -/
def PlainClock (tedit : Val) : Prop := ∀ s ∈ texts tedit, ∀ c ∈ s, 32 ≤ c.toNat ∧ c.toNat ≤ 126

/-- ASCII. -/
def Codec.ascii : Codec where
  encode s := if s.all (fun c => c.toNat < 128) then some (s.map fun c => UInt8.ofNat c.toNat) else none
  decode b := if b.all (fun x => x.toNat < 128) then some (b.map fun x => Char.ofNat x.toNat) else none

/-! ## Lemmas -/

section
variable {has : Char → Prop}

theorem CharWise.base {e : Codec} (h : CharWise e has) : Base has := ⟨fun c hc => hc.elim (fun e => e ▸ h.lineFeed) (h.ascii c)⟩

instance : Parts (Chars has) := ⟨fun _ _ h hb c hc => hb c (h.subset hc)⟩

theorem orig_chars [Base has] {s : Str} (h : Orig (Chars has) s) : Chars has s :=
  h.elim (fun h => fun c hc => Base.plain c (by
    have : ∀ s ∈ defaultTexts, ∀ c ∈ s, Plain c := by decide
    exact this s h c hc)) id

theorem textMode_chars {s t : Str} (h : TextMode s t) (hn : has '\n') (hs : Chars has s) : Chars has t := by
  induction h with
  | nil => exact hs
  | crlf _ ih => exact .cons' hn (ih fun c hc => hs c (List.mem_cons_of_mem _ (List.mem_cons_of_mem _ hc)))
  | cr _ _ ih => exact .cons' hn (ih fun c hc => hs c (List.mem_cons_of_mem _ hc))
  | other _ _ ih => exact .cons' (hs _ (List.mem_cons_self ..)) (ih fun c hc => hs c (List.mem_cons_of_mem _ hc))

theorem drops_chars {w t : Str} (h : DropsEscapes w t) (hw : Chars has w) : Chars has t := by
  induction h with
  | nil => exact hw
  | keep _ ih => exact .cons' (hw _ (List.mem_cons_self ..)) (ih fun c hc => hw c (List.mem_cons_of_mem _ hc))
  | drop _ ih =>
    exact .cons' (hw _ (List.mem_cons_of_mem _ (List.mem_cons_self ..))) (ih fun c hc => hw c (List.mem_cons_of_mem _ (List.mem_cons_of_mem _ hc)))

theorem stands_chars {text t : Str} (h : StandsIn text t) (ht : Chars has text) : Chars has t :=
  let ⟨_, hw, hd⟩ := h
  drops_chars hd fun c hc => ht c (hw.subset hc)

theorem contains_chars {env : Env} {fs : FS} {p : Path} {enc : Option Codec} {text : Str} (he : CharWise (used env enc) has)
    (h : Contains env fs p enc text) : Chars has text := by
  obtain ⟨b, s, -, -, hd, hm⟩ := h
  refine textMode_chars hm he.lineFeed (he.decodes b s ?_)
  cases enc <;> exact hd

theorem listName_chars [Base has] {v : Val} (hv : Only (Chars has) v) : ListNameOk (Chars has) v := fun h l r e _ => by
  subst e
  exact Val.pyStr_chars (Only.mk_list hv.list.tail.head.list)

theorem clock_chars [Base has] {tedit : Val} (h : PlainClock tedit) : Only (Orig (Chars has)) tedit :=
  fun s hs => .inr fun c hc => Base.plain c (.inr (h s hs c hc))

theorem save_encodes (d : Doc) {env : Env} {p : Path} {enc : Option Codec} {fs : FS} {text : Str} {e : Codec} (he : CharWise e has)
    (hu : d.codec env enc = e) (ht : d.text = .ok text) (hc : Chars has text) (hf : env.full = none) (ho : Openable fs p) :
    (d.toFile env (some p) enc fs).outcome = .ok () := by
  refine save_ok d env p enc fs hf ho ?_
  unfold Doc.bytes
  rw [ht, hu]
  refine he.encodes _ ?_
  intro c h
  split at h
  · obtain ⟨x, hx, h⟩ := List.mem_flatMap.1 h
    split at h
    · simp only [List.mem_cons, List.not_mem_nil, or_false] at h
      rcases h with rfl | rfl
      · exact he.carriageReturn
      · exact he.lineFeed
    · simp only [List.mem_cons, List.not_mem_nil, or_false] at h
      subst h
      exact hc c hx
  · exact hc c h
end

theorem small_char : ∀ n < 256, (Char.ofNat n).toNat = n := by decide +kernel

theorem charWise_utf8 : CharWise .utf8 fun _ => True := ⟨fun _ _ => trivial, trivial, trivial, fun _ _ => rfl, fun _ _ _ _ _ => trivial⟩

theorem charWise_latin1 : CharWise .latin1 fun c => c.toNat < 256 where
  ascii _ h := by omega
  lineFeed := by decide
  carriageReturn := by decide
  encodes s h := by
    have : s.all (fun c => c.toNat < 256) = true := List.all_eq_true.2 fun c hc => decide_eq_true (h c hc)
    simp only [Codec.latin1, this, if_true]; rfl
  decodes b s h c hc := by
    simp only [Codec.latin1, Option.some.injEq] at h
    subst h
    obtain ⟨x, -, rfl⟩ := List.mem_map.1 hc
    have : x.toNat < 256 := x.toNat_lt
    rw [small_char _ this]
    exact this

theorem charWise_ascii : CharWise .ascii fun c => c.toNat < 128 where
  ascii _ h := by omega
  lineFeed := by decide
  carriageReturn := by decide
  encodes s h := by
    have : s.all (fun c => c.toNat < 128) = true := List.all_eq_true.2 fun c hc => decide_eq_true (h c hc)
    simp only [Codec.ascii, this, if_true]; rfl
  decodes b s h c hc := by
    simp only [Codec.ascii] at h
    split at h
    · next hb =>
      cases h
      obtain ⟨x, hx, rfl⟩ := List.mem_map.1 hc
      have := of_decide_eq_true (List.all_eq_true.1 hb x hx)
      rw [small_char _ (by omega)]
      exact this
    · exact nomatch h

/-! ## Theorems -/

theorem C64_LibTable (env : Env) (p : Path) (enc : Option Codec) (fs : FS) (o : LibTable)
    (h : (LibTable.fromFile env p enc fs).1 = .ok o) (has : Char → Prop) (he : CharWise (used env enc) has)
    (env' : Env) (enc' : Option Codec) (hu : used env' enc' = used env enc)
    (q : Path) (fs' : FS) (hq : Openable fs' q) (hf : env'.full = none) : (o.toFile env' (some q) enc' fs').outcome = .ok () := by
  have := he.base
  obtain ⟨content, hc, hr⟩ := (C58_LibTable.success ..).1 h
  obtain ⟨o', ho', rfl⟩ := map_ok_split hr
  obtain ⟨v, hv, ho⟩ := bind_ok_split ho'
  have hs : Only (Chars has) v := fun s hs => stands_chars (parse_stands hv s hs) (contains_chars he hc)
  have hl : Only (Chars has) o' := fun s h => orig_chars (LibTable.fromSexpr_only hs o' ho s h)
  exact save_encodes (.libTable { o' with filePath := some p }) he (by cases enc' <;> exact hu) rfl (LibTable.toSexpr_chars hl) hf hq (enc := enc')

theorem C64_DesignRules (env : Env) (p : Path) (enc : Option Codec) (fs : FS) (o : DesignRules)
    (h : (DesignRules.fromFile env p enc fs).1 = .ok o) (has : Char → Prop) (he : CharWise (used env enc) has)
    (env' : Env) (enc' : Option Codec) (hu : used env' enc' = used env enc)
    (q : Path) (fs' : FS) (hq : Openable fs' q) (hf : env'.full = none) (text : Str) (ht : o.toSexpr = .ok text) :
    (o.toFile env' (some q) enc' fs').outcome = .ok () := by
  have := he.base
  obtain ⟨content, hc, hr⟩ := (C58_DesignRules.success ..).1 h
  obtain ⟨o', ho', rfl⟩ := map_ok_split hr
  obtain ⟨v, hv, ho⟩ := bind_ok_split ho'
  have hs : Only (Chars has) v := fun s hs => stands_chars (parse_stands hv s hs) (.cons (by decide) (.append (contains_chars he hc) (.cons (by decide) .nil)))
  have hl : Only (Chars has) o' := fun s h => orig_chars (DesignRules.fromSexpr_only hs o' ho s h)
  exact save_encodes (.designRules { o' with filePath := some p }) he (by cases enc' <;> exact hu) ht (DesignRules.toSexpr_chars hl text ht) hf hq (enc := enc')

theorem C64_WorkSheet (env : Env) (p : Path) (enc : Option Codec) (fs : FS) (o : WorkSheet)
    (h : (WorkSheet.fromFile env p enc fs).1 = .ok o) (has : Char → Prop) (he : CharWise (used env enc) has)
    (env' : Env) (hu : env'.locale = used env enc)
    (q : Path) (fs' : FS) (hq : Openable fs' q) (hf : env'.full = none) (text : Str) (ht : o.toSexpr = .ok text) :
    (o.toFile env' (some q) fs').outcome = .ok () := by
  have := he.base
  obtain ⟨content, hc, hr⟩ := (C58_WorkSheet.success ..).1 h
  obtain ⟨o', ho', rfl⟩ := map_ok_split hr
  obtain ⟨v, hv, ho⟩ := bind_ok_split ho'
  have hs : Only (Chars has) v := fun s hs => stands_chars (parse_stands hv s hs) (contains_chars he hc)
  have hl : Only (Chars has) o' := fun s h => orig_chars (WorkSheet.fromSexpr_only hs o' ho s h)
  exact save_encodes (.workSheet { o' with filePath := some p }) he hu ht (WorkSheet.toSexpr_chars hl text ht) hf hq (enc := none)

theorem C64_SymbolLib (env : Env) (p : Path) (enc : Option Codec) (fs : FS) (o : SymbolLib)
    (h : (SymbolLib.fromFile env p enc fs).1 = .ok o) (has : Char → Prop) (he : CharWise (used env enc) has)
    (env' : Env) (enc' : Option Codec) (hu : used env' enc' = used env enc)
    (q : Path) (fs' : FS) (hq : Openable fs' q) (hf : env'.full = none) : (o.toFile env' (some q) enc' fs').outcome = .ok () := by
  have := he.base
  obtain ⟨content, hc, hr⟩ := (C58_SymbolLib.success ..).1 h
  obtain ⟨o', ho', rfl⟩ := map_ok_split hr
  obtain ⟨v, hv, ho⟩ := bind_ok_split ho'
  have hs : Only (Chars has) v := fun s hs => stands_chars (parse_stands hv s hs) (contains_chars he hc)
  have hl : Only (Chars has) o' := fun s h => orig_chars (SymbolLib.fromSexpr_only hs o' ho s h)
  exact save_encodes (.symbolLib { o' with filePath := some p }) he (by cases enc' <;> exact hu) rfl (SymbolLib.toSexpr_chars hl) hf hq (enc := enc')

theorem C64_Schematic (env : Env) (p : Path) (enc : Option Codec) (fs : FS) (o : Schematic)
    (h : (Schematic.fromFile env p enc fs).1 = .ok o) (has : Char → Prop) (he : CharWise (used env enc) has)
    (env' : Env) (enc' : Option Codec) (hu : used env' enc' = used env enc)
    (q : Path) (fs' : FS) (hq : Openable fs' q) (hf : env'.full = none) (text : Str) (ht : o.toSexpr = .ok text) :
    (o.toFile env' (some q) enc' fs').outcome = .ok () := by
  have := he.base
  obtain ⟨content, hc, hr⟩ := (C58_Schematic.success ..).1 h
  obtain ⟨o', ho', rfl⟩ := map_ok_split hr
  obtain ⟨v, hv, ho⟩ := bind_ok_split ho'
  have hs : Only (Chars has) v := fun s hs => stands_chars (parse_stands hv s hs) (contains_chars he hc)
  have hl : Only (Chars has) o' := fun s h => orig_chars (Schematic.fromSexpr_only hs o' ho s h)
  exact save_encodes (.schematic { o' with filePath := some p }) he (by cases enc' <;> exact hu) ht (Schematic.toSexpr_chars hl text ht) hf hq (enc := enc')

theorem C64_Footprint (env : Env) (tedit : Val) (hclock : PlainClock tedit) (p : Path) (enc : Option Codec) (fs : FS) (o : Footprint)
    (h : (Footprint.fromFile env tedit p enc fs).1 = .ok o) (has : Char → Prop) (he : CharWise (used env enc) has)
    (env' : Env) (enc' : Option Codec) (hu : used env' enc' = used env enc)
    (q : Path) (fs' : FS) (hq : Openable fs' q) (hf : env'.full = none) (text : Str) (ht : o.toSexpr = .ok text) :
    (o.toFile env' (some q) enc' fs').outcome = .ok () := by
  have := he.base
  obtain ⟨content, hc, hr⟩ := ((C58_Footprint tedit).success ..).1 h
  obtain ⟨v, hv, ho⟩ := bind_ok_split hr
  have hs : Only (Chars has) v := fun s hs => stands_chars (parse_stands hv s hs) (contains_chars he hc)
  have hl : Only (Chars has) o := fun s h => orig_chars (Footprint.fromSexpr_only (clock_chars hclock) hs (listName_chars hs) o ho s h)
  exact save_encodes (.footprint o) he (by cases enc' <;> exact hu) ht (Footprint.toSexpr_chars hl text ht) hf hq (enc := enc')

theorem C64_Board (env : Env) (tedit : Val) (hclock : PlainClock tedit) (p : Path) (enc : Option Codec) (fs : FS) (o : Board)
    (h : (Board.fromFile env tedit p enc fs).1 = .ok o) (has : Char → Prop) (he : CharWise (used env enc) has)
    (env' : Env) (enc' : Option Codec) (hu : used env' enc' = used env enc)
    (q : Path) (fs' : FS) (hq : Openable fs' q) (hf : env'.full = none) (text : Str) (ht : o.toSexpr = .ok text) :
    (o.toFile env' (some q) enc' fs').outcome = .ok () := by
  have := he.base
  obtain ⟨content, hc, hr⟩ := ((C58_Board tedit).success ..).1 h
  obtain ⟨o', ho', rfl⟩ := map_ok_split hr
  obtain ⟨v, hv, ho⟩ := bind_ok_split ho'
  have hs : Only (Chars has) v := fun s hs => stands_chars (parse_stands hv s hs) (contains_chars he hc)
  have hl : Only (Chars has) o' := fun s h => orig_chars (Board.fromSexpr_only (clock_chars hclock) hs (fun l e x hx => listName_chars (Only.mem (by subst e; exact hs.list) hx)) o' ho s h)
  exact save_encodes (.board { o' with filePath := some p }) he (by cases enc' <;> exact hu) ht (Board.toSexpr_chars hl text ht) hf hq (enc := enc')

set_option maxRecDepth 100000 in
example := ((C30_LibTable sampleLibTable sampleLibTable_wf (Env.simple .latin1 true) (Env.simple .latin1 false) k!"a" none none (FS.two k!"a" k!"b" [1] [2]) _
  (save_ok (.libTable sampleLibTable) _ k!"a" none _ rfl (two_openable _ _ _ _) (by decide +kernel)) Codec.latin1_lawful rfl rfl
  (save_canRead (.libTable sampleLibTable) _ _ _ _ _ rfl) (by decide +kernel))).imp fun _ h =>
  C64_LibTable (Env.simple .latin1 false) k!"a" none _ _ (congrArg Prod.fst h.1) _ charWise_latin1 (Env.simple .latin1 true) none rfl

set_option maxRecDepth 100000 in
example := ((C30_DesignRules sampleDesignRules sampleDesignRules_wf (Env.simple .latin1 true) (Env.simple .latin1 false) k!"a" none none (FS.two k!"a" k!"b" [1] [2]) _
  (save_ok (.designRules sampleDesignRules) _ k!"a" none _ rfl (two_openable _ _ _ _) (by decide +kernel)) Codec.latin1_lawful rfl rfl
  (save_canRead (.designRules sampleDesignRules) _ _ _ _ _ rfl) (noCR_iff (by decide +kernel)))).imp fun _ h =>
  C64_DesignRules (Env.simple .latin1 false) k!"a" none _ _ (congrArg Prod.fst h.1) _ charWise_latin1 (Env.simple .latin1 true) none rfl

set_option maxRecDepth 100000 in
example := ((C30_WorkSheet sampleWorkSheet sampleWorkSheet_wf (Env.simple .latin1 true) (Env.simple .latin1 false) k!"a"  none (FS.two k!"a" k!"b" [1] [2]) _
  (save_ok (.workSheet sampleWorkSheet) _ k!"a" none _ rfl (two_openable _ _ _ _) (by decide +kernel)) Codec.latin1_lawful rfl rfl
  (save_canRead (.workSheet sampleWorkSheet) _ _ none _ _ rfl) (noCR_iff (by decide +kernel)))).imp fun _ h =>
  C64_WorkSheet (Env.simple .latin1 false) k!"a" none _ _ (congrArg Prod.fst h.1) _ charWise_latin1 (Env.simple .latin1 true) rfl

set_option maxRecDepth 100000 in
example := ((C30_SymbolLib sampleSymbolLib sampleSymbolLib_wf (Env.simple .latin1 true) (Env.simple .latin1 false) k!"a" none none (FS.two k!"a" k!"b" [1] [2]) _
  (save_ok (.symbolLib sampleSymbolLib) _ k!"a" none _ rfl (two_openable _ _ _ _) (by decide +kernel)) Codec.latin1_lawful rfl rfl
  (save_canRead (.symbolLib sampleSymbolLib) _ _ _ _ _ rfl) (by decide +kernel))).imp fun _ h =>
  C64_SymbolLib (Env.simple .latin1 false) k!"a" none _ _ (congrArg Prod.fst h.1) _ charWise_latin1 (Env.simple .latin1 true) none rfl

set_option maxRecDepth 100000 in
example := ((C30_Schematic smallSchematic smallSchematic_wf (Env.simple .latin1 true) (Env.simple .latin1 false) k!"a" none none (FS.two k!"a" k!"b" [1] [2]) _
  (save_ok (.schematic smallSchematic) _ k!"a" none _ rfl (two_openable _ _ _ _) (by decide +kernel)) Codec.latin1_lawful rfl rfl
  (save_canRead (.schematic smallSchematic) _ _ _ _ _ rfl) (noCR_iff (by decide +kernel)))).imp fun _ h =>
  C64_Schematic (Env.simple .latin1 false) k!"a" none _ _ (congrArg Prod.fst h.1) _ charWise_latin1 (Env.simple .latin1 true) none rfl

set_option maxRecDepth 100000 in
example := ((C30_Footprint smallFootprint smallFootprint_wf (Env.simple .latin1 true) (Env.simple .latin1 false) (.str k!"0") k!"a" none none (FS.two k!"a" k!"b" [1] [2]) _
  (save_ok (.footprint smallFootprint) _ k!"a" none _ rfl (two_openable _ _ _ _) (by decide +kernel)) Codec.latin1_lawful rfl rfl
  (save_canRead (.footprint smallFootprint) _ _ _ _ _ rfl) (noCR_iff (by decide +kernel)))).imp fun _ h =>
  C64_Footprint (Env.simple .latin1 false) (.str k!"0") (by unfold PlainClock; decide) k!"a" none _ _ (congrArg Prod.fst h.1) _ charWise_latin1 (Env.simple .latin1 true) none rfl

set_option maxRecDepth 100000 in
example := ((C30_Board smallBoard smallBoard_wf (Env.simple .latin1 true) (Env.simple .latin1 false) (.str k!"0") k!"a" none none (FS.two k!"a" k!"b" [1] [2]) _
  (save_ok (.board smallBoard) _ k!"a" none _ rfl (two_openable _ _ _ _) (by decide +kernel)) Codec.latin1_lawful rfl rfl
  (save_canRead (.board smallBoard) _ _ _ _ _ rfl) (noCR_iff (by decide +kernel)))).imp fun _ h =>
  C64_Board (Env.simple .latin1 false) (.str k!"0") (by unfold PlainClock; decide) k!"a" none _ _ (congrArg Prod.fst h.1) _ charWise_latin1 (Env.simple .latin1 true) none rfl

end Kiutils
