import Verif.Props.Holes
import Verif.Props.TimeStamp
import Verif.Props.TokensBoard
import Verif.Proofs.Provenance
/-!
# Files of KiCad 5 (C80)

In KiCad 5 a footprint was called `module`, and its name could stand without quotation marks. `Footprint.from_sexpr` reads both forms,
`to_sexpr` always writes the new one. `Board.from_sexpr` knows the new form only.
-/
namespace Kiutils

/-- Whatever is behind it, the word `module` means the same as the word `footprint`. -/
theorem C80_module (tedit : Val) (items : List Val) :
    Footprint.fromSexpr tedit (.list (.str k!"module" :: items)) = Footprint.fromSexpr tedit (.list (.str k!"footprint" :: items)) := rfl
example := C80_module (.int 0) [.str k!"R_0805", .list [.str k!"layer", .str k!"F.Cu"]]

/-- A text of a footprint with the word `module` is loaded as that footprint, and saved with the word `footprint` and the same content
otherwise. -/
theorem C80_Footprint_partial [TextRule] (o : Footprint) (h : o.Holed) (tedit : Val) (items : List Val) (hi : o.toVal = .list (.str k!"footprint" :: items))
    (s : Str) (hs : TextOf (.list (.str k!"module" :: items)) s) (i : Nat) (nl lf : Bool) :
    Loads s (Footprint.fromSexpr tedit) o.loaded ∧
      Rewrites s (Footprint.fromSexpr tedit) (fun o => o.toSexpr i nl lf) (.list (.str k!"footprint" :: items)) := by
  have hl : Footprint.fromSexpr tedit (.list (.str k!"module" :: items)) = .ok (canon o.loaded) := by
    rw [C80_module, ← hi]
    exact h.from_toVal tedit
  refine ⟨loads_of hs hl, keep_loaded hs hl ?_⟩
  rw [Footprint.loaded_canon, Footprint.loaded_toSexpr, ← hi]
  exact (h.stable.lexes i nl lf).parse.trans (congrArg Except.ok h.toVal_canon)
example := C80_Footprint_partial sampleHoledFootprint sampleHoledFootprint_ok (.int 0) _ rfl

/-- No footprint is written in the old form: every text that is written begins with `(footprint`. -/
theorem C80_saved (o : Footprint) (i : Nat) (nl lf : Bool) (s : Str) (h : o.toSexpr i nl lf = .ok s) :
    ∃ r, s = List.replicate i ' ' ++ k!"(footprint \"" ++ r := by
  unfold Footprint.toSexpr at h
  dsimp only at h
  cases h1 : forSM o.graphicItems (fun a => a.toSexpr (i + 2)) with
  | error e => rw [h1] at h; cases h
  | ok x1 =>
  cases h2 : forSM o.pads (fun a => a.toSexpr (i + 2)) with
  | error e => rw [h1, h2] at h; cases h
  | ok x2 =>
  cases h3 : forSM o.zones (fun a => a.toSexpr (i + 2)) with
  | error e => rw [h1, h2, h3] at h; cases h
  | ok x3 =>
  rw [h1, h2, h3] at h
  simp only [bind, Except.bind, pure, Except.pure, Except.ok.injEq] at h
  rw [← h]
  simp only [List.append_assoc, indents]
  exact ⟨_, rfl⟩
example := C80_saved sampleHoledFootprint 2 true false

/-- A footprint in the old form. -/
def isModule : Val → Bool
  | .list (.str w :: _) => w == k!"module"
  | _ => false

/-- A board forgets every footprint in the old form: it is loaded as if they were not there. -/
theorem C80_Board_violated (tedit : Val) (items : List Val) :
    Board.fromSexpr tedit (.list (.str k!"kicad_pcb" :: items)) =
      Board.fromSexpr tedit (.list (.str k!"kicad_pcb" :: items.filter (fun v => !isModule v))) := by
  suffices ∀ pre : List Val, Board.fromSexpr tedit (.list (.str k!"kicad_pcb" :: (pre ++ items))) =
      Board.fromSexpr tedit (.list (.str k!"kicad_pcb" :: (pre ++ items.filter (fun v => !isModule v)))) from this []
  induction items with
  | nil => intro pre; rfl
  | cons a l ih =>
    intro pre
    rw [List.filter_cons]
    cases ha : isModule a with
    | false => simpa using ih (pre ++ [a])
    | true =>
      obtain ⟨r, rfl⟩ : ∃ r, a = .list (.str k!"module" :: r) := by
        unfold isModule at ha
        split at ha
        · rename_i w r
          exact ⟨r, congrArg (fun x => Val.list (.str x :: r)) (eq_of_beq ha)⟩
        · cases ha
      rw [C10_Board tedit pre l (by simp)]
      exact ih pre
example := C80_Board_violated (.int 0) [.list [.str k!"version", .int 20171130], .list [.str k!"module", .str k!"R_0805"]]

/-- A name of digits without quotation marks is read as a number: the footprint has these digits as its name exactly if they have no
leading zeros and denote a double. -/
theorem C80_name (tedit : Val) (s : Str) (hs : s ≠ []) (hd : ∀ c ∈ s, isDigit c = true) :
    ∃ o, (parseSexp (k!"(module " ++ s ++ k!")") >>= Footprint.fromSexpr tedit) = .ok o ∧
      (o.libId = s ↔ ∃ m e : Nat, m < 2 ^ 53 ∧ e ≤ 971 ∧ s = natStr (m * 2 ^ e)) := by
  refine ⟨Footprint.setLibId { tedit := tedit } (NumLit.val ⟨none, s, none⟩), ?_, ?_⟩
  · rw [show k!"(module " ++ s ++ k!")" = '(' :: (k!"module" ++ ' ' :: (s ++ [')'])) from by simp,
      parse_digits (by decide) hs hd]
    rfl
  · have : NumBase (· ≠ ':') := ⟨by decide⟩
    have hm : matchNick (NumLit.val ⟨none, s, none⟩).pyStr = none := number_name (by
      unfold NumLit.val
      simp only [Val.canon]
      split
      · exact intStr_chars
      · exact repr_chars)
    unfold Footprint.setLibId Footprint.libId
    rw [hm]
    exact digits_kept hs hd
example := C80_name (.int 0) k!"0805" (by decide) (by decide)

end Kiutils
