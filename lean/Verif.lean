import Verif.Basic
import Verif.Float64
import Verif.FloatRange
import Verif.Fmt
import Verif.Fold
import Verif.Format.Board
import Verif.Format.BrdItems
import Verif.Format.Common
import Verif.Format.Dimensions
import Verif.Format.Dru
import Verif.Format.Footprint
import Verif.Format.FpItems
import Verif.Format.GrItems
import Verif.Format.Libraries
import Verif.Format.Req
import Verif.Format.SchItems
import Verif.Format.Schematic
import Verif.Format.SyItems
import Verif.Format.Symbol
import Verif.Format.Wks
import Verif.Format.Zones
import Verif.Model.Board
import Verif.Model.BrdItems
import Verif.Model.Common
import Verif.Model.Dimensions
import Verif.Model.Dru
import Verif.Model.Files
import Verif.Model.Footprint
import Verif.Model.FpItems
import Verif.Model.GrItems
import Verif.Model.LibId
import Verif.Model.Libraries
import Verif.Model.SchItems
import Verif.Model.Schematic
import Verif.Model.SyItems
import Verif.Model.Symbol
import Verif.Model.Wks
import Verif.Model.Zones
import Verif.Numbers
import Verif.Post
import Verif.Proofs.Board
import Verif.Proofs.BrdItems
import Verif.Proofs.Common
import Verif.Proofs.Dimensions
import Verif.Proofs.Dru
import Verif.Proofs.Footprint
import Verif.Proofs.FpItems
import Verif.Proofs.GrItems
import Verif.Proofs.LibId
import Verif.Proofs.Libraries
import Verif.Proofs.SchItems
import Verif.Proofs.Schematic
import Verif.Proofs.Stable
import Verif.Proofs.SyItems
import Verif.Proofs.Symbol
import Verif.Proofs.Wks
import Verif.Proofs.Zones
import Verif.Props.CreateNew
import Verif.Props.Defects
import Verif.Props.Edit
import Verif.Props.Equal
import Verif.Props.Errors
import Verif.Props.Files
import Verif.Props.FixedPoint
import Verif.Props.LibId
import Verif.Props.Numbers
import Verif.Props.RoundTrip
import Verif.Props.Samples
import Verif.Props.Text
import Verif.Props.TokensBoard
import Verif.Props.TokensBrdItems
import Verif.Props.TokensCommon
import Verif.Props.TokensDimensions
import Verif.Props.TokensDru
import Verif.Props.TokensFootprint
import Verif.Props.TokensFpItems
import Verif.Props.TokensGrItems
import Verif.Props.TokensLibraries
import Verif.Props.TokensSchItems
import Verif.Props.TokensSchematic
import Verif.Props.TokensSyItems
import Verif.Props.TokensSymbol
import Verif.Props.TokensSymbolUnits
import Verif.Props.TokensWks
import Verif.Props.TokensZones
import Verif.Props.Zones
import Verif.Py
import Verif.Sexpr
import Verif.SexprLemmas
import Verif.Stable
import Verif.Tokens
import Verif.Swap
import Verif.Tracks.Board
import Verif.Tracks.BrdItems
import Verif.Tracks.Common
import Verif.Tracks.Dimensions
import Verif.Tracks.Dru
import Verif.Tracks.Footprint
import Verif.Tracks.FpItems
import Verif.Tracks.GrItems
import Verif.Tracks.Libraries
import Verif.Tracks.SchItems
import Verif.Tracks.Schematic
import Verif.Tracks.SyItems
import Verif.Tracks.Symbol
import Verif.Tracks.SymbolUnits
import Verif.Tracks.Wks
import Verif.Tracks.Zones
import Verif.Value
import Verif.FloatText
import Verif.FloatGrammar
import Verif.Regex
import Verif.Proofs.Regex
import Verif.Props.Regex
import Verif.Proofs.FloatInt
import Verif.Props.Saves
import Verif.Props.SavesFiles
import Verif.Props.Resave
import Verif.Props.FileFormat
import Verif.Proofs.FixedFormat
import Verif.Props.FixedFormat
import Verif.Proofs.Shortest
import Verif.Proofs.Digits
import Verif.Props.Digits
import Verif.Model.Clock
import Verif.Props.TimeStamp
import Verif.Props.Encoding
import Verif.Model.Objects
import Verif.Props.Objects
import Verif.Proofs.ReprShortest
import Verif.Props.ReprShortest
import Verif.RegexSteps
import Verif.Proofs.RegexSteps
import Verif.Props.RegexSteps
import Verif.Proofs.Lines
import Verif.Props.Lines
import Verif.Props.Loads
import Verif.Props.ItemWise
import Verif.Props.Defaults
import Verif.SameTreeAttr
import Verif.Proofs.SameTree
import Verif.Props.Keeps
import Verif.Texts
import Verif.TextsOf
import Verif.Proofs.Chars
import Verif.Props.Chars
import Verif.Proofs.Provenance
import Verif.Props.Provenance
import Verif.Props.SameEncoding
import Verif.Props.Spell
import Verif.Props.InPlace
import Verif.Props.SaveLoad
import Verif.Props.Inject
import Verif.Props.NewObjects
import Verif.Props.Exact
import Verif.Props.Calls
import Verif.Indent
import Verif.Proofs.Shift
import Verif.Proofs.ShiftAll
import Verif.Props.Indent
import Verif.Props.Newline
import Verif.Model.Examples
import Verif.Props.Examples
import Verif.Alike
import Verif.Proofs.AlikeSteps
import Verif.Proofs.AlikeAll
import Verif.Props.Alike
import Verif.Proofs.EqCanon
import Verif.Props.EqualTexts
import Verif.Proofs.FixedTwice
import Verif.Props.Twice
import Verif.Format.Holes
import Verif.Proofs.Holes
import Verif.Props.Holes
import Verif.Props.Legacy
import Verif.TextRule
import Verif.Props.SamplesBackslash
import Verif.Props.Backslash
import Verif.Props.BackslashFiles
import Verif.Props.Unknown
import Verif.Proofs.ShiftNot
import Verif.Proofs.ShiftExact
import Verif.Props.IndentExact
import Verif.Props.Conflict
import Verif.Props.Combine
import Verif.Props.Stamp
import Verif.Props.Move
import Verif.Props.DictOrder
import Verif.Model.Shared
import Verif.Props.Shared
import Verif.Proofs.Prefix
import Verif.Props.CutOff
import Verif.Proofs.PrefixRules
import Verif.Props.CutRules
import Verif.Props.Joined
import Verif.Props.Converted
import Verif.Props.Blanks
import Verif.Props.Comments
import Verif.Props.Escapes
