import Verif.Model.Libraries
import Verif.Model.Dru
import Verif.Model.Wks
import Verif.Model.Schematic
import Verif.Model.Board
/-!
# `from_file` and `to_file` of the seven file classes

The file system is a map from paths to nodes. Writing is a list of steps of the operating system, so that the states between two
steps – what is left if the process dies – can be talked about.

Simplifications: paths are compared as strings (no links, no relative paths, no two names for one file), nobody else changes the
file system meanwhile, and encodings unknown to Python do not occur.
-/
namespace Kiutils

abbrev Path := Str
abbrev Bytes := List UInt8

/-- What a path names. -/
inductive Node where
  | file (content : Bytes)
  | dir

/-- A file system. `canWrite` says that the path can be opened for writing unless it is a directory: its parent exists and the
permissions suffice. -/
structure FS where
  node : Path → Option Node
  canRead : Path → Bool
  canWrite : Path → Bool

/-- A text encoding with the error handler `strict`; `none` is a `UnicodeError`. -/
structure Codec where
  encode : Str → Option Bytes
  decode : Bytes → Option Str

/-- UTF-8. Strings of the model have no surrogates, so encoding never fails. -/
def Codec.utf8 : Codec where
  encode s := some (s.flatMap String.utf8EncodeChar)
  decode b := b.toByteArray.utf8Decode?.map (·.toList)

/-- Latin-1: the first 256 characters. -/
def Codec.latin1 : Codec where
  encode s := if s.all (fun c => c.toNat < 256) then some (s.map fun c => UInt8.ofNat c.toNat) else none
  decode b := some (b.map fun x => Char.ofNat x.toNat)

/-- What Python takes from its surroundings while it writes a file. -/
structure Env where
  /-- the encoding if `encoding=None` -/
  locale : Codec
  /-- `os.linesep` is `\r\n` (Windows), otherwise `\n` -/
  crlf : Bool
  /-- the portions in which buffered output reaches the file -/
  chunks : Bytes → List Bytes
  chunks_flatten : ∀ b, (chunks b).flatten = b
  /-- the device is full after so many portions -/
  full : Option Nat

/-- `open(…, encoding=encoding)` -/
def Env.codec (env : Env) (encoding : Option Codec) : Codec := encoding.getD env.locale

/-- Text mode, writing: `\n` becomes `os.linesep`. -/
def Env.toLines (env : Env) (s : Str) : Str :=
  if env.crlf then s.flatMap fun c => if c = '\n' then ['\r', '\n'] else [c] else s

/-- Text mode, reading: `\r\n` and `\r` become `\n`. -/
def universalNewlines : Str → Str
  | '\r' :: '\n' :: r => '\n' :: universalNewlines r
  | '\r' :: r => '\n' :: universalNewlines r
  | c :: r => c :: universalNewlines r
  | [] => []

/-- A step of the operating system. -/
inductive Step where
  | truncate (p : Path)
  | append (p : Path) (b : Bytes)

def FS.set (fs : FS) (p : Path) (n : Node) : FS := { fs with node := fun q => if q = p then some n else fs.node q }

def Step.apply (fs : FS) : Step → FS
  | .truncate p => fs.set p (.file [])
  | .append p b => match fs.node p with
    | some (.file old) => fs.set p (.file (old ++ b))
    | _ => fs

/-- What `to_file` does to the file system, step by step, and how it ends. -/
structure Attempt where
  steps : List Step
  outcome : PyM Unit

/-- The file system after the steps. -/
def applySteps (fs : FS) (steps : List Step) : FS := steps.foldl Step.apply fs

/-- The file system if all steps are done. -/
def Attempt.final (a : Attempt) (fs : FS) : FS := applySteps fs a.steps

/-- `open(p, 'w')` succeeds: the path is not a directory and can be written. -/
def FS.openable (fs : FS) (p : Path) : Bool :=
  fs.canWrite p && (match fs.node p with | some .dir => false | _ => true)

/-- `with open(p, 'w', encoding=encoding) as outfile: outfile.write(self.to_sexpr())`. The file is truncated when it is opened, then
the text is made, then all of it is encoded, then the bytes reach the file in portions. -/
def writeFile (env : Env) (p : Path) (encoding : Option Codec) (text : PyM Str) (fs : FS) : Attempt :=
  if fs.openable p then
    match text with
    | .error e => ⟨[.truncate p], .error e⟩
    | .ok s => match (env.codec encoding).encode (env.toLines s) with
      | none => ⟨[.truncate p], .error .valueError⟩
      | some b =>
        let portions := (env.chunks b).map (Step.append p)
        match env.full with
        | some n =>
          if n < portions.length then ⟨.truncate p :: portions.take n, .error .osError⟩ else ⟨.truncate p :: portions, .ok ()⟩
        | none => ⟨.truncate p :: portions, .ok ()⟩
  else ⟨[], .error .osError⟩

/-- The body of all `to_file` methods: the path is the argument, else the attribute, else an exception. -/
def saveFile (env : Env) (own argument : Option Path) (encoding : Option Codec) (text : PyM Str) (fs : FS) : Attempt :=
  match argument with
  | some p => writeFile env p encoding text fs
  | none => match own with
    | some p => writeFile env p encoding text fs
    | none => ⟨[], .error .exception⟩

/-- libraries.py 179–197 -/
def LibTable.toFile (env : Env) (o : LibTable) (filepath : Option Path) (encoding : Option Codec) (fs : FS) : Attempt :=
  saveFile env o.filePath filepath encoding (.ok o.toSexpr) fs
/-- dru.py 275–293 -/
def DesignRules.toFile (env : Env) (o : DesignRules) (filepath : Option Path) (encoding : Option Codec) (fs : FS) : Attempt :=
  saveFile env o.filePath filepath encoding o.toSexpr fs
/-- wks.py 925–941: there is no argument `encoding`. -/
def WorkSheet.toFile (env : Env) (o : WorkSheet) (filepath : Option Path) (fs : FS) : Attempt :=
  saveFile env o.filePath filepath none o.toSexpr fs
/-- symbol.py 555–573 -/
def SymbolLib.toFile (env : Env) (o : SymbolLib) (filepath : Option Path) (encoding : Option Codec) (fs : FS) : Attempt :=
  saveFile env o.filePath filepath encoding (.ok o.toSexpr) fs
/-- schematic.py 212–230 -/
def Schematic.toFile (env : Env) (o : Schematic) (filepath : Option Path) (encoding : Option Codec) (fs : FS) : Attempt :=
  saveFile env o.filePath filepath encoding o.toSexpr fs
/-- footprint.py 989–1007 -/
def Footprint.toFile (env : Env) (o : Footprint) (filepath : Option Path) (encoding : Option Codec) (fs : FS) : Attempt :=
  saveFile env o.filePath filepath encoding o.toSexpr fs
/-- board.py 223–241 -/
def Board.toFile (env : Env) (o : Board) (filepath : Option Path) (encoding : Option Codec) (fs : FS) : Attempt :=
  saveFile env o.filePath filepath encoding o.toSexpr fs

/-- A computation that may raise and may change the file system. -/
def FileM (α : Type) := FS → PyM α × FS

instance : Monad FileM where
  pure a := fun fs => (.ok a, fs)
  bind m f := fun fs => match m fs with
    | (.ok a, fs') => f a fs'
    | (.error e, fs') => (.error e, fs')

/-- A computation without effect on the file system. -/
def FileM.lift {α : Type} (m : PyM α) : FileM α := fun fs => (m, fs)

/-- The common start of all `from_file` methods: `path.isfile(filepath)`, else an exception; `open(filepath, 'r', encoding=encoding)`;
`infile.read()`. -/
def readFile (env : Env) (p : Path) (encoding : Option Codec) : FileM Str := fun fs =>
  match fs.node p with
  | some (.file b) =>
    if fs.canRead p then
      match (env.codec encoding).decode b with
      | some s => (.ok (universalNewlines s), fs)
      | none => (.error .valueError, fs)
    else (.error .osError, fs)
  | _ => (.error .exception, fs)

/-- libraries.py 143–165 -/
def LibTable.fromFile (env : Env) (filepath : Path) (encoding : Option Codec) : FileM LibTable := do
  let text ← readFile env filepath encoding
  let item ← FileM.lift (parseSexp text >>= LibTable.fromSexpr)
  return { item with filePath := some filepath }
/-- dru.py 240–264 -/
def DesignRules.fromFile (env : Env) (filepath : Path) (encoding : Option Codec) : FileM DesignRules := do
  let text ← readFile env filepath encoding
  let item ← FileM.lift (DesignRules.parseText text)
  return { item with filePath := some filepath }
/-- wks.py 889–911 -/
def WorkSheet.fromFile (env : Env) (filepath : Path) (encoding : Option Codec) : FileM WorkSheet := do
  let text ← readFile env filepath encoding
  let item ← FileM.lift (parseSexp text >>= WorkSheet.fromSexpr)
  return { item with filePath := some filepath }
/-- symbol.py 503–525 -/
def SymbolLib.fromFile (env : Env) (filepath : Path) (encoding : Option Codec) : FileM SymbolLib := do
  let text ← readFile env filepath encoding
  let item ← FileM.lift (parseSexp text >>= SymbolLib.fromSexpr)
  return { item with filePath := some filepath }
/-- schematic.py 174–196 -/
def Schematic.fromFile (env : Env) (filepath : Path) (encoding : Option Codec) : FileM Schematic := do
  let text ← readFile env filepath encoding
  let item ← FileM.lift (parseSexp text >>= Schematic.fromSexpr)
  return { item with filePath := some filepath }
/-- footprint.py 912–935: the path is not stored. `tedit` is the default of the attribute. -/
def Footprint.fromFile (env : Env) (tedit : Val) (filepath : Path) (encoding : Option Codec) : FileM Footprint := do
  let rawFootprint ← readFile env filepath encoding
  FileM.lift (parseSexp rawFootprint >>= Footprint.fromSexpr tedit)
/-- board.py 149–171 -/
def Board.fromFile (env : Env) (tedit : Val) (filepath : Path) (encoding : Option Codec) : FileM Board := do
  let text ← readFile env filepath encoding
  let item ← FileM.lift (parseSexp text >>= Board.fromSexpr tedit)
  return { item with filePath := some filepath }

end Kiutils
