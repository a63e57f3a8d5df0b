import Verif.Regex
/-!
# The work of back-tracking search

A back-tracking engine that stops at the first match and counts its steps, for `re.finditer(term_regex, sexpr)`
(src/kiutils/utils/sexpr.py:22) and the `re.match` of the `libId` setters (symbol.py:267, 275; footprint.py:698; schitems.py:996). Nothing in the model depends on this file;
`Verif/Props/RegexSteps.lean` proves that the engine finds the matches of `Verif/Regex.lean`, and bounds its steps.
-/
namespace Kiutils

/-- One step more. -/
def tick {α : Type} (x : α × Nat) : α × Nat := (x.1, x.2 + 1)

/-- The second search if the first one fails, with the steps of both. -/
def orElse {α : Type} (x : Option α × Nat) (y : Unit → Option α × Nat) : Option α × Nat :=
  match x with
  | (some a, n) => (some a, n)
  | (none, n) => ((y ()).1, n + (y ()).2)

/-- Repetition: another round or what comes behind, in the order of greedy or lazy repetition; compare `Re.iterate`. -/
def Re.loop {α : Type} (greedy : Bool) (step : RePos → (RePos → Option α × Nat) → Option α × Nat) (k : RePos → Option α × Nat) :
    Nat → RePos → Option α × Nat
  | 0, s => tick (k s)
  | n + 1, s =>
    let more := fun (_ : Unit) => step s fun t => if t.rest.length < s.rest.length then Re.loop greedy step k n t else (none, 1)
    tick (if greedy then orElse (more ()) fun _ => k s else orElse (k s) more)

/-- Searches for a way to match `r` at `s` such that `k`, what comes behind, is a success. The result is that of the first such way,
with the number of steps: one for every part of the expression that is tried at a position. -/
def Re.seek : Re → {α : Type} → RePos → (RePos → Option α × Nat) → Option α × Nat
  | .empty, _, s, k => tick (k s)
  | .set neg items, _, s, k => match s.rest with
    | c :: r => if Re.inSet neg items c then tick (k { s with before := some c, rest := r }) else (none, 1)
    | [] => (none, 1)
  | .dot, _, s, k => match s.rest with
    | c :: r => if c != '\n' then tick (k { s with before := some c, rest := r }) else (none, 1)
    | [] => (none, 1)
  | .seq a b, _, s, k => tick (a.seek s fun t => b.seek t k)
  | .alt a b, _, s, k => tick (orElse (a.seek s k) fun _ => b.seek s k)
  | .opt a, _, s, k => tick (orElse (a.seek s k) fun _ => k s)
  | .star greedy a, _, s, k => tick (Re.loop greedy a.seek k s.rest.length s)
  | .plus greedy a, _, s, k => tick (a.seek s fun t => Re.loop greedy a.seek k t.rest.length t)
  | .group n a, _, s, k => tick (a.seek s fun t => k { t with groups := t.groups ++ [(n, s.textTo t)] })
  | .ahead a, _, s, k => match a.seek s fun t => (some t, 0) with
    | (some t, n) => ((k { s with groups := t.groups }).1, 1 + n + (k { s with groups := t.groups }).2)
    | (none, n) => (none, 1 + n)
  | .behind neg items, _, s, k => match s.before with
    | some c => if Re.inSet neg items c then tick (k s) else (none, 1)
    | none => (none, 1)
  | .start, _, s, k => if s.before.isNone then tick (k s) else (none, 1)
  | .finish, _, s, k => if s.rest == [] || s.rest == ['\n'] then tick (k s) else (none, 1)

/-- The first way to match. -/
def Re.engine (r : Re) (s : RePos) : Option RePos × Nat := r.seek s fun t => (some t, 0)

/-- `re.match(r, s)` with the number of steps. -/
def Re.matchCount (r : Re) (s : Str) : Option (List (Str × Str)) × Nat :=
  ((r.engine ⟨none, s, []⟩).1.map (·.groups), (r.engine ⟨none, s, []⟩).2)

/-- `re.finditer(r, s)` with the number of steps; compare `Re.findFrom`. -/
def Re.findCount (r : Re) : Nat → Option Char → Str → List (List (Str × Str)) × Nat
  | 0, _, _ => ([], 1)
  | n + 1, before, s =>
    let m := r.engine ⟨before, s, []⟩
    let goOn := fun (found : List (List (Str × Str))) (x : List (List (Str × Str)) × Nat) => (found ++ x.1, 1 + m.2 + x.2)
    match m.1 with
    | some t =>
      if t.rest.length < s.length then goOn [t.groups] (r.findCount n t.before t.rest)
      else match s with
        | [] => ([t.groups], 1 + m.2)
        | c :: u => goOn [t.groups] (r.findCount n (some c) u)
    | none => match s with
      | [] => ([], 1 + m.2)
      | c :: u => goOn [] (r.findCount n (some c) u)

def Re.findIterCount (r : Re) (s : Str) : List (List (Str × Str)) × Nat := r.findCount (s.length + 1) none s

end Kiutils
