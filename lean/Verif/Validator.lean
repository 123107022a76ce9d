import Verif.Preprocess
import Verif.Version
/-!
# `tools/ksvalidator.py`

`main` reads a file with `KickstartParser` while every `KickstartParseWarning` is raised as an
exception (`ksvalidator.py:98`).  `stepBy`, `runBy` and `readBy` are the loop of the parser
(`Parser.lean`) with the call of `handleHeader` as a parameter, so that the same loop can be run
with warnings raised; with the ordinary `handleHeader` they are `step`, `runFuel` and `readFile`
(`readBy_plain`).

Where exactly a command or a header is left when its warning is raised is not modelled:
`Raised` only says that it raises, so the theorems hold wherever that is.
-/
namespace Ks

variable {C : Type}

/-- `obj.handleHeader(lineno, args)` as a parameter of the loop. -/
abbrev Header (C : Type) := Str → Nat → List Str → PState C → Res (PState C)

/-- One round of the loop of `_stateMachine` (`parser.py:728-790`) for a given `handleHeader`. -/
def stepBy (header : Header C) (cfg : Cfg) (disp : Disp C) (inc : Str → PState C → Res (PState C))
    (line : Str) (rest : List Str) (lineno : Nat) (s : PState C) : Step C :=
  let lineno := lineno + 1
  if isBlankOrComment line then .next lineno rest (specialComment line s)
  else match shlexSplit line true with
  | .error e => .stop (s, some (.shlex e))
  | .ok [] => .stop (s, some .index)
  | .ok (cmd :: args) =>
    if cmd = c!"%include" then
      if args.headD [] = [] then .stop (s, some (.parse [] (some lineno)))
      else .ofRes lineno rest (handleInclude cfg inc (args.headD []) s)
    else match s.state with
    | none =>
      if cmd = c!"%ksappend" then .next lineno rest s
      else match cmd.head? with
      | none => .stop (s, some .index)
      | some c =>
        if c = '%' then
          match openSection cfg lineno cmd s with
          | (s, some e) => .stop (s, some e)
          | (s, none) =>
            match tryFunc cfg (header cmd lineno (cmd :: args) s) with
            | (s, some e) => .stop (s, some e)
            | (s, none) => .ofSection (readSection cfg inc cmd rest lineno s)
        else .ofRes lineno rest (tryFunc cfg (handleCommand disp lineno (cmd :: args) line s))
    | some name =>
      if s.includeDepth > 0 then .ofSection (readSection cfg inc name (line :: rest) (lineno - 1) s)
      else .next lineno rest s

/-- The loop of `_stateMachine` (`parser.py:724-790`) for a given `handleHeader`. -/
def runBy (header : Header C) (cfg : Cfg) (disp : Disp C) (inc : Str → PState C → Res (PState C)) :
    Nat → List Str → Nat → PState C → Res (PState C)
  | 0, _, _, s => (s, none)
  | _ + 1, [], _, s => (s, none)
  | fuel + 1, line :: rest, lineno, s =>
    if line = [] then (s, none)
    else match stepBy header cfg disp inc line rest lineno s with
      | .stop r => r
      | .next lineno rest s => runBy header cfg disp inc fuel rest lineno s

/-- `parser.py:803-828` `readKickstart(f, reset=False)` for a given `handleHeader`. -/
def readBy (header : Header C) (cfg : Cfg) (w : World) (disp : Disp C) : Nat → Str → PState C → Res (PState C)
  | 0, _, s => (s, some .recursion)
  | depth + 1, f, s =>
    let f := resolvePath w s f
    let s := noteDir w f s
    match w.load f with
    | .error e =>
      if e.isKickstartError then (s, some (.ks c!"Unable to open input kickstart file" (some 0)))
      else (s, some e)
    | .ok text =>
      runBy header cfg disp (readBy header cfg w disp depth) (2 * (splitLines text ++ [[]]).length + 2)
        (splitLines text ++ [[]]) 0 s

/-- The loop with the ordinary `handleHeader` is the parser's. -/
theorem runBy_plain (cfg : Cfg) (disp : Disp C) (inc : Str → PState C → Res (PState C)) (fuel : Nat) :
    ∀ (l : List Str) (n : Nat) (s : PState C),
      runBy (handleHeader cfg) cfg disp inc fuel l n s = runFuel cfg disp inc fuel l n s := by
  induction fuel with
  | zero => intro l n s; rfl
  | succ k ih =>
    intro l n s
    cases l with
    | nil => rfl
    | cons a t =>
      simp only [runBy, runFuel]
      split
      · rfl
      · rw [show stepBy (handleHeader cfg) cfg disp inc a t n s = step cfg disp inc a t n s from rfl]
        cases step cfg disp inc a t n s with
        | stop r => rfl
        | next n rest s => exact ih _ _ _

theorem readBy_plain (cfg : Cfg) (w : World) (disp : Disp C) (d : Nat) :
    ∀ (f : Str) (s : PState C), readBy (handleHeader cfg) cfg w disp d f s = readFile cfg w disp d f s := by
  induction d with
  | zero => intro f s; rfl
  | succ k ih =>
    intro f s
    simp only [readBy, readFile, stateMachine]
    rw [show readBy (handleHeader cfg) cfg w disp k = readFile cfg w disp k from
      funext fun f => funext fun s => ih f s]
    cases w.load (resolvePath w s f) with
    | error e => rfl
    | ok text => exact runBy_plain ..

/-- What the options of the command line say (`ksvalidator.py:51-69`); how `argparse` reads them is
not modelled. -/
structure ValidatorOpts where
  ksfile : Option Str := none
  firsterror : Bool := false
  followincludes : Bool := false
  listversions : Bool := false
  help : Bool := false
  version : Version.VArg := .int Version.F34

/-- The messages `main` returns, without their texts. -/
inductive Note
  | help
  | version (name : Str)
  | usage
  /-- `Error reading …` -/
  | unreadable
  /-- `The version … is not supported by pykickstart` -/
  | badVersion
  /-- one of the messages about an exception raised while reading -/
  | failed
  deriving DecidableEq, Repr

/-- What `main` finds: `load_to_file(ksfile, dest)` and the files of the system after it; `dest` is
the file in the temporary directory and `temp` the one `mkstemp` names. -/
structure ValidatorEnv where
  fetch : Str → Except Exc Unit
  world : World
  dest : Str
  temp : Str

/-- The files after `temp` has been written. -/
def World.put (w : World) (f text : Str) : World :=
  { w with exist := fun g => g == f || w.exist g, load := fun g => if g = f then .ok text else w.load g }

/-- `sorted(Version.versionMap.keys())` (`ksvalidator.py:79-80`). -/
def versionNames : List Str := (Version.versionMap.map (·.1)).mergeSort fun a b => decide (a ≤ b)

/-- `ksvalidator.py:93-119`: the file is preprocessed and read; an empty file makes
`preprocessKickstart` return `None`, and `readKickstart(None)` raises `TypeError`. -/
def validateFile (header : Header C) (cfg : Cfg) (env : ValidatorEnv) (disp : Disp C) (depth : Nat) (s : PState C) :
    Nat × List Note :=
  match preprocessToTemp (preprocessFile env.world.load env.dest) with
  | .error _ => (1, [.failed])
  | .ok none => (1, [.failed])
  | .ok (some text) =>
    match readBy header cfg (env.world.put env.temp text) disp depth env.temp s.reset with
    | (s, none) => (s.errorsCount, [])
    | (_, some _) => (1, [.failed])

/-- `ksvalidator.py:50-119` `main`.  `header` and `disp` are what `handleHeader` and the commands of
a version do while warnings are raised; `new v` is the handler `makeVersion` makes. -/
def ksvalidator (opts : ValidatorOpts) (env : ValidatorEnv) (header : Cfg → Header C) (disp : Nat → Disp C)
    (depth : Nat) (new : Nat → C) : Except Exc (Nat × List Note) :=
  if opts.help then .ok (0, [.help])
  else if opts.listversions then .ok (0, versionNames.map .version)
  else match opts.ksfile with
  | none => .ok (1, [.usage])
  | some [] => .ok (1, [.usage])
  | some f =>
    match env.fetch f with
    | .error e => if e.isKickstartError then .ok (1, [.unreadable]) else .error e
    | .ok () =>
      match Version.makeVersion opts.version with
      | .error (.version _) => .ok (1, [.badVersion])
      | .error e => .error e
      | .ok none => .error .type
      | .ok (some v) =>
        let cfg : Cfg := { version := v, followIncludes := opts.followincludes, errorsAreFatal := opts.firsterror }
        .ok (validateFile (header cfg) cfg env (disp v) depth { cmds := new v })

/-- `sys.exit(retval)` (`ksvalidator.py:126`): what the calling program sees is the low byte. -/
def exitStatus (retval : Nat) : Nat := retval % 256

end Ks
