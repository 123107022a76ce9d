import Verif.Load
import Verif.Preprocess
import Verif.Version
import Verif.Handler
/-!
# `tools/ksflatten.py` and `tools/ksshell.py`

The files and the network are those of `Load.lean`.  Not modelled: how `argparse` reads the options,
the texts of the messages, and the completion of `ksshell` (`KickstartCompleter`).  The messages of
`ksflatten` go to stderr, apart from the one about the version; `stdout` below is only the kickstart
file.  `exist` is `os.path.exists`, `cwd` the current directory, `ver` is `pykickstart.__version__`,
`disp v` what the commands of a version do and `new v` the handler that `makeVersion` makes.
-/
namespace Ks

variable {σ δ : Type}

/-- How a tool ends: with a value for `sys.exit`, with an exception, or with an `IOError`. -/
inductive Outcome
  | code (n : Nat)
  | raised (e : Exc)
  | ioError
  deriving DecidableEq, Repr

/-- What a tool leaves behind: the files, what it wrote to stdout, and how it ended. -/
structure Ended where
  disk : Disk
  stdout : List Str := []
  value : Outcome

/-- `opts.kscfg`, `opts.version` and `opts.output` (`ksflatten.py:35-42`); no output is the empty string. -/
structure FlattenOpts where
  kscfg : Str
  version : Version.VArg := .int Version.F34
  output : Str := []

/-- `ksflatten.py:45-80` `main`.  `KickstartParser` sets `Script._ver` and `Packages._ver` to the version
of the handler (`parser.py:561`).  An exception of `open` that is not an `IOError` (a NUL character in
the name) is not caught. -/
noncomputable def ksflatten (opts : FlattenOpts) (d : Disk) (n : Net) (cwd : Str) (exist : Str → Bool) (ver : Str)
    (disp : Nat → Disp (Handler σ δ)) (depth : Nat) (new : Nat → Handler σ δ) : Ended :=
  if opts.kscfg = [] then { disk := d, value := .code 1 }
  else match Version.makeVersion opts.version with
  | .error (.version _) => { disk := d, value := .code 1 }
  | .error e => { disk := d, value := .raised e }
  | .ok none => { disk := d, value := .raised .type }
  | .ok (some v) =>
    match readKickstart { version := v } (worldOf d n cwd exist) (disp v) depth opts.kscfg { cmds := new v } with
    | (_, some e) => { disk := d, value := if e.isKickstartError then .code 1 else .raised e }
    | (s, none) =>
      if opts.output = [] then
        match writeHandler ver v v s with
        | .error e => { disk := d, value := .raised e }
        | .ok (text, _) => { disk := d, stdout := [text], value := .code 0 }
      else if '\x00' ∈ opts.output then { disk := d, value := .raised .value }
      else if d.writable opts.output = false then { disk := d, value := .code 1 }
      else
        let d := d.write opts.output ([] : Str).utf8Encode
        match writeHandler ver v v s with
        | .error e => { disk := d, value := .raised e }
        | .ok (text, _) => { disk := d.write opts.output text.utf8Encode, value := .code 0 }

/-- `opts.input`, `opts.version` and `opts.output` (`ksshell.py:156-162`). -/
structure ShellOpts where
  input : Str := []
  version : Version.VArg := .int Version.F34
  output : Str := []

/-- The parser of the shell.  `.clear` gives the parser a new handler, but the section objects keep the
one they were made with (`sections.py:61-72`): after it, `parser.packages`,
`parser.scripts` and `parser.nullStrings` are those of the old handler and everything else is that of
the new one. -/
structure Shell (σ δ : Type) where
  parser : PState (Handler σ δ)
  cleared : Bool := false
  stdout : List Str := []

/-- `parser.handler`, as far as it is written. -/
def Shell.handler (s : Shell σ δ) : PState (Handler σ δ) :=
  if s.cleared then { s.parser with packages := {}, scripts := [], nullStrings := [] } else s.parser

/-- What one line makes the shell do: go on, end, or stop with an exception. -/
inductive ShellStep (σ δ : Type)
  | next (s : Shell σ δ)
  | quit (s : Shell σ δ)
  | crash (e : Exc)

/-- What the shell is made of: the configuration of its parser (`ksshell.py:174`: errors are not fatal,
includes are followed), the files, the commands and a new handler. -/
structure ShellEnv (σ δ : Type) where
  version : Nat
  world : World
  ver : Str
  disp : Disp (Handler σ δ)
  depth : Nat
  new : Handler σ δ

def ShellEnv.cfg (env : ShellEnv σ δ) : Cfg := { version := env.version, errorsAreFatal := false }

/-- `ksshell.py:214-233`: one line that was typed.  `print(parser.handler)` sorts the package lists
(`parser.py:396-420`). -/
def shellLine (env : ShellEnv σ δ) (line : Str) (s : Shell σ δ) : ShellStep σ δ :=
  if startsWith line c!"." then
    match (splitWs line).headD [] with
    | w =>
      if w = c!".clear" then
        .next { s with parser := { s.parser with cmds := env.new, platform := [] }, cleared := true }
      else if w = c!".show" then
        match writeHandler env.ver env.version env.version s.handler with
        | .error e => .crash e
        | .ok (text, p) =>
          .next { s with parser := if s.cleared then s.parser else { s.parser with packages := p }, stdout := s.stdout ++ [text ++ c!"\n"] }
      else if w = c!".quit" then .quit s
      else .next s
  else
    match readString env.cfg env.world env.disp env.depth line s.parser with
    | (p, none) => .next { s with parser := p }
    | (p, some e) => if e.isKickstartError then .next { s with parser := p } else .crash e

/-- `ksshell.py:203-233`: the loop; the end of the lines is ^D (or ^C). -/
def shellLoop (env : ShellEnv σ δ) : List Str → Shell σ δ → Except Exc (Shell σ δ)
  | [], s => .ok s
  | l :: t, s => match shellLine env l s with
    | .next s => shellLoop env t s
    | .quit s => .ok s
    | .crash e => .error e

/-- `ksshell.py:176-183`: reading the input file.  `temp` is the file that `preprocessKickstart` makes;
it makes none if the text is empty, and `readKickstart(None)` raises `TypeError` (`os.path.exists`). -/
def shellInput (env : ShellEnv σ δ) (input temp : Str) (s : PState (Handler σ δ)) : Except Exc (PState (Handler σ δ)) :=
  if input = [] then .ok s
  else match preprocessToTemp (preprocessFile env.world.load input) with
  | .error e => if e.isKickstartError then .ok s else .error e
  | .ok none => .error .type
  | .ok (some text) =>
    match readKickstart env.cfg
        { env.world with exist := fun g => g == temp || env.world.exist g, load := fun g => if g = temp then .ok text else env.world.load g }
        env.disp env.depth temp s with
    | (s, none) => .ok s
    | (s, some e) => if e.isKickstartError then .ok s else .error e

/-- `ksshell.py:147-242` `main`, given the lines that are typed. -/
noncomputable def ksshell (opts : ShellOpts) (d : Disk) (n : Net) (cwd : Str) (exist : Str → Bool) (ver temp : Str)
    (disp : Nat → Disp (Handler σ δ)) (depth : Nat) (new : Nat → Handler σ δ) (lines : List Str) : Ended :=
  match Version.makeVersion opts.version with
  | .error (.version _) => { disk := d, value := .code 1 }
  | .error e => { disk := d, value := .raised e }
  | .ok none => { disk := d, value := .raised .type }
  | .ok (some v) =>
    let env : ShellEnv σ δ := { version := v, world := worldOf d n cwd exist, ver, disp := disp v, depth, new := new v }
    match shellInput env opts.input temp { cmds := new v } with
    | .error e => { disk := d, value := .raised e }
    | .ok p =>
      match shellLoop env lines { parser := p } with
      | .error e => { disk := d, value := .raised e }
      | .ok s =>
        if opts.output = [] then
          match writeHandler ver v v s.handler with
          | .error e => { disk := d, stdout := s.stdout, value := .raised e }
          | .ok (text, _) => { disk := d, stdout := s.stdout ++ [c!"\n" ++ text ++ c!"\n"], value := .code 0 }
        else if '\x00' ∈ opts.output then { disk := d, stdout := s.stdout, value := .raised .value }
        else if d.writable opts.output = false then { disk := d, stdout := s.stdout, value := .ioError }
        else
          let d := d.write opts.output ([] : Str).utf8Encode
          match writeHandler ver v v s.handler with
          | .error e => { disk := d, stdout := s.stdout, value := .raised e }
          | .ok (text, _) => { disk := d.write opts.output text.utf8Encode, stdout := s.stdout, value := .code 0 }

end Ks
