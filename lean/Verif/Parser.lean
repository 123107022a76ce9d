import Verif.Sections
import Verif.PosixPath
/-!
# The parser: `parser.py:520-848`

The commands are a parameter: `disp lineno args line` is what `handler.dispatcher` does to the
command state (type `C`) and the exception it raises, if any.  The file system is a parameter
(`World`); it does not change while a file is read.  `self._line` is always the line just read, so
it is passed as an argument.  The table of sections is an association list (a dict in insertion
order).  Warnings do not raise (Python's default filter).
-/
namespace Ks

/-- Constructor arguments of `KickstartParser` (`parser.py:526-527`) and the handler's version. -/
structure Cfg where
  version : Nat
  followIncludes : Bool := true
  errorsAreFatal : Bool := true
  missingIncludeIsFatal : Bool := true
  unknownSectionIsFatal : Bool := true

/-- The parser object together with the parts of the handler it fills. -/
structure PState (C : Type) where
  cmds : C
  packages : Packages := {}
  scripts : List Script := []
  nullStrings : List Str := []
  platform : Str := []
  sections : List (Str × SecObj) := setupSections
  /-- `_state`; `none` is `STATE_COMMANDS` -/
  state : Option Str := none
  includeDepth : Nat := 0
  currentdir : List (Nat × Str) := []
  errorsCount : Nat := 0
  /-- exceptions printed to stderr -/
  printed : List Exc := []
  warnings : List Warn := []

/-- What the operating system provides: the current directory, `os.path.exists` and
`load_to_str` (`load.py:32-45`). -/
structure World where
  cwd : Str
  exist : Str → Bool
  load : Str → Except Exc Str

/-- `handler.dispatcher(args, lineno)` with `handler.currentLine = line` (`parser.py:578-587`). -/
abbrev Disp (C : Type) := Nat → List Str → Str → C → Res C

variable {C : Type}

/-- `d[k] = v` on a dict. -/
def assocSet {α β : Type} [DecidableEq α] (k : α) (v : β) : List (α × β) → List (α × β)
  | [] => [(k, v)]
  | (k', v') :: t => if k' = k then (k, v) :: t else (k', v') :: assocSet k v t

/-- `self._sections[name]` -/
def PState.sec (s : PState C) (name : Str) : Option SecObj := s.sections.lookup name

/-- Update the section object. -/
def PState.setSec (s : PState C) (name : Str) (o : SecObj) : PState C :=
  { s with sections := assocSet name o s.sections }

/-- `parser.py:703-704` `_isBlankOrComment`. -/
def isBlankOrComment (line : Str) : Bool :=
  strIsSpace line || line.isEmpty || (lstrip line).head? == some '#'

/-- `parser.py:611-618` `_handleSpecialComments`. -/
def specialComment (line : Str) (s : PState C) : PState C :=
  if s.state ≠ none then s
  else if line.take 10 = c!"#platform=" then { s with platform := strip (line.drop 10) }
  else s

/-- `parser.py:689-701` `_tryFunc`, given the outcome of the function. -/
def tryFunc (cfg : Cfg) (r : Res (PState C)) : Res (PState C) :=
  match r with
  | (s, none) => (s, none)
  | (s, some e) =>
    let s := { s with errorsCount := s.errorsCount + 1 }
    if cfg.errorsAreFatal then (s, some e) else ({ s with printed := s.printed ++ [e] }, none)

/-- `parser.py:578-587` `handleCommand`. -/
def handleCommand (disp : Disp C) (lineno : Nat) (args : List Str) (line : Str) (s : PState C) : Res (PState C) :=
  ({ s with cmds := (disp lineno args line s.cmds).1 }, (disp lineno args line s.cmds).2)

/-- `obj.handleHeader(lineno, args)` for the registered section (`sections.py:91-101,129-130,
206-220,434-448,714-789`). -/
def handleHeader (cfg : Cfg) (name : Str) (lineno : Nat) (args : List Str) (s : PState C) : Res (PState C) :=
  match s.sec name with
  | none => (s, some .key)
  | some (.script t k b) =>
    match b.header t lineno args.tail with
    | .error e => (s.setSec name (.script t (k + 1) b), some e)
    | .ok b' =>
      let s := s.setSec name (.script t (k + 1) b')
      if t = .traceback ∧ cfg.version ≥ Version.F34 then
        ({ s with warnings := s.warnings ++ [.deprecation c!"%traceback"] }, none)
      else (s, none)
  | some (.packages k) =>
    let s := s.setSec name (.packages (k + 1))
    let w := packagesWarnings cfg.version lineno args.tail s.packages
    let (p, e) := s.packages.header cfg.version lineno args.tail
    ({ s with packages := p, warnings := s.warnings ++ w }, e)
  | some (.null _ body) => (s.setSec name (.null args body), none)

/-- `obj.handleLine(line)` (`sections.py:132-133,188-189,454-457`). -/
def handleLine (name : Str) (line : Str) (s : PState C) : Res (PState C) :=
  match s.sec name with
  | none => (s, some .key)
  | some (.script t k b) => (s.setSec name (.script t k (b.line line)), none)
  | some (.packages _) => ({ s with packages := (s.packages.handleLine line).1 }, (s.packages.handleLine line).2)
  | some (.null args body) => (s.setSec name (.null args (body ++ [line])), none)

/-- `parser.py:603-609` `_finalize`. -/
def finalize (name : Str) (s : PState C) : PState C :=
  let s := match s.sec name with
    | some (.script t k b) =>
      let s := s.setSec name (.script t k (b.finalize t).2)
      match (b.finalize t).1 with
      | some sc => { s with scripts := s.scripts ++ [sc] }
      | none => s
    | some (.null args body) =>
      { s.setSec name (.null [] []) with nullStrings := s.nullStrings ++ [nullString args body] }
    | _ => s
  { s with state := none }

/-- `parser.py:685-687` `_validState`. -/
def PState.valid (s : PState C) (name : Str) : Bool := (s.sec name).isSome

/-- `parser.py:706-722` `_handleInclude`; `read` is `readKickstart(f, reset=False)`. -/
def handleInclude (cfg : Cfg) (read : Str → PState C → Res (PState C)) (f : Str) (s : PState C) : Res (PState C) :=
  if ¬ cfg.followIncludes then (s, none)
  else
    match read f { s with includeDepth := s.includeDepth + 1 } with
    | (s, none) => ({ s with includeDepth := s.includeDepth - 1 }, none)
    | (s, some e) =>
      if e.isKickstartError ∧ ¬ cfg.missingIncludeIsFatal then ({ s with includeDepth := s.includeDepth - 1 }, none)
      else (s, some e)

/-- `KickstartParseError(_("Section %s does not end with %%end."), lineno)` -/
def unclosed (lineno : Nat) : Exc := .parse c!"Section does not end with %end." (some lineno)

/-- `parser.py:620-683` `_readSection` for the section `name`; returns the line number and the
lines not read. -/
def readSection (cfg : Cfg) (inc : Str → PState C → Res (PState C)) (name : Str) :
    List Str → Nat → PState C → PState C × Except Exc (Nat × List Str)
  | [], lineno, s => (s, .ok (lineno, []))
  | line :: rest, lineno, s =>
    if line = [] ∧ s.includeDepth = 0 ∧ cfg.version ≥ Version.F8 then (s, .error (unclosed lineno))
    else
      let s := if line = [] ∧ s.includeDepth = 0 then finalize name s else s
      let lineno := lineno + 1
      if isBlankOrComment line ∧ (s.sec name).map (·.allLines) ≠ some true then
        readSection cfg inc name rest lineno s
      else if startsWith (lstrip line) c!"%" then
        let start := (splitWs line).headD []
        if ¬ s.valid start ∧ start ≠ c!"%end" ∧ start ≠ c!"%include" then
          match handleLine name line s with
          | (s, some e) => (s, .error e)
          | (s, none) => readSection cfg inc name rest lineno s
        else
          match shlexSplit line false with
          | .error e => (s, .error (.shlex e))
          | .ok [] => readSection cfg inc name rest lineno s
          | .ok (cmd :: args) =>
            if cmd = c!"%end" then (finalize name s, .ok (lineno, rest))
            else if cmd = c!"%include" then
              if args.headD [] = [] then (s, .error (.parse [] (some lineno)))
              else
                match handleInclude cfg inc (args.headD []) s with
                | (s, some e) => (s, .error e)
                | (s, none) => readSection cfg inc name rest lineno s
            else if cmd = c!"%ksappend" then readSection cfg inc name rest lineno s
            else if s.valid cmd then
              if cfg.version ≥ Version.F8 then (s, .error (unclosed lineno))
              else (finalize name s, .ok (lineno - 1, line :: rest))
            else readSection cfg inc name rest lineno s
      else
        match handleLine name line s with
        | (s, some e) => (s, .error e)
        | (s, none) => readSection cfg inc name rest lineno s

/-- `parser.py:755-771`: make sure the section `name` is registered and enter it. -/
def openSection (cfg : Cfg) (lineno : Nat) (name : Str) (s : PState C) : Res (PState C) :=
  if s.valid name then ({ s with state := some name }, none)
  else if cfg.unknownSectionIsFatal then
    (s, some (.parse (c!"Unknown kickstart section: " ++ name) (some lineno)))
  else
    ({ s with
       sections := assocSet name (.null [] []) s.sections
       warnings := s.warnings ++ [.parse (c!"Potentially unknown section seen: " ++ name)]
       state := some name }, none)

/-- What one round of the loop of `_stateMachine` does (`parser.py:728-790`): stop, or go on with
the line number, the remaining lines and the state. -/
inductive Step (C : Type)
  | stop (r : Res (PState C))
  | next (lineno : Nat) (rest : List Str) (s : PState C)

/-- Go on unless there was an exception. -/
def Step.ofRes (lineno : Nat) (rest : List Str) : Res (PState C) → Step C
  | (s, none) => .next lineno rest s
  | (s, some e) => .stop (s, some e)

/-- Go on after a section. -/
def Step.ofSection : PState C × Except Exc (Nat × List Str) → Step C
  | (s, .ok (lineno, rest)) => .next lineno rest s
  | (s, .error e) => .stop (s, some e)

/-- One round of the loop of `_stateMachine` (`parser.py:728-790`) at a line that is not the end. -/
def step (cfg : Cfg) (disp : Disp C) (inc : Str → PState C → Res (PState C))
    (line : Str) (rest : List Str) (lineno : Nat) (s : PState C) : Step C :=
  let lineno := lineno + 1
  if isBlankOrComment line then .next lineno rest (specialComment line s)
  else match shlexSplit line true with
  | .error e => .stop (s, some (.shlex e))
  | .ok [] => .stop (s, some .index)
  | .ok (cmd :: args) =>
    if cmd = c!"%include" then
      if args.headD [] = [] then .stop (s, some (.parse [] (some lineno)))
      else .ofRes lineno rest (handleInclude cfg inc (args.headD []) s)
    else match s.state with
    | none =>
      if cmd = c!"%ksappend" then .next lineno rest s
      else match cmd.head? with
      | none => .stop (s, some .index)
      | some c =>
        if c = '%' then
          match openSection cfg lineno cmd s with
          | (s, some e) => .stop (s, some e)
          | (s, none) =>
            match tryFunc cfg (handleHeader cfg cmd lineno (cmd :: args) s) with
            | (s, some e) => .stop (s, some e)
            | (s, none) => .ofSection (readSection cfg inc cmd rest lineno s)
        else .ofRes lineno rest (tryFunc cfg (handleCommand disp lineno (cmd :: args) line s))
    | some name =>
      if s.includeDepth > 0 then .ofSection (readSection cfg inc name (line :: rest) (lineno - 1) s)
      else .next lineno rest s

/-- The loop of `_stateMachine` (`parser.py:724-790`).  `fuel` bounds the number of rounds;
`runFuel_enough` shows that `2 * lines + 2` always suffices. -/
def runFuel (cfg : Cfg) (disp : Disp C) (inc : Str → PState C → Res (PState C)) :
    Nat → List Str → Nat → PState C → Res (PState C)
  | 0, _, _, s => (s, none)
  | _ + 1, [], _, s => (s, none)
  | fuel + 1, line :: rest, lineno, s =>
    if line = [] then (s, none)
    else match step cfg disp inc line rest lineno s with
      | .stop r => r
      | .next lineno rest s => runFuel cfg disp inc fuel rest lineno s

/-- `parser.py:724-790` `_stateMachine`. -/
def stateMachine (cfg : Cfg) (disp : Disp C) (inc : Str → PState C → Res (PState C))
    (lines : List Str) (s : PState C) : Res (PState C) :=
  runFuel cfg disp inc (2 * lines.length + 2) lines 0 s

/-- `parser.py:813-816`: where the file is looked for. -/
def resolvePath (w : World) (s : PState C) (f : Str) : Str :=
  if w.exist f then f
  else match s.includeDepth with
  | 0 => f
  | d + 1 =>
    match s.currentdir.lookup d with
    | none => f
    | some dir => if w.exist (pathJoin dir f) then pathJoin dir f else f

/-- `parser.py:818-821`: remember the directory of the file. -/
def noteDir (w : World) (f : Str) (s : PState C) : PState C :=
  let cd := dirname f
  let cd := if startsWith cd c!"/" then cd else abspath w.cwd cd
  { s with currentdir := assocSet s.includeDepth cd s.currentdir }

/-- `parser.py:803-828` `readKickstart(f, reset=False)`, with `depth` nested reads allowed before
Python raises `RecursionError`. -/
def readFile (cfg : Cfg) (w : World) (disp : Disp C) : Nat → Str → PState C → Res (PState C)
  | 0, _, s => (s, some .recursion)
  | depth + 1, f, s =>
    let f := resolvePath w s f
    let s := noteDir w f s
    match w.load f with
    | .error e =>
      if e.isKickstartError then (s, some (.ks c!"Unable to open input kickstart file" (some 0)))
      else (s, some e)
    | .ok text => stateMachine cfg disp (readFile cfg w disp depth) (splitLines text ++ [[]]) s

/-- `parser.py:567-570` `_reset`. -/
def PState.reset (s : PState C) : PState C := { s with state := none, includeDepth := 0 }

/-- `parser.py:803-828` `readKickstart(f)`. -/
def readKickstart (cfg : Cfg) (w : World) (disp : Disp C) (depth : Nat) (f : Str) (s : PState C) : Res (PState C) :=
  readFile cfg w disp depth f s.reset

/-- `parser.py:792-801` `readKickstartFromString(text)`. -/
def readString (cfg : Cfg) (w : World) (disp : Disp C) (depth : Nat) (text : Str) (s : PState C) : Res (PState C) :=
  stateMachine cfg disp (readFile cfg w disp depth) (splitLines text ++ [[]]) s.reset

end Ks
