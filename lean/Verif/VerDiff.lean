import Verif.Commands.OpTable
import Verif.Commands.MethodProxy
import Verif.Commands.Session
import Verif.Packages
import Verif.Validator
import Verif.Tools
/-!
# `ksverdiff` and the completion of `ksshell`

`tools/ksverdiff.py` compares the commands and options of two versions; `tools/ksshell.py:77-137` offers names and options
while a line is typed.  Both look at the objects of a handler: their classes, and the parsers they made.
-/
namespace Ks

/-- What the class of the name says of itself. -/
def classInfo (cls : Str) : Cmd.ClassInfo := (Cmd.classOps.lookup cls).getD {}

/-- `handler.commands[cmd]`; `none` if there is no such name or it is masked. -/
def Handler.cmdObj (h : KsHandler) (n : Str) : Option (Obj CState Ns) :=
  match h.commands.lookup n with
  | some (some r) => h.heap[r]?
  | _ => none

/-- `isinstance(handler.commands[cmd], RemovedCommand)` -/
def Handler.isRemoved (h : KsHandler) (n : Str) : Bool :=
  match h.cmdObj n with
  | some o => (classInfo o.cls.name).removed
  | none => false

/-- `isinstance(handler.commands[cmd], DeprecatedCommand)` -/
def Handler.isDeprecated (h : KsHandler) (n : Str) : Bool :=
  match h.cmdObj n with
  | some o => (classInfo o.cls.name).deprecated
  | none => false

/-- `hasattr(cmd, "op")` and `cmd.op` for `handler.commands[n]`.  The object for `method` has no `op` of its own: the attribute is
looked for on the command that is its method (`commands/method.py:71-83`). -/
def Handler.opOf (h : KsHandler) (n : Str) : Option OptParser :=
  match h.cmdObj n with
  | none => none
  | some o =>
    if attrName o.cls.name = c!"method" then
      match h.method (methodsOf o.cls.name) with
      | .error _ => none
      | .ok m =>
        match h.methodCommand (methodsOf o.cls.name) m with
        | .error _ => none
        | .ok (_, o') => (classInfo o'.cls.name).op
    else (classInfo o.cls.name).op

/-- `ksverdiff.py:32-33` the name of one option as `getOptSet` takes it -/
def firstName (a : Action) : Str :=
  match a.opts with
  | [] => []
  | s :: _ => s

/-- `ksverdiff.py:32-33` `getOptSet`; the order is that of `sorted`. -/
def optSet (l : List Action) : List Str := sortedSet (l.map firstName)

/-- `a - b` for sets -/
def setMinus (a b : List Str) : List Str := a.filter fun x => decide (x ∉ b)

/-- `ksverdiff.py:29-30` `getCommandSet`, sorted -/
def commandSet (h : KsHandler) : List Str := sortedSet (h.commands.map (·.1))

/-- `ksverdiff.py:88-105` what is said of one command -/
structure OptDiff where
  command : Str
  added : List Str
  deprecated : List Str
  removed : List Str
  deriving DecidableEq, Repr

/-- What is said of two versions. -/
structure VerDiff where
  removed : List Str
  deprecated : List Str
  added : List Str
  options : List OptDiff
  deriving DecidableEq, Repr

/-- `ksverdiff.py:88-105` -/
def optDiff (f t : KsHandler) (n : Str) : Option OptDiff :=
  match f.opOf n, t.opOf n with
  | some p, some q =>
    some {
      command := n
      added := setMinus (optSet q.actions) (optSet p.actions)
      removed := setMinus (optSet p.actions) (optSet q.actions)
      deprecated := optSet (q.actions.filter (·.deprecated)) }
  | _, _ => none

/-- `ksverdiff.py:65-105`: the lists that are printed, for the handlers of the two versions -/
def verDiff (f t : KsHandler) : VerDiff :=
  let both := (commandSet f).filter fun n => decide (n ∈ commandSet t)
  { removed := sortedSet ((both.filter fun n => t.isRemoved n && !f.isRemoved n) ++ setMinus (commandSet f) (commandSet t))
    deprecated := both.filter fun n => t.isDeprecated n && !t.isRemoved n
    added := setMinus (commandSet t) (commandSet f)
    options := both.filterMap (optDiff f t) }

/-- `ksverdiff.py:35-38` `printList` -/
def printList (l : List Str) : List Str := joinWith c!" " l :: (if l = [] then [] else [c!""])

/-- `ksverdiff.py:107-117`: one of the lists of options, if it has any -/
def printOpts (what cmd ver : Str) (l : List Str) : List Str :=
  if l = [] then []
  else (c!"The following options were " ++ what ++ c!" the " ++ cmd ++ c!" command in " ++ ver ++ c!":") :: printList l

/-- `ksverdiff.py:107-117` -/
def OptDiff.print (ver : Str) (d : OptDiff) : List Str :=
  printOpts c!"added to" d.command ver d.added ++ printOpts c!"deprecated from" d.command ver d.deprecated ++
    printOpts c!"removed from" d.command ver d.removed

/-- `ksverdiff.py:69-117`: the lines printed (messages as without translations) -/
def VerDiff.print (ver : Str) (d : VerDiff) : List Str :=
  (c!"The following commands were removed in " ++ ver ++ c!":") :: printList d.removed ++
  (c!"The following commands were deprecated in " ++ ver ++ c!":") :: printList d.deprecated ++
  (c!"The following commands were added in " ++ ver ++ c!":") :: printList d.added ++
  d.options.flatMap (OptDiff.print ver)

/-- `ksverdiff.py:49` the options of the program; an option that is not given is `None`, and is taken as an empty text here
(`if not opts.f`). -/
structure VerDiffOpts where
  f : Str := []
  t : Str := []
  listVersions : Bool := false

/-- `ksverdiff.py:40-119` `main` after the options are read: the value and the lines printed.  The text of the message about a
version that is not supported is not modelled. -/
def ksverdiff (o : VerDiffOpts) : Outcome × List Str :=
  if o.listVersions then (.code 0, versionNames)
  else if o.f = [] ∨ o.t = [] then (.code 1, [c!"You must specify two syntax versions."])
  else
    match Version.makeVersion (.str o.f), Version.makeVersion (.str o.t) with
    | .ok (some f), .ok (some t) => (.code 0, (verDiff (newHandler f) (newHandler t)).print o.t)
    | .error (.version _), _ => (.code 1, [c!"The version is not supported by pykickstart"])
    | .error e, _ => (.raised e, [])
    | _, .error (.version _) => (.code 1, [c!"The version is not supported by pykickstart"])
    | _, .error e => (.raised e, [])
    | .ok _, .ok _ => (.raised .attribute, [])

/-! ## Completion -/

/-- `ksshell.py:91-99` the options kept for a name -/
def completionOpts (op : Option OptParser) (n : Str) : List Str :=
  if startsWith n c!"." then []
  else
    match op with
    | none => []
    | some p => p.actions.flatMap (·.opts)

/-- `ksshell.py:181-183` the commands of the shell itself -/
def shellCommands : List Str := [c!".clear", c!".show", c!".quit"]

/-- `ksshell.py:78-89` `KickstartCompleter.__init__`: the table of names and options.  A key that is set again keeps its place. -/
def completionTable (h : KsHandler) : List (Str × List Str) :=
  let own := h.commands.map fun x => (x.1, completionOpts (h.opOf x.1) x.1)
  own.map (fun x => if x.1 ∈ shellCommands then (x.1, []) else x) ++
    ((shellCommands.filter fun n => decide (n ∉ own.map (·.1))).map fun n => (n, []))

/-- `ksshell.py:101-124` `_init_matches`: the candidates for `origline[b:e]` -/
def initMatches (t : List (Str × List Str)) (origline : Str) (b e : Nat) : List Str :=
  let being := (origline.take e).drop b
  let narrow (l : List Str) := if being = [] then l else l.filter fun w => startsWith w being
  match splitWs origline with
  | [] => sortBy strLt (t.map (·.1))
  | p :: _ =>
    if b = 0 ∨ strip (origline.take b) = [] then narrow (t.map (·.1))
    else
      match t.lookup p with
      | none => []
      | some l => narrow l

/-- `ksshell.py:126-141` `complete`: the candidates kept, and the response.  `readline` gives the line and the two positions. -/
def complete (t : List (Str × List Str)) (kept : List Str) (origline : Str) (b e : Nat) (state : Nat) : List Str × Option Str :=
  let kept := if state = 0 then initMatches t origline b e else kept
  (kept, kept[state]?)

end Ks
