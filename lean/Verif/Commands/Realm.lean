import Verif.Commands.Base
import Verif.Shlex
/-!
# `/repo/pykickstart/commands/realm.py`

Written by hand: the command splits its line itself and uses `getopt`.
-/
namespace Ks.Cmd

/-- `Lib/getopt.py:171-190` `long_has_args`: the option meant by `opt` and whether it takes an
argument; `none`: `GetoptError`.  `opt` contains no `=`. -/
def longHasArgs (opt : Str) (longopts : List Str) : Option (Bool × Str) :=
  let poss := longopts.filter fun o => startsWith o opt
  if poss.contains opt then some (false, opt)
  else if poss.contains (opt ++ c!"=") then some (true, opt)
  else match poss with
    | [m] => if endsWith m c!"=" then some (true, m.dropLast) else some (false, m)
    | _ => none

/-- `Lib/getopt.py:56-97` `getopt(args, "", longopts)` with `do_longs` (`:149-166`): the options and
the remaining arguments; `none`: `GetoptError`.  No short option is known. -/
def getopt (longopts : List Str) : List Str → Option (List (Str × Str) × List Str)
  | [] => some ([], [])
  | a :: rest =>
    if a = c!"--" then some ([], rest)
    else if startsWith a c!"--" then
      let p := partition '=' (a.drop 2)
      match longHasArgs p.1 longopts with
      | none => none
      | some (true, opt) =>
        if p.2.1 then (getopt longopts rest).map fun r => ((c!"--" ++ opt, p.2.2) :: r.1, r.2)
        else match rest with
          | [] => none
          | v :: rest => (getopt longopts rest).map fun r => ((c!"--" ++ opt, v) :: r.1, r.2)
      | some (false, opt) =>
        if p.2.1 then none else (getopt longopts rest).map fun r => ((c!"--" ++ opt, []) :: r.1, r.2)
    else if startsWith a c!"-" && a != c!"-" then none
    else some ([], a :: rest)

/-- `Lib/shlex.py:323` `_find_unsafe`: the characters that need no quotes. -/
def shSafe (c : Char) : Bool :=
  c.isAlphanum || c == '_' || c == '@' || c == '%' || c == '+' || c == '=' || c == ':' || c == ',' || c == '.' || c == '/' || c == '-'

/-- `Lib/shlex.py:325-334` `quote` -/
def shellQuote (s : Str) : Str :=
  if s.isEmpty then c!"''"
  else if s.all shSafe then s
  else c!"'" ++ (s.flatMap fun c => if c = '\'' then c!"'\"'\"'" else [c]) ++ c!"'"

/-- `commands/realm.py:34-38` `__init__` -/
def F19_Realm.init : Ns := [(c!"join_realm", .none), (c!"join_args", .list []), (c!"discover_options", .list [])]

/-- `commands/realm.py:54-59`: the options of `realm join`. -/
def F19_Realm.longopts : List Str :=
  [c!"client-software=", c!"server-software=", c!"membership-software=", c!"one-time-password=", c!"no-password", c!"computer-ou="]

/-- `commands/realm.py:72-74` -/
def F19_Realm.discover : List Str := [c!"--client-software", c!"--server-software", c!"--membership-software"]

/-- `commands/realm.py:51-77` `_parseJoin` -/
def F19_Realm.parseJoin (args : List Str) : M Unit := do
  match getopt F19_Realm.longopts args with
  | none => M.err c!"Invalid realm arguments: %s"
  | some (opts, remaining) =>
    match remaining with
    | [r] => do
      M.set c!"join_realm" (.str r)
      M.set c!"join_args" (.list args)
      M.set c!"discover_options" (.list ((opts.filter fun o => F19_Realm.discover.contains o.1).map fun o => o.1 ++ c!"=" ++ o.2))
    | _ => M.err c!"Specify only one realm to join"

/-- `commands/realm.py:40-49` `_parseArguments` -/
def F19_Realm.parseArguments (line : Str) : M Unit := do
  let self ← M.self
  M.failIf (self.getD c!"join_realm").truthy c!"The realm command 'join' should only be specified once"
  let args ← M.lift ((shlexSplit line false).mapError Exc.shlex)
  match args with
  | [] => M.err c!"Missing realm command arguments"
  | command :: args =>
    if command = c!"join" then F19_Realm.parseJoin args
    else M.err c!"Unsupported realm '%s' command"

/-- `commands/realm.py:97-99` `parse` -/
def F19_Realm.parse (_args : List Str) : M Unit := do
  let line ← M.currentLine
  let cmd ← M.currentCmd
  F19_Realm.parseArguments (strip (line.drop cmd.length))

/-- `commands/realm.py:79-95` `_getCommandsAsStrings` and `__str__` -/
def F19_Realm.strText (self : Ns) : Str :=
  if (self.getD c!"join_args").truthy then
    c!"# Realm or domain membership\n" ++ (c!"realm join " ++ joinWith c!" " ((self.getD c!"join_args").items.map shellQuote)) ++ c!"\n"
  else []

/-- `commands/realm.py:30-102` -/
def F19_Realm.cls : Command := plainCmd c!"F19_Realm" (some 0) F19_Realm.init F19_Realm.parse F19_Realm.strText

end Ks.Cmd
