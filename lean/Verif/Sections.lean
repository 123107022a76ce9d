import Verif.Packages
import Verif.Argparse
/-!
# Scripts and sections: `parser.py:189-263`, `sections.py`

Simplifications: section objects are values in the parser's table (Python keeps references; a
name is never re-registered while its section is read, so looking the object up again by its name
gives the same object).  Sections registered by users of the library are not modelled.
-/
namespace Ks

/-! ## Scripts -/

/-- `constants.py` `KS_SCRIPT_*`. -/
inductive ScriptType
  | pre | post | traceback | preinstall | onerror
  deriving DecidableEq, Repr

/-- `parser.py:198-228` a `Script` object. -/
structure Script where
  script : Str
  interp : Str := c!"/bin/sh"
  inChroot : Bool := false
  lineno : Option Nat := none
  logfile : Option Str := none
  errorOnFail : Bool := false
  type : ScriptType := .pre
  deriving DecidableEq, Repr

/-- The tag of a script section (`sections.py:281,298,313,383,414`, `parser.py:234-243`). -/
def ScriptType.tag : ScriptType → Str
  | .pre => c!"%pre"
  | .post => c!"%post"
  | .traceback => c!"%traceback"
  | .preinstall => c!"%pre-install"
  | .onerror => c!"%onerror"

/-- `parser.py:234-252`: the header line. -/
def Script.header (s : Script) : Str :=
  c!"\n" ++ s.type.tag
  ++ (if s.interp ≠ c!"/bin/sh" ∧ s.interp ≠ [] then c!" --interpreter=" ++ s.interp else [])
  ++ (if s.type = .post ∧ ¬ s.inChroot then c!" --nochroot" else [])
  ++ (match s.logfile with | some l => c!" --logfile=" ++ l | none => [])
  ++ (if s.errorOnFail then c!" --erroronfail" else [])

/-- `parser.py:230-263` `Script.__str__`; `ver` is the class attribute `Script._ver`. -/
def Script.str (ver : Nat) (s : Script) : Str :=
  if endsWith s.script c!"\n" then
    if ver ≥ Version.F8 then s.header ++ c!"\n" ++ s.script ++ c!"%end\n"
    else s.header ++ c!"\n" ++ s.script
  else
    if ver ≥ Version.F8 then s.header ++ c!"\n" ++ s.script ++ c!"\n%end\n"
    else s.header ++ c!"\n" ++ s.script ++ c!"\n"

/-! ## Script sections -/

/-- The dict `ScriptSection._script` (`sections.py:184-186`; the `type` entry is fixed by the
section class). -/
structure ScriptBuf where
  interp : Str := c!"/bin/sh"
  log : Option Str := none
  errorOnFail : Bool := false
  lineno : Option Nat := none
  chroot : Bool := false
  body : List Str := []
  deriving DecidableEq, Repr

/-- `_resetScript` (`sections.py:184-186,293-295,308-310,377-380,409-411,430-432`). -/
def ScriptBuf.fresh (t : ScriptType) : ScriptBuf := { chroot := decide (t = .post) }

/-- `getattr(ns, k)` for a flag. -/
def Ns.flag (ns : Ns) (k : Str) : Bool := decide (ns.getD k = .bool true)

/-- `getattr(ns, k)` for an optional string. -/
def Ns.str? (ns : Ns) (k : Str) : Option Str :=
  match ns.getD k with
  | .str s => some s
  | _ => none

/-- `getattr(ns, k)` for an optional integer. -/
def Ns.int? (ns : Ns) (k : Str) : Option Int :=
  match ns.getD k with
  | .int n => some n
  | _ => none

/-- A `store_true` option. -/
def flagArg (names : List Str) (dest : Option Str := none) (deprecated : Bool := false) : Arg :=
  { names := names, dest := dest, kind := .storeConst, nargs := .n 0, const := .bool true,
    default := some (.bool false), deprecated := deprecated }

/-- `sections.py:158-182` `ScriptSection._getParser` and `sections.py:368-375` for `%post`. -/
def scriptParser (t : ScriptType) : OptParser :=
  let op := OptParser.empty.addAll
    [ flagArg [c!"--erroronfail"] (some c!"errorOnFail"),
      { names := [c!"--interpreter"], dest := some c!"interpreter", default := some (.str c!"/bin/sh") },
      { names := [c!"--log", c!"--logfile"], dest := some c!"log" } ]
  if t = .post then op.add (flagArg [c!"--nochroot"] (some c!"nochroot")) else op

/-- `sections.py:206-220` `ScriptSection.handleHeader`, without the `timesSeen` counter. -/
def ScriptBuf.header (t : ScriptType) (lineno : Nat) (args : List Str) (b : ScriptBuf) : Except Exc ScriptBuf :=
  match (scriptParser t).parseArgs (some lineno) args with
  | .error e => .error e
  | .ok ns =>
    .ok { b with
      interp := (ns.str? c!"interpreter").getD []
      lineno := some lineno
      log := ns.str? c!"log"
      errorOnFail := ns.flag c!"errorOnFail"
      chroot := if t = .post then ! ns.flag c!"nochroot" else b.chroot }

/-- `sections.py:188-189` `handleLine`. -/
def ScriptBuf.line (b : ScriptBuf) (l : Str) : ScriptBuf := { b with body := b.body ++ [l] }

/-- `sections.py:191-204` `finalize`: the script to append, if any, and the new buffer.  A blank
body neither produces a script nor resets the buffer. -/
def ScriptBuf.finalize (t : ScriptType) (b : ScriptBuf) : Option Script × ScriptBuf :=
  if strip (joinWith c!" " b.body) = [] then (none, b)
  else
    (some { script := b.body.flatten, interp := b.interp, inChroot := b.chroot, lineno := b.lineno,
            logfile := b.log, errorOnFail := b.errorOnFail, type := t }, .fresh t)

/-! ## Sections that are only passed through -/

/-- `sections.py:135-141` `NullSection.finalize`: the string kept for output. -/
def nullString (args body : List Str) : Str :=
  let b := joinWith c!"\n" body
  if b ≠ [] then joinWith c!" " args ++ c!"\n" ++ b ++ c!"\n%end"
  else joinWith c!" " args ++ c!"\n%end"

/-! ## `%packages` -/

/-- `sections.py:459-712` `PackageSection._getParser`. -/
def packagesParser (v : Nat) : OptParser :=
  let op := OptParser.empty.addAll
    [ flagArg [c!"--excludedocs"], flagArg [c!"--ignoremissing"],
      { names := [c!"--ignoredeps"], dest := some c!"resolveDeps", kind := .storeConst, nargs := .n 0,
        const := .bool false, default := some (.bool true), deprecated := true },
      flagArg [c!"--resolvedeps"] (some c!"resolveDeps") true ]
  if v < Version.F7 then op else
  let op := op.add (flagArg [c!"--default"] (some c!"defaultPackages"))
  if v < Version.F9 then op else
  let op := ((op.remove c!"--ignoredeps").remove c!"--resolvedeps").add
    { names := [c!"--instLangs", c!"--inst-langs"] }
  if v < Version.RHEL6 then op else
  let op := op.add (flagArg [c!"--nobase"])
  if v < Version.F18 then op else
  let op := (op.add (flagArg [c!"--nobase"] none true)).add (flagArg [c!"--multilib"] (some c!"multiLib"))
  if v < Version.F21 then op else
  let op := op.add (flagArg [c!"--nocore"])
  if v < Version.RHEL7 then op else
  let op := (op.add { names := [c!"--timeout"], dest := some c!"timeout", ty := .int }).add
    { names := [c!"--retries"], dest := some c!"retries", ty := .int }
  if v < Version.F22 then op else
  let op := op.remove c!"--nobase"
  if v < Version.F24 then op else
  let op := op.add (flagArg [c!"--excludeWeakdeps", c!"--exclude-weakdeps"] (some c!"excludeWeakdeps"))
  if v < Version.F32 then op else
  op.add (flagArg [c!"--ignorebroken"])

/-- `sections.py:723-780`: set the attributes from the parsed header, version by version. -/
def Packages.setHeader (v lineno : Nat) (ns : Ns) (p : Packages) : Res Packages :=
  let p := { p with seen := true, excludeDocs := ns.flag c!"excludedocs", ignoreMissing := ns.flag c!"ignoremissing" }
  if v < Version.F7 then (p, none) else
  let p := if ns.flag c!"defaultPackages" then { p with default := true } else p
  if v < Version.F9 then (p, none) else
  let p := match ns.str? c!"instLangs" with | some l => { p with instLangs := some l } | none => p
  if v < Version.RHEL6 then (p, none) else
  if ns.flag c!"defaultPackages" ∧ ns.flag c!"nobase" then
    (p, some (.parse c!"--default and --nobase cannot be used together" (some lineno)))
  else
  let p := { p with addBase := ! ns.flag c!"nobase" }
  if v < Version.F18 then (p, none) else
  let p := { p with multiLib := ns.flag c!"multiLib" }
  if v < Version.F21 then (p, none) else
  if ns.flag c!"defaultPackages" ∧ ns.flag c!"nocore" then
    (p, some (.parse c!"--default and --nocore cannot be used together" (some lineno)))
  else
  let p := { p with nocore := ns.flag c!"nocore" }
  if v < Version.RHEL7 then (p, none) else
  let p := { p with timeout := ns.int? c!"timeout", retries := ns.int? c!"retries" }
  if v < Version.F24 then (p, none) else
  let p := { p with excludeWeakdeps := ns.flag c!"excludeWeakdeps" }
  if v < Version.F32 then (p, none) else
  ({ p with ignoreBroken := ns.flag c!"ignorebroken" }, none)

/-- `sections.py:714-721` `PackageSection.handleHeader` without the `timesSeen` counter. -/
def Packages.header (v lineno : Nat) (args : List Str) (p : Packages) : Res Packages :=
  match (packagesParser v).parseArgs (some lineno) args with
  | .error e => (p, some e)
  | .ok ns => p.setHeader v lineno ns

/-- Warnings of the `%packages` header: deprecated options (`options.py:174-189`), then the old
spellings (`sections.py:782-789`, reached from F32 on when there was no error). -/
def packagesWarnings (v lineno : Nat) (args : List Str) (p : Packages) : List Warn :=
  ((packagesParser v).warnings (some lineno) args).map .deprecation ++
  (if v ≥ Version.F32 ∧ (p.header v lineno args).2 = none then
    ([c!"--instLangs", c!"--excludeWeakdeps"].filter (· ∈ args)).map .deprecation
   else [])

/-! ## Section objects -/

/-- A registered section object. -/
inductive SecObj
  | script (t : ScriptType) (timesSeen : Nat) (buf : ScriptBuf)
  | packages (timesSeen : Nat)
  | null (args body : List Str)
  deriving DecidableEq, Repr

/-- The class attribute `allLines` (`sections.py:57,117,148`). -/
def SecObj.allLines : SecObj → Bool
  | .packages _ => false
  | _ => true

/-- `parser.py:830-848` `setupSections`. -/
def setupSections : List (Str × SecObj) :=
  [ (c!"%pre", .script .pre 0 (.fresh .pre)),
    (c!"%pre-install", .script .preinstall 0 (.fresh .preinstall)),
    (c!"%post", .script .post 0 (.fresh .post)),
    (c!"%onerror", .script .onerror 0 (.fresh .onerror)),
    (c!"%traceback", .script .traceback 0 (.fresh .traceback)),
    (c!"%packages", .packages 0),
    (c!"%addon", .null [] []),
    (c!"%anaconda", .null [] []) ]

end Ks
