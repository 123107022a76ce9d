import Verif.PyInt
import Verif.Errors
/-!
# `/repo/pykickstart/version.py`
-/
namespace Ks
namespace Version

/-! `version.py:57-95`: symbolic names for internal version numbers. -/
/-- `version.py:58` -/ def RHEL3 : Nat := 900
/-- `version.py:59` -/ def FC3 : Nat := 1000
/-- `version.py:60` -/ def RHEL4 : Nat := 1100
/-- `version.py:61` -/ def FC4 : Nat := 2000
/-- `version.py:62` -/ def FC5 : Nat := 3000
/-- `version.py:63` -/ def FC6 : Nat := 4000
/-- `version.py:64` -/ def RHEL5 : Nat := 4100
/-- `version.py:65` -/ def F7 : Nat := 5000
/-- `version.py:66` -/ def F8 : Nat := 6000
/-- `version.py:67` -/ def F9 : Nat := 7000
/-- `version.py:68` -/ def F10 : Nat := 8000
/-- `version.py:69` -/ def F11 : Nat := 9000
/-- `version.py:70` -/ def F12 : Nat := 10000
/-- `version.py:71` -/ def F13 : Nat := 11000
/-- `version.py:72` -/ def RHEL6 : Nat := 11100
/-- `version.py:73` -/ def F14 : Nat := 12000
/-- `version.py:74` -/ def F15 : Nat := 13000
/-- `version.py:75` -/ def F16 : Nat := 14000
/-- `version.py:76` -/ def F17 : Nat := 15000
/-- `version.py:77` -/ def F18 : Nat := 16000
/-- `version.py:78` -/ def F19 : Nat := 17000
/-- `version.py:79` -/ def F20 : Nat := 18000
/-- `version.py:80` -/ def F21 : Nat := 19000
/-- `version.py:81` -/ def RHEL7 : Nat := 19100
/-- `version.py:82` -/ def F22 : Nat := 20000
/-- `version.py:83` -/ def F23 : Nat := 21000
/-- `version.py:84` -/ def F24 : Nat := 22000
/-- `version.py:85` -/ def F25 : Nat := 23000
/-- `version.py:86` -/ def F26 : Nat := 24000
/-- `version.py:87` -/ def F27 : Nat := 25000
/-- `version.py:88` -/ def F28 : Nat := 26000
/-- `version.py:89` -/ def RHEL8 : Nat := 26100
/-- `version.py:90` -/ def F29 : Nat := 27000
/-- `version.py:91` -/ def F30 : Nat := 30000
/-- `version.py:92` -/ def F31 : Nat := 31000
/-- `version.py:93` -/ def F32 : Nat := 32000
/-- `version.py:94` -/ def F33 : Nat := 33000
/-- `version.py:95` -/ def F34 : Nat := 34000
/-- `version.py:98` -/ def DEVEL : Nat := F34

/-- `version.py:101-112` `versionMap`, in source order. -/
def versionMap : List (Str × Nat) := [
  (c!"DEVEL", DEVEL),
  (c!"FC3", FC3),
  (c!"FC4", FC4),
  (c!"FC5", FC5),
  (c!"FC6", FC6),
  (c!"F7", F7),
  (c!"F8", F8),
  (c!"F9", F9),
  (c!"F10", F10),
  (c!"F11", F11),
  (c!"F12", F12),
  (c!"F13", F13),
  (c!"F14", F14),
  (c!"F15", F15),
  (c!"F16", F16),
  (c!"F17", F17),
  (c!"F18", F18),
  (c!"F19", F19),
  (c!"F20", F20),
  (c!"F21", F21),
  (c!"F22", F22),
  (c!"F23", F23),
  (c!"F24", F24),
  (c!"F25", F25),
  (c!"F26", F26),
  (c!"F27", F27),
  (c!"F28", F28),
  (c!"F29", F29),
  (c!"F30", F30),
  (c!"F31", F31),
  (c!"F32", F32),
  (c!"F33", F33),
  (c!"F34", F34),
  (c!"RHEL3", RHEL3),
  (c!"RHEL4", RHEL4),
  (c!"RHEL5", RHEL5),
  (c!"RHEL6", RHEL6),
  (c!"RHEL7", RHEL7),
  (c!"RHEL8", RHEL8)]

/-- `versionMap[k]` (dict lookup); `none` is `KeyError`. -/
def mapGet (k : Str) : Option Nat := versionMap.lookup k

/-- The text after the last blank and everything before it: `(.*) (\S*)` seen greedily. -/
def splitLastBlank (s : Str) : Option (Str × Str) :=
  let r := s.reverse
  match r.dropWhile (· ≠ ' ') with
  | [] => none
  | _ :: h => some (h.reverse, (r.takeWhile (· ≠ ' ')).reverse)

/-- `$` also matches before one trailing newline: drop it. -/
def dropFinalNl (s : Str) : Str :=
  if endsWith s c!"\n" then s.dropLast else s

/-- `re.match(r"^fedora.* (\d+)$", s, re.I)` (`version.py:125`): group 1 of a match.
`.` does not match a newline; the digits cannot contain a blank, so the blank is the last one.
Simplification: `\d` is ASCII (other digits never name a version, so the outcome of
`stringToVersion` is the same). -/
def matchFedora (s : Str) : Option Str :=
  let b := dropFinalNl s
  if startsWith (lower b) c!"fedora" ∧ '\n' ∉ b then
    match splitLastBlank (b.drop 6) with
    | some (_, w) => if w ≠ [] ∧ w.all isDigit then some w else none
    | none => none
  else none

/-- `re.match(r"^red hat enterprise linux.* (\d+)([\.\d]*)$", s, re.I)` (`version.py:136`):
group 1.  Simplification: ASCII digits and ASCII case folding only. -/
def matchRhel (s : Str) : Option Str :=
  let b := dropFinalNl s
  if startsWith (lower b) c!"red hat enterprise linux" ∧ '\n' ∉ b then
    match splitLastBlank (b.drop 24) with
    | some (_, w) =>
      if w.takeWhile isDigit ≠ [] ∧ w.all (fun c => isDigit c || c == '.') then
        some (w.takeWhile isDigit)
      else none
    | none => none
  else none

/-- `KickstartVersionError(_("Unsupported version specified: %s") % s)` -/
def unsupported : Exc := .version c!"Unsupported version specified"

/-- `version.py:114-145` `stringToVersion`. -/
def stringToVersion (s : Str) : Except Exc Nat :=
  match mapGet (upper s) with
  | some v => .ok v
  | none =>
    match matchFedora s with
    | some d =>
      match mapGet (c!"FC" ++ d) with
      | some v => .ok v
      | none =>
        match mapGet (c!"F" ++ d) with
        | some v => .ok v
        | none => .error unsupported
    | none =>
      match matchRhel s with
      | some d =>
        match mapGet (c!"RHEL" ++ d) with
        | some v => .ok v
        | none => .error unsupported
      | none => .error unsupported

/-- The loop of `versionToString` (`version.py:155-159`) over the map entries. -/
def findName (version : Int) : List (Str × Nat) → Option Str
  | [] => none
  | (k, v) :: t =>
    if k = c!"DEVEL" then findName version t
    else if (v : Int) = version then some k
    else findName version t

/-- `version.py:147-161` `versionToString(version, skipDevel)`. -/
def versionToString (version : Int) (skipDevel : Bool) : Except Exc Str :=
  if skipDevel = false ∧ version = (DEVEL : Int) then .ok c!"DEVEL"
  else match findName version versionMap with
    | some k => .ok k
    | none => .error unsupported

/-- `str.replace(old, new)` for a non-empty `old` (an empty one is not used). -/
def replace (old new : Str) : Str → Str
  | [] => []
  | c :: t =>
    if _h : old ≠ [] ∧ startsWith (c :: t) old then new ++ replace old new ((c :: t).drop old.length)
    else c :: replace old new t
termination_by s => s.length
decreasing_by
  · simp only [List.length_drop, List.length_cons]
    have : 0 < old.length := by
      cases old with
      | nil => simp at _h
      | cons => simp
    omega
  · simp

/-- `version.py:163-170` `versionToLongString`. -/
def versionToLongString (version : Int) : Except Exc Str :=
  (versionToString version true).map fun r =>
    replace c!"RHEL" c!"RedHatEnterpriseLinux" (replace c!"F" c!"Fedora" (replace c!"FC" c!"F" r))

/-- The line loop of `versionFromFile` (`version.py:180-186`). -/
def versionFromLines : List Str → Except Exc Nat
  | [] => .ok DEVEL
  | line :: t =>
    if strip line = [] then versionFromLines t
    else if line.take 9 = c!"#version=" then stringToVersion (rstrip (line.drop 9))
    else versionFromLines t

/-- `version.py:172-188` `versionFromFile`, with `load_to_str` as a parameter. -/
def versionFromFile (load : Str → Except Exc Str) (f : Str) : Except Exc Nat :=
  (load f).bind fun contents => versionFromLines (splitLines contents)

/-- A handler module `handlers/<module>.py`: the class names among its globals, in order,
each with the class's `version` attribute. -/
structure HandlerModule where
  module : Str
  classes : List (Str × Option Nat)
  deriving DecidableEq, Repr

/-- The modules in `/repo/pykickstart/handlers/` (one `class XHandler(BaseHandler)` with
`version = X` each; `BaseHandler` is imported and has `version = None`). -/
def handlerModules : List HandlerModule := [
  ⟨c!"f10", [(c!"BaseHandler", none), (c!"F10Handler", some F10)]⟩,
  ⟨c!"f11", [(c!"BaseHandler", none), (c!"F11Handler", some F11)]⟩,
  ⟨c!"f12", [(c!"BaseHandler", none), (c!"F12Handler", some F12)]⟩,
  ⟨c!"f13", [(c!"BaseHandler", none), (c!"F13Handler", some F13)]⟩,
  ⟨c!"f14", [(c!"BaseHandler", none), (c!"F14Handler", some F14)]⟩,
  ⟨c!"f15", [(c!"BaseHandler", none), (c!"F15Handler", some F15)]⟩,
  ⟨c!"f16", [(c!"BaseHandler", none), (c!"F16Handler", some F16)]⟩,
  ⟨c!"f17", [(c!"BaseHandler", none), (c!"F17Handler", some F17)]⟩,
  ⟨c!"f18", [(c!"BaseHandler", none), (c!"F18Handler", some F18)]⟩,
  ⟨c!"f19", [(c!"BaseHandler", none), (c!"F19Handler", some F19)]⟩,
  ⟨c!"f20", [(c!"BaseHandler", none), (c!"F20Handler", some F20)]⟩,
  ⟨c!"f21", [(c!"BaseHandler", none), (c!"F21Handler", some F21)]⟩,
  ⟨c!"f22", [(c!"BaseHandler", none), (c!"F22Handler", some F22)]⟩,
  ⟨c!"f23", [(c!"BaseHandler", none), (c!"F23Handler", some F23)]⟩,
  ⟨c!"f24", [(c!"BaseHandler", none), (c!"F24Handler", some F24)]⟩,
  ⟨c!"f25", [(c!"BaseHandler", none), (c!"F25Handler", some F25)]⟩,
  ⟨c!"f26", [(c!"BaseHandler", none), (c!"F26Handler", some F26)]⟩,
  ⟨c!"f27", [(c!"BaseHandler", none), (c!"F27Handler", some F27)]⟩,
  ⟨c!"f28", [(c!"BaseHandler", none), (c!"F28Handler", some F28)]⟩,
  ⟨c!"f29", [(c!"BaseHandler", none), (c!"F29Handler", some F29)]⟩,
  ⟨c!"f30", [(c!"BaseHandler", none), (c!"F30Handler", some F30)]⟩,
  ⟨c!"f31", [(c!"BaseHandler", none), (c!"F31Handler", some F31)]⟩,
  ⟨c!"f32", [(c!"BaseHandler", none), (c!"F32Handler", some F32)]⟩,
  ⟨c!"f33", [(c!"BaseHandler", none), (c!"F33Handler", some F33)]⟩,
  ⟨c!"f34", [(c!"BaseHandler", none), (c!"F34Handler", some F34)]⟩,
  ⟨c!"f7", [(c!"BaseHandler", none), (c!"F7Handler", some F7)]⟩,
  ⟨c!"f8", [(c!"BaseHandler", none), (c!"F8Handler", some F8)]⟩,
  ⟨c!"f9", [(c!"BaseHandler", none), (c!"F9Handler", some F9)]⟩,
  ⟨c!"fc3", [(c!"BaseHandler", none), (c!"FC3Handler", some FC3)]⟩,
  ⟨c!"fc4", [(c!"BaseHandler", none), (c!"FC4Handler", some FC4)]⟩,
  ⟨c!"fc5", [(c!"BaseHandler", none), (c!"FC5Handler", some FC5)]⟩,
  ⟨c!"fc6", [(c!"BaseHandler", none), (c!"FC6Handler", some FC6)]⟩,
  ⟨c!"rhel3", [(c!"BaseHandler", none), (c!"RHEL3Handler", some RHEL3)]⟩,
  ⟨c!"rhel4", [(c!"BaseHandler", none), (c!"RHEL4Handler", some RHEL4)]⟩,
  ⟨c!"rhel5", [(c!"BaseHandler", none), (c!"RHEL5Handler", some RHEL5)]⟩,
  ⟨c!"rhel6", [(c!"BaseHandler", none), (c!"RHEL6Handler", some RHEL6)]⟩,
  ⟨c!"rhel7", [(c!"BaseHandler", none), (c!"RHEL7Handler", some RHEL7)]⟩,
  ⟨c!"rhel8", [(c!"BaseHandler", none), (c!"RHEL8Handler", some RHEL8)]⟩]

/-- Argument of `makeVersion`/`returnClassForVersion`: an int or a string. -/
inductive VArg
  | int (n : Int)
  | str (s : Str)
  deriving DecidableEq, Repr

/-- `version.py:204-213`: import the module from `handlers/` and pick the class whose
lower-cased name ends in `<module>handler`.  A module that cannot be imported raises
`KickstartVersionError` (the bare `except`).  The result is the class's name and version.
Assumption: `sys.path` has no other module of one of the names in question.  (A loop that
finds nothing returns `None` in Python; here that is `none`.) -/
def importHandler (module : Str) : Except Exc (Option (Str × Option Nat)) :=
  match handlerModules.find? (fun m => m.module == module) with
  | none => .error unsupported
  | some m => .ok (m.classes.find? fun kv => endsWith (lower kv.1) (module ++ c!"handler"))

/-- `version.py:190-213` `returnClassForVersion`. -/
def returnClassForVersion (version : VArg) : Except Exc (Option (Str × Option Nat)) :=
  let byInt (n : Int) := (versionToString n true).bind fun m => importHandler (lower m)
  match version with
  | .int n => byInt n
  | .str s =>
    match pyInt s with
    | some n => byInt n
    | none => (stringToVersion s).bind fun _ => importHandler (lower s)

/-- `version.py:215-223` `makeVersion`: the `version` attribute of the handler instance made. -/
def makeVersion (version : VArg) : Except Exc (Option Nat) :=
  (returnClassForVersion version).map fun c => c.bind (·.2)

end Version
end Ks
