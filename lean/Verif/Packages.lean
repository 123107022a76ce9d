import Verif.Argparse
/-!
# `Group` and `Packages` of `/repo/pykickstart/parser.py:265-514`

`Packages` methods mutate the object and may raise half way, so they return the object
together with the exception, if any.
-/
namespace Ks

/-- The result of a method call: the object afterwards and the exception raised, if any. -/
abbrev Res (σ : Type) := σ × Option Exc

/-- `GROUP_*` of `constants.py:69-71`. -/
inductive GroupMode
  /-- `GROUP_REQUIRED` -/
  | required
  /-- `GROUP_DEFAULT` -/
  | default
  /-- `GROUP_ALL` -/
  | all
  deriving DecidableEq, Repr

/-- `parser.py:268-308` `Group`. -/
structure Group where
  name : Str
  mode : GroupMode := .default
  deriving DecidableEq, Repr

/-- `parser.py:281-288` `Group.__str__`. -/
def Group.str (g : Group) : Str :=
  match g.mode with
  | .required => c!"@" ++ g.name ++ c!" --nodefaults"
  | .all => c!"@" ++ g.name ++ c!" --optional"
  | .default => c!"@" ++ g.name

/-- `parser.py:310-373`: the instance attributes of `Packages`.  `ignoreMissing` is
`handleMissing == KS_MISSING_IGNORE`, `ignoreBroken` is `handleBroken == KS_BROKEN_IGNORE`
(the only other values ever stored are `KS_MISSING_PROMPT` and `KS_BROKEN_REPORT`). -/
structure Packages where
  addBase : Bool := true
  nocore : Bool := false
  default : Bool := false
  environment : Option Str := none
  excludedList : List Str := []
  excludedGroupList : List Group := []
  excludeDocs : Bool := false
  groupList : List Group := []
  ignoreMissing : Bool := false
  ignoreBroken : Bool := false
  packageList : List Str := []
  instLangs : Option Str := none
  multiLib : Bool := false
  excludeWeakdeps : Bool := false
  timeout : Option Int := none
  retries : Option Int := none
  seen : Bool := false
  deriving DecidableEq, Repr

/-- Insertion into an ascending list, before the first element that is not smaller. -/
def insertBy {α : Type} (lt : α → α → Bool) (x : α) : List α → List α
  | [] => [x]
  | y :: t => if lt y x then y :: insertBy lt x t else x :: y :: t

/-- `list.sort()`: a stable sort that only uses `<` (`parser.py:419,424,429,434`). -/
def sortBy {α : Type} (lt : α → α → Bool) (l : List α) : List α := l.foldr (insertBy lt) []

/-- Remove repetitions (the last occurrence stays). -/
def toSet (l : List Str) : List Str := l.foldr (fun x r => if x ∈ r then r else x :: r) []

/-- `sorted(set)` where the set is given by a list of its elements (`parser.py:513-514`). -/
def sortedSet (l : List Str) : List Str := sortBy strLt (toSet l)

/-- `Group.__lt__` (`parser.py:290-291`). -/
def Group.lt (a b : Group) : Bool := strLt a.name b.name

/-- `parser.py:440-445`: the parser for the options of a group line. -/
def groupParser : OptParser :=
  OptParser.empty.addAll
    [ { names := [c!"--nodefaults"], kind := .storeConst, nargs := .n 0, const := .bool true,
        default := some (.bool false) },
      { names := [c!"--optional"], kind := .storeConst, nargs := .n 0, const := .bool true,
        default := some (.bool false) } ]

/-- `parser.py:440-464` `_processGroup`. -/
def Packages.processGroup (p : Packages) (line : Str) : Res Packages :=
  match groupParser.parseKnown none (splitWs line) with
  | .error e => (p, some e)
  | .ok (ns, extra) =>
    let nodefaults := ns.getD c!"nodefaults" = .bool true
    let optional := ns.getD c!"optional" = .bool true
    if nodefaults ∧ optional then
      (p, some (.parse c!"Group cannot specify both --nodefaults and --optional" none))
    else
      let grp := joinWith c!" " extra
      if grp ∈ p.groupList.map (·.name) then (p, none)
      else if nodefaults then ({ p with groupList := p.groupList ++ [⟨grp, .required⟩] }, none)
      else if optional then ({ p with groupList := p.groupList ++ [⟨grp, .all⟩] }, none)
      else ({ p with groupList := p.groupList ++ [⟨grp, .default⟩] }, none)

/-- The local variables of `add` that its loop fills (`parser.py:472-475`); the two sets as
lists of the elements added. -/
structure AddAcc where
  newExcluded : List Str := []
  newPackages : List Str := []
  excludedGroups : List Group := []

/-- One round of the loop of `add` (`parser.py:477-492`). -/
def Packages.addLine (p : Packages) (acc : AddAcc) (pkg : Str) : Res (Packages × AddAcc) :=
  let stripped := strip pkg
  if stripped.take 2 = c!"@^" then (({ p with environment := some (stripped.drop 2) }, acc), none)
  else match stripped with
  | [] => ((p, acc), some .index)
  | '@' :: r =>
    match p.processGroup r with
    | (p, none) => ((p, acc), none)
    | (p, some e) => ((p, acc), some e)
  | '-' :: r =>
    if r.take 2 = c!"@^" ∧ p.environment = some (r.drop 2) then
      (({ p with environment := none }, acc), none)
    else match r with
    | [] => ((p, acc), some .index)
    | '@' :: g => ((p, { acc with excludedGroups := acc.excludedGroups ++ [⟨g, .default⟩] }), none)
    | r => ((p, { acc with newExcluded := acc.newExcluded ++ [r] }), none)
  | s => ((p, { acc with newPackages := acc.newPackages ++ [s] }), none)

/-- The loop of `add` (`parser.py:477-492`). -/
def Packages.addLoop (p : Packages) (acc : AddAcc) : List Str → Res (Packages × AddAcc)
  | [] => ((p, acc), none)
  | l :: ls =>
    match p.addLine acc l with
    | ((p, acc), none) => Packages.addLoop p acc ls
    | (r, some e) => (r, some e)

/-- `parser.py:494-514`: what `add` does after its loop. -/
def Packages.addFinish (p : Packages) (acc : AddAcc) (oldPackages oldExcluded : List Str) : Packages :=
  let names := acc.excludedGroups.map (·.name)
  let pkgs := (oldPackages.filter fun x => x ∉ acc.newExcluded) ++ acc.newPackages
  let exc := (oldExcluded.filter fun x => x ∉ pkgs) ++ acc.newExcluded
  { p with
    groupList := p.groupList.filter (fun g => g.name ∉ names)
    excludedGroupList := p.excludedGroupList ++ acc.excludedGroups
    packageList := sortedSet pkgs
    excludedList := sortedSet exc }

/-- `parser.py:466-514` `Packages.add`. -/
def Packages.add (p : Packages) (pkgList : List Str) : Res Packages :=
  match p.addLoop {} pkgList with
  | ((p', _), some e) => (p', some e)
  | ((p', acc), none) => (p'.addFinish acc p.packageList p.excludedList, none)

/-- `sections.py:454-457` `PackageSection.handleLine`: cut off a comment, then `add`. -/
def Packages.handleLine (p : Packages) (line : Str) : Res Packages :=
  p.add [rstrip (partition '#' line).1]

/-- `parser.py:411-438` `_processPackagesContent`: the text, and the object with its lists
sorted in place. -/
def Packages.content (p : Packages) : Str × Packages :=
  let env := if ¬ p.default then
      match p.environment with
      | some e => if e ≠ [] then c!"@^" ++ e ++ c!"\n" else []
      | none => []
    else []
  let p := { p with
    groupList := sortBy Group.lt p.groupList
    packageList := sortBy strLt p.packageList
    excludedGroupList := sortBy Group.lt p.excludedGroupList
    excludedList := sortBy strLt p.excludedList }
  (env ++ (p.groupList.map fun g => g.str ++ c!"\n").flatten
    ++ (p.packageList.map fun x => x ++ c!"\n").flatten
    ++ (p.excludedGroupList.map fun g => c!"-" ++ g.str ++ c!"\n").flatten
    ++ (p.excludedList.map fun x => c!"-" ++ x ++ c!"\n").flatten, p)

/-- `parser.py:378-401`: the options of the header line. -/
def Packages.headerOpts (p : Packages) : Str :=
  (if p.default then c!" --default" else [])
  ++ (if p.excludeDocs then c!" --excludedocs" else [])
  ++ (if ¬ p.addBase then c!" --nobase" else [])
  ++ (if p.nocore then c!" --nocore" else [])
  ++ (if p.ignoreMissing then c!" --ignoremissing" else [])
  ++ (if p.ignoreBroken then c!" --ignorebroken" else [])
  ++ (match p.instLangs with | some s => c!" --inst-langs=" ++ s | none => [])
  ++ (if p.multiLib then c!" --multilib" else [])
  ++ (if p.excludeWeakdeps then c!" --exclude-weakdeps" else [])
  ++ (match p.timeout with | some n => c!" --timeout=" ++ intStr n | none => [])
  ++ (match p.retries with | some n => c!" --retries=" ++ intStr n | none => [])

/-- `parser.py:375-409` `Packages.__str__`; `ver` is the class attribute `Packages._ver`.
Returns the text and the object with its lists sorted. -/
def Packages.str (ver : Nat) (p : Packages) : Str × Packages :=
  let (pkgs, p) := p.content
  let retval := p.headerOpts
  if retval = [] ∧ pkgs = [] ∧ p.seen = false then ([], p)
  else if ver ≥ Version.F8 then (c!"\n%packages" ++ retval ++ c!"\n" ++ pkgs ++ c!"\n%end\n", p)
  else (c!"\n%packages" ++ retval ++ c!"\n" ++ pkgs ++ c!"\n", p)

end Ks
