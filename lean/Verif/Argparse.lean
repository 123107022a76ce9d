import Verif.Options
import Verif.PyInt
import Verif.Version
/-!
# `KSOptionParser` (`/repo/pykickstart/options.py:119-282`) on CPython 3.11 `argparse`

`KSOptionParser` is `argparse.ArgumentParser` with `add_help=False`,
`conflict_handler="resolve"`, `error()` raising `KickstartParseError` and `exit()` a no-op.
The line numbers `argparse.py:N` refer to CPython 3.11 `Lib/argparse.py`.

Simplifications, valid for every parser built in `/repo` (checked by `OptParser.WF` where it
matters): option strings all start with `--` (so the branch of `consume_optional` that splits
clusters of single-letter options is unreachable); `nargs` is one of `None`, `?`, `*`, `N`;
no sub-parsers, no mutually exclusive groups, no `fromfile_prefix_chars`, no `SUPPRESS`;
list-valued options hold strings.  Message texts are reduced to tags.
-/
namespace Ks

/-- Values stored in a namespace or attribute. -/
inductive Val
  | none
  | bool (b : Bool)
  | int (n : Int)
  | str (s : Str)
  | list (l : List Str)
  /-- list of pairs (`network --teamslaves`) -/
  | pairs (l : List (Str × Str))
  deriving DecidableEq, Repr

/-- `nargs` of an argument. -/
inductive Nargs
  /-- `None`: one value -/
  | one
  /-- `'?'` -/
  | opt
  /-- `'*'` -/
  | star
  /-- an integer: a list of exactly that many -/
  | n (k : Nat)
  deriving DecidableEq, Repr

/-- Action classes used in `/repo`: `_StoreAction`, `_StoreConstAction` (also
`store_true`/`store_false`), `_AppendAction`, `_AppendConstAction` (`argparse.py:924-1082`) and
`ExtendAction`, `ExtendConstAction` (`options.py:105-117`). -/
inductive Kind
  | store | storeConst | append | appendConst | extend | extendConst
  deriving DecidableEq, Repr

/-- `type=int`: `ValueError` becomes an argument error (`argparse.py:2539-2544`). -/
def tyInt (s : Str) : Except Exc Val :=
  match pyInt s with
  | some n => .ok (.int n)
  | none => .error .value

/-- `type=commaSplit` -/
def tyComma (s : Str) : Except Exc Val := .ok (.list (commaSplit s))

/-- `type=ksboolean`: `ArgumentTypeError` (represented as `.value`) otherwise. -/
def tyBool (s : Str) : Except Exc Val :=
  match ksboolean s with
  | some b => .ok (.bool b)
  | none => .error .value

/-- `type=mountpoint` -/
def tyMount (s : Str) : Except Exc Val := .ok (.str (mountpoint s))

/-- `commands/raid.py:338-342` `device_cb` -/
def stripMd (s : Str) : Str := if startsWith s c!"md" then s.drop 2 else s

/-- `commands/partition.py:322-326` `part_cb` -/
def stripDev (s : Str) : Str := if startsWith s c!"/dev/" then s.drop 5 else s

/-- `commands/firewall.py:84-93` `firewall_port_cb`, one port. -/
def portOf (p : Str) : Str :=
  let p := strip p
  if p.contains ':' then p else p ++ c!":tcp"

/-- `commands/network.py:645-652`: the slaves before a `'`, the last with the configuration `cfg`. -/
def teamGroup (devs cfg : Str) : List (Str × Str) :=
  let l := splitOn ',' (((devs.dropWhile (· = ',')).reverse.dropWhile (· = ',')).reverse)
  l.dropLast.map (fun d => (d, [])) ++ [(l.getLastD [], cfg)]

/-- `commands/network.py:641-652`: pairs of slaves and configurations. -/
def teamPairs : List Str → List (Str × Str)
  | devs :: cfg :: t => teamGroup devs cfg ++ teamPairs t
  | _ => []

/-- `commands/network.py:618-656` `teamslaves_cb` -/
def teamSlaves (value : Str) : List (Str × Str) :=
  if value.isEmpty then []
  else
    let parts := splitOn '\'' value
    let parts :=
      if parts.length % 2 = 1 then
        if (parts.getLastD []).isEmpty then parts.dropLast else parts ++ [[]]
      else parts
    teamPairs parts

/-- The `type` argument of `add_argument`: none, one of the converters of `options.py`, or one of the
functions that the command classes define for their own parsers. -/
inductive Ty
  | str | int | comma | bool | mount
  /-- `raid.py` `device_cb` -/
  | md
  /-- `partition.py` `part_cb` -/
  | part
  /-- `firewall.py` `firewall_port_cb` -/
  | port
  /-- `network.py` `teamslaves_cb` -/
  | team
  /-- look up the value, in upper or lower case, in a table: `level_cb` (`raid.py:344-348`,
  `btrfs.py:125-129`), `_type_cb` (`autopart.py:281-285`), `_when_cb` (`snapshot.py:86-91`).  Their
  `KickstartParseError(lineno=self.lineno)` is represented as `.value`, which becomes an error of the
  same class with the same line. -/
  | table (up : Bool) (tbl : List (Str × Val))
  deriving DecidableEq

/-- The conversion a `type` stands for. -/
def Ty.run : Ty → Str → Except Exc Val
  | .str => fun s => .ok (.str s)
  | .int => tyInt
  | .comma => tyComma
  | .bool => tyBool
  | .mount => tyMount
  | .md => fun s => .ok (.str (stripMd s))
  | .part => fun s => .ok (.str (stripDev s))
  | .port => fun s => .ok (.list ((splitOn ',' s).map portOf))
  | .team => fun s => .ok (.pairs (teamSlaves s))
  | .table up tbl => fun s =>
    match tbl.lookup (if up then upper s else lower s) with
    | some v => .ok v
    | none => .error .value

/-- The keyword arguments of one `add_argument` call. -/
structure Arg where
  names : List Str
  dest : Option Str := none
  kind : Kind := .store
  nargs : Nargs := .one
  const : Val := .none
  default : Option Val := none
  ty : Ty := .str
  choices : Option (List Str) := none
  required : Bool := false
  deprecated : Bool := false

/-- An `argparse.Action` object; `id` is the object identity. -/
structure Action where
  id : Nat
  opts : List Str
  dest : Str
  kind : Kind
  nargs : Nargs
  const : Val
  default : Val
  ty : Ty
  choices : Option (List Str)
  required : Bool
  deprecated : Bool

/-- The converter of an argument. -/
def Arg.type (a : Arg) : Str → Except Exc Val := a.ty.run

/-- The converter of an action. -/
def Action.type (a : Action) : Str → Except Exc Val := a.ty.run

/-- `self._actions` and `self._option_string_actions` (a dict, in insertion order). -/
structure OptParser where
  actions : List Action
  strings : List (Str × Action)
  nextId : Nat

/-- A parser without arguments (`options.py:124-172`). -/
def OptParser.empty : OptParser := ⟨[], [], 0⟩

/-- `'--foo-bar' -> 'foo_bar'` (`argparse.py:1583-1594`). -/
def destOf (s : Str) : Str := (s.dropWhile (· = '-')).map fun c => if c = '-' then '_' else c

/-- `argparse.py:1424-1468,1548-1594` `add_argument` up to the creation of the action object. -/
def mkAction (id : Nat) (a : Arg) : Action :=
  match a.names with
  | [n] =>
    if startsWith n c!"-" then
      { id := id, opts := a.names, dest := a.dest.getD (destOf n), kind := a.kind, nargs := a.nargs,
        const := a.const, default := a.default.getD .none, ty := a.ty, choices := a.choices,
        required := a.required, deprecated := a.deprecated }
    else
      -- `_get_positional_kwargs`
      { id := id, opts := [], dest := n, kind := a.kind, nargs := a.nargs,
        const := a.const, default := a.default.getD .none, ty := a.ty, choices := a.choices,
        required := (match a.nargs with | .opt => false | .star => a.default.isNone | _ => true),
        deprecated := a.deprecated }
  | ns =>
    { id := id, opts := ns, dest := a.dest.getD (destOf (ns.headD [])), kind := a.kind, nargs := a.nargs,
      const := a.const, default := a.default.getD .none, ty := a.ty, choices := a.choices,
      required := a.required, deprecated := a.deprecated }

/-- Replace the `option_strings` of the action object with identity `id`, everywhere. -/
def OptParser.setOpts (p : OptParser) (id : Nat) (opts : List Str) : OptParser :=
  let f (a : Action) := if a.id = id then { a with opts := opts } else a
  { p with actions := p.actions.map f, strings := p.strings.map fun (s, a) => (s, f a) }

/-- `argparse.py:1633-1645` one round of `_handle_conflict_resolve`. -/
def OptParser.resolve1 (p : OptParser) (s : Str) : OptParser :=
  match p.strings.lookup s with
  | none => p
  | some a =>
    let opts := a.opts.erase s
    let p := p.setOpts a.id opts
    let p := { p with strings := p.strings.filter (fun kv => kv.1 != s) }
    if opts = [] then { p with actions := p.actions.filter (fun b => b.id != a.id) } else p

/-- `options.py:191-243` `KSOptionParser.add_argument` with `argparse.py:1473-1494`
`_add_action` (the help texts are not modelled). -/
def OptParser.add (p : OptParser) (arg : Arg) : OptParser :=
  let a := mkAction p.nextId arg
  let p := a.opts.foldl OptParser.resolve1 p
  { actions := p.actions ++ [a], strings := p.strings ++ a.opts.map (fun s => (s, a)), nextId := p.nextId + 1 }

/-- A sequence of `add_argument` calls. -/
def OptParser.addAll (p : OptParser) (args : List Arg) : OptParser := args.foldl OptParser.add p

/-- `options.py:245-258` `remove_argument`: the action leaves `_actions`, but only the given
string leaves `_option_string_actions`. -/
def OptParser.remove (p : OptParser) (s : Str) : OptParser :=
  match p.actions.find? (fun a => s ∈ a.opts) with
  | none => p
  | some a =>
    { p with actions := p.actions.filter (fun b => b.id != a.id),
             strings := p.strings.filter (fun kv => kv.1 != s) }

/-! ## Namespace -/

/-- An `argparse.Namespace` (or any object's `__dict__`): attribute names and values. -/
abbrev Ns := List (Str × Val)

/-- `getattr(ns, k)`; `none` if there is no such attribute. -/
def Ns.get (ns : Ns) (k : Str) : Option Val := ns.lookup k

/-- `setattr(ns, k, v)` -/
def Ns.set (ns : Ns) (k : Str) (v : Val) : Ns :=
  match ns with
  | [] => [(k, v)]
  | (k', v') :: t => if k' = k then (k, v) :: t else (k', v') :: Ns.set t k v

/-- `getattr(ns, k, None)` -/
def Ns.getD (ns : Ns) (k : Str) : Val := (ns.get k).getD .none

/-! ## Classifying the argument strings -/

/-- `(action, explicit_arg)` of an option tuple; no action means "unknown option". -/
structure OptTuple where
  action : Option Action
  expl : Option Str

/-- The pattern letter of an argument: `A`, `-` or `O` (with its option tuple). -/
inductive Cls
  | A
  | dash
  | O (t : OptTuple)

/-- `self._option_string_actions[s]` -/
def OptParser.lookup (p : OptParser) (s : Str) : Option Action := p.strings.lookup s

/-- `_negative_number_matcher`: `^-\d+$|^-\d*\.\d+$` (ASCII digits). -/
def negNumber (s : Str) : Bool :=
  match Version.dropFinalNl s with
  | '-' :: t =>
    let ds := t.takeWhile isDigit
    match t.dropWhile isDigit with
    | [] => !ds.isEmpty
    | '.' :: f => !f.isEmpty && f.all isDigit
    | _ => false
  | _ => false

/-- `argparse.py:2286-2329` `_get_option_tuples`. -/
def OptParser.optionTuples (p : OptParser) (arg : Str) : List OptTuple :=
  match arg with
  | '-' :: '-' :: _ =>
    let (pre, found, v) := partition '=' arg
    p.strings.filterMap fun (k, a) =>
      if startsWith k pre then some ⟨some a, if found then some v else none⟩ else none
  | _ =>
    p.strings.filterMap fun (k, a) =>
      if k = arg.take 2 then some ⟨some a, some (arg.drop 2)⟩
      else if startsWith k arg then some ⟨some a, none⟩ else none

/-- `self.error(msg)` (`options.py:260-265`). -/
def argErr (tag : Str) (lineno : Option Int) : Exc := .parse tag lineno

/-- `argparse.py:2230-2284` `_parse_optional` (the deprecation warning of `options.py:174-189`
is `OptParser.warnings`). -/
def OptParser.parseOptional (p : OptParser) (lineno : Option Int) (arg : Str) : Except Exc Cls :=
  if ¬ startsWith arg c!"-" then .ok .A
  else match p.lookup arg with
  | some a => .ok (.O ⟨some a, none⟩)
  | none =>
    if arg.length = 1 then .ok .A
    else
      let (pre, found, v) := partition '=' arg
      match (if found then p.lookup pre else none) with
      | some a => .ok (.O ⟨some a, some v⟩)
      | none =>
        match p.optionTuples arg with
        | _ :: _ :: _ => .error (argErr c!"ambiguous option" lineno)
        | [t] => .ok (.O t)
        | [] =>
          if negNumber arg then .ok .A
          else if ' ' ∈ arg then .ok .A
          else .ok (.O ⟨none, none⟩)

/-- `argparse.py:1936-1956`: the pattern of the argument strings. -/
def OptParser.classify (p : OptParser) (lineno : Option Int) : List Str → Except Exc (List (Str × Cls))
  | [] => .ok []
  | a :: t =>
    if a = c!"--" then .ok ((a, .dash) :: t.map fun s => (s, .A))
    else match p.parseOptional lineno a with
      | .error e => .error e
      | .ok c => match p.classify lineno t with
        | .error e => .error e
        | .ok cs => .ok ((a, c) :: cs)

/-- `options.py:174-189`: the options a deprecation warning is issued for, in order.  Warnings
are issued while classifying, so they stop at `--` and at an ambiguous option. -/
def OptParser.warnings (p : OptParser) (lineno : Option Int) : List Str → List Str
  | [] => []
  | a :: t =>
    if a = c!"--" then []
    else match p.parseOptional lineno a with
      | .error _ => []
      | .ok (.O ⟨some act, _⟩) =>
        if act.deprecated then act.opts.headD [] :: p.warnings lineno t else p.warnings lineno t
      | .ok _ => p.warnings lineno t

/-! ## Matching arguments to actions -/

abbrev Args := List (Str × Cls)

def Cls.isA : Cls → Bool | .A => true | _ => false
def Cls.isDash : Cls → Bool | .dash => true | _ => false
def Cls.isO : Cls → Bool | .O _ => true | _ => false

/-- Numbers from `k` down to `0`. -/
def downTo : Nat → List Nat
  | 0 => [0]
  | k + 1 => (k + 1) :: downTo k

/-- Lengths `(-*A-*A...-*)` (with `k` times `A`) can match at the start, in the order the
regular expression engine tries them. -/
def candN : Nat → Args → List Nat
  | 0, p => downTo (p.takeWhile (·.2.isDash)).length
  | k + 1, p =>
    let d := (p.takeWhile (·.2.isDash)).length
    match p.dropWhile (·.2.isDash) with
    | (_, .A) :: t => (candN k t).map (· + (d + 1))
    | _ => []

/-- Lengths a positional's pattern (`argparse.py:2331-2376` `_get_nargs_pattern`) can match. -/
def candidates (n : Nargs) (p : Args) : List Nat :=
  match n with
  | .one => candN 1 p
  | .n k => candN k p
  | .star => downTo (p.takeWhile fun x => x.2.isA || x.2.isDash).length
  | .opt =>
    let d := (p.takeWhile (·.2.isDash)).length
    candN 1 p ++ downTo d

/-- `re.match` of the concatenated patterns: the first way to match all of them. -/
def matchAll : List Nargs → Args → Option (List Nat)
  | [], _ => some []
  | n :: ns, p => (candidates n p).findSome? fun k => (matchAll ns (p.drop k)).map (k :: ·)

/-- `argparse.py:2213-2228` `_match_arguments_partial`: drop positionals from the end until the
rest matches. -/
def matchPartial (ns : List Nargs) (p : Args) : List Nat :=
  go ns.length
where
  /-- try the first `i` positionals -/
  go : Nat → List Nat
    | 0 => []
    | i + 1 => match matchAll (ns.take (i + 1)) p with
      | some r => r
      | none => go i

/-- `argparse.py:2192-2211` `_match_argument` for an optional (no `-` allowed). -/
def matchOptional (n : Nargs) (p : Args) : Option Nat :=
  let run := (p.takeWhile (·.2.isA)).length
  match n with
  | .one => if 1 ≤ run then some 1 else none
  | .opt => some (min run 1)
  | .star => some run
  | .n k => if k ≤ run then some k else none

/-! ## Values -/

/-- `argparse.py:2521-2547` `_get_value`: `ValueError`, `TypeError` and `ArgumentTypeError` become
parser errors; other exceptions (a callback's own `KickstartParseError`) propagate. -/
def getValue (lineno : Option Int) (a : Action) (s : Str) : Except Exc Val :=
  match a.type s with
  | .ok v => .ok v
  | .error .value => .error (argErr c!"invalid value" lineno)
  | .error .type => .error (argErr c!"invalid value" lineno)
  | .error e => .error e

/-- `argparse.py:2549-2555` `_check_value`. -/
def checkValue (lineno : Option Int) (a : Action) (v : Val) : Except Exc Unit :=
  match a.choices with
  | none => .ok ()
  | some cs =>
    match v with
    | .str s => if s ∈ cs then .ok () else .error (argErr c!"invalid choice" lineno)
    | _ => .error (argErr c!"invalid choice" lineno)

/-- An element of a list value (only strings occur). -/
def Val.asStr : Val → Str
  | .str s => s
  | .int n => intStr n
  | _ => []

/-- Convert and check a list of values. -/
def getValueList (lineno : Option Int) (a : Action) : List Str → Except Exc (List Str)
  | [] => .ok []
  | s :: t => do
    let v ← getValue lineno a s
    checkValue lineno a v
    let r ← getValueList lineno a t
    return v.asStr :: r

/-- `argparse.py:2476-2519` `_get_values`. -/
def getValues (lineno : Option Int) (a : Action) (args : List Str) : Except Exc Val :=
  let args := if a.opts = [] then args.erase c!"--" else args
  match args, a.nargs with
  | [], .opt =>
    let v := if a.opts ≠ [] then a.const else a.default
    match v with
    | .str s => do
      let v ← getValue lineno a s
      checkValue lineno a v
      return v
    | v => .ok v
  | [], .star =>
    if a.opts = [] then do
      let v := if a.default ≠ .none then a.default else .list []
      checkValue lineno a v
      return v
    else .ok (.list [])
  | [s], .one | [s], .opt => do
    let v ← getValue lineno a s
    checkValue lineno a v
    return v
  | args, _ => (getValueList lineno a args).map .list

/-- `value1 + value2` on lists. -/
def Val.concat : Val → Val → Val
  | .list a, .list b => .list (a ++ b)
  | .pairs a, .pairs b => .pairs (a ++ b)
  | a, _ => a

/-- `argparse.py:140-150` `_copy_items(items)` followed by `items.append(v)`. -/
def Val.push : Val → Str → Val
  | .list a, s => .list (a ++ [s])
  | _, s => .list [s]

/-- The action objects' `__call__`: `argparse.py:960,986,1050,1079`, `options.py:105-117`. -/
def applyAction (a : Action) (v : Val) (ns : Ns) : Ns :=
  match a.kind with
  | .store => ns.set a.dest v
  | .storeConst => ns.set a.dest a.const
  | .append => ns.set a.dest ((ns.getD a.dest).push v.asStr)
  | .appendConst => ns.set a.dest ((ns.getD a.dest).push a.const.asStr)
  | .extend => if ns.getD a.dest ≠ .none then ns.set a.dest ((ns.getD a.dest).concat v) else ns.set a.dest v
  | .extendConst => if ns.getD a.dest ≠ .none then ns.set a.dest (a.const.concat v) else ns.set a.dest a.const

/-- `argparse.py:1965-1985` `take_action`. -/
def takeAction (lineno : Option Int) (a : Action) (args : List Str) (ns : Ns) : Except Exc Ns :=
  (getValues lineno a args).map fun v => applyAction a v ns

/-! ## The parse loop -/

/-- Local variables of `_parse_known_args`. -/
structure LoopSt where
  ns : Ns
  positionals : List Action
  extras : List Str
  seen : List Nat

/-- `argparse.py:2084-2089`: hand each positional its share. -/
def takePositionals (lineno : Option Int) : List Action → List Nat → LoopSt → Args → Except Exc (LoopSt × Args)
  | a :: as, k :: ks, st, rest =>
    match takeAction lineno a ((rest.take k).map (·.1)) st.ns with
    | .error e => .error e
    | .ok ns => takePositionals lineno as ks { st with ns := ns, seen := a.id :: st.seen } (rest.drop k)
  | _, _, st, rest => .ok (st, rest)

/-- `argparse.py:2076-2095` `consume_positionals`. -/
def consumePositionals (lineno : Option Int) (st : LoopSt) (rest : Args) : Except Exc (LoopSt × Args) :=
  let counts := matchPartial (st.positionals.map (·.nargs)) rest
  match takePositionals lineno st.positionals counts st rest with
  | .error e => .error e
  | .ok (st', rest') => .ok ({ st' with positionals := st.positionals.drop counts.length }, rest')

/-- `argparse.py:1987-2070` `consume_optional` at an option `(s, t)` followed by `rest`. -/
def consumeOptional (lineno : Option Int) (st : LoopSt) (s : Str) (t : OptTuple) (rest : Args) :
    Except Exc (LoopSt × Args) :=
  match t.action with
  | none => .ok ({ st with extras := st.extras ++ [s] }, rest)
  | some a =>
    match t.expl with
    | some v =>
      match matchOptional a.nargs [(v, .A)] with
      | some 1 =>
        match takeAction lineno a [v] st.ns with
        | .error e => .error e
        | .ok ns => .ok ({ st with ns := ns, seen := a.id :: st.seen }, rest)
      | some _ => .error (argErr c!"ignored explicit argument" lineno)
      | none => .error (argErr c!"expected arguments" lineno)
    | none =>
      match matchOptional a.nargs rest with
      | none => .error (argErr c!"expected arguments" lineno)
      | some k =>
        match takeAction lineno a ((rest.take k).map (·.1)) st.ns with
        | .error e => .error e
        | .ok ns => .ok ({ st with ns := ns, seen := a.id :: st.seen }, rest.drop k)

/-- The arguments before the next option, that option with its tuple, and what follows. -/
def splitO : Args → Option (Args × Str × OptTuple × Args)
  | [] => none
  | (s, .O t) :: tl => some ([], s, t, tl)
  | x :: tl => match splitO tl with
    | none => none
    | some (pre, r) => some (x :: pre, r)

/-- `argparse.py:2097-2130`: the main loop and the final `consume_positionals`.  `fuel` bounds
the number of rounds; every round consumes an argument, so `length + 1` rounds always suffice
(`parseLoop_fuel`). -/
def parseLoop (lineno : Option Int) : Nat → LoopSt → Args → Except Exc (LoopSt × Args)
  | 0, st, rest => .ok (st, rest)
  | fuel + 1, st, rest =>
    match splitO rest with
    | none => consumePositionals lineno st rest
    | some (pre, s, t, tl) =>
      if pre = [] then
        match consumeOptional lineno st s t tl with
        | .error e => .error e
        | .ok (st, rest) => parseLoop lineno fuel st rest
      else
        match consumePositionals lineno st rest with
        | .error e => .error e
        | .ok (st', rest') =>
          if rest'.length < rest.length then parseLoop lineno fuel st' rest'
          else
            match consumeOptional lineno { st' with extras := st'.extras ++ pre.map (·.1) } s t tl with
            | .error e => .error e
            | .ok (st, rest) => parseLoop lineno fuel st rest

/-- `argparse.py:1886-1891`: defaults of the actions. -/
def OptParser.defaults (p : OptParser) : Ns :=
  p.actions.foldl (fun ns a => if (ns.get a.dest).isNone then ns.set a.dest a.default else ns) []

/-- `argparse.py:2132-2157`: required arguments and conversion of string defaults.  (`is` on the
default string is modelled by equality.) -/
def finish (lineno : Option Int) (seen : List Nat) : List Action → Ns → Bool → Except Exc (Ns × Bool)
  | [], ns, missing => .ok (ns, missing)
  | a :: as, ns, missing =>
    if a.id ∈ seen then finish lineno seen as ns missing
    else if a.required then finish lineno seen as ns true
    else
      match a.default with
      | .str s =>
        if ns.get a.dest = some (.str s) then
          match getValue lineno a s with
          | .error e => .error e
          | .ok v => finish lineno seen as (ns.set a.dest v) missing
        else finish lineno seen as ns missing
      | _ => finish lineno seen as ns missing

/-- The local variables at the start of `_parse_known_args`. -/
def OptParser.initSt (p : OptParser) : LoopSt :=
  { ns := p.defaults, positionals := p.actions.filter (fun a => a.opts.isEmpty), extras := [], seen := [] }

/-- `options.py:278-282`, `argparse.py:1872-2176` `parse_known_args` with a fresh namespace. -/
def OptParser.parseKnown (p : OptParser) (lineno : Option Int) (args : List Str) :
    Except Exc (Ns × List Str) :=
  match p.classify lineno args with
  | .error e => .error e
  | .ok cs =>
    match parseLoop lineno (cs.length + 1) p.initSt cs with
    | .error e => .error e
    | .ok (st, rest) =>
      match finish lineno st.seen p.actions st.ns false with
      | .error e => .error e
      | .ok (ns, missing) =>
        if missing then .error (argErr c!"the following arguments are required" lineno)
        else .ok (ns, st.extras ++ rest.map (·.1))

/-- `options.py:272-276`, `argparse.py:1865-1870` `parse_args`. -/
def OptParser.parseArgs (p : OptParser) (lineno : Option Int) (args : List Str) : Except Exc Ns :=
  match p.parseKnown lineno args with
  | .error e => .error e
  | .ok (ns, extras) =>
    if extras ≠ [] then .error (argErr c!"unrecognized arguments" lineno) else .ok ns

/-- `base.py:175-184` `set_to_obj`: copy the parsed values that are not `None`. -/
def setToObj (ns : Ns) (obj : Ns) : Ns :=
  ns.foldl (fun o kv => if kv.2 ≠ .none then o.set kv.1 kv.2 else o) obj

end Ks
