import Verif.Argparse
import Verif.Handler
/-!
# What the command classes of `/repo/pykickstart/commands` are made of

A command class of pykickstart (74 modules, 409 classes) is modelled by

* its attributes after `__init__()` without arguments: an attribute list `Ns`;
* its option parser (`_getParser`): an `OptParser`;
* its `__str__`: for the most part a sequence of `if condition: retval += "format" % attributes`,
  written down as such (`Out`) and interpreted by `Out.render`;
* its `parse`: a program in the monad `M`, which has the command object as its state, may fail with
  an exception (the changes made before are kept, as in Python) and records the warnings.

Data objects (`BaseData`) are attribute lists; the data list of a command is kept beside its
attributes.  Simplifications: `__init__` is called without arguments; attributes that hold class
constants (`levelMap`, `bootprotoList`, ...) are not attributes in the model but definitions;
formatting with `%` never fails (`%d` of something that is not a number gives the text `%s` gives).
-/
namespace Ks

/-! ## Values -/

/-- The truth value of an object. -/
def Val.truthy : Val → Bool
  | .none => false
  | .bool b => b
  | .int n => n != 0
  | .str s => !s.isEmpty
  | .list l => !l.isEmpty
  | .pairs l => !l.isEmpty

/-- `a == b`: the booleans are the integers 0 and 1. -/
def Val.pyEq : Val → Val → Bool
  | .bool a, .int n => decide ((if a then 1 else 0) = n)
  | .int n, .bool a => decide ((if a then 1 else 0) = n)
  | a, b => decide (a = b)

/-- `"%s" % v`, `"%d" % v` (lists are formatted with `join` only). -/
def Val.fmt : Val → Str
  | .none => c!"None"
  | .bool true => c!"True"
  | .bool false => c!"False"
  | .int n => intStr n
  | .str s => s
  | .list _ => []
  | .pairs _ => []

/-- The elements of a list. -/
def Val.items : Val → List Str
  | .list l => l
  | _ => []

/-- A string operation on a value that is a string. -/
def Val.mapStr (f : Str → Str) : Val → Val
  | .str s => .str (f s)
  | v => v

/-- The integer a value stands for in a comparison. -/
def Val.num : Val → Int
  | .int n => n
  | .bool b => if b then 1 else 0
  | _ => 0

/-- `len(v)` -/
def Val.len : Val → Nat
  | .str s => s.length
  | .list l => l.length
  | .pairs l => l.length
  | _ => 0

/-- `v[i]` for a list of strings; `IndexError`. -/
def Val.index (v : Val) (i : Nat) : Except Exc Val :=
  match v with
  | .list l => match l[i]? with
    | some s => .ok (.str s)
    | Option.none => .error .index
  | .str s => match s[i]? with
    | some c => .ok (.str [c])
    | Option.none => .error .index
  | _ => .error .type

/-- A string or `None`. -/
def Val.ofOption : Option Str → Val
  | some s => .str s
  | Option.none => .none

/-- `v[0]` where `v` is known not to be empty. -/
def Val.head (v : Val) : Val := .str (v.items.headD [])

/-- `v[-1]`; `IndexError`. -/
def Val.last (v : Val) : Except Exc Val :=
  match v with
  | .list l => match l.getLast? with
    | some s => .ok (.str s)
    | Option.none => .error .index
  | .str s => match s.getLast? with
    | some c => .ok (.str [c])
    | Option.none => .error .index
  | _ => .error .type

/-- `v.startswith(p)` -/
def Val.startsWith (v : Val) (p : Str) : Bool :=
  match v with
  | .str s => Ks.startsWith s p
  | _ => false

/-- `c in v` for a string `v`. -/
def Val.hasChar (v : Val) (c : Char) : Bool :=
  match v with
  | .str s => s.contains c
  | _ => false

/-- `v.split(c)` for a string `v`. -/
def Val.split (v : Val) (c : Char) : Val :=
  match v with
  | .str s => .list (splitOn c s)
  | v => v

/-- `list(set(l))`.  Simplification: Python leaves the order open; here it is the order of the first
occurrences. -/
def dedup (l : List Str) : List Str := l.eraseDups

/-- A new object: the attributes `base`, then the assignments `kvs`. -/
def Ns.updated (base kvs : Ns) : Ns := kvs.foldl (fun ns kv => ns.set kv.1 kv.2) base

/-- `del obj.k` for every `k` in `ks`. -/
def Ns.without (ns : Ns) (ks : List Str) : Ns := ns.filter fun kv => !ks.contains kv.1

/-- `commands/autopart.py:255-266` `_typeAsStr`: the name of a partitioning type. -/
def typeAsStr (typeMap : List (Str × Val)) (ty : Val) : Option Str :=
  match typeMap.find? (fun p => p.2.pyEq ty) with
  | some (k, _) => some (if k = c!"partition" then c!"plain" else k)
  | none => none

/-! ## Writing -/

/-- The conditions of the `if` statements in `__str__`. -/
inductive Cond
  /-- no condition -/
  | tt
  /-- `self.k` -/
  | tru (k : Str)
  /-- `self.k == v` (and `is None`) -/
  | eq (k : Str) (v : Val)
  /-- `self.k > n` -/
  | gt (k : Str) (n : Int)
  /-- `hasattr(self, k)` -/
  | has (k : Str)
  /-- `"s" in self.k` -/
  | contains (k : Str) (c : Char)
  /-- `str(self.k)` is not empty -/
  | shown (k : Str)
  | not (c : Cond)
  | and (a b : Cond)
  | or (a b : Cond)
  deriving DecidableEq, Repr

/-- The value of a condition. -/
def Cond.eval (self : Ns) : Cond → Bool
  | .tt => true
  | .tru k => (self.getD k).truthy
  | .eq k v => (self.getD k).pyEq v
  | .gt k n => decide ((self.getD k).num > n)
  | .has k => (self.get k).isSome
  | .contains k c => match self.getD k with
    | .str s => s.contains c
    | _ => false
  | .shown k => !(self.getD k).fmt.isEmpty
  | .not c => !c.eval self
  | .and a b => a.eval self && b.eval self
  | .or a b => a.eval self || b.eval self

/-- The pieces of a formatted string. -/
inductive Frag
  /-- literal text -/
  | lit (s : Str)
  /-- `%s` or `%d` of `self.k` -/
  | fld (k : Str)
  /-- `self.k.lower()` -/
  | low (k : Str)
  /-- `self.k.upper()` -/
  | up (k : Str)
  /-- `sep.join(self.k)` -/
  | join (sep k : Str)
  /-- `pre + x + post` for every `x` in `self.k` -/
  | each (pre k post : Str)
  /-- the elements of `self.k`, each in single quotes, with commas between them -/
  | joinQ (k : Str)
  /-- `self.k.replace('"', '\\"')` -/
  | esc (k : Str)
  /-- the team slaves of `self.k` (`commands/network.py:597-605`) -/
  | team (k : Str)
  deriving DecidableEq, Repr

/-- `s.replace('"', '\\"')` -/
def escapeQuotes (s : Str) : Str := s.flatMap fun c => if c = '"' then ['\\', '"'] else [c]

/-- The team slaves with their configurations. -/
def Val.slaves : Val → List (Str × Str)
  | .pairs l => l
  | _ => []

/-- The text of a piece. -/
def Frag.render (self : Ns) : Frag → Str
  | .lit s => s
  | .fld k => (self.getD k).fmt
  | .low k => lower (self.getD k).fmt
  | .up k => upper (self.getD k).fmt
  | .join sep k => joinWith sep (self.getD k).items
  | .each pre k post => ((self.getD k).items.map fun x => pre ++ x ++ post).flatten
  | .joinQ k => joinWith c!"," ((self.getD k).items.map fun x => c!"'" ++ x ++ c!"'")
  | .esc k => escapeQuotes (self.getD k).fmt
  | .team k => escapeQuotes (joinWith c!"," ((self.getD k).slaves.map fun x => x.1 ++ (if x.2.isEmpty then [] else c!"'" ++ x.2 ++ c!"'")))

/-- What a `__str__` or `_getArgsAsStr` method appends to its result, with the conditions. -/
abbrev Out := List (Cond × List Frag)

/-- The text one of them appends. -/
def pieceText (self : Ns) (x : Cond × List Frag) : Str :=
  if x.1.eval self then (x.2.map (Frag.render self)).flatten else []

/-- The resulting string. -/
def Out.render (o : Out) (self : Ns) : Str := (o.map (pieceText self)).flatten

/-- `if c: <append o>` -/
def Out.guard (c : Cond) (o : Out) : Out := o.map fun x => (.and c x.1, x.2)

/-- The condition that something is appended at all. -/
def Out.anyCond : Out → Cond
  | [] => .not .tt
  | [x] => x.1
  | x :: t => .or x.1 (Out.anyCond t)

/-! ## Command objects -/

/-- The attributes of a command object apart from those of `KickstartCommand`, its data list, and
the warnings it has given so far. -/
structure CState where
  attrs : Ns := []
  data : List Ns := []
  warned : List Warn := []

/-- A command class. -/
abbrev Command := CmdClass CState Ns

/-- The attributes of the object as its methods see them. -/
def selfOf (i : Inst CState) : Ns := (c!"seen", .bool i.seen) :: i.attrs.attrs

/-- What a `parse` method does: it knows the `seen` flags of the other commands (`none`: there is no
such command), changes its object and returns a value or raises an exception. -/
def M (α : Type) : Type := (Str → Option Bool) → Inst CState → Inst CState × Except Exc α

instance : Monad M where
  pure a := fun _ i => (i, .ok a)
  bind m f := fun h i => match m h i with
    | (i, .error e) => (i, .error e)
    | (i, .ok a) => f a h i

/-- The attributes of `self`. -/
def M.self : M Ns := fun _ i => (i, .ok (selfOf i))

/-- `self.currentCmd` -/
def M.currentCmd : M Str := fun _ i => (i, .ok i.currentCmd)

/-- `self.currentLine` -/
def M.currentLine : M Str := fun _ i => (i, .ok i.currentLine)

/-- `self.lineno` -/
def M.lineno : M Nat := fun _ i => (i, .ok i.lineno)

/-- `self.dataList()` -/
def M.dataList : M (List Ns) := fun _ i => (i, .ok i.attrs.data)

/-- `hasattr(self.handler, name)` -/
def M.hasCmd (name : Str) : M Bool := fun h i => (i, .ok (h name).isSome)

/-- `self.handler.<name>.seen` -/
def M.seenCmd (name : Str) : M Bool := fun h i => match h name with
  | some b => (i, .ok b)
  | none => (i, .error .attribute)

/-- `hasattr(self.handler, name) and self.handler.<name>.seen` -/
def M.usedCmd (name : Str) : M Bool := fun h i => (i, .ok (h name == some true))

/-- `raise e` -/
def M.throw {α : Type} (e : Exc) : M α := fun _ i => (i, .error e)

/-- `raise KickstartParseError(msg, lineno=self.lineno)` -/
def M.err {α : Type} (msg : Str) : M α := fun _ i => (i, .error (.parse msg (some i.lineno)))

/-- `warnings.warn(msg, KickstartParseWarning)` -/
def M.warn (w : Warn) : M Unit := fun _ i => ({ i with attrs := { i.attrs with warned := i.attrs.warned ++ [w] } }, .ok ())

/-- `self.k = v` -/
def M.set (k : Str) (v : Val) : M Unit := fun _ i => ({ i with attrs := { i.attrs with attrs := i.attrs.attrs.set k v } }, .ok ())

/-- `del self.k[:]` and other changes of the data list. -/
def M.setData (d : List Ns) : M Unit := fun _ i => ({ i with attrs := { i.attrs with data := d } }, .ok ())

/-- `self.set_to_self(ns)` (`base.py:140-146`). -/
def M.setToSelf (ns : Ns) : M Unit := fun _ i =>
  ({ i with attrs := { i.attrs with attrs := setToObj ns i.attrs.attrs } }, .ok ())

/-- `del self.k` -/
def M.del (k : Str) : M Unit := fun _ i => ({ i with attrs := { i.attrs with attrs := i.attrs.attrs.without [k] } }, .ok ())

/-- `if c: raise KickstartParseError(msg, lineno=self.lineno)` -/
def M.failIf (c : Bool) (msg : Str) : M Unit := if c then M.err msg else pure ()

/-- `if c: raise KickstartParseError(msg)` -/
def M.failIfNoLine (c : Bool) (msg : Str) : M Unit := if c then M.throw (.parse msg none) else pure ()

/-- The same for a condition that looks at other commands. -/
def M.failIfM (c : M Bool) (msg : Str) : M Unit := do
  let b ← c
  M.failIf b msg

/-- `if c: m` -/
def M.when (c : Bool) (m : M Unit) : M Unit := if c then m else pure ()

/-- `if c: a else: b` -/
def M.cond {α : Type} (c : M Bool) (a b : M α) : M α := do
  let x ← c
  if x then a else b

/-- `assert c` -/
def M.assert (c : Bool) : M Unit := if c then pure () else M.throw .assertion

/-- An `Except` value as a step. -/
def M.lift {α : Type} (x : Except Exc α) : M α := fun _ i => (i, x)

/-- `self.op.parse_known_args(args=args, lineno=self.lineno)`, with the deprecation warnings. -/
def M.parseKnown (op : OptParser) (args : List Str) : M (Ns × List Str) := fun _ i =>
  ({ i with attrs := { i.attrs with warned := i.attrs.warned ++ (op.warnings (some i.lineno) args).map Warn.deprecation } },
    op.parseKnown (some i.lineno) args)

/-- `self.op.parse_args(args=args, lineno=self.lineno)` -/
def M.parseArgs (op : OptParser) (args : List Str) : M Ns := fun _ i =>
  ({ i with attrs := { i.attrs with warned := i.attrs.warned ++ (op.warnings (some i.lineno) args).map Warn.deprecation } },
    op.parseArgs (some i.lineno) args)

/-- An `__eq__` that compares the attributes `keys` (`obj in list` calls it for every element). -/
def sameAttrs (keys : List Str) (a b : Ns) : Bool := keys.all fun k => (a.getD k).pyEq (b.getD k)

/-- A data class: the attributes of a new object, `__str__` and `__eq__`. -/
structure DataCls where
  init : Ns
  str : Ns → Str
  eq : Ns → Ns → Bool

/-- What a `parse` method finds in its class: the option parser, the data class and the class
constants. -/
structure Info where
  op : OptParser := .empty
  dc : DataCls := ⟨[], fun _ => [], fun _ _ => false⟩
  exclusive : List (Str × Str) := []
  typeMap : List (Str × Val) := []
  urlRequired : Bool := true
  getDevice : Val → Except Exc Val := .ok

/-- A command class whose `parse` returns `self`. -/
def plainCmd (name : Str) (prio : Option Int) (init : Ns) (parse : List Str → M Unit) (str : Ns → Str) : Command where
  name := name
  prio := prio
  init := { attrs := init }
  parse h args i := match parse args h i with
    | (i, .error e) => (i, .error e)
    | (i, .ok _) => (i, .ok none)
  hasList _ := false
  addData _ i := i
  str i := str (selfOf i)

/-- `__str__` of a command with a data list: the texts of the objects one after the other. -/
def listStr (l : List Str) : Str := l.flatten

/-- The same with a comment line before them, if there is any text. -/
def headedListStr (hd : Str) (l : List Str) : Str := if l.flatten.isEmpty then [] else hd ++ l.flatten

/-- The same with an empty line after them. -/
def wrappedListStr (hd : Str) (l : List Str) : Str := if l.flatten.isEmpty then [] else hd ++ l.flatten ++ c!"\n"

/-- A command class whose `parse` returns a data object; `str` is given the texts of the data
objects. -/
def listCmd (name : Str) (prio : Option Int) (init : Ns) (dc : DataCls) (parse : List Str → M Ns) (str : List Str → Str) : Command where
  name := name
  prio := prio
  init := { attrs := init }
  parse h args i := match parse args h i with
    | (i, .error e) => (i, .error e)
    | (i, .ok d) => (i, .ok (some d))
  hasList _ := true
  addData d i := { i with attrs := { i.attrs with data := i.attrs.data ++ [d] } }
  str i := str (i.attrs.data.map dc.str)

/-- `base.py:191-221` `DeprecatedCommand`: `parse` warns and does nothing, `__str__` is empty. -/
def deprecatedCmd (name : Str) (init : Ns) : Command :=
  plainCmd name none init (fun _ => do
    let c ← M.currentCmd
    M.warn (.deprecation (c!"Ignoring deprecated command " ++ c))) (fun _ => [])

/-- `base.py:223-252` `RemovedCommand`. -/
def removedCmd (name : Str) (init : Ns) : Command :=
  plainCmd name none init (fun _ => do
    let c ← M.currentCmd
    M.err (c ++ c!" has been removed.")) (fun _ => [])

end Ks
