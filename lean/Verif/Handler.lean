import Verif.Parser
import Verif.Version
/-!
# Handlers and command objects: `base.py:59-619`

Command objects are shared between names and lists, so the handler has a heap: an object is a
position in the list of all objects created so far.  A command class is a record of what the
handler uses of it; what its methods do is a parameter.

Simplifications.  A command's `parse` may read the `seen` attribute of the handler's other
commands (that is all the commands of pykickstart do, except the `method` proxy, which also writes
to other commands) and changes only its own object.  Attributes of the handler that hold data
classes (`registerData`) are not modelled: no modelled method reads them.  Command names never
clash with the handler's own attributes.
-/
namespace Ks

/-- The attributes of a command object (`base.py:84-95`), `attrs` being those added by the class. -/
structure Inst (σ : Type) where
  currentCmd : Str := []
  currentLine : Str := []
  lineno : Nat := 0
  seen : Bool := false
  attrs : σ

/-- A command class (`base.py:59-189`): its name, the `writePriority` and attributes of a new
object, and its methods.  `parse` returns the data object, if the result is one, and `addData` is
`dataList().append`, with `hasList` telling whether `dataList()` is not `None`. -/
structure CmdClass (σ δ : Type) where
  name : Str
  prio : Option Int
  init : σ
  parse : (Str → Option Bool) → List Str → Inst σ → Inst σ × Except Exc (Option δ)
  hasList : Inst σ → Bool
  addData : δ → Inst σ → Inst σ
  str : Inst σ → Str

/-- A command object. -/
structure Obj (σ δ : Type) where
  cls : CmdClass σ δ
  inst : Inst σ

/-- `cmdClass()` (`base.py:64-102`). -/
def CmdClass.new {σ δ : Type} (c : CmdClass σ δ) : Obj σ δ := ⟨c, { attrs := c.init }⟩

/-- `base.py:266-290` the attributes of a `KickstartHandler`; `attrs` are the attributes set by
`_setCommand`. -/
structure Handler (σ δ : Type) where
  heap : List (Obj σ δ) := []
  commands : List (Str × Option Nat) := []
  writeOrder : List (Int × List Nat) := []
  attrs : List (Str × Nat) := []

variable {σ δ : Type}

/-- The name of the class of an object. -/
def Handler.className (h : Handler σ δ) (r : Nat) : Str :=
  match h.heap[r]? with
  | some o => o.cls.name
  | none => []

/-- `base.py:310-329` `_insertSorted`. -/
def insertSorted (name : Nat → Str) (obj : Nat) : List Nat → List Nat
  | [] => [obj]
  | x :: t =>
    if strLt (name x) (name obj) then x :: insertSorted name obj t
    else if name obj = name x then obj :: t
    else obj :: x :: t

/-- `base.py:332-343`: the attribute under which a command is found (`handler.<attribute>`). -/
def attrName (cls : Str) : Str :=
  match partition '_' cls with
  | (_, true, b) => lower b
  | (a, false, _) => lower a

/-- `base.py:331-351` `_setCommand` for the object `r` of class `c`. -/
def Handler.setCommand (h : Handler σ δ) (c : CmdClass σ δ) (r : Nat) : Handler σ δ :=
  let h := { h with attrs := assocSet (attrName c.name) r h.attrs }
  match c.prio with
  | none => h
  | some p =>
    match h.writeOrder.lookup p with
    | some l => { h with writeOrder := assocSet p (insertSorted h.className r l) h.writeOrder }
    | none => { h with writeOrder := assocSet p [r] h.writeOrder }

/-- `base.py:362-365`: the first registered object whose class has that name. -/
def Handler.findClass (h : Handler σ δ) (name : Str) : List (Str × Option Nat) → Option Nat
  | [] => none
  | (_, some r) :: t => if h.className r = name then some r else h.findClass name t
  | (_, none) :: t => h.findClass name t

/-- Create an object of class `c`: the handler and the new object. -/
def Handler.create (h : Handler σ δ) (c : CmdClass σ δ) : Handler σ δ × Nat :=
  (({ h with heap := h.heap ++ [c.new] } : Handler σ δ).setCommand c h.heap.length, h.heap.length)

/-- `base.py:353-374` `registerCommand`. -/
def Handler.register (h : Handler σ δ) (cmdName : Str) (c : CmdClass σ δ) : Handler σ δ :=
  match h.findClass c.name h.commands with
  | some r => { h with commands := assocSet cmdName (some r) h.commands }
  | none =>
    let (h, r) := h.create c
    { h with commands := assocSet cmdName (some r) h.commands }

/-- `base.py:380-395` `resetCommand`.  For a masked command `None.__class__()` is `None`, which has
no `writePriority`. -/
def Handler.reset (h : Handler σ δ) (cmdName : Str) : Res (Handler σ δ) :=
  match h.commands.lookup cmdName with
  | none => (h, some .key)
  | some none => (h, some .attribute)
  | some (some r) =>
    match h.heap[r]? with
    | none => (h, some .key)
    | some o =>
      let (h, r) := h.create o.cls
      ({ h with commands := assocSet cmdName (some r) h.commands }, none)

/-- Replace the attributes of an object. -/
def Handler.setInst (h : Handler σ δ) (r : Nat) (o : Obj σ δ) (i : Inst σ) : Handler σ δ :=
  { h with heap := h.heap.set r ⟨o.cls, i⟩ }

/-- `handler.<name>.seen`; `none` when there is no such attribute. -/
def Handler.seenAttr (h : Handler σ δ) (name : Str) : Option Bool :=
  match h.attrs.lookup name with
  | none => none
  | some r => h.heap[r]?.map (·.inst.seen)

/-- `base.py:397-429` `dispatcher`, with `handler.currentLine = line`; the result of the command is
not returned. -/
def Handler.dispatch (lineno : Nat) (args : List Str) (line : Str) (h : Handler σ δ) : Res (Handler σ δ) :=
  match args with
  | [] => (h, some .index)
  | cmd :: args =>
    match h.commands.lookup cmd with
    | none => (h, some (.parse (c!"Unknown command: " ++ cmd) (some lineno)))
    | some none => (h, none)
    | some (some r) =>
      match h.heap[r]? with
      | none => (h, some .key)
      | some o =>
        let i := { o.inst with currentCmd := cmd, currentLine := line, lineno := lineno, seen := true }
        let h := h.setInst r o i
        match o.cls.parse h.seenAttr args i with
        | (i, .error e) => (h.setInst r o i, some e)
        | (i, .ok none) => (h.setInst r o i, none)
        | (i, .ok (some d)) => (h.setInst r o (if o.cls.hasList i then o.cls.addData d i else i), none)

/-- `base.py:292-308` `KickstartHandler.__str__`. -/
def Handler.str (h : Handler σ δ) : Str :=
  ((sortBy (fun a b => decide (a < b)) (h.writeOrder.map (·.1))).map fun p =>
    (((h.writeOrder.lookup p).getD []).map fun r =>
      match h.heap[r]? with
      | some o => o.cls.str o.inst
      | none => []).flatten).flatten

/-- `base.py:555-563` `maskAllExcept`. -/
def Handler.maskAllExcept (h : Handler σ δ) (lst : List Str) : Handler σ δ :=
  { h with
    writeOrder := []
    commands := h.commands.map fun (k, v) => if k ∈ lst then (k, v) else (k, none) }

/-- `base.py:565-567` `hasCommand`, for the attributes set by `_setCommand`. -/
def Handler.hasCommand (h : Handler σ δ) (cmd : Str) : Bool := (h.attrs.lookup cmd).isSome

/-- `dict.update`. -/
def dictUpdate {β : Type} (m : List (Str × β)) : List (Str × β) → List (Str × β)
  | [] => m
  | (k, v) :: t => dictUpdate (assocSet k v m) t

/-- Register every entry of a map (`base.py:547-548`). -/
def Handler.registerAll (h : Handler σ δ) : List (Str × CmdClass σ δ) → Handler σ δ
  | [] => h
  | (n, c) :: t => (h.register n c).registerAll t

/-- `base.py:523-553` `_registerCommands` on a new handler, without the data classes: `default` is
the command map of the handler's version. -/
def Handler.build (default : List (Str × CmdClass σ δ)) (mapping : Option (List (Str × CmdClass σ δ)))
    (updates : Option (List (Str × CmdClass σ δ))) : Handler σ δ :=
  let m := match mapping with
    | none => default
    | some [] => default
    | some m => m
  let m := match updates with
    | none => m
    | some u => dictUpdate m u
  ({} : Handler σ δ).registerAll m

/-- `base.py:496-521` `BaseHandler.__str__`; `ver` is `pykickstart.__version__`, `version` the
handler's version and `sver` the class attributes `Script._ver` and `Packages._ver`.  The second
component is the package selection afterwards (writing sorts it). -/
def writeHandler (ver : Str) (version : Nat) (sver : Nat) (s : PState (Handler σ δ)) : Except Exc (Str × Packages) :=
  match Version.versionToString version false with
  | .error e => .error e
  | .ok v =>
    .ok (c!"# Generated by pykickstart v" ++ ver ++ c!"\n"
      ++ (if s.platform ≠ [] then c!"#platform=" ++ s.platform ++ c!"\n" else [])
      ++ c!"#version=" ++ v ++ c!"\n"
      ++ s.cmds.str
      ++ (s.scripts.map (·.str sver)).flatten
      ++ (if s.nullStrings ≠ [] then c!"\n" ++ s.nullStrings.flatten else [])
      ++ (s.packages.str sver).1, (s.packages.str sver).2)

/-! ## Calling objects -/

/-- An object as far as `__call__` is concerned: the attributes of the instance, the names that the
class provides and the names in `removedAttrs`. -/
structure CallObj (ν : Type) where
  attrs : List (Str × ν)
  classAttrs : List Str
  removed : List Str

/-- `hasattr(self, key)`. -/
def CallObj.has {ν : Type} (o : CallObj ν) (k : Str) : Bool := (o.attrs.lookup k).isSome || decide (k ∈ o.classAttrs)

/-- `base.py:605-611` `BaseData.__call__` (keyword names are distinct). -/
def CallObj.call {ν : Type} (o : CallObj ν) : List (Str × ν) → CallObj ν
  | [] => o
  | (k, v) :: t =>
    if k ∈ o.removed then o.call t
    else if o.has k then ({ o with attrs := assocSet k v o.attrs } : CallObj ν).call t
    else o.call t

/-- `base.py:104-118` `KickstartCommand.__call__`. -/
def CallObj.callCommand {ν : Type} (o : CallObj ν) (true' : ν) (kw : List (Str × ν)) : CallObj ν :=
  ({ o with attrs := assocSet c!"seen" true' o.attrs } : CallObj ν).call kw

/-- `base.py:132-138,613-619` `deleteRemovedAttrs`: instance attributes go; class attributes can
not be deleted from an instance (`AttributeError`). -/
def CallObj.deleteRemoved {ν : Type} (o : CallObj ν) : List Str → CallObj ν × Option Exc
  | [] => (o, none)
  | k :: t =>
    if (o.attrs.lookup k).isSome then ({ o with attrs := o.attrs.filter (·.1 ≠ k) } : CallObj ν).deleteRemoved t
    else if k ∈ o.classAttrs then (o, some .attribute)
    else o.deleteRemoved t

end Ks
