import Verif.Commands.Maps
/-!
# `handler.method`: the proxy for the installation method

`commands/method.py`. The functions take the handler that `self.handler` is, and the list `_methods` of the class.
Attributes that are found on the class (methods such as `parse`) are not modelled, so `name` below is no such attribute
and none of the `internals` of the class.
-/
namespace Ks

abbrev KsHandler := Handler CState Ns

/-- `commands/method.py:33,133,139`: `_methods` of the class. -/
def methodsOf (cls : Str) : List Str :=
  if cls = c!"RHEL7_Method" ∨ cls = c!"F28_Method" then [c!"cdrom", c!"harddrive", c!"nfs", c!"url", c!"liveimg", c!"hmc"]
  else if cls = c!"F19_Method" ∨ cls = c!"F34_Method" then [c!"cdrom", c!"harddrive", c!"nfs", c!"url", c!"liveimg"]
  else [c!"cdrom", c!"harddrive", c!"nfs", c!"url"]

/-- `getattr(handler, name)` for the attribute of a command. -/
def Handler.attrObj (h : KsHandler) (name : Str) : Except Exc (Nat × Obj CState Ns) :=
  match h.attrs.lookup name with
  | none => .error .attribute
  | some r =>
    match h.heap[r]? with
    | none => .error .attribute
    | some o => .ok (r, o)

/-- `getattr(handler, name).seen = value` -/
def Handler.setSeen (h : KsHandler) (name : Str) (value : Bool) : Res KsHandler :=
  match h.attrObj name with
  | .error e => (h, some e)
  | .ok (r, o) => (h.setInst r o { o.inst with seen := value }, none)

/-- `commands/method.py:35-38` `_clear_seen` -/
def Handler.clearSeen (h : KsHandler) : List Str → Res KsHandler
  | [] => (h, none)
  | m :: ms =>
    match h.setSeen m false with
    | (h, some e) => (h, some e)
    | (h, none) => Handler.clearSeen h ms

/-- `commands/method.py:40-50` `_get_command` -/
def Handler.methodCommand (h : KsHandler) (ms : List Str) (method : Option Str) : Except Exc (Nat × Obj CState Ns) :=
  let m := match method with
    | none => c!"url"
    | some m => m
  if m ∈ ms then h.attrObj m else .error .attribute

/-- `commands/method.py:52-59` the property `method` -/
def Handler.method (h : KsHandler) : List Str → Except Exc (Option Str)
  | [] => .ok none
  | m :: ms =>
    match h.attrObj m with
    | .error e => .error e
    | .ok (_, o) => if o.inst.seen then .ok (some m) else Handler.method h ms

/-- `commands/method.py:61-69` the setter of `method` -/
def Handler.setMethod (h : KsHandler) (ms : List Str) (value : Option Str) : Res KsHandler :=
  match h.clearSeen ms with
  | (h, some e) => (h, some e)
  | (h, none) =>
    match value with
    | none => (h, none)
    | some m =>
      match h.methodCommand ms (some m) with
      | .error e => (h, some e)
      | .ok (r, o) => (h.setInst r o { o.inst with seen := true }, none)

/-- `commands/method.py:71-83` `__getattr__` -/
def Handler.methodAttr (h : KsHandler) (ms : List Str) (name : Str) : Except Exc Val :=
  match h.method ms with
  | .error e => .error e
  | .ok m =>
    match h.methodCommand ms m with
    | .error e => .error e
    | .ok (_, o) =>
      match o.inst.attrs.attrs.get name with
      | none => .error .attribute
      | some x => .ok x

/-- `commands/method.py:85-100` `__setattr__` -/
def Handler.setMethodAttr (h : KsHandler) (ms : List Str) (name : Str) (value : Val) : Res KsHandler :=
  match h.method ms with
  | .error e => (h, some e)
  | .ok m =>
    match h.methodCommand ms m with
    | .error e => (h, some e)
    | .ok (r, o) =>
      match o.inst.attrs.attrs.get name with
      | none => (h, some .attribute)
      | some _ => (h.setInst r o { o.inst with attrs := { o.inst.attrs with attrs := o.inst.attrs.attrs.set name value } }, none)

end Ks
