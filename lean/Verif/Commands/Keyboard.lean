import Verif.Commands.Base
/-!
# `/repo/pykickstart/commands/keyboard.py`

Written by `scripts/gen_commands.py` from the text of that file; see there and
`Verif/Commands/Base.lean` for how a class is represented.
-/
namespace Ks.Cmd

/-- `commands/keyboard.py:33-36` `__init__` -/
def FC3_Keyboard.init : Ns := [(c!"keyboard", .str [])]
/-- `commands/keyboard.py:46-50` `_getParser` -/
def FC3_Keyboard.op : OptParser :=
  OptParser.empty
    |>.add { names := [c!"kbd"], nargs := .star }
/-- `commands/keyboard.py:38-44` `__str__` -/
def FC3_Keyboard.strOut : Out :=
  [(.tru c!"keyboard", [.lit c!"# System keyboard\nkeyboard ", .fld c!"keyboard", .lit c!"\n"])]
/-- `commands/keyboard.py:52-62` `parse` -/
def FC3_Keyboard.parse (k : Info) (args : List Str) : M Unit := do
  let r ← M.parseKnown k.op args
  let _ns := r.1
  let extra := r.2
  M.failIf (decide ((_ns.getD c!"kbd").len ≠ 1)) c!"Kickstart command %s requires one argument"
  M.failIf (!extra.isEmpty) c!"Unexpected arguments to %(command)s command: %(options)s"
  let x1 ← M.lift ((_ns.getD c!"kbd").index 0)
  M.set c!"keyboard" (x1)
/-- `commands/keyboard.py:29-62` -/
def FC3_Keyboard.info : Info := { op := FC3_Keyboard.op }
/-- `commands/keyboard.py:29-62` -/
def FC3_Keyboard.cls : Command := plainCmd c!"FC3_Keyboard" (some 0) FC3_Keyboard.init (FC3_Keyboard.parse FC3_Keyboard.info) (FC3_Keyboard.strOut.render)

/-- `commands/keyboard.py:65-71` `__init__` -/
def F18_Keyboard.init : Ns := Ns.without (Ns.updated FC3_Keyboard.init [(c!"_keyboard", .str []), (c!"vc_keymap", .str []), (c!"x_layouts", .list []), (c!"switch_options", .list [])]) [c!"keyboard"]
/-- `commands/keyboard.py:109-156` `_getParser` -/
def F18_Keyboard.op : OptParser :=
  FC3_Keyboard.op
    |>.add { names := [c!"--vckeymap"], dest := some c!"vc_keymap", default := some (.str []) }
    |>.add { names := [c!"--xlayouts"], dest := some c!"x_layouts", ty := .comma }
    |>.add { names := [c!"--switch"], dest := some c!"switch_options", ty := .comma }
/-- `commands/keyboard.py:89-107` `_getArgsAsStr` -/
def F18_Keyboard.args : Out :=
  [(.tru c!"vc_keymap", [.lit c!" --vckeymap=", .fld c!"vc_keymap"]),
    (.tru c!"x_layouts", [.lit c!" --xlayouts=", .joinQ c!"x_layouts"]),
    (.tru c!"switch_options", [.lit c!" --switch=", .joinQ c!"switch_options"])]
/-- `commands/keyboard.py:73-87` `__str__` -/
def F18_Keyboard.strOut (args : Out) : Out :=
  [(.and (.or (.tru c!"_keyboard") (.or (.tru c!"x_layouts") (.tru c!"vc_keymap"))) (.and (.not (.tru c!"vc_keymap")) (.not (.tru c!"x_layouts"))), [.lit c!"# Keyboard layouts\n"]),
    (.and (.and (.or (.tru c!"_keyboard") (.or (.tru c!"x_layouts") (.tru c!"vc_keymap"))) (.and (.not (.tru c!"vc_keymap")) (.not (.tru c!"x_layouts")))) (.and (.not (.tru c!"vc_keymap")) (.not (.tru c!"x_layouts"))), [.lit c!"keyboard '", .fld c!"_keyboard", .lit c!"'\n"]),
    (.and (.or (.tru c!"_keyboard") (.or (.tru c!"x_layouts") (.tru c!"vc_keymap"))) (.not (.and (.not (.tru c!"vc_keymap")) (.not (.tru c!"x_layouts")))), [.lit c!"# Keyboard layouts\n"]),
    (.and (.and (.or (.tru c!"_keyboard") (.or (.tru c!"x_layouts") (.tru c!"vc_keymap"))) (.not (.and (.not (.tru c!"vc_keymap")) (.not (.tru c!"x_layouts"))))) (.and (.not (.tru c!"vc_keymap")) (.not (.tru c!"x_layouts"))), [.lit c!"keyboard '", .fld c!"_keyboard", .lit c!"'\n"]),
    (.and (.and (.or (.tru c!"_keyboard") (.or (.tru c!"x_layouts") (.tru c!"vc_keymap"))) (.not (.and (.not (.tru c!"vc_keymap")) (.not (.tru c!"x_layouts"))))) (.tru c!"_keyboard"), [.lit c!"# old format: keyboard ", .fld c!"_keyboard", .lit c!"\n# new format:\n"]),
    (.and (.or (.tru c!"_keyboard") (.or (.tru c!"x_layouts") (.tru c!"vc_keymap"))) (.not (.and (.not (.tru c!"vc_keymap")) (.not (.tru c!"x_layouts")))), [.lit c!"keyboard"])] ++
    Out.guard (.and (.or (.tru c!"_keyboard") (.or (.tru c!"x_layouts") (.tru c!"vc_keymap"))) (.not (.and (.not (.tru c!"vc_keymap")) (.not (.tru c!"x_layouts"))))) args ++
    [(.and (.or (.tru c!"_keyboard") (.or (.tru c!"x_layouts") (.tru c!"vc_keymap"))) (.not (.and (.not (.tru c!"vc_keymap")) (.not (.tru c!"x_layouts")))), [.lit c!"\n"])]
/-- `commands/keyboard.py:158-176` `parse` -/
def F18_Keyboard.parse (k : Info) (args : List Str) : M Unit := do
  let r ← M.parseKnown k.op args
  let ns := r.1
  let extra := r.2
  M.setToSelf ns
  M.failIf (decide ((ns.getD c!"kbd").len > 1)) c!"A single argument is expected for the %s command"
  M.failIf (!extra.isEmpty) c!"Unexpected arguments to %(command)s command: %(options)s"
  let self ← M.self
  M.failIf (!((ns.getD c!"kbd").truthy || (self.getD c!"vc_keymap").truthy || (self.getD c!"x_layouts").truthy)) c!"One of --xlayouts, --vckeymap options with value(s) or argument is expected for the keyboard command"
  M.when ((ns.getD c!"kbd").truthy) (do
    let x1 ← M.lift ((ns.getD c!"kbd").index 0)
    M.set c!"_keyboard" (x1))
  return ()
/-- `commands/keyboard.py:64-190` -/
def F18_Keyboard.info : Info := { op := F18_Keyboard.op }
/-- `commands/keyboard.py:64-190` -/
def F18_Keyboard.cls : Command := plainCmd c!"F18_Keyboard" (some 0) F18_Keyboard.init (F18_Keyboard.parse F18_Keyboard.info) ((F18_Keyboard.strOut F18_Keyboard.args).render)

end Ks.Cmd
