import Verif.Shlex
/-!
# Errors and warnings: `/repo/pykickstart/errors.py`

Python exceptions are values of `Exc`.  The three pykickstart classes carry what the
constructor receives (message and line number); the standard exceptions that can escape are
separate constructors.  Simplification: translated message texts are represented by a
structured `Msg`; the untranslated English text is not reproduced except where a property
is about it (`KickstartError.value`).
-/
namespace Ks

/-- `errors.py:65-73` `_format_error_message` (untranslated). -/
def formatErrorMessage (lineno : Int) (msg : Str) : Str :=
  if msg ≠ [] then
    c!"The following problem occurred on line " ++ intStr lineno ++
      c!" of the kickstart file:\n\n" ++ msg ++ c!"\n"
  else
    c!"There was a problem reading from line " ++ intStr lineno ++ c!" of the kickstart file"

/-- The `msg` argument of `KickstartError`: a string, or the pair produced by the deprecated
`formatErrorMsg` (`errors.py:49-63`). -/
inductive MsgArg
  | text (s : Str)
  | pair (lineno : Option Int) (s : Str)
  deriving DecidableEq, Repr

/-- The observable attributes of a `KickstartError` instance. -/
structure KsErrObj where
  message : Str
  lineno : Option Int
  value : Str
  deriving DecidableEq, Repr

/-- `errors.py:78-96` `KickstartError.__init__`. -/
def mkKickstartError (msg : MsgArg) (lineno : Option Int) (formatting : Bool) : KsErrObj :=
  let (lineno, message) := match msg with
    | .text s => (lineno, s)
    | .pair l s => (l, s)
  match lineno with
  | some n =>
    if formatting then ⟨message, lineno, formatErrorMessage n message⟩
    else ⟨message, lineno, message⟩
  | none => ⟨message, lineno, message⟩

/-- `errors.py:49-63` `formatErrorMsg` (the `DeprecationWarning` is not modelled). -/
def formatErrorMsg (lineno : Option Int) (msg : Str) : MsgArg := .pair lineno msg

/-- `errors.py:98-99` `KickstartError.__str__`. -/
def KsErrObj.str (e : KsErrObj) : Str := e.value

/-- Exceptions that the modelled functions raise. -/
inductive Exc
  /-- `KickstartParseError` with a tag for the message and `lineno` -/
  | parse (tag : Str) (lineno : Option Int)
  /-- plain `KickstartError` -/
  | ks (tag : Str) (lineno : Option Int)
  /-- `KickstartVersionError` -/
  | version (tag : Str)
  /-- `ValueError` from `shlex` -/
  | shlex (e : ShlexErr)
  /-- `ValueError` from elsewhere -/
  | value
  | index
  | key
  | attribute
  | type
  | assertion
  /-- `RecursionError` -/
  | recursion
  /-- `UnicodeDecodeError` (a `ValueError`) from reading a file -/
  | unicode
  deriving DecidableEq, Repr

/-- `isinstance(e, KickstartError)`; class hierarchy of `errors.py:75-114`. -/
def Exc.isKickstartError : Exc → Bool
  | .parse .. => true
  | .ks .. => true
  | .version _ => true
  | _ => false

/-- `isinstance(e, KickstartParseError)`. -/
def Exc.isParseError : Exc → Bool
  | .parse .. => true
  | _ => false

/-- Warnings issued with `warnings.warn`. -/
inductive Warn
  /-- `KickstartParseWarning` -/
  | parse (tag : Str)
  /-- `KickstartDeprecationWarning` -/
  | deprecation (tag : Str)
  deriving DecidableEq, Repr

end Ks
