import Verif.Parser
/-!
# Preprocessing: `parser.py:61-162`

`%ksappend` lines are replaced by the file they name.  Simplification: Python builds the result as
`bytes` in the default encoding (UTF-8); the model keeps the text, of which the result is the
encoding (encoding a concatenation is concatenating the encodings).  `load` is `load_to_str`.
-/
namespace Ks

/-- `parser.py:79-80`: is this a line to be replaced? -/
def isKsappend (line : Str) : Bool := startsWith (strip line) c!"%ksappend"

/-- `parser.py:87-90`: `ll.split(' ')[1]`. -/
def ksappendUrl (line : Str) : Option Str := (splitOn ' ' (strip line))[1]?

/-- `parser.py:61-106` `_preprocessStateMachine`; `lineno` lines have been read and `acc` is
`retval`. -/
def preprocessLoop (load : Str → Except Exc Str) : List Str → Nat → Str → Except Exc Str
  | [], _, acc => .ok acc
  | l :: rest, lineno, acc =>
    if l = [] then .ok acc
    else
      let lineno := lineno + 1
      if ¬ isKsappend l then preprocessLoop load rest lineno (acc ++ l)
      else match ksappendUrl l with
      | none => .error (.parse c!"Illegal url for %ksappend" (some lineno))
      | some url =>
        match load url with
        | .error e =>
          if e.isKickstartError then .error (.ks c!"Unable to open %ksappend file" (some lineno)) else .error e
        | .ok contents => preprocessLoop load rest lineno (acc ++ contents)

/-- `parser.py:108-115` `preprocessFromStringToString`. -/
def preprocessString (load : Str → Except Exc Str) (text : Str) : Except Exc Str :=
  preprocessLoop load (splitLines text ++ [[]]) 0 []

/-- `parser.py:117-128` `preprocessKickstartToString`. -/
def preprocessFile (load : Str → Except Exc Str) (f : Str) : Except Exc Str :=
  match load f with
  | .error e => if e.isKickstartError then .error (.ks c!"Unable to open input kickstart file" (some 0)) else .error e
  | .ok contents => preprocessLoop load (splitLines contents) 0 []

/-- `parser.py:130-145` `preprocessFromString` and `parser.py:147-162` `preprocessKickstart`, given
the result of the function above: the contents of the file whose name is returned, `none` when the
function returns `None`. -/
def preprocessToTemp : Except Exc Str → Except Exc (Option Str)
  | .error e => .error e
  | .ok s => .ok (if s = [] then none else some s)

end Ks
