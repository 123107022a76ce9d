import Verif.Commands.Base
import Verif.ArgparseCanon
import Verif.ShlexLemmas
/-!
# Reading back what a `__str__` method writes: the symbolic part

A template (`Out`) is run through the shell lexer and the option parser without knowing the
attribute values: a field of the object is one symbol.  `TemplateLex.lean` and `ReadBack.lean` prove that the symbolic run
predicts what the real lexer and the real option parser do with the written text.
-/
namespace Ks

/-- A character of the template or a field of the object. -/
inductive Sym
  | ch (c : Char)
  | fr (f : Frag)
  deriving DecidableEq

/-- The symbols of a piece. -/
def symsOf : List Frag → List Sym
  | [] => []
  | .lit s :: t => s.map .ch ++ symsOf t
  | f :: t => .fr f :: symsOf t

/-- What the reader of the text should see for a field: its text without the quotes and escapes that
the writer adds. -/
def Frag.meant (self : Ns) : Frag → Str
  | .joinQ k => joinWith c!"," (self.getD k).items
  | .esc k => (self.getD k).fmt
  | .team k => joinWith c!"," ((self.getD k).slaves.map fun x => x.1 ++ (if x.2.isEmpty then [] else c!"'" ++ x.2 ++ c!"'"))
  | f => f.render self

def Sym.render (self : Ns) : Sym → Str
  | .ch c => [c]
  | .fr f => f.render self

def Sym.meant (self : Ns) : Sym → Str
  | .ch c => [c]
  | .fr f => f.meant self

/-- The word a sequence of symbols stands for. -/
def wordOf (self : Ns) (w : List Sym) : Str := (w.map (Sym.meant self)).flatten

/-- The lexer's state, with the symbols of the current word. -/
inductive SymSt
  | space
  | comment
  | word (acc : List Sym)
  | quote (q : Char) (acc : List Sym)
  deriving DecidableEq

def Frag.isLit : Frag → Bool
  | .lit _ => true
  | _ => false

/-- Fields that may stand outside quotes. -/
def Frag.bareable : Frag → Bool
  | .fld _ | .low _ | .up _ | .join _ _ | .joinQ _ => true
  | _ => false

/-- Fields that may stand between double quotes. -/
def Frag.quotable : Frag → Bool
  | .fld _ | .low _ | .up _ | .join _ _ | .esc _ | .team _ => true
  | _ => false

/-- The text of the field itself. -/
def Frag.isFld : Frag → Bool
  | .fld _ => true
  | _ => false

/-- One step of the lexer: the words that are complete, and the new state. -/
def symStep : SymSt → Sym → Option (List (List Sym) × SymSt)
  | .space, .ch c =>
    if shWhite c then some ([], .space)
    else if c == '#' then some ([], .comment)
    else if c == '\\' then none
    else if shQuote c then some ([], .quote c [])
    else some ([], .word [.ch c])
  | .space, .fr f => if f.bareable then some ([], .word [.fr f]) else none
  | .comment, .ch c => if c == '\n' then some ([], .space) else some ([], .comment)
  | .comment, .fr _ => none
  | .word w, .ch c =>
    if shWhite c then some ([w], .space)
    else if c == '#' then some ([w], .comment)
    else if shQuote c then some ([], .quote c w)
    else if c == '\\' then none
    else some ([], .word (w ++ [.ch c]))
  | .word w, .fr f => if f.bareable then some ([], .word (w ++ [.fr f])) else none
  | .quote q w, .ch c =>
    if c == q then some ([], .word w)
    else if c == '\\' then none
    else some ([], .quote q (w ++ [.ch c]))
  | .quote q w, .fr f =>
    if f.quotable && (q == '"' || f.isFld) then some ([], .quote q (w ++ [.fr f])) else none

/-- The words in a sequence of symbols, and the final state. -/
def symGo : SymSt → List Sym → Option (List (List Sym) × SymSt)
  | st, [] => some ([], st)
  | st, s :: t =>
    match symStep st s with
    | none => none
    | some (ws, st) =>
      match symGo st t with
      | none => none
      | some (ws', st) => some (ws ++ ws', st)

/-- The words of a piece that starts between two words and ends between two words or at the end of
a word; the flag says that a word is open at the end. -/
def pieceWords (fs : List Frag) : Option (List (List Sym) × Bool) :=
  match symGo .space (symsOf fs) with
  | some (ws, .space) => some (ws, false)
  | some (ws, .word w) => some (ws ++ [w], true)
  | _ => none

/-- The piece starts with white space. -/
def startsWhite (fs : List Frag) : Bool :=
  match symsOf fs with
  | .ch c :: _ => shWhite c
  | _ => false

/-- The conditions that a condition consists of. -/
def Cond.conj : Cond → List Cond
  | .and a b => a.conj ++ b.conj
  | c => [c]

/-- The two conditions cannot hold together. -/
def Cond.clash (a b : Cond) : Bool :=
  a.conj.any fun x => b.conj.any fun y => x == .not y || y == .not x

/-- The words of every piece.  `open'` lists the conditions under which the text so far may end in a
word: a piece that does not start with white space must exclude all of them. -/
def outWords : List Cond → Out → Option (List (Cond × List (List Sym)))
  | _, [] => some []
  | open', (c, fs) :: t =>
    match pieceWords fs with
    | none => none
    | some (ws, opened) =>
      if startsWhite fs || symsOf fs = [] || open'.all (·.clash c) then
        match outWords (if symsOf fs = [] then open' else if opened then c :: open' else if c = .tt then [] else open') t with
        | none => none
        | some r => some ((c, ws) :: r)
      else none

/-- A word of a command line: positional, or an option with or without a value. -/
inductive SymArg
  | pos (w : List Sym)
  | opt (name : Str) (val : Option (List Sym))
  deriving DecidableEq

/-- The option name at the start of a word, and what follows. -/
def optName : List Sym → Option (Str × Option (List Sym))
  | [] => some ([], none)
  | .ch c :: t =>
    if c = '=' then some ([], some t)
    else (optName t).map fun x => (c :: x.1, x.2)
  | .fr _ :: _ => none

def symArg : List Sym → Option SymArg
  | .ch '-' :: t => (optName t).map fun x => .opt ('-' :: x.1) x.2
  | w => some (.pos w)

/-- The words of the command line after the command. -/
def symArgs : List (Cond × List (List Sym)) → Option (List (Cond × List SymArg))
  | [] => some []
  | (c, ws) :: t =>
    match ws.mapM symArg, symArgs t with
    | some as, some r => some ((c, as) :: r)
    | _, _ => none

end Ks
