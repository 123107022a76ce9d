import Verif.PyStr
/-!
# `shlex.split` as used by the parser

Models CPython 3.11 `shlex.split(s, comments, posix=True)` (`Lib/shlex.py:101-300`,
`read_token` and `split`), called from `/repo/pykickstart/parser.py:653` (no comments) and
`:745` (comments).  `whitespace_split` is always on, `punctuation_chars` always off.
-/
namespace Ks

/-- The two `ValueError`s raised by `read_token`. -/
inductive ShlexErr
  | noClosingQuotation
  | noEscapedCharacter
  deriving DecidableEq, Repr

/-- `self.state` of the lexer (plus `comment`, which stands for `instream.readline()`). -/
inductive LexState
  /-- state `' '` -/
  | space
  /-- inside a comment, skipping to the end of the line -/
  | comment
  /-- state `'a'` -/
  | word
  /-- state `'"'` or `"'"` -/
  | quote (q : Char)
  /-- state `'\\'` with `escapedstate == 'a'` -/
  | escWord
  /-- state `'\\'` with `escapedstate == '"'` -/
  | escQuote
  deriving DecidableEq, Repr

/-- `shlex.whitespace` -/
def shWhite (c : Char) : Bool := c = ' ' || c = '\t' || c = '\r' || c = '\n'

/-- `shlex.quotes` -/
def shQuote (c : Char) : Bool := c = '\'' || c = '"'

/-- `Lib/shlex.py` `read_token` iterated to the end of input; `tok` is `self.token`. -/
def shlexGo (comments : Bool) : LexState → Str → Str → Except ShlexErr (List Str)
  | .space, _, [] => .ok []
  | .comment, _, [] => .ok []
  | .word, tok, [] => .ok [tok]
  | .quote _, _, [] => .error .noClosingQuotation
  | .escWord, _, [] => .error .noEscapedCharacter
  | .escQuote, _, [] => .error .noEscapedCharacter
  | .space, _, c :: t =>
    if shWhite c then shlexGo comments .space [] t
    else if comments && c == '#' then shlexGo comments .comment [] t
    else if c == '\\' then shlexGo comments .escWord [] t
    else if shQuote c then shlexGo comments (.quote c) [] t
    else shlexGo comments .word [c] t
  | .comment, _, c :: t =>
    if c == '\n' then shlexGo comments .space [] t else shlexGo comments .comment [] t
  | .word, tok, c :: t =>
    if shWhite c then (shlexGo comments .space [] t).map (tok :: ·)
    else if comments && c == '#' then (shlexGo comments .comment [] t).map (tok :: ·)
    else if shQuote c then shlexGo comments (.quote c) tok t
    else if c == '\\' then shlexGo comments .escWord tok t
    else shlexGo comments .word (tok ++ [c]) t
  | .quote q, tok, c :: t =>
    if c == q then shlexGo comments .word tok t
    else if c == '\\' && q == '"' then shlexGo comments .escQuote tok t
    else shlexGo comments (.quote q) (tok ++ [c]) t
  | .escWord, tok, c :: t => shlexGo comments .word (tok ++ [c]) t
  | .escQuote, tok, c :: t =>
    if c != '\\' && c != '"' then shlexGo comments (.quote '"') (tok ++ ['\\', c]) t
    else shlexGo comments (.quote '"') (tok ++ [c]) t

/-- `shlex.split(s, comments)` -/
def shlexSplit (s : Str) (comments : Bool) : Except ShlexErr (List Str) :=
  shlexGo comments .space [] s

end Ks
