import Verif.Parser
/-!
# `/repo/pykickstart/load.py`

The operating system and the network are parameters: `Disk` says what is in the files, `Net` what
`requests.get` returns.  UTF-8 is the encoding of Lean's library (`List.utf8Encode`,
`ByteArray.utf8Decode?`).  Simplifications: Python 3; the locale's encoding, in which
`open(destination, 'w')` writes, is UTF-8; a file that can be opened can be read and written to the
end; exceptions of `requests` that are not `RequestException`s are not modelled.
-/
namespace Ks

/-- The files: `file f` is what `open(f, 'rb').read()` returns, `none` if it raises `IOError`;
`writable f` tells whether `open(f, 'w')` succeeds, and `same` is `os.path.samefile`. -/
structure Disk where
  file : Str → Option ByteArray
  writable : Str → Bool
  same : Str → Str → Bool

/-- What `requests.get(location, verify=SSL_VERIFY)` does. -/
inductive Reply
  /-- `SSLError` -/
  | ssl
  /-- another `RequestException` -/
  | failed
  /-- `status_code` and `text` -/
  | answer (status : Nat) (text : Str)

/-- The network. -/
abbrev Net := Str → Reply

/-- The file `f`, under all of its names, now holds `b`. -/
def Disk.write (d : Disk) (f : Str) (b : ByteArray) : Disk :=
  { d with file := fun g => if g = f ∨ d.same g f = true then some b else d.file g }

/-- `load.py:28` `_is_url`: `'://' in location`. -/
def isUrl : Str → Bool
  | [] => false
  | c :: t => startsWith (c :: t) c!"://" || isUrl t

/-- `load.py:71-84` `_load_url`; `requests.codes.ok` is 200. -/
def loadUrl (n : Net) (location : Str) : Except Exc Str :=
  match n location with
  | .ssl => .error (.ks c!"Error securely accessing URL" none)
  | .failed => .error (.ks c!"Error accessing URL" none)
  | .answer status text => if status ≠ 200 then .error (.ks c!"Error accessing URL" none) else .ok text

/-- `load.py:86-100` `_load_file`.  `open` raises `ValueError` for a name with a NUL character, and
`decode("utf-8")` raises `UnicodeDecodeError`: neither is an `IOError`. -/
def loadFile (d : Disk) (f : Str) : Except Exc Str :=
  if '\x00' ∈ f then .error .value
  else match d.file f with
  | none => .error (.ks c!"Error opening file" none)
  | some b =>
    match b.utf8Decode? with
    | none => .error .unicode
    | some a => .ok a.toList

/-- `load.py:32-45` `load_to_str`. -/
def loadToStr (d : Disk) (n : Net) (location : Str) : Except Exc Str :=
  if isUrl location then loadUrl n location else loadFile d location

/-- `load.py:102-109` `_copy_file`: `shutil.copyfile` raises `SameFileError` (an `OSError`) when the
two are one file, opens the source and then the destination. -/
def copyFile (d : Disk) (f dest : Str) : Disk × Option Exc :=
  if '\x00' ∈ f ∨ '\x00' ∈ dest then (d, some .value)
  else if f = dest ∨ d.same f dest = true then (d, some (.ks c!"Error copying file" none))
  else match d.file f with
  | none => (d, some (.ks c!"Error copying file" none))
  | some b => if d.writable dest then (d.write dest b, none) else (d, some (.ks c!"Error copying file" none))

/-- `load.py:47-69` `load_to_file`; the file name it returns is `dest`. -/
noncomputable def loadToFile (d : Disk) (n : Net) (location dest : Str) : Disk × Option Exc :=
  if isUrl location then
    match loadUrl n location with
    | .error e => (d, some e)
    | .ok text =>
      if '\x00' ∈ dest then (d, some .value)
      else if d.writable dest then (d.write dest text.utf8Encode, none)
      else (d, some (.ks c!"Error writing file" none))
  else copyFile d location dest

/-- What the parser sees of the files and the network. -/
def worldOf (d : Disk) (n : Net) (cwd : Str) (exist : Str → Bool) : World :=
  { cwd := cwd, exist := exist, load := loadToStr d n }

end Ks
