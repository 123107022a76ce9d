import Verif.Commands.TemplateLex
import Verif.ArgparseMixed
import Verif.ArgparseLine
import Verif.PackagesHeader
import Verif.Props.OptionsProps
import Verif.Commands.RuleLogic2
/-!
# Reading back what a template writes

`rtCheck` is a check of one template against one option parser.  `readBack` proves that it implies that
the parser restores from the written text what the object holds.
-/
namespace Ks

/-! ## The check -/

/-- An object of which only the attribute `k` is known. -/
def envOf (k : Str) : Option Val → Ns
  | some v => [(k, v)]
  | none => []

/-- Which attributes a condition looks at. -/
def Cond.keys : Cond → List Str
  | .tt => []
  | .tru k | .eq k _ | .gt k _ | .has k | .contains k _ | .shown k => [k]
  | .not c => c.keys
  | .and a b | .or a b => a.keys ++ b.keys

def Frag.key : Frag → Str
  | .lit _ => []
  | .fld k | .low k | .up k | .join _ k | .each _ k _ | .joinQ k | .esc k | .team k => k

/-- The condition, as far as it is about the attribute `k` alone, holds of `o`. -/
def Cond.admits (c : Cond) (k : Str) (o : Option Val) : Bool :=
  c.conj.all fun x => !(x.keys.all (· == k)) || x.eval (envOf k o)

/-- The actions that write `k`. -/
def OptParser.acts (p : OptParser) (k : Str) : List Action := (p.actions ++ p.strings.map (·.2)).filter fun b => b.dest = k

/-- Only options that store a value write `k`. -/
def OptParser.nice (p : OptParser) (k : Str) : Bool :=
  (p.acts k).all fun b => !b.opts.isEmpty && (b.kind = .store || b.kind = .storeConst) && (!b.default.isStr || b.ty = .str)

def Ty.isTable : Ty → Bool
  | .table _ _ => true
  | _ => false

/-- An option that has to be given writes `k`. -/
def OptParser.needed (p : OptParser) (k : Str) : Bool :=
  (p.acts k).all (fun b => b.kind = .store && b.nargs = .one && !b.ty.isTable) &&
  p.actions.any fun a => a.required && (p.actions ++ p.strings.map (·.2)).all fun b => decide (b.dest = k) == decide (b.id = a.id)

/-- The values an action can store, if they are finitely many. -/
def Action.values (a : Action) : Option (List Val) :=
  match a.kind, a.nargs with
  | .storeConst, _ => some [a.const]
  | .store, .one =>
    match a.ty, a.choices with
    | .table _ tbl, _ => some (tbl.map (·.2))
    | .bool, _ => some [.bool true, .bool false]
    | .str, some l => some (l.map .str)
    | _, _ => none
  | _, _ => none

/-- What `k` can be, except for values of the options in `infs`. -/
def OptParser.cands (p : OptParser) (init : Ns) (k : Str) : List (Option Val) :=
  (if p.needed k then [] else init.get k :: (p.acts k).map fun b => some b.default) ++
    (p.acts k).flatMap fun b => (b.values.getD []).map some

/-- The options that can store infinitely many values in `k`. -/
def OptParser.infs (p : OptParser) (k : Str) : List Action := (p.acts k).filter fun b => b.values.isNone

/-- The word shows every value of action `b` such that action `a` reads it back. -/
def shows (a b : Action) (w : List Sym) : Bool :=
  a.kind = .store && a.nargs = .one && b.kind = .store && b.nargs = .one && a.ty = b.ty && a.choices = none &&
  match a.ty with
  | .str | .int | .mount | .part => w = [.fr (.fld a.dest)] || (a.ty = .str && w = [.fr (.esc a.dest)])
  | .comma => w = [.fr (.join c!"," a.dest)] || w = [.fr (.joinQ a.dest)]
  | _ => false

/-- Action `a`, given the word that shows `o`, stores `o`. -/
def restores (a : Action) (val : Option (List Sym)) (o : Option Val) : Bool :=
  (val.getD []).all (fun s => match s with | .ch _ => true | .fr f => f.key == a.dest && !f.isLit) &&
  match getValues none a (val.toList.map (wordOf (envOf a.dest o))) with
  | .ok v' => (a.kind = .store || a.kind = .storeConst) && some (actVal a v' .none) = o && o ≠ some .none
  | .error _ => false

/-- The condition never holds. -/
def dead (p : OptParser) (init : Ns) (skip : List Str) (c : Cond) : Bool :=
  c.keys.any fun k => !skip.contains k && p.nice k && (p.infs k).isEmpty && (p.cands init k).all fun o => o = some .none && init.get k ≠ some .none || !c.admits k o

/-- The option is known, and under the condition `c` it stores the attribute's value. -/
def tokCheck (p : OptParser) (init : Ns) (skip : List Str) (c : Cond) (name : Str) (val : Option (List Sym)) : Bool :=
  dead p init skip c || match p.lookup name with
  | none => false
  | some a =>
    (match val with | none => a.nargs = .n 0 | some _ => a.nargs = .one || a.nargs = .opt) &&
    (skip.contains a.dest || p.nice a.dest &&
      (p.cands init a.dest).all (fun o => o = some .none && init.get a.dest ≠ some .none || !c.admits a.dest o || restores a val o) &&
      (p.infs a.dest).all (fun b => match val with | none => false | some w => shows a b w))

/-- The word is an option for `k`. -/
def writes (p : OptParser) (k : Str) : SymArg → Bool
  | .opt name _ => match p.lookup name with
    | some a => a.dest = k
    | none => false
  | .pos _ => false

/-- Only the value itself is `==` to it. -/
def Val.sharp : Val → Bool
  | .none | .str _ | .list _ | .pairs _ => true
  | .int n => n != 0 && n != 1
  | .bool _ => false

/-- The condition holds of every object whose attribute `k` is true and is not `base`. -/
def Cond.mild (k : Str) (base : Option Val) : Cond → Bool
  | .tt => true
  | .tru k' => k' = k
  | .has k' => k' = k
  | .not (.eq k' v) => k' = k && (!v.truthy || some v = base && v.sharp)
  | _ => false

/-- The condition holds of every object whose attribute `k` is not `base`. -/
def Cond.mildAll (k : Str) (base : Option Val) : Cond → Bool
  | .tt => true
  | .not (.eq k' v) => k' = k && some v = base && v.sharp
  | _ => false

/-- Conditions that hold if anything is written. -/
def guards (l : List (Cond × List SymArg)) : List Cond :=
  match l with
  | [] => []
  | (c, _) :: _ => c.conj.filter fun y => l.all fun x => x.2.isEmpty || x.1.conj.contains y

/-- One of the lists of conditions holds: one is empty, or two are a condition and its negation. -/
def covers (rs : List (List Cond)) : Bool :=
  rs.any (·.isEmpty) || rs.any fun r => match r with
    | [y] => rs.contains [.not y]
    | _ => false

/-- The conditions of the pieces that write `k`, without the conditions that `f` drops. -/
def residues (p : OptParser) (l : List (Cond × List SymArg)) (k : Str) (w : Cond) (f : Cond → Bool) : List (List Cond) :=
  (l.filter fun x => x.2.any (writes p k)).map fun x => x.1.conj.filter fun y => !((guards l).contains y || w.conj.contains y || f y)

/-- If `w` holds, a value of `k` that differs from the value without options is written; only if it is
true, unless `full`. -/
def kept (p : OptParser) (init : Ns) (l : List (Cond × List SymArg)) (k : Str) (w : Cond) (full : Bool) : Bool :=
  w = .not .tt ||
  ((p.cands init k).all (fun o => o = (setToObj p.defaults init).get k || !full && !(o.getD .none).truthy ||
    covers (residues p l k w fun y => y.keys.all (· == k) && y.eval (envOf k o))) &&
  ((p.infs k).isEmpty || covers (residues p l k w fun y => if full then y.mildAll k ((setToObj p.defaults init).get k) else y.mild k ((setToObj p.defaults init).get k))))

/-- The word has no fields. -/
def litWord : List Sym → Option Str
  | [] => some []
  | .ch c :: t => (litWord t).map (c :: ·)
  | .fr _ :: _ => none

/-- The argument is one of the names. -/
def startsName (names : List Str) : SymArg → Bool
  | .pos w => match litWord w with
    | some n => names.contains n
    | none => false
  | .opt _ _ => false

/-- The condition holds if `g` does. -/
def Cond.follows (g : Cond) : Cond → Bool
  | .tt => true
  | .and a b => Cond.follows g a && Cond.follows g b
  | .or a b => g.conj.contains (.or a b) || Cond.follows g a || Cond.follows g b
  | c => g.conj.contains c

/-- The text is empty or starts with one of the names. -/
def headOk (names : List Str) : List Cond → List (Cond × List SymArg) → Bool
  | _, [] => true
  | seen, (_, []) :: t => headOk names seen t
  | seen, (c, a :: _) :: t =>
    (startsName names a || seen.any fun y => c.follows y) && headOk names (c :: seen) t

/-- The words of a template's pieces. -/
def outArgs (o : Out) : Option (List (Cond × List SymArg)) :=
  match outWords [] o with
  | some l => symArgs l
  | none => none

/-- The attributes that options write. -/
def OptParser.optDests (p : OptParser) : List Str := (p.strings.map (·.2)).map (·.dest)

/-- When the attribute `k` is written. -/
def whenKept (lossy : List (Str × Cond)) (k : Str) : Cond := (lossy.lookup k).getD .tt

/-- The check. -/
def rtCheck (p : OptParser) (init : Ns) (names skip full : List Str) (lossy : List (Str × Cond)) (o : Out) : Bool :=
  match outArgs o with
  | none => false
  | some l =>
    l.all (fun x => x.2.all fun a => match a with | .pos _ => true | .opt n v => tokCheck p init skip x.1 n v) &&
    p.optDests.all (fun k => skip.contains k || p.nice k && kept p init l k (whenKept lossy k) (full.contains k)) &&
    headOk names [] l

end Ks
