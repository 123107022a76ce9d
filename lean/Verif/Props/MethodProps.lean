import Verif.Commands.MethodProxy
import Verif.Props.LineProps
/-!
# C67: `handler.method`
-/
namespace Ks

open Cmd

/-- `handler.<a>.<k>` for the attribute `a` of a command. -/
def Handler.attrVal (h : KsHandler) (a k : Str) : Option Val :=
  match h.attrs.lookup a with
  | none => none
  | some r => (h.heap[r]?).bind fun o => o.inst.attrs.attrs.get k

/-- Every name has an object, and different names have different ones. -/
structure Handler.Proxied (h : KsHandler) (ms : List Str) : Prop where
  has : ∀ m ∈ ms, ∃ r o, h.attrs.lookup m = some r ∧ h.heap[r]? = some o
  inj : ∀ a b r, h.attrs.lookup a = some r → h.attrs.lookup b = some r → a = b

theorem attrObj_of {h : KsHandler} {a : Str} {r : Nat} {o : Obj CState Ns} (h1 : h.attrs.lookup a = some r) (h2 : h.heap[r]? = some o) :
    h.attrObj a = .ok (r, o) := by simp [Handler.attrObj, h1, h2]

theorem seenAttr_of {h : KsHandler} {a : Str} {r : Nat} {o : Obj CState Ns} (h1 : h.attrs.lookup a = some r) (h2 : h.heap[r]? = some o) :
    h.seenAttr a = some o.inst.seen := by simp [Handler.seenAttr, h1, h2]

theorem Handler.Proxied.setInst {h : KsHandler} {ms : List Str} (p : h.Proxied ms) {r : Nat} {o : Obj CState Ns} (ho : h.heap[r]? = some o) (i : Inst CState) :
    (h.setInst r o i).Proxied ms := by
  refine ⟨fun m hm => ?_, p.inj⟩
  obtain ⟨r', o', h1, h2⟩ := p.has m hm
  have hr : r < h.heap.length := (List.getElem?_eq_some_iff.1 ho).1
  by_cases e : r = r'
  · subst e
    exact ⟨r, ⟨o.cls, i⟩, h1, by simp [Handler.setInst, hr]⟩
  · exact ⟨r', o', h1, by simp [Handler.setInst, List.getElem?_set_ne e, h2]⟩

/-- An object as if its command had not been seen. -/
def unseen (o : Obj CState Ns) : Obj CState Ns := ⟨o.cls, { o.inst with seen := false }⟩

/-- The handlers differ at most in the attribute `seen` of the commands named. -/
structure SameButSeen (h h' : KsHandler) (ms : List Str) : Prop where
  commands : h'.commands = h.commands
  attrs : h'.attrs = h.attrs
  order : h'.writeOrder = h.writeOrder
  objects : ∀ r : Nat, (h'.heap[r]?).map unseen = (h.heap[r]?).map unseen
  other : ∀ r : Nat, (∀ m ∈ ms, h.attrs.lookup m ≠ some r) → h'.heap[r]? = h.heap[r]?

theorem SameButSeen.refl (h : KsHandler) (ms : List Str) : SameButSeen h h ms := ⟨rfl, rfl, rfl, fun _ => rfl, fun _ _ => rfl⟩

theorem SameButSeen.trans {h h' h'' : KsHandler} {ms : List Str} (a : SameButSeen h h' ms) (b : SameButSeen h' h'' ms) : SameButSeen h h'' ms :=
  ⟨b.commands.trans a.commands, b.attrs.trans a.attrs, b.order.trans a.order, fun r => (b.objects r).trans (a.objects r),
    fun r hr => (b.other r (by rw [a.attrs]; exact hr)).trans (a.other r hr)⟩

theorem setSeen_same {h : KsHandler} {ms : List Str} {m : Str} (hm : m ∈ ms) {r : Nat} {o : Obj CState Ns} (h1 : h.attrs.lookup m = some r)
    (h2 : h.heap[r]? = some o) (b : Bool) : SameButSeen h (h.setInst r o { o.inst with seen := b }) ms := by
  have hr : r < h.heap.length := (List.getElem?_eq_some_iff.1 h2).1
  refine ⟨rfl, rfl, rfl, fun r' => ?_, fun r' hr' => ?_⟩
  · by_cases e : r = r'
    · subst e; rw [h2]; simp only [Handler.setInst, List.getElem?_set_self hr, Option.map_some]; rfl
    · simp [Handler.setInst, List.getElem?_set_ne e]
  · have e : r ≠ r' := fun e => hr' m hm (e ▸ h1)
    simp [Handler.setInst, List.getElem?_set_ne e]

theorem seenAttr_setSeen {h : KsHandler} {ms : List Str} (p : h.Proxied ms) {m : Str} {r : Nat} {o : Obj CState Ns} (h1 : h.attrs.lookup m = some r)
    (h2 : h.heap[r]? = some o) (b : Bool) (a : Str) :
    (h.setInst r o { o.inst with seen := b }).seenAttr a = if a = m then some b else h.seenAttr a := by
  have hr : r < h.heap.length := (List.getElem?_eq_some_iff.1 h2).1
  by_cases e : a = m
  · subst e; simp [Handler.seenAttr, Handler.setInst, h1, hr]
  · simp only [Handler.seenAttr, Handler.setInst, if_neg e]
    cases ha : h.attrs.lookup a with
    | none => rfl
    | some r' =>
      have : r ≠ r' := fun e' => e (p.inj a m r (e' ▸ ha) h1)
      simp [List.getElem?_set_ne this]

theorem clearSeen_spec (ms' : List Str) : ∀ (ms : List Str) (h : KsHandler), (∀ m ∈ ms, m ∈ ms') → h.Proxied ms' →
    ∃ h', h.clearSeen ms = (h', none) ∧ h'.Proxied ms' ∧ SameButSeen h h' ms' ∧ ∀ a, h'.seenAttr a = if a ∈ ms then some false else h.seenAttr a
  | [], h, _, p => ⟨h, rfl, p, .refl _ _, fun a => by simp⟩
  | m :: ms, h, hm, p => by
    obtain ⟨r, o, h1, h2⟩ := p.has m (hm m List.mem_cons_self)
    have p' := p.setInst h2 { o.inst with seen := false }
    obtain ⟨h', e1, e2, e3, e4⟩ := clearSeen_spec ms' ms _ (fun x hx => hm x (List.mem_cons_of_mem _ hx)) p'
    refine ⟨h', ?_, e2, (setSeen_same (hm m List.mem_cons_self) h1 h2 false).trans e3, fun a => ?_⟩
    · simp only [Handler.clearSeen, Handler.setSeen, attrObj_of h1 h2, e1]
    · rw [e4, seenAttr_setSeen p h1 h2]
      simp only [List.mem_cons]
      by_cases ha : a = m
      · simp [ha]
      · simp [ha]

theorem method_spec : ∀ (ms : List Str) (h : KsHandler), (∀ m ∈ ms, ∃ r o, h.attrs.lookup m = some r ∧ h.heap[r]? = some o) →
    (h.method ms = .ok none ∧ ∀ m ∈ ms, h.seenAttr m = some false) ∨
    ∃ l m l', ms = l ++ m :: l' ∧ h.method ms = .ok (some m) ∧ h.seenAttr m = some true ∧ ∀ x ∈ l, h.seenAttr x = some false
  | [], _, _ => .inl ⟨rfl, fun _ hm => absurd hm (by simp)⟩
  | m :: ms, h, p => by
    obtain ⟨r, o, h1, h2⟩ := p m List.mem_cons_self
    have hs := seenAttr_of h1 h2
    cases hb : o.inst.seen with
    | true =>
      refine .inr ⟨[], m, ms, rfl, by simp [Handler.method, attrObj_of h1 h2, hb], hs.trans (by rw [hb]), fun x hx => absurd hx (by simp)⟩
    | false =>
      rw [hb] at hs
      have e : h.method (m :: ms) = h.method ms := by simp [Handler.method, attrObj_of h1 h2, hb]
      rw [e]
      rcases method_spec ms h fun x hx => p x (List.mem_cons_of_mem _ hx) with ⟨a, b⟩ | ⟨l, x, l', a, b, c, d⟩
      · exact .inl ⟨a, fun x hx => by rcases List.mem_cons.1 hx with rfl | hx; exact hs; exact b x hx⟩
      · exact .inr ⟨m :: l, x, l', by rw [a]; rfl, b, c, fun y hy => by rcases List.mem_cons.1 hy with rfl | hy; exact hs; exact d y hy⟩

/-- Every version with the proxy has the commands, and `url` is one of them. -/
theorem commandMaps_methods : commandMaps.all (fun m => match m.2.lookup c!"method" with
    | none => true
    | some c => (methodsOf c.name).contains c!"url" && (methodsOf c.name).all fun a => m.2.any fun x => attrName x.2.name == a) = true := by decide +kernel

/-- The proxy of a version. -/
theorem session_proxied {v : Nat} (hv : Supported v) {h : KsHandler} (s : Session v h) {c : Command} (hc : (commandMap v).lookup c!"method" = some c) :
    h.Proxied (methodsOf c.name) ∧ c!"url" ∈ methodsOf c.name := by
  have inv := session_inv hv s
  have w := reachable_wf inv.reach
  have h1 := List.all_eq_true.1 commandMaps_methods _ (supported_mem hv)
  simp only [hc, Bool.and_eq_true] at h1
  refine ⟨⟨fun m hm => ?_, fun a b r ha hb => ?_⟩, by simpa using h1.1⟩
  · obtain ⟨x, hx, he⟩ := List.any_eq_true.1 (List.all_eq_true.1 h1.2 m hm)
    obtain ⟨r, hr⟩ := inv.attrs x hx
    rw [eq_of_beq he] at hr
    exact ⟨r, h.heap[r]'(w.attrs m r hr), hr, List.getElem?_eq_getElem _⟩
  · rw [← session_attr_class hv s a r ha, ← session_attr_class hv s b r hb]

/-! ## C67 -/

/-- C67: `handler.method.method` is the first of the methods whose command is seen, or `None`. -/
theorem C67_method {v : Nat} (hv : Supported v) {h : KsHandler} (s : Session v h) {c : Command} (hc : (commandMap v).lookup c!"method" = some c) :
    (h.method (methodsOf c.name) = .ok none ∧ ∀ m ∈ methodsOf c.name, h.seenAttr m = some false) ∨
    ∃ l m l', methodsOf c.name = l ++ m :: l' ∧ h.method (methodsOf c.name) = .ok (some m) ∧ h.seenAttr m = some true ∧ ∀ x ∈ l, h.seenAttr x = some false :=
  method_spec _ _ (session_proxied hv s hc).1.has

/-- C67: assigning a method makes its command the only one seen, and changes nothing else. -/
theorem C67_set {v : Nat} (hv : Supported v) {h : KsHandler} (s : Session v h) {c : Command} (hc : (commandMap v).lookup c!"method" = some c)
    {m : Str} (hm : m ∈ methodsOf c.name) :
    ∃ h', h.setMethod (methodsOf c.name) (some m) = (h', none) ∧ h'.method (methodsOf c.name) = .ok (some m) ∧
      (∀ a, h'.seenAttr a = if a = m then some true else if a ∈ methodsOf c.name then some false else h.seenAttr a) ∧
      SameButSeen h h' (methodsOf c.name) := by
  obtain ⟨h', e1, e2, e3, e4⟩ := clearSeen_spec _ (methodsOf c.name) h (fun _ hm => hm) (session_proxied hv s hc).1
  obtain ⟨r, o, h1, h2⟩ := e2.has m hm
  have hseen : ∀ a, (h'.setInst r o { o.inst with seen := true }).seenAttr a =
      if a = m then some true else if a ∈ methodsOf c.name then some false else h.seenAttr a := by
    intro a; rw [seenAttr_setSeen e2 h1 h2, e4]
  refine ⟨h'.setInst r o { o.inst with seen := true }, ?_, ?_, hseen, e3.trans (setSeen_same hm h1 h2 true)⟩
  · simp [Handler.setMethod, e1, Handler.methodCommand, hm, attrObj_of h1 h2]
  · rcases method_spec _ _ (e2.setInst h2 { o.inst with seen := true }).has with ⟨_, b⟩ | ⟨l, x, l', a, b, d, _⟩
    · have := b m hm
      rw [hseen, if_pos rfl] at this; cases this
    · rw [b]
      rw [hseen] at d
      by_cases hx : x = m
      · rw [hx]
      · rw [if_neg hx, if_pos (by rw [a]; simp)] at d; cases d

/-- C67: assigning `None` leaves no method. -/
theorem C67_set_none {v : Nat} (hv : Supported v) {h : KsHandler} (s : Session v h) {c : Command} (hc : (commandMap v).lookup c!"method" = some c) :
    ∃ h', h.setMethod (methodsOf c.name) none = (h', none) ∧ h'.method (methodsOf c.name) = .ok none ∧
      (∀ a, h'.seenAttr a = if a ∈ methodsOf c.name then some false else h.seenAttr a) ∧ SameButSeen h h' (methodsOf c.name) := by
  obtain ⟨h', e1, e2, e3, e4⟩ := clearSeen_spec _ (methodsOf c.name) h (fun _ hm => hm) (session_proxied hv s hc).1
  refine ⟨h', by simp [Handler.setMethod, e1], ?_, e4, e3⟩
  rcases method_spec _ _ e2.has with ⟨b, _⟩ | ⟨l, x, l', a, _, d, _⟩
  · exact b
  · rw [e4, if_pos (by rw [a]; simp)] at d; cases d

/-- C67: assigning anything else raises `AttributeError`, but no method is left either. -/
theorem C67_set_unknown {v : Nat} (hv : Supported v) {h : KsHandler} (s : Session v h) {c : Command} (hc : (commandMap v).lookup c!"method" = some c)
    {m : Str} (hm : m ∉ methodsOf c.name) :
    ∃ h', h.setMethod (methodsOf c.name) (some m) = (h', some .attribute) ∧ h'.method (methodsOf c.name) = .ok none ∧
      (∀ a, h'.seenAttr a = if a ∈ methodsOf c.name then some false else h.seenAttr a) ∧ SameButSeen h h' (methodsOf c.name) := by
  obtain ⟨h', e1, e2, e3, e4⟩ := clearSeen_spec _ (methodsOf c.name) h (fun _ hm => hm) (session_proxied hv s hc).1
  refine ⟨h', by simp [Handler.setMethod, e1, Handler.methodCommand, hm], ?_, e4, e3⟩
  rcases method_spec _ _ e2.has with ⟨b, _⟩ | ⟨l, x, l', a, _, d, _⟩
  · exact b
  · rw [e4, if_pos (by rw [a]; simp)] at d; cases d

/-- The command that the proxy stands for. -/
theorem proxied_command {v : Nat} (hv : Supported v) {h : KsHandler} (s : Session v h) {c : Command} (hc : (commandMap v).lookup c!"method" = some c)
    {b : Option Str} (hb : h.method (methodsOf c.name) = .ok b) :
    ∃ r o, h.attrs.lookup (b.getD c!"url") = some r ∧ h.heap[r]? = some o ∧ h.methodCommand (methodsOf c.name) b = .ok (r, o) := by
  obtain ⟨p, hu⟩ := session_proxied hv s hc
  have key : ∀ m ∈ methodsOf c.name, ∃ r o, h.attrs.lookup m = some r ∧ h.heap[r]? = some o ∧ h.methodCommand (methodsOf c.name) (some m) = .ok (r, o) := by
    intro m hm
    obtain ⟨r, o, h1, h2⟩ := p.has m hm
    exact ⟨r, o, h1, h2, by simp [Handler.methodCommand, hm, attrObj_of h1 h2]⟩
  cases b with
  | none =>
    obtain ⟨r, o, h1, h2, h3⟩ := key _ hu
    exact ⟨r, o, h1, h2, h3⟩
  | some m =>
    refine key m ?_
    rcases method_spec _ _ p.has with ⟨a, _⟩ | ⟨l, x, l', a, d, _, _⟩
    · rw [a] at hb; cases hb
    · rw [d] at hb; cases hb
      rw [a]; simp

/-- C67: reading an attribute of the proxy reads it from the command that is seen, or from `url` if there is none. -/
theorem C67_attr {v : Nat} (hv : Supported v) {h : KsHandler} (s : Session v h) {c : Command} (hc : (commandMap v).lookup c!"method" = some c)
    {b : Option Str} (hb : h.method (methodsOf c.name) = .ok b) (name : Str) :
    h.methodAttr (methodsOf c.name) name = match h.attrVal (b.getD c!"url") name with
      | some x => .ok x
      | none => .error .attribute := by
  obtain ⟨r, o, h1, h2, h3⟩ := proxied_command hv s hc hb
  simp only [Handler.methodAttr, hb, h3, Handler.attrVal, h1, h2, Option.bind_some]
  cases o.inst.attrs.attrs.get name <;> rfl

/-- C67: assigning an attribute that the command has assigns it there and nothing else anywhere; assigning another
one raises `AttributeError` and changes nothing. -/
theorem C67_set_attr {v : Nat} (hv : Supported v) {h : KsHandler} (s : Session v h) {c : Command} (hc : (commandMap v).lookup c!"method" = some c)
    {b : Option Str} (hb : h.method (methodsOf c.name) = .ok b) (name : Str) (x : Val) :
    (h.attrVal (b.getD c!"url") name ≠ none → ∃ h', h.setMethodAttr (methodsOf c.name) name x = (h', none) ∧
      (∀ a k, h'.attrVal a k = if a = b.getD c!"url" ∧ k = name then some x else h.attrVal a k) ∧
      (∀ a, h'.seenAttr a = h.seenAttr a) ∧ (∀ r : Nat, h.attrs.lookup (b.getD c!"url") ≠ some r → h'.heap[r]? = h.heap[r]?) ∧
      h'.commands = h.commands ∧ h'.attrs = h.attrs ∧ h'.writeOrder = h.writeOrder) ∧
    (h.attrVal (b.getD c!"url") name = none → h.setMethodAttr (methodsOf c.name) name x = (h, some .attribute)) := by
  obtain ⟨r, o, h1, h2, h3⟩ := proxied_command hv s hc hb
  have hv' : h.attrVal (b.getD c!"url") name = o.inst.attrs.attrs.get name := by simp [Handler.attrVal, h1, h2]
  rw [hv']
  have hr : r < h.heap.length := (List.getElem?_eq_some_iff.1 h2).1
  have p := (session_proxied hv s hc).1
  constructor
  · intro hn
    obtain ⟨y, hy⟩ := Option.ne_none_iff_exists'.1 hn
    refine ⟨h.setInst r o { o.inst with attrs := { o.inst.attrs with attrs := o.inst.attrs.attrs.set name x } },
      by simp only [Handler.setMethodAttr, hb, h3, hy], fun a k => ?_, fun a => ?_, fun r' hr' => ?_, rfl, rfl, rfl⟩
    · by_cases e : a = b.getD c!"url"
      · subst e
        simp only [Handler.attrVal, Handler.setInst, h1, List.getElem?_set_self hr, Option.bind_some, h2, Ns.get_set, true_and]
        by_cases hk : k = name
        · simp [hk]
        · simp [hk, Ne.symm hk]
      · simp only [Handler.attrVal, Handler.setInst, e, false_and, if_false]
        cases ha : h.attrs.lookup a with
        | none => rfl
        | some r' =>
          have : r ≠ r' := fun e' => e (p.inj a _ r (e' ▸ ha) h1)
          simp [List.getElem?_set_ne this]
    · simp only [Handler.seenAttr, Handler.setInst]
      cases ha : h.attrs.lookup a with
      | none => rfl
      | some r' =>
        by_cases e : r = r'
        · subst e; simp [List.getElem?_set_self hr, h2]
        · simp [List.getElem?_set_ne e]
    · have e : r ≠ r' := fun e => hr' (e ▸ h1)
      simp [Handler.setInst, List.getElem?_set_ne e]
  · intro hn
    simp only [Handler.setMethodAttr, hb, h3, hn]

/-- The hypotheses are met: Fedora 33 has the proxy, with six methods. -/
example : Supported Version.F33 ∧ Session Version.F33 (newHandler Version.F33) ∧ (newHandler Version.F33).method (methodsOf c!"F28_Method") = .ok none ∧
    ((commandMap Version.F33).lookup c!"method").map (·.name) = some c!"F28_Method" := by
  refine ⟨by decide +kernel, .new, by kernel_rfl, by kernel_rfl⟩

end Ks
