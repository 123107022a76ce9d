import Verif.Commands.Rules
import Verif.Props.ListProps
/-!
# C60: the objects in the data lists satisfy the rules of their commands
-/
namespace Ks

open Cmd

/-! ## Objects of a handler -/

/-- Every object in a list was returned by `parse` when the list held what is before it. -/
def DataInv (h : Handler CState Ns) : Prop :=
  ∀ (r : Nat) (o : Obj CState Ns), h.heap[r]? = some o → o.cls.name ≠ c!"FC6_MultiPath" → ∀ R, Command.Grows o.cls R →
    ∀ l1 d l2, o.inst.attrs.data = l1 ++ d :: l2 → R l1 d

theorem commandMaps_init : ∀ x ∈ commandMaps, ∀ y ∈ x.2, y.2.init.data = [] := by
  intro x hx y hy
  have := List.all_eq_true.1 (List.all_eq_true.1 (show (commandMaps.all fun x => x.2.all fun y => y.2.init.data.isEmpty) = true by decide +kernel) x hx) y hy
  exact List.isEmpty_iff.1 this

theorem snoc_split {α : Type} {l l1 l2 : List α} {a d : α} (h : l ++ [a] = l1 ++ d :: l2) :
    (l = l1 ∧ a = d) ∨ ∃ t, l = l1 ++ d :: t := by
  rcases List.eq_nil_or_concat l2 with rfl | ⟨t, x, rfl⟩
  · have := List.append_inj' h rfl
    exact .inl ⟨this.1, by simpa using this.2⟩
  · rw [List.concat_eq_append, ← List.cons_append, ← List.append_assoc] at h
    exact .inr ⟨t, (List.append_inj' h rfl).1⟩

theorem dataInv_session {v : Nat} (hv : Supported v) {h : Handler CState Ns} (s : Session v h) : DataInv h := by
  have hmap := supported_mapOk hv
  induction s with
  | new =>
    have b : Registered (newHandler v) (commandMap v) := registerAll_registered hmap.dict
    intro r o ho _ R _ l1 d l2 hd
    obtain ⟨n', h2, _⟩ := (b.objs r o ho).2
    have : o.cls.init.data = [] := commandMaps_init _ (supported_mem hv) _ (mem_of_lookup' h2)
    rw [(b.objs r o ho).1] at hd
    rw [show o.cls.new.inst.attrs.data = [] from this] at hd
    simp at hd
  | @dispatch h k args line s ih =>
    have inv := session_inv hv s
    match args with
    | [] => exact ih
    | n :: args =>
      match hlk : h.commands.lookup n with
      | none => rw [C48_unknown h k n args line hlk]; exact ih
      | some none => rw [C48_masked h k n args line hlk]; exact ih
      | some (some r) =>
        obtain ⟨o, ho, hmem⟩ := inv.served n r hlk
        have hr : r < h.heap.length := (List.getElem?_eq_some_iff.1 ho).1
        have hd := dispatch_eq hlk ho k args line
        simp only at hd
        generalize hp : o.cls.parse (h.setInst r o (o.inst.noted n line k)).seenAttr args (o.inst.noted n line k) = p at hd
        rw [hd]
        intro r' o' ho' hmp R hR l1 d l2 hl
        by_cases hrr : r' = r
        · subst hrr
          simp only [Handler.setInst, List.getElem?_set_self hr, Option.some.injEq] at ho'
          subst ho'
          obtain ⟨I, hI⟩ := hmap.ok _ hmem
          have hst := hasStorage_setInst ho (o.inst.noted n line k) (inv.storage hmap)
          have hf := hI.frame hmp (h.setInst r' o (o.inst.noted n line k)).seenAttr args (o.inst.noted n line k) hst ((inv.objs r' o ho).2 I _ hI)
          have hL := session_lists hv hmem
          have hg := hR (h.setInst r' o (o.inst.noted n line k)).seenAttr args (o.inst.noted n line k)
          rw [hp] at hf hg
          have hold := ih r' o ho hmp R hR
          have hfd : p.1.attrs.data = o.inst.attrs.data := hf.data
          obtain ⟨j, x⟩ := p
          match x with
          | .error e => rw [show (CmdClass.stored o.cls (j, .error e)) = j from rfl, hfd] at hl; exact hold l1 d l2 hl
          | .ok none => rw [show (CmdClass.stored o.cls (j, .ok none)) = j from rfl, hfd] at hl; exact hold l1 d l2 hl
          | .ok (some e) =>
            simp only [CmdClass.stored] at hl
            by_cases hh : o.cls.hasList j = true
            · rw [if_pos hh, hL.add, if_pos hh, hfd] at hl
              rcases snoc_split hl with ⟨h1, h2⟩ | ⟨t, ht⟩
              · have := hg e rfl
                rw [← h1, ← h2]; exact this
              · exact hold l1 d t ht
            · rw [if_neg hh, hfd] at hl; exact hold l1 d l2 hl
        · simp only [Handler.setInst, List.getElem?_set_ne (Ne.symm hrr)] at ho'
          exact ih r' o' ho' hmp R hR l1 d l2 hl
  | @reset h n s ih =>
    have inv := session_inv hv s
    match hlk : h.commands.lookup n with
    | none => rw [C47_unknown h n hlk]; exact ih
    | some none => rw [show h.reset n = (h, some .attribute) by simp [Handler.reset, hlk]]; exact ih
    | some (some r) =>
      obtain ⟨o, ho, hmem⟩ := inv.served n r hlk
      rw [reset_eq hlk ho]
      intro r' o' ho' hmp R hR l1 d l2 hl
      simp only [create_heap] at ho'
      by_cases hr' : r' < h.heap.length
      · rw [List.getElem?_append_left hr'] at ho'; exact ih r' o' ho' hmp R hR l1 d l2 hl
      · rw [List.getElem?_append_right (Nat.le_of_not_lt hr')] at ho'
        obtain ⟨_, he⟩ : r' - h.heap.length = 0 ∧ o.cls.new = o' := by
          cases hd : r' - h.heap.length with
          | zero => rw [hd] at ho'; exact ⟨rfl, by simpa using ho'⟩
          | succ k => rw [hd] at ho'; simp at ho'
        subst he
        have : o.cls.init.data = [] := commandMaps_init _ (supported_mem hv) _ hmem
        rw [show o.cls.new.inst.attrs.data = [] from this] at hl
        simp at hl
  | mask lst s ih => exact ih

theorem session_grows {v : Nat} (hv : Supported v) {h : Handler CState Ns} (s : Session v h) {n : Str} (hn : n ≠ c!"multipath")
    {R : List Ns → Ns → Prop} (hR : ∀ c, (commandMap v).lookup n = some c → c.Grows R) {l1 l2 : List Ns} {d : Ns}
    (hd : dataOf h n = l1 ++ d :: l2) : R l1 d := by
  match hlk : h.commands.lookup n with
  | none => simp [dataOf, hlk] at hd
  | some none => simp [dataOf, hlk] at hd
  | some (some r) =>
    obtain ⟨o, ho, hmem⟩ := (session_inv hv s).served n r hlk
    rw [data_serves hlk ho] at hd
    exact dataInv_session hv s r o ho (not_multipath hv hmem hn) R (hR _ ((mem_iff_lookup (supported_mapOk hv).dict).1 hmem)) l1 d l2 hd

theorem session_data {v : Nat} (hv : Supported v) {h : Handler CState Ns} (s : Session v h) {n : Str} (hn : n ≠ c!"multipath")
    {R : Ns → Prop} (hR : ∀ c, (commandMap v).lookup n = some c → c.Data R) : ∀ d ∈ dataOf h n, R d := by
  intro d hd
  obtain ⟨l1, l2, hl⟩ := List.append_of_mem hd
  exact session_grows hv s hn (R := fun _ => R) (fun c hc => hR c hc) hl

/-! ## C60 -/

variable {v : Nat} {h : Handler CState Ns}

/-- C60: in every handler of every version, whatever lines it has read, the logical volumes satisfy the
rules for `logvol`. -/
theorem C60_logvol (hv : Supported v) (s : Session v h) : ∀ d ∈ dataOf h c!"logvol", LogvolRules v d :=
  session_data hv s (by decide) (commandMaps_logvol _ (supported_mem hv))

/-- C60: the partitions. -/
theorem C60_part (hv : Supported v) (s : Session v h) :
    (∀ d ∈ dataOf h c!"part", PartRules v d) ∧ ∀ d ∈ dataOf h c!"partition", PartRules v d :=
  ⟨session_data hv s (by decide) (commandMaps_part _ (supported_mem hv)), session_data hv s (by decide) (commandMaps_partition _ (supported_mem hv))⟩

/-- C60: the RAID arrays. -/
theorem C60_raid (hv : Supported v) (s : Session v h) : ∀ d ∈ dataOf h c!"raid", RaidRules v d :=
  session_data hv s (by decide) (commandMaps_raid _ (supported_mem hv))

/-- C60: the volume groups. -/
theorem C60_volgroup (hv : Supported v) (s : Session v h) : ∀ d ∈ dataOf h c!"volgroup", VolgroupRules v d :=
  session_data hv s (by decide) (commandMaps_volgroup _ (supported_mem hv))

/-- C60: the mount points. -/
theorem C60_mount (hv : Supported v) (s : Session v h) : ∀ d ∈ dataOf h c!"mount", MountRules d :=
  session_data hv s (by decide) (commandMaps_mount _ (supported_mem hv))

/-- C60: the NVDIMM devices. -/
theorem C60_nvdimm (hv : Supported v) (s : Session v h) : ∀ d ∈ dataOf h c!"nvdimm", NvdimmRules d :=
  session_data hv s (by decide) (commandMaps_nvdimm _ (supported_mem hv))

/-- C60: the Btrfs volumes and subvolumes. -/
theorem C60_btrfs (hv : Supported v) (s : Session v h) : ∀ d ∈ dataOf h c!"btrfs", BtrfsRules v d :=
  session_data hv s (by decide) (commandMaps_btrfs _ (supported_mem hv))

/-- C60: the network devices. -/
theorem C60_network (hv : Supported v) (s : Session v h) : ∀ d ∈ dataOf h c!"network", NetworkRules v d :=
  session_data hv s (by decide) (commandMaps_network _ (supported_mem hv))

/-- C60: the repositories. -/
theorem C60_repo (hv : Supported v) (s : Session v h) : ∀ d ∈ dataOf h c!"repo", RepoRules v d :=
  session_data hv s (by decide) (commandMaps_repo _ (supported_mem hv))

/-- C60: the time sources. -/
theorem C60_timesource (hv : Supported v) (s : Session v h) : ∀ d ∈ dataOf h c!"timesource", TimesourceRules d :=
  session_data hv s (by decide) (commandMaps_timesource _ (supported_mem hv))

/-- C60: the driver disks. -/
theorem C60_driverdisk (hv : Supported v) (s : Session v h) : ∀ d ∈ dataOf h c!"driverdisk", DriverdiskRules v d :=
  session_data hv s (by decide) (commandMaps_driverdisk _ (supported_mem hv))

/-- C60: the snapshots. -/
theorem C60_snapshot (hv : Supported v) (s : Session v h) : ∀ d ∈ dataOf h c!"snapshot", SnapshotRules d :=
  session_data hv s (by decide) (commandMaps_snapshot _ (supported_mem hv))

theorem commandMaps_snapshot_class : ∀ y ∈ commandMaps, ∀ c, y.2.lookup c!"snapshot" = some c → c = F26_Snapshot.cls F26_SnapshotData.cls := by
  unfold commandMaps
  repeat' (first | exact List.forall_mem_nil _ | refine all_cons (fun c h => by cases h <;> rfl) ?_)

/-- C60: no two snapshots have the same name. -/
theorem C60_snapshot_names (hv : Supported v) (s : Session v h) :
    (dataOf h c!"snapshot").Pairwise fun d e => (d.getD c!"name").pyEq (e.getD c!"name") = false := by
  have key : ∀ l1 l2 : List Ns, ∀ d, dataOf h c!"snapshot" = l1 ++ d :: l2 → ∀ e ∈ l1, (e.getD c!"name").pyEq (d.getD c!"name") = false := by
    intro l1 l2 d hd
    refine session_grows hv s (n := c!"snapshot") (by decide) (R := fun l d => ∀ e ∈ l, (e.getD c!"name").pyEq (d.getD c!"name") = false) ?_ hd
    intro c hc
    rw [commandMaps_snapshot_class _ (supported_mem hv) c hc]
    intro h args i d hd
    apply F26_Snapshot.fresh (F26_Snapshot.info F26_SnapshotData.cls) args h i d
    simp only [F26_Snapshot.cls, listCmd] at hd
    split at hd
    · cases hd
    · rename_i heq; cases hd; rw [heq]
  generalize dataOf h c!"snapshot" = l at key
  induction l using snoc_ind with
  | nil => exact .nil
  | snoc l d ih =>
    rw [List.pairwise_append]
    refine ⟨ih fun l1 l2 e he => key l1 (l2 ++ [d]) e (by rw [he]; simp), List.pairwise_singleton _ _, fun a ha b hb => ?_⟩
    rw [List.mem_singleton] at hb
    subst hb
    exact key l [] _ rfl a ha

/-! ## Examples -/

/-- A version, a handler that has read two lines for thin volumes, and what it holds. -/
example : Supported Version.F34 ∧ (dataOf (readLines Version.F34 [(1, [c!"logvol", c!"none", c!"--vgname=vg", c!"--name=pool", c!"--thinpool", c!"--size=9"], []),
    (2, [c!"logvol", c!"/", c!"--vgname=vg", c!"--name=root", c!"--thin", c!"--poolname=pool", c!"--size=5"], []),
    (3, [c!"logvol", c!"/a", c!"--vgname=vg", c!"--name=a", c!"--thin", c!"--size=5"], [])]) c!"logvol").map (fun d => (d.getD c!"thin_volume", d.getD c!"pool_name")) =
    [(.bool false, .str []), (.bool true, .str c!"pool")] := by decide +kernel

/-- Two snapshots; a third line uses a name again and is refused. -/
example : (dataOf (readLines Version.F34 [(1, [c!"snapshot", c!"vg/a", c!"--name=s", c!"--when=post-install"], []),
    (2, [c!"snapshot", c!"vg/b", c!"--name=t", c!"--when=pre-install"], []),
    (3, [c!"snapshot", c!"vg/c", c!"--name=s", c!"--when=pre-install"], [])]) c!"snapshot").map (·.getD c!"name") = [.str c!"s", .str c!"t"] := by decide +kernel

/-- Objects for the other commands. -/
example : ([(c!"raid", [c!"/", c!"--level=1", c!"--device=md0", c!"raid.1", c!"raid.2"]), (c!"volgroup", [c!"vg", c!"pv.1"]),
    (c!"mount", [c!"/dev/sda", c!"/mnt"]), (c!"btrfs", [c!"none", c!"--label=x", c!"btrfs.1"]), (c!"network", [c!"--device=eth0", c!"--bootproto=dhcp"]),
    (c!"repo", [c!"--name=r", c!"--baseurl=http://x"]), (c!"timesource", [c!"--ntp-server=a"]), (c!"driverdisk", [c!"--source=http://x"]),
    (c!"nvdimm", [c!"use", c!"--namespace=n"]), (c!"part", [c!"/", c!"--size=1"])].map fun x =>
    (dataOf (readLines Version.F34 [(1, x.1 :: x.2, [])]) x.1).length) = [1, 1, 1, 1, 1, 1, 1, 1, 1, 1] := by decide +kernel

/-- The conditions on versions are those of the versions: before F20, a volume may be thin and have no
pool in the options, because there are no thin volumes; and a repository needs no address from F15 on. -/
example : (dataOf (readLines Version.F15 [(1, [c!"repo", c!"--name=r"], [])]) c!"repo").length = 1 ∧
    (dataOf (readLines Version.F14 [(1, [c!"repo", c!"--name=r"], [])]) c!"repo").length = 0 := by decide +kernel

end Ks
