import Verif.Commands.PlainNormalLock
import Verif.Commands.SelfBack3
/-!
# Commands without data lists accept their text, class by class

Written by `scripts/gen_plainnormal.py`.
-/
namespace Ks.Cmd

set_option linter.unusedVariables false

theorem keeps_FC6_NFS_t : FC6_NFS.cls.SelfNormal (nfsSheet Version.F10) (keepNeeds c!"nfs" Version.F10) (keepFixed c!"nfs" Version.F10) (setToObj FC6_NFS.info.op.defaults FC6_NFS.init) :=
  plain_opts (o := FC6_NFS.out ++ [(.tru c!"seen", [.lit c!"\n"])]) (T := [c!"seen"]) (nfsSheet Version.F10) (fun args n => FC3_NFS.selfed _ _ args n _ (by decide)) (fun d hp => FC6_NFS.lined.render ⟨hp.2.1, hp.1⟩) (fun a b h => FC3_NFS.same h) (by decide) (by decide) (by decide +kernel) (by decide +kernel)

theorem keeps_FC3_NFS : FC3_NFS.cls.SelfNormal (nfsSheet Version.FC3) (keepNeeds c!"nfs" Version.FC3) (keepFixed c!"nfs" Version.FC3) (setToObj FC3_NFS.info.op.defaults FC3_NFS.init) :=
  plain_opts (o := FC3_NFS.strOut) (T := [c!"seen"]) (nfsSheet Version.FC3) (fun args n => FC3_NFS.selfed _ _ args n _ (by decide)) (fun _ _ => rfl) (fun a b h => FC3_NFS.same h) (by decide) (by decide) (by decide +kernel) (by decide +kernel)

/-- The values of `nfs` after a line without options. -/
def nfsKeepBases : List (Nat × Ns) :=
  [(Version.F10, setToObj FC6_NFS.info.op.defaults FC6_NFS.init),
   (Version.F11, setToObj FC6_NFS.info.op.defaults FC6_NFS.init),
   (Version.F12, setToObj FC6_NFS.info.op.defaults FC6_NFS.init),
   (Version.F13, setToObj FC6_NFS.info.op.defaults FC6_NFS.init),
   (Version.F14, setToObj FC6_NFS.info.op.defaults FC6_NFS.init),
   (Version.F15, setToObj FC6_NFS.info.op.defaults FC6_NFS.init),
   (Version.F16, setToObj FC6_NFS.info.op.defaults FC6_NFS.init),
   (Version.F17, setToObj FC6_NFS.info.op.defaults FC6_NFS.init),
   (Version.F18, setToObj FC6_NFS.info.op.defaults FC6_NFS.init),
   (Version.F19, setToObj FC6_NFS.info.op.defaults FC6_NFS.init),
   (Version.F20, setToObj FC6_NFS.info.op.defaults FC6_NFS.init),
   (Version.F21, setToObj FC6_NFS.info.op.defaults FC6_NFS.init),
   (Version.F22, setToObj FC6_NFS.info.op.defaults FC6_NFS.init),
   (Version.F23, setToObj FC6_NFS.info.op.defaults FC6_NFS.init),
   (Version.F24, setToObj FC6_NFS.info.op.defaults FC6_NFS.init),
   (Version.F25, setToObj FC6_NFS.info.op.defaults FC6_NFS.init),
   (Version.F26, setToObj FC6_NFS.info.op.defaults FC6_NFS.init),
   (Version.F27, setToObj FC6_NFS.info.op.defaults FC6_NFS.init),
   (Version.F28, setToObj FC6_NFS.info.op.defaults FC6_NFS.init),
   (Version.F29, setToObj FC6_NFS.info.op.defaults FC6_NFS.init),
   (Version.F30, setToObj FC6_NFS.info.op.defaults FC6_NFS.init),
   (Version.F31, setToObj FC6_NFS.info.op.defaults FC6_NFS.init),
   (Version.F32, setToObj FC6_NFS.info.op.defaults FC6_NFS.init),
   (Version.F33, setToObj FC6_NFS.info.op.defaults FC6_NFS.init),
   (Version.F34, setToObj FC6_NFS.info.op.defaults FC6_NFS.init),
   (Version.F7, setToObj FC6_NFS.info.op.defaults FC6_NFS.init),
   (Version.F8, setToObj FC6_NFS.info.op.defaults FC6_NFS.init),
   (Version.F9, setToObj FC6_NFS.info.op.defaults FC6_NFS.init),
   (Version.FC3, setToObj FC3_NFS.info.op.defaults FC3_NFS.init),
   (Version.FC4, setToObj FC3_NFS.info.op.defaults FC3_NFS.init),
   (Version.FC5, setToObj FC3_NFS.info.op.defaults FC3_NFS.init),
   (Version.FC6, setToObj FC6_NFS.info.op.defaults FC6_NFS.init),
   (Version.RHEL3, setToObj FC3_NFS.info.op.defaults FC3_NFS.init),
   (Version.RHEL4, setToObj FC3_NFS.info.op.defaults FC3_NFS.init),
   (Version.RHEL5, setToObj FC6_NFS.info.op.defaults FC6_NFS.init),
   (Version.RHEL6, setToObj FC6_NFS.info.op.defaults FC6_NFS.init),
   (Version.RHEL7, setToObj FC6_NFS.info.op.defaults FC6_NFS.init),
   (Version.RHEL8, setToObj FC6_NFS.info.op.defaults FC6_NFS.init)]

theorem keeps_nfs : ∀ y ∈ commandMaps, ∀ c, y.2.lookup c!"nfs" = some c → 0 ≤ y.1 → y.1 ≤ 1000000 → ¬ Command.IsDeprecated c → ¬ Command.IsRemoved c →
    ∃ base, nfsKeepBases.lookup y.1 = some base ∧ c.SelfNormal (nfsSheet y.1) (keepNeeds c!"nfs" y.1) (keepFixed c!"nfs" y.1) base := by
  unfold commandMaps
  exact (all_cons (fun c h hv hw hd hr => by cases h; exact ⟨_, rfl, keeps_FC6_NFS_t⟩)
    (all_cons (fun c h hv hw hd hr => by cases h; exact ⟨_, rfl, keeps_FC6_NFS_t⟩)
    (all_cons (fun c h hv hw hd hr => by cases h; exact ⟨_, rfl, keeps_FC6_NFS_t⟩)
    (all_cons (fun c h hv hw hd hr => by cases h; exact ⟨_, rfl, keeps_FC6_NFS_t⟩)
    (all_cons (fun c h hv hw hd hr => by cases h; exact ⟨_, rfl, keeps_FC6_NFS_t⟩)
    (all_cons (fun c h hv hw hd hr => by cases h; exact ⟨_, rfl, keeps_FC6_NFS_t⟩)
    (all_cons (fun c h hv hw hd hr => by cases h; exact ⟨_, rfl, keeps_FC6_NFS_t⟩)
    (all_cons (fun c h hv hw hd hr => by cases h; exact ⟨_, rfl, keeps_FC6_NFS_t⟩)
    (all_cons (fun c h hv hw hd hr => by cases h; exact ⟨_, rfl, keeps_FC6_NFS_t⟩)
    (all_cons (fun c h hv hw hd hr => by cases h; exact ⟨_, rfl, keeps_FC6_NFS_t⟩)
    (all_cons (fun c h hv hw hd hr => by cases h; exact ⟨_, rfl, keeps_FC6_NFS_t⟩)
    (all_cons (fun c h hv hw hd hr => by cases h; exact ⟨_, rfl, keeps_FC6_NFS_t⟩)
    (all_cons (fun c h hv hw hd hr => by cases h; exact ⟨_, rfl, keeps_FC6_NFS_t⟩)
    (all_cons (fun c h hv hw hd hr => by cases h; exact ⟨_, rfl, keeps_FC6_NFS_t⟩)
    (all_cons (fun c h hv hw hd hr => by cases h; exact ⟨_, rfl, keeps_FC6_NFS_t⟩)
    (all_cons (fun c h hv hw hd hr => by cases h; exact ⟨_, rfl, keeps_FC6_NFS_t⟩)
    (all_cons (fun c h hv hw hd hr => by cases h; exact ⟨_, rfl, keeps_FC6_NFS_t⟩)
    (all_cons (fun c h hv hw hd hr => by cases h; exact ⟨_, rfl, keeps_FC6_NFS_t⟩)
    (all_cons (fun c h hv hw hd hr => by cases h; exact ⟨_, rfl, keeps_FC6_NFS_t⟩)
    (all_cons (fun c h hv hw hd hr => by cases h; exact ⟨_, rfl, keeps_FC6_NFS_t⟩)
    (all_cons (fun c h hv hw hd hr => by cases h; exact ⟨_, rfl, keeps_FC6_NFS_t⟩)
    (all_cons (fun c h hv hw hd hr => by cases h; exact ⟨_, rfl, keeps_FC6_NFS_t⟩)
    (all_cons (fun c h hv hw hd hr => by cases h; exact ⟨_, rfl, keeps_FC6_NFS_t⟩)
    (all_cons (fun c h hv hw hd hr => by cases h; exact ⟨_, rfl, keeps_FC6_NFS_t⟩)
    (all_cons (fun c h hv hw hd hr => by cases h; exact ⟨_, rfl, keeps_FC6_NFS_t⟩)
    (all_cons (fun c h hv hw hd hr => by cases h; exact ⟨_, rfl, keeps_FC6_NFS_t⟩)
    (all_cons (fun c h hv hw hd hr => by cases h; exact ⟨_, rfl, keeps_FC6_NFS_t⟩)
    (all_cons (fun c h hv hw hd hr => by cases h; exact ⟨_, rfl, keeps_FC6_NFS_t⟩)
    (all_cons (fun c h hv hw hd hr => by cases h; exact ⟨_, rfl, keeps_FC3_NFS⟩)
    (all_cons (fun c h hv hw hd hr => by cases h; exact ⟨_, rfl, keeps_FC3_NFS⟩)
    (all_cons (fun c h hv hw hd hr => by cases h; exact ⟨_, rfl, keeps_FC3_NFS⟩)
    (all_cons (fun c h hv hw hd hr => by cases h; exact ⟨_, rfl, keeps_FC6_NFS_t⟩)
    (all_cons (fun c h hv hw hd hr => by cases h; exact ⟨_, rfl, keeps_FC3_NFS⟩)
    (all_cons (fun c h hv hw hd hr => by cases h; exact ⟨_, rfl, keeps_FC3_NFS⟩)
    (all_cons (fun c h hv hw hd hr => by cases h; exact ⟨_, rfl, keeps_FC6_NFS_t⟩)
    (all_cons (fun c h hv hw hd hr => by cases h; exact ⟨_, rfl, keeps_FC6_NFS_t⟩)
    (all_cons (fun c h hv hw hd hr => by cases h; exact ⟨_, rfl, keeps_FC6_NFS_t⟩)
    (all_cons (fun c h hv hw hd hr => by cases h; exact ⟨_, rfl, keeps_FC6_NFS_t⟩) (List.forall_mem_nil _)))))))))))))))))))))))))))))))))))))))

theorem keeps_F23_ReqPart : F23_ReqPart.cls.SelfNormal (reqpartSheet Version.F23) (keepNeeds c!"reqpart" Version.F23) (keepFixed c!"reqpart" Version.F23) (setToObj F23_ReqPart.info.op.defaults F23_ReqPart.init) :=
  plain_opts (o := (F23_ReqPart.strOut F23_ReqPart.args)) (T := [c!"reqpart", c!"seen"]) (reqpartSheet Version.F23) (fun args n => F23_ReqPart.selfed _ _ args n _ (by decide)) (fun _ _ => rfl) (fun a b h => F23_ReqPart.same h) (by decide) (by decide) (by decide +kernel) (by decide +kernel)

theorem keeps_RHEL7_ReqPart : RHEL7_ReqPart.cls.SelfNormal (reqpartSheet Version.RHEL7) (keepNeeds c!"reqpart" Version.RHEL7) (keepFixed c!"reqpart" Version.RHEL7) (setToObj RHEL7_ReqPart.info.op.defaults RHEL7_ReqPart.init) :=
  plain_opts (o := (F23_ReqPart.strOut F23_ReqPart.args)) (T := [c!"reqpart", c!"seen"]) (reqpartSheet Version.RHEL7) (fun args n => F23_ReqPart.selfed _ _ args n _ (by decide)) (fun _ _ => rfl) (fun a b h => F23_ReqPart.same h) (by decide) (by decide) (by decide +kernel) (by decide +kernel)

/-- The values of `reqpart` after a line without options. -/
def reqpartKeepBases : List (Nat × Ns) :=
  [(Version.F23, setToObj F23_ReqPart.info.op.defaults F23_ReqPart.init),
   (Version.F24, setToObj F23_ReqPart.info.op.defaults F23_ReqPart.init),
   (Version.F25, setToObj F23_ReqPart.info.op.defaults F23_ReqPart.init),
   (Version.F26, setToObj F23_ReqPart.info.op.defaults F23_ReqPart.init),
   (Version.F27, setToObj F23_ReqPart.info.op.defaults F23_ReqPart.init),
   (Version.F28, setToObj F23_ReqPart.info.op.defaults F23_ReqPart.init),
   (Version.F29, setToObj F23_ReqPart.info.op.defaults F23_ReqPart.init),
   (Version.F30, setToObj F23_ReqPart.info.op.defaults F23_ReqPart.init),
   (Version.F31, setToObj F23_ReqPart.info.op.defaults F23_ReqPart.init),
   (Version.F32, setToObj F23_ReqPart.info.op.defaults F23_ReqPart.init),
   (Version.F33, setToObj F23_ReqPart.info.op.defaults F23_ReqPart.init),
   (Version.F34, setToObj F23_ReqPart.info.op.defaults F23_ReqPart.init),
   (Version.RHEL7, setToObj RHEL7_ReqPart.info.op.defaults RHEL7_ReqPart.init),
   (Version.RHEL8, setToObj F23_ReqPart.info.op.defaults F23_ReqPart.init)]

theorem keeps_reqpart : ∀ y ∈ commandMaps, ∀ c, y.2.lookup c!"reqpart" = some c → 0 ≤ y.1 → y.1 ≤ 1000000 → ¬ Command.IsDeprecated c → ¬ Command.IsRemoved c →
    ∃ base, reqpartKeepBases.lookup y.1 = some base ∧ c.SelfNormal (reqpartSheet y.1) (keepNeeds c!"reqpart" y.1) (keepFixed c!"reqpart" y.1) base := by
  unfold commandMaps
  exact (all_cons (fun c h hv hw hd hr => by cases h)
    (all_cons (fun c h hv hw hd hr => by cases h)
    (all_cons (fun c h hv hw hd hr => by cases h)
    (all_cons (fun c h hv hw hd hr => by cases h)
    (all_cons (fun c h hv hw hd hr => by cases h)
    (all_cons (fun c h hv hw hd hr => by cases h)
    (all_cons (fun c h hv hw hd hr => by cases h)
    (all_cons (fun c h hv hw hd hr => by cases h)
    (all_cons (fun c h hv hw hd hr => by cases h)
    (all_cons (fun c h hv hw hd hr => by cases h)
    (all_cons (fun c h hv hw hd hr => by cases h)
    (all_cons (fun c h hv hw hd hr => by cases h)
    (all_cons (fun c h hv hw hd hr => by cases h)
    (all_cons (fun c h hv hw hd hr => by cases h; exact ⟨_, rfl, keeps_F23_ReqPart⟩)
    (all_cons (fun c h hv hw hd hr => by cases h; exact ⟨_, rfl, keeps_F23_ReqPart⟩)
    (all_cons (fun c h hv hw hd hr => by cases h; exact ⟨_, rfl, keeps_F23_ReqPart⟩)
    (all_cons (fun c h hv hw hd hr => by cases h; exact ⟨_, rfl, keeps_F23_ReqPart⟩)
    (all_cons (fun c h hv hw hd hr => by cases h; exact ⟨_, rfl, keeps_F23_ReqPart⟩)
    (all_cons (fun c h hv hw hd hr => by cases h; exact ⟨_, rfl, keeps_F23_ReqPart⟩)
    (all_cons (fun c h hv hw hd hr => by cases h; exact ⟨_, rfl, keeps_F23_ReqPart⟩)
    (all_cons (fun c h hv hw hd hr => by cases h; exact ⟨_, rfl, keeps_F23_ReqPart⟩)
    (all_cons (fun c h hv hw hd hr => by cases h; exact ⟨_, rfl, keeps_F23_ReqPart⟩)
    (all_cons (fun c h hv hw hd hr => by cases h; exact ⟨_, rfl, keeps_F23_ReqPart⟩)
    (all_cons (fun c h hv hw hd hr => by cases h; exact ⟨_, rfl, keeps_F23_ReqPart⟩)
    (all_cons (fun c h hv hw hd hr => by cases h; exact ⟨_, rfl, keeps_F23_ReqPart⟩)
    (all_cons (fun c h hv hw hd hr => by cases h)
    (all_cons (fun c h hv hw hd hr => by cases h)
    (all_cons (fun c h hv hw hd hr => by cases h)
    (all_cons (fun c h hv hw hd hr => by cases h)
    (all_cons (fun c h hv hw hd hr => by cases h)
    (all_cons (fun c h hv hw hd hr => by cases h)
    (all_cons (fun c h hv hw hd hr => by cases h)
    (all_cons (fun c h hv hw hd hr => by cases h)
    (all_cons (fun c h hv hw hd hr => by cases h)
    (all_cons (fun c h hv hw hd hr => by cases h)
    (all_cons (fun c h hv hw hd hr => by cases h)
    (all_cons (fun c h hv hw hd hr => by cases h; exact ⟨_, rfl, keeps_RHEL7_ReqPart⟩)
    (all_cons (fun c h hv hw hd hr => by cases h; exact ⟨_, rfl, keeps_F23_ReqPart⟩) (List.forall_mem_nil _)))))))))))))))))))))))))))))))))))))))

theorem keeps_F10_Rescue : F10_Rescue.cls.SelfNormal (rescueSheet Version.F10) (keepNeeds c!"rescue" Version.F10) (keepFixed c!"rescue" Version.F10) (setToObj F10_Rescue.info.op.defaults F10_Rescue.init) :=
  plain_opts (o := F10_Rescue.strOut) (T := [c!"rescue", c!"seen"]) (rescueSheet Version.F10) (fun args n => F10_Rescue.selfed _ _ args n _ (by decide)) (fun _ _ => rfl) (fun a b h => F10_Rescue.same h (by decide +kernel) (by decide +kernel)) (by decide) (by decide) (by decide +kernel) (by decide +kernel)

/-- The values of `rescue` after a line without options. -/
def rescueKeepBases : List (Nat × Ns) :=
  [(Version.F10, setToObj F10_Rescue.info.op.defaults F10_Rescue.init),
   (Version.F11, setToObj F10_Rescue.info.op.defaults F10_Rescue.init),
   (Version.F12, setToObj F10_Rescue.info.op.defaults F10_Rescue.init),
   (Version.F13, setToObj F10_Rescue.info.op.defaults F10_Rescue.init),
   (Version.F14, setToObj F10_Rescue.info.op.defaults F10_Rescue.init),
   (Version.F15, setToObj F10_Rescue.info.op.defaults F10_Rescue.init),
   (Version.F16, setToObj F10_Rescue.info.op.defaults F10_Rescue.init),
   (Version.F17, setToObj F10_Rescue.info.op.defaults F10_Rescue.init),
   (Version.F18, setToObj F10_Rescue.info.op.defaults F10_Rescue.init),
   (Version.F19, setToObj F10_Rescue.info.op.defaults F10_Rescue.init),
   (Version.F20, setToObj F10_Rescue.info.op.defaults F10_Rescue.init),
   (Version.F21, setToObj F10_Rescue.info.op.defaults F10_Rescue.init),
   (Version.F22, setToObj F10_Rescue.info.op.defaults F10_Rescue.init),
   (Version.F23, setToObj F10_Rescue.info.op.defaults F10_Rescue.init),
   (Version.F24, setToObj F10_Rescue.info.op.defaults F10_Rescue.init),
   (Version.F25, setToObj F10_Rescue.info.op.defaults F10_Rescue.init),
   (Version.F26, setToObj F10_Rescue.info.op.defaults F10_Rescue.init),
   (Version.F27, setToObj F10_Rescue.info.op.defaults F10_Rescue.init),
   (Version.F28, setToObj F10_Rescue.info.op.defaults F10_Rescue.init),
   (Version.F29, setToObj F10_Rescue.info.op.defaults F10_Rescue.init),
   (Version.F30, setToObj F10_Rescue.info.op.defaults F10_Rescue.init),
   (Version.F31, setToObj F10_Rescue.info.op.defaults F10_Rescue.init),
   (Version.F32, setToObj F10_Rescue.info.op.defaults F10_Rescue.init),
   (Version.F33, setToObj F10_Rescue.info.op.defaults F10_Rescue.init),
   (Version.F34, setToObj F10_Rescue.info.op.defaults F10_Rescue.init),
   (Version.RHEL6, setToObj F10_Rescue.info.op.defaults F10_Rescue.init),
   (Version.RHEL7, setToObj F10_Rescue.info.op.defaults F10_Rescue.init),
   (Version.RHEL8, setToObj F10_Rescue.info.op.defaults F10_Rescue.init)]

theorem keeps_rescue : ∀ y ∈ commandMaps, ∀ c, y.2.lookup c!"rescue" = some c → 0 ≤ y.1 → y.1 ≤ 1000000 → ¬ Command.IsDeprecated c → ¬ Command.IsRemoved c →
    ∃ base, rescueKeepBases.lookup y.1 = some base ∧ c.SelfNormal (rescueSheet y.1) (keepNeeds c!"rescue" y.1) (keepFixed c!"rescue" y.1) base := by
  unfold commandMaps
  exact (all_cons (fun c h hv hw hd hr => by cases h; exact ⟨_, rfl, keeps_F10_Rescue⟩)
    (all_cons (fun c h hv hw hd hr => by cases h; exact ⟨_, rfl, keeps_F10_Rescue⟩)
    (all_cons (fun c h hv hw hd hr => by cases h; exact ⟨_, rfl, keeps_F10_Rescue⟩)
    (all_cons (fun c h hv hw hd hr => by cases h; exact ⟨_, rfl, keeps_F10_Rescue⟩)
    (all_cons (fun c h hv hw hd hr => by cases h; exact ⟨_, rfl, keeps_F10_Rescue⟩)
    (all_cons (fun c h hv hw hd hr => by cases h; exact ⟨_, rfl, keeps_F10_Rescue⟩)
    (all_cons (fun c h hv hw hd hr => by cases h; exact ⟨_, rfl, keeps_F10_Rescue⟩)
    (all_cons (fun c h hv hw hd hr => by cases h; exact ⟨_, rfl, keeps_F10_Rescue⟩)
    (all_cons (fun c h hv hw hd hr => by cases h; exact ⟨_, rfl, keeps_F10_Rescue⟩)
    (all_cons (fun c h hv hw hd hr => by cases h; exact ⟨_, rfl, keeps_F10_Rescue⟩)
    (all_cons (fun c h hv hw hd hr => by cases h; exact ⟨_, rfl, keeps_F10_Rescue⟩)
    (all_cons (fun c h hv hw hd hr => by cases h; exact ⟨_, rfl, keeps_F10_Rescue⟩)
    (all_cons (fun c h hv hw hd hr => by cases h; exact ⟨_, rfl, keeps_F10_Rescue⟩)
    (all_cons (fun c h hv hw hd hr => by cases h; exact ⟨_, rfl, keeps_F10_Rescue⟩)
    (all_cons (fun c h hv hw hd hr => by cases h; exact ⟨_, rfl, keeps_F10_Rescue⟩)
    (all_cons (fun c h hv hw hd hr => by cases h; exact ⟨_, rfl, keeps_F10_Rescue⟩)
    (all_cons (fun c h hv hw hd hr => by cases h; exact ⟨_, rfl, keeps_F10_Rescue⟩)
    (all_cons (fun c h hv hw hd hr => by cases h; exact ⟨_, rfl, keeps_F10_Rescue⟩)
    (all_cons (fun c h hv hw hd hr => by cases h; exact ⟨_, rfl, keeps_F10_Rescue⟩)
    (all_cons (fun c h hv hw hd hr => by cases h; exact ⟨_, rfl, keeps_F10_Rescue⟩)
    (all_cons (fun c h hv hw hd hr => by cases h; exact ⟨_, rfl, keeps_F10_Rescue⟩)
    (all_cons (fun c h hv hw hd hr => by cases h; exact ⟨_, rfl, keeps_F10_Rescue⟩)
    (all_cons (fun c h hv hw hd hr => by cases h; exact ⟨_, rfl, keeps_F10_Rescue⟩)
    (all_cons (fun c h hv hw hd hr => by cases h; exact ⟨_, rfl, keeps_F10_Rescue⟩)
    (all_cons (fun c h hv hw hd hr => by cases h; exact ⟨_, rfl, keeps_F10_Rescue⟩)
    (all_cons (fun c h hv hw hd hr => by cases h)
    (all_cons (fun c h hv hw hd hr => by cases h)
    (all_cons (fun c h hv hw hd hr => by cases h)
    (all_cons (fun c h hv hw hd hr => by cases h)
    (all_cons (fun c h hv hw hd hr => by cases h)
    (all_cons (fun c h hv hw hd hr => by cases h)
    (all_cons (fun c h hv hw hd hr => by cases h)
    (all_cons (fun c h hv hw hd hr => by cases h)
    (all_cons (fun c h hv hw hd hr => by cases h)
    (all_cons (fun c h hv hw hd hr => by cases h)
    (all_cons (fun c h hv hw hd hr => by cases h; exact ⟨_, rfl, keeps_F10_Rescue⟩)
    (all_cons (fun c h hv hw hd hr => by cases h; exact ⟨_, rfl, keeps_F10_Rescue⟩)
    (all_cons (fun c h hv hw hd hr => by cases h; exact ⟨_, rfl, keeps_F10_Rescue⟩) (List.forall_mem_nil _)))))))))))))))))))))))))))))))))))))))

theorem keeps_FC3_SELinux : FC3_SELinux.cls.SelfNormal (keepSelinuxSheet Version.F10) (keepNeeds c!"selinux" Version.F10) (keepFixed c!"selinux" Version.F10) (setToObj FC3_SELinux.info.op.defaults FC3_SELinux.init) :=
  plain_opts (o := FC3_SELinux.strOut) (T := [c!"seen"]) (keepSelinuxSheet Version.F10) (fun args n => FC3_SELinux.selfed _ _ args n _ (by decide)) (fun _ _ => rfl) (fun a b h => FC3_SELinux.same h) (by decide) (by decide) (by decide +kernel) (by decide +kernel)

/-- The values of `selinux` after a line without options. -/
def selinuxKeepBases : List (Nat × Ns) :=
  [(Version.F10, setToObj FC3_SELinux.info.op.defaults FC3_SELinux.init),
   (Version.F11, setToObj FC3_SELinux.info.op.defaults FC3_SELinux.init),
   (Version.F12, setToObj FC3_SELinux.info.op.defaults FC3_SELinux.init),
   (Version.F13, setToObj FC3_SELinux.info.op.defaults FC3_SELinux.init),
   (Version.F14, setToObj FC3_SELinux.info.op.defaults FC3_SELinux.init),
   (Version.F15, setToObj FC3_SELinux.info.op.defaults FC3_SELinux.init),
   (Version.F16, setToObj FC3_SELinux.info.op.defaults FC3_SELinux.init),
   (Version.F17, setToObj FC3_SELinux.info.op.defaults FC3_SELinux.init),
   (Version.F18, setToObj FC3_SELinux.info.op.defaults FC3_SELinux.init),
   (Version.F19, setToObj FC3_SELinux.info.op.defaults FC3_SELinux.init),
   (Version.F20, setToObj FC3_SELinux.info.op.defaults FC3_SELinux.init),
   (Version.F21, setToObj FC3_SELinux.info.op.defaults FC3_SELinux.init),
   (Version.F22, setToObj FC3_SELinux.info.op.defaults FC3_SELinux.init),
   (Version.F23, setToObj FC3_SELinux.info.op.defaults FC3_SELinux.init),
   (Version.F24, setToObj FC3_SELinux.info.op.defaults FC3_SELinux.init),
   (Version.F25, setToObj FC3_SELinux.info.op.defaults FC3_SELinux.init),
   (Version.F26, setToObj FC3_SELinux.info.op.defaults FC3_SELinux.init),
   (Version.F27, setToObj FC3_SELinux.info.op.defaults FC3_SELinux.init),
   (Version.F28, setToObj FC3_SELinux.info.op.defaults FC3_SELinux.init),
   (Version.F29, setToObj FC3_SELinux.info.op.defaults FC3_SELinux.init),
   (Version.F30, setToObj FC3_SELinux.info.op.defaults FC3_SELinux.init),
   (Version.F31, setToObj FC3_SELinux.info.op.defaults FC3_SELinux.init),
   (Version.F32, setToObj FC3_SELinux.info.op.defaults FC3_SELinux.init),
   (Version.F33, setToObj FC3_SELinux.info.op.defaults FC3_SELinux.init),
   (Version.F34, setToObj FC3_SELinux.info.op.defaults FC3_SELinux.init),
   (Version.F7, setToObj FC3_SELinux.info.op.defaults FC3_SELinux.init),
   (Version.F8, setToObj FC3_SELinux.info.op.defaults FC3_SELinux.init),
   (Version.F9, setToObj FC3_SELinux.info.op.defaults FC3_SELinux.init),
   (Version.FC3, setToObj FC3_SELinux.info.op.defaults FC3_SELinux.init),
   (Version.FC4, setToObj FC3_SELinux.info.op.defaults FC3_SELinux.init),
   (Version.FC5, setToObj FC3_SELinux.info.op.defaults FC3_SELinux.init),
   (Version.FC6, setToObj FC3_SELinux.info.op.defaults FC3_SELinux.init),
   (Version.RHEL4, setToObj FC3_SELinux.info.op.defaults FC3_SELinux.init),
   (Version.RHEL5, setToObj FC3_SELinux.info.op.defaults FC3_SELinux.init),
   (Version.RHEL6, setToObj FC3_SELinux.info.op.defaults FC3_SELinux.init),
   (Version.RHEL7, setToObj FC3_SELinux.info.op.defaults FC3_SELinux.init),
   (Version.RHEL8, setToObj FC3_SELinux.info.op.defaults FC3_SELinux.init)]

theorem keeps_selinux : ∀ y ∈ commandMaps, ∀ c, y.2.lookup c!"selinux" = some c → 0 ≤ y.1 → y.1 ≤ 1000000 → ¬ Command.IsDeprecated c → ¬ Command.IsRemoved c →
    ∃ base, selinuxKeepBases.lookup y.1 = some base ∧ c.SelfNormal (keepSelinuxSheet y.1) (keepNeeds c!"selinux" y.1) (keepFixed c!"selinux" y.1) base := by
  unfold commandMaps
  exact (all_cons (fun c h hv hw hd hr => by cases h; exact ⟨_, rfl, keeps_FC3_SELinux⟩)
    (all_cons (fun c h hv hw hd hr => by cases h; exact ⟨_, rfl, keeps_FC3_SELinux⟩)
    (all_cons (fun c h hv hw hd hr => by cases h; exact ⟨_, rfl, keeps_FC3_SELinux⟩)
    (all_cons (fun c h hv hw hd hr => by cases h; exact ⟨_, rfl, keeps_FC3_SELinux⟩)
    (all_cons (fun c h hv hw hd hr => by cases h; exact ⟨_, rfl, keeps_FC3_SELinux⟩)
    (all_cons (fun c h hv hw hd hr => by cases h; exact ⟨_, rfl, keeps_FC3_SELinux⟩)
    (all_cons (fun c h hv hw hd hr => by cases h; exact ⟨_, rfl, keeps_FC3_SELinux⟩)
    (all_cons (fun c h hv hw hd hr => by cases h; exact ⟨_, rfl, keeps_FC3_SELinux⟩)
    (all_cons (fun c h hv hw hd hr => by cases h; exact ⟨_, rfl, keeps_FC3_SELinux⟩)
    (all_cons (fun c h hv hw hd hr => by cases h; exact ⟨_, rfl, keeps_FC3_SELinux⟩)
    (all_cons (fun c h hv hw hd hr => by cases h; exact ⟨_, rfl, keeps_FC3_SELinux⟩)
    (all_cons (fun c h hv hw hd hr => by cases h; exact ⟨_, rfl, keeps_FC3_SELinux⟩)
    (all_cons (fun c h hv hw hd hr => by cases h; exact ⟨_, rfl, keeps_FC3_SELinux⟩)
    (all_cons (fun c h hv hw hd hr => by cases h; exact ⟨_, rfl, keeps_FC3_SELinux⟩)
    (all_cons (fun c h hv hw hd hr => by cases h; exact ⟨_, rfl, keeps_FC3_SELinux⟩)
    (all_cons (fun c h hv hw hd hr => by cases h; exact ⟨_, rfl, keeps_FC3_SELinux⟩)
    (all_cons (fun c h hv hw hd hr => by cases h; exact ⟨_, rfl, keeps_FC3_SELinux⟩)
    (all_cons (fun c h hv hw hd hr => by cases h; exact ⟨_, rfl, keeps_FC3_SELinux⟩)
    (all_cons (fun c h hv hw hd hr => by cases h; exact ⟨_, rfl, keeps_FC3_SELinux⟩)
    (all_cons (fun c h hv hw hd hr => by cases h; exact ⟨_, rfl, keeps_FC3_SELinux⟩)
    (all_cons (fun c h hv hw hd hr => by cases h; exact ⟨_, rfl, keeps_FC3_SELinux⟩)
    (all_cons (fun c h hv hw hd hr => by cases h; exact ⟨_, rfl, keeps_FC3_SELinux⟩)
    (all_cons (fun c h hv hw hd hr => by cases h; exact ⟨_, rfl, keeps_FC3_SELinux⟩)
    (all_cons (fun c h hv hw hd hr => by cases h; exact ⟨_, rfl, keeps_FC3_SELinux⟩)
    (all_cons (fun c h hv hw hd hr => by cases h; exact ⟨_, rfl, keeps_FC3_SELinux⟩)
    (all_cons (fun c h hv hw hd hr => by cases h; exact ⟨_, rfl, keeps_FC3_SELinux⟩)
    (all_cons (fun c h hv hw hd hr => by cases h; exact ⟨_, rfl, keeps_FC3_SELinux⟩)
    (all_cons (fun c h hv hw hd hr => by cases h; exact ⟨_, rfl, keeps_FC3_SELinux⟩)
    (all_cons (fun c h hv hw hd hr => by cases h; exact ⟨_, rfl, keeps_FC3_SELinux⟩)
    (all_cons (fun c h hv hw hd hr => by cases h; exact ⟨_, rfl, keeps_FC3_SELinux⟩)
    (all_cons (fun c h hv hw hd hr => by cases h; exact ⟨_, rfl, keeps_FC3_SELinux⟩)
    (all_cons (fun c h hv hw hd hr => by cases h; exact ⟨_, rfl, keeps_FC3_SELinux⟩)
    (all_cons (fun c h hv hw hd hr => by cases h)
    (all_cons (fun c h hv hw hd hr => by cases h; exact ⟨_, rfl, keeps_FC3_SELinux⟩)
    (all_cons (fun c h hv hw hd hr => by cases h; exact ⟨_, rfl, keeps_FC3_SELinux⟩)
    (all_cons (fun c h hv hw hd hr => by cases h; exact ⟨_, rfl, keeps_FC3_SELinux⟩)
    (all_cons (fun c h hv hw hd hr => by cases h; exact ⟨_, rfl, keeps_FC3_SELinux⟩)
    (all_cons (fun c h hv hw hd hr => by cases h; exact ⟨_, rfl, keeps_FC3_SELinux⟩) (List.forall_mem_nil _)))))))))))))))))))))))))))))))))))))))

theorem keeps_FC6_Services : FC6_Services.cls.SelfNormal (servicesSheet Version.F10) (keepNeeds c!"services" Version.F10) (keepFixed c!"services" Version.F10) (setToObj FC6_Services.info.op.defaults FC6_Services.init) :=
  plain_opts (o := FC6_Services.strOut) (T := [c!"seen"]) (servicesSheet Version.F10) (fun args n => FC6_Services.selfed _ _ args n _ (by decide)) (fun _ _ => rfl) (fun a b h => FC6_Services.same h) (by decide) (by decide) (by decide +kernel) (by decide +kernel)

/-- The values of `services` after a line without options. -/
def servicesKeepBases : List (Nat × Ns) :=
  [(Version.F10, setToObj FC6_Services.info.op.defaults FC6_Services.init),
   (Version.F11, setToObj FC6_Services.info.op.defaults FC6_Services.init),
   (Version.F12, setToObj FC6_Services.info.op.defaults FC6_Services.init),
   (Version.F13, setToObj FC6_Services.info.op.defaults FC6_Services.init),
   (Version.F14, setToObj FC6_Services.info.op.defaults FC6_Services.init),
   (Version.F15, setToObj FC6_Services.info.op.defaults FC6_Services.init),
   (Version.F16, setToObj FC6_Services.info.op.defaults FC6_Services.init),
   (Version.F17, setToObj FC6_Services.info.op.defaults FC6_Services.init),
   (Version.F18, setToObj FC6_Services.info.op.defaults FC6_Services.init),
   (Version.F19, setToObj FC6_Services.info.op.defaults FC6_Services.init),
   (Version.F20, setToObj FC6_Services.info.op.defaults FC6_Services.init),
   (Version.F21, setToObj FC6_Services.info.op.defaults FC6_Services.init),
   (Version.F22, setToObj FC6_Services.info.op.defaults FC6_Services.init),
   (Version.F23, setToObj FC6_Services.info.op.defaults FC6_Services.init),
   (Version.F24, setToObj FC6_Services.info.op.defaults FC6_Services.init),
   (Version.F25, setToObj FC6_Services.info.op.defaults FC6_Services.init),
   (Version.F26, setToObj FC6_Services.info.op.defaults FC6_Services.init),
   (Version.F27, setToObj FC6_Services.info.op.defaults FC6_Services.init),
   (Version.F28, setToObj FC6_Services.info.op.defaults FC6_Services.init),
   (Version.F29, setToObj FC6_Services.info.op.defaults FC6_Services.init),
   (Version.F30, setToObj FC6_Services.info.op.defaults FC6_Services.init),
   (Version.F31, setToObj FC6_Services.info.op.defaults FC6_Services.init),
   (Version.F32, setToObj FC6_Services.info.op.defaults FC6_Services.init),
   (Version.F33, setToObj FC6_Services.info.op.defaults FC6_Services.init),
   (Version.F34, setToObj FC6_Services.info.op.defaults FC6_Services.init),
   (Version.F7, setToObj FC6_Services.info.op.defaults FC6_Services.init),
   (Version.F8, setToObj FC6_Services.info.op.defaults FC6_Services.init),
   (Version.F9, setToObj FC6_Services.info.op.defaults FC6_Services.init),
   (Version.FC6, setToObj FC6_Services.info.op.defaults FC6_Services.init),
   (Version.RHEL5, setToObj FC6_Services.info.op.defaults FC6_Services.init),
   (Version.RHEL6, setToObj FC6_Services.info.op.defaults FC6_Services.init),
   (Version.RHEL7, setToObj FC6_Services.info.op.defaults FC6_Services.init),
   (Version.RHEL8, setToObj FC6_Services.info.op.defaults FC6_Services.init)]

theorem keeps_services : ∀ y ∈ commandMaps, ∀ c, y.2.lookup c!"services" = some c → 0 ≤ y.1 → y.1 ≤ 1000000 → ¬ Command.IsDeprecated c → ¬ Command.IsRemoved c →
    ∃ base, servicesKeepBases.lookup y.1 = some base ∧ c.SelfNormal (servicesSheet y.1) (keepNeeds c!"services" y.1) (keepFixed c!"services" y.1) base := by
  unfold commandMaps
  exact (all_cons (fun c h hv hw hd hr => by cases h; exact ⟨_, rfl, keeps_FC6_Services⟩)
    (all_cons (fun c h hv hw hd hr => by cases h; exact ⟨_, rfl, keeps_FC6_Services⟩)
    (all_cons (fun c h hv hw hd hr => by cases h; exact ⟨_, rfl, keeps_FC6_Services⟩)
    (all_cons (fun c h hv hw hd hr => by cases h; exact ⟨_, rfl, keeps_FC6_Services⟩)
    (all_cons (fun c h hv hw hd hr => by cases h; exact ⟨_, rfl, keeps_FC6_Services⟩)
    (all_cons (fun c h hv hw hd hr => by cases h; exact ⟨_, rfl, keeps_FC6_Services⟩)
    (all_cons (fun c h hv hw hd hr => by cases h; exact ⟨_, rfl, keeps_FC6_Services⟩)
    (all_cons (fun c h hv hw hd hr => by cases h; exact ⟨_, rfl, keeps_FC6_Services⟩)
    (all_cons (fun c h hv hw hd hr => by cases h; exact ⟨_, rfl, keeps_FC6_Services⟩)
    (all_cons (fun c h hv hw hd hr => by cases h; exact ⟨_, rfl, keeps_FC6_Services⟩)
    (all_cons (fun c h hv hw hd hr => by cases h; exact ⟨_, rfl, keeps_FC6_Services⟩)
    (all_cons (fun c h hv hw hd hr => by cases h; exact ⟨_, rfl, keeps_FC6_Services⟩)
    (all_cons (fun c h hv hw hd hr => by cases h; exact ⟨_, rfl, keeps_FC6_Services⟩)
    (all_cons (fun c h hv hw hd hr => by cases h; exact ⟨_, rfl, keeps_FC6_Services⟩)
    (all_cons (fun c h hv hw hd hr => by cases h; exact ⟨_, rfl, keeps_FC6_Services⟩)
    (all_cons (fun c h hv hw hd hr => by cases h; exact ⟨_, rfl, keeps_FC6_Services⟩)
    (all_cons (fun c h hv hw hd hr => by cases h; exact ⟨_, rfl, keeps_FC6_Services⟩)
    (all_cons (fun c h hv hw hd hr => by cases h; exact ⟨_, rfl, keeps_FC6_Services⟩)
    (all_cons (fun c h hv hw hd hr => by cases h; exact ⟨_, rfl, keeps_FC6_Services⟩)
    (all_cons (fun c h hv hw hd hr => by cases h; exact ⟨_, rfl, keeps_FC6_Services⟩)
    (all_cons (fun c h hv hw hd hr => by cases h; exact ⟨_, rfl, keeps_FC6_Services⟩)
    (all_cons (fun c h hv hw hd hr => by cases h; exact ⟨_, rfl, keeps_FC6_Services⟩)
    (all_cons (fun c h hv hw hd hr => by cases h; exact ⟨_, rfl, keeps_FC6_Services⟩)
    (all_cons (fun c h hv hw hd hr => by cases h; exact ⟨_, rfl, keeps_FC6_Services⟩)
    (all_cons (fun c h hv hw hd hr => by cases h; exact ⟨_, rfl, keeps_FC6_Services⟩)
    (all_cons (fun c h hv hw hd hr => by cases h; exact ⟨_, rfl, keeps_FC6_Services⟩)
    (all_cons (fun c h hv hw hd hr => by cases h; exact ⟨_, rfl, keeps_FC6_Services⟩)
    (all_cons (fun c h hv hw hd hr => by cases h; exact ⟨_, rfl, keeps_FC6_Services⟩)
    (all_cons (fun c h hv hw hd hr => by cases h)
    (all_cons (fun c h hv hw hd hr => by cases h)
    (all_cons (fun c h hv hw hd hr => by cases h)
    (all_cons (fun c h hv hw hd hr => by cases h; exact ⟨_, rfl, keeps_FC6_Services⟩)
    (all_cons (fun c h hv hw hd hr => by cases h)
    (all_cons (fun c h hv hw hd hr => by cases h)
    (all_cons (fun c h hv hw hd hr => by cases h; exact ⟨_, rfl, keeps_FC6_Services⟩)
    (all_cons (fun c h hv hw hd hr => by cases h; exact ⟨_, rfl, keeps_FC6_Services⟩)
    (all_cons (fun c h hv hw hd hr => by cases h; exact ⟨_, rfl, keeps_FC6_Services⟩)
    (all_cons (fun c h hv hw hd hr => by cases h; exact ⟨_, rfl, keeps_FC6_Services⟩) (List.forall_mem_nil _)))))))))))))))))))))))))))))))))))))))

theorem keeps_FC3_Url_t : FC3_Url.cls.SelfNormal (urlSheet Version.F10) (keepNeeds c!"url" Version.F10) (keepFixed c!"url" Version.F10) (setToObj FC3_Url.info.op.defaults FC3_Url.init) :=
  plain_opts (o := FC3_Url.strOut) (T := [c!"seen"]) (urlSheet Version.F10) (fun args n => FC3_Url.selfed _ _ args n _ (by decide)) (fun _ _ => rfl) (fun a b h => FC3_Url.same h) (by decide) (by decide) (by decide +kernel) (by decide +kernel)

theorem keeps_F13_Url_t : F13_Url.cls.SelfNormal (urlSheet Version.F13) (keepNeeds c!"url" Version.F13) (keepFixed c!"url" Version.F13) (setToObj F13_Url.info.op.defaults F13_Url.init) :=
  plain_opts (o := F13_Url.out ++ [(.tru c!"seen", [.lit c!"\n"])]) (T := [c!"seen"]) (urlSheet Version.F13) (fun args n => FC3_Url.selfed _ _ args n _ (by decide)) (fun d hp => F13_Url.lined.render ⟨hp.2.1, hp.1⟩) (fun a b h => FC3_Url.same h) (by decide) (by decide) (by decide +kernel) (by decide +kernel)

theorem keeps_F14_Url_t : F14_Url.cls.SelfNormal (urlSheet Version.F14) (keepNeeds c!"url" Version.F14) (keepFixed c!"url" Version.F14) (setToObj F14_Url.info.op.defaults F14_Url.init) :=
  plain_opts (o := F14_Url.out ++ [(.tru c!"seen", [.lit c!"\n"])]) (T := [c!"seen"]) (urlSheet Version.F14) (fun args n => FC3_Url.selfed _ _ args n _ (by decide)) (fun d hp => F14_Url.lined.render ⟨hp.2.1, hp.1⟩) (fun a b h => FC3_Url.same h) (by decide) (by decide) (by decide +kernel) (by decide +kernel)

theorem keeps_F18_Url : F18_Url.cls.SelfNormal (urlSheet Version.F18) (keepNeeds c!"url" Version.F18) (keepFixed c!"url" Version.F18) (setToObj F18_Url.info.op.defaults F18_Url.init) :=
  plain_opts (o := urlBy c!"url" (F18_Url.strOut.drop 3)) (T := [c!"seen"]) (urlSheet Version.F18) (fun args n => F18_Url.selfed _ _ args n _ (by decide)) (fun d hp => F18_Url.byUrl d (hp.2.2 _ (.head _))) (fun a b h => F18_Url.same h (by decide +kernel)) (by decide) (by decide) (by decide +kernel) (by decide +kernel)

theorem keeps_F27_Url : F27_Url.cls.SelfNormal (urlSheet Version.F27) (keepNeeds c!"url" Version.F27) (keepFixed c!"url" Version.F27) (setToObj F27_Url.info.op.defaults F27_Url.init) :=
  plain_opts (o := urlBy c!"url" (F27_Url.strOut.drop 4)) (T := [c!"seen"]) (urlSheet Version.F27) (fun args n => F18_Url.selfed _ _ args n _ (by decide)) (fun d hp => F27_Url.byUrl d (hp.2.2 _ (.head _))) (fun a b h => F18_Url.same h (by decide +kernel)) (by decide) (by decide) (by decide +kernel) (by decide +kernel)

theorem keeps_F30_Url : F30_Url.cls.SelfNormal (urlSheet Version.F30) (keepNeeds c!"url" Version.F30) (keepFixed c!"url" Version.F30) (setToObj F30_Url.info.op.defaults F30_Url.init) :=
  plain_opts (o := urlBy c!"url" (F30_Url.out.drop 4)) (T := [c!"seen"]) (urlSheet Version.F30) (fun args n => F18_Url.selfed _ _ args n _ (by decide)) (fun d hp => F30_Url.byUrl d (hp.2.2 _ (.head _))) (fun a b h => F18_Url.same h (by decide +kernel)) (by decide) (by decide) (by decide +kernel) (by decide +kernel)

theorem keeps_RHEL6_Url_t : RHEL6_Url.cls.SelfNormal (urlSheet Version.RHEL6) (keepNeeds c!"url" Version.RHEL6) (keepFixed c!"url" Version.RHEL6) (setToObj RHEL6_Url.info.op.defaults RHEL6_Url.init) :=
  plain_opts (o := F14_Url.out ++ [(.tru c!"seen", [.lit c!"\n"])]) (T := [c!"seen"]) (urlSheet Version.RHEL6) (fun args n => FC3_Url.selfed _ _ args n _ (by decide)) (fun d hp => F14_Url.lined.render ⟨hp.2.1, hp.1⟩) (fun a b h => FC3_Url.same h) (by decide) (by decide) (by decide +kernel) (by decide +kernel)

theorem keeps_RHEL8_Url : RHEL8_Url.cls.SelfNormal (urlSheet Version.RHEL8) (keepNeeds c!"url" Version.RHEL8) (keepFixed c!"url" Version.RHEL8) (setToObj RHEL8_Url.info.op.defaults RHEL8_Url.init) :=
  plain_opts (o := urlBy c!"url" (F30_Url.out.drop 4)) (T := [c!"seen"]) (urlSheet Version.RHEL8) (fun args n => F18_Url.selfed _ _ args n _ (by decide)) (fun d hp => F30_Url.byUrl d (hp.2.2 _ (.head _))) (fun a b h => F18_Url.same h (by decide +kernel)) (by decide) (by decide) (by decide +kernel) (by decide +kernel)

/-- The values of `url` after a line without options. -/
def urlKeepBases : List (Nat × Ns) :=
  [(Version.F10, setToObj FC3_Url.info.op.defaults FC3_Url.init),
   (Version.F11, setToObj FC3_Url.info.op.defaults FC3_Url.init),
   (Version.F12, setToObj FC3_Url.info.op.defaults FC3_Url.init),
   (Version.F13, setToObj F13_Url.info.op.defaults F13_Url.init),
   (Version.F14, setToObj F14_Url.info.op.defaults F14_Url.init),
   (Version.F15, setToObj F14_Url.info.op.defaults F14_Url.init),
   (Version.F16, setToObj F14_Url.info.op.defaults F14_Url.init),
   (Version.F17, setToObj F14_Url.info.op.defaults F14_Url.init),
   (Version.F18, setToObj F18_Url.info.op.defaults F18_Url.init),
   (Version.F19, setToObj F18_Url.info.op.defaults F18_Url.init),
   (Version.F20, setToObj F18_Url.info.op.defaults F18_Url.init),
   (Version.F21, setToObj F18_Url.info.op.defaults F18_Url.init),
   (Version.F22, setToObj F18_Url.info.op.defaults F18_Url.init),
   (Version.F23, setToObj F18_Url.info.op.defaults F18_Url.init),
   (Version.F24, setToObj F18_Url.info.op.defaults F18_Url.init),
   (Version.F25, setToObj F18_Url.info.op.defaults F18_Url.init),
   (Version.F26, setToObj F18_Url.info.op.defaults F18_Url.init),
   (Version.F27, setToObj F27_Url.info.op.defaults F27_Url.init),
   (Version.F28, setToObj F27_Url.info.op.defaults F27_Url.init),
   (Version.F29, setToObj F27_Url.info.op.defaults F27_Url.init),
   (Version.F30, setToObj F30_Url.info.op.defaults F30_Url.init),
   (Version.F31, setToObj F30_Url.info.op.defaults F30_Url.init),
   (Version.F32, setToObj F30_Url.info.op.defaults F30_Url.init),
   (Version.F33, setToObj F30_Url.info.op.defaults F30_Url.init),
   (Version.F34, setToObj F30_Url.info.op.defaults F30_Url.init),
   (Version.F7, setToObj FC3_Url.info.op.defaults FC3_Url.init),
   (Version.F8, setToObj FC3_Url.info.op.defaults FC3_Url.init),
   (Version.F9, setToObj FC3_Url.info.op.defaults FC3_Url.init),
   (Version.FC3, setToObj FC3_Url.info.op.defaults FC3_Url.init),
   (Version.FC4, setToObj FC3_Url.info.op.defaults FC3_Url.init),
   (Version.FC5, setToObj FC3_Url.info.op.defaults FC3_Url.init),
   (Version.FC6, setToObj FC3_Url.info.op.defaults FC3_Url.init),
   (Version.RHEL3, setToObj FC3_Url.info.op.defaults FC3_Url.init),
   (Version.RHEL4, setToObj FC3_Url.info.op.defaults FC3_Url.init),
   (Version.RHEL5, setToObj FC3_Url.info.op.defaults FC3_Url.init),
   (Version.RHEL6, setToObj RHEL6_Url.info.op.defaults RHEL6_Url.init),
   (Version.RHEL7, setToObj F18_Url.info.op.defaults F18_Url.init),
   (Version.RHEL8, setToObj RHEL8_Url.info.op.defaults RHEL8_Url.init)]

theorem keeps_url : ∀ y ∈ commandMaps, ∀ c, y.2.lookup c!"url" = some c → 0 ≤ y.1 → y.1 ≤ 1000000 → ¬ Command.IsDeprecated c → ¬ Command.IsRemoved c →
    ∃ base, urlKeepBases.lookup y.1 = some base ∧ c.SelfNormal (urlSheet y.1) (keepNeeds c!"url" y.1) (keepFixed c!"url" y.1) base := by
  unfold commandMaps
  exact (all_cons (fun c h hv hw hd hr => by cases h; exact ⟨_, rfl, keeps_FC3_Url_t⟩)
    (all_cons (fun c h hv hw hd hr => by cases h; exact ⟨_, rfl, keeps_FC3_Url_t⟩)
    (all_cons (fun c h hv hw hd hr => by cases h; exact ⟨_, rfl, keeps_FC3_Url_t⟩)
    (all_cons (fun c h hv hw hd hr => by cases h; exact ⟨_, rfl, keeps_F13_Url_t⟩)
    (all_cons (fun c h hv hw hd hr => by cases h; exact ⟨_, rfl, keeps_F14_Url_t⟩)
    (all_cons (fun c h hv hw hd hr => by cases h; exact ⟨_, rfl, keeps_F14_Url_t⟩)
    (all_cons (fun c h hv hw hd hr => by cases h; exact ⟨_, rfl, keeps_F14_Url_t⟩)
    (all_cons (fun c h hv hw hd hr => by cases h; exact ⟨_, rfl, keeps_F14_Url_t⟩)
    (all_cons (fun c h hv hw hd hr => by cases h; exact ⟨_, rfl, keeps_F18_Url⟩)
    (all_cons (fun c h hv hw hd hr => by cases h; exact ⟨_, rfl, keeps_F18_Url⟩)
    (all_cons (fun c h hv hw hd hr => by cases h; exact ⟨_, rfl, keeps_F18_Url⟩)
    (all_cons (fun c h hv hw hd hr => by cases h; exact ⟨_, rfl, keeps_F18_Url⟩)
    (all_cons (fun c h hv hw hd hr => by cases h; exact ⟨_, rfl, keeps_F18_Url⟩)
    (all_cons (fun c h hv hw hd hr => by cases h; exact ⟨_, rfl, keeps_F18_Url⟩)
    (all_cons (fun c h hv hw hd hr => by cases h; exact ⟨_, rfl, keeps_F18_Url⟩)
    (all_cons (fun c h hv hw hd hr => by cases h; exact ⟨_, rfl, keeps_F18_Url⟩)
    (all_cons (fun c h hv hw hd hr => by cases h; exact ⟨_, rfl, keeps_F18_Url⟩)
    (all_cons (fun c h hv hw hd hr => by cases h; exact ⟨_, rfl, keeps_F27_Url⟩)
    (all_cons (fun c h hv hw hd hr => by cases h; exact ⟨_, rfl, keeps_F27_Url⟩)
    (all_cons (fun c h hv hw hd hr => by cases h; exact ⟨_, rfl, keeps_F27_Url⟩)
    (all_cons (fun c h hv hw hd hr => by cases h; exact ⟨_, rfl, keeps_F30_Url⟩)
    (all_cons (fun c h hv hw hd hr => by cases h; exact ⟨_, rfl, keeps_F30_Url⟩)
    (all_cons (fun c h hv hw hd hr => by cases h; exact ⟨_, rfl, keeps_F30_Url⟩)
    (all_cons (fun c h hv hw hd hr => by cases h; exact ⟨_, rfl, keeps_F30_Url⟩)
    (all_cons (fun c h hv hw hd hr => by cases h; exact ⟨_, rfl, keeps_F30_Url⟩)
    (all_cons (fun c h hv hw hd hr => by cases h; exact ⟨_, rfl, keeps_FC3_Url_t⟩)
    (all_cons (fun c h hv hw hd hr => by cases h; exact ⟨_, rfl, keeps_FC3_Url_t⟩)
    (all_cons (fun c h hv hw hd hr => by cases h; exact ⟨_, rfl, keeps_FC3_Url_t⟩)
    (all_cons (fun c h hv hw hd hr => by cases h; exact ⟨_, rfl, keeps_FC3_Url_t⟩)
    (all_cons (fun c h hv hw hd hr => by cases h; exact ⟨_, rfl, keeps_FC3_Url_t⟩)
    (all_cons (fun c h hv hw hd hr => by cases h; exact ⟨_, rfl, keeps_FC3_Url_t⟩)
    (all_cons (fun c h hv hw hd hr => by cases h; exact ⟨_, rfl, keeps_FC3_Url_t⟩)
    (all_cons (fun c h hv hw hd hr => by cases h; exact ⟨_, rfl, keeps_FC3_Url_t⟩)
    (all_cons (fun c h hv hw hd hr => by cases h; exact ⟨_, rfl, keeps_FC3_Url_t⟩)
    (all_cons (fun c h hv hw hd hr => by cases h; exact ⟨_, rfl, keeps_FC3_Url_t⟩)
    (all_cons (fun c h hv hw hd hr => by cases h; exact ⟨_, rfl, keeps_RHEL6_Url_t⟩)
    (all_cons (fun c h hv hw hd hr => by cases h; exact ⟨_, rfl, keeps_F18_Url⟩)
    (all_cons (fun c h hv hw hd hr => by cases h; exact ⟨_, rfl, keeps_RHEL8_Url⟩) (List.forall_mem_nil _)))))))))))))))))))))))))))))))))))))))

theorem keeps_F18_Url_urlMirror : F18_Url.cls.SelfNormal (urlMirrorSheet Version.F18) (keepNeeds c!"url" Version.F18) (keepFixed c!"url" Version.F18) (setToObj F18_Url.info.op.defaults F18_Url.init) :=
  plain_opts (o := urlBy c!"mirrorlist" (F18_Url.strOut.drop 3)) (T := [c!"seen"]) (urlMirrorSheet Version.F18) (fun args n => F18_Url.selfed _ _ args n _ (by decide)) (fun d hp => F18_Url.byMirror d (hp.2.2 _ (.head _)) (hp.2.2 _ (.tail _ (.head _)))) (fun a b h => F18_Url.same h (by decide +kernel)) (by decide) (by decide) (by decide +kernel) (by decide +kernel)

theorem keeps_F27_Url_urlMirror : F27_Url.cls.SelfNormal (urlMirrorSheet Version.F27) (keepNeeds c!"url" Version.F27) (keepFixed c!"url" Version.F27) (setToObj F27_Url.info.op.defaults F27_Url.init) :=
  plain_opts (o := urlBy c!"mirrorlist" (F27_Url.strOut.drop 4)) (T := [c!"seen"]) (urlMirrorSheet Version.F27) (fun args n => F18_Url.selfed _ _ args n _ (by decide)) (fun d hp => F27_Url.byMirror d (hp.2.2 _ (.head _)) (hp.2.2 _ (.tail _ (.head _)))) (fun a b h => F18_Url.same h (by decide +kernel)) (by decide) (by decide) (by decide +kernel) (by decide +kernel)

theorem keeps_F30_Url_urlMirror : F30_Url.cls.SelfNormal (urlMirrorSheet Version.F30) (keepNeeds c!"url" Version.F30) (keepFixed c!"url" Version.F30) (setToObj F30_Url.info.op.defaults F30_Url.init) :=
  plain_opts (o := urlBy c!"mirrorlist" (F30_Url.out.drop 4)) (T := [c!"seen"]) (urlMirrorSheet Version.F30) (fun args n => F18_Url.selfed _ _ args n _ (by decide)) (fun d hp => F30_Url.byMirror d (hp.2.2 _ (.head _)) (hp.2.2 _ (.tail _ (.head _)))) (fun a b h => F18_Url.same h (by decide +kernel)) (by decide) (by decide) (by decide +kernel) (by decide +kernel)

theorem keeps_RHEL8_Url_urlMirror : RHEL8_Url.cls.SelfNormal (urlMirrorSheet Version.RHEL8) (keepNeeds c!"url" Version.RHEL8) (keepFixed c!"url" Version.RHEL8) (setToObj RHEL8_Url.info.op.defaults RHEL8_Url.init) :=
  plain_opts (o := urlBy c!"mirrorlist" (F30_Url.out.drop 4)) (T := [c!"seen"]) (urlMirrorSheet Version.RHEL8) (fun args n => F18_Url.selfed _ _ args n _ (by decide)) (fun d hp => F30_Url.byMirror d (hp.2.2 _ (.head _)) (hp.2.2 _ (.tail _ (.head _)))) (fun a b h => F18_Url.same h (by decide +kernel)) (by decide) (by decide) (by decide +kernel) (by decide +kernel)

/-- The values of `url` after a line without options. -/
def urlMirrorKeepBases : List (Nat × Ns) :=
  [(Version.F18, setToObj F18_Url.info.op.defaults F18_Url.init),
   (Version.F19, setToObj F18_Url.info.op.defaults F18_Url.init),
   (Version.F20, setToObj F18_Url.info.op.defaults F18_Url.init),
   (Version.F21, setToObj F18_Url.info.op.defaults F18_Url.init),
   (Version.F22, setToObj F18_Url.info.op.defaults F18_Url.init),
   (Version.F23, setToObj F18_Url.info.op.defaults F18_Url.init),
   (Version.F24, setToObj F18_Url.info.op.defaults F18_Url.init),
   (Version.F25, setToObj F18_Url.info.op.defaults F18_Url.init),
   (Version.F26, setToObj F18_Url.info.op.defaults F18_Url.init),
   (Version.F27, setToObj F27_Url.info.op.defaults F27_Url.init),
   (Version.F28, setToObj F27_Url.info.op.defaults F27_Url.init),
   (Version.F29, setToObj F27_Url.info.op.defaults F27_Url.init),
   (Version.F30, setToObj F30_Url.info.op.defaults F30_Url.init),
   (Version.F31, setToObj F30_Url.info.op.defaults F30_Url.init),
   (Version.F32, setToObj F30_Url.info.op.defaults F30_Url.init),
   (Version.F33, setToObj F30_Url.info.op.defaults F30_Url.init),
   (Version.F34, setToObj F30_Url.info.op.defaults F30_Url.init),
   (Version.RHEL7, setToObj F18_Url.info.op.defaults F18_Url.init),
   (Version.RHEL8, setToObj RHEL8_Url.info.op.defaults RHEL8_Url.init)]

theorem keeps_urlMirror : ∀ y ∈ commandMaps, ∀ c, y.2.lookup c!"url" = some c → Version.F18 ≤ y.1 → y.1 ≤ 1000000 → ¬ Command.IsDeprecated c → ¬ Command.IsRemoved c →
    ∃ base, urlMirrorKeepBases.lookup y.1 = some base ∧ c.SelfNormal (urlMirrorSheet y.1) (keepNeeds c!"url" y.1) (keepFixed c!"url" y.1) base := by
  unfold commandMaps
  exact (all_cons (fun c h hv hw hd hr => absurd hv (by decide))
    (all_cons (fun c h hv hw hd hr => absurd hv (by decide))
    (all_cons (fun c h hv hw hd hr => absurd hv (by decide))
    (all_cons (fun c h hv hw hd hr => absurd hv (by decide))
    (all_cons (fun c h hv hw hd hr => absurd hv (by decide))
    (all_cons (fun c h hv hw hd hr => absurd hv (by decide))
    (all_cons (fun c h hv hw hd hr => absurd hv (by decide))
    (all_cons (fun c h hv hw hd hr => absurd hv (by decide))
    (all_cons (fun c h hv hw hd hr => by cases h; exact ⟨_, rfl, keeps_F18_Url_urlMirror⟩)
    (all_cons (fun c h hv hw hd hr => by cases h; exact ⟨_, rfl, keeps_F18_Url_urlMirror⟩)
    (all_cons (fun c h hv hw hd hr => by cases h; exact ⟨_, rfl, keeps_F18_Url_urlMirror⟩)
    (all_cons (fun c h hv hw hd hr => by cases h; exact ⟨_, rfl, keeps_F18_Url_urlMirror⟩)
    (all_cons (fun c h hv hw hd hr => by cases h; exact ⟨_, rfl, keeps_F18_Url_urlMirror⟩)
    (all_cons (fun c h hv hw hd hr => by cases h; exact ⟨_, rfl, keeps_F18_Url_urlMirror⟩)
    (all_cons (fun c h hv hw hd hr => by cases h; exact ⟨_, rfl, keeps_F18_Url_urlMirror⟩)
    (all_cons (fun c h hv hw hd hr => by cases h; exact ⟨_, rfl, keeps_F18_Url_urlMirror⟩)
    (all_cons (fun c h hv hw hd hr => by cases h; exact ⟨_, rfl, keeps_F18_Url_urlMirror⟩)
    (all_cons (fun c h hv hw hd hr => by cases h; exact ⟨_, rfl, keeps_F27_Url_urlMirror⟩)
    (all_cons (fun c h hv hw hd hr => by cases h; exact ⟨_, rfl, keeps_F27_Url_urlMirror⟩)
    (all_cons (fun c h hv hw hd hr => by cases h; exact ⟨_, rfl, keeps_F27_Url_urlMirror⟩)
    (all_cons (fun c h hv hw hd hr => by cases h; exact ⟨_, rfl, keeps_F30_Url_urlMirror⟩)
    (all_cons (fun c h hv hw hd hr => by cases h; exact ⟨_, rfl, keeps_F30_Url_urlMirror⟩)
    (all_cons (fun c h hv hw hd hr => by cases h; exact ⟨_, rfl, keeps_F30_Url_urlMirror⟩)
    (all_cons (fun c h hv hw hd hr => by cases h; exact ⟨_, rfl, keeps_F30_Url_urlMirror⟩)
    (all_cons (fun c h hv hw hd hr => by cases h; exact ⟨_, rfl, keeps_F30_Url_urlMirror⟩)
    (all_cons (fun c h hv hw hd hr => absurd hv (by decide))
    (all_cons (fun c h hv hw hd hr => absurd hv (by decide))
    (all_cons (fun c h hv hw hd hr => absurd hv (by decide))
    (all_cons (fun c h hv hw hd hr => absurd hv (by decide))
    (all_cons (fun c h hv hw hd hr => absurd hv (by decide))
    (all_cons (fun c h hv hw hd hr => absurd hv (by decide))
    (all_cons (fun c h hv hw hd hr => absurd hv (by decide))
    (all_cons (fun c h hv hw hd hr => absurd hv (by decide))
    (all_cons (fun c h hv hw hd hr => absurd hv (by decide))
    (all_cons (fun c h hv hw hd hr => absurd hv (by decide))
    (all_cons (fun c h hv hw hd hr => absurd hv (by decide))
    (all_cons (fun c h hv hw hd hr => by cases h; exact ⟨_, rfl, keeps_F18_Url_urlMirror⟩)
    (all_cons (fun c h hv hw hd hr => by cases h; exact ⟨_, rfl, keeps_RHEL8_Url_urlMirror⟩) (List.forall_mem_nil _)))))))))))))))))))))))))))))))))))))))

theorem keeps_F27_Url_urlMeta : F27_Url.cls.SelfNormal (urlMetaSheet Version.F27) (keepNeeds c!"url" Version.F27) (keepFixed c!"url" Version.F27) (setToObj F27_Url.info.op.defaults F27_Url.init) :=
  plain_opts (o := urlBy c!"metalink" (F27_Url.strOut.drop 4)) (T := [c!"seen"]) (urlMetaSheet Version.F27) (fun args n => F18_Url.selfed _ _ args n _ (by decide)) (fun d hp => F27_Url.byMeta d (hp.2.2 _ (.head _)) (hp.2.2 _ (.tail _ (.head _))) (hp.2.2 _ (.tail _ (.tail _ (.head _))))) (fun a b h => F18_Url.same h (by decide +kernel)) (by decide) (by decide) (by decide +kernel) (by decide +kernel)

theorem keeps_F30_Url_urlMeta : F30_Url.cls.SelfNormal (urlMetaSheet Version.F30) (keepNeeds c!"url" Version.F30) (keepFixed c!"url" Version.F30) (setToObj F30_Url.info.op.defaults F30_Url.init) :=
  plain_opts (o := urlBy c!"metalink" (F30_Url.out.drop 4)) (T := [c!"seen"]) (urlMetaSheet Version.F30) (fun args n => F18_Url.selfed _ _ args n _ (by decide)) (fun d hp => F30_Url.byMeta d (hp.2.2 _ (.head _)) (hp.2.2 _ (.tail _ (.head _))) (hp.2.2 _ (.tail _ (.tail _ (.head _))))) (fun a b h => F18_Url.same h (by decide +kernel)) (by decide) (by decide) (by decide +kernel) (by decide +kernel)

theorem keeps_RHEL8_Url_urlMeta : RHEL8_Url.cls.SelfNormal (urlMetaSheet Version.RHEL8) (keepNeeds c!"url" Version.RHEL8) (keepFixed c!"url" Version.RHEL8) (setToObj RHEL8_Url.info.op.defaults RHEL8_Url.init) :=
  plain_opts (o := urlBy c!"metalink" (F30_Url.out.drop 4)) (T := [c!"seen"]) (urlMetaSheet Version.RHEL8) (fun args n => F18_Url.selfed _ _ args n _ (by decide)) (fun d hp => F30_Url.byMeta d (hp.2.2 _ (.head _)) (hp.2.2 _ (.tail _ (.head _))) (hp.2.2 _ (.tail _ (.tail _ (.head _))))) (fun a b h => F18_Url.same h (by decide +kernel)) (by decide) (by decide) (by decide +kernel) (by decide +kernel)

/-- The values of `url` after a line without options. -/
def urlMetaKeepBases : List (Nat × Ns) :=
  [(Version.F27, setToObj F27_Url.info.op.defaults F27_Url.init),
   (Version.F28, setToObj F27_Url.info.op.defaults F27_Url.init),
   (Version.F29, setToObj F27_Url.info.op.defaults F27_Url.init),
   (Version.F30, setToObj F30_Url.info.op.defaults F30_Url.init),
   (Version.F31, setToObj F30_Url.info.op.defaults F30_Url.init),
   (Version.F32, setToObj F30_Url.info.op.defaults F30_Url.init),
   (Version.F33, setToObj F30_Url.info.op.defaults F30_Url.init),
   (Version.F34, setToObj F30_Url.info.op.defaults F30_Url.init),
   (Version.RHEL8, setToObj RHEL8_Url.info.op.defaults RHEL8_Url.init)]

theorem keeps_urlMeta : ∀ y ∈ commandMaps, ∀ c, y.2.lookup c!"url" = some c → Version.F27 ≤ y.1 → y.1 ≤ 1000000 → ¬ Command.IsDeprecated c → ¬ Command.IsRemoved c →
    ∃ base, urlMetaKeepBases.lookup y.1 = some base ∧ c.SelfNormal (urlMetaSheet y.1) (keepNeeds c!"url" y.1) (keepFixed c!"url" y.1) base := by
  unfold commandMaps
  exact (all_cons (fun c h hv hw hd hr => absurd hv (by decide))
    (all_cons (fun c h hv hw hd hr => absurd hv (by decide))
    (all_cons (fun c h hv hw hd hr => absurd hv (by decide))
    (all_cons (fun c h hv hw hd hr => absurd hv (by decide))
    (all_cons (fun c h hv hw hd hr => absurd hv (by decide))
    (all_cons (fun c h hv hw hd hr => absurd hv (by decide))
    (all_cons (fun c h hv hw hd hr => absurd hv (by decide))
    (all_cons (fun c h hv hw hd hr => absurd hv (by decide))
    (all_cons (fun c h hv hw hd hr => absurd hv (by decide))
    (all_cons (fun c h hv hw hd hr => absurd hv (by decide))
    (all_cons (fun c h hv hw hd hr => absurd hv (by decide))
    (all_cons (fun c h hv hw hd hr => absurd hv (by decide))
    (all_cons (fun c h hv hw hd hr => absurd hv (by decide))
    (all_cons (fun c h hv hw hd hr => absurd hv (by decide))
    (all_cons (fun c h hv hw hd hr => absurd hv (by decide))
    (all_cons (fun c h hv hw hd hr => absurd hv (by decide))
    (all_cons (fun c h hv hw hd hr => absurd hv (by decide))
    (all_cons (fun c h hv hw hd hr => by cases h; exact ⟨_, rfl, keeps_F27_Url_urlMeta⟩)
    (all_cons (fun c h hv hw hd hr => by cases h; exact ⟨_, rfl, keeps_F27_Url_urlMeta⟩)
    (all_cons (fun c h hv hw hd hr => by cases h; exact ⟨_, rfl, keeps_F27_Url_urlMeta⟩)
    (all_cons (fun c h hv hw hd hr => by cases h; exact ⟨_, rfl, keeps_F30_Url_urlMeta⟩)
    (all_cons (fun c h hv hw hd hr => by cases h; exact ⟨_, rfl, keeps_F30_Url_urlMeta⟩)
    (all_cons (fun c h hv hw hd hr => by cases h; exact ⟨_, rfl, keeps_F30_Url_urlMeta⟩)
    (all_cons (fun c h hv hw hd hr => by cases h; exact ⟨_, rfl, keeps_F30_Url_urlMeta⟩)
    (all_cons (fun c h hv hw hd hr => by cases h; exact ⟨_, rfl, keeps_F30_Url_urlMeta⟩)
    (all_cons (fun c h hv hw hd hr => absurd hv (by decide))
    (all_cons (fun c h hv hw hd hr => absurd hv (by decide))
    (all_cons (fun c h hv hw hd hr => absurd hv (by decide))
    (all_cons (fun c h hv hw hd hr => absurd hv (by decide))
    (all_cons (fun c h hv hw hd hr => absurd hv (by decide))
    (all_cons (fun c h hv hw hd hr => absurd hv (by decide))
    (all_cons (fun c h hv hw hd hr => absurd hv (by decide))
    (all_cons (fun c h hv hw hd hr => absurd hv (by decide))
    (all_cons (fun c h hv hw hd hr => absurd hv (by decide))
    (all_cons (fun c h hv hw hd hr => absurd hv (by decide))
    (all_cons (fun c h hv hw hd hr => absurd hv (by decide))
    (all_cons (fun c h hv hw hd hr => absurd hv (by decide))
    (all_cons (fun c h hv hw hd hr => by cases h; exact ⟨_, rfl, keeps_RHEL8_Url_urlMeta⟩) (List.forall_mem_nil _)))))))))))))))))))))))))))))))))))))))

theorem keeps_F10_XConfig : F10_XConfig.cls.SelfNormal (xconfigSheet Version.F10) (keepNeeds c!"xconfig" Version.F10) (keepFixed c!"xconfig" Version.F10) (setToObj F10_XConfig.info.op.defaults F10_XConfig.init) :=
  plain_opts (o := FC6_XConfig.strOut) (T := [c!"seen"]) (xconfigSheet Version.F10) (fun args n => FC3_XConfig.selfed _ _ args n _ (by decide)) (fun _ _ => rfl) (fun a b h => FC3_XConfig.same h) (by decide) (by decide) (by decide +kernel) (by decide +kernel)

theorem keeps_F14_XConfig : F14_XConfig.cls.SelfNormal (xconfigSheet Version.F14) (keepNeeds c!"xconfig" Version.F14) (keepFixed c!"xconfig" Version.F14) (setToObj F14_XConfig.info.op.defaults F14_XConfig.init) :=
  plain_opts (o := FC6_XConfig.strOut) (T := [c!"seen"]) (xconfigSheet Version.F14) (fun args n => FC3_XConfig.selfed _ _ args n _ (by decide)) (fun _ _ => rfl) (fun a b h => FC3_XConfig.same h) (by decide) (by decide) (by decide +kernel) (by decide +kernel)

theorem keeps_FC6_XConfig_t : FC6_XConfig.cls.SelfNormal (xconfigSheet Version.F7) (keepNeeds c!"xconfig" Version.F7) (keepFixed c!"xconfig" Version.F7) (setToObj FC6_XConfig.info.op.defaults FC6_XConfig.init) :=
  plain_opts (o := FC6_XConfig.strOut) (T := [c!"seen"]) (xconfigSheet Version.F7) (fun args n => FC3_XConfig.selfed _ _ args n _ (by decide)) (fun _ _ => rfl) (fun a b h => FC3_XConfig.same h) (by decide) (by decide) (by decide +kernel) (by decide +kernel)

theorem keeps_F9_XConfig : F9_XConfig.cls.SelfNormal (xconfigSheet Version.F9) (keepNeeds c!"xconfig" Version.F9) (keepFixed c!"xconfig" Version.F9) (setToObj F9_XConfig.info.op.defaults F9_XConfig.init) :=
  plain_opts (o := FC6_XConfig.strOut) (T := [c!"seen"]) (xconfigSheet Version.F9) (fun args n => FC3_XConfig.selfed _ _ args n _ (by decide)) (fun _ _ => rfl) (fun a b h => FC3_XConfig.same h) (by decide) (by decide) (by decide +kernel) (by decide +kernel)

theorem keeps_FC3_XConfig : FC3_XConfig.cls.SelfNormal (xconfigSheet Version.FC3) (keepNeeds c!"xconfig" Version.FC3) (keepFixed c!"xconfig" Version.FC3) (setToObj FC3_XConfig.info.op.defaults FC3_XConfig.init) :=
  plain_opts (o := FC3_XConfig.strOut) (T := [c!"seen"]) (xconfigSheet Version.FC3) (fun args n => FC3_XConfig.selfed _ _ args n _ (by decide)) (fun _ _ => rfl) (fun a b h => FC3_XConfig.same h) (by decide) (by decide) (by decide +kernel) (by decide +kernel)

/-- The values of `xconfig` after a line without options. -/
def xconfigKeepBases : List (Nat × Ns) :=
  [(Version.F10, setToObj F10_XConfig.info.op.defaults F10_XConfig.init),
   (Version.F11, setToObj F10_XConfig.info.op.defaults F10_XConfig.init),
   (Version.F12, setToObj F10_XConfig.info.op.defaults F10_XConfig.init),
   (Version.F13, setToObj F10_XConfig.info.op.defaults F10_XConfig.init),
   (Version.F14, setToObj F14_XConfig.info.op.defaults F14_XConfig.init),
   (Version.F15, setToObj F14_XConfig.info.op.defaults F14_XConfig.init),
   (Version.F16, setToObj F14_XConfig.info.op.defaults F14_XConfig.init),
   (Version.F17, setToObj F14_XConfig.info.op.defaults F14_XConfig.init),
   (Version.F18, setToObj F14_XConfig.info.op.defaults F14_XConfig.init),
   (Version.F19, setToObj F14_XConfig.info.op.defaults F14_XConfig.init),
   (Version.F20, setToObj F14_XConfig.info.op.defaults F14_XConfig.init),
   (Version.F21, setToObj F14_XConfig.info.op.defaults F14_XConfig.init),
   (Version.F22, setToObj F14_XConfig.info.op.defaults F14_XConfig.init),
   (Version.F23, setToObj F14_XConfig.info.op.defaults F14_XConfig.init),
   (Version.F24, setToObj F14_XConfig.info.op.defaults F14_XConfig.init),
   (Version.F25, setToObj F14_XConfig.info.op.defaults F14_XConfig.init),
   (Version.F26, setToObj F14_XConfig.info.op.defaults F14_XConfig.init),
   (Version.F27, setToObj F14_XConfig.info.op.defaults F14_XConfig.init),
   (Version.F28, setToObj F14_XConfig.info.op.defaults F14_XConfig.init),
   (Version.F29, setToObj F14_XConfig.info.op.defaults F14_XConfig.init),
   (Version.F30, setToObj F14_XConfig.info.op.defaults F14_XConfig.init),
   (Version.F31, setToObj F14_XConfig.info.op.defaults F14_XConfig.init),
   (Version.F32, setToObj F14_XConfig.info.op.defaults F14_XConfig.init),
   (Version.F33, setToObj F14_XConfig.info.op.defaults F14_XConfig.init),
   (Version.F34, setToObj F14_XConfig.info.op.defaults F14_XConfig.init),
   (Version.F7, setToObj FC6_XConfig.info.op.defaults FC6_XConfig.init),
   (Version.F8, setToObj FC6_XConfig.info.op.defaults FC6_XConfig.init),
   (Version.F9, setToObj F9_XConfig.info.op.defaults F9_XConfig.init),
   (Version.FC3, setToObj FC3_XConfig.info.op.defaults FC3_XConfig.init),
   (Version.FC4, setToObj FC3_XConfig.info.op.defaults FC3_XConfig.init),
   (Version.FC5, setToObj FC3_XConfig.info.op.defaults FC3_XConfig.init),
   (Version.FC6, setToObj FC6_XConfig.info.op.defaults FC6_XConfig.init),
   (Version.RHEL3, setToObj FC3_XConfig.info.op.defaults FC3_XConfig.init),
   (Version.RHEL4, setToObj FC3_XConfig.info.op.defaults FC3_XConfig.init),
   (Version.RHEL5, setToObj FC6_XConfig.info.op.defaults FC6_XConfig.init),
   (Version.RHEL6, setToObj F10_XConfig.info.op.defaults F10_XConfig.init),
   (Version.RHEL7, setToObj F14_XConfig.info.op.defaults F14_XConfig.init),
   (Version.RHEL8, setToObj F14_XConfig.info.op.defaults F14_XConfig.init)]

theorem keeps_xconfig : ∀ y ∈ commandMaps, ∀ c, y.2.lookup c!"xconfig" = some c → 0 ≤ y.1 → y.1 ≤ 1000000 → ¬ Command.IsDeprecated c → ¬ Command.IsRemoved c →
    ∃ base, xconfigKeepBases.lookup y.1 = some base ∧ c.SelfNormal (xconfigSheet y.1) (keepNeeds c!"xconfig" y.1) (keepFixed c!"xconfig" y.1) base := by
  unfold commandMaps
  exact (all_cons (fun c h hv hw hd hr => by cases h; exact ⟨_, rfl, keeps_F10_XConfig⟩)
    (all_cons (fun c h hv hw hd hr => by cases h; exact ⟨_, rfl, keeps_F10_XConfig⟩)
    (all_cons (fun c h hv hw hd hr => by cases h; exact ⟨_, rfl, keeps_F10_XConfig⟩)
    (all_cons (fun c h hv hw hd hr => by cases h; exact ⟨_, rfl, keeps_F10_XConfig⟩)
    (all_cons (fun c h hv hw hd hr => by cases h; exact ⟨_, rfl, keeps_F14_XConfig⟩)
    (all_cons (fun c h hv hw hd hr => by cases h; exact ⟨_, rfl, keeps_F14_XConfig⟩)
    (all_cons (fun c h hv hw hd hr => by cases h; exact ⟨_, rfl, keeps_F14_XConfig⟩)
    (all_cons (fun c h hv hw hd hr => by cases h; exact ⟨_, rfl, keeps_F14_XConfig⟩)
    (all_cons (fun c h hv hw hd hr => by cases h; exact ⟨_, rfl, keeps_F14_XConfig⟩)
    (all_cons (fun c h hv hw hd hr => by cases h; exact ⟨_, rfl, keeps_F14_XConfig⟩)
    (all_cons (fun c h hv hw hd hr => by cases h; exact ⟨_, rfl, keeps_F14_XConfig⟩)
    (all_cons (fun c h hv hw hd hr => by cases h; exact ⟨_, rfl, keeps_F14_XConfig⟩)
    (all_cons (fun c h hv hw hd hr => by cases h; exact ⟨_, rfl, keeps_F14_XConfig⟩)
    (all_cons (fun c h hv hw hd hr => by cases h; exact ⟨_, rfl, keeps_F14_XConfig⟩)
    (all_cons (fun c h hv hw hd hr => by cases h; exact ⟨_, rfl, keeps_F14_XConfig⟩)
    (all_cons (fun c h hv hw hd hr => by cases h; exact ⟨_, rfl, keeps_F14_XConfig⟩)
    (all_cons (fun c h hv hw hd hr => by cases h; exact ⟨_, rfl, keeps_F14_XConfig⟩)
    (all_cons (fun c h hv hw hd hr => by cases h; exact ⟨_, rfl, keeps_F14_XConfig⟩)
    (all_cons (fun c h hv hw hd hr => by cases h; exact ⟨_, rfl, keeps_F14_XConfig⟩)
    (all_cons (fun c h hv hw hd hr => by cases h; exact ⟨_, rfl, keeps_F14_XConfig⟩)
    (all_cons (fun c h hv hw hd hr => by cases h; exact ⟨_, rfl, keeps_F14_XConfig⟩)
    (all_cons (fun c h hv hw hd hr => by cases h; exact ⟨_, rfl, keeps_F14_XConfig⟩)
    (all_cons (fun c h hv hw hd hr => by cases h; exact ⟨_, rfl, keeps_F14_XConfig⟩)
    (all_cons (fun c h hv hw hd hr => by cases h; exact ⟨_, rfl, keeps_F14_XConfig⟩)
    (all_cons (fun c h hv hw hd hr => by cases h; exact ⟨_, rfl, keeps_F14_XConfig⟩)
    (all_cons (fun c h hv hw hd hr => by cases h; exact ⟨_, rfl, keeps_FC6_XConfig_t⟩)
    (all_cons (fun c h hv hw hd hr => by cases h; exact ⟨_, rfl, keeps_FC6_XConfig_t⟩)
    (all_cons (fun c h hv hw hd hr => by cases h; exact ⟨_, rfl, keeps_F9_XConfig⟩)
    (all_cons (fun c h hv hw hd hr => by cases h; exact ⟨_, rfl, keeps_FC3_XConfig⟩)
    (all_cons (fun c h hv hw hd hr => by cases h; exact ⟨_, rfl, keeps_FC3_XConfig⟩)
    (all_cons (fun c h hv hw hd hr => by cases h; exact ⟨_, rfl, keeps_FC3_XConfig⟩)
    (all_cons (fun c h hv hw hd hr => by cases h; exact ⟨_, rfl, keeps_FC6_XConfig_t⟩)
    (all_cons (fun c h hv hw hd hr => by cases h; exact ⟨_, rfl, keeps_FC3_XConfig⟩)
    (all_cons (fun c h hv hw hd hr => by cases h; exact ⟨_, rfl, keeps_FC3_XConfig⟩)
    (all_cons (fun c h hv hw hd hr => by cases h; exact ⟨_, rfl, keeps_FC6_XConfig_t⟩)
    (all_cons (fun c h hv hw hd hr => by cases h; exact ⟨_, rfl, keeps_F10_XConfig⟩)
    (all_cons (fun c h hv hw hd hr => by cases h; exact ⟨_, rfl, keeps_F14_XConfig⟩)
    (all_cons (fun c h hv hw hd hr => by cases h; exact ⟨_, rfl, keeps_F14_XConfig⟩) (List.forall_mem_nil _)))))))))))))))))))))))))))))))))))))))

theorem keeps_F32_Zipl : F32_Zipl.cls.SelfNormal (ziplSheet Version.F32) (keepNeeds c!"zipl" Version.F32) (keepFixed c!"zipl" Version.F32) (setToObj F32_Zipl.info.op.defaults F32_Zipl.init) :=
  plain_opts (o := (F32_Zipl.strOut F32_Zipl.args)) (T := [c!"seen"]) (ziplSheet Version.F32) (fun args n => F32_Zipl.selfed _ _ args n _ (by decide)) (fun _ _ => rfl) (fun a b h => F32_Zipl.same h) (by decide) (by decide) (by decide +kernel) (by decide +kernel)

theorem keeps_RHEL8_Zipl : RHEL8_Zipl.cls.SelfNormal (ziplSheet Version.RHEL8) (keepNeeds c!"zipl" Version.RHEL8) (keepFixed c!"zipl" Version.RHEL8) (setToObj RHEL8_Zipl.info.op.defaults RHEL8_Zipl.init) :=
  plain_opts (o := (F32_Zipl.strOut F32_Zipl.args)) (T := [c!"seen"]) (ziplSheet Version.RHEL8) (fun args n => F32_Zipl.selfed _ _ args n _ (by decide)) (fun _ _ => rfl) (fun a b h => F32_Zipl.same h) (by decide) (by decide) (by decide +kernel) (by decide +kernel)

/-- The values of `zipl` after a line without options. -/
def ziplKeepBases : List (Nat × Ns) :=
  [(Version.F32, setToObj F32_Zipl.info.op.defaults F32_Zipl.init),
   (Version.F33, setToObj F32_Zipl.info.op.defaults F32_Zipl.init),
   (Version.F34, setToObj F32_Zipl.info.op.defaults F32_Zipl.init),
   (Version.RHEL8, setToObj RHEL8_Zipl.info.op.defaults RHEL8_Zipl.init)]

theorem keeps_zipl : ∀ y ∈ commandMaps, ∀ c, y.2.lookup c!"zipl" = some c → 0 ≤ y.1 → y.1 ≤ 1000000 → ¬ Command.IsDeprecated c → ¬ Command.IsRemoved c →
    ∃ base, ziplKeepBases.lookup y.1 = some base ∧ c.SelfNormal (ziplSheet y.1) (keepNeeds c!"zipl" y.1) (keepFixed c!"zipl" y.1) base := by
  unfold commandMaps
  exact (all_cons (fun c h hv hw hd hr => by cases h)
    (all_cons (fun c h hv hw hd hr => by cases h)
    (all_cons (fun c h hv hw hd hr => by cases h)
    (all_cons (fun c h hv hw hd hr => by cases h)
    (all_cons (fun c h hv hw hd hr => by cases h)
    (all_cons (fun c h hv hw hd hr => by cases h)
    (all_cons (fun c h hv hw hd hr => by cases h)
    (all_cons (fun c h hv hw hd hr => by cases h)
    (all_cons (fun c h hv hw hd hr => by cases h)
    (all_cons (fun c h hv hw hd hr => by cases h)
    (all_cons (fun c h hv hw hd hr => by cases h)
    (all_cons (fun c h hv hw hd hr => by cases h)
    (all_cons (fun c h hv hw hd hr => by cases h)
    (all_cons (fun c h hv hw hd hr => by cases h)
    (all_cons (fun c h hv hw hd hr => by cases h)
    (all_cons (fun c h hv hw hd hr => by cases h)
    (all_cons (fun c h hv hw hd hr => by cases h)
    (all_cons (fun c h hv hw hd hr => by cases h)
    (all_cons (fun c h hv hw hd hr => by cases h)
    (all_cons (fun c h hv hw hd hr => by cases h)
    (all_cons (fun c h hv hw hd hr => by cases h)
    (all_cons (fun c h hv hw hd hr => by cases h)
    (all_cons (fun c h hv hw hd hr => by cases h; exact ⟨_, rfl, keeps_F32_Zipl⟩)
    (all_cons (fun c h hv hw hd hr => by cases h; exact ⟨_, rfl, keeps_F32_Zipl⟩)
    (all_cons (fun c h hv hw hd hr => by cases h; exact ⟨_, rfl, keeps_F32_Zipl⟩)
    (all_cons (fun c h hv hw hd hr => by cases h)
    (all_cons (fun c h hv hw hd hr => by cases h)
    (all_cons (fun c h hv hw hd hr => by cases h)
    (all_cons (fun c h hv hw hd hr => by cases h)
    (all_cons (fun c h hv hw hd hr => by cases h)
    (all_cons (fun c h hv hw hd hr => by cases h)
    (all_cons (fun c h hv hw hd hr => by cases h)
    (all_cons (fun c h hv hw hd hr => by cases h)
    (all_cons (fun c h hv hw hd hr => by cases h)
    (all_cons (fun c h hv hw hd hr => by cases h)
    (all_cons (fun c h hv hw hd hr => by cases h)
    (all_cons (fun c h hv hw hd hr => by cases h)
    (all_cons (fun c h hv hw hd hr => by cases h; exact ⟨_, rfl, keeps_RHEL8_Zipl⟩) (List.forall_mem_nil _)))))))))))))))))))))))))))))))))))))))

end Ks.Cmd
