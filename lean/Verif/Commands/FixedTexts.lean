import Verif.Commands.FixedLogic
import Verif.Commands.ListLogic
import Verif.Commands.LineSpec
import Verif.Commands.Maps
/-!
# Commands whose text is always one of a few

Written by `scripts/gen_fixed.py`.
-/
namespace Ks.Cmd

set_option linter.unusedVariables false

/-- Commands, the versions in which they write one of the texts, and the texts. -/
structure FixedText where
  names : List Str
  versions : Versions
  texts : List Str

/-- What `FC3_AutoStep` writes. -/
def FC3_AutoStep.texts : List Str :=
  [[], c!"autostep\n",
   c!"autostep --autoscreenshot\n"]

/-- What `FC3_Cdrom` writes. -/
def FC3_Cdrom.texts : List Str :=
  [[], c!"# Use CDROM installation media\ncdrom\n"]

/-- What `FC3_DisplayMode` writes. -/
def FC3_DisplayMode.texts : List Str :=
  [[], c!"cmdline\n",
   c!"# Use graphical install\ngraphical\n",
   c!"# Use text mode install\ntext\n"]

/-- What `F20_Eula` writes. -/
def F20_Eula.texts : List Str :=
  [[], c!"# License agreement\neula --agreed\n"]

/-- What `FC3_Firstboot` writes. -/
def FC3_Firstboot.texts : List Str :=
  [[], c!"firstboot --disable\n",
   c!"# Run the Setup Agent on first boot\nfirstboot --enable\n",
   c!"# Run the Setup Agent on first boot\nfirstboot --reconfig\n"]

/-- What `RHEL7_Hmc` writes. -/
def RHEL7_Hmc.texts : List Str :=
  [[], c!"# Use installation media via SE/HMC\nhmc\n"]

/-- What `FC3_Interactive` writes. -/
def FC3_Interactive.texts : List Str :=
  [[], c!"# Use interactive kickstart installation method\ninteractive\n"]

/-- What `FC3_LiloCheck` writes. -/
def FC3_LiloCheck.texts : List Str :=
  [[], c!"lilocheck\n"]

/-- What `FC4_MediaCheck` writes. -/
def FC4_MediaCheck.texts : List Str :=
  [[], c!"mediacheck\n"]

/-- What `FC3_Reboot` writes. -/
def FC3_Reboot.texts : List Str :=
  [[], c!"# Reboot after installation\nreboot\n",
   c!"# Shutdown after installation\nshutdown\n"]

/-- What `FC6_Reboot` writes. -/
def FC6_Reboot.texts : List Str :=
  [[], c!"# Reboot after installation\nreboot\n",
   c!"# Reboot after installation\nreboot --eject\n",
   c!"# Shutdown after installation\nshutdown\n",
   c!"# Shutdown after installation\nshutdown --eject\n"]

/-- What `F18_Reboot` writes. -/
def F18_Reboot.texts : List Str :=
  [[], c!"# Reboot after installation\nreboot\n",
   c!"# Reboot after installation\nreboot --eject\n",
   c!"# Shutdown after installation\nshutdown\n",
   c!"# Shutdown after installation\nshutdown --eject\n",
   c!"# Halt after installation\nhalt\n",
   c!"# Halt after installation\nhalt --eject\n"]

/-- What `F23_Reboot` writes. -/
def F23_Reboot.texts : List Str :=
  [[], c!"# Reboot after installation\nreboot\n",
   c!"# Reboot after installation\nreboot --eject\n",
   c!"# Reboot after installation\nreboot --kexec\n",
   c!"# Reboot after installation\nreboot --eject --kexec\n",
   c!"# Shutdown after installation\nshutdown\n",
   c!"# Shutdown after installation\nshutdown --eject\n",
   c!"# Shutdown after installation\nshutdown --kexec\n",
   c!"# Shutdown after installation\nshutdown --eject --kexec\n",
   c!"# Halt after installation\nhalt\n",
   c!"# Halt after installation\nhalt --eject\n",
   c!"# Halt after installation\nhalt --kexec\n",
   c!"# Halt after installation\nhalt --eject --kexec\n"]

/-- What `FC3_SkipX` writes. -/
def FC3_SkipX.texts : List Str :=
  [[], c!"# Do not configure the X Window System\nskipx\n"]

/-- What `RHEL6_UnsupportedHardware` writes. -/
def RHEL6_UnsupportedHardware.texts : List Str :=
  [[], c!"unsupported_hardware\n"]

/-- What `FC3_Upgrade` writes. -/
def FC3_Upgrade.texts : List Str :=
  [[], c!"# Upgrade existing installation\nupgrade\n",
   c!"# Install OS instead of upgrade\ninstall\n"]

/-- What `FC3_ZeroMbr` writes. -/
def FC3_ZeroMbr.texts : List Str :=
  [[], c!"# Clear the Master Boot Record\nzerombr\n"]

/-- The commands whose text is always one of a few. -/
def fixedTexts : List FixedText :=
  [{ names := [c!"autostep"], versions := [(Version.RHEL3, Version.F33)],
     texts := FC3_AutoStep.texts },
   { names := [c!"cdrom"], versions := [(Version.RHEL3, Version.F34)],
     texts := FC3_Cdrom.texts },
   { names := [c!"cmdline", c!"graphical", c!"text"], versions := [(Version.RHEL3, Version.F25)],
     texts := FC3_DisplayMode.texts },
   { names := [c!"eula"], versions := [(Version.F20, Version.F34)],
     texts := F20_Eula.texts },
   { names := [c!"firstboot"], versions := [(Version.RHEL3, Version.F34)],
     texts := FC3_Firstboot.texts },
   { names := [c!"hmc"], versions := [(Version.RHEL7, Version.RHEL7), (Version.F28, Version.F34)],
     texts := RHEL7_Hmc.texts },
   { names := [c!"interactive"], versions := [(Version.RHEL3, Version.RHEL6)],
     texts := FC3_Interactive.texts },
   { names := [c!"lilocheck"], versions := [(Version.RHEL3, Version.RHEL4)],
     texts := FC3_LiloCheck.texts },
   { names := [c!"mediacheck"], versions := [(Version.FC4, Version.F34)],
     texts := FC4_MediaCheck.texts },
   { names := [c!"reboot", c!"halt", c!"poweroff", c!"shutdown"], versions := [(Version.RHEL3, Version.FC5)],
     texts := FC3_Reboot.texts },
   { names := [c!"reboot", c!"halt", c!"poweroff", c!"shutdown"], versions := [(Version.FC6, Version.F17)],
     texts := FC6_Reboot.texts },
   { names := [c!"reboot", c!"halt", c!"poweroff", c!"shutdown"], versions := [(Version.F18, Version.F22)],
     texts := F18_Reboot.texts },
   { names := [c!"reboot", c!"halt", c!"poweroff", c!"shutdown"], versions := [(Version.F23, Version.F34)],
     texts := F23_Reboot.texts },
   { names := [c!"skipx"], versions := [(Version.RHEL3, Version.F34)],
     texts := FC3_SkipX.texts },
   { names := [c!"unsupported_hardware"], versions := [(Version.RHEL6, Version.RHEL6), (Version.RHEL7, Version.RHEL7)],
     texts := RHEL6_UnsupportedHardware.texts },
   { names := [c!"install", c!"upgrade"], versions := [(Version.RHEL3, Version.F10)],
     texts := FC3_Upgrade.texts },
   { names := [c!"zerombr"], versions := [(Version.RHEL3, Version.F34)],
     texts := FC3_ZeroMbr.texts }]

/-- The texts of a command in a version. -/
def fixedTextsOf (v : Nat) (n : Str) : Option (List Str) :=
  (fixedTexts.find? fun x => x.names.contains n && x.versions.has v).map (·.texts)

theorem writes_FC3_AutoStep : FC3_AutoStep.cls.WritesAmong FC3_AutoStep.texts :=
  fun _ => Out.gives_sound (o := FC3_AutoStep.strOut) (as := [.tru c!"autostep", .tru c!"autoscreenshot"]) (by decide +kernel) _

theorem writes_FC3_Cdrom : FC3_Cdrom.cls.WritesAmong FC3_Cdrom.texts :=
  fun _ => Out.gives_sound (o := FC3_Cdrom.strOut) (as := [.tru c!"seen"]) (by decide +kernel) _

theorem writes_FC3_DisplayMode : FC3_DisplayMode.cls.WritesAmong FC3_DisplayMode.texts :=
  fun _ => Out.gives_sound (o := FC3_DisplayMode.strOut) (as := [.eq c!"displayMode" .none, .eq c!"displayMode" (.int 0), .eq c!"displayMode" (.int 1), .eq c!"displayMode" (.int 2)]) (by decide +kernel) _

theorem writes_F20_Eula : F20_Eula.cls.WritesAmong F20_Eula.texts :=
  fun _ => Out.gives_sound (o := (F20_Eula.strOut F20_Eula.args)) (as := [.tru c!"agreed"]) (by decide +kernel) _

theorem writes_FC3_Firstboot : FC3_Firstboot.cls.WritesAmong FC3_Firstboot.texts :=
  fun _ => Out.gives_sound (o := FC3_Firstboot.strOut) (as := [.eq c!"firstboot" .none, .eq c!"firstboot" (.int 0), .eq c!"firstboot" (.int 1), .eq c!"firstboot" (.int 2)]) (by decide +kernel) _

theorem writes_RHEL7_Hmc : RHEL7_Hmc.cls.WritesAmong RHEL7_Hmc.texts :=
  fun _ => Out.gives_sound (o := RHEL7_Hmc.strOut) (as := [.tru c!"seen"]) (by decide +kernel) _

theorem writes_F28_Hmc : F28_Hmc.cls.WritesAmong RHEL7_Hmc.texts :=
  fun _ => Out.gives_sound (o := RHEL7_Hmc.strOut) (as := [.tru c!"seen"]) (by decide +kernel) _

theorem writes_FC3_Interactive : FC3_Interactive.cls.WritesAmong FC3_Interactive.texts :=
  fun _ => Out.gives_sound (o := FC3_Interactive.strOut) (as := [.tru c!"interactive"]) (by decide +kernel) _

theorem writes_FC3_LiloCheck : FC3_LiloCheck.cls.WritesAmong FC3_LiloCheck.texts :=
  fun _ => Out.gives_sound (o := FC3_LiloCheck.strOut) (as := [.tru c!"check"]) (by decide +kernel) _

theorem writes_FC4_MediaCheck : FC4_MediaCheck.cls.WritesAmong FC4_MediaCheck.texts :=
  fun _ => Out.gives_sound (o := FC4_MediaCheck.strOut) (as := [.tru c!"mediacheck"]) (by decide +kernel) _

theorem writes_FC3_Reboot : FC3_Reboot.cls.WritesAmong FC3_Reboot.texts :=
  fun _ => Out.gives_sound (o := (FC3_Reboot.strOut FC3_Reboot.args)) (as := [.eq c!"action" (.int 1), .eq c!"action" (.int 2)]) (by decide +kernel) _

theorem writes_FC6_Reboot : FC6_Reboot.cls.WritesAmong FC6_Reboot.texts :=
  fun _ => Out.gives_sound (o := (FC3_Reboot.strOut FC6_Reboot.args)) (as := [.eq c!"action" (.int 1), .eq c!"action" (.int 2), .tru c!"eject"]) (by decide +kernel) _

theorem writes_F18_Reboot : F18_Reboot.cls.WritesAmong F18_Reboot.texts :=
  fun _ => Out.gives_sound (o := (F18_Reboot.strOut FC6_Reboot.args)) (as := [.eq c!"action" (.int 1), .eq c!"action" (.int 2), .eq c!"action" (.int 0), .eq c!"action" (.int 3), .tru c!"eject"]) (by decide +kernel) _

theorem writes_F23_Reboot : F23_Reboot.cls.WritesAmong F23_Reboot.texts :=
  fun _ => Out.gives_sound (o := (F18_Reboot.strOut F23_Reboot.args)) (as := [.eq c!"action" (.int 1), .eq c!"action" (.int 2), .eq c!"action" (.int 0), .eq c!"action" (.int 3), .tru c!"eject", .tru c!"kexec"]) (by decide +kernel) _

theorem writes_FC3_SkipX : FC3_SkipX.cls.WritesAmong FC3_SkipX.texts :=
  fun _ => Out.gives_sound (o := FC3_SkipX.strOut) (as := [.tru c!"skipx"]) (by decide +kernel) _

theorem writes_RHEL6_UnsupportedHardware : RHEL6_UnsupportedHardware.cls.WritesAmong RHEL6_UnsupportedHardware.texts :=
  fun _ => Out.gives_sound (o := RHEL6_UnsupportedHardware.strOut) (as := [.tru c!"unsupported_hardware"]) (by decide +kernel) _

theorem writes_FC3_Upgrade : FC3_Upgrade.cls.WritesAmong FC3_Upgrade.texts :=
  fun _ => Out.gives_sound (o := FC3_Upgrade.strOut) (as := [.eq c!"upgrade" .none, .tru c!"upgrade"]) (by decide +kernel) _

theorem writes_FC3_ZeroMbr : FC3_ZeroMbr.cls.WritesAmong FC3_ZeroMbr.texts :=
  fun _ => Out.gives_sound (o := FC3_ZeroMbr.strOut) (as := [.tru c!"zerombr"]) (by decide +kernel) _

theorem writes_F9_ZeroMbr : F9_ZeroMbr.cls.WritesAmong FC3_ZeroMbr.texts :=
  fun _ => Out.gives_sound (o := FC3_ZeroMbr.strOut) (as := [.tru c!"zerombr"]) (by decide +kernel) _

theorem writes_autostep : ∀ y ∈ commandMaps, ∀ c, y.2.lookup c!"autostep" = some c → ∀ ts, fixedTextsOf y.1 c!"autostep" = some ts → c.WritesAmong ts := by
  unfold commandMaps
  exact (all_cons (fun c h ts ht => by rw [show fixedTextsOf _ _ = some FC3_AutoStep.texts from by decide +kernel] at ht; cases h; cases ht; exact writes_FC3_AutoStep)
    (all_cons (fun c h ts ht => by rw [show fixedTextsOf _ _ = some FC3_AutoStep.texts from by decide +kernel] at ht; cases h; cases ht; exact writes_FC3_AutoStep)
    (all_cons (fun c h ts ht => by rw [show fixedTextsOf _ _ = some FC3_AutoStep.texts from by decide +kernel] at ht; cases h; cases ht; exact writes_FC3_AutoStep)
    (all_cons (fun c h ts ht => by rw [show fixedTextsOf _ _ = some FC3_AutoStep.texts from by decide +kernel] at ht; cases h; cases ht; exact writes_FC3_AutoStep)
    (all_cons (fun c h ts ht => by rw [show fixedTextsOf _ _ = some FC3_AutoStep.texts from by decide +kernel] at ht; cases h; cases ht; exact writes_FC3_AutoStep)
    (all_cons (fun c h ts ht => by rw [show fixedTextsOf _ _ = some FC3_AutoStep.texts from by decide +kernel] at ht; cases h; cases ht; exact writes_FC3_AutoStep)
    (all_cons (fun c h ts ht => by rw [show fixedTextsOf _ _ = some FC3_AutoStep.texts from by decide +kernel] at ht; cases h; cases ht; exact writes_FC3_AutoStep)
    (all_cons (fun c h ts ht => by rw [show fixedTextsOf _ _ = some FC3_AutoStep.texts from by decide +kernel] at ht; cases h; cases ht; exact writes_FC3_AutoStep)
    (all_cons (fun c h ts ht => by rw [show fixedTextsOf _ _ = some FC3_AutoStep.texts from by decide +kernel] at ht; cases h; cases ht; exact writes_FC3_AutoStep)
    (all_cons (fun c h ts ht => by rw [show fixedTextsOf _ _ = some FC3_AutoStep.texts from by decide +kernel] at ht; cases h; cases ht; exact writes_FC3_AutoStep)
    (all_cons (fun c h ts ht => by rw [show fixedTextsOf _ _ = some FC3_AutoStep.texts from by decide +kernel] at ht; cases h; cases ht; exact writes_FC3_AutoStep)
    (all_cons (fun c h ts ht => by rw [show fixedTextsOf _ _ = some FC3_AutoStep.texts from by decide +kernel] at ht; cases h; cases ht; exact writes_FC3_AutoStep)
    (all_cons (fun c h ts ht => by rw [show fixedTextsOf _ _ = some FC3_AutoStep.texts from by decide +kernel] at ht; cases h; cases ht; exact writes_FC3_AutoStep)
    (all_cons (fun c h ts ht => by rw [show fixedTextsOf _ _ = some FC3_AutoStep.texts from by decide +kernel] at ht; cases h; cases ht; exact writes_FC3_AutoStep)
    (all_cons (fun c h ts ht => by rw [show fixedTextsOf _ _ = some FC3_AutoStep.texts from by decide +kernel] at ht; cases h; cases ht; exact writes_FC3_AutoStep)
    (all_cons (fun c h ts ht => by rw [show fixedTextsOf _ _ = some FC3_AutoStep.texts from by decide +kernel] at ht; cases h; cases ht; exact writes_FC3_AutoStep)
    (all_cons (fun c h ts ht => by rw [show fixedTextsOf _ _ = some FC3_AutoStep.texts from by decide +kernel] at ht; cases h; cases ht; exact writes_FC3_AutoStep)
    (all_cons (fun c h ts ht => by rw [show fixedTextsOf _ _ = some FC3_AutoStep.texts from by decide +kernel] at ht; cases h; cases ht; exact writes_FC3_AutoStep)
    (all_cons (fun c h ts ht => by rw [show fixedTextsOf _ _ = some FC3_AutoStep.texts from by decide +kernel] at ht; cases h; cases ht; exact writes_FC3_AutoStep)
    (all_cons (fun c h ts ht => by rw [show fixedTextsOf _ _ = some FC3_AutoStep.texts from by decide +kernel] at ht; cases h; cases ht; exact writes_FC3_AutoStep)
    (all_cons (fun c h ts ht => by rw [show fixedTextsOf _ _ = some FC3_AutoStep.texts from by decide +kernel] at ht; cases h; cases ht; exact writes_FC3_AutoStep)
    (all_cons (fun c h ts ht => by rw [show fixedTextsOf _ _ = some FC3_AutoStep.texts from by decide +kernel] at ht; cases h; cases ht; exact writes_FC3_AutoStep)
    (all_cons (fun c h ts ht => by rw [show fixedTextsOf _ _ = some FC3_AutoStep.texts from by decide +kernel] at ht; cases h; cases ht; exact writes_FC3_AutoStep)
    (all_cons (fun c h ts ht => by rw [show fixedTextsOf _ _ = some FC3_AutoStep.texts from by decide +kernel] at ht; cases h; cases ht; exact writes_FC3_AutoStep)
    (all_cons (fun c h ts ht => absurd ht (by rw [show fixedTextsOf _ _ = none from by decide +kernel]; simp))
    (all_cons (fun c h ts ht => by rw [show fixedTextsOf _ _ = some FC3_AutoStep.texts from by decide +kernel] at ht; cases h; cases ht; exact writes_FC3_AutoStep)
    (all_cons (fun c h ts ht => by rw [show fixedTextsOf _ _ = some FC3_AutoStep.texts from by decide +kernel] at ht; cases h; cases ht; exact writes_FC3_AutoStep)
    (all_cons (fun c h ts ht => by rw [show fixedTextsOf _ _ = some FC3_AutoStep.texts from by decide +kernel] at ht; cases h; cases ht; exact writes_FC3_AutoStep)
    (all_cons (fun c h ts ht => by rw [show fixedTextsOf _ _ = some FC3_AutoStep.texts from by decide +kernel] at ht; cases h; cases ht; exact writes_FC3_AutoStep)
    (all_cons (fun c h ts ht => by rw [show fixedTextsOf _ _ = some FC3_AutoStep.texts from by decide +kernel] at ht; cases h; cases ht; exact writes_FC3_AutoStep)
    (all_cons (fun c h ts ht => by rw [show fixedTextsOf _ _ = some FC3_AutoStep.texts from by decide +kernel] at ht; cases h; cases ht; exact writes_FC3_AutoStep)
    (all_cons (fun c h ts ht => by rw [show fixedTextsOf _ _ = some FC3_AutoStep.texts from by decide +kernel] at ht; cases h; cases ht; exact writes_FC3_AutoStep)
    (all_cons (fun c h ts ht => by rw [show fixedTextsOf _ _ = some FC3_AutoStep.texts from by decide +kernel] at ht; cases h; cases ht; exact writes_FC3_AutoStep)
    (all_cons (fun c h ts ht => by rw [show fixedTextsOf _ _ = some FC3_AutoStep.texts from by decide +kernel] at ht; cases h; cases ht; exact writes_FC3_AutoStep)
    (all_cons (fun c h ts ht => by rw [show fixedTextsOf _ _ = some FC3_AutoStep.texts from by decide +kernel] at ht; cases h; cases ht; exact writes_FC3_AutoStep)
    (all_cons (fun c h ts ht => by rw [show fixedTextsOf _ _ = some FC3_AutoStep.texts from by decide +kernel] at ht; cases h; cases ht; exact writes_FC3_AutoStep)
    (all_cons (fun c h ts ht => by rw [show fixedTextsOf _ _ = some FC3_AutoStep.texts from by decide +kernel] at ht; cases h; cases ht; exact writes_FC3_AutoStep)
    (all_cons (fun c h ts ht => by rw [show fixedTextsOf _ _ = some FC3_AutoStep.texts from by decide +kernel] at ht; cases h; cases ht; exact writes_FC3_AutoStep) (List.forall_mem_nil _)))))))))))))))))))))))))))))))))))))))

theorem writes_cdrom : ∀ y ∈ commandMaps, ∀ c, y.2.lookup c!"cdrom" = some c → ∀ ts, fixedTextsOf y.1 c!"cdrom" = some ts → c.WritesAmong ts := by
  unfold commandMaps
  exact (all_cons (fun c h ts ht => by rw [show fixedTextsOf _ _ = some FC3_Cdrom.texts from by decide +kernel] at ht; cases h; cases ht; exact writes_FC3_Cdrom)
    (all_cons (fun c h ts ht => by rw [show fixedTextsOf _ _ = some FC3_Cdrom.texts from by decide +kernel] at ht; cases h; cases ht; exact writes_FC3_Cdrom)
    (all_cons (fun c h ts ht => by rw [show fixedTextsOf _ _ = some FC3_Cdrom.texts from by decide +kernel] at ht; cases h; cases ht; exact writes_FC3_Cdrom)
    (all_cons (fun c h ts ht => by rw [show fixedTextsOf _ _ = some FC3_Cdrom.texts from by decide +kernel] at ht; cases h; cases ht; exact writes_FC3_Cdrom)
    (all_cons (fun c h ts ht => by rw [show fixedTextsOf _ _ = some FC3_Cdrom.texts from by decide +kernel] at ht; cases h; cases ht; exact writes_FC3_Cdrom)
    (all_cons (fun c h ts ht => by rw [show fixedTextsOf _ _ = some FC3_Cdrom.texts from by decide +kernel] at ht; cases h; cases ht; exact writes_FC3_Cdrom)
    (all_cons (fun c h ts ht => by rw [show fixedTextsOf _ _ = some FC3_Cdrom.texts from by decide +kernel] at ht; cases h; cases ht; exact writes_FC3_Cdrom)
    (all_cons (fun c h ts ht => by rw [show fixedTextsOf _ _ = some FC3_Cdrom.texts from by decide +kernel] at ht; cases h; cases ht; exact writes_FC3_Cdrom)
    (all_cons (fun c h ts ht => by rw [show fixedTextsOf _ _ = some FC3_Cdrom.texts from by decide +kernel] at ht; cases h; cases ht; exact writes_FC3_Cdrom)
    (all_cons (fun c h ts ht => by rw [show fixedTextsOf _ _ = some FC3_Cdrom.texts from by decide +kernel] at ht; cases h; cases ht; exact writes_FC3_Cdrom)
    (all_cons (fun c h ts ht => by rw [show fixedTextsOf _ _ = some FC3_Cdrom.texts from by decide +kernel] at ht; cases h; cases ht; exact writes_FC3_Cdrom)
    (all_cons (fun c h ts ht => by rw [show fixedTextsOf _ _ = some FC3_Cdrom.texts from by decide +kernel] at ht; cases h; cases ht; exact writes_FC3_Cdrom)
    (all_cons (fun c h ts ht => by rw [show fixedTextsOf _ _ = some FC3_Cdrom.texts from by decide +kernel] at ht; cases h; cases ht; exact writes_FC3_Cdrom)
    (all_cons (fun c h ts ht => by rw [show fixedTextsOf _ _ = some FC3_Cdrom.texts from by decide +kernel] at ht; cases h; cases ht; exact writes_FC3_Cdrom)
    (all_cons (fun c h ts ht => by rw [show fixedTextsOf _ _ = some FC3_Cdrom.texts from by decide +kernel] at ht; cases h; cases ht; exact writes_FC3_Cdrom)
    (all_cons (fun c h ts ht => by rw [show fixedTextsOf _ _ = some FC3_Cdrom.texts from by decide +kernel] at ht; cases h; cases ht; exact writes_FC3_Cdrom)
    (all_cons (fun c h ts ht => by rw [show fixedTextsOf _ _ = some FC3_Cdrom.texts from by decide +kernel] at ht; cases h; cases ht; exact writes_FC3_Cdrom)
    (all_cons (fun c h ts ht => by rw [show fixedTextsOf _ _ = some FC3_Cdrom.texts from by decide +kernel] at ht; cases h; cases ht; exact writes_FC3_Cdrom)
    (all_cons (fun c h ts ht => by rw [show fixedTextsOf _ _ = some FC3_Cdrom.texts from by decide +kernel] at ht; cases h; cases ht; exact writes_FC3_Cdrom)
    (all_cons (fun c h ts ht => by rw [show fixedTextsOf _ _ = some FC3_Cdrom.texts from by decide +kernel] at ht; cases h; cases ht; exact writes_FC3_Cdrom)
    (all_cons (fun c h ts ht => by rw [show fixedTextsOf _ _ = some FC3_Cdrom.texts from by decide +kernel] at ht; cases h; cases ht; exact writes_FC3_Cdrom)
    (all_cons (fun c h ts ht => by rw [show fixedTextsOf _ _ = some FC3_Cdrom.texts from by decide +kernel] at ht; cases h; cases ht; exact writes_FC3_Cdrom)
    (all_cons (fun c h ts ht => by rw [show fixedTextsOf _ _ = some FC3_Cdrom.texts from by decide +kernel] at ht; cases h; cases ht; exact writes_FC3_Cdrom)
    (all_cons (fun c h ts ht => by rw [show fixedTextsOf _ _ = some FC3_Cdrom.texts from by decide +kernel] at ht; cases h; cases ht; exact writes_FC3_Cdrom)
    (all_cons (fun c h ts ht => by rw [show fixedTextsOf _ _ = some FC3_Cdrom.texts from by decide +kernel] at ht; cases h; cases ht; exact writes_FC3_Cdrom)
    (all_cons (fun c h ts ht => by rw [show fixedTextsOf _ _ = some FC3_Cdrom.texts from by decide +kernel] at ht; cases h; cases ht; exact writes_FC3_Cdrom)
    (all_cons (fun c h ts ht => by rw [show fixedTextsOf _ _ = some FC3_Cdrom.texts from by decide +kernel] at ht; cases h; cases ht; exact writes_FC3_Cdrom)
    (all_cons (fun c h ts ht => by rw [show fixedTextsOf _ _ = some FC3_Cdrom.texts from by decide +kernel] at ht; cases h; cases ht; exact writes_FC3_Cdrom)
    (all_cons (fun c h ts ht => by rw [show fixedTextsOf _ _ = some FC3_Cdrom.texts from by decide +kernel] at ht; cases h; cases ht; exact writes_FC3_Cdrom)
    (all_cons (fun c h ts ht => by rw [show fixedTextsOf _ _ = some FC3_Cdrom.texts from by decide +kernel] at ht; cases h; cases ht; exact writes_FC3_Cdrom)
    (all_cons (fun c h ts ht => by rw [show fixedTextsOf _ _ = some FC3_Cdrom.texts from by decide +kernel] at ht; cases h; cases ht; exact writes_FC3_Cdrom)
    (all_cons (fun c h ts ht => by rw [show fixedTextsOf _ _ = some FC3_Cdrom.texts from by decide +kernel] at ht; cases h; cases ht; exact writes_FC3_Cdrom)
    (all_cons (fun c h ts ht => by rw [show fixedTextsOf _ _ = some FC3_Cdrom.texts from by decide +kernel] at ht; cases h; cases ht; exact writes_FC3_Cdrom)
    (all_cons (fun c h ts ht => by rw [show fixedTextsOf _ _ = some FC3_Cdrom.texts from by decide +kernel] at ht; cases h; cases ht; exact writes_FC3_Cdrom)
    (all_cons (fun c h ts ht => by rw [show fixedTextsOf _ _ = some FC3_Cdrom.texts from by decide +kernel] at ht; cases h; cases ht; exact writes_FC3_Cdrom)
    (all_cons (fun c h ts ht => by rw [show fixedTextsOf _ _ = some FC3_Cdrom.texts from by decide +kernel] at ht; cases h; cases ht; exact writes_FC3_Cdrom)
    (all_cons (fun c h ts ht => by rw [show fixedTextsOf _ _ = some FC3_Cdrom.texts from by decide +kernel] at ht; cases h; cases ht; exact writes_FC3_Cdrom)
    (all_cons (fun c h ts ht => by rw [show fixedTextsOf _ _ = some FC3_Cdrom.texts from by decide +kernel] at ht; cases h; cases ht; exact writes_FC3_Cdrom) (List.forall_mem_nil _)))))))))))))))))))))))))))))))))))))))

theorem writes_cmdline : ∀ y ∈ commandMaps, ∀ c, y.2.lookup c!"cmdline" = some c → ∀ ts, fixedTextsOf y.1 c!"cmdline" = some ts → c.WritesAmong ts := by
  unfold commandMaps
  exact (all_cons (fun c h ts ht => by rw [show fixedTextsOf _ _ = some FC3_DisplayMode.texts from by decide +kernel] at ht; cases h; cases ht; exact writes_FC3_DisplayMode)
    (all_cons (fun c h ts ht => by rw [show fixedTextsOf _ _ = some FC3_DisplayMode.texts from by decide +kernel] at ht; cases h; cases ht; exact writes_FC3_DisplayMode)
    (all_cons (fun c h ts ht => by rw [show fixedTextsOf _ _ = some FC3_DisplayMode.texts from by decide +kernel] at ht; cases h; cases ht; exact writes_FC3_DisplayMode)
    (all_cons (fun c h ts ht => by rw [show fixedTextsOf _ _ = some FC3_DisplayMode.texts from by decide +kernel] at ht; cases h; cases ht; exact writes_FC3_DisplayMode)
    (all_cons (fun c h ts ht => by rw [show fixedTextsOf _ _ = some FC3_DisplayMode.texts from by decide +kernel] at ht; cases h; cases ht; exact writes_FC3_DisplayMode)
    (all_cons (fun c h ts ht => by rw [show fixedTextsOf _ _ = some FC3_DisplayMode.texts from by decide +kernel] at ht; cases h; cases ht; exact writes_FC3_DisplayMode)
    (all_cons (fun c h ts ht => by rw [show fixedTextsOf _ _ = some FC3_DisplayMode.texts from by decide +kernel] at ht; cases h; cases ht; exact writes_FC3_DisplayMode)
    (all_cons (fun c h ts ht => by rw [show fixedTextsOf _ _ = some FC3_DisplayMode.texts from by decide +kernel] at ht; cases h; cases ht; exact writes_FC3_DisplayMode)
    (all_cons (fun c h ts ht => by rw [show fixedTextsOf _ _ = some FC3_DisplayMode.texts from by decide +kernel] at ht; cases h; cases ht; exact writes_FC3_DisplayMode)
    (all_cons (fun c h ts ht => by rw [show fixedTextsOf _ _ = some FC3_DisplayMode.texts from by decide +kernel] at ht; cases h; cases ht; exact writes_FC3_DisplayMode)
    (all_cons (fun c h ts ht => by rw [show fixedTextsOf _ _ = some FC3_DisplayMode.texts from by decide +kernel] at ht; cases h; cases ht; exact writes_FC3_DisplayMode)
    (all_cons (fun c h ts ht => by rw [show fixedTextsOf _ _ = some FC3_DisplayMode.texts from by decide +kernel] at ht; cases h; cases ht; exact writes_FC3_DisplayMode)
    (all_cons (fun c h ts ht => by rw [show fixedTextsOf _ _ = some FC3_DisplayMode.texts from by decide +kernel] at ht; cases h; cases ht; exact writes_FC3_DisplayMode)
    (all_cons (fun c h ts ht => by rw [show fixedTextsOf _ _ = some FC3_DisplayMode.texts from by decide +kernel] at ht; cases h; cases ht; exact writes_FC3_DisplayMode)
    (all_cons (fun c h ts ht => by rw [show fixedTextsOf _ _ = some FC3_DisplayMode.texts from by decide +kernel] at ht; cases h; cases ht; exact writes_FC3_DisplayMode)
    (all_cons (fun c h ts ht => by rw [show fixedTextsOf _ _ = some FC3_DisplayMode.texts from by decide +kernel] at ht; cases h; cases ht; exact writes_FC3_DisplayMode)
    (all_cons (fun c h ts ht => absurd ht (by rw [show fixedTextsOf _ _ = none from by decide +kernel]; simp))
    (all_cons (fun c h ts ht => absurd ht (by rw [show fixedTextsOf _ _ = none from by decide +kernel]; simp))
    (all_cons (fun c h ts ht => absurd ht (by rw [show fixedTextsOf _ _ = none from by decide +kernel]; simp))
    (all_cons (fun c h ts ht => absurd ht (by rw [show fixedTextsOf _ _ = none from by decide +kernel]; simp))
    (all_cons (fun c h ts ht => absurd ht (by rw [show fixedTextsOf _ _ = none from by decide +kernel]; simp))
    (all_cons (fun c h ts ht => absurd ht (by rw [show fixedTextsOf _ _ = none from by decide +kernel]; simp))
    (all_cons (fun c h ts ht => absurd ht (by rw [show fixedTextsOf _ _ = none from by decide +kernel]; simp))
    (all_cons (fun c h ts ht => absurd ht (by rw [show fixedTextsOf _ _ = none from by decide +kernel]; simp))
    (all_cons (fun c h ts ht => absurd ht (by rw [show fixedTextsOf _ _ = none from by decide +kernel]; simp))
    (all_cons (fun c h ts ht => by rw [show fixedTextsOf _ _ = some FC3_DisplayMode.texts from by decide +kernel] at ht; cases h; cases ht; exact writes_FC3_DisplayMode)
    (all_cons (fun c h ts ht => by rw [show fixedTextsOf _ _ = some FC3_DisplayMode.texts from by decide +kernel] at ht; cases h; cases ht; exact writes_FC3_DisplayMode)
    (all_cons (fun c h ts ht => by rw [show fixedTextsOf _ _ = some FC3_DisplayMode.texts from by decide +kernel] at ht; cases h; cases ht; exact writes_FC3_DisplayMode)
    (all_cons (fun c h ts ht => by rw [show fixedTextsOf _ _ = some FC3_DisplayMode.texts from by decide +kernel] at ht; cases h; cases ht; exact writes_FC3_DisplayMode)
    (all_cons (fun c h ts ht => by rw [show fixedTextsOf _ _ = some FC3_DisplayMode.texts from by decide +kernel] at ht; cases h; cases ht; exact writes_FC3_DisplayMode)
    (all_cons (fun c h ts ht => by rw [show fixedTextsOf _ _ = some FC3_DisplayMode.texts from by decide +kernel] at ht; cases h; cases ht; exact writes_FC3_DisplayMode)
    (all_cons (fun c h ts ht => by rw [show fixedTextsOf _ _ = some FC3_DisplayMode.texts from by decide +kernel] at ht; cases h; cases ht; exact writes_FC3_DisplayMode)
    (all_cons (fun c h ts ht => by rw [show fixedTextsOf _ _ = some FC3_DisplayMode.texts from by decide +kernel] at ht; cases h; cases ht; exact writes_FC3_DisplayMode)
    (all_cons (fun c h ts ht => by rw [show fixedTextsOf _ _ = some FC3_DisplayMode.texts from by decide +kernel] at ht; cases h; cases ht; exact writes_FC3_DisplayMode)
    (all_cons (fun c h ts ht => by rw [show fixedTextsOf _ _ = some FC3_DisplayMode.texts from by decide +kernel] at ht; cases h; cases ht; exact writes_FC3_DisplayMode)
    (all_cons (fun c h ts ht => by rw [show fixedTextsOf _ _ = some FC3_DisplayMode.texts from by decide +kernel] at ht; cases h; cases ht; exact writes_FC3_DisplayMode)
    (all_cons (fun c h ts ht => by rw [show fixedTextsOf _ _ = some FC3_DisplayMode.texts from by decide +kernel] at ht; cases h; cases ht; exact writes_FC3_DisplayMode)
    (all_cons (fun c h ts ht => absurd ht (by rw [show fixedTextsOf _ _ = none from by decide +kernel]; simp)) (List.forall_mem_nil _)))))))))))))))))))))))))))))))))))))))

theorem writes_graphical : ∀ y ∈ commandMaps, ∀ c, y.2.lookup c!"graphical" = some c → ∀ ts, fixedTextsOf y.1 c!"graphical" = some ts → c.WritesAmong ts := by
  unfold commandMaps
  exact (all_cons (fun c h ts ht => by rw [show fixedTextsOf _ _ = some FC3_DisplayMode.texts from by decide +kernel] at ht; cases h; cases ht; exact writes_FC3_DisplayMode)
    (all_cons (fun c h ts ht => by rw [show fixedTextsOf _ _ = some FC3_DisplayMode.texts from by decide +kernel] at ht; cases h; cases ht; exact writes_FC3_DisplayMode)
    (all_cons (fun c h ts ht => by rw [show fixedTextsOf _ _ = some FC3_DisplayMode.texts from by decide +kernel] at ht; cases h; cases ht; exact writes_FC3_DisplayMode)
    (all_cons (fun c h ts ht => by rw [show fixedTextsOf _ _ = some FC3_DisplayMode.texts from by decide +kernel] at ht; cases h; cases ht; exact writes_FC3_DisplayMode)
    (all_cons (fun c h ts ht => by rw [show fixedTextsOf _ _ = some FC3_DisplayMode.texts from by decide +kernel] at ht; cases h; cases ht; exact writes_FC3_DisplayMode)
    (all_cons (fun c h ts ht => by rw [show fixedTextsOf _ _ = some FC3_DisplayMode.texts from by decide +kernel] at ht; cases h; cases ht; exact writes_FC3_DisplayMode)
    (all_cons (fun c h ts ht => by rw [show fixedTextsOf _ _ = some FC3_DisplayMode.texts from by decide +kernel] at ht; cases h; cases ht; exact writes_FC3_DisplayMode)
    (all_cons (fun c h ts ht => by rw [show fixedTextsOf _ _ = some FC3_DisplayMode.texts from by decide +kernel] at ht; cases h; cases ht; exact writes_FC3_DisplayMode)
    (all_cons (fun c h ts ht => by rw [show fixedTextsOf _ _ = some FC3_DisplayMode.texts from by decide +kernel] at ht; cases h; cases ht; exact writes_FC3_DisplayMode)
    (all_cons (fun c h ts ht => by rw [show fixedTextsOf _ _ = some FC3_DisplayMode.texts from by decide +kernel] at ht; cases h; cases ht; exact writes_FC3_DisplayMode)
    (all_cons (fun c h ts ht => by rw [show fixedTextsOf _ _ = some FC3_DisplayMode.texts from by decide +kernel] at ht; cases h; cases ht; exact writes_FC3_DisplayMode)
    (all_cons (fun c h ts ht => by rw [show fixedTextsOf _ _ = some FC3_DisplayMode.texts from by decide +kernel] at ht; cases h; cases ht; exact writes_FC3_DisplayMode)
    (all_cons (fun c h ts ht => by rw [show fixedTextsOf _ _ = some FC3_DisplayMode.texts from by decide +kernel] at ht; cases h; cases ht; exact writes_FC3_DisplayMode)
    (all_cons (fun c h ts ht => by rw [show fixedTextsOf _ _ = some FC3_DisplayMode.texts from by decide +kernel] at ht; cases h; cases ht; exact writes_FC3_DisplayMode)
    (all_cons (fun c h ts ht => by rw [show fixedTextsOf _ _ = some FC3_DisplayMode.texts from by decide +kernel] at ht; cases h; cases ht; exact writes_FC3_DisplayMode)
    (all_cons (fun c h ts ht => by rw [show fixedTextsOf _ _ = some FC3_DisplayMode.texts from by decide +kernel] at ht; cases h; cases ht; exact writes_FC3_DisplayMode)
    (all_cons (fun c h ts ht => absurd ht (by rw [show fixedTextsOf _ _ = none from by decide +kernel]; simp))
    (all_cons (fun c h ts ht => absurd ht (by rw [show fixedTextsOf _ _ = none from by decide +kernel]; simp))
    (all_cons (fun c h ts ht => absurd ht (by rw [show fixedTextsOf _ _ = none from by decide +kernel]; simp))
    (all_cons (fun c h ts ht => absurd ht (by rw [show fixedTextsOf _ _ = none from by decide +kernel]; simp))
    (all_cons (fun c h ts ht => absurd ht (by rw [show fixedTextsOf _ _ = none from by decide +kernel]; simp))
    (all_cons (fun c h ts ht => absurd ht (by rw [show fixedTextsOf _ _ = none from by decide +kernel]; simp))
    (all_cons (fun c h ts ht => absurd ht (by rw [show fixedTextsOf _ _ = none from by decide +kernel]; simp))
    (all_cons (fun c h ts ht => absurd ht (by rw [show fixedTextsOf _ _ = none from by decide +kernel]; simp))
    (all_cons (fun c h ts ht => absurd ht (by rw [show fixedTextsOf _ _ = none from by decide +kernel]; simp))
    (all_cons (fun c h ts ht => by rw [show fixedTextsOf _ _ = some FC3_DisplayMode.texts from by decide +kernel] at ht; cases h; cases ht; exact writes_FC3_DisplayMode)
    (all_cons (fun c h ts ht => by rw [show fixedTextsOf _ _ = some FC3_DisplayMode.texts from by decide +kernel] at ht; cases h; cases ht; exact writes_FC3_DisplayMode)
    (all_cons (fun c h ts ht => by rw [show fixedTextsOf _ _ = some FC3_DisplayMode.texts from by decide +kernel] at ht; cases h; cases ht; exact writes_FC3_DisplayMode)
    (all_cons (fun c h ts ht => by rw [show fixedTextsOf _ _ = some FC3_DisplayMode.texts from by decide +kernel] at ht; cases h; cases ht; exact writes_FC3_DisplayMode)
    (all_cons (fun c h ts ht => by rw [show fixedTextsOf _ _ = some FC3_DisplayMode.texts from by decide +kernel] at ht; cases h; cases ht; exact writes_FC3_DisplayMode)
    (all_cons (fun c h ts ht => by rw [show fixedTextsOf _ _ = some FC3_DisplayMode.texts from by decide +kernel] at ht; cases h; cases ht; exact writes_FC3_DisplayMode)
    (all_cons (fun c h ts ht => by rw [show fixedTextsOf _ _ = some FC3_DisplayMode.texts from by decide +kernel] at ht; cases h; cases ht; exact writes_FC3_DisplayMode)
    (all_cons (fun c h ts ht => by rw [show fixedTextsOf _ _ = some FC3_DisplayMode.texts from by decide +kernel] at ht; cases h; cases ht; exact writes_FC3_DisplayMode)
    (all_cons (fun c h ts ht => by rw [show fixedTextsOf _ _ = some FC3_DisplayMode.texts from by decide +kernel] at ht; cases h; cases ht; exact writes_FC3_DisplayMode)
    (all_cons (fun c h ts ht => by rw [show fixedTextsOf _ _ = some FC3_DisplayMode.texts from by decide +kernel] at ht; cases h; cases ht; exact writes_FC3_DisplayMode)
    (all_cons (fun c h ts ht => by rw [show fixedTextsOf _ _ = some FC3_DisplayMode.texts from by decide +kernel] at ht; cases h; cases ht; exact writes_FC3_DisplayMode)
    (all_cons (fun c h ts ht => by rw [show fixedTextsOf _ _ = some FC3_DisplayMode.texts from by decide +kernel] at ht; cases h; cases ht; exact writes_FC3_DisplayMode)
    (all_cons (fun c h ts ht => absurd ht (by rw [show fixedTextsOf _ _ = none from by decide +kernel]; simp)) (List.forall_mem_nil _)))))))))))))))))))))))))))))))))))))))

theorem writes_text : ∀ y ∈ commandMaps, ∀ c, y.2.lookup c!"text" = some c → ∀ ts, fixedTextsOf y.1 c!"text" = some ts → c.WritesAmong ts := by
  unfold commandMaps
  exact (all_cons (fun c h ts ht => by rw [show fixedTextsOf _ _ = some FC3_DisplayMode.texts from by decide +kernel] at ht; cases h; cases ht; exact writes_FC3_DisplayMode)
    (all_cons (fun c h ts ht => by rw [show fixedTextsOf _ _ = some FC3_DisplayMode.texts from by decide +kernel] at ht; cases h; cases ht; exact writes_FC3_DisplayMode)
    (all_cons (fun c h ts ht => by rw [show fixedTextsOf _ _ = some FC3_DisplayMode.texts from by decide +kernel] at ht; cases h; cases ht; exact writes_FC3_DisplayMode)
    (all_cons (fun c h ts ht => by rw [show fixedTextsOf _ _ = some FC3_DisplayMode.texts from by decide +kernel] at ht; cases h; cases ht; exact writes_FC3_DisplayMode)
    (all_cons (fun c h ts ht => by rw [show fixedTextsOf _ _ = some FC3_DisplayMode.texts from by decide +kernel] at ht; cases h; cases ht; exact writes_FC3_DisplayMode)
    (all_cons (fun c h ts ht => by rw [show fixedTextsOf _ _ = some FC3_DisplayMode.texts from by decide +kernel] at ht; cases h; cases ht; exact writes_FC3_DisplayMode)
    (all_cons (fun c h ts ht => by rw [show fixedTextsOf _ _ = some FC3_DisplayMode.texts from by decide +kernel] at ht; cases h; cases ht; exact writes_FC3_DisplayMode)
    (all_cons (fun c h ts ht => by rw [show fixedTextsOf _ _ = some FC3_DisplayMode.texts from by decide +kernel] at ht; cases h; cases ht; exact writes_FC3_DisplayMode)
    (all_cons (fun c h ts ht => by rw [show fixedTextsOf _ _ = some FC3_DisplayMode.texts from by decide +kernel] at ht; cases h; cases ht; exact writes_FC3_DisplayMode)
    (all_cons (fun c h ts ht => by rw [show fixedTextsOf _ _ = some FC3_DisplayMode.texts from by decide +kernel] at ht; cases h; cases ht; exact writes_FC3_DisplayMode)
    (all_cons (fun c h ts ht => by rw [show fixedTextsOf _ _ = some FC3_DisplayMode.texts from by decide +kernel] at ht; cases h; cases ht; exact writes_FC3_DisplayMode)
    (all_cons (fun c h ts ht => by rw [show fixedTextsOf _ _ = some FC3_DisplayMode.texts from by decide +kernel] at ht; cases h; cases ht; exact writes_FC3_DisplayMode)
    (all_cons (fun c h ts ht => by rw [show fixedTextsOf _ _ = some FC3_DisplayMode.texts from by decide +kernel] at ht; cases h; cases ht; exact writes_FC3_DisplayMode)
    (all_cons (fun c h ts ht => by rw [show fixedTextsOf _ _ = some FC3_DisplayMode.texts from by decide +kernel] at ht; cases h; cases ht; exact writes_FC3_DisplayMode)
    (all_cons (fun c h ts ht => by rw [show fixedTextsOf _ _ = some FC3_DisplayMode.texts from by decide +kernel] at ht; cases h; cases ht; exact writes_FC3_DisplayMode)
    (all_cons (fun c h ts ht => by rw [show fixedTextsOf _ _ = some FC3_DisplayMode.texts from by decide +kernel] at ht; cases h; cases ht; exact writes_FC3_DisplayMode)
    (all_cons (fun c h ts ht => absurd ht (by rw [show fixedTextsOf _ _ = none from by decide +kernel]; simp))
    (all_cons (fun c h ts ht => absurd ht (by rw [show fixedTextsOf _ _ = none from by decide +kernel]; simp))
    (all_cons (fun c h ts ht => absurd ht (by rw [show fixedTextsOf _ _ = none from by decide +kernel]; simp))
    (all_cons (fun c h ts ht => absurd ht (by rw [show fixedTextsOf _ _ = none from by decide +kernel]; simp))
    (all_cons (fun c h ts ht => absurd ht (by rw [show fixedTextsOf _ _ = none from by decide +kernel]; simp))
    (all_cons (fun c h ts ht => absurd ht (by rw [show fixedTextsOf _ _ = none from by decide +kernel]; simp))
    (all_cons (fun c h ts ht => absurd ht (by rw [show fixedTextsOf _ _ = none from by decide +kernel]; simp))
    (all_cons (fun c h ts ht => absurd ht (by rw [show fixedTextsOf _ _ = none from by decide +kernel]; simp))
    (all_cons (fun c h ts ht => absurd ht (by rw [show fixedTextsOf _ _ = none from by decide +kernel]; simp))
    (all_cons (fun c h ts ht => by rw [show fixedTextsOf _ _ = some FC3_DisplayMode.texts from by decide +kernel] at ht; cases h; cases ht; exact writes_FC3_DisplayMode)
    (all_cons (fun c h ts ht => by rw [show fixedTextsOf _ _ = some FC3_DisplayMode.texts from by decide +kernel] at ht; cases h; cases ht; exact writes_FC3_DisplayMode)
    (all_cons (fun c h ts ht => by rw [show fixedTextsOf _ _ = some FC3_DisplayMode.texts from by decide +kernel] at ht; cases h; cases ht; exact writes_FC3_DisplayMode)
    (all_cons (fun c h ts ht => by rw [show fixedTextsOf _ _ = some FC3_DisplayMode.texts from by decide +kernel] at ht; cases h; cases ht; exact writes_FC3_DisplayMode)
    (all_cons (fun c h ts ht => by rw [show fixedTextsOf _ _ = some FC3_DisplayMode.texts from by decide +kernel] at ht; cases h; cases ht; exact writes_FC3_DisplayMode)
    (all_cons (fun c h ts ht => by rw [show fixedTextsOf _ _ = some FC3_DisplayMode.texts from by decide +kernel] at ht; cases h; cases ht; exact writes_FC3_DisplayMode)
    (all_cons (fun c h ts ht => by rw [show fixedTextsOf _ _ = some FC3_DisplayMode.texts from by decide +kernel] at ht; cases h; cases ht; exact writes_FC3_DisplayMode)
    (all_cons (fun c h ts ht => by rw [show fixedTextsOf _ _ = some FC3_DisplayMode.texts from by decide +kernel] at ht; cases h; cases ht; exact writes_FC3_DisplayMode)
    (all_cons (fun c h ts ht => by rw [show fixedTextsOf _ _ = some FC3_DisplayMode.texts from by decide +kernel] at ht; cases h; cases ht; exact writes_FC3_DisplayMode)
    (all_cons (fun c h ts ht => by rw [show fixedTextsOf _ _ = some FC3_DisplayMode.texts from by decide +kernel] at ht; cases h; cases ht; exact writes_FC3_DisplayMode)
    (all_cons (fun c h ts ht => by rw [show fixedTextsOf _ _ = some FC3_DisplayMode.texts from by decide +kernel] at ht; cases h; cases ht; exact writes_FC3_DisplayMode)
    (all_cons (fun c h ts ht => by rw [show fixedTextsOf _ _ = some FC3_DisplayMode.texts from by decide +kernel] at ht; cases h; cases ht; exact writes_FC3_DisplayMode)
    (all_cons (fun c h ts ht => absurd ht (by rw [show fixedTextsOf _ _ = none from by decide +kernel]; simp)) (List.forall_mem_nil _)))))))))))))))))))))))))))))))))))))))

theorem writes_eula : ∀ y ∈ commandMaps, ∀ c, y.2.lookup c!"eula" = some c → ∀ ts, fixedTextsOf y.1 c!"eula" = some ts → c.WritesAmong ts := by
  unfold commandMaps
  exact (all_cons (fun c h ts ht => by cases h)
    (all_cons (fun c h ts ht => by cases h)
    (all_cons (fun c h ts ht => by cases h)
    (all_cons (fun c h ts ht => by cases h)
    (all_cons (fun c h ts ht => by cases h)
    (all_cons (fun c h ts ht => by cases h)
    (all_cons (fun c h ts ht => by cases h)
    (all_cons (fun c h ts ht => by cases h)
    (all_cons (fun c h ts ht => by cases h)
    (all_cons (fun c h ts ht => by cases h)
    (all_cons (fun c h ts ht => by rw [show fixedTextsOf _ _ = some F20_Eula.texts from by decide +kernel] at ht; cases h; cases ht; exact writes_F20_Eula)
    (all_cons (fun c h ts ht => by rw [show fixedTextsOf _ _ = some F20_Eula.texts from by decide +kernel] at ht; cases h; cases ht; exact writes_F20_Eula)
    (all_cons (fun c h ts ht => by rw [show fixedTextsOf _ _ = some F20_Eula.texts from by decide +kernel] at ht; cases h; cases ht; exact writes_F20_Eula)
    (all_cons (fun c h ts ht => by rw [show fixedTextsOf _ _ = some F20_Eula.texts from by decide +kernel] at ht; cases h; cases ht; exact writes_F20_Eula)
    (all_cons (fun c h ts ht => by rw [show fixedTextsOf _ _ = some F20_Eula.texts from by decide +kernel] at ht; cases h; cases ht; exact writes_F20_Eula)
    (all_cons (fun c h ts ht => by rw [show fixedTextsOf _ _ = some F20_Eula.texts from by decide +kernel] at ht; cases h; cases ht; exact writes_F20_Eula)
    (all_cons (fun c h ts ht => by rw [show fixedTextsOf _ _ = some F20_Eula.texts from by decide +kernel] at ht; cases h; cases ht; exact writes_F20_Eula)
    (all_cons (fun c h ts ht => by rw [show fixedTextsOf _ _ = some F20_Eula.texts from by decide +kernel] at ht; cases h; cases ht; exact writes_F20_Eula)
    (all_cons (fun c h ts ht => by rw [show fixedTextsOf _ _ = some F20_Eula.texts from by decide +kernel] at ht; cases h; cases ht; exact writes_F20_Eula)
    (all_cons (fun c h ts ht => by rw [show fixedTextsOf _ _ = some F20_Eula.texts from by decide +kernel] at ht; cases h; cases ht; exact writes_F20_Eula)
    (all_cons (fun c h ts ht => by rw [show fixedTextsOf _ _ = some F20_Eula.texts from by decide +kernel] at ht; cases h; cases ht; exact writes_F20_Eula)
    (all_cons (fun c h ts ht => by rw [show fixedTextsOf _ _ = some F20_Eula.texts from by decide +kernel] at ht; cases h; cases ht; exact writes_F20_Eula)
    (all_cons (fun c h ts ht => by rw [show fixedTextsOf _ _ = some F20_Eula.texts from by decide +kernel] at ht; cases h; cases ht; exact writes_F20_Eula)
    (all_cons (fun c h ts ht => by rw [show fixedTextsOf _ _ = some F20_Eula.texts from by decide +kernel] at ht; cases h; cases ht; exact writes_F20_Eula)
    (all_cons (fun c h ts ht => by rw [show fixedTextsOf _ _ = some F20_Eula.texts from by decide +kernel] at ht; cases h; cases ht; exact writes_F20_Eula)
    (all_cons (fun c h ts ht => by cases h)
    (all_cons (fun c h ts ht => by cases h)
    (all_cons (fun c h ts ht => by cases h)
    (all_cons (fun c h ts ht => by cases h)
    (all_cons (fun c h ts ht => by cases h)
    (all_cons (fun c h ts ht => by cases h)
    (all_cons (fun c h ts ht => by cases h)
    (all_cons (fun c h ts ht => by cases h)
    (all_cons (fun c h ts ht => by cases h)
    (all_cons (fun c h ts ht => by cases h)
    (all_cons (fun c h ts ht => by cases h)
    (all_cons (fun c h ts ht => by rw [show fixedTextsOf _ _ = some F20_Eula.texts from by decide +kernel] at ht; cases h; cases ht; exact writes_F20_Eula)
    (all_cons (fun c h ts ht => by rw [show fixedTextsOf _ _ = some F20_Eula.texts from by decide +kernel] at ht; cases h; cases ht; exact writes_F20_Eula) (List.forall_mem_nil _)))))))))))))))))))))))))))))))))))))))

theorem writes_firstboot : ∀ y ∈ commandMaps, ∀ c, y.2.lookup c!"firstboot" = some c → ∀ ts, fixedTextsOf y.1 c!"firstboot" = some ts → c.WritesAmong ts := by
  unfold commandMaps
  exact (all_cons (fun c h ts ht => by rw [show fixedTextsOf _ _ = some FC3_Firstboot.texts from by decide +kernel] at ht; cases h; cases ht; exact writes_FC3_Firstboot)
    (all_cons (fun c h ts ht => by rw [show fixedTextsOf _ _ = some FC3_Firstboot.texts from by decide +kernel] at ht; cases h; cases ht; exact writes_FC3_Firstboot)
    (all_cons (fun c h ts ht => by rw [show fixedTextsOf _ _ = some FC3_Firstboot.texts from by decide +kernel] at ht; cases h; cases ht; exact writes_FC3_Firstboot)
    (all_cons (fun c h ts ht => by rw [show fixedTextsOf _ _ = some FC3_Firstboot.texts from by decide +kernel] at ht; cases h; cases ht; exact writes_FC3_Firstboot)
    (all_cons (fun c h ts ht => by rw [show fixedTextsOf _ _ = some FC3_Firstboot.texts from by decide +kernel] at ht; cases h; cases ht; exact writes_FC3_Firstboot)
    (all_cons (fun c h ts ht => by rw [show fixedTextsOf _ _ = some FC3_Firstboot.texts from by decide +kernel] at ht; cases h; cases ht; exact writes_FC3_Firstboot)
    (all_cons (fun c h ts ht => by rw [show fixedTextsOf _ _ = some FC3_Firstboot.texts from by decide +kernel] at ht; cases h; cases ht; exact writes_FC3_Firstboot)
    (all_cons (fun c h ts ht => by rw [show fixedTextsOf _ _ = some FC3_Firstboot.texts from by decide +kernel] at ht; cases h; cases ht; exact writes_FC3_Firstboot)
    (all_cons (fun c h ts ht => by rw [show fixedTextsOf _ _ = some FC3_Firstboot.texts from by decide +kernel] at ht; cases h; cases ht; exact writes_FC3_Firstboot)
    (all_cons (fun c h ts ht => by rw [show fixedTextsOf _ _ = some FC3_Firstboot.texts from by decide +kernel] at ht; cases h; cases ht; exact writes_FC3_Firstboot)
    (all_cons (fun c h ts ht => by rw [show fixedTextsOf _ _ = some FC3_Firstboot.texts from by decide +kernel] at ht; cases h; cases ht; exact writes_FC3_Firstboot)
    (all_cons (fun c h ts ht => by rw [show fixedTextsOf _ _ = some FC3_Firstboot.texts from by decide +kernel] at ht; cases h; cases ht; exact writes_FC3_Firstboot)
    (all_cons (fun c h ts ht => by rw [show fixedTextsOf _ _ = some FC3_Firstboot.texts from by decide +kernel] at ht; cases h; cases ht; exact writes_FC3_Firstboot)
    (all_cons (fun c h ts ht => by rw [show fixedTextsOf _ _ = some FC3_Firstboot.texts from by decide +kernel] at ht; cases h; cases ht; exact writes_FC3_Firstboot)
    (all_cons (fun c h ts ht => by rw [show fixedTextsOf _ _ = some FC3_Firstboot.texts from by decide +kernel] at ht; cases h; cases ht; exact writes_FC3_Firstboot)
    (all_cons (fun c h ts ht => by rw [show fixedTextsOf _ _ = some FC3_Firstboot.texts from by decide +kernel] at ht; cases h; cases ht; exact writes_FC3_Firstboot)
    (all_cons (fun c h ts ht => by rw [show fixedTextsOf _ _ = some FC3_Firstboot.texts from by decide +kernel] at ht; cases h; cases ht; exact writes_FC3_Firstboot)
    (all_cons (fun c h ts ht => by rw [show fixedTextsOf _ _ = some FC3_Firstboot.texts from by decide +kernel] at ht; cases h; cases ht; exact writes_FC3_Firstboot)
    (all_cons (fun c h ts ht => by rw [show fixedTextsOf _ _ = some FC3_Firstboot.texts from by decide +kernel] at ht; cases h; cases ht; exact writes_FC3_Firstboot)
    (all_cons (fun c h ts ht => by rw [show fixedTextsOf _ _ = some FC3_Firstboot.texts from by decide +kernel] at ht; cases h; cases ht; exact writes_FC3_Firstboot)
    (all_cons (fun c h ts ht => by rw [show fixedTextsOf _ _ = some FC3_Firstboot.texts from by decide +kernel] at ht; cases h; cases ht; exact writes_FC3_Firstboot)
    (all_cons (fun c h ts ht => by rw [show fixedTextsOf _ _ = some FC3_Firstboot.texts from by decide +kernel] at ht; cases h; cases ht; exact writes_FC3_Firstboot)
    (all_cons (fun c h ts ht => by rw [show fixedTextsOf _ _ = some FC3_Firstboot.texts from by decide +kernel] at ht; cases h; cases ht; exact writes_FC3_Firstboot)
    (all_cons (fun c h ts ht => by rw [show fixedTextsOf _ _ = some FC3_Firstboot.texts from by decide +kernel] at ht; cases h; cases ht; exact writes_FC3_Firstboot)
    (all_cons (fun c h ts ht => by rw [show fixedTextsOf _ _ = some FC3_Firstboot.texts from by decide +kernel] at ht; cases h; cases ht; exact writes_FC3_Firstboot)
    (all_cons (fun c h ts ht => by rw [show fixedTextsOf _ _ = some FC3_Firstboot.texts from by decide +kernel] at ht; cases h; cases ht; exact writes_FC3_Firstboot)
    (all_cons (fun c h ts ht => by rw [show fixedTextsOf _ _ = some FC3_Firstboot.texts from by decide +kernel] at ht; cases h; cases ht; exact writes_FC3_Firstboot)
    (all_cons (fun c h ts ht => by rw [show fixedTextsOf _ _ = some FC3_Firstboot.texts from by decide +kernel] at ht; cases h; cases ht; exact writes_FC3_Firstboot)
    (all_cons (fun c h ts ht => by rw [show fixedTextsOf _ _ = some FC3_Firstboot.texts from by decide +kernel] at ht; cases h; cases ht; exact writes_FC3_Firstboot)
    (all_cons (fun c h ts ht => by rw [show fixedTextsOf _ _ = some FC3_Firstboot.texts from by decide +kernel] at ht; cases h; cases ht; exact writes_FC3_Firstboot)
    (all_cons (fun c h ts ht => by rw [show fixedTextsOf _ _ = some FC3_Firstboot.texts from by decide +kernel] at ht; cases h; cases ht; exact writes_FC3_Firstboot)
    (all_cons (fun c h ts ht => by rw [show fixedTextsOf _ _ = some FC3_Firstboot.texts from by decide +kernel] at ht; cases h; cases ht; exact writes_FC3_Firstboot)
    (all_cons (fun c h ts ht => by rw [show fixedTextsOf _ _ = some FC3_Firstboot.texts from by decide +kernel] at ht; cases h; cases ht; exact writes_FC3_Firstboot)
    (all_cons (fun c h ts ht => by rw [show fixedTextsOf _ _ = some FC3_Firstboot.texts from by decide +kernel] at ht; cases h; cases ht; exact writes_FC3_Firstboot)
    (all_cons (fun c h ts ht => by rw [show fixedTextsOf _ _ = some FC3_Firstboot.texts from by decide +kernel] at ht; cases h; cases ht; exact writes_FC3_Firstboot)
    (all_cons (fun c h ts ht => by rw [show fixedTextsOf _ _ = some FC3_Firstboot.texts from by decide +kernel] at ht; cases h; cases ht; exact writes_FC3_Firstboot)
    (all_cons (fun c h ts ht => by rw [show fixedTextsOf _ _ = some FC3_Firstboot.texts from by decide +kernel] at ht; cases h; cases ht; exact writes_FC3_Firstboot)
    (all_cons (fun c h ts ht => by rw [show fixedTextsOf _ _ = some FC3_Firstboot.texts from by decide +kernel] at ht; cases h; cases ht; exact writes_FC3_Firstboot) (List.forall_mem_nil _)))))))))))))))))))))))))))))))))))))))

theorem writes_hmc : ∀ y ∈ commandMaps, ∀ c, y.2.lookup c!"hmc" = some c → ∀ ts, fixedTextsOf y.1 c!"hmc" = some ts → c.WritesAmong ts := by
  unfold commandMaps
  exact (all_cons (fun c h ts ht => by cases h)
    (all_cons (fun c h ts ht => by cases h)
    (all_cons (fun c h ts ht => by cases h)
    (all_cons (fun c h ts ht => by cases h)
    (all_cons (fun c h ts ht => by cases h)
    (all_cons (fun c h ts ht => by cases h)
    (all_cons (fun c h ts ht => by cases h)
    (all_cons (fun c h ts ht => by cases h)
    (all_cons (fun c h ts ht => by cases h)
    (all_cons (fun c h ts ht => by cases h)
    (all_cons (fun c h ts ht => by cases h)
    (all_cons (fun c h ts ht => by cases h)
    (all_cons (fun c h ts ht => by cases h)
    (all_cons (fun c h ts ht => by cases h)
    (all_cons (fun c h ts ht => by cases h)
    (all_cons (fun c h ts ht => by cases h)
    (all_cons (fun c h ts ht => by cases h)
    (all_cons (fun c h ts ht => by cases h)
    (all_cons (fun c h ts ht => by rw [show fixedTextsOf _ _ = some RHEL7_Hmc.texts from by decide +kernel] at ht; cases h; cases ht; exact writes_F28_Hmc)
    (all_cons (fun c h ts ht => by rw [show fixedTextsOf _ _ = some RHEL7_Hmc.texts from by decide +kernel] at ht; cases h; cases ht; exact writes_F28_Hmc)
    (all_cons (fun c h ts ht => by rw [show fixedTextsOf _ _ = some RHEL7_Hmc.texts from by decide +kernel] at ht; cases h; cases ht; exact writes_F28_Hmc)
    (all_cons (fun c h ts ht => by rw [show fixedTextsOf _ _ = some RHEL7_Hmc.texts from by decide +kernel] at ht; cases h; cases ht; exact writes_F28_Hmc)
    (all_cons (fun c h ts ht => by rw [show fixedTextsOf _ _ = some RHEL7_Hmc.texts from by decide +kernel] at ht; cases h; cases ht; exact writes_F28_Hmc)
    (all_cons (fun c h ts ht => by rw [show fixedTextsOf _ _ = some RHEL7_Hmc.texts from by decide +kernel] at ht; cases h; cases ht; exact writes_F28_Hmc)
    (all_cons (fun c h ts ht => by rw [show fixedTextsOf _ _ = some RHEL7_Hmc.texts from by decide +kernel] at ht; cases h; cases ht; exact writes_F28_Hmc)
    (all_cons (fun c h ts ht => by cases h)
    (all_cons (fun c h ts ht => by cases h)
    (all_cons (fun c h ts ht => by cases h)
    (all_cons (fun c h ts ht => by cases h)
    (all_cons (fun c h ts ht => by cases h)
    (all_cons (fun c h ts ht => by cases h)
    (all_cons (fun c h ts ht => by cases h)
    (all_cons (fun c h ts ht => by cases h)
    (all_cons (fun c h ts ht => by cases h)
    (all_cons (fun c h ts ht => by cases h)
    (all_cons (fun c h ts ht => by cases h)
    (all_cons (fun c h ts ht => by rw [show fixedTextsOf _ _ = some RHEL7_Hmc.texts from by decide +kernel] at ht; cases h; cases ht; exact writes_RHEL7_Hmc)
    (all_cons (fun c h ts ht => by rw [show fixedTextsOf _ _ = some RHEL7_Hmc.texts from by decide +kernel] at ht; cases h; cases ht; exact writes_F28_Hmc) (List.forall_mem_nil _)))))))))))))))))))))))))))))))))))))))

theorem writes_interactive : ∀ y ∈ commandMaps, ∀ c, y.2.lookup c!"interactive" = some c → ∀ ts, fixedTextsOf y.1 c!"interactive" = some ts → c.WritesAmong ts := by
  unfold commandMaps
  exact (all_cons (fun c h ts ht => by rw [show fixedTextsOf _ _ = some FC3_Interactive.texts from by decide +kernel] at ht; cases h; cases ht; exact writes_FC3_Interactive)
    (all_cons (fun c h ts ht => by rw [show fixedTextsOf _ _ = some FC3_Interactive.texts from by decide +kernel] at ht; cases h; cases ht; exact writes_FC3_Interactive)
    (all_cons (fun c h ts ht => by rw [show fixedTextsOf _ _ = some FC3_Interactive.texts from by decide +kernel] at ht; cases h; cases ht; exact writes_FC3_Interactive)
    (all_cons (fun c h ts ht => by rw [show fixedTextsOf _ _ = some FC3_Interactive.texts from by decide +kernel] at ht; cases h; cases ht; exact writes_FC3_Interactive)
    (all_cons (fun c h ts ht => absurd ht (by rw [show fixedTextsOf _ _ = none from by decide +kernel]; simp))
    (all_cons (fun c h ts ht => absurd ht (by rw [show fixedTextsOf _ _ = none from by decide +kernel]; simp))
    (all_cons (fun c h ts ht => by cases h)
    (all_cons (fun c h ts ht => by cases h)
    (all_cons (fun c h ts ht => by cases h)
    (all_cons (fun c h ts ht => by cases h)
    (all_cons (fun c h ts ht => by cases h)
    (all_cons (fun c h ts ht => by cases h)
    (all_cons (fun c h ts ht => by cases h)
    (all_cons (fun c h ts ht => by cases h)
    (all_cons (fun c h ts ht => by cases h)
    (all_cons (fun c h ts ht => by cases h)
    (all_cons (fun c h ts ht => by cases h)
    (all_cons (fun c h ts ht => by cases h)
    (all_cons (fun c h ts ht => by cases h)
    (all_cons (fun c h ts ht => by cases h)
    (all_cons (fun c h ts ht => by cases h)
    (all_cons (fun c h ts ht => by cases h)
    (all_cons (fun c h ts ht => by cases h)
    (all_cons (fun c h ts ht => by cases h)
    (all_cons (fun c h ts ht => by cases h)
    (all_cons (fun c h ts ht => by rw [show fixedTextsOf _ _ = some FC3_Interactive.texts from by decide +kernel] at ht; cases h; cases ht; exact writes_FC3_Interactive)
    (all_cons (fun c h ts ht => by rw [show fixedTextsOf _ _ = some FC3_Interactive.texts from by decide +kernel] at ht; cases h; cases ht; exact writes_FC3_Interactive)
    (all_cons (fun c h ts ht => by rw [show fixedTextsOf _ _ = some FC3_Interactive.texts from by decide +kernel] at ht; cases h; cases ht; exact writes_FC3_Interactive)
    (all_cons (fun c h ts ht => by rw [show fixedTextsOf _ _ = some FC3_Interactive.texts from by decide +kernel] at ht; cases h; cases ht; exact writes_FC3_Interactive)
    (all_cons (fun c h ts ht => by rw [show fixedTextsOf _ _ = some FC3_Interactive.texts from by decide +kernel] at ht; cases h; cases ht; exact writes_FC3_Interactive)
    (all_cons (fun c h ts ht => by rw [show fixedTextsOf _ _ = some FC3_Interactive.texts from by decide +kernel] at ht; cases h; cases ht; exact writes_FC3_Interactive)
    (all_cons (fun c h ts ht => by rw [show fixedTextsOf _ _ = some FC3_Interactive.texts from by decide +kernel] at ht; cases h; cases ht; exact writes_FC3_Interactive)
    (all_cons (fun c h ts ht => by rw [show fixedTextsOf _ _ = some FC3_Interactive.texts from by decide +kernel] at ht; cases h; cases ht; exact writes_FC3_Interactive)
    (all_cons (fun c h ts ht => by rw [show fixedTextsOf _ _ = some FC3_Interactive.texts from by decide +kernel] at ht; cases h; cases ht; exact writes_FC3_Interactive)
    (all_cons (fun c h ts ht => by rw [show fixedTextsOf _ _ = some FC3_Interactive.texts from by decide +kernel] at ht; cases h; cases ht; exact writes_FC3_Interactive)
    (all_cons (fun c h ts ht => by rw [show fixedTextsOf _ _ = some FC3_Interactive.texts from by decide +kernel] at ht; cases h; cases ht; exact writes_FC3_Interactive)
    (all_cons (fun c h ts ht => by cases h)
    (all_cons (fun c h ts ht => by cases h) (List.forall_mem_nil _)))))))))))))))))))))))))))))))))))))))

theorem writes_lilocheck : ∀ y ∈ commandMaps, ∀ c, y.2.lookup c!"lilocheck" = some c → ∀ ts, fixedTextsOf y.1 c!"lilocheck" = some ts → c.WritesAmong ts := by
  unfold commandMaps
  exact (all_cons (fun c h ts ht => by cases h)
    (all_cons (fun c h ts ht => by cases h)
    (all_cons (fun c h ts ht => by cases h)
    (all_cons (fun c h ts ht => by cases h)
    (all_cons (fun c h ts ht => by cases h)
    (all_cons (fun c h ts ht => by cases h)
    (all_cons (fun c h ts ht => by cases h)
    (all_cons (fun c h ts ht => by cases h)
    (all_cons (fun c h ts ht => by cases h)
    (all_cons (fun c h ts ht => by cases h)
    (all_cons (fun c h ts ht => by cases h)
    (all_cons (fun c h ts ht => by cases h)
    (all_cons (fun c h ts ht => by cases h)
    (all_cons (fun c h ts ht => by cases h)
    (all_cons (fun c h ts ht => by cases h)
    (all_cons (fun c h ts ht => by cases h)
    (all_cons (fun c h ts ht => by cases h)
    (all_cons (fun c h ts ht => by cases h)
    (all_cons (fun c h ts ht => by cases h)
    (all_cons (fun c h ts ht => by cases h)
    (all_cons (fun c h ts ht => by cases h)
    (all_cons (fun c h ts ht => by cases h)
    (all_cons (fun c h ts ht => by cases h)
    (all_cons (fun c h ts ht => by cases h)
    (all_cons (fun c h ts ht => by cases h)
    (all_cons (fun c h ts ht => by cases h)
    (all_cons (fun c h ts ht => by cases h)
    (all_cons (fun c h ts ht => by cases h)
    (all_cons (fun c h ts ht => by rw [show fixedTextsOf _ _ = some FC3_LiloCheck.texts from by decide +kernel] at ht; cases h; cases ht; exact writes_FC3_LiloCheck)
    (all_cons (fun c h ts ht => absurd ht (by rw [show fixedTextsOf _ _ = none from by decide +kernel]; simp))
    (all_cons (fun c h ts ht => by cases h)
    (all_cons (fun c h ts ht => by cases h)
    (all_cons (fun c h ts ht => by rw [show fixedTextsOf _ _ = some FC3_LiloCheck.texts from by decide +kernel] at ht; cases h; cases ht; exact writes_FC3_LiloCheck)
    (all_cons (fun c h ts ht => by rw [show fixedTextsOf _ _ = some FC3_LiloCheck.texts from by decide +kernel] at ht; cases h; cases ht; exact writes_FC3_LiloCheck)
    (all_cons (fun c h ts ht => by cases h)
    (all_cons (fun c h ts ht => by cases h)
    (all_cons (fun c h ts ht => by cases h)
    (all_cons (fun c h ts ht => by cases h) (List.forall_mem_nil _)))))))))))))))))))))))))))))))))))))))

theorem writes_mediacheck : ∀ y ∈ commandMaps, ∀ c, y.2.lookup c!"mediacheck" = some c → ∀ ts, fixedTextsOf y.1 c!"mediacheck" = some ts → c.WritesAmong ts := by
  unfold commandMaps
  exact (all_cons (fun c h ts ht => by rw [show fixedTextsOf _ _ = some FC4_MediaCheck.texts from by decide +kernel] at ht; cases h; cases ht; exact writes_FC4_MediaCheck)
    (all_cons (fun c h ts ht => by rw [show fixedTextsOf _ _ = some FC4_MediaCheck.texts from by decide +kernel] at ht; cases h; cases ht; exact writes_FC4_MediaCheck)
    (all_cons (fun c h ts ht => by rw [show fixedTextsOf _ _ = some FC4_MediaCheck.texts from by decide +kernel] at ht; cases h; cases ht; exact writes_FC4_MediaCheck)
    (all_cons (fun c h ts ht => by rw [show fixedTextsOf _ _ = some FC4_MediaCheck.texts from by decide +kernel] at ht; cases h; cases ht; exact writes_FC4_MediaCheck)
    (all_cons (fun c h ts ht => by rw [show fixedTextsOf _ _ = some FC4_MediaCheck.texts from by decide +kernel] at ht; cases h; cases ht; exact writes_FC4_MediaCheck)
    (all_cons (fun c h ts ht => by rw [show fixedTextsOf _ _ = some FC4_MediaCheck.texts from by decide +kernel] at ht; cases h; cases ht; exact writes_FC4_MediaCheck)
    (all_cons (fun c h ts ht => by rw [show fixedTextsOf _ _ = some FC4_MediaCheck.texts from by decide +kernel] at ht; cases h; cases ht; exact writes_FC4_MediaCheck)
    (all_cons (fun c h ts ht => by rw [show fixedTextsOf _ _ = some FC4_MediaCheck.texts from by decide +kernel] at ht; cases h; cases ht; exact writes_FC4_MediaCheck)
    (all_cons (fun c h ts ht => by rw [show fixedTextsOf _ _ = some FC4_MediaCheck.texts from by decide +kernel] at ht; cases h; cases ht; exact writes_FC4_MediaCheck)
    (all_cons (fun c h ts ht => by rw [show fixedTextsOf _ _ = some FC4_MediaCheck.texts from by decide +kernel] at ht; cases h; cases ht; exact writes_FC4_MediaCheck)
    (all_cons (fun c h ts ht => by rw [show fixedTextsOf _ _ = some FC4_MediaCheck.texts from by decide +kernel] at ht; cases h; cases ht; exact writes_FC4_MediaCheck)
    (all_cons (fun c h ts ht => by rw [show fixedTextsOf _ _ = some FC4_MediaCheck.texts from by decide +kernel] at ht; cases h; cases ht; exact writes_FC4_MediaCheck)
    (all_cons (fun c h ts ht => by rw [show fixedTextsOf _ _ = some FC4_MediaCheck.texts from by decide +kernel] at ht; cases h; cases ht; exact writes_FC4_MediaCheck)
    (all_cons (fun c h ts ht => by rw [show fixedTextsOf _ _ = some FC4_MediaCheck.texts from by decide +kernel] at ht; cases h; cases ht; exact writes_FC4_MediaCheck)
    (all_cons (fun c h ts ht => by rw [show fixedTextsOf _ _ = some FC4_MediaCheck.texts from by decide +kernel] at ht; cases h; cases ht; exact writes_FC4_MediaCheck)
    (all_cons (fun c h ts ht => by rw [show fixedTextsOf _ _ = some FC4_MediaCheck.texts from by decide +kernel] at ht; cases h; cases ht; exact writes_FC4_MediaCheck)
    (all_cons (fun c h ts ht => by rw [show fixedTextsOf _ _ = some FC4_MediaCheck.texts from by decide +kernel] at ht; cases h; cases ht; exact writes_FC4_MediaCheck)
    (all_cons (fun c h ts ht => by rw [show fixedTextsOf _ _ = some FC4_MediaCheck.texts from by decide +kernel] at ht; cases h; cases ht; exact writes_FC4_MediaCheck)
    (all_cons (fun c h ts ht => by rw [show fixedTextsOf _ _ = some FC4_MediaCheck.texts from by decide +kernel] at ht; cases h; cases ht; exact writes_FC4_MediaCheck)
    (all_cons (fun c h ts ht => by rw [show fixedTextsOf _ _ = some FC4_MediaCheck.texts from by decide +kernel] at ht; cases h; cases ht; exact writes_FC4_MediaCheck)
    (all_cons (fun c h ts ht => by rw [show fixedTextsOf _ _ = some FC4_MediaCheck.texts from by decide +kernel] at ht; cases h; cases ht; exact writes_FC4_MediaCheck)
    (all_cons (fun c h ts ht => by rw [show fixedTextsOf _ _ = some FC4_MediaCheck.texts from by decide +kernel] at ht; cases h; cases ht; exact writes_FC4_MediaCheck)
    (all_cons (fun c h ts ht => by rw [show fixedTextsOf _ _ = some FC4_MediaCheck.texts from by decide +kernel] at ht; cases h; cases ht; exact writes_FC4_MediaCheck)
    (all_cons (fun c h ts ht => by rw [show fixedTextsOf _ _ = some FC4_MediaCheck.texts from by decide +kernel] at ht; cases h; cases ht; exact writes_FC4_MediaCheck)
    (all_cons (fun c h ts ht => by rw [show fixedTextsOf _ _ = some FC4_MediaCheck.texts from by decide +kernel] at ht; cases h; cases ht; exact writes_FC4_MediaCheck)
    (all_cons (fun c h ts ht => by rw [show fixedTextsOf _ _ = some FC4_MediaCheck.texts from by decide +kernel] at ht; cases h; cases ht; exact writes_FC4_MediaCheck)
    (all_cons (fun c h ts ht => by rw [show fixedTextsOf _ _ = some FC4_MediaCheck.texts from by decide +kernel] at ht; cases h; cases ht; exact writes_FC4_MediaCheck)
    (all_cons (fun c h ts ht => by rw [show fixedTextsOf _ _ = some FC4_MediaCheck.texts from by decide +kernel] at ht; cases h; cases ht; exact writes_FC4_MediaCheck)
    (all_cons (fun c h ts ht => by cases h)
    (all_cons (fun c h ts ht => by rw [show fixedTextsOf _ _ = some FC4_MediaCheck.texts from by decide +kernel] at ht; cases h; cases ht; exact writes_FC4_MediaCheck)
    (all_cons (fun c h ts ht => by rw [show fixedTextsOf _ _ = some FC4_MediaCheck.texts from by decide +kernel] at ht; cases h; cases ht; exact writes_FC4_MediaCheck)
    (all_cons (fun c h ts ht => by rw [show fixedTextsOf _ _ = some FC4_MediaCheck.texts from by decide +kernel] at ht; cases h; cases ht; exact writes_FC4_MediaCheck)
    (all_cons (fun c h ts ht => by cases h)
    (all_cons (fun c h ts ht => by cases h)
    (all_cons (fun c h ts ht => by rw [show fixedTextsOf _ _ = some FC4_MediaCheck.texts from by decide +kernel] at ht; cases h; cases ht; exact writes_FC4_MediaCheck)
    (all_cons (fun c h ts ht => by rw [show fixedTextsOf _ _ = some FC4_MediaCheck.texts from by decide +kernel] at ht; cases h; cases ht; exact writes_FC4_MediaCheck)
    (all_cons (fun c h ts ht => by rw [show fixedTextsOf _ _ = some FC4_MediaCheck.texts from by decide +kernel] at ht; cases h; cases ht; exact writes_FC4_MediaCheck)
    (all_cons (fun c h ts ht => by rw [show fixedTextsOf _ _ = some FC4_MediaCheck.texts from by decide +kernel] at ht; cases h; cases ht; exact writes_FC4_MediaCheck) (List.forall_mem_nil _)))))))))))))))))))))))))))))))))))))))

theorem writes_reboot : ∀ y ∈ commandMaps, ∀ c, y.2.lookup c!"reboot" = some c → ∀ ts, fixedTextsOf y.1 c!"reboot" = some ts → c.WritesAmong ts := by
  unfold commandMaps
  exact (all_cons (fun c h ts ht => by rw [show fixedTextsOf _ _ = some FC6_Reboot.texts from by decide +kernel] at ht; cases h; cases ht; exact writes_FC6_Reboot)
    (all_cons (fun c h ts ht => by rw [show fixedTextsOf _ _ = some FC6_Reboot.texts from by decide +kernel] at ht; cases h; cases ht; exact writes_FC6_Reboot)
    (all_cons (fun c h ts ht => by rw [show fixedTextsOf _ _ = some FC6_Reboot.texts from by decide +kernel] at ht; cases h; cases ht; exact writes_FC6_Reboot)
    (all_cons (fun c h ts ht => by rw [show fixedTextsOf _ _ = some FC6_Reboot.texts from by decide +kernel] at ht; cases h; cases ht; exact writes_FC6_Reboot)
    (all_cons (fun c h ts ht => by rw [show fixedTextsOf _ _ = some FC6_Reboot.texts from by decide +kernel] at ht; cases h; cases ht; exact writes_FC6_Reboot)
    (all_cons (fun c h ts ht => by rw [show fixedTextsOf _ _ = some FC6_Reboot.texts from by decide +kernel] at ht; cases h; cases ht; exact writes_FC6_Reboot)
    (all_cons (fun c h ts ht => by rw [show fixedTextsOf _ _ = some FC6_Reboot.texts from by decide +kernel] at ht; cases h; cases ht; exact writes_FC6_Reboot)
    (all_cons (fun c h ts ht => by rw [show fixedTextsOf _ _ = some FC6_Reboot.texts from by decide +kernel] at ht; cases h; cases ht; exact writes_FC6_Reboot)
    (all_cons (fun c h ts ht => by rw [show fixedTextsOf _ _ = some F18_Reboot.texts from by decide +kernel] at ht; cases h; cases ht; exact writes_F18_Reboot)
    (all_cons (fun c h ts ht => by rw [show fixedTextsOf _ _ = some F18_Reboot.texts from by decide +kernel] at ht; cases h; cases ht; exact writes_F18_Reboot)
    (all_cons (fun c h ts ht => by rw [show fixedTextsOf _ _ = some F18_Reboot.texts from by decide +kernel] at ht; cases h; cases ht; exact writes_F18_Reboot)
    (all_cons (fun c h ts ht => by rw [show fixedTextsOf _ _ = some F18_Reboot.texts from by decide +kernel] at ht; cases h; cases ht; exact writes_F18_Reboot)
    (all_cons (fun c h ts ht => by rw [show fixedTextsOf _ _ = some F18_Reboot.texts from by decide +kernel] at ht; cases h; cases ht; exact writes_F18_Reboot)
    (all_cons (fun c h ts ht => by rw [show fixedTextsOf _ _ = some F23_Reboot.texts from by decide +kernel] at ht; cases h; cases ht; exact writes_F23_Reboot)
    (all_cons (fun c h ts ht => by rw [show fixedTextsOf _ _ = some F23_Reboot.texts from by decide +kernel] at ht; cases h; cases ht; exact writes_F23_Reboot)
    (all_cons (fun c h ts ht => by rw [show fixedTextsOf _ _ = some F23_Reboot.texts from by decide +kernel] at ht; cases h; cases ht; exact writes_F23_Reboot)
    (all_cons (fun c h ts ht => by rw [show fixedTextsOf _ _ = some F23_Reboot.texts from by decide +kernel] at ht; cases h; cases ht; exact writes_F23_Reboot)
    (all_cons (fun c h ts ht => by rw [show fixedTextsOf _ _ = some F23_Reboot.texts from by decide +kernel] at ht; cases h; cases ht; exact writes_F23_Reboot)
    (all_cons (fun c h ts ht => by rw [show fixedTextsOf _ _ = some F23_Reboot.texts from by decide +kernel] at ht; cases h; cases ht; exact writes_F23_Reboot)
    (all_cons (fun c h ts ht => by rw [show fixedTextsOf _ _ = some F23_Reboot.texts from by decide +kernel] at ht; cases h; cases ht; exact writes_F23_Reboot)
    (all_cons (fun c h ts ht => by rw [show fixedTextsOf _ _ = some F23_Reboot.texts from by decide +kernel] at ht; cases h; cases ht; exact writes_F23_Reboot)
    (all_cons (fun c h ts ht => by rw [show fixedTextsOf _ _ = some F23_Reboot.texts from by decide +kernel] at ht; cases h; cases ht; exact writes_F23_Reboot)
    (all_cons (fun c h ts ht => by rw [show fixedTextsOf _ _ = some F23_Reboot.texts from by decide +kernel] at ht; cases h; cases ht; exact writes_F23_Reboot)
    (all_cons (fun c h ts ht => by rw [show fixedTextsOf _ _ = some F23_Reboot.texts from by decide +kernel] at ht; cases h; cases ht; exact writes_F23_Reboot)
    (all_cons (fun c h ts ht => by rw [show fixedTextsOf _ _ = some F23_Reboot.texts from by decide +kernel] at ht; cases h; cases ht; exact writes_F23_Reboot)
    (all_cons (fun c h ts ht => by rw [show fixedTextsOf _ _ = some FC6_Reboot.texts from by decide +kernel] at ht; cases h; cases ht; exact writes_FC6_Reboot)
    (all_cons (fun c h ts ht => by rw [show fixedTextsOf _ _ = some FC6_Reboot.texts from by decide +kernel] at ht; cases h; cases ht; exact writes_FC6_Reboot)
    (all_cons (fun c h ts ht => by rw [show fixedTextsOf _ _ = some FC6_Reboot.texts from by decide +kernel] at ht; cases h; cases ht; exact writes_FC6_Reboot)
    (all_cons (fun c h ts ht => by rw [show fixedTextsOf _ _ = some FC3_Reboot.texts from by decide +kernel] at ht; cases h; cases ht; exact writes_FC3_Reboot)
    (all_cons (fun c h ts ht => by rw [show fixedTextsOf _ _ = some FC3_Reboot.texts from by decide +kernel] at ht; cases h; cases ht; exact writes_FC3_Reboot)
    (all_cons (fun c h ts ht => by rw [show fixedTextsOf _ _ = some FC3_Reboot.texts from by decide +kernel] at ht; cases h; cases ht; exact writes_FC3_Reboot)
    (all_cons (fun c h ts ht => by rw [show fixedTextsOf _ _ = some FC6_Reboot.texts from by decide +kernel] at ht; cases h; cases ht; exact writes_FC6_Reboot)
    (all_cons (fun c h ts ht => by rw [show fixedTextsOf _ _ = some FC3_Reboot.texts from by decide +kernel] at ht; cases h; cases ht; exact writes_FC3_Reboot)
    (all_cons (fun c h ts ht => by rw [show fixedTextsOf _ _ = some FC3_Reboot.texts from by decide +kernel] at ht; cases h; cases ht; exact writes_FC3_Reboot)
    (all_cons (fun c h ts ht => by rw [show fixedTextsOf _ _ = some FC6_Reboot.texts from by decide +kernel] at ht; cases h; cases ht; exact writes_FC6_Reboot)
    (all_cons (fun c h ts ht => by rw [show fixedTextsOf _ _ = some FC6_Reboot.texts from by decide +kernel] at ht; cases h; cases ht; exact writes_FC6_Reboot)
    (all_cons (fun c h ts ht => by rw [show fixedTextsOf _ _ = some F18_Reboot.texts from by decide +kernel] at ht; cases h; cases ht; exact writes_F18_Reboot)
    (all_cons (fun c h ts ht => by rw [show fixedTextsOf _ _ = some F23_Reboot.texts from by decide +kernel] at ht; cases h; cases ht; exact writes_F23_Reboot) (List.forall_mem_nil _)))))))))))))))))))))))))))))))))))))))

theorem writes_halt : ∀ y ∈ commandMaps, ∀ c, y.2.lookup c!"halt" = some c → ∀ ts, fixedTextsOf y.1 c!"halt" = some ts → c.WritesAmong ts := by
  unfold commandMaps
  exact (all_cons (fun c h ts ht => by rw [show fixedTextsOf _ _ = some FC6_Reboot.texts from by decide +kernel] at ht; cases h; cases ht; exact writes_FC6_Reboot)
    (all_cons (fun c h ts ht => by rw [show fixedTextsOf _ _ = some FC6_Reboot.texts from by decide +kernel] at ht; cases h; cases ht; exact writes_FC6_Reboot)
    (all_cons (fun c h ts ht => by rw [show fixedTextsOf _ _ = some FC6_Reboot.texts from by decide +kernel] at ht; cases h; cases ht; exact writes_FC6_Reboot)
    (all_cons (fun c h ts ht => by rw [show fixedTextsOf _ _ = some FC6_Reboot.texts from by decide +kernel] at ht; cases h; cases ht; exact writes_FC6_Reboot)
    (all_cons (fun c h ts ht => by rw [show fixedTextsOf _ _ = some FC6_Reboot.texts from by decide +kernel] at ht; cases h; cases ht; exact writes_FC6_Reboot)
    (all_cons (fun c h ts ht => by rw [show fixedTextsOf _ _ = some FC6_Reboot.texts from by decide +kernel] at ht; cases h; cases ht; exact writes_FC6_Reboot)
    (all_cons (fun c h ts ht => by rw [show fixedTextsOf _ _ = some FC6_Reboot.texts from by decide +kernel] at ht; cases h; cases ht; exact writes_FC6_Reboot)
    (all_cons (fun c h ts ht => by rw [show fixedTextsOf _ _ = some FC6_Reboot.texts from by decide +kernel] at ht; cases h; cases ht; exact writes_FC6_Reboot)
    (all_cons (fun c h ts ht => by rw [show fixedTextsOf _ _ = some F18_Reboot.texts from by decide +kernel] at ht; cases h; cases ht; exact writes_F18_Reboot)
    (all_cons (fun c h ts ht => by rw [show fixedTextsOf _ _ = some F18_Reboot.texts from by decide +kernel] at ht; cases h; cases ht; exact writes_F18_Reboot)
    (all_cons (fun c h ts ht => by rw [show fixedTextsOf _ _ = some F18_Reboot.texts from by decide +kernel] at ht; cases h; cases ht; exact writes_F18_Reboot)
    (all_cons (fun c h ts ht => by rw [show fixedTextsOf _ _ = some F18_Reboot.texts from by decide +kernel] at ht; cases h; cases ht; exact writes_F18_Reboot)
    (all_cons (fun c h ts ht => by rw [show fixedTextsOf _ _ = some F18_Reboot.texts from by decide +kernel] at ht; cases h; cases ht; exact writes_F18_Reboot)
    (all_cons (fun c h ts ht => by rw [show fixedTextsOf _ _ = some F23_Reboot.texts from by decide +kernel] at ht; cases h; cases ht; exact writes_F23_Reboot)
    (all_cons (fun c h ts ht => by rw [show fixedTextsOf _ _ = some F23_Reboot.texts from by decide +kernel] at ht; cases h; cases ht; exact writes_F23_Reboot)
    (all_cons (fun c h ts ht => by rw [show fixedTextsOf _ _ = some F23_Reboot.texts from by decide +kernel] at ht; cases h; cases ht; exact writes_F23_Reboot)
    (all_cons (fun c h ts ht => by rw [show fixedTextsOf _ _ = some F23_Reboot.texts from by decide +kernel] at ht; cases h; cases ht; exact writes_F23_Reboot)
    (all_cons (fun c h ts ht => by rw [show fixedTextsOf _ _ = some F23_Reboot.texts from by decide +kernel] at ht; cases h; cases ht; exact writes_F23_Reboot)
    (all_cons (fun c h ts ht => by rw [show fixedTextsOf _ _ = some F23_Reboot.texts from by decide +kernel] at ht; cases h; cases ht; exact writes_F23_Reboot)
    (all_cons (fun c h ts ht => by rw [show fixedTextsOf _ _ = some F23_Reboot.texts from by decide +kernel] at ht; cases h; cases ht; exact writes_F23_Reboot)
    (all_cons (fun c h ts ht => by rw [show fixedTextsOf _ _ = some F23_Reboot.texts from by decide +kernel] at ht; cases h; cases ht; exact writes_F23_Reboot)
    (all_cons (fun c h ts ht => by rw [show fixedTextsOf _ _ = some F23_Reboot.texts from by decide +kernel] at ht; cases h; cases ht; exact writes_F23_Reboot)
    (all_cons (fun c h ts ht => by rw [show fixedTextsOf _ _ = some F23_Reboot.texts from by decide +kernel] at ht; cases h; cases ht; exact writes_F23_Reboot)
    (all_cons (fun c h ts ht => by rw [show fixedTextsOf _ _ = some F23_Reboot.texts from by decide +kernel] at ht; cases h; cases ht; exact writes_F23_Reboot)
    (all_cons (fun c h ts ht => by rw [show fixedTextsOf _ _ = some F23_Reboot.texts from by decide +kernel] at ht; cases h; cases ht; exact writes_F23_Reboot)
    (all_cons (fun c h ts ht => by rw [show fixedTextsOf _ _ = some FC6_Reboot.texts from by decide +kernel] at ht; cases h; cases ht; exact writes_FC6_Reboot)
    (all_cons (fun c h ts ht => by rw [show fixedTextsOf _ _ = some FC6_Reboot.texts from by decide +kernel] at ht; cases h; cases ht; exact writes_FC6_Reboot)
    (all_cons (fun c h ts ht => by rw [show fixedTextsOf _ _ = some FC6_Reboot.texts from by decide +kernel] at ht; cases h; cases ht; exact writes_FC6_Reboot)
    (all_cons (fun c h ts ht => by rw [show fixedTextsOf _ _ = some FC3_Reboot.texts from by decide +kernel] at ht; cases h; cases ht; exact writes_FC3_Reboot)
    (all_cons (fun c h ts ht => by rw [show fixedTextsOf _ _ = some FC3_Reboot.texts from by decide +kernel] at ht; cases h; cases ht; exact writes_FC3_Reboot)
    (all_cons (fun c h ts ht => by rw [show fixedTextsOf _ _ = some FC3_Reboot.texts from by decide +kernel] at ht; cases h; cases ht; exact writes_FC3_Reboot)
    (all_cons (fun c h ts ht => by rw [show fixedTextsOf _ _ = some FC6_Reboot.texts from by decide +kernel] at ht; cases h; cases ht; exact writes_FC6_Reboot)
    (all_cons (fun c h ts ht => by rw [show fixedTextsOf _ _ = some FC3_Reboot.texts from by decide +kernel] at ht; cases h; cases ht; exact writes_FC3_Reboot)
    (all_cons (fun c h ts ht => by rw [show fixedTextsOf _ _ = some FC3_Reboot.texts from by decide +kernel] at ht; cases h; cases ht; exact writes_FC3_Reboot)
    (all_cons (fun c h ts ht => by rw [show fixedTextsOf _ _ = some FC6_Reboot.texts from by decide +kernel] at ht; cases h; cases ht; exact writes_FC6_Reboot)
    (all_cons (fun c h ts ht => by rw [show fixedTextsOf _ _ = some FC6_Reboot.texts from by decide +kernel] at ht; cases h; cases ht; exact writes_FC6_Reboot)
    (all_cons (fun c h ts ht => by rw [show fixedTextsOf _ _ = some F18_Reboot.texts from by decide +kernel] at ht; cases h; cases ht; exact writes_F18_Reboot)
    (all_cons (fun c h ts ht => by rw [show fixedTextsOf _ _ = some F23_Reboot.texts from by decide +kernel] at ht; cases h; cases ht; exact writes_F23_Reboot) (List.forall_mem_nil _)))))))))))))))))))))))))))))))))))))))

theorem writes_poweroff : ∀ y ∈ commandMaps, ∀ c, y.2.lookup c!"poweroff" = some c → ∀ ts, fixedTextsOf y.1 c!"poweroff" = some ts → c.WritesAmong ts := by
  unfold commandMaps
  exact (all_cons (fun c h ts ht => by rw [show fixedTextsOf _ _ = some FC6_Reboot.texts from by decide +kernel] at ht; cases h; cases ht; exact writes_FC6_Reboot)
    (all_cons (fun c h ts ht => by rw [show fixedTextsOf _ _ = some FC6_Reboot.texts from by decide +kernel] at ht; cases h; cases ht; exact writes_FC6_Reboot)
    (all_cons (fun c h ts ht => by rw [show fixedTextsOf _ _ = some FC6_Reboot.texts from by decide +kernel] at ht; cases h; cases ht; exact writes_FC6_Reboot)
    (all_cons (fun c h ts ht => by rw [show fixedTextsOf _ _ = some FC6_Reboot.texts from by decide +kernel] at ht; cases h; cases ht; exact writes_FC6_Reboot)
    (all_cons (fun c h ts ht => by rw [show fixedTextsOf _ _ = some FC6_Reboot.texts from by decide +kernel] at ht; cases h; cases ht; exact writes_FC6_Reboot)
    (all_cons (fun c h ts ht => by rw [show fixedTextsOf _ _ = some FC6_Reboot.texts from by decide +kernel] at ht; cases h; cases ht; exact writes_FC6_Reboot)
    (all_cons (fun c h ts ht => by rw [show fixedTextsOf _ _ = some FC6_Reboot.texts from by decide +kernel] at ht; cases h; cases ht; exact writes_FC6_Reboot)
    (all_cons (fun c h ts ht => by rw [show fixedTextsOf _ _ = some FC6_Reboot.texts from by decide +kernel] at ht; cases h; cases ht; exact writes_FC6_Reboot)
    (all_cons (fun c h ts ht => by rw [show fixedTextsOf _ _ = some F18_Reboot.texts from by decide +kernel] at ht; cases h; cases ht; exact writes_F18_Reboot)
    (all_cons (fun c h ts ht => by rw [show fixedTextsOf _ _ = some F18_Reboot.texts from by decide +kernel] at ht; cases h; cases ht; exact writes_F18_Reboot)
    (all_cons (fun c h ts ht => by rw [show fixedTextsOf _ _ = some F18_Reboot.texts from by decide +kernel] at ht; cases h; cases ht; exact writes_F18_Reboot)
    (all_cons (fun c h ts ht => by rw [show fixedTextsOf _ _ = some F18_Reboot.texts from by decide +kernel] at ht; cases h; cases ht; exact writes_F18_Reboot)
    (all_cons (fun c h ts ht => by rw [show fixedTextsOf _ _ = some F18_Reboot.texts from by decide +kernel] at ht; cases h; cases ht; exact writes_F18_Reboot)
    (all_cons (fun c h ts ht => by rw [show fixedTextsOf _ _ = some F23_Reboot.texts from by decide +kernel] at ht; cases h; cases ht; exact writes_F23_Reboot)
    (all_cons (fun c h ts ht => by rw [show fixedTextsOf _ _ = some F23_Reboot.texts from by decide +kernel] at ht; cases h; cases ht; exact writes_F23_Reboot)
    (all_cons (fun c h ts ht => by rw [show fixedTextsOf _ _ = some F23_Reboot.texts from by decide +kernel] at ht; cases h; cases ht; exact writes_F23_Reboot)
    (all_cons (fun c h ts ht => by rw [show fixedTextsOf _ _ = some F23_Reboot.texts from by decide +kernel] at ht; cases h; cases ht; exact writes_F23_Reboot)
    (all_cons (fun c h ts ht => by rw [show fixedTextsOf _ _ = some F23_Reboot.texts from by decide +kernel] at ht; cases h; cases ht; exact writes_F23_Reboot)
    (all_cons (fun c h ts ht => by rw [show fixedTextsOf _ _ = some F23_Reboot.texts from by decide +kernel] at ht; cases h; cases ht; exact writes_F23_Reboot)
    (all_cons (fun c h ts ht => by rw [show fixedTextsOf _ _ = some F23_Reboot.texts from by decide +kernel] at ht; cases h; cases ht; exact writes_F23_Reboot)
    (all_cons (fun c h ts ht => by rw [show fixedTextsOf _ _ = some F23_Reboot.texts from by decide +kernel] at ht; cases h; cases ht; exact writes_F23_Reboot)
    (all_cons (fun c h ts ht => by rw [show fixedTextsOf _ _ = some F23_Reboot.texts from by decide +kernel] at ht; cases h; cases ht; exact writes_F23_Reboot)
    (all_cons (fun c h ts ht => by rw [show fixedTextsOf _ _ = some F23_Reboot.texts from by decide +kernel] at ht; cases h; cases ht; exact writes_F23_Reboot)
    (all_cons (fun c h ts ht => by rw [show fixedTextsOf _ _ = some F23_Reboot.texts from by decide +kernel] at ht; cases h; cases ht; exact writes_F23_Reboot)
    (all_cons (fun c h ts ht => by rw [show fixedTextsOf _ _ = some F23_Reboot.texts from by decide +kernel] at ht; cases h; cases ht; exact writes_F23_Reboot)
    (all_cons (fun c h ts ht => by rw [show fixedTextsOf _ _ = some FC6_Reboot.texts from by decide +kernel] at ht; cases h; cases ht; exact writes_FC6_Reboot)
    (all_cons (fun c h ts ht => by rw [show fixedTextsOf _ _ = some FC6_Reboot.texts from by decide +kernel] at ht; cases h; cases ht; exact writes_FC6_Reboot)
    (all_cons (fun c h ts ht => by rw [show fixedTextsOf _ _ = some FC6_Reboot.texts from by decide +kernel] at ht; cases h; cases ht; exact writes_FC6_Reboot)
    (all_cons (fun c h ts ht => by rw [show fixedTextsOf _ _ = some FC3_Reboot.texts from by decide +kernel] at ht; cases h; cases ht; exact writes_FC3_Reboot)
    (all_cons (fun c h ts ht => by rw [show fixedTextsOf _ _ = some FC3_Reboot.texts from by decide +kernel] at ht; cases h; cases ht; exact writes_FC3_Reboot)
    (all_cons (fun c h ts ht => by rw [show fixedTextsOf _ _ = some FC3_Reboot.texts from by decide +kernel] at ht; cases h; cases ht; exact writes_FC3_Reboot)
    (all_cons (fun c h ts ht => by rw [show fixedTextsOf _ _ = some FC6_Reboot.texts from by decide +kernel] at ht; cases h; cases ht; exact writes_FC6_Reboot)
    (all_cons (fun c h ts ht => by rw [show fixedTextsOf _ _ = some FC3_Reboot.texts from by decide +kernel] at ht; cases h; cases ht; exact writes_FC3_Reboot)
    (all_cons (fun c h ts ht => by rw [show fixedTextsOf _ _ = some FC3_Reboot.texts from by decide +kernel] at ht; cases h; cases ht; exact writes_FC3_Reboot)
    (all_cons (fun c h ts ht => by rw [show fixedTextsOf _ _ = some FC6_Reboot.texts from by decide +kernel] at ht; cases h; cases ht; exact writes_FC6_Reboot)
    (all_cons (fun c h ts ht => by rw [show fixedTextsOf _ _ = some FC6_Reboot.texts from by decide +kernel] at ht; cases h; cases ht; exact writes_FC6_Reboot)
    (all_cons (fun c h ts ht => by rw [show fixedTextsOf _ _ = some F18_Reboot.texts from by decide +kernel] at ht; cases h; cases ht; exact writes_F18_Reboot)
    (all_cons (fun c h ts ht => by rw [show fixedTextsOf _ _ = some F23_Reboot.texts from by decide +kernel] at ht; cases h; cases ht; exact writes_F23_Reboot) (List.forall_mem_nil _)))))))))))))))))))))))))))))))))))))))

theorem writes_shutdown : ∀ y ∈ commandMaps, ∀ c, y.2.lookup c!"shutdown" = some c → ∀ ts, fixedTextsOf y.1 c!"shutdown" = some ts → c.WritesAmong ts := by
  unfold commandMaps
  exact (all_cons (fun c h ts ht => by rw [show fixedTextsOf _ _ = some FC6_Reboot.texts from by decide +kernel] at ht; cases h; cases ht; exact writes_FC6_Reboot)
    (all_cons (fun c h ts ht => by rw [show fixedTextsOf _ _ = some FC6_Reboot.texts from by decide +kernel] at ht; cases h; cases ht; exact writes_FC6_Reboot)
    (all_cons (fun c h ts ht => by rw [show fixedTextsOf _ _ = some FC6_Reboot.texts from by decide +kernel] at ht; cases h; cases ht; exact writes_FC6_Reboot)
    (all_cons (fun c h ts ht => by rw [show fixedTextsOf _ _ = some FC6_Reboot.texts from by decide +kernel] at ht; cases h; cases ht; exact writes_FC6_Reboot)
    (all_cons (fun c h ts ht => by rw [show fixedTextsOf _ _ = some FC6_Reboot.texts from by decide +kernel] at ht; cases h; cases ht; exact writes_FC6_Reboot)
    (all_cons (fun c h ts ht => by rw [show fixedTextsOf _ _ = some FC6_Reboot.texts from by decide +kernel] at ht; cases h; cases ht; exact writes_FC6_Reboot)
    (all_cons (fun c h ts ht => by rw [show fixedTextsOf _ _ = some FC6_Reboot.texts from by decide +kernel] at ht; cases h; cases ht; exact writes_FC6_Reboot)
    (all_cons (fun c h ts ht => by rw [show fixedTextsOf _ _ = some FC6_Reboot.texts from by decide +kernel] at ht; cases h; cases ht; exact writes_FC6_Reboot)
    (all_cons (fun c h ts ht => by rw [show fixedTextsOf _ _ = some F18_Reboot.texts from by decide +kernel] at ht; cases h; cases ht; exact writes_F18_Reboot)
    (all_cons (fun c h ts ht => by rw [show fixedTextsOf _ _ = some F18_Reboot.texts from by decide +kernel] at ht; cases h; cases ht; exact writes_F18_Reboot)
    (all_cons (fun c h ts ht => by rw [show fixedTextsOf _ _ = some F18_Reboot.texts from by decide +kernel] at ht; cases h; cases ht; exact writes_F18_Reboot)
    (all_cons (fun c h ts ht => by rw [show fixedTextsOf _ _ = some F18_Reboot.texts from by decide +kernel] at ht; cases h; cases ht; exact writes_F18_Reboot)
    (all_cons (fun c h ts ht => by rw [show fixedTextsOf _ _ = some F18_Reboot.texts from by decide +kernel] at ht; cases h; cases ht; exact writes_F18_Reboot)
    (all_cons (fun c h ts ht => by rw [show fixedTextsOf _ _ = some F23_Reboot.texts from by decide +kernel] at ht; cases h; cases ht; exact writes_F23_Reboot)
    (all_cons (fun c h ts ht => by rw [show fixedTextsOf _ _ = some F23_Reboot.texts from by decide +kernel] at ht; cases h; cases ht; exact writes_F23_Reboot)
    (all_cons (fun c h ts ht => by rw [show fixedTextsOf _ _ = some F23_Reboot.texts from by decide +kernel] at ht; cases h; cases ht; exact writes_F23_Reboot)
    (all_cons (fun c h ts ht => by rw [show fixedTextsOf _ _ = some F23_Reboot.texts from by decide +kernel] at ht; cases h; cases ht; exact writes_F23_Reboot)
    (all_cons (fun c h ts ht => by rw [show fixedTextsOf _ _ = some F23_Reboot.texts from by decide +kernel] at ht; cases h; cases ht; exact writes_F23_Reboot)
    (all_cons (fun c h ts ht => by rw [show fixedTextsOf _ _ = some F23_Reboot.texts from by decide +kernel] at ht; cases h; cases ht; exact writes_F23_Reboot)
    (all_cons (fun c h ts ht => by rw [show fixedTextsOf _ _ = some F23_Reboot.texts from by decide +kernel] at ht; cases h; cases ht; exact writes_F23_Reboot)
    (all_cons (fun c h ts ht => by rw [show fixedTextsOf _ _ = some F23_Reboot.texts from by decide +kernel] at ht; cases h; cases ht; exact writes_F23_Reboot)
    (all_cons (fun c h ts ht => by rw [show fixedTextsOf _ _ = some F23_Reboot.texts from by decide +kernel] at ht; cases h; cases ht; exact writes_F23_Reboot)
    (all_cons (fun c h ts ht => by rw [show fixedTextsOf _ _ = some F23_Reboot.texts from by decide +kernel] at ht; cases h; cases ht; exact writes_F23_Reboot)
    (all_cons (fun c h ts ht => by rw [show fixedTextsOf _ _ = some F23_Reboot.texts from by decide +kernel] at ht; cases h; cases ht; exact writes_F23_Reboot)
    (all_cons (fun c h ts ht => by rw [show fixedTextsOf _ _ = some F23_Reboot.texts from by decide +kernel] at ht; cases h; cases ht; exact writes_F23_Reboot)
    (all_cons (fun c h ts ht => by rw [show fixedTextsOf _ _ = some FC6_Reboot.texts from by decide +kernel] at ht; cases h; cases ht; exact writes_FC6_Reboot)
    (all_cons (fun c h ts ht => by rw [show fixedTextsOf _ _ = some FC6_Reboot.texts from by decide +kernel] at ht; cases h; cases ht; exact writes_FC6_Reboot)
    (all_cons (fun c h ts ht => by rw [show fixedTextsOf _ _ = some FC6_Reboot.texts from by decide +kernel] at ht; cases h; cases ht; exact writes_FC6_Reboot)
    (all_cons (fun c h ts ht => by rw [show fixedTextsOf _ _ = some FC3_Reboot.texts from by decide +kernel] at ht; cases h; cases ht; exact writes_FC3_Reboot)
    (all_cons (fun c h ts ht => by rw [show fixedTextsOf _ _ = some FC3_Reboot.texts from by decide +kernel] at ht; cases h; cases ht; exact writes_FC3_Reboot)
    (all_cons (fun c h ts ht => by rw [show fixedTextsOf _ _ = some FC3_Reboot.texts from by decide +kernel] at ht; cases h; cases ht; exact writes_FC3_Reboot)
    (all_cons (fun c h ts ht => by rw [show fixedTextsOf _ _ = some FC6_Reboot.texts from by decide +kernel] at ht; cases h; cases ht; exact writes_FC6_Reboot)
    (all_cons (fun c h ts ht => by rw [show fixedTextsOf _ _ = some FC3_Reboot.texts from by decide +kernel] at ht; cases h; cases ht; exact writes_FC3_Reboot)
    (all_cons (fun c h ts ht => by rw [show fixedTextsOf _ _ = some FC3_Reboot.texts from by decide +kernel] at ht; cases h; cases ht; exact writes_FC3_Reboot)
    (all_cons (fun c h ts ht => by rw [show fixedTextsOf _ _ = some FC6_Reboot.texts from by decide +kernel] at ht; cases h; cases ht; exact writes_FC6_Reboot)
    (all_cons (fun c h ts ht => by rw [show fixedTextsOf _ _ = some FC6_Reboot.texts from by decide +kernel] at ht; cases h; cases ht; exact writes_FC6_Reboot)
    (all_cons (fun c h ts ht => by rw [show fixedTextsOf _ _ = some F18_Reboot.texts from by decide +kernel] at ht; cases h; cases ht; exact writes_F18_Reboot)
    (all_cons (fun c h ts ht => by rw [show fixedTextsOf _ _ = some F23_Reboot.texts from by decide +kernel] at ht; cases h; cases ht; exact writes_F23_Reboot) (List.forall_mem_nil _)))))))))))))))))))))))))))))))))))))))

theorem writes_skipx : ∀ y ∈ commandMaps, ∀ c, y.2.lookup c!"skipx" = some c → ∀ ts, fixedTextsOf y.1 c!"skipx" = some ts → c.WritesAmong ts := by
  unfold commandMaps
  exact (all_cons (fun c h ts ht => by rw [show fixedTextsOf _ _ = some FC3_SkipX.texts from by decide +kernel] at ht; cases h; cases ht; exact writes_FC3_SkipX)
    (all_cons (fun c h ts ht => by rw [show fixedTextsOf _ _ = some FC3_SkipX.texts from by decide +kernel] at ht; cases h; cases ht; exact writes_FC3_SkipX)
    (all_cons (fun c h ts ht => by rw [show fixedTextsOf _ _ = some FC3_SkipX.texts from by decide +kernel] at ht; cases h; cases ht; exact writes_FC3_SkipX)
    (all_cons (fun c h ts ht => by rw [show fixedTextsOf _ _ = some FC3_SkipX.texts from by decide +kernel] at ht; cases h; cases ht; exact writes_FC3_SkipX)
    (all_cons (fun c h ts ht => by rw [show fixedTextsOf _ _ = some FC3_SkipX.texts from by decide +kernel] at ht; cases h; cases ht; exact writes_FC3_SkipX)
    (all_cons (fun c h ts ht => by rw [show fixedTextsOf _ _ = some FC3_SkipX.texts from by decide +kernel] at ht; cases h; cases ht; exact writes_FC3_SkipX)
    (all_cons (fun c h ts ht => by rw [show fixedTextsOf _ _ = some FC3_SkipX.texts from by decide +kernel] at ht; cases h; cases ht; exact writes_FC3_SkipX)
    (all_cons (fun c h ts ht => by rw [show fixedTextsOf _ _ = some FC3_SkipX.texts from by decide +kernel] at ht; cases h; cases ht; exact writes_FC3_SkipX)
    (all_cons (fun c h ts ht => by rw [show fixedTextsOf _ _ = some FC3_SkipX.texts from by decide +kernel] at ht; cases h; cases ht; exact writes_FC3_SkipX)
    (all_cons (fun c h ts ht => by rw [show fixedTextsOf _ _ = some FC3_SkipX.texts from by decide +kernel] at ht; cases h; cases ht; exact writes_FC3_SkipX)
    (all_cons (fun c h ts ht => by rw [show fixedTextsOf _ _ = some FC3_SkipX.texts from by decide +kernel] at ht; cases h; cases ht; exact writes_FC3_SkipX)
    (all_cons (fun c h ts ht => by rw [show fixedTextsOf _ _ = some FC3_SkipX.texts from by decide +kernel] at ht; cases h; cases ht; exact writes_FC3_SkipX)
    (all_cons (fun c h ts ht => by rw [show fixedTextsOf _ _ = some FC3_SkipX.texts from by decide +kernel] at ht; cases h; cases ht; exact writes_FC3_SkipX)
    (all_cons (fun c h ts ht => by rw [show fixedTextsOf _ _ = some FC3_SkipX.texts from by decide +kernel] at ht; cases h; cases ht; exact writes_FC3_SkipX)
    (all_cons (fun c h ts ht => by rw [show fixedTextsOf _ _ = some FC3_SkipX.texts from by decide +kernel] at ht; cases h; cases ht; exact writes_FC3_SkipX)
    (all_cons (fun c h ts ht => by rw [show fixedTextsOf _ _ = some FC3_SkipX.texts from by decide +kernel] at ht; cases h; cases ht; exact writes_FC3_SkipX)
    (all_cons (fun c h ts ht => by rw [show fixedTextsOf _ _ = some FC3_SkipX.texts from by decide +kernel] at ht; cases h; cases ht; exact writes_FC3_SkipX)
    (all_cons (fun c h ts ht => by rw [show fixedTextsOf _ _ = some FC3_SkipX.texts from by decide +kernel] at ht; cases h; cases ht; exact writes_FC3_SkipX)
    (all_cons (fun c h ts ht => by rw [show fixedTextsOf _ _ = some FC3_SkipX.texts from by decide +kernel] at ht; cases h; cases ht; exact writes_FC3_SkipX)
    (all_cons (fun c h ts ht => by rw [show fixedTextsOf _ _ = some FC3_SkipX.texts from by decide +kernel] at ht; cases h; cases ht; exact writes_FC3_SkipX)
    (all_cons (fun c h ts ht => by rw [show fixedTextsOf _ _ = some FC3_SkipX.texts from by decide +kernel] at ht; cases h; cases ht; exact writes_FC3_SkipX)
    (all_cons (fun c h ts ht => by rw [show fixedTextsOf _ _ = some FC3_SkipX.texts from by decide +kernel] at ht; cases h; cases ht; exact writes_FC3_SkipX)
    (all_cons (fun c h ts ht => by rw [show fixedTextsOf _ _ = some FC3_SkipX.texts from by decide +kernel] at ht; cases h; cases ht; exact writes_FC3_SkipX)
    (all_cons (fun c h ts ht => by rw [show fixedTextsOf _ _ = some FC3_SkipX.texts from by decide +kernel] at ht; cases h; cases ht; exact writes_FC3_SkipX)
    (all_cons (fun c h ts ht => by rw [show fixedTextsOf _ _ = some FC3_SkipX.texts from by decide +kernel] at ht; cases h; cases ht; exact writes_FC3_SkipX)
    (all_cons (fun c h ts ht => by rw [show fixedTextsOf _ _ = some FC3_SkipX.texts from by decide +kernel] at ht; cases h; cases ht; exact writes_FC3_SkipX)
    (all_cons (fun c h ts ht => by rw [show fixedTextsOf _ _ = some FC3_SkipX.texts from by decide +kernel] at ht; cases h; cases ht; exact writes_FC3_SkipX)
    (all_cons (fun c h ts ht => by rw [show fixedTextsOf _ _ = some FC3_SkipX.texts from by decide +kernel] at ht; cases h; cases ht; exact writes_FC3_SkipX)
    (all_cons (fun c h ts ht => by rw [show fixedTextsOf _ _ = some FC3_SkipX.texts from by decide +kernel] at ht; cases h; cases ht; exact writes_FC3_SkipX)
    (all_cons (fun c h ts ht => by rw [show fixedTextsOf _ _ = some FC3_SkipX.texts from by decide +kernel] at ht; cases h; cases ht; exact writes_FC3_SkipX)
    (all_cons (fun c h ts ht => by rw [show fixedTextsOf _ _ = some FC3_SkipX.texts from by decide +kernel] at ht; cases h; cases ht; exact writes_FC3_SkipX)
    (all_cons (fun c h ts ht => by rw [show fixedTextsOf _ _ = some FC3_SkipX.texts from by decide +kernel] at ht; cases h; cases ht; exact writes_FC3_SkipX)
    (all_cons (fun c h ts ht => by rw [show fixedTextsOf _ _ = some FC3_SkipX.texts from by decide +kernel] at ht; cases h; cases ht; exact writes_FC3_SkipX)
    (all_cons (fun c h ts ht => by rw [show fixedTextsOf _ _ = some FC3_SkipX.texts from by decide +kernel] at ht; cases h; cases ht; exact writes_FC3_SkipX)
    (all_cons (fun c h ts ht => by rw [show fixedTextsOf _ _ = some FC3_SkipX.texts from by decide +kernel] at ht; cases h; cases ht; exact writes_FC3_SkipX)
    (all_cons (fun c h ts ht => by rw [show fixedTextsOf _ _ = some FC3_SkipX.texts from by decide +kernel] at ht; cases h; cases ht; exact writes_FC3_SkipX)
    (all_cons (fun c h ts ht => by rw [show fixedTextsOf _ _ = some FC3_SkipX.texts from by decide +kernel] at ht; cases h; cases ht; exact writes_FC3_SkipX)
    (all_cons (fun c h ts ht => by rw [show fixedTextsOf _ _ = some FC3_SkipX.texts from by decide +kernel] at ht; cases h; cases ht; exact writes_FC3_SkipX) (List.forall_mem_nil _)))))))))))))))))))))))))))))))))))))))

theorem writes_unsupported_hardware : ∀ y ∈ commandMaps, ∀ c, y.2.lookup c!"unsupported_hardware" = some c → ∀ ts, fixedTextsOf y.1 c!"unsupported_hardware" = some ts → c.WritesAmong ts := by
  unfold commandMaps
  exact (all_cons (fun c h ts ht => by cases h)
    (all_cons (fun c h ts ht => by cases h)
    (all_cons (fun c h ts ht => by cases h)
    (all_cons (fun c h ts ht => by cases h)
    (all_cons (fun c h ts ht => by cases h)
    (all_cons (fun c h ts ht => by cases h)
    (all_cons (fun c h ts ht => by cases h)
    (all_cons (fun c h ts ht => by cases h)
    (all_cons (fun c h ts ht => by cases h)
    (all_cons (fun c h ts ht => by cases h)
    (all_cons (fun c h ts ht => by cases h)
    (all_cons (fun c h ts ht => by cases h)
    (all_cons (fun c h ts ht => by cases h)
    (all_cons (fun c h ts ht => by cases h)
    (all_cons (fun c h ts ht => by cases h)
    (all_cons (fun c h ts ht => by cases h)
    (all_cons (fun c h ts ht => by cases h)
    (all_cons (fun c h ts ht => by cases h)
    (all_cons (fun c h ts ht => by cases h)
    (all_cons (fun c h ts ht => by cases h)
    (all_cons (fun c h ts ht => by cases h)
    (all_cons (fun c h ts ht => by cases h)
    (all_cons (fun c h ts ht => by cases h)
    (all_cons (fun c h ts ht => by cases h)
    (all_cons (fun c h ts ht => by cases h)
    (all_cons (fun c h ts ht => by cases h)
    (all_cons (fun c h ts ht => by cases h)
    (all_cons (fun c h ts ht => by cases h)
    (all_cons (fun c h ts ht => by cases h)
    (all_cons (fun c h ts ht => by cases h)
    (all_cons (fun c h ts ht => by cases h)
    (all_cons (fun c h ts ht => by cases h)
    (all_cons (fun c h ts ht => by cases h)
    (all_cons (fun c h ts ht => by cases h)
    (all_cons (fun c h ts ht => by cases h)
    (all_cons (fun c h ts ht => by rw [show fixedTextsOf _ _ = some RHEL6_UnsupportedHardware.texts from by decide +kernel] at ht; cases h; cases ht; exact writes_RHEL6_UnsupportedHardware)
    (all_cons (fun c h ts ht => by rw [show fixedTextsOf _ _ = some RHEL6_UnsupportedHardware.texts from by decide +kernel] at ht; cases h; cases ht; exact writes_RHEL6_UnsupportedHardware)
    (all_cons (fun c h ts ht => by cases h) (List.forall_mem_nil _)))))))))))))))))))))))))))))))))))))))

theorem writes_install : ∀ y ∈ commandMaps, ∀ c, y.2.lookup c!"install" = some c → ∀ ts, fixedTextsOf y.1 c!"install" = some ts → c.WritesAmong ts := by
  unfold commandMaps
  exact (all_cons (fun c h ts ht => by rw [show fixedTextsOf _ _ = some FC3_Upgrade.texts from by decide +kernel] at ht; cases h; cases ht; exact writes_FC3_Upgrade)
    (all_cons (fun c h ts ht => absurd ht (by rw [show fixedTextsOf _ _ = none from by decide +kernel]; simp))
    (all_cons (fun c h ts ht => absurd ht (by rw [show fixedTextsOf _ _ = none from by decide +kernel]; simp))
    (all_cons (fun c h ts ht => absurd ht (by rw [show fixedTextsOf _ _ = none from by decide +kernel]; simp))
    (all_cons (fun c h ts ht => absurd ht (by rw [show fixedTextsOf _ _ = none from by decide +kernel]; simp))
    (all_cons (fun c h ts ht => absurd ht (by rw [show fixedTextsOf _ _ = none from by decide +kernel]; simp))
    (all_cons (fun c h ts ht => absurd ht (by rw [show fixedTextsOf _ _ = none from by decide +kernel]; simp))
    (all_cons (fun c h ts ht => absurd ht (by rw [show fixedTextsOf _ _ = none from by decide +kernel]; simp))
    (all_cons (fun c h ts ht => absurd ht (by rw [show fixedTextsOf _ _ = none from by decide +kernel]; simp))
    (all_cons (fun c h ts ht => absurd ht (by rw [show fixedTextsOf _ _ = none from by decide +kernel]; simp))
    (all_cons (fun c h ts ht => absurd ht (by rw [show fixedTextsOf _ _ = none from by decide +kernel]; simp))
    (all_cons (fun c h ts ht => absurd ht (by rw [show fixedTextsOf _ _ = none from by decide +kernel]; simp))
    (all_cons (fun c h ts ht => absurd ht (by rw [show fixedTextsOf _ _ = none from by decide +kernel]; simp))
    (all_cons (fun c h ts ht => absurd ht (by rw [show fixedTextsOf _ _ = none from by decide +kernel]; simp))
    (all_cons (fun c h ts ht => absurd ht (by rw [show fixedTextsOf _ _ = none from by decide +kernel]; simp))
    (all_cons (fun c h ts ht => absurd ht (by rw [show fixedTextsOf _ _ = none from by decide +kernel]; simp))
    (all_cons (fun c h ts ht => absurd ht (by rw [show fixedTextsOf _ _ = none from by decide +kernel]; simp))
    (all_cons (fun c h ts ht => absurd ht (by rw [show fixedTextsOf _ _ = none from by decide +kernel]; simp))
    (all_cons (fun c h ts ht => absurd ht (by rw [show fixedTextsOf _ _ = none from by decide +kernel]; simp))
    (all_cons (fun c h ts ht => absurd ht (by rw [show fixedTextsOf _ _ = none from by decide +kernel]; simp))
    (all_cons (fun c h ts ht => absurd ht (by rw [show fixedTextsOf _ _ = none from by decide +kernel]; simp))
    (all_cons (fun c h ts ht => absurd ht (by rw [show fixedTextsOf _ _ = none from by decide +kernel]; simp))
    (all_cons (fun c h ts ht => absurd ht (by rw [show fixedTextsOf _ _ = none from by decide +kernel]; simp))
    (all_cons (fun c h ts ht => absurd ht (by rw [show fixedTextsOf _ _ = none from by decide +kernel]; simp))
    (all_cons (fun c h ts ht => absurd ht (by rw [show fixedTextsOf _ _ = none from by decide +kernel]; simp))
    (all_cons (fun c h ts ht => by rw [show fixedTextsOf _ _ = some FC3_Upgrade.texts from by decide +kernel] at ht; cases h; cases ht; exact writes_FC3_Upgrade)
    (all_cons (fun c h ts ht => by rw [show fixedTextsOf _ _ = some FC3_Upgrade.texts from by decide +kernel] at ht; cases h; cases ht; exact writes_FC3_Upgrade)
    (all_cons (fun c h ts ht => by rw [show fixedTextsOf _ _ = some FC3_Upgrade.texts from by decide +kernel] at ht; cases h; cases ht; exact writes_FC3_Upgrade)
    (all_cons (fun c h ts ht => by rw [show fixedTextsOf _ _ = some FC3_Upgrade.texts from by decide +kernel] at ht; cases h; cases ht; exact writes_FC3_Upgrade)
    (all_cons (fun c h ts ht => by rw [show fixedTextsOf _ _ = some FC3_Upgrade.texts from by decide +kernel] at ht; cases h; cases ht; exact writes_FC3_Upgrade)
    (all_cons (fun c h ts ht => by rw [show fixedTextsOf _ _ = some FC3_Upgrade.texts from by decide +kernel] at ht; cases h; cases ht; exact writes_FC3_Upgrade)
    (all_cons (fun c h ts ht => by rw [show fixedTextsOf _ _ = some FC3_Upgrade.texts from by decide +kernel] at ht; cases h; cases ht; exact writes_FC3_Upgrade)
    (all_cons (fun c h ts ht => by rw [show fixedTextsOf _ _ = some FC3_Upgrade.texts from by decide +kernel] at ht; cases h; cases ht; exact writes_FC3_Upgrade)
    (all_cons (fun c h ts ht => by rw [show fixedTextsOf _ _ = some FC3_Upgrade.texts from by decide +kernel] at ht; cases h; cases ht; exact writes_FC3_Upgrade)
    (all_cons (fun c h ts ht => by rw [show fixedTextsOf _ _ = some FC3_Upgrade.texts from by decide +kernel] at ht; cases h; cases ht; exact writes_FC3_Upgrade)
    (all_cons (fun c h ts ht => absurd ht (by rw [show fixedTextsOf _ _ = none from by decide +kernel]; simp))
    (all_cons (fun c h ts ht => absurd ht (by rw [show fixedTextsOf _ _ = none from by decide +kernel]; simp))
    (all_cons (fun c h ts ht => absurd ht (by rw [show fixedTextsOf _ _ = none from by decide +kernel]; simp)) (List.forall_mem_nil _)))))))))))))))))))))))))))))))))))))))

theorem writes_upgrade : ∀ y ∈ commandMaps, ∀ c, y.2.lookup c!"upgrade" = some c → ∀ ts, fixedTextsOf y.1 c!"upgrade" = some ts → c.WritesAmong ts := by
  unfold commandMaps
  exact (all_cons (fun c h ts ht => by rw [show fixedTextsOf _ _ = some FC3_Upgrade.texts from by decide +kernel] at ht; cases h; cases ht; exact writes_FC3_Upgrade)
    (all_cons (fun c h ts ht => absurd ht (by rw [show fixedTextsOf _ _ = none from by decide +kernel]; simp))
    (all_cons (fun c h ts ht => absurd ht (by rw [show fixedTextsOf _ _ = none from by decide +kernel]; simp))
    (all_cons (fun c h ts ht => absurd ht (by rw [show fixedTextsOf _ _ = none from by decide +kernel]; simp))
    (all_cons (fun c h ts ht => absurd ht (by rw [show fixedTextsOf _ _ = none from by decide +kernel]; simp))
    (all_cons (fun c h ts ht => absurd ht (by rw [show fixedTextsOf _ _ = none from by decide +kernel]; simp))
    (all_cons (fun c h ts ht => absurd ht (by rw [show fixedTextsOf _ _ = none from by decide +kernel]; simp))
    (all_cons (fun c h ts ht => absurd ht (by rw [show fixedTextsOf _ _ = none from by decide +kernel]; simp))
    (all_cons (fun c h ts ht => absurd ht (by rw [show fixedTextsOf _ _ = none from by decide +kernel]; simp))
    (all_cons (fun c h ts ht => absurd ht (by rw [show fixedTextsOf _ _ = none from by decide +kernel]; simp))
    (all_cons (fun c h ts ht => absurd ht (by rw [show fixedTextsOf _ _ = none from by decide +kernel]; simp))
    (all_cons (fun c h ts ht => absurd ht (by rw [show fixedTextsOf _ _ = none from by decide +kernel]; simp))
    (all_cons (fun c h ts ht => absurd ht (by rw [show fixedTextsOf _ _ = none from by decide +kernel]; simp))
    (all_cons (fun c h ts ht => absurd ht (by rw [show fixedTextsOf _ _ = none from by decide +kernel]; simp))
    (all_cons (fun c h ts ht => absurd ht (by rw [show fixedTextsOf _ _ = none from by decide +kernel]; simp))
    (all_cons (fun c h ts ht => absurd ht (by rw [show fixedTextsOf _ _ = none from by decide +kernel]; simp))
    (all_cons (fun c h ts ht => absurd ht (by rw [show fixedTextsOf _ _ = none from by decide +kernel]; simp))
    (all_cons (fun c h ts ht => absurd ht (by rw [show fixedTextsOf _ _ = none from by decide +kernel]; simp))
    (all_cons (fun c h ts ht => absurd ht (by rw [show fixedTextsOf _ _ = none from by decide +kernel]; simp))
    (all_cons (fun c h ts ht => absurd ht (by rw [show fixedTextsOf _ _ = none from by decide +kernel]; simp))
    (all_cons (fun c h ts ht => by cases h)
    (all_cons (fun c h ts ht => by cases h)
    (all_cons (fun c h ts ht => by cases h)
    (all_cons (fun c h ts ht => by cases h)
    (all_cons (fun c h ts ht => by cases h)
    (all_cons (fun c h ts ht => by rw [show fixedTextsOf _ _ = some FC3_Upgrade.texts from by decide +kernel] at ht; cases h; cases ht; exact writes_FC3_Upgrade)
    (all_cons (fun c h ts ht => by rw [show fixedTextsOf _ _ = some FC3_Upgrade.texts from by decide +kernel] at ht; cases h; cases ht; exact writes_FC3_Upgrade)
    (all_cons (fun c h ts ht => by rw [show fixedTextsOf _ _ = some FC3_Upgrade.texts from by decide +kernel] at ht; cases h; cases ht; exact writes_FC3_Upgrade)
    (all_cons (fun c h ts ht => by rw [show fixedTextsOf _ _ = some FC3_Upgrade.texts from by decide +kernel] at ht; cases h; cases ht; exact writes_FC3_Upgrade)
    (all_cons (fun c h ts ht => by rw [show fixedTextsOf _ _ = some FC3_Upgrade.texts from by decide +kernel] at ht; cases h; cases ht; exact writes_FC3_Upgrade)
    (all_cons (fun c h ts ht => by rw [show fixedTextsOf _ _ = some FC3_Upgrade.texts from by decide +kernel] at ht; cases h; cases ht; exact writes_FC3_Upgrade)
    (all_cons (fun c h ts ht => by rw [show fixedTextsOf _ _ = some FC3_Upgrade.texts from by decide +kernel] at ht; cases h; cases ht; exact writes_FC3_Upgrade)
    (all_cons (fun c h ts ht => by rw [show fixedTextsOf _ _ = some FC3_Upgrade.texts from by decide +kernel] at ht; cases h; cases ht; exact writes_FC3_Upgrade)
    (all_cons (fun c h ts ht => by rw [show fixedTextsOf _ _ = some FC3_Upgrade.texts from by decide +kernel] at ht; cases h; cases ht; exact writes_FC3_Upgrade)
    (all_cons (fun c h ts ht => by rw [show fixedTextsOf _ _ = some FC3_Upgrade.texts from by decide +kernel] at ht; cases h; cases ht; exact writes_FC3_Upgrade)
    (all_cons (fun c h ts ht => absurd ht (by rw [show fixedTextsOf _ _ = none from by decide +kernel]; simp))
    (all_cons (fun c h ts ht => absurd ht (by rw [show fixedTextsOf _ _ = none from by decide +kernel]; simp))
    (all_cons (fun c h ts ht => by cases h) (List.forall_mem_nil _)))))))))))))))))))))))))))))))))))))))

theorem writes_zerombr : ∀ y ∈ commandMaps, ∀ c, y.2.lookup c!"zerombr" = some c → ∀ ts, fixedTextsOf y.1 c!"zerombr" = some ts → c.WritesAmong ts := by
  unfold commandMaps
  exact (all_cons (fun c h ts ht => by rw [show fixedTextsOf _ _ = some FC3_ZeroMbr.texts from by decide +kernel] at ht; cases h; cases ht; exact writes_F9_ZeroMbr)
    (all_cons (fun c h ts ht => by rw [show fixedTextsOf _ _ = some FC3_ZeroMbr.texts from by decide +kernel] at ht; cases h; cases ht; exact writes_F9_ZeroMbr)
    (all_cons (fun c h ts ht => by rw [show fixedTextsOf _ _ = some FC3_ZeroMbr.texts from by decide +kernel] at ht; cases h; cases ht; exact writes_F9_ZeroMbr)
    (all_cons (fun c h ts ht => by rw [show fixedTextsOf _ _ = some FC3_ZeroMbr.texts from by decide +kernel] at ht; cases h; cases ht; exact writes_F9_ZeroMbr)
    (all_cons (fun c h ts ht => by rw [show fixedTextsOf _ _ = some FC3_ZeroMbr.texts from by decide +kernel] at ht; cases h; cases ht; exact writes_F9_ZeroMbr)
    (all_cons (fun c h ts ht => by rw [show fixedTextsOf _ _ = some FC3_ZeroMbr.texts from by decide +kernel] at ht; cases h; cases ht; exact writes_F9_ZeroMbr)
    (all_cons (fun c h ts ht => by rw [show fixedTextsOf _ _ = some FC3_ZeroMbr.texts from by decide +kernel] at ht; cases h; cases ht; exact writes_F9_ZeroMbr)
    (all_cons (fun c h ts ht => by rw [show fixedTextsOf _ _ = some FC3_ZeroMbr.texts from by decide +kernel] at ht; cases h; cases ht; exact writes_F9_ZeroMbr)
    (all_cons (fun c h ts ht => by rw [show fixedTextsOf _ _ = some FC3_ZeroMbr.texts from by decide +kernel] at ht; cases h; cases ht; exact writes_F9_ZeroMbr)
    (all_cons (fun c h ts ht => by rw [show fixedTextsOf _ _ = some FC3_ZeroMbr.texts from by decide +kernel] at ht; cases h; cases ht; exact writes_F9_ZeroMbr)
    (all_cons (fun c h ts ht => by rw [show fixedTextsOf _ _ = some FC3_ZeroMbr.texts from by decide +kernel] at ht; cases h; cases ht; exact writes_F9_ZeroMbr)
    (all_cons (fun c h ts ht => by rw [show fixedTextsOf _ _ = some FC3_ZeroMbr.texts from by decide +kernel] at ht; cases h; cases ht; exact writes_F9_ZeroMbr)
    (all_cons (fun c h ts ht => by rw [show fixedTextsOf _ _ = some FC3_ZeroMbr.texts from by decide +kernel] at ht; cases h; cases ht; exact writes_F9_ZeroMbr)
    (all_cons (fun c h ts ht => by rw [show fixedTextsOf _ _ = some FC3_ZeroMbr.texts from by decide +kernel] at ht; cases h; cases ht; exact writes_F9_ZeroMbr)
    (all_cons (fun c h ts ht => by rw [show fixedTextsOf _ _ = some FC3_ZeroMbr.texts from by decide +kernel] at ht; cases h; cases ht; exact writes_F9_ZeroMbr)
    (all_cons (fun c h ts ht => by rw [show fixedTextsOf _ _ = some FC3_ZeroMbr.texts from by decide +kernel] at ht; cases h; cases ht; exact writes_F9_ZeroMbr)
    (all_cons (fun c h ts ht => by rw [show fixedTextsOf _ _ = some FC3_ZeroMbr.texts from by decide +kernel] at ht; cases h; cases ht; exact writes_F9_ZeroMbr)
    (all_cons (fun c h ts ht => by rw [show fixedTextsOf _ _ = some FC3_ZeroMbr.texts from by decide +kernel] at ht; cases h; cases ht; exact writes_F9_ZeroMbr)
    (all_cons (fun c h ts ht => by rw [show fixedTextsOf _ _ = some FC3_ZeroMbr.texts from by decide +kernel] at ht; cases h; cases ht; exact writes_F9_ZeroMbr)
    (all_cons (fun c h ts ht => by rw [show fixedTextsOf _ _ = some FC3_ZeroMbr.texts from by decide +kernel] at ht; cases h; cases ht; exact writes_F9_ZeroMbr)
    (all_cons (fun c h ts ht => by rw [show fixedTextsOf _ _ = some FC3_ZeroMbr.texts from by decide +kernel] at ht; cases h; cases ht; exact writes_F9_ZeroMbr)
    (all_cons (fun c h ts ht => by rw [show fixedTextsOf _ _ = some FC3_ZeroMbr.texts from by decide +kernel] at ht; cases h; cases ht; exact writes_F9_ZeroMbr)
    (all_cons (fun c h ts ht => by rw [show fixedTextsOf _ _ = some FC3_ZeroMbr.texts from by decide +kernel] at ht; cases h; cases ht; exact writes_F9_ZeroMbr)
    (all_cons (fun c h ts ht => by rw [show fixedTextsOf _ _ = some FC3_ZeroMbr.texts from by decide +kernel] at ht; cases h; cases ht; exact writes_F9_ZeroMbr)
    (all_cons (fun c h ts ht => by rw [show fixedTextsOf _ _ = some FC3_ZeroMbr.texts from by decide +kernel] at ht; cases h; cases ht; exact writes_F9_ZeroMbr)
    (all_cons (fun c h ts ht => by rw [show fixedTextsOf _ _ = some FC3_ZeroMbr.texts from by decide +kernel] at ht; cases h; cases ht; exact writes_FC3_ZeroMbr)
    (all_cons (fun c h ts ht => by rw [show fixedTextsOf _ _ = some FC3_ZeroMbr.texts from by decide +kernel] at ht; cases h; cases ht; exact writes_FC3_ZeroMbr)
    (all_cons (fun c h ts ht => by rw [show fixedTextsOf _ _ = some FC3_ZeroMbr.texts from by decide +kernel] at ht; cases h; cases ht; exact writes_F9_ZeroMbr)
    (all_cons (fun c h ts ht => by rw [show fixedTextsOf _ _ = some FC3_ZeroMbr.texts from by decide +kernel] at ht; cases h; cases ht; exact writes_FC3_ZeroMbr)
    (all_cons (fun c h ts ht => by rw [show fixedTextsOf _ _ = some FC3_ZeroMbr.texts from by decide +kernel] at ht; cases h; cases ht; exact writes_FC3_ZeroMbr)
    (all_cons (fun c h ts ht => by rw [show fixedTextsOf _ _ = some FC3_ZeroMbr.texts from by decide +kernel] at ht; cases h; cases ht; exact writes_FC3_ZeroMbr)
    (all_cons (fun c h ts ht => by rw [show fixedTextsOf _ _ = some FC3_ZeroMbr.texts from by decide +kernel] at ht; cases h; cases ht; exact writes_FC3_ZeroMbr)
    (all_cons (fun c h ts ht => by rw [show fixedTextsOf _ _ = some FC3_ZeroMbr.texts from by decide +kernel] at ht; cases h; cases ht; exact writes_FC3_ZeroMbr)
    (all_cons (fun c h ts ht => by rw [show fixedTextsOf _ _ = some FC3_ZeroMbr.texts from by decide +kernel] at ht; cases h; cases ht; exact writes_FC3_ZeroMbr)
    (all_cons (fun c h ts ht => by rw [show fixedTextsOf _ _ = some FC3_ZeroMbr.texts from by decide +kernel] at ht; cases h; cases ht; exact writes_FC3_ZeroMbr)
    (all_cons (fun c h ts ht => by rw [show fixedTextsOf _ _ = some FC3_ZeroMbr.texts from by decide +kernel] at ht; cases h; cases ht; exact writes_F9_ZeroMbr)
    (all_cons (fun c h ts ht => by rw [show fixedTextsOf _ _ = some FC3_ZeroMbr.texts from by decide +kernel] at ht; cases h; cases ht; exact writes_F9_ZeroMbr)
    (all_cons (fun c h ts ht => by rw [show fixedTextsOf _ _ = some FC3_ZeroMbr.texts from by decide +kernel] at ht; cases h; cases ht; exact writes_F9_ZeroMbr) (List.forall_mem_nil _)))))))))))))))))))))))))))))))))))))))

theorem writes_all : ∀ n ∈ [c!"autostep", c!"cdrom", c!"cmdline", c!"graphical", c!"text", c!"eula", c!"firstboot", c!"hmc", c!"interactive", c!"lilocheck", c!"mediacheck", c!"reboot", c!"halt", c!"poweroff", c!"shutdown", c!"skipx", c!"unsupported_hardware", c!"install", c!"upgrade", c!"zerombr"], ∀ y ∈ commandMaps, ∀ c, y.2.lookup n = some c → ∀ ts, fixedTextsOf y.1 n = some ts → c.WritesAmong ts :=
  all_cons writes_autostep (all_cons writes_cdrom (all_cons writes_cmdline (all_cons writes_graphical (all_cons writes_text (all_cons writes_eula (all_cons writes_firstboot (all_cons writes_hmc (all_cons writes_interactive (all_cons writes_lilocheck (all_cons writes_mediacheck (all_cons writes_reboot (all_cons writes_halt (all_cons writes_poweroff (all_cons writes_shutdown (all_cons writes_skipx (all_cons writes_unsupported_hardware (all_cons writes_install (all_cons writes_upgrade (all_cons writes_zerombr ((List.forall_mem_nil _)))))))))))))))))))))

end Ks.Cmd
